/-
C137: what is loaded from an event file whose conversion was interrupted.
-/
import Verif.Convert.Cut
import Verif.Convert.Props4
import Verif.Convert.Props5
import Verif.Convert.ScriptProps

set_option linter.unusedSectionVars false

namespace Kam.Convert.Spec

/-- What is left of a list of ratings: the ratings before some place, perhaps with the next one, whose time may be another. -/
inductive Cut (rs : List Rating) : List Rating → Prop
  | between (n : Nat) : Cut rs (rs.take n)
  | inside {n : Nat} {r : Rating} (t : Int) : rs[n]? = some r → Cut rs (rs.take n ++ [{ r with time := t }])

/-- What is left of a list of scores: the scores before some place, perhaps with one score more, which may be another. -/
inductive CutScores {S : Type} (ss : List S) : Nat → List S → Prop
  | between (n : Nat) : n ≤ ss.length → CutScores ss n (ss.take n)
  | inside {n : Nat} (s : S) : n < ss.length → CutScores ss (n + 1) (ss.take n ++ [s])

end Kam.Convert.Spec

namespace Kam.Convert
open Convert.Spec Kam.Spec Shell

variable {K φ ε : Type} [Field K] [LinearOrder K] [IsStrictOrderedRing K] [FloorRing K]

lemma ints_no_blank (ns : List Int) : ' ' ∉ join '\t' (ns.map showInt) := by
  intro h
  rcases mem_join h with h | ⟨f, hf, hx⟩
  · exact absurd h (by decide)
  · obtain ⟨n, _, rfl⟩ := List.mem_map.1 hf
    exact showInt_no (by decide) (by decide) hx

lemma convert_int (nan : K) (s : Str) : convert nan .int s = .int ((intOf s).getD (-1)) := rfl

lemma convert_float (nan : K) (s : Str) : convert nan .float s = .num ((floatOf s).getD nan) := rfl

lemma take_min_length {β : Type} (n : Nat) (l : List β) : l.take (min n l.length) = l.take n := by
  rw [List.take_eq_take_iff]; omega

/-- The row of a rating. -/
def ratingRow (r : Rating) : List Str := [r.user, r.item, r.score, r.time].map showInt

lemma ratings_text {rs : List Rating} {text : Str} (ht : Text (rs.map Rating.line) text) :
    convMl100kEvent text = head ml100kHeadEvent ++ (rs.map ratingRow).flatMap printTab := by
  unfold convMl100kEvent
  rw [conv_flat ht]
  · intro r _
    refine plain_join (by decide) ?_
    intro f hf
    obtain ⟨n, rfl⟩ := rating_fields r f hf
    exact (clean_showInt n).plain
  · intro r _ line hl
    unfold ml100kEventLine
    rw [hl, Rating.line, split_join (by simp)]
    · rfl
    · intro f hf
      obtain ⟨n, rfl⟩ := rating_fields r f hf
      exact showInt_no (by decide) (by decide)

lemma ratings_text1m {rs : List Rating} {text : Str} (ht : Text (rs.map Rating.line1m) text) :
    convMl1mEvent text = head ml1mHeadEvent ++ (rs.map ratingRow).flatMap printTab := by
  unfold convMl1mEvent
  rw [conv_flat ht]
  · intro r _
    refine plain_colons ?_
    intro f hf
    obtain ⟨n, rfl⟩ := rating_fields r f hf
    exact (clean_showInt n).plain
  · intro r _ line hl
    unfold ml1mEventLine
    rw [hl, Rating.line1m, splitColons_join (by simp)]
    · rfl
    · intro f hf
      obtain ⟨n, rfl⟩ := rating_fields r f hf
      exact colonField_of (showInt_no (by decide) (by decide))

/-- The records of the ratings. -/
lemma genfromtxt_ratings (nan : K) (times : Bool) {rs : List Rating} {text : Str} (h : File text (rs.map ratingRow)) :
    genfromtxt nan ([.int, .int] ++ .float :: (if times then some timestamp else none).getD []) text =
      .ok (recs (rs.map (fun r => (r.entry times).cells))) := by
  obtain ⟨ls, h1, h2, h3⟩ := h
  refine genfromtxt_ok nan h1 h2 h3 (w := 4) ?_
  rw [List.forall₂_map_left_iff, List.forall₂_map_right_iff, List.forall₂_same]
  intro r _
  have := rating_written (K := K) times r
  refine ⟨this.1, ?_⟩
  cases times <;> exact this.2.2

/-- What the loaders of MovieLens make of an event file that was not written to its end. -/
lemma ratings_cut (nan : K) (times : Bool) {hd : List String} (hh : Headed hd) {rs : List Rating} {u : Str}
    (hu : u <+: head hd ++ (rs.map ratingRow).flatMap printTab) {dom : Option (List K)} :
    (∃ e, (loadEventWithScore nan u 2 (.arr 1 [0, 1]) dom (if times then some timestamp else none) :
        Res (ScoreData K Int φ (List (Cell K)))) = .error e) ∨
      ∃ rs', Cut rs rs' ∧ ∀ text, File text (rs'.map ratingRow) →
        genfromtxt nan ([.int, .int] ++ .float :: (if times then some timestamp else none).getD []) u =
          genfromtxt nan ([.int, .int] ++ .float :: (if times then some timestamp else none).getD []) text := by
  have ht : ∀ r ∈ rs.map ratingRow, Tidy r := by
    intro r hr
    obtain ⟨r, _, rfl⟩ := List.mem_map.1 hr
    exact tidy_ints (by simp)
  have hb : ∀ r ∈ rs.map ratingRow, ' ' ∉ join '\t' r := by
    intro r hr
    obtain ⟨r, _, rfl⟩ := List.mem_map.1 hr
    exact ints_no_blank _
  have hw : ∀ n, ∀ r ∈ (rs.map ratingRow).take n, r.length = 4 := by
    intro n r hr
    obtain ⟨r, _, rfl⟩ := List.mem_map.1 (List.mem_of_mem_take hr)
    rfl
  obtain ⟨n, h | ⟨row, j, q, f, h1, h2, h3, h4⟩⟩ := file_cut hh ht hb hu
  · refine .inr ⟨rs.take n, .between n, fun text htext => ?_⟩
    rw [← List.map_take] at h
    rw [genfromtxt_ratings nan times h, genfromtxt_ratings nan times htext]
  · obtain ⟨r, hr, rfl⟩ : ∃ r, rs[n]? = some r ∧ ratingRow r = row := by
      rw [List.getElem?_map] at h1
      exact Option.map_eq_some_iff.1 h1
    have hj : j < 4 := (List.getElem?_eq_some_iff.1 h2).1
    by_cases h3j : j = 3
    · subst h3j
      refine .inr ⟨_, .inside ((intOf q).getD (-1)) hr, fun text htext => ?_⟩
      rw [genfromtxt_ratings nan times htext]
      rw [genfromtxt_cells nan h4 (w := 4) (by
        intro x hx
        rcases List.mem_append.1 hx with hx | hx
        · exact hw n x hx
        · rw [List.mem_singleton.1 hx]; rfl) (by cases times <;> decide)]
      congr 2
      rw [List.map_append, List.map_append, ← List.map_take, List.map_map]
      congr 1
      · refine List.map_congr_left (fun x _ => ?_)
        have := rating_written (K := K) times x
        have hz := this.2.2.zipWith nan
        cases times <;> exact hz
      · have hz := (rating_written (K := K) false r).2.2.zipWith nan
        have hc : List.zipWith (convert nan) [.int, .int, .float] [showInt r.user, showInt r.item, showInt r.score] =
            [.int r.user, .int r.item, .num ((r.score : K))] := hz
        simp only [List.zipWith_cons_cons, List.zipWith_nil_left, List.cons.injEq, and_true] at hc
        obtain ⟨c1, c2, c3⟩ := hc
        cases times
        · simp [ratingRow, Rating.entry, Entry.cells, c1, c2, c3]
        · simp [ratingRow, Rating.entry, Entry.cells, timestamp, c1, c2, c3, convert_int]
    · have hlen : ((ratingRow r).take j ++ [q]).length < 4 := by
        simp only [List.length_append, List.length_take, List.length_singleton]
        omega
      rcases genfromtxt_short nan (types := [.int, .int] ++ .float :: (if times then some timestamp else none).getD []) h4 (hw n) hlen with h | ⟨_, c, h⟩
      · exact .inl ⟨_, loadScore_error nan h⟩
      · exact .inl ⟨_, loadScore_one nan h⟩

/-- Texts of ratings. -/
lemma text_lines (ls : List Str) : Text ls (ls.flatMap (fun l => l ++ ['\n'])) := by
  induction ls with
  | nil => exact .nil
  | cons l ls ih => simpa using Text.lf (l := l) ih

/-- C137: if the event file of MovieLens 100k was not written to its end, then loading the data set raises, or gives what it
gives for the file of the ratings that come first, where at most the time of the last one is another. -/
theorem C137_movielens100k (nan : K) {rs : List Rating} {text u : Str} (ht : Text (rs.map Rating.line) text)
    (hu : u <+: convMl100kEvent text) (user item : Str) (times : Bool) :
    (∃ e, loadMovielens100k nan u user item (if times then some timestamp else none) = .error e) ∨
      ∃ rs' text', Cut rs rs' ∧ Text (rs'.map Rating.line) text' ∧
        loadMovielens100k nan u user item (if times then some timestamp else none) =
          loadMovielens100k nan (convMl100kEvent text') user item (if times then some timestamp else none) := by
  rw [ratings_text ht] at hu
  rcases ratings_cut (φ := List (Cell K)) nan times headed_ml100kEvent hu (dom := some [1, 5, 1]) with ⟨e, he⟩ | ⟨rs', h1, h2⟩
  · refine .inl ⟨e, ?_⟩
    unfold loadMovielens100k
    rw [he]; rfl
  · refine .inr ⟨rs', _, h1, text_lines _, ?_⟩
    unfold loadMovielens100k
    rw [loadScore_congr nan (h2 _ (ratings_file (text_lines _)))]

/-- C137 for MovieLens 1m. -/
theorem C137_movielens1m (nan : K) {rs : List Rating} {text u : Str} (ht : Text (rs.map Rating.line1m) text)
    (hu : u <+: convMl1mEvent text) (user item : Str) (times : Bool) :
    (∃ e, loadMovielens1m nan u user item (if times then some timestamp else none) = .error e) ∨
      ∃ rs' text', Cut rs rs' ∧ Text (rs'.map Rating.line1m) text' ∧
        loadMovielens1m nan u user item (if times then some timestamp else none) =
          loadMovielens1m nan (convMl1mEvent text') user item (if times then some timestamp else none) := by
  rw [ratings_text1m ht] at hu
  rcases ratings_cut (φ := List (Cell K)) nan times headed_ml1mEvent hu (dom := some [1, 5, 1]) with ⟨e, he⟩ | ⟨rs', h1, h2⟩
  · refine .inl ⟨e, ?_⟩
    unfold loadMovielens1m
    rw [he]; rfl
  · refine .inr ⟨rs', _, h1, text_lines _, ?_⟩
    unfold loadMovielens1m
    rw [loadScore_congr nan (h2 _ (ratings1m_file (text_lines _)))]

/-! ### Files whose last column is the score -/

/-- What is loaded from a cut file of users, items and scores. -/
lemma scored_cut (nan : K) {X : Type} {hd : List String} (hh : Headed hd) {xs : List X} {a b : X → Int} {s : X → Str} {v : X → K}
    (hs : ∀ x ∈ xs, Clean (s x) ∧ ' ' ∉ s x ∧ Shows .float (s x) (.num (v x))) {u : Str}
    (hu : u <+: head hd ++ (xs.map (fun x => [showInt (a x), showInt (b x), s x])).flatMap printTab) {l h st : K} (hst : st ≠ 0) :
    (∃ e, (loadEventWithScore nan u 2 (.arr 1 [0, 1]) (some [l, h, st]) none : Res (ScoreData K Int φ (List (Cell K)))) = .error e) ∨
      ∃ (d : ScoreData K Int φ (List (Cell K))) (n : Nat) (ss : List K),
        loadEventWithScore nan u 2 (.arr 1 [0, 1]) (some [l, h, st]) none = .ok d ∧
        ScoreBuilt d ((xs.take n).map (fun x => [a x, b x])) ss ∧ CutScores (xs.map v) n ss := by
  have ht : ∀ r ∈ xs.map (fun x => [showInt (a x), showInt (b x), s x]), Tidy r := by
    intro r hr
    obtain ⟨x, hx, rfl⟩ := List.mem_map.1 hr
    refine tidy_open (f := showInt (a x)) (g := s x) (gs := [showInt (a x), showInt (b x)]) rfl rfl (by simp) ?_
      (showInt_ne_nil _) (showInt_head _) (fun h => (hs x hx).2.1 (List.mem_of_getLast? h))
    intro f hf
    simp only [List.mem_cons, List.not_mem_nil, or_false] at hf
    rcases hf with rfl | rfl | rfl
    · exact clean_showInt _
    · exact clean_showInt _
    · exact (hs x hx).1
  have hb : ∀ r ∈ xs.map (fun x => [showInt (a x), showInt (b x), s x]), ' ' ∉ join '\t' r := by
    intro r hr
    obtain ⟨x, hx, rfl⟩ := List.mem_map.1 hr
    intro h
    rcases mem_join h with h | ⟨f, hf, hm⟩
    · exact absurd h (by decide)
    · simp only [List.mem_cons, List.not_mem_nil, or_false] at hf
      rcases hf with rfl | rfl | rfl
      · exact showInt_no (by decide) (by decide) hm
      · exact showInt_no (by decide) (by decide) hm
      · exact (hs x hx).2.1 hm
  have hw : ∀ n, ∀ r ∈ (xs.map (fun x => [showInt (a x), showInt (b x), s x])).take n, r.length = 3 := by
    intro n r hr
    obtain ⟨r, _, rfl⟩ := List.mem_map.1 (List.mem_of_mem_take hr)
    rfl
  obtain ⟨lv, hlv⟩ := levels_ok l h hst
  have hcell : ∀ x ∈ xs, List.zipWith (convert nan) [.int, .int, .float] [showInt (a x), showInt (b x), s x] =
      Entry.cells (⟨[a x, b x], v x, []⟩ : Entry K) := by
    intro x hx
    have : Written (K := K) [.int, .int, .float] [showInt (a x), showInt (b x), s x] (Entry.cells ⟨[a x, b x], v x, []⟩) :=
      .cons (.int _) (.cons (.int _) (.cons (hs x hx).2.2 (.nil [])))
    exact this.zipWith nan
  have key : ∀ (es : List (Entry K)), (∀ e ∈ es, e.ids.length = 2) →
      genfromtxt nan ([.int, .int] ++ .float :: (none : Option (List FType)).getD []) u = .ok (recs (es.map Entry.cells)) →
      (∃ e, (loadEventWithScore nan u 2 (.arr 1 [0, 1]) (some [l, h, st]) none : Res (ScoreData K Int φ (List (Cell K)))) = .error e) ∨
      ∃ d : ScoreData K Int φ (List (Cell K)),
        loadEventWithScore nan u 2 (.arr 1 [0, 1]) (some [l, h, st]) none = .ok d ∧
        ScoreBuilt d (es.map Entry.ids) (es.map Entry.score) := by
    intro es hids hx
    by_cases h1 : es.length = 1
    · obtain ⟨e, rfl⟩ := List.length_eq_one_iff.1 h1
      exact .inl ⟨_, loadScore_one nan hx⟩
    · obtain ⟨d, k1, k2, _⟩ := loadScore_ok (φ := φ) nan (n := 2) (arg := .arr 1 [0, 1]) (dom := some [l, h, st]) (ft := none) (es := es)
        rfl (show (2 : Nat) ≠ 1 by decide) hx hids h1 rfl hlv
      exact .inr ⟨d, k1, k2⟩
  obtain ⟨n, hf | ⟨row, j, q, f, h1, h2, h3, h4⟩⟩ := file_cut hh ht hb hu
  · have hx := genfromtxt_cells nan (types := [.int, .int, .float]) hf (hw n) (by decide)
    rw [← List.map_take, List.map_map] at hx
    rcases key ((xs.take n).map (fun x => ⟨[a x, b x], v x, []⟩)) (by
      intro e he
      obtain ⟨x, _, rfl⟩ := List.mem_map.1 he
      rfl) (by
      rw [List.map_map]
      refine hx.trans ?_
      congr 2
      exact List.map_congr_left (fun x hx => hcell x (List.mem_of_mem_take hx))) with h | ⟨d, k1, k2⟩
    · exact .inl h
    · refine .inr ⟨d, min n xs.length, ((xs.take n).map (fun x => (⟨[a x, b x], v x, []⟩ : Entry K))).map Entry.score, k1, ?_, ?_⟩
      · have e : (xs.take (min n xs.length)).map (fun x => [a x, b x]) =
            ((xs.take n).map (fun x => (⟨[a x, b x], v x, []⟩ : Entry K))).map Entry.ids := by
          rw [take_min_length, List.map_map]
          rfl
        rw [e]
        exact k2
      · have e : ((xs.take n).map (fun x => (⟨[a x, b x], v x, []⟩ : Entry K))).map Entry.score = (xs.map v).take (min n xs.length) := by
          rw [List.map_map, ← List.map_take, take_min_length]
          rfl
        rw [e]
        exact .between _ (by simp)
  · obtain ⟨x, hx, rfl⟩ : ∃ x, xs[n]? = some x ∧ [showInt (a x), showInt (b x), s x] = row := by
      rw [List.getElem?_map] at h1
      exact Option.map_eq_some_iff.1 h1
    have hn : n < xs.length := (List.getElem?_eq_some_iff.1 hx).1
    have hj : j < 3 := (List.getElem?_eq_some_iff.1 h2).1
    by_cases h2j : j = 2
    · subst h2j
      have hg := genfromtxt_cells nan (types := [.int, .int, .float]) h4 (w := 3) (by
        intro y hy
        rcases List.mem_append.1 hy with hy | hy
        · exact hw n y hy
        · rw [List.mem_singleton.1 hy]; rfl) (by decide)
      rcases key ((xs.take n).map (fun x => ⟨[a x, b x], v x, []⟩) ++ [⟨[a x, b x], (floatOf q).getD nan, []⟩]) (by
        intro e he
        rcases List.mem_append.1 he with he | he
        · obtain ⟨x, _, rfl⟩ := List.mem_map.1 he
          rfl
        · rw [List.mem_singleton.1 he]; rfl) (by
        refine hg.trans ?_
        congr 2
        rw [List.map_append, List.map_append, ← List.map_take, List.map_map, List.map_map]
        congr 1
        · exact List.map_congr_left (fun x hx => hcell x (List.mem_of_mem_take hx))
        · have hc := hcell x (List.mem_of_getElem? hx)
          simp only [List.zipWith_cons_cons, List.zipWith_nil_left, Entry.cells, List.map_cons, List.map_nil, List.cons_append,
            List.nil_append, List.cons.injEq, and_true] at hc
          simp [Entry.cells, hc.1, hc.2.1, convert_float]) with h | ⟨d, k1, k2⟩
      · exact .inl h
      · refine .inr ⟨d, n + 1, ((xs.take n).map (fun x => (⟨[a x, b x], v x, []⟩ : Entry K)) ++
          [(⟨[a x, b x], (floatOf q).getD nan, []⟩ : Entry K)]).map Entry.score, k1, ?_, ?_⟩
        · have e : (xs.take (n + 1)).map (fun x => [a x, b x]) =
              ((xs.take n).map (fun x => (⟨[a x, b x], v x, []⟩ : Entry K)) ++ [(⟨[a x, b x], (floatOf q).getD nan, []⟩ : Entry K)]).map Entry.ids := by
            rw [List.take_add_one, hx, List.map_append, List.map_append, List.map_map]
            rfl
          rw [e]
          exact k2
        · have e : ((xs.take n).map (fun x => (⟨[a x, b x], v x, []⟩ : Entry K)) ++ [(⟨[a x, b x], (floatOf q).getD nan, []⟩ : Entry K)]).map Entry.score =
              (xs.map v).take n ++ [(floatOf q).getD nan] := by
            rw [List.map_append, List.map_map, ← List.map_take]
            rfl
          rw [e]
          exact .inside _ (by simpa using hn)
    · have hlen : (([showInt (a x), showInt (b x), s x] : List Str).take j ++ [q]).length < 3 := by
        simp only [List.length_append, List.length_take, List.length_singleton]
        omega
      rcases genfromtxt_short nan (types := [.int, .int] ++ .float :: (none : Option (List FType)).getD []) h4 (hw n) hlen with h | ⟨_, c, h⟩
      · exact .inl ⟨_, loadScore_error nan h⟩
      · exact .inl ⟨_, loadScore_one nan h⟩

/-- C137 for Flixster: the users and items are those of the ratings that come first, and so are the scores but the last one. -/
theorem C137_flixster (nan : K) {rs : List DecRating} (hok : ∀ r ∈ rs, r.Ok) {text out u : Str}
    (ht : Text (rs.map DecRating.line) text) (ho : convFlixster text = .ok out) (hu : u <+: out) :
    (∃ e, (loadFlixster nan u none : Res (ScoreData K Int φ (List (Cell K)))) = .error e) ∨
      ∃ (d : ScoreData K Int φ (List (Cell K))) (n : Nat) (ss : List K), loadFlixster nan u none = .ok d ∧
        Reads d.toEventData ((rs.take n).map (fun r => [r.user, r.item])) ∧ d.score = some ss ∧
        CutScores (rs.map (fun r => (r.m : K) / 10 ^ r.k)) n ss := by
  have hout : out = head flixsterHeadEvent ++ (rs.map decRow).flatMap printTab := by
    have : (readlines text).mapM flixsterLine = .ok ((rs.map decRow).map printTab) := by
      refine conv_rows ht (fun r hr => plain_join (by decide) (fun f hf => (dec_fields (hok r hr) f hf).2)) ?_
      intro r hr line hl
      unfold flixsterLine
      rw [hl, DecRating.line, split_join (by simp) (fun f hf => (dec_fields (hok r hr) f hf).1)]
      rfl
    unfold convFlixster at ho
    rw [this, ok_bind, ← List.flatMap_def] at ho
    exact (Except.ok.inj ho).symm
  rw [hout] at hu
  rcases scored_cut (φ := φ) nan headed_flixster (xs := rs) (a := DecRating.user) (b := DecRating.item) (s := fun r => showDec r.m r.k)
    (v := fun r => (r.m : K) / 10 ^ r.k)
    (fun r _ => ⟨clean_showDec _ _, showDec_no (by decide) (by decide) (by decide), .num _ _⟩) hu (l := 1 / 2) (h := 5) (st := 1 / 2)
    (by norm_num) with h | ⟨d, n, ss, k1, k2, k3⟩
  · exact .inl h
  · exact .inr ⟨d, n, ss, k1, reads_built k2.inv.1, k2.inv.2.1, k3⟩

lemma loadFeature_built {nan : K} {text : Str} {types : List FType} {d d' : ScoreData K Int (List (Cell K)) ε} {t : Nat}
    {rows : List (List Int)} {sc : List K} (hd : ScoreBuilt d rows sc) (h : loadFeature nan text types d t = .ok d') :
    ScoreBuilt d' rows sc := by
  unfold loadFeature at h
  cases hx : genfromtxt nan (.int :: types) text with
  | error e => rw [hx] at h; cases h
  | ok x =>
    rw [hx, ok_bind] at h
    cases x with
    | one r => cases h
    | many rs => exact .setFeature hd h

/-- C137 for the scores of sushi. -/
theorem C137_sushi3 (nan : K) {m : List (List Int)} {text out u : Str} (hne : ∀ row ∈ m, row ≠ [])
    (ht : Text (m.map (fun row => join ' ' (row.map showInt))) text) (ho : convSushiEvent text = .ok out) (hu : u <+: out)
    (user item : Str) :
    (∃ e, loadSushi3bScore nan u user item none = .error e) ∨
      ∃ (es : List (Nat × Nat × Int)) (d : ScoreData K Int (List (Cell K)) (List (Cell K))) (n : Nat) (ss : List K),
        (∀ u i r, (u, i, r) ∈ es ↔ (∃ row, m[u]? = some row ∧ row[i]? = some r) ∧ 0 ≤ r) ∧
        es.Pairwise (fun a b => a.1 < b.1 ∨ (a.1 = b.1 ∧ a.2.1 < b.2.1)) ∧
        loadSushi3bScore nan u user item none = .ok d ∧
        Reads d.toEventData ((es.take n).map (fun e => [(e.1 : Int), (e.2.1 : Int)])) ∧ d.score = some ss ∧
        CutScores (es.map (fun e => (e.2.2 : K))) n ss := by
  have hout := convSushi_ok hne ht
  rw [ho] at hout
  rw [Except.ok.inj hout] at hu
  have := scored_cut (φ := List (Cell K)) nan headed_sushiEvent (xs := entries m) (a := fun e => (e.1 : Int)) (b := fun e => (e.2.1 : Int))
    (s := fun e => showInt e.2.2) (v := fun e => (e.2.2 : K))
    (fun e _ => ⟨clean_showInt _, showInt_no (by decide) (by decide), shows_num_int _⟩) (u := u) hu (l := 0) (h := 4) (st := 1) (by norm_num)
  rcases this with ⟨e, he⟩ | ⟨d, n, ss, k1, k2, k4⟩
  · refine .inl ⟨e, ?_⟩
    unfold loadSushi3bScore
    rw [he]; rfl
  · unfold loadSushi3bScore
    rw [k1, ok_bind]
    cases h1 : loadFeature nan user sushiUser d 0 with
    | error e => exact .inl ⟨e, rfl⟩
    | ok d1 =>
      cases h2 : loadFeature nan item sushiItem d1 1 with
      | error e => exact .inl ⟨e, by rw [ok_bind, h2]⟩
      | ok d2 =>
        refine .inr ⟨entries m, d2, n, ss, fun u i r => mem_entries, entries_sorted m, by rw [ok_bind, h2], ?_, ?_, k4⟩
        · exact reads_built (loadFeature_built (loadFeature_built k2 h1) h2).inv.1
        · exact (loadFeature_built (loadFeature_built k2 h1) h2).inv.2.1

/-! ### Interrupted runs -/

/-- C137: whenever the conversion of MovieLens 100k is stopped, the event file is as before, or loading the data set raises, or
gives what it gives for the ratings that come first, where at most the time of the last one is another. -/
theorem C137_stopped (nan : K) {flush : Str → List Str} (hfl : ∀ t, ∀ c ∈ flush t, c <+: t) (pwd : Str) (argv : List Str)
    (hh : NoHelp argv) (w : Files Str Str) (hw : ∀ s ∈ Converter.movielens100k.plan pwd argv, Converts w s) {rs : List Rating}
    {text : Str} (hin : w (Spec.inside pwd "u.data") = some text) (ht : Text (rs.map Rating.line) text) (n : Nat) :
    (steps (Converter.movielens100k.prog flush pwd argv) w n).2 (Spec.inside (Spec.whereTo pwd argv) "movielens100k.event") =
        w (Spec.inside (Spec.whereTo pwd argv) "movielens100k.event") ∨
      ∃ u, (steps (Converter.movielens100k.prog flush pwd argv) w n).2 (Spec.inside (Spec.whereTo pwd argv) "movielens100k.event") = some u ∧
        ∀ (user item : Str) (times : Bool),
          (∃ e, loadMovielens100k nan u user item (if times then some timestamp else none) = .error e) ∨
          ∃ rs' text', Cut rs rs' ∧ Text (rs'.map Rating.line) text' ∧
            loadMovielens100k nan u user item (if times then some timestamp else none) =
              loadMovielens100k nan (convMl100kEvent text') user item (if times then some timestamp else none) := by
  rcases (C136_stopped hfl .movielens100k pwd argv w n).1 (Spec.inside (Spec.whereTo pwd argv) "movielens100k.event") with h | ⟨_, u, t, h1, h2, h3⟩
  · exact .inl h
  · refine .inr ⟨u, h1, fun user item times => C137_movielens100k nan ht ?_ user item times⟩
    obtain ⟨_, k2, _⟩ := C136_converted flush .movielens100k pwd argv hh w hw
    obtain ⟨text', e1, t', e2, e3⟩ := k2 ⟨Spec.inside pwd "u.data", Spec.inside (Spec.whereTo pwd argv) "movielens100k.event",
      fun t => .ok (convMl100kEvent t)⟩ (by simp [Converter.plan, Spec.plan])
    rw [hin] at e1
    cases e1
    rw [h2] at e3
    cases e3
    rw [← Except.ok.inj e2] at h3
    exact h3

/-! ### Examples -/

lemma flatMap_take_prefix {β γ : Type} (f : β → List γ) (l : List β) (n : Nat) : (l.take n).flatMap f <+: l.flatMap f := by
  conv_rhs => rw [← List.take_append_drop n l]
  rw [List.flatMap_append]
  exact List.prefix_append _ _

/-- An interrupted conversion is not noticed: a file with two of three ratings is loaded like a complete one. -/
theorem C137_refuted : ¬ ∀ (rs : List Rating) (text u user item : Str), Text (rs.map Rating.line) text →
    u <+: convMl100kEvent text → u ≠ convMl100kEvent text →
    ∃ e, loadMovielens100k (0 : ℚ) u user item none = .error e := by
  intro h
  have ht : Text ((exRatings.take 2).map Rating.line) "7\t3\t5\t881250949\n12\t3\t2\t1\n".toList := by
    have : (exRatings.take 2).map Rating.line = ["7\t3\t5\t881250949".toList, "12\t3\t2\t1".toList] := by decide
    rw [this]
    exact .lf (.lf .nil)
  obtain ⟨user, item, _, _, h3, _⟩ := C75_movielens100k_partial (0 : ℚ) false exPersons_ok exMovies_ok ht exPersons_text
    exMovies_text (by decide) (by decide) (by decide) (by decide) (by decide)
  obtain ⟨d, h4, _⟩ := h3 (by decide)
  obtain ⟨e, he⟩ := h exRatings _ (convMl100kEvent "7\t3\t5\t881250949\n12\t3\t2\t1\n".toList) user item exRatings_text
    (by
      rw [ratings_text ht, ratings_text exRatings_text, List.prefix_append_right_inj, List.map_take]
      exact flatMap_take_prefix _ _ _)
    (by
      rw [ratings_text ht, ratings_text exRatings_text]
      intro e
      have := List.append_cancel_left e
      revert this
      decide)
  rw [show (if false = true then some timestamp else none) = none from rfl, he] at h4
  cases h4

/-- Two ratings of Flixster. -/
def exDecs : List DecRating := [⟨5, 1, 15, 1, []⟩, ⟨5, 2, 25, 1, []⟩]

lemma exDecs_ok : ∀ r ∈ exDecs, r.Ok := by
  intro r hr
  simp only [exDecs, List.mem_cons, List.not_mem_nil, or_false] at hr
  rcases hr with rfl | rfl <;> unfold DecRating.Ok Plain <;> decide

lemma exDecs_text : Text (exDecs.map DecRating.line) "5\t1\t1.5\n5\t2\t2.5\n".toList := by
  have : exDecs.map DecRating.line = ["5\t1\t1.5".toList, "5\t2\t2.5".toList] := by decide
  rw [this]
  exact .lf (.lf .nil)

/-- The last score of an interrupted conversion of Flixster may be wrong: the score 2.5 is loaded as 2. -/
theorem C137_wrong_score : ∃ out u, convFlixster "5\t1\t1.5\n5\t2\t2.5\n".toList = .ok out ∧ u <+: out ∧
    ∃ d : ScoreData ℚ Int Unit (List (Cell ℚ)), loadFlixster 0 u none = .ok d ∧
      Reads d.toEventData [[5, 1], [5, 2]] ∧ d.score = some [3 / 2, 2] := by
  refine ⟨head flixsterHeadEvent ++ "5\t1\t1.5\n5\t2\t2.5\n".toList, head flixsterHeadEvent ++ "5\t1\t1.5\n5\t2\t2".toList, ?_, ?_, ?_⟩
  · unfold convFlixster
    have : (readlines "5\t1\t1.5\n5\t2\t2.5\n".toList).mapM flixsterLine = .ok ["5\t1\t1.5\n".toList, "5\t2\t2.5\n".toList] := by
      decide +kernel
    rw [this]
    rfl
  · rw [List.prefix_append_right_inj]
    exact ⟨".5\n".toList, by decide⟩
  · have hf : File (head flixsterHeadEvent ++ "5\t1\t1.5\n5\t2\t2".toList) [["5", "1", "1.5"].map String.toList, ["5", "2", "2"].map String.toList] := by
      refine file_head headed_flixster ⟨["5\t1\t1.5".toList, "5\t2\t2".toList], .lf (.last (by decide)), by unfold Plain; decide, ?_⟩
      refine rows_row ⟨by unfold Clean; decide, by decide, by decide, by decide⟩ (by decide)
        (rows_row ⟨by unfold Clean; decide, by decide, by decide, by decide⟩ (by decide) .nil)
    obtain ⟨ls, e2, e3, e4⟩ := hf
    obtain ⟨lv, hlv⟩ := levels_ok (1 / 2 : ℚ) 5 (c := 1 / 2) (by norm_num)
    obtain ⟨d, k1, k2, k3, _⟩ := C66_score_partial (φ := Unit) (0 : ℚ) (n := 2) (arg := .arr 1 [0, 1]) (ft := none) (w := 3)
      (es := [⟨[5, 1], 3 / 2, []⟩, ⟨[5, 2], 2, []⟩]) rfl (show (2 : Nat) ≠ 1 by decide) e2 e3 e4
      (.cons ⟨rfl, rfl, .cons (shows_int (by decide)) (.cons (shows_int (by decide)) (.cons (shows_num (m := 15) (k := 1) (by decide) (by norm_num)) (.nil [])))⟩
        (.cons ⟨rfl, rfl, .cons (shows_int (by decide)) (.cons (shows_int (by decide)) (.cons (shows_num (m := 2) (k := 0) (by decide) (by norm_num)) (.nil [])))⟩ .nil))
      (by decide) hlv
    exact ⟨d, k1, k2, k3⟩

/-- The hypotheses of `C137_movielens100k` for a file that ends inside a time. -/
example : (∃ e, loadMovielens100k (0 : ℚ) (head ml100kHeadEvent ++ "7\t3\t5\t881250949\n12\t3\t2\t1\n7\t-4\t1\t".toList) [] [] (some timestamp) = .error e) ∨
    ∃ rs' text', Cut exRatings rs' ∧ Text (rs'.map Rating.line) text' ∧
      loadMovielens100k (0 : ℚ) (head ml100kHeadEvent ++ "7\t3\t5\t881250949\n12\t3\t2\t1\n7\t-4\t1\t".toList) [] [] (some timestamp) =
        loadMovielens100k (0 : ℚ) (convMl100kEvent text') [] [] (some timestamp) :=
  C137_movielens100k (0 : ℚ) exRatings_text (by
    rw [ratings_text exRatings_text, List.prefix_append_right_inj]
    exact ⟨"0\n".toList, by decide⟩) [] [] true

/-- The hypotheses of `C137_movielens1m`. -/
example : ∃ (rs : List Rating) (text u : Str), rs ≠ [] ∧ Text (rs.map Rating.line1m) text ∧ u <+: convMl1mEvent text ∧ u ≠ convMl1mEvent text :=
  ⟨exRatings, _, head ml1mHeadEvent ++ "7\t3".toList, by decide, text_lines _, by
    rw [ratings_text1m (text_lines _), List.prefix_append_right_inj]
    exact ⟨"\t5\t881250949\n12\t3\t2\t1\n7\t-4\t1\t0\n".toList, by decide⟩, by
    rw [ratings_text1m (text_lines _)]
    intro e
    have := List.append_cancel_left e
    revert this
    decide⟩

/-- The hypotheses of `C137_sushi3`. -/
example : ∃ (m : List (List Int)) (text out u : Str), (∀ row ∈ m, row ≠ []) ∧ m.length = 2 ∧
    Text (m.map (fun row => join ' ' (row.map showInt))) text ∧ convSushiEvent text = .ok out ∧ u <+: out ∧ u ≠ out := by
  have ht := text_lines ([[-1, 3, 0], [4, -1, 2]].map (fun row : List Int => join ' ' (row.map showInt)))
  have ho := convSushi_ok (m := [[-1, 3, 0], [4, -1, 2]]) (by decide) ht
  refine ⟨[[-1, 3, 0], [4, -1, 2]], _, _, head sushiHeadEvent, by decide, rfl, ht, ho, List.prefix_append _ _, ?_⟩
  intro e
  have := congrArg List.length e
  rw [List.length_append] at this
  revert this
  decide +kernel

end Kam.Convert
