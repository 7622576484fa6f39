/-
C76, C78 and C79: the small MovieLens data set, Flixster and sushi3.
-/
import Verif.Convert.Props4

set_option linter.unusedSectionVars false

namespace Kam.Convert
open Convert.Spec Kam.Spec

variable {K φ ε : Type} [Field K] [LinearOrder K] [IsStrictOrderedRing K] [FloorRing K]

/-! ### C76 -/

/-- A rating as a line of an event file. -/
def Spec.Rating.mini (r : Rating) : MiniLine := .event r.user r.item [showInt r.score, showInt r.time]

lemma head_lines {hd : List String} (hh : Headed hd) :
    hd.map String.toList = (hd.map (fun l => MiniLine.comment l.toList.tail)).map MiniLine.text ∧
    ∀ l ∈ hd.map (fun l => MiniLine.comment l.toList.tail), l.Ok := by
  constructor
  · rw [List.map_map]
    apply List.map_congr_left
    intro l hl
    have h := (hh l hl).2
    show l.toList = '#' :: l.toList.tail
    cases hs : l.toList with
    | nil => rw [hs] at h; cases h
    | cons a s => rw [hs] at h; cases h; rfl
  · intro l hl
    obtain ⟨l', hl', rfl⟩ := List.mem_map.1 hl
    have h := (hh l' hl').1
    exact ⟨fun hm => h.1 (List.mem_of_mem_tail hm), fun hm => h.2 (List.mem_of_mem_tail hm)⟩

/-- The small event file holds the ratings of the users and items with ids up to 10. -/
lemma mini_file {rs : List Rating} {tr : Str} (hr : Text (rs.map Rating.line) tr) :
    ∃ out, convMini (convMl100kEvent tr) = .ok out ∧
      File out ((rs.filter (fun r => r.user ≤ 10 && r.item ≤ 10)).map
        (fun r => [showInt r.user, showInt r.item, showInt r.score, showInt r.time])) := by
  have hflat : convMl100kEvent tr = head ml100kHeadEvent ++
      (rs.map (fun r : Rating => [showInt r.user, showInt r.item, showInt r.score, showInt r.time])).flatMap printTab := by
    unfold convMl100kEvent
    rw [conv_flat (f := ml100kEventLine) hr]
    · intro r _
      refine plain_join (by decide) ?_
      intro f hf
      obtain ⟨n, rfl⟩ := rating_fields r f hf
      exact (clean_showInt n).plain
    · intro r _ line hl
      unfold ml100kEventLine
      rw [hl, Rating.line, split_join (by simp)]
      intro f hf
      obtain ⟨n, rfl⟩ := rating_fields r f hf
      exact showInt_no (by decide) (by decide)
  have ht := text_head ml100kHeadEvent (text_printTab (rs.map (fun r : Rating => [showInt r.user, showInt r.item, showInt r.score, showInt r.time])))
  rw [← hflat] at ht
  obtain ⟨h1, h2⟩ := head_lines headed_ml100kEvent
  have h3 : (rs.map (fun r : Rating => [showInt r.user, showInt r.item, showInt r.score, showInt r.time])).map (join '\t') =
      (rs.map Rating.mini).map MiniLine.text := by
    rw [List.map_map, List.map_map]; rfl
  rw [h1, h3, ← List.map_append] at ht
  obtain ⟨out, k1, k2, k3⟩ := C68_mini (by
    intro l hl
    rcases List.mem_append.1 hl with hl | hl
    · exact h2 l hl
    · obtain ⟨r, _, rfl⟩ := List.mem_map.1 hl
      intro f hf
      simp only [List.mem_cons, List.not_mem_nil, or_false] at hf
      rcases hf with rfl | rfl
      · exact ⟨(clean_showInt _).1, (clean_showInt _).plain⟩
      · exact ⟨(clean_showInt _).1, (clean_showInt _).plain⟩) ht
  refine ⟨_, k1, file_head k3 ⟨_, k2, ?_, ?_⟩⟩
  all_goals
    have hfilter : ((ml100kHeadEvent.map (fun l => MiniLine.comment l.toList.tail) ++ rs.map Rating.mini).filter MiniLine.kept).map MiniLine.text =
        ((rs.filter (fun r => r.user ≤ 10 && r.item ≤ 10)).map
          (fun r : Rating => [showInt r.user, showInt r.item, showInt r.score, showInt r.time])).map (join '\t') := by
      rw [List.filter_append]
      have e1 : (ml100kHeadEvent.map (fun l => MiniLine.comment l.toList.tail)).filter MiniLine.kept = [] := by
        rw [List.filter_eq_nil_iff]
        intro l hl
        obtain ⟨l', _, rfl⟩ := List.mem_map.1 hl
        simp [MiniLine.kept]
      rw [e1, List.nil_append, List.filter_map, List.map_map, List.map_map]
      rfl
    rw [hfilter]
  · intro l hl
    obtain ⟨row, hrow, rfl⟩ := List.mem_map.1 hl
    obtain ⟨r, _, rfl⟩ := List.mem_map.1 hrow
    exact (tidy_ints (ns := [r.user, r.item, r.score, r.time]) (by simp)).plain
  · refine rows_printTab ?_
    intro row hrow
    obtain ⟨r, _, rfl⟩ := List.mem_map.1 hrow
    exact tidy_ints (ns := [r.user, r.item, r.score, r.time]) (by simp)

/-- C76: what `load_movielens_mini` loads is the sub-data-set of MovieLens 100k of the ratings whose user and item ids
are at most 10, in their order and with the same features. -/
theorem C76_mini_partial (nan : K) {rs : List Rating} {ps : List Person} {ms : List Movie} {tr tp tm : Str}
    (hps : ∀ p ∈ ps, p.Ok) (hms : ∀ m ∈ ms, m.Ok)
    (hr : Text (rs.map Rating.line) tr) (hp : Text (ps.map Person.line) tp) (hm : Text (ms.map Movie.line) tm)
    (hr1 : (rs.filter (fun r => r.user ≤ 10 && r.item ≤ 10)).length ≠ 1) (hp1 : ps.length ≠ 1) (hm1 : ms.length ≠ 1)
    (hpn : (ps.map Person.id).Nodup) (hmn : (ms.map Movie.id).Nodup)
    (hall : ∀ r ∈ rs, (∃ p ∈ ps, p.id = r.user) ∧ ∃ m ∈ ms, m.id = r.item) :
    ∃ event user item d, convMini (convMl100kEvent tr) = .ok event ∧ convMl100kUser tp = .ok user ∧
      convMl100kItem tm = .ok item ∧ loadMovielensMini nan event user item = .ok d ∧
      DataSet d [1, 5, 1] true ((rs.filter (fun r => r.user ≤ 10 && r.item ≤ 10)).map (Rating.entry true))
        (ps.map (fun p => (p.id, p.feature))) (ms.map (fun m => (m.id, m.feature))) := by
  obtain ⟨event, e1, e2⟩ := mini_file hr
  obtain ⟨user, item, h1, h2, h3, _⟩ := ml100k_of_file nan true hps hms e2 hp hm hr1 hp1 hm1 hpn hmn
  obtain ⟨d, h4, h5⟩ := h3 (fun r hr => hall r (List.mem_of_mem_filter hr))
  exact ⟨event, user, item, d, e1, h1, h2, h4, h5⟩

/-- Ratings inside and outside of the small data set. -/
def exRatingsMini : List Rating := [⟨7, 3, 5, 881250949⟩, ⟨12, 3, 2, 1⟩, ⟨7, -4, 1, 0⟩]

example : (exRatingsMini.filter (fun r => r.user ≤ 10 && r.item ≤ 10)).length = 2 ∧
    (∀ r ∈ exRatingsMini, (∃ p ∈ exPersons, p.id = r.user) ∧ ∃ m ∈ exMovies, m.id = r.item) := by decide

/-! ### C78 -/

/-- The row of a rating. -/
def decRow (r : DecRating) : List Str := [showInt r.user, showInt r.item, showDec r.m r.k]

lemma showDec_no {m : Int} {k : Nat} {d : Char} (h1 : d ≠ '-') (h2 : d ≠ '.') (h3 : d.isDigit = false) : d ∉ showDec m k := by
  intro hm
  rcases showDec_mem hm with h | h | h
  · exact h1 h
  · exact h2 h
  · rw [h3] at h; cases h

lemma clean_showDec (m : Int) (k : Nat) : Clean (showDec m k) :=
  ⟨showDec_no (by decide) (by decide) (by decide), showDec_no (by decide) (by decide) (by decide),
    showDec_no (by decide) (by decide) (by decide), showDec_no (by decide) (by decide) (by decide)⟩

lemma showDec_last (m : Int) (k : Nat) : (showDec m k).getLast? ≠ some ' ' :=
  fun h => showDec_no (by decide) (by decide) (by decide) (List.mem_of_getLast? h)

lemma dec_fields {r : DecRating} (hr : r.Ok) : ∀ f ∈ [showInt r.user, showInt r.item, showDec r.m r.k] ++ r.rest, '\t' ∉ f ∧ Plain f := by
  intro f hf
  rcases List.mem_append.1 hf with hf | hf
  · simp only [List.mem_cons, List.not_mem_nil, or_false] at hf
    rcases hf with rfl | rfl | rfl
    · exact ⟨(clean_showInt _).1, (clean_showInt _).plain⟩
    · exact ⟨(clean_showInt _).1, (clean_showInt _).plain⟩
    · exact ⟨(clean_showDec _ _).1, (clean_showDec _ _).plain⟩
  · exact hr f hf

lemma decs_file {rs : List DecRating} (hok : ∀ r ∈ rs, r.Ok) {text : Str} (ht : Text (rs.map DecRating.line) text) :
    ∃ out, convFlixster text = .ok out ∧ File out (rs.map decRow) := by
  refine conv_file headed_flixster ht (fun r hr => plain_join (by decide) (fun f hf => (dec_fields (hok r hr) f hf).2)) ?_ ?_
  · intro r _
    refine tidy_open (f := showInt r.user) (g := showDec r.m r.k) (gs := [showInt r.user, showInt r.item]) rfl rfl (by simp) ?_
      (showInt_ne_nil _) (showInt_head _) (showDec_last _ _)
    intro f hf
    simp only [decRow, List.mem_cons, List.not_mem_nil, or_false] at hf
    rcases hf with rfl | rfl | rfl
    · exact clean_showInt _
    · exact clean_showInt _
    · exact clean_showDec _ _
  · intro r hr line hl
    unfold flixsterLine
    rw [hl, DecRating.line, split_join (by simp) (fun f hf => (dec_fields (hok r hr) f hf).1)]
    rfl

/-- C78: for all Flixster ratings with scores of any number of decimals and any further fields, the conversion succeeds
and `load_flixster_rating` gives exactly the users, items and scores. -/
theorem C78_flixster_partial (nan : K) {rs : List DecRating} (hok : ∀ r ∈ rs, r.Ok) {text : Str}
    (ht : Text (rs.map DecRating.line) text) (h1 : rs.length ≠ 1) :
    ∃ event d, convFlixster text = .ok event ∧
      (loadFlixster nan event none : Res (ScoreData K Int φ (List (Cell K)))) = .ok d ∧
      Reads d.toEventData (rs.map (fun r => [r.user, r.item])) ∧ d.score = some (rs.map (fun r => (r.m : K) / 10 ^ r.k)) ∧
      d.scoreDomain = some [1 / 2, 5, 1 / 2] := by
  obtain ⟨event, e1, ls, e2, e3, e4⟩ := decs_file hok ht
  obtain ⟨lv, hlv⟩ := levels_ok (1 / 2 : K) 5 (c := 1 / 2) (by norm_num)
  obtain ⟨d, k1, k2, k3, _, k5, _⟩ := C66_score_partial (φ := φ) nan (n := 2) (arg := .arr 1 [0, 1]) (ft := none) (w := 3)
    (es := rs.map DecRating.entry) rfl (show (2 : Nat) ≠ 1 by decide) e2 e3 e4 (by
      rw [List.forall₂_map_left_iff, List.forall₂_map_right_iff, List.forall₂_same]
      intro r _
      exact ⟨rfl, rfl, .cons (.int _) (.cons (.int _) (.cons (.num _ _) (.nil _)))⟩) (by simpa using h1) hlv
  refine ⟨event, d, e1, k1, ?_, ?_, k5⟩
  · simpa [Function.comp_def, DecRating.entry] using k2
  · simpa [Function.comp_def, DecRating.entry] using k3

example : (∀ r ∈ [(⟨5, 1, 15, 1, []⟩ : DecRating), ⟨5, 2, 5, 0, ["2008-01-01".toList]⟩], r.Ok) ∧
    [(⟨5, 1, 15, 1, []⟩ : DecRating), ⟨5, 2, 5, 0, ["2008-01-01".toList]⟩].map DecRating.line =
      ["5\t1\t1.5".toList, "5\t2\t5\t2008-01-01".toList] := by
  constructor
  · intro r hr
    simp only [List.mem_cons, List.not_mem_nil, or_false] at hr
    rcases hr with rfl | rfl <;> unfold DecRating.Ok Plain <;> decide
  · decide

/-- C78 fails for a single rating: it is converted and cannot be loaded. -/
theorem C78_refuted : ¬ ∀ (rs : List DecRating) (text : Str), (∀ r ∈ rs, r.Ok) → Text (rs.map DecRating.line) text →
    ∃ event d, convFlixster text = .ok event ∧
      (loadFlixster 0 event none : Res (ScoreData ℚ Int Unit (List (Cell ℚ)))) = .ok d := by
  intro h
  have hok : ∀ r ∈ [(⟨5, 1, 15, 1, []⟩ : DecRating)], r.Ok := by
    intro r hr
    rw [List.mem_singleton.1 hr]
    exact fun f hf => absurd hf (by simp)
  have ht : Text ([(⟨5, 1, 15, 1, []⟩ : DecRating)].map DecRating.line) "5\t1\t1.5\n".toList := by
    have : [(⟨5, 1, 15, 1, []⟩ : DecRating)].map DecRating.line = ["5\t1\t1.5".toList] := by decide
    rw [this]
    exact .lf .nil
  obtain ⟨event, d, h1, h2⟩ := h _ _ hok ht
  obtain ⟨event', e1, ls, e2, e3, e4⟩ := decs_file hok ht
  rw [h1] at e1
  cases e1
  have := C66_one_line (φ := Unit) (0 : ℚ) (n := 2) (arg := .arr 1 [0, 1]) (dom := some [1 / 2, 5, 1 / 2]) (ft := none)
    (c := Entry.cells (DecRating.entry ⟨5, 1, 15, 1, []⟩)) rfl e2 e3 e4
    (.cons (.int _) (.cons (.int _) (.cons (.num _ _) (.nil _))))
  unfold loadFlixster at h2
  rw [this] at h2
  cases h2

/-! ### C79 -/

lemma flatMap_zipIdx {text : Str} {ls : List Str} (ht : Text ls text) (hp : ∀ l ∈ ls, Plain l) (F : Str → Nat → Str) :
    (readlines text).zipIdx.flatMap (fun p => F (chomp p.1) p.2) = ls.zipIdx.flatMap (fun p => F p.1 p.2) := by
  rw [← (readlines_text ht hp).zipIdx_chomp hp, List.flatMap_map]

lemma plain_ints (r : List Int) : Plain (join '\t' (r.map showInt)) := by
  refine plain_join (by decide) ?_
  intro f hf
  obtain ⟨n, _, rfl⟩ := List.mem_map.1 hf
  exact (clean_showInt n).plain

/-- The user file: the line numbers in front. -/
lemma sushiUsers_file {us : List (List Int)} (hne : ∀ u ∈ us, u ≠ []) {text : Str}
    (ht : Text (us.map (fun u => join '\t' (u.map showInt))) text) :
    File (convSushiUser text) (us.zipIdx.map (fun p => showInt p.2 :: p.1.map showInt)) := by
  unfold convSushiUser
  have hp : ∀ l ∈ us.map (fun u => join '\t' (u.map showInt)), Plain l := by
    intro l hl
    obtain ⟨u, _, rfl⟩ := List.mem_map.1 hl
    exact plain_ints u
  rw [flatMap_zipIdx ht hp (fun l i => printTab [showInt i, join '\t' (split '\t' l)])]
  have e : (us.map (fun u => join '\t' (u.map showInt))).zipIdx.flatMap (fun p => printTab [showInt p.2, join '\t' (split '\t' p.1)]) =
      (us.zipIdx.map (fun p => showInt p.2 :: p.1.map showInt)).flatMap printTab := by
    rw [List.zipIdx_map, List.flatMap_map, List.flatMap_map]
    refine List.flatMap_congr ?_
    rintro ⟨u, i⟩ hu
    have hu' : u ≠ [] := hne u (by
      have := List.mem_map_of_mem (f := Prod.fst) hu
      rwa [List.zipIdx_map_fst] at this)
    show printTab [showInt i, join '\t' (split '\t' (join '\t' (u.map showInt)))] = _
    rw [join_split]
    unfold printTab
    have := join_join (c := '\t') [showInt (i : Int)] (u.map showInt) [] (by simpa using hu')
    simpa using this
  rw [e]
  refine file_head headed_sushiUser (file_printTab ?_)
  intro r hr
  obtain ⟨⟨u, i⟩, hu, rfl⟩ := List.mem_map.1 hr
  exact tidy_ints (ns := (i : Int) :: u) (by simp)

/-- The row of a kind of sushi. -/
def sushiRow (s : Sushi) : List Str :=
  [showInt s.id, s.name, showInt s.maki, showInt s.seafood, showInt s.genre, decText s.heaviness,
    decText s.frequency, decText s.price, decText s.supply]

lemma sushi_fields {s : Sushi} (hs : s.Ok) : ∀ f ∈ sushiRow s, Clean f := by
  intro f hf
  simp only [sushiRow, List.mem_cons, List.not_mem_nil, or_false] at hf
  rcases hf with rfl | rfl | rfl | rfl | rfl | rfl | rfl | rfl | rfl
  · exact clean_showInt _
  · exact hs.1
  all_goals first | exact clean_showInt _ | exact clean_showDec _ _

lemma sushis_file {ss : List Sushi} (hok : ∀ s ∈ ss, s.Ok) {text : Str} (ht : Text (ss.map Sushi.line) text) :
    File (convSushiItem text) (ss.map sushiRow) := by
  refine conv_file_flat headed_sushiItem ht (fun s hs => plain_join (by decide) (fun f hf => (sushi_fields (hok s hs) f hf).plain)) ?_ ?_
  · intro s hs
    refine tidy_open (f := showInt s.id) (g := decText s.supply) (gs := [showInt s.id, s.name, showInt s.maki, showInt s.seafood,
      showInt s.genre, decText s.heaviness, decText s.frequency, decText s.price]) rfl rfl (by simp) (sushi_fields (hok s hs))
      (showInt_ne_nil _) (showInt_head _) (showDec_last _ _)
  · intro s hs line hl
    show printTab [join '\t' (split '\t' (chomp line))] = _
    rw [join_split, hl]
    rfl

/-- C79: for every rating matrix, every list of users with eleven features and every list of sushi, the conversion
scripts and `load_sushi3b_score` give exactly the nonnegative entries of the matrix as events, the features of the
user in the same line, and the features of the sushi with the id of the column. -/
theorem C79_sushi3_partial (nan : K) {m us : List (List Int)} {ss : List Sushi} {tm tu ts : Str}
    (hm : Text (m.map (fun row => join ' ' (row.map showInt))) tm) (hmne : ∀ row ∈ m, row ≠ [])
    (hu : Text (us.map (fun u => join '\t' (u.map showInt))) tu) (hu11 : ∀ u ∈ us, u.length = 11)
    (hs : Text (ss.map Sushi.line) ts) (hok : ∀ s ∈ ss, s.Ok)
    (h2 : us.length ≠ 1) (h3 : ss.length ≠ 1) (hnd : (ss.map Sushi.id).Nodup) :
    ∃ event, convSushiEvent tm = .ok event ∧ ∃ es : List (Nat × Nat × Int),
      (∀ u i r, (u, i, r) ∈ es ↔ (∃ row, m[u]? = some row ∧ row[i]? = some r) ∧ 0 ≤ r) ∧
      es.Pairwise (fun a b => a.1 < b.1 ∨ (a.1 = b.1 ∧ a.2.1 < b.2.1)) ∧
      (es.length ≠ 1 → (∀ e ∈ es, e.1 < us.length ∧ ∃ s ∈ ss, s.id = e.2.1) →
        ∃ d, loadSushi3bScore nan event (convSushiUser tu) (convSushiItem ts) none = .ok d ∧
          DataSet d [0, 4, 1] false (es.map (fun e => ⟨[(e.1 : Int), (e.2.1 : Int)], (e.2.2 : K), []⟩))
            (us.zipIdx.map (fun p => ((p.2 : Int), p.1.map Cell.int))) (ss.map (fun s => (s.id, s.feature)))) ∧
      (es.length ≠ 1 → (∃ e ∈ es, us.length ≤ e.1 ∨ ∀ s ∈ ss, s.id ≠ e.2.1) →
        loadSushi3bScore nan event (convSushiUser tu) (convSushiItem ts) none = .error .indexError) := by
  obtain ⟨event, e1, es, e2, e3, e4⟩ := C67_sushi hmne hm
  refine ⟨event, e1, es, e3, e4, ?_⟩
  obtain ⟨lv, hlv⟩ := levels_ok (0 : K) 4 (one_ne_zero)
  have hcov : (Covered (es.map (fun e => (⟨[(e.1 : Int), (e.2.1 : Int)], (e.2.2 : K), []⟩ : Entry K))) 0
        (us.zipIdx.map (fun p => ((p.2 : Int), p.1.map Cell.int))) ∧
      Covered (es.map (fun e => (⟨[(e.1 : Int), (e.2.1 : Int)], (e.2.2 : K), []⟩ : Entry K))) 1 (ss.map (fun s => (s.id, s.feature)))) ↔
      ∀ e ∈ es, e.1 < us.length ∧ ∃ s ∈ ss, s.id = e.2.1 := by
    constructor
    · rintro ⟨h1, h2⟩ e he
      have g1 := h1 (e.1 : Int) ⟨_, List.mem_map_of_mem he, rfl⟩
      have g2 := h2 (e.2.1 : Int) ⟨_, List.mem_map_of_mem he, rfl⟩
      simp only [List.mem_map, exists_exists_and_eq_and] at g1 g2
      obtain ⟨⟨u, n⟩, g3, g4⟩ := g1
      have g5 : n = e.1 := by simpa using g4
      rw [List.mk_mem_zipIdx_iff_getElem?, g5] at g3
      exact ⟨(List.getElem?_eq_some_iff.1 g3).1, g2⟩
    · intro hall
      constructor
      · rintro x ⟨e, he, hx⟩
        obtain ⟨e', he', rfl⟩ := List.mem_map.1 he
        cases hx
        have := (hall e' he').1
        rw [List.mem_map]
        refine ⟨((e'.1 : Int), us[e'.1].map Cell.int), List.mem_map.2 ⟨(us[e'.1], e'.1), ?_, rfl⟩, rfl⟩
        rw [List.mk_mem_zipIdx_iff_getElem?, List.getElem?_eq_getElem this]
      · rintro x ⟨e, he, hx⟩
        obtain ⟨e', he', rfl⟩ := List.mem_map.1 he
        cases hx
        obtain ⟨s, h1, h2⟩ := (hall e' he').2
        rw [List.mem_map]
        exact ⟨_, List.mem_map_of_mem h1, h2⟩
  have main : es.length ≠ 1 → _ := fun hlen => load_three nan (feats := false) (fty := []) (uty := sushiUser) (ity := sushiItem)
    (we := 3) (wu := 12) (wi := 9)
    (es := es.map (fun e => ⟨[(e.1 : Int), (e.2.1 : Int)], (e.2.2 : K), []⟩))
    (users := us.zipIdx.map (fun p => ((p.2 : Int), p.1.map Cell.int))) (items := ss.map (fun s => (s.id, s.feature)))
    hlv e2 (sushiUsers_file (fun u hu e => by have := hu11 u hu; rw [e] at this; cases this) hu) (sushis_file hok hs)
    (by
      rw [List.forall₂_map_left_iff, List.forall₂_map_right_iff, List.forall₂_same]
      intro e _
      exact ⟨rfl, rfl, .cons (.int _) (.cons (.int _) (.cons (shows_num_int _) (.nil _)))⟩)
    (by
      rw [List.forall₂_map_left_iff, List.forall₂_map_right_iff, List.forall₂_same]
      rintro ⟨u, i⟩ hm
      have hl : u.length = 11 := hu11 u (by
        have := List.mem_map_of_mem (f := Prod.fst) hm
        rwa [List.zipIdx_map_fst] at this)
      refine ⟨by simp [hl], .cons (.int _) ?_⟩
      have := written_ints (K := K) u (.nil [])
      rw [hl] at this
      simpa [sushiUser] using this)
    (by
      rw [List.forall₂_map_left_iff, List.forall₂_map_right_iff, List.forall₂_same]
      intro s hs
      exact ⟨rfl, .cons (.int _) (.cons (.str (hok s hs).2) (.cons (.int _) (.cons (.int _) (.cons (.int _) (.cons (.num _ _)
        (.cons (.num _ _) (.cons (.num _ _) (.cons (.num _ _) (.nil _)))))))))⟩)
    (by simpa using hlen) (by simpa using h2) (by simpa using h3)
    (by
      rw [List.map_map]
      have e : (Prod.fst ∘ fun p : List Int × Nat => ((p.2 : Int), p.1.map (Cell.int (K := K)))) = (fun n : Nat => (n : Int)) ∘ Prod.snd := rfl
      rw [e, ← List.map_map, List.zipIdx_map_snd]
      exact List.Nodup.map Nat.cast_injective (List.nodup_range' ..))
    (by simpa [Function.comp_def] using hnd)
  refine ⟨fun hlen hall => (main hlen).1 (hcov.2 hall), fun hlen hex => (main hlen).2 ?_⟩
  rw [hcov]
  obtain ⟨e, he, h⟩ := hex
  intro hall
  rcases h with h | h
  · exact absurd (hall e he).1 (by omega)
  · obtain ⟨s, hs, e'⟩ := (hall e he).2
    exact h s hs e'

/-- Three users. -/
def exSushiUsers : List (List Int) := [List.replicate 11 1, [7, 0, 3, 200, 11, 2, 0, 12, 2, 0, 1], List.replicate 11 (-2)]

/-- Three kinds of sushi. -/
def exSushi : List Sushi :=
  [⟨0, "ebi".toList, 1, 0, 6, (2728, 3), (2138, 3), (18384, 4), (84, 2)⟩, ⟨1, "ana go".toList, 1, 0, 3, (9, 1), (2, 0), (19, 1), (8, 1)⟩,
   ⟨2, "maguro".toList, 1, 0, 1, (17, 1), (2, 0), (18, 1), (8, 1)⟩]

example : (∀ u ∈ exSushiUsers, u.length = 11) ∧ (∀ s ∈ exSushi, s.Ok) ∧ (exSushi.map Sushi.id).Nodup ∧
    (exSushi.map Sushi.line)[0]? = some "0\tebi\t1\t0\t6\t2.728\t2.138\t1.8384\t0.84".toList := by
  refine ⟨by decide, ?_, by decide, by decide⟩
  intro s hs
  simp only [exSushi, List.mem_cons, List.not_mem_nil, or_false] at hs
  rcases hs with rfl | rfl | rfl <;> unfold Sushi.Ok Clean <;> decide

/-- The example of the matrix meets all conditions. -/
example : ∃ event d, convSushiEvent exMatrixText = .ok event ∧
    loadSushi3bScore (0 : ℚ) event (convSushiUser ((exSushiUsers.map (fun u => join '\t' (u.map showInt))).flatMap (· ++ ['\n'])))
      (convSushiItem ((exSushi.map Sushi.line).flatMap (· ++ ['\n']))) none = .ok d ∧
    HasFeature d 0 1 ([7, 0, 3, 200, 11, 2, 0, 12, 2, 0, 1].map Cell.int) := by
  have ht : ∀ ls : List Str, Text ls (ls.flatMap (· ++ ['\n'])) := by
    intro ls
    induction ls with
    | nil => exact .nil
    | cons l ls ih =>
      have e : (l :: ls).flatMap (· ++ ['\n']) = l ++ '\n' :: ls.flatMap (· ++ ['\n']) := by simp
      rw [e]; exact .lf ih
  obtain ⟨event, h1, es, h2, _, h3, _⟩ := C79_sushi3_partial (0 : ℚ) (m := exMatrix) (us := exSushiUsers) (ss := exSushi) exMatrix_text (by decide)
    (ht _) (by decide) (ht _) (by
      intro s hs
      simp only [exSushi, List.mem_cons, List.not_mem_nil, or_false] at hs
      rcases hs with rfl | rfl | rfl <;> unfold Sushi.Ok Clean <;> decide) (by decide) (by decide) (by decide)
  have m1 : (2, 2, 12) ∈ es := (h2 2 2 12).2 ⟨⟨[-1, -1, 12], by decide, by decide⟩, by decide⟩
  have m2 : (1, 0, 4) ∈ es := (h2 1 0 4).2 ⟨⟨[4, -1, -1], by decide, by decide⟩, by decide⟩
  have hlen : es.length ≠ 1 := by
    intro h
    obtain ⟨a, rfl⟩ := List.length_eq_one_iff.1 h
    have e1 := List.mem_singleton.1 m1
    have e2 := List.mem_singleton.1 m2
    rw [← e1] at e2
    exact absurd e2 (by decide)
  obtain ⟨d, h4, h5⟩ := h3 hlen (by
    rintro ⟨u, i, r⟩ he
    obtain ⟨⟨row, h6, h7⟩, _⟩ := (h2 u i r).1 he
    have hu : u < 3 := (List.getElem?_eq_some_iff.1 h6).1
    have key : ∀ row ∈ exMatrix, row.length = 3 := by decide
    have hrow : row.length = 3 := key row (List.mem_of_getElem? h6)
    have hi : i < 3 := hrow ▸ (List.getElem?_eq_some_iff.1 h7).1
    refine ⟨hu, ?_⟩
    have key' : ∀ i : Nat, i < 3 → ∃ s ∈ exSushi, s.id = (i : Int) := by decide
    exact key' i hi)
  exact ⟨event, d, h1, h4, h5.user (1, [7, 0, 3, 200, 11, 2, 0, 12, 2, 0, 1].map Cell.int) (.tail _ (.head _))
    ⟨_, List.mem_map_of_mem m2, rfl⟩⟩

end Kam.Convert
