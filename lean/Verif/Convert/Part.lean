/-
C76, continued: the small data set is a selection of events of the full one.
-/
import Verif.Convert.Props5
import Verif.Score.Commute

set_option linter.unusedSectionVars false

namespace Kam.Convert
open Convert.Spec Kam.Spec

variable {K φ ε : Type} [Field K] [LinearOrder K] [IsStrictOrderedRing K] [FloorRing K]

/-- The three steps that all loaders with features have in common. -/
def loadThree (nan : K) (event user item : Str) (dm : List K) (ft : Option (List FType)) (uty ity : List FType) :
    Res (ScoreData K Int (List (Cell K)) (List (Cell K))) := do
  let data ← loadEventWithScore nan event 2 (.arr 1 [0, 1]) (some dm) ft
  let data ← loadFeature nan user uty data 0
  loadFeature nan item ity data 1

/-- The container before anything is loaded. -/
def emptyTwo : ScoreData K Int (List (Cell K)) (List (Cell K)) :=
  ⟨⟨2, [0, 0], [none, none], [none, none], [none, none], 2, [0, 1], 0, none, none⟩, none, none, none⟩

lemma init_two : (ScoreData.init 2 (.arr 1 [0, 1]) : Res (ScoreData K Int (List (Cell K)) (List (Cell K)))) = .ok emptyTwo := rfl

/-- The tables of features in a file. -/
def tableOf (t : Nat) (rs : List (List (Cell K))) : Nat × List Int × List (List (Cell K)) :=
  (t, rs.map (fun r => (r.head?.map Cell.toInt).getD 0), rs.map List.tail)

lemma loadThree_eq (nan : K) {event user item : Str} {dm : List K} {ft : Option (List FType)} {uty ity : List FType}
    {es : List (Entry K)} {us is : List (List (Cell K))}
    (hx : genfromtxt nan (List.replicate 2 .int ++ .float :: ft.getD []) event = .ok (recs (es.map Entry.cells)))
    (hu : genfromtxt nan (.int :: uty) user = .ok (.many us)) (hi : genfromtxt nan (.int :: ity) item = .ok (.many is))
    (hids : ∀ e ∈ es, e.ids.length = 2) (hne : es.length ≠ 1) :
    loadThree nan event user item dm ft uty ity = ScoreData.loadAll emptyTwo ⟨2, es.map Entry.ids⟩ (es.map Entry.score)
      (some dm) (ft.map (fun _ => es.map Entry.feats)) [tableOf 0 us, tableOf 1 is] := by
  obtain ⟨_, _, h⟩ := loadScore_set nan (n := 2) (arg := .arr 1 [0, 1]) (dom := some dm) (ft := ft) (d0 := emptyTwo)
    init_two (show (2 : Nat) ≠ 1 by decide) hx hids hne
  unfold loadThree ScoreData.loadAll
  rw [h]
  show (dropState (emptyTwo.setEvent ⟨2, es.map Entry.ids⟩ _ _ _) >>= _) = _
  cases emptyTwo.setEvent ⟨2, es.map Entry.ids⟩ (es.map Entry.score) (some dm) (ft.map (fun _ => es.map Entry.feats)) with
  | error e => rfl
  | ok d =>
    simp only [dropState, ok_bind, loadFeature, hu, hi]
    rw [List.foldlM_cons]
    simp only [tableOf]
    cases d.setFeature 0 (us.map (fun r => (r.head?.map Cell.toInt).getD 0)) (us.map List.tail) with
    | error e => rfl
    | ok d1 =>
      simp only [ok_bind, List.foldlM_cons, List.foldlM_nil]
      cases d1.setFeature 1 (is.map (fun r => (r.head?.map Cell.toInt).getD 0)) (is.map List.tail) <;> rfl

lemma selMask_keep {β γ : Type} (keep : β → Bool) (f : β → γ) (l : List β) :
    selMask (l.map keep) (l.map f) = (l.filter keep).map f := by
  induction l with
  | nil => rfl
  | cons x l ih =>
    by_cases h : keep x = true
    · simp [selMask, h, ih]
    · simp [selMask, h, ih]

/-- Loading a part of the events gives the selection of this part from what is loaded with all events. -/
lemma loadThree_part (nan : K) {event event' user item : Str} {dm : List K} {ft : Option (List FType)} {uty ity : List FType}
    {es : List (Entry K)} (keep : Entry K → Bool)
    (hx : genfromtxt nan (List.replicate 2 .int ++ .float :: ft.getD []) event = .ok (recs (es.map Entry.cells)))
    (hx' : genfromtxt nan (List.replicate 2 .int ++ .float :: ft.getD []) event' = .ok (recs ((es.filter keep).map Entry.cells)))
    (hids : ∀ e ∈ es, e.ids.length = 2) (hne : es.length ≠ 1) (hne' : (es.filter keep).length ≠ 1)
    {d : ScoreData K Int (List (Cell K)) (List (Cell K))} (hd : loadThree nan event user item dm ft uty ity = .ok d) :
    ∃ d', d.filterEvent (.mask (es.map keep)) = .ok (some d') ∧ loadThree nan event' user item dm ft uty ity = .ok d' := by
  have hd1 := hd
  unfold loadThree at hd1
  cases h1 : (loadEventWithScore nan event 2 (.arr 1 [0, 1]) (some dm) ft : Res (ScoreData K Int (List (Cell K)) (List (Cell K)))) with
  | error e => rw [h1] at hd1; cases hd1
  | ok d0 =>
    rw [h1] at hd1
    simp only [ok_bind] at hd1
    cases h2 : loadFeature nan user uty d0 0 with
    | error e => rw [h2] at hd1; cases hd1
    | ok d1 =>
      rw [h2] at hd1
      have hd1 : loadFeature nan item ity d1 1 = .ok d := hd1
      have many : ∀ {text : Str} {ty : List FType} {c c' : ScoreData K Int (List (Cell K)) (List (Cell K))} {t : Nat},
          loadFeature nan text ty c t = .ok c' → ∃ rs, genfromtxt nan (.int :: ty) text = .ok (.many rs) := by
        intro text ty c c' t h
        unfold loadFeature at h
        cases hg : genfromtxt nan (.int :: ty) text with
        | error e => rw [hg] at h; cases h
        | ok x =>
          cases x with
          | one r => rw [hg] at h; cases h
          | many rs => exact ⟨rs, rfl⟩
      obtain ⟨us, hu⟩ := many h2
      obtain ⟨is, hi⟩ := many hd1
      rw [loadThree_eq nan hx hu hi hids hne] at hd
      have hjs : (Sel.mask (es.map keep)).positions (es.map Entry.ids).length = .ok (nonzeroFrom 0 (es.map keep)) := by
        simp [Sel.positions]
      obtain ⟨d', e1, e2⟩ := ScoreData.C122_filter_is_part_scores (d0 := emptyTwo)
        (.init (n := 2) (arg := .arr 1 [0, 1]) rfl) (by simp [emptyTwo])
        (by
          intro r hr
          obtain ⟨e, he, rfl⟩ := List.mem_map.1 hr
          exact hids e he) (by simp) (by
          intro f hf
          cases ft with
          | none => cases hf
          | some _ => cases hf; simp) (by
          intro p hp
          simp only [List.mem_cons, List.not_mem_nil, or_false] at hp
          rcases hp with rfl | rfl <;> simp [tableOf]) hd (.mask (es.map keep)) hjs
      refine ⟨d', e1, ?_⟩
      rw [loadThree_eq nan hx' hu hi (fun e he => hids e (List.mem_of_mem_filter he)) hne', ← e2]
      have hg : ∀ {γ : Type} (f : Entry K → γ), gather (es.map f) (nonzeroFrom 0 (es.map keep)) = (es.filter keep).map f := by
        intro γ f
        rw [gather_nonzeroFrom _ _ (by simp), selMask_keep]
      congr 1
      · simp only [hg]
      · rw [hg]
      · cases ft with
        | none => rfl
        | some _ => simp only [Option.map_some, hg]

/-- C76: the small data set is exactly what `filter_event` makes of the loaded full data set, when the ratings whose user
and item ids are at most 10 are selected. -/
theorem C76_mini_is_selection (nan : K) {rs : List Rating} {ps : List Person} {ms : List Movie} {tr tp tm : Str}
    (hps : ∀ p ∈ ps, p.Ok) (hms : ∀ m ∈ ms, m.Ok)
    (hr : Text (rs.map Rating.line) tr) (hp : Text (ps.map Person.line) tp) (hm : Text (ms.map Movie.line) tm)
    (hr0 : rs.length ≠ 1) (hr1 : (rs.filter (fun r => r.user ≤ 10 && r.item ≤ 10)).length ≠ 1)
    (hp1 : ps.length ≠ 1) (hm1 : ms.length ≠ 1)
    (hpn : (ps.map Person.id).Nodup) (hmn : (ms.map Movie.id).Nodup)
    (hall : ∀ r ∈ rs, (∃ p ∈ ps, p.id = r.user) ∧ ∃ m ∈ ms, m.id = r.item) :
    ∃ event user item full mini, convMini (convMl100kEvent tr) = .ok event ∧ convMl100kUser tp = .ok user ∧
      convMl100kItem tm = .ok item ∧
      loadMovielens100k nan (convMl100kEvent tr) user item (some timestamp) = .ok full ∧
      loadMovielensMini nan event user item = .ok mini ∧
      full.filterEvent (.mask (rs.map (fun r => r.user ≤ 10 && r.item ≤ 10))) = .ok (some mini) := by
  obtain ⟨event, e1, e2⟩ := mini_file hr
  obtain ⟨user, item, h1, h2, h3, _⟩ := C75_movielens100k_partial nan true hps hms hr hp hm hr0 hp1 hm1 hpn hmn
  obtain ⟨full, h4, _⟩ := h3 hall
  have hx : ∀ {text : Str} {qs : List Rating}, File text (qs.map (fun r => [showInt r.user, showInt r.item, showInt r.score, showInt r.time])) →
      genfromtxt nan (List.replicate 2 .int ++ .float :: (some timestamp).getD []) text =
        .ok (recs ((qs.map (Rating.entry true)).map Entry.cells)) := by
    rintro text qs ⟨ls, t1, t2, t3⟩
    refine genfromtxt_ok nan (w := 4) t1 t2 t3 ?_
    rw [List.forall₂_map_left_iff, List.forall₂_map_right_iff, List.forall₂_map_right_iff, List.forall₂_same]
    intro r _
    exact ⟨rfl, (rating_written true r).2.2⟩
  have hkeep : (rs.map (Rating.entry (K := K) true)).map (fun e => decide (∀ x ∈ e.ids, x ≤ 10)) =
      rs.map (fun r => r.user ≤ 10 && r.item ≤ 10) := by
    rw [List.map_map]
    apply List.map_congr_left
    intro r _
    simp [Rating.entry]
  have hfil : (rs.map (Rating.entry (K := K) true)).filter (fun e => decide (∀ x ∈ e.ids, x ≤ 10)) =
      (rs.filter (fun r => r.user ≤ 10 && r.item ≤ 10)).map (Rating.entry true) := by
    rw [List.filter_map]
    congr 1
    apply List.filter_congr
    intro r _
    simp [Rating.entry]
  obtain ⟨mini, k1, k2⟩ := loadThree_part nan (event := convMl100kEvent tr) (event' := event) (user := user) (item := item)
    (dm := [1, 5, 1]) (ft := some timestamp) (uty := ml100kUser) (ity := ml100kItem)
    (es := rs.map (Rating.entry true)) (fun e => decide (∀ x ∈ e.ids, x ≤ 10)) (hx (ratings_file hr))
    (by rw [hfil]; exact hx e2) (by
      intro e he
      obtain ⟨r, _, rfl⟩ := List.mem_map.1 he
      rfl) (by simpa using hr0) (by rw [hfil]; simpa using hr1) h4
  rw [hkeep] at k1
  exact ⟨event, user, item, full, mini, e1, h1, h2, h4, k2, k1⟩

/-- Three ratings, two of which are in the small data set, with the users and movies of `C75_movielens100k_partial`. -/
example : exRatingsMini.length ≠ 1 ∧ (exRatingsMini.filter (fun r => r.user ≤ 10 && r.item ≤ 10)).length ≠ 1 ∧
    exPersons.length ≠ 1 ∧ exMovies.length ≠ 1 ∧ (exPersons.map Person.id).Nodup ∧ (exMovies.map Movie.id).Nodup ∧
    (∀ r ∈ exRatingsMini, (∃ p ∈ exPersons, p.id = r.user) ∧ ∃ m ∈ exMovies, m.id = r.item) := by decide

end Kam.Convert
