/-
C147: the numbers of events, users and items in a result file.
-/
import Verif.Exp.Props6

set_option linter.unusedSectionVars false

namespace Kam.Spec

variable {α : Type} [LinearOrder α]

/-- The ids in a column of a table of events. -/
def idsIn (rows : List (List α)) (c : Nat) : List α := rows.filterMap (fun r => r[c]?)

/-- How many different ids a column has. -/
def different (rows : List (List α)) (c : Nat) : Nat := (idsIn rows c).toFinset.card

/-- A fifth, rounded up, of the events of every user. -/
def fifths (rows : List (List α)) : Nat := ∑ u ∈ (idsIn rows 0).toFinset, ⌈((idsIn rows 0).count u : ℚ) / 5⌉₊

end Kam.Spec

namespace Kam.Exp
open Scripts Spec

variable {F α φ ε V T γ : Type} [LinearOrder α]

/-! ### Specification -/

/-- The section `sec` of a result file counts the events, the users and the items of a table. -/
structure CountsOf (env : Env ℝ α ε F V T γ) (j : J V) (sec : String) (rows : List (List α)) : Prop where
  events : j.path [sec, "n_events"] = .ok (.leaf (env.nat rows.length))
  users : j.path [sec, "n_users"] = .ok (.leaf (env.nat (different rows 0)))
  items : j.path [sec, "n_items"] = .ok (.leaf (env.nat (different rows 1)))

/-! ### Lemmas -/

lemma length_npUnique (l : List α) : (npUnique l).length = l.toFinset.card := by
  rw [← List.toFinset_card_of_nodup (nodup_npUnique l)]
  congr 1
  ext x
  simp [mem_npUnique]

lemma objs_two {rows : List (List α)} (h : ∀ r ∈ rows, r.length = 2) : objs [0, 1] rows 0 = idsIn rows 0 ∧ objs [0, 1] rows 1 = idsIn rows 1 := by
  unfold objs idsIn
  induction rows with
  | nil => simp
  | cons r rows ih =>
    have hr := h r (by simp)
    obtain ⟨i1, i2⟩ := ih (fun r hr => h r (by simp [hr]))
    match r, hr with
    | [x, y], _ =>
      simp only [List.flatMap_cons, i1, i2, List.filterMap_cons]
      simp [selMask]

/-- The numbers of users and items a container reports. -/
lemma objectsAt_counts {d : ScoreData ℝ α φ ε} {t : Table ℝ α ε} {sc dm : List ℝ} (h : Holding d t sc dm) :
    objectsAt d 0 = .ok (different t.event.rows 0) ∧ objectsAt d 1 = .ok (different t.event.rows 1) ∧ d.nEvents = t.event.rows.length := by
  have hn := h.built.inv.1.holds.nObjects
  have hr := rows_two h
  obtain ⟨o1, o2⟩ := objs_two hr
  unfold different
  rw [← length_npUnique, ← length_npUnique, ← o1, ← o2]
  refine ⟨?_, ?_, h.built.inv.1.holds.nEvents⟩
  · unfold objectsAt
    rw [hn, h.otypes, h.nOtypes]
    rfl
  · unfold objectsAt
    rw [hn, h.otypes, h.nOtypes]
    rfl

lemma length_by_user {rows : List (List α)} (S : Finset α) (ix : List Nat)
    (h : ∀ i ∈ ix, ∃ u ∈ S, (rows[i]?).bind List.head? = some u) : ix.length = ∑ u ∈ S, eventsOf rows u ix := by
  induction ix with
  | nil => simp [eventsOf]
  | cons i ix ih =>
    obtain ⟨v, hv, e⟩ := h i (by simp)
    have := ih (fun i hi => h i (by simp [hi]))
    have step : ∀ u, eventsOf rows u (i :: ix) = eventsOf rows u ix + if v = u then 1 else 0 := by
      intro u
      unfold eventsOf
      by_cases hu : v = u
      · rw [List.filter_cons_of_pos (by simp [e, hu])]; simp [hu]
      · rw [List.filter_cons_of_neg (by simp [e, hu])]; simp [hu]
    simp only [step, Finset.sum_add_distrib, Finset.sum_ite_eq, hv, if_true, List.length_cons]
    omega

lemma eventsOf_count {rows : List (List α)} (h : ∀ r ∈ rows, r.length = 2) (u : α) :
    eventsOf rows u (List.range rows.length) = (idsIn rows 0).count u := by
  unfold eventsOf idsIn
  induction rows with
  | nil => simp
  | cons r rows ih =>
    have hr := h r (by simp)
    have := ih (fun r hr => h r (by simp [hr]))
    match r, hr with
    | [x, y], _ =>
      rw [List.length_cons, List.range_succ_eq_map, List.filter_cons, List.filterMap_cons]
      simp only [List.filter_map, Function.comp_def, List.getElem?_cons_succ]
      simp only [List.getElem?_cons_zero, Option.bind_some, List.head?_cons, Option.some.injEq, decide_eq_true_eq, List.count_cons, beq_iff_eq]
      split
      · simp only [List.length_cons, List.length_map, this]
      · simp only [List.length_map, this]; rfl

/-- The number of test events of a fold. -/
lemma FifthSplit.length {rows : List (List α)} (hl : ∀ r ∈ rows, r.length = 2) {train test : List Nat} (h : FifthSplit rows train test) :
    test.length = fifths rows := by
  have hh : ∀ i ∈ test, ∃ u ∈ (idsIn rows 0).toFinset, (rows[i]?).bind List.head? = some u := by
    intro i hi
    have hlt := h.fold.test_lt i hi
    have hr := hl _ (List.getElem_mem hlt)
    rw [List.getElem?_eq_getElem hlt]
    generalize hg : rows[i] = r at hr
    match r, hr with
    | [x, y], _ =>
      refine ⟨x, ?_, rfl⟩
      unfold idsIn
      rw [List.mem_toFinset, List.mem_filterMap]
      exact ⟨[x, y], hg ▸ List.getElem_mem hlt, rfl⟩
  rw [length_by_user _ _ hh]
  unfold fifths
  refine Finset.sum_congr rfl fun u hu => ?_
  have hpos : 0 < eventsOf rows u (List.range rows.length) := by
    rw [eventsOf_count hl]
    exact List.count_pos_iff.2 (List.mem_toFinset.1 hu)
  obtain ⟨a, b⟩ := h.fifth u hpos
  rw [eventsOf_count hl] at a b hpos
  generalize eventsOf rows u test = x at a b
  generalize (idsIn rows 0).count u = n at a b hpos
  symm
  rw [Nat.ceil_eq_iff (by omega)]
  have a' : (n : ℚ) ≤ 5 * x := by exact_mod_cast a
  have b' : (5 : ℚ) * x < n + 5 := by exact_mod_cast b
  have hx : 1 ≤ x := by omega
  rw [Nat.cast_sub hx]
  constructor
  · push_cast; linarith
  · linarith

section
variable (env : Env ℝ α ε F V T γ) (lib : Lib α φ ε V γ) (clock : Nat → T) (environment : Dict String (J V))
    (read : Bool → F → Res (Table ℝ α ε))

/-- C147, cross validation: both sections of the result file count the events, the users and the items of the file of events, and
every fold has a fifth, rounded up, of the events of every user as test events — the number recorded for it and the numbers of its
events, true scores and mask entries in the file. -/
theorem C147_cross_validation (hread : ∀ b f t, read b f = .ok t → TableOk t) {sc : Script} {o : Namespace F} (hdom : o.domain.length = 3)
    (hcv : o.validation = "cv") {j : J V} (h : task env lib clock environment read sc o = .ok j) :
    ∃ t, read o.timestamp (o.infile.getD o.infilep) = .ok t ∧ CountsOf env j "training" t.event.rows ∧ CountsOf env j "test" t.event.rows ∧
      ∀ key, j.HasFold key →
        j.path ["test", "results", key, "n_events"] = .ok (.leaf (env.nat (fifths t.event.rows))) ∧
        ∀ sub ∈ ["event", "true", "mask"], ∃ l, j.path ["prediction", sub, key] = .ok (.list l) ∧ l.length = fifths t.event.rows := by
  obtain ⟨M, rec, s, h1, h2, _, h4⟩ := task_run env lib read sc o (task_method h)
  obtain ⟨cond, e⟩ := (h4 clock environment).1
  rw [e] at h
  have hs := setRun_with h2 cond environment
  generalize ({ s with condition := cond, environment := environment } : Setting ℝ F V) = s' at hs h
  have hload : Loads (loader read sc o.timestamp : Loader ℝ α φ ε F) := loader_loads hread sc o.timestamp
  have hcv' : s'.cv = true := hs.cv.2 hcv
  obtain ⟨d, dm, ev, sc₁, users, items, groups, l, hl, hsc, hj, hf, hr⟩ := doTask_cv hcv' hload.score h
  have k1 := hl.load
  rw [hs.trainFile, hs.scoreDomain] at k1
  obtain ⟨t, scs, ht, hD, hH⟩ := loader_domain hread sc o.timestamp hdom k1
  obtain ⟨c1, c2, c3⟩ := objectsAt_counts hH
  have e1 := hl.users
  rw [c1] at e1
  cases e1
  have e2 := hl.items
  rw [c2] at e2
  cases e2
  have hev : ev = t.event.rows := by
    have e1 := hl.events
    rw [externalEvents_built hH.built.inv.1] at e1
    simpa using e1.symm
  subst hev
  have hscl : sc₁.length = t.event.rows.length := by
    have e3 := hH.built.inv.2.1
    rw [hsc] at e3
    cases e3
    exact hH.built.inv.2.2.1
  refine ⟨t, ht, ?_, ?_, ?_⟩
  · rw [hj]
    constructor <;> simp [J.path, tree, J.item, Dict.getItem, Dict.get?, ok_bind, headOf, c3]
  · rw [hj]
    constructor <;> simp [J.path, tree, J.item, Dict.getItem, Dict.get?, ok_bind, headOf, c3]
  · intro key hk
    rw [hj, hasFold_tree] at hk
    obtain ⟨x, hx, rfl⟩ := List.mem_map.1 hk
    have hx0 := hx
    obtain ⟨r, hrl, rfl⟩ := List.mem_map.1 hx
    obtain ⟨hdr, _⟩ := hr r hrl
    have hnd : ((l.map (recOf env t.event.rows sc₁ d.eventFeature)).map (·.key)).Nodup := by
      have : (l.map (recOf env t.event.rows sc₁ d.eventFeature)).map (·.key) = (l.map (·.fold)).map Nat.repr := by
        simp [recOf]
      rw [this, hf]
      refine List.Nodup.map (fun a b h => Nat.repr_injective h) ?_
      unfold wanted
      exact List.Nodup.filter _ (List.nodup_range')
    have hsp : FifthSplit t.event.rows r.trainI r.testI := FifthSplit.of_drawn (K := ℝ) hl.groups hdr
    have hlen := FifthSplit.length (rows_two hH) hsp
    have g1 : (gather t.event.rows r.testI).length = fifths t.event.rows := by
      rw [length_gather _ _ hsp.fold.test_lt, hlen]
    have g2 : (gather sc₁ r.testI).length = fifths t.event.rows := by
      rw [length_gather _ _ (by rw [hscl]; exact hsp.fold.test_lt), hlen]
    rw [hj]
    refine ⟨?_, ?_⟩
    · have e := get?_perFold (l.map (recOf env t.event.rows sc₁ d.eventFeature)) (·.test) hnd hx0
      simp [J.path, tree, J.item, Dict.getItem, Dict.get?, ok_bind, e]
      simp [recOf, FD.test, Dict.get?, g1]
    · intro sub hsub
      simp only [List.mem_cons, List.not_mem_nil, or_false] at hsub
      rcases hsub with rfl | rfl | rfl
      · rw [path_event _ _ hnd hx0]
        exact ⟨_, rfl, by rw [List.length_map, g1]⟩
      · rw [path_true _ _ hnd hx0]
        exact ⟨_, rfl, by rw [List.length_map, g2]⟩
      · rw [path_mask _ _ hnd hx0]
        exact ⟨_, rfl, by rw [List.length_map, hlen]⟩

/-- C147, hold-out: the section `training` counts the events, the users and the items of the training file, the section `test`
those of the test file; all events of the test file are test events. -/
theorem C147_holdout (hread : ∀ b f t, read b f = .ok t → TableOk t) {sc : Script} {o : Namespace F} (hdom : o.domain.length = 3)
    (hcv : o.validation ≠ "cv") {j : J V} (h : task env lib clock environment read sc o = .ok j) :
    ∃ f t t', o.testfile = some f ∧ read o.timestamp (o.infile.getD o.infilep) = .ok t ∧ read o.timestamp f = .ok t' ∧
      CountsOf env j "training" t.event.rows ∧ CountsOf env j "test" t'.event.rows ∧
      j.path ["test", "results", "0", "n_events"] = .ok (.leaf (env.nat t'.event.rows.length)) ∧
      ∀ sub ∈ ["event", "true"], ∃ l, j.path ["prediction", sub] = .ok (.list l) ∧ l.length = t'.event.rows.length := by
  obtain ⟨M, rec, s, h1, h2, _, h4⟩ := task_run env lib read sc o (task_method h)
  obtain ⟨cond, e⟩ := (h4 clock environment).1
  rw [e] at h
  have hs := setRun_with h2 cond environment
  generalize ({ s with condition := cond, environment := environment } : Setting ℝ F V) = s' at hs h
  have hload : Loads (loader read sc o.timestamp : Loader ℝ α φ ε F) := loader_loads hread sc o.timestamp
  have hcv' : s'.cv = false := by
    by_contra k
    rw [Bool.not_eq_false, hs.cv] at k
    exact hcv k
  obtain ⟨f, d, d', dm, dm', rows, sc₁, tu, ti, su, si, g, g', m, res, esc, hh, hj⟩ := doTask_holdout hload hcv' h
  have k1 := hh.loadTrain
  rw [hs.trainFile, hs.scoreDomain] at k1
  obtain ⟨t, scs, ht, hD, hH⟩ := loader_domain hread sc o.timestamp hdom k1
  obtain ⟨t', scs', ht', _, hH'⟩ := loader_domain hread sc o.timestamp (by
      obtain ⟨_, _, _, rfl, _⟩ := hD.stride
      rfl) hh.loadTest
  obtain ⟨c1, c2, c3⟩ := objectsAt_counts hH
  obtain ⟨c1', c2', c3'⟩ := objectsAt_counts hH'
  have e1 := hh.trainUsers
  rw [c1] at e1
  cases e1
  have e2 := hh.trainItems
  rw [c2] at e2
  cases e2
  have e3 := hh.testUsers
  rw [c1'] at e3
  cases e3
  have e4 := hh.testItems
  rw [c2'] at e4
  cases e4
  have hrows : rows = t'.event.rows := by
    have e1 := externalEvents_built hh.built.inv.1
    have e2 := externalEvents_built hH'.built.inv.1
    rw [e1] at e2
    simpa using e2
  subst hrows
  have hscl : sc₁.length = t'.event.rows.length := hh.built.inv.2.2.1
  refine ⟨f, t, t', hs.testFile ▸ hh.file, ht, ht', ?_, ?_, ?_, ?_⟩
  · rw [hj]
    constructor <;> simp [J.path, J.item, Dict.getItem, Dict.get?, ok_bind, c3]
  · rw [hj]
    constructor <;> simp [J.path, J.item, Dict.getItem, Dict.get?, ok_bind, c3']
  · rw [hj]
    simp [J.path, J.item, Dict.getItem, Dict.get?, ok_bind]
  · intro sub hsub
    simp only [List.mem_cons, List.not_mem_nil, or_false] at hsub
    rw [hj]
    rcases hsub with rfl | rfl
    · refine ⟨t'.event.rows.map (fun r => .list (r.map (fun x => .leaf (env.id x)))), ?_, by simp⟩
      simp [J.path, J.item, Dict.getItem, Dict.get?, ok_bind, holdPrediction, encEvents]
    · refine ⟨sc₁.map (fun x => .leaf (env.num x)), ?_, by simp [hscl]⟩
      simp [J.path, J.item, Dict.getItem, Dict.get?, ok_bind, holdPrediction, encScores]

end

/-- C147 is not vacuous: the example file has eight events, two users and five items, and two test events in every fold. -/
example : ∃ o j, task Ex.env Ex.lib id [] Ex.read .sp o = .ok j ∧ j.path ["training", "n_events"] = .ok (.leaf (.nat 8)) ∧
    j.path ["training", "n_users"] = .ok (.leaf (.nat 2)) ∧ j.path ["test", "n_items"] = .ok (.leaf (.nat 5)) := by
  obtain ⟨o, h0, h1, h2, h3, h4, h5, h6, h7, h8⟩ := Ex.run .sp "plsam" (by simp [Script.choices])
  obtain ⟨j, hj⟩ := h8 id []
  obtain ⟨t, k1, k2, k3, _⟩ := C147_cross_validation _ _ _ _ _ Ex.read_ok (by rw [h6]; rfl) h2 hj
  rw [h7] at k1
  cases k1
  exact ⟨o, j, hj, k2.events, k2.users, k3.items⟩

/-- A hold-out run: the test file has two events of two users. -/
example : ∃ o j, task Ex.env Ex.lib id [] Ex.read .sp o = .ok j ∧ j.path ["training", "n_events"] = .ok (.leaf (.nat 8)) ∧
    j.path ["test", "n_events"] = .ok (.leaf (.nat 2)) ∧ j.path ["test", "n_users"] = .ok (.leaf (.nat 2)) := by
  obtain ⟨o, h0, h1, h2, h3, h4, h5, h6, h7, h8, h9⟩ := Ex.options .sp "pmf" (by simp [Script.choices])
  have ht : Ex.read o.timestamp (o.infile.getD o.infilep) = .ok ⟨⟨2, Ex.rows⟩, Ex.scores, some [1, 2, 3, 4, 5, 6, 7, 8]⟩ := by
    rw [h7]; rfl
  obtain ⟨j, hj⟩ := (C103_pmf_holdout Ex.env Ex.lib _root_.id [] Ex.read Ex.read_ok (o := { o with validation := "holdout", testfile := some "test" })
    h1 rfl h6 (by intro t h; rw [ht] at h; cases h; simp [Ex.rows])).2
    ⟨⟨(Ex.ready h4 h5).seed, (Ex.ready h4 h5).fold⟩, by simp only [h8]; omega, ⟨_, ht, .inl one_ne_zero, Ex.twoIds⟩, "test", _, rfl, rfl, by simp⟩
  obtain ⟨f, t, t', k1, k2, k3, k4, k5, _⟩ := C147_holdout _ _ _ _ _ Ex.read_ok (by simp only [h6]; rfl) (by simp) hj
  rw [ht] at k2
  cases k2
  cases k1
  cases k3
  exact ⟨_, j, hj, k4.events, k5.events, k5.users⟩

example : fifths Ex.rows = 2 := by
  have h : idsIn Ex.rows 0 = [1, 1, 1, 1, 2, 2, 2, 2] := by decide
  unfold fifths
  rw [h]
  decide +kernel

end Kam.Exp
