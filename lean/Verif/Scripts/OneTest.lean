/-
Which runs leave a file with statistics: the number of test events of a fold.
-/
import Verif.Scripts.Total
import Verif.Scripts.Props5

set_option linter.unusedSectionVars false

namespace Kam.Scripts
open Spec

variable {K α φ ε F V T γ M : Type} [Field K] [LinearOrder K] [IsStrictOrderedRing K] [FloorRing K] [LinearOrder α]

/-! ### Specification -/

/-- At most five events, all of one user. -/
def OneSmallUser (rows : List (List α)) : Prop := rows ≠ [] ∧ rows.length ≤ 5 ∧ ∃ u, ∀ r ∈ rows, r.head? = some u

/-! ### Lemmas -/

lemma oneTest_tree (hd : Head V) (l : List (Rec V)) :
    (tree hd l).OneTest ↔ ∃ key y, (tree hd l).HasFold key ∧ (tree hd l).path ["prediction", "event", key] = .ok (.list [y]) := by
  have hpath : ∀ k, (tree hd l).path ["prediction", "event", k] = Dict.getItem (perFold l (·.event)) k := by
    intro k
    simp [J.path, tree, J.item, Dict.getItem, Dict.get?, ok_bind, predictionOf]
  constructor
  · rintro (⟨x, hx⟩ | ⟨k, x, hx⟩)
    · simp [J.path, tree, J.item, Dict.getItem, Dict.get?, ok_bind, predictionOf] at hx
    · have hx' := hx
      rw [hpath] at hx
      unfold Dict.getItem at hx
      cases hg : Dict.get? (perFold l (·.event)) k with
      | none => rw [hg] at hx; cases hx
      | some v =>
        refine ⟨k, x, ?_, hx'⟩
        rw [hasFold_tree]
        obtain ⟨r, hr, e⟩ := List.mem_map.1 (mem_of_get? hg)
        simp only [Prod.mk.injEq] at e
        exact List.mem_map.2 ⟨r, hr, e.1⟩
  · rintro ⟨k, y, _, h⟩
    exact .inr ⟨k, y, h⟩

lemma eventsOf_one {rows : List (List α)} {u : α} (h : ∀ r ∈ rows, r.head? = some u) {ix : List Nat} (hix : ∀ i ∈ ix, i < rows.length) :
    eventsOf rows u ix = ix.length := by
  unfold eventsOf
  rw [List.filter_eq_self.2]
  intro i hi
  have hlt := hix i hi
  rw [decide_eq_true_eq, List.getElem?_eq_getElem hlt]
  exact h _ (List.getElem_mem hlt)

/-- The test part of a split has one event exactly when there are at most five events, all of one user. -/
lemma single_test_iff {rows : List (List α)} (hl : ∀ r ∈ rows, r.length = 2) {train test : List Nat} (h : FifthSplit rows train test) :
    test.length = 1 ↔ OneSmallUser rows := by
  constructor
  · intro h1
    obtain ⟨i, rfl⟩ := List.length_eq_one_iff.1 h1
    have hi := h.fold.test_lt i (by simp)
    have hmem : rows[i] ∈ rows := List.getElem_mem hi
    have h2 := hl _ hmem
    have hne : rows ≠ [] := by rintro rfl; simp at hi
    obtain ⟨u, v, e⟩ : ∃ u v, rows[i] = [u, v] := by
      match rows[i], h2 with
      | [u, v], _ => exact ⟨u, v, rfl⟩
    have all : ∀ r ∈ rows, r.head? = some u := by
      intro r hr
      have h3 := hl r hr
      match r, h3 with
      | [w, z], _ =>
        obtain ⟨j, hj, ej⟩ := List.mem_iff_getElem.1 hr
        have hp : 0 < eventsOf rows w (List.range rows.length) := by
          unfold eventsOf
          apply List.length_pos_of_mem (a := j)
          rw [List.mem_filter, List.mem_range, decide_eq_true_eq, List.getElem?_eq_getElem hj, ej]
          exact ⟨hj, rfl⟩
        have := (h.fifth w hp).1
        have hp' : 0 < eventsOf rows w [i] := by omega
        unfold eventsOf at hp'
        obtain ⟨i', hi'⟩ := List.exists_mem_of_length_pos hp'
        rw [List.mem_filter, decide_eq_true_eq] at hi'
        obtain ⟨m, hi'⟩ := hi'
        rw [List.mem_singleton] at m
        subst m
        rw [List.getElem?_eq_getElem hi, e] at hi'
        simp only [Option.bind_some, List.head?_cons, Option.some.injEq] at hi' ⊢
        exact hi'.symm
    refine ⟨hne, ?_, u, all⟩
    have e1 := eventsOf_one all (ix := List.range rows.length) (by simp)
    have e2 := eventsOf_one all (ix := [i]) (by simpa using hi)
    have hpos : 0 < rows.length := List.length_pos_of_ne_nil hne
    have := (h.fifth u (by rw [e1]; simpa using hpos)).1
    rw [e1, e2] at this
    simpa using this
  · rintro ⟨hne, h5, u, all⟩
    have e1 := eventsOf_one all (ix := List.range rows.length) (by simp)
    have e2 := eventsOf_one all (ix := test) h.fold.test_lt
    have hpos : 0 < rows.length := List.length_pos_of_ne_nil hne
    have := h.fifth u (by rw [e1]; simpa using hpos)
    rw [e1, e2, List.length_range] at this
    omega

/-- The folds of a cross validation. -/
lemma cv_folds {env : Env K α ε F V T γ} {clock : Nat → T} {rec : Recommender K α φ ε V γ M} {load : Loader K α φ ε F}
    (hload : Loads load) {s : Setting K F V} {target : Option Int} (hcv : s.cv = true) {j : J V}
    (h : doTask env clock rec load s target = .ok j) : (∃ key, j.HasFold key) ↔ 0 < s.nFolds := by
  constructor
  · rintro ⟨key, hk⟩
    obtain ⟨i, hi, _⟩ := (C61_folds hload hcv h key).1 hk
    omega
  · intro h0
    have htarget : ∀ i, target = some i → 0 ≤ i ∧ i < s.nFolds := by
      intro i hi
      have h' := h
      unfold doTask at h'
      obtain ⟨glob, _, h'⟩ := bind_ok h'
      split at h'
      · cases h'
      · rename_i hn
        rw [hi] at hn
        simp only [Option.any_some, decide_eq_true_eq] at hn
        omega
    cases target with
    | none => exact ⟨_, (C61_folds hload hcv h _).2 ⟨0, h0, by simp, rfl⟩⟩
    | some i =>
      obtain ⟨a, b⟩ := htarget i rfl
      refine ⟨_, (C61_folds hload hcv h _).2 ⟨i.toNat, by omega, ?_, rfl⟩⟩
      intro t ht
      cases ht
      omega

/-- A cross validation has a fold with a single test event exactly when it has a fold and the file holds at most five
events, all of one user. -/
theorem cv_oneTest_iff {env : Env K α ε F V T γ} {clock : Nat → T} {rec : Recommender K α φ ε V γ M} {load : Loader K α φ ε F}
    (hload : Loads load) {s : Setting K F V} {target : Option Int} (hcv : s.cv = true) {data : ScoreData K α φ ε} {dm dm' : List K}
    (hl : load s.trainFile s.scoreDomain = .ok (data, dm)) {t : Table K α ε} {sc : List K} (hd : Holding data t sc dm') {j : J V}
    (h : doTask env clock rec load s target = .ok j) : j.OneTest ↔ 0 < s.nFolds ∧ OneSmallUser t.event.rows := by
  have fold : ∀ key, j.HasFold key → ∃ train test, FifthSplit t.event.rows train test ∧
      j.path ["prediction", "event", key] = .ok (encEvents env (gather t.event.rows test)) := by
    intro key hk
    obtain ⟨data', d', dm₁, rows, sc', trainI, testI, g, g', m, res, esc, a1, a2, a3, a4, _, _, _, _, a5, _⟩ :=
      C61_test_disjoint_from_training hload hcv h key hk
    rw [hl] at a1
    cases a1
    have hrows : rows = t.event.rows := by
      have e1 := externalEvents_built a2.inv.1
      have e2 := externalEvents_built hd.built.inv.1
      rw [e1] at e2
      simpa using e2
    subst hrows
    refine ⟨trainI, testI, ⟨a3, fun u _ => ?_⟩, a5⟩
    obtain ⟨h1, h2⟩ := a4 u
    rw [div_le_iff₀ (by norm_num)] at h1
    have h2' : ((eventsOf t.event.rows u testI : Nat) : K) * 5 < (eventsOf t.event.rows u (List.range t.event.rows.length) : Nat) + 5 := by
      have := mul_lt_mul_of_pos_right h2 (show (0 : K) < 5 by norm_num)
      rw [add_mul, div_mul_cancel₀ _ (by norm_num)] at this
      linarith
    constructor
    · have : ((eventsOf t.event.rows u (List.range t.event.rows.length) : Nat) : K) ≤ ((5 * eventsOf t.event.rows u testI : Nat) : K) := by
        push_cast; linarith
      exact_mod_cast this
    · have : ((5 * eventsOf t.event.rows u testI : Nat) : K) < ((eventsOf t.event.rows u (List.range t.event.rows.length) + 5 : Nat) : K) := by
        push_cast; linarith
      exact_mod_cast this
  have one : j.OneTest ↔ ∃ key y, j.HasFold key ∧ j.path ["prediction", "event", key] = .ok (.list [y]) := by
    obtain ⟨data, dm, ev, sc, users, items, groups, l, _, _, hj, hf, _⟩ := doTask_cv hcv hload.score h
    rw [hj]
    exact oneTest_tree _ _
  rw [one, ← cv_folds hload hcv h]
  constructor
  · rintro ⟨key, y, hk, hy⟩
    obtain ⟨train, test, h1, h2⟩ := fold key hk
    rw [hy] at h2
    have h3 : [y] = (gather t.event.rows test).map (fun r => J.list (r.map (fun x => J.leaf (env.id x)))) := by
      simpa [encEvents] using h2
    have h4 := congrArg List.length h3
    rw [List.length_map, length_gather _ _ h1.fold.test_lt] at h4
    exact ⟨⟨key, hk⟩, (single_test_iff (rows_two hd) h1).1 h4.symm⟩
  · rintro ⟨⟨key, hk⟩, h0⟩
    obtain ⟨train, test, h1, h2⟩ := fold key hk
    have h4 := (single_test_iff (rows_two hd) h1).2 h0
    rw [← length_gather _ _ h1.fold.test_lt] at h4
    obtain ⟨r, hr⟩ := List.length_eq_one_iff.1 h4
    rw [hr] at h2
    exact ⟨key, _, hk, h2⟩

/-- A hold-out test has a fold, and it has a single test event exactly when the test file has a single event. -/
theorem holdout_oneTest_iff {env : Env K α ε F V T γ} {clock : Nat → T} {rec : Recommender K α φ ε V γ M} {load : Loader K α φ ε F}
    (hload : Loads load) {s : Setting K F V} {target : Option Int} (hcv : s.cv = false) {j : J V}
    (h : doTask env clock rec load s target = .ok j) :
    j.HasFold "0" ∧ ∃ f train test dm₁ dm₂ rows sc, s.testFile = some f ∧ load s.trainFile s.scoreDomain = .ok (train, dm₁) ∧
      load f dm₁ = .ok (test, dm₂) ∧ ScoreBuilt test rows sc ∧ (j.OneTest ↔ rows.length = 1) := by
  obtain ⟨f, train, test, dom₁, dom₂, trows, rows, tsc, sc, g, g', m, res, esc, a1, a2, a3, a4, a5, a6, a7, _, _, _, _, a8, _⟩ :=
    C64_holdout_partial hload hcv h
  obtain ⟨_, _, _, _, _, _, _, _, _, _, _, _, _, _, _, _, _, hj⟩ := doTask_holdout hload hcv h
  constructor
  · rw [hj]
    unfold J.HasFold
    simp [J.path, J.item, Dict.getItem, Dict.get?, ok_bind, Dict.keys]
  · refine ⟨f, train, test, dom₁, dom₂, rows, sc, a1, a2, a3, a5, ?_⟩
    constructor
    · rintro (⟨x, hx⟩ | ⟨k, x, hx⟩)
      · rw [hx] at a8
        have h3 : [x] = rows.map (fun r => J.list (r.map (fun x => J.leaf (env.id x)))) := by
          simpa [encEvents] using a8
        simpa using (congrArg List.length h3).symm
      · exfalso
        have e : j.path ["prediction", "event", k] = (j.path ["prediction", "event"] >>= fun x => x.item k) := by simp [J.path]
        rw [e, a8, ok_bind] at hx
        cases hx
    · intro h1
      obtain ⟨r, rfl⟩ := List.length_eq_one_iff.1 h1
      exact .inl ⟨_, a8⟩

/-- The statistics script fails on a cross validation without folds. -/
lemma stats_no_folds {env : Env K α ε F V T γ} {clock : Nat → T} {rec : Recommender K α φ ε V γ M} {load : Loader K α φ ε F}
    (hload : Loads load) {s : Setting K F V} {target : Option Int} (hcv : s.cv = true) {j : J V}
    (h : doTask env clock rec load s target = .ok j) (h0 : ¬ ∃ key, j.HasFold key) (se : StatsEnv V) (keepdata : Bool) :
    ∃ e, stats se keepdata j = .error e := by
  obtain ⟨data, dm, ev, sc, users, items, groups, l, _, _, hj, hf, _⟩ := doTask_cv hcv hload.score h
  have hl : l = [] := by
    cases l with
    | nil => rfl
    | cons r l =>
      refine absurd ⟨(recOf env ev sc data.eventFeature r).key, ?_⟩ h0
      rw [hj, hasFold_tree]
      simp
  subst hl
  cases hs : stats se keepdata j with
  | error e => exact ⟨e, rfl⟩
  | ok out =>
    exfalso
    unfold stats at hs
    obtain ⟨st, hs, _⟩ := bind_ok hs
    unfold statsOf at hs
    obtain ⟨⟨t, p⟩, hs, _⟩ := bind_ok hs
    rw [hj, List.map_nil, statsInput_tree] at hs
    cases hs

end Kam.Scripts
