/-
C61, C64, C65: what the folds of a cross validation and the sections of a hold-out run are computed from.
-/
import Verif.Scripts.Props

set_option linter.unusedSectionVars false

namespace Kam.Scripts
open Spec

variable {K α φ ε F V T γ M : Type} [Field K] [LinearOrder K] [IsStrictOrderedRing K] [FloorRing K] [LinearOrder α]

/-! ### C61 -/

lemma path_last (t : J V) (a b c d : String) : t.path [a, b, c, d] = (t.path [a, b, c] >>= fun x => x.item d) := by
  simp [J.path]

lemma testCount_drawn {rng : Split.Rng γ} {cfg : Split.ShuffleConfig K} {users : List α} {trainI testI : List Nat}
    (h : DrawnFold rng cfg users trainI testI) {u : α} (hu : u ∈ users) :
    TestCount (users.count u) cfg.testSize.spec cfg.trainSize.spec (inGroup users u testI) := by
  obtain ⟨g, g', mask, h1, _, rfl⟩ := h
  by_cases hfit : ∀ g ∈ npUnique users, Fits (users.count g) cfg.testSize.spec cfg.trainSize.spec
  · obtain ⟨Bs, s', he, hall⟩ := Split.shuffleMask_ok rng cfg users (npUnique users) hfit g (List.replicate users.length false)
    rw [he] at h1
    simp only [Except.ok.injEq, Prod.mk.injEq] at h1
    exact Split.testCount_mask ⟨Bs, h1.1.symm, hall⟩ hu
  · push Not at hfit
    rw [Split.shuffleMask_error rng cfg users (npUnique users) hfit] at h1
    cases h1

lemma column_zero {rows : List (List α)} {groups : List α} (h : column rows 0 = .ok groups) :
    rows.map List.head? = groups.map some := by
  unfold column at h
  induction rows generalizing groups with
  | nil => simp [pure, Except.pure] at h; subst h; rfl
  | cons r rows ih =>
    rw [List.mapM_cons] at h
    obtain ⟨x, h1, h⟩ := bind_ok h
    obtain ⟨xs, h2, h⟩ := bind_ok h
    simp only [pure, Except.pure, Except.ok.injEq] at h
    subst h
    cases r with
    | nil => simp at h1
    | cons y r =>
      simp at h1
      simp [h1, ih h2]

lemma eventsOf_groups {rows : List (List α)} {groups : List α} (h : rows.map List.head? = groups.map some) (u : α)
    (ix : List Nat) : eventsOf rows u ix = inGroup groups u ix := by
  unfold eventsOf inGroup
  congr 1
  apply List.filter_congr
  intro i _
  have e : (rows.map List.head?)[i]? = (groups.map some)[i]? := by rw [h]
  rw [List.getElem?_map, List.getElem?_map] at e
  have : (rows[i]?).bind List.head? = groups[i]? := by
    cases h1 : rows[i]? <;> cases h2 : groups[i]? <;> rw [h1, h2] at e <;> simp at e ⊢
    exact e
  rw [this]

lemma eventsOf_all {rows : List (List α)} {groups : List α} (h : rows.map List.head? = groups.map some) (u : α) :
    eventsOf rows u (List.range rows.length) = groups.count u := by
  rw [eventsOf_groups h]
  have hl : rows.length = groups.length := by simpa using congrArg List.length h
  rw [hl]
  clear h hl
  unfold inGroup
  rw [← List.countP_eq_length_filter]
  induction groups using List.reverseRecOn with
  | nil => rfl
  | append_singleton gs g ih =>
    rw [List.length_append, List.length_singleton, List.range_succ, List.countP_append, List.count_append, ← ih]
    congr 1
    · apply List.countP_congr
      intro i hi
      rw [List.getElem?_append_left (List.mem_range.1 hi)]
    · by_cases e : g = u <;> simp [e]

/-- C61: in every fold of every cross validation (with any seed, or a single fold of it), training and test
events are the two parts of a split of the events of the file; the recommender is fitted to a container with
exactly the training events and their scores; and the file holds for the fold the test events, their true
scores, positions and event features, the predictions that recommender made for them in the same order, the
results of that fit and the number of test events.  A fifth of the events of every user, rounded up, is used
for testing. -/
theorem C61_test_disjoint_from_training {env : Env K α ε F V T γ} {clock : Nat → T} {rec : Recommender K α φ ε V γ M}
    {load : Loader K α φ ε F} {s : Setting K F V} {target : Option Int} {j : J V} (hload : Loads load)
    (hcv : s.cv = true) (h : doTask env clock rec load s target = .ok j) (key : String) (hkey : j.HasFold key) :
    ∃ (data d' : ScoreData K α φ ε) (dm : List K) (rows : List (List α)) (sc : List K) (trainI testI : List Nat)
      (g g' : γ) (m : M) (res : Dict String (J V)) (esc : Pred K),
      load s.trainFile s.scoreDomain = .ok (data, dm) ∧ ScoreBuilt data rows sc ∧
      IsFold rows.length trainI testI ∧
      (∀ u, ((eventsOf rows u (List.range rows.length) : Nat) : K) / 5 ≤ eventsOf rows u testI ∧
        ((eventsOf rows u testI : Nat) : K) < (eventsOf rows u (List.range rows.length) : Nat) / 5 + 1) ∧
      ScoreBuilt d' (gather rows trainI) (gather sc trainI) ∧
      d'.eventFeature = data.eventFeature.map (fun f => gather f trainI) ∧
      rec.fit g d' = .ok (m, res, g') ∧ rec.predict m (gather rows testI) = .ok esc ∧
      j.path ["prediction", "event", key] = .ok (encEvents env (gather rows testI)) ∧
      j.path ["prediction", "true", key] = .ok (encScores env (gather sc testI)) ∧
      j.path ["prediction", "predicted", key] = .ok (encPred env esc) ∧
      j.path ["prediction", "mask", key] = .ok (encIndex env testI) ∧
      (∀ f, data.eventFeature = some f → ∀ k ∈ env.names,
        j.path ["prediction", "event_feature", k, key] = .ok (encFeature env k (gather f testI))) ∧
      j.path ["test", "results", key, "n_events"] = .ok (.leaf (env.nat testI.length)) ∧
      (res.keys.Nodup → ∀ k v, res.get? k = some v → j.path ["training", "results", key, k] = .ok v) := by
  obtain ⟨data, dm, ev, sc, users, items, groups, l, hl, hsc, hj, hf, hr⟩ := doTask_cv hcv hload.score h
  obtain ⟨rows, sc', hb⟩ := hload _ _ _ _ hl.load
  have hev : ev = rows := by
    have := externalEvents_built hb.inv.1
    rw [hl.events] at this
    simpa using this
  subst hev
  have hs : sc' = sc := by
    have := hb.inv.2.1
    rw [hsc] at this
    simpa using this.symm
  subst hs
  rw [hj, hasFold_tree] at hkey
  obtain ⟨x, hx, rfl⟩ := List.mem_map.1 hkey
  have hx0 := hx
  obtain ⟨r, hrl, rfl⟩ := List.mem_map.1 hx
  obtain ⟨hd, g, d', m, g', f1, f2, f3⟩ := hr r hrl
  have hnd : ((l.map (recOf env ev sc' data.eventFeature)).map (·.key)).Nodup := by
    have : (l.map (recOf env ev sc' data.eventFeature)).map (·.key) = (l.map (·.fold)).map Nat.repr := by
      simp [recOf]
    rw [this, hf]
    refine List.Nodup.map (fun a b h => Nat.repr_injective h) ?_
    unfold wanted
    exact List.Nodup.filter _ (List.nodup_range')
  have hcol := column_zero hl.groups
  have hlen : groups.length = ev.length := by simpa using (congrArg List.length hcol).symm
  have hfold := hd.isFold
  rw [hlen] at hfold
  have hti : ∀ i ∈ r.trainI, i < ev.length := fun i hi => ((hfold.train_iff i).1 hi).1
  refine ⟨data, d', dm, ev, sc', r.trainI, r.testI, g, g', m, r.res, r.esc, hl.load, hb, hfold, ?_,
    filter_built hb hti f1, ?_, f2, f3, ?_, ?_, ?_, ?_, ?_, ?_, ?_⟩
  · intro u
    rw [eventsOf_all hcol, eventsOf_groups hcol]
    by_cases hu : u ∈ groups
    · have := testCount_drawn hd hu
      simp only [cvConfig, Split.Size.spec] at this
      cases this with
      | frac q _ t h₁ h₂ =>
        constructor
        · calc ((groups.count u : Nat) : K) / 5 = 1 / 5 * (groups.count u : Nat) := by ring
            _ ≤ _ := h₁
        · calc _ < 1 / 5 * ((groups.count u : Nat) : K) + 1 := h₂
            _ = _ := by ring
    · have h0 : groups.count u = 0 := List.count_eq_zero.2 hu
      have h1 : inGroup groups u r.testI = 0 := by
        unfold inGroup
        rw [List.length_eq_zero_iff, List.filter_eq_nil_iff]
        intro i _
        simp only [decide_eq_true_eq]
        intro e
        exact hu (List.mem_of_getElem? e)
      rw [h0, h1]
      simp
  · exact filter_feature hb hti f1
  · rw [hj, path_event _ _ hnd hx0]; rfl
  · rw [hj, path_true _ _ hnd hx0]; rfl
  · rw [hj, path_predicted _ _ hnd hx0]; rfl
  · rw [hj, path_mask _ _ hnd hx0]; rfl
  · intro f hff k hk
    rw [hj, path_feature _ _ hnd hx0]
    simp [headOf, hff, hk, recOf]
  · have e := path_test (headOf env s dm data users items) _ hnd hx0
    rw [hj]
    rw [path_last, e, ok_bind]
    have hg : (gather ev r.testI).length = r.testI.length := length_gather _ _ hfold.test_lt
    simp [recOf, FD.test, J.item, Dict.getItem, Dict.get?, hg]
  · intro hres k v hv
    have e := path_training (headOf env s dm data users items) _ hnd hx0
    rw [hj]
    rw [path_last, e, ok_bind]
    show Dict.getItem (r.training env) k = .ok v
    have : (r.training env).get? k = some v := by
      unfold FD.training
      rw [get?_update, get?_reverse hres, hv]
    unfold Dict.getItem
    rw [this]

/-- C61: a cross validation has the folds `0, ..., n_folds - 1`, or the one asked for. -/
theorem C61_folds {env : Env K α ε F V T γ} {clock : Nat → T} {rec : Recommender K α φ ε V γ M}
    {load : Loader K α φ ε F} {s : Setting K F V} {target : Option Int} {j : J V} (hload : Loads load)
    (hcv : s.cv = true) (h : doTask env clock rec load s target = .ok j) (key : String) :
    j.HasFold key ↔ ∃ i : Nat, (i : Int) < s.nFolds ∧ (∀ t, target = some t → t = i) ∧ key = Nat.repr i := by
  obtain ⟨data, dm, ev, sc, users, items, groups, l, hl, hsc, hj, hf, hr⟩ := doTask_cv hcv hload.score h
  have e : (l.map (recOf env ev sc data.eventFeature)).map (·.key) = (l.map (·.fold)).map Nat.repr := by simp [recOf]
  rw [hj, hasFold_tree, e, hf]
  unfold wanted
  constructor
  · intro hm
    obtain ⟨i, hi, rfl⟩ := List.mem_map.1 hm
    rw [List.mem_filter, List.mem_range'_1] at hi
    refine ⟨i, by omega, ?_, rfl⟩
    rintro t rfl
    have := hi.2
    simp at this
    exact this.symm
  · rintro ⟨i, hi, ht, rfl⟩
    refine List.mem_map.2 ⟨i, ?_, rfl⟩
    rw [List.mem_filter, List.mem_range'_1]
    refine ⟨by omega, ?_⟩
    cases target with
    | none => simp
    | some t => simp [ht t rfl]

end Kam.Scripts
