import Verif.Split.Model
import Verif.Split.Spec
import Verif.Py.Lemmas

set_option linter.unusedSectionVars false

namespace Kam.Split

variable {α : Type} [LinearOrder α]

/-! ### masks -/

@[simp] theorem length_setTrue (idx : List Nat) (m : List Bool) :
    (setTrue m idx).length = m.length := by
  unfold setTrue
  induction idx generalizing m with
  | nil => rfl
  | cons i is ih => simp [ih]

theorem getD_setTrue (idx : List Nat) (m : List Bool) (i : Nat) :
    (setTrue m idx).getD i false = (m.getD i false || decide (i ∈ idx ∧ i < m.length)) := by
  unfold setTrue
  induction idx generalizing m with
  | nil => simp
  | cons j js ih =>
    rw [List.foldl_cons, ih]
    simp only [List.length_set, List.mem_cons, List.getD_eq_getElem?_getD, List.getElem?_set]
    by_cases hji : j = i
    · subst hji
      by_cases hl : j < m.length
      · simp [hl]
      · simp [hl]
    · have : ¬ i = j := fun h => hji h.symm
      simp [hji, this]

theorem getD_foldl_setTrue (Bs : List (List Nat)) (m : List Bool) (i : Nat) :
    (Bs.foldl setTrue m).getD i false =
      (m.getD i false || decide ((∃ B ∈ Bs, i ∈ B) ∧ i < m.length)) := by
  induction Bs generalizing m with
  | nil => simp
  | cons B Bs ih =>
    rw [List.foldl_cons, ih, getD_setTrue, length_setTrue]
    by_cases hl : i < m.length <;> by_cases hB : i ∈ B <;> simp [hl, hB]

theorem mem_members (groups : List α) (g : α) (i : Nat) :
    i ∈ members groups g ↔ groups[i]? = some g := by
  unfold members
  simp only [List.mem_filter, List.mem_range, decide_eq_true_eq]
  constructor
  · exact fun h => h.2
  · intro h
    refine ⟨?_, h⟩
    by_contra hge
    rw [List.getElem?_eq_none (by omega)] at h
    cases h

theorem sorted_range (n : Nat) : (List.range n).Pairwise (· < ·) := List.pairwise_lt_range

theorem sorted_members (groups : List α) (g : α) : (members groups g).Pairwise (· < ·) :=
  (sorted_range _).filter _

theorem nodup_members (groups : List α) (g : α) : (members groups g).Nodup :=
  (sorted_members groups g).imp (fun h => ne_of_lt h)

theorem length_members (groups : List α) (g : α) :
    (members groups g).length = groups.count g := by
  have key : ∀ (l : List α) (k : Nat),
      ((List.range' k l.length).filter (fun i => decide (l[i - k]? = some g))).length
        = l.count g := by
    intro l
    induction l with
    | nil => intro k; simp
    | cons x xs ih =>
      intro k
      rw [List.length_cons, List.range'_succ, List.filter_cons, List.count_cons, ← ih (k + 1)]
      have : (List.range' (k + 1) xs.length).filter
            (fun i => decide ((x :: xs)[i - k]? = some g))
          = (List.range' (k + 1) xs.length).filter
            (fun i => decide (xs[i - (k + 1)]? = some g)) := by
        apply List.filter_congr
        intro i hi
        rw [List.mem_range'_1] at hi
        have : i - k = (i - (k + 1)) + 1 := by omega
        rw [this, List.getElem?_cons_succ]
      rw [this]
      by_cases hx : x = g
      · simp [hx]
      · simp [hx]
  have := key groups 0
  unfold members
  rw [List.range_eq_range']
  simpa using this

/-- A fold made from a mask is a fold. -/
theorem isFold_of_mask (n : Nat) (m : List Bool) :
    Spec.IsFold n ((List.range n).filter (fun i => !(m.getD i false)))
      ((List.range n).filter (fun i => m.getD i false)) where
  train_sorted := (sorted_range n).filter _
  test_sorted := (sorted_range n).filter _
  test_lt := by
    intro i hi
    simpa using (List.mem_filter.1 hi).1
  train_iff := by
    intro i
    simp only [List.mem_filter, List.mem_range, Bool.not_eq_true']
    constructor
    · rintro ⟨h, h'⟩
      refine ⟨h, ?_⟩
      rintro ⟨-, h''⟩
      rw [h'] at h''
      cases h''
    · rintro ⟨h, h'⟩
      refine ⟨h, ?_⟩
      cases hm : m.getD i false with
      | false => rfl
      | true => exact absurd ⟨h, hm⟩ h'

/-- The test indices of a mask that marks, for every group `gs[j]`, the block `Bs[j]` of
members of that group. -/
theorem mem_test {groups : List α} {gs : List α} {Bs : List (List Nat)}
    (h : List.Forall₂ (fun g B => ∀ i ∈ B, i ∈ members groups g) gs Bs) (i : Nat) :
    i ∈ (List.range groups.length).filter
        (fun i => (Bs.foldl setTrue (List.replicate groups.length false)).getD i false)
      ↔ ∃ B ∈ Bs, i ∈ B := by
  have hrep : (List.replicate groups.length false).getD i false = false := by
    simp [List.getD_eq_getElem?_getD, List.getElem?_replicate]
    split <;> rfl
  simp only [List.mem_filter, List.mem_range, getD_foldl_setTrue, List.length_replicate, hrep,
    Bool.false_or, decide_eq_true_eq]
  constructor
  · rintro ⟨-, h, -⟩; exact h
  · rintro ⟨B, hB, hi⟩
    have : i < groups.length := by
      obtain ⟨j, hj, rfl⟩ := List.mem_iff_getElem.1 hB
      have hgs : j < gs.length := by rw [h.length_eq]; exact hj
      have := (List.forall₂_iff_get.1 h).2 j hgs hj i hi
      rw [mem_members] at this
      by_contra hge
      rw [List.getElem?_eq_none (by omega)] at this
      cases this
    exact ⟨this, ⟨B, hB, hi⟩, this⟩

/-- Restricted to one group, they are the block of that group. -/
theorem test_inGroup {groups : List α} {gs : List α} (hnd : gs.Nodup) {Bs : List (List Nat)}
    (h : List.Forall₂ (fun g B => ∀ i ∈ B, i ∈ members groups g) gs Bs)
    {j : Nat} {g : α} {B : List Nat} (hg : gs[j]? = some g) (hB : Bs[j]? = some B)
    (hBnd : B.Nodup) :
    (((List.range groups.length).filter
        (fun i => (Bs.foldl setTrue (List.replicate groups.length false)).getD i false)).filter
        (fun i => decide (groups[i]? = some g))).Perm B := by
  rw [List.perm_ext_iff_of_nodup]
  · intro i
    rw [List.mem_filter, mem_test h, decide_eq_true_eq]
    obtain ⟨hj, hgj⟩ := List.getElem?_eq_some_iff.1 hg
    obtain ⟨hj', hBj⟩ := List.getElem?_eq_some_iff.1 hB
    constructor
    · rintro ⟨⟨B', hB', hi⟩, hl⟩
      obtain ⟨j', hj'', rfl⟩ := List.mem_iff_getElem.1 hB'
      have hgs : j' < gs.length := by rw [h.length_eq]; exact hj''
      have := (List.forall₂_iff_get.1 h).2 j' hgs hj'' i hi
      rw [mem_members, hl] at this
      have hgg : gs[j'] = gs[j] := by
        rw [hgj]
        simpa using this.symm
      have : j' = j := (List.Nodup.getElem_inj_iff hnd).1 hgg
      subst this
      rwa [hBj] at hi
    · intro hi
      refine ⟨⟨B, by rw [← hBj]; exact List.getElem_mem hj', hi⟩, ?_⟩
      have := (List.forall₂_iff_get.1 h).2 j hj hj' i (by simpa [hBj] using hi)
      rw [mem_members] at this
      rw [this]
      simpa using hgj
  · exact (List.nodup_range.filter _).filter _
  · exact hBnd

theorem nodup_gather {β : Type} {a : List β} (ha : a.Nodup) {js : List Nat} (hjs : js.Nodup) :
    (gather a js).Nodup := by
  unfold gather
  refine hjs.filterMap ?_
  intro i j b hi hj
  rw [Option.mem_def] at hi hj
  obtain ⟨hi', hib⟩ := List.getElem?_eq_some_iff.1 hi
  obtain ⟨hj', hjb⟩ := List.getElem?_eq_some_iff.1 hj
  exact (List.Nodup.getElem_inj_iff ha).1 (hib.trans hjb.symm)

theorem mem_gather_iff {β : Type} {a : List β} {js : List Nat} {x : β} :
    x ∈ gather a js ↔ ∃ j ∈ js, a[j]? = some x := by
  unfold gather
  simp

/-! ### `KFold` -/

theorem sum_kfoldSizes {n k : Nat} (hk : 0 < k) : (kfoldSizes n k).sum = n := by
  have key : ∀ (k r q : Nat), ((List.range k).map (fun f => q + if f < r then 1 else 0)).sum
      = k * q + min k r := by
    intro k r q
    induction k with
    | zero => simp
    | succ k ih =>
      rw [List.range_succ, List.map_append, List.sum_append, ih]
      simp only [List.map_cons, List.map_nil, List.sum_cons, List.sum_nil, Nat.add_zero,
        Nat.succ_mul]
      split <;> omega
  unfold kfoldSizes
  rw [key, Nat.min_eq_right (Nat.mod_lt n hk).le]
  exact Nat.div_add_mod n k

theorem length_kfoldSlices (idx : List Nat) (cur : Nat) (sizes : List Nat) :
    (kfoldSlices idx cur sizes).length = sizes.length := by
  induction sizes generalizing cur with
  | nil => rfl
  | cons s ss ih => simp [kfoldSlices, ih]

theorem flatten_kfoldSlices (idx : List Nat) (cur : Nat) (sizes : List Nat)
    (h : cur + sizes.sum = idx.length) : (kfoldSlices idx cur sizes).flatten = idx.drop cur := by
  induction sizes generalizing cur with
  | nil =>
    simp only [List.sum_nil, Nat.add_zero] at h
    simp [kfoldSlices, h]
  | cons s ss ih =>
    rw [List.sum_cons] at h
    rw [kfoldSlices, List.flatten_cons, ih (cur + s) (by omega)]
    conv_rhs => rw [← List.take_append_drop s (idx.drop cur)]
    rw [List.drop_drop]

theorem length_getElem_kfoldSlices (idx : List Nat) (cur : Nat) (sizes : List Nat)
    (h : cur + sizes.sum ≤ idx.length) (f : Nat) {t : List Nat}
    (ht : (kfoldSlices idx cur sizes)[f]? = some t) : sizes[f]? = some t.length := by
  induction sizes generalizing cur f with
  | nil => simp [kfoldSlices] at ht
  | cons s ss ih =>
    rw [List.sum_cons] at h
    cases f with
    | zero =>
      simp only [kfoldSlices, List.getElem?_cons_zero, Option.some.injEq] at ht ⊢
      subst ht
      simp
      omega
    | succ f =>
      simp only [kfoldSlices, List.getElem?_cons_succ] at ht ⊢
      exact ih (cur + s) (by omega) f ht

/-- What `KFold.split` delivers: `k` test sets, each a set of positions below `n`, every
position in exactly one of them, of the prescribed sizes. -/
structure GoodFolds (n k : Nat) (tests : List (List Nat)) : Prop where
  length : tests.length = k
  nodup : ∀ t ∈ tests, t.Nodup
  lt : ∀ t ∈ tests, ∀ p ∈ t, p < n
  cover : ∀ p, p < n → ∃! f : Nat, ∃ t, tests[f]? = some t ∧ p ∈ t
  size : ∀ (f : Nat) t, tests[f]? = some t → t.length = n / k + if f < n % k then 1 else 0

theorem kfold_good {γ : Type} (rng : Rng γ) {k : Nat} (hk : 0 < k) (shuffle : Bool) (s : γ)
    {n : Nat} (hn : k ≤ n) :
    ∃ tests s', kfold rng k shuffle s n = .ok (tests, s') ∧ GoodFolds n k tests := by
  unfold kfold
  rw [if_neg (by omega)]
  generalize hp : (if shuffle then rng.shuffle s n else (List.range n, s)) = p
  have hperm : p.1.Perm (List.range n) := by
    subst hp
    cases shuffle
    · exact List.Perm.refl _
    · exact rng.perm s n
  obtain ⟨idx, s'⟩ := p
  simp only at hperm
  have hidxnd : idx.Nodup := hperm.nodup_iff.2 List.nodup_range
  have hlen : idx.length = n := by simpa using hperm.length_eq
  have hsum : 0 + (kfoldSizes n k).sum = idx.length := by rw [sum_kfoldSizes hk, hlen]; omega
  have hflat : (kfoldSlices idx 0 (kfoldSizes n k)).flatten = idx := by
    rw [flatten_kfoldSlices _ _ _ hsum]; rfl
  have hmemidx : ∀ i, i ∈ idx ↔ i < n := fun i => by rw [hperm.mem_iff]; simp
  have hmem : ∀ t, t ∈ kfoldSlices idx 0 (kfoldSizes n k) → ∀ i ∈ t, i < n := by
    intro t ht i hi
    rw [← hmemidx, ← hflat]
    exact List.mem_flatten.2 ⟨t, ht, hi⟩
  have hfl : (kfoldSlices idx 0 (kfoldSizes n k)).flatten.Nodup := by rw [hflat]; exact hidxnd
  obtain ⟨hnd, hdisj⟩ := List.nodup_flatten.1 hfl
  refine ⟨_, s', rfl, ?_⟩
  have hsame : ∀ t, t ∈ kfoldSlices idx 0 (kfoldSizes n k) → ∀ i,
      i ∈ (List.range n).filter (fun i => decide (i ∈ t)) ↔ i ∈ t := by
    intro t ht i
    simp only [List.mem_filter, List.mem_range, decide_eq_true_eq]
    exact ⟨fun h => h.2, fun h => ⟨hmem t ht i h, h⟩⟩
  refine ⟨?_, ?_, ?_, ?_, ?_⟩
  · rw [List.length_map, length_kfoldSlices]; simp [kfoldSizes]
  · intro t ht
    obtain ⟨t', _, rfl⟩ := List.mem_map.1 ht
    exact List.nodup_range.filter _
  · intro t ht p hp
    obtain ⟨t', _, rfl⟩ := List.mem_map.1 ht
    simpa using (List.mem_filter.1 hp).1
  · intro p hp
    have : p ∈ (kfoldSlices idx 0 (kfoldSizes n k)).flatten := by rw [hflat, hmemidx]; exact hp
    obtain ⟨t, ht, hpt⟩ := List.mem_flatten.1 this
    obtain ⟨f, hf, hft⟩ := List.mem_iff_getElem.1 ht
    have hfs : (kfoldSlices idx 0 (kfoldSizes n k))[f]? = some t :=
      List.getElem?_eq_some_iff.2 ⟨hf, hft⟩
    refine ⟨f, ⟨(List.range n).filter (fun i => decide (i ∈ t)), by simp [hfs],
      (hsame t ht p).2 hpt⟩, ?_⟩
    rintro f' ⟨t₂, hf', hp'⟩
    rw [List.getElem?_map, Option.map_eq_some_iff] at hf'
    obtain ⟨t', ht', rfl⟩ := hf'
    have hpt' := (hsame t' (List.mem_of_getElem? ht') p).1 hp'
    obtain ⟨hlf', hft'⟩ := List.getElem?_eq_some_iff.1 ht'
    rw [List.pairwise_iff_getElem] at hdisj
    rcases Nat.lt_trichotomy f' f with hlt | heq | hgt
    · exact absurd hpt (hdisj f' f hlf' hf hlt (by rw [hft']; exact hpt') |> fun h => by
        simpa [hft] using h)
    · exact heq
    · exact absurd hpt' (hdisj f f' hf hlf' hgt (by rw [hft]; exact hpt) |> fun h => by
        simpa [hft'] using h)
  · intro f t ht
    rw [List.getElem?_map, Option.map_eq_some_iff] at ht
    obtain ⟨t', ht', rfl⟩ := ht
    have hsz := length_getElem_kfoldSlices _ _ _ hsum.le f ht'
    have hl : ((List.range n).filter (fun i => decide (i ∈ t'))).length = t'.length := by
      apply List.Perm.length_eq
      rw [List.perm_ext_iff_of_nodup (List.nodup_range.filter _)
        (hnd t' (List.mem_of_getElem? ht'))]
      exact hsame t' (List.mem_of_getElem? ht')
    rw [hl]
    unfold kfoldSizes at hsz
    rw [List.getElem?_map, Option.map_eq_some_iff] at hsz
    obtain ⟨f', hf', hsz⟩ := hsz
    obtain ⟨hlt, hff⟩ := List.getElem?_eq_some_iff.1 hf'
    rw [List.getElem_range] at hff
    subst hff
    exact hsz.symm

theorem kfoldGroups_good {γ : Type} (rng : Rng γ) {k : Nat} (hk : 0 < k) (shuffle : Bool)
    (groups : List α) (gs : List α) (s : γ) (h : ∀ g ∈ gs, k ≤ groups.count g) :
    ∃ iters, kfoldGroups rng k shuffle groups s gs = .ok iters ∧ iters.map (·.1) = gs ∧
      ∀ it ∈ iters, GoodFolds (groups.count it.1) k it.2 := by
  induction gs generalizing s with
  | nil => exact ⟨[], rfl, rfl, by simp⟩
  | cons g gs ih =>
    obtain ⟨tests, s', he, hgood⟩ := kfold_good rng hk shuffle s (h g (by simp))
    obtain ⟨iters, he', hm, hall⟩ := ih s' (fun g hg => h g (by simp [hg]))
    refine ⟨(g, tests) :: iters, ?_, by simp [hm], ?_⟩
    · unfold kfoldGroups
      rw [length_members, he]
      simp only [he']
    · intro it hit
      rcases List.mem_cons.1 hit with rfl | hit
      · exact hgood
      · exact hall it hit

theorem kfoldGroups_error {γ : Type} (rng : Rng γ) {k : Nat} (hk : 0 < k) (shuffle : Bool)
    (groups : List α) (gs : List α) (s : γ) (h : ∃ g ∈ gs, groups.count g < k) :
    kfoldGroups rng k shuffle groups s gs = .error .valueError := by
  induction gs generalizing s with
  | nil => simp at h
  | cons g gs ih =>
    unfold kfoldGroups
    rw [length_members]
    by_cases hg : groups.count g < k
    · have : kfold rng k shuffle s (groups.count g) = .error .valueError := by
        unfold kfold; rw [if_pos hg]
      rw [this]
    · obtain ⟨tests, s', he, hgood⟩ := kfold_good rng hk shuffle s (Nat.le_of_not_lt hg)
      rw [he]
      have : ∃ g ∈ gs, groups.count g < k := by
        obtain ⟨g', hg', hlt⟩ := h
        rcases List.mem_cons.1 hg' with rfl | hg'
        · exact absurd hlt hg
        · exact ⟨g', hg', hlt⟩
      simp only [ih s' this]

/-- The mask of fold `f` marks the `f`-th block of every group. -/
theorem kfoldMask_ok (groups : List α) {k : Nat} {f : Nat} (hf : f < k)
    (iters : List (α × List (List Nat))) (h : ∀ it ∈ iters, it.2.length = k)
    (mask : List Bool) :
    kfoldMask groups f mask iters = .ok
      ((iters.map (fun it => gather (members groups it.1) (it.2.getD f []))).foldl
        setTrue mask) := by
  induction iters generalizing mask with
  | nil => rfl
  | cons it rest ih =>
    obtain ⟨g, tests⟩ := it
    have hl : tests.length = k := h (g, tests) (by simp)
    have ht : tests[f]? = some (tests.getD f []) := by
      rw [List.getD_eq_getElem?_getD, List.getElem?_eq_getElem (by omega)]
      rfl
    unfold kfoldMask
    rw [ht]
    simp only [List.map_cons, List.foldl_cons]
    exact ih (fun it hit => h it (by simp [hit])) _

end Kam.Split
