/-
C49, C50: `ShuffleSplitWithinGroups`.
-/
import Verif.Split.Props
import Mathlib.Data.Rat.Floor
import Mathlib.Tactic.Linarith
import Mathlib.Tactic.NormNum

set_option linter.unusedSectionVars false

namespace Kam.Split

variable {α : Type} [LinearOrder α]
variable {K : Type} [Field K] [LinearOrder K] [IsStrictOrderedRing K] [FloorRing K]

/-- The argument as the specification sees it. -/
def Size.spec : Size K → Option (Int ⊕ K)
  | .none => Option.none
  | .int c => some (.inl c)
  | .frac q => some (.inr q)

theorem sizeInRange_iff (m : Nat) (a : Size K) :
    sizeInRange m a = true ↔ Spec.SizeOk m a.spec := by
  cases a <;> simp [sizeInRange, Spec.SizeOk, Size.spec]

theorem finish_ok {m : Nat} {r t r' t' : Int} :
    validateSplit.finish m r t = .ok (r', t') ↔ r' = r ∧ t' = t ∧ r + t ≤ m ∧ r ≠ 0 := by
  unfold validateSplit.finish
  by_cases h1 : r + t > m
  · rw [if_pos h1]
    constructor
    · intro h; cases h
    · rintro ⟨_, _, h, _⟩; omega
  · rw [if_neg h1]
    by_cases h2 : r = 0
    · rw [if_pos h2]
      constructor
      · intro h; cases h
      · rintro ⟨_, _, _, h⟩; exact absurd h2 h
    · rw [if_neg h2]
      constructor
      · intro h
        cases h
        exact ⟨rfl, rfl, by omega, h2⟩
      · rintro ⟨rfl, rfl, _, _⟩; rfl

theorem finish_error {m : Nat} {r t : Int} {e : Exc}
    (h : validateSplit.finish m r t = .error e) : e = .valueError := by
  unfold validateSplit.finish at h
  split at h
  · cases h; rfl
  · split at h
    · cases h; rfl
    · cases h

theorem validateSplit_error {m : Nat} {a b : Size K} {e : Exc}
    (h : validateSplit m a b = .error e) : e = .valueError := by
  unfold validateSplit at h
  split at h
  · cases h; rfl
  · cases a <;> cases b <;> simp only at h
    case isFalse.none.none => cases h; rfl
    all_goals exact finish_error h

theorem ceil_nat {m : Nat} {q : K} (_hq : 0 < q) (t : Nat) :
    ⌈q * (m : K)⌉ = (t : Int) ↔ q * (m : K) ≤ t ∧ (t : K) < q * (m : K) + 1 := by
  rw [Int.ceil_eq_iff]
  push_cast
  constructor
  · rintro ⟨h1, h2⟩; exact ⟨h2, by linarith⟩
  · rintro ⟨h1, h2⟩; exact ⟨by linarith, h1⟩

theorem floor_nat {m : Nat} {q : K} (r : Nat) :
    ⌊q * (m : K)⌋ = (r : Int) ↔ (r : K) ≤ q * (m : K) ∧ q * (m : K) < r + 1 := by
  rw [Int.floor_eq_iff]
  push_cast
  rfl

theorem ceil_nonneg' {m : Nat} {q : K} (hq : 0 < q) : 0 ≤ ⌈q * (m : K)⌉ :=
  Int.ceil_nonneg (mul_nonneg hq.le (Nat.cast_nonneg m))

theorem floor_nonneg' {m : Nat} {q : K} (hq : 0 < q) : 0 ≤ ⌊q * (m : K)⌋ :=
  Int.floor_nonneg.2 (mul_nonneg hq.le (Nat.cast_nonneg m))

theorem ceil_le' {m : Nat} {q : K} (hq : q < 1) : ⌈q * (m : K)⌉ ≤ (m : Int) := by
  rw [Int.ceil_le]
  push_cast
  have : (0 : K) ≤ m := Nat.cast_nonneg m
  nlinarith

/-- `_validate_shuffle_split` accepts exactly the sizes that fit, and returns the prescribed
numbers. -/
theorem validateSplit_ok_iff {m : Nat} {a b : Size K} {r t : Nat} :
    validateSplit m a b = .ok ((r : Int), (t : Int)) ↔
      Spec.SizeOk m a.spec ∧ Spec.SizeOk m b.spec ∧ Spec.TestCount m a.spec b.spec t ∧
        Spec.TrainCount m a.spec b.spec r ∧ 0 < r ∧ t + r ≤ m := by
  rw [← sizeInRange_iff, ← sizeInRange_iff]
  unfold validateSplit
  by_cases hr : sizeInRange m a = true ∧ sizeInRange m b = true
  swap
  · rw [if_pos (by
      rw [not_and_or] at hr
      simpa using hr)]
    constructor
    · intro h; cases h
    · rintro ⟨h1, h2, _⟩; exact absurd ⟨h1, h2⟩ hr
  obtain ⟨ha, hb⟩ := hr
  rw [if_neg (by simp [ha, hb])]
  simp only [ha, hb, true_and]
  cases a with
  | none =>
    cases b with
    | none =>
      simp only [Size.spec]
      constructor
      · intro h; cases h
      · rintro ⟨h, _⟩; cases h
    | int c =>
      simp only [Size.spec, finish_ok]
      constructor
      · rintro ⟨rfl, h2, h3, h4⟩
        exact ⟨.restInt r t (by omega), .int r _, by omega, by omega⟩
      · rintro ⟨h1, h2, h3, h4⟩
        cases h2
        cases h1 with
        | restInt c t' h => exact ⟨rfl, by omega, by omega, by omega⟩
    | frac q =>
      have hq : 0 < q ∧ q < 1 := by simpa [sizeInRange] using hb
      simp only [Size.spec, finish_ok]
      constructor
      · rintro ⟨h1, h2, h3, h4⟩
        have hf := (floor_nat r).1 h1.symm
        exact ⟨.restFrac q r t hf.1 hf.2 (by omega), .frac q _ r hf.1 hf.2, by omega, by omega⟩
      · rintro ⟨h1, h2, h3, h4⟩
        cases h2 with
        | frac _ _ _ g1 g2 =>
          have hf := (floor_nat r).2 ⟨g1, g2⟩
          cases h1 with
          | restFrac _ r' _ g3 g4 g =>
            have hf' := (floor_nat r').2 ⟨g3, g4⟩
            have : r' = r := by exact_mod_cast hf'.symm.trans hf
            exact ⟨hf.symm, by omega, by omega, by omega⟩
  | int c =>
    have hc : 0 < c ∧ c < m := by simpa [sizeInRange] using ha
    cases b with
    | none =>
      simp only [Size.spec, finish_ok]
      constructor
      · rintro ⟨h1, rfl, h3, h4⟩
        exact ⟨.int t _, .rest _ t r (.int t _) (by omega), by omega, by omega⟩
      · rintro ⟨h1, h2, h3, h4⟩
        cases h1
        cases h2 with
        | rest _ t' _ g g' =>
          generalize hx : (some (Sum.inl (t : Int)) : Option (Int ⊕ K)) = x at g
          generalize hy : (Option.none : Option (Int ⊕ K)) = y at g
          cases g with
          | int _ _ =>
            have : (t : Int) = t' := by simpa using hx
            exact ⟨by omega, rfl, by omega, by omega⟩
          | frac => simp at hx
          | restInt => simp at hx
          | restFrac => simp at hx
    | int d =>
      simp only [Size.spec, finish_ok]
      constructor
      · rintro ⟨rfl, rfl, h3, h4⟩
        exact ⟨.int t _, .int r _, by omega, by omega⟩
      · rintro ⟨h1, h2, h3, h4⟩
        cases h1; cases h2
        exact ⟨rfl, rfl, by omega, by omega⟩
    | frac q =>
      simp only [Size.spec, finish_ok]
      constructor
      · rintro ⟨h1, rfl, h3, h4⟩
        have hf := (floor_nat r).1 h1.symm
        exact ⟨.int t _, .frac q _ r hf.1 hf.2, by omega, by omega⟩
      · rintro ⟨h1, h2, h3, h4⟩
        cases h1
        cases h2 with
        | frac _ _ _ g1 g2 =>
          have hf := (floor_nat r).2 ⟨g1, g2⟩
          exact ⟨hf.symm, rfl, by omega, by omega⟩
  | frac q =>
    have hq : 0 < q ∧ q < 1 := by simpa [sizeInRange] using ha
    cases b with
    | none =>
      simp only [Size.spec, finish_ok]
      constructor
      · rintro ⟨h1, h2, h3, h4⟩
        have hf := (ceil_nat hq.1 t).1 h2.symm
        exact ⟨.frac q _ t hf.1 hf.2, .rest _ t r (.frac q _ t hf.1 hf.2) (by omega),
          by omega, by omega⟩
      · rintro ⟨h1, h2, h3, h4⟩
        cases h1 with
        | frac _ _ _ g1 g2 =>
          have hf := (ceil_nat hq.1 t).2 ⟨g1, g2⟩
          cases h2 with
          | rest _ t' _ g g' =>
            cases g with
            | frac _ _ _ g3 g4 =>
              have hf' := (ceil_nat hq.1 t').2 ⟨g3, g4⟩
              have : t' = t := by exact_mod_cast hf'.symm.trans hf
              exact ⟨by omega, hf.symm, by omega, by omega⟩
    | int d =>
      simp only [Size.spec, finish_ok]
      constructor
      · rintro ⟨rfl, h2, h3, h4⟩
        have hf := (ceil_nat hq.1 t).1 h2.symm
        exact ⟨.frac q _ t hf.1 hf.2, .int r _, by omega, by omega⟩
      · rintro ⟨h1, h2, h3, h4⟩
        cases h2
        cases h1 with
        | frac _ _ _ g1 g2 =>
          have hf := (ceil_nat hq.1 t).2 ⟨g1, g2⟩
          exact ⟨rfl, hf.symm, by omega, by omega⟩
    | frac q' =>
      simp only [Size.spec, finish_ok]
      constructor
      · rintro ⟨h1, h2, h3, h4⟩
        have hf := (ceil_nat hq.1 t).1 h2.symm
        have hf' := (floor_nat r).1 h1.symm
        exact ⟨.frac q _ t hf.1 hf.2, .frac q' _ r hf'.1 hf'.2, by omega, by omega⟩
      · rintro ⟨h1, h2, h3, h4⟩
        cases h1 with
        | frac _ _ _ g1 g2 =>
          have hf := (ceil_nat hq.1 t).2 ⟨g1, g2⟩
          cases h2 with
          | frac _ _ _ g3 g4 =>
            have hf' := (floor_nat r).2 ⟨g3, g4⟩
            exact ⟨hf'.symm, hf.symm, by omega, by omega⟩

/-- The numbers returned are natural numbers. -/
theorem validateSplit_nonneg {m : Nat} {a b : Size K} {r t : Int}
    (h : validateSplit m a b = .ok (r, t)) : 0 ≤ r ∧ 0 ≤ t := by
  unfold validateSplit at h
  split at h
  · cases h
  · rename_i hr
    rw [Bool.or_eq_true, not_or] at hr
    simp only [Bool.not_eq_true, Bool.not_eq_false'] at hr
    obtain ⟨ha, hb⟩ := hr
    cases a <;> cases b <;> simp only [sizeInRange, decide_eq_true_eq] at ha hb <;>
      simp only at h
    case none.none => cases h
    case frac.none q =>
      obtain ⟨rfl, rfl, _, _⟩ := finish_ok.1 h
      exact ⟨by have := ceil_le' (m := m) ha.2; omega, ceil_nonneg' ha.1⟩
    case none.frac q =>
      obtain ⟨rfl, rfl, _, _⟩ := finish_ok.1 h
      refine ⟨floor_nonneg' hb.1, ?_⟩
      have h1 := ceil_le' (m := m) hb.2
      have h2 := Int.floor_le_ceil (q * (m : K))
      omega
    all_goals
      obtain ⟨rfl, rfl, _, _⟩ := finish_ok.1 h
      first
        | exact ⟨by omega, by omega⟩
        | exact ⟨by omega, ceil_nonneg' ha.1⟩
        | exact ⟨floor_nonneg' hb.1, by omega⟩
        | exact ⟨floor_nonneg' hb.1, ceil_nonneg' ha.1⟩

/-- `train_test_split` of `arr`: when the sizes fit, the test part consists of the prescribed
number of distinct elements; otherwise `ValueError`. -/
theorem trainTestSplit_ok {γ : Type} (rng : Rng γ) (c : ShuffleConfig K) (s : γ)
    {arr : List Nat} (hnd : arr.Nodup)
    (hfit : Spec.Fits arr.length c.testSize.spec c.trainSize.spec) :
    ∃ tr te s', trainTestSplit rng c s arr = .ok (tr, te, s') ∧ te.Nodup ∧ (∀ i ∈ te, i ∈ arr) ∧
      Spec.TestCount arr.length c.testSize.spec c.trainSize.spec te.length := by
  obtain ⟨h1, h2, t, r, h3, h4, h5, h6⟩ := hfit
  have hv := validateSplit_ok_iff.2 ⟨h1, h2, h3, h4, h5, h6⟩
  unfold trainTestSplit
  rw [hv]
  simp only [Int.toNat_natCast]
  cases hs : c.shuffle
  · rw [if_neg (by simp)]
    refine ⟨_, _, _, rfl, ?_, fun i hi => mem_of_mem_gather hi, ?_⟩
    · refine nodup_gather hnd (List.Nodup.map ?_ List.nodup_range)
      intro i j hij
      simpa using hij
    · rw [length_gather]
      · simpa using h3
      · intro j hj
        simp only [List.mem_map, List.mem_range] at hj
        obtain ⟨i, hi, rfl⟩ := hj
        omega
  · rw [if_pos rfl]
    have hp := rng.perm s arr.length
    have hpnd : (rng.shuffle s arr.length).1.Nodup := hp.nodup_iff.2 List.nodup_range
    have hpl : (rng.shuffle s arr.length).1.length = arr.length := by simpa using hp.length_eq
    refine ⟨_, _, _, rfl, ?_, fun i hi => mem_of_mem_gather hi, ?_⟩
    · exact nodup_gather hnd (hpnd.sublist (List.take_sublist _ _))
    · rw [length_gather]
      · rw [List.length_take, hpl, Nat.min_eq_left (by omega)]
        exact h3
      · intro j hj
        have := (List.take_sublist _ _).subset hj
        rw [hp.mem_iff, List.mem_range] at this
        exact this

theorem trainTestSplit_error {γ : Type} (rng : Rng γ) (c : ShuffleConfig K) (s : γ)
    {arr : List Nat} (hfit : ¬ Spec.Fits arr.length c.testSize.spec c.trainSize.spec) :
    trainTestSplit rng c s arr = .error .valueError := by
  unfold trainTestSplit
  cases hv : validateSplit arr.length c.testSize c.trainSize with
  | error e => rw [validateSplit_error hv]
  | ok rt =>
    exfalso
    obtain ⟨r, t⟩ := rt
    obtain ⟨hr, ht⟩ := validateSplit_nonneg hv
    obtain ⟨r, rfl⟩ := Int.eq_ofNat_of_zero_le hr
    obtain ⟨t, rfl⟩ := Int.eq_ofNat_of_zero_le ht
    obtain ⟨h1, h2, h3, h4, h5, h6⟩ := validateSplit_ok_iff.1 hv
    exact hfit ⟨h1, h2, t, r, h3, h4, h5, h6⟩

/-- What one fold does: some block of every group, of the prescribed size, is marked. -/
theorem shuffleMask_ok {γ : Type} (rng : Rng γ) (c : ShuffleConfig K) (groups : List α)
    (gs : List α) (hfit : ∀ g ∈ gs, Spec.Fits (groups.count g) c.testSize.spec c.trainSize.spec)
    (s : γ) (mask : List Bool) :
    ∃ Bs s', shuffleMask rng c groups s mask gs = .ok (Bs.foldl setTrue mask, s') ∧
      List.Forall₂ (fun g B => B.Nodup ∧ (∀ i ∈ B, i ∈ members groups g) ∧
        Spec.TestCount (groups.count g) c.testSize.spec c.trainSize.spec B.length) gs Bs := by
  induction gs generalizing s mask with
  | nil => exact ⟨[], s, rfl, .nil⟩
  | cons g gs ih =>
    have hf := hfit g (by simp)
    rw [← length_members] at hf
    obtain ⟨tr, te, s', he, hnd, hsub, hcnt⟩ := trainTestSplit_ok rng c s (nodup_members groups g) hf
    obtain ⟨Bs, s'', he', hall⟩ := ih (fun g hg => hfit g (by simp [hg])) s' (setTrue mask te)
    refine ⟨te :: Bs, s'', ?_, ?_⟩
    · unfold shuffleMask
      rw [he]
      simp only [he', List.foldl_cons]
    · rw [length_members] at hcnt
      exact .cons ⟨hnd, hsub, hcnt⟩ hall

theorem shuffleMask_error {γ : Type} (rng : Rng γ) (c : ShuffleConfig K) (groups : List α)
    (gs : List α)
    (hfit : ∃ g ∈ gs, ¬ Spec.Fits (groups.count g) c.testSize.spec c.trainSize.spec)
    (s : γ) (mask : List Bool) :
    shuffleMask rng c groups s mask gs = .error .valueError := by
  induction gs generalizing s mask with
  | nil => simp at hfit
  | cons g gs ih =>
    unfold shuffleMask
    by_cases hf : Spec.Fits (groups.count g) c.testSize.spec c.trainSize.spec
    · have hf' := hf
      rw [← length_members] at hf'
      obtain ⟨tr, te, s', he, -, -, -⟩ := trainTestSplit_ok rng c s (nodup_members groups g) hf'
      rw [he]
      apply ih
      obtain ⟨g', hg', hn⟩ := hfit
      rcases List.mem_cons.1 hg' with rfl | hg'
      · exact absurd hf hn
      · exact ⟨g', hg', hn⟩
    · rw [trainTestSplit_error rng c s (by rwa [length_members])]

/-- A mask as produced by one fold. -/
def GoodMask (c : ShuffleConfig K) (groups : List α) (mask : List Bool) : Prop :=
  ∃ Bs : List (List Nat), mask = Bs.foldl setTrue (List.replicate groups.length false) ∧
    List.Forall₂ (fun g B => B.Nodup ∧ (∀ i ∈ B, i ∈ members groups g) ∧
      Spec.TestCount (groups.count g) c.testSize.spec c.trainSize.spec B.length)
      (npUnique groups) Bs

theorem shuffleMasks_ok {γ : Type} (rng : Rng γ) (c : ShuffleConfig K) (groups : List α)
    (hfit : ∀ g ∈ groups, Spec.Fits (groups.count g) c.testSize.spec c.trainSize.spec)
    (k : Nat) (s : γ) :
    ∃ masks, shuffleMasks rng c groups s k = .ok masks ∧ masks.length = k ∧
      ∀ m ∈ masks, GoodMask c groups m := by
  induction k generalizing s with
  | zero => exact ⟨[], rfl, rfl, by simp⟩
  | succ k ih =>
    obtain ⟨Bs, s', he, hall⟩ := shuffleMask_ok rng c groups (npUnique groups)
      (fun g hg => hfit g ((mem_npUnique _ _).1 hg)) s (List.replicate groups.length false)
    obtain ⟨masks, he', hl, hm⟩ := ih s'
    refine ⟨Bs.foldl setTrue (List.replicate groups.length false) :: masks, ?_, by simp [hl], ?_⟩
    · unfold shuffleMasks
      rw [he]
      simp only [he']
    · intro m hmem
      rcases List.mem_cons.1 hmem with rfl | hmem
      · exact ⟨Bs, rfl, hall⟩
      · exact hm m hmem

theorem testCount_mask {c : ShuffleConfig K} {groups : List α} {mask : List Bool}
    (h : GoodMask c groups mask) {g : α} (hg : g ∈ groups) :
    Spec.TestCount (groups.count g) c.testSize.spec c.trainSize.spec
      (Spec.inGroup groups g ((List.range groups.length).filter (fun i => mask.getD i false))) := by
  obtain ⟨Bs, rfl, hall⟩ := h
  have hsub : List.Forall₂ (fun g B => ∀ i ∈ B, i ∈ members groups g) (npUnique groups) Bs :=
    hall.imp (fun _ _ h => h.2.1)
  obtain ⟨j, hj, hjg⟩ := List.mem_iff_getElem.1 ((mem_npUnique g groups).2 hg)
  have hjB : j < Bs.length := by rw [← hall.length_eq]; exact hj
  have hR := (List.forall₂_iff_get.1 hall).2 j hj hjB
  simp only [List.get_eq_getElem] at hR
  rw [hjg] at hR
  have := test_inGroup (nodup_npUnique groups) hsub (j := j) (g := g) (B := Bs[j])
    (by rw [List.getElem?_eq_getElem hj, hjg]) (List.getElem?_eq_getElem hjB) hR.1
  unfold Spec.inGroup
  rw [this.length_eq]
  exact hR.2.2

/-- `_validate_shuffle_split_init` accepts exactly the allowed arguments and raises
`ValueError` for all others. -/
theorem validateInit_iff (a b : Size K) :
    (Spec.SizesAllowed a.spec b.spec → validateInit a b = .ok ()) ∧
      (¬ Spec.SizesAllowed a.spec b.spec → validateInit a b = .error .valueError) := by
  cases a <;> cases b <;>
    simp only [validateInit, Spec.SizesAllowed, Size.spec, ne_eq, reduceCtorEq, not_true_eq_false,
      not_false_eq_true, or_self, or_true, true_or, true_and, and_true,
      IsEmpty.forall_iff, implies_true, Option.some.injEq, Sum.inr.injEq, forall_eq', not_lt,
      not_and_or]
  case frac.frac q r =>
    constructor
    · rintro ⟨h1, h2, h3⟩
      rw [if_neg (not_le.2 h1), if_neg (not_le.2 h2), if_neg (by have := h3 q r rfl rfl; linarith)]
    · intro h
      by_cases h1 : 1 ≤ q
      · rw [if_pos h1]
      by_cases h2 : 1 ≤ r
      · rw [if_neg h1, if_pos h2]
      rw [if_neg h1, if_neg h2, if_pos]
      by_contra hle
      refine (h.resolve_left h1).resolve_left h2 ?_
      rintro _ _ rfl rfl
      linarith
  all_goals exact ⟨fun h => by simp [not_le.2 h], fun h => by simp [h]⟩

/-- **C49.** When the constructor accepts the sizes and they can be met in every group, `ShuffleSplitWithinGroups` yields
`n_splits` folds (none when `n_splits` is negative); in every fold the training and the test
indices are increasing, exclude each other and together are all samples; and each group
contributes exactly the number of test samples that `test_size` prescribes for its size.
With and without shuffling, for every random number generator. -/
theorem C49_shuffle_split {γ : Type} (rng : Rng γ) (c : ShuffleConfig K) (s : γ)
    (groups : List α) (hinit : Spec.SizesAllowed c.testSize.spec c.trainSize.spec)
    (hfit : ∀ g ∈ groups, Spec.Fits (groups.count g) c.testSize.spec c.trainSize.spec) :
    ∃ folds, shuffleSplitWithinGroups rng c s groups.length (some groups) = .ok folds ∧
      folds.length = c.nSplits.toNat ∧
      ∀ fold ∈ folds, Spec.IsFold groups.length fold.1 fold.2 ∧
        ∀ g ∈ groups, Spec.TestCount (groups.count g) c.testSize.spec c.trainSize.spec
          (Spec.inGroup groups g fold.2) := by
  obtain ⟨masks, he, hl, hm⟩ := shuffleMasks_ok rng c groups hfit c.nSplits.toNat s
  refine ⟨baseSplit groups.length masks, ?_, by simp [baseSplit, hl], ?_⟩
  · unfold shuffleSplitWithinGroups
    rw [(validateInit_iff _ _).1 hinit]
    simp [he]
  · intro fold hfold
    obtain ⟨m, hmem, rfl⟩ := List.mem_map.1 hfold
    exact ⟨isFold_of_mask _ _, fun g hg => testCount_mask (hm m hmem) hg⟩

/-- **C49**, converse: sizes the constructor does not allow raise `ValueError`. -/
theorem C49_rejects_sizes {γ : Type} (rng : Rng γ) (c : ShuffleConfig K) (s : γ)
    (groups : List α) (h : ¬ Spec.SizesAllowed c.testSize.spec c.trainSize.spec) :
    shuffleSplitWithinGroups rng c s groups.length (some groups) = .error .valueError := by
  unfold shuffleSplitWithinGroups
  rw [(validateInit_iff _ _).2 h]

/-- **C49**, converse: sizes that cannot be met in some group raise `ValueError` as soon as
one fold is asked for. -/
theorem C49_rejects {γ : Type} (rng : Rng γ) (c : ShuffleConfig K) (s : γ)
    (groups : List α) (hk : 0 < c.nSplits)
    (hfit : ∃ g ∈ groups, ¬ Spec.Fits (groups.count g) c.testSize.spec c.trainSize.spec) :
    shuffleSplitWithinGroups rng c s groups.length (some groups) = .error .valueError := by
  unfold shuffleSplitWithinGroups
  by_cases hv : Spec.SizesAllowed c.testSize.spec c.trainSize.spec
  swap
  · rw [(validateInit_iff _ _).2 hv]
  · rw [(validateInit_iff _ _).1 hv]
    have hmasks : shuffleMasks rng c groups s c.nSplits.toNat = .error .valueError := by
      obtain ⟨k, hk'⟩ : ∃ k, c.nSplits.toNat = k + 1 := ⟨c.nSplits.toNat - 1, by omega⟩
      rw [hk']
      unfold shuffleMasks
      obtain ⟨g, hg, hn⟩ := hfit
      rw [shuffleMask_error rng c groups (npUnique groups) ⟨g, (mem_npUnique _ _).2 hg, hn⟩]
    simp [hmasks]

/-- `groups=None` treats all samples as one group. -/
theorem shuffleSplitWithinGroups_none {γ : Type} (rng : Rng γ) (c : ShuffleConfig K) (s : γ)
    (n : Nat) : shuffleSplitWithinGroups rng c s n (none : Option (List α)) =
      shuffleSplitWithinGroups rng c s n (some (List.replicate n (0 : Int))) := by
  unfold shuffleSplitWithinGroups
  simp

/-- The configuration of the example below: one test sample per group, one fold. -/
def exConfig : ShuffleConfig ℚ := ⟨1, .int 1, .none, true⟩

/-- The hypotheses of `C49_shuffle_split` are met: one test sample from each of two groups. -/
example : Spec.SizesAllowed exConfig.testSize.spec exConfig.trainSize.spec ∧
    (∀ g ∈ ([7, 4, 7, 7, 4] : List Int), Spec.Fits (([7, 4, 7, 7, 4] : List Int).count g)
      exConfig.testSize.spec exConfig.trainSize.spec) ∧
    shuffleSplitWithinGroups reverseRng exConfig 0 5 (some ([7, 4, 7, 7, 4] : List Int)) =
      .ok [([0, 1, 2], [3, 4])] := by
  refine ⟨by simp [Spec.SizesAllowed, exConfig, Size.spec], ?_, by decide +kernel⟩
  intro g hg
  have h2 : ([7, 4, 7, 7, 4] : List Int).count g = 3 ∨ ([7, 4, 7, 7, 4] : List Int).count g = 2 := by
    simp only [List.mem_cons, List.not_mem_nil, or_false] at hg
    rcases hg with rfl | rfl | rfl | rfl | rfl <;> decide
  rcases h2 with h | h <;> rw [h]
  · exact ⟨by simp [exConfig, Size.spec, Spec.SizeOk], trivial, 1, 2, .int 1 _,
      .rest _ 1 2 (.int 1 _) rfl, by omega, by omega⟩
  · exact ⟨by simp [exConfig, Size.spec, Spec.SizeOk], trivial, 1, 1, .int 1 _,
      .rest _ 1 1 (.int 1 _) rfl, by omega, by omega⟩

/-! ### C50: `train_size` -/

/-- **C50**, the full claim: when `test_size` and `train_size` are both given, each group
contributes exactly the number of training samples that `train_size` prescribes. -/
def C50_full : Prop :=
  ∀ (γ : Type) (rng : Rng γ) (c : ShuffleConfig ℚ) (s : γ) (groups : List Int) (folds : List Fold),
    c.testSize.spec ≠ none → c.trainSize.spec ≠ none →
    shuffleSplitWithinGroups rng c s groups.length (some groups) = .ok folds →
    ∀ fold ∈ folds, ∀ g ∈ groups,
      Spec.TrainCount (groups.count g) c.testSize.spec c.trainSize.spec
        (Spec.inGroup groups g fold.1)

/-- The full claim fails: the training part returned by `train_test_split` is dropped, and
every sample that is not tested is trained on. Four samples in one group, `test_size=1`,
`train_size=1`: three training samples. -/
theorem C50_refuted : ¬ C50_full := by
  intro h
  have hrun : shuffleSplitWithinGroups reverseRng (⟨1, .int 1, .int 1, true⟩ : ShuffleConfig ℚ) 0
      ([5, 5, 5, 5] : List Int).length (some [5, 5, 5, 5]) = .ok [([0, 1, 2], [3])] := by
    decide +kernel
  have := h Nat reverseRng ⟨1, .int 1, .int 1, true⟩ 0 [5, 5, 5, 5] _ (by simp [Size.spec])
    (by simp [Size.spec]) hrun ([0, 1, 2], [3]) (by simp) 5 (by simp)
  have h3 : Spec.inGroup ([5, 5, 5, 5] : List Int) 5 [0, 1, 2] = 3 := by decide
  simp only [Size.spec] at this
  rw [h3] at this
  generalize hx : (some (Sum.inl (1 : Int)) : Option (Int ⊕ ℚ)) = x at this
  generalize hy : (3 : Nat) = y at this
  cases this with
  | int c _ =>
    subst hy
    simp at hx
  | frac => simp at hx

theorem inGroup_train {n : Nat} {groups : List α} {train test : List Nat}
    (hn : n = groups.length) (h : Spec.IsFold n train test) (g : α) :
    Spec.inGroup groups g train + Spec.inGroup groups g test = groups.count g := by
  subst hn
  have hp : (train ++ test).Perm (List.range groups.length) := by
    rw [List.perm_ext_iff_of_nodup]
    · intro i
      rw [List.mem_append, h.train_iff, List.mem_range]
      have := h.test_lt i
      by_cases hi : i ∈ test
      · simp [hi, this hi]
      · simp [hi]
    · rw [List.nodup_append]
      refine ⟨h.train_sorted.imp (fun h => ne_of_lt h), h.test_sorted.imp (fun h => ne_of_lt h), ?_⟩
      rintro a ha b hb rfl
      exact ((h.train_iff a).1 ha).2 hb
    · exact List.nodup_range
  have := (hp.filter (fun i => decide (groups[i]? = some g))).length_eq
  rw [List.filter_append, List.length_append] at this
  unfold Spec.inGroup
  rw [this, ← length_members]
  rfl

theorem testCount_unique {m : Nat} {a b : Option (Int ⊕ K)} {t t' : Nat}
    (ha : Spec.SizeOk m a)
    (h : Spec.TestCount m a b t) (h' : Spec.TestCount m a b t') : t = t' := by
  cases h with
  | int c _ =>
    generalize hx : (some (Sum.inl (t : Int)) : Option (Int ⊕ K)) = x at h'
    cases h' with
    | int c' _ => simpa using hx
    | frac => simp at hx
    | restInt => simp at hx
    | restFrac => simp at hx
  | frac q _ _ g1 g2 =>
    have hq : 0 < q := ha.1
    cases h' with
    | frac _ _ _ g3 g4 =>
      exact_mod_cast ((ceil_nat hq t).2 ⟨g1, g2⟩).symm.trans ((ceil_nat hq t').2 ⟨g3, g4⟩)
  | restInt c _ g =>
    generalize hx : (some (Sum.inl (c : Int)) : Option (Int ⊕ K)) = x at h'
    generalize hy : (none : Option (Int ⊕ K)) = y at h'
    cases h' with
    | int => simp at hy
    | frac => simp at hy
    | restInt c' _ g' =>
      have : (c : Int) = c' := by simpa using hx
      omega
    | restFrac => simp at hx
  | restFrac q r _ g1 g2 g =>
    cases h' with
    | restFrac _ r' _ g3 g4 g' =>
      have : (r : Int) = r' := ((floor_nat r).2 ⟨g1, g2⟩).symm.trans ((floor_nat r').2 ⟨g3, g4⟩)
      omega

/-- **C50**, the part that holds: every group contributes at least the prescribed number `r`
of training samples, namely all samples that are not tested; exactly `r` if and only if the prescribed
test and training samples exhaust the group.  Missing: the number is larger than prescribed
whenever they do not (`C50_refuted`). -/
theorem C50_train_size_partial {γ : Type} (rng : Rng γ) (c : ShuffleConfig K) (s : γ)
    (groups : List α) (folds : List Fold) (hk : 0 < c.nSplits)
    (hrun : shuffleSplitWithinGroups rng c s groups.length (some groups) = .ok folds) :
    ∀ fold ∈ folds, ∀ g ∈ groups, ∀ t r,
      Spec.TestCount (groups.count g) c.testSize.spec c.trainSize.spec t →
      Spec.TrainCount (groups.count g) c.testSize.spec c.trainSize.spec r →
      t + r ≤ groups.count g →
      Spec.inGroup groups g fold.1 = groups.count g - t ∧
      r ≤ Spec.inGroup groups g fold.1 ∧
      (Spec.inGroup groups g fold.1 = r ↔ t + r = groups.count g) := by
  intro fold hfold g hg t r ht hr hle
  have hinit : Spec.SizesAllowed c.testSize.spec c.trainSize.spec := by
    by_contra hv
    unfold shuffleSplitWithinGroups at hrun
    rw [(validateInit_iff _ _).2 hv] at hrun
    cases hrun
  have hfit : ∀ g ∈ groups, Spec.Fits (groups.count g) c.testSize.spec c.trainSize.spec := by
    by_contra hn
    push Not at hn
    rw [C49_rejects rng c s groups hk hn] at hrun
    cases hrun
  obtain ⟨folds', hrun', _, hall⟩ := C49_shuffle_split rng c s groups hinit hfit
  rw [hrun] at hrun'
  cases hrun'
  obtain ⟨hf, hc⟩ := hall fold hfold
  have h1 := testCount_unique (hfit g hg).1 (hc g hg) ht
  have h2 := inGroup_train rfl hf g
  omega

/-- The hypotheses of `C50_train_size_partial` are met by the run of `C50_refuted`. -/
example : (0 : Int) < 1 ∧ shuffleSplitWithinGroups reverseRng
      (⟨1, .int 1, .int 1, true⟩ : ShuffleConfig ℚ) 0
      ([5, 5, 5, 5] : List Int).length (some [5, 5, 5, 5]) = .ok [([0, 1, 2], [3])] ∧
    Spec.TestCount 4 ((.int 1 : Size ℚ).spec) ((.int 1 : Size ℚ).spec) 1 ∧
    Spec.TrainCount 4 ((.int 1 : Size ℚ).spec) ((.int 1 : Size ℚ).spec) 1 ∧
    1 + 1 ≤ ([5, 5, 5, 5] : List Int).count 5 :=
  ⟨by decide, by decide +kernel, .int 1 _, .int 1 _, by decide⟩

end Kam.Split
