/-
C132: the sizes of random splits with machine arithmetic.  The number of test events is the ceiling of a rounded product with
a number that is itself rounded (0.2 is no binary fraction).
-/
import Verif.Float.Round
import Verif.Split.Model
import Verif.Split.Props2
import Mathlib.Tactic.NormNum

set_option linter.unusedSectionVars false

namespace Kam.Fl
open Split (Size ShuffleConfig Rng Fold members setTrue baseSplit sizeInRange)

variable {K : Type} [Field K] [LinearOrder K] [IsStrictOrderedRing K] [FloorRing K]
variable {α : Type} [LinearOrder α]

/-! ### The splitter -/

/-- `_validate_shuffle_split_init` (called at model_selection/split.py:89) with a rounded sum. -/
def validateInit (test train : Size K) : Res Unit :=
  match test, train with
  | .none, .none => .error .valueError
  | .frac q, .none => if 1 ≤ q then .error .valueError else .ok ()
  | .frac q, .int _ => if 1 ≤ q then .error .valueError else .ok ()
  | .frac q, .frac r =>
    if 1 ≤ q then .error .valueError
    else if 1 ≤ r then .error .valueError
    else if 1 < fl (r + q) then .error .valueError else .ok ()
  | .none, .frac r => if 1 ≤ r then .error .valueError else .ok ()
  | .int _, .frac r => if 1 ≤ r then .error .valueError else .ok ()
  | .none, .int _ => .ok ()
  | .int _, .int _ => .ok ()
  | .int _, .none => .ok ()

/-- `_validate_shuffle_split` (called by `train_test_split` at model_selection/split.py:147) with rounded products:
`ceil(test_size * n)` and `floor(train_size * n)`. -/
def validateSplit (n : Nat) (test train : Size K) : Res (Int × Int) :=
  if !(sizeInRange n test) || !(sizeInRange n train) then .error .valueError
  else
    let nTest : Option Int := match test with
      | .none => Option.none
      | .int c => some c
      | .frac q => some ⌈fl (q * (n : K))⌉
    let nTrain : Option Int := match train with
      | .none => Option.none
      | .int c => some c
      | .frac q => some ⌊fl (q * (n : K))⌋
    match nTrain, nTest with
    | Option.none, Option.none => .error .valueError
    | Option.none, some t => Split.validateSplit.finish n ((n : Int) - t) t
    | some r, Option.none => Split.validateSplit.finish n r ((n : Int) - r)
    | some r, some t => Split.validateSplit.finish n r t

/-- `train_test_split` (model_selection/split.py:147-150), see `Split.trainTestSplit`. -/
def trainTestSplit {γ : Type} (rng : Rng γ) (c : ShuffleConfig K) (s : γ) (arr : List Nat) :
    Res (List Nat × List Nat × γ) :=
  match validateSplit arr.length c.testSize c.trainSize with
  | .error e => .error e
  | .ok (nTrain, nTest) =>
    if c.shuffle then
      let p := rng.shuffle s arr.length
      .ok (gather arr ((p.1.drop nTest.toNat).take nTrain.toNat),
        gather arr (p.1.take nTest.toNat), p.2)
    else
      .ok (gather arr (List.range nTrain.toNat),
        gather arr ((List.range nTest.toNat).map (fun i => nTrain.toNat + i)), s)

/-- The inner loop of one fold (model_selection/split.py:146-151). -/
def shuffleMask {γ : Type} (rng : Rng γ) (c : ShuffleConfig K) (groups : List α) :
    γ → List Bool → List α → Res (List Bool × γ)
  | s, mask, [] => .ok (mask, s)
  | s, mask, g :: gs =>
    match trainTestSplit rng c s (members groups g) with
    | .error e => .error e
    | .ok (_, testI, s') => shuffleMask rng c groups s' (setTrue mask testI) gs

/-- The outer loop (model_selection/split.py:144-152). -/
def shuffleMasks {γ : Type} (rng : Rng γ) (c : ShuffleConfig K) (groups : List α) :
    γ → Nat → Res (List (List Bool))
  | _, 0 => .ok []
  | s, k + 1 =>
    match shuffleMask rng c groups s (List.replicate groups.length false) (npUnique groups) with
    | .error e => .error e
    | .ok (mask, s') =>
      match shuffleMasks rng c groups s' k with
      | .error e => .error e
      | .ok masks => .ok (mask :: masks)

/-- `ShuffleSplitWithinGroups(...).split(X, groups=groups)` (model_selection/split.py:84-152). -/
def shuffleSplitWithinGroups {γ : Type} (rng : Rng γ) (c : ShuffleConfig K) (s : γ)
    (n : Nat) (groups : Option (List α)) : Res (List Fold) :=
  match validateInit c.testSize c.trainSize with
  | .error e => .error e
  | .ok () =>
    if groups.any (fun g => g.length != n) then .error .valueError
    else
      match (match groups with
        | some g => shuffleMasks rng c g s c.nSplits.toNat
        | none => shuffleMasks rng c (List.replicate n (0 : Int)) s c.nSplits.toNat) with
      | .error e => .error e
      | .ok masks => .ok (baseSplit n masks)

/-! ### Counts -/

/-- Both counts of a product that is off by less than `1 / b`. -/
lemma count_of_not_dvd {N b : Nat} (hb : 0 < b) (hd : ¬ b ∣ N) {y : K} (hy : |y - (N : K) / b| < 1 / b) :
    ⌈y⌉ = ⌈(N : K) / b⌉ ∧ ⌊y⌋ = ⌊(N : K) / b⌋ := by
  have hbK : (0 : K) < b := by exact_mod_cast hb
  have hr : 0 < N % b := Nat.pos_of_ne_zero (fun h => hd (Nat.dvd_of_mod_eq_zero h))
  have hr' : N % b < b := Nat.mod_lt _ hb
  have hx : (N : K) / b = ((N / b : Nat) : K) + ((N % b : Nat) : K) / b := by
    rw [add_div' _ _ _ hbK.ne', div_left_inj' hbK.ne']
    have : N = N / b * b + N % b := (Nat.div_add_mod' N b).symm
    exact_mod_cast this
  have h1 : 1 / (b : K) ≤ ((N % b : Nat) : K) / b := div_le_div_of_nonneg_right (by exact_mod_cast hr) hbK.le
  have h2 : ((N % b : Nat) : K) / b + 1 / b ≤ 1 := by
    rw [← add_div, div_le_one hbK]
    exact_mod_cast hr'
  have h3 : 0 < 1 / (b : K) := by positivity
  have h4 := abs_lt.1 hy
  rw [hx] at h4
  generalize N / b = d at *
  have key : ∀ z : K, (d : K) < z → z < (d : K) + 1 → ⌈z⌉ = (d : ℤ) + 1 ∧ ⌊z⌋ = (d : ℤ) := by
    intro z hz1 hz2
    constructor
    · rw [Int.ceil_eq_iff]
      push_cast
      exact ⟨by linarith, by linarith⟩
    · rw [Int.floor_eq_iff]
      push_cast
      exact ⟨hz1.le, hz2⟩
  have k1 := key y (by linarith) (by linarith)
  have k2 := key ((N : K) / b) (by rw [hx]; linarith) (by rw [hx]; linarith)
  rw [k1.1, k1.2, k2.1, k2.2]
  exact ⟨rfl, rfl⟩

/-- The error of the rounded product with a rounded fraction. -/
lemma product_error {q : K} {a b n : Nat} (hb : 0 < b) (hq : |q - (a : K) / b| ≤ (a : K) / b / 2 ^ 53) (hn : a * n < 2 ^ 51) :
    |fl (q * n) - ((a * n : Nat) : K) / b| < 1 / b := by
  have hbK : (0 : K) < b := by exact_mod_cast hb
  have hx0 : 0 ≤ ((a * n : Nat) : K) / b := by positivity
  have h1 : |q * n - ((a * n : Nat) : K) / b| ≤ ((a * n : Nat) : K) / b / 2 ^ 53 := by
    have e1 : q * n - ((a * n : Nat) : K) / b = (q - (a : K) / b) * n := by push_cast; ring
    have e2 : ((a * n : Nat) : K) / b / 2 ^ 53 = (a : K) / b / 2 ^ 53 * n := by push_cast; ring
    rw [e1, e2, abs_mul, abs_of_nonneg (Nat.cast_nonneg n : (0 : K) ≤ n)]
    exact mul_le_mul_of_nonneg_right hq (Nat.cast_nonneg n)
  have h2 := fl_error (q * (n : K))
  have hN : ((a * n : Nat) : K) < 2 ^ 51 := by exact_mod_cast hn
  have h5 : ((a * n : Nat) : K) / b < 2 ^ 51 * (1 / b) := by
    rw [mul_one_div]
    exact div_lt_div_of_pos_right hN hbK
  generalize ((a * n : Nat) : K) / b = x at *
  generalize q * (n : K) = z at *
  have h3 : |z| ≤ x + x / 2 ^ 53 := by
    have := abs_sub_abs_le_abs_sub z x
    rw [abs_of_nonneg hx0] at this
    linarith
  have h4 : |fl z - x| ≤ |fl z - z| + |z - x| := abs_sub_le _ _ _
  have h6 : |z| / 2 ^ 53 ≤ (x + x / 2 ^ 53) / 2 ^ 53 := div_le_div_of_nonneg_right h3 (by positivity)
  have h8 : (x + x / 2 ^ 53) / 2 ^ 53 + x / 2 ^ 53 ≤ x / 2 ^ 51 := by
    have : (x + x / 2 ^ 53) / 2 ^ 53 + x / 2 ^ 53 = x * ((1 + 1 / 2 ^ 53) / 2 ^ 53 + 1 / 2 ^ 53) := by ring
    rw [this, div_eq_mul_one_div x]
    exact mul_le_mul_of_nonneg_left (by norm_num) hx0
  have h9 : x / 2 ^ 51 < 1 / b := by
    rw [div_lt_iff₀ (by positivity)]
    linarith
  linarith

/-- C132: for every decimal fraction the machine counts at most one test event too many, and only if the exact count is a whole
number before rounding up; in all other cases the count is exact.  The number of training events is at most one too small. -/
theorem C132_within_one {q : K} {a b n : Nat} (hb : 0 < b) (hq : |q - (a : K) / b| ≤ (a : K) / b / 2 ^ 53)
    (hn : a * n < 2 ^ 51) :
    (⌈fl (q * n)⌉ = ⌈((a * n : Nat) : K) / b⌉ ∨ b ∣ a * n ∧ ⌈fl (q * n)⌉ = ((a * n / b : Nat) : ℤ) + 1) ∧
    (⌊fl (q * n)⌋ = ⌊((a * n : Nat) : K) / b⌋ ∨ b ∣ a * n ∧ ⌊fl (q * n)⌋ = ((a * n / b : Nat) : ℤ) - 1) := by
  have he := product_error hb hq hn
  by_cases hd : b ∣ a * n
  · have hbK : (0 : K) < b := by exact_mod_cast hb
    obtain ⟨m, hm⟩ := hd
    have hx : ((a * n : Nat) : K) / b = ((m : ℤ) : K) := by
      rw [hm]
      push_cast
      field_simp
    have hdiv : a * n / b = m := by rw [hm]; exact Nat.mul_div_cancel_left m hb
    have h1 : 1 / (b : K) ≤ 1 := by
      rw [div_le_one hbK]
      exact_mod_cast hb
    rw [hx, hdiv, Int.ceil_intCast, Int.floor_intCast]
    rw [hx] at he
    have h2 := abs_lt.1 (he.trans_le h1)
    generalize fl (q * (n : K)) = y at *
    constructor
    · by_cases hy : y ≤ ((m : ℤ) : K)
      · left
        rw [Int.ceil_eq_iff]
        exact ⟨by linarith, hy⟩
      · right
        refine ⟨⟨m, hm⟩, ?_⟩
        rw [Int.ceil_eq_iff]
        push_cast at hy h2 ⊢
        exact ⟨by linarith, by linarith⟩
    · by_cases hy : ((m : ℤ) : K) ≤ y
      · left
        rw [Int.floor_eq_iff]
        exact ⟨hy, by linarith⟩
      · right
        refine ⟨⟨m, hm⟩, ?_⟩
        rw [Int.floor_eq_iff]
        push_cast at hy h2 ⊢
        exact ⟨by linarith, by linarith⟩
  · have := count_of_not_dvd hb hd he
    exact ⟨Or.inl this.1, Or.inl this.2⟩

/-- The fraction `a / b` is represented with at most half of the error a rounding may have; 0.1, 0.2 and 0.3 are. -/
def GoodFraction (q : K) (a b : Nat) : Prop :=
  -((a : K) / b / 2 ^ 54) < q - (a : K) / b ∧ q - (a : K) / b ≤ (a : K) / b / 2 ^ 54

/-- A number this close to an integer is rounded to it. -/
lemma fl_near_int {m : Nat} (hm : 0 < m) (hm' : m < 2 ^ 53) {z : K} (h1 : -((m : K) / 2 ^ 54) < z - m)
    (h2 : z - m ≤ (m : K) / 2 ^ 54) : fl z = m := by
  have hmK : (0 : K) < m := by exact_mod_cast hm
  obtain ⟨l1, l2⟩ := log_spec (x := (m : K)) hmK.ne'
  rw [abs_of_pos hmK] at l1 l2
  generalize Int.log 2 (m : K) = k at l1 l2
  have hz : 0 < z := by
    have : (m : K) / 2 ^ 54 ≤ m := div_le_self hmK.le (by norm_num)
    linarith
  have e1 : (2 : K) ^ (k + 1) = 2 * 2 ^ k := by rw [zpow_add₀ two_ne_zero, zpow_one]; ring
  have e2 : (2 : K) ^ (k - 52) = 2 ^ k / 2 ^ 52 := by
    rw [zpow_sub₀ two_ne_zero]
    norm_num
  have hk := zpow_pos2 (K := K) k
  -- the integer is a multiple of the unit of its binade
  have hk52 : k ≤ 52 := by
    by_contra hc
    have : (2 : K) ^ (53 : ℤ) ≤ 2 ^ k := zpow_le_zpow_right₀ (by norm_num) (by omega)
    have h5 : ((m : Nat) : K) < 2 ^ 53 := by exact_mod_cast hm'
    have h6 : (2 : K) ^ (53 : ℤ) = 2 ^ 53 := by norm_num
    linarith
  by_cases hlow : (2 : K) ^ k ≤ z
  · have hnk : ((m * 2 ^ (52 - k).toNat : ℤ) : K) = (m : K) / 2 ^ (k - 52) := by
      have : ((52 - k).toNat : ℤ) = 52 - k := Int.toNat_of_nonneg (by omega)
      push_cast
      rw [div_eq_mul_inv, ← zpow_neg, ← zpow_natCast, this]
      congr 2
      ring
    have hlt : z < 2 ^ (k + 1) := by
      -- the integer stays below the next power by at least the unit
      have hnat : (m : K) + 2 ^ (k - 52) ≤ 2 ^ (k + 1) := by
        have h6 : ((m * 2 ^ (52 - k).toNat : ℤ) : K) < ((2 ^ 53 : ℤ) : K) := by
          rw [hnk, div_lt_iff₀ (zpow_pos2 _), e2, Int.cast_pow, Int.cast_ofNat]
          rw [e1] at l2
          calc (m : K) < 2 * 2 ^ k := l2
            _ = 2 ^ 53 * (2 ^ k / 2 ^ 52) := by ring
        have h7 : (m * 2 ^ (52 - k).toNat : ℤ) + 1 ≤ 2 ^ 53 := by exact_mod_cast h6
        have h8 : ((m * 2 ^ (52 - k).toNat : ℤ) : K) + 1 ≤ 2 ^ 53 := by exact_mod_cast h7
        rw [hnk, div_add_one (zpow_pos2 _).ne', div_le_iff₀ (zpow_pos2 _), e2] at h8
        rw [e1, e2]
        calc (m : K) + 2 ^ k / 2 ^ 52 ≤ 2 ^ 53 * (2 ^ k / 2 ^ 52) := h8
          _ = 2 * 2 ^ k := by ring
      have : (m : K) / 2 ^ 54 < 2 ^ (k - 52) := by
        rw [e2, div_lt_div_iff₀ (by positivity) (by positivity)]
        rw [e1] at l2
        nlinarith
      linarith
    rw [fl_eq (k := k) (n := m * 2 ^ (52 - k).toNat)]
    · rw [hnk, div_mul_cancel₀ _ (zpow_pos2 _).ne']
    · rw [abs_of_pos hz]; exact hlow
    · rw [abs_of_pos hz]; exact hlt
    · rw [hnk, ← sub_div, abs_div, abs_of_pos (zpow_pos2 (K := K) (k - 52)), div_lt_iff₀ (zpow_pos2 _), abs_lt, e2]
      rw [e1] at l2
      have h9 : (m : K) / 2 ^ 54 < 1 / 2 * (2 ^ k / 2 ^ 52) := by
        rw [div_lt_iff₀ (by positivity)]
        have : (1 : K) / 2 * (2 ^ k / 2 ^ 52) * 2 ^ 54 = 2 * 2 ^ k := by ring
        rw [this]
        exact l2
      constructor <;> linarith
  · push Not at hlow
    -- only a power of two lies so close above a smaller number
    have hm2 : (m : K) = 2 ^ k := by
      by_contra hne
      have hlt : (2 : K) ^ k < m := lt_of_le_of_ne l1 (Ne.symm hne)
      by_cases hk0 : 0 ≤ k
      · obtain ⟨j, rfl⟩ := Int.eq_ofNat_of_zero_le hk0
        rw [zpow_natCast] at hlt hlow
        have h6 : 2 ^ j < m := by exact_mod_cast hlt
        have h7 : ((2 ^ j : Nat) : K) + 1 ≤ m := by exact_mod_cast h6
        push_cast at h7
        have h8 : (m : K) / 2 ^ 54 < 1 := by
          rw [div_lt_one (by positivity)]
          have : ((m : Nat) : K) < 2 ^ 53 := by exact_mod_cast hm'
          have h9 : (2 : K) ^ 53 < 2 ^ 54 := by norm_num
          linarith
        linarith
      · have h6 : (2 : K) ^ (k + 1) ≤ 2 ^ (0 : ℤ) := zpow_le_zpow_right₀ (by norm_num) (by omega)
        rw [zpow_zero] at h6
        have h7 : (1 : K) ≤ m := by exact_mod_cast hm
        linarith
    have e3 : (2 : K) ^ (k - 1) = 2 ^ k / 2 := by rw [zpow_sub₀ two_ne_zero, zpow_one]
    have e4 : (2 : K) ^ (k - 1 - 52) = 2 ^ k / 2 ^ 53 := by
      rw [show k - 1 - 52 = k - 53 by ring, zpow_sub₀ two_ne_zero]
      norm_num
    have h10 : (m : K) / 2 ^ 54 ≤ 2 ^ k / 2 := by
      rw [hm2]
      exact div_le_div_of_nonneg_left hk.le (by norm_num) (by norm_num)
    rw [fl_eq (k := k - 1) (n := 2 ^ 53), e4, hm2]
    · rw [Int.cast_pow, Int.cast_ofNat]
      field_simp
    · rw [abs_of_pos hz, e3]
      rw [hm2] at h1 h10
      linarith
    · rw [abs_of_pos hz, show k - 1 + 1 = k by ring]
      exact hlow
    · rw [e4, Int.cast_pow, Int.cast_ofNat]
      have : z / (2 ^ k / 2 ^ 53) - 2 ^ 53 = (z - 2 ^ k) / (2 ^ k / 2 ^ 53) := by field_simp
      rw [this, abs_div, abs_of_pos (a := (2 : K) ^ k / 2 ^ 53) (by positivity), div_lt_iff₀ (by positivity), abs_lt]
      rw [hm2] at h1 h2
      have h11 : (2 : K) ^ k / 2 ^ 54 = 1 / 2 * (2 ^ k / 2 ^ 53) := by ring
      rw [h11] at h1 h2
      exact ⟨h1, by linarith⟩

/-- C132: with 0.1, 0.2, 0.3 and the like the counts are exact. -/
theorem C132_exact_partial {q : K} {a b n : Nat} (hb : 0 < b) (hq : GoodFraction q a b) (hn : a * n < 2 ^ 51) :
    ⌈fl (q * n)⌉ = ⌈((a : K) / b) * n⌉ ∧ ⌊fl (q * n)⌋ = ⌊((a : K) / b) * n⌋ := by
  have hbK : (0 : K) < b := by exact_mod_cast hb
  have hab : 0 ≤ (a : K) / b := by positivity
  have ex : (a : K) / b * n = ((a * n : Nat) : K) / b := by push_cast; ring
  rw [ex]
  have h54 : (a : K) / b / 2 ^ 54 ≤ (a : K) / b / 2 ^ 53 := div_le_div_of_nonneg_left hab (by norm_num) (by norm_num)
  by_cases hd : b ∣ a * n
  · obtain ⟨m, hm⟩ := hd
    have hx : ((a * n : Nat) : K) / b = m := by
      rw [hm]
      push_cast
      field_simp
    rcases Nat.eq_zero_or_pos m with rfl | hm0
    · have h0 : a * n = 0 := by rw [hm]; rfl
      have : q * (n : K) = 0 := by
        rcases Nat.mul_eq_zero.1 h0 with ha | hn0
        · subst ha
          have h1 := hq.1
          have h2 := hq.2
          simp only [Nat.cast_zero, zero_div, neg_zero, sub_zero] at h1 h2
          linarith
        · subst hn0; simp
      rw [this, hx]
      simp [fl]
    · have hfl : fl (q * (n : K)) = m := by
        have hnK : (0 : K) ≤ n := Nat.cast_nonneg n
        have hn0 : (0 : K) < n := by
          rcases Nat.eq_zero_or_pos n with h | h
          · subst h
            rw [Nat.mul_zero] at hm
            rcases Nat.mul_eq_zero.1 hm.symm with h | h <;> omega
          · exact_mod_cast h
        refine fl_near_int hm0 ?_ ?_ ?_
        · calc m ≤ b * m := Nat.le_mul_of_pos_left m hb
            _ = a * n := hm.symm
            _ < 2 ^ 53 := by omega
        · have := mul_lt_mul_of_pos_right hq.1 hn0
          rw [← hx, ← ex]
          calc -((a : K) / b * n / 2 ^ 54) = -((a : K) / b / 2 ^ 54) * n := by ring
            _ < (q - (a : K) / b) * n := this
            _ = _ := by ring
        · have := mul_le_mul_of_nonneg_right hq.2 hnK
          rw [← hx, ← ex]
          calc q * n - (a : K) / b * n = (q - (a : K) / b) * n := by ring
            _ ≤ (a : K) / b / 2 ^ 54 * n := this
            _ = _ := by ring
      rw [hfl, hx]
      exact ⟨rfl, rfl⟩
  · refine count_of_not_dvd hb hd (product_error hb ?_ hn)
    rw [abs_le]
    exact ⟨by linarith [hq.1], by linarith [hq.2]⟩

/-! ### The whole splitter -/

/-- The two ways of writing a size: an integer or `None` as it is, a fraction `a / b` by a machine number. -/
inductive SameSize (n : Nat) : Size K → Size K → Prop
  | none : SameSize n .none .none
  | int (c : Int) : SameSize n (.int c) (.int c)
  | frac {q : K} {a b : Nat} (ha : 0 < a) (hab : a < b) (hb : b ≤ 2 ^ 51) (hq : GoodFraction q a b) (hn : a * n < 2 ^ 51) :
      SameSize n (.frac q) (.frac ((a : K) / b))

lemma GoodFraction.lt_one {q : K} {a b : Nat} (hab : a < b) (hb : b ≤ 2 ^ 51) (hq : GoodFraction q a b) : q < 1 := by
  have hbK : (0 : K) < b := by exact_mod_cast (by omega : 0 < b)
  have h1 : (a : K) / b ≤ 1 - 1 / b := by
    rw [le_sub_iff_add_le, ← add_div, div_le_one hbK]
    exact_mod_cast hab
  have h2 : (1 : K) / 2 ^ 51 ≤ 1 / b := one_div_le_one_div_of_le hbK (by exact_mod_cast hb)
  have h3 : (a : K) / b / 2 ^ 54 ≤ 1 / 2 ^ 54 := by
    refine div_le_div_of_nonneg_right ?_ (by positivity)
    have : 0 < 1 / (b : K) := by positivity
    linarith
  have h4 : (1 : K) / 2 ^ 54 < 1 / 2 ^ 51 := by norm_num
  linarith [hq.2]

lemma GoodFraction.pos {q : K} {a b : Nat} (ha : 0 < a) (hb : 0 < b) (hq : GoodFraction q a b) : 0 < q := by
  have h1 : (0 : K) < (a : K) / b := div_pos (by exact_mod_cast ha) (by exact_mod_cast hb)
  have h2 : (a : K) / b / 2 ^ 54 < a / b := div_lt_self h1 (by norm_num)
  linarith [hq.1]

lemma SameSize.mono {n m : Nat} {x y : Size K} (h : SameSize n x y) (hm : m ≤ n) : SameSize m x y := by
  cases h with
  | none => exact .none
  | int c => exact .int c
  | frac ha hab hb hq hn => exact .frac ha hab hb hq (lt_of_le_of_lt (Nat.mul_le_mul_left _ hm) hn)

lemma SameSize.range {n : Nat} {x y : Size K} (h : SameSize n x y) (m : Nat) : sizeInRange m x = sizeInRange m y := by
  cases h with
  | none => rfl
  | int c => rfl
  | @frac q a b ha hab hb hq hn =>
    have h1 : (0 : K) < (a : K) / b := div_pos (by exact_mod_cast ha) (by exact_mod_cast (by omega : 0 < b))
    have h2 : (a : K) / b < 1 := by
      rw [div_lt_one (by exact_mod_cast (by omega : 0 < b))]
      exact_mod_cast hab
    simp only [sizeInRange, hq.lt_one hab hb, hq.pos ha (by omega), h1, h2]

lemma validateSplit_same {n : Nat} {x y x' y' : Size K} (h : SameSize n x y) (h' : SameSize n x' y') :
    validateSplit n x x' = Split.validateSplit n y y' := by
  unfold validateSplit Split.validateSplit
  rw [h.range, h'.range]
  split_ifs
  · rfl
  · cases h with
    | none => cases h' with
      | none => rfl
      | int c => rfl
      | @frac q a b ha hab hb hq hn => simp only [(C132_exact_partial (by omega) hq hn).2]
    | int c => cases h' with
      | none => rfl
      | int c => rfl
      | @frac q a b ha hab hb hq hn => simp only [(C132_exact_partial (by omega) hq hn).2]
    | @frac q a b ha hab hb hq hn => cases h' with
      | none => simp only [(C132_exact_partial (by omega) hq hn).1]
      | int c => simp only [(C132_exact_partial (by omega) hq hn).1]
      | @frac q a b ha hab hb hq' hn' => simp only [(C132_exact_partial (by omega) hq hn).1, (C132_exact_partial (by omega) hq' hn').2]

/-- Not both sizes are fractions. -/
def OneFraction : Size K → Size K → Prop
  | .frac _, .frac _ => False
  | _, _ => True

lemma validateInit_same {n : Nat} {x y x' y' : Size K} (h : SameSize n x y) (h' : SameSize n x' y') (ho : OneFraction y y') :
    validateInit x x' = Split.validateInit y y' := by
  have key : ∀ {a b : Nat}, a < b → ¬ (1 : K) ≤ (a : K) / b := by
    intro a b hab
    rw [not_le, div_lt_one (by exact_mod_cast (by omega : 0 < b))]
    exact_mod_cast hab
  cases h with
  | none => cases h' with
    | none => rfl
    | int c => rfl
    | @frac q a b ha hab hb hq hn =>
      simp only [validateInit, Split.validateInit, key hab, not_le.2 (hq.lt_one hab hb), if_false]
  | int c => cases h' with
    | none => rfl
    | int c => rfl
    | @frac q a b ha hab hb hq hn =>
      simp only [validateInit, Split.validateInit, key hab, not_le.2 (hq.lt_one hab hb), if_false]
  | @frac q a b ha hab hb hq hn => cases h' with
    | none => simp only [validateInit, Split.validateInit, key hab, not_le.2 (hq.lt_one hab hb), if_false]
    | int c => simp only [validateInit, Split.validateInit, key hab, not_le.2 (hq.lt_one hab hb), if_false]
    | frac => exact ho.elim

/-- C132: the machine makes the splits that exact arithmetic makes, for every state of the random numbers: everything proved about
`ShuffleSplitWithinGroups` in exact arithmetic holds for the machine. -/
theorem C132_splits_partial {γ : Type} (rng : Rng γ) (k : Int) (sh : Bool) (s : γ) (n : Nat) (groups : Option (List α))
    {x y x' y' : Size K} (h : SameSize n x y) (h' : SameSize n x' y') (ho : OneFraction y y') :
    shuffleSplitWithinGroups rng ⟨k, x, x', sh⟩ s n groups =
      Split.shuffleSplitWithinGroups rng ⟨k, y, y', sh⟩ s n groups := by
  have masks : ∀ {β : Type} [LinearOrder β] (gs : List β), gs.length = n → ∀ (j : Nat) (s : γ),
      shuffleMasks rng ⟨k, x, x', sh⟩ gs s j = Split.shuffleMasks rng ⟨k, y, y', sh⟩ gs s j := by
    intro β _ gs hgs
    have mask : ∀ (us : List β) (s : γ) (m : List Bool),
        shuffleMask rng ⟨k, x, x', sh⟩ gs s m us = Split.shuffleMask rng ⟨k, y, y', sh⟩ gs s m us := by
      intro us
      induction us with
      | nil => intro s m; rfl
      | cons g us ih =>
        intro s m
        have hl : (members gs g).length ≤ n := by
          unfold members
          exact (List.length_filter_le _ _).trans (by rw [List.length_range, hgs])
        have e : trainTestSplit rng ⟨k, x, x', sh⟩ s (members gs g) =
            Split.trainTestSplit rng ⟨k, y, y', sh⟩ s (members gs g) := by
          unfold trainTestSplit Split.trainTestSplit
          simp only [validateSplit_same (h.mono hl) (h'.mono hl)]
          rfl
        unfold shuffleMask Split.shuffleMask
        rw [e]
        cases Split.trainTestSplit rng ⟨k, y, y', sh⟩ s (members gs g) with
        | error e => rfl
        | ok p => exact ih _ _
    intro j
    induction j with
    | zero => intro s; rfl
    | succ j ih =>
      intro s
      unfold shuffleMasks Split.shuffleMasks
      rw [mask]
      cases Split.shuffleMask rng ⟨k, y, y', sh⟩ gs s (List.replicate gs.length false) (npUnique gs) with
      | error e => rfl
      | ok p => simp only [ih]; rfl
  unfold shuffleSplitWithinGroups Split.shuffleSplitWithinGroups
  simp only [validateInit_same h h' ho]
  cases Split.validateInit y y' with
  | error e => rfl
  | ok v =>
    cases groups with
    | none =>
      simp only [masks (List.replicate n (0 : Int)) (by simp)]
      rfl
    | some gs =>
      by_cases hg : gs.length = n
      · simp only [masks gs hg]
        rfl
      · have : ((some gs).any fun g => g.length != n) = true := by simpa using hg
        simp only [this, if_true]

/-- 0.2, the test size of the scripts (scripts/exp_recsys_util.py:248). -/
theorem good_two_tenths : GoodFraction (fl ((1 : K) / 5)) 1 5 := by
  rw [fl_eq (k := -3) (n := 3602879701896397 * 2)]
  · unfold GoodFraction; norm_num
  · rw [abs_of_pos (by norm_num)]; norm_num
  · rw [abs_of_pos (by norm_num)]; norm_num
  · norm_num [abs_of_pos]

/-- 0.1, the default test size (model_selection/split.py:84). -/
theorem good_tenth : GoodFraction (fl ((1 : K) / 10)) 1 10 := by
  rw [fl_eq (k := -4) (n := 3602879701896397 * 2)]
  · unfold GoodFraction; norm_num
  · rw [abs_of_pos (by norm_num)]; norm_num
  · rw [abs_of_pos (by norm_num)]; norm_num
  · norm_num [abs_of_pos]

/-- C132: the scripts' test size 0.2 and the default 0.1, with any number of splits. -/
theorem C132_two_tenths {γ : Type} (rng : Rng γ) (k : Int) (sh : Bool) (s : γ) (n : Nat) (hn : n < 2 ^ 51)
    (groups : Option (List α)) :
    shuffleSplitWithinGroups rng ⟨k, .frac (fl ((1 : K) / 5)), .none, sh⟩ s n groups =
      Split.shuffleSplitWithinGroups rng ⟨k, .frac ((1 : K) / 5), .none, sh⟩ s n groups ∧
    shuffleSplitWithinGroups rng ⟨k, .frac (fl ((1 : K) / 10)), .none, sh⟩ s n groups =
      Split.shuffleSplitWithinGroups rng ⟨k, .frac ((1 : K) / 10), .none, sh⟩ s n groups := by
  constructor
  · have h := SameSize.frac (n := n) (by omega) (by omega) (by norm_num) (good_two_tenths (K := K)) (by omega)
    have := C132_splits_partial rng k sh s n groups h .none trivial
    simpa using this
  · have h := SameSize.frac (n := n) (by omega) (by omega) (by norm_num) (good_tenth (K := K)) (by omega)
    have := C132_splits_partial rng k sh s n groups h .none trivial
    simpa using this

/-- C132 cannot be had for all fractions: of 100 events the test size 0.07 takes 8. -/
theorem C132_exact_refuted : ⌈fl (fl ((7 : K) / 100) * (100 : Nat))⌉ = 8 ∧ ⌈((7 : K) / 100) * (100 : Nat)⌉ = 7 := by
  constructor
  · rw [fl_eq (x := (7 : K) / 100) (k := -4) (n := 5044031582654956)]
    · rw [fl_eq (k := 2) (n := 7881299347898369)]
      · rw [Int.ceil_eq_iff]; norm_num
      · rw [abs_of_pos (by norm_num)]; norm_num
      · rw [abs_of_pos (by norm_num)]; norm_num
      · norm_num [abs_of_pos]
    · rw [abs_of_pos (by norm_num)]; norm_num
    · rw [abs_of_pos (by norm_num)]; norm_num
    · norm_num [abs_of_pos]
  · rw [Int.ceil_eq_iff]; norm_num

/-- 0.07 meets the hypothesis of the theorem about one event more or less. -/
example : |fl ((7 : ℚ) / 100) - ((7 : Nat) : ℚ) / (100 : Nat)| ≤ ((7 : Nat) : ℚ) / (100 : Nat) / 2 ^ 53 := by
  have := fl_error ((7 : ℚ) / 100)
  rw [abs_of_pos (a := (7 : ℚ) / 100) (by norm_num)] at this
  exact_mod_cast this

end Kam.Fl
