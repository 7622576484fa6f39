/-
IEEE binary64 rounding, for the statements about what the code computes with real machine numbers.

A rounded operation of the code returns the 53-bit number nearest to the exact result, ties going to
the even one.  The exponent range is not bounded: overflow and subnormal numbers are not modelled
(the statements that use this file are about values far away from both).
-/
import Mathlib.Algebra.Order.Floor.Ring
import Mathlib.Algebra.Order.Round
import Mathlib.Data.Int.Log
import Mathlib.Tactic.Linarith
import Mathlib.Tactic.NormNum
import Mathlib.Tactic.FieldSimp
import Mathlib.Tactic.Ring
import Mathlib.Tactic.Positivity

set_option linter.unusedSectionVars false

namespace Kam
namespace Fl

section
variable {K : Type} [Field K] [LinearOrder K] [IsStrictOrderedRing K] [FloorRing K]

/-- The integer nearest to `x`, the even one of two equally near ones (IEEE 754,
roundTiesToEven). -/
def roundEven (x : K) : ℤ :=
  if Int.fract x < 1 / 2 then ⌊x⌋
  else if 1 / 2 < Int.fract x then ⌊x⌋ + 1
  else if ⌊x⌋ % 2 = 0 then ⌊x⌋ else ⌊x⌋ + 1

/-- The binary64 number a machine operation with exact result `x` returns: with
`2^k ≤ |x| < 2^(k+1)` the multiple of `2^(k-52)` nearest to `x` (IEEE 754; numpy's `float64` and
Python's `float`).  Simplified: no overflow, no subnormal numbers. -/
def fl (x : K) : K :=
  if x = 0 then 0
  else (roundEven (x / (2 : K) ^ (Int.log 2 |x| - 52)) : K) * (2 : K) ^ (Int.log 2 |x| - 52)

/-- `x` is a binary64 number (up to the range of exponents). -/
def IsDouble (x : K) : Prop := ∃ m e : ℤ, |m| ≤ 2 ^ 53 ∧ x = (m : K) * (2 : K) ^ e

theorem roundEven_intCast (n : ℤ) : roundEven ((n : ℤ) : K) = n := by
  unfold roundEven
  rw [Int.fract_intCast, if_pos (by norm_num), Int.floor_intCast]

theorem roundEven_error (x : K) : |(roundEven x : K) - x| ≤ 1 / 2 := by
  have h0 := Int.fract_nonneg x
  have h1 := Int.fract_lt_one x
  have hx : x = ⌊x⌋ + Int.fract x := (Int.floor_add_fract x).symm
  unfold roundEven
  split_ifs with a b c
  · rw [abs_le]; constructor <;> linarith
  · push_cast; rw [abs_le]; constructor <;> linarith
  · rw [abs_le]; constructor <;> linarith
  · push_cast; rw [abs_le]; constructor <;> linarith

/-- The nearest integer when it is the only one. -/
theorem roundEven_eq {x : K} {n : ℤ} (h : |x - n| < 1 / 2) : roundEven x = n := by
  have he := roundEven_error x
  have : |((roundEven x - n : ℤ) : K)| < 1 := by
    push_cast
    calc |(roundEven x : K) - n| = |((roundEven x : K) - x) + (x - n)| := by ring_nf
      _ ≤ |(roundEven x : K) - x| + |x - n| := abs_add_le _ _
      _ < 1 := by linarith
  rw [← Int.cast_abs] at this
  have h2 : |roundEven x - n| < 1 := by exact_mod_cast this
  have := Int.abs_lt_one_iff.1 h2
  omega

theorem zpow_pos2 (e : ℤ) : (0 : K) < (2 : K) ^ e := zpow_pos (by norm_num) e

theorem log_spec {x : K} (hx : x ≠ 0) :
    (2 : K) ^ (Int.log 2 |x|) ≤ |x| ∧ |x| < (2 : K) ^ (Int.log 2 |x| + 1) := by
  have hp : 0 < |x| := abs_pos.2 hx
  refine ⟨?_, ?_⟩
  · simpa using Int.zpow_log_le_self (b := 2) (by norm_num) hp
  · simpa using Int.lt_zpow_succ_log_self (b := 2) (by norm_num) |x|

theorem log_eq {x : K} {k : ℤ} (h1 : (2 : K) ^ k ≤ |x|) (h2 : |x| < (2 : K) ^ (k + 1)) :
    Int.log 2 |x| = k := by
  have hp : 0 < |x| := lt_of_lt_of_le (zpow_pos2 k) h1
  have a : k ≤ Int.log 2 |x| :=
    (Int.zpow_le_iff_le_log (b := 2) (by norm_num) hp).1 (by simpa using h1)
  have b : Int.log 2 |x| < k + 1 :=
    (Int.lt_zpow_iff_log_lt (b := 2) (by norm_num) hp).1 (by simpa using h2)
  omega

@[simp] theorem fl_zero : fl (0 : K) = 0 := if_pos rfl

/-- Rounding in a known binade. -/
theorem fl_eq {x : K} {k : ℤ} {n : ℤ} (h1 : (2 : K) ^ k ≤ |x|) (h2 : |x| < (2 : K) ^ (k + 1))
    (hn : |x / (2 : K) ^ (k - 52) - n| < 1 / 2) : fl x = (n : K) * (2 : K) ^ (k - 52) := by
  have hp : 0 < |x| := lt_of_lt_of_le (zpow_pos2 k) h1
  unfold fl
  rw [if_neg (abs_pos.1 hp), log_eq h1 h2, roundEven_eq hn]

/-- **Relative error** of one rounded operation: at most `2^-53`. -/
theorem fl_error (x : K) : |fl x - x| ≤ |x| / 2 ^ 53 := by
  by_cases hx : x = 0
  · subst hx; simp
  · unfold fl
    rw [if_neg hx]
    set k := Int.log 2 |x| with hk
    have hz : (0 : K) < (2 : K) ^ (k - 52) := zpow_pos2 _
    have h1 := (log_spec hx).1
    rw [← hk] at h1
    have e1 : (roundEven (x / (2 : K) ^ (k - 52)) : K) * (2 : K) ^ (k - 52) - x =
        ((roundEven (x / (2 : K) ^ (k - 52)) : K) - x / (2 : K) ^ (k - 52)) * (2 : K) ^ (k - 52) := by
      field_simp
    rw [e1, abs_mul, abs_of_pos hz]
    have h2 := roundEven_error (x / (2 : K) ^ (k - 52))
    have h3 : (2 : K) ^ k = (2 : K) ^ (k - 52) * 2 ^ 52 := by
      rw [← zpow_natCast, ← zpow_add₀ (by norm_num)]
      congr 1
      push_cast
      ring
    calc _ ≤ 1 / 2 * (2 : K) ^ (k - 52) := mul_le_mul_of_nonneg_right h2 hz.le
      _ = (2 : K) ^ k / 2 ^ 53 := by rw [h3]; field_simp
      _ ≤ |x| / 2 ^ 53 := by gcongr

/-- A number that is a binary64 number already is not changed. -/
theorem fl_exact {m e : ℤ} (hm : |m| ≤ 2 ^ 53) :
    fl ((m : K) * (2 : K) ^ e) = (m : K) * (2 : K) ^ e := by
  by_cases h0 : m = 0
  · subst h0; simp
  have hz : (0 : K) < (2 : K) ^ e := zpow_pos2 e
  have hx : (m : K) * (2 : K) ^ e ≠ 0 := mul_ne_zero (by exact_mod_cast h0) hz.ne'
  unfold fl
  rw [if_neg hx]
  have hs := (log_spec hx).1
  set k := Int.log 2 |(m : K) * (2 : K) ^ e| with hk
  have key : ∃ j : ℤ, (m : K) * (2 : K) ^ e = (j : K) * (2 : K) ^ (k - 52) := by
    by_cases hc : k - 52 ≤ e
    · obtain ⟨d, hd⟩ := Int.eq_ofNat_of_zero_le (sub_nonneg.2 hc)
      refine ⟨m * 2 ^ d, ?_⟩
      have : e = d + (k - 52) := by omega
      rw [this, zpow_add₀ (by norm_num), zpow_natCast]
      push_cast
      ring
    · -- the significand is `2^53`
      have hc : e < k - 52 := not_le.1 hc
      rw [abs_mul, abs_of_pos hz] at hs
      have hmK : |(m : K)| ≤ 2 ^ 53 := by
        rw [← Int.cast_abs]; exact_mod_cast hm
      have e2 : (2 : K) ^ k = (2 : K) ^ (k - e) * (2 : K) ^ e := by
        rw [← zpow_add₀ (by norm_num)]; congr 1; ring
      rw [e2] at hs
      have hs' : (2 : K) ^ (k - e) ≤ |(m : K)| := le_of_mul_le_mul_right hs hz
      have hle : (2 : K) ^ (k - e) ≤ (2 : K) ^ (53 : ℤ) := by
        refine le_trans hs' (le_trans hmK ?_)
        norm_cast
      have hke : k - e ≤ 53 := (zpow_le_zpow_iff_right₀ (by norm_num)).1 hle
      have hke' : k - e = 53 := by omega
      rw [hke'] at hs'
      have hm53 : |(m : K)| = 2 ^ 53 := by
        refine le_antisymm hmK (le_trans ?_ hs')
        norm_cast
      have hmz : |m| = 2 ^ 53 := by
        rw [← Int.cast_abs] at hm53
        exact_mod_cast hm53
      have ee : e = (k - 52) - 1 := by omega
      have half : (2 : K) ^ e = (2 : K) ^ (k - 52) / 2 := by
        rw [ee, zpow_sub₀ (by norm_num), zpow_one]
      rcases abs_choice m with h | h
      · refine ⟨2 ^ 52, ?_⟩
        rw [h] at hmz
        rw [half, hmz]
        push_cast
        ring
      · refine ⟨-2 ^ 52, ?_⟩
        rw [h] at hmz
        have : m = -2 ^ 53 := by omega
        rw [half, this]
        push_cast
        ring
  obtain ⟨j, hj⟩ := key
  rw [hj, mul_div_assoc, div_self (zpow_pos2 _).ne', mul_one, roundEven_intCast]

theorem fl_of_double {x : K} (h : IsDouble x) : fl x = x := by
  obtain ⟨m, e, hm, rfl⟩ := h
  exact fl_exact hm

theorem fl_int {m : ℤ} (hm : |m| ≤ 2 ^ 53) : fl (m : K) = m := by
  have := fl_exact (K := K) (m := m) (e := 0) hm
  simpa using this

/-- The comparison of a rounded quotient of integers with an integer is right: the quotient is
either equal to that integer or too far away to be rounded to it. -/
theorem fl_div_le_iff {N s : ℤ} (hN : |N| < 2 ^ 53) (hs : s ≠ 0) (m : ℤ) :
    (fl ((N : K) / s) ≤ m ↔ (N : K) / s ≤ m) ∧ ((m : K) ≤ fl ((N : K) / s) ↔ (m : K) ≤ (N : K) / s) ∧
      (fl ((N : K) / s) < m ↔ (N : K) / s < m) ∧ ((m : K) < fl ((N : K) / s) ↔ (m : K) < (N : K) / s) := by
  have hsK : (s : K) ≠ 0 := by exact_mod_cast hs
  have hsp : 0 < |(s : K)| := abs_pos.2 hsK
  have herr := fl_error ((N : K) / s)
  rcases eq_or_ne ((N : K) / s) m with h | h
  · have hNm : (N : K) = (m * s : ℤ) := by
      push_cast; rw [← h]; field_simp
    have hNm' : N = m * s := by exact_mod_cast hNm
    have hm : |m| ≤ 2 ^ 53 := by
      have h1 : 1 ≤ |s| := Int.one_le_abs hs
      have : |N| = |m| * |s| := by rw [hNm', abs_mul]
      nlinarith [abs_nonneg m]
    have : fl ((N : K) / s) = (N : K) / s := by rw [h]; exact fl_int hm
    rw [this]
    exact ⟨Iff.rfl, Iff.rfl, Iff.rfl, Iff.rfl⟩
  · -- at least `1 / |s|` away
    have hd : 1 / |(s : K)| ≤ |(N : K) / s - m| := by
      have e : (N : K) / s - m = ((N - m * s : ℤ) : K) / s := by
        push_cast; field_simp
      rw [e, abs_div]
      have hne : N - m * s ≠ 0 := by
        intro h0
        apply h
        have : N = m * s := by omega
        rw [this]; push_cast; field_simp
      have : (1 : K) ≤ |((N - m * s : ℤ) : K)| := by
        rw [← Int.cast_abs]; exact_mod_cast Int.one_le_abs hne
      gcongr
    have hsm : |fl ((N : K) / s) - (N : K) / s| < |(N : K) / s - m| := by
      refine lt_of_le_of_lt herr (lt_of_lt_of_le ?_ hd)
      rw [abs_div, div_div, div_lt_div_iff₀ (by positivity) hsp]
      have : |(N : K)| < 2 ^ 53 := by rw [← Int.cast_abs]; exact_mod_cast hN
      nlinarith
    rcases lt_or_gt_of_ne h with hlt | hgt
    · rw [abs_of_neg (by linarith : (N : K) / s - m < 0)] at hsm
      have := (abs_lt.1 hsm).2
      have h2 : fl ((N : K) / s) < m := by linarith
      exact ⟨⟨fun _ => hlt.le, fun _ => h2.le⟩, ⟨fun a => absurd h2 (not_lt.2 a), fun a => absurd hlt (not_lt.2 a)⟩,
        ⟨fun _ => hlt, fun _ => h2⟩, ⟨fun a => absurd (h2.trans a) (lt_irrefl _), fun a => absurd (hlt.trans a) (lt_irrefl _)⟩⟩
    · rw [abs_of_pos (by linarith : 0 < (N : K) / s - m)] at hsm
      have := (abs_lt.1 hsm).1
      have h2 : (m : K) < fl ((N : K) / s) := by linarith
      exact ⟨⟨fun a => absurd h2 (not_lt.2 a), fun a => absurd hgt (not_lt.2 a)⟩, ⟨fun _ => hgt.le, fun _ => h2.le⟩,
        ⟨fun a => absurd (h2.trans a) (lt_irrefl _), fun a => absurd (hgt.trans a) (lt_irrefl _)⟩, ⟨fun _ => hgt, fun _ => h2⟩⟩

theorem floor_fl_div {N s : ℤ} (hN : |N| < 2 ^ 53) (hs : s ≠ 0) :
    ⌊fl ((N : K) / s)⌋ = ⌊(N : K) / s⌋ := by
  apply le_antisymm
  · rw [Int.le_floor]; exact (fl_div_le_iff hN hs _).2.1.1 (Int.floor_le _)
  · rw [Int.le_floor]; exact (fl_div_le_iff hN hs _).2.1.2 (Int.floor_le _)

theorem ceil_fl_div {N s : ℤ} (hN : |N| < 2 ^ 53) (hs : s ≠ 0) :
    ⌈fl ((N : K) / s)⌉ = ⌈(N : K) / s⌉ := by
  apply le_antisymm
  · rw [Int.ceil_le]; exact (fl_div_le_iff hN hs _).1.2 (Int.le_ceil _)
  · rw [Int.ceil_le]; exact (fl_div_le_iff hN hs _).1.1 (Int.le_ceil _)

/-- A positive number is rounded to a positive number. -/
theorem fl_pos {x : K} (h : 0 < x) : 0 < fl x := by
  have := fl_error x
  rw [abs_of_pos h, abs_le] at this
  have h2 : x / 2 ^ 53 < x := div_lt_self h (by norm_num)
  linarith [this.1]

theorem fl_neg_of_neg {x : K} (h : x < 0) : fl x < 0 := by
  have := fl_error x
  rw [abs_of_neg h, abs_le] at this
  have h2 : -x / 2 ^ 53 < -x := div_lt_self (by linarith) (by norm_num)
  linarith [this.2]

end

end Fl
end Kam
