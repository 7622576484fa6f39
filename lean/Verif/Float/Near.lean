/-
Relative errors of rounded operations on numbers that are not negative: they multiply up along a computation.
-/
import Verif.Float.Round
import Verif.Float.Sigmoid
import Mathlib.Analysis.Real.Sqrt
import Mathlib.Algebra.Order.Ring.Pow

set_option linter.unusedSectionVars false

namespace Kam.Fl
open Spec

/-- The largest relative error of one rounded operation. -/
noncomputable def u : ℝ := 1 / 2 ^ 53

lemma u_pos : 0 < u := by unfold u; norm_num
lemma u_small : u ≤ 1 / 2 := by unfold u; norm_num

/-- `b` is `a` up to `n` relative errors of one rounded operation each. -/
def Near (n : Nat) (a b : ℝ) : Prop := 0 ≤ a ∧ (1 - u) ^ n * a ≤ b ∧ b ≤ (1 + u) ^ n * a

lemma low_pos (n : Nat) : 0 < (1 - u) ^ n := pow_pos (by linarith [u_small]) n
lemma low_le (n : Nat) : (1 - u) ^ n ≤ 1 := pow_le_one₀ (by linarith [u_small]) (by linarith [u_pos])
lemma high_pos (n : Nat) : 0 < (1 + u) ^ n := pow_pos (by linarith [u_pos]) n
lemma one_le_high (n : Nat) : 1 ≤ (1 + u) ^ n := one_le_pow₀ (by linarith [u_pos])

lemma Near.refl {a : ℝ} (h : 0 ≤ a) : Near 0 a a := ⟨h, by simp, by simp⟩

lemma Near.nonneg {n : Nat} {a b : ℝ} (h : Near n a b) : 0 ≤ b := (mul_nonneg (low_pos n).le h.1).trans h.2.1

lemma Near.pos {n : Nat} {a b : ℝ} (h : Near n a b) (ha : 0 < a) : 0 < b := (mul_pos (low_pos n) ha).trans_le h.2.1

lemma Near.eq_zero {n : Nat} {a b : ℝ} (h : Near n a b) : b = 0 ↔ a = 0 := by
  constructor
  · intro hb
    rcases h.1.eq_or_lt with h0 | h0
    · exact h0.symm
    · exact absurd hb (h.pos h0).ne'
  · rintro rfl
    have h1 := h.2.1
    have h2 := h.2.2
    simp only [mul_zero] at h1 h2
    exact le_antisymm h2 h1

lemma Near.mono {n m : Nat} {a b : ℝ} (h : Near n a b) (hnm : n ≤ m) : Near m a b := by
  refine ⟨h.1, le_trans ?_ h.2.1, h.2.2.trans ?_⟩
  · exact mul_le_mul_of_nonneg_right (pow_le_pow_of_le_one (by linarith [u_small]) (by linarith [u_pos]) hnm) h.1
  · exact mul_le_mul_of_nonneg_right (pow_le_pow_right₀ (by linarith [u_pos]) hnm) h.1

lemma Near.trans {n m : Nat} {a b c : ℝ} (h : Near n a b) (h2 : Near m b c) : Near (n + m) a c := by
  refine ⟨h.1, le_trans ?_ h2.2.1, h2.2.2.trans ?_⟩
  · rw [pow_add, mul_comm ((1 - u) ^ n), mul_assoc]
    exact mul_le_mul_of_nonneg_left h.2.1 (low_pos m).le
  · rw [pow_add, mul_comm ((1 + u) ^ n), mul_assoc]
    exact mul_le_mul_of_nonneg_left h.2.2 (high_pos m).le

/-- One rounded operation. -/
lemma near_fl {x : ℝ} (hx : 0 ≤ x) : Near 1 x (fl x) := by
  have h := fl_error x
  rw [abs_of_nonneg hx] at h
  have h := abs_le.1 h
  have e : x / 2 ^ 53 = u * x := by unfold u; ring
  rw [e] at h
  exact ⟨hx, by rw [pow_one]; linarith [h.1], by rw [pow_one]; linarith [h.2]⟩

lemma Near.fl {n : Nat} {a b : ℝ} (h : Near n a b) : Near (n + 1) a (fl b) := h.trans (near_fl h.nonneg)

lemma Near.mul {n m : Nat} {a b c d : ℝ} (h : Near n a b) (h2 : Near m c d) : Near (n + m) (a * c) (b * d) := by
  refine ⟨mul_nonneg h.1 h2.1, ?_, ?_⟩
  · calc (1 - u) ^ (n + m) * (a * c) = ((1 - u) ^ n * a) * ((1 - u) ^ m * c) := by ring
      _ ≤ b * d := mul_le_mul h.2.1 h2.2.1 (mul_nonneg (low_pos m).le h2.1) h.nonneg
  · calc b * d ≤ ((1 + u) ^ n * a) * ((1 + u) ^ m * c) :=
        mul_le_mul h.2.2 h2.2.2 h2.nonneg (mul_nonneg (high_pos n).le h.1)
      _ = (1 + u) ^ (n + m) * (a * c) := by ring

lemma Near.scale {n : Nat} {a b c : ℝ} (h : Near n a b) (hc : 0 ≤ c) : Near n (a * c) (b * c) := by
  have := h.mul (Near.refl hc)
  exact this

lemma Near.div {n : Nat} {a b c : ℝ} (h : Near n a b) (hc : 0 ≤ c) : Near n (a / c) (b / c) := by
  rw [div_eq_mul_inv, div_eq_mul_inv]
  exact h.scale (inv_nonneg.2 hc)

lemma Near.add {n : Nat} {a b c d : ℝ} (h : Near n a b) (h2 : Near n c d) : Near n (a + c) (b + d) :=
  ⟨add_nonneg h.1 h2.1, by rw [mul_add]; exact add_le_add h.2.1 h2.2.1, by rw [mul_add]; exact add_le_add h.2.2 h2.2.2⟩

lemma Near.sqrt {n : Nat} {a b : ℝ} (h : Near n a b) : Near n (Real.sqrt a) (Real.sqrt b) := by
  refine ⟨Real.sqrt_nonneg _, ?_, ?_⟩
  · have h1 := Real.sqrt_le_sqrt h.2.1
    rw [Real.sqrt_mul (low_pos n).le] at h1
    refine le_trans (mul_le_mul_of_nonneg_right ?_ (Real.sqrt_nonneg _)) h1
    exact Real.le_sqrt_of_sq_le (by nlinarith [low_pos n, low_le n])
  · have h1 := Real.sqrt_le_sqrt h.2.2
    rw [Real.sqrt_mul (high_pos n).le] at h1
    refine h1.trans (mul_le_mul_of_nonneg_right ?_ (Real.sqrt_nonneg _))
    exact Real.sqrt_le_iff.2 ⟨(high_pos n).le, by nlinarith [one_le_high n]⟩

/-- The two bounds as a relative error. -/
lemma Near.error {n : Nat} {a b : ℝ} (h : Near n a b) : |b - a| ≤ ((1 + u) ^ n - 1) * a := by
  have h1 : 2 ≤ (1 + u) ^ n + (1 - u) ^ n := by
    have h2 := one_add_mul_le_pow (a := u) (by linarith [u_pos]) n
    have h3 := one_add_mul_le_pow (a := -u) (by linarith [u_small]) n
    rw [← sub_eq_add_neg] at h3
    linarith
  have := mul_le_mul_of_nonneg_right h1 h.1
  rw [abs_le]
  constructor
  · linarith [h.2.1]
  · linarith [h.2.2]

/-- A bound that is easier to read. -/
lemma high_bound {n : Nat} (h : n ≤ 2 ^ 52) : (1 + u) ^ n - 1 ≤ n / 2 ^ 52 := by
  have key : ∀ m : Nat, m ≤ 2 ^ 52 → (1 + u) ^ m ≤ 1 + m / 2 ^ 52 := by
    intro m
    induction m with
    | zero => intro _; simp
    | succ m ih =>
      intro hm
      have h1 := ih (by omega)
      have h2 : (m : ℝ) + 1 ≤ 2 ^ 52 := by exact_mod_cast hm
      rw [pow_succ]
      have h3 := mul_le_mul_of_nonneg_right h1 (by linarith [u_pos] : 0 ≤ 1 + u)
      refine h3.trans ?_
      have hu : u = 1 / 2 ^ 53 := rfl
      have hm0 : (0 : ℝ) ≤ m := Nat.cast_nonneg m
      push_cast
      have h4 : (m : ℝ) / 2 ^ 52 ≤ 1 := by rw [div_le_one (by norm_num)]; linarith
      have h5 : (1 + (m : ℝ) / 2 ^ 52) * (1 + u) = 1 + m / 2 ^ 52 + u * (1 + m / 2 ^ 52) := by ring
      rw [h5, hu]
      have h6 : (1 / 2 ^ 53 : ℝ) * (1 + m / 2 ^ 52) ≤ 1 / 2 ^ 53 * 2 := by
        apply mul_le_mul_of_nonneg_left _ (by norm_num)
        linarith
      have h7 : ((m : ℝ) + 1) / 2 ^ 52 = m / 2 ^ 52 + 1 / 2 ^ 52 := by ring
      rw [h7]
      have h8 : (1 / 2 ^ 53 * 2 : ℝ) = 1 / 2 ^ 52 := by norm_num
      linarith
  linarith [key n h]

lemma Near.relative {n : Nat} {a b : ℝ} (h : Near n a b) (hn : n ≤ 2 ^ 52) : |b - a| ≤ n / 2 ^ 52 * a :=
  h.error.trans (mul_le_mul_of_nonneg_right (high_bound hn) h.1)

/-! ### Sums in any order -/

/-- A rounded sum of numbers that are not negative. -/
lemma near_sum {xs : List ℝ} {v : ℝ} (h : RoundedSum xs v) (hx : ∀ x ∈ xs, 0 ≤ x) : Near (xs.length - 1) xs.sum v := by
  induction h with
  | nil => exact Near.refl (le_refl _)
  | one x => rw [List.sum_singleton]; exact Near.refl (hx x (by simp))
  | @add xs ys a b hx0 hy0 _ _ iha ihb =>
    have h1 := iha (fun x h => hx x (by simp [h]))
    have h2 := ihb (fun x h => hx x (by simp [h]))
    have hxl : 1 ≤ xs.length := List.length_pos_iff.2 hx0
    have hyl : 1 ≤ ys.length := List.length_pos_iff.2 hy0
    rw [List.sum_append, List.length_append]
    have h3 := ((h1.mono (m := xs.length + ys.length - 2) (by omega)).add (h2.mono (m := xs.length + ys.length - 2) (by omega))).fl
    exact h3.mono (by omega)
  | perm _ hp ih =>
    rw [← hp.sum_eq, ← hp.length_eq]
    exact ih (fun x h => hx x (hp.mem_iff.1 h))

lemma near_list {n : Nat} : ∀ {as bs : List ℝ}, List.Forall₂ (Near n) as bs → Near n as.sum bs.sum
  | _, _, .nil => (Near.refl (le_refl _)).mono (Nat.zero_le _)
  | _, _, .cons h t => by
    rw [List.sum_cons, List.sum_cons]
    exact h.add (near_list t)

/-- A rounded sum of numbers that carry errors already. -/
lemma near_sum_of {n : Nat} {as bs : List ℝ} (h : List.Forall₂ (Near n) as bs) {v : ℝ} (hv : RoundedSum bs v) :
    Near (n + (bs.length - 1)) as.sum v := by
  refine (near_list h).trans (near_sum hv ?_)
  intro b hb
  obtain ⟨i, hi, rfl⟩ := List.mem_iff_getElem.1 hb
  exact (h.get (by rw [h.length_eq]; exact hi) hi).nonneg

/-- Rounding forgets nothing about the sign. -/
lemma fl_eq_zero {x : ℝ} : fl x = 0 ↔ x = 0 := by
  constructor
  · intro h
    rcases lt_trichotomy x 0 with h0 | h0 | h0
    · exact absurd h (fl_neg_of_neg h0).ne
    · exact h0
    · exact absurd h (fl_pos h0).ne'
  · rintro rfl; simp

lemma abs_near (x : ℝ) : Near 1 |x| |fl x| := by
  have h := fl_error x
  have e : |x| / 2 ^ 53 = u * |x| := by unfold u; ring
  rw [e] at h
  have h1 := abs_sub_abs_le_abs_sub (fl x) x
  have h2 := abs_sub_abs_le_abs_sub x (fl x)
  rw [abs_sub_comm] at h2
  exact ⟨abs_nonneg x, by rw [pow_one]; linarith, by rw [pow_one]; linarith⟩

end Kam.Fl
