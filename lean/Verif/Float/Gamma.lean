/-
C131: `variance_with_gamma_prior` with machine arithmetic.  The result is always positive; it is accurate unless the sum of
squares and the square of the sum cancel.
-/
import Verif.Float.Metrics

set_option linter.unusedSectionVars false

namespace Kam.Fl
open Spec

/-- `variance_with_gamma_prior` (metrics/real.py:228-233) of finite data: every operation is rounded, the sums are formed in some
order.  `2 * b`, `2 * a`: products with an integer. -/
def GammaVariance (a b : ℝ) (xs : List ℝ) (v : ℝ) : Prop :=
  ∃ xSum xSqsum, RoundedSum xs xSum ∧ RoundedSum (xs.map (fun x => fl (x ^ 2))) xSqsum ∧
    let var := fl (fl (fl (fl (2 * b) + xSqsum) - fl (fl (xSum ^ 2) / xs.length)) / fl (fl (2 * a) + xs.length))
    v = if var ≤ 0 then fl (b / a) else var

/-- C131: positive, whatever the data and the rounding errors. -/
theorem C131_positive {a b : ℝ} (ha : 0 < a) (hb : 0 < b) {xs : List ℝ} {v : ℝ} (h : GammaVariance a b xs v) : 0 < v := by
  obtain ⟨s, q, -, -, rfl⟩ := h
  split_ifs with h1
  · exact fl_pos (div_pos hb ha)
  · exact not_le.1 h1

/-- There is a result for all data. -/
theorem exists_gammaVariance (a b : ℝ) (xs : List ℝ) : ∃ v, GammaVariance a b xs v := by
  obtain ⟨s, hs⟩ := exists_sum xs
  obtain ⟨q, hq⟩ := exists_sum (xs.map (fun x => fl (x ^ 2)))
  exact ⟨_, s, q, hs, hq, rfl⟩

lemma high_low (n : Nat) : 1 ≤ (1 + u) ^ (2 * n) * (1 - u) ^ n := by
  rw [pow_mul, ← mul_pow]
  refine one_le_pow₀ ?_
  have h1 := u_pos
  have h2 := u_small
  nlinarith [mul_pos h1 h1]

/-- Roundings of a divisor. -/
lemma Near.inv {n : Nat} {a b : ℝ} (h : Near n a b) (ha : 0 < a) : Near (2 * n) a⁻¹ b⁻¹ := by
  have hb := h.pos ha
  refine ⟨(inv_pos.2 ha).le, ?_, ?_⟩
  · rw [← div_eq_mul_inv, ← one_div b, div_le_div_iff₀ ha hb]
    have h1 : (1 - u) ^ (2 * n) * (1 + u) ^ n ≤ 1 := by
      rw [pow_mul, ← mul_pow]
      refine pow_le_one₀ ?_ ?_
      · have := u_small; have := u_pos; exact mul_nonneg (sq_nonneg _) (by linarith)
      · have h1 := u_pos; have h2 := u_small; nlinarith [mul_pos h1 h1]
    calc (1 - u) ^ (2 * n) * b ≤ (1 - u) ^ (2 * n) * ((1 + u) ^ n * a) := mul_le_mul_of_nonneg_left h.2.2 (low_pos _).le
      _ = (1 - u) ^ (2 * n) * (1 + u) ^ n * a := by ring
      _ ≤ 1 * a := mul_le_mul_of_nonneg_right h1 ha.le
  · rw [← div_eq_mul_inv, ← one_div b, div_le_div_iff₀ hb ha]
    calc 1 * a ≤ (1 + u) ^ (2 * n) * (1 - u) ^ n * a := mul_le_mul_of_nonneg_right (high_low n) ha.le
      _ = (1 + u) ^ (2 * n) * ((1 - u) ^ n * a) := by ring
      _ ≤ (1 + u) ^ (2 * n) * b := mul_le_mul_of_nonneg_left h.2.1 (high_pos _).le

/-- C131: as long as the exact numerator `2b + Σx² − (Σx)²/n` is not lost among the rounding errors of its parts, the result is
the exact one up to those errors.  Without the hypothesis this is false: `C131_accurate_refuted`. -/
theorem C131_accurate_partial {a b : ℝ} (ha : 0 < a) (hb : 0 < b) {n : Nat} (hn : 0 < n) (hmax : n ≤ 2 ^ 50) (x : Fin n → ℝ)
    (hcancel : (2 * n + 2) / 2 ^ 51 * (b + ∑ i, x i ^ 2) < 2 * b + ∑ i, x i ^ 2 - (∑ i, x i) ^ 2 / n) {v : ℝ}
    (h : GammaVariance a b (List.ofFn x) v) :
    |v - Metrics.gammaVariance a b (List.ofFn x)| ≤ (2 * n + 7) / 2 ^ 51 * ((b + ∑ i, x i ^ 2) / (2 * a + n)) := by
  have hn' : (0 : ℝ) < n := by exact_mod_cast hn
  obtain ⟨s, q, hs, hq, hv⟩ := h
  rw [List.length_ofFn] at hv
  have hS : Dev (n - 1) (∑ i, x i) s (∑ i, |x i|) := by
    have := dev_sum hs
    rwa [List.length_ofFn, List.sum_ofFn, List.map_ofFn, List.sum_ofFn] at this
  have hQ : Near n (∑ i, x i ^ 2) q := by
    rw [List.map_ofFn] at hq
    have h1 : List.Forall₂ (Near 1) (List.ofFn (fun i => x i ^ 2)) (List.ofFn ((fun y => fl (y ^ 2)) ∘ x)) := by
      rw [List.forall₂_iff_get]
      refine ⟨by simp, fun i h1 h2 => ?_⟩
      simp only [List.get_ofFn, Function.comp]
      exact near_fl (sq_nonneg _)
    have h2 := near_sum_of h1 hq
    rw [List.length_ofFn, List.sum_ofFn] at h2
    exact h2.mono (by omega)
  have h2b : Near 1 (2 * b) (fl (2 * b)) := near_fl (by linarith)
  have h1 : Near (n + 1) (2 * b + ∑ i, x i ^ 2) (fl (fl (2 * b) + q)) := ((h2b.mono (by omega)).add hQ).fl
  have h2 : Dev (2 * n) ((∑ i, x i) ^ 2 / n) (fl (fl (s ^ 2) / n)) ((∑ i, |x i|) ^ 2 / n) := by
    rw [pow_two (∑ i, x i), pow_two (∑ i, |x i|), pow_two s]
    exact ((((hS.mul hS).fl).div hn'.le).fl).mono (by omega)
  have hsize : (∑ i, |x i|) ^ 2 / n ≤ ∑ i, x i ^ 2 := by
    have := Metrics.mean_sq_le hn (fun i => |x i|)
    simp only [sq_abs] at this
    rw [div_pow, div_le_div_iff₀ (by positivity) hn'] at this
    rw [div_le_iff₀ hn']
    have h5 : (∑ i, x i ^ 2) * (n : ℝ) ^ 2 = ((∑ i, x i ^ 2) * n) * n := by ring
    rw [h5] at this
    exact le_of_mul_le_mul_right this hn'
  have h3 : Dev (2 * n + 2) (2 * b + ∑ i, x i ^ 2 - (∑ i, x i) ^ 2 / n)
      (fl (fl (fl (2 * b) + q) - fl (fl (s ^ 2) / n))) (2 * (b + ∑ i, x i ^ 2)) := by
    have h4 := (((h1.dev).mono (by omega : n + 1 ≤ 2 * n + 1)).sub (h2.mono (by omega : 2 * n ≤ 2 * n + 1))).fl
    have h5 : 2 * b + ∑ i, x i ^ 2 + (∑ i, |x i|) ^ 2 / n ≤ 2 * (b + ∑ i, x i ^ 2) := by linarith
    exact ⟨h4.1.trans h5, h4.2.trans (mul_le_mul_of_nonneg_left h5 (by linarith [one_le_high (2 * n + 1 + 1)]))⟩
  have hD : Near 2 (2 * a + n) (fl (fl (2 * a) + n)) :=
    (((near_fl (by linarith : (0 : ℝ) ≤ 2 * a))).add ((Near.refl hn'.le).mono (by omega))).fl
  have hDpos : 0 < 2 * a + (n : ℝ) := by linarith
  have h6 : Dev (2 * n + 7) ((2 * b + ∑ i, x i ^ 2 - (∑ i, x i) ^ 2 / n) / (2 * a + n))
      (fl (fl (fl (fl (2 * b) + q) - fl (fl (s ^ 2) / n)) / fl (fl (2 * a) + n)))
      (2 * (b + ∑ i, x i ^ 2) / (2 * a + n)) := by
    rw [div_eq_mul_inv, div_eq_mul_inv, div_eq_mul_inv (2 * (b + ∑ i, x i ^ 2))]
    exact ((h3.mul (hD.inv hDpos).dev).fl).mono (by omega)
  have hpos : 0 < fl (fl (fl (fl (2 * b) + q) - fl (fl (s ^ 2) / n)) / fl (fl (2 * a) + n)) := by
    refine fl_pos (div_pos ?_ (hD.pos hDpos))
    have h7 := abs_le.1 (h3.relative (by omega))
    have h8 : ((2 * n + 2 : Nat) : ℝ) / 2 ^ 52 * (2 * (b + ∑ i, x i ^ 2)) = (2 * n + 2) / 2 ^ 51 * (b + ∑ i, x i ^ 2) := by
      push_cast
      ring
    rw [h8] at h7
    linarith [h7.1]
  have hexact : Metrics.gammaVariance a b (List.ofFn x) = (2 * b + ∑ i, x i ^ 2 - (∑ i, x i) ^ 2 / n) / (2 * a + n) := by
    unfold Metrics.gammaVariance
    simp only [List.length_ofFn, List.map_ofFn, List.sum_ofFn, Function.comp]
    rw [if_neg]
    rw [not_le]
    refine div_pos (lt_of_le_of_lt ?_ hcancel) hDpos
    have : 0 ≤ ∑ i, x i ^ 2 := Finset.sum_nonneg (fun _ _ => sq_nonneg _)
    positivity
  rw [hv]
  rw [if_neg (not_le.2 hpos), hexact]
  refine (h6.relative (by omega)).trans_eq ?_
  push_cast
  ring

lemma sum_one {zs : List ℝ} {v : ℝ} (h : RoundedSum zs v) : ∀ {x : ℝ}, zs.Perm [x] → v = x := by
  induction h with
  | nil => intro x hp; exact absurd hp.length_eq (by simp)
  | one z => intro x hp; simpa using hp
  | @add xs ys a b hx hy _ _ _ _ =>
    intro x hp
    have h1 := List.length_pos_of_ne_nil hx
    have h2 := List.length_pos_of_ne_nil hy
    have h3 := hp.length_eq
    rw [List.length_append, List.length_singleton] at h3
    omega
  | perm _ hq ih => intro x hp; exact ih (hq.trans hp)

lemma sum_two {zs : List ℝ} {v : ℝ} (h : RoundedSum zs v) : ∀ {x y : ℝ}, zs.Perm [x, y] → v = fl (x + y) := by
  induction h with
  | nil => intro x y hp; exact absurd hp.length_eq (by simp)
  | one z => intro x y hp; exact absurd hp.length_eq (by simp)
  | @add xs ys a b hx hy ha hb _ _ =>
    intro x y hp
    have h1 := List.length_pos_of_ne_nil hx
    have h2 := List.length_pos_of_ne_nil hy
    have h3 := hp.length_eq
    rw [List.length_append] at h3
    simp only [List.length_cons, List.length_nil] at h3
    obtain ⟨c, rfl⟩ := List.length_eq_one_iff.1 (by omega : xs.length = 1)
    obtain ⟨d, rfl⟩ := List.length_eq_one_iff.1 (by omega : ys.length = 1)
    rw [sum_one ha (List.Perm.refl _), sum_one hb (List.Perm.refl _)]
    have h4 := hp.sum_eq
    simp only [List.sum_append, List.sum_cons, List.sum_nil, add_zero] at h4
    rw [h4]
  | perm _ hq ih => intro x y hp; exact ih (hq.trans hp)

/-- C131 is not true without a hypothesis: the data `2^30, 2^30 + 1` with `a = b = 2^-27` (near the default `1e-8`) have the
variance of `0, 1`, about `1/4`, but the machine returns `b / a = 1` for them. -/
theorem C131_accurate_refuted :
    GammaVariance ((2 : ℝ) ^ (-27 : ℤ)) ((2 : ℝ) ^ (-27 : ℤ)) [2 ^ 30, 2 ^ 30 + 1] 1 ∧
      (∀ v, GammaVariance ((2 : ℝ) ^ (-27 : ℤ)) ((2 : ℝ) ^ (-27 : ℤ)) [2 ^ 30, 2 ^ 30 + 1] v → v = 1) ∧
      (∀ v, GammaVariance ((2 : ℝ) ^ (-27 : ℤ)) ((2 : ℝ) ^ (-27 : ℤ)) [0, 1] v → v < 26 / 100) ∧
      Metrics.gammaVariance ((2 : ℝ) ^ (-27 : ℤ)) ((2 : ℝ) ^ (-27 : ℤ)) [2 ^ 30, 2 ^ 30 + 1] < 26 / 100 := by
  have e27 : (2 : ℝ) ^ (-27 : ℤ) = 1 / 2 ^ 27 := by norm_num
  rw [e27]
  have hb : fl (2 * (1 / 2 ^ 27) : ℝ) = 1 / 2 ^ 26 := by
    have := fl_exact (K := ℝ) (m := 1) (e := -26) (by norm_num)
    norm_num at this ⊢
    exact this
  have hba : fl ((1 / 2 ^ 27 : ℝ) / (1 / 2 ^ 27)) = 1 := by
    rw [div_self (by norm_num)]
    exact_mod_cast fl_int (K := ℝ) (m := 1) (by norm_num)
  have hs : fl ((2 : ℝ) ^ 30 + (2 ^ 30 + 1)) = 2 ^ 31 + 1 := by
    have := fl_int (K := ℝ) (m := 2 ^ 31 + 1) (by norm_num)
    norm_num at this ⊢
    exact this
  have hx : fl (((2 : ℝ) ^ 30) ^ 2) = 2 ^ 60 := by
    have := fl_exact (K := ℝ) (m := 1) (e := 60) (by norm_num)
    norm_num at this ⊢
    exact this
  have hy : fl (((2 : ℝ) ^ 30 + 1) ^ 2) = 2 ^ 60 + 2 ^ 31 := by
    rw [fl_eq (k := 60) (n := 2 ^ 52 + 2 ^ 23)]
    · norm_num
    · rw [abs_of_pos] <;> norm_num
    · rw [abs_of_pos] <;> norm_num
    · norm_num [abs_of_pos]
  have hq : fl ((2 : ℝ) ^ 60 + (2 ^ 60 + 2 ^ 31)) = 2 ^ 61 + 2 ^ 31 := by
    have := fl_exact (K := ℝ) (m := 2 ^ 30 + 1) (e := 31) (by norm_num)
    norm_num at this ⊢
    exact this
  have hbq : fl ((1 : ℝ) / 2 ^ 26 + (2 ^ 61 + 2 ^ 31)) = 2 ^ 61 + 2 ^ 31 := by
    rw [fl_eq (k := 61) (n := 2 ^ 52 + 2 ^ 22)]
    · norm_num
    · rw [abs_of_pos] <;> norm_num
    · rw [abs_of_pos] <;> norm_num
    · norm_num [abs_of_pos]
  have hss : fl (((2 : ℝ) ^ 31 + 1) ^ 2) = 2 ^ 62 + 2 ^ 32 := by
    rw [fl_eq (k := 62) (n := 2 ^ 52 + 2 ^ 22)]
    · norm_num
    · rw [abs_of_pos] <;> norm_num
    · rw [abs_of_pos] <;> norm_num
    · norm_num [abs_of_pos]
  have hsn : fl (((2 : ℝ) ^ 62 + 2 ^ 32) / 2) = 2 ^ 61 + 2 ^ 31 := by
    have := fl_exact (K := ℝ) (m := 2 ^ 30 + 1) (e := 31) (by norm_num)
    norm_num at this ⊢
    exact this
  have f0 : fl (0 : ℝ) = 0 := fl_eq_zero.2 rfl
  have all : ∀ v, GammaVariance (1 / 2 ^ 27) (1 / 2 ^ 27) [2 ^ 30, 2 ^ 30 + 1] v → v = 1 := by
    rintro v ⟨s, q, h1, h2, h3⟩
    have e1 := sum_two h1 (List.Perm.refl _)
    have e2 := sum_two h2 (List.Perm.refl _)
    rw [hs] at e1
    beta_reduce at e2
    rw [hx, hy, hq] at e2
    subst e1
    subst e2
    have hl : (([2 ^ 30, 2 ^ 30 + 1] : List ℝ).length : ℝ) = 2 := by norm_num
    rw [hl, hb, hbq, hss, hsn, sub_self, f0, zero_div, f0] at h3
    simp only [le_refl, if_true] at h3
    rw [h3, hba]
  refine ⟨?_, all, ?_, ?_⟩
  · obtain ⟨v, hv⟩ := exists_gammaVariance (1 / 2 ^ 27) (1 / 2 ^ 27) [2 ^ 30, 2 ^ 30 + 1]
    have := all v hv
    subst this
    exact hv
  · rintro v ⟨s, q, h1, h2, h3⟩
    have e1 := sum_two h1 (List.Perm.refl _)
    have e2 := sum_two h2 (List.Perm.refl _)
    have f1 : fl (1 : ℝ) = 1 := by exact_mod_cast fl_int (K := ℝ) (m := 1) (by norm_num)
    simp only [ne_eq, OfNat.ofNat_ne_zero, not_false_eq_true, zero_pow, one_pow, f0, f1, zero_add] at e1 e2
    subst e1
    subst e2
    have hl : (([0, 1] : List ℝ).length : ℝ) = 2 := by norm_num
    have g1 : fl ((1 : ℝ) / 2 ^ 26 + 1) = 1 + 1 / 2 ^ 26 := by
      have := fl_exact (K := ℝ) (m := 2 ^ 26 + 1) (e := -26) (by norm_num)
      norm_num at this ⊢
      exact this
    have g2 : fl ((1 : ℝ) / 2) = 1 / 2 := by
      have := fl_exact (K := ℝ) (m := 1) (e := -1) (by norm_num)
      norm_num at this ⊢
      exact this
    have g3 : fl ((1 : ℝ) + 1 / 2 ^ 26 - 1 / 2) = 1 / 2 + 1 / 2 ^ 26 := by
      have := fl_exact (K := ℝ) (m := 2 ^ 25 + 1) (e := -26) (by norm_num)
      norm_num at this ⊢
      exact this
    have g4 : fl ((1 : ℝ) / 2 ^ 26 + 2) = 2 + 1 / 2 ^ 26 := by
      have := fl_exact (K := ℝ) (m := 2 ^ 27 + 1) (e := -26) (by norm_num)
      norm_num at this ⊢
      exact this
    rw [hl, hb, one_pow, f1, g1, g2, g3, g4] at h3
    have g5 := fl_error (((1 : ℝ) / 2 + 1 / 2 ^ 26) / (2 + 1 / 2 ^ 26))
    have g7 : 0 < fl (((1 : ℝ) / 2 + 1 / 2 ^ 26) / (2 + 1 / 2 ^ 26)) := fl_pos (by norm_num)
    simp only [if_neg (not_le.2 g7)] at h3
    rw [← h3, abs_of_pos (a := ((1 : ℝ) / 2 + 1 / 2 ^ 26) / (2 + 1 / 2 ^ 26)) (by norm_num)] at g5
    have g6 := (abs_le.1 g5).2
    norm_num at g6 ⊢
    linarith
  · unfold Metrics.gammaVariance
    norm_num

/-- The data `1, 2, 3` do not cancel, with `a = b = 1`. -/
example : ∃ v, GammaVariance 1 1 (List.ofFn ![1, 2, 3]) v ∧
    ((2 * (3 : Nat) + 2) / 2 ^ 51 * ((1 : ℝ) + ∑ i, (![1, 2, 3] : Fin 3 → ℝ) i ^ 2) <
      2 * 1 + ∑ i, (![1, 2, 3] : Fin 3 → ℝ) i ^ 2 - (∑ i, (![1, 2, 3] : Fin 3 → ℝ) i) ^ 2 / (3 : Nat)) := by
  obtain ⟨v, hv⟩ := exists_gammaVariance 1 1 (List.ofFn ![1, 2, 3])
  refine ⟨v, hv, ?_⟩
  norm_num [Fin.sum_univ_succ]

end Kam.Fl
