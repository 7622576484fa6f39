/-
Properties of `safe_sigmoid` (C34) and derivatives of the logistic loss.
-/
import Verif.MF.Lemmas
import Mathlib.Analysis.SpecialFunctions.Log.Deriv
import Mathlib.Tactic.NormNum

namespace Kam
namespace MF
open scoped BigOperators

theorem log_ratio_ge (x : ℝ) (h0 : 0 ≤ x) (h1 : x < 1) (n : Nat) :
    ∑ i ∈ Finset.range n, 2 * (1 / (2 * (i : ℝ) + 1)) * x ^ (2 * i + 1) ≤
      Real.log ((1 + x) / (1 - x)) := by
  have h := Real.hasSum_log_sub_log_of_abs_lt_one (x := x) (by rw [abs_of_nonneg h0]; exact h1)
  rw [← Real.log_div (by linarith) (by linarith)] at h
  refine sum_le_hasSum _ ?_ h
  intro i _
  positivity

theorem log_two_ge : (0.69314718055994530940 : ℝ) ≤ Real.log 2 := by
  have h := log_ratio_ge (1 / 3) (by norm_num) (by norm_num) 20
  have e : ((1 + 1 / 3 : ℝ) / (1 - 1 / 3)) = 2 := by norm_num
  rw [e] at h
  refine le_trans ?_ h
  simp only [Finset.sum_range_succ, Finset.sum_range_zero]
  norm_num

theorem log_five_fourths_ge : (0.22314355131420975576 : ℝ) ≤ Real.log (5 / 4) := by
  have h := log_ratio_ge (1 / 9) (by norm_num) (by norm_num) 10
  have e : ((1 + 1 / 9 : ℝ) / (1 - 1 / 9)) = 5 / 4 := by norm_num
  rw [e] at h
  refine le_trans ?_ h
  simp only [Finset.sum_range_succ, Finset.sum_range_zero]
  norm_num

theorem log_ten_ge : (2.302585092994045683 : ℝ) ≤ Real.log 10 := by
  have e : (10 : ℝ) = 2 ^ 3 * (5 / 4) := by norm_num
  rw [e, Real.log_mul (by norm_num) (by norm_num), Real.log_pow]
  have h1 := log_two_ge
  have h2 := log_five_fourths_ge
  push_cast
  linarith

/-- The documented bound: the clipping constant does not exceed `log((1 - 1e-15) / 1e-15)`. -/
theorem sigmoidDom_le : sigmoidDom ≤ Real.log ((1 - 1e-15) / 1e-15) := by
  have e : ((1 - 1e-15 : ℝ) / 1e-15) = 10 ^ 15 * (1 - 1e-15) := by norm_num
  rw [e, Real.log_mul (by norm_num) (by norm_num), Real.log_pow]
  have h1 := log_ten_ge
  have h2 : -(1e-15 : ℝ) - 1e-29 ≤ Real.log (1 - 1e-15) := by
    have := Real.one_sub_inv_le_log_of_pos (x := (1 - 1e-15 : ℝ)) (by norm_num)
    refine le_trans ?_ this
    norm_num
  unfold sigmoidDom
  push_cast
  linarith

theorem sigmoidDom_pos : 0 < sigmoidDom := by unfold sigmoidDom; norm_num

/-- The logistic function. -/
noncomputable def expit (x : ℝ) : ℝ := 1 / (1 + Real.exp (-x))

theorem safeSigmoid_eq (x : ℝ) : safeSigmoid x = expit (clip x) := rfl

theorem expit_mono {x y : ℝ} (h : x ≤ y) : expit x ≤ expit y := by
  unfold expit
  apply one_div_le_one_div_of_le
  · positivity
  · have := Real.exp_le_exp.2 (neg_le_neg h)
    linarith

theorem expit_neg (x : ℝ) : expit (-x) = 1 - expit x := by
  unfold expit
  rw [neg_neg, Real.exp_neg]
  have := Real.exp_pos x
  field_simp
  ring

theorem expit_pos (x : ℝ) : 0 < expit x := by unfold expit; positivity

theorem expit_lt_one (x : ℝ) : expit x < 1 := by
  have := expit_pos (-x)
  rw [expit_neg] at this
  linarith

theorem expit_dom : expit sigmoidDom ≤ 1 - 1e-15 := by
  have h : sigmoidDom ≤ Real.log ((1 - 1e-15) / 1e-15) := sigmoidDom_le
  refine le_trans (expit_mono h) ?_
  unfold expit
  rw [Real.exp_neg, Real.exp_log (by norm_num)]
  norm_num

theorem clip_mono {x y : ℝ} (h : x ≤ y) : clip x ≤ clip y :=
  min_le_min_right _ (max_le_max_right _ h)

theorem clip_neg (x : ℝ) : clip (-x) = -(clip x) := by
  have hp := sigmoidDom_pos
  unfold clip
  rcases le_total x (-sigmoidDom) with h | h
  · rw [max_eq_right h, max_eq_left (by linarith), min_eq_right (by linarith),
      min_eq_left (by linarith)]
    ring
  · rcases le_total x sigmoidDom with h' | h'
    · rw [max_eq_left h, max_eq_left (by linarith), min_eq_left (by linarith),
        min_eq_left (by linarith)]
    · rw [max_eq_left h, max_eq_right (by linarith), min_eq_left (by linarith),
        min_eq_right (by linarith)]

theorem clip_le (x : ℝ) : clip x ≤ sigmoidDom := min_le_right _ _

theorem clip_ge (x : ℝ) : -sigmoidDom ≤ clip x := by
  have hp := sigmoidDom_pos
  exact le_min (le_max_right _ _) (by linarith)

theorem clip_eq_self {x : ℝ} (h1 : -sigmoidDom ≤ x) (h2 : x ≤ sigmoidDom) : clip x = x := by
  unfold clip; rw [max_eq_left h1, min_eq_left h2]

theorem clip_of_gt {x : ℝ} (h : sigmoidDom ≤ x) : clip x = sigmoidDom := by
  have hp := sigmoidDom_pos
  unfold clip; rw [max_eq_left (by linarith), min_eq_right h]

theorem clip_of_lt {x : ℝ} (h : x ≤ -sigmoidDom) : clip x = -sigmoidDom := by
  have hp := sigmoidDom_pos
  unfold clip; rw [max_eq_right h, min_eq_left (by linarith)]

/-- C34: `safe_sigmoid` is monotone, symmetric and stays within `[1e-15, 1 - 1e-15]`; on its domain
it is the logistic function. -/
theorem C34_safe_sigmoid :
    (∀ x y : ℝ, x ≤ y → safeSigmoid x ≤ safeSigmoid y) ∧
    (∀ x : ℝ, safeSigmoid (-x) = 1 - safeSigmoid x) ∧
    (∀ x : ℝ, 1e-15 ≤ safeSigmoid x ∧ safeSigmoid x ≤ 1 - 1e-15) ∧
    (∀ x : ℝ, |x| ≤ 34.538776394910684 → safeSigmoid x = 1 / (1 + Real.exp (-x))) := by
  have hneg : ∀ x : ℝ, safeSigmoid (-x) = 1 - safeSigmoid x := by
    intro x; rw [safeSigmoid_eq, safeSigmoid_eq, clip_neg, expit_neg]
  have hle : ∀ x : ℝ, safeSigmoid x ≤ 1 - 1e-15 := by
    intro x
    rw [safeSigmoid_eq]
    exact le_trans (expit_mono (clip_le x)) expit_dom
  refine ⟨fun x y h => expit_mono (clip_mono h), hneg, fun x => ⟨?_, hle x⟩, ?_⟩
  · have h1 := hle (-x)
    rw [hneg] at h1
    linarith
  · intro x hx
    obtain ⟨h1, h2⟩ := abs_le.1 hx
    rw [safeSigmoid_eq, clip_eq_self h1 h2]
    rfl

theorem safeSigmoid_pos (x : ℝ) : 0 < safeSigmoid x := expit_pos _

theorem safeSigmoid_lt_one (x : ℝ) : safeSigmoid x < 1 := expit_lt_one _

theorem hasDerivAt_expit (x : ℝ) : HasDerivAt expit (expit x * (1 - expit x)) x := by
  have h1 : HasDerivAt (fun y : ℝ => 1 + Real.exp (-y)) (Real.exp (-x) * -1) x := by
    have := ((hasDerivAt_id x).neg.exp).const_add (1 : ℝ)
    simpa using this
  have h2 := h1.fun_inv (by positivity)
  have h3 : HasDerivAt expit (-(Real.exp (-x) * -1) / (1 + Real.exp (-x)) ^ 2) x := by
    refine h2.congr_of_eventuallyEq ?_
    filter_upwards with y
    simp [expit]
  refine h3.congr_deriv ?_
  unfold expit
  have := Real.exp_pos (-x)
  field_simp
  ring

/-- Derivative of one term of the logistic loss where `safe_sigmoid` is not clipped. -/
theorem hasDerivAt_logLoss (s x : ℝ) (h1 : -sigmoidDom < x) (h2 : x < sigmoidDom) :
    HasDerivAt (fun y => -logLik s (safeSigmoid y)) (safeSigmoid x - s) x := by
  have hp := expit_pos x
  have hl := expit_lt_one x
  have hd := hasDerivAt_expit x
  have e1 : HasDerivAt (fun y => Real.log (expit y)) (expit x * (1 - expit x) / expit x) x :=
    hd.log hp.ne'
  have e2 : HasDerivAt (fun y => Real.log (1 - expit y)) (-(expit x * (1 - expit x)) / (1 - expit x)) x :=
    (hd.const_sub 1).log (by linarith)
  have e3 : HasDerivAt (fun y => -(s * Real.log (expit y) + (1 - s) * Real.log (1 - expit y)))
      (-(s * (expit x * (1 - expit x) / expit x) +
        (1 - s) * (-(expit x * (1 - expit x)) / (1 - expit x)))) x :=
    ((e1.const_mul s).add (e2.const_mul (1 - s))).neg
  have hev : (fun y => -logLik s (safeSigmoid y)) =ᶠ[nhds x]
      (fun y => -(s * Real.log (expit y) + (1 - s) * Real.log (1 - expit y))) := by
    filter_upwards [Ioo_mem_nhds h1 h2] with y hy
    rw [safeSigmoid_eq, clip_eq_self hy.1.le hy.2.le]
    rfl
  have hs : safeSigmoid x = expit x := by rw [safeSigmoid_eq, clip_eq_self h1.le h2.le]
  rw [hs]
  refine (e3.congr_of_eventuallyEq hev).congr_deriv ?_
  have h3 : (1 - expit x) ≠ 0 := by linarith
  field_simp
  ring

/-- Where `safe_sigmoid` is clipped the loss term is locally constant. -/
theorem hasDerivAt_logLoss_clipped (s x : ℝ) (h : x < -sigmoidDom ∨ sigmoidDom < x) :
    HasDerivAt (fun y => -logLik s (safeSigmoid y)) 0 x := by
  rcases h with h | h
  · have hev : (fun y => -logLik s (safeSigmoid y)) =ᶠ[nhds x]
        (fun _ => -logLik s (expit (-sigmoidDom))) := by
      filter_upwards [Iio_mem_nhds h] with y hy
      rw [safeSigmoid_eq, clip_of_lt hy.le]
    exact (hasDerivAt_const x _).congr_of_eventuallyEq hev
  · have hev : (fun y => -logLik s (safeSigmoid y)) =ᶠ[nhds x]
        (fun _ => -logLik s (expit sigmoidDom)) := by
      filter_upwards [Ioi_mem_nhds h] with y hy
      rw [safeSigmoid_eq, clip_of_gt hy.le]
    exact (hasDerivAt_const x _).congr_of_eventuallyEq hev

end MF
end Kam
