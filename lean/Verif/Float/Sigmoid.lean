/-
C115: the logistic models with machine arithmetic.  The clipping of `safe_sigmoid` keeps the rounded
predictions strictly between 0 and 1, so the loss never takes the logarithm of 0.
-/
import Verif.Float.Round
import Verif.MF.Sigmoid
import Verif.Score.Model
import Mathlib.Analysis.Complex.ExponentialBounds

set_option linter.unusedSectionVars false

namespace Kam
namespace Spec

/-- `E` computes the logistic function within four units in the last place wherever `safe_sigmoid`
uses it (an assumption about scipy's `expit`). -/
def AccurateExpit (E : ℝ → ℝ) : Prop :=
  ∀ y, |y| ≤ 35 → |E y - 1 / (1 + Real.exp (-y))| ≤ 4 / 2 ^ 53 * (1 / (1 + Real.exp (-y)))

/-- `L` computes logarithms of positive numbers within four units in the last place (an assumption
about numpy's `log`). -/
def AccurateLog (L : ℝ → ℝ) : Prop :=
  ∀ y, 0 < y → |L y - Real.log y| ≤ 4 / 2 ^ 53 * |Real.log y|

/-- `v` is a sum of the numbers `xs` rounded after every addition, the additions being done in some
order and grouping (numpy does not promise one). -/
inductive RoundedSum : List ℝ → ℝ → Prop
  | nil : RoundedSum [] 0
  | one (x : ℝ) : RoundedSum [x] x
  | add {xs ys : List ℝ} {a b : ℝ} : xs ≠ [] → ys ≠ [] → RoundedSum xs a → RoundedSum ys b →
      RoundedSum (xs ++ ys) (Fl.fl (a + b))
  | perm {xs ys : List ℝ} {a : ℝ} : RoundedSum xs a → xs.Perm ys → RoundedSum ys a

end Spec

namespace Fl
open Spec

/-- The machine number written `34.538776394910684` (utils/kammath.py:68). -/
noncomputable def sigmoidDom : ℝ := fl MF.sigmoidDom

/-- `np.clip(x, -34.538776394910684, 34.538776394910684)` (utils/kammath.py:68) of a machine number
other than `nan`, infinities included. -/
noncomputable def clip (x : Ext ℝ) : ℝ :=
  match x with
  | none => -sigmoidDom
  | some none => sigmoidDom
  | some (some r) => min (max r (-sigmoidDom)) sigmoidDom

/-- `safe_sigmoid` (utils/kammath.py:46-70) with the function `E` as `expit`. -/
noncomputable def safeSigmoid (E : ℝ → ℝ) (x : Ext ℝ) : ℝ := E (clip x)

/-- `sc * np.log(esc) + (1 - sc) * np.log(1 - esc)` for one event
(item_finder/matrix_factorization.py:245, 610-611) with the function `L` as `np.log`. -/
noncomputable def logLik (L : ℝ → ℝ) (s esc : ℝ) : ℝ :=
  fl (fl (s * L esc) + fl (fl (1 - s) * L (fl (1 - esc))))

/-- `esc - sc` for one event (item_finder/matrix_factorization.py:296). -/
noncomputable def residual (s esc : ℝ) : ℝ := fl (esc - s)

/-! ### bounds -/

theorem dom_close : |sigmoidDom - MF.sigmoidDom| ≤ 1e-14 := by
  refine (fl_error _).trans ?_
  rw [abs_of_pos MF.sigmoidDom_pos]
  unfold MF.sigmoidDom
  norm_num

theorem dom_bounds : 34 < sigmoidDom ∧ sigmoidDom ≤ MF.sigmoidDom + 1e-14 ∧ sigmoidDom ≤ 35 := by
  have h := abs_le.1 dom_close
  have e : MF.sigmoidDom = 34.538776394910684 := rfl
  refine ⟨?_, ?_, ?_⟩ <;> norm_num at * <;> linarith

theorem clip_bounds (x : Ext ℝ) : -sigmoidDom ≤ clip x ∧ clip x ≤ sigmoidDom := by
  have h := dom_bounds.1
  unfold clip
  split
  · constructor <;> linarith
  · constructor <;> linarith
  · exact ⟨le_min (le_max_right _ _) (by linarith), min_le_right _ _⟩

/-- The exact sigmoid of the rounded bound keeps a distance to 1. -/
theorem expit_dom : MF.expit sigmoidDom ≤ 1 - 9.9e-16 := by
  have h1 := MF.expit_dom
  have h2 := dom_bounds.2.1
  have h3 : 1e-15 ≤ MF.expit (-MF.sigmoidDom) := by rw [MF.expit_neg]; linarith
  have h4 : 9.9e-16 ≤ MF.expit (-(MF.sigmoidDom + 1e-14)) := by
    have : Real.exp (-1e-14) * MF.expit (-MF.sigmoidDom) ≤ MF.expit (-(MF.sigmoidDom + 1e-14)) := by
      unfold MF.expit
      rw [neg_neg, neg_neg, Real.exp_add, Real.exp_neg, ← one_div, div_mul_div_comm, one_mul]
      have ha := Real.exp_pos MF.sigmoidDom
      have hb : 1 ≤ Real.exp (1e-14) := Real.one_le_exp (by norm_num)
      apply one_div_le_one_div_of_le
      · positivity
      · nlinarith
    refine le_trans ?_ this
    have hx : 1 - 1e-14 ≤ Real.exp (-1e-14) := by
      have := Real.add_one_le_exp (-1e-14 : ℝ)
      linarith
    have hp : (0 : ℝ) ≤ MF.expit (-MF.sigmoidDom) := (MF.expit_pos _).le
    calc (9.9e-16 : ℝ) ≤ (1 - 1e-14) * 1e-15 := by norm_num
      _ ≤ Real.exp (-1e-14) * MF.expit (-MF.sigmoidDom) := by
        apply mul_le_mul hx h3 (by norm_num) (Real.exp_pos _).le
  have h5 : MF.expit (-(MF.sigmoidDom + 1e-14)) ≤ MF.expit (-sigmoidDom) :=
    MF.expit_mono (by linarith)
  rw [MF.expit_neg sigmoidDom] at h5
  linarith

theorem exact_bounds (x : Ext ℝ) : 9.9e-16 ≤ MF.expit (clip x) ∧ MF.expit (clip x) ≤ 1 - 9.9e-16 := by
  obtain ⟨h1, h2⟩ := clip_bounds x
  have h := expit_dom
  constructor
  · have : MF.expit (-sigmoidDom) ≤ MF.expit (clip x) := MF.expit_mono h1
    rw [MF.expit_neg] at this
    linarith
  · exact (MF.expit_mono h2).trans h

/-- C115: rounded predictions of the logistic models are strictly between 0 and 1, and so is the
rounded probability of the opposite. -/
theorem C115_prediction_range {E : ℝ → ℝ} (hE : AccurateExpit E) (x : Ext ℝ) :
    9e-16 ≤ safeSigmoid E x ∧ safeSigmoid E x ≤ 1 - 5e-16 ∧
      4e-16 ≤ fl (1 - safeSigmoid E x) ∧ fl (1 - safeSigmoid E x) < 1 := by
  obtain ⟨b1, b2⟩ := exact_bounds x
  obtain ⟨c1, c2⟩ := clip_bounds x
  have hd := dom_bounds
  have hacc := hE (clip x) (abs_le.2 ⟨by linarith, by linarith⟩)
  change |safeSigmoid E x - MF.expit (clip x)| ≤ 4 / 2 ^ 53 * MF.expit (clip x) at hacc
  have h := abs_le.1 hacc
  generalize safeSigmoid E x = p at *
  generalize MF.expit (clip x) = t at *
  norm_num at b1 b2 h ⊢
  have p1 : 9 / 10000000000000000 ≤ p := by linarith [h.1]
  have p2 : p ≤ 1999999999999999 / 2000000000000000 := by linarith [h.2]
  have he := fl_error (1 - p)
  rw [abs_of_pos (by linarith : 0 < 1 - p)] at he
  have he' := abs_le.1 he
  norm_num at he'
  refine ⟨p1, p2, ?_, ?_⟩
  · linarith [he'.1]
  · linarith [he'.2]

theorem log_bound {y : ℝ} (h : 4e-16 ≤ y) : -36 ≤ Real.log y := by
  rw [Real.le_log_iff_exp_le (by norm_num at h; linarith)]
  refine le_trans ?_ h
  rw [Real.exp_neg]
  have h1 : (2.7182818283 : ℝ) ^ 36 ≤ Real.exp 36 := by
    have : Real.exp 36 = Real.exp 1 ^ 36 := by rw [← Real.exp_nat_mul]; norm_num
    rw [this]
    exact pow_le_pow_left₀ (by norm_num) Real.exp_one_gt_d9.le 36
  have h2 : (2.5e15 : ℝ) ≤ Real.exp 36 := le_trans (by norm_num) h1
  calc (Real.exp 36)⁻¹ ≤ (2.5e15)⁻¹ := inv_anti₀ (by norm_num) h2
    _ = 4e-16 := by norm_num

/-- The computed logarithm of a number away from 0 and below 1. -/
theorem log_range {L : ℝ → ℝ} (hL : AccurateLog L) {y : ℝ} (h1 : 4e-16 ≤ y) (h2 : y < 1) :
    -36.01 ≤ L y ∧ L y < 0 := by
  have hy : 0 < y := lt_of_lt_of_le (by norm_num) h1
  have hb := log_bound h1
  have hneg : Real.log y < 0 := Real.log_neg hy h2
  have h := hL y hy
  rw [abs_of_neg hneg] at h
  have h := abs_le.1 h
  norm_num at h ⊢
  constructor
  · linarith [h.1]
  · linarith [h.2]

/-- C115: the term of one event of the loss is positive and at most 37. -/
theorem C115_loss_term {E L : ℝ → ℝ} (hE : AccurateExpit E) (hL : AccurateLog L) (x : Ext ℝ)
    {s : ℝ} (hs : s = 0 ∨ s = 1) :
    -37 ≤ logLik L s (safeSigmoid E x) ∧ logLik L s (safeSigmoid E x) < 0 := by
  obtain ⟨h1, h2, h3, h4⟩ := C115_prediction_range hE x
  have key : ∀ l : ℝ, -36.01 ≤ l → l < 0 → -37 ≤ fl (fl l) ∧ fl (fl l) < 0 := by
    intro l a b
    have n1 := fl_neg_of_neg b
    have n2 := fl_neg_of_neg n1
    refine ⟨?_, n2⟩
    have e1 := fl_error l
    rw [abs_of_neg b] at e1
    have e1 := abs_le.1 e1
    have e2 := fl_error (fl l)
    rw [abs_of_neg n1] at e2
    have e2 := abs_le.1 e2
    norm_num at e1 e2 a ⊢
    linarith [e1.1, e2.1]
  have one : fl (1 : ℝ) = 1 := by
    have := fl_int (K := ℝ) (m := 1) (by norm_num)
    simpa using this
  unfold logLik
  rcases hs with rfl | rfl
  · obtain ⟨a, b⟩ := log_range hL h3 h4
    simp only [zero_mul, fl_zero, sub_zero, one, one_mul, zero_add]
    exact key _ a b
  · obtain ⟨a, b⟩ := log_range hL (y := safeSigmoid E x) (by norm_num at h1 ⊢; linarith)
      (by norm_num at h2; linarith)
    simp only [one_mul, sub_self, fl_zero, zero_mul, add_zero]
    exact key _ a b

/-- The weight of an event in the gradient has the sign of its error and is at most 1 in size. -/
theorem C115_residual {E : ℝ → ℝ} (hE : AccurateExpit E) (x : Ext ℝ) :
    (0 < residual 0 (safeSigmoid E x) ∧ residual 0 (safeSigmoid E x) < 1) ∧
      (-1 < residual 1 (safeSigmoid E x) ∧ residual 1 (safeSigmoid E x) < 0) := by
  obtain ⟨h1, h2, _, _⟩ := C115_prediction_range hE x
  unfold residual
  generalize safeSigmoid E x = p at *
  norm_num at h1 h2
  rw [sub_zero]
  refine ⟨⟨fl_pos (by linarith), ?_⟩, ?_, fl_neg_of_neg (by linarith)⟩
  · have e := fl_error p
    rw [abs_of_pos (by linarith : 0 < p)] at e
    have e := abs_le.1 e
    norm_num at e
    linarith [e.2]
  · have e := fl_error (p - 1)
    rw [abs_of_neg (by linarith : p - 1 < 0)] at e
    have e := abs_le.1 e
    norm_num at e
    linarith [e.1]

/-- A rounded sum of negative numbers is negative, and not much larger than the exact sum. -/
theorem sum_neg {xs : List ℝ} {v : ℝ} (h : RoundedSum xs v) {B : ℝ} (hB : 0 ≤ B)
    (hx : ∀ x ∈ xs, -B ≤ x ∧ x < 0) :
    (xs ≠ [] → v < 0) ∧ v ≤ 0 ∧ -(B * xs.length * (1 + 1 / 2 ^ 53) ^ xs.length) ≤ v := by
  induction h with
  | nil => simp
  | one x =>
    obtain ⟨h1, h2⟩ := hx x (by simp)
    refine ⟨fun _ => h2, h2.le, ?_⟩
    simp only [List.length_singleton, Nat.cast_one, mul_one, pow_one]
    nlinarith
  | @add xs ys a b hx0 hy0 _ _ iha ihb =>
    obtain ⟨a1, a2, a3⟩ := iha (fun x h => hx x (by simp [h]))
    obtain ⟨b1, b2, b3⟩ := ihb (fun x h => hx x (by simp [h]))
    have hu : (0 : ℝ) ≤ 1 / 2 ^ 53 := by norm_num
    have hab : a + b < 0 := by linarith [a1 hx0, b1 hy0]
    have hn := fl_neg_of_neg hab
    refine ⟨fun _ => hn, hn.le, ?_⟩
    have he := fl_error (a + b)
    rw [abs_of_neg hab] at he
    have he := (abs_le.1 he).1
    have hstep : (a + b) * (1 + 1 / 2 ^ 53) ≤ fl (a + b) := by linarith
    refine le_trans ?_ hstep
    have hr : (1 : ℝ) ≤ 1 + 1 / 2 ^ 53 := by linarith
    generalize (1 + 1 / 2 ^ 53 : ℝ) = r at *
    have hxl : 1 ≤ xs.length := List.length_pos_iff.2 hx0
    have hyl : 1 ≤ ys.length := List.length_pos_iff.2 hy0
    rw [List.length_append]
    push_cast
    have p1 : r ^ (xs.length + 1) ≤ r ^ (xs.length + ys.length) :=
      pow_le_pow_right₀ hr (by omega)
    have p2 : r ^ (ys.length + 1) ≤ r ^ (xs.length + ys.length) :=
      pow_le_pow_right₀ hr (by omega)
    have q1 : B * xs.length * r ^ xs.length * r ≤ B * xs.length * r ^ (xs.length + ys.length) := by
      rw [mul_assoc, ← pow_succ]
      exact mul_le_mul_of_nonneg_left p1 (by positivity)
    have q2 : B * ys.length * r ^ ys.length * r ≤ B * ys.length * r ^ (xs.length + ys.length) := by
      rw [mul_assoc, ← pow_succ]
      exact mul_le_mul_of_nonneg_left p2 (by positivity)
    have r1 := mul_le_mul_of_nonneg_right a3 (by linarith : (0 : ℝ) ≤ r)
    have r2 := mul_le_mul_of_nonneg_right b3 (by linarith : (0 : ℝ) ≤ r)
    linarith
  | perm _ hp ih =>
    obtain ⟨h1, h2, h3⟩ := ih (fun x h => hx x (hp.mem_iff.1 h))
    rw [← hp.length_eq]
    exact ⟨fun h => h1 (fun h0 => h (by subst h0; simpa using hp.symm)), h2, h3⟩

/-- C115: however the machine adds up the terms, the loss part of the objective is a finite number,
positive when there is an event. -/
theorem C115_loss_finite {E L : ℝ → ℝ} (hE : AccurateExpit E) (hL : AccurateLog L)
    (evs : List (Ext ℝ × ℝ)) (hs : ∀ p ∈ evs, p.2 = 0 ∨ p.2 = 1) {v : ℝ}
    (hv : RoundedSum (evs.map (fun p => logLik L p.2 (safeSigmoid E p.1))) v) :
    (evs ≠ [] → 0 < -v) ∧ -v ≤ 37 * evs.length * (1 + 1 / 2 ^ 53) ^ evs.length := by
  have h := sum_neg hv (B := 37) (by norm_num) (by
    intro y hy
    rw [List.mem_map] at hy
    obtain ⟨p, hp, rfl⟩ := hy
    exact C115_loss_term hE hL p.1 (hs p hp))
  rw [List.length_map] at h
  refine ⟨fun hne => ?_, by linarith [h.2.2]⟩
  have := h.1 (by simpa using hne)
  linarith

/-- The functions rounded correctly are accurate. -/
theorem accurate_expit : AccurateExpit (fun y => fl (1 / (1 + Real.exp (-y)))) := by
  intro y _
  have hp : (0 : ℝ) < 1 / (1 + Real.exp (-y)) := by positivity
  refine (fl_error _).trans ?_
  rw [abs_of_pos hp]
  generalize 1 / (1 + Real.exp (-y)) = t at *
  norm_num
  linarith

theorem accurate_log : AccurateLog (fun y => fl (Real.log y)) := by
  intro y _
  refine (fl_error _).trans ?_
  have := abs_nonneg (Real.log y)
  generalize |Real.log y| = t at *
  norm_num
  linarith

/-- Two events, one of them with an infinite estimate. -/
example : ∃ v, RoundedSum (([(⊤, 0), (((1 : ℝ) : WithTop ℝ), 1)] : List (Ext ℝ × ℝ)).map
    (fun p => logLik (fun y => fl (Real.log y)) p.2
      (safeSigmoid (fun y => fl (1 / (1 + Real.exp (-y)))) p.1))) v ∧ 0 < -v := by
  have h : RoundedSum (([(⊤, 0), (((1 : ℝ) : WithTop ℝ), 1)] : List (Ext ℝ × ℝ)).map
    (fun p => logLik (fun y => fl (Real.log y)) p.2
      (safeSigmoid (fun y => fl (1 / (1 + Real.exp (-y)))) p.1))) _ :=
    .add (xs := [_]) (ys := [_]) (by simp) (by simp) (.one _) (.one _)
  refine ⟨_, h, (C115_loss_finite accurate_expit accurate_log _ ?_ h).1 (by simp)⟩
  intro p hp
  simp only [List.mem_cons, List.not_mem_nil, or_false] at hp
  rcases hp with rfl | rfl
  · exact Or.inl rfl
  · exact Or.inr rfl

/-- Without the clipping the statement fails: the correctly rounded logistic function of 40 is 1. -/
theorem unclipped_saturates : fl (1 / (1 + Real.exp (-40))) = (1 : ℝ) := by
  have h1 : (2.7182818283 : ℝ) ^ 40 ≤ Real.exp 40 := by
    have : Real.exp 40 = Real.exp 1 ^ 40 := by rw [← Real.exp_nat_mul]; norm_num
    rw [this]
    exact pow_le_pow_left₀ (by norm_num) Real.exp_one_gt_d9.le 40
  have h2 : (2e17 : ℝ) ≤ Real.exp 40 := le_trans (by norm_num) h1
  have h3 : Real.exp (-40) ≤ 5e-18 := by
    rw [Real.exp_neg]
    calc (Real.exp 40)⁻¹ ≤ (2e17)⁻¹ := inv_anti₀ (by norm_num) h2
      _ = 5e-18 := by norm_num
  have h4 := Real.exp_pos (-40)
  generalize Real.exp (-40) = t at *
  have hlt : 1 / (1 + t) < 1 := by rw [div_lt_one (by linarith)]; linarith
  have hge : 1 - 5e-18 ≤ 1 / (1 + t) := by
    rw [le_div_iff₀ (by linarith)]
    norm_num at h3 ⊢
    nlinarith
  generalize 1 / (1 + t) = y at *
  norm_num at hge
  have hy : |y| = y := abs_of_pos (by linarith)
  rw [fl_eq (k := -1) (n := 9007199254740992)]
  · norm_num
  · rw [hy]; norm_num; linarith
  · rw [hy]; norm_num; linarith
  · norm_num
    rw [abs_lt]
    constructor <;> linarith

end Fl
end Kam
