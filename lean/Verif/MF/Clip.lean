/-
C35, C36 where estimates are clipped: by how much `grad_loss` misses the gradient.
-/
import Verif.MF.Props2
import Mathlib.Analysis.Complex.ExponentialBounds

namespace Kam
namespace MF
open scoped BigOperators
open Spec
variable {nu ni k : Nat}

/-! ### Specification -/

/-- What a clipped event adds to `grad_loss` beside the gradient; nothing for other events. -/
noncomputable def excess (v : Views nu ni k) (e : Event nu ni) : ℝ :=
  if 34.538776394910684 < |est v e.user e.item| then safeSigmoid (est v e.user e.item) - e.score else 0

/-- `g` is `g'` with the excess of the events `evs`. -/
structure Exceeds (v : Views nu ni k) (evs : List (Event nu ni)) (g g' : Views nu ni k) : Prop where
  mu : g.mu = g'.mu + (evs.map (excess v)).sum
  bu : ∀ u, g.bu u = g'.bu u + (evs.map (fun e => if e.user = u then excess v e else 0)).sum
  bi : ∀ i, g.bi i = g'.bi i + (evs.map (fun e => if e.item = i then excess v e else 0)).sum
  p : ∀ u f, g.p u f = g'.p u f + (evs.map (fun e => if e.user = u then excess v e * v.q e.item f else 0)).sum
  q : ∀ i f, g.q i f = g'.q i f + (evs.map (fun e => if e.item = i then excess v e * v.p e.user f else 0)).sum

/-- The excess of the events cancels in every component. -/
structure Cancels (v : Views nu ni k) (evs : List (Event nu ni)) : Prop where
  mu : (evs.map (excess v)).sum = 0
  bu : ∀ u, (evs.map (fun e => if e.user = u then excess v e else 0)).sum = 0
  bi : ∀ i, (evs.map (fun e => if e.item = i then excess v e else 0)).sum = 0
  p : ∀ u f, (evs.map (fun e => if e.user = u then excess v e * v.q e.item f else 0)).sum = 0
  q : ∀ i f, (evs.map (fun e => if e.item = i then excess v e * v.p e.user f else 0)).sum = 0

/-- Every clipped estimate is on the side of its score. -/
def RightSide (v : Views nu ni k) (evs : List (Event nu ni)) : Prop := ∀ e ∈ evs,
  (34.538776394910684 < est v e.user e.item → e.score = 1) ∧ (est v e.user e.item < -34.538776394910684 → e.score = 0)

/-! ### Lemmas -/

theorem sum_excess (v : Views nu ni k) (evs : List (Event nu ni))
    (h : ∀ e ∈ evs, |est v e.user e.item| ≠ 34.538776394910684) (w : Event nu ni → ℝ) (P : Event nu ni → Prop) [DecidablePred P] :
    ((evs.filter (fun e => decide (P e))).map (fun e => (safeSigmoid (est v e.user e.item) - e.score) * w e)).sum =
      (((evs.filter (fun e => decide (|est v e.user e.item| < 34.538776394910684))).filter (fun e => decide (P e))).map
        (fun e => (safeSigmoid (est v e.user e.item) - e.score) * w e)).sum +
      (evs.map (fun e => if P e then excess v e * w e else 0)).sum := by
  induction evs with
  | nil => simp
  | cons e evs ih =>
    have ih := ih (fun x hx => h x (List.mem_cons_of_mem _ hx))
    rcases lt_or_gt_of_ne (h e List.mem_cons_self) with hlt | hgt
    · have he : excess v e = 0 := by unfold excess; rw [if_neg (not_lt.2 hlt.le)]
      by_cases hp : P e
      · simp only [List.filter_cons, hp, hlt, decide_true, if_true, List.map_cons, List.sum_cons, ih, he]
        ring
      · simp only [List.filter_cons, hp, hlt, decide_true, decide_false, if_true, List.map_cons, List.sum_cons, ih, he,
          Bool.false_eq_true, if_false]
        ring
    · have he : excess v e = safeSigmoid (est v e.user e.item) - e.score := by unfold excess; rw [if_pos hgt]
      by_cases hp : P e
      · simp only [List.filter_cons, hp, not_lt.2 hgt.le, decide_true, decide_false, if_true, List.map_cons, List.sum_cons, ih, he,
          Bool.false_eq_true, if_false]
        ring
      · simp only [List.filter_cons, hp, not_lt.2 hgt.le, decide_false, List.map_cons, List.sum_cons, ih,
          Bool.false_eq_true, if_false]
        ring

theorem exceeds (C : ℝ) (evs : List (Event nu ni)) (c : Coef nu ni k)
    (h : ∀ e ∈ evs, |est (unpack c) e.user e.item| ≠ 34.538776394910684) :
    Exceeds (unpack c) evs (unpack (Logistic.gradLoss C evs c)) (unpack (Logistic.gradLoss C
      (evs.filter (fun e => decide (|est (unpack c) e.user e.item| < 34.538776394910684))) c)) := by
  have key := fun (P : Event nu ni → Prop) [DecidablePred P] (w : Event nu ni → ℝ) => sum_excess (unpack c) evs h w P
  unfold Logistic.gradLoss
  simp only [unpack_pack]
  refine ⟨?_, ?_, ?_, ?_, ?_⟩
  · have := key (fun _ => True) (fun _ => 1)
    simpa [addReg, gradTerms] using this
  · intro u
    have := key (fun e => e.user = u) (fun _ => 1)
    simp only [mul_one] at this
    simp only [addReg, gradTerms, bincount]
    rw [this]; ring
  · intro i
    have := key (fun e => e.item = i) (fun _ => 1)
    simp only [mul_one] at this
    simp only [addReg, gradTerms, bincount]
    rw [this]; ring
  · intro u f
    have := key (fun e => e.user = u) (fun e => (unpack c).q e.item f)
    simp only [addReg, gradTerms, bincount]
    rw [this]; ring
  · intro i f
    have := key (fun e => e.item = i) (fun e => (unpack c).p e.user f)
    simp only [addReg, gradTerms, bincount]
    rw [this]; ring

/-- **C35**: where no estimate is exactly at the bound, what `grad_loss` returns is the gradient with the excess of the
clipped events. -/
theorem C35_gradient_error (C : ℝ) (evs : List (Event nu ni)) (c g : Coef nu ni k)
    (h : ∀ e ∈ evs, |est (unpack c) e.user e.item| ≠ 34.538776394910684) (hg : IsGradient (Logistic.loss C evs) g c) :
    Exceeds (unpack c) evs (unpack (Logistic.gradLoss C evs c)) (unpack g) := by
  rw [IsGradient_unique hg (C35_clipped_gradient C evs c h)]
  exact exceeds C evs c h

theorem unpack_inj {a b : Coef nu ni k} (h : unpack a = unpack b) : a = b := by
  rw [← pack_unpack a, ← pack_unpack b, h]

/-- **C35**, exactly: there `grad_loss` returns the gradient if and only if the excess cancels. -/
theorem C35_gradient_iff (C : ℝ) (evs : List (Event nu ni)) (c : Coef nu ni k)
    (h : ∀ e ∈ evs, |est (unpack c) e.user e.item| ≠ 34.538776394910684) :
    IsGradient (Logistic.loss C evs) (Logistic.gradLoss C evs c) c ↔ Cancels (unpack c) evs := by
  have ht := C35_clipped_gradient C evs c h
  have he := exceeds C evs c h
  constructor
  · intro hg
    rw [IsGradient_unique ht hg] at he
    exact ⟨by linarith [he.mu], fun u => by linarith [he.bu u], fun i => by linarith [he.bi i],
      fun u f => by linarith [he.p u f], fun i f => by linarith [he.q i f]⟩
  · intro hc
    have : Logistic.gradLoss C evs c = Logistic.gradLoss C
        (evs.filter (fun e => decide (|est (unpack c) e.user e.item| < 34.538776394910684))) c := by
      apply unpack_inj
      ext
      · rw [he.mu, hc.mu, add_zero]
      · rw [he.bu, hc.bu, add_zero]
      · rw [he.bi, hc.bi, add_zero]
      · rw [he.p, hc.p, add_zero]
      · rw [he.q, hc.q, add_zero]
    rw [this]
    exact ht

theorem expit_dom_ge : 1 - 1e-14 ≤ expit sigmoidDom := by
  have h0 : (1e14 : ℝ) ≤ Real.exp 34 := by
    have : Real.exp 34 = Real.exp 1 ^ 34 := by rw [← Real.exp_nat_mul]; norm_num
    rw [this]
    refine le_trans ?_ (pow_le_pow_left₀ (by norm_num) Real.exp_one_gt_d9.le 34)
    norm_num
  have h1 : Real.exp (-sigmoidDom) ≤ 1e-14 := by
    have h2 : Real.exp (-sigmoidDom) ≤ Real.exp (-34) := Real.exp_le_exp.2 (by unfold sigmoidDom; norm_num)
    refine h2.trans ?_
    rw [Real.exp_neg, show (1e-14 : ℝ) = (1e14)⁻¹ by norm_num]
    exact inv_anti₀ (by norm_num) h0
  unfold expit
  have h3 := Real.exp_pos (-sigmoidDom)
  rw [le_div_iff₀ (by linarith)]
  nlinarith

theorem excess_small {v : Views nu ni k} {evs : List (Event nu ni)} (h : RightSide v evs) {e : Event nu ni} (he : e ∈ evs) :
    |excess v e| ≤ 1e-14 := by
  obtain ⟨h1, h2⟩ := h e he
  have hp := sigmoidDom_pos
  have hd := expit_dom_ge
  unfold excess
  split
  · rename_i hlt
    rcases lt_abs.1 hlt with h3 | h3
    · rw [h1 h3, safeSigmoid_eq]
      have h4 : clip (est v e.user e.item) = sigmoidDom := by
        unfold clip
        exact min_eq_right (le_trans (by unfold sigmoidDom; exact h3.le) (le_max_left _ _))
      rw [h4]
      have := expit_lt_one sigmoidDom
      rw [abs_le]; constructor <;> linarith
    · rw [h2 (by linarith), safeSigmoid_eq]
      have h4 : clip (est v e.user e.item) = -sigmoidDom := by
        unfold clip
        rw [max_eq_right (by unfold sigmoidDom; linarith), min_eq_left (by linarith)]
      rw [h4, expit_neg]
      have := expit_lt_one sigmoidDom
      rw [abs_le]; constructor <;> linarith
  · norm_num

theorem abs_sum_le {β : Type} (l : List β) (f g : β → ℝ) (h : ∀ x ∈ l, |f x| ≤ g x) : |(l.map f).sum| ≤ (l.map g).sum := by
  induction l with
  | nil => simp
  | cons x l ih =>
    simp only [List.map_cons, List.sum_cons]
    exact (abs_add_le _ _).trans (add_le_add (h x List.mem_cons_self) (ih fun y hy => h y (List.mem_cons_of_mem _ hy)))

/-- **C35**: when every clipped estimate is on the side of its score, as it is for a model that fits, each component misses
the gradient by at most `1e-14` for each event concerned, times the factor of the other object. -/
theorem C35_small_error (C : ℝ) (evs : List (Event nu ni)) (c g : Coef nu ni k)
    (h : ∀ e ∈ evs, |est (unpack c) e.user e.item| ≠ 34.538776394910684) (hr : RightSide (unpack c) evs)
    (hg : IsGradient (Logistic.loss C evs) g c) :
    let a := unpack (Logistic.gradLoss C evs c)
    let b := unpack g
    |a.mu - b.mu| ≤ 1e-14 * evs.length ∧
    (∀ u, |a.bu u - b.bu u| ≤ 1e-14 * (evs.filter (fun e => decide (e.user = u))).length) ∧
    (∀ i, |a.bi i - b.bi i| ≤ 1e-14 * (evs.filter (fun e => decide (e.item = i))).length) ∧
    (∀ u f, |a.p u f - b.p u f| ≤ 1e-14 *
      ((evs.filter (fun e => decide (e.user = u))).map (fun e => |(unpack c).q e.item f|)).sum) ∧
    (∀ i f, |a.q i f - b.q i f| ≤ 1e-14 *
      ((evs.filter (fun e => decide (e.item = i))).map (fun e => |(unpack c).p e.user f|)).sum) := by
  have he := C35_gradient_error C evs c g h hg
  have hs := fun e (hx : e ∈ evs) => excess_small hr hx
  have main : ∀ (P : Event nu ni → Prop) [DecidablePred P] (w : Event nu ni → ℝ),
      |(evs.map (fun e => if P e then excess (unpack c) e * w e else 0)).sum| ≤
        1e-14 * ((evs.filter (fun e => decide (P e))).map (fun e => |w e|)).sum := by
    intro P _ w
    have h1 := abs_sum_le evs (fun e => if P e then excess (unpack c) e * w e else 0)
      (fun e => if P e then 1e-14 * |w e| else 0) (by
        intro e hx
        split
        · rw [abs_mul]
          exact mul_le_mul_of_nonneg_right (hs e hx) (abs_nonneg _)
        · simp)
    refine h1.trans (le_of_eq ?_)
    clear h1 he hs hg hr h
    induction evs with
    | nil => simp
    | cons e l ih => by_cases hp : P e <;> simp [hp, ih, mul_add]
  have count : ∀ (l : List (Event nu ni)), (l.map (fun _ => |(1 : ℝ)|)).sum = l.length := by
    intro l; simp
  refine ⟨?_, fun u => ?_, fun i => ?_, fun u f => ?_, fun i f => ?_⟩
  · have := main (fun _ => True) (fun _ => 1)
    rw [count] at this
    rw [he.mu, add_sub_cancel_left]
    simpa using this
  · have := main (fun e => e.user = u) (fun _ => 1)
    rw [count] at this
    rw [he.bu, add_sub_cancel_left]
    simpa using this
  · have := main (fun e => e.item = i) (fun _ => 1)
    rw [count] at this
    rw [he.bi, add_sub_cancel_left]
    simpa using this
  · rw [he.p, add_sub_cancel_left]
    exact main (fun e => e.user = u) (fun e => (unpack c).q e.item f)
  · rw [he.q, add_sub_cancel_left]
    exact main (fun e => e.item = i) (fun e => (unpack c).p e.user f)

/-- **C36**, exactly: where no estimate of a pair is exactly at the bound, the gradient of the implicit model is returned
if and only if the excess of all pairs, with their entries of the matrix as scores, cancels; in any case it is the
difference. -/
theorem C36_gradient_iff (C : ℝ) (m : Implicit.Mat nu ni) (evs : List (Event nu ni)) (hm : Completes m evs) (c : Coef nu ni k)
    (h : ∀ u i, |est (unpack c) u i| ≠ 34.538776394910684) :
    (IsGradient (Implicit.loss C m) (Implicit.gradLoss C m c) c ↔ Cancels (unpack c) evs) ∧
    ∃ g, IsGradient (Implicit.loss C m) g c ∧ Exceeds (unpack c) evs (unpack (Implicit.gradLoss C m c)) (unpack g) := by
  have e1 : Implicit.loss C m = Logistic.loss (k := k) C evs := by
    funext c; exact (C37_implicit_is_explicit C m evs hm c).1
  rw [e1, (C37_implicit_is_explicit C m evs hm c).2]
  exact ⟨C35_gradient_iff C evs c (fun e _ => h _ _), _, C35_clipped_gradient C evs c (fun e _ => h _ _),
    exceeds C evs c (fun e _ => h _ _)⟩

/-- **C36**: and the error is small when every clipped estimate is on the side of its entry. -/
theorem C36_small_error (C : ℝ) (m : Implicit.Mat nu ni) (evs : List (Event nu ni)) (hm : Completes m evs) (c g : Coef nu ni k)
    (h : ∀ u i, |est (unpack c) u i| ≠ 34.538776394910684) (hr : RightSide (unpack c) evs)
    (hg : IsGradient (Implicit.loss C m) g c) :
    let a := unpack (Implicit.gradLoss C m c)
    let b := unpack g
    |a.mu - b.mu| ≤ 1e-14 * (nu * ni) ∧ (∀ u, |a.bu u - b.bu u| ≤ 1e-14 * ni) ∧ (∀ i, |a.bi i - b.bi i| ≤ 1e-14 * nu) := by
  have e1 : Implicit.loss C m = Logistic.loss (k := k) C evs := by
    funext c; exact (C37_implicit_is_explicit C m evs hm c).1
  rw [e1] at hg
  obtain ⟨h1, h2, h3, _⟩ := C35_small_error C evs c g (fun e _ => h _ _) hr hg
  rw [(C37_implicit_is_explicit C m evs hm c).2]
  have hp := completes_perm hm
  have l1 : (evs.length : ℝ) = nu * ni := by
    have := sum_allPairs m (fun _ => (1 : ℝ))
    simp only [List.map_const', List.sum_replicate, Finset.sum_const, Finset.card_univ, Fintype.card_fin, nsmul_eq_mul,
      mul_one] at this
    rw [hp.length_eq, this]
  have l2 : ∀ u, ((evs.filter (fun e => decide (e.user = u))).length : ℝ) = ni := by
    intro u
    have := bincount_allPairs_user m (fun _ => (1 : ℝ)) u
    unfold bincount at this
    simp only [List.map_const', List.sum_replicate, Finset.sum_const, Finset.card_univ, Fintype.card_fin, nsmul_eq_mul,
      mul_one] at this
    rw [(hp.filter _).length_eq, this]
  have l3 : ∀ i, ((evs.filter (fun e => decide (e.item = i))).length : ℝ) = nu := by
    intro i
    have := bincount_allPairs_item m (fun _ => (1 : ℝ)) i
    unfold bincount at this
    simp only [List.map_const', List.sum_replicate, Finset.sum_const, Finset.card_univ, Fintype.card_fin, nsmul_eq_mul,
      mul_one] at this
    rw [(hp.filter _).length_eq, this]
  dsimp only at h1 h2 h3 ⊢
  exact ⟨by rw [l1] at h1; exact h1, fun u => by have := h2 u; rw [l2] at this; exact this,
    fun i => by have := h3 i; rw [l3] at this; exact this⟩

/-- The hypotheses are met far outside the domain: one event with estimate 40 and score 1; and there the excess does not
cancel. -/
example : (∀ e ∈ [(⟨0, 0, 1⟩ : Event 1 1)], |est (unpack (pack exFar)) e.user e.item| ≠ 34.538776394910684) ∧
    RightSide (unpack (pack exFar)) [⟨0, 0, 1⟩] ∧ ¬ Cancels (unpack (pack exFar)) [⟨0, 0, 1⟩] := by
  rw [unpack_pack]
  refine ⟨fun e _ => by rw [est_exFar]; norm_num, fun e he => ?_, fun h => ?_⟩
  · rw [List.mem_singleton.1 he]
    exact ⟨fun _ => rfl, fun h => absurd h (by rw [est_exFar]; norm_num)⟩
  · have := h.mu
    simp only [excess, List.map_cons, List.map_nil, List.sum_cons, List.sum_nil, est_exFar] at this
    rw [if_pos (by norm_num)] at this
    have h2 := safeSigmoid_lt_one 40
    linarith

/-- Without clipped events there is nothing to cancel. -/
example (v : Views nu ni k) (evs : List (Event nu ni)) (h : ∀ e ∈ evs, |est v e.user e.item| < 34.538776394910684) :
    Cancels v evs := by
  have h0 : ∀ e ∈ evs, excess v e = 0 := fun e he => by unfold excess; rw [if_neg (not_lt.2 (h e he).le)]
  have hz : ∀ (f : Event nu ni → ℝ), (∀ e ∈ evs, f e = 0) → (evs.map f).sum = 0 := by
    intro f hf
    apply List.sum_eq_zero
    intro x hx
    obtain ⟨e, he, rfl⟩ := List.mem_map.1 hx
    exact hf e he
  exact ⟨hz _ h0, fun u => hz _ fun e he => by rw [h0 e he]; simp, fun u => hz _ fun e he => by rw [h0 e he]; simp,
    fun u f => hz _ fun e he => by rw [h0 e he]; simp, fun u f => hz _ fun e he => by rw [h0 e he]; simp⟩

end MF
end Kam
