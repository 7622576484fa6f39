/-
C152: what a small gradient says about the learned coefficients.
-/
import Verif.MF.Props5

set_option linter.unusedSectionVars false

namespace Kam
namespace MF
open scoped BigOperators
open Spec

variable {nu ni k : Nat}

/-! ### Specification -/

/-- Every entry of a vector is at most `ε` in absolute value. -/
def Within {N : Nat} (ε : ℝ) (g : Fin N → ℝ) : Prop := ∀ j, |g j| ≤ ε

/-- The sum of the errors `score - prediction` of the events picked by `P`. -/
noncomputable def errorSum (link : ℝ → ℝ) (v : Views nu ni k) (evs : List (Event nu ni)) (P : Event nu ni → Bool) : ℝ :=
  ((evs.filter P).map (fun e => e.score - link (v.mu + v.bu e.user + v.bi e.item + ∑ f, v.p e.user f * v.q e.item f))).sum

/-- What holds of coefficients up to `ε`: the errors sum up to zero; those of the events of a user to `C` times the bias of the user,
those of an item to `C` times its bias; the biases of the users sum up to zero, and so do those of the items; the factors
of users and items have the same products of columns; users and items without events have no bias and no factors. -/
structure Balanced (link : ℝ → ℝ) (ε C : ℝ) (evs : List (Event nu ni)) (v : Views nu ni k) : Prop where
  all : |errorSum link v evs (fun _ => true)| ≤ ε
  user : ∀ u, |errorSum link v evs (fun e => decide (e.user = u)) - C * v.bu u| ≤ ε
  item : ∀ i, |errorSum link v evs (fun e => decide (e.item = i)) - C * v.bi i| ≤ ε
  users : |C * ∑ u, v.bu u| ≤ (nu + 1) * ε
  items : |C * ∑ i, v.bi i| ≤ (ni + 1) * ε
  factors : ∀ f g, |C * (∑ u, v.p u f * v.p u g - ∑ i, v.q i f * v.q i g)| ≤ ε * (∑ u, |v.p u g| + ∑ i, |v.q i f|)
  newUser : ∀ u, (∀ e ∈ evs, e.user ≠ u) → |C * v.bu u| ≤ ε ∧ ∀ f, |C * v.p u f| ≤ ε
  newItem : ∀ i, (∀ e ∈ evs, e.item ≠ i) → |C * v.bi i| ≤ ε ∧ ∀ f, |C * v.q i f| ≤ ε

/-! ### Lemmas -/

theorem within_views {ε : ℝ} {v : Views nu ni k} (h : Within ε (pack v)) :
    |v.mu| ≤ ε ∧ (∀ u, |v.bu u| ≤ ε) ∧ (∀ i, |v.bi i| ≤ ε) ∧ (∀ u f, |v.p u f| ≤ ε) ∧ ∀ i f, |v.q i f| ≤ ε := by
  have key : ∀ s : Slot nu ni k, |v.get s| ≤ ε := by
    intro s
    have := h ⟨pos s, pos_lt s⟩
    unfold pack at this
    rwa [slotAt_pos] at this
  exact ⟨key .mu, fun u => key (.bu u), fun i => key (.bi i), fun u f => key (.p u f), fun i f => key (.q i f)⟩

theorem bincount_none {β : Type} {n : Nat} {evs : List β} {id : β → Fin n} {j : Fin n} (h : ∀ e ∈ evs, id e ≠ j) (w : β → ℝ) :
    bincount evs id w j = 0 := by
  unfold bincount
  rw [List.filter_eq_nil_iff.2 (fun e he => by simpa using h e he)]
  rfl

theorem errorSum_neg (link : ℝ → ℝ) (v : Views nu ni k) (evs : List (Event nu ni)) (P : Event nu ni → Bool) :
    errorSum link v evs P = -((evs.filter P).map (fun e => link (est v e.user e.item) - e.score)).sum := by
  unfold errorSum est
  induction evs.filter P with
  | nil => simp
  | cons e l ih => simp only [List.map_cons, List.sum_cons, ih]; ring

/-- The sum of a bounded vector times another. -/
theorem abs_sum_mul_le {n : Nat} {ε : ℝ} {g x : Fin n → ℝ} (h : ∀ j, |g j| ≤ ε) : |∑ j, g j * x j| ≤ ε * ∑ j, |x j| := by
  rw [Finset.mul_sum]
  refine (Finset.abs_sum_le_sum_abs _ _).trans (Finset.sum_le_sum (fun j _ => ?_))
  rw [abs_mul]
  exact mul_le_mul_of_nonneg_right (h j) (abs_nonneg _)

theorem balanced_of_grad {link : ℝ → ℝ} {ε C : ℝ} {evs : List (Event nu ni)} {v : Views nu ni k}
    (h : Within ε (pack (grad (fun s x => link x - s) C evs v))) : Balanced link ε C evs v := by
  obtain ⟨h1, h2, h3, h4, h5⟩ := within_views h
  simp only [grad, addReg, gradTerms] at h1 h2 h3 h4 h5
  set w : Event nu ni → ℝ := fun e => link (est v e.user e.item) - e.score with hw
  have total : ∀ {n : Nat} (id : Event nu ni → Fin n), ∑ j, bincount evs id w j = (evs.map w).sum := by
    intro n id
    have := sum_bincount_mul evs id w (fun _ => 1)
    simpa using this
  refine ⟨?_, ?_, ?_, ?_, ?_, ?_, ?_, ?_⟩
  · rw [errorSum_neg, abs_neg]
    simpa using h1
  · intro u
    rw [errorSum_neg, ← abs_neg]
    have := h2 u
    unfold bincount at this
    convert this using 2
    ring
  · intro i
    rw [errorSum_neg, ← abs_neg]
    have := h3 i
    unfold bincount at this
    convert this using 2
    ring
  · have e : C * ∑ u, v.bu u = ∑ u, (bincount evs (·.user) w u + C * v.bu u) * 1 - (evs.map w).sum := by
      rw [← total (·.user), Finset.mul_sum, ← Finset.sum_sub_distrib]
      exact Finset.sum_congr rfl (fun u _ => by ring)
    rw [e]
    have h6 := abs_sum_mul_le (x := fun _ => 1) h2
    simp only [abs_one, Finset.sum_const, Finset.card_univ, Fintype.card_fin, nsmul_eq_mul, mul_one] at h6 ⊢
    calc _ ≤ |∑ u, (bincount evs (·.user) w u + C * v.bu u)| + |(evs.map w).sum| := abs_sub _ _
      _ ≤ ε * nu + ε := add_le_add h6 h1
      _ = _ := by ring
  · have e : C * ∑ u, v.bi u = ∑ u, (bincount evs (·.item) w u + C * v.bi u) * 1 - (evs.map w).sum := by
      rw [← total (·.item), Finset.mul_sum, ← Finset.sum_sub_distrib]
      exact Finset.sum_congr rfl (fun u _ => by ring)
    rw [e]
    have h6 := abs_sum_mul_le (x := fun _ => 1) h3
    simp only [abs_one, Finset.sum_const, Finset.card_univ, Fintype.card_fin, nsmul_eq_mul, mul_one] at h6 ⊢
    calc _ ≤ |∑ u, (bincount evs (·.item) w u + C * v.bi u)| + |(evs.map w).sum| := abs_sub _ _
      _ ≤ ε * ni + ε := add_le_add h6 h1
      _ = _ := by ring
  · intro f g
    have e1 := sum_bincount_mul evs (·.user) (fun e => w e * v.q e.item f) (fun u => v.p u g)
    have e2 := sum_bincount_mul evs (·.item) (fun e => w e * v.p e.user g) (fun i => v.q i f)
    have e3 : (evs.map (fun e => w e * v.q e.item f * v.p e.user g)).sum = (evs.map (fun e => w e * v.p e.user g * v.q e.item f)).sum := by
      congr 1
      exact List.map_congr_left (fun e _ => by ring)
    have e : C * (∑ u, v.p u f * v.p u g - ∑ i, v.q i f * v.q i g) =
        ∑ u, (bincount evs (·.user) (fun e => w e * v.q e.item f) u + C * v.p u f) * v.p u g -
        ∑ i, (bincount evs (·.item) (fun e => w e * v.p e.user g) i + C * v.q i g) * v.q i f := by
      simp only [add_mul, Finset.sum_add_distrib]
      rw [e1, e2, e3, mul_sub, Finset.mul_sum, Finset.mul_sum]
      have a1 : ∑ u, C * (v.p u f * v.p u g) = ∑ u, C * v.p u f * v.p u g := Finset.sum_congr rfl (fun u _ => by ring)
      have a2 : ∑ i, C * (v.q i f * v.q i g) = ∑ i, C * v.q i g * v.q i f := Finset.sum_congr rfl (fun u _ => by ring)
      rw [a1, a2]
      ring
    rw [e, mul_add]
    refine (abs_sub _ _).trans (add_le_add ?_ ?_)
    · exact abs_sum_mul_le (fun u => h4 u f)
    · exact abs_sum_mul_le (fun i => h5 i g)
  · intro u hu
    refine ⟨?_, fun f => ?_⟩
    · have := h2 u
      rwa [bincount_none hu, zero_add] at this
    · have := h4 u f
      rwa [bincount_none hu, zero_add] at this
  · intro u hu
    refine ⟨?_, fun f => ?_⟩
    · have := h3 u
      rwa [bincount_none hu, zero_add] at this
    · have := h5 u f
      rwa [bincount_none hu, zero_add] at this

/-! ### Theorems -/

/-- C152: coefficients at which no entry of the gradient given to the optimizer exceeds `ε` are balanced up to `ε`, for each of the three
models; that of `ImplicitLogisticPMF` with respect to all pairs of a user and an item. -/
theorem C152_small_gradient (ε C : ℝ) (c : Coef nu ni k) :
    (∀ evs, Within ε (PMF.gradLoss C evs c) → Balanced id ε C evs (unpack c)) ∧
    (∀ evs, Within ε (Logistic.gradLoss C evs c) → Balanced safeSigmoid ε C evs (unpack c)) ∧
    ∀ m, Within ε (Implicit.gradLoss C m c) → Balanced safeSigmoid ε C (allPairs m) (unpack c) := by
  refine ⟨fun evs h => balanced_of_grad ?_, fun evs h => balanced_of_grad h, fun m h => balanced_of_grad ?_⟩
  · rw [pmf_grad] at h
    have e : (gradP) = fun s x : ℝ => id x - s := by funext s x; unfold gradP; simp only [id]; ring
    rwa [e] at h
  · rw [implicit_grad_eq] at h
    exact h

/-- C152: at a point where the gradient vanishes all this holds exactly: the biases of the users and those of the items sum up to zero,
the mean error of a user's or an item's events is its bias times `C`, divided by their number, and the factors of users and items
have the same matrix of products of columns. -/
theorem C152_stationary (C : ℝ) (hC : C ≠ 0) (evs : List (Event nu ni)) (c : Coef nu ni k)
    (h : PMF.gradLoss C evs c = 0 ∧ link = id ∨ Logistic.gradLoss C evs c = 0 ∧ link = safeSigmoid) :
    ∑ u, (unpack c).bu u = 0 ∧ ∑ i, (unpack c).bi i = 0 ∧
    (∀ u, errorSum link (unpack c) evs (fun e => decide (e.user = u)) = C * (unpack c).bu u) ∧
    (∀ i, errorSum link (unpack c) evs (fun e => decide (e.item = i)) = C * (unpack c).bi i) ∧
    ∀ f g, ∑ u, (unpack c).p u f * (unpack c).p u g = ∑ i, (unpack c).q i f * (unpack c).q i g := by
  have hb : Balanced link 0 C evs (unpack c) := by
    rcases h with ⟨h, rfl⟩ | ⟨h, rfl⟩
    · exact (C152_small_gradient 0 C c).1 evs (by rw [h]; intro j; simp)
    · exact (C152_small_gradient 0 C c).2.1 evs (by rw [h]; intro j; simp)
  have z : ∀ {x : ℝ}, |x| ≤ 0 → x = 0 := fun h => abs_nonpos_iff.1 h
  refine ⟨?_, ?_, fun u => ?_, fun i => ?_, fun f g => ?_⟩
  · have := hb.users
    rw [mul_zero] at this
    exact (mul_eq_zero.1 (z this)).resolve_left hC
  · have := hb.items
    rw [mul_zero] at this
    exact (mul_eq_zero.1 (z this)).resolve_left hC
  · linarith [z (hb.user u)]
  · linarith [z (hb.item i)]
  · have := hb.factors f g
    rw [zero_mul] at this
    linarith [(mul_eq_zero.1 (z this)).resolve_left hC]

/-- A stationary point exists for every data set (C86, C87), so the hypotheses of both theorems hold somewhere for every data set, here
for two users with different scores. -/
example : ∃ c : Coef 2 1 1, PMF.gradLoss 1 [⟨0, 0, 0⟩, ⟨1, 0, 1⟩] c = 0 ∧
    (∑ u, (unpack c).bu u = 0) ∧ Balanced id 0 1 [⟨0, 0, 0⟩, ⟨1, 0, 1⟩] (unpack c) := by
  obtain ⟨c, hc⟩ := (C86_optimum_exists (nu := 2) (ni := 1) (k := 1) 1 one_pos).1 [⟨0, 0, 0⟩, ⟨1, 0, 1⟩]
  have hg := ((C87_optimum 1 one_pos _ c).2 hc).1
  exact ⟨c, hg, (C152_stationary 1 one_ne_zero _ c (.inl ⟨hg, rfl⟩)).1,
    (C152_small_gradient 0 1 c).1 _ (by rw [hg]; intro j; simp)⟩

end MF
end Kam
