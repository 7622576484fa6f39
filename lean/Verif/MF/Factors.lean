/-
C142: how many latent factors are needed.  For the squared loss there is a certificate that a coefficient vector is the best one among the
models with any number of latent factors: the gradient vanishes and no singular value of the residuals exceeds the regularization parameter.
-/
import Verif.MF.Props5
import Mathlib.Analysis.InnerProductSpace.PiL2

set_option linter.unusedSectionVars false

/-! ### Specification -/

namespace Kam.Spec
open scoped BigOperators
open MF

variable {nu ni k : Nat}

/-- The coefficient vector is at least as good as those with any number of latent factors. -/
def BestOfAll (C : ℝ) (evs : List (Event nu ni)) (c : Coef nu ni k) : Prop :=
  ∀ (k' : Nat) (c' : Coef nu ni k'), PMF.loss C evs c ≤ PMF.loss C evs c'

/-- No singular value of the residuals exceeds `C`: if the differences of scores and predictions are entered into a matrix of users and items
(and added for repeated pairs), its bilinear form on vectors `x` and `y` is at most `C` times the mean of their squared lengths. -/
def NormAtMost (C : ℝ) (evs : List (Event nu ni)) (ys : List ℝ) : Prop :=
  ∀ (x : Fin nu → ℝ) (y : Fin ni → ℝ),
    ((evs.zip ys).map (fun a => (a.1.score - a.2) * (x a.1.user * y a.1.item))).sum ≤ C * ((∑ u, x u ^ 2 + ∑ i, y i ^ 2) / 2)

/-- All latent factors are zero. -/
def NoFactors (c : Coef nu ni k) : Prop := (∀ u f, (unpack c).p u f = 0) ∧ ∀ i f, (unpack c).q i f = 0

/-- How often a user has scored an item. -/
def times (evs : List (Event nu ni)) (u : Fin nu) (i : Fin ni) : Nat := (evs.filter (fun e => decide (e.user = u ∧ e.item = i))).length

end Kam.Spec

namespace Kam
namespace MF
open scoped BigOperators
open Spec

variable {nu ni k k' : Nat}

/-! ### The residuals -/

/-- The difference of the score of an event and its prediction. -/
noncomputable def res (v : Views nu ni k) (e : Event nu ni) : ℝ := e.score - est v e.user e.item

theorem zip_residuals (evs : List (Event nu ni)) (f g : Event nu ni → ℝ) :
    ((evs.zip (evs.map f)).map (fun a => (a.1.score - a.2) * g a.1)).sum = (evs.map (fun e => (e.score - f e) * g e)).sum := by
  induction evs with
  | nil => rfl
  | cons e l ih => simp only [List.map_cons, List.zip_cons_cons, List.sum_cons, ih]

/-- The form of the residuals stays below `C`. -/
def Below (C : ℝ) (evs : List (Event nu ni)) (v : Views nu ni k) : Prop :=
  ∀ (x : Fin nu → ℝ) (y : Fin ni → ℝ), (evs.map (fun e => res v e * (x e.user * y e.item))).sum ≤ C * ((∑ u, x u ^ 2 + ∑ i, y i ^ 2) / 2)

theorem normAtMost_iff (C : ℝ) (evs : List (Event nu ni)) (c : Coef nu ni k) :
    (∀ ys, rawPredict id (store c) (evs.map evRow) = .ok ys → NormAtMost C evs ys) ↔ Below C evs (unpack c) := by
  rw [rawPredict_events]
  constructor
  · intro h x y
    have := h _ rfl x y
    rwa [zip_residuals evs (fun e => id (est (unpack c) e.user e.item)) (fun e => x e.user * y e.item)] at this
  · intro h ys hy x y
    cases hy
    rw [zip_residuals evs (fun e => id (est (unpack c) e.user e.item)) (fun e => x e.user * y e.item)]
    exact h x y

/-- What a vanishing gradient says about the residuals. -/
structure Stationary (C : ℝ) (evs : List (Event nu ni)) (v : Views nu ni k) : Prop where
  mu : (evs.map (res v)).sum = 0
  bu : ∀ x : Fin nu → ℝ, (evs.map (fun e => res v e * x e.user)).sum = C * ∑ u, v.bu u * x u
  bi : ∀ x : Fin ni → ℝ, (evs.map (fun e => res v e * x e.item)).sum = C * ∑ i, v.bi i * x i
  p : ∀ f, (evs.map (fun e => res v e * (v.p e.user f * v.q e.item f))).sum = C * ∑ u, v.p u f ^ 2
  q : ∀ f, (evs.map (fun e => res v e * (v.p e.user f * v.q e.item f))).sum = C * ∑ i, v.q i f ^ 2

theorem list_sum_neg {β : Type} (l : List β) (f : β → ℝ) : (l.map (fun b => -f b)).sum = -(l.map f).sum := by
  induction l with
  | nil => simp
  | cons b l ih => simp only [List.map_cons, List.sum_cons, ih]; ring

theorem stationary_of_grad {C : ℝ} {evs : List (Event nu ni)} {c : Coef nu ni k} (h : PMF.gradLoss C evs c = 0) :
    Stationary C evs (unpack c) := by
  have hv : grad gradP C evs (unpack c) = unpack (0 : Coef nu ni k) := by
    rw [← h, pmf_grad, unpack_pack]
  set v := unpack c with hv0
  have hw : (fun e : Event nu ni => gradP e.score (est v e.user e.item)) = fun e => -res v e := by
    funext e; rfl
  unfold grad at hv
  rw [hw] at hv
  have h1 : (evs.map (fun e => -res v e)).sum = 0 := congrArg Views.mu hv
  have h2 : ∀ u, bincount evs (·.user) (fun e => -res v e) u + C * v.bu u = 0 := fun u => congrFun (congrArg Views.bu hv) u
  have h3 : ∀ i, bincount evs (·.item) (fun e => -res v e) i + C * v.bi i = 0 := fun i => congrFun (congrArg Views.bi hv) i
  have h4 : ∀ u f, bincount evs (·.user) (fun e => -res v e * v.q e.item f) u + C * v.p u f = 0 :=
    fun u f => congrFun (congrFun (congrArg Views.p hv) u) f
  have h5 : ∀ i f, bincount evs (·.item) (fun e => -res v e * v.p e.user f) i + C * v.q i f = 0 :=
    fun i f => congrFun (congrFun (congrArg Views.q hv) i) f
  refine ⟨?_, fun x => ?_, fun x => ?_, fun f => ?_, fun f => ?_⟩
  · rw [list_sum_neg] at h1; linarith
  · have := sum_bincount_mul evs (·.user) (fun e => -res v e) x
    simp only [neg_mul, list_sum_neg] at this
    rw [← neg_inj, ← this, ← neg_mul, Finset.mul_sum]
    refine Finset.sum_congr rfl (fun u _ => ?_)
    rw [show bincount evs (·.user) (fun e => -res v e) u = -(C * v.bu u) by linarith [h2 u]]; ring
  · have := sum_bincount_mul evs (·.item) (fun e => -res v e) x
    simp only [neg_mul, list_sum_neg] at this
    rw [← neg_inj, ← this, ← neg_mul, Finset.mul_sum]
    refine Finset.sum_congr rfl (fun u _ => ?_)
    rw [show bincount evs (·.item) (fun e => -res v e) u = -(C * v.bi u) by linarith [h3 u]]; ring
  · have := sum_bincount_mul evs (·.user) (fun e => -res v e * v.q e.item f) (fun u => v.p u f)
    have e1 : ∀ e : Event nu ni, -res v e * v.q e.item f * v.p e.user f = -(res v e * (v.p e.user f * v.q e.item f)) := fun e => by ring
    simp only [e1, list_sum_neg] at this
    rw [← neg_inj, ← this, ← neg_mul, Finset.mul_sum]
    refine Finset.sum_congr rfl (fun u _ => ?_)
    rw [show bincount evs (·.user) (fun e => -res v e * v.q e.item f) u = -(C * v.p u f) by linarith [h4 u f]]; ring
  · have := sum_bincount_mul evs (·.item) (fun e => -res v e * v.p e.user f) (fun u => v.q u f)
    have e1 : ∀ e : Event nu ni, -res v e * v.p e.user f * v.q e.item f = -(res v e * (v.p e.user f * v.q e.item f)) := fun e => by ring
    simp only [e1, list_sum_neg] at this
    rw [← neg_inj, ← this, ← neg_mul, Finset.mul_sum]
    refine Finset.sum_congr rfl (fun u _ => ?_)
    rw [show bincount evs (·.item) (fun e => -res v e * v.p e.user f) u = -(C * v.q u f) by linarith [h5 u f]]; ring

/-! ### The loss around a stationary point -/

theorem list_sum_fin {β : Type} (l : List β) (f : β → ℝ) : (l.map f).sum = ∑ j : Fin l.length, f l[j.1] :=
  (Fin.sum_univ_fun_getElem l f).symm

/-- The change of the loss from a stationary point to any other point, with any number of factors. -/
theorem total_sub {C : ℝ} {evs : List (Event nu ni)} {v₀ : Views nu ni k} (h : Stationary C evs v₀) (v : Views nu ni k') :
    total lossP C evs v = total lossP C evs v₀ +
      (0.5 * (evs.map (fun e => (est v e.user e.item - est v₀ e.user e.item) ^ 2)).sum +
        0.5 * C * ∑ u, (v.bu u - v₀.bu u) ^ 2 + 0.5 * C * ∑ i, (v.bi i - v₀.bi i) ^ 2 +
        ∑ f, (C * ((∑ u, v.p u f ^ 2 + ∑ i, v.q i f ^ 2) / 2) - (evs.map (fun e => res v₀ e * (v.p e.user f * v.q e.item f))).sum)) := by
  have hmu := h.mu
  have hbu := h.bu (fun u => v.bu u - v₀.bu u)
  have hbi := h.bi (fun i => v.bi i - v₀.bi i)
  have hp : ∑ f, (evs.map (fun e => res v₀ e * (v₀.p e.user f * v₀.q e.item f))).sum = C * ∑ f, ∑ u, v₀.p u f ^ 2 := by
    rw [Finset.mul_sum]; exact Finset.sum_congr rfl (fun f _ => h.p f)
  have hq : ∑ f, (evs.map (fun e => res v₀ e * (v₀.p e.user f * v₀.q e.item f))).sum = C * ∑ f, ∑ i, v₀.q i f ^ 2 := by
    rw [Finset.mul_sum]; exact Finset.sum_congr rfl (fun f _ => h.q f)
  have esq : (evs.map (fun e => lossP e.score (est v e.user e.item))).sum =
      (evs.map (fun e => lossP e.score (est v₀ e.user e.item))).sum
        - (evs.map (fun e => res v₀ e * (est v e.user e.item - est v₀ e.user e.item))).sum
        + 0.5 * (evs.map (fun e => (est v e.user e.item - est v₀ e.user e.item) ^ 2)).sum := by
    simp only [list_sum_fin, Finset.mul_sum, ← Finset.sum_sub_distrib, ← Finset.sum_add_distrib]
    refine Finset.sum_congr rfl (fun j _ => ?_)
    unfold lossP res; ring
  have elin : (evs.map (fun e => res v₀ e * (est v e.user e.item - est v₀ e.user e.item))).sum =
      (v.mu - v₀.mu) * (evs.map (res v₀)).sum + (evs.map (fun e => res v₀ e * (v.bu e.user - v₀.bu e.user))).sum +
        (evs.map (fun e => res v₀ e * (v.bi e.item - v₀.bi e.item))).sum +
        ∑ f, (evs.map (fun e => res v₀ e * (v.p e.user f * v.q e.item f))).sum -
        ∑ f, (evs.map (fun e => res v₀ e * (v₀.p e.user f * v₀.q e.item f))).sum := by
    simp only [list_sum_fin]
    rw [Finset.sum_comm (s := (Finset.univ : Finset (Fin k'))), Finset.sum_comm (s := (Finset.univ : Finset (Fin k))), Finset.mul_sum]
    simp only [← Finset.sum_sub_distrib, ← Finset.sum_add_distrib]
    refine Finset.sum_congr rfl (fun j _ => ?_)
    simp only [← Finset.mul_sum]
    unfold est; ring
  have c1 : ∀ v₁ v₂ : Fin nu → ℝ, ∑ u, v₁ u ^ 2 = ∑ u, v₂ u ^ 2 + 2 * ∑ u, v₂ u * (v₁ u - v₂ u) + ∑ u, (v₁ u - v₂ u) ^ 2 := by
    intro v₁ v₂
    rw [Finset.mul_sum, ← Finset.sum_add_distrib, ← Finset.sum_add_distrib]
    exact Finset.sum_congr rfl (fun u _ => by ring)
  have c2 : ∀ v₁ v₂ : Fin ni → ℝ, ∑ u, v₁ u ^ 2 = ∑ u, v₂ u ^ 2 + 2 * ∑ u, v₂ u * (v₁ u - v₂ u) + ∑ u, (v₁ u - v₂ u) ^ 2 := by
    intro v₁ v₂
    rw [Finset.mul_sum, ← Finset.sum_add_distrib, ← Finset.sum_add_distrib]
    exact Finset.sum_congr rfl (fun u _ => by ring)
  have epq : ∑ f, (C * ((∑ u, v.p u f ^ 2 + ∑ i, v.q i f ^ 2) / 2) - (evs.map (fun e => res v₀ e * (v.p e.user f * v.q e.item f))).sum) =
      0.5 * C * (∑ u, ∑ f, v.p u f ^ 2 + ∑ i, ∑ f, v.q i f ^ 2) - ∑ f, (evs.map (fun e => res v₀ e * (v.p e.user f * v.q e.item f))).sum := by
    rw [Finset.sum_sub_distrib, Finset.sum_comm (s := (Finset.univ : Finset (Fin nu))), Finset.sum_comm (s := (Finset.univ : Finset (Fin ni))),
      ← Finset.sum_add_distrib, Finset.mul_sum]
    congr 1
    exact Finset.sum_congr rfl (fun f _ => by ring)
  have hpp : ∑ f, ∑ u, v₀.p u f ^ 2 = ∑ u, ∑ f, v₀.p u f ^ 2 := Finset.sum_comm
  have hqq : ∑ f, ∑ i, v₀.q i f ^ 2 = ∑ i, ∑ f, v₀.q i f ^ 2 := Finset.sum_comm
  rw [epq]
  unfold total reg
  rw [esq, elin, hmu, hbu, hbi, c1 v.bu v₀.bu, c2 v.bi v₀.bi]
  rw [hpp] at hp
  rw [hqq] at hq
  linarith

theorem nonneg_terms {C : ℝ} (hC : 0 ≤ C) {evs : List (Event nu ni)} {v₀ : Views nu ni k} (hb : Below C evs v₀) (v : Views nu ni k') :
    (∀ f, 0 ≤ C * ((∑ u, v.p u f ^ 2 + ∑ i, v.q i f ^ 2) / 2) - (evs.map (fun e => res v₀ e * (v.p e.user f * v.q e.item f))).sum) ∧
    0 ≤ (evs.map (fun e => (est v e.user e.item - est v₀ e.user e.item) ^ 2)).sum ∧
    0 ≤ 0.5 * C * ∑ u, (v.bu u - v₀.bu u) ^ 2 ∧ 0 ≤ 0.5 * C * ∑ i, (v.bi i - v₀.bi i) ^ 2 := by
  refine ⟨fun f => ?_, ?_, ?_, ?_⟩
  · have := hb (fun u => v.p u f) (fun i => v.q i f); linarith
  · rw [list_sum_fin]; positivity
  · positivity
  · positivity

/-- One more latent factor. -/
noncomputable def addFactor (v : Views nu ni k) (x : Fin nu → ℝ) (y : Fin ni → ℝ) : Views nu ni (k + 1) :=
  { mu := v.mu, bu := v.bu, bi := v.bi, p := fun u => Fin.snoc (v.p u) (x u), q := fun i => Fin.snoc (v.q i) (y i) }

theorem total_addFactor (C : ℝ) (evs : List (Event nu ni)) (v : Views nu ni k) (x : Fin nu → ℝ) (y : Fin ni → ℝ) (t : ℝ) :
    total lossP C evs (addFactor v (fun u => t * x u) (fun i => t * y i)) = total lossP C evs v +
      (t ^ 2 * (C * ((∑ u, x u ^ 2 + ∑ i, y i ^ 2) / 2) - (evs.map (fun e => res v e * (x e.user * y e.item))).sum) +
        (t ^ 2) ^ 2 * (0.5 * (evs.map (fun e => (x e.user * y e.item) ^ 2)).sum)) := by
  have he : ∀ u i, est (addFactor v (fun u => t * x u) (fun i => t * y i)) u i = est v u i + t ^ 2 * (x u * y i) := by
    intro u i
    unfold est addFactor
    simp only [Fin.sum_univ_castSucc, Fin.snoc_castSucc, Fin.snoc_last]
    ring
  have hr : reg (addFactor v (fun u => t * x u) (fun i => t * y i)) = reg v + t ^ 2 * (∑ u, x u ^ 2 + ∑ i, y i ^ 2) := by
    unfold reg addFactor
    simp only [Fin.sum_univ_castSucc, Fin.snoc_castSucc, Fin.snoc_last, Finset.sum_add_distrib, mul_pow, ← Finset.mul_sum]
    ring
  have hl : (evs.map (fun e => lossP e.score (est v e.user e.item + t ^ 2 * (x e.user * y e.item)))).sum =
      (evs.map (fun e => lossP e.score (est v e.user e.item))).sum - t ^ 2 * (evs.map (fun e => res v e * (x e.user * y e.item))).sum +
        (t ^ 2) ^ 2 * (0.5 * (evs.map (fun e => (x e.user * y e.item) ^ 2)).sum) := by
    simp only [list_sum_fin, Finset.mul_sum, ← Finset.sum_sub_distrib, ← Finset.sum_add_distrib]
    refine Finset.sum_congr rfl (fun j _ => ?_)
    unfold lossP res; ring
  unfold total
  simp only [he]
  rw [hl, hr]
  ring

theorem nonneg_of_small {A B : ℝ} (hB : 0 ≤ B) (h : ∀ t : ℝ, 0 ≤ t ^ 2 * A + (t ^ 2) ^ 2 * B) : 0 ≤ A := by
  by_contra hA
  push Not at hA
  have hs : 0 < -A / (2 * (B + 1)) := by apply div_pos <;> linarith
  have h1 := h (Real.sqrt (-A / (2 * (B + 1))))
  rw [Real.sq_sqrt hs.le] at h1
  have h2 : 0 ≤ A + -A / (2 * (B + 1)) * B := by
    by_contra hn
    push Not at hn
    nlinarith [mul_neg_of_pos_of_neg hs hn]
  have h3 : -A / (2 * (B + 1)) * B ≤ -A / 2 := by
    rw [div_mul_eq_mul_div, div_le_div_iff₀ (by linarith) (by norm_num)]
    nlinarith
  linarith

theorem below_of_best {C : ℝ} {evs : List (Event nu ni)} {c : Coef nu ni k}
    (h : ∀ c' : Coef nu ni (k + 1), PMF.loss C evs c ≤ PMF.loss C evs c') : Below C evs (unpack c) := by
  intro x y
  have := nonneg_of_small (A := C * ((∑ u, x u ^ 2 + ∑ i, y i ^ 2) / 2) - (evs.map (fun e => res (unpack c) e * (x e.user * y e.item))).sum)
    (B := 0.5 * (evs.map (fun e => (x e.user * y e.item) ^ 2)).sum) (by rw [list_sum_fin]; positivity) (fun t => by
      have := h (pack (addFactor (unpack c) (fun u => t * x u) (fun i => t * y i)))
      rw [pmf_total, pmf_total, unpack_pack, total_addFactor] at this
      linarith)
  linarith

/-! ### The certificate -/

/-- C142: a coefficient vector of `PMF` is as good as any other, whatever the number of latent factors, if and only if the gradient the
optimizer is given vanishes and no singular value of the residuals of the training events exceeds the regularization parameter.  To compare
it with the vectors of one more factor is enough. -/
theorem C142_certificate (C : ℝ) (hC : 0 < C) (evs : List (Event nu ni)) (c : Coef nu ni k) :
    (BestOfAll C evs c ↔ PMF.gradLoss C evs c = 0 ∧ ∀ ys, rawPredict id (store c) (evs.map evRow) = .ok ys → NormAtMost C evs ys) ∧
    (BestOfAll C evs c ↔ ∀ c' : Coef nu ni (k + 1), PMF.loss C evs c ≤ PMF.loss C evs c') := by
  have h1 : (∀ c' : Coef nu ni (k + 1), PMF.loss C evs c ≤ PMF.loss C evs c') →
      PMF.gradLoss C evs c = 0 ∧ Below C evs (unpack c) := by
    intro h
    refine ⟨((C87_optimum C hC evs c).2 (fun c' => ?_)).1, below_of_best h⟩
    obtain ⟨⟨c'', h'', -⟩, -⟩ := C89_more_factors 1 C c'
    rw [← h'' evs]
    exact h c''
  have h2 : PMF.gradLoss C evs c = 0 ∧ Below C evs (unpack c) → BestOfAll C evs c := by
    rintro ⟨hg, hb⟩ k' c'
    have hn := nonneg_terms hC.le hb (unpack c')
    rw [pmf_total, pmf_total, total_sub (stationary_of_grad hg) (unpack c')]
    have := Finset.sum_nonneg (fun f (_ : f ∈ Finset.univ) => hn.1 f)
    linarith [hn.2.1, hn.2.2.1, hn.2.2.2]
  rw [normAtMost_iff]
  exact ⟨⟨fun h => h1 (fun c' => h _ c'), h2⟩, ⟨fun h c' => h _ c', fun h => h2 (h1 h)⟩⟩

/-- C142: all coefficient vectors that are best among any number of factors give the same predictions for the training events and have the
same biases, however many factors they have. -/
theorem C142_agree (C : ℝ) (hC : 0 < C) (evs : List (Event nu ni)) (c : Coef nu ni k) (c' : Coef nu ni k') (h : BestOfAll C evs c)
    (h' : BestOfAll C evs c') :
    rawPredict id (store c) (evs.map evRow) = rawPredict id (store c') (evs.map evRow) ∧ (unpack c).bu = (unpack c').bu ∧
    (unpack c).bi = (unpack c').bi := by
  have hc := ((C142_certificate C hC evs c).1.1 h)
  rw [normAtMost_iff] at hc
  obtain ⟨hg, hb⟩ := hc
  have hn := nonneg_terms hC.le hb (unpack c')
  have hs := total_sub (stationary_of_grad hg) (unpack c')
  rw [← pmf_total, ← pmf_total] at hs
  have hle := h' _ c
  have hf := Finset.sum_nonneg (fun f (_ : f ∈ Finset.univ) => hn.1 f)
  have hd : (evs.map (fun e => (est (unpack c') e.user e.item - est (unpack c) e.user e.item) ^ 2)).sum = 0 := by
    linarith [hn.2.1, hn.2.2.1, hn.2.2.2]
  have hu : 0.5 * C * ∑ u, ((unpack c').bu u - (unpack c).bu u) ^ 2 = 0 := by linarith [hn.2.1, hn.2.2.1, hn.2.2.2]
  have hi : 0.5 * C * ∑ i, ((unpack c').bi i - (unpack c).bi i) ^ 2 = 0 := by linarith [hn.2.1, hn.2.2.1, hn.2.2.2]
  have hz : (0.5 : ℝ) * C ≠ 0 := by positivity
  refine ⟨?_, ?_, ?_⟩
  · rw [rawPredict_events, rawPredict_events]
    congr 1
    rw [list_sum_fin, Finset.sum_eq_zero_iff_of_nonneg (fun j _ => sq_nonneg _)] at hd
    apply List.map_congr_left
    intro e he
    obtain ⟨j, hj, rfl⟩ := List.getElem_of_mem he
    have := hd ⟨j, hj⟩ (Finset.mem_univ _)
    have := pow_eq_zero_iff (two_ne_zero) |>.1 this
    simp only [id]
    linarith
  · funext u
    have := (mul_eq_zero.1 hu).resolve_left hz
    rw [Finset.sum_eq_zero_iff_of_nonneg (fun j _ => sq_nonneg _)] at this
    have := pow_eq_zero_iff (two_ne_zero) |>.1 (this u (Finset.mem_univ u))
    linarith
  · funext u
    have := (mul_eq_zero.1 hi).resolve_left hz
    rw [Finset.sum_eq_zero_iff_of_nonneg (fun j _ => sq_nonneg _)] at this
    have := pow_eq_zero_iff (two_ne_zero) |>.1 (this u (Finset.mem_univ u))
    linarith

/-! ### Enough factors -/

theorem few_coordinates {K : Nat} (p : Fin nu → EuclideanSpace ℝ (Fin K)) (hk : nu ≤ k) :
    ∃ b : Fin k → EuclideanSpace ℝ (Fin K), (∀ x y, x ∈ Set.range p → inner ℝ x y = ∑ f, inner ℝ (b f) x * inner ℝ (b f) y) ∧
      ∀ y, ∑ f, inner ℝ (b f) y ^ 2 ≤ ‖y‖ ^ 2 := by
  set S := Submodule.span ℝ (Set.range p) with hS
  have hr : Module.finrank ℝ S ≤ k := (finrank_range_le_card p).trans (by simpa using hk)
  let b₀ := stdOrthonormalBasis ℝ S
  let b : Fin k → EuclideanSpace ℝ (Fin K) := fun f => if h : f.1 < Module.finrank ℝ S then (b₀ ⟨f.1, h⟩ : EuclideanSpace ℝ (Fin K)) else 0
  have hsum : ∀ g : EuclideanSpace ℝ (Fin K) → ℝ, g 0 = 0 → ∑ f, g (b f) = ∑ j, g (b₀ j : EuclideanSpace ℝ (Fin K)) := by
    intro g hg
    obtain ⟨n, rfl⟩ := Nat.exists_eq_add_of_le hr
    rw [Fin.sum_univ_add]
    have h2 : ∀ i : Fin n, b (Fin.natAdd (Module.finrank ℝ S) i) = 0 := by intro i; simp [b]
    have h1 : ∀ i : Fin (Module.finrank ℝ S), b (Fin.castAdd n i) = b₀ i := by intro i; simp [b]
    simp only [h1, h2, hg, Finset.sum_const_zero, add_zero]
  refine ⟨b, ?_, ?_⟩
  · intro x y hx
    rw [hsum (fun z => inner ℝ z x * inner ℝ z y) (by simp)]
    have hxS : x ∈ S := Submodule.subset_span hx
    have := b₀.sum_repr' ⟨x, hxS⟩
    have hx' : x = ∑ j, inner ℝ (b₀ j : EuclideanSpace ℝ (Fin K)) x • (b₀ j : EuclideanSpace ℝ (Fin K)) := by
      have h := congrArg (fun z : S => (z : EuclideanSpace ℝ (Fin K))) this
      simp at h
      exact h.symm
    conv_lhs => rw [hx']
    rw [sum_inner]
    refine Finset.sum_congr rfl (fun j _ => ?_)
    rw [real_inner_smul_left]
  · intro y
    rw [hsum (fun z => inner ℝ z y ^ 2) (by simp)]
    have ho : Orthonormal ℝ (fun j => (b₀ j : EuclideanSpace ℝ (Fin K))) := b₀.orthonormal.comp_linearIsometry S.subtypeₗᵢ
    have := ho.sum_inner_products_le y (s := Finset.univ)
    simpa using this

theorem fewer_factors {K : Nat} (v : Views nu ni K) (hk : nu ≤ k) : ∃ w : Views nu ni k, w.mu = v.mu ∧ w.bu = v.bu ∧ w.bi = v.bi ∧
    (∀ u i, ∑ f, w.p u f * w.q i f = ∑ f, v.p u f * v.q i f) ∧ reg w ≤ reg v := by
  obtain ⟨b, h1, h2⟩ := few_coordinates (k := k) (fun u => WithLp.toLp 2 (v.p u)) hk
  have hin : ∀ x y : Fin K → ℝ, inner ℝ (WithLp.toLp 2 x : EuclideanSpace ℝ (Fin K)) (WithLp.toLp 2 y) = ∑ f, x f * y f := by
    intro x y
    rw [EuclideanSpace.inner_toLp_toLp, dotProduct]
    exact Finset.sum_congr rfl (fun f _ => by simp [mul_comm])
  have hno : ∀ x : Fin K → ℝ, ‖(WithLp.toLp 2 x : EuclideanSpace ℝ (Fin K))‖ ^ 2 = ∑ f, x f ^ 2 := by
    intro x
    rw [← real_inner_self_eq_norm_sq, hin]
    exact Finset.sum_congr rfl (fun f _ => by ring)
  refine ⟨⟨v.mu, v.bu, v.bi, fun u f => inner ℝ (b f) (WithLp.toLp 2 (v.p u)), fun i f => inner ℝ (b f) (WithLp.toLp 2 (v.q i))⟩,
    rfl, rfl, rfl, fun u i => ?_, ?_⟩
  · rw [← h1 _ _ ⟨u, rfl⟩, hin]
  · unfold reg
    have e1 : ∀ u, ∑ f, (inner ℝ (b f) (WithLp.toLp 2 (v.p u)) : ℝ) ^ 2 ≤ ∑ f, v.p u f ^ 2 := fun u => (h2 _).trans_eq (hno _)
    have e2 : ∀ i, ∑ f, (inner ℝ (b f) (WithLp.toLp 2 (v.q i)) : ℝ) ^ 2 ≤ ∑ f, v.q i f ^ 2 := fun i => (h2 _).trans_eq (hno _)
    have := Finset.sum_le_sum (fun u (_ : u ∈ Finset.univ) => e1 u)
    have := Finset.sum_le_sum (fun i (_ : i ∈ Finset.univ) => e2 i)
    dsimp only
    linarith

theorem fewer_factors' {K : Nat} (v : Views nu ni K) (hk : nu ≤ k ∨ ni ≤ k) : ∃ w : Views nu ni k,
    (∀ u i, estO w u i = estO v u i) ∧ reg w ≤ reg v := by
  have key : ∃ w : Views nu ni k, w.mu = v.mu ∧ w.bu = v.bu ∧ w.bi = v.bi ∧
      (∀ u i, ∑ f, w.p u f * w.q i f = ∑ f, v.p u f * v.q i f) ∧ reg w ≤ reg v := by
    rcases hk with hk | hk
    · exact fewer_factors v hk
    · obtain ⟨w, h1, h2, h3, h4, h5⟩ := fewer_factors (swap v) hk
      refine ⟨swap w, h1, h3, h2, fun u i => ?_, ?_⟩
      · have := h4 i u
        simp only [swap] at this ⊢
        simpa only [mul_comm] using this
      · rw [reg_swap, ← reg_swap v]; exact h5
  obtain ⟨w, h1, h2, h3, h4, h5⟩ := key
  refine ⟨w, fun u i => ?_, h5⟩
  unfold estO
  rw [h1, h2, h3]
  congr 1
  cases u with
  | none => simp [extend]
  | some u => cases i with
    | none => simp [extend]
    | some i => exact h4 u i

theorem total_fewer (l : ℝ → ℝ → ℝ) {C : ℝ} (hC : 0 ≤ C) (evs : List (Event nu ni)) {w : Views nu ni k} {v : Views nu ni k'}
    (h1 : ∀ u i, estO w u i = estO v u i) (h2 : reg w ≤ reg v) : total l C evs w ≤ total l C evs v := by
  unfold total
  have : ∀ u i, est w u i = est v u i := fun u i => h1 (some u) (some i)
  simp only [this]
  have := mul_le_mul_of_nonneg_left h2 (show 0 ≤ 0.5 * C by positivity)
  linarith

/-- C142: as many latent factors as users, or as items, are enough: for every model with more of them there is one with `k` that gives the
same predictions for all requests and has no larger loss.  So the best model with `k` factors is the best one of all. -/
theorem C142_enough_factors (hk : nu ≤ k ∨ ni ≤ k) :
    (∀ (k' : Nat) (c' : Coef nu ni k'), ∃ c : Coef nu ni k,
      (∀ link rows, rawPredict link (store c) rows = rawPredict link (store c') rows) ∧
      ∀ C, 0 ≤ C → (∀ evs, PMF.loss C evs c ≤ PMF.loss C evs c') ∧ (∀ evs, Logistic.loss C evs c ≤ Logistic.loss C evs c') ∧
        ∀ m, Implicit.loss C m c ≤ Implicit.loss C m c') ∧
    ∀ (C : ℝ) (evs : List (Event nu ni)) (c : Coef nu ni k), 0 ≤ C → Optimal (PMF.loss C evs) c → BestOfAll C evs c := by
  have h1 : ∀ (k' : Nat) (c' : Coef nu ni k'), ∃ c : Coef nu ni k,
      (∀ link rows, rawPredict link (store c) rows = rawPredict link (store c') rows) ∧
      ∀ C, 0 ≤ C → (∀ evs, PMF.loss C evs c ≤ PMF.loss C evs c') ∧ (∀ evs, Logistic.loss C evs c ≤ Logistic.loss C evs c') ∧
        ∀ m, Implicit.loss C m c ≤ Implicit.loss C m c' := by
    intro k' c'
    obtain ⟨w, e, r⟩ := fewer_factors' (unpack c') hk
    have hL : ∀ C, 0 ≤ C → ∀ evs, Logistic.loss C evs (pack w) ≤ Logistic.loss C evs c' := fun C hC evs => by
      rw [logistic_total, logistic_total, unpack_pack]; exact total_fewer _ hC evs e r
    refine ⟨pack w, fun link rows => rawPredict_congr link _ _ (fun u i => by rw [unpack_pack]; exact e u i) rows, fun C hC =>
      ⟨fun evs => ?_, hL C hC, fun m => by rw [implicit_loss_eq, implicit_loss_eq]; exact hL C hC _⟩⟩
    rw [pmf_total, pmf_total, unpack_pack]; exact total_fewer _ hC evs e r
  refine ⟨h1, fun C evs c hC ho k' c' => ?_⟩
  obtain ⟨d, -, h⟩ := h1 k' c'
  exact (ho d).trans ((h C hC).1 evs)

/-- C142: whether latent factors lower the best loss can be seen from the best model without any, and does not depend on their number. -/
theorem C142_factors_help (C : ℝ) (hC : 0 < C) (evs : List (Event nu ni)) (c₀ : Coef nu ni 0) (h₀ : Optimal (PMF.loss C evs) c₀)
    (hk : 0 < k) (c : Coef nu ni k) (hc : Optimal (PMF.loss C evs) c) (ys : List ℝ)
    (hy : rawPredict id (store c₀) (evs.map evRow) = .ok ys) :
    PMF.loss C evs c < PMF.loss C evs c₀ ↔ ¬ NormAtMost C evs ys := by
  have hiff : (∀ ys, rawPredict id (store c₀) (evs.map evRow) = .ok ys → NormAtMost C evs ys) ↔ NormAtMost C evs ys := by
    rw [hy]
    exact ⟨fun h => h _ rfl, fun h ys' e => by cases e; exact h⟩
  have hcert := C142_certificate C hC evs c₀
  rw [hiff] at hcert
  have hg := ((C87_optimum C hC evs c₀).2 h₀).1
  constructor
  · intro hlt hn
    exact absurd (hcert.1.2 ⟨hg, hn⟩ k c) (not_le.2 hlt)
  · intro hn
    have : ¬ ∀ c' : Coef nu ni (0 + 1), PMF.loss C evs c₀ ≤ PMF.loss C evs c' := fun h => hn (hcert.1.1 (hcert.2.2 h)).2
    push Not at this
    obtain ⟨c', hlt⟩ := this
    obtain ⟨n, rfl⟩ := Nat.exists_eq_add_of_le (show 0 + 1 ≤ k from hk)
    obtain ⟨⟨c'', h'', -⟩, -⟩ := C89_more_factors n C c'
    exact ((hc c'').trans_eq (h'' evs)).trans_lt hlt

/-- Without latent factors a vanishing gradient is enough. -/
theorem stationary_biases (C : ℝ) (hC : 0 ≤ C) (evs : List (Event nu ni)) (c : Coef nu ni 0) (h : PMF.gradLoss C evs c = 0) :
    Optimal (PMF.loss C evs) c := by
  intro c'
  rw [pmf_total, pmf_total, total_sub (stationary_of_grad h) (unpack c')]
  have h1 : 0 ≤ (evs.map (fun e => (est (unpack c') e.user e.item - est (unpack c) e.user e.item) ^ 2)).sum := by
    rw [list_sum_fin]; positivity
  have h2 : 0 ≤ 0.5 * C * ∑ u, ((unpack c').bu u - (unpack c).bu u) ^ 2 := by positivity
  have h3 : 0 ≤ 0.5 * C * ∑ i, ((unpack c').bi i - (unpack c).bi i) ^ 2 := by positivity
  simp only [Finset.univ_eq_empty, Finset.sum_empty]
  linarith

/-! ### Strong regularization -/

theorem sum_times (evs : List (Event nu ni)) (g : Fin nu → Fin ni → ℝ) :
    (evs.map (fun e => g e.user e.item)).sum = ∑ u, ∑ i, (times evs u i : ℝ) * g u i := by
  induction evs with
  | nil => simp [times]
  | cons e l ih =>
    have h : ∀ u i, (times (e :: l) u i : ℝ) = (if e.user = u ∧ e.item = i then 1 else 0) + times l u i := by
      intro u i
      unfold times
      rw [List.filter_cons]
      by_cases hc : e.user = u ∧ e.item = i
      · simp [hc]; ring
      · simp [hc]
    simp only [h, add_mul, Finset.sum_add_distrib, List.map_cons, List.sum_cons, ih]
    congr 1
    rw [Finset.sum_eq_single e.user, Finset.sum_eq_single e.item]
    · simp
    · intro i _ hi; simp [Ne.symm hi]
    · simp
    · intro u _ hu
      apply Finset.sum_eq_zero
      intro i _
      simp [Ne.symm hu]
    · simp

/-- The form of the residuals is small if the residuals are. -/
theorem form_small {evs : List (Event nu ni)} {m : Nat} (hm : ∀ u i, times evs u i ≤ m) (r : Event nu ni → ℝ) (x : Fin nu → ℝ) (y : Fin ni → ℝ) :
    (evs.map (fun e => r e * (x e.user * y e.item))).sum ^ 2 ≤ m * (evs.map (fun e => r e ^ 2)).sum * ((∑ u, x u ^ 2) * ∑ i, y i ^ 2) := by
  have h1 : (evs.map (fun e => r e * (x e.user * y e.item))).sum ^ 2 ≤
      (evs.map (fun e => r e ^ 2)).sum * (evs.map (fun e => (x e.user * y e.item) ^ 2)).sum := by
    simp only [list_sum_fin]
    exact Finset.sum_mul_sq_le_sq_mul_sq _ _ _
  have h2 : (evs.map (fun e => (x e.user * y e.item) ^ 2)).sum ≤ m * ((∑ u, x u ^ 2) * ∑ i, y i ^ 2) := by
    rw [sum_times evs (fun u i => (x u * y i) ^ 2), Finset.sum_mul_sum, Finset.mul_sum]
    refine Finset.sum_le_sum (fun u _ => ?_)
    rw [Finset.mul_sum]
    refine Finset.sum_le_sum (fun i _ => ?_)
    rw [mul_pow]
    exact mul_le_mul_of_nonneg_right (by exact_mod_cast hm u i) (by positivity)
  have h3 : 0 ≤ (evs.map (fun e => r e ^ 2)).sum := by rw [list_sum_fin]; positivity
  calc _ ≤ _ := h1
    _ ≤ (evs.map (fun e => r e ^ 2)).sum * (m * ((∑ u, x u ^ 2) * ∑ i, y i ^ 2)) := mul_le_mul_of_nonneg_left h2 h3
    _ = _ := by ring

/-- C142: if the regularization parameter is larger than the root of the sum of squared deviations of the scores from some number (times the
number of times a pair of a user and an item occurs at most), the best coefficient vectors have no latent factors at all, whatever number of
them was asked for: `PMF` is the model of biases. -/
theorem C142_biases_only (C : ℝ) (hC : 0 < C) (evs : List (Event nu ni)) (m : Nat) (hm : ∀ u i, times evs u i ≤ m) (a : ℝ)
    (hlarge : m * (evs.map (fun e => (e.score - a) ^ 2)).sum < C ^ 2) (c : Coef nu ni k) (hc : Optimal (PMF.loss C evs) c) :
    NoFactors c ∧ BestOfAll C evs c := by
  obtain ⟨c₀, h₀⟩ := pmf_exists (nu := nu) (ni := ni) (k := 0) C hC evs
  have hopt := (C87_optimum C hC evs c₀).2 h₀
  have hg := hopt.1
  have hdev := hopt.2.2 a
  have hres : (evs.map (fun e => res (unpack c₀) e ^ 2)).sum ≤ (evs.map (fun e => (e.score - a) ^ 2)).sum := by
    have : PMF.loss C evs c₀ = 0.5 * (evs.map (fun e => res (unpack c₀) e ^ 2)).sum + 0.5 * C * reg (unpack c₀) := rfl
    have h2 : 0 ≤ 0.5 * C * reg (unpack c₀) := by unfold reg; positivity
    linarith
  have hstrict : ∀ (x : Fin nu → ℝ) (y : Fin ni → ℝ), 0 < ∑ u, x u ^ 2 + ∑ i, y i ^ 2 →
      (evs.map (fun e => res (unpack c₀) e * (x e.user * y e.item))).sum < C * ((∑ u, x u ^ 2 + ∑ i, y i ^ 2) / 2) := by
    intro x y hpos
    have h1 := form_small hm (res (unpack c₀)) x y
    have hX : 0 ≤ ∑ u, x u ^ 2 := by positivity
    have hY : 0 ≤ ∑ i, y i ^ 2 := by positivity
    set X := ∑ u, x u ^ 2
    set Y := ∑ i, y i ^ 2
    have h2 : (m : ℝ) * (evs.map (fun e => res (unpack c₀) e ^ 2)).sum < C ^ 2 :=
      lt_of_le_of_lt (mul_le_mul_of_nonneg_left hres (by positivity)) hlarge
    have hr0 : 0 ≤ (m : ℝ) * (evs.map (fun e => res (unpack c₀) e ^ 2)).sum := by rw [list_sum_fin]; positivity
    have h3 : X * Y ≤ ((X + Y) / 2) ^ 2 := by nlinarith [sq_nonneg (X - Y)]
    have h4 : (evs.map (fun e => res (unpack c₀) e * (x e.user * y e.item))).sum ^ 2 < (C * ((X + Y) / 2)) ^ 2 := by
      calc _ ≤ _ := h1
        _ ≤ (m : ℝ) * (evs.map (fun e => res (unpack c₀) e ^ 2)).sum * ((X + Y) / 2) ^ 2 := mul_le_mul_of_nonneg_left h3 hr0
        _ < C ^ 2 * ((X + Y) / 2) ^ 2 := mul_lt_mul_of_pos_right h2 (by positivity)
        _ = _ := by ring
    exact lt_of_pow_lt_pow_left₀ 2 (by positivity) h4
  have hb : Below C evs (unpack c₀) := by
    intro x y
    by_cases h : 0 < ∑ u, x u ^ 2 + ∑ i, y i ^ 2
    · exact (hstrict x y h).le
    · have h0 : ∑ u, x u ^ 2 + ∑ i, y i ^ 2 = 0 := le_antisymm (not_lt.1 h) (by positivity)
      have hx : ∑ u, x u ^ 2 = 0 := by
        have : 0 ≤ ∑ i, y i ^ 2 := by positivity
        have : 0 ≤ ∑ u, x u ^ 2 := by positivity
        linarith
      rw [Finset.sum_eq_zero_iff_of_nonneg (fun u _ => sq_nonneg _)] at hx
      have hx' : ∀ u, x u = 0 := fun u => pow_eq_zero_iff two_ne_zero |>.1 (hx u (Finset.mem_univ u))
      rw [h0]
      simp [hx']
  have hle : PMF.loss C evs c ≤ PMF.loss C evs c₀ := by
    have hp : PMF.loss C evs (pack (⟨(unpack c₀).mu, (unpack c₀).bu, (unpack c₀).bi, fun _ _ => 0, fun _ _ => 0⟩ : Views nu ni k)) = PMF.loss C evs c₀ := by
      rw [pmf_total, pmf_total, unpack_pack]
      unfold total est reg
      simp
    rw [← hp]; exact hc _
  have hn := nonneg_terms hC.le hb (unpack c)
  have hs := total_sub (stationary_of_grad hg) (unpack c)
  rw [← pmf_total, ← pmf_total] at hs
  have hf := Finset.sum_nonneg (fun f (_ : f ∈ Finset.univ) => hn.1 f)
  have hz : ∑ f, (C * ((∑ u, (unpack c).p u f ^ 2 + ∑ i, (unpack c).q i f ^ 2) / 2) -
      (evs.map (fun e => res (unpack c₀) e * ((unpack c).p e.user f * (unpack c).q e.item f))).sum) = 0 := by
    linarith [hn.2.1, hn.2.2.1, hn.2.2.2]
  rw [Finset.sum_eq_zero_iff_of_nonneg (fun f _ => hn.1 f)] at hz
  have hzero : ∀ f, ∑ u, (unpack c).p u f ^ 2 + ∑ i, (unpack c).q i f ^ 2 = 0 := by
    intro f
    by_contra hne
    have hpos : 0 < ∑ u, (unpack c).p u f ^ 2 + ∑ i, (unpack c).q i f ^ 2 := lt_of_le_of_ne (by positivity) (Ne.symm hne)
    have h1 := hstrict (fun u => (unpack c).p u f) (fun i => (unpack c).q i f) hpos
    have h2 := hz f (Finset.mem_univ f)
    linarith
  refine ⟨⟨fun u f => ?_, fun i f => ?_⟩, fun k' c' => hle.trans ?_⟩
  · have h1 : 0 ≤ ∑ i, (unpack c).q i f ^ 2 := by positivity
    have h2 : 0 ≤ ∑ u, (unpack c).p u f ^ 2 := by positivity
    have h3 : ∑ u, (unpack c).p u f ^ 2 = 0 := by linarith [hzero f]
    rw [Finset.sum_eq_zero_iff_of_nonneg (fun u _ => sq_nonneg _)] at h3
    exact pow_eq_zero_iff two_ne_zero |>.1 (h3 u (Finset.mem_univ u))
  · have h1 : 0 ≤ ∑ i, (unpack c).q i f ^ 2 := by positivity
    have h2 : 0 ≤ ∑ u, (unpack c).p u f ^ 2 := by positivity
    have h3 : ∑ i, (unpack c).q i f ^ 2 = 0 := by linarith [hzero f]
    rw [Finset.sum_eq_zero_iff_of_nonneg (fun u _ => sq_nonneg _)] at h3
    exact pow_eq_zero_iff two_ne_zero |>.1 (h3 i (Finset.mem_univ i))
  · have := (C142_certificate C hC evs c₀).1.2 ⟨hg, (normAtMost_iff C evs c₀).2 hb⟩
    exact this k' c'

/-! ### Examples -/

/-- Two users who like opposite items. -/
def exOpposite : List (Event 2 2) := [⟨0, 0, 1⟩, ⟨0, 1, -1⟩, ⟨1, 0, -1⟩, ⟨1, 1, 1⟩]

theorem exOpposite_grad (C : ℝ) : PMF.gradLoss C exOpposite (0 : Coef 2 2 k) = 0 := by
  rw [pmf_grad, ← pack_unpack (0 : Coef 2 2 k), unpack_pack]
  congr 1
  have h0 : ∀ s : Slot 2 2 k, (unpack (0 : Coef 2 2 k)).get s = 0 := fun s => by rw [get_unpack]; rfl
  have hbu : ∀ u, (unpack (0 : Coef 2 2 k)).bu u = 0 := fun u => h0 (.bu u)
  have hbi : ∀ u, (unpack (0 : Coef 2 2 k)).bi u = 0 := fun u => h0 (.bi u)
  have hp : ∀ u f, (unpack (0 : Coef 2 2 k)).p u f = 0 := fun u f => h0 (.p u f)
  have hq : ∀ u f, (unpack (0 : Coef 2 2 k)).q u f = 0 := fun u f => h0 (.q u f)
  have hmu : (unpack (0 : Coef 2 2 k)).mu = 0 := h0 .mu
  ext j <;> simp [grad, addReg, gradTerms, gradP, exOpposite, est, bincount_cons, bincount_nil, hbu, hbi, hp, hq, hmu]
  all_goals fin_cases j <;> simp

theorem exOpposite_est (u i : Fin 2) : est (unpack (0 : Coef 2 2 k)) u i = 0 := by
  have h0 : ∀ s : Slot 2 2 k, (unpack (0 : Coef 2 2 k)).get s = 0 := fun s => by rw [get_unpack]; rfl
  have hmu : (unpack (0 : Coef 2 2 k)).mu = 0 := h0 .mu
  have hbu : (unpack (0 : Coef 2 2 k)).bu u = 0 := h0 (.bu u)
  have hbi : (unpack (0 : Coef 2 2 k)).bi i = 0 := h0 (.bi i)
  have hp : ∀ f, (unpack (0 : Coef 2 2 k)).p u f = 0 := fun f => h0 (.p u f)
  simp [est, hmu, hbu, hbi, hp]

theorem exOpposite_below (C : ℝ) : Below C exOpposite (unpack (0 : Coef 2 2 k)) ↔ 2 ≤ C := by
  have h : ∀ (x y : Fin 2 → ℝ), (exOpposite.map (fun e => res (unpack (0 : Coef 2 2 k)) e * (x e.user * y e.item))).sum =
      (x 0 - x 1) * (y 0 - y 1) := by
    intro x y
    simp [exOpposite, res, exOpposite_est]
    ring
  unfold Below
  simp only [h, Fin.sum_univ_two]
  constructor
  · intro hb
    have := hb ![1, -1] ![1, -1]
    simp at this
    linarith
  · intro hC x y
    have : (x 0 - x 1) * (y 0 - y 1) ≤ x 0 ^ 2 + x 1 ^ 2 + (y 0 ^ 2 + y 1 ^ 2) := by
      nlinarith [sq_nonneg (x 0 - x 1 - (y 0 - y 1)), sq_nonneg (x 0 + x 1), sq_nonneg (y 0 + y 1)]
    have h2 : 0 ≤ x 0 ^ 2 + x 1 ^ 2 + (y 0 ^ 2 + y 1 ^ 2) := by positivity
    nlinarith

/-- `C142_certificate` on `exOpposite`, whose residuals have the norm 2. -/
example (C : ℝ) (hC : 0 < C) : BestOfAll C exOpposite (0 : Coef 2 2 k) ↔ 2 ≤ C := by
  rw [(C142_certificate C hC exOpposite 0).1, normAtMost_iff, exOpposite_below]
  exact ⟨fun h => h.2, fun h => ⟨exOpposite_grad C, h⟩⟩

/-- The hypotheses of `C142_agree` with different numbers of factors. -/
example : ∃ (c : Coef 2 2 2) (c' : Coef 2 2 5), BestOfAll 1 exOpposite c ∧ BestOfAll 1 exOpposite c' := by
  obtain ⟨c, h⟩ := pmf_exists (nu := 2) (ni := 2) (k := 2) 1 one_pos exOpposite
  obtain ⟨c', h'⟩ := pmf_exists (nu := 2) (ni := 2) (k := 5) 1 one_pos exOpposite
  exact ⟨c, c', (C142_enough_factors (by simp)).2 1 _ c zero_le_one h, (C142_enough_factors (by simp)).2 1 _ c' zero_le_one h'⟩

/-- The hypotheses of `C142_factors_help`, and its right side for `C = 1`: one factor lowers the best loss. -/
example : Optimal (PMF.loss 1 exOpposite) (0 : Coef 2 2 0) ∧ (∃ c : Coef 2 2 1, Optimal (PMF.loss 1 exOpposite) c) ∧
    ∃ ys, rawPredict id (store (0 : Coef 2 2 0)) (exOpposite.map evRow) = .ok ys ∧ ¬ NormAtMost 1 exOpposite ys := by
  refine ⟨fun c => ?_, pmf_exists 1 one_pos _, ?_⟩
  · exact stationary_biases 1 zero_le_one exOpposite 0 (exOpposite_grad 1) c
  · refine ⟨_, rawPredict_events id 0 exOpposite, fun h => ?_⟩
    have h2 : Below 1 exOpposite (unpack (0 : Coef 2 2 0)) := (normAtMost_iff 1 exOpposite 0).1 (fun ys hy => by
      rw [rawPredict_events] at hy
      cases hy
      exact h)
    rw [exOpposite_below] at h2
    norm_num at h2

/-- The hypotheses of `C142_biases_only`; the bound is sharp, see the example for `C142_certificate`. -/
example (C : ℝ) (hC : 2 < C) : (∀ u i, times exOpposite u i ≤ 1) ∧ ((1 : Nat) : ℝ) * (exOpposite.map (fun e => (e.score - 0) ^ 2)).sum < C ^ 2 ∧
    ∃ c : Coef 2 2 3, Optimal (PMF.loss C exOpposite) c := by
  refine ⟨?_, ?_, pmf_exists C (by linarith) _⟩
  · intro u i
    fin_cases u <;> fin_cases i <;> simp [times, exOpposite]
  · simp [exOpposite]; nlinarith

end MF
end Kam
