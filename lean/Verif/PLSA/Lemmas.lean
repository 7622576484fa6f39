/-
Lemmas about the EM steps of the topic model.
-/
import Verif.PLSA.Model
import Mathlib.Tactic.Positivity
import Mathlib.Tactic.Linarith
import Mathlib.Tactic.FieldSimp

namespace Kam
namespace PLSA
open scoped BigOperators
variable {n nu ni nl k : Nat}

/-- Gibbs' inequality for weights that need not sum to one. -/
theorem gibbs {m : Nat} (w p : Fin m → ℝ) (hw : ∀ i, 0 ≤ w i) (hW : 0 < ∑ i, w i)
    (hp : ∀ i, 0 ≤ p i) (hp1 : ∑ i, p i ≤ 1) (hs : ∀ i, 0 < w i → 0 < p i) :
    ∑ i, w i * Real.log (p i) ≤ ∑ i, w i * Real.log (w i / ∑ j, w j) := by
  set W := ∑ i, w i with hWdef
  have hterm : ∀ i, w i * Real.log (p i) - w i * Real.log (w i / W) ≤ W * p i - w i := by
    intro i
    rcases (hw i).eq_or_lt with h | h
    · rw [← h]
      have := mul_nonneg hW.le (hp i)
      simpa using this
    · have hpi := hs i h
      have h1 : Real.log (p i) - Real.log (w i / W) = Real.log (p i / (w i / W)) := by
        rw [Real.log_div hpi.ne' (by positivity)]
      have h2 := Real.log_le_sub_one_of_pos (x := p i / (w i / W)) (by positivity)
      have h3 : w i * (p i / (w i / W) - 1) = W * p i - w i := by
        field_simp
      calc w i * Real.log (p i) - w i * Real.log (w i / W)
          = w i * (Real.log (p i) - Real.log (w i / W)) := by ring
        _ ≤ w i * (p i / (w i / W) - 1) := by
            rw [h1]; exact mul_le_mul_of_nonneg_left h2 h.le
        _ = _ := h3
  have hsum := Finset.sum_le_sum (fun i (_ : i ∈ Finset.univ) => hterm i)
  rw [Finset.sum_sub_distrib, Finset.sum_sub_distrib, ← Finset.mul_sum] at hsum
  have : W * ∑ i, p i ≤ W := by
    calc W * ∑ i, p i ≤ W * 1 := mul_le_mul_of_nonneg_left hp1 hW.le
      _ = W := mul_one W
  have h2 : ∑ i, w i = W := rfl
  linarith

/-- The log of a sum of positive numbers, relative to another one: the posterior weights give a
lower bound for the change. -/
theorem log_sum_ge (j j' : Fin k → ℝ) (hk : 0 < k) (hj : ∀ z, 0 < j z) (hj' : ∀ z, 0 < j' z) :
    ∑ z, (j z / ∑ z', j z') * (Real.log (j' z) - Real.log (j z)) ≤
      Real.log (∑ z, j' z) - Real.log (∑ z, j z) := by
  have hne : (Finset.univ : Finset (Fin k)).Nonempty := ⟨⟨0, hk⟩, Finset.mem_univ _⟩
  have hJ : 0 < ∑ z, j z := Finset.sum_pos (fun z _ => hj z) hne
  have hJ' : 0 < ∑ z, j' z := Finset.sum_pos (fun z _ => hj' z) hne
  set J := ∑ z, j z with hJd
  set J' := ∑ z, j' z with hJd'
  have hg := gibbs j (fun z => j' z / J') (fun z => (hj z).le) hJ
    (fun z => div_nonneg (hj' z).le hJ'.le)
    (by rw [← Finset.sum_div, ← hJd', div_self hJ'.ne']) (fun z _ => div_pos (hj' z) hJ')
  rw [← hJd] at hg
  have e1 : ∑ z, j z * Real.log (j' z / J') = ∑ z, j z * Real.log (j' z) - J * Real.log J' := by
    rw [hJd, Finset.sum_mul, ← Finset.sum_sub_distrib]
    apply Finset.sum_congr rfl
    intro z _
    rw [Real.log_div (hj' z).ne' hJ'.ne']
    ring
  have e2 : ∑ z, j z * Real.log (j z / J) = ∑ z, j z * Real.log (j z) - J * Real.log J := by
    have : ∀ z, j z * Real.log (j z / J) = j z * Real.log (j z) - j z * Real.log J := by
      intro z; rw [Real.log_div (hj z).ne' hJ.ne']; ring
    rw [Finset.sum_congr rfl (fun z _ => this z), Finset.sum_sub_distrib, ← Finset.sum_mul]
  have e3 : ∑ z, (j z / J) * (Real.log (j' z) - Real.log (j z)) =
      (∑ z, j z * Real.log (j' z) - ∑ z, j z * Real.log (j z)) / J := by
    rw [← Finset.sum_sub_distrib, Finset.sum_div]
    apply Finset.sum_congr rfl
    intro z _
    field_simp
  rw [e3, div_le_iff₀ hJ]
  rw [e1, e2] at hg
  linarith

theorem sum_fiber {m : Nat} (id : Fin n → Fin m) (q : Fin n → ℝ) (f : Fin m → ℝ) :
    ∑ j, (∑ e, if id e = j then q e else 0) * f j = ∑ e, q e * f (id e) := by
  simp only [Finset.sum_mul, ite_mul, zero_mul]
  rw [Finset.sum_comm]
  apply Finset.sum_congr rfl
  intro e _
  simp

theorem sum_weights_mul {m : Nat} (a : ℝ) (id : Fin n → Fin m) (q : Resp n k) (z : Fin k)
    (f : Fin m → ℝ) :
    ∑ j, weights a id q j z * f j = ∑ e, q e z * f (id e) + a * ∑ j, f j := by
  unfold weights
  simp only [add_mul, Finset.sum_add_distrib]
  rw [sum_fiber id (fun e => q e z) f, Finset.mul_sum]

theorem sum_weights {m : Nat} (a : ℝ) (id : Fin n → Fin m) (q : Resp n k) (z : Fin k) :
    ∑ j, weights a id q j z = ∑ e, q e z + a * m := by
  have := sum_weights_mul a id q z (fun _ => 1)
  simpa using this

theorem weights_nonneg {m : Nat} {a : ℝ} (ha : 0 ≤ a) (id : Fin n → Fin m) {q : Resp n k}
    (hq : ∀ e z, 0 ≤ q e z) (j : Fin m) (z : Fin k) : 0 ≤ weights a id q j z := by
  unfold weights
  have : 0 ≤ ∑ e, (if id e = j then q e z else 0) :=
    Finset.sum_nonneg (fun e _ => by split; exacts [hq e z, le_refl 0])
  linarith

theorem weights_pos_of_alpha {m : Nat} {a : ℝ} (ha : 0 < a) (id : Fin n → Fin m) {q : Resp n k}
    (hq : ∀ e z, 0 ≤ q e z) (j : Fin m) (z : Fin k) : 0 < weights a id q j z := by
  unfold weights
  have : 0 ≤ ∑ e, (if id e = j then q e z else 0) :=
    Finset.sum_nonneg (fun e _ => by split; exacts [hq e z, le_refl 0])
  linarith

theorem weights_pos_of_event {m : Nat} {a : ℝ} (ha : 0 ≤ a) (id : Fin n → Fin m) {q : Resp n k}
    (hq : ∀ e z, 0 < q e z) (e : Fin n) (z : Fin k) : 0 < weights a id q (id e) z := by
  unfold weights
  have : 0 < ∑ e', (if id e' = id e then q e' z else 0) := by
    apply Finset.sum_pos'
    · intro e' _; split; exacts [(hq e' z).le, le_refl 0]
    · exact ⟨e, Finset.mem_univ _, by simpa using hq e z⟩
  linarith

theorem normalize_nonneg {m : Nat} {w : Fin m → Fin k → ℝ} (hw : ∀ j z, 0 ≤ w j z) (j : Fin m)
    (z : Fin k) : 0 ≤ normalize w j z :=
  div_nonneg (hw j z) (Finset.sum_nonneg (fun j' _ => hw j' z))

theorem normalize_pos {m : Nat} {w : Fin m → Fin k → ℝ} (hw : ∀ j z, 0 ≤ w j z) {j : Fin m}
    {z : Fin k} (h : 0 < w j z) : 0 < normalize w j z :=
  div_pos h (Finset.sum_pos' (fun j' _ => hw j' z) ⟨j, Finset.mem_univ _, h⟩)

theorem normalize_sum {m : Nat} {w : Fin m → Fin k → ℝ} {z : Fin k} (h : 0 < ∑ j, w j z) :
    ∑ j, normalize w j z = 1 := by
  unfold normalize
  rw [← Finset.sum_div, div_self h.ne']

/-- Log-likelihood of the training events plus `a` times the sum of the logarithms of all
parameters. -/
noncomputable def objective (a : ℝ) (evs : Fin n → Ev nu ni nl) (θ : Theta nu ni nl k) : ℝ :=
  ∑ e, Real.log (∑ z, joint θ (evs e) z) +
    a * (∑ z, Real.log (θ.pZ z) + ∑ z, ∑ x, Real.log (θ.pX x z) +
      ∑ z, ∑ y, Real.log (θ.pY y z) + ∑ z, ∑ r, Real.log (θ.pR r z))

/-- The parameters are distributions, positive wherever an event needs them, and positive
everywhere when `a` is positive. -/
structure Good (a : ℝ) (evs : Fin n → Ev nu ni nl) (θ : Theta nu ni nl k) : Prop where
  nnZ : ∀ z, 0 ≤ θ.pZ z
  nnX : ∀ x z, 0 ≤ θ.pX x z
  nnY : ∀ y z, 0 ≤ θ.pY y z
  nnR : ∀ r z, 0 ≤ θ.pR r z
  sumZ : ∑ z, θ.pZ z = 1
  sumX : ∀ z, ∑ x, θ.pX x z = 1
  sumY : ∀ z, ∑ y, θ.pY y z = 1
  sumR : ∀ z, ∑ r, θ.pR r z = 1
  posZ : ∀ z, 0 < θ.pZ z
  posX : ∀ e z, 0 < θ.pX (evs e).user z
  posY : ∀ e z, 0 < θ.pY (evs e).item z
  posR : ∀ e z, 0 < θ.pR (evs e).level z
  allX : 0 < a → ∀ x z, 0 < θ.pX x z
  allY : 0 < a → ∀ y z, 0 < θ.pY y z
  allR : 0 < a → ∀ r z, 0 < θ.pR r z

theorem Good.joint_pos {a : ℝ} {evs : Fin n → Ev nu ni nl} {θ : Theta nu ni nl k}
    (h : Good a evs θ) (e : Fin n) (z : Fin k) : 0 < joint θ (evs e) z :=
  mul_pos (mul_pos (mul_pos (h.posZ z) (h.posR e z)) (h.posX e z)) (h.posY e z)

theorem mStep_good {a : ℝ} (ha : 0 ≤ a) (hk : 0 < k) (hn : 0 < n) (evs : Fin n → Ev nu ni nl)
    {q : Resp n k} (hq : ∀ e z, 0 < q e z) : Good a evs (mStep a evs q) := by
  have hq0 : ∀ e z, 0 ≤ q e z := fun e z => (hq e z).le
  have hne : (Finset.univ : Finset (Fin n)).Nonempty := ⟨⟨0, hn⟩, Finset.mem_univ _⟩
  have hnek : (Finset.univ : Finset (Fin k)).Nonempty := ⟨⟨0, hk⟩, Finset.mem_univ _⟩
  have hQ : ∀ z, 0 < ∑ e, q e z := fun z => Finset.sum_pos (fun e _ => hq e z) hne
  have hZ : ∀ z, 0 < ∑ e, q e z + a := fun z => by have := hQ z; linarith
  have hZZ : 0 < ∑ z, (∑ e, q e z + a) := Finset.sum_pos (fun z _ => hZ z) hnek
  have hS : ∀ {m : Nat} (id : Fin n → Fin m) z, 0 < ∑ j, weights a id q j z := by
    intro m id z
    rw [sum_weights]
    have : 0 ≤ a * m := by positivity
    have := hQ z
    linarith
  have wn : ∀ {m : Nat} (id : Fin n → Fin m) j z, 0 ≤ weights a id q j z :=
    fun id j z => weights_nonneg ha id hq0 j z
  exact
    { nnZ := fun z => (div_pos (hZ z) hZZ).le
      nnX := fun x z => normalize_nonneg (wn _) x z
      nnY := fun x z => normalize_nonneg (wn _) x z
      nnR := fun x z => normalize_nonneg (wn _) x z
      sumZ := by
        show ∑ z, (∑ e, q e z + a) / ∑ z', (∑ e, q e z' + a) = 1
        rw [← Finset.sum_div, div_self hZZ.ne']
      sumX := fun z => normalize_sum (hS _ z)
      sumY := fun z => normalize_sum (hS _ z)
      sumR := fun z => normalize_sum (hS _ z)
      posZ := fun z => div_pos (hZ z) hZZ
      posX := fun e z => normalize_pos (wn _) (weights_pos_of_event ha (fun e => (evs e).user) hq e z)
      posY := fun e z => normalize_pos (wn _) (weights_pos_of_event ha (fun e => (evs e).item) hq e z)
      posR := fun e z => normalize_pos (wn _) (weights_pos_of_event ha (fun e => (evs e).level) hq e z)
      allX := fun h x z => normalize_pos (wn _) (weights_pos_of_alpha h _ hq0 x z)
      allY := fun h x z => normalize_pos (wn _) (weights_pos_of_alpha h _ hq0 x z)
      allR := fun h x z => normalize_pos (wn _) (weights_pos_of_alpha h _ hq0 x z) }

theorem eStep_pos {a : ℝ} {evs : Fin n → Ev nu ni nl} {θ : Theta nu ni nl k} (h : Good a evs θ)
    (e : Fin n) (z : Fin k) : 0 < eStep θ evs e z :=
  div_pos (h.joint_pos e z)
    (Finset.sum_pos' (fun z' _ => (h.joint_pos e z').le) ⟨z, Finset.mem_univ _, h.joint_pos e z⟩)

theorem eStep_sum {a : ℝ} {evs : Fin n → Ev nu ni nl} {θ : Theta nu ni nl k} (h : Good a evs θ)
    (hk : 0 < k) (e : Fin n) : ∑ z, eStep θ evs e z = 1 := by
  unfold eStep
  rw [← Finset.sum_div, div_self]
  exact (Finset.sum_pos (fun z _ => h.joint_pos e z) ⟨⟨0, hk⟩, Finset.mem_univ _⟩).ne'

theorem emStep_good {a : ℝ} (ha : 0 ≤ a) (hk : 0 < k) (hn : 0 < n) {evs : Fin n → Ev nu ni nl}
    {θ : Theta nu ni nl k} (h : Good a evs θ) : Good a evs (emStep a evs θ) :=
  mStep_good ha hk hn evs (eStep_pos h)

/-- The expected complete log-likelihood with the prior, part by part. -/
theorem expected_eq {a : ℝ} {evs : Fin n → Ev nu ni nl} (q : Resp n k) {θ : Theta nu ni nl k}
    (h : Good a evs θ) :
    ∑ e, ∑ z, q e z * Real.log (joint θ (evs e) z) +
      a * (∑ z, Real.log (θ.pZ z) + ∑ z, ∑ x, Real.log (θ.pX x z) +
        ∑ z, ∑ y, Real.log (θ.pY y z) + ∑ z, ∑ r, Real.log (θ.pR r z)) =
    ∑ z, (∑ e, q e z + a) * Real.log (θ.pZ z) +
      ∑ z, ∑ x, weights a (fun e => (evs e).user) q x z * Real.log (θ.pX x z) +
      ∑ z, ∑ y, weights a (fun e => (evs e).item) q y z * Real.log (θ.pY y z) +
      ∑ z, ∑ r, weights a (fun e => (evs e).level) q r z * Real.log (θ.pR r z) := by
  have hlog : ∀ e z, Real.log (joint θ (evs e) z) = Real.log (θ.pZ z) +
      Real.log (θ.pR (evs e).level z) + Real.log (θ.pX (evs e).user z) +
      Real.log (θ.pY (evs e).item z) := by
    intro e z
    have h1 := h.posZ z
    have h2 := h.posR e z
    have h3 := h.posX e z
    have h4 := h.posY e z
    unfold joint
    rw [Real.log_mul (by positivity) (by positivity), Real.log_mul (by positivity) (by positivity),
      Real.log_mul (by positivity) (by positivity)]
  simp only [hlog, mul_add, Finset.sum_add_distrib]
  have hw : ∀ {m : Nat} (id : Fin n → Fin m) (p : Fin m → Fin k → ℝ),
      ∑ z, ∑ j, weights a id q j z * Real.log (p j z) =
        ∑ e, ∑ z, q e z * Real.log (p (id e) z) + a * ∑ z, ∑ j, Real.log (p j z) := by
    intro m id p
    rw [Finset.sum_congr rfl (fun z _ => sum_weights_mul a id q z (fun j => Real.log (p j z))),
      Finset.sum_add_distrib, Finset.sum_comm, Finset.mul_sum]
  rw [hw, hw, hw]
  have hz : ∑ z, (∑ e, q e z + a) * Real.log (θ.pZ z) =
      ∑ e, ∑ z, q e z * Real.log (θ.pZ z) + a * ∑ z, Real.log (θ.pZ z) := by
    simp only [add_mul, Finset.sum_add_distrib, Finset.sum_mul]
    rw [Finset.sum_comm, Finset.mul_sum]
  rw [hz]
  ring

/-- The M-step maximizes the expected complete log-likelihood with the prior. -/
theorem mStep_max {a : ℝ} (ha : 0 ≤ a) (hk : 0 < k) (hn : 0 < n) {evs : Fin n → Ev nu ni nl}
    {θ : Theta nu ni nl k} (h : Good a evs θ) {q : Resp n k} (hq : ∀ e z, 0 < q e z) :
    ∑ e, ∑ z, q e z * Real.log (joint θ (evs e) z) +
      a * (∑ z, Real.log (θ.pZ z) + ∑ z, ∑ x, Real.log (θ.pX x z) +
        ∑ z, ∑ y, Real.log (θ.pY y z) + ∑ z, ∑ r, Real.log (θ.pR r z)) ≤
    ∑ e, ∑ z, q e z * Real.log (joint (mStep a evs q) (evs e) z) +
      a * (∑ z, Real.log ((mStep a evs q).pZ z) + ∑ z, ∑ x, Real.log ((mStep a evs q).pX x z) +
        ∑ z, ∑ y, Real.log ((mStep a evs q).pY y z) +
        ∑ z, ∑ r, Real.log ((mStep a evs q).pR r z)) := by
  have hg := mStep_good ha hk hn evs hq
  rw [expected_eq q h, expected_eq q hg]
  have hq0 : ∀ e z, 0 ≤ q e z := fun e z => (hq e z).le
  have hne : (Finset.univ : Finset (Fin n)).Nonempty := ⟨⟨0, hn⟩, Finset.mem_univ _⟩
  have hnek : (Finset.univ : Finset (Fin k)).Nonempty := ⟨⟨0, hk⟩, Finset.mem_univ _⟩
  have hQ : ∀ z, 0 < ∑ e, q e z := fun z => Finset.sum_pos (fun e _ => hq e z) hne
  have hZ : ∀ z, 0 < ∑ e, q e z + a := fun z => by have := hQ z; linarith
  have hZZ : 0 < ∑ z, (∑ e, q e z + a) := Finset.sum_pos (fun z _ => hZ z) hnek
  have part : ∀ {m : Nat} (id : Fin n → Fin m) (p : Fin m → Fin k → ℝ), (∀ j z, 0 ≤ p j z) →
      (∀ z, ∑ j, p j z = 1) → (∀ e z, 0 < p (id e) z) → (0 < a → ∀ j z, 0 < p j z) →
      ∑ z, ∑ j, weights a id q j z * Real.log (p j z) ≤
        ∑ z, ∑ j, weights a id q j z * Real.log (normalize (weights a id q) j z) := by
    intro m id p h1 h2 h3 h4
    apply Finset.sum_le_sum
    intro z _
    apply gibbs (fun j => weights a id q j z) (fun j => p j z)
    · intro j; exact weights_nonneg ha id hq0 j z
    · rw [sum_weights]
      have : 0 ≤ a * m := by positivity
      have := hQ z
      linarith
    · intro j; exact h1 j z
    · exact (h2 z).le
    · intro j hj
      rcases ha.eq_or_lt with ha0 | ha0
      · -- a = 0: some event falls into bin j
        unfold weights at hj
        by_contra hc
        have hno : ∀ e, id e ≠ j := by
          intro e he
          exact hc (he ▸ h3 e z)
        have : ∑ e, (if id e = j then q e z else 0) = 0 :=
          Finset.sum_eq_zero (fun e _ => by rw [if_neg (hno e)])
        rw [this, ← ha0] at hj
        simp at hj
      · exact h4 ha0 j z
  have hz := gibbs (fun z => ∑ e, q e z + a) θ.pZ (fun z => (hZ z).le) hZZ h.nnZ h.sumZ.le
    (fun z _ => h.posZ z)
  have hX := part (fun e => (evs e).user) θ.pX h.nnX h.sumX h.posX h.allX
  have hY := part (fun e => (evs e).item) θ.pY h.nnY h.sumY h.posY h.allY
  have hR := part (fun e => (evs e).level) θ.pR h.nnR h.sumR h.posR h.allR
  exact add_le_add (add_le_add (add_le_add hz hX) hY) hR

/-- One EM step does not decrease the objective. -/
theorem emStep_objective {a : ℝ} (ha : 0 ≤ a) (hk : 0 < k) (hn : 0 < n) {evs : Fin n → Ev nu ni nl}
    {θ : Theta nu ni nl k} (h : Good a evs θ) :
    objective a evs θ ≤ objective a evs (emStep a evs θ) := by
  have hg := emStep_good ha hk hn h
  have hmax := mStep_max ha hk hn h (eStep_pos h)
  have hj : ∀ e, ∑ z, eStep θ evs e z *
      (Real.log (joint (emStep a evs θ) (evs e) z) - Real.log (joint θ (evs e) z)) ≤
      Real.log (∑ z, joint (emStep a evs θ) (evs e) z) - Real.log (∑ z, joint θ (evs e) z) :=
    fun e => log_sum_ge _ _ hk (h.joint_pos e) (hg.joint_pos e)
  have hs := Finset.sum_le_sum (fun e (_ : e ∈ Finset.univ) => hj e)
  simp only [mul_sub, Finset.sum_sub_distrib] at hs
  unfold objective
  change _ ≤ ∑ e, ∑ z, eStep θ evs e z * Real.log (joint (emStep a evs θ) (evs e) z) +
      a * (∑ z, Real.log ((emStep a evs θ).pZ z) + ∑ z, ∑ x, Real.log ((emStep a evs θ).pX x z) +
        ∑ z, ∑ y, Real.log ((emStep a evs θ).pY y z) +
        ∑ z, ∑ r, Real.log ((emStep a evs θ).pR r z)) at hmax
  linarith

end PLSA
end Kam
