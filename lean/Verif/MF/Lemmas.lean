/-
Lemmas about the coefficient layout, sums over events and derivatives.
-/
import Verif.MF.Model
import Mathlib.Analysis.Calculus.FDeriv.Add
import Mathlib.Analysis.Calculus.FDeriv.Mul
import Mathlib.Analysis.Calculus.FDeriv.Pi
import Mathlib.Analysis.Calculus.Deriv.Comp
import Mathlib.Analysis.Calculus.Deriv.Pow
import Mathlib.Analysis.SpecialFunctions.Log.Deriv
import Mathlib.Analysis.SpecialFunctions.ExpDeriv

set_option linter.unusedSectionVars false

namespace Kam
namespace MF
open scoped BigOperators

variable {nu ni k : Nat}

/-! ### layout -/

theorem slotAt_pos (s : Slot nu ni k) : slotAt ⟨pos s, pos_lt s⟩ = s := by
  cases s with
  | mu => simp [slotAt, pos]
  | bu u =>
    have := u.2
    unfold slotAt pos
    simp only
    rw [dif_neg (by omega), dif_pos (by omega)]
    congr 1
    apply Fin.ext
    simp
  | bi i =>
    have := i.2
    unfold slotAt pos
    simp only
    rw [dif_neg (by omega), dif_neg (by omega), dif_pos (by omega)]
    congr 1
    apply Fin.ext
    simp
  | p u f =>
    have h := mul_add_lt u.2 f.2
    have hk : 0 < k := by have := f.2; omega
    unfold slotAt pos
    simp only
    rw [dif_neg (by omega), dif_neg (by omega), dif_neg (by omega), dif_pos (by omega)]
    congr 1
    · apply Fin.ext
      simp only [Nat.add_sub_cancel_left]
      rw [Nat.mul_comm, Nat.mul_add_div hk, Nat.div_eq_of_lt f.2]; omega
    · apply Fin.ext
      simp only [Nat.add_sub_cancel_left]
      rw [Nat.mul_comm, Nat.mul_add_mod, Nat.mod_eq_of_lt f.2]
  | q i f =>
    have h := mul_add_lt i.2 f.2
    have hk : 0 < k := by have := f.2; omega
    unfold slotAt pos
    simp only
    rw [dif_neg (by omega), dif_neg (by omega), dif_neg (by omega), dif_neg (by omega)]
    congr 1
    · apply Fin.ext
      simp only [Nat.add_sub_cancel_left]
      rw [Nat.mul_comm, Nat.mul_add_div hk, Nat.div_eq_of_lt f.2]; omega
    · apply Fin.ext
      simp only [Nat.add_sub_cancel_left]
      rw [Nat.mul_comm, Nat.mul_add_mod, Nat.mod_eq_of_lt f.2]

theorem pos_slotAt (j : Fin (size nu ni k)) : pos (slotAt j) = j.1 := by
  have hj := j.2
  unfold size at hj
  unfold slotAt
  split
  · simp only [pos]; omega
  · split
    · simp only [pos]; omega
    · split
      · simp only [pos]; omega
      · split
        · simp only [pos]
          have := Nat.div_add_mod (j.1 - (1 + nu + ni)) k
          rw [Nat.mul_comm] at this
          omega
        · simp only [pos]
          have := Nat.div_add_mod (j.1 - (1 + nu + ni + nu * k)) k
          rw [Nat.mul_comm] at this
          omega

/-- Parameters and positions correspond one to one. -/
def slotEquiv (nu ni k : Nat) : Slot nu ni k ≃ Fin (size nu ni k) where
  toFun := fun s => ⟨pos s, pos_lt s⟩
  invFun := slotAt
  left_inv := slotAt_pos
  right_inv := fun j => Fin.ext (pos_slotAt j)

theorem get_unpack (c : Coef nu ni k) (s : Slot nu ni k) : (unpack c).get s = c ⟨pos s, pos_lt s⟩ := by
  cases s <;> rfl

theorem pack_unpack (c : Coef nu ni k) : pack (unpack c) = c := by
  funext j
  unfold pack
  rw [get_unpack]
  congr 1
  exact Fin.ext (pos_slotAt j)

theorem unpack_pack (v : Views nu ni k) : unpack (pack v) = v := by
  have h : ∀ s, (unpack (pack v)).get s = v.get s := by
    intro s
    rw [get_unpack]
    unfold pack
    rw [slotAt_pos]
  ext
  · exact h .mu
  · exact h (.bu _)
  · exact h (.bi _)
  · exact h (.p _ _)
  · exact h (.q _ _)

instance : Fintype (Slot nu ni k) := Fintype.ofEquiv _ (slotEquiv nu ni k).symm

/-- Slots as a disjoint sum. -/
def slotSum : Slot nu ni k ≃ Unit ⊕ Fin nu ⊕ Fin ni ⊕ (Fin nu × Fin k) ⊕ (Fin ni × Fin k) where
  toFun
    | .mu => .inl ()
    | .bu u => .inr (.inl u)
    | .bi i => .inr (.inr (.inl i))
    | .p u f => .inr (.inr (.inr (.inl (u, f))))
    | .q i f => .inr (.inr (.inr (.inr (i, f))))
  invFun
    | .inl _ => .mu
    | .inr (.inl u) => .bu u
    | .inr (.inr (.inl i)) => .bi i
    | .inr (.inr (.inr (.inl (u, f)))) => .p u f
    | .inr (.inr (.inr (.inr (i, f)))) => .q i f
  left_inv := by intro s; cases s <;> rfl
  right_inv := by
    intro x
    rcases x with _ | _ | _ | _ | _ <;> rfl

/-- A sum over all coefficients, view by view. -/
theorem sum_coef (F : Fin (size nu ni k) → ℝ) (G : Slot nu ni k → ℝ)
    (h : ∀ s, F ⟨pos s, pos_lt s⟩ = G s) :
    ∑ j, F j = G .mu + ∑ u, G (.bu u) + ∑ i, G (.bi i) + ∑ u, ∑ f, G (.p u f) +
      ∑ i, ∑ f, G (.q i f) := by
  have h1 : ∑ j, F j = ∑ s, G s := by
    symm
    exact Fintype.sum_equiv (slotEquiv nu ni k) G F (fun s => (h s).symm)
  rw [h1, Fintype.sum_equiv slotSum G (fun x => G (slotSum.symm x)) (fun s => by simp)]
  rw [Fintype.sum_sum_type, Fintype.sum_sum_type, Fintype.sum_sum_type, Fintype.sum_sum_type,
    Fintype.sum_prod_type, Fintype.sum_prod_type]
  simp only [slotSum, Equiv.coe_fn_symm_mk, Finset.univ_unique, Finset.sum_singleton]
  ring

/-! ### sums over events -/

theorem bincount_nil {β : Type} {n : Nat} (id : β → Fin n) (w : β → ℝ) (j : Fin n) :
    bincount [] id w j = 0 := rfl

theorem bincount_cons {β : Type} {n : Nat} (e : β) (evs : List β) (id : β → Fin n) (w : β → ℝ)
    (j : Fin n) : bincount (e :: evs) id w j = (if id e = j then w e else 0) + bincount evs id w j := by
  unfold bincount
  by_cases h : id e = j <;> simp [h]

/-- Weighted bin counts paired with a vector: the sum over events. -/
theorem sum_bincount_mul {β : Type} {n : Nat} (evs : List β) (id : β → Fin n) (w : β → ℝ)
    (x : Fin n → ℝ) :
    ∑ j, bincount evs id w j * x j = (evs.map (fun e => w e * x (id e))).sum := by
  induction evs with
  | nil => simp [bincount_nil]
  | cons e evs ih =>
    simp only [bincount_cons, add_mul, Finset.sum_add_distrib, ih, List.map_cons, List.sum_cons,
      ite_mul, zero_mul, Finset.sum_ite_eq, Finset.mem_univ, if_true]

theorem sum_bincount {β : Type} {n : Nat} (evs : List β) (id : β → Fin n) (w : β → ℝ) :
    ∑ j, bincount evs id w j = (evs.map w).sum := by
  have := sum_bincount_mul evs id w (fun _ => 1)
  simpa using this

theorem list_sum_add {β : Type} (l : List β) (f g : β → ℝ) :
    (l.map (fun e => f e + g e)).sum = (l.map f).sum + (l.map g).sum := by
  induction l with
  | nil => simp
  | cons a l ih => simp only [List.map_cons, List.sum_cons, ih]; ring

theorem list_sum_mul_left {β : Type} (l : List β) (a : ℝ) (f : β → ℝ) :
    (l.map (fun e => a * f e)).sum = a * (l.map f).sum := by
  induction l with
  | nil => simp
  | cons b l ih => simp only [List.map_cons, List.sum_cons, ih]; ring

theorem list_sum_finset {β ι : Type} (l : List β) (s : Finset ι) (f : β → ι → ℝ) :
    (l.map (fun e => ∑ x ∈ s, f e x)).sum = ∑ x ∈ s, (l.map (fun e => f e x)).sum := by
  induction l with
  | nil => simp
  | cons b l ih => simp only [List.map_cons, List.sum_cons, ih, Finset.sum_add_distrib]

/-! ### derivatives -/

/-- The linear functional `v ↦ ∑ j, g j * v j`. -/
noncomputable def dot {N : Nat} (g : Fin N → ℝ) : (Fin N → ℝ) →L[ℝ] ℝ :=
  ∑ j, g j • ContinuousLinearMap.proj (R := ℝ) (φ := fun _ : Fin N => ℝ) j

theorem dot_apply {N : Nat} (g v : Fin N → ℝ) : dot g v = ∑ j, g j * v j := by
  simp [dot]

/-- The directional derivative of the estimate of one event. -/
noncomputable def dEst (v x : Views nu ni k) (u : Fin nu) (i : Fin ni) : ℝ :=
  x.mu + x.bu u + x.bi i + ∑ f, (v.p u f * x.q i f + v.q i f * x.p u f)

theorem hasFDerivAt_coef {N : Nat} (j : Fin N) (c : Fin N → ℝ) :
    HasFDerivAt (fun c : Fin N → ℝ => c j)
      (ContinuousLinearMap.proj (R := ℝ) (φ := fun _ : Fin N => ℝ) j) c :=
  (ContinuousLinearMap.proj (R := ℝ) (φ := fun _ : Fin N => ℝ) j).hasFDerivAt

/-- The estimate is differentiable with the stated derivative. -/
theorem hasFDerivAt_est (u : Fin nu) (i : Fin ni) (c : Coef nu ni k) :
    ∃ D : Coef nu ni k →L[ℝ] ℝ, HasFDerivAt (fun c : Coef nu ni k => est (unpack c) u i) D c ∧
      ∀ x, D x = dEst (unpack c) (unpack x) u i := by
  have hsum : HasFDerivAt (fun c : Coef nu ni k => ∑ f, (unpack c).p u f * (unpack c).q i f)
      (∑ f, ((unpack c).p u f • (ContinuousLinearMap.proj (R := ℝ)
          (φ := fun _ : Fin (size nu ni k) => ℝ) ⟨pos (.q i f), pos_lt _⟩) +
        (unpack c).q i f • (ContinuousLinearMap.proj (R := ℝ)
          (φ := fun _ : Fin (size nu ni k) => ℝ) ⟨pos (.p u f), pos_lt _⟩))) c := by
    apply HasFDerivAt.fun_sum
    intro f _
    exact (hasFDerivAt_coef _ c).mul (hasFDerivAt_coef _ c)
  refine ⟨_, (((hasFDerivAt_coef (⟨pos .mu, pos_lt _⟩ : Fin (size nu ni k)) c).add
    (hasFDerivAt_coef ⟨pos (.bu u), pos_lt _⟩ c)).add
    (hasFDerivAt_coef ⟨pos (.bi i), pos_lt _⟩ c)).add hsum, ?_⟩
  intro x
  simp [dEst, unpack]

/-- The inner product with the regularizer's gradient. -/
noncomputable def dReg (v x : Views nu ni k) : ℝ :=
  ∑ u, v.bu u * x.bu u + ∑ i, v.bi i * x.bi i + ∑ u, ∑ f, v.p u f * x.p u f +
    ∑ i, ∑ f, v.q i f * x.q i f

theorem hasFDerivAt_sq {N : Nat} (j : Fin N) (c : Fin N → ℝ) :
    HasFDerivAt (fun c : Fin N → ℝ => c j ^ 2)
      ((2 * c j) • ContinuousLinearMap.proj (R := ℝ) (φ := fun _ : Fin N => ℝ) j) c := by
  have h := (hasFDerivAt_coef j c).mul (hasFDerivAt_coef j c)
  have e1 : (fun c : Fin N → ℝ => c j ^ 2) = fun c : Fin N → ℝ => c j * c j := by
    funext c; ring
  rw [e1]
  refine h.congr_fderiv ?_
  rw [← add_smul, two_mul]

theorem hasFDerivAt_reg (c : Coef nu ni k) :
    ∃ D : Coef nu ni k →L[ℝ] ℝ, HasFDerivAt (fun c : Coef nu ni k => reg (unpack c)) D c ∧
      ∀ x, D x = 2 * dReg (unpack c) (unpack x) := by
  have h1 : HasFDerivAt (fun c : Coef nu ni k => ∑ u, (unpack c).bu u ^ 2) _ c :=
    HasFDerivAt.fun_sum (fun u _ => hasFDerivAt_sq ⟨pos (.bu u), pos_lt _⟩ c)
  have h2 : HasFDerivAt (fun c : Coef nu ni k => ∑ i, (unpack c).bi i ^ 2) _ c :=
    HasFDerivAt.fun_sum (fun i _ => hasFDerivAt_sq ⟨pos (.bi i), pos_lt _⟩ c)
  have h3 : HasFDerivAt (fun c : Coef nu ni k => ∑ u, ∑ f, (unpack c).p u f ^ 2) _ c :=
    HasFDerivAt.fun_sum (fun u _ => HasFDerivAt.fun_sum
      (fun f _ => hasFDerivAt_sq ⟨pos (.p u f), pos_lt _⟩ c))
  have h4 : HasFDerivAt (fun c : Coef nu ni k => ∑ i, ∑ f, (unpack c).q i f ^ 2) _ c :=
    HasFDerivAt.fun_sum (fun i _ => HasFDerivAt.fun_sum
      (fun f _ => hasFDerivAt_sq ⟨pos (.q i f), pos_lt _⟩ c))
  refine ⟨_, ((h1.add h2).add h3).add h4, ?_⟩
  intro x
  simp only [add_apply, sum_apply,
    smul_apply, ContinuousLinearMap.proj_apply, smul_eq_mul, dReg, unpack,
    mul_add, Finset.mul_sum, mul_assoc]

/-- Inner product of the packed gradient of `grad_loss` with a direction. -/
theorem dot_grad (C : ℝ) (v : Views nu ni k) (evs : List (Event nu ni)) (w : Event nu ni → ℝ)
    (x : Coef nu ni k) :
    dot (pack (addReg C v (gradTerms v evs w))) x =
      (evs.map (fun e => w e * dEst v (unpack x) e.user e.item)).sum + C * dReg v (unpack x) := by
  rw [dot_apply, sum_coef _ (fun s => (addReg C v (gradTerms v evs w)).get s * (unpack x).get s)
    (by intro s; rw [get_unpack]; unfold pack; rw [slotAt_pos])]
  simp only [Views.get, addReg, gradTerms, add_mul, Finset.sum_add_distrib, dReg, dEst]
  rw [sum_bincount_mul, sum_bincount_mul]
  have hp : ∑ u, ∑ f, bincount evs (fun e => e.user) (fun e => w e * v.q e.item f) u *
      (unpack x).p u f = (evs.map (fun e => ∑ f, w e * v.q e.item f * (unpack x).p e.user f)).sum := by
    rw [Finset.sum_comm, list_sum_finset]
    apply Finset.sum_congr rfl
    intro f _
    rw [sum_bincount_mul evs (fun e => e.user) (fun e => w e * v.q e.item f)
      (fun u => (unpack x).p u f)]
  have hq : ∑ i, ∑ f, bincount evs (fun e => e.item) (fun e => w e * v.p e.user f) i *
      (unpack x).q i f = (evs.map (fun e => ∑ f, w e * v.p e.user f * (unpack x).q e.item f)).sum := by
    rw [Finset.sum_comm, list_sum_finset]
    apply Finset.sum_congr rfl
    intro f _
    rw [sum_bincount_mul evs (fun e => e.item) (fun e => w e * v.p e.user f)
      (fun i => (unpack x).q i f)]
  rw [hp, hq]
  have hmu : (evs.map w).sum * (unpack x).mu = (evs.map (fun e => w e * (unpack x).mu)).sum := by
    rw [mul_comm, ← list_sum_mul_left]
    simp only [mul_comm]
  rw [hmu]
  have hsplit : (evs.map (fun e => w e * ((unpack x).mu + (unpack x).bu e.user + (unpack x).bi e.item +
      (∑ f, v.p e.user f * (unpack x).q e.item f + ∑ f, v.q e.item f * (unpack x).p e.user f)))).sum =
      (evs.map (fun e => w e * (unpack x).mu)).sum + (evs.map (fun e => w e * (unpack x).bu e.user)).sum +
      (evs.map (fun e => w e * (unpack x).bi e.item)).sum +
      (evs.map (fun e => ∑ f, w e * v.q e.item f * (unpack x).p e.user f)).sum +
      (evs.map (fun e => ∑ f, w e * v.p e.user f * (unpack x).q e.item f)).sum := by
    rw [← list_sum_add, ← list_sum_add, ← list_sum_add, ← list_sum_add]
    congr 1
    apply List.map_congr_left
    intro e _
    simp only [mul_add, Finset.mul_sum, mul_assoc]
    ring
  rw [hsplit]
  simp only [Finset.mul_sum, mul_add, mul_assoc]
  ring

/-- Chain rule for a sum of per-event losses with regularization. -/
theorem hasFDerivAt_total (C : ℝ) (evs : List (Event nu ni)) (l : Event nu ni → ℝ → ℝ)
    (w : Event nu ni → ℝ) (c : Coef nu ni k)
    (h : ∀ e ∈ evs, HasDerivAt (l e) (w e) (est (unpack c) e.user e.item)) :
    HasFDerivAt (fun c : Coef nu ni k =>
        (evs.map (fun e => l e (est (unpack c) e.user e.item))).sum + 0.5 * C * reg (unpack c))
      (dot (pack (addReg C (unpack c) (gradTerms (unpack c) evs w)))) c := by
  have hev : ∀ evs' : List (Event nu ni), (∀ e ∈ evs', e ∈ evs) →
      ∃ D : Coef nu ni k →L[ℝ] ℝ, HasFDerivAt (fun c : Coef nu ni k =>
        (evs'.map (fun e => l e (est (unpack c) e.user e.item))).sum) D c ∧
        ∀ x, D x = (evs'.map (fun e => w e * dEst (unpack c) (unpack x) e.user e.item)).sum := by
    intro evs'
    induction evs' with
    | nil =>
      intro _
      exact ⟨0, by simpa using hasFDerivAt_const (0 : ℝ) c, by simp⟩
    | cons e evs' ih =>
      intro hsub
      obtain ⟨D, hD, hDx⟩ := ih (fun e' he' => hsub e' (List.mem_cons_of_mem _ he'))
      obtain ⟨E, hE, hEx⟩ := hasFDerivAt_est e.user e.item c
      have := (h e (hsub e List.mem_cons_self)).comp_hasFDerivAt c hE
      refine ⟨_, this.add hD, ?_⟩
      intro x
      simp [hDx, hEx]
  obtain ⟨D, hD, hDx⟩ := hev evs (fun _ h => h)
  obtain ⟨E, hE, hEx⟩ := hasFDerivAt_reg c
  have htot := hD.add (hE.const_mul (0.5 * C))
  have heq : D + (0.5 * C) • E =
      dot (pack (addReg C (unpack c) (gradTerms (unpack c) evs w))) := by
    ext x
    rw [dot_grad]
    simp only [add_apply, smul_apply, smul_eq_mul, hDx, hEx]
    ring
  rw [← heq]
  exact htot

end MF
end Kam
