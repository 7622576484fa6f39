/-
Property theorems of the topic model: C40-C45.
-/
import Verif.PLSA.Spec
import Verif.PLSA.Lemmas
import Verif.MF.Props3

namespace Kam
namespace PLSA
open scoped BigOperators
open Spec
variable {n nu ni nl k : Nat}

theorem prob_eq (θ : Theta nu ni nl k) (e : Ev nu ni nl) :
    prob θ e.user e.item e.level = ∑ z, joint θ e z := by
  unfold prob joint
  apply Finset.sum_congr rfl
  intro z _
  ring

theorem objective_eq (a : ℝ) (evs : Fin n → Ev nu ni nl) (θ : Theta nu ni nl k) :
    objective a evs θ = logLikelihood evs θ + a * logPrior θ := by
  unfold objective logLikelihood logPrior
  simp only [prob_eq, Finset.sum_add_distrib]

theorem loss_eq (evs : Fin n → Ev nu ni nl) (θ : Theta nu ni nl k) :
    loss evs θ = -logLikelihood evs θ / n := by
  unfold loss logLikelihood
  simp only [prob_eq]

/-- The parameters after the first M-step and `m` further EM steps. -/
noncomputable def reached (a : ℝ) (evs : Fin n → Ev nu ni nl) (q : Resp n k) (m : Nat) :
    Theta nu ni nl k :=
  (emStep a evs)^[m] (mStep a evs q)

/-- With a positive `alpha` non-negative responsibilities are enough. -/
theorem mStep_proper {a : ℝ} (ha : 0 < a) (hk : 0 < k) (hn : 0 < n) (evs : Fin n → Ev nu ni nl)
    {q : Resp n k} (hq : ∀ e z, 0 ≤ q e z) : Proper (mStep a evs q) := by
  have e0 : Fin n := ⟨0, hn⟩
  have part : ∀ {m : Nat} (id : Fin n → Fin m) z,
      PosDist (fun j => normalize (weights a id q) j z) := by
    intro m id z
    refine ⟨fun j => normalize_pos (fun j z => weights_nonneg ha.le id hq j z)
      (weights_pos_of_alpha ha id hq j z), normalize_sum ?_⟩
    exact Finset.sum_pos (fun j _ => weights_pos_of_alpha ha id hq j z) ⟨id e0, Finset.mem_univ _⟩
  have hZ : ∀ z, 0 < ∑ e, q e z + a := by
    intro z
    have := Finset.sum_nonneg (fun e (_ : e ∈ Finset.univ) => hq e z)
    linarith
  have hZZ : 0 < ∑ z, (∑ e, q e z + a) :=
    Finset.sum_pos (fun z _ => hZ z) ⟨⟨0, hk⟩, Finset.mem_univ _⟩
  refine ⟨⟨fun z => div_pos (hZ z) hZZ, ?_⟩, part _, part _, part _⟩
  show ∑ z, (∑ e, q e z + a) / ∑ z', (∑ e, q e z' + a) = 1
  rw [← Finset.sum_div, div_self hZZ.ne']

theorem _root_.Kam.Spec.Proper.good {θ : Theta nu ni nl k} (h : Proper θ) (a : ℝ) (evs : Fin n → Ev nu ni nl) :
    Good a evs θ :=
  { nnZ := fun z => (h.z.1 z).le, nnX := fun x z => ((h.x z).1 x).le
    nnY := fun x z => ((h.y z).1 x).le, nnR := fun x z => ((h.r z).1 x).le
    sumZ := h.z.2, sumX := fun z => (h.x z).2, sumY := fun z => (h.y z).2, sumR := fun z => (h.r z).2
    posZ := h.z.1, posX := fun _ z => (h.x z).1 _, posY := fun _ z => (h.y z).1 _
    posR := fun _ z => (h.r z).1 _, allX := fun _ x z => (h.x z).1 x
    allY := fun _ x z => (h.y z).1 x, allR := fun _ x z => (h.r z).1 x }

theorem reached_proper {a : ℝ} (ha : 0 < a) (hk : 0 < k) (hn : 0 < n) (evs : Fin n → Ev nu ni nl)
    {q : Resp n k} (hq : ∀ e z, 0 ≤ q e z) (m : Nat) : Proper (reached a evs q m) := by
  induction m with
  | zero => exact mStep_proper ha hk hn evs hq
  | succ m ih =>
    unfold reached
    rw [Function.iterate_succ_apply']
    exact mStep_proper ha hk hn evs (fun e z => (eStep_pos (ih.good a evs) e z).le)

/-- C40: with `alpha > 0` all parameters are positive distributions after any number of EM steps,
and so is the posterior over the latent variable for each event. -/
theorem C40_distributions {a : ℝ} (ha : 0 < a) (hk : 0 < k) (hn : 0 < n)
    (evs : Fin n → Ev nu ni nl) (q : Resp n k) (hq : ∀ e z, 0 ≤ q e z) (m : Nat) :
    Proper (reached a evs q m) ∧ ∀ e, PosDist (eStep (reached a evs q m) evs e) := by
  have h := reached_proper ha hk hn evs hq m
  exact ⟨h, fun e => ⟨eStep_pos (h.good a evs) e, eStep_sum (h.good a evs) hk e⟩⟩

/-- C41: an EM iteration does not decrease the log-likelihood of the events plus `alpha` times the
sum of the logarithms of all parameters. -/
theorem C41_em_monotone {a : ℝ} (ha : 0 < a) (hk : 0 < k) (hn : 0 < n)
    (evs : Fin n → Ev nu ni nl) (q : Resp n k) (hq : ∀ e z, 0 ≤ q e z) (m : Nat) :
    logLikelihood evs (reached a evs q m) + a * logPrior (reached a evs q m) ≤
      logLikelihood evs (reached a evs q (m + 1)) + a * logPrior (reached a evs q (m + 1)) := by
  have h := (reached_proper ha hk hn evs hq m).good a evs
  rw [← objective_eq, ← objective_eq]
  have := emStep_objective ha.le hk hn h
  unfold reached at this ⊢
  rw [Function.iterate_succ_apply']
  exact this

/-- C41 for any parameters, also those not reached from an initialization. -/
theorem C41_any_parameters {a : ℝ} (ha : 0 < a) (hk : 0 < k) (hn : 0 < n)
    (evs : Fin n → Ev nu ni nl) (θ : Theta nu ni nl k) (h : Proper θ) :
    logLikelihood evs θ + a * logPrior θ ≤
      logLikelihood evs (emStep a evs θ) + a * logPrior (emStep a evs θ) := by
  rw [← objective_eq, ← objective_eq]
  exact emStep_objective ha.le hk hn (h.good a evs)

/-! ### C42 -/

/-- The full statement of C42. -/
def C42_full : Prop := ∀ (n nu ni nl k : Nat) (a : ℝ) (evs : Fin n → Ev nu ni nl) (q : Resp n k)
  (m : Nat), 0 ≤ a → 0 < k → 0 < n → (∀ e, PosDist (q e)) →
  loss evs (reached a evs q (m + 1)) ≤ loss evs (reached a evs q m)

/-- C42, the part that holds: without smoothing (`alpha = 0`) the reported loss never increases.
Missing: `alpha > 0`, where it is false (`C42_refuted`). -/
theorem C42_loss_monotone_partial (hk : 0 < k) (hn : 0 < n) (evs : Fin n → Ev nu ni nl)
    (q : Resp n k) (hq : ∀ e z, 0 < q e z) (m : Nat) :
    loss evs (reached 0 evs q (m + 1)) ≤ loss evs (reached 0 evs q m) := by
  have hg : ∀ m, Good 0 evs (reached 0 evs q m) := by
    intro m
    induction m with
    | zero => exact mStep_good (le_refl 0) hk hn evs hq
    | succ m ih =>
      unfold reached
      rw [Function.iterate_succ_apply']
      exact emStep_good (le_refl 0) hk hn ih
  have h := emStep_objective (le_refl 0) hk hn (hg m)
  rw [objective_eq, objective_eq, zero_mul, zero_mul, add_zero, add_zero] at h
  rw [loss_eq, loss_eq]
  have hn' : (0 : ℝ) < n := by exact_mod_cast hn
  apply div_le_div_of_nonneg_right _ hn'.le
  unfold reached at h ⊢
  rw [Function.iterate_succ_apply']
  linarith

/-- With smoothing the reported loss can grow by at most the gain of the prior. -/
theorem C42_loss_bound {a : ℝ} (ha : 0 < a) (hk : 0 < k) (hn : 0 < n)
    (evs : Fin n → Ev nu ni nl) (q : Resp n k) (hq : ∀ e z, 0 ≤ q e z) (m : Nat) :
    loss evs (reached a evs q (m + 1)) ≤ loss evs (reached a evs q m) +
      a / n * (logPrior (reached a evs q (m + 1)) - logPrior (reached a evs q m)) := by
  have h := C41_em_monotone ha hk hn evs q hq m
  rw [loss_eq, loss_eq]
  have hn' : (0 : ℝ) < n := by exact_mod_cast hn
  rw [div_mul_eq_mul_div, ← add_div]
  apply div_le_div_of_nonneg_right _ hn'.le
  linarith

/-- One event of one user and one item with the first of two score levels. -/
def exEv : Fin 1 → Ev 1 1 2 := fun _ => ⟨0, 0, 0⟩

/-- Responsibilities 3/4 and 1/4 of two latent classes. -/
noncomputable def exResp : Resp 1 2 := fun _ z => if z = 0 then 3 / 4 else 1 / 4

/-- C42 is false of the code when `alpha > 0`: with one event, two latent classes and `alpha = 1`
the loss increases in the first iteration. -/
theorem C42_refuted : ¬ C42_full := by
  intro hall
  have h := hall 1 1 1 2 2 1 exEv exResp 0 (by norm_num) (by norm_num) (by norm_num) (by
    intro e
    constructor
    · intro z; unfold exResp; split <;> norm_num
    · simp [exResp]; norm_num)
  have h0 : ∀ z, joint (mStep 1 exEv exResp) ⟨0, 0, 0⟩ z =
      if z = 0 then 49 / 132 else 25 / 108 := by
    intro z
    fin_cases z <;>
      simp [joint, mStep, normalize, weights, exEv, exResp] <;> norm_num
  have hq : ∀ e z, eStep (mStep 1 exEv exResp) exEv e z = if z = 0 then 441 / 716 else 275 / 716 := by
    intro e z
    unfold eStep
    have : exEv e = ⟨0, 0, 0⟩ := rfl
    rw [this, h0]
    simp only [h0, Fin.sum_univ_two]
    fin_cases z <;> simp <;> norm_num
  have h1 : ∀ z, joint (emStep 1 exEv (mStep 1 exEv exResp)) ⟨0, 0, 0⟩ z =
      if z = 0 then (441 / 716 + 1) ^ 2 / (3 * (441 / 716 + 2)) else
        (275 / 716 + 1) ^ 2 / (3 * (275 / 716 + 2)) := by
    intro z
    unfold emStep
    have : eStep (mStep 1 exEv exResp) exEv = fun _ z => if z = 0 then 441 / 716 else 275 / 716 := by
      funext e z; exact hq e z
    rw [this]
    fin_cases z <;> simp [joint, mStep, normalize, weights, exEv] <;> norm_num
  simp only [reached, Function.iterate_zero, Function.iterate_succ, Function.comp, id, loss] at h
  have he : ∀ e, exEv e = ⟨0, 0, 0⟩ := fun _ => rfl
  simp only [he, h0, h1, Fin.sum_univ_two, Finset.univ_unique, Finset.sum_singleton] at h
  have hlog : Real.log ((441 / 716 + 1) ^ 2 / (3 * (441 / 716 + 2)) +
      (275 / 716 + 1) ^ 2 / (3 * (275 / 716 + 2))) < Real.log (49 / 132 + 25 / 108) := by
    apply Real.log_lt_log
    · norm_num
    · norm_num
  simp only [if_true, show ((1 : Fin 2) = 0) = False from by simp, if_false] at h
  norm_num at h hlog
  linarith

/-- The hypotheses of C40, C41 and C42 hold for one event and two latent classes. -/
example : (∀ e z, 0 ≤ exResp e z) ∧ (∀ e z, 0 < exResp e z) ∧ Proper (mStep 1 exEv exResp) := by
  have h : ∀ e z, 0 < exResp e z := by intro e z; unfold exResp; split <;> norm_num
  exact ⟨fun e z => (h e z).le, h, mStep_proper one_pos (by norm_num) (by norm_num) _
    (fun e z => (h e z).le)⟩

end PLSA
end Kam
