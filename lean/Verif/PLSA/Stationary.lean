/-
C149: what training of the topic model tends to.  First part: EM rests exactly at the stationary points of the smoothed likelihood.
-/
import Verif.PLSA.Props5
import Mathlib.Analysis.SpecialFunctions.Log.Deriv
import Mathlib.Analysis.Calculus.Deriv.Add
import Mathlib.Analysis.Calculus.Deriv.Mul

set_option linter.unusedSectionVars false

namespace Kam
namespace Spec
open scoped BigOperators
open PLSA
variable {n nu ni nl k : Nat}

/-- The log-likelihood of the events plus `a` times the sum of the logarithms of all parameters. -/
noncomputable def smoothed (a : ℝ) (evs : Fin n → Ev nu ni nl) (θ : Theta nu ni nl k) : ℝ := logLikelihood evs θ + a * logPrior θ

/-- A direction in which all distributions keep their sum. -/
structure ZeroSums (δ : Theta nu ni nl k) : Prop where
  z : ∑ z, δ.pZ z = 0
  x : ∀ z, ∑ j, δ.pX j z = 0
  y : ∀ z, ∑ j, δ.pY j z = 0
  r : ∀ z, ∑ j, δ.pR j z = 0

/-- The parameters `θ + t δ`. -/
noncomputable def shift (θ δ : Theta nu ni nl k) (t : ℝ) : Theta nu ni nl k where
  pZ z := θ.pZ z + t * δ.pZ z
  pX j z := θ.pX j z + t * δ.pX j z
  pY j z := θ.pY j z + t * δ.pY j z
  pR j z := θ.pR j z + t * δ.pR j z

/-- The smoothed likelihood has derivative zero in every direction in which the parameters stay distributions. -/
def Stationary (a : ℝ) (evs : Fin n → Ev nu ni nl) (θ : Theta nu ni nl k) : Prop :=
  ∀ δ, ZeroSums δ → HasDerivAt (fun t => smoothed a evs (shift θ δ t)) 0 0

/-- No other distributions have a higher smoothed likelihood. -/
def Best (a : ℝ) (evs : Fin n → Ev nu ni nl) (θ : Theta nu ni nl k) : Prop :=
  Proper θ ∧ ∀ θ' : Theta nu ni nl k, Proper θ' → smoothed a evs θ' ≤ smoothed a evs θ

end Spec

namespace PLSA
open scoped BigOperators
open Spec
variable {n nu ni nl k : Nat}

lemma line_deriv (p d : ℝ) : HasDerivAt (fun t => p + t * d) d 0 := by
  simpa using ((hasDerivAt_id (0 : ℝ)).mul_const d).const_add p

lemma log_line (p d : ℝ) (hp : 0 < p) : HasDerivAt (fun t => Real.log (p + t * d)) (d / p) 0 := by
  have := (line_deriv p d).log (by simpa using hp.ne')
  simpa using this

lemma joint_line {θ : Theta nu ni nl k} (h : Proper θ) (δ : Theta nu ni nl k) (e : Ev nu ni nl) (z : Fin k) :
    HasDerivAt (fun t => joint (shift θ δ t) e z) (joint θ e z * (δ.pZ z / θ.pZ z + δ.pR e.level z / θ.pR e.level z +
      δ.pX e.user z / θ.pX e.user z + δ.pY e.item z / θ.pY e.item z)) 0 := by
  have h0 := (h.z.1 z).ne'
  have h1 := ((h.r z).1 e.level).ne'
  have h2 := ((h.x z).1 e.user).ne'
  have h3 := ((h.y z).1 e.item).ne'
  have := (((line_deriv (θ.pZ z) (δ.pZ z)).fun_mul (line_deriv (θ.pR e.level z) (δ.pR e.level z))).fun_mul
    (line_deriv (θ.pX e.user z) (δ.pX e.user z))).fun_mul (line_deriv (θ.pY e.item z) (δ.pY e.item z))
  unfold joint shift
  refine this.congr_deriv ?_
  simp only [zero_mul, add_zero]
  field_simp

lemma log_joint_line {θ : Theta nu ni nl k} (h : Proper θ) (hk : 0 < k) (δ : Theta nu ni nl k) (evs : Fin n → Ev nu ni nl) (e : Fin n) :
    HasDerivAt (fun t => Real.log (∑ z, joint (shift θ δ t) (evs e) z)) (∑ z, eStep θ evs e z *
      (δ.pZ z / θ.pZ z + δ.pR (evs e).level z / θ.pR (evs e).level z +
      δ.pX (evs e).user z / θ.pX (evs e).user z + δ.pY (evs e).item z / θ.pY (evs e).item z)) 0 := by
  have hpos : 0 < ∑ z, joint θ (evs e) z :=
    Finset.sum_pos (fun z _ => (h.good 0 evs).joint_pos e z) ⟨⟨0, hk⟩, Finset.mem_univ _⟩
  have h0 : shift θ δ 0 = θ := by
    unfold shift
    simp
  have hs := HasDerivAt.fun_sum (u := Finset.univ) (fun z _ => joint_line h δ (evs e) z)
  have := hs.log (by rw [h0]; exact hpos.ne')
  convert this using 1
  rw [h0, Finset.sum_div]
  refine Finset.sum_congr rfl (fun z _ => ?_)
  unfold eStep
  ring

/-- Sum over events by the value of one of their entries. -/
lemma by_weights {m : Nat} (a : ℝ) (id : Fin n → Fin m) (q : Resp n k) (g : Fin m → Fin k → ℝ) :
    (∑ e, ∑ z, q e z * g (id e) z) + a * ∑ z, ∑ j, g j z = ∑ z, ∑ j, weights a id q j z * g j z := by
  unfold weights
  rw [Finset.sum_comm, Finset.mul_sum, ← Finset.sum_add_distrib]
  refine Finset.sum_congr rfl (fun z _ => ?_)
  simp only [add_mul, Finset.sum_add_distrib]
  rw [Finset.mul_sum]
  congr 1
  simp only [Finset.sum_mul]
  rw [Finset.sum_comm]
  refine Finset.sum_congr rfl (fun e _ => ?_)
  simp only [ite_mul, zero_mul]
  rw [Finset.sum_ite_eq]
  simp

/-- The derivative of the smoothed likelihood. -/
noncomputable def slope (a : ℝ) (evs : Fin n → Ev nu ni nl) (θ δ : Theta nu ni nl k) : ℝ :=
  ∑ z, (∑ e, eStep θ evs e z + a) * (δ.pZ z / θ.pZ z) +
    ∑ z, ∑ j, weights a (fun e => (evs e).level) (eStep θ evs) j z * (δ.pR j z / θ.pR j z) +
    ∑ z, ∑ j, weights a (fun e => (evs e).user) (eStep θ evs) j z * (δ.pX j z / θ.pX j z) +
    ∑ z, ∑ j, weights a (fun e => (evs e).item) (eStep θ evs) j z * (δ.pY j z / θ.pY j z)

theorem smoothed_line {a : ℝ} (evs : Fin n → Ev nu ni nl) {θ : Theta nu ni nl k} (h : Proper θ) (hk : 0 < k) (δ : Theta nu ni nl k) :
    HasDerivAt (fun t => smoothed a evs (shift θ δ t)) (slope a evs θ δ) 0 := by
  have e1 := HasDerivAt.fun_sum (u := Finset.univ) (fun e _ => log_joint_line h hk δ evs e)
  have pz := HasDerivAt.fun_sum (u := Finset.univ) (fun z _ => log_line (θ.pZ z) (δ.pZ z) (h.z.1 z))
  have px := HasDerivAt.fun_sum (u := Finset.univ) (fun z _ =>
    HasDerivAt.fun_sum (u := Finset.univ) (fun j _ => log_line (θ.pX j z) (δ.pX j z) ((h.x z).1 j)))
  have py := HasDerivAt.fun_sum (u := Finset.univ) (fun z _ =>
    HasDerivAt.fun_sum (u := Finset.univ) (fun j _ => log_line (θ.pY j z) (δ.pY j z) ((h.y z).1 j)))
  have pr := HasDerivAt.fun_sum (u := Finset.univ) (fun z _ =>
    HasDerivAt.fun_sum (u := Finset.univ) (fun j _ => log_line (θ.pR j z) (δ.pR j z) ((h.r z).1 j)))
  have := e1.fun_add ((((pz.fun_add px).fun_add py).fun_add pr).const_mul a)
  have hf : (fun t => smoothed a evs (shift θ δ t)) = fun t => objective a evs (shift θ δ t) := by
    funext t
    rw [objective_eq]
    rfl
  rw [hf]
  unfold objective
  refine this.congr_deriv ?_
  unfold slope
  rw [← by_weights, ← by_weights, ← by_weights]
  have hz : ∑ z, (∑ e, eStep θ evs e z + a) * (δ.pZ z / θ.pZ z) =
      (∑ e, ∑ z, eStep θ evs e z * (δ.pZ z / θ.pZ z)) + a * ∑ z, δ.pZ z / θ.pZ z := by
    rw [Finset.sum_comm, Finset.mul_sum, ← Finset.sum_add_distrib]
    refine Finset.sum_congr rfl (fun z _ => ?_)
    rw [add_mul, Finset.sum_mul]
  rw [hz]
  simp only [mul_add, Finset.sum_add_distrib]
  ring

/-- The derivative towards the normalized weights. -/
lemma block {m : Nat} (w p : Fin m → ℝ) (hw : ∀ j, 0 < w j) (hp : PosDist p) :
    ∑ j, w j * ((w j / ∑ l, w l - p j) / p j) = (∑ l, w l) * ∑ j, (w j / ∑ l, w l - p j) ^ 2 / p j := by
  rcases Nat.eq_zero_or_pos m with rfl | hm
  · simp
  have hW : 0 < ∑ l, w l := Finset.sum_pos (fun j _ => hw j) ⟨⟨0, hm⟩, Finset.mem_univ _⟩
  generalize hWd : ∑ l, w l = W at hW ⊢
  have h0 : ∑ j, W * (w j / W - p j) = 0 := by
    have : ∀ j, W * (w j / W - p j) = w j - W * p j := fun j => by field_simp
    simp only [this]
    rw [Finset.sum_sub_distrib, ← Finset.mul_sum, hp.2, hWd]
    ring
  rw [Finset.mul_sum, ← add_zero (∑ j, W * _), ← h0, ← Finset.sum_add_distrib]
  refine Finset.sum_congr rfl (fun j _ => ?_)
  have := (hp.1 j).ne'
  field_simp
  ring

lemma block_zero {m : Nat} (w p : Fin m → ℝ) (hw : ∀ j, 0 < w j) (hp : PosDist p) :
    0 ≤ ∑ j, w j * ((w j / ∑ l, w l - p j) / p j) ∧
    (∑ j, w j * ((w j / ∑ l, w l - p j) / p j) = 0 → ∀ j, w j / ∑ l, w l = p j) := by
  rw [block w p hw hp]
  have hnn : ∀ j, 0 ≤ (w j / ∑ l, w l - p j) ^ 2 / p j := fun j => div_nonneg (sq_nonneg _) (hp.1 j).le
  refine ⟨mul_nonneg (Finset.sum_nonneg (fun j _ => (hw j).le)) (Finset.sum_nonneg (fun j _ => hnn j)), ?_⟩
  intro h j
  have hW : 0 < ∑ l, w l := Finset.sum_pos (fun j _ => hw j) ⟨j, Finset.mem_univ _⟩
  have h1 := (mul_eq_zero.1 h).resolve_left hW.ne'
  have h2 := (Finset.sum_eq_zero_iff_of_nonneg (fun j _ => hnn j)).1 h1 j (Finset.mem_univ _)
  have h3 := (div_eq_zero_iff.1 h2).resolve_right (hp.1 j).ne'
  have h4 := pow_eq_zero_iff (two_ne_zero) |>.1 h3
  linarith

lemma sum_diff_zero {m : Nat} (p q : Fin m → ℝ) (hp : ∑ j, p j = 1) (hq : ∑ j, q j = 1) : ∑ j, (p j - q j) = 0 := by
  rw [Finset.sum_sub_distrib, hp, hq, sub_self]

/-- C149: an EM step leaves the parameters alone exactly when the smoothed likelihood is stationary there. -/
theorem C149_stationary {a : ℝ} (ha : 0 < a) (hk : 0 < k) (hn : 0 < n) (evs : Fin n → Ev nu ni nl) (θ : Theta nu ni nl k)
    (h : Proper θ) : emStep a evs θ = θ ↔ Stationary a evs θ := by
  have hq0 : ∀ e z, 0 ≤ eStep θ evs e z := fun e z => (eStep_pos (h.good a evs) e z).le
  have wp : ∀ {m : Nat} (id : Fin n → Fin m) j z, 0 < weights a id (eStep θ evs) j z :=
    fun id j z => weights_pos_of_alpha ha id hq0 j z
  have hQ : ∀ z, 0 < ∑ e, eStep θ evs e z + a := by
    intro z
    have := Finset.sum_nonneg (fun e (_ : e ∈ Finset.univ) => hq0 e z)
    linarith
  constructor
  · intro hfix δ hδ
    have hs := smoothed_line (a := a) evs h hk δ
    have h0 : slope a evs θ δ = 0 := by
      have blockz : ∀ {m : Nat} (w p d : Fin m → ℝ), (∀ j, 0 < w j) → (∀ j, w j / ∑ l, w l = p j) → (∑ j, d j = 0) →
          ∑ j, w j * (d j / p j) = 0 := by
        intro m w p d hw hp hd
        have : ∀ j, w j * (d j / p j) = (∑ l, w l) * d j := by
          intro j
          have hW : 0 < ∑ l, w l := Finset.sum_pos (fun j _ => hw j) ⟨j, Finset.mem_univ _⟩
          rw [← hp j]
          have := (hw j).ne'
          field_simp
        simp only [this]
        rw [← Finset.mul_sum, hd, mul_zero]
      unfold slope
      have fz : ∀ z, (∑ e, eStep θ evs e z + a) / ∑ z', (∑ e, eStep θ evs e z' + a) = θ.pZ z := fun z => by
        conv_rhs => rw [← hfix]
        rfl
      have fr : ∀ z j, weights a (fun e => (evs e).level) (eStep θ evs) j z / ∑ l, weights a (fun e => (evs e).level) (eStep θ evs) l z = θ.pR j z := fun z j => by
        conv_rhs => rw [← hfix]
        rfl
      have fx : ∀ z j, weights a (fun e => (evs e).user) (eStep θ evs) j z / ∑ l, weights a (fun e => (evs e).user) (eStep θ evs) l z = θ.pX j z := fun z j => by
        conv_rhs => rw [← hfix]
        rfl
      have fy : ∀ z j, weights a (fun e => (evs e).item) (eStep θ evs) j z / ∑ l, weights a (fun e => (evs e).item) (eStep θ evs) l z = θ.pY j z := fun z j => by
        conv_rhs => rw [← hfix]
        rfl
      rw [blockz (fun z => ∑ e, eStep θ evs e z + a) θ.pZ δ.pZ hQ fz hδ.z]
      rw [Finset.sum_eq_zero (fun z _ => blockz _ _ _ (fun j => wp _ j z) (fr z) (hδ.r z)),
        Finset.sum_eq_zero (fun z _ => blockz _ _ _ (fun j => wp _ j z) (fx z) (hδ.x z)),
        Finset.sum_eq_zero (fun z _ => blockz _ _ _ (fun j => wp _ j z) (fy z) (hδ.y z))]
      simp
    rw [h0] at hs
    exact hs
  · intro hst
    have hP : Proper (emStep a evs θ) := mStep_proper ha hk hn evs hq0
    have hd := hst ⟨fun z => (emStep a evs θ).pZ z - θ.pZ z, fun j z => (emStep a evs θ).pX j z - θ.pX j z,
      fun j z => (emStep a evs θ).pY j z - θ.pY j z, fun j z => (emStep a evs θ).pR j z - θ.pR j z⟩
      ⟨sum_diff_zero _ _ hP.z.2 h.z.2, fun z => sum_diff_zero _ _ (hP.x z).2 (h.x z).2,
        fun z => sum_diff_zero _ _ (hP.y z).2 (h.y z).2, fun z => sum_diff_zero _ _ (hP.r z).2 (h.r z).2⟩
    have h0 := hd.unique (smoothed_line (a := a) evs h hk _)
    unfold slope at h0
    have bz := block_zero (fun z => ∑ e, eStep θ evs e z + a) θ.pZ hQ h.z
    have br := fun z => block_zero (fun j => weights a (fun e => (evs e).level) (eStep θ evs) j z) (fun j => θ.pR j z) (fun j => wp _ j z) (h.r z)
    have bx := fun z => block_zero (fun j => weights a (fun e => (evs e).user) (eStep θ evs) j z) (fun j => θ.pX j z) (fun j => wp _ j z) (h.x z)
    have by' := fun z => block_zero (fun j => weights a (fun e => (evs e).item) (eStep θ evs) j z) (fun j => θ.pY j z) (fun j => wp _ j z) (h.y z)
    have sr := Finset.sum_nonneg (fun z (_ : z ∈ Finset.univ) => (br z).1)
    have sx := Finset.sum_nonneg (fun z (_ : z ∈ Finset.univ) => (bx z).1)
    have sy := Finset.sum_nonneg (fun z (_ : z ∈ Finset.univ) => (by' z).1)
    have hz0 := bz.1
    simp only [emStep, mStep, normalize] at h0
    have zr := (Finset.sum_eq_zero_iff_of_nonneg (fun z (_ : z ∈ Finset.univ) => (br z).1)).1 (by linarith)
    have zx := (Finset.sum_eq_zero_iff_of_nonneg (fun z (_ : z ∈ Finset.univ) => (bx z).1)).1 (by linarith)
    have zy := (Finset.sum_eq_zero_iff_of_nonneg (fun z (_ : z ∈ Finset.univ) => (by' z).1)).1 (by linarith)
    have zz := bz.2 (by linarith)
    apply Theta.ext
    · funext z; exact zz z
    · funext j z; exact (bx z).2 (zx z (Finset.mem_univ _)) j
    · funext j z; exact (by' z).2 (zy z (Finset.mem_univ _)) j
    · funext j z; exact (br z).2 (zr z (Finset.mem_univ _)) j

end PLSA
end Kam
