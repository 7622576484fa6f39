/-
Lemmas for C90: the EM steps of the topic model come to rest.
-/
import Verif.PLSA.Props3
import Mathlib.Analysis.SpecialFunctions.Sqrt

set_option linter.unusedSectionVars false

namespace Kam
namespace PLSA
open scoped BigOperators
open Spec
variable {n nu ni nl k : Nat}

/-- Gibbs' inequality with the squared distance of the square roots of one entry. -/
theorem gibbs_gap {m : Nat} (w p : Fin m → ℝ) (hw : ∀ i, 0 < w i) (hp : ∀ i, 0 < p i)
    (hp1 : ∑ i, p i = 1) (i : Fin m) :
    (∑ j, w j) * (√(w i / ∑ j, w j) - √(p i)) ^ 2 ≤
      ∑ j, w j * Real.log (w j / ∑ l, w l) - ∑ j, w j * Real.log (p j) := by
  have hW : 0 < ∑ j, w j := Finset.sum_pos (fun j _ => hw j) ⟨i, Finset.mem_univ _⟩
  set W := ∑ j, w j with hWd
  have hterm : ∀ j, W * (√(w j / W) - √(p j)) ^ 2 + (w j - W * p j) ≤
      w j * Real.log (w j / W) - w j * Real.log (p j) := by
    intro j
    have hq : 0 < w j / W := div_pos (hw j) hW
    have hs : 0 < √(w j / W) := Real.sqrt_pos.2 hq
    have ht : 0 < √(p j) := Real.sqrt_pos.2 (hp j)
    have h1 := Real.log_le_sub_one_of_pos (x := √(p j) / √(w j / W)) (by positivity)
    rw [Real.log_div ht.ne' hs.ne', Real.log_sqrt (hp j).le, Real.log_sqrt hq.le] at h1
    have e1 : √(w j / W) ^ 2 = w j / W := Real.sq_sqrt hq.le
    have e2 : √(p j) ^ 2 = p j := Real.sq_sqrt (hp j).le
    have e3 : w j = W * √(w j / W) ^ 2 := by rw [e1]; field_simp
    have h2 : W * √(w j / W) ^ 2 * (Real.log (p j) / 2 - Real.log (w j / W) / 2) ≤
        W * √(w j / W) ^ 2 * (√(p j) / √(w j / W) - 1) :=
      mul_le_mul_of_nonneg_left h1 (by positivity)
    have h3 : W * √(w j / W) ^ 2 * (√(p j) / √(w j / W) - 1) =
        W * (√(w j / W) * √(p j)) - W * √(w j / W) ^ 2 := by
      field_simp
    rw [h3, ← e3] at h2
    have h4 : W * (√(w j / W) - √(p j)) ^ 2 =
        w j - 2 * (W * (√(w j / W) * √(p j))) + W * p j := by
      rw [sub_sq, e1, e2]
      field_simp
    rw [h4]
    linarith
  have hsum := Finset.sum_le_sum (fun j (_ : j ∈ Finset.univ) => hterm j)
  have hWp : ∑ j, W * p j = W := by rw [← Finset.mul_sum, hp1, mul_one]
  rw [Finset.sum_add_distrib, Finset.sum_sub_distrib, Finset.sum_sub_distrib, hWp, ← hWd, sub_self,
    add_zero] at hsum
  refine le_trans ?_ hsum
  exact Finset.single_le_sum (f := fun j => W * (√(w j / W) - √(p j)) ^ 2)
    (fun j _ => by positivity) (Finset.mem_univ i)

theorem gibbs_nonneg {m : Nat} (w p : Fin m → ℝ) (hw : ∀ i, 0 < w i) (hp : ∀ i, 0 < p i)
    (hp1 : ∑ i, p i = 1) :
    0 ≤ ∑ j, w j * Real.log (w j / ∑ l, w l) - ∑ j, w j * Real.log (p j) := by
  have : 0 < m := by
    rcases Nat.eq_zero_or_pos m with h | h
    · subst h; simp at hp1
    · exact h
  have h := gibbs_gap w p hw hp hp1 ⟨0, this⟩
  have hW : 0 < ∑ j, w j := Finset.sum_pos (fun j _ => hw j) ⟨⟨0, this⟩, Finset.mem_univ _⟩
  refine le_trans ?_ h
  positivity

/-- All entries of the parameters. -/
structure Entrywise (P : ℝ → Prop) (θ : Theta nu ni nl k) : Prop where
  z : ∀ z, P (θ.pZ z)
  x : ∀ x z, P (θ.pX x z)
  y : ∀ y z, P (θ.pY y z)
  r : ∀ r z, P (θ.pR r z)

/-- All pairs of entries of two parameter sets. -/
structure Pairwise2 (P : ℝ → ℝ → Prop) (θ θ' : Theta nu ni nl k) : Prop where
  z : ∀ z, P (θ.pZ z) (θ'.pZ z)
  x : ∀ x z, P (θ.pX x z) (θ'.pX x z)
  y : ∀ y z, P (θ.pY y z) (θ'.pY y z)
  r : ∀ r z, P (θ.pR r z) (θ'.pR r z)

theorem single_gap {m : Nat} (w : Fin m → Fin k → ℝ) (p : Fin m → Fin k → ℝ)
    (hw : ∀ j z, 0 < w j z) (hp : ∀ z, PosDist (fun j => p j z)) :
    (∀ j z, (∑ l, w l z) * (√(normalize w j z) - √(p j z)) ^ 2 ≤
      ∑ z, ∑ j, w j z * Real.log (normalize w j z) - ∑ z, ∑ j, w j z * Real.log (p j z)) ∧
    0 ≤ ∑ z, ∑ j, w j z * Real.log (normalize w j z) - ∑ z, ∑ j, w j z * Real.log (p j z) := by
  have hnn : ∀ z, 0 ≤ ∑ j, w j z * Real.log (normalize w j z) - ∑ j, w j z * Real.log (p j z) :=
    fun z => gibbs_nonneg (fun j => w j z) (fun j => p j z) (fun j => hw j z) (hp z).1 (hp z).2
  rw [← Finset.sum_sub_distrib]
  refine ⟨fun j z => ?_, Finset.sum_nonneg (fun z _ => hnn z)⟩
  refine le_trans (gibbs_gap (fun j => w j z) (fun j => p j z) (fun j => hw j z) (hp z).1 (hp z).2 j) ?_
  exact Finset.single_le_sum (f := fun z =>
    ∑ j, w j z * Real.log (normalize w j z) - ∑ j, w j z * Real.log (p j z))
    (fun z _ => hnn z) (Finset.mem_univ z)

/-- The gain of one EM step bounds the change of every entry. -/
theorem emStep_gain {a : ℝ} (ha : 0 < a) (hk : 0 < k) (hn : 0 < n) {evs : Fin n → Ev nu ni nl}
    {θ : Theta nu ni nl k} (h : Proper θ) :
    Pairwise2 (fun x y => a * (√y - √x) ^ 2 ≤ objective a evs (emStep a evs θ) - objective a evs θ)
      θ (emStep a evs θ) := by
  have hgood := h.good a evs
  have hg := emStep_good ha.le hk hn hgood
  have hq := eStep_pos hgood
  have hq0 : ∀ e z, 0 ≤ eStep θ evs e z := fun e z => (hq e z).le
  have hj : ∀ e, ∑ z, eStep θ evs e z *
      (Real.log (joint (emStep a evs θ) (evs e) z) - Real.log (joint θ (evs e) z)) ≤
      Real.log (∑ z, joint (emStep a evs θ) (evs e) z) - Real.log (∑ z, joint θ (evs e) z) :=
    fun e => log_sum_ge _ _ hk (hgood.joint_pos e) (hg.joint_pos e)
  have hs := Finset.sum_le_sum (fun e (_ : e ∈ Finset.univ) => hj e)
  simp only [mul_sub, Finset.sum_sub_distrib] at hs
  have e1 := expected_eq (eStep θ evs) hgood
  have e2 := expected_eq (eStep θ evs) hg
  have wp : ∀ {m : Nat} (id : Fin n → Fin m) j z, 0 < weights a id (eStep θ evs) j z :=
    fun id j z => weights_pos_of_alpha ha id hq0 j z
  have wa : ∀ {m : Nat} (id : Fin n → Fin m) (j : Fin m) z, a ≤ ∑ j, weights a id (eStep θ evs) j z := by
    intro m id j z
    have : a ≤ weights a id (eStep θ evs) j z := by
      unfold weights
      have : 0 ≤ ∑ e, (if id e = j then eStep θ evs e z else 0) :=
        Finset.sum_nonneg (fun e _ => by split; exact hq0 e z; exact le_refl _)
      linarith
    exact le_trans this (Finset.single_le_sum (f := fun j => weights a id (eStep θ evs) j z)
      (fun j _ => (wp id j z).le) (Finset.mem_univ j))
  have gX := single_gap (weights a (fun e => (evs e).user) (eStep θ evs)) θ.pX (wp _) h.x
  have gY := single_gap (weights a (fun e => (evs e).item) (eStep θ evs)) θ.pY (wp _) h.y
  have gR := single_gap (weights a (fun e => (evs e).level) (eStep θ evs)) θ.pR (wp _) h.r
  have hQ : ∀ z, 0 < ∑ e, eStep θ evs e z + a := by
    intro z
    have := Finset.sum_nonneg (fun e (_ : e ∈ Finset.univ) => hq0 e z)
    linarith
  have gZ := gibbs_gap (fun z => ∑ e, eStep θ evs e z + a) θ.pZ hQ h.z.1 h.z.2
  have gZ0 := gibbs_nonneg (fun z => ∑ e, eStep θ evs e z + a) θ.pZ hQ h.z.1 h.z.2
  have hX : (emStep a evs θ).pX = normalize (weights a (fun e => (evs e).user) (eStep θ evs)) := rfl
  have hY : (emStep a evs θ).pY = normalize (weights a (fun e => (evs e).item) (eStep θ evs)) := rfl
  have hR : (emStep a evs θ).pR = normalize (weights a (fun e => (evs e).level) (eStep θ evs)) := rfl
  have hZ : (emStep a evs θ).pZ = fun z => (∑ e, eStep θ evs e z + a) /
    ∑ z', (∑ e, eStep θ evs e z' + a) := rfl
  rw [← hX] at gX
  rw [← hY] at gY
  rw [← hR] at gR
  have hZ' : ∀ z, (∑ e, eStep θ evs e z + a) / ∑ z', (∑ e, eStep θ evs e z' + a) =
    (emStep a evs θ).pZ z := fun z => rfl
  simp only [hZ'] at gZ gZ0
  have hobj : ∀ T, T ≤ (∑ z, (∑ e, eStep θ evs e z + a) * Real.log ((emStep a evs θ).pZ z) -
        ∑ z, (∑ e, eStep θ evs e z + a) * Real.log (θ.pZ z)) +
      (∑ z, ∑ x, weights a (fun e => (evs e).user) (eStep θ evs) x z *
          Real.log ((emStep a evs θ).pX x z) -
        ∑ z, ∑ x, weights a (fun e => (evs e).user) (eStep θ evs) x z * Real.log (θ.pX x z)) +
      (∑ z, ∑ x, weights a (fun e => (evs e).item) (eStep θ evs) x z *
          Real.log ((emStep a evs θ).pY x z) -
        ∑ z, ∑ x, weights a (fun e => (evs e).item) (eStep θ evs) x z * Real.log (θ.pY x z)) +
      (∑ z, ∑ x, weights a (fun e => (evs e).level) (eStep θ evs) x z *
          Real.log ((emStep a evs θ).pR x z) -
        ∑ z, ∑ x, weights a (fun e => (evs e).level) (eStep θ evs) x z * Real.log (θ.pR x z)) →
      T ≤ objective a evs (emStep a evs θ) - objective a evs θ := by
    intro T hT
    unfold objective
    linarith
  have scale : ∀ {W t : ℝ}, a ≤ W → a * t ^ 2 ≤ W * t ^ 2 :=
    fun h => mul_le_mul_of_nonneg_right h (sq_nonneg _)
  refine ⟨fun z => hobj _ ?_, fun x z => hobj _ ?_, fun x z => hobj _ ?_, fun x z => hobj _ ?_⟩
  · have hW : a ≤ ∑ z, (∑ e, eStep θ evs e z + a) := by
      refine le_trans ?_ (Finset.single_le_sum (f := fun z => ∑ e, eStep θ evs e z + a)
        (fun z _ => (hQ z).le) (Finset.mem_univ z))
      have := Finset.sum_nonneg (fun e (_ : e ∈ Finset.univ) => hq0 e z)
      show a ≤ ∑ e, eStep θ evs e z + a
      linarith
    have h1 := scale (t := √((emStep a evs θ).pZ z) - √(θ.pZ z)) hW
    have h2 := gZ z
    have := gX.2
    have := gY.2
    have := gR.2
    linarith
  · have h1 := scale (t := √((emStep a evs θ).pX x z) - √(θ.pX x z)) (wa (fun e => (evs e).user) x z)
    have h2 := gX.1 x z
    have := gY.2
    have := gR.2
    linarith
  · have h1 := scale (t := √((emStep a evs θ).pY x z) - √(θ.pY x z)) (wa (fun e => (evs e).item) x z)
    have h2 := gY.1 x z
    have := gX.2
    have := gR.2
    linarith
  · have h1 := scale (t := √((emStep a evs θ).pR x z) - √(θ.pR x z)) (wa (fun e => (evs e).level) x z)
    have h2 := gR.1 x z
    have := gX.2
    have := gY.2
    linarith

theorem log_diff_le {x y d D : ℝ} (hd : 0 < d) (hx : d ≤ x) (hy : d ≤ y) (h : |√y - √x| ≤ D) :
    |Real.log y - Real.log x| ≤ 2 * (D / √d) := by
  have hx0 : 0 < x := lt_of_lt_of_le hd hx
  have hy0 : 0 < y := lt_of_lt_of_le hd hy
  have hD : 0 ≤ D := le_trans (abs_nonneg _) h
  have hsd : 0 < √d := Real.sqrt_pos.2 hd
  have one : ∀ {u v : ℝ}, d ≤ u → 0 < v → √v - √u ≤ D → Real.log v - Real.log u ≤ 2 * (D / √d) := by
    intro u v hu hv huv
    have hu0 : 0 < u := lt_of_lt_of_le hd hu
    have hsu : 0 < √u := Real.sqrt_pos.2 hu0
    have hsv : 0 < √v := Real.sqrt_pos.2 hv
    have h1 := Real.log_le_sub_one_of_pos (x := √v / √u) (by positivity)
    rw [Real.log_div hsv.ne' hsu.ne', Real.log_sqrt hv.le, Real.log_sqrt hu0.le] at h1
    have h2 : √v / √u - 1 = (√v - √u) / √u := by field_simp
    have h3 : (√v - √u) / √u ≤ D / √d :=
      le_trans (div_le_div_of_nonneg_right huv hsu.le)
        (div_le_div_of_nonneg_left hD hsd (Real.sqrt_le_sqrt hu))
    linarith
  rw [abs_le] at h ⊢
  have h1 := one hx hy0 h.2
  have h2 := one (u := y) (v := x) hy hx0 (by linarith [h.1])
  constructor <;> linarith

/-- The loss changes little when all logarithms do. -/
theorem loss_close {a : ℝ} {evs : Fin n → Ev nu ni nl} {θ θ' : Theta nu ni nl k} (h : Good a evs θ)
    (h' : Good a evs θ') (hk : 0 < k) (hn : 0 < n) {η : ℝ}
    (hc : Pairwise2 (fun x y => |Real.log y - Real.log x| ≤ η) θ θ') :
    |loss evs θ' - loss evs θ| ≤ 4 * η := by
  have hn' : (0 : ℝ) < n := by exact_mod_cast hn
  have hlog : ∀ {θ : Theta nu ni nl k}, Good a evs θ → ∀ e z, Real.log (joint θ (evs e) z) =
      Real.log (θ.pZ z) + Real.log (θ.pR (evs e).level z) + Real.log (θ.pX (evs e).user z) +
      Real.log (θ.pY (evs e).item z) := by
    intro θ h e z
    have h1 := h.posZ z
    have h2 := h.posR e z
    have h3 := h.posX e z
    have h4 := h.posY e z
    unfold joint
    rw [Real.log_mul (by positivity) (by positivity), Real.log_mul (by positivity) (by positivity),
      Real.log_mul (by positivity) (by positivity)]
  have hj : ∀ e z, |Real.log (joint θ' (evs e) z) - Real.log (joint θ (evs e) z)| ≤ 4 * η := by
    intro e z
    rw [hlog h, hlog h']
    have h1 := hc.z z
    have h2 := hc.r (evs e).level z
    have h3 := hc.x (evs e).user z
    have h4 := hc.y (evs e).item z
    rw [abs_le] at h1 h2 h3 h4 ⊢
    constructor <;> linarith [h1.1, h1.2, h2.1, h2.2, h3.1, h3.2, h4.1, h4.2]
  have half : ∀ {j j' : Fin k → ℝ}, (∀ z, 0 < j z) → (∀ z, 0 < j' z) →
      (∀ z, Real.log (j' z) - Real.log (j z) ≤ 4 * η) →
      Real.log (∑ z, j' z) - Real.log (∑ z, j z) ≤ 4 * η := by
    intro j j' hj hj' hd
    have hne : (Finset.univ : Finset (Fin k)).Nonempty := ⟨⟨0, hk⟩, Finset.mem_univ _⟩
    have hJ : 0 < ∑ z, j z := Finset.sum_pos (fun z _ => hj z) hne
    have hJ' : 0 < ∑ z, j' z := Finset.sum_pos (fun z _ => hj' z) hne
    have h1 : ∑ z, j' z ≤ Real.exp (4 * η) * ∑ z, j z := by
      rw [Finset.mul_sum]
      apply Finset.sum_le_sum
      intro z _
      have : Real.log (j' z) ≤ 4 * η + Real.log (j z) := by linarith [hd z]
      rw [Real.log_le_iff_le_exp (hj' z), Real.exp_add, Real.exp_log (hj z)] at this
      exact this
    have h2 := Real.log_le_log hJ' h1
    rw [Real.log_mul (Real.exp_pos _).ne' hJ.ne', Real.log_exp] at h2
    linarith
  have hs : ∀ e, |Real.log (∑ z, joint θ' (evs e) z) - Real.log (∑ z, joint θ (evs e) z)| ≤ 4 * η := by
    intro e
    have h1 := half (h.joint_pos e) (h'.joint_pos e) (fun z => (abs_le.1 (hj e z)).2)
    have h2 := half (h'.joint_pos e) (h.joint_pos e) (fun z => by linarith [(abs_le.1 (hj e z)).1])
    rw [abs_le]
    constructor <;> linarith
  unfold loss
  rw [← sub_div, abs_div, abs_of_pos hn', div_le_iff₀ hn']
  calc |-∑ e, Real.log (∑ z, joint θ' (evs e) z) - -∑ e, Real.log (∑ z, joint θ (evs e) z)|
      = |∑ e, (Real.log (∑ z, joint θ' (evs e) z) - Real.log (∑ z, joint θ (evs e) z))| := by
        rw [Finset.sum_sub_distrib, ← abs_neg]
        congr 1
        ring
    _ ≤ ∑ e, |Real.log (∑ z, joint θ' (evs e) z) - Real.log (∑ z, joint θ (evs e) z)| :=
        Finset.abs_sum_le_sum_abs _ _
    _ ≤ ∑ _e : Fin n, 4 * η := Finset.sum_le_sum (fun e _ => hs e)
    _ = 4 * η * n := by simp; ring

/-- A lower bound of all entries after an EM step. -/
noncomputable def floor (a : ℝ) (n nu ni nl k : Nat) : ℝ := a / (n * k + a * (nu + ni + nl + k))

theorem floor_pos {a : ℝ} (ha : 0 < a) (hk : 0 < k) (hn : 0 < n) : 0 < floor a n nu ni nl k := by
  unfold floor
  have : (0 : ℝ) < n := by exact_mod_cast hn
  have : (0 : ℝ) < k := by exact_mod_cast hk
  positivity

theorem emStep_floor {a : ℝ} (ha : 0 < a) (hk : 0 < k) (hn : 0 < n) {evs : Fin n → Ev nu ni nl}
    {θ : Theta nu ni nl k} (h : Proper θ) :
    Entrywise (fun x => floor a n nu ni nl k ≤ x) (emStep a evs θ) := by
  have hgood := h.good a evs
  have hq := eStep_pos hgood
  have hq0 : ∀ e z, 0 ≤ eStep θ evs e z := fun e z => (hq e z).le
  have hq1 : ∀ e z, eStep θ evs e z ≤ 1 := by
    intro e z
    rw [← eStep_sum hgood hk e]
    exact Finset.single_le_sum (f := fun z => eStep θ evs e z) (fun z _ => hq0 e z) (Finset.mem_univ z)
  have hk1 : (1 : ℝ) ≤ k := by exact_mod_cast hk
  have hn' : (0 : ℝ) < n := by exact_mod_cast hn
  have hQ : ∀ z, ∑ e, eStep θ evs e z ≤ n := by
    intro z
    calc ∑ e, eStep θ evs e z ≤ ∑ _e : Fin n, (1 : ℝ) := Finset.sum_le_sum (fun e _ => hq1 e z)
      _ = n := by simp
  have part : ∀ {m : Nat} (id : Fin n → Fin m) (j : Fin m) z, (m : ℝ) ≤ nu + ni + nl + k →
      floor a n nu ni nl k ≤ normalize (weights a id (eStep θ evs)) j z := by
    intro m id j z hm
    unfold normalize floor
    have h1 : a ≤ weights a id (eStep θ evs) j z := by
      unfold weights
      have : 0 ≤ ∑ e, (if id e = j then eStep θ evs e z else 0) :=
        Finset.sum_nonneg (fun e _ => by split; exact hq0 e z; exact le_refl _)
      linarith
    have h2 : ∑ j, weights a id (eStep θ evs) j z ≤ n * k + a * (nu + ni + nl + k) := by
      rw [sum_weights]
      have := hQ z
      have h3 : a * (m : ℝ) ≤ a * (nu + ni + nl + k) := mul_le_mul_of_nonneg_left hm ha.le
      have h4 : (n : ℝ) ≤ n * k := by nlinarith
      linarith
    have h3 : 0 < ∑ j, weights a id (eStep θ evs) j z :=
      Finset.sum_pos (fun j _ => weights_pos_of_alpha ha id hq0 j z) ⟨j, Finset.mem_univ _⟩
    calc a / (n * k + a * (nu + ni + nl + k)) ≤ a / ∑ j, weights a id (eStep θ evs) j z :=
          div_le_div_of_nonneg_left ha.le h3 h2
      _ ≤ _ := div_le_div_of_nonneg_right h1 h3.le
  have c1 : (0 : ℝ) ≤ nu := Nat.cast_nonneg _
  have c2 : (0 : ℝ) ≤ ni := Nat.cast_nonneg _
  have c3 : (0 : ℝ) ≤ nl := Nat.cast_nonneg _
  have c4 : (0 : ℝ) ≤ k := Nat.cast_nonneg _
  refine ⟨fun z => ?_, fun x z => part _ x z (by linarith), fun x z => part _ x z (by linarith),
    fun x z => part _ x z (by linarith)⟩
  show _ ≤ (∑ e, eStep θ evs e z + a) / ∑ z', (∑ e, eStep θ evs e z' + a)
  have h1 : ∀ z, a ≤ ∑ e, eStep θ evs e z + a := by
    intro z
    have := Finset.sum_nonneg (fun e (_ : e ∈ Finset.univ) => hq0 e z)
    linarith
  have h3 : 0 < ∑ z', (∑ e, eStep θ evs e z' + a) :=
    Finset.sum_pos (fun z _ => lt_of_lt_of_le ha (h1 z)) ⟨z, Finset.mem_univ _⟩
  have h2 : ∑ z', (∑ e, eStep θ evs e z' + a) ≤ n * k + a * (nu + ni + nl + k) := by
    calc ∑ z', (∑ e, eStep θ evs e z' + a) ≤ ∑ _z : Fin k, ((n : ℝ) + a) :=
          Finset.sum_le_sum (fun z _ => by linarith [hQ z])
      _ = n * k + a * k := by simp; ring
      _ ≤ _ := by nlinarith [mul_nonneg ha.le c1, mul_nonneg ha.le c2, mul_nonneg ha.le c3]
  unfold floor
  calc a / (n * k + a * (nu + ni + nl + k)) ≤ a / ∑ z', (∑ e, eStep θ evs e z' + a) :=
        div_le_div_of_nonneg_left ha.le h3 h2
    _ ≤ _ := div_le_div_of_nonneg_right (h1 z) h3.le

theorem entry_le {m : Nat} {p : Fin m → ℝ} {d : ℝ} (hp : PosDist p) (hd : ∀ j, d ≤ p j) (hm : 2 ≤ m)
    (i : Fin m) : p i ≤ 1 - d := by
  have : ∃ j : Fin m, j ≠ i := by
    by_cases h : i.1 = 0
    · exact ⟨⟨1, hm⟩, fun hc => by rw [← hc] at h; simp at h⟩
    · exact ⟨⟨0, by omega⟩, fun hc => h (by rw [← hc])⟩
  obtain ⟨j, hj⟩ := this
  have h1 : p i + p j ≤ ∑ l, p l := by
    rw [← Finset.sum_pair (Ne.symm hj)]
    exact Finset.sum_le_sum_of_subset_of_nonneg (Finset.subset_univ _) (fun l _ _ => (hp.1 l).le)
  rw [hp.2] at h1
  linarith [hd j]

theorem entry_le_one {m : Nat} {p : Fin m → ℝ} (hp : PosDist p) (i : Fin m) : p i ≤ 1 := by
  rw [← hp.2]
  exact Finset.single_le_sum (fun l _ => (hp.1 l).le) (Finset.mem_univ i)

/-- A probability is at most `1 - d` when all entries are at least `d` and there is a choice. -/
theorem prob_le {θ : Theta nu ni nl k} (h : Proper θ) {d : ℝ}
    (hd : Entrywise (fun x => d ≤ x) θ) (hm : 2 ≤ nu ∨ 2 ≤ ni ∨ 2 ≤ nl) (e : Ev nu ni nl) :
    ∑ z, joint θ e z ≤ 1 - d := by
  have hz : ∀ z, joint θ e z ≤ θ.pZ z * (1 - d) := by
    intro z
    have a1 := entry_le_one (h.x z) e.user
    have a2 := entry_le_one (h.y z) e.item
    have a3 := entry_le_one (h.r z) e.level
    have b1 := (h.x z).1 e.user
    have b2 := (h.y z).1 e.item
    have b3 := (h.r z).1 e.level
    simp only at a1 a2 a3 b1 b2 b3
    have hprod : θ.pR e.level z * θ.pX e.user z * θ.pY e.item z ≤ 1 - d := by
      rcases hm with hm | hm | hm
      · have := entry_le (h.x z) (fun j => hd.x j z) hm e.user
        have h1 : θ.pR e.level z * θ.pX e.user z ≤ θ.pX e.user z := by nlinarith
        have h2 : θ.pR e.level z * θ.pX e.user z * θ.pY e.item z ≤ θ.pX e.user z := by nlinarith
        linarith
      · have := entry_le (h.y z) (fun j => hd.y j z) hm e.item
        have h1 : θ.pR e.level z * θ.pX e.user z ≤ 1 := by nlinarith
        have h2 : θ.pR e.level z * θ.pX e.user z * θ.pY e.item z ≤ θ.pY e.item z := by nlinarith
        linarith
      · have := entry_le (h.r z) (fun j => hd.r j z) hm e.level
        have h1 : θ.pR e.level z * θ.pX e.user z ≤ θ.pR e.level z := by nlinarith
        have h2 : θ.pR e.level z * θ.pX e.user z * θ.pY e.item z ≤ θ.pR e.level z := by nlinarith
        linarith
    have := h.z.1 z
    unfold joint
    calc θ.pZ z * θ.pR e.level z * θ.pX e.user z * θ.pY e.item z =
        θ.pZ z * (θ.pR e.level z * θ.pX e.user z * θ.pY e.item z) := by ring
      _ ≤ _ := mul_le_mul_of_nonneg_left hprod this.le
  calc ∑ z, joint θ e z ≤ ∑ z, θ.pZ z * (1 - d) := Finset.sum_le_sum (fun z _ => hz z)
    _ = 1 - d := by rw [← Finset.sum_mul, h.z.2, one_mul]

/-- The loss is at least `d` when all entries are at least `d` and there is a choice. -/
theorem loss_ge {θ : Theta nu ni nl k} (h : Proper θ) (hk : 0 < k) (hn : 0 < n) {d : ℝ}
    (hd : Entrywise (fun x => d ≤ x) θ) (hm : 2 ≤ nu ∨ 2 ≤ ni ∨ 2 ≤ nl) (evs : Fin n → Ev nu ni nl) :
    d ≤ loss evs θ := by
  have hn' : (0 : ℝ) < n := by exact_mod_cast hn
  unfold loss
  rw [le_div_iff₀ hn']
  have : ∀ e, Real.log (∑ z, joint θ (evs e) z) ≤ -d := by
    intro e
    have hpos : 0 < ∑ z, joint θ (evs e) z :=
      Finset.sum_pos (fun z _ => (h.good 0 evs).joint_pos e z) ⟨⟨0, hk⟩, Finset.mem_univ _⟩
    have h1 := Real.log_le_sub_one_of_pos hpos
    have h2 := prob_le h hd hm (evs e)
    linarith
  have hs := Finset.sum_le_sum (fun e (_ : e ∈ Finset.univ) => this e)
  have hc : ∑ _e : Fin n, -d = -(d * n) := by simp; ring
  rw [hc] at hs
  linarith

theorem objective_nonpos {a : ℝ} (ha : 0 ≤ a) {θ : Theta nu ni nl k} (h : Proper θ)
    (evs : Fin n → Ev nu ni nl) : objective a evs θ ≤ 0 := by
  have lz : ∀ z, Real.log (θ.pZ z) ≤ 0 := fun z =>
    Real.log_nonpos (h.z.1 z).le (entry_le_one h.z z)
  have lx : ∀ x z, Real.log (θ.pX x z) ≤ 0 := fun x z =>
    Real.log_nonpos ((h.x z).1 x).le (entry_le_one (h.x z) x)
  have ly : ∀ x z, Real.log (θ.pY x z) ≤ 0 := fun x z =>
    Real.log_nonpos ((h.y z).1 x).le (entry_le_one (h.y z) x)
  have lr : ∀ x z, Real.log (θ.pR x z) ≤ 0 := fun x z =>
    Real.log_nonpos ((h.r z).1 x).le (entry_le_one (h.r z) x)
  have hj : ∀ e, Real.log (∑ z, joint θ (evs e) z) ≤ 0 := by
    intro e
    have hpos : ∀ z, 0 < joint θ (evs e) z := fun z => (h.good 0 evs).joint_pos e z
    refine Real.log_nonpos (Finset.sum_nonneg (fun z _ => (hpos z).le)) ?_
    rw [← h.z.2]
    apply Finset.sum_le_sum
    intro z _
    have a1 := entry_le_one (h.x z) (evs e).user
    have a2 := entry_le_one (h.y z) (evs e).item
    have a3 := entry_le_one (h.r z) (evs e).level
    have b1 := (h.x z).1 (evs e).user
    have b2 := (h.y z).1 (evs e).item
    have b3 := (h.r z).1 (evs e).level
    have b0 := h.z.1 z
    simp only at a1 a2 a3 b1 b2 b3
    unfold joint
    have h1 : θ.pZ z * θ.pR (evs e).level z ≤ θ.pZ z := by nlinarith
    have h2 : θ.pZ z * θ.pR (evs e).level z * θ.pX (evs e).user z ≤
        θ.pZ z * θ.pR (evs e).level z := by
      have := mul_pos b0 b3
      nlinarith
    have h3 : θ.pZ z * θ.pR (evs e).level z * θ.pX (evs e).user z * θ.pY (evs e).item z ≤
        θ.pZ z * θ.pR (evs e).level z * θ.pX (evs e).user z := by
      have := mul_pos (mul_pos b0 b3) b1
      nlinarith
    linarith
  unfold objective
  have s0 := Finset.sum_nonpos (fun e (_ : e ∈ Finset.univ) => hj e)
  have s1 := Finset.sum_nonpos (fun z (_ : z ∈ Finset.univ) => lz z)
  have s2 := Finset.sum_nonpos (fun z (_ : z ∈ (Finset.univ : Finset (Fin k))) =>
    Finset.sum_nonpos (fun x (_ : x ∈ Finset.univ) => lx x z))
  have s3 := Finset.sum_nonpos (fun z (_ : z ∈ (Finset.univ : Finset (Fin k))) =>
    Finset.sum_nonpos (fun x (_ : x ∈ Finset.univ) => ly x z))
  have s4 := Finset.sum_nonpos (fun z (_ : z ∈ (Finset.univ : Finset (Fin k))) =>
    Finset.sum_nonpos (fun x (_ : x ∈ Finset.univ) => lr x z))
  have := mul_nonpos_of_nonneg_of_nonpos ha (add_nonpos (add_nonpos (add_nonpos s1 s2) s3) s4)
  linarith

/-- A bounded sequence has a small increment. -/
theorem small_increment (f : Nat → ℝ) (B : ℝ) (hB : ∀ t, f t ≤ B) {ε : ℝ} (hε : 0 < ε) :
    ∃ t, f (t + 1) - f t < ε := by
  by_contra hc
  push Not at hc
  have key : ∀ t : Nat, f 0 + t * ε ≤ f t := by
    intro t
    induction t with
    | zero => simp
    | succ t ih =>
      have := hc t
      push_cast
      linarith
  obtain ⟨N, hN⟩ := exists_nat_gt ((B - f 0) / ε)
  rw [div_lt_iff₀ hε] at hN
  have := key N
  have := hB N
  linarith

end PLSA
end Kam
