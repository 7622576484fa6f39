/-
C42: the reported loss goes down in all cases only without smoothing.
-/
import Verif.PLSA.Props

set_option linter.unusedSectionVars false

namespace Kam
open scoped BigOperators
namespace PLSA
open Spec

/-- The responsibilities of two latent classes for a single event. -/
noncomputable def twoClasses (x : ℝ) : Resp 1 2 := fun _ z => if z = 0 then x else 1 - x

lemma joint_two {a x : ℝ} (ha : 0 < a) (h0 : 0 < x) (h1 : x < 1) (z : Fin 2) :
    joint (mStep a exEv (twoClasses x)) ⟨0, 0, 0⟩ z =
      if z = 0 then (x + a) ^ 2 / ((1 + 2 * a) * (x + 2 * a)) else (1 - x + a) ^ 2 / ((1 + 2 * a) * (1 - x + 2 * a)) := by
  have hx : x + a ≠ 0 := by positivity
  have hx2 : x + 2 * a ≠ 0 := by positivity
  have hy : 1 - x + a ≠ 0 := by linarith
  have hy2 : 1 - x + 2 * a ≠ 0 := by linarith
  have hs : 1 + 2 * a ≠ 0 := by positivity
  fin_cases z
  · simp [joint, mStep, normalize, weights, exEv, twoClasses]
    have e1 : x + a + (1 - x + a) = 1 + 2 * a := by ring
    have e2 : x + a + a = x + 2 * a := by ring
    rw [e1, e2]
    field_simp
  · simp [joint, mStep, normalize, weights, exEv, twoClasses]
    have e1 : x + a + (1 - x + a) = 1 + 2 * a := by ring
    have e2 : 1 - x + a + a = 1 - x + 2 * a := by ring
    rw [e1, e2]
    field_simp

/-- The sum of the two. -/
lemma sum_two {a x : ℝ} (ha : 0 < a) (h0 : 0 < x) (h1 : x < 1) :
    (x + a) ^ 2 / ((1 + 2 * a) * (x + 2 * a)) + (1 - x + a) ^ 2 / ((1 + 2 * a) * (1 - x + 2 * a)) =
      (1 + a ^ 2 * (1 + 4 * a) / ((x + 2 * a) * (1 - x + 2 * a))) / (1 + 2 * a) := by
  have hx2 : x + 2 * a ≠ 0 := by positivity
  have hy2 : 1 - x + 2 * a ≠ 0 := by linarith
  have hs : 1 + 2 * a ≠ 0 := by positivity
  have e : 1 + a ^ 2 * (1 + 4 * a) / ((x + 2 * a) * (1 - x + 2 * a)) =
      ((x + 2 * a) * (1 - x + 2 * a) + a ^ 2 * (1 + 4 * a)) / ((x + 2 * a) * (1 - x + 2 * a)) := by
    rw [add_div, div_self (mul_ne_zero hx2 hy2)]
  rw [e, div_add_div _ _ (mul_ne_zero hs hx2) (mul_ne_zero hs hy2), div_div,
    div_eq_div_iff (mul_ne_zero (mul_ne_zero hs hx2) (mul_ne_zero hs hy2)) (mul_ne_zero (mul_ne_zero hx2 hy2) hs)]
  ring

/-- The next responsibility of the first class. -/
noncomputable def nextShare (a x : ℝ) : ℝ :=
  (x + a) ^ 2 / ((1 + 2 * a) * (x + 2 * a)) /
    ((x + a) ^ 2 / ((1 + 2 * a) * (x + 2 * a)) + (1 - x + a) ^ 2 / ((1 + 2 * a) * (1 - x + 2 * a)))

lemma nextShare_eq {a x : ℝ} (ha : 0 < a) (h0 : 0 < x) (h1 : x < 1) :
    nextShare a x - 1 / 2 = (x - 1 / 2) *
      (((x + 2 * a) * (1 - x + 2 * a) - a ^ 2) / ((x + 2 * a) * (1 - x + 2 * a) + a ^ 2 * (1 + 4 * a))) := by
  have hx2 : 0 < x + 2 * a := by positivity
  have hy2 : 0 < 1 - x + 2 * a := by linarith
  have hs : 1 + 2 * a ≠ 0 := by positivity
  have hP : 0 < (x + 2 * a) * (1 - x + 2 * a) := by positivity
  have hD : (x + 2 * a) * (1 - x + 2 * a) + a ^ 2 * (1 + 4 * a) ≠ 0 := by positivity
  unfold nextShare
  rw [sum_two ha h0 h1]
  have e : (1 + a ^ 2 * (1 + 4 * a) / ((x + 2 * a) * (1 - x + 2 * a))) / (1 + 2 * a) =
      ((x + 2 * a) * (1 - x + 2 * a) + a ^ 2 * (1 + 4 * a)) / ((x + 2 * a) * (1 - x + 2 * a) * (1 + 2 * a)) := by
    rw [← div_div _ ((x + 2 * a) * (1 - x + 2 * a)), add_div ((x + 2 * a) * (1 - x + 2 * a)), div_self hP.ne']
  rw [e, div_div_div_eq, div_sub_div _ _ (by positivity) (by norm_num), ← mul_div_assoc,
    div_eq_div_iff (by positivity) hD]
  ring

lemma eStep_two {a x : ℝ} (ha : 0 < a) (h0 : 0 < x) (h1 : x < 1) :
    eStep (mStep a exEv (twoClasses x)) exEv = twoClasses (nextShare a x) := by
  funext e z
  unfold eStep
  have he : exEv e = ⟨0, 0, 0⟩ := rfl
  have hx2 : 0 < x + 2 * a := by positivity
  have hy2 : 0 < 1 - x + 2 * a := by linarith
  have hy : 0 < 1 - x + a := by linarith
  have hpos : 0 < (x + a) ^ 2 / ((1 + 2 * a) * (x + 2 * a)) + (1 - x + a) ^ 2 / ((1 + 2 * a) * (1 - x + 2 * a)) := by
    positivity
  rw [he]
  simp only [joint_two ha h0 h1, Fin.sum_univ_two]
  fin_cases z
  · simp [twoClasses, nextShare]
  · simp only [twoClasses, nextShare]
    simp
    rw [eq_sub_iff_add_eq, ← add_div, add_comm, div_self hpos.ne']

/-- One step brings the two shares closer to each other, and not together. -/
lemma nextShare_spec {a x : ℝ} (ha : 0 < a) (h0 : 0 < x) (h1 : x < 1) (hne : x ≠ 1 / 2) :
    0 < nextShare a x ∧ nextShare a x < 1 ∧ nextShare a x ≠ 1 / 2 ∧ (nextShare a x - 1 / 2) ^ 2 < (x - 1 / 2) ^ 2 := by
  have e := nextShare_eq ha h0 h1
  have hP : 4 * a ^ 2 < (x + 2 * a) * (1 - x + 2 * a) := by nlinarith [mul_pos h0 (sub_pos.2 h1)]
  set P := (x + 2 * a) * (1 - x + 2 * a) with hPd
  have hc0 : 0 < (P - a ^ 2) / (P + a ^ 2 * (1 + 4 * a)) := by
    apply div_pos
    · nlinarith [sq_nonneg a]
    · have := sq_nonneg a; nlinarith [pow_pos ha 3]
  have hc1 : (P - a ^ 2) / (P + a ^ 2 * (1 + 4 * a)) < 1 := by
    rw [div_lt_one (by nlinarith [sq_nonneg a, pow_pos ha 3])]
    nlinarith [pow_pos ha 2, pow_pos ha 3]
  set c := (P - a ^ 2) / (P + a ^ 2 * (1 + 4 * a)) with hcd
  have hsq : (nextShare a x - 1 / 2) ^ 2 < (x - 1 / 2) ^ 2 := by
    rw [e, mul_pow]
    have hd : 0 < (x - 1 / 2) ^ 2 := by
      have : x - 1 / 2 ≠ 0 := sub_ne_zero.2 hne
      positivity
    have : c ^ 2 < 1 := by nlinarith
    nlinarith
  have hlt : (nextShare a x - 1 / 2) ^ 2 < (1 / 2) ^ 2 := by nlinarith
  have := abs_lt_of_sq_lt_sq hlt (by norm_num)
  rw [abs_lt] at this
  refine ⟨by linarith, by linarith, ?_, hsq⟩
  intro h
  rw [h, sub_self] at e
  rcases mul_eq_zero.1 e.symm with h' | h'
  · exact hne (by linarith)
  · exact hc0.ne' h'

lemma reached_two {a x : ℝ} (ha : 0 < a) (h0 : 0 < x) (h1 : x < 1) (hne : x ≠ 1 / 2) (m : Nat) :
    ∃ y, 0 < y ∧ y < 1 ∧ y ≠ 1 / 2 ∧ reached a exEv (twoClasses x) m = mStep a exEv (twoClasses y) ∧
      reached a exEv (twoClasses x) (m + 1) = mStep a exEv (twoClasses (nextShare a y)) := by
  have hstep : ∀ y, 0 < y → y < 1 → emStep a exEv (mStep a exEv (twoClasses y)) = mStep a exEv (twoClasses (nextShare a y)) := by
    intro y hy0 hy1
    unfold emStep
    rw [eStep_two ha hy0 hy1]
  induction m with
  | zero =>
    refine ⟨x, h0, h1, hne, rfl, ?_⟩
    exact hstep x h0 h1
  | succ m ih =>
    obtain ⟨y, hy0, hy1, hyn, _, e⟩ := ih
    obtain ⟨z0, z1, zn, _⟩ := nextShare_spec ha hy0 hy1 hyn
    refine ⟨_, z0, z1, zn, e, ?_⟩
    have : reached a exEv (twoClasses x) (m + 1 + 1) = emStep a exEv (reached a exEv (twoClasses x) (m + 1)) := by
      simp only [reached, Function.iterate_succ_apply']
    rw [this, e, hstep _ z0 z1]

/-- C42, how wrong it can be: with smoothing, a single event and two latent classes of unequal responsibilities, the
reported loss grows in every iteration. -/
theorem C42_grows {a x : ℝ} (ha : 0 < a) (h0 : 0 < x) (h1 : x < 1) (hne : x ≠ 1 / 2) (m : Nat) :
    loss exEv (reached a exEv (twoClasses x) m) < loss exEv (reached a exEv (twoClasses x) (m + 1)) := by
  obtain ⟨y, hy0, hy1, hyn, e1, e2⟩ := reached_two ha h0 h1 hne m
  obtain ⟨z0, z1, zn, hz⟩ := nextShare_spec ha hy0 hy1 hyn
  rw [e1, e2]
  set w := nextShare a y with hw
  have he : ∀ e, exEv e = ⟨0, 0, 0⟩ := fun _ => rfl
  have hP : ∀ {t : ℝ}, 0 < t → t < 1 → 0 < (t + 2 * a) * (1 - t + 2 * a) := by
    intro t ht0 ht1
    have : 0 < 1 - t + 2 * a := by linarith
    positivity
  have hlog : Real.log ((1 + a ^ 2 * (1 + 4 * a) / ((w + 2 * a) * (1 - w + 2 * a))) / (1 + 2 * a)) <
      Real.log ((1 + a ^ 2 * (1 + 4 * a) / ((y + 2 * a) * (1 - y + 2 * a))) / (1 + 2 * a)) := by
    have p1 := hP z0 z1
    have p2 := hP hy0 hy1
    apply Real.log_lt_log (by positivity)
    apply div_lt_div_of_pos_right _ (by positivity)
    have : a ^ 2 * (1 + 4 * a) / ((w + 2 * a) * (1 - w + 2 * a)) < a ^ 2 * (1 + 4 * a) / ((y + 2 * a) * (1 - y + 2 * a)) := by
      apply div_lt_div_of_pos_left (by positivity) p2
      nlinarith
    linarith
  simp only [loss, he, joint_two ha hy0 hy1, joint_two ha z0 z1, Fin.sum_univ_two, Finset.univ_unique,
    Finset.sum_singleton, if_true, show ((1 : Fin 2) = 0) = False from by simp, if_false]
  rw [sum_two ha hy0 hy1, sum_two ha z0 z1]
  simpa using hlog

/-- C42, exactly: the reported loss never increases, whatever the data and the first responsibilities, if and only if
there is no smoothing (`alpha = 0`; the default is 1). -/
theorem C42_iff {a : ℝ} (ha : 0 ≤ a) :
    (∀ (n nu ni nl k : Nat) (evs : Fin n → Ev nu ni nl) (q : Resp n k) (m : Nat), 0 < k → 0 < n → (∀ e, PosDist (q e)) →
      loss evs (reached a evs q (m + 1)) ≤ loss evs (reached a evs q m)) ↔ a = 0 := by
  constructor
  · intro hall
    by_contra hne
    have hpos : 0 < a := lt_of_le_of_ne ha (Ne.symm hne)
    have := hall 1 1 1 2 2 exEv (twoClasses (3 / 4)) 0 (by norm_num) (by norm_num) (by
      intro e
      constructor
      · intro z; unfold twoClasses; split <;> norm_num
      · simp [twoClasses])
    exact absurd (C42_grows hpos (x := 3 / 4) (by norm_num) (by norm_num) (by norm_num) 0) (not_lt.2 this)
  · rintro rfl n nu ni nl k evs q m hk hn hq
    exact C42_loss_monotone_partial hk hn evs q (fun e z => (hq e).1 z) m

end PLSA
end Kam
