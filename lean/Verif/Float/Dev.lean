/-
Errors of rounded operations on numbers of any sign, relative to a sum of absolute values.
-/
import Verif.Float.Near

set_option linter.unusedSectionVars false

namespace Kam.Fl
open Spec

/-- `b` is `a` up to `n` rounded operations, relative to `s`, which is at least `|a|`. -/
def Dev (n : Nat) (a b s : ℝ) : Prop := |a| ≤ s ∧ |b - a| ≤ ((1 + u) ^ n - 1) * s

lemma Dev.refl (a : ℝ) : Dev 0 a a |a| := ⟨le_refl _, by simp⟩

lemma Dev.nonneg {n : Nat} {a b s : ℝ} (h : Dev n a b s) : 0 ≤ s := (abs_nonneg a).trans h.1

lemma Dev.mono {n m : Nat} {a b s : ℝ} (h : Dev n a b s) (hnm : n ≤ m) : Dev m a b s :=
  ⟨h.1, h.2.trans (mul_le_mul_of_nonneg_right (by linarith [pow_le_pow_right₀ (by linarith [u_pos] : (1 : ℝ) ≤ 1 + u) hnm]) h.nonneg)⟩

lemma Dev.size {n : Nat} {a b s : ℝ} (h : Dev n a b s) : |b| ≤ (1 + u) ^ n * s := by
  have h1 := abs_sub_abs_le_abs_sub b a
  linarith [h.1, h.2]

lemma Dev.fl {n : Nat} {a b s : ℝ} (h : Dev n a b s) : Dev (n + 1) a (fl b) s := by
  refine ⟨h.1, ?_⟩
  have h1 := fl_error b
  have e : |b| / 2 ^ 53 = u * |b| := by unfold u; ring
  rw [e] at h1
  have h2 := mul_le_mul_of_nonneg_left h.size u_pos.le
  have h3 := abs_sub_le (Fl.fl b) b a
  have h4 : ((1 + u) ^ (n + 1) - 1) * s = ((1 + u) ^ n - 1) * s + u * ((1 + u) ^ n * s) := by ring
  linarith [h.2]

lemma Dev.add {n : Nat} {a b s c d t : ℝ} (h : Dev n a b s) (h2 : Dev n c d t) : Dev n (a + c) (b + d) (s + t) := by
  refine ⟨(abs_add_le a c).trans (add_le_add h.1 h2.1), ?_⟩
  have e : b + d - (a + c) = (b - a) + (d - c) := by ring
  rw [e, mul_add]
  exact (abs_add_le _ _).trans (add_le_add h.2 h2.2)

lemma Dev.neg {n : Nat} {a b s : ℝ} (h : Dev n a b s) : Dev n (-a) (-b) s := by
  refine ⟨by rw [abs_neg]; exact h.1, ?_⟩
  rw [show -b - -a = -(b - a) by ring, abs_neg]
  exact h.2

lemma Dev.sub {n : Nat} {a b s c d t : ℝ} (h : Dev n a b s) (h2 : Dev n c d t) : Dev n (a - c) (b - d) (s + t) := by
  rw [sub_eq_add_neg, sub_eq_add_neg]
  exact h.add h2.neg

lemma Dev.mul {n m : Nat} {a b s c d t : ℝ} (h : Dev n a b s) (h2 : Dev m c d t) : Dev (n + m) (a * c) (b * d) (s * t) := by
  refine ⟨by rw [abs_mul]; exact mul_le_mul h.1 h2.1 (abs_nonneg _) h.nonneg, ?_⟩
  have e : b * d - a * c = (b - a) * d + a * (d - c) := by ring
  rw [e]
  refine (abs_add_le _ _).trans ?_
  rw [abs_mul, abs_mul]
  have h3 : |b - a| * |d| ≤ (((1 + u) ^ n - 1) * s) * ((1 + u) ^ m * t) :=
    mul_le_mul h.2 h2.size (abs_nonneg _) (mul_nonneg (by linarith [one_le_high n]) h.nonneg)
  have h4 : |a| * |d - c| ≤ s * (((1 + u) ^ m - 1) * t) := mul_le_mul h.1 h2.2 (abs_nonneg _) h.nonneg
  have h5 : ((1 + u) ^ (n + m) - 1) * (s * t) = (((1 + u) ^ n - 1) * s) * ((1 + u) ^ m * t) + s * (((1 + u) ^ m - 1) * t) := by
    ring
  linarith

lemma Dev.div {n : Nat} {a b s c : ℝ} (h : Dev n a b s) (hc : 0 ≤ c) : Dev n (a / c) (b / c) (s / c) := by
  refine ⟨by rw [abs_div, abs_of_nonneg hc]; exact div_le_div_of_nonneg_right h.1 hc, ?_⟩
  rw [← sub_div, abs_div, abs_of_nonneg hc, ← mul_div_assoc]
  exact div_le_div_of_nonneg_right h.2 hc

lemma Dev.relative {n : Nat} {a b s : ℝ} (h : Dev n a b s) (hn : n ≤ 2 ^ 52) : |b - a| ≤ n / 2 ^ 52 * s :=
  h.2.trans (mul_le_mul_of_nonneg_right (high_bound hn) h.nonneg)

lemma Near.dev {n : Nat} {a b : ℝ} (h : Near n a b) : Dev n a b a := ⟨by rw [abs_of_nonneg h.1], h.error⟩

lemma dev_list {n : Nat} : ∀ {xs : List ℝ} {f : ℝ → ℝ}, (∀ x ∈ xs, Dev n x (f x) |x|) →
    Dev n xs.sum (xs.map f).sum (xs.map (fun x => |x|)).sum
  | [], _, _ => by simpa using (Dev.refl 0).mono (Nat.zero_le n)
  | x :: xs, f, h => by
    rw [List.map_cons, List.map_cons, List.sum_cons, List.sum_cons, List.sum_cons]
    exact (h x (by simp)).add (dev_list (fun y hy => h y (by simp [hy])))

/-- A rounded sum, in any order. -/
lemma dev_sum {xs : List ℝ} {v : ℝ} (h : RoundedSum xs v) : Dev (xs.length - 1) xs.sum v (xs.map (fun x => |x|)).sum := by
  induction h with
  | nil => simpa using Dev.refl 0
  | one x => simpa using Dev.refl x
  | @add xs ys a b hx0 hy0 _ _ iha ihb =>
    have hxl : 1 ≤ xs.length := List.length_pos_iff.2 hx0
    have hyl : 1 ≤ ys.length := List.length_pos_iff.2 hy0
    rw [List.sum_append, List.length_append, List.map_append, List.sum_append]
    have h3 := ((iha.mono (m := xs.length + ys.length - 2) (by omega)).add (ihb.mono (m := xs.length + ys.length - 2) (by omega))).fl
    exact h3.mono (by omega)
  | perm _ hp ih =>
    rw [← hp.sum_eq, ← hp.length_eq, ← (hp.map _).sum_eq]
    exact ih

/-- A rounded sum of numbers that carry errors already: `f i` stands for `a i`. -/
lemma dev_sum_of {n k : Nat} {a f s : Fin n → ℝ} (h : ∀ i, Dev k (a i) (f i) (s i)) {v : ℝ}
    (hv : RoundedSum (List.ofFn f) v) : Dev (k + (n - 1)) (∑ i, a i) v (∑ i, s i) := by
  have h1 := dev_sum hv
  rw [List.length_ofFn, List.sum_ofFn, List.map_ofFn, List.sum_ofFn] at h1
  have hs : 0 ≤ ∑ i, s i := Finset.sum_nonneg (fun i _ => (h i).nonneg)
  refine ⟨(Finset.abs_sum_le_sum_abs _ _).trans (Finset.sum_le_sum (fun i _ => (h i).1)), ?_⟩
  have h2 : |∑ i, f i - ∑ i, a i| ≤ ((1 + u) ^ k - 1) * ∑ i, s i := by
    rw [← Finset.sum_sub_distrib, Finset.mul_sum]
    exact (Finset.abs_sum_le_sum_abs _ _).trans (Finset.sum_le_sum (fun i _ => (h i).2))
  have h3 : ∑ i, |f i| ≤ (1 + u) ^ k * ∑ i, s i := by
    rw [Finset.mul_sum]
    exact Finset.sum_le_sum (fun i _ => (h i).size)
  have h4 : |v - ∑ i, f i| ≤ ((1 + u) ^ (n - 1) - 1) * ((1 + u) ^ k * ∑ i, s i) :=
    h1.2.trans (mul_le_mul_of_nonneg_left h3 (by linarith [one_le_high (n - 1)]))
  have h5 := abs_sub_le v (∑ i, f i) (∑ i, a i)
  have h6 : ((1 + u) ^ (k + (n - 1)) - 1) * ∑ i, s i =
      ((1 + u) ^ (n - 1) - 1) * ((1 + u) ^ k * ∑ i, s i) + ((1 + u) ^ k - 1) * ∑ i, s i := by ring
  linarith

/-- Rounding is symmetric. -/
lemma roundEven_neg (x : ℝ) : roundEven (-x) = -roundEven x := by
  by_cases h0 : Int.fract x = 0
  · have hx : ((⌊x⌋ : ℤ) : ℝ) = x := by
      have := Int.floor_add_fract x
      rw [h0, add_zero] at this
      exact this
    rw [← hx, ← Int.cast_neg, roundEven_intCast, roundEven_intCast]
  · have hf : Int.fract (-x) = 1 - Int.fract x := Int.fract_neg h0
    have hfl : ⌊-x⌋ = -⌊x⌋ - 1 := by
      rw [Int.floor_neg]
      have : ⌈x⌉ = ⌊x⌋ + 1 := by
        rw [Int.ceil_eq_iff]
        have h1 := Int.floor_add_fract x
        have h2 := Int.fract_nonneg x
        have h3 := Int.fract_lt_one x
        have h4 : 0 < Int.fract x := lt_of_le_of_ne h2 (Ne.symm h0)
        push_cast
        constructor <;> linarith
      omega
    unfold roundEven
    rw [hf, hfl]
    rcases lt_trichotomy (Int.fract x) (1 / 2) with h | h | h
    · rw [if_neg (by linarith), if_pos (by linarith), if_pos h]; ring
    · have e1 : ¬ ((1 : ℝ) - 1 / 2 < 1 / 2) := by norm_num
      have e2 : ¬ ((1 : ℝ) / 2 < 1 - 1 / 2) := by norm_num
      have e3 : ¬ ((1 : ℝ) / 2 < 1 / 2) := by norm_num
      simp only [h, if_neg e1, if_neg e2, if_neg e3]
      split_ifs <;> omega
    · rw [if_pos (by linarith), if_neg (by linarith), if_pos h]; ring

lemma fl_neg (x : ℝ) : fl (-x) = -fl x := by
  unfold fl
  by_cases h : x = 0
  · subst h; simp
  · rw [if_neg (neg_ne_zero.2 h), if_neg h, abs_neg, neg_div, roundEven_neg]
    push_cast
    ring

end Kam.Fl
