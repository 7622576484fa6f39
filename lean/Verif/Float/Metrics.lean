/-
C130: the error metrics with machine arithmetic.  Every operation of `mean_absolute_error` and `mean_squared_error` is rounded
to binary64, and sums are formed in any order.
-/
import Verif.Float.Dev
import Verif.Metrics.Props

set_option linter.unusedSectionVars false

namespace Kam.Fl
open Spec
open Metrics (floats)

/-! ### The functions -/

/-- `np.nanmean` of finite numbers (metrics/real.py:80, 119): their sum divided by their number. -/
def MeanOf (xs : List ℝ) (v : ℝ) : Prop := ∃ s, RoundedSum xs s ∧ v = fl (s / xs.length)

/-- `np.nanstd` of finite numbers (metrics/real.py:81, 120): numpy subtracts the mean, squares, takes the mean and the root. -/
def StdOf (xs : List ℝ) (v : ℝ) : Prop := ∃ m s, MeanOf xs m ∧
  RoundedSum (xs.map (fun x => fl (fl (x - m) ^ 2))) s ∧ v = fl (Real.sqrt (fl (s / xs.length)))

/-- `mean_absolute_error` (metrics/real.py:49-83) of finite numbers: mean and standard deviation. -/
def MeanAbsoluteError (t p : List ℝ) (m s : ℝ) : Prop := t.length = p.length ∧
  MeanOf (List.zipWith (fun x y => |fl (x - y)|) t p) m ∧ StdOf (List.zipWith (fun x y => |fl (x - y)|) t p) s

/-- `mean_squared_error` (metrics/real.py:86-123) of finite numbers: root, mean, standard deviation. -/
def MeanSquaredError (t p : List ℝ) (r m s : ℝ) : Prop := t.length = p.length ∧
  MeanOf (List.zipWith (fun x y => fl (fl (x - y) ^ 2)) t p) m ∧
  StdOf (List.zipWith (fun x y => fl (fl (x - y) ^ 2)) t p) s ∧ r = fl (Real.sqrt (max m 0))

/-! ### Root mean squares -/

/-- The root mean square. -/
noncomputable def rms {n : Nat} (f : Fin n → ℝ) : ℝ := Real.sqrt ((∑ i, f i ^ 2) / n)

/-- The mean. -/
noncomputable def avg {n : Nat} (f : Fin n → ℝ) : ℝ := (∑ i, f i) / n

/-- The standard deviation. -/
noncomputable def dev {n : Nat} (f : Fin n → ℝ) : ℝ := rms (fun i => f i - avg f)

section
variable {n : Nat} (hn : 0 < n)
include hn

lemma rms_nonneg (f : Fin n → ℝ) : 0 ≤ rms f := Real.sqrt_nonneg _

lemma rms_sq (f : Fin n → ℝ) : rms f ^ 2 = (∑ i, f i ^ 2) / n :=
  Real.sq_sqrt (div_nonneg (Finset.sum_nonneg (fun _ _ => sq_nonneg _)) (Nat.cast_nonneg n))

lemma rms_add (f g : Fin n → ℝ) : rms (fun i => f i + g i) ≤ rms f + rms g := by
  have hn' : (0 : ℝ) < n := by exact_mod_cast hn
  refine Real.sqrt_le_iff.2 ⟨add_nonneg (rms_nonneg hn f) (rms_nonneg hn g), ?_⟩
  have h1 : (∑ i, f i * g i) / n ≤ rms f * rms g := by
    have h2 := Finset.sum_mul_sq_le_sq_mul_sq Finset.univ f g
    have h3 : ((∑ i, f i * g i) / n) ^ 2 ≤ (rms f * rms g) ^ 2 := by
      rw [mul_pow, rms_sq hn, rms_sq hn, div_pow, div_mul_div_comm, ← pow_two]
      exact div_le_div_of_nonneg_right h2 (by positivity)
    exact (le_abs_self _).trans (abs_le_of_sq_le_sq h3 (mul_nonneg (rms_nonneg hn f) (rms_nonneg hn g)))
  have h4 : (∑ i, (f i + g i) ^ 2) / (n : ℝ) = (∑ i, f i ^ 2) / n + (∑ i, g i ^ 2) / n + 2 * ((∑ i, f i * g i) / n) := by
    have : ∀ i, (f i + g i) ^ 2 = f i ^ 2 + g i ^ 2 + 2 * (f i * g i) := fun i => by ring
    simp only [this, Finset.sum_add_distrib, ← Finset.mul_sum]
    field_simp
  rw [h4, ← rms_sq hn f, ← rms_sq hn g]
  nlinarith

lemma rms_const (c : ℝ) : rms (fun _ : Fin n => c) = |c| := by
  have hn' : (n : ℝ) ≠ 0 := by exact_mod_cast hn.ne'
  unfold rms
  rw [Finset.sum_const, Finset.card_univ, Fintype.card_fin, nsmul_eq_mul, mul_div_assoc, mul_div_cancel₀ _ hn', Real.sqrt_sq_eq_abs]

lemma rms_le {c : ℝ} (hc : 0 ≤ c) {f g : Fin n → ℝ} (h : ∀ i, |f i| ≤ c * |g i|) : rms f ≤ c * rms g := by
  have hn' : (0 : ℝ) < n := by exact_mod_cast hn
  refine Real.sqrt_le_iff.2 ⟨mul_nonneg hc (rms_nonneg hn g), ?_⟩
  rw [mul_pow, rms_sq hn, ← mul_div_assoc, Finset.mul_sum]
  refine div_le_div_of_nonneg_right (Finset.sum_le_sum (fun i _ => ?_)) hn'.le
  rw [← sq_abs (f i), ← sq_abs (g i), ← mul_pow]
  exact pow_le_pow_left₀ (abs_nonneg _) (h i) 2

lemma avg_abs_le (f : Fin n → ℝ) : avg (fun i => |f i|) ≤ rms f := by
  refine Real.le_sqrt_of_sq_le ?_
  refine (Metrics.mean_sq_le hn (fun i => |f i|)).trans_eq ?_
  simp only [sq_abs]

/-- The mean is nearest in root mean square. -/
lemma dev_le (f : Fin n → ℝ) (c : ℝ) : dev f ≤ rms (fun i => f i - c) := by
  have hn' : (n : ℝ) ≠ 0 := by exact_mod_cast hn.ne'
  refine Real.sqrt_le_sqrt (div_le_div_of_nonneg_right ?_ (Nat.cast_nonneg n))
  have hs : ∑ i, f i = n * avg f := by unfold avg; field_simp
  have h1 : ∀ d : ℝ, ∑ i, (f i - d) ^ 2 = ∑ i, f i ^ 2 - 2 * d * (n * avg f) + n * d ^ 2 := by
    intro d
    have : ∀ i, (f i - d) ^ 2 = f i ^ 2 - 2 * d * f i + d ^ 2 := fun i => by ring
    simp only [this, Finset.sum_add_distrib, Finset.sum_sub_distrib, ← Finset.mul_sum, hs, Finset.sum_const,
      Finset.card_univ, Fintype.card_fin, nsmul_eq_mul]
  rw [h1, h1]
  have hn0 : (0 : ℝ) ≤ n := Nat.cast_nonneg n
  nlinarith [mul_nonneg hn0 (sq_nonneg (avg f - c))]

lemma rms_shift_le (f : Fin n → ℝ) (c : ℝ) : rms (fun i => f i - c) ≤ dev f + |avg f - c| := by
  have h := rms_add hn (fun i => f i - avg f) (fun _ => avg f - c)
  rw [rms_const hn] at h
  refine le_trans (le_of_eq ?_) h
  congr 1
  funext i
  ring

lemma dev_sub_le (f g : Fin n → ℝ) : |dev f - dev g| ≤ rms (fun i => f i - g i) := by
  have key : ∀ f g : Fin n → ℝ, dev f ≤ dev g + rms (fun i => f i - g i) := by
    intro f g
    have h := rms_add hn (fun i => g i - avg g) (fun i => f i - g i)
    refine (dev_le hn f (avg g)).trans (le_trans (le_of_eq ?_) h)
    congr 1
    funext i
    ring
  have h1 := key f g
  have h2 := key g f
  have h3 : rms (fun i => g i - f i) = rms (fun i => f i - g i) := by
    unfold rms
    congr 2
    exact Finset.sum_congr rfl (fun i _ => by ring)
  rw [h3] at h2
  rw [abs_le]
  constructor <;> linarith

/-! ### Means and deviations of machine numbers -/

lemma mean_dev {k : Nat} {a x s : Fin n → ℝ} (hx : ∀ i, Dev k (a i) (x i) (s i)) {v : ℝ} (h : MeanOf (List.ofFn x) v) :
    Dev (k + n) (avg a) v (avg s) := by
  obtain ⟨t, ht, rfl⟩ := h
  rw [List.length_ofFn]
  exact (((dev_sum_of hx ht).div (Nat.cast_nonneg n)).fl).mono (by omega)

lemma mean_near {k : Nat} {a x : Fin n → ℝ} (hx : ∀ i, Near k (a i) (x i)) {v : ℝ} (h : MeanOf (List.ofFn x) v) :
    Near (k + n) (avg a) v := by
  obtain ⟨t, ht, rfl⟩ := h
  have h1 : List.Forall₂ (Near k) (List.ofFn a) (List.ofFn x) := by
    rw [List.forall₂_iff_get]
    refine ⟨by simp, fun i h1 h2 => ?_⟩
    simp only [List.get_ofFn]
    exact hx _
  have h2 := near_sum_of h1 ht
  rw [List.length_ofFn, List.sum_ofFn] at h2
  rw [List.length_ofFn]
  exact ((h2.div (Nat.cast_nonneg n)).fl).mono (by omega)

lemma std_error {k : Nat} {a x : Fin n → ℝ} (hx : ∀ i, Dev k (a i) (x i) |a i|) {v : ℝ} (h : StdOf (List.ofFn x) v) :
    0 ≤ v ∧ |v - dev a| ≤ ((1 + u) ^ (2 * n + k + 4) - 1) * rms a := by
  obtain ⟨c, s, hc, hs, rfl⟩ := h
  have hmean : Dev n (avg x) c (avg (fun i => |x i|)) := by
    have h1 := mean_dev hn (k := 0) (a := x) (x := x) (s := fun i => |x i|) (fun i => Dev.refl (x i)) hc
    rwa [zero_add] at h1
  have hS : Near (n + 4) (rms (fun i => x i - c)) (fl (Real.sqrt (fl (s / (List.ofFn x).length)))) := by
    rw [List.map_ofFn] at hs
    have h1 : List.Forall₂ (Near 3) (List.ofFn (fun i => (x i - c) ^ 2)) (List.ofFn ((fun y => fl (fl (y - c) ^ 2)) ∘ x)) := by
      rw [List.forall₂_iff_get]
      refine ⟨by simp, fun i h1 h2 => ?_⟩
      simp only [List.get_ofFn, Function.comp]
      have h3 := abs_near (x (Fin.cast (by simp) (⟨i, h1⟩ : Fin (List.ofFn (fun i => (x i - c) ^ 2)).length)) - c)
      have h4 := (h3.mul h3).fl
      rw [← pow_two, ← pow_two, sq_abs, sq_abs] at h4
      exact h4
    have h2 := near_sum_of h1 hs
    rw [List.length_ofFn, List.sum_ofFn] at h2
    rw [List.length_ofFn]
    have h3 := (((h2.div (Nat.cast_nonneg n)).fl).sqrt).fl
    exact h3.mono (by omega)
  refine ⟨hS.nonneg, ?_⟩
  generalize fl (Real.sqrt (fl (s / (List.ofFn x).length))) = v at *
  have hP : ∀ m : Nat, 0 ≤ (1 + u) ^ m - 1 := fun m => by linarith [one_le_high m]
  have h1 : rms x ≤ (1 + u) ^ k * rms a := rms_le hn (high_pos k).le (fun i => (hx i).size)
  have h2 : rms (fun i => x i - a i) ≤ ((1 + u) ^ k - 1) * rms a := rms_le hn (hP k) (fun i => (hx i).2)
  have h3 : |avg x - c| ≤ ((1 + u) ^ n - 1) * rms x := by
    rw [abs_sub_comm]
    exact hmean.2.trans (mul_le_mul_of_nonneg_left (avg_abs_le hn x) (hP n))
  have h4 := dev_sub_le hn x a
  have h5 := dev_le hn x c
  have h6 := rms_shift_le hn x c
  have h7 : dev x ≤ rms x := by
    have := dev_le hn x 0
    simpa using this
  have h8 := hS.error
  generalize hSd : rms (fun i => x i - c) = S at *
  have h9 : S ≤ (1 + u) ^ n * rms x := by linarith
  have h10 : |v - dev a| ≤ |v - S| + (|S - dev x| + |dev x - dev a|) :=
    (abs_sub_le v S (dev a)).trans (by linarith [abs_sub_le S (dev x) (dev a)])
  have h11 : |S - dev x| ≤ ((1 + u) ^ n - 1) * rms x := by
    rw [abs_of_nonneg (by linarith)]
    linarith
  have h12 : |v - S| ≤ ((1 + u) ^ (n + 4) - 1) * ((1 + u) ^ n * rms x) :=
    h8.trans (mul_le_mul_of_nonneg_left h9 (hP _))
  have h13 : ((1 + u) ^ (n + 4) * (1 + u) ^ n - 1) * rms x ≤ ((1 + u) ^ (n + 4) * (1 + u) ^ n - 1) * ((1 + u) ^ k * rms a) := by
    refine mul_le_mul_of_nonneg_left h1 ?_
    rw [← pow_add]
    exact hP _
  have h14 : ((1 + u) ^ (2 * n + k + 4) - 1) * rms a =
      ((1 + u) ^ (n + 4) * (1 + u) ^ n - 1) * ((1 + u) ^ k * rms a) + ((1 + u) ^ k - 1) * rms a := by ring
  linarith
end

/-! ### C130 -/

/-- A rounded sum exists, and any order will do. -/
lemma exists_sum : ∀ xs : List ℝ, ∃ v, RoundedSum xs v
  | [] => ⟨0, .nil⟩
  | [x] => ⟨x, .one x⟩
  | x :: y :: xs => by
    obtain ⟨v, hv⟩ := exists_sum (y :: xs)
    exact ⟨_, RoundedSum.add (by simp) (by simp) (.one x) hv⟩

lemma std_ofFn' {n : Nat} (hn : 0 < n) (a : Fin n → ℝ) : Metrics.std (List.ofFn a) = .fin (dev a) := by
  rw [Metrics.std_ofFn hn]
  unfold dev rms avg
  simp only [sq_abs]

/-- C130: the mean absolute error computed by the machine has a relative error of at most `(n + 1) / 2^52`, in whatever order the
errors are added; it vanishes exactly when prediction equals truth; the standard deviation is accurate in comparison with the
root mean square of the errors. -/
theorem C130_absolute_error {n : Nat} (hn : 0 < n) (hmax : n ≤ 2 ^ 50) (t p : Fin n → ℝ) {m s : ℝ}
    (h : MeanAbsoluteError (List.ofFn t) (List.ofFn p) m s) :
    ∃ m' s', Metrics.meanAbsoluteError (floats t) (floats p) = .ok (.fin m', .fin s') ∧
      0 ≤ m ∧ |m - m'| ≤ (n + 1) / 2 ^ 52 * m' ∧ (m = 0 ↔ t = p) ∧
      0 ≤ s ∧ |s - s'| ≤ (2 * n + 5) / 2 ^ 52 * Real.sqrt ((∑ i, (t i - p i) ^ 2) / n) := by
  have he : ∀ f : ℝ → ℝ → ℝ, List.zipWith f (List.ofFn t) (List.ofFn p) = List.ofFn (fun i => f (t i) (p i)) := by
    intro f
    apply List.ext_getElem <;> simp
  obtain ⟨-, h1, h2⟩ := h
  rw [he] at h1 h2
  have hN : ∀ i, Near 1 |t i - p i| |fl (t i - p i)| := fun i => abs_near _
  have hm := mean_near hn hN h1
  have hs := std_error hn (a := fun i => |t i - p i|) (fun i => by
    have := (hN i).dev
    simpa only [abs_abs] using this) h2
  refine ⟨avg (fun i => |t i - p i|), dev (fun i => |t i - p i|), ?_, hm.nonneg, ?_, ?_, hs.1, ?_⟩
  · rw [Metrics.meanAbsoluteError_floats, Metrics.mean_ofFn hn, std_ofFn' hn]
    rfl
  · have := hm.relative (by omega)
    push_cast at this
    rwa [add_comm] at this
  · rw [hm.eq_zero]
    unfold avg
    have hn' : (n : ℝ) ≠ 0 := by exact_mod_cast hn.ne'
    rw [div_eq_zero_iff, or_iff_left hn', Finset.sum_eq_zero_iff_of_nonneg (fun i _ => abs_nonneg _)]
    simp only [Finset.mem_univ, true_imp_iff, abs_eq_zero, sub_eq_zero]
    exact ⟨fun h => funext h, fun h i => congrFun h i⟩
  · refine hs.2.trans ?_
    have hr : rms (fun i => |t i - p i|) = Real.sqrt ((∑ i, (t i - p i) ^ 2) / n) := by
      unfold rms
      simp only [sq_abs]
    rw [hr]
    refine mul_le_mul_of_nonneg_right ((high_bound (by omega)).trans_eq ?_) (Real.sqrt_nonneg _)
    push_cast
    ring

/-- C130: the same for the mean squared error and its root. -/
theorem C130_squared_error {n : Nat} (hn : 0 < n) (hmax : n ≤ 2 ^ 50) (t p : Fin n → ℝ) {r m s : ℝ}
    (h : MeanSquaredError (List.ofFn t) (List.ofFn p) r m s) :
    ∃ r' m' s', Metrics.meanSquaredError (floats t) (floats p) = .ok (.fin r', .fin m', .fin s') ∧
      0 ≤ m ∧ |m - m'| ≤ (n + 3) / 2 ^ 52 * m' ∧ (m = 0 ↔ t = p) ∧
      0 ≤ r ∧ |r - r'| ≤ (n + 4) / 2 ^ 52 * r' ∧ (r = 0 ↔ t = p) ∧
      0 ≤ s ∧ |s - s'| ≤ (2 * n + 7) / 2 ^ 52 * Real.sqrt ((∑ i, (t i - p i) ^ 4) / n) := by
  have he : ∀ f : ℝ → ℝ → ℝ, List.zipWith f (List.ofFn t) (List.ofFn p) = List.ofFn (fun i => f (t i) (p i)) := by
    intro f
    apply List.ext_getElem <;> simp
  obtain ⟨-, h1, h2, h3⟩ := h
  rw [he] at h1 h2
  have hN : ∀ i, Near 3 ((t i - p i) ^ 2) (fl (fl (t i - p i) ^ 2)) := by
    intro i
    have h4 := ((abs_near (t i - p i)).mul (abs_near (t i - p i))).fl
    rw [← pow_two, ← pow_two, sq_abs, sq_abs] at h4
    exact h4
  have hm := mean_near hn hN h1
  have hs := std_error hn (a := fun i => (t i - p i) ^ 2) (fun i => by
    have := (hN i).dev
    rwa [abs_of_nonneg (sq_nonneg (t i - p i))]) h2
  have hr : Near (3 + n + 1) (Real.sqrt (avg (fun i => (t i - p i) ^ 2))) r := by
    rw [h3, max_eq_left hm.nonneg]
    exact hm.sqrt.fl
  have hz : avg (fun i => (t i - p i) ^ 2) = 0 ↔ t = p := by
    unfold avg
    have hn' : (n : ℝ) ≠ 0 := by exact_mod_cast hn.ne'
    rw [div_eq_zero_iff, or_iff_left hn', Finset.sum_eq_zero_iff_of_nonneg (fun i _ => sq_nonneg _)]
    simp only [Finset.mem_univ, true_imp_iff, pow_eq_zero_iff two_ne_zero, sub_eq_zero]
    exact ⟨fun h => funext h, fun h i => congrFun h i⟩
  refine ⟨Real.sqrt (avg (fun i => (t i - p i) ^ 2)), avg (fun i => (t i - p i) ^ 2), dev (fun i => (t i - p i) ^ 2), ?_,
    hm.nonneg, ?_, ?_, hr.nonneg, ?_, ?_, hs.1, ?_⟩
  · rw [Metrics.meanSquaredError_floats, Metrics.mean_ofFn hn, std_ofFn' hn]
    have h0 : 0 ≤ (∑ i, (t i - p i) ^ 2) / (n : ℝ) := hm.1
    simp only [Metrics.sqrtMax0, max_eq_left h0]
    rfl
  · have := hm.relative (by omega)
    push_cast at this
    rwa [add_comm] at this
  · rw [hm.eq_zero]; exact hz
  · have := hr.relative (by omega)
    push_cast at this
    rwa [show (3 : ℝ) + n + 1 = n + 4 by ring] at this
  · rw [hr.eq_zero, Real.sqrt_eq_zero hm.1]; exact hz
  · refine hs.2.trans ?_
    have hr : rms (fun i => (t i - p i) ^ 2) = Real.sqrt ((∑ i, (t i - p i) ^ 4) / n) := by
      unfold rms
      simp only [← pow_mul]
    rw [hr]
    refine mul_le_mul_of_nonneg_right ((high_bound (by omega)).trans_eq ?_) (Real.sqrt_nonneg _)
    push_cast
    ring

/-- C130: mean and standard deviation of a sample of machine numbers. -/
theorem C130_sample {n : Nat} (hn : 0 < n) (hmax : n ≤ 2 ^ 50) (x : Fin n → ℝ) {m s : ℝ}
    (hm : MeanOf (List.ofFn x) m) (hs : StdOf (List.ofFn x) s) :
    ∃ m' s', Metrics.mean (List.ofFn x) = .fin m' ∧ Metrics.std (List.ofFn x) = .fin s' ∧
      |m - m'| ≤ n / 2 ^ 52 * ((∑ i, |x i|) / n) ∧
      0 ≤ s ∧ |s - s'| ≤ (2 * n + 4) / 2 ^ 52 * Real.sqrt ((∑ i, x i ^ 2) / n) := by
  have h1 := mean_dev hn (k := 0) (a := x) (x := x) (s := fun i => |x i|) (fun i => Dev.refl (x i)) hm
  have h2 := std_error hn (k := 0) (a := x) (fun i => Dev.refl (x i)) hs
  refine ⟨avg x, dev x, Metrics.mean_ofFn hn x, std_ofFn' hn x, ?_, h2.1, ?_⟩
  · have := h1.relative (by omega)
    rwa [zero_add] at this
  · refine h2.2.trans (mul_le_mul_of_nonneg_right ((high_bound (by omega)).trans_eq ?_) (Real.sqrt_nonneg _))
    push_cast
    ring

lemma MeanOf.perm {xs ys : List ℝ} {v : ℝ} (h : MeanOf xs v) (hp : xs.Perm ys) : MeanOf ys v := by
  obtain ⟨s, hs, rfl⟩ := h
  exact ⟨s, hs.perm hp, by rw [hp.length_eq]⟩

lemma StdOf.perm {xs ys : List ℝ} {v : ℝ} (h : StdOf xs v) (hp : xs.Perm ys) : StdOf ys v := by
  obtain ⟨m, s, hm, hs, rfl⟩ := h
  exact ⟨m, s, hm.perm hp, hs.perm (hp.map _), by rw [hp.length_eq]⟩

/-- C130: neither exchanging truth and prediction nor another order of the pairs changes what can be computed. -/
theorem C130_symmetric {zs zs' : List (ℝ × ℝ)} (hp : zs.Perm zs') (r m s : ℝ) :
    (MeanAbsoluteError (zs.map Prod.fst) (zs.map Prod.snd) m s ↔ MeanAbsoluteError (zs'.map Prod.snd) (zs'.map Prod.fst) m s) ∧
    (MeanSquaredError (zs.map Prod.fst) (zs.map Prod.snd) r m s ↔ MeanSquaredError (zs'.map Prod.snd) (zs'.map Prod.fst) r m s) := by
  have hz : ∀ (f : ℝ → ℝ → ℝ) (zs : List (ℝ × ℝ)),
      List.zipWith f (zs.map Prod.fst) (zs.map Prod.snd) = zs.map (fun z => f z.1 z.2) := by
    intro f zs
    rw [List.zipWith_map, List.zipWith_self]
  have hz' : ∀ (f : ℝ → ℝ → ℝ) (zs : List (ℝ × ℝ)),
      List.zipWith f (zs.map Prod.snd) (zs.map Prod.fst) = zs.map (fun z => f z.2 z.1) := by
    intro f zs
    rw [List.zipWith_map, List.zipWith_self]
  have hfl : ∀ x y : ℝ, fl (y - x) = -fl (x - y) := by
    intro x y
    rw [← fl_neg]
    congr 1
    ring
  have e1 : (zs.map (fun z => |fl (z.1 - z.2)|)).Perm (zs'.map (fun z => |fl (z.2 - z.1)|)) := by
    have : (fun z : ℝ × ℝ => |fl (z.2 - z.1)|) = fun z => |fl (z.1 - z.2)| := by
      funext z
      rw [hfl, abs_neg]
    rw [this]
    exact hp.map _
  have e2 : (zs.map (fun z => fl (fl (z.1 - z.2) ^ 2))).Perm (zs'.map (fun z => fl (fl (z.2 - z.1) ^ 2))) := by
    have : (fun z : ℝ × ℝ => fl (fl (z.2 - z.1) ^ 2)) = fun z => fl (fl (z.1 - z.2) ^ 2) := by
      funext z
      rw [hfl, neg_sq]
    rw [this]
    exact hp.map _
  unfold MeanAbsoluteError MeanSquaredError
  simp only [hz, hz', List.length_map, true_and]
  exact ⟨⟨fun h => ⟨h.1.perm e1, h.2.perm e1⟩, fun h => ⟨h.1.perm e1.symm, h.2.perm e1.symm⟩⟩,
    ⟨fun h => ⟨h.1.perm e2, h.2.1.perm e2, h.2.2⟩, fun h => ⟨h.1.perm e2.symm, h.2.1.perm e2.symm, h.2.2⟩⟩⟩

/-- The functions have results, so that the theorems above speak about something. -/
theorem exists_metrics (t p : List ℝ) (h : t.length = p.length) :
    (∃ m s, MeanAbsoluteError t p m s) ∧ ∃ r m s, MeanSquaredError t p r m s := by
  have hM : ∀ xs, ∃ m, MeanOf xs m := fun xs => by
    obtain ⟨v, hv⟩ := exists_sum xs
    exact ⟨_, v, hv, rfl⟩
  have hS : ∀ xs, ∃ s, StdOf xs s := fun xs => by
    obtain ⟨m, hm⟩ := hM xs
    obtain ⟨v, hv⟩ := exists_sum (xs.map (fun x => fl (fl (x - m) ^ 2)))
    exact ⟨_, m, v, hm, hv, rfl⟩
  constructor
  · obtain ⟨m, hm⟩ := hM (List.zipWith (fun x y => |fl (x - y)|) t p)
    obtain ⟨s, hs⟩ := hS (List.zipWith (fun x y => |fl (x - y)|) t p)
    exact ⟨m, s, h, hm, hs⟩
  · obtain ⟨m, hm⟩ := hM (List.zipWith (fun x y => fl (fl (x - y) ^ 2)) t p)
    obtain ⟨s, hs⟩ := hS (List.zipWith (fun x y => fl (fl (x - y) ^ 2)) t p)
    exact ⟨_, m, s, h, hm, hs, rfl⟩

/-- Two scores: the hypotheses can be met, with errors 1 and 2. -/
example : ∃ m s, MeanAbsoluteError (List.ofFn ![1, 2]) (List.ofFn ![2, 4]) m s := (exists_metrics _ _ (by simp)).1

end Kam.Fl
