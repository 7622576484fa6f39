/-
C51: error metrics.
-/
import Verif.Metrics.Model
import Verif.Py.Lemmas
import Mathlib.Algebra.Order.Chebyshev
import Mathlib.Tactic.FieldSimp
import Mathlib.Tactic.Ring
import Mathlib.Tactic.Linarith
import Mathlib.Tactic.NormNum

namespace Kam.Metrics
open scoped BigOperators

/-- A finite sample as an input array. -/
def floats {n : Nat} (x : Fin n → ℝ) : List Fl := List.ofFn (fun i => Fl.fin (x i))

theorem assertAllFinite_map (xs : List ℝ) : assertAllFinite (xs.map Fl.fin) = .ok xs := by
  unfold assertAllFinite
  rw [mapM_map]
  refine (mapM_ok (g := id) xs (fun x _ => rfl)).trans ?_
  rw [List.map_id]

theorem assertAllFinite_floats {n : Nat} (x : Fin n → ℝ) :
    assertAllFinite (floats x) = .ok (List.ofFn x) := by
  have : floats x = (List.ofFn x).map Fl.fin := by
    unfold floats
    rw [List.map_ofFn]
    rfl
  rw [this, assertAllFinite_map]

theorem assertAllFinite_error {xs : List Fl} (h : ∃ v ∈ xs, v.toReal? = none) :
    assertAllFinite xs = .error .valueError := by
  unfold assertAllFinite
  induction xs with
  | nil => simp at h
  | cons x xs ih =>
    rw [List.mapM_cons]
    cases hx : x.toReal? with
    | none => rfl
    | some r =>
      have : ∃ v ∈ xs, v.toReal? = none := by
        obtain ⟨v, hv, hn⟩ := h
        rcases List.mem_cons.1 hv with rfl | hv
        · rw [hx] at hn; cases hn
        · exact ⟨v, hv, hn⟩
      simp only [ih this]
      rfl

theorem assertAllFinite_cases (xs : List Fl) :
    (∃ rs : List ℝ, xs = rs.map Fl.fin ∧ assertAllFinite xs = .ok rs) ∨
      ((∃ v ∈ xs, v.toReal? = none) ∧ assertAllFinite xs = .error .valueError) := by
  by_cases h : ∃ v ∈ xs, v.toReal? = none
  · exact Or.inr ⟨h, assertAllFinite_error h⟩
  · left
    push Not at h
    have : ∃ rs : List ℝ, xs = rs.map Fl.fin := by
      induction xs with
      | nil => exact ⟨[], rfl⟩
      | cons x xs ih =>
        obtain ⟨rs, hrs⟩ := ih (fun v hv => h v (by simp [hv]))
        cases x with
        | fin r => exact ⟨r :: rs, by simp [hrs]⟩
        | nan => exact absurd rfl (h .nan (by simp))
        | posInf => exact absurd rfl (h .posInf (by simp))
        | negInf => exact absurd rfl (h .negInf (by simp))
    obtain ⟨rs, rfl⟩ := this
    exact ⟨rs, rfl, assertAllFinite_map rs⟩

theorem zipWith_ofFn {n : Nat} (f : ℝ → ℝ → ℝ) (x y : Fin n → ℝ) :
    List.zipWith f (List.ofFn x) (List.ofFn y) = List.ofFn (fun i => f (x i) (y i)) := by
  apply List.ext_getElem
  · simp
  · intro i h1 h2
    simp

theorem ofFn_ne_nil {n : Nat} (hn : 0 < n) (x : Fin n → ℝ) : List.ofFn x ≠ [] := by
  intro h
  have := congrArg List.length h
  simp at this
  omega

theorem mean_ofFn {n : Nat} (hn : 0 < n) (x : Fin n → ℝ) :
    mean (List.ofFn x) = .fin ((∑ i, x i) / n) := by
  unfold mean
  rw [if_neg (ofFn_ne_nil hn x), List.sum_ofFn, List.length_ofFn]

theorem std_ofFn {n : Nat} (hn : 0 < n) (x : Fin n → ℝ) :
    std (List.ofFn x) = .fin (Real.sqrt ((∑ i, |x i - (∑ j, x j) / n| ^ 2) / n)) := by
  unfold std
  rw [if_neg (ofFn_ne_nil hn x), List.sum_ofFn, List.length_ofFn]
  simp only [List.map_ofFn, List.sum_ofFn, Function.comp]

theorem checkInputs_floats {n : Nat} (t p : Fin n → ℝ) :
    checkInputs (floats t) (floats p) = .ok (List.ofFn t, List.ofFn p) := by
  unfold checkInputs
  rw [assertAllFinite_floats, assertAllFinite_floats]
  simp [bind, Except.bind, pure, Except.pure]

/-- The mean squared deviation is the mean of squares minus the square of the mean. -/
theorem variance_eq {n : Nat} (hn : 0 < n) (x : Fin n → ℝ) :
    (∑ i, |x i - (∑ j, x j) / n| ^ 2) / n = (∑ i, x i ^ 2) / n - ((∑ i, x i) / n) ^ 2 := by
  have hn' : (n : ℝ) ≠ 0 := by exact_mod_cast hn.ne'
  have h1 : ∑ i, |x i - (∑ j, x j) / n| ^ 2 =
      ∑ i, x i ^ 2 - 2 * ((∑ j, x j) / n) * ∑ i, x i + n * ((∑ j, x j) / n) ^ 2 := by
    simp only [sq_abs]
    have : ∀ i, (x i - (∑ j, x j) / n) ^ 2 =
        x i ^ 2 - 2 * ((∑ j, x j) / n) * x i + ((∑ j, x j) / n) ^ 2 := fun i => by ring
    simp only [this, Finset.sum_add_distrib, Finset.sum_sub_distrib, ← Finset.mul_sum]
    simp
  rw [h1]
  field_simp
  ring

theorem mean_sq_le {n : Nat} (hn : 0 < n) (x : Fin n → ℝ) :
    ((∑ i, x i) / n) ^ 2 ≤ (∑ i, x i ^ 2) / n := by
  have h := variance_eq hn x
  have h0 : 0 ≤ (∑ i, |x i - (∑ j, x j) / n| ^ 2) / n :=
    div_nonneg (Finset.sum_nonneg (fun i _ => by positivity)) (Nat.cast_nonneg n)
  linarith

theorem meanAbsoluteError_floats {n : Nat} (t p : Fin n → ℝ) :
    meanAbsoluteError (floats t) (floats p) =
      .ok (mean (List.ofFn (fun i => |t i - p i|)), std (List.ofFn (fun i => |t i - p i|))) := by
  unfold meanAbsoluteError
  rw [checkInputs_floats]
  simp only [bind, Except.bind, pure, Except.pure, zipWith_ofFn]

theorem meanSquaredError_floats {n : Nat} (t p : Fin n → ℝ) :
    meanSquaredError (floats t) (floats p) =
      .ok (sqrtMax0 (mean (List.ofFn (fun i => (t i - p i) ^ 2))),
        mean (List.ofFn (fun i => (t i - p i) ^ 2)),
        std (List.ofFn (fun i => (t i - p i) ^ 2))) := by
  unfold meanSquaredError
  rw [checkInputs_floats]
  simp only [bind, Except.bind, pure, Except.pure, zipWith_ofFn]

/-- **C51.** On two non-empty finite samples of equal length, `mean_absolute_error` returns the mean
`m` of the absolute errors and a deviation `s`, `mean_squared_error` a root `r`, the mean `q` of the
squared errors and a deviation `s'`, where: `m` and `q` are non-negative and vanish exactly when the
prediction equals the truth; `r` is the non-negative root of `q`; `m ≤ r`; and the squared deviations
are the mean of squares minus the square of the mean. -/
theorem C51_errors {n : Nat} (hn : 0 < n) (t p : Fin n → ℝ) :
    ∃ m s r q s', meanAbsoluteError (floats t) (floats p) = .ok (.fin m, .fin s) ∧
      meanSquaredError (floats t) (floats p) = .ok (.fin r, .fin q, .fin s') ∧
      m = (∑ i, |t i - p i|) / n ∧ q = (∑ i, (t i - p i) ^ 2) / n ∧
      0 ≤ m ∧ (m = 0 ↔ t = p) ∧ 0 ≤ q ∧ (q = 0 ↔ t = p) ∧
      0 ≤ r ∧ r ^ 2 = q ∧ m ≤ r ∧
      0 ≤ s ∧ s ^ 2 = (∑ i, |t i - p i| ^ 2) / n - m ^ 2 ∧
      0 ≤ s' ∧ s' ^ 2 = (∑ i, ((t i - p i) ^ 2) ^ 2) / n - q ^ 2 := by
  have hn' : (0 : ℝ) < n := by exact_mod_cast hn
  have hq0 : 0 ≤ (∑ i, (t i - p i) ^ 2) / (n : ℝ) :=
    div_nonneg (Finset.sum_nonneg (fun i _ => by positivity)) hn'.le
  refine ⟨(∑ i, |t i - p i|) / n,
    Real.sqrt ((∑ i, |(|t i - p i|) - (∑ j, |t j - p j|) / n| ^ 2) / n), Real.sqrt ((∑ i, (t i - p i) ^ 2) / n),
    (∑ i, (t i - p i) ^ 2) / n,
    Real.sqrt ((∑ i, |(t i - p i) ^ 2 - (∑ j, (t j - p j) ^ 2) / n| ^ 2) / n), by rw [meanAbsoluteError_floats, mean_ofFn hn, std_ofFn hn],
    ?_, rfl, rfl, ?_, ?_, hq0, ?_, Real.sqrt_nonneg _, Real.sq_sqrt hq0, ?_, Real.sqrt_nonneg _, ?_,
    Real.sqrt_nonneg _, ?_⟩
  · rw [meanSquaredError_floats, mean_ofFn hn, std_ofFn hn]
    simp only [sqrtMax0, max_eq_left hq0]
  · exact div_nonneg (Finset.sum_nonneg (fun i _ => abs_nonneg _)) hn'.le
  · rw [div_eq_zero_iff, or_iff_left hn'.ne',
      Finset.sum_eq_zero_iff_of_nonneg (fun i _ => abs_nonneg _)]
    simp only [Finset.mem_univ, true_imp_iff, abs_eq_zero, sub_eq_zero]
    exact ⟨fun h => funext h, fun h i => congrFun h i⟩
  · rw [div_eq_zero_iff, or_iff_left hn'.ne',
      Finset.sum_eq_zero_iff_of_nonneg (fun i _ => by positivity)]
    simp only [Finset.mem_univ, true_imp_iff, pow_eq_zero_iff two_ne_zero, sub_eq_zero]
    exact ⟨fun h => funext h, fun h i => congrFun h i⟩
  · apply Real.le_sqrt_of_sq_le
    refine (mean_sq_le hn (fun i => |t i - p i|)).trans_eq ?_
    simp only [sq_abs]
  · rw [Real.sq_sqrt, variance_eq hn]
    exact div_nonneg (Finset.sum_nonneg (fun i _ => by positivity)) hn'.le
  · rw [Real.sq_sqrt, variance_eq hn]
    exact div_nonneg (Finset.sum_nonneg (fun i _ => by positivity)) hn'.le

/-- **C51.** Both metrics are symmetric in truth and prediction, for all inputs. -/
theorem C51_symmetric (yTrue yPred : List Fl) :
    meanAbsoluteError yTrue yPred = meanAbsoluteError yPred yTrue ∧
      meanSquaredError yTrue yPred = meanSquaredError yPred yTrue := by
  have hz : ∀ (f : ℝ → ℝ → ℝ) (_ : ∀ a b, f a b = f b a) (a b : List ℝ),
      List.zipWith f a b = List.zipWith f b a := by
    intro f hf a
    induction a with
    | nil => intro b; simp
    | cons x xs ih =>
      intro b
      cases b with
      | nil => simp
      | cons y ys => simp [hf x y, ih ys]
  have habs := hz (fun x y => |x - y|) (fun a b => abs_sub_comm a b)
  have hsq := hz (fun x y => (x - y) ^ 2) (fun a b => by ring)
  unfold meanAbsoluteError meanSquaredError checkInputs
  rcases assertAllFinite_cases yTrue with ⟨t, -, ht⟩ | ⟨-, ht⟩ <;>
    rcases assertAllFinite_cases yPred with ⟨p, -, hp⟩ | ⟨-, hp⟩ <;>
    simp only [ht, hp, bind, Except.bind, pure, Except.pure, and_self]
  by_cases hl : t.length = p.length
  · simp only [hl, if_true, habs t p, hsq t p, and_self]
  · simp only [hl, Ne.symm hl, if_false, and_self]

/-- **C51.** Arrays of different lengths, and arrays with a value that is not finite, raise
`ValueError`; nothing else does. -/
theorem C51_rejects (yTrue yPred : List Fl) :
    ((yTrue.length ≠ yPred.length ∨ (∃ v ∈ yTrue ++ yPred, v.toReal? = none)) →
      meanAbsoluteError yTrue yPred = .error .valueError ∧
      meanSquaredError yTrue yPred = .error .valueError) ∧
    (¬ (yTrue.length ≠ yPred.length ∨ (∃ v ∈ yTrue ++ yPred, v.toReal? = none)) →
      (∃ r, meanAbsoluteError yTrue yPred = .ok r) ∧ ∃ r, meanSquaredError yTrue yPred = .ok r) := by
  unfold meanAbsoluteError meanSquaredError checkInputs
  rcases assertAllFinite_cases yTrue with ⟨t, rfl, ht⟩ | ⟨hn, ht⟩
  · rcases assertAllFinite_cases yPred with ⟨p, rfl, hp⟩ | ⟨hn', hp⟩
    · have hfin : ¬ ∃ v ∈ t.map Fl.fin ++ p.map Fl.fin, v.toReal? = none := by
        rintro ⟨v, hv, hn⟩
        rw [List.mem_append, List.mem_map, List.mem_map] at hv
        rcases hv with ⟨x, _, rfl⟩ | ⟨x, _, rfl⟩ <;> cases hn
      simp only [ht, hp, bind, Except.bind, pure, Except.pure, List.length_map]
      by_cases hl : t.length = p.length
      · simp only [hl, if_true, ne_eq, not_true_eq_false, false_or]
        exact ⟨fun h => absurd h hfin, fun _ => ⟨⟨_, rfl⟩, ⟨_, rfl⟩⟩⟩
      · simp only [hl, if_false, ne_eq, not_false_eq_true, true_or, not_true_eq_false, and_self,
          true_imp_iff, false_imp_iff]
    · simp only [ht, hp, bind, Except.bind, and_self]
      refine ⟨fun _ => trivial, fun h => absurd (Or.inr ?_) h⟩
      obtain ⟨v, hv, h'⟩ := hn'
      exact ⟨v, List.mem_append.2 (Or.inr hv), h'⟩
  · simp only [ht, bind, Except.bind, and_self]
    refine ⟨fun _ => trivial, fun h => absurd (Or.inr ?_) h⟩
    obtain ⟨v, hv, h'⟩ := hn
    exact ⟨v, List.mem_append.2 (Or.inl hv), h'⟩

/-- The hypotheses of `C51_errors` are met by two samples of two scores. -/
example : (0 < 2) ∧ meanAbsoluteError (floats ![1, 2]) (floats ![2, 4]) = .ok (.fin (3 / 2), .fin (1 / 2)) := by
  refine ⟨by norm_num, ?_⟩
  rw [meanAbsoluteError_floats, mean_ofFn (by norm_num), std_ofFn (by norm_num)]
  have h1 : |(1 : ℝ) - 2| = 1 := by norm_num
  have h2 : |(2 : ℝ) - 4| = 2 := by norm_num
  have h3 : |(1 : ℝ) - 3 / 2| ^ 2 = 1 / 4 := by rw [sq_abs]; norm_num
  have h4 : |(2 : ℝ) - 3 / 2| ^ 2 = 1 / 4 := by rw [sq_abs]; norm_num
  have h5 : Real.sqrt (1 / 4) = 1 / 2 := by
    rw [show (1 / 4 : ℝ) = (1 / 2) ^ 2 by norm_num]
    exact Real.sqrt_sq (by norm_num)
  simp only [Fin.sum_univ_two, Matrix.cons_val_zero, Matrix.cons_val_one, h1, h2]
  rw [show ((Nat.succ (Nat.succ 0) : Nat) : ℝ) = 2 by norm_num, show ((1 : ℝ) + 2) / 2 = 3 / 2 by norm_num, h3, h4,
    show ((1 : ℝ) / 4 + 1 / 4) / 2 = 1 / 4 by norm_num, h5]

end Kam.Metrics
