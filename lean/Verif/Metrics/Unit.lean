/-
C145 for the metrics: mean errors are in the unit of the scores, counts do not depend on it.
-/
import Verif.Score.Unit
import Verif.Metrics.Model

set_option linter.unusedSectionVars false

namespace Kam.Rescale
open Spec Metrics

/-- A value in the new unit. -/
noncomputable def fl (p q : ℝ) : Fl → Fl
  | .fin x => .fin (rescale p q x)
  | x => x

/-- Mean and deviation in the new unit. -/
noncomputable def desc (p q : ℝ) (d : Desc) : Desc := ⟨fl p q d.mean, fl p 0 d.stdev⟩

/-- Mean, deviation and counts in the new unit. -/
noncomputable def histDesc (p q : ℝ) (h : HistDesc) : HistDesc := { h with desc := desc p q h.desc }

/-- The statistics of a score predictor in the new unit: absolute errors and root mean squared errors are differences
of scores, squared errors are squares of differences. -/
noncomputable def stats (p q : ℝ) (s : PredictorStats) : PredictorStats where
  nSamples := s.nSamples
  levels := s.levels.map (rescale p q)
  mae := (fl p 0 s.mae.1, fl p 0 s.mae.2)
  mse := (fl p 0 s.mse.1, fl (p ^ 2) 0 s.mse.2.1, fl (p ^ 2) 0 s.mse.2.2)
  true_ := histDesc p q s.true_
  predicted := histDesc p q s.predicted

variable {p : ℝ} (hp : 0 < p) (q : ℝ)

theorem assertAllFinite_map (p q : ℝ) (xs : List Fl) :
    assertAllFinite (xs.map (fl p q)) = (assertAllFinite xs).map (List.map (rescale p q)) := by
  simp only [assertAllFinite]
  induction xs with
  | nil => rfl
  | cons x xs ih =>
    rw [List.map_cons, List.mapM_cons, List.mapM_cons, ih]
    generalize List.mapM (fun (x : Fl) => match x.toReal? with | some r => Except.ok r | none => Except.error Exc.valueError) xs = m
    cases x with
    | fin x => cases m <;> rfl
    | nan => rfl
    | posInf => rfl
    | negInf => rfl

theorem checkInputs_map (p q : ℝ) (t y : List Fl) :
    checkInputs (t.map (fl p q)) (y.map (fl p q)) =
      (checkInputs t y).map (fun x => (x.1.map (rescale p q), x.2.map (rescale p q))) := by
  simp only [checkInputs, assertAllFinite_map]
  cases assertAllFinite t with
  | error e => rfl
  | ok a =>
    cases assertAllFinite y with
    | error e => rfl
    | ok b =>
      simp only [Except.map, bind, Except.bind, List.length_map]
      split <;> rfl

theorem sum_map (p q : ℝ) (xs : List ℝ) : (xs.map (rescale p q)).sum = p * xs.sum + q * xs.length := by
  induction xs with
  | nil => simp
  | cons x xs ih =>
    simp only [List.map_cons, List.sum_cons, ih, List.length_cons, Nat.cast_add, Nat.cast_one]
    unfold rescale; ring

theorem quot_map (p q : ℝ) {xs : List ℝ} (h : xs ≠ []) :
    (xs.map (rescale p q)).sum / ((xs.length : Nat) : ℝ) = rescale p q (xs.sum / ((xs.length : Nat) : ℝ)) := by
  have hl : ((xs.length : Nat) : ℝ) ≠ 0 := by
    rw [Ne, Nat.cast_eq_zero, List.length_eq_zero_iff]; exact h
  rw [sum_map]
  unfold rescale
  field_simp

theorem mean_map (p q : ℝ) (xs : List ℝ) : mean (xs.map (rescale p q)) = fl p q (mean xs) := by
  unfold mean
  by_cases h : xs = []
  · subst h; simp [fl]
  · have h' : xs.map (rescale p q) ≠ [] := by simpa using h
    rw [if_neg h, if_neg h', List.length_map, quot_map p q h]
    rfl

theorem std_map (hp : 0 ≤ p) (xs : List ℝ) : std (xs.map (rescale p q)) = fl p 0 (std xs) := by
  unfold std
  by_cases h : xs = []
  · subst h; simp [fl]
  · have h' : xs.map (rescale p q) ≠ [] := by simpa using h
    rw [if_neg h, if_neg h']
    simp only [List.length_map, quot_map p q h, fl]
    congr 1
    have h1 : ∀ x m : ℝ, |rescale p q x - rescale p q m| ^ 2 = rescale (p ^ 2) 0 (|x - m| ^ 2) := by
      intro x m
      have : rescale p q x - rescale p q m = p * (x - m) := by unfold rescale; ring
      rw [this, abs_mul, mul_pow, sq_abs p]
      unfold rescale; ring
    have h2 : (xs.map (rescale p q)).map (fun x => |x - rescale p q (xs.sum / (xs.length : ℝ))| ^ 2) =
        (xs.map (fun x => |x - xs.sum / (xs.length : ℝ)| ^ 2)).map (rescale (p ^ 2) 0) := by
      rw [List.map_map, List.map_map]
      exact List.map_congr_left (fun x _ => h1 x _)
    rw [h2, sum_map]
    simp only [zero_mul, add_zero, rescale]
    rw [mul_div_assoc, Real.sqrt_mul (sq_nonneg p), Real.sqrt_sq hp]

theorem abs_errors (hp : 0 ≤ p) (t y : List ℝ) :
    List.zipWith (fun x y => |x - y|) (t.map (rescale p q)) (y.map (rescale p q)) =
      (List.zipWith (fun x y => |x - y|) t y).map (rescale p 0) := by
  rw [List.zipWith_map, List.map_zipWith]
  congr 1
  funext a b
  have : rescale p q a - rescale p q b = p * (a - b) := by unfold rescale; ring
  rw [this, abs_mul, abs_of_nonneg hp]
  unfold rescale; ring

theorem sq_errors (p q : ℝ) (t y : List ℝ) :
    List.zipWith (fun x y => (x - y) ^ 2) (t.map (rescale p q)) (y.map (rescale p q)) =
      (List.zipWith (fun x y => (x - y) ^ 2) t y).map (rescale (p ^ 2) 0) := by
  rw [List.zipWith_map, List.map_zipWith]
  congr 1
  funext a b
  unfold rescale; ring

theorem sqrtMax0_map (hp : 0 ≤ p) (x : Fl) : sqrtMax0 (fl (p ^ 2) 0 x) = fl p 0 (sqrtMax0 x) := by
  cases x with
  | fin x =>
    simp only [fl, sqrtMax0, rescale, add_zero]
    congr 1
    have h : max (p ^ 2 * x) 0 = p ^ 2 * max x 0 := by
      rw [mul_max_of_nonneg _ _ (sq_nonneg p), mul_zero]
    rw [h, Real.sqrt_mul (sq_nonneg p), Real.sqrt_sq hp]
  | nan => rfl
  | posInf => rfl
  | negInf => simp [fl, sqrtMax0, rescale]

/-- C145, `mean_absolute_error`: the error and its deviation are differences of scores. -/
theorem C145_mae (hp : 0 ≤ p) (t y : List Fl) :
    meanAbsoluteError (t.map (fl p q)) (y.map (fl p q)) =
      (meanAbsoluteError t y).map (fun e => (fl p 0 e.1, fl p 0 e.2)) := by
  simp only [meanAbsoluteError, checkInputs_map]
  cases checkInputs t y with
  | error e => rfl
  | ok x =>
    simp only [Except.map, bind, Except.bind, abs_errors q hp, mean_map, std_map 0 hp]
    rfl

/-- C145, `mean_squared_error`: the root is a difference of scores, mean and deviation of the squared errors are squares. -/
theorem C145_mse (hp : 0 ≤ p) (t y : List Fl) :
    meanSquaredError (t.map (fl p q)) (y.map (fl p q)) =
      (meanSquaredError t y).map (fun e => (fl p 0 e.1, fl (p ^ 2) 0 e.2.1, fl (p ^ 2) 0 e.2.2)) := by
  simp only [meanSquaredError, checkInputs_map]
  cases checkInputs t y with
  | error e => rfl
  | ok x =>
    simp only [Except.map, bind, Except.bind, sq_errors, mean_map, std_map 0 (sq_nonneg p), sqrtMax0_map hp]
    rfl

section
include hp

theorem npHistogram_map (edges : List (Ext ℝ)) (xs : List ℝ) :
    npHistogram (edges.map (edge p q)) (xs.map (rescale p q)) = npHistogram edges xs := by
  have hle : ∀ (b : Ext ℝ) (x : ℝ), (((rescale p q x : ℝ) : WithTop ℝ) : Ext ℝ) ≤ edge p q b ↔ ((x : WithTop ℝ) : Ext ℝ) ≤ b :=
    fun b x => edge_le hp q ((x : WithTop ℝ) : Ext ℝ) b
  have hlt : ∀ (b : Ext ℝ) (x : ℝ), (((rescale p q x : ℝ) : WithTop ℝ) : Ext ℝ) < edge p q b ↔ ((x : WithTop ℝ) : Ext ℝ) < b := by
    intro b x
    rw [← not_le, ← not_le]
    exact not_congr (edge_le hp q b ((x : WithTop ℝ) : Ext ℝ))
  simp only [npHistogram, List.pairwise_map, edge_le hp, ← List.map_dropLast, List.map_map, List.countP_map,
    Function.comp_def, hlt, List.getLast?_map]
  cases edges.getLast? with
  | none => rfl
  | some e => simp only [Option.map_some, hle]

/-- C145, `score_histogram` over a score domain: the counts are the same, the levels are in the new unit. -/
theorem C145_histogram (x : List Fl) (dom : List ℝ) :
    scoreHistogram (x.map (fl p q)) (.triple (rescaleDomain p q dom)) =
      (scoreHistogram x (.triple dom)).map (fun h => (h.1, h.2.map (rescale p q))) := by
  simp only [scoreHistogram, assertAllFinite_map, generateScoreBins_map hp]
  cases assertAllFinite x with
  | error e => rfl
  | ok xs =>
    simp only [Except.map, bind, Except.bind]
    match dom with
    | [] => rfl
    | [_] => rfl
    | [_, _] => rfl
    | lo :: hi :: st :: rest =>
      cases generateScoreBins (lo :: hi :: st :: rest) with
      | error e => rfl
      | ok bins =>
        simp only [npHistogram_map hp]
        cases npHistogram bins xs with
        | error e => rfl
        | ok h =>
          simp only [rescaleDomain, npGet_dom, npArange_map hp]
          cases npArange lo hi st with
          | error e => rfl
          | ok ls => simp [Except.map, pure, Except.pure]

/-- C145, `score_predictor_statistics`: changing the unit of true and predicted scores and of the score domain changes the
report by the unit only: numbers of samples, histograms and densities stay the same. -/
theorem C145_statistics (t y : List Fl) (dom : List ℝ) :
    scorePredictorStatistics (t.map (fl p q)) (y.map (fl p q)) (rescaleDomain p q dom) =
      (scorePredictorStatistics t y dom).map (stats p q) := by
  simp only [scorePredictorStatistics, checkInputs_map, C145_mae q hp.le, C145_mse q hp.le, C145_histogram hp]
  cases checkInputs t y with
  | error e => rfl
  | ok x =>
    simp only [Except.map, bind, Except.bind]
    match dom with
    | [] => rfl
    | [_] => rfl
    | [_, _] => rfl
    | lo :: hi :: st :: rest =>
      simp only [rescaleDomain, npGet_dom, npArange_map hp]
      cases npArange lo hi st with
      | error e => rfl
      | ok ls =>
        simp only [Except.map]
        cases meanAbsoluteError t y with
        | error e => rfl
        | ok mae =>
          simp only
          cases meanSquaredError t y with
          | error e => rfl
          | ok mse =>
            simp only
            cases scoreHistogram t (.triple (lo :: hi :: st :: rest)) with
            | error e => rfl
            | ok ht =>
              simp only
              cases scoreHistogram y (.triple (lo :: hi :: st :: rest)) with
              | error e => rfl
              | ok hy =>
                simp only [pure, Except.pure, stats, histDesc, desc, describe, mean_map, std_map q hp.le, List.length_map,
                  List.map_append, List.map_cons, List.map_nil]

end

/-- The report of a score predictor in the new unit. -/
noncomputable def report (p q : ℝ) (r : PredictorReport) : PredictorReport where
  mae := p * r.mae
  rmse := p * r.rmse
  nSamples := r.nSamples
  true_ := desc p q r.true_
  predicted := desc p q r.predicted

/-- C145, `score_predictor_report`. -/
theorem C145_report (hp : 0 ≤ p) (t y : List Fl) :
    scorePredictorReport (t.map (fl p q)) (y.map (fl p q)) = (scorePredictorReport t y).map (report p q) := by
  simp only [scorePredictorReport, checkInputs_map]
  cases checkInputs t y with
  | error e => rfl
  | ok x =>
    simp only [Except.map, bind, Except.bind, List.map_eq_nil_iff]
    by_cases h : x.1 = []
    · rw [if_pos h, if_pos h]
    · rw [if_neg h, if_neg h]
      simp only [pure, Except.pure, report, desc, describe, mean_map, std_map q hp, List.length_map, abs_errors q hp, sq_errors,
        sum_map, zero_mul, add_zero]
      have h2 : ∀ a n : ℝ, Real.sqrt (max (p ^ 2 * a / n) 0) = p * Real.sqrt (max (a / n) 0) := by
        intro a n
        have : max (p ^ 2 * a / n) 0 = p ^ 2 * max (a / n) 0 := by
          rw [mul_max_of_nonneg _ _ (sq_nonneg p), mul_zero, mul_div_assoc]
        rw [this, Real.sqrt_mul (sq_nonneg p), Real.sqrt_sq hp]
      rw [h2, mul_div_assoc]

/-- The statistics of two predictions from one to five stars, in percentages. -/
example : (0 : ℝ) < 25 ∧ [Fl.fin 1, Fl.fin 5].map (fl 25 (-25)) = [Fl.fin 0, Fl.fin 100] ∧
    rescaleDomain 25 (-25) [1, 5, (1 : ℝ)] = [0, 100, 25] := by
  refine ⟨by norm_num, ?_, ?_⟩
  · simp only [List.map_cons, List.map_nil, fl, rescale]; norm_num
  · simp only [rescaleDomain, rescale]; norm_num

end Kam.Rescale
