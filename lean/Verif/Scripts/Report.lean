/-
The figures in the files the statistics script writes: specification, and the metrics that compute them.
-/
import Verif.Scripts.Stats
import Verif.Scripts.Examples
import Verif.Metrics.Props2
import Verif.Metrics.Props3
import Verif.Metrics.Props4

set_option linter.unusedSectionVars false

namespace Kam.Scripts
open Spec
open Metrics (Fl)

variable {V : Type}

/-! ### Specification -/

/-- The arithmetic mean. -/
noncomputable def avg (xs : List ℝ) : ℝ := xs.sum / xs.length

/-- The standard deviation: the root of the mean squared distance to the mean. -/
noncomputable def dev (xs : List ℝ) : ℝ := Real.sqrt (avg (xs.map (fun x => (x - avg xs) ^ 2)))

/-- The score levels `lo`, `lo + st`, … below `hi`, and `hi`: `n` is the number of those below `hi`. -/
structure Levels (lo hi st : ℝ) (n : Nat) (levels : List ℝ) : Prop where
  below : ∀ i : Nat, i < n ↔ lo + i * st < hi
  levels : levels = (List.range n).map (fun i : Nat => lo + i * st) ++ [hi]

/-- A score falls to level `i` of `0, …, n`: it is less than half a stride away from it, or beyond the outer levels. -/
def AtLevel (lo st : ℝ) (n i : Nat) (x : ℝ) : Prop :=
  (i = 0 ∨ lo + i * st - st / 2 ≤ x) ∧ (i = n ∨ x < lo + i * st + st / 2)

open Classical in
/-- How many scores fall to each level. -/
noncomputable def tally (lo st : ℝ) (n : Nat) (xs : List ℝ) : List Int :=
  (List.range (n + 1)).map (fun i => ((xs.filter (fun x => AtLevel lo st n i x)).length : Int))

/-- What the statistics script reports for a sample of scores: mean, standard deviation, how many scores fall to each level
and what part of them. -/
structure SampleReport (se : StatsEnv V) (out : J V) (key : String) (xs : List ℝ) (lo st : ℝ) (n : Nat) : Prop where
  mean : xs ≠ [] → out.path ["statistics", key, "mean"] = .ok (.leaf (se.num (.fin (avg xs))))
  stdev : xs ≠ [] → out.path ["statistics", key, "stdev"] = .ok (.leaf (se.num (.fin (dev xs))))
  histogram : out.path ["statistics", key, "histogram"] = .ok (.list ((tally lo st n xs).map (fun h => .leaf (se.int h))))
  density : xs ≠ [] → out.path ["statistics", key, "histogram density"] =
    .ok (.list ((tally lo st n xs).map (fun (h : Int) => .leaf (se.num (.fin ((h : ℝ) / xs.length))))))
  once : (tally lo st n xs).sum = xs.length

/-- What the statistics script reports for true and predicted scores of a score predictor: their number, the mean, the standard
deviation and the root of the mean of absolute and squared errors, the score levels, and both samples of scores. -/
structure PredictorReport (se : StatsEnv V) (out : J V) (ps : List (ℝ × ℝ)) (lo hi st : ℝ) : Prop where
  count : out.path ["statistics", "n_samples"] = .ok (.leaf (se.nat ps.length))
  mae : ps ≠ [] → out.path ["statistics", "mean absolute error", "mean"] =
    .ok (.leaf (se.num (.fin (avg (ps.map (fun x => |x.1 - x.2|))))))
  maeDev : ps ≠ [] → out.path ["statistics", "mean absolute error", "stdev"] =
    .ok (.leaf (se.num (.fin (dev (ps.map (fun x => |x.1 - x.2|))))))
  mse : ps ≠ [] → out.path ["statistics", "mean squared error", "mean"] =
    .ok (.leaf (se.num (.fin (avg (ps.map (fun x => (x.1 - x.2) ^ 2))))))
  mseDev : ps ≠ [] → out.path ["statistics", "mean squared error", "stdev"] =
    .ok (.leaf (se.num (.fin (dev (ps.map (fun x => (x.1 - x.2) ^ 2))))))
  rmse : ps ≠ [] → out.path ["statistics", "mean squared error", "rmse"] =
    .ok (.leaf (se.num (.fin (Real.sqrt (avg (ps.map (fun x => (x.1 - x.2) ^ 2)))))))
  scores : ∃ n levels, Levels lo hi st n levels ∧
    out.path ["statistics", "score levels"] = .ok (.list (levels.map (fun x => .leaf (se.num (.fin x))))) ∧
    SampleReport se out "true" (ps.map Prod.fst) lo st n ∧ SampleReport se out "predicted" (ps.map Prod.snd) lo st n

/-- What the statistics script reports for true and predicted scores of an item finder. -/
structure FinderReport (se : StatsEnv V) (out : J V) (ps : List (ℝ × ℝ)) : Prop where
  count : out.path ["statistics", "n_samples"] = .ok (.leaf (se.nat ps.length))
  trueMean : out.path ["statistics", "true", "mean"] = .ok (.leaf (se.num (.fin (avg (ps.map Prod.fst)))))
  trueDev : out.path ["statistics", "true", "stdev"] = .ok (.leaf (se.num (.fin (dev (ps.map Prod.fst)))))
  predictedMean : out.path ["statistics", "predicted", "mean"] = .ok (.leaf (se.num (.fin (avg (ps.map Prod.snd)))))
  predictedDev : out.path ["statistics", "predicted", "stdev"] = .ok (.leaf (se.num (.fin (dev (ps.map Prod.snd)))))
  auc : (∃ x ∈ ps, x.1 = 0) → (∃ x ∈ ps, x.1 = 1) → out.path ["statistics", "area under the curve"] =
    .ok (.leaf (se.num (.fin (se.auc (ps.map Prod.fst) (ps.map Prod.snd)))))
  noAuc : ¬ ((∃ x ∈ ps, x.1 = 0) ∧ (∃ x ∈ ps, x.1 = 1)) → out.path ["statistics", "area under the curve"] = .error .keyError

/-! ### The metrics -/

lemma mean_avg {xs : List ℝ} (h : xs ≠ []) : Metrics.mean xs = .fin (avg xs) := by
  unfold Metrics.mean
  rw [if_neg h]
  rfl

lemma std_dev {xs : List ℝ} (h : xs ≠ []) : Metrics.std xs = .fin (dev xs) := by
  unfold Metrics.std dev avg
  rw [if_neg h]
  simp only [sq_abs, List.length_map]

lemma atLevel_iff {lo st : ℝ} (hst : 0 < st) {n i : Nat} (hi : i ≤ n) (x : ℝ) :
    min n ⌊(x - lo) / st + 1 / 2⌋.toNat = i ↔ AtLevel lo st n i x := by
  unfold AtLevel
  have h1 : ∀ k : Nat, k ≠ 0 → (k ≤ ⌊(x - lo) / st + 1 / 2⌋.toNat ↔ lo + k * st - st / 2 ≤ x) := by
    intro k hk
    have e : k ≤ ⌊(x - lo) / st + 1 / 2⌋.toNat ↔ ((k : Int) ≤ ⌊(x - lo) / st + 1 / 2⌋) := by omega
    rw [e, Int.le_floor, ← sub_le_iff_le_add, le_div_iff₀ hst]
    push_cast
    constructor <;> intro h <;> linarith
  have h2 : ∀ k : Nat, ⌊(x - lo) / st + 1 / 2⌋.toNat ≤ k ↔ x < lo + k * st + st / 2 := by
    intro k
    rw [← Nat.lt_succ_iff, ← not_le, h1 (k + 1) (by omega), not_le]
    push_cast
    constructor <;> intro h <;> linarith
  rw [← h2 i]
  by_cases h0 : i = 0
  · subst h0
    simp only [true_or, true_and]
    omega
  · rw [← h1 i h0]
    simp only [h0, false_or]
    omega

/-- `score_histogram` counts the scores at each level. -/
lemma scoreHistogram_tally {lo hi st : ℝ} (hst : 0 < st) (xs : List ℝ) :
    ∃ n levels, Levels lo hi st n levels ∧
      Metrics.scoreHistogram (xs.map Fl.fin) (.triple [lo, hi, st]) = .ok (tally lo st n xs, levels) ∧ (tally lo st n xs).sum = xs.length := by
  obtain ⟨d0, hd0⟩ : ∃ d0 : ScoreData ℝ Nat Unit Unit, d0.scoreDomain = some [lo, hi, st] := by
    obtain ⟨d, hd⟩ : ∃ d, (ScoreData.init 2 .none : Res (ScoreData ℝ Nat Unit Unit)) = .ok d := ⟨_, rfl⟩
    exact ⟨{ d with scoreDomain := some [lo, hi, st] }, rfl⟩
  obtain ⟨hist, levels, ds, a1, a2, _, a4, a5, _, a7, _⟩ := Metrics.C52_histogram d0 lo hi st hst hd0 xs
  rw [digitizeScore_eq d0 lo hi st hst [] hd0 xs] at a2
  simp only [Except.ok.injEq] at a2
  set n := ⌈(hi - lo) / st⌉.toNat with hn
  have hlev : levels = (List.range n).map (fun i : Nat => lo + i * st) ++ [hi] := by
    unfold Metrics.scoreHistogram at a1
    obtain ⟨ys, _, hh⟩ := bind_ok a1
    simp only [] at hh
    obtain ⟨bins, _, hh⟩ := bind_ok hh
    obtain ⟨h', _, hh⟩ := bind_ok hh
    have g0 : npGet [lo, hi, st] 0 = .ok lo := rfl
    have g1 : npGet [lo, hi, st] 1 = .ok hi := rfl
    have g2 : npGet [lo, hi, st] 2 = .ok st := rfl
    rw [g0, g1, g2] at hh
    simp only [ok_bind] at hh
    obtain ⟨ls, h5, hh⟩ := bind_ok hh
    simp only [pure, Except.pure, Except.ok.injEq, Prod.mk.injEq] at hh
    rw [← hh.2]
    unfold npArange at h5
    rw [if_neg hst.ne'] at h5
    simp only [Except.ok.injEq] at h5
    rw [← h5]
  have hbelow : ∀ i : Nat, i < n ↔ lo + i * st < hi := by
    intro i
    rw [hn, Int.lt_toNat, Int.lt_ceil, lt_div_iff₀ hst]
    push_cast
    constructor <;> intro h <;> linarith
  have hlen : levels.length = n + 1 := by rw [hlev]; simp
  have hh : hist = tally lo st n xs := by
    unfold tally
    apply List.ext_getElem?
    intro i
    by_cases hi' : i < n + 1
    · rw [a5 i (by omega), List.getElem?_map, List.getElem?_range hi', ← a2]
      simp only [Option.map_some, Option.some.injEq, Nat.cast_inj]
      rw [List.count, List.countP_map, List.countP_eq_length_filter]
      congr 1
      apply List.filter_congr
      intro x _
      simp only [Function.comp, beq_eq_decide, Nat.cast_inj]
      exact decide_eq_decide.2 (atLevel_iff hst (by omega) x)
    · rw [List.getElem?_eq_none (by omega), List.getElem?_eq_none (by simp; omega)]
  subst hh
  exact ⟨n, levels, ⟨hbelow, hlev⟩, a1, a7⟩

/-- The statistics of a score predictor in a file. -/
lemma predictor_report {ps : List (ℝ × ℝ)} {lo hi st : ℝ} (hst : 0 < st) :
    ∃ r, Metrics.scorePredictorStatistics (ps.map (fun x => Fl.fin x.1)) (ps.map (fun x => Fl.fin x.2)) [lo, hi, st] = .ok r ∧
      ∀ (se : StatsEnv V) (out : J V), (∀ ks, out.path ("statistics" :: ks) = (predictorTree se r).path ks) →
        PredictorReport se out ps lo hi st := by
  obtain ⟨n, l1, a0, a1, a2⟩ := scoreHistogram_tally (lo := lo) (hi := hi) hst (ps.map Prod.fst)
  obtain ⟨n', l2, b0, b1, b2⟩ := scoreHistogram_tally (lo := lo) (hi := hi) hst (ps.map Prod.snd)
  have hn : n' = n := by
    have h1 := a0.below
    have h2 := b0.below
    rcases lt_trichotomy n n' with h | h | h
    · exact absurd ((h1 n).2 ((h2 n).1 h)) (by omega)
    · exact h.symm
    · exact absurd ((h2 n').2 ((h1 n').1 h)) (by omega)
  subst hn
  have hl : l2 = l1 := by rw [a0.levels, b0.levels]
  subst hl
  have hc : Metrics.checkInputs (ps.map (fun x => Fl.fin x.1)) (ps.map (fun x => Fl.fin x.2)) = .ok (ps.map Prod.fst, ps.map Prod.snd) := by
    have := Metrics.checkInputs_pairs ps
    simpa [List.map_map, Function.comp_def] using this
  have hz : ∀ f : ℝ → ℝ → ℝ, List.zipWith f (ps.map Prod.fst) (ps.map Prod.snd) = ps.map (fun x => f x.1 x.2) := by
    intro f
    rw [List.zipWith_map, List.zipWith_self]
  rw [List.map_map] at a1 b1
  have harr : npArange lo hi st = .ok ((List.range n').map (fun i : Nat => lo + i * st)) := by
    unfold npArange
    rw [if_neg hst.ne']
    have : ⌈(hi - lo) / st⌉.toNat = n' := by
      have key : ∀ i : Nat, i < ⌈(hi - lo) / st⌉.toNat ↔ i < n' := by
        intro i
        rw [a0.below, Int.lt_toNat, Int.lt_ceil, lt_div_iff₀ hst]
        push_cast
        constructor <;> intro h <;> linarith
      rcases lt_trichotomy ⌈(hi - lo) / st⌉.toNat n' with h | h | h
      · exact absurd ((key _).2 h) (by omega)
      · exact h
      · exact absurd ((key _).1 h) (by omega)
    rw [this]
  refine ⟨⟨ps.length, l2,
      (Metrics.mean (ps.map (fun x => |x.1 - x.2|)), Metrics.std (ps.map (fun x => |x.1 - x.2|))),
      (Metrics.sqrtMax0 (Metrics.mean (ps.map (fun x => (x.1 - x.2) ^ 2))),
        Metrics.mean (ps.map (fun x => (x.1 - x.2) ^ 2)), Metrics.std (ps.map (fun x => (x.1 - x.2) ^ 2))),
      ⟨Metrics.describe (ps.map Prod.fst), tally lo st n' (ps.map Prod.fst), Metrics.density (tally lo st n' (ps.map Prod.fst))⟩,
      ⟨Metrics.describe (ps.map Prod.snd), tally lo st n' (ps.map Prod.snd), Metrics.density (tally lo st n' (ps.map Prod.snd))⟩⟩,
    ?_, ?_⟩
  · unfold Metrics.scorePredictorStatistics Metrics.meanAbsoluteError Metrics.meanSquaredError
    rw [hc]
    have g0 : npGet [lo, hi, st] 0 = .ok lo := rfl
    have g1 : npGet [lo, hi, st] 1 = .ok hi := rfl
    have g2 : npGet [lo, hi, st] 2 = .ok st := rfl
    simp only [ok_bind, g0, g1, g2, harr, hz]
    rw [show (fun x : ℝ × ℝ => Fl.fin x.1) = Fl.fin ∘ Prod.fst from rfl, show (fun x : ℝ × ℝ => Fl.fin x.2) = Fl.fin ∘ Prod.snd from rfl, a1, b1]
    simp [ok_bind, pure, Except.pure, ← a0.levels]
  · intro se out hpath
    have mapne : ∀ {β : Type} (f : ℝ × ℝ → β), ps ≠ [] → ps.map f ≠ [] := by
      intro β f h
      simpa using h
    have hden : ∀ xs : List ℝ, xs ≠ [] → (tally lo st n' xs).sum = xs.length →
        Metrics.density (tally lo st n' xs) = (tally lo st n' xs).map (fun (h : Int) => Fl.fin ((h : ℝ) / xs.length)) := by
      intro xs hx hs
      unfold Metrics.density
      rw [hs]
      have : (xs.length : Int) ≠ 0 := by
        have := List.length_pos_iff.2 hx
        omega
      simp only [this, if_false]
      congr 1
    have sample : ∀ (key : String) (xs : List ℝ), (tally lo st n' xs).sum = xs.length →
        (∀ ks, out.path ("statistics" :: key :: ks) =
          (histTree se ⟨Metrics.describe xs, tally lo st n' xs, Metrics.density (tally lo st n' xs)⟩).path ks) →
        SampleReport se out key xs lo st n' := by
      intro key xs hs hp
      refine ⟨fun h => ?_, fun h => ?_, ?_, fun h => ?_, hs⟩
      · rw [hp]
        simp [J.path, histTree, descItems, J.item, Dict.getItem, Dict.get?, Metrics.describe, mean_avg h]
      · rw [hp]
        simp [J.path, histTree, descItems, J.item, Dict.getItem, Dict.get?, Metrics.describe, std_dev h]
      · rw [hp]
        simp [J.path, histTree, descItems, J.item, Dict.getItem, Dict.get?]
      · rw [hp]
        simp [J.path, histTree, descItems, J.item, Dict.getItem, Dict.get?, hden xs h hs]
    refine ⟨?_, fun h => ?_, fun h => ?_, fun h => ?_, fun h => ?_, fun h => ?_, n', l2, a0, ?_, sample "true" _ a2 ?_, sample "predicted" _ b2 ?_⟩
    · rw [hpath]
      simp [J.path, predictorTree, J.item, Dict.getItem, Dict.get?]
    · rw [hpath]
      simp [J.path, predictorTree, J.item, Dict.getItem, Dict.get?, ok_bind, mean_avg (mapne _ h)]
    · rw [hpath]
      simp [J.path, predictorTree, J.item, Dict.getItem, Dict.get?, ok_bind, std_dev (mapne _ h)]
    · rw [hpath]
      simp [J.path, predictorTree, J.item, Dict.getItem, Dict.get?, ok_bind, mean_avg (mapne _ h)]
    · rw [hpath]
      simp [J.path, predictorTree, J.item, Dict.getItem, Dict.get?, ok_bind, std_dev (mapne _ h)]
    · rw [hpath]
      have hq : 0 ≤ avg (ps.map (fun x => (x.1 - x.2) ^ 2)) := by
        refine div_nonneg (List.sum_nonneg ?_) (Nat.cast_nonneg _)
        intro y hy
        obtain ⟨x, _, rfl⟩ := List.mem_map.1 hy
        positivity
      simp [J.path, predictorTree, J.item, Dict.getItem, Dict.get?, ok_bind, mean_avg (mapne _ h), Metrics.sqrtMax0, max_eq_left hq]
    · rw [hpath]
      simp [J.path, predictorTree, J.item, Dict.getItem, Dict.get?]
    · intro ks
      rw [hpath]
      simp [J.path, predictorTree, J.item, Dict.getItem, Dict.get?, ok_bind]
    · intro ks
      rw [hpath]
      simp [J.path, predictorTree, J.item, Dict.getItem, Dict.get?, ok_bind]

/-- The statistics of an item finder in a file. -/
lemma finder_report (auc : List ℝ → List ℝ → ℝ) {ps : List (ℝ × ℝ)} (hne : ps ≠ []) (hbin : ∀ x ∈ ps, x.1 = 0 ∨ x.1 = 1) :
    ∃ r, Metrics.itemFinderStatistics auc (ps.map (fun x => Fl.fin x.1)) (ps.map (fun x => Fl.fin x.2)) = .ok r ∧
      ∀ (se : StatsEnv V) (out : J V), se.auc = auc → (∀ ks, out.path ("statistics" :: ks) = (finderTree se r).path ks) →
        FinderReport se out ps := by
  obtain ⟨r, b1, b2, b3, b4, b5, b6⟩ := Metrics.C59_auc auc (ps.map Prod.fst) (ps.map Prod.snd) (by simpa using hne) (by
    intro s hs
    obtain ⟨x, hx, rfl⟩ := List.mem_map.1 hs
    exact hbin x hx) (by simp)
  rw [List.map_map, List.map_map] at b1
  have hm : ∀ v : ℝ, v ∈ ps.map Prod.fst ↔ ∃ x ∈ ps, x.1 = v := by
    intro v
    rw [List.mem_map]
  rw [hm, hm] at b3 b4
  have n1 : ps.map Prod.fst ≠ [] := by simpa using hne
  have n2 : ps.map Prod.snd ≠ [] := by simpa using hne
  refine ⟨r, b1, ?_⟩
  rintro se out rfl hpath
  refine ⟨?_, ?_, ?_, ?_, ?_, fun h0 h1 => ?_, fun hn => ?_⟩
  · rw [hpath]
    simp [J.path, finderTree, J.item, Dict.getItem, Dict.get?, b2]
  · rw [hpath]
    simp [J.path, finderTree, descItems, J.item, Dict.getItem, Dict.get?, ok_bind, b5, Metrics.describe, mean_avg n1]
  · rw [hpath]
    simp [J.path, finderTree, descItems, J.item, Dict.getItem, Dict.get?, ok_bind, b5, Metrics.describe, std_dev n1]
  · rw [hpath]
    simp [J.path, finderTree, descItems, J.item, Dict.getItem, Dict.get?, ok_bind, b6, Metrics.describe, mean_avg n2]
  · rw [hpath]
    simp [J.path, finderTree, descItems, J.item, Dict.getItem, Dict.get?, ok_bind, b6, Metrics.describe, std_dev n2]
  · rw [hpath]
    simp [J.path, finderTree, descItems, J.item, Dict.getItem, Dict.get?, b4 h0 h1]
  · rw [hpath]
    have : r.auc = none := by
      cases hauc : r.auc with
      | none => rfl
      | some a => exact absurd (b3.1 (by rw [hauc]; rfl)) hn
    simp [J.path, finderTree, descItems, J.item, Dict.getItem, Dict.get?, this]

end Kam.Scripts
