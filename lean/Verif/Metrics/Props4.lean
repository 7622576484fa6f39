/-
C96: the order of the samples does not matter to the metrics.
-/
import Verif.Metrics.Props3

namespace Kam.Metrics

/-! ### pairs of values -/

/-- The two entries of a pair that are numbers, 0 for the others. -/
private def realPair (z : Fl × Fl) : ℝ × ℝ := (z.1.toReal?.getD 0, z.2.toReal?.getD 0)

/-- Either all values of both samples are numbers, or both orders of the pairs are rejected. -/
theorem pairs_cases {zs zs' : List (Fl × Fl)} (h : zs.Perm zs') :
    (∃ rs rs' : List (ℝ × ℝ), rs.Perm rs' ∧ zs = rs.map (fun r => (Fl.fin r.1, Fl.fin r.2)) ∧
      zs' = rs'.map (fun r => (Fl.fin r.1, Fl.fin r.2))) ∨
    (∃ z ∈ zs, z.1.toReal? = none ∨ z.2.toReal? = none) ∧
    checkInputs (zs.map Prod.fst) (zs.map Prod.snd) = .error .valueError ∧
      checkInputs (zs'.map Prod.fst) (zs'.map Prod.snd) = .error .valueError := by
  by_cases hall : ∀ z ∈ zs, ∃ a b, z = (Fl.fin a, Fl.fin b)
  · left
    have key : ∀ l : List (Fl × Fl), (∀ z ∈ l, ∃ a b, z = (Fl.fin a, Fl.fin b)) →
        l = (l.map realPair).map (fun r => (Fl.fin r.1, Fl.fin r.2)) := by
      intro l hl
      rw [List.map_map]
      conv_lhs => rw [← List.map_id l]
      refine List.map_congr_left ?_
      intro z hz
      obtain ⟨a, b, rfl⟩ := hl z hz
      rfl
    exact ⟨zs.map realPair, zs'.map realPair, h.map _, key zs hall,
      key zs' (fun z hz => hall z (h.mem_iff.2 hz))⟩
  · right
    have key : ∀ l : List (Fl × Fl), (¬ ∀ z ∈ l, ∃ a b, z = (Fl.fin a, Fl.fin b)) →
        checkInputs (l.map Prod.fst) (l.map Prod.snd) = .error .valueError := by
      intro l hl
      unfold checkInputs
      rcases assertAllFinite_cases (l.map Prod.fst) with ⟨t, ht, e1⟩ | ⟨_, e1⟩
      · rcases assertAllFinite_cases (l.map Prod.snd) with ⟨p, hp, e2⟩ | ⟨_, e2⟩
        · exfalso
          apply hl
          intro z hz
          have h1 : z.1 ∈ l.map Prod.fst := List.mem_map.2 ⟨z, hz, rfl⟩
          have h2 : z.2 ∈ l.map Prod.snd := List.mem_map.2 ⟨z, hz, rfl⟩
          rw [ht] at h1
          rw [hp] at h2
          obtain ⟨a, _, ha⟩ := List.mem_map.1 h1
          obtain ⟨b, _, hb⟩ := List.mem_map.1 h2
          exact ⟨a, b, by rw [ha, hb]⟩
        · rw [e1, e2]; rfl
      · rw [e1]; rfl
    refine ⟨?_, key zs hall, key zs' (fun hx => hall (fun z hz => hx z (h.mem_iff.1 hz)))⟩
    by_contra hc
    push Not at hc
    apply hall
    rintro ⟨x, y⟩ hz
    obtain ⟨h1, h2⟩ := hc _ hz
    cases x with
    | fin a =>
      cases y with
      | fin b => exact ⟨a, b, rfl⟩
      | nan => exact absurd rfl h2
      | posInf => exact absurd rfl h2
      | negInf => exact absurd rfl h2
    | nan => exact absurd rfl h1
    | posInf => exact absurd rfl h1
    | negInf => exact absurd rfl h1

theorem checkInputs_pairs (rs : List (ℝ × ℝ)) :
    checkInputs ((rs.map (fun r => (Fl.fin r.1, Fl.fin r.2))).map Prod.fst)
      ((rs.map (fun r => (Fl.fin r.1, Fl.fin r.2))).map Prod.snd) = .ok (rs.map Prod.fst, rs.map Prod.snd) := by
  have h1 : (rs.map (fun r => (Fl.fin r.1, Fl.fin r.2))).map Prod.fst = (rs.map Prod.fst).map Fl.fin := by
    simp [List.map_map, Function.comp_def]
  have h2 : (rs.map (fun r => (Fl.fin r.1, Fl.fin r.2))).map Prod.snd = (rs.map Prod.snd).map Fl.fin := by
    simp [List.map_map, Function.comp_def]
  unfold checkInputs
  rw [h1, h2, assertAllFinite_map, assertAllFinite_map]
  simp [bind, Except.bind, pure, Except.pure]

theorem mean_perm {xs ys : List ℝ} (h : xs.Perm ys) : mean xs = mean ys := by
  unfold mean
  by_cases hx : xs = []
  · subst hx; rw [List.nil_perm.1 h]
  · have hy : ys ≠ [] := fun e => hx (by subst e; exact List.perm_nil.1 h)
    rw [if_neg hx, if_neg hy, h.sum_eq, h.length_eq]

theorem std_perm {xs ys : List ℝ} (h : xs.Perm ys) : std xs = std ys := by
  unfold std
  by_cases hx : xs = []
  · subst hx; rw [List.nil_perm.1 h]
  · have hy : ys ≠ [] := fun e => hx (by subst e; exact List.perm_nil.1 h)
    simp only [if_neg hx, if_neg hy]
    rw [h.sum_eq, h.length_eq, (h.map _).sum_eq]

theorem describe_perm {xs ys : List ℝ} (h : xs.Perm ys) : describe xs = describe ys := by
  unfold describe
  rw [mean_perm h, std_perm h]

theorem zipWith_pairs (f : ℝ → ℝ → ℝ) (rs : List (ℝ × ℝ)) :
    List.zipWith f (rs.map Prod.fst) (rs.map Prod.snd) = rs.map (fun r => f r.1 r.2) := by
  induction rs with
  | nil => rfl
  | cons r rs ih => simp [ih]

theorem npHistogram_perm (edges : List (Ext ℝ)) {xs ys : List ℝ} (h : xs.Perm ys) :
    npHistogram edges xs = npHistogram edges ys := by
  unfold npHistogram
  simp only [h.countP_eq]

theorem npMin_perm {xs ys : List ℝ} (h : xs.Perm ys) : npMin xs = npMin ys := by
  cases xs with
  | nil => rw [List.nil_perm.1 h]
  | cons x xs =>
    obtain ⟨m, hm, hle⟩ : ∃ m ∈ x :: xs, ∀ y ∈ x :: xs, m ≤ y := by
      have hne : (x :: xs).toFinset.Nonempty := ⟨x, by simp⟩
      refine ⟨(x :: xs).toFinset.min' hne, List.mem_toFinset.1 (Finset.min'_mem _ hne), ?_⟩
      intro y hy
      exact Finset.min'_le _ _ (List.mem_toFinset.2 hy)
    rw [npMin_eq hm hle, npMin_eq (h.mem_iff.1 hm) (fun y hy => hle y (h.mem_iff.2 hy))]

theorem npMax_perm {xs ys : List ℝ} (h : xs.Perm ys) : npMax xs = npMax ys := by
  cases xs with
  | nil => rw [List.nil_perm.1 h]
  | cons x xs =>
    obtain ⟨m, hm, hle⟩ : ∃ m ∈ x :: xs, ∀ y ∈ x :: xs, y ≤ m := by
      have hne : (x :: xs).toFinset.Nonempty := ⟨x, by simp⟩
      refine ⟨(x :: xs).toFinset.max' hne, List.mem_toFinset.1 (Finset.max'_mem _ hne), ?_⟩
      intro y hy
      exact Finset.le_max' _ _ (List.mem_toFinset.2 hy)
    rw [npMax_eq hm hle, npMax_eq (h.mem_iff.1 hm) (fun y hy => hle y (h.mem_iff.2 hy))]

/-- Either all values are numbers, or both orders are rejected. -/
theorem values_cases {xs ys : List Fl} (h : xs.Perm ys) :
    (∃ rs rs' : List ℝ, rs.Perm rs' ∧ xs = rs.map Fl.fin ∧ ys = rs'.map Fl.fin) ∨
    assertAllFinite xs = .error .valueError ∧ assertAllFinite ys = .error .valueError := by
  rcases assertAllFinite_cases xs with ⟨rs, hx, _⟩ | ⟨⟨v, hv, hn⟩, e1⟩
  · left
    have key : ∀ l : List Fl, (∀ v ∈ l, ∃ r, v = Fl.fin r) → l = (l.map (fun v => v.toReal?.getD 0)).map Fl.fin := by
      intro l hl
      rw [List.map_map]
      conv_lhs => rw [← List.map_id l]
      refine List.map_congr_left ?_
      intro v hv
      obtain ⟨r, rfl⟩ := hl v hv
      rfl
    have hall : ∀ v ∈ xs, ∃ r, v = Fl.fin r := by
      intro v hv
      rw [hx] at hv
      obtain ⟨r, _, e⟩ := List.mem_map.1 hv
      exact ⟨r, e.symm⟩
    exact ⟨_, _, h.map _, key xs hall, key ys (fun v hv => hall v (h.mem_iff.2 hv))⟩
  · exact Or.inr ⟨e1, assertAllFinite_error ⟨v, h.mem_iff.1 hv, hn⟩⟩

/-! ### C96 -/

/-- **C96.** The mean absolute error, its deviation, and the error raised for bad values do not depend on
the order of the pairs of true and predicted values. -/
theorem C96_mean_absolute_error {zs zs' : List (Fl × Fl)} (h : zs.Perm zs') :
    meanAbsoluteError (zs.map Prod.fst) (zs.map Prod.snd) = meanAbsoluteError (zs'.map Prod.fst) (zs'.map Prod.snd) := by
  unfold meanAbsoluteError
  rcases pairs_cases h with ⟨rs, rs', hp, rfl, rfl⟩ | ⟨_, e1, e2⟩
  · rw [checkInputs_pairs, checkInputs_pairs]
    simp only [bind, Except.bind, zipWith_pairs]
    rw [mean_perm (hp.map _), std_perm (hp.map _)]
  · rw [e1, e2]

/-- **C96.** The same for the mean squared error and its root. -/
theorem C96_mean_squared_error {zs zs' : List (Fl × Fl)} (h : zs.Perm zs') :
    meanSquaredError (zs.map Prod.fst) (zs.map Prod.snd) = meanSquaredError (zs'.map Prod.fst) (zs'.map Prod.snd) := by
  unfold meanSquaredError
  rcases pairs_cases h with ⟨rs, rs', hp, rfl, rfl⟩ | ⟨_, e1, e2⟩
  · rw [checkInputs_pairs, checkInputs_pairs]
    simp only [bind, Except.bind, zipWith_pairs]
    rw [mean_perm (hp.map _), std_perm (hp.map _)]
  · rw [e1, e2]

/-- **C96.** Histograms do not depend on the order of the samples. -/
theorem C96_histogram {xs ys : List Fl} (h : xs.Perm ys) (arg : DomainArg) :
    scoreHistogram xs arg = scoreHistogram ys arg := by
  unfold scoreHistogram
  rcases values_cases h with ⟨rs, rs', hp, rfl, rfl⟩ | ⟨e1, e2⟩
  · rw [assertAllFinite_map, assertAllFinite_map]
    simp only [bind, Except.bind]
    cases arg with
    | triple dom => simp only [npHistogram_perm _ hp]
    | pyInt n => rfl
    | npInt n =>
      have he : histEdges rs n = histEdges rs' n := by
        unfold histEdges histRange
        rw [npMin_perm hp, npMax_perm hp]
      simp only [he, npHistogram_perm _ hp]
  · rw [e1, e2]

/-- **C96.** The variance with a prior does not depend on the order of the samples. -/
theorem C96_variance {xs ys : List Fl} (h : xs.Perm ys) (a b : ℝ) (force : Bool) (c : Container) :
    varianceWithGammaPrior xs a b force c = varianceWithGammaPrior ys a b force c := by
  have hg : ∀ {rs rs' : List ℝ}, rs.Perm rs' → gammaVariance a b rs = gammaVariance a b rs' := by
    intro rs rs' hp
    unfold gammaVariance
    simp only [hp.length_eq, hp.sum_eq, (hp.map (fun x : ℝ => x ^ 2)).sum_eq]
  cases force with
  | false =>
    have hp := h.filterMap Fl.toReal?
    simp only [varianceWithGammaPrior, Bool.false_eq_true, if_false, hp.length_eq, hg hp]
  | true =>
    simp only [varianceWithGammaPrior, if_true]
    rcases values_cases h with ⟨rs, rs', hp, rfl, rfl⟩ | ⟨e1, e2⟩
    · rw [assertAllFinite_map, assertAllFinite_map]
      have hn : (rs = []) = (rs' = []) := by
        apply propext
        constructor
        · rintro rfl; exact List.nil_perm.1 hp
        · rintro rfl; exact List.perm_nil.1 hp
      cases c <;> simp only [hp.length_eq, hg hp, hn]
    · rw [e1, e2]
      cases c <;> simp only [h.length_eq]

/-- **C96.** The statistics of a score predictor do not depend on the order of the pairs of true and
predicted scores. -/
theorem C96_score_predictor {zs zs' : List (Fl × Fl)} (h : zs.Perm zs') (dom : List ℝ) :
    scorePredictorStatistics (zs.map Prod.fst) (zs.map Prod.snd) dom =
      scorePredictorStatistics (zs'.map Prod.fst) (zs'.map Prod.snd) dom := by
  unfold scorePredictorStatistics
  rw [C96_mean_absolute_error h, C96_mean_squared_error h, C96_histogram (h.map Prod.fst),
    C96_histogram (h.map Prod.snd)]
  rcases pairs_cases h with ⟨rs, rs', hp, rfl, rfl⟩ | ⟨_, e1, e2⟩
  · rw [checkInputs_pairs, checkInputs_pairs]
    simp only [bind, Except.bind]
    rw [describe_perm (hp.map Prod.fst), describe_perm (hp.map Prod.snd)]
    simp only [List.length_map, hp.length_eq]
  · rw [e1, e2]

/-- **C96.** The same for the brief report of a score predictor. -/
theorem C96_score_predictor_report {zs zs' : List (Fl × Fl)} (h : zs.Perm zs') :
    scorePredictorReport (zs.map Prod.fst) (zs.map Prod.snd) =
      scorePredictorReport (zs'.map Prod.fst) (zs'.map Prod.snd) := by
  unfold scorePredictorReport
  rcases pairs_cases h with ⟨rs, rs', hp, rfl, rfl⟩ | ⟨_, e1, e2⟩
  · rw [checkInputs_pairs, checkInputs_pairs]
    have hn : (rs.map Prod.fst = []) = (rs'.map Prod.fst = []) := by
      apply propext
      simp only [List.map_eq_nil_iff]
      constructor
      · rintro rfl; exact List.nil_perm.1 hp
      · rintro rfl; exact List.perm_nil.1 hp
    simp only [bind, Except.bind, zipWith_pairs]
    rw [describe_perm (hp.map Prod.fst), describe_perm (hp.map Prod.snd)]
    simp only [List.length_map, hp.length_eq, hn, (hp.map _).sum_eq]
  · rw [e1, e2]

theorem isBinaryScore_perm {t t' : List ℝ} (h : t.Perm t') (b : Bool) : isBinaryScore t b = isBinaryScore t' b := by
  have : npUnique t = npUnique t' := npUnique_eq_of_mem (fun x => h.mem_iff)
  unfold isBinaryScore
  rw [this]

/-- **C96.** The statistics of an item finder do not depend on the order of the pairs of true and predicted
scores, given that the area under the curve does not. -/
theorem C96_item_finder (auc : List ℝ → List ℝ → ℝ)
    (hauc : ∀ rs rs' : List (ℝ × ℝ), rs.Perm rs' →
      auc (rs.map Prod.fst) (rs.map Prod.snd) = auc (rs'.map Prod.fst) (rs'.map Prod.snd))
    {zs zs' : List (Fl × Fl)} (h : zs.Perm zs') :
    itemFinderStatistics auc (zs.map Prod.fst) (zs.map Prod.snd) =
      itemFinderStatistics auc (zs'.map Prod.fst) (zs'.map Prod.snd) := by
  have hrej : ∀ l : List (Fl × Fl), (∃ z ∈ l, z.1.toReal? = none ∨ z.2.toReal? = none) →
      itemFinderStatistics auc (l.map Prod.fst) (l.map Prod.snd) = .error .valueError := by
    rintro l ⟨z, hz, h1 | h2⟩
    · refine C59_rejects _ _ _ (Or.inr (Or.inl ⟨z.1, List.mem_map.2 ⟨z, hz, rfl⟩, ?_, ?_⟩))
      · intro e; rw [e] at h1; cases h1
      · intro e; rw [e] at h1; cases h1
    · exact C59_rejects _ _ _ (Or.inr (Or.inr (Or.inl ⟨z.2, List.mem_map.2 ⟨z, hz, rfl⟩, h2⟩)))
  rcases pairs_cases h with ⟨rs, rs', hp, rfl, rfl⟩ | ⟨⟨z, hz, hn⟩, _, _⟩
  · have h1 : ∀ rs : List (ℝ × ℝ), (rs.map (fun r => (Fl.fin r.1, Fl.fin r.2))).map Prod.fst = (rs.map Prod.fst).map Fl.fin := by
      intro rs; simp [List.map_map, Function.comp_def]
    have h2 : ∀ rs : List (ℝ × ℝ), (rs.map (fun r => (Fl.fin r.1, Fl.fin r.2))).map Prod.snd = (rs.map Prod.snd).map Fl.fin := by
      intro rs; simp [List.map_map, Function.comp_def]
    unfold itemFinderStatistics
    rw [h1, h2, h1, h2, assertAllFinite_map, assertAllFinite_map, assertAllFinite_map, assertAllFinite_map]
    simp only [bind, Except.bind, isBinaryScore_perm (hp.map Prod.fst), hauc rs rs' hp]
    rw [describe_perm (hp.map Prod.fst), describe_perm (hp.map Prod.snd)]
    simp only [List.length_map, hp.length_eq]
  · rw [hrej zs ⟨z, hz, hn⟩, hrej zs' ⟨z, h.mem_iff.1 hz, hn⟩]

/-- The area under the curve: the share of pairs of a positive and a negative sample that are in the right
order, equal predictions counting one half.  Library function `sklearn.metrics.roc_auc_score`. -/
noncomputable def pairsAuc (t p : List ℝ) : ℝ :=
  let rs := t.zip p
  let pos := rs.filter (fun r => r.1 = 1)
  let neg := rs.filter (fun r => r.1 = 0)
  (pos.map (fun a => (neg.map (fun b => if b.2 < a.2 then (1 : ℝ) else if a.2 = b.2 then 1 / 2 else 0)).sum)).sum /
    ((pos.length : ℝ) * (neg.length : ℝ))

/-- The hypothesis of `C96_item_finder` is met by the area under the curve. -/
theorem pairsAuc_perm {rs rs' : List (ℝ × ℝ)} (h : rs.Perm rs') :
    pairsAuc (rs.map Prod.fst) (rs.map Prod.snd) = pairsAuc (rs'.map Prod.fst) (rs'.map Prod.snd) := by
  have hz : ∀ l : List (ℝ × ℝ), (l.map Prod.fst).zip (l.map Prod.snd) = l := by
    intro l
    induction l with
    | nil => rfl
    | cons x l ih => simp [ih]
  unfold pairsAuc
  simp only [hz]
  have h1 := h.filter (fun r => decide (r.1 = 1))
  have h0 := h.filter (fun r => decide (r.1 = 0))
  have hs : ∀ a : ℝ × ℝ, ((rs.filter (fun r => decide (r.1 = 0))).map
      (fun b => if b.2 < a.2 then (1 : ℝ) else if a.2 = b.2 then 1 / 2 else 0)).sum =
      ((rs'.filter (fun r => decide (r.1 = 0))).map
      (fun b => if b.2 < a.2 then (1 : ℝ) else if a.2 = b.2 then 1 / 2 else 0)).sum := fun a => (h0.map _).sum_eq
  simp only [hs, (h1.map _).sum_eq, h1.length_eq, h0.length_eq]

/-- The hypotheses of C96 are met by three pairs in two orders; both finders give a result. -/
example : ∃ (zs zs' : List (Fl × Fl)) (r : FinderStats), zs ≠ zs' ∧ zs.Perm zs' ∧
    itemFinderStatistics pairsAuc (zs.map Prod.fst) (zs.map Prod.snd) = .ok r ∧
    itemFinderStatistics pairsAuc (zs'.map Prod.fst) (zs'.map Prod.snd) = .ok r := by
  have hp : [(Fl.fin 1, Fl.fin 3), (Fl.fin 0, Fl.fin 2), (Fl.fin 1, Fl.fin 1)].Perm
      [(Fl.fin 0, Fl.fin 2), (Fl.fin 1, Fl.fin 3), (Fl.fin 1, Fl.fin 1)] := List.Perm.swap _ _ _
  obtain ⟨r, hr, _⟩ := C59_auc pairsAuc [1, 0, 1] [3, 2, 1] (by simp) (by norm_num) rfl
  refine ⟨_, _, r, ?_, hp, hr, ?_⟩
  · simp
  · rw [← C96_item_finder pairsAuc (fun _ _ => pairsAuc_perm) hp]; exact hr

end Kam.Metrics
