/-
C54 (variance with a gamma prior), C55 (`statistics_mean`), C59 (item-finder statistics), C71
(`force_all_finite`), C72 (report and full statistics agree).
-/
import Verif.Metrics.Props2
import Verif.Score.Props

set_option linter.unusedSectionVars false

namespace Kam.Metrics
open scoped BigOperators

theorem gammaVariance_ofFn {n : Nat} (hn : 0 < n) (a b : ℝ) (ha : 0 < a) (hb : 0 < b)
    (y : Fin n → ℝ) :
    gammaVariance a b (List.ofFn y) =
      (n * ((∑ i, (y i - (∑ j, y j) / n) ^ 2) / n) + 2 * b) / (n + 2 * a) := by
  have hn' : (0 : ℝ) < n := by exact_mod_cast hn
  have hv := variance_eq hn y
  simp only [sq_abs] at hv
  have key : (2 * b + ∑ i, y i ^ 2 - (∑ i, y i) ^ 2 / n) / (2 * a + n) =
      (n * ((∑ i, (y i - (∑ j, y j) / n) ^ 2) / n) + 2 * b) / (n + 2 * a) := by
    rw [hv]
    congr 1
    · field_simp
      ring
    · ring
  have hpos : 0 < (n * ((∑ i, (y i - (∑ j, y j) / n) ^ 2) / n) + 2 * b) / (n + 2 * a) := by
    apply div_pos
    · have : 0 ≤ n * ((∑ i, (y i - (∑ j, y j) / n) ^ 2) / n) :=
        mul_nonneg hn'.le (div_nonneg (Finset.sum_nonneg (fun i _ => sq_nonneg _)) hn'.le)
      linarith
    · linarith
  unfold gammaVariance
  simp only [List.length_ofFn, List.map_ofFn, List.sum_ofFn, Function.comp]
  rw [key, if_neg (not_le.2 hpos)]

/-- **C54.** Let `y` be the finite data among `x` (in order).  For `a, b > 0` the variance is positive
and equals `(n * var + 2 b) / (n + 2 a)` with the ordinary variance `var` of `y`; the number of valid
data is `n`.  Only the finite data matter. -/
theorem C54_variance {n : Nat} (hn : 0 < n) (a b : ℝ) (ha : 0 < a) (hb : 0 < b) (x : List Fl)
    (y : Fin n → ℝ) (hy : x.filterMap Fl.toReal? = List.ofFn y) (c : Container) :
    ∃ v, varianceWithGammaPrior x a b false c = .ok (.fin v, n) ∧ 0 < v ∧
      v = (n * ((∑ i, (y i - (∑ j, y j) / n) ^ 2) / n) + 2 * b) / (n + 2 * a) := by
  have hn' : (0 : ℝ) < n := by exact_mod_cast hn
  refine ⟨_, ?_, ?_, rfl⟩
  · unfold varianceWithGammaPrior
    simp only [Bool.false_eq_true, if_false, hy, List.length_ofFn, gammaVariance_ofFn hn a b ha hb]
    rw [if_neg (by omega)]
  · apply div_pos
    · have : 0 ≤ n * ((∑ i, (y i - (∑ j, y j) / n) ^ 2) / n) :=
        mul_nonneg hn'.le (div_nonneg (Finset.sum_nonneg (fun i _ => sq_nonneg _)) hn'.le)
      linarith
    · linarith

/-- **C54.** Adding a constant to all finite data does not change the variance. -/
theorem C54_shift (a b : ℝ) (ha : 0 < a) (hb : 0 < b) (xs : List ℝ) (s : ℝ) (c : Container) :
    varianceWithGammaPrior ((xs.map (· + s)).map Fl.fin) a b false c =
      varianceWithGammaPrior (xs.map Fl.fin) a b false c := by
  have hfm : ∀ l : List ℝ, (l.map Fl.fin).filterMap Fl.toReal? = l := by
    intro l
    rw [List.filterMap_map]
    exact List.filterMap_some
  by_cases hx : xs = []
  · subst hx; rfl
  · have hn : 0 < xs.length := List.length_pos_iff.2 hx
    have hn' : (xs.length : ℝ) ≠ 0 := by exact_mod_cast hn.ne'
    have h1 : List.ofFn (fun i : Fin xs.length => xs[i]) = xs := List.ofFn_getElem
    have h2 : List.ofFn (fun i : Fin xs.length => xs[i] + s) = xs.map (· + s) := by
      conv_rhs => rw [← h1]
      rw [List.map_ofFn]
      rfl
    obtain ⟨v, hv, -, hv'⟩ := C54_variance hn a b ha hb (xs.map Fl.fin) (fun i => xs[i])
      (by rw [hfm, h1]) c
    obtain ⟨w, hw, -, hw'⟩ := C54_variance hn a b ha hb ((xs.map (· + s)).map Fl.fin)
      (fun i => xs[i] + s) (by rw [hfm, h2]) c
    rw [hv, hw, hv', hw']
    congr 5
    apply congrArg
    apply congrArg (· / (xs.length : ℝ))
    apply Finset.sum_congr rfl
    intro i _
    rw [Finset.sum_add_distrib]
    simp only [Finset.sum_const, Finset.card_univ, Fintype.card_fin, nsmul_eq_mul]
    congr 1
    field_simp
    ring

/-- **C54.** Without a finite datum `ValueError` is raised, and only then. -/
theorem C54_rejects (a b : ℝ) (x : List Fl) (c : Container) :
    ((∀ v ∈ x, v.toReal? = none) → varianceWithGammaPrior x a b false c = .error .valueError) ∧
    ((∃ v ∈ x, v.toReal? ≠ none) → ∃ r, varianceWithGammaPrior x a b false c = .ok r) := by
  unfold varianceWithGammaPrior
  simp only [Bool.false_eq_true, if_false]
  constructor
  · intro h
    have : x.filterMap Fl.toReal? = [] := by
      rw [List.filterMap_eq_nil_iff]; exact h
    rw [this]; rfl
  · rintro ⟨v, hv, hn⟩
    obtain ⟨r, hr⟩ := Option.ne_none_iff_exists'.1 hn
    have hm : r ∈ x.filterMap Fl.toReal? := List.mem_filterMap.2 ⟨v, hv, hr⟩
    have := List.length_pos_of_mem hm
    rw [if_neg (by omega)]
    exact ⟨_, rfl⟩

/-- The hypotheses of `C54_variance` are met by a sample with a missing value. -/
example : ([.fin 1, .nan, .fin 3] : List Fl).filterMap Fl.toReal? = List.ofFn ![1, 3] ∧
    (0 : ℝ) < 1 ∧ 0 < 2 := by
  refine ⟨?_, by norm_num, by norm_num⟩
  simp [Fl.toReal?, List.filterMap_cons]

/-! ### C71 -/

/-- What C71 asks for: with `force_all_finite=True` data that are not finite raise `ValueError`. -/
def C71_full (c : Container) : Prop :=
  ∀ (a b : ℝ) (x : List Fl), 0 < a → 0 < b → (∃ v ∈ x, v.toReal? = none) →
    varianceWithGammaPrior x a b true c = .error .valueError

/-- **C71** is false for numpy arrays: `nan` is returned instead. -/
theorem C71_refuted : ¬ C71_full .ndarray := by
  intro h
  have h := h 1 1 [.fin 1, .nan] one_pos one_pos ⟨.nan, by simp, rfl⟩
  unfold varianceWithGammaPrior at h
  rw [assertAllFinite_error ⟨.nan, by simp, rfl⟩] at h
  cases h

/-- **C71** for data passed as a list (what is missing: numpy arrays, see `C71_refuted`). -/
theorem C71_force_finite_partial : C71_full .list := by
  intro a b x _ _ h
  unfold varianceWithGammaPrior
  rw [assertAllFinite_error h]
  rfl

/-- For finite, non-empty data the flag makes no difference. -/
theorem C71_finite_same (a b : ℝ) (xs : List ℝ) (hx : xs ≠ []) (c : Container) :
    varianceWithGammaPrior (xs.map Fl.fin) a b true c =
      varianceWithGammaPrior (xs.map Fl.fin) a b false c := by
  have hfm : (xs.map Fl.fin).filterMap Fl.toReal? = xs := by
    rw [List.filterMap_map]
    exact List.filterMap_some
  have hn : 0 < xs.length := List.length_pos_iff.2 hx
  unfold varianceWithGammaPrior
  rw [assertAllFinite_map, hfm]
  cases c <;> simp only [if_true, hx, if_false, Bool.false_eq_true] <;>
    rw [if_neg (show ¬ xs.length < 1 by omega)]

/-! ### C55 -/

theorem allScalars_map {κ : Type} (s : κ → ℝ) (ks : List κ) :
    allScalars (ks.map (fun k => .scalar (s k))) = some (ks.map s) := by
  induction ks with
  | nil => rfl
  | cons k ks ih => simp [allScalars, ih]

theorem allVecs_map {κ : Type} (n : Nat) (t : κ → List ℝ) (ks : List κ)
    (h : ∀ k ∈ ks, (t k).length = n) :
    allVecs n (ks.map (fun k => .vec (t k))) = some (ks.map t) := by
  induction ks with
  | nil => rfl
  | cons k ks ih =>
    simp [allVecs, ih (fun j hj => h j (by simp [hj])), h k (by simp)]

theorem meanAxis0_scalars {κ : Type} (s : κ → ℝ) (ks : List κ) (h : ks ≠ []) :
    meanAxis0 (ks.map (fun k => .scalar (s k))) =
      .ok (.scalar ((ks.map s).sum / (ks.length : ℝ))) := by
  cases ks with
  | nil => exact absurd rfl h
  | cons k ks =>
    simp only [List.map_cons, meanAxis0, allScalars_map]
    simp

theorem meanAxis0_vecs {κ : Type} (n : Nat) (t : κ → List ℝ) (ks : List κ) (h : ks ≠ [])
    (hl : ∀ k ∈ ks, (t k).length = n) :
    meanAxis0 (ks.map (fun k => .vec (t k))) =
      .ok (.vec ((List.range n).map (fun j =>
        (ks.map (fun k => (t k).getD j 0)).sum / (ks.length : ℝ)))) := by
  cases ks with
  | nil => exact absurd rfl h
  | cons k ks =>
    have hk : (t k).length = n := hl k (by simp)
    simp only [List.map_cons, meanAxis0, hk, allVecs_map n t ks (fun j hj => hl j (by simp [hj]))]
    simp [Function.comp_def]

theorem items_ok {κ β : Type} [LinearOrder κ] (args : List (Dict κ β)) (k : κ) (vals : List β)
    (h : args.map (fun d => d.get? k) = vals.map some) :
    (args.map Arg.dict).mapM (fun a => a.item k) = .ok vals := by
  rw [mapM_map]
  induction args generalizing vals with
  | nil =>
    cases vals with
    | nil => rfl
    | cons v vs => simp at h
  | cons d ds ih =>
    cases vals with
    | nil => simp at h
    | cons v vs =>
      simp only [List.map_cons, List.cons.injEq] at h
      rw [List.mapM_cons, ih vs h.2]
      simp only [Arg.item, Dict.getItem, h.1, bind, Except.bind, pure, Except.pure]

theorem statisticsMean_stats {κ β : Type} [LinearOrder κ] (f : List β → Res Stat)
    (args : List (Dict κ β)) (hargs : args ≠ []) (K : Finset κ)
    (hK : ∀ d ∈ args, ∀ k, (∃ v, d.get? k = some v) ↔ k ∈ K)
    (vals : κ → List β) (hvals : ∀ k ∈ K, args.map (fun d => d.get? k) = (vals k).map some)
    (g : κ → Stat) (hg : ∀ k ∈ K, f (vals k) = .ok (g k)) :
    ∃ ks : List κ, ks.Nodup ∧ (∀ k, k ∈ ks ↔ k ∈ K) ∧
      statisticsMean f (args.map Arg.dict) = meanAxis0 (ks.map g) := by
  cases args with
  | nil => exact absurd rfl hargs
  | cons d ds =>
    have hmem : ∀ k, k ∈ npUnique d.keys ↔ k ∈ K := by
      intro k
      rw [mem_npUnique, Dict.mem_keys_iff]
      exact hK d (by simp) k
    refine ⟨npUnique d.keys, nodup_npUnique _, hmem, ?_⟩
    have : (npUnique d.keys).mapM (fun k => do
        let as ← (Arg.dict d :: ds.map Arg.dict).mapM (fun a : Arg κ β => a.item k)
        f as) = .ok ((npUnique d.keys).map g) := by
      apply mapM_ok
      intro k hk
      have hk := (hmem k).1 hk
      have := items_ok (d :: ds) k (vals k) (hvals k hk)
      simp only [List.map_cons] at this
      rw [this]
      exact hg k hk
    simp only [List.map_cons, statisticsMean]
    rw [this]
    rfl

theorem sum_eq_finset {κ : Type} [DecidableEq κ] (ks : List κ) (hn : ks.Nodup) (K : Finset κ)
    (hm : ∀ k, k ∈ ks ↔ k ∈ K) (s : κ → ℝ) : (ks.map s).sum = ∑ k ∈ K, s k := by
  have : K = ks.toFinset := by
    ext k
    rw [List.mem_toFinset, hm]
  rw [this, List.sum_toFinset s hn]

theorem length_eq_card {κ : Type} [DecidableEq κ] (ks : List κ) (hn : ks.Nodup) (K : Finset κ)
    (hm : ∀ k, k ∈ ks ↔ k ∈ K) : ks.length = K.card := by
  have : K = ks.toFinset := by
    ext k
    rw [List.mem_toFinset, hm]
  rw [this, List.toFinset_card_of_nodup hn]

/-- **C55**, dictionaries (what is missing: lists, see `C55_refuted`).  For dictionaries with the same
set `K` of keys and a statistic with scalar values `s k` on the values with key `k`, the result is the
mean of `s` over `K`; in particular it does not depend on the order of insertion. -/
theorem C55_scalar_partial {κ β : Type} [LinearOrder κ] (f : List β → Res Stat)
    (args : List (Dict κ β)) (hargs : args ≠ []) (K : Finset κ) (hne : K.Nonempty)
    (hK : ∀ d ∈ args, ∀ k, (∃ v, d.get? k = some v) ↔ k ∈ K)
    (vals : κ → List β) (hvals : ∀ k ∈ K, args.map (fun d => d.get? k) = (vals k).map some)
    (s : κ → ℝ) (hs : ∀ k ∈ K, f (vals k) = .ok (.scalar (s k))) :
    statisticsMean f (args.map Arg.dict) = .ok (.scalar ((∑ k ∈ K, s k) / (K.card : ℝ))) := by
  obtain ⟨ks, hn, hm, h⟩ := statisticsMean_stats f args hargs K hK vals hvals (fun k => .scalar (s k)) hs
  have hks : ks ≠ [] := by
    rintro rfl
    obtain ⟨k, hk⟩ := hne
    simpa using (hm k).2 hk
  rw [h, meanAxis0_scalars s ks hks, sum_eq_finset ks hn K hm, length_eq_card ks hn K hm]

/-- **C55**, dictionaries and a vector-valued statistic: the mean is taken componentwise. -/
theorem C55_vector_partial {κ β : Type} [LinearOrder κ] (f : List β → Res Stat)
    (args : List (Dict κ β)) (hargs : args ≠ []) (K : Finset κ) (hne : K.Nonempty)
    (hK : ∀ d ∈ args, ∀ k, (∃ v, d.get? k = some v) ↔ k ∈ K)
    (vals : κ → List β) (hvals : ∀ k ∈ K, args.map (fun d => d.get? k) = (vals k).map some)
    (n : Nat) (t : κ → Fin n → ℝ) (ht : ∀ k ∈ K, f (vals k) = .ok (.vec (List.ofFn (t k)))) :
    statisticsMean f (args.map Arg.dict) =
      .ok (.vec (List.ofFn (fun j => (∑ k ∈ K, t k j) / (K.card : ℝ)))) := by
  obtain ⟨ks, hn, hm, h⟩ := statisticsMean_stats f args hargs K hK vals hvals
    (fun k => .vec (List.ofFn (t k))) ht
  have hks : ks ≠ [] := by
    rintro rfl
    obtain ⟨k, hk⟩ := hne
    simpa using (hm k).2 hk
  rw [h, meanAxis0_vecs n (fun k => List.ofFn (t k)) ks hks (by simp)]
  congr 2
  apply List.ext_getElem
  · simp
  · intro j h1 h2
    simp only [List.length_map, List.length_range] at h1
    simp only [List.getElem_map, List.getElem_range, List.getElem_ofFn]
    rw [← sum_eq_finset ks hn K hm (fun k => t k ⟨j, h1⟩), ← length_eq_card ks hn K hm]
    congr 3
    funext k
    simp [List.getD, h1]

/-- What C55 asks for on lists: the mean over the positions. -/
def C55_lists : Prop :=
  ∀ (f : List ℝ → Res Stat) (args : List (List ℝ)) (n : Nat) (s : Nat → ℝ), args ≠ [] → 0 < n →
    (∀ l ∈ args, l.length = n) →
    (∀ i < n, f (args.map (fun l => l.getD i 0)) = .ok (.scalar (s i))) →
    statisticsMean (κ := Nat) f (args.map Arg.list) =
      .ok (.scalar ((∑ i ∈ Finset.range n, s i) / n))

/-- **C55** is false for lists: they always raise `TypeError`. -/
theorem C55_refuted : ¬ C55_lists ∧
    ∀ (f : List ℝ → Res Stat) (l : List ℝ) (args : List (List ℝ)),
      statisticsMean (κ := Nat) f ((l :: args).map Arg.list) = .error .typeError := by
  refine ⟨fun h => ?_, fun _ _ _ => rfl⟩
  have := h (fun _ => .ok (.scalar 1)) [[1]] 1 (fun _ => 1) (by simp) one_pos (by simp)
    (fun _ _ => rfl)
  cases this

/-- The hypotheses of `C55_scalar_partial` are met by two dictionaries with their keys inserted in
different orders. -/
example : ∃ (args : List (Dict Nat ℝ)) (K : Finset Nat) (vals : Nat → List ℝ),
    args = [[(0, 1), (1, 2)], [(1, 4), (0, 3)]] ∧ args ≠ [] ∧ K.Nonempty ∧
    (∀ d ∈ args, ∀ k, (∃ v, d.get? k = some v) ↔ k ∈ K) ∧
    (∀ k ∈ K, args.map (fun d => d.get? k) = (vals k).map some) := by
  refine ⟨[[(0, 1), (1, 2)], [(1, 4), (0, 3)]], {0, 1},
    fun k => if k = 0 then [1, 3] else [2, 4], rfl, by simp, by simp, ?_, ?_⟩
  · intro d hd k
    simp only [List.mem_cons, List.not_mem_nil, or_false] at hd
    rcases hd with rfl | rfl
    · simp only [Dict.get?]
      by_cases h0 : 0 = k
      · simp [← h0]
      · by_cases h1 : 1 = k
        · simp [← h1]
        · simp [h0, h1, Ne.symm h0, Ne.symm h1]
    · simp only [Dict.get?]
      by_cases h0 : 0 = k
      · simp [← h0]
      · by_cases h1 : 1 = k
        · simp [← h1]
        · simp [h0, h1, Ne.symm h0, Ne.symm h1]
  · intro k hk
    simp only [Finset.mem_insert, Finset.mem_singleton] at hk
    rcases hk with rfl | rfl
    · simp [Dict.get?]
    · simp [Dict.get?]

/-! ### C59 -/

/-- **C59.** For finite true scores that are binary and predictions of the same length, the
statistics contain an AUC exactly when both classes occur, and then it is the AUC of these scores. -/
theorem C59_auc (auc : List ℝ → List ℝ → ℝ) (t p : List ℝ) (hne : t ≠ [])
    (hbin : ∀ s ∈ t, s = 0 ∨ s = 1) (hl : t.length = p.length) :
    ∃ r, itemFinderStatistics auc (t.map Fl.fin) (p.map Fl.fin) = .ok r ∧
      r.nSamples = t.length ∧
      (r.auc.isSome = true ↔ 0 ∈ t ∧ 1 ∈ t) ∧ (0 ∈ t → 1 ∈ t → r.auc = some (auc t p)) ∧
      r.true_ = describe t ∧ r.predicted = describe p := by
  unfold itemFinderStatistics
  rw [assertAllFinite_map, assertAllFinite_map]
  have h1 : isBinaryScore t true = true := (C56_is_binary t).2 ⟨hne, hbin⟩
  simp only [bind, Except.bind, pure, Except.pure, h1, if_true, hl]
  refine ⟨_, rfl, rfl, ?_, ?_, rfl, rfl⟩
  · by_cases h2 : isBinaryScore t false = true
    · have := (C56_is_binary_strict t).1 h2
      simp [h2, this.2.1, this.2.2]
    · have : ¬ (0 ∈ t ∧ 1 ∈ t) := fun h => h2 ((C56_is_binary_strict t).2 ⟨hbin, h⟩)
      simp only [h2]
      simpa using this
  · intro h0 h1
    have h2 : isBinaryScore t false = true := (C56_is_binary_strict t).2 ⟨hbin, h0, h1⟩
    simp [h2]

/-- **C59.** True scores that are not binary (or empty), values that are not finite, and different
lengths raise `ValueError`. -/
theorem C59_rejects (auc : List ℝ → List ℝ → ℝ) (yTrue yPred : List Fl)
    (h : yTrue = [] ∨ (∃ v ∈ yTrue, v ≠ .fin 0 ∧ v ≠ .fin 1) ∨ (∃ v ∈ yPred, v.toReal? = none) ∨
      yTrue.length ≠ yPred.length) :
    itemFinderStatistics auc yTrue yPred = .error .valueError := by
  unfold itemFinderStatistics
  rcases assertAllFinite_cases yTrue with ⟨t, rfl, ht⟩ | ⟨hn, ht⟩
  · simp only [ht, bind, Except.bind, pure, Except.pure]
    by_cases hb : isBinaryScore t true = true
    · have hb' := (C56_is_binary t).1 hb
      simp only [hb, if_true]
      rcases assertAllFinite_cases yPred with ⟨p, rfl, hp⟩ | ⟨hn, hp⟩
      · simp only [hp]
        rw [if_neg]
        intro hl
        rcases h with h | ⟨v, hv, h0, h1⟩ | ⟨v, hv, hv'⟩ | h
        · exact hb'.1 (by simpa using h)
        · rw [List.mem_map] at hv
          obtain ⟨x, hx, rfl⟩ := hv
          rcases hb'.2 x hx with rfl | rfl
          · exact h0 rfl
          · exact h1 rfl
        · rw [List.mem_map] at hv
          obtain ⟨x, hx, rfl⟩ := hv
          cases hv'
        · simp at h
          exact h hl
      · simp only [hp]
    · simp only [hb]
      rfl
  · simp only [ht, bind, Except.bind]

/-- The hypotheses of `C59_auc` are met by three samples. -/
example : ([1, 0, 1] : List ℝ) ≠ [] ∧ (∀ s ∈ ([1, 0, 1] : List ℝ), s = 0 ∨ s = 1) ∧
    ([1, 0, 1] : List ℝ).length = [0.5, 0.2, (0.1 : ℝ)].length :=
  ⟨by simp, by norm_num, rfl⟩

/-! ### C72 -/

/-- **C72.** For non-empty finite samples of equal length and a domain of positive stride the brief
report and the full statistics of a score predictor both succeed and agree on the number of samples,
the mean absolute error, the root mean squared error and the descriptions of both samples. -/
theorem C72_report_agrees {n : Nat} (hn : 0 < n) (t p : Fin n → ℝ) (lo hi st : ℝ) (hst : 0 < st) :
    ∃ r s, scorePredictorReport (floats t) (floats p) = .ok r ∧
      scorePredictorStatistics (floats t) (floats p) [lo, hi, st] = .ok s ∧
      s.nSamples = n ∧ r.nSamples = n ∧
      s.mae.1 = .fin r.mae ∧ s.mse.1 = .fin r.rmse ∧
      s.true_.desc = r.true_ ∧ s.predicted.desc = r.predicted ∧
      scoreHistogram (floats t) (.triple [lo, hi, st]) = .ok (s.true_.histogram, s.levels) ∧
      scoreHistogram (floats p) (.triple [lo, hi, st]) = .ok (s.predicted.histogram, s.levels) := by
  have hhist : ∀ y : Fin n → ℝ, ∃ h, scoreHistogram (floats y) (.triple [lo, hi, st]) =
      .ok (h, (List.range ⌈(hi - lo) / st⌉.toNat).map (fun (i : Nat) => lo + (i : ℝ) * st) ++ [hi]) := by
    intro y
    obtain ⟨g0, g1, g2⟩ := npGet_dom lo hi st []
    unfold scoreHistogram generateScoreBins npArange
    rw [assertAllFinite_floats]
    simp only [bind, Except.bind, pure, Except.pure, g0, g1, g2, hst.ne', if_false, npHistogram,
      if_pos (scoreBins_sorted lo st hst _)]
    exact ⟨_, rfl⟩
  obtain ⟨g0, g1, g2⟩ := npGet_dom lo hi st []
  obtain ⟨h1, hh1⟩ := hhist t
  obtain ⟨h2, hh2⟩ := hhist p
  have hq0 : 0 ≤ (∑ i, (t i - p i) ^ 2) / (n : ℝ) :=
    div_nonneg (Finset.sum_nonneg (fun i _ => by positivity)) (Nat.cast_nonneg n)
  refine ⟨⟨(∑ i, |t i - p i|) / n, Real.sqrt ((∑ i, (t i - p i) ^ 2) / n), n,
      describe (List.ofFn t), describe (List.ofFn p)⟩,
    ⟨n, (List.range ⌈(hi - lo) / st⌉.toNat).map (fun (i : Nat) => lo + (i : ℝ) * st) ++ [hi],
      (mean (List.ofFn (fun i => |t i - p i|)), std (List.ofFn (fun i => |t i - p i|))),
      (sqrtMax0 (mean (List.ofFn (fun i => (t i - p i) ^ 2))),
        mean (List.ofFn (fun i => (t i - p i) ^ 2)), std (List.ofFn (fun i => (t i - p i) ^ 2))),
      ⟨describe (List.ofFn t), h1, density h1⟩, ⟨describe (List.ofFn p), h2, density h2⟩⟩,
    ?_, ?_, rfl, rfl, ?_, ?_, rfl, rfl, hh1, hh2⟩
  rotate_left
  · unfold scorePredictorStatistics
    rw [checkInputs_floats, meanAbsoluteError_floats, meanSquaredError_floats]
    simp only [bind, Except.bind, pure, Except.pure, g0, g1, g2, npArange, hst.ne', if_false, hh1, hh2,
      List.length_ofFn]
  · rw [mean_ofFn hn]
  · show sqrtMax0 (mean (List.ofFn (fun i => (t i - p i) ^ 2))) = _
    rw [mean_ofFn hn]
    simp only [sqrtMax0, max_eq_left hq0]
  · unfold scorePredictorReport
    rw [checkInputs_floats]
    simp only [bind, Except.bind, pure, Except.pure, ofFn_ne_nil hn, if_false, zipWith_ofFn,
      List.sum_ofFn, List.length_ofFn, max_eq_left hq0]

end Kam.Metrics
