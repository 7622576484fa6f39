/-
C52, C53: histograms of scores.
-/
import Verif.Metrics.Props
import Verif.Score.Lemmas

set_option linter.unusedSectionVars false

namespace Kam.Metrics
open scoped BigOperators

/-- In a non-decreasing list the number of entries at or below `x` is at most `j` exactly when the
`j`-th entry is above `x`. -/
theorem countP_le_iff {β : Type} [LinearOrder β] (l : List β) (h : l.Pairwise (· ≤ ·)) (x : β)
    (j : Nat) (hj : j < l.length) :
    l.countP (fun b => decide (b ≤ x)) ≤ j ↔ x < l[j] := by
  induction l generalizing j with
  | nil => simp at hj
  | cons a l ih =>
    rw [List.pairwise_cons] at h
    by_cases ha : a ≤ x
    · rw [List.countP_cons_of_pos (by simpa using ha)]
      cases j with
      | zero => simp [ha]
      | succ j =>
        rw [Nat.add_le_add_iff_right, ih h.2 j (by simpa using hj)]
        simp
    · have h0 : l.countP (fun b => decide (b ≤ x)) = 0 := by
        rw [List.countP_eq_zero]
        intro b hb
        simpa using lt_of_lt_of_le (not_le.1 ha) (h.1 b hb)
      rw [List.countP_cons_of_neg (by simpa using ha), h0]
      constructor
      · intro _
        cases j with
        | zero => simpa using ha
        | succ j => exact lt_of_lt_of_le (not_le.1 ha) (h.1 _ (by simp))
      · intro _; omega

theorem countP_sub {β : Type} (xs : List β) (c : β → Nat) (i : Nat) :
    (xs.countP (fun x => decide (c x ≤ i + 1)) : Int) - (xs.countP (fun x => decide (c x ≤ i)) : Int) =
      (xs.countP (fun x => decide (c x = i + 1)) : Int) := by
  induction xs with
  | nil => simp
  | cons x xs ih =>
    simp only [List.countP_cons, decide_eq_true_eq]
    push_cast
    split_ifs <;> omega

/-- The cumulated counts of a histogram, for edges of which the last is not below any sample. -/
theorem npHistogram_get {edges : List (Ext ℝ)} {xs : List ℝ} {hist : List Int}
    (h : npHistogram edges xs = .ok hist) (hne : edges ≠ [])
    (htop : ∀ x ∈ xs, ((x : WithTop ℝ) : Ext ℝ) ≤ edges.getLast hne) :
    hist.length = edges.length - 1 ∧
    ∀ (i : Nat) (hi : i + 1 < edges.length), hist[i]? =
      some ((if i + 2 = edges.length then (xs.length : Int)
          else (xs.countP (fun (x : ℝ) => decide (((x : WithTop ℝ) : Ext ℝ) < edges[i + 1])) : Int)) -
        (xs.countP (fun (x : ℝ) => decide (((x : WithTop ℝ) : Ext ℝ) < edges[i]'(by omega))) : Int)) := by
  unfold npHistogram at h
  split at h
  · rw [List.getLast?_eq_some_getLast hne] at h
    injection h with h
    have hlast : xs.countP (fun (x : ℝ) => decide (((x : WithTop ℝ) : Ext ℝ) ≤ edges.getLast hne)) =
        xs.length := by
      rw [List.countP_eq_length]
      intro x hx
      simpa using htop x hx
    simp only [hlast] at h
    have hlen : 0 < edges.length := List.length_pos_iff.2 hne
    subst h
    constructor
    · simp
    · intro i hi
      rw [List.getElem?_zipWith, List.getElem?_append_left (by simp; omega), List.getElem?_tail]
      by_cases h2 : i + 2 = edges.length
      · rw [List.getElem?_append_right (by simp; omega)]
        simp only [h2, if_true, List.length_map, List.length_dropLast]
        have : i + 1 - (edges.length - 1) = 0 := by omega
        rw [this]
        simp only [List.getElem?_map, List.getElem?_cons_zero]
        rw [List.getElem?_eq_getElem (by simp; omega)]
        simp
      · rw [List.getElem?_append_left (by simp; omega)]
        simp only [h2, if_false, List.getElem?_map]
        rw [List.getElem?_eq_getElem (by simp; omega), List.getElem?_eq_getElem (by simp; omega)]
        simp
  · cases h

theorem sum_range_count (n : Nat) (ds : List Int) (h : ∀ d ∈ ds, 0 ≤ d ∧ d < n) :
    ((List.range n).map (fun i : Nat => (ds.count (i : Int) : Int))).sum = ds.length := by
  induction ds with
  | nil => simp
  | cons d ds ih =>
    have ih := ih (fun e he => h e (by simp [he]))
    obtain ⟨h0, hn⟩ := h d (by simp)
    obtain ⟨m, rfl⟩ := Int.eq_ofNat_of_zero_le h0
    have hm : m < n := by exact_mod_cast hn
    have h1 : ∀ k : Nat, ((List.range k).map (fun i : Nat => (((m : Int) :: ds).count (i : Int) : Int))).sum =
        ((List.range k).map (fun i : Nat => (ds.count (i : Int) : Int))).sum + (if m < k then 1 else 0) := by
      intro k
      induction k with
      | zero => simp
      | succ k ihk =>
        rw [List.range_succ, List.map_append, List.sum_append, List.map_append, List.sum_append, ihk]
        simp only [List.map_cons, List.map_nil, List.sum_singleton, List.count_cons, beq_iff_eq,
          Nat.cast_inj]
        push_cast
        split_ifs <;> omega
    rw [h1, ih, if_pos hm]
    simp

/-- **C52.** With a domain of positive stride, `score_histogram` reports one bin per score level;
bin `i` counts exactly the samples that a container with this domain digitizes to `i`; the counts
sum to the number of samples; and the density of a non-empty sample sums to one. -/
theorem C52_histogram {α φ ε : Type} [LinearOrder α] (d : ScoreData ℝ α φ ε) (lo hi st : ℝ)
    (hst : 0 < st) (hd : d.scoreDomain = some [lo, hi, st]) (xs : List ℝ) :
    ∃ hist levels ds, scoreHistogram (xs.map Fl.fin) (.triple [lo, hi, st]) = .ok (hist, levels) ∧
      d.digitizeScore (some xs) = .ok ds ∧ ds.length = xs.length ∧
      hist.length = levels.length ∧
      (∀ i : Nat, i < levels.length → hist[i]? = some (ds.count (i : Int) : Int)) ∧
      (∀ e ∈ ds, 0 ≤ e ∧ e < levels.length) ∧
      hist.sum = xs.length ∧
      (xs ≠ [] → ∃ w : List ℝ, density hist = w.map Fl.fin ∧ w.sum = 1 ∧ ∀ v ∈ w, 0 ≤ v) := by
  have hdig := digitizeScore_eq d lo hi st hst [] hd xs
  obtain ⟨g0, g1, g2⟩ := npGet_dom lo hi st []
  set N := ⌈(hi - lo) / st⌉.toNat with hN
  set bins : List (Ext ℝ) := [⊥] ++ ((List.range N).map (fun (i : Nat) => lo + (i : ℝ) * st)).map
      (fun b => (((b + st / 2 : ℝ) : WithTop ℝ) : Ext ℝ)) ++ [((⊤ : WithTop ℝ) : Ext ℝ)] with hbins
  have hsorted : bins.Pairwise (· ≤ ·) := scoreBins_sorted lo st hst N
  have hblen : bins.length = N + 2 := by simp [hbins]
  have hne : bins ≠ [] := by intro h; rw [h] at hblen; simp at hblen
  have hgb : generateScoreBins [lo, hi, st] = .ok bins := by
    unfold generateScoreBins npArange
    simp only [g0, g1, g2, hst.ne', if_false, bind, Except.bind, pure, Except.pure]
    rfl
  obtain ⟨hist, hh⟩ : ∃ hist, npHistogram bins xs = .ok hist := by
    unfold npHistogram
    rw [if_pos hsorted]
    exact ⟨_, rfl⟩
  have htop : ∀ x ∈ xs, ((x : WithTop ℝ) : Ext ℝ) ≤ bins.getLast hne := by
    intro x _
    have : bins.getLast hne = ((⊤ : WithTop ℝ) : Ext ℝ) := by
      rw [List.getLast_eq_iff_getLast?_eq_some, hbins, List.getLast?_concat]
    rw [this]
    exact WithBot.coe_le_coe.2 le_top
  obtain ⟨hlen, hget⟩ := npHistogram_get hh hne htop
  set ds : List Int := xs.map (fun x => ((min N ⌊(x - lo) / st + 1 / 2⌋.toNat : Nat) : Int)) with hds
  have hlv : ((List.range N).map (fun (i : Nat) => lo + (i : ℝ) * st) ++ [hi]).length = N + 1 := by simp
  have hcount : ∀ i : Nat, i < N + 1 → hist[i]? = some (ds.count (i : Int) : Int) := by
    intro i hi
    rw [hget i (by omega)]
    set c : ℝ → Nat := fun x => bins.countP (fun b => decide (b ≤ ((x : WithTop ℝ) : Ext ℝ))) with hc
    have hcx : ∀ x, c x = min N ⌊(x - lo) / st + 1 / 2⌋.toNat + 1 := fun x =>
      scoreBins_count lo st hst N x
    have hlt : ∀ (j : Nat) (hj : j < bins.length),
        xs.countP (fun (x : ℝ) => decide (((x : WithTop ℝ) : Ext ℝ) < bins[j])) =
          xs.countP (fun x => decide (c x ≤ j)) := by
      intro j hj
      apply List.countP_congr
      intro x _
      simp only [decide_eq_true_eq]
      exact (countP_le_iff bins hsorted _ j hj).symm
    have hall : (xs.length : Int) = xs.countP (fun x => decide (c x ≤ N + 1)) := by
      congr 1
      symm
      rw [List.countP_eq_length]
      intro x _
      simp only [decide_eq_true_eq, hcx]
      omega
    have hup : (if i + 2 = bins.length then (xs.length : Int)
          else (xs.countP (fun (x : ℝ) => decide (((x : WithTop ℝ) : Ext ℝ) < bins[i + 1]'(by omega))) : Int)) =
        xs.countP (fun x => decide (c x ≤ i + 1)) := by
      split
      · rename_i h
        have : N = i := by omega
        subst this
        exact hall
      · rw [hlt]
    rw [hup, hlt, countP_sub]
    congr 2
    rw [hds, List.count, List.countP_map]
    apply List.countP_congr
    intro x _
    simp only [decide_eq_true_eq, hcx, Function.comp, beq_iff_eq]
    omega
  have hrange : ∀ e ∈ ds, 0 ≤ e ∧ e < (N + 1 : Nat) := by
    intro e he
    rw [hds, List.mem_map] at he
    obtain ⟨x, _, rfl⟩ := he
    omega
  have hhist : hist = (List.range (N + 1)).map (fun i : Nat => (ds.count (i : Int) : Int)) := by
    apply List.ext_getElem?
    intro i
    by_cases hi : i < N + 1
    · rw [hcount i hi]
      simp [hi]
    · rw [List.getElem?_eq_none (by omega), List.getElem?_eq_none (by simp; omega)]
  have hsum : hist.sum = xs.length := by
    rw [hhist, sum_range_count (N + 1) ds hrange, hds, List.length_map]
  refine ⟨hist, (List.range N).map (fun (i : Nat) => lo + (i : ℝ) * st) ++ [hi], ds, ?_, hdig,
    by simp [hds], by rw [hlv]; omega, ?_, ?_, hsum, ?_⟩
  · unfold scoreHistogram
    rw [assertAllFinite_map]
    simp only [bind, Except.bind, pure, Except.pure, hgb, hh, g0, g1, g2, npArange, hst.ne', if_false]
    rfl
  · intro i hi
    rw [hlv] at hi
    exact hcount i hi
  · rw [hlv]; exact hrange
  · intro hxs
    have hpos : 0 < xs.length := List.length_pos_iff.2 hxs
    have hs0 : hist.sum ≠ 0 := by rw [hsum]; omega
    refine ⟨hist.map (fun (h : Int) => (h : ℝ) / (hist.sum : ℝ)), ?_, ?_, ?_⟩
    · unfold density
      simp only [hs0, if_false, List.map_map]
      rfl
    · have : ∀ l : List Int, (l.map (fun (h : Int) => (h : ℝ) / (hist.sum : ℝ))).sum =
          (l.sum : ℝ) / (hist.sum : ℝ) := by
        intro l
        induction l with
        | nil => simp
        | cons a l ih => simp only [List.map_cons, List.sum_cons, ih, Int.cast_add, add_div]
      rw [this, div_self]
      exact_mod_cast hs0
    · intro v hv
      rw [List.mem_map] at hv
      obtain ⟨a, ha, rfl⟩ := hv
      have ha0 : 0 ≤ a := by
        rw [hhist, List.mem_map] at ha
        obtain ⟨i, _, rfl⟩ := ha
        omega
      apply div_nonneg
      · exact_mod_cast ha0
      · rw [hsum]; positivity

/-- **C52.** The reported levels are the minimum, the minimum plus multiples of the stride below the
maximum, and the maximum. -/
theorem C52_levels (x : List Fl) (lo hi st : ℝ) (hst : 0 < st) (hist : List Int) (levels : List ℝ)
    (h : scoreHistogram x (.triple [lo, hi, st]) = .ok (hist, levels)) :
    levels.getLast? = some hi ∧
    ∀ v, v ∈ levels.dropLast ↔ ∃ i : Nat, v = lo + i * st ∧ v < hi := by
  unfold scoreHistogram at h
  obtain ⟨g0, g1, g2⟩ := npGet_dom lo hi st []
  rcases assertAllFinite_cases x with ⟨rs, rfl, hx⟩ | ⟨-, hx⟩
  · simp only [hx, bind, Except.bind, pure, Except.pure] at h
    cases hb : generateScoreBins [lo, hi, st] with
    | error e => rw [hb] at h; cases h
    | ok bins =>
      rw [hb] at h
      simp only at h
      cases hh : npHistogram bins rs with
      | error e => rw [hh] at h; cases h
      | ok hist' =>
        rw [hh] at h
        simp only [g0, g1, g2, npArange, hst.ne', if_false, Except.ok.injEq, Prod.mk.injEq] at h
        rw [← h.2]
        refine ⟨by simp, ?_⟩
        intro v
        simp only [List.dropLast_concat, List.mem_map, List.mem_range]
        have key : ∀ i : Nat, i < ⌈(hi - lo) / st⌉.toNat ↔ lo + (i : ℝ) * st < hi := by
          intro i
          rw [Int.lt_toNat, Int.lt_ceil, lt_div_iff₀ hst]
          push_cast
          constructor <;> intro h <;> linarith
        constructor
        · rintro ⟨i, hi', rfl⟩
          exact ⟨i, rfl, (key i).1 hi'⟩
        · rintro ⟨i, rfl, hi'⟩
          exact ⟨i, (key i).2 hi', rfl⟩
  · simp only [hx, bind, Except.bind] at h
    cases h

/-- The hypotheses of `C52_histogram` are met by the domain 1, 2, ..., 5 and three samples. -/
example : ∃ (d : ScoreData ℝ Nat Nat Nat) (xs : List ℝ),
    d.scoreDomain = some [1, 5, 1] ∧ (0 : ℝ) < 1 ∧ xs ≠ [] ∧ xs = [1, 3, 5] := by
  refine ⟨⟨⟨2, [], [], [], [], 2, [0, 1], 0, none, none⟩, some [1, 5, 1], none, some 5⟩, [1, 3, 5],
    rfl, by norm_num, by simp, rfl⟩

/-- What C53 asks for: with an integer number `n ≥ 1` of bins, `score_histogram` succeeds and returns
`n` bins. -/
def C53_full (mk : Int → DomainArg) : Prop :=
  ∀ (xs : List ℝ) (n : Nat), 1 ≤ n → ∃ hist scores,
    scoreHistogram (xs.map Fl.fin) (mk n) = .ok (hist, scores) ∧ hist.length = n

/-- **C53** is false for Python integers: every number of bins raises `TypeError`. -/
theorem C53_refuted : ¬ C53_full .pyInt ∧
    ∀ (xs : List ℝ) (n : Int), scoreHistogram (xs.map Fl.fin) (.pyInt n) = .error .typeError := by
  have h : ∀ (xs : List ℝ) (n : Int),
      scoreHistogram (xs.map Fl.fin) (.pyInt n) = .error .typeError := by
    intro xs n
    unfold scoreHistogram
    rw [assertAllFinite_map]
    rfl
  refine ⟨fun hf => ?_, h⟩
  obtain ⟨a, b, hab, -⟩ := hf [] 1 (le_refl 1)
  rw [h] at hab
  cases hab

theorem npMin_eq {xs : List ℝ} {m : ℝ} (hm : m ∈ xs) (hle : ∀ y ∈ xs, m ≤ y) : npMin xs = .ok m := by
  obtain ⟨m', h, hm', hle'⟩ := npMin_ok (List.ne_nil_of_mem hm)
  rw [h, le_antisymm (hle' m hm) (hle m' hm')]

theorem npMax_eq {xs : List ℝ} {m : ℝ} (hm : m ∈ xs) (hle : ∀ y ∈ xs, y ≤ m) : npMax xs = .ok m := by
  obtain ⟨m', h, hm', hle'⟩ := npMax_ok (List.ne_nil_of_mem hm)
  rw [h, le_antisymm (hle m' hm') (hle' m hm)]

theorem countP_lt_sub (xs : List ℝ) {a b : ℝ} (hab : a ≤ b) :
    (xs.countP (fun x => decide (x < b)) : Int) - (xs.countP (fun x => decide (x < a)) : Int) =
      (xs.countP (fun x => decide (a ≤ x ∧ x < b)) : Int) := by
  induction xs with
  | nil => simp
  | cons x xs ih =>
    simp only [List.countP_cons, decide_eq_true_eq]
    push_cast
    by_cases h1 : x < a
    · have h2 : x < b := lt_of_lt_of_le h1 hab
      have h3 : ¬ a ≤ x := not_le.2 h1
      simp only [h1, h2, h3, if_true, false_and, if_false]
      omega
    · have h3 : a ≤ x := not_lt.1 h1
      by_cases h2 : x < b
      · simp only [h1, h2, h3, if_true, and_self, if_false]
        omega
      · simp only [h1, h2, and_false, if_false]
        omega

theorem hist_bins (xs : List ℝ) (n : Nat) (hn : 1 ≤ n) (lo hi : ℝ) (hr : histRange xs = (lo, hi)) (hlt : lo < hi)
    (hhi' : ∀ y ∈ xs, y ≤ hi) :
    ∃ hist scores, scoreHistogram (xs.map Fl.fin) (.npInt n) = .ok (hist, scores) ∧
      hist.length = n ∧ scores.length = n ∧
      (∀ i : Nat, i < n →
        hist[i]? = some (xs.countP (fun (x : ℝ) =>
          decide (lo + i * ((hi - lo) / n) ≤ x ∧
            (x < lo + (i + 1) * ((hi - lo) / n) ∨ i + 1 = n))) : Int) ∧
        scores[i]? = some (lo + (i + 1 / 2) * ((hi - lo) / n))) := by
  have hn0 : (0 : ℝ) < n := by exact_mod_cast hn
  have hw : 0 < (hi - lo) / n := div_pos (by linarith) hn0
  set w := (hi - lo) / n with hwdef
  have hwn : n * w = hi - lo := by rw [hwdef]; field_simp
  set edges : List ℝ := (List.range (n + 1)).map (fun (i : Nat) => lo + (i : ℝ) * w) with hedges
  have hedge : histEdges xs n = .ok edges := by
    unfold histEdges npLinspace
    rw [hr, if_neg (by omega), if_neg (by omega), hedges]
    have h1 : ((n : Int) + 1).toNat = n + 1 := by omega
    have h2 : ¬ ((n : Int) + 1 = 1) := by omega
    simp only [h1, h2, if_false]
    congr 2
    funext i
    push_cast
    rw [show (n : ℝ) + 1 - 1 = n by ring]
  have helen : edges.length = n + 1 := by simp [hedges]
  set eb : List (Ext ℝ) := edges.map (fun (e : ℝ) => ((e : WithTop ℝ) : Ext ℝ)) with heb
  have heblen : eb.length = n + 1 := by simp [heb, helen]
  have hget' : ∀ (j : Nat) (hj : j < eb.length), eb[j] = (((lo + (j : ℝ) * w : ℝ) : WithTop ℝ) : Ext ℝ) := by
    intro j hj
    simp [heb, hedges]
  have hsorted : eb.Pairwise (· ≤ ·) := by
    rw [heb, hedges, List.map_map, List.pairwise_map]
    apply List.Pairwise.imp _ (List.pairwise_lt_range (n := n + 1))
    intro a b hab
    simp only [Function.comp_apply, WithBot.coe_le_coe, WithTop.coe_le_coe]
    have : (a : ℝ) ≤ b := by exact_mod_cast hab.le
    nlinarith
  have hne : eb ≠ [] := by intro h; rw [h] at heblen; simp at heblen
  obtain ⟨hist, hh⟩ : ∃ hist, npHistogram eb xs = .ok hist := by
    unfold npHistogram
    rw [if_pos hsorted]
    exact ⟨_, rfl⟩
  have htop : ∀ x ∈ xs, ((x : WithTop ℝ) : Ext ℝ) ≤ eb.getLast hne := by
    intro x hx
    rw [List.getLast_eq_getElem, hget']
    simp only [WithBot.coe_le_coe, WithTop.coe_le_coe]
    have : ((eb.length - 1 : Nat) : ℝ) = n := by rw [heblen]; simp
    rw [this, hwn]
    linarith [hhi' x hx]
  obtain ⟨hlen, hget⟩ := npHistogram_get hh hne htop
  refine ⟨hist, List.zipWith (fun a b => (a + b) / 2) edges.tail edges.dropLast, ?_, by omega,
    by simp [helen], ?_⟩
  · unfold scoreHistogram
    rw [assertAllFinite_map]
    simp only [bind, Except.bind, pure, Except.pure, hedge, ← heb, hh]
  · intro i hi'
    constructor
    · rw [hget i (by omega)]
      congr 1
      simp only [hget', WithBot.coe_lt_coe, WithTop.coe_lt_coe]
      by_cases hl : i + 2 = eb.length
      · have hl' : i + 1 = n := by omega
        simp only [hl, hl', if_true, or_true, and_true]
        rw [List.length_eq_countP_add_countP (fun x => decide (x < lo + (i : ℝ) * w)) (l := xs)]
        push_cast
        rw [add_sub_cancel_left]
        congr 1
        apply List.countP_congr
        intro x _
        simp
      · have hl' : i + 1 ≠ n := by omega
        simp only [hl, hl', if_false, or_false]
        push_cast
        exact countP_lt_sub xs (by nlinarith)
    · rw [List.getElem?_zipWith, List.getElem?_tail, List.getElem?_eq_getElem (by omega),
        List.getElem?_eq_getElem (by simp; omega)]
      simp only [hedges, List.getElem_map, List.getElem_range, List.getElem_dropLast]
      congr 1
      push_cast
      ring

/-- The interval that is divided into bins: from the smallest to the largest sample, half a unit to both sides of samples
that are all the same, and the unit interval when there is none. -/
inductive Covers : List ℝ → ℝ → ℝ → Prop
  | range {xs : List ℝ} {lo hi : ℝ} (hlo : lo ∈ xs) (hlo' : ∀ y ∈ xs, lo ≤ y) (hhi : hi ∈ xs) (hhi' : ∀ y ∈ xs, y ≤ hi)
      (hlt : lo < hi) : Covers xs lo hi
  | constant {xs : List ℝ} {x : ℝ} (hx : x ∈ xs) (h : ∀ y ∈ xs, y = x) : Covers xs (x - 1 / 2) (x + 1 / 2)
  | empty : Covers [] 0 1

theorem Covers.lt {xs : List ℝ} {lo hi : ℝ} (h : Covers xs lo hi) : lo < hi ∧ ∀ y ∈ xs, lo ≤ y ∧ y ≤ hi := by
  cases h with
  | range hlo hlo' hhi hhi' hlt => exact ⟨hlt, fun y hy => ⟨hlo' y hy, hhi' y hy⟩⟩
  | constant hx h => exact ⟨by linarith, fun y hy => by rw [h y hy]; constructor <;> linarith⟩
  | empty => exact ⟨one_pos, fun y hy => by cases hy⟩

theorem Covers.eq {xs : List ℝ} {lo hi : ℝ} (h : Covers xs lo hi) : histRange xs = (lo, hi) := by
  cases h with
  | range hlo hlo' hhi hhi' hlt =>
    unfold histRange
    rw [npMin_eq hlo hlo', npMax_eq hhi hhi']
    simp only [hlt.ne, if_false]
  | constant hx h =>
    unfold histRange
    rw [npMin_eq hx (fun y hy => (h y hy).ge), npMax_eq hx (fun y hy => (h y hy).le)]
    simp
  | empty => rfl

theorem covers_exists (xs : List ℝ) : ∃ lo hi, Covers xs lo hi := by
  rcases eq_or_ne xs [] with rfl | hne
  · exact ⟨0, 1, .empty⟩
  obtain ⟨lo, _, h1, h2⟩ := npMin_ok hne
  obtain ⟨hi, _, h3, h4⟩ := npMax_ok hne
  rcases (h2 hi h3).lt_or_eq with hlt | rfl
  · exact ⟨lo, hi, .range h1 h2 h3 h4 hlt⟩
  · exact ⟨_, _, .constant h1 fun y hy => le_antisymm (h4 y hy) (h2 y hy)⟩

/-- **C53**, for numpy integers (what is missing: Python integers, which raise `TypeError`, see
`C53_refuted`).  `score_histogram` divides the interval that covers the samples into `n` bins of equal width;
bin `i` counts the samples in it, the right end belonging to the last bin; the reported scores are the centers
of the bins. -/
theorem C53_equal_bins_partial (xs : List ℝ) (n : Nat) (hn : 1 ≤ n) : ∃ lo hi, Covers xs lo hi ∧
    ∃ hist scores, scoreHistogram (xs.map Fl.fin) (.npInt n) = .ok (hist, scores) ∧
      hist.length = n ∧ scores.length = n ∧
      (∀ i : Nat, i < n →
        hist[i]? = some (xs.countP (fun (x : ℝ) =>
          decide (lo + i * ((hi - lo) / n) ≤ x ∧
            (x < lo + (i + 1) * ((hi - lo) / n) ∨ i + 1 = n))) : Int) ∧
        scores[i]? = some (lo + (i + 1 / 2) * ((hi - lo) / n))) := by
  obtain ⟨lo, hi, h⟩ := covers_exists xs
  exact ⟨lo, hi, h, hist_bins xs n hn lo hi h.eq h.lt.1 fun y hy => (h.lt.2 y hy).2⟩

/-- **C53** holds as stated for numpy integers. -/
theorem C53_numpy_integers : C53_full .npInt := by
  intro xs n hn
  obtain ⟨lo, hi, _, hist, scores, h1, h2, _⟩ := C53_equal_bins_partial xs n hn
  exact ⟨hist, scores, h1, h2⟩

/-- **C53**: every sample is counted once. -/
theorem C53_counts_all (xs : List ℝ) (n : Nat) (hn : 1 ≤ n) {hist : List Int} {scores : List ℝ}
    (h : scoreHistogram (xs.map Fl.fin) (.npInt n) = .ok (hist, scores)) : hist.sum = xs.length := by
  obtain ⟨lo, hi, hc, hist', scores', h1, h2, _, h4⟩ := C53_equal_bins_partial xs n hn
  rw [h1] at h
  cases h
  obtain ⟨hlt, hb⟩ := hc.lt
  have hn0 : (0 : ℝ) < n := by exact_mod_cast hn
  set w := (hi - lo) / n with hw
  have hw0 : 0 < w := div_pos (by linarith) hn0
  -- the first `i` bins count the samples below edge `i`
  have key : ∀ i : Nat, i < n → (hist.take i).sum = (xs.countP (fun x => decide (x < lo + i * w)) : Int) := by
    intro i
    induction i with
    | zero =>
      intro _
      have : xs.countP (fun x => decide (x < lo + ((0 : Nat) : ℝ) * w)) = 0 := by
        rw [List.countP_eq_zero]
        intro x hx
        simpa using (hb x hx).1
      rw [this]; simp
    | succ i ih =>
      intro hi'
      rw [List.take_add_one, List.sum_append, ih (by omega), (h4 i (by omega)).1]
      have hne : i + 1 ≠ n := by omega
      simp only [hne, or_false, Option.toList_some, List.sum_cons, List.sum_nil, add_zero]
      have := countP_lt_sub xs (a := lo + i * w) (b := lo + (i + 1) * w) (by nlinarith)
      push_cast
      linarith
  obtain ⟨m, rfl⟩ : ∃ m, n = m + 1 := ⟨n - 1, by omega⟩
  have hk := key m (by omega)
  have hl := (h4 m (by omega)).1
  have : hist = hist.take m ++ [hist[m]'(by omega)] := by
    conv_lhs => rw [← List.take_of_length_le (l := hist) (i := m + 1) (by omega)]
    rw [List.take_add_one, List.getElem?_eq_getElem (by omega)]
    rfl
  rw [List.getElem?_eq_getElem (by omega), Option.some.injEq] at hl
  rw [this, List.sum_append, hk, hl]
  simp only [or_true, and_true, List.sum_cons, List.sum_nil, add_zero]
  rw [List.length_eq_countP_add_countP (fun x => decide (x < lo + (m : ℝ) * w)) (l := xs)]
  push_cast
  congr 2
  apply List.countP_congr
  intro x _
  simp

/-- **C53**: numbers of bins below one are refused. -/
theorem C53_no_bins (xs : List ℝ) (n : Int) (hn : n < 1) :
    scoreHistogram (xs.map Fl.fin) (.npInt n) = .error .valueError := by
  have h : histEdges xs n = .error .valueError := by
    unfold histEdges
    rw [if_pos hn]
  unfold scoreHistogram
  rw [assertAllFinite_map]
  simp only [bind, Except.bind, h]

/-- The cases of `C53_equal_bins_partial`: four samples, samples that are all the same. -/
example : Covers [3, 1, 2, 5] 1 5 ∧ Covers [2, 2] (2 - 1 / 2) (2 + 1 / 2) :=
  ⟨.range (by simp) (by norm_num) (by simp) (by norm_num) (by norm_num), .constant (by simp) (by simp)⟩

end Kam.Metrics
