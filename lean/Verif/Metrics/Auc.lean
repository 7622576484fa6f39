/-
C140: what the area under the curve in the statistics of item finders means.

`sklearn.metrics.roc_auc_score`, which `metrics/item_finder.py` calls, is modelled after scikit-learn 0.21 statement by statement; the
theorems say what the number is.  Arithmetic is exact.
-/
import Verif.Metrics.Props4

set_option linter.unusedSectionVars false

namespace Kam.Metrics

/-! ### `sklearn.metrics.roc_auc_score` -/

section Model
variable {K : Type} [Field K] [LinearOrder K] [IsStrictOrderedRing K]

/-- `desc_score_indices = np.argsort(y_score, kind="mergesort")[::-1]`: both arrays in the order of falling scores (library function
called in item_finder.py:94, 155). -/
def sortDesc (l : List (K × Bool)) : List (K × Bool) := (l.mergeSort (fun a b => decide (a.1 ≤ b.1))).reverse

/-- `_binary_clf_curve` on the sorted arrays: false and true positives at every index where the score changes and at the last one.  `i` is
the index, `t` the sum of the truth values before it; `fps = 1 + threshold_idxs - tps` (library function called in item_finder.py:94, 155). -/
def clfCurve : Nat → Nat → List (K × Bool) → List (K × K)
  | _, _, [] => []
  | i, t, [x] => [(1 + (i : K) - ((t + x.2.toNat : Nat) : K), ((t + x.2.toNat : Nat) : K))]
  | i, t, x :: y :: l =>
    if y.1 - x.1 ≠ 0 then (1 + (i : K) - ((t + x.2.toNat : Nat) : K), ((t + x.2.toNat : Nat) : K)) :: clfCurve (i + 1) (t + x.2.toNat) (y :: l)
    else clfCurve (i + 1) (t + x.2.toNat) (y :: l)

/-- The points after the first one that `drop_intermediate` keeps: those with a second difference that is not zero and the last one
(library function called in item_finder.py:94, 155). -/
def keepInner : K × K → List (K × K) → List (K × K)
  | _, [] => []
  | _, [b] => [b]
  | a, b :: c :: l =>
    if c.1 - 2 * b.1 + a.1 ≠ 0 ∨ c.2 - 2 * b.2 + a.2 ≠ 0 then b :: keepInner b (c :: l) else keepInner b (c :: l)

/-- `if drop_intermediate and len(fps) > 2` of `roc_curve` (library function called in item_finder.py:94, 155). -/
def dropIntermediate (l : List (K × K)) : List (K × K) :=
  if 2 < l.length then match l with
    | [] => []
    | a :: l => a :: keepInner a l
  else l

/-- `roc_curve`: the pairs of `fpr` and `tpr` (library function called in item_finder.py:94, 155).  A class without members gives `nan` and a
warning; this cannot happen here, as `roc_auc_score` checks the classes before. -/
def rocCurve (l : List (K × Bool)) : List (K × K) :=
  let pts := (0, 0) :: dropIntermediate (clfCurve 0 0 (sortDesc l))
  let last := pts.getLastD (0, 0)
  pts.map (fun q => (q.1 / last.1, q.2 / last.2))

/-- `np.trapz(y, x)` on the list of pairs of x and y (library function called in item_finder.py:94, 155). -/
def trapz : List (K × K) → K
  | a :: b :: l => (b.1 - a.1) * (b.2 + a.2) / 2 + trapz (b :: l)
  | _ => 0

/-- `np.diff(x)`. -/
def diffs : List K → List K
  | a :: b :: l => (b - a) :: diffs (b :: l)
  | _ => []

/-- `auc(x, y)` (library function called in item_finder.py:94, 155). -/
def auc (pts : List (K × K)) : Res K :=
  if pts.length < 2 then .error .valueError
  else
    let dx := diffs (pts.map Prod.fst)
    if dx.any (fun d => decide (d < 0)) then
      if dx.all (fun d => decide (d ≤ 0)) then .ok (-trapz pts) else .error .valueError
    else .ok (trapz pts)

/-- `roc_auc_score(y_true, y_score)` for true scores among 0 and 1 (library function called in item_finder.py:94, 155); the check of the type of
`y_true` and `label_binarize`, which turn such scores into 0 and 1, are left out. -/
def rocAucScore (t p : List K) : Res K :=
  if 0 ∈ t ∧ 1 ∈ t then auc (rocCurve (p.zip (t.map (fun y => decide (y = 1))))) else .error .valueError

end Model

/-! ### Specification -/

namespace Spec
variable {K : Type} [Field K] [LinearOrder K] [IsStrictOrderedRing K]

/-- How well a positive sample with score `a` and a negative one with score `b` are ordered. -/
def inOrder (a b : K) : K := if b < a then 1 else if b = a then 1 / 2 else 0

/-- The scores of the samples with true score `c`. -/
def scoresOf (c : K) (t p : List K) : List K := ((t.zip p).filter (fun x => x.1 = c)).map Prod.snd

/-- The share of pairs of a positive and a negative sample in the right order, ties counting one half. -/
def concordance (t p : List K) : K :=
  ((scoresOf 1 t p).map (fun a => ((scoresOf 0 t p).map (fun b => inOrder a b)).sum)).sum /
    (((scoresOf 1 t p).length : K) * ((scoresOf 0 t p).length : K))

end Spec

open Kam.Metrics.Spec

/-! ### Dropping points -/

section Lemmas
variable {K : Type} [Field K] [LinearOrder K] [IsStrictOrderedRing K]

lemma keepInner_sublist (l : List (K × K)) : ∀ a, (keepInner a l).Sublist l := by
  induction l with
  | nil => intro a; simp [keepInner]
  | cons b l ih =>
    intro a
    cases l with
    | nil => simp [keepInner]
    | cons c l =>
      rw [keepInner]
      split_ifs
      · exact (ih b).cons_cons b
      · exact (ih b).cons b

lemma keepInner_trapz (l : List (K × K)) : ∀ k a : K × K, (l = [] → k = a) →
    (∀ b, l.head? = some b → ∃ m : K, a.1 - k.1 = m * (b.1 - a.1) ∧ a.2 - k.2 = m * (b.2 - a.2)) →
    trapz (k :: keepInner a l) = (a.1 - k.1) * (a.2 + k.2) / 2 + trapz (a :: l) := by
  induction l with
  | nil =>
    intro k a h _
    rw [h rfl]
    simp [keepInner, trapz]
  | cons b l ih =>
    intro k a _ h
    obtain ⟨m, h1, h2⟩ := h b rfl
    have e1 : k.1 = a.1 - m * (b.1 - a.1) := by linear_combination -h1
    have e2 : k.2 = a.2 - m * (b.2 - a.2) := by linear_combination -h2
    cases l with
    | nil =>
      simp only [keepInner, trapz]
      rw [e1, e2]; ring
    | cons c l =>
      rw [keepInner]
      split_ifs with hc
      · have := ih b b (fun h => by cases h) (fun b' _ => ⟨0, by simp, by simp⟩)
        simp only [trapz] at this ⊢
        rw [this, e1, e2]; ring
      · push Not at hc
        have := ih k b (fun h => by cases h) (fun b' hb => by
          obtain rfl : c = b' := by simpa using hb
          exact ⟨1 + m, by linear_combination (1 + m) * hc.1 * (-1) + h1, by linear_combination (1 + m) * hc.2 * (-1) + h2⟩)
        rw [this]
        simp only [trapz]
        rw [e1, e2]; ring

lemma dropIntermediate_trapz (l : List (K × K)) : trapz ((0, 0) :: dropIntermediate l) = trapz ((0, 0) :: l) := by
  unfold dropIntermediate
  split_ifs
  · cases l with
    | nil => rfl
    | cons a l =>
      have := keepInner_trapz l a a (fun _ => rfl) (fun b _ => ⟨0, by simp, by simp⟩)
      simp only [trapz] at this ⊢
      rw [this]; ring
  · rfl

lemma dropIntermediate_sublist (l : List (K × K)) : (dropIntermediate l).Sublist l := by
  unfold dropIntermediate
  split_ifs
  · cases l with
    | nil => simp
    | cons a l => exact (keepInner_sublist l a).cons_cons a
  · exact List.Sublist.refl _

lemma keepInner_last (l : List (K × K)) (d : K × K) : ∀ a, (keepInner a l).getLastD d = l.getLastD d := by
  induction l generalizing d with
  | nil => intro a; rfl
  | cons b l ih =>
    intro a
    cases l with
    | nil => rfl
    | cons c l =>
      rw [keepInner]
      have e : ∀ x : K × K, (x :: c :: l).getLastD d = (c :: l).getLastD d := fun x => by simp [List.getLastD]
      have e2 : ∀ (x : K × K) (m : List (K × K)), (x :: m).getLastD d = m.getLastD x := fun x m => by
        cases m <;> simp [List.getLastD]
      split_ifs
      · rw [e2, ih b b, e]; simp [List.getLastD]
      · rw [ih d b, e]

lemma dropIntermediate_last (l : List (K × K)) (d : K × K) : (dropIntermediate l).getLastD d = l.getLastD d := by
  unfold dropIntermediate
  split_ifs
  · cases l with
    | nil => rfl
    | cons a l =>
      have e2 : ∀ (x : K × K) (m : List (K × K)), (x :: m).getLastD d = m.getLastD x := fun x m => by
        cases m <;> simp [List.getLastD]
      rw [e2, e2, keepInner_last]
  · rfl

lemma trapz_scale (a b : K) (l : List (K × K)) : trapz (l.map (fun q => (q.1 / a, q.2 / b))) = trapz l / (a * b) := by
  induction l with
  | nil => simp [trapz]
  | cons x l ih =>
    cases l with
    | nil => simp [trapz]
    | cons y l =>
      simp only [List.map_cons, trapz] at ih ⊢
      rw [ih, add_div]
      congr 1
      by_cases ha : a = 0
      · simp [ha]
      by_cases hb : b = 0
      · simp [hb]
      field_simp

/-! ### The curve of a sorted array -/

/-- Positive samples above a score. -/
def posGt (w : List (K × Bool)) (s : K) : Nat := w.countP (fun y => y.2 && decide (s < y.1))
/-- Positive samples at or above a score. -/
def posGe (w : List (K × Bool)) (s : K) : Nat := w.countP (fun y => y.2 && decide (s ≤ y.1))
/-- Negative samples above a score. -/
def negGt (w : List (K × Bool)) (s : K) : Nat := w.countP (fun y => !y.2 && decide (s < y.1))
/-- Negative samples at or above a score. -/
def negGe (w : List (K × Bool)) (s : K) : Nat := w.countP (fun y => !y.2 && decide (s ≤ y.1))
/-- What the negative samples at or below a score contribute to the area. -/
def below (w : List (K × Bool)) (s : K) : K :=
  ((w.filter (fun y => !y.2 && decide (y.1 ≤ s))).map (fun y => ((posGt w y.1 : K) + posGe w y.1) / 2)).sum

/-- Scores fall. -/
def Falling (w : List (K × Bool)) : Prop := w.Pairwise (fun a b => b.1 ≤ a.1)

lemma sortDesc_perm (l : List (K × Bool)) : (sortDesc l).Perm l :=
  (List.reverse_perm _).trans (List.mergeSort_perm _ _)

lemma sortDesc_falling (l : List (K × Bool)) : Falling (sortDesc l) := by
  unfold Falling sortDesc
  rw [List.pairwise_reverse]
  have := List.pairwise_mergeSort (le := fun a b : K × Bool => decide (a.1 ≤ b.1)) (fun a b c h1 h2 => by
    simp only [decide_eq_true_eq] at *; exact h1.trans h2) (fun a b => by
    simp only [Bool.or_eq_true, decide_eq_true_eq]; exact le_total _ _) l
  exact this.imp (fun h => by simpa using h)

/-- The numbers of positive and negative samples make up the whole. -/
lemma count_pos_neg (l : List (K × Bool)) : l.countP (fun y => y.2) + l.countP (fun y => !y.2) = l.length := by
  induction l with
  | nil => rfl
  | cons x l ih =>
    rcases x with ⟨s, b⟩
    cases b <;> simp <;> omega

lemma countP_split {pre post : List (K × Bool)} {f g : K × Bool → Bool} (h1 : ∀ y ∈ pre, f y = g y) (h2 : ∀ y ∈ post, f y = false) :
    (pre ++ post).countP f = pre.countP g := by
  have h3 : post.countP f = 0 := List.countP_eq_zero.2 (fun y hy => by simp [h2 y hy])
  rw [List.countP_append, h3, add_zero]
  exact List.countP_congr (fun y hy => by rw [h1 y hy])

lemma filter_split (U : K → K) (s : K) (v : List (K × Bool)) :
    ((v.filter (fun y => !y.2 && decide (y.1 ≤ s))).map (fun y => U y.1)).sum =
      ((v.countP (fun y => !y.2 && decide (s ≤ y.1)) : Nat) - ((v.countP (fun y => !y.2 && decide (s < y.1)) : Nat) : K)) * U s +
      ((v.filter (fun y => !y.2 && decide (y.1 < s))).map (fun y => U y.1)).sum := by
  induction v with
  | nil => simp
  | cons x v ih =>
    rcases x with ⟨r, b⟩
    cases b
    · rcases lt_trichotomy r s with h | h | h
      · simp only [List.filter_cons, List.countP_cons, Bool.not_false, Bool.true_and, h, h.le, not_le.2 h, not_lt.2 h.le, decide_true,
          decide_false, if_true, List.map_cons, List.sum_cons, ih]
        push_cast; ring
      · subst h
        simp only [List.filter_cons, List.countP_cons, Bool.not_false, Bool.true_and, le_refl, lt_irrefl, decide_true,
          decide_false, if_true, List.map_cons, List.sum_cons, ih]
        push_cast; ring
      · simp only [List.filter_cons, List.countP_cons, Bool.not_false, Bool.true_and, h, h.le, not_le.2 h, not_lt.2 h.le, decide_true,
          decide_false, if_true, Bool.false_eq_true, if_false, ih]
        push_cast; ring
    · simpa using ih

/-- The counts at the threshold after `pre` and `x`. -/
lemma step (pre : List (K × Bool)) (x : K × Bool) :
    (1 + (pre.length : K) - ((pre.countP (fun y => y.2) + x.2.toNat : Nat) : K)) = (((pre ++ [x]).countP (fun y => !y.2) : Nat) : K) ∧
    pre.countP (fun y => y.2) + x.2.toNat = (pre ++ [x]).countP (fun y => y.2) := by
  have h2 : pre.countP (fun y => y.2) + x.2.toNat = (pre ++ [x]).countP (fun y => y.2) := by
    rw [List.countP_append]
    rcases x with ⟨s, b⟩
    cases b <;> simp
  refine ⟨?_, h2⟩
  have := count_pos_neg (pre ++ [x])
  rw [← h2] at this
  have h3 : ((pre.countP (fun y => y.2) + x.2.toNat : Nat) : K) + ((pre ++ [x]).countP (fun y => !y.2) : Nat) = (pre.length : K) + 1 := by
    have := congrArg (fun n : Nat => (n : K)) this
    simpa using this
  linear_combination -h3

lemma trapz_curve {w : List (K × Bool)} (hw : Falling w) (l : List (K × Bool)) :
    ∀ (pre : List (K × Bool)) (x : K × Bool), w = pre ++ x :: l →
    trapz (((negGt w x.1 : K), (posGt w x.1 : K)) :: clfCurve pre.length (pre.countP (fun y => y.2)) (x :: l)) = below w x.1 := by
  induction l with
  | nil =>
    intro pre x hpre
    have hge : ∀ y ∈ w, x.1 ≤ y.1 := by
      intro y hy
      rw [hpre] at hy hw
      rcases List.mem_append.1 hy with h | h
      · exact (List.pairwise_append.1 hw).2.2 y h x (by simp)
      · simp at h; rw [h]
    have hn : (negGe w x.1 : K) = ((pre ++ [x]).countP (fun y => !y.2) : Nat) := by
      unfold negGe; rw [← hpre]
      congr 1
      exact List.countP_congr (fun y hy => by simp [hge y hy])
    have hp : posGe w x.1 = (pre ++ [x]).countP (fun y => y.2) := by
      unfold posGe; rw [← hpre]
      exact List.countP_congr (fun y hy => by simp [hge y hy])
    rw [clfCurve, (step pre x).1, (step pre x).2, ← hp, ← hn]
    simp only [trapz, add_zero]
    have hsum : below w x.1 = ((negGe w x.1 : K) - negGt w x.1) * (((posGt w x.1 : K) + posGe w x.1) / 2) := by
      have := filter_split (fun s => ((posGt w s : K) + posGe w s) / 2) x.1 w
      have h0 : w.filter (fun y => !y.2 && decide (y.1 < x.1)) = [] := by
        rw [List.filter_eq_nil_iff]
        intro y hy
        simp [hge y hy]
      rw [h0] at this
      unfold below
      rw [this]
      simp [negGe, negGt]
    rw [hsum]; ring
  | cons y l ih =>
    intro pre x hpre
    have hpre' : w = (pre ++ [x]) ++ y :: l := by rw [hpre]; simp
    have h := ih (pre ++ [x]) y hpre'
    have hl : (pre ++ [x]).length = pre.length + 1 := by simp
    rw [hl, ← (step pre x).2] at h
    have hxy : y.1 ≤ x.1 := by
      rw [hpre] at hw
      exact (List.pairwise_cons.1 (List.pairwise_append.1 hw).2.1).1 y (by simp)
    rw [clfCurve]
    by_cases he : y.1 = x.1
    · rw [if_neg (by simp [he]), ← he]
      exact h
    · rw [if_pos (sub_ne_zero.2 he)]
      have hlt : y.1 < x.1 := lt_of_le_of_ne hxy he
      rw [hpre'] at hw
      obtain ⟨w1, w2, w3⟩ := List.pairwise_append.1 hw
      rw [← hpre'] at hw
      have hup : ∀ z ∈ pre ++ [x], x.1 ≤ z.1 := by
        intro z hz
        rcases List.mem_append.1 hz with h | h
        · exact (List.pairwise_append.1 w1).2.2 z h x (by simp)
        · simp at h; rw [h]
      have hdn : ∀ z ∈ y :: l, z.1 ≤ y.1 := by
        intro z hz
        rcases List.mem_cons.1 hz with h | h
        · rw [h]
        · exact (List.pairwise_cons.1 w2).1 z h
      have c1 : negGe w x.1 = (pre ++ [x]).countP (fun y => !y.2) := by
        unfold negGe
        rw [hpre']
        exact countP_split (fun z hz => by simp [hup z hz]) (fun z hz => by simp [not_le.2 ((hdn z hz).trans_lt hlt)])
      have c2 : posGe w x.1 = (pre ++ [x]).countP (fun y => y.2) := by
        unfold posGe
        rw [hpre']
        exact countP_split (fun z hz => by simp [hup z hz]) (fun z hz => by simp [not_le.2 ((hdn z hz).trans_lt hlt)])
      have c3 : negGt w y.1 = (pre ++ [x]).countP (fun y => !y.2) := by
        unfold negGt
        rw [hpre']
        exact countP_split (fun z hz => by simp [hlt.trans_le (hup z hz)]) (fun z hz => by simp [not_lt.2 (hdn z hz)])
      have c4 : posGt w y.1 = (pre ++ [x]).countP (fun y => y.2) := by
        unfold posGt
        rw [hpre']
        exact countP_split (fun z hz => by simp [hlt.trans_le (hup z hz)]) (fun z hz => by simp [not_lt.2 (hdn z hz)])
      rw [c3, c4, ← (step pre x).1, ← (step pre x).2] at h
      rw [trapz, h, (step pre x).1, (step pre x).2, ← c1, ← c2]
      have := filter_split (fun s => ((posGt w s : K) + posGe w s) / 2) x.1 w
      have h0 : w.filter (fun z => !z.2 && decide (z.1 < x.1)) = w.filter (fun z => !z.2 && decide (z.1 ≤ y.1)) := by
        refine List.filter_congr (fun z hz => ?_)
        rw [hpre'] at hz
        rcases List.mem_append.1 hz with hz | hz
        · simp [not_lt.2 (hup z hz), not_le.2 (hlt.trans_le (hup z hz))]
        · simp [hdn z hz, (hdn z hz).trans_lt hlt]
      rw [h0] at this
      unfold below
      rw [this]
      simp only [negGe, negGt]
      ring

/-- Twice the area before normalisation: for every negative sample, the positive ones above it and those at or above it. -/
lemma trapz_clf (l : List (K × Bool)) (hl : Falling l) : trapz ((0, 0) :: clfCurve 0 0 l) =
    ((l.filter (fun y => !y.2)).map (fun y => ((posGt l y.1 : K) + posGe l y.1) / 2)).sum := by
  cases l with
  | nil => simp [clfCurve, trapz]
  | cons x l =>
    have h := trapz_curve hl l [] x rfl
    have hle : ∀ y ∈ x :: l, y.1 ≤ x.1 := by
      intro y hy
      rcases List.mem_cons.1 hy with h | h
      · rw [h]
      · exact (List.pairwise_cons.1 hl).1 y h
    have h1 : negGt (x :: l) x.1 = 0 := List.countP_eq_zero.2 (fun y hy => by simp [hle y hy])
    have h2 : posGt (x :: l) x.1 = 0 := List.countP_eq_zero.2 (fun y hy => by simp [hle y hy])
    rw [h1, h2] at h
    simp only [Nat.cast_zero, List.length_nil, List.countP_nil] at h
    rw [h]
    unfold below
    congr 2
    refine List.filter_congr (fun y hy => ?_)
    simp [hle y hy]

/-- The curve ends with the numbers of negative and positive samples. -/
lemma clfCurve_last (l : List (K × Bool)) : ∀ (pre : List (K × Bool)) (d : K × K), l ≠ [] →
    (clfCurve pre.length (pre.countP (fun y => y.2)) l).getLastD d =
      ((((pre ++ l).countP (fun y => !y.2) : Nat) : K), (((pre ++ l).countP (fun y => y.2) : Nat) : K)) := by
  induction l with
  | nil => intro _ _ h; exact absurd rfl h
  | cons x l ih =>
    intro pre d _
    cases l with
    | nil => rw [clfCurve, (step pre x).1, (step pre x).2]; rfl
    | cons y l =>
      have e2 : ∀ (x : K × K) (m : List (K × K)), (x :: m).getLastD d = m.getLastD x := fun x m => by
        cases m <;> simp [List.getLastD]
      have h : ∀ d, (clfCurve (pre.length + 1) (pre.countP (fun y => y.2) + x.2.toNat) (y :: l)).getLastD d =
          ((((pre ++ x :: y :: l).countP (fun y => !y.2) : Nat) : K), (((pre ++ x :: y :: l).countP (fun y => y.2) : Nat) : K)) := by
        intro d
        have := ih (pre ++ [x]) d (by simp)
        rw [(step pre x).2]
        simpa using this
      rw [clfCurve]
      split_ifs
      · rw [e2]; exact h _
      · exact h _

/-- False positives do not fall along the curve. -/
lemma clfCurve_rising (l : List (K × Bool)) : ∀ pre : List (K × Bool),
    (((pre.countP (fun y => !y.2) : Nat) : K) :: (clfCurve pre.length (pre.countP (fun y => y.2)) l).map Prod.fst).Pairwise (· ≤ ·) := by
  induction l with
  | nil => intro pre; simp [clfCurve]
  | cons x l ih =>
    intro pre
    have hx : ((pre.countP (fun y => !y.2) : Nat) : K) ≤ (((pre ++ [x]).countP (fun y => !y.2) : Nat) : K) := by
      rw [List.countP_append]; push_cast
      exact le_add_of_nonneg_right (Nat.cast_nonneg _)
    cases l with
    | nil =>
      rw [clfCurve, (step pre x).1]
      simpa using hx
    | cons y l =>
      have h := ih (pre ++ [x])
      have hl : (pre ++ [x]).length = pre.length + 1 := by simp
      rw [hl, ← (step pre x).2] at h
      rw [clfCurve]
      split_ifs
      · rw [(step pre x).1]
        simp only [List.map_cons]
        refine List.pairwise_cons.2 ⟨fun z hz => ?_, h⟩
        rcases List.mem_cons.1 hz with rfl | hz
        · exact hx
        · exact hx.trans ((List.pairwise_cons.1 h).1 z hz)
      · exact List.pairwise_cons.2 ⟨fun z hz => hx.trans ((List.pairwise_cons.1 h).1 z hz), (List.pairwise_cons.1 h).2⟩

lemma diffs_nonneg (l : List K) (h : l.Pairwise (· ≤ ·)) : ∀ d ∈ diffs l, 0 ≤ d := by
  induction l with
  | nil => intro d hd; simp [diffs] at hd
  | cons a l ih =>
    cases l with
    | nil => intro d hd; simp [diffs] at hd
    | cons b l =>
      intro d hd
      rw [diffs] at hd
      obtain ⟨h1, h2⟩ := List.pairwise_cons.1 h
      rcases List.mem_cons.1 hd with rfl | hd
      · exact sub_nonneg.2 (h1 b (by simp))
      · exact ih h2 d hd

/-! ### Pairs -/

lemma sum_swap {A B : Type} (as : List A) (bs : List B) (f : A → B → K) :
    (as.map (fun a => (bs.map (f a)).sum)).sum = (bs.map (fun b => (as.map (fun a => f a b)).sum)).sum := by
  induction as with
  | nil => simp
  | cons a as ih => simp [ih, List.sum_map_add]

lemma half_counts (s : K) (v : List (K × Bool)) :
    (((v.countP (fun y => y.2 && decide (s < y.1)) : Nat) : K) + (v.countP (fun y => y.2 && decide (s ≤ y.1)) : Nat)) / 2 =
      ((v.filter (fun y => y.2)).map (fun y => inOrder y.1 s)).sum := by
  induction v with
  | nil => simp
  | cons x v ih =>
    rcases x with ⟨r, b⟩
    cases b
    · simpa using ih
    · simp only [List.filter_cons, List.countP_cons, Bool.true_and, if_true, List.map_cons, List.sum_cons]
      rw [← ih]
      simp only [inOrder]
      rcases lt_trichotomy r s with h | h | h
      · simp only [not_lt.2 h.le, not_le.2 h, ne_of_gt h, decide_false, Bool.false_eq_true, if_false]
        push_cast; ring
      · subst h
        simp only [lt_irrefl, le_refl, decide_false, decide_true, Bool.false_eq_true, if_false, if_true]
        push_cast; ring
      · simp only [h, h.le, decide_true, if_true]
        push_cast; ring

/-- The area of the curve of a list of scores with their classes. -/
lemma area (l : List (K × Bool)) (hpos : ∃ x ∈ l, x.2 = true) :
    auc (rocCurve l) = .ok ((((l.filter (fun y => y.2)).map (fun a => ((l.filter (fun y => !y.2)).map (fun b => inOrder a.1 b.1)).sum)).sum) /
      (((l.filter (fun y => y.2)).length : K) * ((l.filter (fun y => !y.2)).length : K))) := by
  have hperm := sortDesc_perm l
  have hfall := sortDesc_falling l
  set w := sortDesc l with hwdef
  have hne : w ≠ [] := by
    rintro h
    obtain ⟨x, hx, -⟩ := hpos
    rw [h] at hperm
    simp [List.nil_perm.1 hperm] at hx
  have hlast : ((0, 0) :: dropIntermediate (clfCurve 0 0 w)).getLastD (0, 0) =
      (((w.countP (fun y => !y.2) : Nat) : K), ((w.countP (fun y => y.2) : Nat) : K)) := by
    have e2 : ∀ (d x : K × K) (m : List (K × K)), (x :: m).getLastD d = m.getLastD x := fun d x m => by
      cases m <;> simp [List.getLastD]
    rw [e2, dropIntermediate_last]
    simpa using clfCurve_last w [] (0, 0) hne
  have hlen : 2 ≤ (rocCurve l).length := by
    unfold rocCurve
    rw [List.length_map, List.length_cons, ← hwdef]
    have : dropIntermediate (clfCurve 0 0 w) ≠ [] := by
      intro h
      have h1 := dropIntermediate_last (clfCurve 0 0 w) ((-1, -1) : K × K)
      rw [h] at h1
      have h2 := clfCurve_last w [] ((-1, -1) : K × K) hne
      simp only [List.length_nil, List.countP_nil] at h2
      rw [← h1] at h2
      have h3 := congrArg Prod.fst h2
      simp only [List.getLastD] at h3
      have h4 : (0 : K) ≤ (((([] : List (K × Bool)) ++ w).countP (fun y => !y.2) : Nat) : K) := Nat.cast_nonneg _
      rw [← h3] at h4
      linarith [zero_lt_one (α := K)]
    have := List.length_pos_iff.2 this
    omega
  have hrise : ((rocCurve l).map Prod.fst).Pairwise (· ≤ ·) := by
    unfold rocCurve
    rw [← hwdef]
    dsimp only
    rw [hlast, List.map_map]
    have h1 := clfCurve_rising w []
    simp only [List.countP_nil, Nat.cast_zero, List.length_nil] at h1
    have h2 : (((0, 0) :: dropIntermediate (clfCurve 0 0 w)).map Prod.fst).Pairwise (fun a b : K => a ≤ b) :=
      List.Pairwise.sublist (((dropIntermediate_sublist _).map Prod.fst).cons_cons 0) h1
    have h3 := List.Pairwise.map (S := fun a b : K => a ≤ b) (fun q : K => q / ((w.countP (fun y => !y.2) : Nat) : K))
      (fun a b hab => div_le_div_of_nonneg_right hab (Nat.cast_nonneg _)) h2
    rw [List.map_map] at h3
    exact h3
  unfold auc
  rw [if_neg (by omega)]
  have hany : (diffs ((rocCurve l).map Prod.fst)).any (fun d => decide (d < 0)) = false := by
    rw [List.any_eq_false]
    intro d hd
    simp [diffs_nonneg _ hrise d hd]
  dsimp only
  rw [hany]
  simp only [Bool.false_eq_true, if_false]
  congr 1
  have harea : trapz (rocCurve l) = trapz ((0, 0) :: clfCurve 0 0 w) / (((w.countP (fun y => !y.2) : Nat) : K) * ((w.countP (fun y => y.2) : Nat) : K)) := by
    unfold rocCurve
    rw [← hwdef]
    dsimp only
    rw [hlast, trapz_scale, dropIntermediate_trapz]
  rw [harea, trapz_clf w hfall, hperm.countP_eq, hperm.countP_eq, mul_comm, ← List.countP_eq_length_filter, ← List.countP_eq_length_filter]
  congr 1
  have h1 : ∀ y : K × Bool, ((posGt w y.1 : K) + posGe w y.1) / 2 = ((l.filter (fun y => y.2)).map (fun a => inOrder a.1 y.1)).sum := by
    intro y
    unfold posGt posGe
    rw [half_counts]
    exact ((hperm.filter _).map _).sum_eq
  simp only [h1]
  rw [((hperm.filter (fun y => !y.2)).map _).sum_eq, sum_swap]

/-! ### The classes of the samples -/

lemma zip_classes (t p : List K) (hl : t.length = p.length) (hbin : ∀ s ∈ t, s = 0 ∨ s = 1) :
    ((p.zip (t.map (fun y => decide (y = 1)))).filter (fun y => y.2)).map Prod.fst = scoresOf 1 t p ∧
    ((p.zip (t.map (fun y => decide (y = 1)))).filter (fun y => !y.2)).map Prod.fst = scoresOf 0 t p := by
  unfold scoresOf
  induction t generalizing p with
  | nil => simp
  | cons a t ih =>
    cases p with
    | nil => simp at hl
    | cons b p =>
      obtain ⟨h1, h2⟩ := ih p (by simpa using hl) (fun s hs => hbin s (by simp [hs]))
      rcases hbin a (by simp) with rfl | rfl
      · simp [h1, h2]
      · simp [h1, h2]

lemma mem_classes {t p : List K} (hl : t.length = p.length) {c : K} (h : c ∈ t) : ∃ b, (c, b) ∈ t.zip p := by
  obtain ⟨i, hi, rfl⟩ := List.getElem_of_mem h
  exact ⟨p[i]'(hl ▸ hi), List.mem_iff_getElem.2 ⟨i, by simp [hl ▸ hi, hi], by simp⟩⟩

lemma scoresOf_ne {t p : List K} (hl : t.length = p.length) {c : K} (h : c ∈ t) : scoresOf c t p ≠ [] := by
  obtain ⟨b, hb⟩ := mem_classes hl h
  intro hn
  unfold scoresOf at hn
  have := List.filter_eq_nil_iff.1 (List.map_eq_nil_iff.1 hn) _ hb
  simp at this

end Lemmas

/-! ### C140 -/

section Props
variable {K : Type} [Field K] [LinearOrder K] [IsStrictOrderedRing K]

/-- C140: for binary true scores of both classes, `roc_auc_score` is the share of pairs of a positive and a negative sample that are in the
right order, ties counting one half. -/
theorem C140_meaning (t p : List K) (hl : t.length = p.length) (hbin : ∀ s ∈ t, s = 0 ∨ s = 1) (h0 : 0 ∈ t) (h1 : 1 ∈ t) :
    rocAucScore t p = .ok (concordance t p) := by
  obtain ⟨c1, c0⟩ := zip_classes t p hl hbin
  have hmem : ∀ c ∈ t, ∃ x ∈ p.zip (t.map (fun y => decide (y = 1))), x.2 = decide (c = 1) := by
    intro c hc
    obtain ⟨i, hi, rfl⟩ := List.getElem_of_mem hc
    exact ⟨(p[i]'(hl ▸ hi), decide (t[i] = 1)), List.mem_iff_getElem.2 ⟨i, by simp [hl ▸ hi, hi], by simp⟩, rfl⟩
  unfold rocAucScore
  rw [if_pos ⟨h0, h1⟩, area _ (by obtain ⟨x, hx, e⟩ := hmem 1 h1; exact ⟨x, hx, by simpa using e⟩)]
  congr 1
  unfold concordance
  rw [← c1, ← c0, List.length_map, List.length_map, List.map_map]
  congr 2
  refine List.map_congr_left (fun a _ => ?_)
  simp only [Function.comp, List.map_map]
  rfl

/-- C140: with one class only, `roc_auc_score` raises `ValueError`. -/
theorem C140_one_class (t p : List K) (h : 0 ∉ t ∨ 1 ∉ t) : rocAucScore t p = .error .valueError := by
  unfold rocAucScore
  rw [if_neg]
  tauto

lemma inOrder_range (a b : K) : 0 ≤ inOrder a b ∧ inOrder a b ≤ 1 := by
  unfold inOrder
  split_ifs <;> constructor <;> norm_num

lemma sum_range {A : Type} (l : List A) (f : A → K) (c : K) (h : ∀ a ∈ l, 0 ≤ f a ∧ f a ≤ c) :
    0 ≤ (l.map f).sum ∧ (l.map f).sum ≤ l.length * c := by
  induction l with
  | nil => simp
  | cons a l ih =>
    have h1 := h a (by simp)
    have h2 := ih (fun b hb => h b (by simp [hb]))
    simp only [List.map_cons, List.sum_cons, List.length_cons]
    push_cast
    constructor <;> linarith [h1.1, h1.2, h2.1, h2.2]

lemma sum_eq_max {A : Type} (l : List A) (f : A → K) (c : K) (h : ∀ a ∈ l, f a ≤ c) : (l.map f).sum = l.length * c ↔ ∀ a ∈ l, f a = c := by
  induction l with
  | nil => simp
  | cons a l ih =>
    have h1 := h a (by simp)
    have ih := ih (fun b hb => h b (by simp [hb]))
    have hle : (l.map f).sum ≤ l.length * c := by
      have := List.sum_le_card_nsmul (l.map f) c (by simpa using fun b hb => h b (by simp [hb]))
      simpa using this
    simp only [List.map_cons, List.sum_cons, List.length_cons, List.mem_cons, forall_eq_or_imp]
    push_cast
    constructor
    · intro e
      have e1 : f a = c := by linarith
      exact ⟨e1, ih.1 (by linarith)⟩
    · rintro ⟨e1, e2⟩
      rw [e1, ih.2 e2]; ring

/-- C140: the area is between 0 and 1. -/
theorem C140_range (t p : List K) : 0 ≤ concordance t p ∧ concordance t p ≤ 1 := by
  unfold concordance
  have h1 : ∀ a ∈ scoresOf 1 t p, 0 ≤ ((scoresOf 0 t p).map (fun b => inOrder a b)).sum ∧
      ((scoresOf 0 t p).map (fun b => inOrder a b)).sum ≤ ((scoresOf 0 t p).length : K) := fun a _ => by
    have := sum_range (scoresOf 0 t p) (fun b => inOrder a b) 1 (fun b _ => inOrder_range a b)
    rwa [mul_one] at this
  obtain ⟨h2, h3⟩ := sum_range (scoresOf 1 t p) _ _ h1
  exact ⟨div_nonneg h2 (by positivity), div_le_one_of_le₀ h3 (by positivity)⟩

/-- C140: the area is 1 exactly when every positive sample has a higher score than every negative one. -/
theorem C140_perfect (t p : List K) (hl : t.length = p.length) (h0 : 0 ∈ t) (h1 : 1 ∈ t) :
    concordance t p = 1 ↔ ∀ a ∈ scoresOf 1 t p, ∀ b ∈ scoresOf 0 t p, b < a := by
  have n1 : (0 : K) < (scoresOf 1 t p).length := by exact_mod_cast List.length_pos_iff.2 (scoresOf_ne hl h1)
  have n0 : (0 : K) < (scoresOf 0 t p).length := by exact_mod_cast List.length_pos_iff.2 (scoresOf_ne hl h0)
  unfold concordance
  rw [div_eq_one_iff_eq (by positivity)]
  rw [sum_eq_max]
  · refine forall₂_congr (fun a _ => ?_)
    rw [← mul_one ((scoresOf 0 t p).length : K), sum_eq_max _ _ _ (fun b _ => (inOrder_range a b).2)]
    refine forall₂_congr (fun b _ => ?_)
    unfold inOrder
    split_ifs with e1 e2
    · simp [e1]
    · simp [e1]
    · simp [e1]
  · intro a _
    have := sum_range (scoresOf 0 t p) (fun b => inOrder a b) 1 (fun b _ => inOrder_range a b)
    rw [mul_one] at this
    exact this.2

/-- The samples of a class after a map of the predictions. -/
lemma scoresOf_map (g : K → K) (c : K) (t p : List K) : scoresOf c t (p.map g) = (scoresOf c t p).map g := by
  unfold scoresOf
  induction t generalizing p with
  | nil => simp
  | cons a t ih =>
    cases p with
    | nil => simp
    | cons b p =>
      simp only [List.map_cons, List.zip_cons_cons, List.filter_cons]
      split_ifs <;> simp [ih]

/-- C140: only the order of the predictions matters. -/
theorem C140_order (g : K → K) (hg : StrictMono g) (t p : List K) : concordance t (p.map g) = concordance t p := by
  unfold concordance
  simp only [scoresOf_map, List.length_map, List.map_map, Function.comp_def]
  have : ∀ a b, inOrder (g a) (g b) = inOrder a b := fun a b => by
    unfold inOrder
    simp only [hg.lt_iff_lt, hg.injective.eq_iff]
  simp only [this]

/-- C140: reversing the order of the predictions turns the area into its complement. -/
theorem C140_reverse (g : K → K) (hg : StrictAnti g) (t p : List K) (hl : t.length = p.length) (h0 : 0 ∈ t) (h1 : 1 ∈ t) :
    concordance t (p.map g) = 1 - concordance t p := by
  have n1 : (0 : K) < (scoresOf 1 t p).length := by exact_mod_cast List.length_pos_iff.2 (scoresOf_ne hl h1)
  have n0 : (0 : K) < (scoresOf 0 t p).length := by exact_mod_cast List.length_pos_iff.2 (scoresOf_ne hl h0)
  unfold concordance
  simp only [scoresOf_map, List.length_map, List.map_map, Function.comp_def]
  have e : ∀ a b, inOrder (g a) (g b) = 1 - inOrder a b := fun a b => by
    unfold inOrder
    simp only [hg.lt_iff_gt, hg.injective.eq_iff]
    rcases lt_trichotomy a b with h | h | h
    · simp [h, not_lt.2 h.le, ne_of_gt h]
    · subst h; simp; norm_num
    · simp [h, not_lt.2 h.le, ne_of_lt h]
  have s : ∀ {A : Type} (l : List A) (f : A → K) (c : K), (l.map (fun a => c - f a)).sum = l.length * c - (l.map f).sum := fun l f c => by
    induction l with
    | nil => simp
    | cons a l ih => simp only [List.map_cons, List.sum_cons, ih, List.length_cons]; push_cast; ring
  simp only [e, s, mul_one]
  rw [sub_div, div_self (by positivity)]

/-- C140: predictions that do not distinguish the samples give one half. -/
theorem C140_constant (c : K) (t p : List K) (hl : t.length = p.length) (h0 : 0 ∈ t) (h1 : 1 ∈ t) :
    concordance t (p.map (fun _ => c)) = 1 / 2 := by
  have n1 : (0 : K) < (scoresOf 1 t p).length := by exact_mod_cast List.length_pos_iff.2 (scoresOf_ne hl h1)
  have n0 : (0 : K) < (scoresOf 0 t p).length := by exact_mod_cast List.length_pos_iff.2 (scoresOf_ne hl h0)
  unfold concordance
  simp only [scoresOf_map, List.length_map, List.map_map, Function.comp_def]
  simp only [inOrder, lt_irrefl, if_false, if_true, List.map_const', List.sum_replicate, nsmul_eq_mul]
  field_simp

end Props

/-- The area as `item_finder_statistics` gets it; it never asks for it when `roc_auc_score` would raise (C140_statistics). -/
noncomputable def sklearnAuc (t p : List ℝ) : ℝ := match rocAucScore t p with
  | .ok a => a
  | .error _ => 0

/-- C140: the hypothesis of `C96_item_finder` and of the theorems about the statistics script is met by `roc_auc_score`. -/
theorem C140_perm {rs rs' : List (ℝ × ℝ)} (h : rs.Perm rs') :
    sklearnAuc (rs.map Prod.fst) (rs.map Prod.snd) = sklearnAuc (rs'.map Prod.fst) (rs'.map Prod.snd) := by
  have hz : ∀ l : List (ℝ × ℝ), (l.map Prod.snd).zip ((l.map Prod.fst).map (fun y => decide (y = 1))) = l.map (fun r => (r.2, decide (r.1 = 1))) := by
    intro l
    induction l with
    | nil => rfl
    | cons x l ih => simp only [List.map_cons, List.zip_cons_cons, ih]
  unfold sklearnAuc rocAucScore
  have hm : ∀ c : ℝ, c ∈ rs.map Prod.fst ↔ c ∈ rs'.map Prod.fst := fun c => (h.map Prod.fst).mem_iff
  rw [hz, hz]
  simp only [hm]
  split_ifs with hc
  · have hpos : ∀ l : List (ℝ × ℝ), 1 ∈ l.map Prod.fst → ∃ x ∈ l.map (fun r => (r.2, decide (r.1 = 1))), x.2 = true := by
      intro l hl
      obtain ⟨x, hx, e⟩ := List.mem_map.1 hl
      exact ⟨_, List.mem_map.2 ⟨x, hx, rfl⟩, by simp [e]⟩
    rw [area _ (hpos rs ((hm 1).2 hc.2)), area _ (hpos rs' hc.2)]
    have hp := h.map (fun r : ℝ × ℝ => (r.2, decide (r.1 = 1)))
    have hf := fun f : ℝ × Bool → Bool => hp.filter f
    have hs : ∀ a : ℝ × Bool, (((rs.map (fun r => (r.2, decide (r.1 = 1)))).filter (fun y => !y.2)).map (fun b => inOrder a.1 b.1)).sum =
        (((rs'.map (fun r => (r.2, decide (r.1 = 1)))).filter (fun y => !y.2)).map (fun b => inOrder a.1 b.1)).sum := fun a => ((hf _).map _).sum_eq
    simp only [hs, ((hf (fun y => y.2)).map _).sum_eq, (hf (fun y => y.2)).length_eq, (hf (fun y => !y.2)).length_eq]
  · rfl

/-- C140: the statistics of an item finder contain an area under the curve exactly when both classes occur; then `roc_auc_score` does not
raise, and the entry is the share of well-ordered pairs. -/
theorem C140_statistics (t p : List ℝ) (hne : t ≠ []) (hbin : ∀ s ∈ t, s = 0 ∨ s = 1) (hl : t.length = p.length) :
    ∃ r, itemFinderStatistics sklearnAuc (t.map Fl.fin) (p.map Fl.fin) = .ok r ∧
      (r.auc = if 0 ∈ t ∧ 1 ∈ t then some (concordance t p) else none) ∧
      (r.auc.isSome → rocAucScore t p = .ok (concordance t p)) := by
  obtain ⟨r, h1, -, h2, h3, -⟩ := C59_auc sklearnAuc t p hne hbin hl
  refine ⟨r, h1, ?_, fun h => ?_⟩
  · split_ifs with h
    · rw [h3 h.1 h.2, sklearnAuc, C140_meaning t p hl hbin h.1 h.2]
    · exact Option.not_isSome_iff_eq_none.1 (fun e => h (h2.1 e))
  · exact C140_meaning t p hl hbin (h2.1 h).1 (h2.1 h).2

/-- Six samples with a tie: the hypotheses are met, a point of the curve is dropped, and the area is 9/16. -/
example : rocAucScore ([1, 0, 1, 0, 0, 0] : List ℚ) [4, 4, 1, 3, 2, 0] = .ok (9 / 16) ∧
    concordance ([1, 0, 1, 0, 0, 0] : List ℚ) [4, 4, 1, 3, 2, 0] = 9 / 16 := by
  have h : concordance ([1, 0, 1, 0, 0, 0] : List ℚ) [4, 4, 1, 3, 2, 0] = 9 / 16 := by decide +kernel
  refine ⟨?_, h⟩
  rw [C140_meaning ([1, 0, 1, 0, 0, 0] : List ℚ) [4, 4, 1, 3, 2, 0] rfl (by decide +kernel) (by decide +kernel) (by decide +kernel), h]

/-- On falling scores, the points of these samples. -/
example : dropIntermediate (clfCurve 0 0 ([(4, true), (4, false), (3, false), (2, false), (1, true), (0, false)] : List (ℚ × Bool))) =
    [(1, 1), (3, 1), (3, 2), (4, 2)] := by
  decide +kernel

end Kam.Metrics
