/-
C134: predictions of the topic model with machine arithmetic.
-/
import Verif.Float.Score
import Verif.PLSA.Props3

set_option linter.unusedSectionVars false

namespace Kam.Fl
open Spec
open scoped BigOperators

/-- `pRgXY` for one request (score_predictor/topic_model.py:343-348): products from left to right, sums in some order. -/
def ScoreDist (p : PLSA.Params) (x y : Fin p.k → ℝ) (d : Fin p.nl → ℝ) : Prop :=
  ∃ (a : Fin p.nl → ℝ) (b : ℝ),
    (∀ r, RoundedSum (List.ofFn (fun z => fl (fl (fl (p.pZ z * p.pR r z) * x z) * y z))) (a r)) ∧
    RoundedSum (List.ofFn a) b ∧ ∀ r, d r = fl (a r / b)

/-- One row of `raw_predict` (score_predictor/topic_model.py:322-355).  The scalar product of `np.dot` rounds its products, as
without fused multiplication and addition. -/
def PredictRow (useExpectation : Bool) (p : PLSA.Params) (row : List Int) (v : ℝ) : Prop :=
  ∃ u i x y d, npGet row 0 = .ok u ∧ npGet p.pX u = .ok x ∧ npGet row 1 = .ok i ∧ npGet p.pY i = .ok y ∧ ScoreDist p x y d ∧
    if useExpectation then
      p.nl = p.levels.length ∧ RoundedSum (List.zipWith (fun a l => fl (a * l)) (List.ofFn d) p.levels) v
    else ∃ j : Nat, PLSA.argmax (List.ofFn d) = .ok j ∧ npGet p.levels (j : Int) = .ok v

/-- The probabilities of a request are not all 0, and none is negative. -/
structure Weighted (p : PLSA.Params) (x y : Fin p.k → ℝ) : Prop where
  hz : ∀ z, 0 ≤ p.pZ z
  hr : ∀ r z, 0 ≤ p.pR r z
  hx : ∀ z, 0 ≤ x z
  hy : ∀ z, 0 ≤ y z
  pos : 0 < ∑ r, ∑ z, p.pZ z * p.pR r z * x z * y z

section
variable {p : PLSA.Params} {x y : Fin p.k → ℝ}

lemma npGet_mem {β : Type} {l : List β} {i : Int} {b : β} (h : npGet l i = .ok b) : b ∈ l := by
  unfold npGet at h
  split at h
  · cases h
  · split at h
    · rename_i h2
      cases h
      exact List.mem_of_getElem? h2
    · cases h

lemma near_ofFn {n k : Nat} {a f : Fin n → ℝ} (h : ∀ i, Near k (a i) (f i)) {v : ℝ} (hv : RoundedSum (List.ofFn f) v) :
    Near (k + (n - 1)) (∑ i, a i) v := by
  have h1 : List.Forall₂ (Near k) (List.ofFn a) (List.ofFn f) := by
    rw [List.forall₂_iff_get]
    refine ⟨by simp, fun i h1 h2 => ?_⟩
    simp only [List.get_ofFn]
    exact h _
  have h2 := near_sum_of h1 hv
  rwa [List.length_ofFn, List.sum_ofFn] at h2

/-- What is known about the computed probabilities: close to the exact ones, and with a sum close to 1. -/
lemma dist_near (hw : Weighted p x y) {d : Fin p.nl → ℝ} (h : ScoreDist p x y d) :
    (∀ r, Near (3 * p.k + 2 * p.nl + 10) (PLSA.scoreDist p x y r) (d r)) ∧ Near (2 * p.nl) 1 (∑ r, d r) := by
  obtain ⟨a, b, ha, hb, hd⟩ := h
  have h1 : ∀ r z, Near 3 (p.pZ z * p.pR r z * x z * y z) (fl (fl (fl (p.pZ z * p.pR r z) * x z) * y z)) := by
    intro r z
    have e1 := near_fl (mul_nonneg (hw.hz z) (hw.hr r z))
    have e2 := (e1.scale (hw.hx z)).fl
    exact (e2.scale (hw.hy z)).fl
  have h2 : ∀ r, Near (p.k + 3) (∑ z, p.pZ z * p.pR r z * x z * y z) (a r) := fun r =>
    (near_ofFn (h1 r) (ha r)).mono (by omega)
  have hnl : 0 < p.nl := by
    by_contra hc
    have : p.nl = 0 := by omega
    have hp := hw.pos
    have : IsEmpty (Fin p.nl) := by rw [this]; exact Fin.isEmpty
    rw [Finset.univ_eq_empty, Finset.sum_empty] at hp
    exact lt_irrefl _ hp
  have h3 : Near (p.nl - 1) (∑ r, a r) b := by
    have := near_ofFn (k := 0) (fun r => Near.refl (h2 r).nonneg) hb
    rwa [zero_add] at this
  have hS : Near (p.k + 3) (∑ r, ∑ z, p.pZ z * p.pR r z * x z * y z) (∑ r, a r) := by
    have := near_list (n := p.k + 3) (as := List.ofFn (fun r => ∑ z, p.pZ z * p.pR r z * x z * y z)) (bs := List.ofFn a) (by
      rw [List.forall₂_iff_get]
      refine ⟨by simp, fun i h1 h2' => ?_⟩
      simp only [List.get_ofFn]
      exact h2 _)
    rwa [List.sum_ofFn, List.sum_ofFn] at this
  have hapos := hS.pos hw.pos
  have hbinv := h3.inv hapos
  constructor
  · intro r
    have h4 : Near (p.k + 3 + (p.nl - 1)) (∑ r, ∑ z, p.pZ z * p.pR r z * x z * y z) b := hS.trans h3
    have h5 := ((h2 r).mul (h4.inv hw.pos)).fl
    rw [hd r]
    unfold PLSA.scoreDist
    rw [div_eq_mul_inv, div_eq_mul_inv]
    exact h5.mono (by omega)
  · have h6 : ∀ r, Near 1 (a r / b) (d r) := by
      intro r
      rw [hd r]
      exact near_fl (div_nonneg (h2 r).nonneg h3.nonneg)
    have h7 := near_list (n := 1) (as := List.ofFn (fun r => a r / b)) (bs := List.ofFn d) (by
      rw [List.forall₂_iff_get]
      refine ⟨by simp, fun i h1 h2' => ?_⟩
      simp only [List.get_ofFn]
      exact h6 _)
    rw [List.sum_ofFn, List.sum_ofFn] at h7
    have h8 : Near (2 * (p.nl - 1)) 1 (∑ r, a r / b) := by
      have := hbinv.scale hapos.le
      rw [inv_mul_cancel₀ hapos.ne'] at this
      have e : ∑ r, a r / b = b⁻¹ * ∑ r, a r := by
        rw [Finset.mul_sum]
        exact Finset.sum_congr rfl (fun r _ => by rw [div_eq_inv_mul])
      rwa [e]
    exact (h8.trans h7).mono (by omega)

lemma zipWith_levels {d : Fin p.nl → ℝ} {f : ℝ → ℝ → ℝ} (hl : p.nl = p.levels.length) :
    List.zipWith f (List.ofFn d) p.levels = List.ofFn (fun r : Fin p.nl => f (d r) (p.levels[r.1]'(by omega))) := by
  apply List.ext_getElem
  · simp [hl]
  · intro j h1 h2
    simp
end

/-- C134: the prediction in expectation mode is close to the exact one, and leaves the range of the levels at most by rounding. -/
theorem C134_expectation {p : PLSA.Params} {row : List Int} {v : ℝ}
    (hw : ∀ x ∈ p.pX, ∀ y ∈ p.pY, Weighted p x y) (hlev : ∀ l ∈ p.levels, 0 ≤ l)
    (hmax : 3 * p.k + 3 * p.nl + 11 ≤ 2 ^ 52) (h : PredictRow true p row v) :
    ∃ s, PLSA.predictRow true p row = .ok s ∧ 0 ≤ s ∧
      |v - s| ≤ (3 * p.k + 3 * p.nl + 11) / 2 ^ 52 * s ∧
      ∀ lo hi, 0 ≤ lo → (∀ l ∈ p.levels, lo ≤ l ∧ l ≤ hi) →
        lo * (1 - (3 * p.nl + 1) / 2 ^ 52) ≤ v ∧ v ≤ hi * (1 + (3 * p.nl + 1) / 2 ^ 52) := by
  obtain ⟨u, i, x, y, d, h1, h2, h3, h4, hd, hv⟩ := h
  simp only [if_true] at hv
  obtain ⟨hl, hv⟩ := hv
  have hx : x ∈ p.pX := npGet_mem h2
  have hy : y ∈ p.pY := npGet_mem h4
  obtain ⟨n1, n2⟩ := dist_near (hw x hx y hy) hd
  rw [zipWith_levels hl] at hv
  have hlev' : ∀ r : Fin p.nl, 0 ≤ p.levels[r.1]'(by omega) := fun r => hlev _ (List.getElem_mem _)
  have hN : Near (3 * p.k + 3 * p.nl + 11) (∑ r : Fin p.nl, PLSA.scoreDist p x y r * p.levels[r.1]'(by omega)) v := by
    have := near_ofFn (a := fun r : Fin p.nl => PLSA.scoreDist p x y r * p.levels[r.1]'(by omega))
      (fun r => ((n1 r).scale (hlev' r)).fl) hv
    exact this.mono (by omega)
  have hR : Near (p.nl + 1) (∑ r : Fin p.nl, d r * p.levels[r.1]'(by omega)) v := by
    have := near_ofFn (k := 1) (a := fun r : Fin p.nl => d r * p.levels[r.1]'(by omega))
      (fun r => near_fl (mul_nonneg (n1 r).nonneg (hlev' r))) hv
    exact this.mono (by omega)
  refine ⟨∑ r : Fin p.nl, PLSA.scoreDist p x y r * p.levels[r.1]'(by omega), ?_, hN.1, ?_, ?_⟩
  · unfold PLSA.predictRow
    simp only [bind, Except.bind, h1, h2, h3, h4, if_true, List.length_ofFn]
    rw [if_pos hl, zipWith_levels hl, List.sum_ofFn]
    rfl
  · have := hN.relative (by omega)
    push_cast at this
    exact this
  · intro lo hi hlo hb
    have b1 : lo * ∑ r, d r ≤ ∑ r : Fin p.nl, d r * p.levels[r.1]'(by omega) := by
      rw [Finset.mul_sum]
      refine Finset.sum_le_sum (fun r _ => ?_)
      rw [mul_comm]
      exact mul_le_mul_of_nonneg_left (hb _ (List.getElem_mem _)).1 (n1 r).nonneg
    have b2 : ∑ r : Fin p.nl, d r * p.levels[r.1]'(by omega) ≤ hi * ∑ r, d r := by
      rw [Finset.mul_sum]
      refine Finset.sum_le_sum (fun r _ => ?_)
      rw [mul_comm hi]
      exact mul_le_mul_of_nonneg_left (hb _ (List.getElem_mem _)).2 (n1 r).nonneg
    have hnl : 0 < p.nl := by
      by_contra hc
      have h0 : p.nl = 0 := by omega
      have hp := (hw x hx y hy).pos
      have : IsEmpty (Fin p.nl) := by rw [h0]; exact Fin.isEmpty
      rw [Finset.univ_eq_empty, Finset.sum_empty] at hp
      exact lt_irrefl _ hp
    have hhi : 0 ≤ hi := by
      have := hb (p.levels[0]'(by omega)) (List.getElem_mem _)
      linarith [this.1, this.2]
    have hb' : (1 + Fl.u) ^ (3 * p.nl + 1) - 1 ≤ (3 * p.nl + 1) / 2 ^ 52 := by
      have := high_bound (n := 3 * p.nl + 1) (by omega)
      push_cast at this
      exact this
    constructor
    · have c1 : (1 - Fl.u) ^ (3 * p.nl + 1) * lo ≤ v := by
        calc (1 - Fl.u) ^ (3 * p.nl + 1) * lo = (1 - Fl.u) ^ (p.nl + 1) * (lo * ((1 - Fl.u) ^ (2 * p.nl) * 1)) := by ring
          _ ≤ (1 - Fl.u) ^ (p.nl + 1) * (lo * ∑ r, d r) :=
            mul_le_mul_of_nonneg_left (mul_le_mul_of_nonneg_left n2.2.1 hlo) (low_pos _).le
          _ ≤ (1 - Fl.u) ^ (p.nl + 1) * ∑ r : Fin p.nl, d r * p.levels[r.1]'(by omega) :=
            mul_le_mul_of_nonneg_left b1 (low_pos _).le
          _ ≤ v := hR.2.1
      have c2 : 1 - (3 * p.nl + 1) / 2 ^ 52 ≤ (1 - Fl.u) ^ (3 * p.nl + 1) := by
        have e1 := one_add_mul_le_pow (a := -Fl.u) (by linarith [u_small]) (3 * p.nl + 1)
        rw [← sub_eq_add_neg] at e1
        refine le_trans ?_ e1
        have e2 : Fl.u ≤ 1 / 2 ^ 52 := by unfold Fl.u; norm_num
        push_cast
        have e3 : (0 : ℝ) ≤ 3 * p.nl + 1 := by positivity
        have e4 := mul_le_mul_of_nonneg_left e2 e3
        rw [mul_one_div] at e4
        linarith
      calc lo * (1 - (3 * p.nl + 1) / 2 ^ 52) ≤ lo * (1 - Fl.u) ^ (3 * p.nl + 1) := mul_le_mul_of_nonneg_left c2 hlo
        _ = (1 - Fl.u) ^ (3 * p.nl + 1) * lo := mul_comm _ _
        _ ≤ v := c1
    · calc v ≤ (1 + Fl.u) ^ (p.nl + 1) * ∑ r : Fin p.nl, d r * p.levels[r.1]'(by omega) := hR.2.2
        _ ≤ (1 + Fl.u) ^ (p.nl + 1) * (hi * ∑ r, d r) := mul_le_mul_of_nonneg_left b2 (high_pos _).le
        _ ≤ (1 + Fl.u) ^ (p.nl + 1) * (hi * ((1 + Fl.u) ^ (2 * p.nl) * 1)) :=
          mul_le_mul_of_nonneg_left (mul_le_mul_of_nonneg_left n2.2.2 hhi) (high_pos _).le
        _ = hi * (1 + Fl.u) ^ (3 * p.nl + 1) := by ring
        _ ≤ hi * (1 + (3 * p.nl + 1) / 2 ^ 52) := mul_le_mul_of_nonneg_left (by linarith) hhi

/-- C134: in the other mode the prediction is a level, and no level is more probable by more than rounding errors. -/
theorem C134_mode {p : PLSA.Params} {row : List Int} {v : ℝ}
    (hw : ∀ x ∈ p.pX, ∀ y ∈ p.pY, Weighted p x y) (hl : p.nl = p.levels.length)
    (hmax : 3 * (3 * p.k + 2 * p.nl + 10) ≤ 2 ^ 52) (h : PredictRow false p row v) :
    ∃ u i x y, npGet row 0 = .ok u ∧ npGet p.pX u = .ok x ∧ npGet row 1 = .ok i ∧ npGet p.pY i = .ok y ∧
      ∃ j : Fin p.nl, p.levels[j.1]? = some v ∧
        ∀ r, PLSA.scoreDist p x y r ≤ (1 + 3 * (3 * p.k + 2 * p.nl + 10) / 2 ^ 52) * PLSA.scoreDist p x y j := by
  obtain ⟨u, i, x, y, d, h1, h2, h3, h4, hd, hv⟩ := h
  simp only [Bool.false_eq_true, if_false] at hv
  obtain ⟨j, hj, hv⟩ := hv
  obtain ⟨n1, -⟩ := dist_near (hw x (npGet_mem h2) y (npGet_mem h4)) hd
  have hne : List.ofFn d ≠ [] := by
    intro hc
    rw [hc] at hj
    cases hj
  obtain ⟨j', hj', b, hb, hbest⟩ := PLSA.argmax_spec _ hne
  rw [hj] at hj'
  cases hj'
  rw [List.getElem?_eq_some_iff] at hb
  obtain ⟨hjl, hb⟩ := hb
  rw [List.length_ofFn] at hjl
  rw [List.getElem_ofFn] at hb
  refine ⟨u, i, x, y, h1, h2, h3, h4, ⟨j, hjl⟩, ?_, ?_⟩
  · rw [npGet_ofNat _ _ (by omega)] at hv
    rw [List.getElem?_eq_getElem (by omega)]
    exact congrArg some (Except.ok.inj hv)
  · intro r
    have hle : d r ≤ d ⟨j, hjl⟩ := by
      have := (hbest r.1 (d r) (by simp)).1
      rwa [← hb] at this
    have e1 := n1 r
    have e2 := n1 ⟨j, hjl⟩
    generalize hM : 3 * p.k + 2 * p.nl + 10 = M at *
    have hb' : (1 + Fl.u) ^ (3 * M) - 1 ≤ 3 * M / 2 ^ 52 := by
      have := high_bound (n := 3 * M) hmax
      push_cast at this
      exact this
    have e3 : PLSA.scoreDist p x y r ≤ (1 + Fl.u) ^ (2 * M) * ((1 - Fl.u) ^ M * PLSA.scoreDist p x y r) := by
      have := mul_le_mul_of_nonneg_right (high_low M) e1.1
      rw [one_mul, mul_assoc] at this
      exact this
    have hMr : (3 : ℝ) * p.k + 2 * p.nl + 10 = M := by rw [← hM]; push_cast; ring
    rw [hMr]
    calc PLSA.scoreDist p x y r ≤ (1 + Fl.u) ^ (2 * M) * ((1 - Fl.u) ^ M * PLSA.scoreDist p x y r) := e3
      _ ≤ (1 + Fl.u) ^ (2 * M) * ((1 + Fl.u) ^ M * PLSA.scoreDist p x y ⟨j, hjl⟩) :=
        mul_le_mul_of_nonneg_left (e1.2.1.trans (hle.trans e2.2.2)) (high_pos _).le
      _ = (1 + Fl.u) ^ (3 * M) * PLSA.scoreDist p x y ⟨j, hjl⟩ := by ring
      _ ≤ _ := mul_le_mul_of_nonneg_right (by linarith) e2.1

/-- C134: the parameters stored by a fit meet the hypotheses, for known and unknown users and items. -/
theorem C134_fitted {nu ni nl k : Nat} {θ : PLSA.Theta nu ni nl k} (hθ : Proper θ) (hk : 0 < k) (hnl : 0 < nl)
    (levels : List ℝ) : ∀ x ∈ (PLSA.store θ levels).pX, ∀ y ∈ (PLSA.store θ levels).pY, Weighted (PLSA.store θ levels) x y := by
  intro x hx y hy
  have hx' : ∀ z, 0 < x z := by
    intro z
    have hx0 : ∀ x : Fin k → ℝ, x ∈ List.ofFn θ.pX ++ [fun _ => 1] → (∃ i, θ.pX i = x) ∨ x = fun _ => 1 := fun x hx => by
      rwa [List.mem_append, List.mem_ofFn, List.mem_singleton] at hx
    rcases hx0 x hx with ⟨i, rfl⟩ | rfl
    · exact (hθ.x z).1 i
    · exact one_pos
  have hy' : ∀ z, 0 < y z := by
    intro z
    have hy0 : ∀ y : Fin k → ℝ, y ∈ List.ofFn θ.pY ++ [fun _ => 1] → (∃ i, θ.pY i = y) ∨ y = fun _ => 1 := fun y hy => by
      rwa [List.mem_append, List.mem_ofFn, List.mem_singleton] at hy
    rcases hy0 y hy with ⟨i, rfl⟩ | rfl
    · exact (hθ.y z).1 i
    · exact one_pos
  refine ⟨fun z => (hθ.z.1 z).le, fun r z => ((hθ.r z).1 r).le, fun z => (hx' z).le, fun z => (hy' z).le, ?_⟩
  refine Finset.sum_pos (fun r _ => Finset.sum_pos (fun z _ => ?_) ⟨⟨0, hk⟩, Finset.mem_univ _⟩) ⟨⟨0, hnl⟩, Finset.mem_univ _⟩
  exact mul_pos (mul_pos (mul_pos (hθ.z.1 z) ((hθ.r z).1 r)) (hx' z)) (hy' z)

/-- There is a machine prediction whenever there is an exact one. -/
theorem exists_predictRow {m : Bool} {p : PLSA.Params} {row : List Int} {s : ℝ} (hl : p.nl = p.levels.length)
    (h : PLSA.predictRow m p row = .ok s) : ∃ v, PredictRow m p row v := by
  unfold PLSA.predictRow at h
  cases h1 : npGet row 0 with
  | error e => rw [h1] at h; cases h
  | ok u =>
    cases h2 : npGet p.pX u with
    | error e => simp only [bind, Except.bind, h1, h2] at h; cases h
    | ok x =>
      cases h3 : npGet row 1 with
      | error e => simp only [bind, Except.bind, h1, h2, h3] at h; cases h
      | ok i =>
        cases h4 : npGet p.pY i with
        | error e => simp only [bind, Except.bind, h1, h2, h3, h4] at h; cases h
        | ok y =>
          simp only [bind, Except.bind, h1, h2, h3, h4] at h
          choose a ha using fun r => exists_sum (List.ofFn (fun z => fl (fl (fl (p.pZ z * p.pR r z) * x z) * y z)))
          obtain ⟨b, hb⟩ := exists_sum (List.ofFn a)
          have hd : ScoreDist p x y (fun r => fl (a r / b)) := ⟨a, b, ha, hb, fun r => rfl⟩
          cases m with
          | true =>
            obtain ⟨v, hv⟩ := exists_sum (List.zipWith (fun a l => fl (a * l)) (List.ofFn (fun r => fl (a r / b))) p.levels)
            exact ⟨v, u, i, x, y, _, h1, h2, h3, h4, hd, by rw [if_pos rfl]; exact ⟨hl, hv⟩⟩
          | false =>
            have hne : List.ofFn (fun r => fl (a r / b)) ≠ [] := by
              intro hc
              have h0 : p.nl = 0 := by
                have := congrArg List.length hc
                simpa using this
              have : List.ofFn (PLSA.scoreDist p x y) = [] := by
                apply List.eq_nil_of_length_eq_zero
                simpa using h0
              simp only [this, Bool.false_eq_true, if_false] at h
              cases h
            obtain ⟨j, hj, b', hb', -⟩ := PLSA.argmax_spec _ hne
            have hjl : j < p.levels.length := by
              have := (List.getElem?_eq_some_iff.1 hb').1
              rw [List.length_ofFn] at this
              omega
            refine ⟨p.levels[j], u, i, x, y, _, h1, h2, h3, h4, hd, ?_⟩
            rw [if_neg (by simp)]
            exact ⟨j, hj, npGet_ofNat _ _ hjl⟩

/-- One topic, two levels with the probabilities 1/4 and 3/4: the hypotheses of both theorems can be met. -/
example : ∃ p : PLSA.Params, p.nl = p.levels.length ∧ (∀ x ∈ p.pX, ∀ y ∈ p.pY, Weighted p x y) ∧ (∀ l ∈ p.levels, 0 ≤ l) ∧
    ∀ m, ∃ v, PredictRow m p [0, 0] v := by
  let p : PLSA.Params := ⟨1, 2, fun _ => 1, fun r _ => if r = 0 then 1 / 4 else 3 / 4, [fun _ => 1], [fun _ => 1], [1, 2]⟩
  have hl : p.nl = p.levels.length := rfl
  refine ⟨p, hl, ?_, ?_, ?_⟩
  · intro x hx y hy
    have hx : x = fun _ => 1 := by simpa [p] using hx
    have hy : y = fun _ => 1 := by simpa [p] using hy
    subst hx hy
    refine ⟨fun z => zero_le_one, fun r z => ?_, fun z => zero_le_one, fun z => zero_le_one, ?_⟩
    · change (0 : ℝ) ≤ if r = 0 then 1 / 4 else 3 / 4
      split_ifs <;> norm_num
    · change (0 : ℝ) < ∑ r : Fin 2, ∑ z : Fin 1, 1 * (if r = 0 then 1 / 4 else 3 / 4) * 1 * 1
      norm_num [Fin.sum_univ_succ]
  · intro l hl
    have : l = 1 ∨ l = 2 := by simpa [p] using hl
    rcases this with rfl | rfl <;> norm_num
  · intro m
    cases m with
    | true => exact exists_predictRow (s := _) hl rfl
    | false =>
      obtain ⟨j, hj, b, hb, -⟩ := PLSA.argmax_spec (List.ofFn (PLSA.scoreDist p (fun _ => 1) (fun _ => 1))) (by simp [p])
      have hjl : j < p.levels.length := by
        have := (List.getElem?_eq_some_iff.1 hb).1
        rw [List.length_ofFn] at this
        exact this
      refine exists_predictRow (s := p.levels[j]) hl ?_
      have e : PLSA.predictRow false p [0, 0] = (do
          let j ← PLSA.argmax (List.ofFn (PLSA.scoreDist p (fun _ => 1) (fun _ => 1)))
          npGet p.levels (j : Int)) := rfl
      rw [e, hj]
      exact npGet_ofNat _ _ hjl

end Kam.Fl
