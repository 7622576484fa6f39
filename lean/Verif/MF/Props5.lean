/-
Optimal parameters of the matrix factorization models: they exist (C86), reproduce the mean score
and leave objects without events at zero (C87), shrink with growing regularization (C88) and never
get worse with more factors (C89).
-/
import Verif.MF.Props4
import Mathlib.Topology.Order.Compact
import Mathlib.Topology.MetricSpace.ProperSpace
import Mathlib.Analysis.Calculus.LocalExtr.Basic

set_option linter.unusedSectionVars false

namespace Kam
namespace MF
open scoped BigOperators
open Spec

variable {nu ni k : Nat}

/-- `c` is an optimal argument of `f`. -/
def Optimal {N : Nat} (f : (Fin N → ℝ) → ℝ) (c : Fin N → ℝ) : Prop := ∀ c', f c ≤ f c'

/-! ### C86: existence -/

/-- A continuous function attains its minimum if every point can be replaced by one of a bounded
region without a larger value. -/
theorem exists_optimal {N : Nat} (f : (Fin N → ℝ) → ℝ) (hf : Continuous f) (B : ℝ) (hB : 0 ≤ B)
    (h : ∀ c, ∃ c', (∀ j, |c' j| ≤ B) ∧ f c' ≤ f c) : ∃ c, Optimal f c := by
  have hK : IsCompact (Metric.closedBall (0 : Fin N → ℝ) B) := isCompact_closedBall 0 B
  obtain ⟨c, _, hc⟩ := hK.exists_isMinOn ⟨0, by simp [hB]⟩ hf.continuousOn
  refine ⟨c, fun c' => ?_⟩
  obtain ⟨c'', h1, h2⟩ := h c'
  refine le_trans (hc ?_) h2
  rw [mem_closedBall_zero_iff, pi_norm_le_iff_of_nonneg hB]
  exact h1

theorem continuous_get (s : Slot nu ni k) : Continuous (fun c : Coef nu ni k => (unpack c).get s) := by
  simp only [get_unpack]
  exact continuous_apply _

theorem continuous_est (u : Fin nu) (i : Fin ni) :
    Continuous (fun c : Coef nu ni k => est (unpack c) u i) := by
  unfold est
  have h1 := continuous_get (nu := nu) (ni := ni) (k := k) .mu
  have h2 := continuous_get (nu := nu) (ni := ni) (k := k) (.bu u)
  have h3 := continuous_get (nu := nu) (ni := ni) (k := k) (.bi i)
  refine ((h1.add h2).add h3).add ?_
  refine continuous_finsetSum _ (fun f _ => ?_)
  exact (continuous_get (.p u f)).mul (continuous_get (.q i f))

theorem continuous_reg : Continuous (fun c : Coef nu ni k => reg (unpack c)) := by
  simp only [reg_eq]
  refine continuous_finsetSum _ (fun j _ => ?_)
  split
  · exact continuous_const
  · exact (continuous_apply j).pow 2

theorem continuous_list_sum {X β : Type} [TopologicalSpace X] (l : List β) (f : β → X → ℝ)
    (h : ∀ b ∈ l, Continuous (f b)) : Continuous (fun x => (l.map (fun b => f b x)).sum) := by
  induction l with
  | nil => exact continuous_const
  | cons b l ih =>
    simp only [List.map_cons, List.sum_cons]
    exact (h b (by simp)).add (ih (fun b' hb => h b' (by simp [hb])))

theorem continuous_total (l : ℝ → ℝ → ℝ) (hl : ∀ s, Continuous (l s)) (C : ℝ)
    (evs : List (Event nu ni)) : Continuous (fun c : Coef nu ni k => total l C evs (unpack c)) := by
  unfold total
  refine Continuous.add ?_ (continuous_const.mul continuous_reg)
  exact continuous_list_sum evs (fun e c => l e.score (est (unpack c) e.user e.item))
    (fun e _ => (hl e.score).comp (continuous_est e.user e.item))

theorem continuous_lossP (s : ℝ) : Continuous (lossP s) := by
  unfold lossP; fun_prop

theorem continuous_clip : Continuous clip := by
  unfold clip; fun_prop

theorem continuous_safeSigmoid : Continuous safeSigmoid := by
  unfold safeSigmoid
  refine Continuous.div continuous_const ?_ ?_
  · exact continuous_const.add (Real.continuous_exp.comp continuous_clip.neg)
  · intro x; positivity

theorem continuous_lossL (s : ℝ) : Continuous (lossL s) := by
  unfold lossL logLik
  refine Continuous.neg (Continuous.add ?_ ?_)
  · refine continuous_const.mul (continuous_safeSigmoid.log ?_)
    intro x; exact (safeSigmoid_pos x).ne'
  · refine continuous_const.mul (Continuous.log (continuous_const.sub continuous_safeSigmoid) ?_)
    intro x
    have := safeSigmoid_lt_one x
    linarith

/-- Parameters other than the global bias are bounded by the regularization term. -/
theorem abs_le_of_reg {B : ℝ} (hB : 0 ≤ B) (c : Coef nu ni k) (h : reg (unpack c) ≤ B ^ 2)
    (s : Slot nu ni k) (hs : s ≠ .mu) : |(unpack c).get s| ≤ B := by
  rw [reg_eq] at h
  have h1 : (if (⟨pos s, pos_lt s⟩ : Fin (size nu ni k)).1 = 0 then 0
      else c ⟨pos s, pos_lt s⟩ ^ 2) ≤ B ^ 2 := by
    refine le_trans ?_ h
    exact Finset.single_le_sum (f := fun j : Fin (size nu ni k) => if j.1 = 0 then 0 else c j ^ 2)
      (fun j _ => by split <;> positivity) (Finset.mem_univ _)
  have hp : pos s ≠ 0 := by cases s <;> simp_all [pos]
  simp only [hp, if_false] at h1
  rw [get_unpack]
  exact abs_le_of_sq_le_sq h1 hB

/-- An estimate differs from the global bias by a bounded amount. -/
theorem abs_est_sub_mu {B : ℝ} (hB : 0 ≤ B) (c : Coef nu ni k) (h : reg (unpack c) ≤ B ^ 2)
    (u : Fin nu) (i : Fin ni) : |est (unpack c) u i - (unpack c).mu| ≤ 2 * B + k * B ^ 2 := by
  have h1 := abs_le_of_reg hB c h (.bu u) (by simp)
  have h2 := abs_le_of_reg hB c h (.bi i) (by simp)
  simp only [Views.get] at h1 h2
  have h3 : |∑ f, (unpack c).p u f * (unpack c).q i f| ≤ k * B ^ 2 := by
    refine le_trans (Finset.abs_sum_le_sum_abs _ _) ?_
    have : ∀ f ∈ (Finset.univ : Finset (Fin k)),
        |(unpack c).p u f * (unpack c).q i f| ≤ B ^ 2 := by
      intro f _
      have h4 := abs_le_of_reg hB c h (.p u f) (by simp)
      have h5 := abs_le_of_reg hB c h (.q i f) (by simp)
      simp only [Views.get] at h4 h5
      rw [abs_mul, pow_two]
      exact mul_le_mul h4 h5 (abs_nonneg _) hB
    refine le_trans (Finset.sum_le_sum this) ?_
    simp
  unfold est
  rw [show ∀ a b d e : ℝ, a + b + d + e - a = b + d + e from fun a b d e => by ring]
  refine le_trans (abs_add_le _ _) ?_
  have := abs_add_le ((unpack c).bu u) ((unpack c).bi i)
  linarith

theorem reg_nonneg (v : Views nu ni k) : 0 ≤ reg v := by unfold reg; positivity

/-- All parameters bounded from bounds on the regularization term and the global bias. -/
theorem coef_bounded {B M : ℝ} (hB : 0 ≤ B) (c : Coef nu ni k) (h : reg (unpack c) ≤ B ^ 2)
    (hm : |(unpack c).mu| ≤ M) (hBM : B ≤ M) (j : Fin (size nu ni k)) : |c j| ≤ M := by
  have h1 := get_unpack c (slotAt j)
  have h2 : (⟨pos (slotAt j), pos_lt (slotAt j)⟩ : Fin (size nu ni k)) = j :=
    Fin.ext (pos_slotAt j)
  rw [h2] at h1
  rw [← h1]
  by_cases hs : slotAt j = .mu
  · rw [hs]; exact hm
  · exact le_trans (abs_le_of_reg hB c h _ hs) hBM

/-- The losses are bounded below by the regularization. -/
theorem reg_le_of_total {l : ℝ → ℝ → ℝ} {C : ℝ} (hC : 0 < C) {evs : List (Event nu ni)}
    (hl : ∀ e ∈ evs, ∀ x, 0 ≤ l e.score x) {v : Views nu ni k} {L : ℝ} (h : total l C evs v ≤ L) :
    reg v ≤ Real.sqrt (2 * L / C) ^ 2 := by
  have h0 : 0 ≤ (evs.map (fun e => l e.score (est v e.user e.item))).sum := by
    apply List.sum_nonneg
    simp only [List.mem_map]
    rintro x ⟨e, he, rfl⟩
    exact hl e he _
  have h1 := reg_nonneg v
  have h2 : 0 ≤ L := by
    refine le_trans ?_ h
    unfold total
    positivity
  rw [Real.sq_sqrt (by positivity), le_div_iff₀ hC]
  unfold total at h
  linarith

theorem exists_optimal_total {l : ℝ → ℝ → ℝ} (hl : ∀ s, Continuous (l s)) {C : ℝ} (hC : 0 < C)
    (evs : List (Event nu ni)) (hpos : ∀ e ∈ evs, ∀ x, 0 ≤ l e.score x) (M : ℝ)
    (hM : Real.sqrt (2 * total l C evs (unpack (0 : Coef nu ni k)) / C) ≤ M)
    (hmu : ∀ c : Coef nu ni k,
      total l C evs (unpack c) ≤ total l C evs (unpack (0 : Coef nu ni k)) →
      ∃ c' : Coef nu ni k, |(unpack c').mu| ≤ M ∧ total l C evs (unpack c') ≤ total l C evs (unpack c)) :
    ∃ c : Coef nu ni k, Optimal (fun c => total l C evs (unpack c)) c := by
  have hM0 : 0 ≤ M := le_trans (Real.sqrt_nonneg _) hM
  refine exists_optimal _ (continuous_total l hl C evs) M hM0 ?_
  intro c
  by_cases h : total l C evs (unpack c) ≤ total l C evs (unpack (0 : Coef nu ni k))
  · obtain ⟨c', h1, h2⟩ := hmu c h
    refine ⟨c', fun j => ?_, h2⟩
    exact coef_bounded (Real.sqrt_nonneg _) c' (reg_le_of_total hC hpos (h2.trans h)) h1 hM j
  · refine ⟨0, fun j => by simpa using hM0, le_of_lt (lt_of_not_ge h)⟩

theorem lossP_nonneg (s x : ℝ) : 0 ≤ lossP s x := by unfold lossP; positivity

theorem lossL_nonneg {s : ℝ} (hs : s = 0 ∨ s = 1) (x : ℝ) : 0 ≤ lossL s x := by
  unfold lossL
  have := logLik_nonpos hs (safeSigmoid_pos x) (safeSigmoid_lt_one x)
  linarith

theorem pmf_exists (C : ℝ) (hC : 0 < C) (evs : List (Event nu ni)) :
    ∃ c : Coef nu ni k, Optimal (PMF.loss C evs) c := by
  have key : ∃ c : Coef nu ni k, Optimal (fun c => total lossP C evs (unpack c)) c := by
    set L := total lossP C evs (unpack (0 : Coef nu ni k)) with hL
    set B := Real.sqrt (2 * L / C) with hB
    cases evs with
    | nil =>
      refine exists_optimal_total continuous_lossP hC _ (fun _ _ x => lossP_nonneg _ x) B le_rfl ?_
      intro c _
      refine ⟨pack { unpack c with mu := 0 }, ?_, ?_⟩
      · rw [unpack_pack]; simp [hB]
      · rw [unpack_pack]; exact le_rfl
    | cons e evs =>
      refine exists_optimal_total continuous_lossP hC _ (fun _ _ x => lossP_nonneg _ x)
        (|e.score| + Real.sqrt (2 * L) + 2 * B + k * B ^ 2 + B) ?_ ?_
      · have h1 := Real.sqrt_nonneg (2 * L)
        have h2 : 0 ≤ B := Real.sqrt_nonneg _
        have h3 := abs_nonneg e.score
        have h4 : 0 ≤ (k : ℝ) * B ^ 2 := by positivity
        linarith
      · intro c hc
        refine ⟨c, ?_, le_rfl⟩
        have h1 := reg_le_of_total hC (fun _ _ x => lossP_nonneg _ x) hc
        have h2 := abs_est_sub_mu (Real.sqrt_nonneg _) c h1 e.user e.item
        have h3 : 0.5 * (e.score - est (unpack c) e.user e.item) ^ 2 ≤ L := by
          have h4 : 0 ≤ (evs.map (fun e => lossP e.score (est (unpack c) e.user e.item))).sum := by
            apply List.sum_nonneg
            simp only [List.mem_map]
            rintro x ⟨e, _, rfl⟩
            exact lossP_nonneg _ _
          have h5 := reg_nonneg (unpack c)
          have h6 : 0 ≤ 0.5 * C * reg (unpack c) := by positivity
          unfold total at hc
          rw [List.map_cons, List.sum_cons] at hc
          have h7 : lossP e.score (est (unpack c) e.user e.item) =
            0.5 * (e.score - est (unpack c) e.user e.item) ^ 2 := rfl
          rw [h7] at hc
          exact le_trans (by linarith) hc
        have h4 : |e.score - est (unpack c) e.user e.item| ≤ Real.sqrt (2 * L) := by
          apply Real.abs_le_sqrt
          linarith
        have hBB : 0 ≤ B := Real.sqrt_nonneg _
        rw [← hL, ← hB] at h2
        rw [abs_le] at h2 h4 ⊢
        have h8 := le_abs_self e.score
        have h9 := neg_abs_le e.score
        constructor <;> linarith [h2.1, h2.2, h4.1, h4.2]
  obtain ⟨c, hc⟩ := key
  exact ⟨c, fun c' => by rw [pmf_total, pmf_total]; exact hc c'⟩

theorem logistic_exists (C : ℝ) (hC : 0 < C) (evs : List (Event nu ni))
    (hb : ∀ e ∈ evs, e.score = 0 ∨ e.score = 1) :
    ∃ c : Coef nu ni k, Optimal (Logistic.loss C evs) c := by
  have key : ∃ c : Coef nu ni k, Optimal (fun c => total lossL C evs (unpack c)) c := by
    set L := total lossL C evs (unpack (0 : Coef nu ni k)) with hL
    set B := Real.sqrt (2 * L / C) with hB
    have hBB : 0 ≤ B := Real.sqrt_nonneg _
    have h4 : 0 ≤ (k : ℝ) * B ^ 2 := by positivity
    have hd := sigmoidDom_pos
    have hpos : ∀ e ∈ evs, ∀ x, 0 ≤ lossL e.score x := fun e he x => lossL_nonneg (hb e he) x
    refine exists_optimal_total continuous_lossL hC _ hpos
      (sigmoidDom + 2 * B + k * B ^ 2 + B) ?_ ?_
    · rw [← hL, ← hB]; linarith
    · intro c hc
      have hr := reg_le_of_total hC hpos hc
      rw [← hL, ← hB] at hr
      set M := sigmoidDom + 2 * B + k * B ^ 2 + B with hM
      -- a global bias outside the bound clips every estimate
      have hsub : ∀ m : ℝ, ∀ u i, est { unpack c with mu := m } u i - m =
          est (unpack c) u i - (unpack c).mu := by
        intro m u i; unfold est; ring
      have hbd := fun u i => abs_le.1 (abs_est_sub_mu hBB c hr u i)
      refine ⟨pack { unpack c with mu := max (-M) (min M (unpack c).mu) }, ?_, ?_⟩
      · rw [unpack_pack, abs_le]
        constructor
        · exact le_max_left _ _
        · exact max_le (by linarith) (min_le_left _ _)
      · rw [unpack_pack]
        unfold total
        have hreg : reg { unpack c with mu := max (-M) (min M (unpack c).mu) } = reg (unpack c) := rfl
        rw [hreg]
        apply le_of_eq
        congr 2
        apply List.map_congr_left
        intro e _
        unfold lossL
        congr 2
        rw [safeSigmoid_eq, safeSigmoid_eq]
        congr 1
        have h5 := hsub (max (-M) (min M (unpack c).mu)) e.user e.item
        obtain ⟨h6, h7⟩ := hbd e.user e.item
        rcases le_total (unpack c).mu (-M) with h | h
        · have hm : max (-M) (min M (unpack c).mu) = -M := by
            rw [min_eq_right (by linarith), max_eq_left h]
          rw [hm] at h5 ⊢
          rw [clip_of_lt (by linarith), clip_of_lt (by linarith)]
        · rcases le_total (unpack c).mu M with h' | h'
          · have hm : max (-M) (min M (unpack c).mu) = (unpack c).mu := by
              rw [min_eq_right h', max_eq_right h]
            rw [hm]
          · have hm : max (-M) (min M (unpack c).mu) = M := by
              rw [min_eq_left h', max_eq_right (by linarith)]
            rw [hm] at h5 ⊢
            rw [clip_of_gt (by linarith), clip_of_gt (by linarith)]
  obtain ⟨c, hc⟩ := key
  exact ⟨c, fun c' => by rw [logistic_total, logistic_total]; exact hc c'⟩

/-- C86: with a positive regularization parameter there are parameters that minimize the loss over
all parameters, for each of the three models, any number of users, items, factors and events; the
scores of the two item finders are 0 or 1, as `fit` enforces. -/
theorem C86_optimum_exists (C : ℝ) (hC : 0 < C) :
    (∀ evs : List (Event nu ni), ∃ c : Coef nu ni k, Optimal (PMF.loss C evs) c) ∧
    (∀ evs : List (Event nu ni), (∀ e ∈ evs, e.score = 0 ∨ e.score = 1) →
      ∃ c : Coef nu ni k, Optimal (Logistic.loss C evs) c) ∧
    (∀ m : Implicit.Mat nu ni, (∀ u i, m u i = 0 ∨ m u i = 1) →
      ∃ c : Coef nu ni k, Optimal (Implicit.loss C m) c) := by
  refine ⟨pmf_exists C hC, logistic_exists C hC, ?_⟩
  intro m hm
  obtain ⟨c, hc⟩ := logistic_exists (k := k) C hC (allPairs m) (by
    intro e he
    rw [mem_allPairs] at he
    rcases hm e.user e.item with h | h <;> simp [he, h])
  exact ⟨c, fun c' => by rw [implicit_loss_eq, implicit_loss_eq]; exact hc c'⟩

/-! ### C87: what an optimum looks like -/

theorem unseen_user_zero {l : ℝ → ℝ → ℝ} {C : ℝ} (hC : 0 < C) {evs : List (Event nu ni)}
    {v : Views nu ni k} (h : ∀ v' : Views nu ni k, total l C evs v ≤ total l C evs v') {u : Fin nu}
    (hu : ∀ e ∈ evs, e.user ≠ u) : v.bu u = 0 ∧ ∀ f, v.p u f = 0 := by
  have h1 := h { v with bu := Function.update v.bu u 0, p := Function.update v.p u 0 }
  unfold total at h1
  have he : ∀ e ∈ evs, est { v with bu := Function.update v.bu u 0, p := Function.update v.p u 0 }
      e.user e.item = est v e.user e.item := by
    intro e he
    unfold est
    simp only [Function.update_of_ne (hu e he)]
  have hm : evs.map (fun e => l e.score (est { v with
        bu := Function.update v.bu u 0, p := Function.update v.p u 0 } e.user e.item)) =
      evs.map (fun e => l e.score (est v e.user e.item)) := by
    apply List.map_congr_left
    intro e h
    rw [he e h]
  rw [hm] at h1
  have hr : reg { v with bu := Function.update v.bu u 0, p := Function.update v.p u 0 } =
      reg v - v.bu u ^ 2 - ∑ f, v.p u f ^ 2 := by
    unfold reg
    simp only
    have h2 : ∑ x, Function.update v.bu u 0 x ^ 2 = ∑ x, v.bu x ^ 2 - v.bu u ^ 2 := by
      rw [← Finset.add_sum_erase _ _ (Finset.mem_univ u),
        ← Finset.add_sum_erase _ (fun x => v.bu x ^ 2) (Finset.mem_univ u)]
      rw [Finset.sum_congr rfl (g := fun x => v.bu x ^ 2)]
      · simp
      · intro x hx
        rw [Function.update_of_ne (Finset.ne_of_mem_erase hx)]
    have h3 : ∑ x, ∑ f, Function.update v.p u 0 x f ^ 2 =
        ∑ x, ∑ f, v.p x f ^ 2 - ∑ f, v.p u f ^ 2 := by
      rw [← Finset.add_sum_erase _ _ (Finset.mem_univ u),
        ← Finset.add_sum_erase _ (fun x => ∑ f, v.p x f ^ 2) (Finset.mem_univ u)]
      rw [Finset.sum_congr rfl (g := fun x => ∑ f, v.p x f ^ 2)]
      · simp
      · intro x hx
        rw [Function.update_of_ne (Finset.ne_of_mem_erase hx)]
    rw [h2, h3]
    ring
  rw [hr] at h1
  have h4 : C * (v.bu u ^ 2 + ∑ f, v.p u f ^ 2) ≤ 0 := by linarith
  have h5 : v.bu u ^ 2 + ∑ f, v.p u f ^ 2 ≤ 0 := by
    by_contra hc
    have := mul_pos hC (lt_of_not_ge hc)
    linarith
  have h6 : 0 ≤ ∑ f, v.p u f ^ 2 := by positivity
  have h7 : v.bu u ^ 2 = 0 := by nlinarith [sq_nonneg (v.bu u)]
  have h8 : ∑ f, v.p u f ^ 2 = 0 := by nlinarith [sq_nonneg (v.bu u)]
  refine ⟨by simpa using h7, fun f => ?_⟩
  have h9 := (Finset.sum_eq_zero_iff_of_nonneg (fun f _ => sq_nonneg (v.p u f))).1 h8 f (Finset.mem_univ f)
  simpa using h9

theorem unseen_item_zero {l : ℝ → ℝ → ℝ} {C : ℝ} (hC : 0 < C) {evs : List (Event nu ni)}
    {v : Views nu ni k} (h : ∀ v' : Views nu ni k, total l C evs v ≤ total l C evs v') {i : Fin ni}
    (hi : ∀ e ∈ evs, e.item ≠ i) : v.bi i = 0 ∧ ∀ f, v.q i f = 0 := by
  have := unseen_user_zero (l := l) hC (evs := swapEvents evs) (v := swap v) (u := i) (by
    intro v'
    rw [total_swap]
    have h1 := total_swap l C evs (swap v')
    have h2 : swap (swap v') = v' := rfl
    rw [h2] at h1
    rw [h1]
    exact h _) (by
    intro e he
    simp only [swapEvents, List.mem_map] at he
    obtain ⟨e', he', rfl⟩ := he
    exact hi e' he')
  exact this

/-- The loss of a constant prediction `m`. -/
theorem total_const (l : ℝ → ℝ → ℝ) (C : ℝ) (evs : List (Event nu ni)) (m : ℝ) :
    total l C evs (⟨m, fun _ => 0, fun _ => 0, fun _ _ => 0, fun _ _ => 0⟩ : Views nu ni k) =
      (evs.map (fun e => l e.score m)).sum := by
  simp [total, est, reg]

/-- C87: parameters that minimize the loss of `PMF` or `LogisticPMF` (with `C > 0`) are zero for
every user and every item without training events, so these objects are treated exactly like
objects that are unknown.  The optimal parameters of `PMF` make the gradient vanish and hence
reproduce the mean training score (C33), and they are at least as good as every constant
prediction: the loss is not above half of the sum of squared deviations from any number. -/
theorem C87_optimum (C : ℝ) (hC : 0 < C) (evs : List (Event nu ni)) (c : Coef nu ni k) :
    (Optimal (PMF.loss C evs) c ∨ Optimal (Logistic.loss C evs) c →
      (∀ u : Fin nu, (∀ e ∈ evs, e.user ≠ u) → ∀ (link : ℝ → ℝ) (i : Option (Fin ni)),
        rawPredict link (store c) [[(u : Int), code i]] =
          rawPredict link (store c) [[(nu : Int), code i]]) ∧
      (∀ i : Fin ni, (∀ e ∈ evs, e.item ≠ i) → ∀ (link : ℝ → ℝ) (u : Option (Fin nu)),
        rawPredict link (store c) [[code u, (i : Int)]] =
          rawPredict link (store c) [[code u, (ni : Int)]]) ∧
      (∀ u : Fin nu, (∀ e ∈ evs, e.user ≠ u) → (unpack c).bu u = 0 ∧ ∀ f, (unpack c).p u f = 0) ∧
      (∀ i : Fin ni, (∀ e ∈ evs, e.item ≠ i) → (unpack c).bi i = 0 ∧ ∀ f, (unpack c).q i f = 0)) ∧
    (Optimal (PMF.loss C evs) c → PMF.gradLoss C evs c = 0 ∧
      (∃ ys, rawPredict id (store c) (evs.map evRow) = .ok ys ∧ ys.length = evs.length ∧
        ys.sum / ys.length = (evs.map (·.score)).sum / evs.length) ∧
      ∀ m : ℝ, PMF.loss C evs c ≤ 1 / 2 * (evs.map (fun e => (e.score - m) ^ 2)).sum) := by
  constructor
  · intro h
    have h' : ∃ l, ∀ v' : Views nu ni k, total l C evs (unpack c) ≤ total l C evs v' := by
      rcases h with h | h
      · refine ⟨lossP, fun v' => ?_⟩
        have := h (pack v')
        rwa [pmf_total, pmf_total, unpack_pack] at this
      · refine ⟨lossL, fun v' => ?_⟩
        have := h (pack v')
        rwa [logistic_total, logistic_total, unpack_pack] at this
    obtain ⟨l, h'⟩ := h'
    have hu := fun u hu => unseen_user_zero hC h' (u := u) hu
    have hi := fun i hi => unseen_item_zero hC h' (i := i) hi
    refine ⟨?_, ?_, hu, hi⟩
    · intro u hu' link i
      have h1 : rawScore (store c) [(u.1 : Int), code i] = _ := rawScore_store c (some u) i
      have h2 : rawScore (store c) [(nu : Int), code i] = _ := rawScore_store c none i
      have h3 : estO (unpack c) (some u) i = estO (unpack c) none i := by
        simp [estO, extend, (hu u hu').1, (hu u hu').2]
      unfold rawPredict
      simp only [List.mapM_cons, List.mapM_nil]
      rw [h1, h2, h3]
    · intro i hi' link u
      have h1 : rawScore (store c) [code u, (i.1 : Int)] = _ := rawScore_store c u (some i)
      have h2 : rawScore (store c) [code u, (ni : Int)] = _ := rawScore_store c u none
      have h3 : estO (unpack c) u (some i) = estO (unpack c) u none := by
        simp [estO, extend, (hi i hi').1, (hi i hi').2]
      unfold rawPredict
      simp only [List.mapM_cons, List.mapM_nil]
      rw [h1, h2, h3]
  · intro h
    have hg : PMF.gradLoss C evs c = 0 := by
      obtain ⟨D, hD, hv⟩ := C29_pmf_gradient C evs c
      have hmin : IsLocalMin (PMF.loss C evs) c := Filter.Eventually.of_forall h
      have h0 := hmin.hasFDerivAt_eq_zero hD
      funext j
      have h1 := hv (Pi.single j 1)
      rw [h0] at h1
      simpa [Pi.single_apply] using h1.symm
    refine ⟨hg, (C33_stationary_mean C evs c).1 hg, ?_⟩
    intro m
    have h1 := h (pack ⟨m, fun _ => 0, fun _ => 0, fun _ _ => 0, fun _ _ => 0⟩)
    rw [pmf_total _ _ (pack _), unpack_pack, total_const] at h1
    refine le_trans h1 (le_of_eq ?_)
    unfold lossP
    rw [list_sum_mul_left]
    norm_num

/-- The hypotheses of `C87_optimum` are satisfiable with a user and an item without events. -/
example : ∃ c : Coef 2 2 3, Optimal (PMF.loss 1 [(⟨0, 1, 4⟩ : Event 2 2)]) c ∧
    (∀ e ∈ [(⟨0, 1, 4⟩ : Event 2 2)], e.user ≠ 1) ∧ (∀ e ∈ [(⟨0, 1, 4⟩ : Event 2 2)], e.item ≠ 0) := by
  obtain ⟨c, hc⟩ := pmf_exists (nu := 2) (ni := 2) (k := 3) 1 one_pos [⟨0, 1, 4⟩]
  exact ⟨c, hc, by simp, by simp⟩

/-! ### C88: growing regularization -/

/-- Squared norm of all parameters but the global bias. -/
noncomputable def penalty (c : Coef nu ni k) : ℝ := ∑ j, if j.1 = 0 then 0 else c j ^ 2

theorem path {f : (Fin (size nu ni k) → ℝ) → ℝ} {C₁ C₂ : ℝ} (h0 : 0 ≤ C₁) (h12 : C₁ < C₂)
    {c₁ c₂ : Coef nu ni k}
    (h₁ : Optimal (fun c => f c + 0.5 * C₁ * penalty c) c₁)
    (h₂ : Optimal (fun c => f c + 0.5 * C₂ * penalty c) c₂) :
    penalty c₂ ≤ penalty c₁ ∧ f c₁ ≤ f c₂ ∧
      f c₁ + 0.5 * C₁ * penalty c₁ ≤ f c₂ + 0.5 * C₂ * penalty c₂ := by
  have e1 := h₁ c₂
  have e2 := h₂ c₁
  simp only at e1 e2
  have hp : penalty c₂ ≤ penalty c₁ := by
    by_contra hc
    have : 0 < (C₂ - C₁) * (penalty c₂ - penalty c₁) :=
      mul_pos (by linarith) (by linarith [lt_of_not_ge hc])
    nlinarith
  have hn : 0 ≤ penalty c₂ := by
    unfold penalty
    apply Finset.sum_nonneg
    intro j _
    split <;> positivity
  refine ⟨hp, ?_, ?_⟩
  · have : C₁ * penalty c₂ ≤ C₁ * penalty c₁ := mul_le_mul_of_nonneg_left hp h0
    linarith
  · have : C₁ * penalty c₂ ≤ C₂ * penalty c₂ := mul_le_mul_of_nonneg_right h12.le hn
    linarith

theorem pmf_split (C : ℝ) (evs : List (Event nu ni)) :
    PMF.loss C evs = fun c : Coef nu ni k => PMF.loss 0 evs c + 0.5 * C * penalty c := by
  funext c
  unfold PMF.loss penalty
  rw [← reg_eq]
  ring

theorem logistic_split (C : ℝ) (evs : List (Event nu ni)) :
    Logistic.loss C evs = fun c : Coef nu ni k => Logistic.loss 0 evs c + 0.5 * C * penalty c := by
  funext c
  unfold Logistic.loss penalty
  rw [← reg_eq]
  ring

theorem implicit_split (C : ℝ) (m : Implicit.Mat nu ni) :
    Implicit.loss C m = fun c : Coef nu ni k => Implicit.loss 0 m c + 0.5 * C * penalty c := by
  funext c
  rw [implicit_loss_eq, implicit_loss_eq, logistic_split]

/-- C88: for a larger regularization parameter `C` the optimal parameters have a squared norm that is
not larger, fit the training data not better (the loss without regularization is not smaller) and
reach a minimal loss that is not smaller; for each of the three models.  For `PMF` the squared norm
is at most the sum of squared deviations of the scores from any number, divided by `C`. -/
theorem C88_regularization (C₁ C₂ : ℝ) (h0 : 0 ≤ C₁) (h12 : C₁ < C₂) (c₁ c₂ : Coef nu ni k) :
    (∀ evs, Optimal (PMF.loss C₁ evs) c₁ → Optimal (PMF.loss C₂ evs) c₂ →
      penalty c₂ ≤ penalty c₁ ∧ PMF.loss 0 evs c₁ ≤ PMF.loss 0 evs c₂ ∧
      PMF.loss C₁ evs c₁ ≤ PMF.loss C₂ evs c₂ ∧
      ∀ m : ℝ, penalty c₂ ≤ (evs.map (fun e => (e.score - m) ^ 2)).sum / C₂) ∧
    (∀ evs, Optimal (Logistic.loss C₁ evs) c₁ → Optimal (Logistic.loss C₂ evs) c₂ →
      penalty c₂ ≤ penalty c₁ ∧ Logistic.loss 0 evs c₁ ≤ Logistic.loss 0 evs c₂ ∧
      Logistic.loss C₁ evs c₁ ≤ Logistic.loss C₂ evs c₂) ∧
    (∀ m, Optimal (Implicit.loss C₁ m) c₁ → Optimal (Implicit.loss C₂ m) c₂ →
      penalty c₂ ≤ penalty c₁ ∧ Implicit.loss 0 m c₁ ≤ Implicit.loss 0 m c₂ ∧
      Implicit.loss C₁ m c₁ ≤ Implicit.loss C₂ m c₂) := by
  refine ⟨?_, ?_, ?_⟩
  · intro evs h₁ h₂
    have h := h₂
    rw [pmf_split] at h₁ h₂
    obtain ⟨a, b, d⟩ := path h0 h12 h₁ h₂
    refine ⟨a, b, ?_, ?_⟩
    · rw [pmf_split C₁, pmf_split C₂]; exact d
    · intro m
      have h1 := ((C87_optimum C₂ (by linarith) evs c₂).2 h).2.2 m
      have h2 := (C31_pmf_loss 0 evs c₂).2.1 le_rfl
      rw [pmf_split] at h1
      simp only at h1
      rw [le_div_iff₀ (by linarith)]
      linarith
  · intro evs h₁ h₂
    rw [logistic_split] at h₁ h₂
    rw [logistic_split C₁, logistic_split C₂]
    exact path h0 h12 h₁ h₂
  · intro m h₁ h₂
    rw [implicit_split] at h₁ h₂
    rw [implicit_split C₁, implicit_split C₂]
    exact path h0 h12 h₁ h₂

/-- Optimal parameters exist for both values of `C`. -/
example : ∃ c₁ c₂ : Coef 2 2 3, Optimal (PMF.loss 1 [(⟨0, 1, 4⟩ : Event 2 2), ⟨1, 1, 2⟩]) c₁ ∧
    Optimal (PMF.loss 2 [(⟨0, 1, 4⟩ : Event 2 2), ⟨1, 1, 2⟩]) c₂ := by
  obtain ⟨c₁, h₁⟩ := pmf_exists (nu := 2) (ni := 2) (k := 3) 1 one_pos [⟨0, 1, 4⟩, ⟨1, 1, 2⟩]
  obtain ⟨c₂, h₂⟩ := pmf_exists (nu := 2) (ni := 2) (k := 3) 2 two_pos [⟨0, 1, 4⟩, ⟨1, 1, 2⟩]
  exact ⟨c₁, c₂, h₁, h₂⟩

/-! ### C89: more factors -/

/-- Parameters with `n` further latent factors, all zero. -/
noncomputable def pad (n : Nat) (v : Views nu ni k) : Views nu ni (k + n) :=
  { mu := v.mu, bu := v.bu, bi := v.bi
    p := fun u => Fin.append (v.p u) (fun _ => 0)
    q := fun i => Fin.append (v.q i) (fun _ => 0) }

theorem estO_pad (n : Nat) (v : Views nu ni k) (u : Option (Fin nu)) (i : Option (Fin ni)) :
    estO (pad n v) u i = estO v u i := by
  unfold estO pad
  simp only
  congr 1
  rw [Fin.sum_univ_add]
  cases u <;> cases i <;> simp [extend]

theorem total_pad (n : Nat) (l : ℝ → ℝ → ℝ) (C : ℝ) (evs : List (Event nu ni)) (v : Views nu ni k) :
    total l C evs (pad n v) = total l C evs v := by
  unfold total
  have h1 : ∀ u i, est (pad n v) u i = est v u i := by
    intro u i
    rw [← estO_some, ← estO_some, estO_pad]
  have h2 : reg (pad n v) = reg v := by
    unfold reg pad
    simp [Fin.sum_univ_add]
  simp only [h1, h2]

/-- C89: every model with `k` latent factors is reproduced by one with more factors, with the same
loss and the same prediction for every request; hence the optimal loss does not grow with the
number of factors. -/
theorem C89_more_factors (n : Nat) (C : ℝ) (c : Coef nu ni k) :
    (∃ c' : Coef nu ni (k + n),
      (∀ evs, PMF.loss C evs c' = PMF.loss C evs c) ∧
      (∀ evs, Logistic.loss C evs c' = Logistic.loss C evs c) ∧
      (∀ m, Implicit.loss C m c' = Implicit.loss C m c) ∧
      (∀ link rows, rawPredict link (store c') rows = rawPredict link (store c) rows)) ∧
    (∀ (evs : List (Event nu ni)) (d : Coef nu ni (k + n)), Optimal (PMF.loss C evs) d →
      PMF.loss C evs d ≤ PMF.loss C evs c) ∧
    (∀ (evs : List (Event nu ni)) (d : Coef nu ni (k + n)), Optimal (Logistic.loss C evs) d →
      Logistic.loss C evs d ≤ Logistic.loss C evs c) ∧
    (∀ (m : Implicit.Mat nu ni) (d : Coef nu ni (k + n)), Optimal (Implicit.loss C m) d →
      Implicit.loss C m d ≤ Implicit.loss C m c) := by
  have hP : ∀ evs, PMF.loss C evs (pack (pad n (unpack c))) = PMF.loss C evs c := by
    intro evs; rw [pmf_total, pmf_total, unpack_pack, total_pad]
  have hL : ∀ evs, Logistic.loss C evs (pack (pad n (unpack c))) = Logistic.loss C evs c := by
    intro evs; rw [logistic_total, logistic_total, unpack_pack, total_pad]
  have hI : ∀ m, Implicit.loss C m (pack (pad n (unpack c))) = Implicit.loss C m c := by
    intro m; rw [implicit_loss_eq, implicit_loss_eq, hL]
  refine ⟨⟨pack (pad n (unpack c)), hP, hL, hI, ?_⟩, ?_, ?_, ?_⟩
  · intro link rows
    apply rawPredict_congr
    intro u i
    rw [unpack_pack, estO_pad]
  · intro evs d hd; rw [← hP]; exact hd _
  · intro evs d hd; rw [← hL]; exact hd _
  · intro m d hd; rw [← hI]; exact hd _

/-- Optimal parameters with one more factor exist. -/
example : ∃ d : Coef 2 2 (3 + 1), Optimal (PMF.loss 1 [(⟨0, 1, 4⟩ : Event 2 2)]) d :=
  pmf_exists 1 one_pos _

/-! ### C82 for optimal parameters -/

/-- C82, for every optimizer that finds an optimum: the optimal parameters for shifted scores are
exactly the optimal parameters for the original scores with the global bias shifted. -/
theorem C82_shifted_optimum (C t : ℝ) (evs : List (Event nu ni)) (c : Coef nu ni k) :
    (Optimal (PMF.loss C (shiftScores t evs)) (c + muDir t) ↔ Optimal (PMF.loss C evs) c) ∧
    store (c + muDir t) = { store c with mu := (store c).mu + t } ∧
    ∀ rows, rawPredict id (store (c + muDir t)) rows =
      (rawPredict id (store c) rows).map (List.map (· + t)) := by
  refine ⟨⟨fun h c' => ?_, fun h c' => ?_⟩, store_shift t c, fun rows => ?_⟩
  · have := h (c' + muDir t)
    rwa [loss_shift, loss_shift] at this
  · rw [loss_shift, ← sub_add_cancel c' (muDir t), loss_shift]
    exact h _
  · rw [store_shift, rawPredict_shift]

end MF
end Kam
