/-
Property theorems of the topic model, continued: training stops by itself (C90).
-/
import Verif.PLSA.Converge

set_option linter.unusedSectionVars false

namespace Kam
namespace PLSA
open scoped BigOperators
open Spec
variable {n nu ni nl k : Nat} {γ : Type}

theorem reached_succ (a : ℝ) (evs : Fin n → Ev nu ni nl) (q : Resp n k) (m : Nat) :
    reached a evs q (m + 1) = emStep a evs (reached a evs q m) := by
  unfold reached
  rw [Function.iterate_succ_apply']

theorem reached_good {a : ℝ} (ha : 0 ≤ a) (hk : 0 < k) (hn : 0 < n) (evs : Fin n → Ev nu ni nl)
    {q : Resp n k} (hq : ∀ e z, 0 ≤ q e z) (hq0 : a = 0 → ∀ e z, 0 < q e z) (m : Nat) :
    Good a evs (reached a evs q m) := by
  rcases ha.eq_or_lt with h | h
  · have hp := hq0 h.symm
    induction m with
    | zero => exact mStep_good ha hk hn evs hp
    | succ m ih => rw [reached_succ]; exact emStep_good ha hk hn ih
  · exact (reached_proper h hk hn evs hq m).good a evs

/-- With smoothing and a choice of users, items or levels the tolerance test holds after some step. -/
theorem stops_smoothed {a : ℝ} (ha : 0 < a) (hk : 0 < k) (hn : 0 < n) (evs : Fin n → Ev nu ni nl)
    {q : Resp n k} (hq : ∀ e z, 0 ≤ q e z) (hm : 2 ≤ nu ∨ 2 ≤ ni ∨ 2 ≤ nl) {tol : ℝ} (ht : 0 < tol) :
    ∃ t, WithinTol tol (loss evs (reached a evs q (t + 1))) (loss evs (reached a evs q t)) := by
  set d := floor a n nu ni nl k with hd
  have hd0 : 0 < d := floor_pos ha hk hn
  -- an increment of the objective that is small enough
  have hsd : 0 < √d := Real.sqrt_pos.2 hd0
  set D := tol * d * √d / 9 with hD
  have hD0 : 0 < D := by positivity
  have hP : ∀ t, Proper (reached a evs q t) := fun t => reached_proper ha hk hn evs hq t
  obtain ⟨t, hlt⟩ := small_increment (fun t => objective a evs (reached a evs q (t + 1))) 0
    (fun t => objective_nonpos ha.le (hP _) evs) (ε := a * D ^ 2) (by positivity)
  refine ⟨t + 1, ?_⟩
  have hlow : ∀ t, Entrywise (fun x => d ≤ x) (reached a evs q (t + 1)) := by
    intro t
    rw [reached_succ]
    exact emStep_floor ha hk hn (hP t)
  have hgain := emStep_gain (evs := evs) ha hk hn (hP (t + 1))
  rw [← reached_succ] at hgain
  have hlog : ∀ {x y : ℝ}, d ≤ x → d ≤ y →
      a * (√y - √x) ^ 2 ≤ objective a evs (reached a evs q (t + 1 + 1)) -
        objective a evs (reached a evs q (t + 1)) → |Real.log y - Real.log x| ≤ 2 * (D / √d) := by
    intro x y hx hy h
    apply log_diff_le hd0 hx hy
    have h1 : a * (√y - √x) ^ 2 ≤ a * D ^ 2 := le_trans h hlt.le
    have h2 : (√y - √x) ^ 2 ≤ D ^ 2 := le_of_mul_le_mul_left h1 ha
    exact abs_le_of_sq_le_sq h2 hD0.le
  have l1 := hlow t
  have l2 := hlow (t + 1)
  have hclose := loss_close ((hP (t + 1)).good a evs) ((hP (t + 1 + 1)).good a evs) hk hn
    (η := 2 * (D / √d))
    ⟨fun z => hlog (l1.z z) (l2.z z) (hgain.z z), fun x z => hlog (l1.x x z) (l2.x x z) (hgain.x x z),
      fun x z => hlog (l1.y x z) (l2.y x z) (hgain.y x z),
      fun x z => hlog (l1.r x z) (l2.r x z) (hgain.r x z)⟩
  have hge := loss_ge (hP (t + 1 + 1)) hk hn l2 hm evs
  have hpos : 0 < loss evs (reached a evs q (t + 1 + 1)) := lt_of_lt_of_le hd0 hge
  refine ⟨hpos.ne', lt_of_le_of_lt hclose ?_⟩
  rw [abs_of_pos hpos]
  have e1 : 4 * (2 * (D / √d)) = 8 / 9 * (tol * d) := by rw [hD]; field_simp; ring
  rw [e1]
  have : tol * d ≤ tol * loss evs (reached a evs q (t + 1 + 1)) := mul_le_mul_of_nonneg_left hge ht.le
  have : 0 < tol * d := by positivity
  linarith

theorem sum_cells {a : ℝ} {evs : Fin n → Ev nu ni nl} {θ : Theta nu ni nl k} (h : Good a evs θ) :
    ∑ c : Fin nu × Fin ni × Fin nl, ∑ z, joint θ ⟨c.1, c.2.1, c.2.2⟩ z = 1 := by
  rw [Finset.sum_comm, ← h.sumZ]
  apply Finset.sum_congr rfl
  intro z _
  rw [Fintype.sum_prod_type]
  simp only [Fintype.sum_prod_type, joint, ← Finset.mul_sum, ← Finset.sum_mul]
  simp only [h.sumX, h.sumY, h.sumR, mul_one]

/-- Two different events have probabilities that sum to at most one. -/
theorem two_events {a : ℝ} {evs : Fin n → Ev nu ni nl} {θ : Theta nu ni nl k} (h : Good a evs θ)
    {e e' : Ev nu ni nl} (hne : e ≠ e') : ∑ z, joint θ e z + ∑ z, joint θ e' z ≤ 1 := by
  have hnn : ∀ (e : Ev nu ni nl) z, 0 ≤ joint θ e z := fun e z =>
    mul_nonneg (mul_nonneg (mul_nonneg (h.nnZ z) (h.nnR _ z)) (h.nnX _ z)) (h.nnY _ z)
  have hc : ((e.user, e.item, e.level) : Fin nu × Fin ni × Fin nl) ≠ (e'.user, e'.item, e'.level) := by
    intro hc
    apply hne
    cases e
    cases e'
    simp only [Prod.mk.injEq] at hc
    simp [hc.1, hc.2.1, hc.2.2]
  rw [← sum_cells h]
  have := Finset.sum_le_sum_of_subset_of_nonneg (f := fun c : Fin nu × Fin ni × Fin nl =>
    ∑ z, joint θ ⟨c.1, c.2.1, c.2.2⟩ z)
    (Finset.subset_univ {(e.user, e.item, e.level), (e'.user, e'.item, e'.level)})
    (fun c _ _ => Finset.sum_nonneg (fun z _ => hnn _ z))
  rwa [Finset.sum_pair hc] at this

theorem event_log_nonpos {a : ℝ} {evs : Fin n → Ev nu ni nl} {θ : Theta nu ni nl k} (h : Good a evs θ)
    (e : Ev nu ni nl) : Real.log (∑ z, joint θ e z) ≤ 0 := by
  have hnn : ∀ (e : Ev nu ni nl) z, 0 ≤ joint θ e z := fun e z =>
    mul_nonneg (mul_nonneg (mul_nonneg (h.nnZ z) (h.nnR _ z)) (h.nnX _ z)) (h.nnY _ z)
  refine Real.log_nonpos (Finset.sum_nonneg (fun z _ => hnn e z)) ?_
  rw [← sum_cells h]
  exact Finset.single_le_sum (f := fun c : Fin nu × Fin ni × Fin nl =>
    ∑ z, joint θ ⟨c.1, c.2.1, c.2.2⟩ z) (fun c _ => Finset.sum_nonneg (fun z _ => hnn _ z))
    (Finset.mem_univ (e.user, e.item, e.level))

/-- Two different events keep the loss away from zero. -/
theorem loss_ge_of_different {a : ℝ} {evs : Fin n → Ev nu ni nl} {θ : Theta nu ni nl k}
    (h : Good a evs θ) (hk : 0 < k) {e e' : Fin n} (hne : evs e ≠ evs e') : 1 / n ≤ loss evs θ := by
  have hn : 0 < n := lt_of_le_of_lt (Nat.zero_le _) e.2
  have hn' : (0 : ℝ) < n := by exact_mod_cast hn
  have hee : e ≠ e' := fun hc => hne (by rw [hc])
  unfold loss
  apply div_le_div_of_nonneg_right _ hn'.le
  have hpos : ∀ e, 0 < ∑ z, joint θ (evs e) z := fun e =>
    Finset.sum_pos (fun z _ => h.joint_pos e z) ⟨⟨0, hk⟩, Finset.mem_univ _⟩
  have h1 := Real.log_le_sub_one_of_pos (hpos e)
  have h2 := Real.log_le_sub_one_of_pos (hpos e')
  have h3 := two_events h hne
  have h4 : -Real.log (∑ z, joint θ (evs e) z) + -Real.log (∑ z, joint θ (evs e') z) ≤
      ∑ e, -Real.log (∑ z, joint θ (evs e) z) := by
    rw [← Finset.sum_pair (f := fun e => -Real.log (∑ z, joint θ (evs e) z)) hee]
    exact Finset.sum_le_sum_of_subset_of_nonneg (Finset.subset_univ _)
      (fun l _ _ => by linarith [event_log_nonpos h (evs l)])
  rw [Finset.sum_neg_distrib] at h4
  linarith

/-- Without smoothing, the tolerance test holds after some step when two events differ. -/
theorem stops_plain (hk : 0 < k) (evs : Fin n → Ev nu ni nl)
    {q : Resp n k} (hq : ∀ e z, 0 < q e z) {e e' : Fin n} (hne : evs e ≠ evs e') {tol : ℝ}
    (ht : 0 < tol) :
    ∃ t, WithinTol tol (loss evs (reached 0 evs q (t + 1))) (loss evs (reached 0 evs q t)) := by
  have hn : 0 < n := lt_of_le_of_lt (Nat.zero_le _) e.2
  have hn' : (0 : ℝ) < n := by exact_mod_cast hn
  have hg : ∀ t, Good 0 evs (reached 0 evs q t) := fun t =>
    reached_good (le_refl _) hk hn evs (fun e z => (hq e z).le) (fun _ => hq) t
  have hge : ∀ t, 1 / (n : ℝ) ≤ loss evs (reached 0 evs q t) := fun t =>
    loss_ge_of_different (hg t) hk hne
  have hin : 0 < 1 / (n : ℝ) := by positivity
  obtain ⟨t, hlt⟩ := small_increment (fun t => -loss evs (reached 0 evs q t)) 0
    (fun t => by have := hge t; linarith) (ε := tol * (1 / n)) (by positivity)
  have hmono := C42_loss_monotone_partial hk hn evs q hq t
  have hpos : 0 < loss evs (reached 0 evs q (t + 1)) := lt_of_lt_of_le hin (hge _)
  refine ⟨t, hpos.ne', ?_⟩
  rw [abs_of_pos hpos, abs_of_nonpos (by linarith)]
  have : tol * (1 / n) ≤ tol * loss evs (reached 0 evs q (t + 1)) :=
    mul_le_mul_of_nonneg_left (hge _) ht.le
  linarith

/-- The loss of a single kind of event is zero without smoothing, or without a choice. -/
theorem loss_constant {a : ℝ} (evs : Fin n → Ev nu ni nl) {q : Resp n k} (hk : 0 < k)
    (hq : ∀ z, 0 < ∑ e, q e z + a) (hc : a = 0 ∨ (nu = 1 ∧ ni = 1 ∧ nl = 1))
    (hall : ∀ e e', evs e = evs e') : loss evs (mStep a evs q) = 0 := by
  have part : ∀ {m : Nat} (id : Fin n → Fin m) (e : Fin n) z, (∀ e', id e' = id e) →
      (a = 0 ∨ m = 1) → normalize (weights a id q) (id e) z = 1 := by
    intro m id e z hid hm
    unfold normalize
    have hw : weights a id q (id e) z = ∑ e, q e z + a := by
      unfold weights
      simp [hid]
    rw [sum_weights, hw]
    rcases hm with hm | hm
    · have := hq z
      rw [hm] at this ⊢
      simp only [zero_mul, add_zero] at this ⊢
      exact div_self this.ne'
    · rw [hm]
      have := hq z
      simp only [Nat.cast_one, mul_one]
      exact div_self this.ne'
  have hsum : ∀ e, ∑ z, joint (mStep a evs q) (evs e) z = 1 := by
    intro e
    have h1 : ∀ z, joint (mStep a evs q) (evs e) z = (mStep a evs q).pZ z := by
      intro z
      have hx := part (fun e => (evs e).user) e z (fun e' => by rw [hall e' e]) (by tauto)
      have hy := part (fun e => (evs e).item) e z (fun e' => by rw [hall e' e]) (by tauto)
      have hr := part (fun e => (evs e).level) e z (fun e' => by rw [hall e' e]) (by tauto)
      unfold joint
      change (mStep a evs q).pX (evs e).user z = 1 at hx
      change (mStep a evs q).pY (evs e).item z = 1 at hy
      change (mStep a evs q).pR (evs e).level z = 1 at hr
      rw [hx, hy, hr, mul_one, mul_one, mul_one]
    rw [Finset.sum_congr rfl (fun z _ => h1 z)]
    show ∑ z, (∑ e, q e z + a) / ∑ z', (∑ e, q e z' + a) = 1
    rw [← Finset.sum_div, div_self]
    exact (Finset.sum_pos (fun z _ => hq z) ⟨⟨0, hk⟩, Finset.mem_univ _⟩).ne'
  unfold loss
  simp [hsum]

theorem reached_constant {a : ℝ} (ha : 0 ≤ a) (hk : 0 < k) (hn : 0 < n) (evs : Fin n → Ev nu ni nl)
    {q : Resp n k} (hq : ∀ e z, 0 ≤ q e z) (hq0 : a = 0 → ∀ e z, 0 < q e z)
    (hc : a = 0 ∨ (nu = 1 ∧ ni = 1 ∧ nl = 1)) (hall : ∀ e e', evs e = evs e') (t : Nat) :
    loss evs (reached a evs q t) = 0 := by
  have hne : (Finset.univ : Finset (Fin n)).Nonempty := ⟨⟨0, hn⟩, Finset.mem_univ _⟩
  cases t with
  | zero =>
    apply loss_constant evs hk _ hc hall
    intro z
    rcases ha.eq_or_lt with h | h
    · have := Finset.sum_pos (fun e (_ : e ∈ Finset.univ) => hq0 h.symm e z) hne
      linarith
    · have := Finset.sum_nonneg (fun e (_ : e ∈ Finset.univ) => hq e z)
      linarith
  | succ t =>
    rw [reached_succ]
    apply loss_constant evs hk _ hc hall
    intro z
    have := Finset.sum_pos (fun e (_ : e ∈ Finset.univ) =>
      eStep_pos (reached_good ha hk hn evs hq hq0 t) e z) hne
    linarith

/-! ### the loop and `fit` -/

/-- A loop whose test holds once stops at the first such step, whatever larger bound is given. -/
theorem loop_stops {σ : Type} (step : σ → σ) (f : σ → ℝ) (tol : ℝ) (s : σ)
    (h : ∃ t, WithinTol tol (f (step^[t + 1] s)) (f (step^[t] s))) :
    ∃ M, WithinTol tol (f (step^[M + 1] s)) (f (step^[M] s)) ∧
      (∀ j < M, ¬ WithinTol tol (f (step^[j + 1] s)) (f (step^[j] s))) ∧
      ∀ m, M + 1 < m → loop step f tol m m 0 none s (f s) =
        (step^[M + 1] s, M, some (f (step^[M + 1] s))) := by
  classical
  refine ⟨Nat.find h, Nat.find_spec h, fun j hj => Nat.find_min h hj, fun m hm => ?_⟩
  obtain ⟨M, h1, h2, h3, h4⟩ := loop_spec step f tol m m (le_refl _) (by omega) 0 none s
  have hM : M = Nat.find h := by
    rcases lt_trichotomy M (Nat.find h) with hlt | heq | hgt
    · have := Nat.find_min h hlt
      rw [← converged_iff] at this
      exact absurd (h4 (by omega)) this
    · exact heq
    · have := h3 _ hgt
      rw [← Bool.not_eq_true, converged_iff] at this
      exact absurd (Nat.find_spec h) this
  rw [h2, hM]
  simp

/-- What training returns for every bound on the iterations. -/
theorem train_form {cf : Config γ} {v : View ℝ γ} {x : Params × List (String × Val)}
    (h : train cf v = .ok x) :
    ∃ (nu ni : Nat) (nl : Int) (evl : List (Ev nu ni nl.toNat)) (g : γ) (levels : List ℝ),
      TrainingEvents v evl ∧ v.rng = some g ∧ v.nScoreLevels = some nl ∧ 0 < cf.k ∧
      ∀ m (θ : Theta nu ni nl.toNat cf.k) it cur,
        loop (emStep cf.alpha (fun e => evl[e])) (loss (fun e => evl[e])) cf.tol m m 0 none
          (mStep cf.alpha (fun e => evl[e]) (drawn cf.rng cf.k g evl))
          (loss (fun e => evl[e]) (mStep cf.alpha (fun e => evl[e]) (drawn cf.rng cf.k g evl))) =
            (θ, it, cur) →
        train { cf with maxiter := m } v = .ok (store θ levels,
          results { cf with maxiter := m } nu ni nl.toNat evl.length
          (loss (fun e => evl[e]) (mStep cf.alpha (fun e => evl[e]) (drawn cf.rng cf.k g evl)))
          it cur) := by
  unfold train at h
  cases h0 : npGet v.nObjects 0 with
  | error e => rw [h0] at h; cases h
  | ok nu =>
  cases h1 : npGet v.nObjects 1 with
  | error e => rw [h0, h1] at h; cases h
  | ok ni =>
  rw [h0, h1] at h
  simp only [bind, Except.bind] at h
  cases hs : v.score with
  | none => rw [hs] at h; cases h
  | some sc =>
  cases hd : v.scoreDomain with
  | none => rw [hs, hd] at h; cases h
  | some dom =>
  cases hn : v.nScoreLevels with
  | none => rw [hs, hd, hn] at h; cases h
  | some nl =>
  cases hg : v.rng with
  | none => rw [hs, hd, hn, hg] at h; cases h
  | some g =>
  rw [hs, hd, hn, hg] at h
  simp only at h
  cases h2 : npGet dom 0 with
  | error e => rw [h2] at h; cases h
  | ok lo =>
  cases h3 : npGet dom 1 with
  | error e => rw [h2, h3] at h; cases h
  | ok hi =>
  rw [h2, h3] at h
  simp only at h
  cases h4 : npLinspace lo hi nl with
  | error e => rw [h4] at h; cases h
  | ok levels =>
  rw [h4] at h
  simp only at h
  cases h5 : digitize dom sc with
  | error e => rw [h5] at h; cases h
  | ok ds =>
  rw [h5] at h
  simp only at h
  cases h6 : parseEvents nu ni nl.toNat v.event ds with
  | error e => rw [h6] at h; cases h
  | ok evl =>
  rw [h6] at h
  simp only at h
  split at h
  · cases h
  · rename_i hk
    refine ⟨nu, ni, nl, evl, g, levels, parsed_events h0 h1 hs hd h5 h6, rfl, rfl,
      Nat.pos_of_ne_zero hk, ?_⟩
    intro m θ it cur hl
    unfold train
    simp only [h0, h1, hs, hd, hn, hg, h2, h3, h4, h5, h6, bind, Except.bind, hk, if_false,
      pure, Except.pure]
    unfold drawn at hl
    rw [hl]
    rfl

theorem drawn_pos {R : Rng γ} (hR : ∀ {k : Nat} (g : γ) (a : Fin k → ℝ) z,
    0 < (R.dirichlet g a).1 z) (k : Nat) (g : γ) (evl : List (Ev nu ni nl)) (e z) :
    0 < drawn R k g evl e z := by
  have hlen : ∀ (g : γ) (l : List (Ev nu ni nl)), (initParams R k g l).length = l.length := by
    intro g l
    induction l generalizing g with
    | nil => rfl
    | cons e l ih => simp [initParams, ih]
  have key : ∀ (g : γ) (l : List (Ev nu ni nl)), ∀ f ∈ initParams R k g l, ∀ z, 0 < f z := by
    intro g l
    induction l generalizing g with
    | nil => intro f hf; cases hf
    | cons e l ih =>
      intro f hf z
      simp only [initParams, List.mem_cons] at hf
      rcases hf with rfl | hf
      · exact hR _ _ _
      · exact ih _ f hf z
  unfold drawn
  have he : e.1 < (initParams R k g evl).length := by rw [hlen]; exact e.2
  rw [List.getD_eq_getElem?_getD, List.getElem?_eq_getElem he]
  exact key g evl _ (List.getElem_mem he) z

/-- The dirichlet draws of the generator are positive. -/
def DrawsPositive (R : Rng γ) : Prop := ∀ {k : Nat} (g : γ) (a : Fin k → ℝ) z, 0 < (R.dirichlet g a).1 z

/-- All training events have the same user, item and score level, and nothing is smoothed away from
them: `alpha` is zero or there is only one user, one item and one level. -/
def Constant (alpha : ℝ) (evl : List (Ev nu ni nl)) : Prop :=
  (alpha = 0 ∨ (nu = 1 ∧ ni = 1 ∧ nl = 1)) ∧ ∀ e ∈ evl, ∀ e' ∈ evl, e = e'

/-- C90: for every data set, initialization, `alpha >= 0` and positive tolerance, training stops by
the tolerance test and reports success as soon as `maxiter` is large enough, and then parameters and
number of iterations no longer depend on `maxiter`.  The only exception are constant data, for which
training never reports success. -/
theorem C90_stops {cf : Config γ} {v : View ℝ γ} {x : Params × List (String × Val)}
    (h : train cf v = .ok x) (ha : 0 ≤ cf.alpha) (ht : 0 < cf.tol) (hne : v.event ≠ [])
    (hR : DrawsWeights cf.rng) (hR0 : cf.alpha = 0 → DrawsPositive cf.rng) :
    ∃ (nu ni nl : Nat) (evl : List (Ev nu ni nl)), TrainingEvents v evl ∧
      v.nScoreLevels = some (nl : Int) ∧
      (¬ Constant cf.alpha evl → ∃ M p, ∀ m, M < m → ∃ res,
        train { cf with maxiter := m } v = .ok (p, res) ∧ ("success", .bool true) ∈ res ∧
        ("success", .bool false) ∉ res ∧ ∀ w, ("n_iterations", w) ∈ res ↔ w = .nat M) ∧
      (Constant cf.alpha evl → ∀ m, ∃ p res,
        train { cf with maxiter := m } v = .ok (p, res) ∧ ("success", .bool false) ∈ res ∧
        ("success", .bool true) ∉ res) := by
  obtain ⟨nu, ni, nl, evl, g, levels, hev, hg, hnl, hk, hform⟩ := train_form h
  have hpos : 0 < evl.length := by rw [hev.length]; exact List.length_pos_iff.2 hne
  have hcast : ((nl.toNat : Nat) : Int) = nl := by
    have := (evl[0]).level.2
    omega
  have hq := drawn_nonneg hR cf.k g evl
  have hq0 : cf.alpha = 0 → ∀ e z, 0 < drawn cf.rng cf.k g evl e z := fun h0 =>
    drawn_pos (hR0 h0) cf.k g evl
  refine ⟨nu, ni, nl.toNat, evl, hev, by rw [hcast]; exact hnl, ?_, ?_⟩
  · intro hc
    have hstop : ∃ t, WithinTol cf.tol
        (loss (fun e : Fin evl.length => evl[e]) (reached cf.alpha (fun e => evl[e])
          (drawn cf.rng cf.k g evl) (t + 1)))
        (loss (fun e : Fin evl.length => evl[e]) (reached cf.alpha (fun e => evl[e])
          (drawn cf.rng cf.k g evl) t)) := by
      by_cases hdiff : ∀ e ∈ evl, ∀ e' ∈ evl, e = e'
      · have h1 : ¬ (cf.alpha = 0 ∨ (nu = 1 ∧ ni = 1 ∧ nl.toNat = 1)) := fun h' => hc ⟨h', hdiff⟩
        push Not at h1
        have hx := (evl[0]).user.2
        have hy := (evl[0]).item.2
        have hr := (evl[0]).level.2
        exact stops_smoothed (lt_of_le_of_ne ha (Ne.symm h1.1)) hk hpos _ hq (by
          have := h1.2
          by_contra hcon
          push Not at hcon
          exact this (by omega) (by omega) (by omega)) ht
      · push Not at hdiff
        obtain ⟨e, he, e', he', hee⟩ := hdiff
        obtain ⟨i, hi, rfl⟩ := List.mem_iff_getElem.1 he
        obtain ⟨j, hj, rfl⟩ := List.mem_iff_getElem.1 he'
        rcases ha.eq_or_lt with h0 | h0
        · rw [← h0]
          exact stops_plain hk (fun e : Fin evl.length => evl[e]) (hq0 h0.symm)
            (e := ⟨i, hi⟩) (e' := ⟨j, hj⟩) hee ht
        · refine stops_smoothed h0 hk hpos _ hq ?_ ht
          by_contra hcon
          push Not at hcon
          apply hee
          have hx := (evl[0]).user.2
          have hy := (evl[0]).item.2
          have hr := (evl[0]).level.2
          have a1 := evl[i].user.2
          have a2 := evl[i].item.2
          have a3 := evl[i].level.2
          have b1 := evl[j].user.2
          have b2 := evl[j].item.2
          have b3 := evl[j].level.2
          have c1 : evl[i].user = evl[j].user := Fin.ext (by omega)
          have c2 : evl[i].item = evl[j].item := Fin.ext (by omega)
          have c3 : evl[i].level = evl[j].level := Fin.ext (by omega)
          cases hi' : evl[i]
          cases hj' : evl[j]
          rw [hi', hj'] at c1 c2 c3
          simp only at c1 c2 c3
          rw [c1, c2, c3]
    obtain ⟨M, _, _, hM⟩ := loop_stops (emStep cf.alpha (fun e : Fin evl.length => evl[e]))
      (loss (fun e => evl[e])) cf.tol
      (mStep cf.alpha (fun e => evl[e]) (drawn cf.rng cf.k g evl)) hstop
    refine ⟨M + 1, store (reached cf.alpha (fun e => evl[e]) (drawn cf.rng cf.k g evl) (M + 1)) levels,
      fun m hm => ⟨_, hform m _ _ _ (hM m hm), ?_, ?_, ?_⟩⟩
    · rw [mem_results_success]
      simp only [true_iff]
      omega
    · rw [mem_results_success]
      simp only [Bool.false_eq_true, false_iff, not_not]
      omega
    · intro w
      unfold results
      split <;> simp
  · intro hc m
    have hzero := reached_constant ha hk hpos (fun e : Fin evl.length => evl[e]) hq hq0 hc.1
      (fun e e' => hc.2 _ (List.getElem_mem _) _ (List.getElem_mem _))
    rcases Nat.eq_zero_or_pos m with h0 | h0
    · refine ⟨_, _, hform m _ _ _ rfl, ?_, ?_⟩
      · rw [mem_results_success, h0]
        simp
      · rw [mem_results_success, h0]
        simp
    · obtain ⟨M, h1, h2, _, h4⟩ := loop_spec (emStep cf.alpha (fun e : Fin evl.length => evl[e]))
        (loss (fun e => evl[e])) cf.tol m m (le_refl _) h0 0 none
        (mStep cf.alpha (fun e => evl[e]) (drawn cf.rng cf.k g evl))
      have hMm : M + 1 = m := by
        by_contra hcon
        have := h4 (by omega)
        rw [converged_iff] at this
        exact this.1 (hzero (M + 1))
      refine ⟨_, _, hform m _ _ _ h2, ?_, ?_⟩
      · rw [mem_results_success]
        simp only [Bool.false_eq_true, false_iff, not_not]
        omega
      · rw [mem_results_success]
        simp only [true_iff, not_not]
        omega

/-- The hypotheses of C90 hold for one event, and both cases occur: with `alpha = 1` the events are
not constant, with `alpha = 0` they are. -/
example : (∃ x, train (exConfig 5) exView = .ok x) ∧ 0 ≤ (exConfig 5).alpha ∧ 0 < (exConfig 5).tol ∧
    exView.event ≠ [] ∧ DrawsPositive (exConfig 5).rng ∧
    (∀ nu ni nl (evl : List (Ev nu ni nl)), exView.nScoreLevels = some (nl : Int) →
      ¬ Constant (exConfig 5).alpha evl) ∧
    (∃ evl : List (Ev 1 1 2), TrainingEvents exView evl ∧ Constant 0 evl) := by
  refine ⟨?_, zero_le_one, one_pos, by simp [exView], fun _ _ _ => one_pos, ?_, ?_⟩
  · obtain ⟨p, res, h⟩ := exView_train 5
    exact ⟨_, h⟩
  · intro nu ni nl evl hnl hc
    have : nl = 2 := by
      simp only [exView, Option.some.injEq] at hnl
      omega
    rcases hc.1 with h1 | h1
    · simp [exConfig] at h1
    · omega
  · obtain ⟨p, res, h⟩ := exView_train 5
    obtain ⟨nu, ni, nl, evl, g, levels, hev, hg, hnl, hk, _⟩ := train_form h
    have hnu : nu = 1 := by have := hev.users; cases this; rfl
    have hni : ni = 1 := by have := hev.items; cases this; rfl
    have hnl' : nl = 2 := by cases hnl; rfl
    subst hnu hni hnl'
    refine ⟨evl, hev, Or.inl rfl, ?_⟩
    have hlen : evl.length = 1 := hev.length
    obtain ⟨e, rfl⟩ := List.length_eq_one_iff.1 hlen
    intro a ha b hb
    rw [List.mem_singleton] at ha hb
    rw [ha, hb]

end PLSA
end Kam
