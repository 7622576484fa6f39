/-
Property theorems of the topic model, continued: training as a whole (C45, and the C23 and C26
instances) and prediction (C43, C44).
-/
import Verif.PLSA.Props

set_option linter.unusedSectionVars false

namespace Kam
namespace PLSA
open scoped BigOperators
open Spec
variable {n nu ni nl k : Nat} {γ : Type}

/-! ### training -/

theorem toFin_ok {m : Nat} {x : Int} {f : Fin m} (h : MF.toFin m x = .ok f) : x = (f : Int) := by
  unfold MF.toFin at h
  split at h
  · cases h; simp only [Int.toNat_of_nonneg (by omega : 0 ≤ x)]
  · cases h

/-- The responsibilities drawn for the initialization. -/
noncomputable def drawn (R : Rng γ) (k : Nat) (g : γ) (evl : List (Ev nu ni nl)) :
    Resp evl.length k :=
  fun e => (initParams R k g evl).getD e (fun _ => 0)

theorem drawn_nonneg {R : Rng γ} (hR : ∀ {k : Nat} (g : γ) (a : Fin k → ℝ) z,
    0 ≤ (R.dirichlet g a).1 z) (k : Nat) (g : γ) (evl : List (Ev nu ni nl)) (e z) :
    0 ≤ drawn R k g evl e z := by
  have key : ∀ (g : γ) (l : List (Ev nu ni nl)), ∀ f ∈ initParams R k g l, ∀ z, 0 ≤ f z := by
    intro g l
    induction l generalizing g with
    | nil => intro f hf; cases hf
    | cons e l ih =>
      intro f hf z
      simp only [initParams, List.mem_cons] at hf
      rcases hf with rfl | hf
      · exact hR _ _ _
      · exact ih _ f hf z
  unfold drawn
  rw [List.getD_eq_getElem?_getD]
  cases hj : (initParams R k g evl)[e.1]? with
  | none => simp
  | some f => exact key g evl f (List.mem_of_getElem? hj) z

/-- The events that `fit` reads. -/
theorem parsed_events {v : View ℝ γ} {nu ni nl : Nat} {sc dom : List ℝ} {ds : List Int}
    {evl : List (Ev nu ni nl)} (h0 : npGet v.nObjects 0 = .ok nu) (h1 : npGet v.nObjects 1 = .ok ni)
    (hs : v.score = some sc) (hd : v.scoreDomain = some dom) (h5 : digitize dom sc = .ok ds)
    (h6 : parseEvents nu ni nl v.event ds = .ok evl) : TrainingEvents v evl := by
  unfold parseEvents at h6
  split at h6
  · rename_i hlen
    rw [mapM_ok_iff] at h6
    have hl := h6.length_eq
    rw [List.length_zip, hlen, min_self] at hl
    have hz : ∀ (j : Nat) (row : List Int) (d : Int) (e : Ev nu ni nl),
        v.event[j]? = some row → ds[j]? = some d → evl[j]? = some e →
        npGet row 0 = .ok (e.user : Int) ∧ npGet row 1 = .ok (e.item : Int) ∧ d = (e.level : Int) := by
      intro j row d e hj hd he
      rw [List.forall₂_iff_get] at h6
      obtain ⟨_, h6⟩ := h6
      obtain ⟨hj1, hj2⟩ := List.getElem?_eq_some_iff.1 hj
      obtain ⟨hd1, hd2⟩ := List.getElem?_eq_some_iff.1 hd
      obtain ⟨he1, he2⟩ := List.getElem?_eq_some_iff.1 he
      have := h6 j (by rw [List.length_zip]; omega) he1
      simp only [List.get_eq_getElem, List.getElem_zip, hj2, hd2, he2] at this
      cases ha : npGet row 0 with
      | error x => rw [ha] at this; cases this
      | ok a =>
      rw [ha] at this
      simp only [bind, Except.bind] at this
      cases hb : MF.toFin nu a with
      | error x => rw [hb] at this; cases this
      | ok b =>
      rw [hb] at this
      simp only at this
      cases ha' : npGet row 1 with
      | error x => rw [ha'] at this; cases this
      | ok a' =>
      rw [ha'] at this
      simp only at this
      cases hb' : MF.toFin ni a' with
      | error x => rw [hb'] at this; cases this
      | ok b' =>
      rw [hb'] at this
      simp only at this
      cases hb'' : MF.toFin nl d with
      | error x => rw [hb''] at this; cases this
      | ok b'' =>
      rw [hb''] at this
      cases this
      exact ⟨by rw [toFin_ok hb], by rw [toFin_ok hb'], toFin_ok hb''⟩
    refine ⟨h0, h1, by omega, ?_, dom, sc, ds, hd, hs, h5, ?_⟩
    · intro j row e hj he
      obtain ⟨hj1, _⟩ := List.getElem?_eq_some_iff.1 hj
      have := hz j row (ds[j]'(by omega)) e hj (List.getElem?_eq_getElem (by omega)) he
      exact ⟨this.1, this.2.1⟩
    · intro j e he
      obtain ⟨he1, _⟩ := List.getElem?_eq_some_iff.1 he
      have := hz j (v.event[j]'(by omega)) (ds[j]'(by omega)) e
        (List.getElem?_eq_getElem (by omega)) (List.getElem?_eq_getElem (by omega)) he
      rw [List.getElem?_eq_getElem (by omega), this.2.2]
  · cases h6

/-- What a successful training returns. -/
theorem train_ok {cf : Config γ} {v : View ℝ γ} {p : Params} {res : List (String × Val)}
    (h : train cf v = .ok (p, res)) :
    ∃ (nu ni : Nat) (nl : Int) (evl : List (Ev nu ni nl.toNat)) (g : γ) (levels dom : List ℝ)
      (lo hi : ℝ),
      TrainingEvents v evl ∧ v.rng = some g ∧ v.nScoreLevels = some nl ∧
      v.scoreDomain = some dom ∧ npGet dom 0 = .ok lo ∧ npGet dom 1 = .ok hi ∧
      npLinspace lo hi nl = .ok levels ∧ 0 < cf.k ∧
      ∃ (θ : Theta nu ni nl.toNat cf.k) (iterNo : Nat) (cur : Option ℝ),
        loop (emStep cf.alpha (fun e => evl[e])) (loss (fun e => evl[e])) cf.tol cf.maxiter cf.maxiter
          0 none (mStep cf.alpha (fun e => evl[e]) (drawn cf.rng cf.k g evl))
          (loss (fun e => evl[e]) (mStep cf.alpha (fun e => evl[e]) (drawn cf.rng cf.k g evl))) =
            (θ, iterNo, cur) ∧
        p = store θ levels ∧ res = results cf nu ni nl.toNat evl.length
          (loss (fun e => evl[e]) (mStep cf.alpha (fun e => evl[e]) (drawn cf.rng cf.k g evl)))
          iterNo cur := by
  unfold train at h
  cases h0 : npGet v.nObjects 0 with
  | error e => rw [h0] at h; cases h
  | ok nu =>
  cases h1 : npGet v.nObjects 1 with
  | error e => rw [h0, h1] at h; cases h
  | ok ni =>
  rw [h0, h1] at h
  simp only [bind, Except.bind] at h
  cases hs : v.score with
  | none => rw [hs] at h; cases h
  | some sc =>
  cases hd : v.scoreDomain with
  | none => rw [hs, hd] at h; cases h
  | some dom =>
  cases hn : v.nScoreLevels with
  | none => rw [hs, hd, hn] at h; cases h
  | some nl =>
  cases hg : v.rng with
  | none => rw [hs, hd, hn, hg] at h; cases h
  | some g =>
  rw [hs, hd, hn, hg] at h
  simp only at h
  cases h2 : npGet dom 0 with
  | error e => rw [h2] at h; cases h
  | ok lo =>
  cases h3 : npGet dom 1 with
  | error e => rw [h2, h3] at h; cases h
  | ok hi =>
  rw [h2, h3] at h
  simp only at h
  cases h4 : npLinspace lo hi nl with
  | error e => rw [h4] at h; cases h
  | ok levels =>
  rw [h4] at h
  simp only at h
  cases h5 : digitize dom sc with
  | error e => rw [h5] at h; cases h
  | ok ds =>
  rw [h5] at h
  simp only at h
  cases h6 : parseEvents nu ni nl.toNat v.event ds with
  | error e => rw [h6] at h; cases h
  | ok evl =>
  rw [h6] at h
  simp only at h
  split at h
  · cases h
  · rename_i hk
    cases h
    refine ⟨nu, ni, nl, evl, g, levels, dom, lo, hi, ?_, rfl, rfl, rfl, h2, h3, h4,
      Nat.pos_of_ne_zero hk, _, _, _, rfl, rfl, rfl⟩
    exact parsed_events h0 h1 hs hd h5 h6

/-! ### C45 -/

/-- The loop performs `M + 1` steps: the first after which the test holds, or all of them. -/
theorem loop_spec {σ : Type} (step : σ → σ) (f : σ → ℝ) (tol : ℝ) (maxiter left : Nat)
    (h : left ≤ maxiter) (hl : 0 < left) (iterNo : Nat) (cur : Option ℝ) (s : σ) :
    ∃ M, M + 1 ≤ left ∧ loop step f tol maxiter left iterNo cur s (f s) =
        (step^[M + 1] s, maxiter - left + M, some (f (step^[M + 1] s))) ∧
      (∀ j < M, converged tol (f (step^[j + 1] s)) (f (step^[j] s)) = false) ∧
      (M + 1 < left → converged tol (f (step^[M + 1] s)) (f (step^[M] s)) = true) := by
  induction left generalizing iterNo cur s with
  | zero => omega
  | succ left ih =>
    by_cases hc : converged tol (f (step s)) (f s) = true
    · refine ⟨0, by omega, ?_, by intro j hj; omega, fun _ => hc⟩
      simp only [loop, hc, if_true]
      rfl
    · cases Nat.eq_zero_or_pos left with
      | inl h0 =>
        subst h0
        refine ⟨0, by omega, ?_, by intro j hj; omega, fun h => by omega⟩
        simp only [loop, hc]
        rfl
      | inr h0 =>
        obtain ⟨M, h1, h2, h3, h4⟩ := ih (by omega) h0 (maxiter - (left + 1)) (some (f (step s)))
          (step s)
        refine ⟨M + 1, by omega, ?_, ?_, ?_⟩
        · rw [loop]
          simp only [hc]
          rw [if_neg (by simp), h2]
          simp only [Function.iterate_succ, Function.comp]
          refine Prod.ext rfl (Prod.ext ?_ rfl)
          show maxiter - left + M = maxiter - (left + 1) + (M + 1)
          omega
        · intro j hj
          cases j with
          | zero => simpa using hc
          | succ j =>
            have := h3 j (by omega)
            simpa only [Function.iterate_succ, Function.comp] using this
        · intro hM
          have := h4 (by omega)
          simpa only [Function.iterate_succ, Function.comp] using this

theorem converged_iff (tol cur pre : ℝ) : converged tol cur pre = true ↔ WithinTol tol cur pre := by
  unfold converged WithinTol
  by_cases h : cur = 0
  · simp [h]
  · rw [if_neg h, decide_eq_true_eq, abs_div, div_lt_iff₀ (abs_pos.2 h)]
    simp [h]

/-- `N` EM steps were performed from the drawn initialization. -/
def RanSteps (cf : Config γ) (v : View ℝ γ) (p : Params) (N : Nat)
    (stopped : Prop) (final : ℝ) : Prop :=
  ∃ (nu ni nl : Nat) (evl : List (Ev nu ni nl)) (q : Resp evl.length cf.k) (levels : List ℝ),
    TrainingEvents v evl ∧ (∃ g, v.rng = some g ∧ q = drawn cf.rng cf.k g evl) ∧
    p = store (reached cf.alpha (fun e => evl[e]) q N) levels ∧
    final = meanLoss (fun e => evl[e]) (reached cf.alpha (fun e => evl[e]) q N) ∧
    -- the loop went on as long as the loss changed by more than the tolerance
    (∀ j, j + 1 < N → ¬ WithinTol cf.tol (meanLoss (fun e => evl[e]) (reached cf.alpha (fun e => evl[e]) q (j + 1)))
      (meanLoss (fun e => evl[e]) (reached cf.alpha (fun e => evl[e]) q j))) ∧
    -- the tolerance stopped the loop
    (stopped ↔ ∃ M, N = M + 1 ∧
      WithinTol cf.tol (meanLoss (fun e => evl[e]) (reached cf.alpha (fun e => evl[e]) q (M + 1)))
        (meanLoss (fun e => evl[e]) (reached cf.alpha (fun e => evl[e]) q M)))

/-- The full statement of C45. -/
def C45_full : Prop := ∀ (γ : Type) (cf : Config γ) (v : View ℝ γ) (p : Params)
  (res : List (String × Val)), train cf v = .ok (p, res) →
  ∃ N stopped final, RanSteps cf v p N stopped final ∧ N ≤ cf.maxiter ∧
    ("n_iterations", .nat N) ∈ res ∧ (("success", .bool true) ∈ res ↔ stopped)

theorem mem_results_n {cf : Config γ} {nu ni nl n : Nat} {x : ℝ} {it : Nat} {cur : Option ℝ} (m : Nat) :
    ("n_iterations", Val.nat m) ∈ results cf nu ni nl n x it cur ↔ m = it + 1 := by
  unfold results
  split <;> simp

theorem mem_results_success {cf : Config γ} {nu ni nl n : Nat} {x : ℝ} {it : Nat} {cur : Option ℝ}
    (b : Bool) : ("success", Val.bool b) ∈ results cf nu ni nl n x it cur ↔
      (b = true ↔ ¬ (it : Int) ≥ (cf.maxiter : Int) - 1) := by
  unfold results exceeded
  split <;> rename_i hx <;> cases b <;> simp_all

theorem mem_results_final {cf : Config γ} {nu ni nl n : Nat} {x : ℝ} {it : Nat} {cur : Option ℝ}
    (w : Val) : ("final_loss", w) ∈ results cf nu ni nl n x it cur ↔ w = lossVal n cur := by
  unfold results
  split <;> simp

theorem mem_results_status {cf : Config γ} {nu ni nl n : Nat} {x : ℝ} {it : Nat} {cur : Option ℝ}
    (h : ¬ (it : Int) ≥ (cf.maxiter : Int) - 1) (w : Val) :
    ("status", w) ∈ results cf nu ni nl n x it cur ↔ w = .nat 0 := by
  unfold results exceeded
  simp [h]

/-- C45, the part that holds: for `maxiter >= 1`, `n_iterations` is the number of EM steps performed
and at most `maxiter`, the steps continue while the tolerance test fails, `final_loss` is the loss
of the returned parameters, and success is reported exactly when fewer than `maxiter` steps were
performed, in which case the test stopped the loop.  Missing: a test that holds after exactly
`maxiter` steps, and `maxiter = 0` (`C45_refuted`). -/
theorem C45_iterations_partial {cf : Config γ} {v : View ℝ γ} {p : Params}
    {res : List (String × Val)} (h : train cf v = .ok (p, res)) (hm : 1 ≤ cf.maxiter) :
    ∃ N stopped final, RanSteps cf v p N stopped final ∧ 1 ≤ N ∧ N ≤ cf.maxiter ∧
      (∀ w, ("n_iterations", w) ∈ res ↔ w = .nat N) ∧
      (v.event ≠ [] → ∀ w, ("final_loss", w) ∈ res ↔ w = .real final) ∧
      (("success", .bool true) ∈ res ↔ N < cf.maxiter) ∧
      (("success", .bool false) ∈ res ↔ N = cf.maxiter) ∧
      (("success", .bool true) ∈ res → stopped) ∧
      (stopped → N < cf.maxiter → ("success", .bool true) ∈ res) := by
  obtain ⟨nu, ni, nl, evl, g, levels, dom, lo, hi, hev, hg, _, _, _, _, _, hk, θ, it, cur, hl, rfl, rfl⟩ :=
    train_ok h
  obtain ⟨M, h1, h2, h3, h4⟩ := loop_spec (emStep cf.alpha (fun e => evl[e]))
    (loss (fun e => evl[e])) cf.tol cf.maxiter cf.maxiter (le_refl _) hm 0 none
    (mStep cf.alpha (fun e => evl[e]) (drawn cf.rng cf.k g evl))
  rw [h2] at hl
  cases hl
  have hsucc : ∀ b, ("success", Val.bool b) ∈ results cf nu ni nl.toNat evl.length
      (loss (fun e => evl[e]) (mStep cf.alpha (fun e => evl[e]) (drawn cf.rng cf.k g evl)))
      (cf.maxiter - cf.maxiter + M)
      (some (loss (fun e => evl[e]) ((emStep cf.alpha (fun e => evl[e]))^[M + 1]
        (mStep cf.alpha (fun e => evl[e]) (drawn cf.rng cf.k g evl))))) ↔
      (b = true ↔ M + 1 < cf.maxiter) := by
    intro b
    rw [mem_results_success]
    have : (¬ ((cf.maxiter - cf.maxiter + M : Nat) : Int) ≥ (cf.maxiter : Int) - 1) ↔
        M + 1 < cf.maxiter := by omega
    rw [this]
  refine ⟨M + 1, _, _, ⟨nu, ni, nl.toNat, evl, drawn cf.rng cf.k g evl, levels, hev,
    ⟨g, hg, rfl⟩, rfl, rfl, ?_, Iff.rfl⟩, by omega, h1, ?_, ?_, ?_, ?_, ?_, ?_⟩
  · intro j hj
    have := h3 j (by omega)
    rw [← Bool.not_eq_true, converged_iff, loss_eq, loss_eq] at this
    exact this
  · intro w
    unfold results
    split <;> simp
  · intro hne w
    rw [mem_results_final]
    have : evl.length ≠ 0 := by
      rw [hev.length]; simpa using hne
    simp only [lossVal, this, if_false, loss_eq]
    rfl
  · rw [hsucc]; simp
  · rw [hsucc]; simp; omega
  · intro hs
    rw [hsucc] at hs
    refine ⟨M, rfl, ?_⟩
    have := h4 (by simpa using hs)
    rw [converged_iff, loss_eq, loss_eq] at this
    exact this
  · intro _ hN
    rw [hsucc]; simpa using hN

/-- C45 for `maxiter = 0`: no EM step is performed, the parameters are those of the first M-step, and yet one iteration is
reported, an infinite loss, and no success. -/
theorem C45_no_iterations {cf : Config γ} {v : View ℝ γ} {p : Params}
    {res : List (String × Val)} (h : train cf v = .ok (p, res)) (hm : cf.maxiter = 0) :
    (∃ stopped final, RanSteps cf v p 0 stopped final ∧ ¬ stopped) ∧
      (∀ w, ("n_iterations", w) ∈ res ↔ w = .nat 1) ∧ (∀ w, ("final_loss", w) ∈ res ↔ w = .inf) ∧
      (∀ w, ("success", w) ∈ res ↔ w = .bool false) := by
  obtain ⟨nu, ni, nl, evl, g, levels, dom, lo, hi, hev, hg, _, _, _, _, _, hk, θ, it, cur, hl, rfl, rfl⟩ :=
    train_ok h
  rw [hm, loop] at hl
  cases hl
  refine ⟨⟨False, _, ⟨nu, ni, nl.toNat, evl, drawn cf.rng cf.k g evl, levels, hev, ⟨g, hg, rfl⟩, rfl, rfl, ?_, ?_⟩, not_false⟩, ?_, ?_, ?_⟩
  · intro j hj
    omega
  · constructor
    · intro hf; exact hf.elim
    · rintro ⟨M, hM, _⟩
      omega
  · intro w
    unfold results
    split <;> simp
  · intro w
    rw [mem_results_final]
    rfl
  · intro w
    unfold results exceeded
    simp [hm]

/-! ### when training succeeds -/

theorem digitize_eq (lo hi st : ℝ) (hst : 0 < st) (xs : List ℝ) :
    digitize [lo, hi, st] xs = .ok (xs.map (fun x =>
      ((min ⌈(hi - lo) / st⌉.toNat ⌊(x - lo) / st + 1 / 2⌋.toNat : Nat) : Int))) :=
  digitizeScore_eq (⟨exPair, some [lo, hi, st], none, none⟩ : ScoreData ℝ Nat Nat Nat) lo hi st hst
    [] rfl xs

/-- Training succeeds on a regular score domain when the ids are in range. -/
theorem train_total {cf : Config γ} {v : View ℝ γ} {nu ni m : Nat} {sc : List ℝ} {lo hi st : ℝ} {g : γ}
    (h0 : npGet v.nObjects 0 = .ok nu) (h1 : npGet v.nObjects 1 = .ok ni) (hs : v.score = some sc)
    (hd : v.scoreDomain = some [lo, hi, st]) (hst : 0 < st) (hm : hi = lo + (m : ℝ) * st)
    (hn : v.nScoreLevels = some ((m : Int) + 1)) (hg : v.rng = some g)
    (hlen : v.event.length = sc.length)
    (hrow : ∀ row ∈ v.event, ∃ (u : Fin nu) (i : Fin ni), npGet row 0 = .ok (u : Int) ∧
      npGet row 1 = .ok (i : Int)) (hk : 0 < cf.k) :
    ∃ p res, train cf v = .ok (p, res) := by
  have hq : (hi - lo) / st = (m : ℝ) := by rw [hm]; field_simp; ring
  obtain ⟨g0, g1, _⟩ := npGet_dom lo hi st []
  have hlv : ∃ ls, npLinspace lo hi ((m : Int) + 1) = .ok ls := by
    unfold npLinspace
    rw [if_neg (by omega)]
    exact ⟨_, rfl⟩
  obtain ⟨ls, hls⟩ := hlv
  have hdig := digitize_eq lo hi st hst sc
  have hin : ∀ x ∈ sc.map (fun x =>
      ((min ⌈(hi - lo) / st⌉.toNat ⌊(x - lo) / st + 1 / 2⌋.toNat : Nat) : Int)),
      0 ≤ x ∧ x < ((((m : Int) + 1).toNat : Nat) : Int) := by
    intro y hy
    rw [List.mem_map] at hy
    obtain ⟨x, _, rfl⟩ := hy
    rw [hq]
    simp only [Int.ceil_natCast, Int.toNat_natCast]
    have := min_le_left m ⌊(x - lo) / st + 1 / 2⌋.toNat
    omega
  have hpe : ∃ evl, parseEvents nu ni ((m : Int) + 1).toNat v.event (sc.map (fun x =>
      ((min ⌈(hi - lo) / st⌉.toNat ⌊(x - lo) / st + 1 / 2⌋.toNat : Nat) : Int))) = .ok evl := by
    unfold parseEvents
    rw [if_pos (by simpa using hlen)]
    generalize sc.map _ = ds at hin
    have key : ∀ (l : List (List Int × Int)), (∀ x ∈ l, x.1 ∈ v.event ∧ x.2 ∈ ds) →
        ∃ evl : List (Ev nu ni ((m : Int) + 1).toNat), l.mapM (fun x => do
          let u ← MF.toFin nu (← npGet x.1 0)
          let i ← MF.toFin ni (← npGet x.1 1)
          let r ← MF.toFin ((m : Int) + 1).toNat x.2
          return (⟨u, i, r⟩ : Ev nu ni ((m : Int) + 1).toNat)) = .ok evl := by
      intro l
      induction l with
      | nil => exact fun _ => ⟨[], rfl⟩
      | cons x l ih =>
        intro hl
        obtain ⟨es, hes⟩ := ih (fun y hy => hl y (by simp [hy]))
        obtain ⟨hx1, hx2⟩ := hl x (by simp)
        obtain ⟨u, i, hu, hi'⟩ := hrow _ hx1
        have hr := hin _ hx2
        have e1 : MF.toFin nu (u : Int) = .ok u := by
          unfold MF.toFin; rw [dif_pos (by have := u.2; omega)]; rfl
        have e2 : MF.toFin ni (i : Int) = .ok i := by
          unfold MF.toFin; rw [dif_pos (by have := i.2; omega)]; rfl
        have e3 : ∃ r, MF.toFin ((m : Int) + 1).toNat x.2 = .ok r := by
          unfold MF.toFin; rw [dif_pos hr]; exact ⟨_, rfl⟩
        obtain ⟨r, e3⟩ := e3
        refine ⟨⟨u, i, r⟩ :: es, ?_⟩
        rw [List.mapM_cons, hes]
        simp only [hu, hi', e1, e2, e3, bind, Except.bind, pure, Except.pure]
    exact key _ (fun x hx => ⟨(List.of_mem_zip hx).1, (List.of_mem_zip hx).2⟩)
  obtain ⟨evl, hevl⟩ := hpe
  have hk' : ¬ cf.k = 0 := by omega
  unfold train
  simp only [h0, h1, hs, hd, hn, hg, g0, g1, hls, hdig, hevl, bind, Except.bind, hk', if_false,
    pure, Except.pure]
  exact ⟨_, _, rfl⟩

/-- One user, one item, one event with score 1 of the domain (1, 2, 1). -/
def exView : View ℝ Unit where
  event := [[0, 0]]
  nObjects := [1, 1]
  eventOtypes := [0, 1]
  eventIndex := [0, 1]
  nEvents := 1
  score := some [1]
  scoreDomain := some [1, 2, 1]
  nScoreLevels := some 2
  rng := some ()

/-- One latent class, at most `maxiter` iterations. -/
noncomputable def exConfig (maxiter : Nat) : Config Unit where
  k := 1
  alpha := 1
  useExpectation := true
  maxiter := maxiter
  tol := 1
  rng := ⟨fun _ _ => (fun _ => 1, ())⟩

theorem exView_train (maxiter : Nat) : ∃ p res, train (exConfig maxiter) exView = .ok (p, res) :=
  train_total (nu := 1) (ni := 1) (m := 1) (lo := 1) (hi := 2) (st := 1) (g := ()) (sc := [1]) rfl rfl
    rfl rfl one_pos (by norm_num) rfl rfl rfl (by
      intro row hr
      simp only [exView, List.mem_singleton] at hr
      subst hr
      exact ⟨0, 0, rfl, rfl⟩) Nat.one_pos

/-- C45 for `maxiter = 0` is not vacuous. -/
example : ∃ p res, train (exConfig 0) exView = .ok (p, res) ∧ ("n_iterations", .nat 1) ∈ res ∧ ("final_loss", .inf) ∈ res := by
  obtain ⟨p, res, h⟩ := exView_train 0
  obtain ⟨_, h1, h2, _⟩ := C45_no_iterations h rfl
  exact ⟨p, res, h, (h1 _).2 rfl, (h2 _).2 rfl⟩

/-- C45 is false of the code: with `maxiter = 0` no step is performed but `n_iterations` is 1. -/
theorem C45_refuted : ¬ C45_full := by
  intro hall
  obtain ⟨p, res, h⟩ := exView_train 0
  obtain ⟨N, stopped, final, _, hN, hmem, _⟩ := hall _ _ _ _ _ h
  obtain ⟨nu, ni, nl, evl, g, levels, dom, lo, hi, hev, hg, _, _, _, _, _, hk, θ, it, cur, hl, rfl, rfl⟩ :=
    train_ok h
  rw [mem_results_n] at hmem
  have : (exConfig 0).maxiter = 0 := rfl
  omega

end PLSA
end Kam
