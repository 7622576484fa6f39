/-
Property theorems of the topic model, continued: convergence in the last iteration (C45),
prediction (C43, C44) and the C23 and C26 instances.
-/
import Verif.PLSA.Props2

set_option linter.unusedSectionVars false

namespace Kam
namespace PLSA
open scoped BigOperators
open Spec
variable {n nu ni nl k : Nat} {γ : Type}

theorem drawn_ones {R : Rng γ} (hR : ∀ {k : Nat} (g : γ) (a : Fin k → ℝ) z, (R.dirichlet g a).1 z = 1)
    (k : Nat) (g : γ) (evl : List (Ev nu ni nl)) : drawn R k g evl = fun _ _ => 1 := by
  have hlen : ∀ (g : γ) (l : List (Ev nu ni nl)), (initParams R k g l).length = l.length := by
    intro g l
    induction l generalizing g with
    | nil => rfl
    | cons e l ih => simp [initParams, ih]
  have key : ∀ (g : γ) (l : List (Ev nu ni nl)), ∀ f ∈ initParams R k g l, f = fun _ => 1 := by
    intro g l
    induction l generalizing g with
    | nil => intro f hf; cases hf
    | cons e l ih =>
      intro f hf
      simp only [initParams, List.mem_cons] at hf
      rcases hf with rfl | hf
      · funext z; exact hR _ _ _
      · exact ih _ f hf
  funext e
  unfold drawn
  have he : e.1 < (initParams R k g evl).length := by rw [hlen]; exact e.2
  rw [List.getD_eq_getElem?_getD, List.getElem?_eq_getElem he]
  exact key g evl _ (List.getElem_mem he)

/-- C45 is also false when the tolerance test holds in the last allowed iteration: the loop is
stopped by the test, but success is not reported. -/
theorem C45_last_iteration_refuted : ∃ (cf : Config Unit) (v : View ℝ Unit) (p : Params)
    (res : List (String × Val)) (N : Nat) (stopped : Prop) (final : ℝ), cf.maxiter = 1 ∧
    train cf v = .ok (p, res) ∧ RanSteps cf v p N stopped final ∧ stopped ∧
    ("success", .bool false) ∈ res ∧ ("success", .bool true) ∉ res := by
  obtain ⟨p, res, h⟩ := exView_train 1
  obtain ⟨nu, ni, nl, evl, g, levels, dom, lo, hi, hev, hg, hn, _, _, _, _, _, θ, it, cur, hl, rfl, rfl⟩ :=
    train_ok h
  have hnu : nu = 1 := by have := hev.users; cases this; rfl
  have hni : ni = 1 := by have := hev.items; cases this; rfl
  have hnl : nl = 2 := by cases hn; rfl
  subst hnu hni hnl
  have hlen : evl.length = 1 := hev.length
  have hq : drawn (exConfig 1).rng (exConfig 1).k g evl = fun _ _ => 1 :=
    drawn_ones (by intros; rfl) _ _ _
  set evs : Fin evl.length → Ev 1 1 (Int.toNat 2) := fun e => evl[e] with hevs
  have hP : Proper (mStep 1 evs (fun _ (_ : Fin 1) => 1)) :=
    mStep_proper one_pos Nat.one_pos (by omega) evs (fun _ _ => zero_le_one)
  have hfix : emStep 1 evs (mStep 1 evs (fun _ (_ : Fin 1) => 1)) =
      mStep 1 evs (fun _ (_ : Fin 1) => 1) := by
    have : eStep (mStep 1 evs (fun _ (_ : Fin 1) => 1)) evs = fun _ _ => 1 := by
      funext e z
      have h1 := eStep_sum (hP.good 1 evs) Nat.one_pos e
      rw [Fin.sum_univ_one] at h1
      rw [Subsingleton.elim z 0, h1]
    unfold emStep
    rw [this]
  have hlt : ∀ e, 0 < prob (mStep 1 evs (fun _ (_ : Fin 1) => 1)) (evs e).user (evs e).item (evs e).level ∧
      prob (mStep 1 evs (fun _ (_ : Fin 1) => 1)) (evs e).user (evs e).item (evs e).level < 1 := by
    intro e
    generalize mStep 1 evs (fun _ (_ : Fin 1) => 1) = θ at hP
    obtain ⟨hz, hx, hy, hr⟩ := hP
    have ez : θ.pZ 0 = 1 := by have := hz.2; rwa [Fin.sum_univ_one] at this
    have ex : θ.pX (evs e).user 0 = 1 := by
      have := (hx 0).2; rw [Fin.sum_univ_one] at this
      rw [Subsingleton.elim (evs e).user 0]; exact this
    have ey : θ.pY (evs e).item 0 = 1 := by
      have := (hy 0).2; rw [Fin.sum_univ_one] at this
      rw [Subsingleton.elim (evs e).item 0]; exact this
    have er : θ.pR (evs e).level 0 < 1 := by
      have h2 := (hr 0).2
      have hp := (hr 0).1
      change ∑ j : Fin 2, θ.pR j 0 = 1 at h2
      rw [Fin.sum_univ_two] at h2
      have p0 := hp (0 : Fin 2)
      have p1 := hp (1 : Fin 2)
      have : ∀ j : Fin 2, θ.pR j 0 < 1 := by
        intro j
        fin_cases j
        · show θ.pR (0 : Fin 2) 0 < 1; linarith
        · show θ.pR (1 : Fin 2) 0 < 1; linarith
      exact this _
    unfold prob
    rw [Fin.sum_univ_one, ez, ex, ey]
    have := (hr 0).1 (evs e).level
    constructor <;> linarith
  have hloss : loss evs (mStep 1 evs (fun _ (_ : Fin 1) => 1)) ≠ 0 := by
    rw [loss_eq]
    have hneg : logLikelihood evs (mStep 1 evs (fun _ (_ : Fin 1) => 1)) < 0 :=
      Finset.sum_neg (fun e _ => Real.log_neg (hlt e).1 (hlt e).2) ⟨⟨0, by omega⟩, Finset.mem_univ _⟩
    have hn' : ((evl.length : Nat) : ℝ) ≠ 0 := by rw [hlen]; norm_num
    exact div_ne_zero (by linarith) hn'
  have hconv : converged 1 (loss evs (mStep 1 evs (fun _ (_ : Fin 1) => 1)))
      (loss evs (mStep 1 evs (fun _ (_ : Fin 1) => 1))) = true := by
    unfold converged
    rw [if_neg hloss]
    simp
  rw [hq] at hl
  have h1 : (exConfig 1).alpha = 1 := rfl
  have h2 : (exConfig 1).maxiter = 1 := rfl
  have h3 : (exConfig 1).tol = 1 := rfl
  rw [h1, h2, h3] at hl
  have hl' : loop (emStep 1 evs) (loss evs) 1 1 1 0 none (mStep 1 evs (fun _ (_ : Fin 1) => 1))
      (loss evs (mStep 1 evs (fun _ (_ : Fin 1) => 1))) =
      (mStep 1 evs (fun _ (_ : Fin 1) => 1), 0,
        some (loss evs (mStep 1 evs (fun _ (_ : Fin 1) => 1)))) := by
    simp only [loop, hfix, hconv, if_true]
  have hl2 := hl'.symm.trans hl
  cases hl2
  refine ⟨exConfig 1, exView, _, _, 1, True,
    loss evs (emStep 1 evs (mStep 1 evs (fun _ (_ : Fin 1) => 1))), rfl, h, ?_, trivial, ?_, ?_⟩
  · refine ⟨1, 1, _, evl, fun _ _ => 1, levels, hev, ⟨g, hg, hq.symm⟩, ?_, loss_eq _ _, ?_, ?_⟩
    · show store _ levels = store (emStep 1 evs (mStep 1 evs (fun _ (_ : Fin 1) => 1))) levels
      rw [hfix]
      rfl
    · intro j hj; omega
    · refine iff_of_true trivial ⟨0, rfl, ?_⟩
      show WithinTol 1 (meanLoss evs (emStep 1 evs (mStep 1 evs (fun _ (_ : Fin 1) => 1))))
        (meanLoss evs (mStep 1 evs (fun _ (_ : Fin 1) => 1)))
      rw [hfix]
      have := (converged_iff _ _ _).1 hconv
      rwa [loss_eq] at this
  · rw [mem_results_success]; simp [h2]
  · rw [mem_results_success]; simp [h2]

/-! ### C44 -/

theorem marginal_eq {θ : Theta nu ni nl k} (hθ : Proper θ) (u : Option (Fin nu))
    (i : Option (Fin ni)) (r : Fin nl) :
    ∑ z, θ.pZ z * θ.pR r z * MF.extend θ.pX (fun _ => 1) u z * MF.extend θ.pY (fun _ => 1) i z =
      marginal θ u i r := by
  cases u with
  | some x =>
    cases i with
    | some y =>
      simp only [MF.extend, marginal, prob]
      exact Finset.sum_congr rfl (fun z _ => by ring)
    | none =>
      simp only [MF.extend, marginal, prob]
      rw [Finset.sum_comm]
      refine Finset.sum_congr rfl (fun z _ => ?_)
      have h := (hθ.y z).2
      calc θ.pZ z * θ.pR r z * θ.pX x z * 1 = θ.pZ z * θ.pR r z * θ.pX x z * ∑ y, θ.pY y z := by rw [h]
        _ = _ := by rw [Finset.mul_sum]; exact Finset.sum_congr rfl (fun y _ => by ring)
  | none =>
    cases i with
    | some y =>
      simp only [MF.extend, marginal, prob]
      rw [Finset.sum_comm]
      refine Finset.sum_congr rfl (fun z _ => ?_)
      have h := (hθ.x z).2
      calc θ.pZ z * θ.pR r z * 1 * θ.pY y z = θ.pZ z * θ.pR r z * θ.pY y z * ∑ x, θ.pX x z := by
            rw [h]; ring
        _ = _ := by rw [Finset.mul_sum]; exact Finset.sum_congr rfl (fun y _ => by ring)
    | none =>
      simp only [MF.extend, marginal, prob]
      have e : ∀ x, ∑ y, ∑ z, θ.pX x z * θ.pY y z * θ.pR r z * θ.pZ z =
          ∑ z, θ.pX x z * θ.pR r z * θ.pZ z := by
        intro x
        rw [Finset.sum_comm]
        refine Finset.sum_congr rfl (fun z _ => ?_)
        have h := (hθ.y z).2
        calc ∑ y, θ.pX x z * θ.pY y z * θ.pR r z * θ.pZ z =
              θ.pX x z * θ.pR r z * θ.pZ z * ∑ y, θ.pY y z := by
                rw [Finset.mul_sum]; exact Finset.sum_congr rfl (fun y _ => by ring)
          _ = _ := by rw [h, mul_one]
      simp only [e]
      rw [Finset.sum_comm]
      refine Finset.sum_congr rfl (fun z _ => ?_)
      have h := (hθ.x z).2
      calc θ.pZ z * θ.pR r z * 1 * 1 = θ.pR r z * θ.pZ z * ∑ x, θ.pX x z := by rw [h]; ring
        _ = _ := by rw [Finset.mul_sum]; exact Finset.sum_congr rfl (fun y _ => by ring)

/-- C44: the distribution over score levels used for a request is the conditional distribution of
the fitted joint one, where unknown objects are summed out. -/
theorem C44_marginalization {θ : Theta nu ni nl k} (hθ : Proper θ) (levels : List ℝ)
    (u : Option (Fin nu)) (i : Option (Fin ni)) (x y : Fin k → ℝ)
    (hx : npGet (store θ levels).pX (MF.code u) = .ok x)
    (hy : npGet (store θ levels).pY (MF.code i) = .ok y) (r : Fin nl) :
    scoreDist (store θ levels) x y r = conditional θ u i r := by
  simp only [store, MF.npGet_extend, Except.ok.injEq] at hx hy
  subst hx hy
  unfold scoreDist conditional
  have := marginal_eq hθ u i
  show (∑ z, θ.pZ z * θ.pR r z * MF.extend θ.pX (fun _ => 1) u z * MF.extend θ.pY (fun _ => 1) i z) /
    (∑ r', ∑ z, θ.pZ z * θ.pR r' z * MF.extend θ.pX (fun _ => 1) u z *
      MF.extend θ.pY (fun _ => 1) i z) = _
  simp only [this]

theorem prob_pos {θ : Theta nu ni nl k} (hθ : Proper θ) (hk : 0 < k) (x : Fin nu) (y : Fin ni)
    (r : Fin nl) : 0 < prob θ x y r :=
  Finset.sum_pos (fun z _ => mul_pos (mul_pos (mul_pos ((hθ.x z).1 x) ((hθ.y z).1 y)) ((hθ.r z).1 r))
    (hθ.z.1 z)) ⟨⟨0, hk⟩, Finset.mem_univ _⟩

/-- The conditional distributions are positive distributions. -/
theorem C44_is_distribution {θ : Theta nu ni nl k} (hθ : Proper θ) (hk : 0 < k) (hu : 0 < nu)
    (hi : 0 < ni) (hl : 0 < nl) (u : Option (Fin nu)) (i : Option (Fin ni)) :
    PosDist (conditional θ u i) := by
  have hp : ∀ r, 0 < marginal θ u i r := by
    intro r
    have ne : ∀ {m : Nat}, 0 < m → (Finset.univ : Finset (Fin m)).Nonempty :=
      fun h => ⟨⟨0, h⟩, Finset.mem_univ _⟩
    cases u <;> cases i <;> simp only [marginal]
    · exact Finset.sum_pos (fun _ _ => Finset.sum_pos (fun _ _ => prob_pos hθ hk _ _ _) (ne hi)) (ne hu)
    · exact Finset.sum_pos (fun _ _ => prob_pos hθ hk _ _ _) (ne hu)
    · exact Finset.sum_pos (fun _ _ => prob_pos hθ hk _ _ _) (ne hi)
    · exact prob_pos hθ hk _ _ _
  have hs : 0 < ∑ r, marginal θ u i r :=
    Finset.sum_pos (fun r _ => hp r) ⟨⟨0, hl⟩, Finset.mem_univ _⟩
  refine ⟨fun r => div_pos (hp r) hs, ?_⟩
  unfold conditional
  rw [← Finset.sum_div, div_self hs.ne']

/-! ### C43 -/

/-- `j` is the first position of the largest entry. -/
def FirstMax (l : List ℝ) (j : Nat) : Prop :=
  ∃ b, l[j]? = some b ∧ (∀ (i : Nat) x, l[i]? = some x → x ≤ b ∧ (i < j → x < b))

theorem argmaxFrom_spec (xs pre : List ℝ) (bi : Nat) (b : ℝ) (hbi : pre[bi]? = some b)
    (hmax : ∀ (i : Nat) x, pre[i]? = some x → x ≤ b ∧ (i < bi → x < b)) :
    FirstMax (pre ++ xs) (argmaxFrom bi b pre.length xs) := by
  induction xs generalizing pre bi b with
  | nil =>
    simp only [List.append_nil, argmaxFrom]
    exact ⟨b, hbi, hmax⟩
  | cons x xs ih =>
    have hlt : bi < pre.length := (List.getElem?_eq_some_iff.1 hbi).1
    have e : pre ++ x :: xs = (pre ++ [x]) ++ xs := by simp
    have el : pre.length + 1 = (pre ++ [x]).length := by simp
    have hget : ∀ (i : Nat) y, (pre ++ [x])[i]? = some y → pre[i]? = some y ∨ (i = pre.length ∧ y = x) := by
      intro i y hy
      rcases Nat.lt_trichotomy i pre.length with hi | hi | hi
      · rw [List.getElem?_append_left hi] at hy; exact .inl hy
      · subst hi; simp at hy; exact .inr ⟨rfl, hy.symm⟩
      · have := (List.getElem?_eq_some_iff.1 hy).1
        simp at this; omega
    simp only [argmaxFrom]
    rw [e, el]
    split
    · rename_i hbx
      apply ih
      · simp
      · intro i y hy
        rcases hget i y hy with h | ⟨rfl, rfl⟩
        · have := (hmax i y h).1
          exact ⟨by linarith, fun _ => by linarith⟩
        · exact ⟨le_refl _, fun h => absurd h (lt_irrefl _)⟩
    · rename_i hbx
      apply ih
      · rw [List.getElem?_append_left hlt]; exact hbi
      · intro i y hy
        rcases hget i y hy with h | ⟨rfl, rfl⟩
        · exact hmax i y h
        · exact ⟨not_lt.1 hbx, fun h => by omega⟩

theorem argmax_spec (l : List ℝ) (hl : l ≠ []) : ∃ j, argmax l = .ok j ∧ FirstMax l j := by
  cases l with
  | nil => exact absurd rfl hl
  | cons x xs =>
    refine ⟨_, rfl, argmaxFrom_spec xs [x] 0 x rfl ?_⟩
    intro i y hy
    cases i with
    | zero => simp at hy; exact ⟨hy.ge, fun h => by omega⟩
    | succ i => simp at hy

/-- The prediction for a request about the objects `u` and `i`: the expected level or the first
level of maximal probability. -/
def PredictedScore (useExpectation : Bool) (θ : Theta nu ni nl k) (levels : List ℝ)
    (u : Option (Fin nu)) (i : Option (Fin ni)) (y : ℝ) : Prop :=
  if useExpectation then
    ∃ l : Fin nl → ℝ, levels = List.ofFn l ∧ y = ∑ r, conditional θ u i r * l r ∧
      (∀ a, (∀ r, a ≤ l r) → a ≤ y) ∧ (∀ b, (∀ r, l r ≤ b) → y ≤ b)
  else
    ∃ r : Fin nl, levels[r.1]? = some y ∧
      ∀ r', conditional θ u i r' ≤ conditional θ u i r ∧
        (r' < r → conditional θ u i r' < conditional θ u i r)

theorem predictRow_store {θ : Theta nu ni nl k} (hθ : Proper θ) (hk : 0 < k) (hu : 0 < nu)
    (hi : 0 < ni) (hl : 0 < nl) (levels : List ℝ) (hlev : levels.length = nl) (b : Bool)
    (u : Option (Fin nu)) (i : Option (Fin ni)) :
    ∃ y, predictRow b (store θ levels) [MF.code u, MF.code i] = .ok y ∧
      PredictedScore b θ levels u i y := by
  have h0 : npGet [MF.code u, MF.code i] 0 = .ok (MF.code u) := rfl
  have h1 : npGet [MF.code u, MF.code i] 1 = .ok (MF.code i) := rfl
  have hx : npGet (store θ levels).pX (MF.code u) = .ok (MF.extend θ.pX (fun _ => 1) u) :=
    MF.npGet_extend _ _ _
  have hy : npGet (store θ levels).pY (MF.code i) = .ok (MF.extend θ.pY (fun _ => 1) i) :=
    MF.npGet_extend _ _ _
  have hdist : List.ofFn (scoreDist (store θ levels) (MF.extend θ.pX (fun _ => 1) u)
      (MF.extend θ.pY (fun _ => 1) i)) = List.ofFn (conditional θ u i) := by
    congr 1
    funext r
    exact C44_marginalization hθ levels u i _ _ hx hy r
  obtain ⟨hpos, hsum⟩ := C44_is_distribution hθ hk hu hi hl u i
  unfold predictRow
  simp only [h0, h1, hx, hy, bind, Except.bind, hdist]
  cases b with
  | true =>
    have hl2 : (List.ofFn (conditional θ u i)).length = (store θ levels).levels.length := by
      simp [store, hlev]
    simp only [if_true, hl2, pure, Except.pure]
    refine ⟨_, rfl, ?_⟩
    unfold PredictedScore
    rw [if_pos rfl]
    have hof : levels = List.ofFn (fun r : Fin nl => levels[r.1]'(by rw [hlev]; exact r.2)) := by
      apply List.ext_getElem
      · simp [hlev]
      · intro j h1 h2; simp
    have hval : (List.zipWith (· * ·) (List.ofFn (conditional θ u i)) (store θ levels).levels).sum =
        ∑ r, conditional θ u i r * levels[r.1]'(by rw [hlev]; exact r.2) := by
      rw [show (store θ levels).levels = List.ofFn (fun r : Fin nl => levels[r.1]'(by
        rw [hlev]; exact r.2)) from hof]
      exact MF.zipWith_ofFn _ _
    refine ⟨_, hof, hval, ?_, ?_⟩
    · intro a ha
      rw [hval]
      calc a = ∑ r, conditional θ u i r * a := by rw [← Finset.sum_mul, hsum, one_mul]
        _ ≤ _ := Finset.sum_le_sum (fun r _ => mul_le_mul_of_nonneg_left (ha r) (hpos r).le)
    · intro c hc
      rw [hval]
      calc _ ≤ ∑ r, conditional θ u i r * c :=
            Finset.sum_le_sum (fun r _ => mul_le_mul_of_nonneg_left (hc r) (hpos r).le)
        _ = c := by rw [← Finset.sum_mul, hsum, one_mul]
  | false =>
    obtain ⟨j, hj, w, hw, hmax⟩ := argmax_spec (List.ofFn (conditional θ u i))
      (by intro h; have := congrArg List.length h; simp at this; omega)
    have hjl : j < nl := by simpa using (List.getElem?_eq_some_iff.1 hw).1
    have hwj : w = conditional θ u i ⟨j, hjl⟩ := by
      simp [hjl] at hw; exact hw.symm
    simp only [Bool.false_eq_true, if_false, hj]
    have hg : npGet (store θ levels).levels ((j : Nat) : Int) = .ok (levels[j]'(by omega)) :=
      npGet_ofNat levels j (by omega)
    rw [hg]
    refine ⟨_, rfl, ?_⟩
    unfold PredictedScore
    rw [if_neg (by simp)]
    refine ⟨⟨j, hjl⟩, List.getElem?_eq_getElem (by omega), ?_⟩
    intro r'
    have := hmax r'.1 (conditional θ u i r') (by simp)
    rw [hwj] at this
    exact this

theorem lookup_known {α : Type} [LinearOrder α] (rows : List (List α)) (t : Nat) (x : α) :
    lookup [0, 1] rows t x = MF.code (known rows t x) := by
  by_cases ho : IsObject [0, 1] rows t x
  · obtain ⟨h, e⟩ := (MF.lookup_code rows t x).1 ho
    rw [e]
    unfold known
    rw [dif_pos ⟨ho, h⟩]
  · rw [(MF.lookup_code rows t x).2 ho]
    unfold known
    rw [dif_neg (fun h => ho h.1)]

/-- The dirichlet draws of the generator are non-negative. -/
def DrawsWeights (R : Rng γ) : Prop := ∀ {k : Nat} (g : γ) (a : Fin k → ℝ) z, 0 ≤ (R.dirichlet g a).1 z

/-- A fitted topic model holds positive distributions over the users, items and score levels of its
training data. -/
theorem fitted_proper {cf : Config γ} (ha : 0 < cf.alpha) (hR : DrawsWeights cf.rng) {v : View ℝ γ}
    {p : Params} {res : List (String × Val)} (h : train cf v = .ok (p, res)) (hne : v.event ≠ []) :
    ∃ (nu ni nl : Nat) (θ : Theta nu ni nl cf.k) (levels dom : List ℝ) (lo hi : ℝ), p = store θ levels ∧
      Proper θ ∧ 0 < cf.k ∧ 0 < nl ∧
      npGet v.nObjects 0 = .ok nu ∧ npGet v.nObjects 1 = .ok ni ∧ v.nScoreLevels = some (nl : Int) ∧
      v.scoreDomain = some dom ∧ npGet dom 0 = .ok lo ∧ npGet dom 1 = .ok hi ∧
      npLinspace lo hi (nl : Int) = .ok levels ∧ levels.length = nl := by
  obtain ⟨nu, ni, nl, evl, g, levels, dom, lo, hi, hev, hg, hn, hd, h0, h1, hls, hk, θ, it, cur, hl, rfl, rfl⟩ :=
    train_ok h
  have hpos : 0 < evl.length := by rw [hev.length]; exact List.length_pos_iff.2 hne
  have hnl : 0 < nl.toNat := by
    have := (evl[0]).level.2
    omega
  have hcast : ((nl.toNat : Nat) : Int) = nl := by omega
  have hst : ∃ m, θ = reached cf.alpha (fun e => evl[e]) (drawn cf.rng cf.k g evl) m := by
    cases Nat.eq_zero_or_pos cf.maxiter with
    | inl hz =>
      rw [hz] at hl
      cases hl
      exact ⟨0, rfl⟩
    | inr hz =>
      obtain ⟨M, _, h2, _⟩ := loop_spec (emStep cf.alpha (fun e => evl[e]))
        (loss (fun e => evl[e])) cf.tol cf.maxiter cf.maxiter (le_refl _) hz 0 none
        (mStep cf.alpha (fun e => evl[e]) (drawn cf.rng cf.k g evl))
      rw [h2] at hl
      cases hl
      exact ⟨M + 1, rfl⟩
  obtain ⟨m, rfl⟩ := hst
  refine ⟨nu, ni, nl.toNat, _, levels, dom, lo, hi, rfl,
    reached_proper ha hk hpos _ (drawn_nonneg hR _ _ _) m, hk, hnl, hev.users, hev.items,
    by rw [hcast]; exact hn, hd, h0, h1, by rw [hcast]; exact hls, ?_⟩
  unfold npLinspace at hls
  split at hls
  · cases hls
  · cases hls; simp

variable {α φ ε : Type} [LinearOrder α]

/-- The training code sees the score attributes and the number of events of the data. -/
theorem fitPredictor_view {L : Learner ℝ γ Params Val} {mk : Int → γ} {env : γ}
    {r r' : Rec ℝ α φ ε γ Params Val} {d : ScoreData ℝ α φ ε} {idx : Option (List Int)}
    {rows : List (List α)} (hd : d.toEventData.Holds rows)
    (h : Rec.fitPredictor L mk env r d idx = .ok r') :
    ∃ v p res, L.train v = .ok (p, res) ∧ r'.params = some p ∧ v.nObjects = r'.info.nObjects ∧
      v.scoreDomain = d.scoreDomain ∧ v.nScoreLevels = d.nScoreLevels ∧ v.score = d.score ∧
      v.event.length = rows.length := by
  unfold Rec.fitPredictor Rec.predictorSuperFit at h
  cases hc : columnsOf d.toEventData idx with
  | error e =>
    obtain ⟨r2, h2⟩ := eventFit_error mk env r hd idx e hc
    rw [h2] at h; cases h
  | ok js =>
    rw [eventFit_eq mk env r hd idx js hc] at h
    obtain ⟨p, res, ht, rfl⟩ := finish_ok h
    exact ⟨_, p, res, ht, rfl, rfl, rfl, rfl, rfl, by simp [Rec.view, Rec.setScoreInfo, fittedInfo]⟩

/-- C43 and C44 end to end: after `fit` on any loaded user-item data with at least one event, a
prediction is the expected score level under the conditional distribution of the fitted model (in
which objects that did not occur in training are summed out), hence between the smallest and the
largest level; without `use_expectation` it is the first level of maximal probability. -/
theorem C43_prediction {cf : Config γ} (ha : 0 < cf.alpha) (hR : DrawsWeights cf.rng)
    {mk : Int → γ} {env : γ} {r r' : Rec ℝ α φ ε γ Params Val} {d : ScoreData ℝ α φ ε}
    {rows : List (List α)} {sc : List ℝ} (h : ScoreBuilt d rows sc) (hne : rows ≠ [])
    (hlay : d.eventOtypes = [0, 1]) (idx : Option (List Int)) (hidx : idx = none ∨ idx = some [0, 1])
    (hfit : Rec.fitPredictor (plsa cf) mk env r d idx = .ok r') :
    ∃ (nl : Nat) (θ : Theta (count [0, 1] rows 0) (count [0, 1] rows 1) nl cf.k) (levels : List ℝ),
      r'.params = some (store θ levels) ∧ Proper θ ∧ d.getScoreLevels = .ok levels ∧
      ∀ a : Arr2 α, a.Regular → a.ncols = 2 → a.rows ≠ [] →
        ∃ ys, Rec.predict (plsa cf) r' (.mat a) = .ok (squeeze ys) ∧
          List.Forall₂ (fun row y => ∀ x i, row = [x, i] →
            PredictedScore cf.useExpectation θ levels (known rows 0 x) (known rows 1 i) y)
            a.rows ys := by
  obtain ⟨hb, _, _, _⟩ := h.inv
  have hd := hb.holds
  have hs : d.sEvent = 2 := by rw [← hd.wf.len_otypes, hlay]; rfl
  have hlay' : d.eventOtypes = List.range d.sEvent := by rw [hlay, hs]; rfl
  have hidx' : idx = none ∨ idx = some ((List.range d.sEvent).map Int.ofNat) := by
    rw [hs]; exact hidx
  have hF : FittedBy (plsa cf) mk env r d.toEventData idx r' := .predictor hfit
  obtain ⟨p, hp, hpr⟩ := C21_predict_scores_internal_ids hb hlay' idx hidx' hF
  obtain ⟨js, hjs, hf, _⟩ := hF.fittedOn hd
  have hjs' : js = [0, 1] := by
    rcases hidx with rfl | rfl
    · simp only [columnsOf] at hjs; cases hjs; rw [hs]; rfl
    · simp only [columnsOf, hs] at hjs; cases hjs; rfl
  obtain ⟨v, p', res, ht, hp', hn, hvd, hvn, hvs, hvl⟩ := fitPredictor_view hd hfit
  rw [hp] at hp'
  cases hp'
  have hn' : v.nObjects = [count [0, 1] rows 0, count [0, 1] rows 1] := by
    rw [hn, hf.nObjects, hjs', hlay]
    simp only [List.map_cons, List.map_nil, length_ids]
    rfl
  have hve : v.event ≠ [] := by
    intro h0
    rw [h0] at hvl
    exact hne (List.length_eq_zero_iff.1 hvl.symm)
  obtain ⟨nu, ni, nl, θ, levels, dom, lo, hi, rfl, hθ, hk, hnl, h0, h1, hnn, hdd, hlo, hhi, hls, hll⟩ :=
    fitted_proper ha hR ht hve
  have hnu : nu = count [0, 1] rows 0 := by rw [hn'] at h0; cases h0; rfl
  have hni : ni = count [0, 1] rows 1 := by rw [hn'] at h1; cases h1; rfl
  subst hnu hni
  refine ⟨nl, θ, levels, hp, hθ, ?_, ?_⟩
  · unfold ScoreData.getScoreLevels
    rw [← hvd, ← hvn, hdd, hnn]
    simp only [hlo, hhi, bind, Except.bind, hls]
  have hcount : ∀ t, t = 0 ∨ t = 1 → 0 < count [0, 1] rows t := by
    intro t htt
    obtain ⟨row, rest, rfl⟩ := List.exists_cons_of_ne_nil hne
    have hl : row.length = 2 := by rw [hd.reg row (by simp), hlay]; rfl
    obtain ⟨x, i, rfl⟩ := List.length_eq_two.1 hl
    have hob : ∃ y, IsObject [0, 1] ([x, i] :: rest) t y := by
      rcases htt with rfl | rfl
      · exact ⟨x, [x, i], by simp, 0, rfl, rfl⟩
      · exact ⟨i, [x, i], by simp, 1, rfl, rfl⟩
    obtain ⟨y, hy⟩ := hob
    have := (mem_ids _ _ _ _).2 hy
    rw [← length_ids]
    exact List.length_pos_of_mem this
  intro a hreg hc hane
  obtain ⟨os, g1, g2⟩ := hpr a hreg (by rw [hc, hs]) (by rw [hc]; decide) hane
  rw [g2]
  have key : ∀ (l : List (List α)) (os : List (List Int)), (∀ row ∈ l, row.length = 2) →
      List.Forall₂ (Encodes d.eventOtypes rows (List.range d.sEvent)) l os →
      ∃ ys, (plsa cf).rawPredict (store θ levels) os = .ok ys ∧
        List.Forall₂ (fun row y => ∀ x i, row = [x, i] →
          PredictedScore cf.useExpectation θ levels (known rows 0 x) (known rows 1 i) y) l ys := by
    intro l os hl hfa
    induction hfa with
    | nil => exact ⟨[], rfl, .nil⟩
    | @cons row o l os he _ ih =>
      obtain ⟨ys, h3, h4⟩ := ih (fun r hr => hl r (by simp [hr]))
      obtain ⟨x, i, rfl⟩ := List.length_eq_two.1 (hl row (by simp))
      obtain ⟨he1, he2⟩ := he
      rw [hs] at he1 he2
      rw [hlay] at he2
      obtain ⟨o1, o2, rfl⟩ := List.length_eq_two.1 he1
      have e1 := he2 0 0 0 x rfl rfl rfl
      have e2 := he2 1 1 1 i rfl rfl rfl
      simp only [List.getElem?_cons_zero, List.getElem?_cons_succ, Option.some.injEq] at e1 e2
      rw [lookup_known] at e1 e2
      subst e1 e2
      obtain ⟨y, h5, h6⟩ := predictRow_store hθ hk (hcount 0 (.inl rfl)) (hcount 1 (.inr rfl)) hnl
        levels hll cf.useExpectation (known rows 0 x) (known rows 1 i)
      refine ⟨y :: ys, ?_, .cons (by rintro x' i' ⟨⟩; exact h6) h4⟩
      simp only [plsa] at h3 ⊢
      rw [List.mapM_cons, h5, h3]
      rfl
  obtain ⟨ys, h3, h4⟩ := key a.rows os (fun row hr => by rw [hreg row hr, hc]) g1
  exact ⟨ys, by rw [h3]; rfl, h4⟩

/-! ### C23, C26 -/

/-- The names assigned to `fit_results_` by a fit. -/
def resultKeys : List String :=
  ["initial_loss", "status", "final_loss", "n_iterations", "n_users", "n_items", "n_events",
   "n_parameters", "success", "message", "optimizer_kwargs"]

/-- C23 for the topic model: predictions of a batch are those of its rows. -/
theorem C23_plsa {cf : Config γ} {r : Rec ℝ α φ ε γ Params Val} {p : Params} (hp : r.params = some p)
    (a : Arr2 α) (hreg : a.Regular) (hc : a.ncols ≠ 0) :
    (2 ≤ a.rows.length → ∀ y, Rec.predict (plsa cf) r (.mat a) = .ok y ↔
      ∃ ys, y = .vec ys ∧
        List.Forall₂ (fun row x => Rec.predict (plsa cf) r (.vec row) = .ok (.scalar x)) a.rows ys) ∧
    (∀ row y, row ∈ a.rows → Rec.predict (plsa cf) r (.vec row) = .ok y → ∃ x, y = .scalar x) :=
  C23_batch_row_wise hp ⟨predictRow cf.useExpectation p, fun _ => rfl⟩ a hreg hc

/-- C26 for the topic model. -/
theorem C26_plsa {cf : Config γ} {kind : Kind} {mk : Int → γ} {s : Int} {r : Rec ℝ α φ ε γ Params Val}
    (h : History kind (plsa cf) mk (some s) initialResults resultKeys r)
    {d : ScoreData ℝ α φ ε} {idx : Option (List Int)} {env env' : γ} {r' : Rec ℝ α φ ε γ Params Val}
    (hfit : fitAs kind (plsa cf) mk env r d idx = .ok r') :
    ∃ q', fitAs kind (plsa cf) mk env' (Rec.init (some s) initialResults) d idx = .ok q' ∧
      SameFit (plsa cf) r' q' := by
  refine C26_refit_forgets ?_ ?_ h hfit
  · intro k hk
    simp only [initialResults, Dict.keys, List.map_cons, List.map_nil, List.mem_cons,
      List.not_mem_nil, or_false] at hk
    rcases hk with rfl | rfl | rfl <;> simp [resultKeys]
  · intro v p res ht k
    obtain ⟨nu, ni, nl, evl, g, levels, dom, lo, hi, _, _, _, _, _, _, _, _, θ, it, cur, _, _, rfl⟩ :=
      train_ok ht
    unfold results resultKeys
    split <;> simp

end PLSA
end Kam
