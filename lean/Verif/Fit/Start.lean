/-
C113: where training starts, and what `fit_results_` says about it.
-/
import Verif.Fit.Props

set_option linter.unusedSectionVars false

namespace Kam
open scoped BigOperators
open Spec

/-! ### Specification -/

/-- The generator of a fit: made from the integer `random_state`, else the one of the environment. -/
def Spec.generator {K α φ ε γ θ V : Type} (mk : Int → γ) (env : γ) (r : Rec K α φ ε γ θ V) : γ :=
  match r.seed with
  | some s => mk s
  | none => env

namespace MF
variable {α φ ε γ : Type} [LinearOrder α] {nu ni k : Nat}

/-- The objects with events. -/
def withEvents {nu ni n : Nat} (evs : List (Event nu ni)) (id : Event nu ni → Fin n) : Finset (Fin n) :=
  (evs.map id).toFinset

/-- The factors of users with events are the rows of one draw, in the order of the ids, those of items
the rows of the next draw. -/
structure FactorsDrawn (R : Rng γ) (g : γ) (σ : ℝ) (evs : List (Event nu ni)) (v : Views nu ni k) : Prop where
  users : ∀ u ∈ withEvents evs (·.user), ∀ f : Fin k, v.p u f =
    (R.normal g 0 σ (withEvents evs (·.user)).card k).1
      ((withEvents evs (·.user)).filter (· < u)).card f
  items : ∀ i ∈ withEvents evs (·.item), ∀ f : Fin k, v.q i f =
    (R.normal (R.normal g 0 σ (withEvents evs (·.user)).card k).2 0 σ
      (withEvents evs (·.item)).card k).1
      ((withEvents evs (·.item)).filter (· < i)).card f

/-- The residuals of the biases have the variance `σ ^ 2`. -/
def ResidualDev (evs : List (Event nu ni)) (v : Views nu ni k) (σ : ℝ) : Prop :=
  0 ≤ σ ∧ σ ^ 2 * evs.length =
    (evs.map (fun e => (e.score - (v.mu + v.bu e.user + v.bi e.item)) ^ 2)).sum

/-- The start for a matrix of event counts: `mu` is the part of the pairs with an event, the biases are
mean counts of rows and columns, and every factor is drawn. -/
structure ImplicitStart (R : Rng γ) (g : γ) (m : Fin nu → Fin ni → Nat) (v : Views nu ni k) : Prop where
  mu : v.mu * (nu * ni : ℝ) = ∑ u, (Finset.univ.filter (fun i => 0 < m u i)).card
  bu : ∀ u, v.bu u * (ni : ℝ) = ∑ i, (m u i : ℝ)
  bi : ∀ i, v.bi i * (nu : ℝ) = ∑ u, (m u i : ℝ)
  p : ∀ u (f : Fin k), v.p u f = (R.normal g 0 1 nu k).1 u f
  q : ∀ i (f : Fin k), v.q i f = (R.normal (R.normal g 0 1 nu k).2 0 1 ni k).1 i f

/-- What `fit_results_` contains after a fit that started with the loss `initial`. -/
structure Recorded (cf : Config γ) (nu ni n : Nat) (initial : ℝ) {N : Nat} (res : OptResult N)
    (d : Dict String Val) : Prop where
  initial : d.get? "initial_loss" = some (.real initial)
  final : d.get? "final_loss" = some (.real res.fn)
  users : d.get? "n_users" = some (.nat nu)
  items : d.get? "n_items" = some (.nat ni)
  events : d.get? "n_events" = some (.nat n)
  parameters : d.get? "n_parameters" = some (.nat (1 + nu + ni + nu * cf.k + ni * cf.k))
  success : d.get? "success" = some (.bool res.success)
  status : d.get? "status" = some (.nat res.status)
  message : d.get? "message" = some (.str res.message)
  iterations : d.get? "n_iterations" = some (.nat res.nit)
  funcCalls : d.get? "func_calls" = some (.nat res.nfev)
  gradCalls : d.get? "grad_calls" = some (.nat res.njev)
  method : d.get? "optimizer_method" = some (.str cf.method)
  kwargs : d.get? "optimizer_kwargs" = some (.kwargs cf.kwargs)

/-! ### Lemmas -/

theorem idxOf_filter_finRange {n : Nat} (P : Fin n → Bool) (x : Fin n) (hx : P x = true) :
    ((List.finRange n).filter P).idxOf x = ((List.finRange n).filter (fun y => P y && decide (y < x))).length := by
  have key : ∀ l : List (Fin n), l.Pairwise (· < ·) → x ∈ l →
      (l.filter P).idxOf x = (l.filter (fun y => P y && decide (y < x))).length := by
    intro l
    induction l with
    | nil => intro _ h; cases h
    | cons a l ih =>
      intro hp hm
      rw [List.pairwise_cons] at hp
      by_cases hax : a = x
      · subst hax
        have hz : l.filter (fun y => P y && decide (y < a)) = [] := by
          rw [List.filter_eq_nil_iff]
          intro y hy
          have := hp.1 y hy
          simp [not_lt.2 (le_of_lt this)]
        rw [List.filter_cons_of_pos hx, List.idxOf_cons_self, List.filter_cons_of_neg (by simp), hz]
        rfl
      · have hxl : x ∈ l := by
          rcases List.mem_cons.1 hm with h | h
          · exact absurd h.symm hax
          · exact h
        have hlt := hp.1 x hxl
        by_cases hPa : P a = true
        · rw [List.filter_cons_of_pos hPa, List.filter_cons_of_pos (by simp [hPa, hlt]),
            List.idxOf_cons_ne _ hax, ih hp.2 hxl]
          rfl
        · rw [List.filter_cons_of_neg hPa, List.filter_cons_of_neg (by simp [hPa]), ih hp.2 hxl]
  exact key _ (List.pairwise_lt_finRange n) (List.mem_finRange x)

theorem length_filter_finRange {n : Nat} (P : Fin n → Bool) :
    ((List.finRange n).filter P).length = (Finset.univ.filter (fun x => P x = true)).card := by
  rw [← List.toFinset_card_of_nodup ((List.nodup_finRange n).filter _)]
  congr 1
  ext x
  simp

theorem mem_withEvents {n : Nat} (evs : List (Event nu ni)) (id : Event nu ni → Fin n) (x : Fin n) :
    x ∈ withEvents evs id ↔ ∃ e ∈ evs, id e = x := by
  simp [withEvents]

theorem length_mask {n : Nat} (evs : List (Event nu ni)) (id : Event nu ni → Fin n) :
    (mask evs id).length = (withEvents evs id).card := by
  unfold mask
  rw [length_filter_finRange]
  congr 1
  ext x
  rw [mem_withEvents]
  simp

theorem idxOf_mask {n : Nat} (evs : List (Event nu ni)) (id : Event nu ni → Fin n) (x : Fin n)
    (hx : x ∈ withEvents evs id) :
    (mask evs id).idxOf x = ((withEvents evs id).filter (· < x)).card := by
  have h := (mem_mask evs id x).2 ((mem_withEvents evs id x).1 hx)
  unfold mask at h ⊢
  rw [idxOf_filter_finRange _ _ (List.mem_filter.1 h).2, length_filter_finRange]
  congr 1
  ext y
  rw [Finset.mem_filter, Finset.mem_filter, mem_withEvents]
  simp

theorem scatter_drawn {n k : Nat} (evs : List (Event nu ni)) (id : Event nu ni → Fin n) (z : Nat → Nat → ℝ)
    (x : Fin n) (hx : x ∈ withEvents evs id) (f : Fin k) :
    scatter (mask evs id) z x f = z ((withEvents evs id).filter (· < x)).card f := by
  unfold scatter
  rw [if_pos ((mem_mask _ _ _).2 ((mem_withEvents _ _ _).1 hx)), idxOf_mask evs id x hx]

/-- C30, the factors of LogisticPMF: rows of two draws with standard deviation 1. -/
theorem C30_logistic_factors (R : Rng γ) (g : γ) (evs : List (Event nu ni)) :
    FactorsDrawn R g 1 evs (unpack (Logistic.initCoef R g k evs).1) := by
  unfold Logistic.initCoef
  simp only
  rw [unpack_pack]
  constructor
  · intro u hu f
    rw [← length_mask]
    exact scatter_drawn evs _ _ u hu f
  · intro i hi f
    rw [← length_mask, ← length_mask]
    exact scatter_drawn evs _ _ i hi f

/-- C30, the factors of PMF: rows of two draws with the standard deviation of the residuals. -/
theorem C30_pmf_factors (R : Rng γ) (g : γ) (evs : List (Event nu ni)) :
    ∃ σ, ResidualDev evs (unpack (PMF.initCoef R g k evs).1) σ ∧
      FactorsDrawn R g σ evs (unpack (PMF.initCoef R g k evs).1) := by
  have hfold : ∀ (f : Event nu ni → ℝ) (l : List (Event nu ni)) (a : ℝ),
      l.foldl (fun var e => var + f e) a = a + (l.map f).sum := by
    intro f l
    induction l with
    | nil => intro a; simp
    | cons e l ih => intro a; simp only [List.foldl_cons, ih, List.map_cons, List.sum_cons]; ring
  refine ⟨Real.sqrt ((evs.foldl (fun var e => var + (e.score - ((initBias evs).1 +
    (initBias evs).2.1 e.user + (initBias evs).2.2 e.item)) ^ 2) 0.0) / (evs.length : ℝ)), ?_⟩
  unfold PMF.initCoef
  simp only
  rw [unpack_pack]
  refine ⟨⟨Real.sqrt_nonneg _, ?_⟩, ?_, ?_⟩
  · have hs : 0 ≤ (evs.map (fun e => (e.score - ((initBias evs).1 + (initBias evs).2.1 e.user +
        (initBias evs).2.2 e.item)) ^ 2)).sum := by
      apply List.sum_nonneg
      intro x hx
      obtain ⟨e, _, rfl⟩ := List.mem_map.1 hx
      positivity
    rw [hfold]
    rw [Real.sq_sqrt (div_nonneg (by norm_num; exact hs) (Nat.cast_nonneg _))]
    rcases evs with _ | ⟨e, evs⟩
    · simp
    · rw [div_mul_cancel₀ _ (by simp only [List.length_cons]; positivity)]
      norm_num
  · intro u hu f
    rw [← length_mask]
    exact scatter_drawn evs _ _ u hu f
  · intro i hi f
    rw [← length_mask, ← length_mask]
    exact scatter_drawn evs _ _ i hi f

/-- C30 for ImplicitLogisticPMF: every matrix, also with users or items without events. -/
theorem C30_implicit_start (R : Rng γ) (g : γ) (m : Implicit.Mat nu ni) :
    ImplicitStart R g m (unpack (Implicit.initCoef R g k m).1) := by
  unfold Implicit.initCoef
  simp only
  rw [unpack_pack]
  refine ⟨?_, ?_, ?_, fun _ _ => rfl, fun _ _ => rfl⟩
  · have hc : ((Finset.univ.filter (fun x : Fin nu × Fin ni => m x.1 x.2 ≠ 0)).card : ℝ) =
        ((∑ u, (Finset.univ.filter (fun i => 0 < m u i)).card : Nat) : ℝ) := by
      congr 1
      rw [Finset.card_filter, Fintype.sum_prod_type]
      apply Finset.sum_congr rfl
      intro u _
      rw [Finset.card_filter]
      apply Finset.sum_congr rfl
      intro i _
      simp only [Nat.pos_iff_ne_zero]
    rw [← hc]
    by_cases h : (nu : ℝ) * (ni : ℝ) = 0
    · rw [h, mul_zero, hc]
      rcases mul_eq_zero.1 h with h | h
      · have : nu = 0 := by exact_mod_cast h
        subst this
        simp
      · have : ni = 0 := by exact_mod_cast h
        subst this
        simp
    · exact div_mul_cancel₀ _ h
  · intro u
    by_cases h : (ni : ℝ) = 0
    · have : ni = 0 := by exact_mod_cast h
      subst this
      simp
    · exact div_mul_cancel₀ _ h
  · intro i
    by_cases h : (nu : ℝ) = 0
    · have : nu = 0 := by exact_mod_cast h
      subst this
      simp
    · exact div_mul_cancel₀ _ h

theorem recorded_results (cf : Config γ) (nu ni : Nat) {n n' : Nat} {initial initial' : ℝ}
    (res : OptResult (size nu ni cf.k)) (d : Dict String Val) (hn : n = n') (h : initial = initial') :
    Recorded cf nu ni n' initial' res
      ((results cf nu ni n initial res).foldl (fun d kv => d.set kv.1 kv.2) d) := by
  subst hn h
  constructor <;> rw [Dict.get?_foldl_set] <;> simp [results, size]

theorem trainExplicit_results {cf : Config γ}
    (ic : ∀ nu ni : Nat, γ → List (Event nu ni) → Coef nu ni cf.k × γ)
    (lo : ∀ nu ni : Nat, List (Event nu ni) → Coef nu ni cf.k → ℝ)
    (gr : ∀ nu ni : Nat, List (Event nu ni) → Coef nu ni cf.k → Coef nu ni cf.k)
    {d : EventData α φ ε} {rows : List (List α)} {sc : List ℝ} {c₀ c₁ nu ni : Nat} {g : γ}
    {v : View ℝ γ} (hv : SeesPairs v d rows c₀ c₁ nu ni) (hs : v.score = some sc)
    (hsc : sc.length = rows.length) (hg : v.rng = some g) (hu : nu ≠ 1) (hi : ni ≠ 1) :
    ∃ evs : List (Event nu ni), TrainedOn d rows sc c₀ c₁ evs ∧
      trainExplicit cf ic lo gr v = .ok (store (nu := nu) (ni := ni) (k := cf.k)
        (cf.opt _ (lo nu ni evs) (gr nu ni evs) (ic nu ni g evs).1 cf.method cf.kwargs).x,
        results cf nu ni v.nEvents (lo nu ni evs (ic nu ni g evs).1)
          (cf.opt _ (lo nu ni evs) (gr nu ni evs) (ic nu ni g evs).1 cf.method cf.kwargs)) := by
  obtain ⟨evs, hp, ht⟩ := parseEvents_total hv hsc
  refine ⟨evs, ht, ?_⟩
  simp only [trainExplicit, hv.users, hv.items, hs, hg, hp, allocate_ok hu hi, bind, Except.bind, pure, Except.pure]

/-! ### C113 -/

/-- C113 for PMF: the coefficients handed to the optimizer have the mean score and the mean deviations as
biases, and factors drawn from the generator of this fit with the deviation of the residuals;
`fit_results_` has the loss there, the sizes of the data and what the optimizer reported. -/
theorem C113_pmf_start (cf : Config γ) (mk : Int → γ) (env : γ) (r : Rec ℝ α φ ε γ Params Val)
    {d : ScoreData ℝ α φ ε} {rows : List (List α)} {sc : List ℝ} (h : ScoreBuilt d rows sc)
    (hne : rows ≠ []) (idx : Option (List Int)) (c₀ c₁ : Nat)
    (hjs : columnsOf d.toEventData idx = .ok [c₀, c₁])
    (hsu : Several d.eventOtypes rows c₀) (hsi : Several d.eventOtypes rows c₁) :
    ∃ (r' : Rec ℝ α φ ε γ Params Val) (nu ni : Nat) (evs : List (Event nu ni)) (start : Coef nu ni cf.k)
      (σ : ℝ),
      Rec.fitPredictor (pmf cf) mk env r d idx = .ok r' ∧
      TrainedOn d.toEventData rows sc c₀ c₁ evs ∧
      (∀ t, d.eventOtypes[c₀]? = some t → nu = count d.eventOtypes rows t) ∧
      (∀ t, d.eventOtypes[c₁]? = some t → ni = count d.eventOtypes rows t) ∧
      GoodInit evs (unpack start) ∧ ResidualDev evs (unpack start) σ ∧
      FactorsDrawn cf.rng (generator mk env r) σ evs (unpack start) ∧
      Recorded cf nu ni rows.length
        (1 / 2 * (evs.map (fun e => (e.score - est (unpack start) e.user e.item) ^ 2)).sum +
          cf.C / 2 * ∑ j, (if j.1 = 0 then 0 else start j ^ 2))
        (cf.opt _ (PMF.loss cf.C evs) (PMF.gradLoss cf.C evs) start cf.method cf.kwargs) r'.fitResults ∧
      r'.params = some (store (nu := nu) (ni := ni) (k := cf.k)
        (cf.opt _ (PMF.loss cf.C evs) (PMF.gradLoss cf.C evs) start cf.method cf.kwargs).x) := by
  obtain ⟨hb, hs, hl, _⟩ := h.inv
  obtain ⟨nu, ni, hv, hn1, hn2⟩ := view_sees mk env r hb idx c₀ c₁ hjs
  have hfit := eventFit_eq mk env r hb.holds idx _ hjs
  have hv' : SeesPairs (Rec.setScoreInfo (fittedInfo mk env r d.toEventData rows idx [c₀, c₁]) d).view
      d.toEventData rows c₀ c₁ nu ni := ⟨hv.users, hv.items, hv.rng, hv.length, hv.rows⟩
  obtain ⟨evs, ht, htr⟩ := trainExplicit_results (cf := cf) (g := generator mk env r)
    (fun _ _ g evs => PMF.initCoef cf.rng g cf.k evs) (fun _ _ => PMF.loss cf.C)
    (fun _ _ => PMF.gradLoss cf.C) hv' hs hl rfl (several_ne hb.holds hjs (by simp) hn1 hsu)
    (several_ne hb.holds hjs (by simp) hn2 hsi)
  obtain ⟨r', h1, h2, h3⟩ := finish_results (L := pmf cf) htr
  have hevs : evs ≠ [] := by
    intro he
    rw [he] at ht
    exact hne (List.length_eq_zero_iff.1 ht.1.symm)
  obtain ⟨σ, k1, k2⟩ := C30_pmf_factors (k := cf.k) cf.rng (generator mk env r) evs
  refine ⟨r', nu, ni, evs, (PMF.initCoef cf.rng (generator mk env r) cf.k evs).1, σ, ?_, ht, hn1, hn2,
    (C30_initial_coefficients cf.rng _ evs hevs).1, k1, k2, ?_, h2⟩
  · unfold Rec.fitPredictor Rec.predictorSuperFit
    simp only [hfit]
    exact h1
  · rw [h3]
    refine recorded_results cf nu ni _ _ hb.holds.nEvents ?_
    rw [← reg_eq]
    unfold PMF.loss
    ring

/-- The negative log-likelihood of 0/1 events under the probabilities of a logistic model. -/
noncomputable def crossEntropy (evs : List (Event nu ni)) (v : Views nu ni k) : ℝ :=
  (evs.map (fun e => -(e.score * Real.log (safeSigmoid (est v e.user e.item)) +
    (1 - e.score) * Real.log (1 - safeSigmoid (est v e.user e.item))))).sum

/-- C113 for LogisticPMF on two-class binary data: factors drawn with deviation 1. -/
theorem C113_logistic_start (cf : Config γ) (mk : Int → γ) (env : γ) (r : Rec ℝ α φ ε γ Params Val)
    {d : ScoreData ℝ α φ ε} {rows : List (List α)} {sc : List ℝ} (h : ScoreBuilt d rows sc)
    (hdom : d.scoreDomain = some [0, 1, 1]) (hlev : d.nScoreLevels = some 2)
    (hbin : ∀ s ∈ sc, s = 0 ∨ s = 1) (h0 : 0 ∈ sc) (h1 : 1 ∈ sc)
    (idx : Option (List Int)) (c₀ c₁ : Nat) (hjs : columnsOf d.toEventData idx = .ok [c₀, c₁])
    (hsu : Several d.eventOtypes rows c₀) (hsi : Several d.eventOtypes rows c₁) :
    ∃ (r' : Rec ℝ α φ ε γ Params Val) (nu ni : Nat) (evs : List (Event nu ni)) (start : Coef nu ni cf.k),
      Rec.fitExplicit (logistic cf) mk env r d idx = .ok r' ∧
      TrainedOn d.toEventData rows sc c₀ c₁ evs ∧
      (∀ t, d.eventOtypes[c₀]? = some t → nu = count d.eventOtypes rows t) ∧
      (∀ t, d.eventOtypes[c₁]? = some t → ni = count d.eventOtypes rows t) ∧
      GoodInit evs (unpack start) ∧ FactorsDrawn cf.rng (generator mk env r) 1 evs (unpack start) ∧
      Recorded cf nu ni rows.length
        (crossEntropy evs (unpack start) + cf.C / 2 * ∑ j, (if j.1 = 0 then 0 else start j ^ 2))
        (cf.opt _ (Logistic.loss cf.C evs) (Logistic.gradLoss cf.C evs) start cf.method cf.kwargs)
        r'.fitResults ∧
      r'.params = some (store (nu := nu) (ni := ni) (k := cf.k)
        (cf.opt _ (Logistic.loss cf.C evs) (Logistic.gradLoss cf.C evs) start cf.method cf.kwargs).x) := by
  obtain ⟨hb, hs, hl, _⟩ := h.inv
  obtain ⟨nu, ni, hv, hn1, hn2⟩ := view_sees mk env r hb idx c₀ c₁ hjs
  have hfit := eventFit_eq mk env r hb.holds idx _ hjs
  have hv' : SeesPairs (Rec.setScoreInfo (fittedInfo mk env r d.toEventData rows idx [c₀, c₁]) d).view
      d.toEventData rows c₀ c₁ nu ni := ⟨hv.users, hv.items, hv.rng, hv.length, hv.rows⟩
  obtain ⟨evs, ht, htr⟩ := trainExplicit_results (cf := cf) (g := generator mk env r)
    (fun _ _ g evs => Logistic.initCoef cf.rng g cf.k evs) (fun _ _ => Logistic.loss cf.C)
    (fun _ _ => Logistic.gradLoss cf.C) hv' hs hl rfl (several_ne hb.holds hjs (by simp) hn1 hsu)
    (several_ne hb.holds hjs (by simp) hn2 hsi)
  obtain ⟨r', g1, g2, g3⟩ := finish_results (L := logistic cf) htr
  have hacc : acceptsBinary d = true := (acceptsBinary_iff d).2 ⟨hdom, hlev, sc, hs, hbin, h0, h1⟩
  have hevs : evs ≠ [] := by
    intro he
    rw [he] at ht
    have : sc = [] := List.length_eq_zero_iff.1 (by rw [hl]; exact ht.1.symm)
    rw [this] at h0
    cases h0
  refine ⟨r', nu, ni, evs, (Logistic.initCoef cf.rng (generator mk env r) cf.k evs).1, ?_, ht, hn1, hn2,
    (C30_initial_coefficients cf.rng _ evs hevs).2, C30_logistic_factors cf.rng _ evs, ?_, g2⟩
  · unfold Rec.fitExplicit Rec.explicitSuperFit
    simp only [hfit, hacc, if_true]
    exact g1
  · rw [g3]
    refine recorded_results cf nu ni _ _ hb.holds.nEvents ?_
    rw [← reg_eq, logistic_loss_eq]
    unfold crossEntropy logLik
    ring

/-- C113 for ImplicitLogisticPMF with `event_index=(0, 1)`: `m` counts the events of each pair. -/
theorem C113_implicit_start (cf : Config γ) (mk : Int → γ) (env : γ) (r : Rec ℝ α φ ε γ Params Val)
    {d : EventData α φ ε} {rows : List (List α)} (h : Built d rows) (_hne : rows ≠ [])
    (h0 : d.eventOtypes[0]? = some 0) (h1 : d.eventOtypes[1]? = some 1)
    (hsu : Several d.eventOtypes rows 0) (hsi : Several d.eventOtypes rows 1) :
    ∃ (r' : Rec ℝ α φ ε γ Params Val)
      (m : Fin (count d.eventOtypes rows 0) → Fin (count d.eventOtypes rows 1) → Nat)
      (start : Coef (count d.eventOtypes rows 0) (count d.eventOtypes rows 1) cf.k),
      Rec.fitImplicit (implicit cf) mk env r d (some [0, 1]) = .ok r' ∧
      (∀ x y (u : Fin (count d.eventOtypes rows 0)) (i : Fin (count d.eventOtypes rows 1)),
        IsObject d.eventOtypes rows 0 x → IsObject d.eventOtypes rows 1 y →
        u.1 = rank d.eventOtypes rows 0 x → i.1 = rank d.eventOtypes rows 1 y →
        m u i = rows.countP (fun row => decide (row[0]? = some x ∧ row[1]? = some y))) ∧
      ImplicitStart cf.rng (generator mk env r) m (unpack start) ∧
      Recorded cf (count d.eventOtypes rows 0) (count d.eventOtypes rows 1) rows.length
        (crossEntropy (allPairs m) (unpack start) +
          cf.C / 2 * ∑ j, (if j.1 = 0 then 0 else start j ^ 2))
        (cf.opt _ (Implicit.loss cf.C m) (Implicit.gradLoss cf.C m) start cf.method cf.kwargs)
        r'.fitResults ∧
      r'.params = some (store (nu := count d.eventOtypes rows 0) (ni := count d.eventOtypes rows 1)
        (k := cf.k) (cf.opt _ (Implicit.loss cf.C m) (Implicit.gradLoss cf.C m) start cf.method
          cf.kwargs).x) := by
  have hd := h.holds
  have hlen : d.eventOtypes.length = d.sEvent := hd.wf.len_otypes
  have h1lt : 1 < d.eventOtypes.length := (List.getElem?_eq_some_iff.1 h1).1
  have hjs : columnsOf d (some [0, 1]) = .ok [0, 1] :=
    positions_nat [0, 1] d.sEvent (by simp; omega)
  have hfit := eventFit_eq mk env r hd _ _ hjs
  obtain ⟨m, hm, hml, hmw, hc⟩ := C38_counts_partial mk env r h h0 h1 hfit
  have hg : (fittedInfo mk env r d rows (some [0, 1]) [0, 1]).view.rng = some (generator mk env r) := rfl
  have hn : (fittedInfo mk env r d rows (some [0, 1]) [0, 1]).view.nEvents = rows.length := hd.nEvents
  obtain ⟨A, hA⟩ : ∃ A : Implicit.Mat (count d.eventOtypes rows 0) (count d.eventOtypes rows 1),
      A = matOf _ _ m := ⟨_, rfl⟩
  have htr : (implicit cf).train (fittedInfo mk env r d rows (some [0, 1]) [0, 1]).view =
      .ok (store (nu := count d.eventOtypes rows 0) (ni := count d.eventOtypes rows 1)
        (k := cf.k) (cf.opt _ (Implicit.loss cf.C A) (Implicit.gradLoss cf.C A)
          (Implicit.initCoef cf.rng (generator mk env r) cf.k A).1 cf.method cf.kwargs).x,
        results cf (count d.eventOtypes rows 0) (count d.eventOtypes rows 1) rows.length
          (Implicit.loss cf.C A (Implicit.initCoef cf.rng (generator mk env r) cf.k A).1)
          (cf.opt _ (Implicit.loss cf.C A) (Implicit.gradLoss cf.C A)
          (Implicit.initCoef cf.rng (generator mk env r) cf.k A).1 cf.method cf.kwargs)) := by
    rw [hA]
    simp only [implicit, hm, allocate_ok (hsu 0 h0) (hsi 1 h1), bind, Except.bind, hg, hn, pure, Except.pure]
  obtain ⟨r', g1, g2, g3⟩ := finish_results htr
  refine ⟨r', A, (Implicit.initCoef cf.rng (generator mk env r) cf.k A).1, ?_, ?_,
    C30_implicit_start cf.rng _ _, ?_, g2⟩
  · unfold Rec.fitImplicit
    simp only [hfit]
    exact g1
  · intro x y u i hx hy hu hi
    obtain ⟨mr, g1, g2⟩ := hc x y hx hy
    rw [hA]
    unfold matOf
    rw [hu, hi]
    simp only [List.getD_eq_getElem?_getD, g1, g2, Option.getD_some]
  · rw [g3]
    refine recorded_results cf _ _ _ _ rfl ?_
    rw [← reg_eq, implicit_loss_eq, logistic_loss_eq]
    unfold crossEntropy logLik
    ring

end MF

namespace PLSA
variable {α φ ε γ : Type} [LinearOrder α] {n nu ni nl k : Nat}

/-- The parameters of the first draws: class `z` is preferred for the level `z mod nl`. -/
noncomputable def preferred (nl k level : Nat) : Fin k → ℝ :=
  fun z => if z.1 % nl = level then 1000 else 1

/-- The responsibilities of the events are drawn one after the other, each for the level of its event. -/
def DrawnInOrder (R : Rng γ) (g : γ) (evl : List (Ev nu ni nl)) (q : Resp evl.length k) : Prop :=
  ∃ state : Nat → γ, state 0 = g ∧ ∀ e : Fin evl.length,
    R.dirichlet (state e) (preferred nl k (evl[e]).level) = (q e, state (e + 1))

/-- The parameters are the responsibilities counted with `a` added to each count. -/
structure Smoothed (a : ℝ) (evs : Fin n → Ev nu ni nl) (q : Resp n k) (θ : Theta nu ni nl k) : Prop where
  z : ∀ z, θ.pZ z * (∑ z', ∑ e, q e z' + k * a) = ∑ e, q e z + a
  x : ∀ x z, θ.pX x z * (∑ e, q e z + nu * a) = ∑ e with (evs e).user = x, q e z + a
  y : ∀ y z, θ.pY y z * (∑ e, q e z + ni * a) = ∑ e with (evs e).item = y, q e z + a
  r : ∀ r z, θ.pR r z * (∑ e, q e z + nl * a) = ∑ e with (evs e).level = r, q e z + a

/-- What `fit_results_` contains after `N` EM steps that started with the loss `initial` and ended with
the loss `final`. -/
structure Recorded (cf : Config γ) (nu ni nl n N : Nat) (initial final : ℝ) (d : Dict String Val) :
    Prop where
  initial : d.get? "initial_loss" = some (.real initial)
  final : d.get? "final_loss" = some (.real final)
  users : d.get? "n_users" = some (.nat nu)
  items : d.get? "n_items" = some (.nat ni)
  events : d.get? "n_events" = some (.nat n)
  parameters : d.get? "n_parameters" = some (.nat (cf.k * (1 + nu + ni + nl)))
  iterations : d.get? "n_iterations" = some (.nat N)
  success : d.get? "success" = some (.bool (decide (N < cf.maxiter)))
  status : d.get? "status" = some (.nat (if N < cf.maxiter then 0 else 2))
  message : d.get? "message" = some (.str (if N < cf.maxiter then "Fitting terminated successfully."
    else "Maximum number of iterations has been exceeded."))
  kwargs : d.get? "optimizer_kwargs" = some (.kwargs cf.maxiter cf.tol)

theorem drawn_inOrder (R : Rng γ) (g : γ) (evl : List (Ev nu ni nl)) :
    DrawnInOrder R g evl (drawn R k g evl) := by
  have hpref : ∀ l : Fin nl, (initAlpha nl k l) = preferred nl k l := by
    intro l
    funext z
    unfold initAlpha preferred
    split <;> norm_num
  have key : ∀ (l : List (Ev nu ni nl)) (g : γ), ∃ state : Nat → γ, state 0 = g ∧
      ∀ (j : Nat) (e : Ev nu ni nl), l[j]? = some e →
        R.dirichlet (state j) (preferred nl k e.level) =
          ((initParams R k g l).getD j (fun _ => 0), state (j + 1)) := by
    intro l
    induction l with
    | nil => intro g; exact ⟨fun _ => g, rfl, by intro j e h; simp at h⟩
    | cons a l ih =>
      intro g
      obtain ⟨st, h0, h1⟩ := ih (R.dirichlet g (initAlpha nl k a.level)).2
      refine ⟨fun j => match j with | 0 => g | j + 1 => st j, rfl, ?_⟩
      intro j e hj
      cases j with
      | zero =>
        simp only [List.getElem?_cons_zero, Option.some.injEq] at hj
        subst hj
        simp only [initParams, List.getD_cons_zero, h0, hpref]
      | succ j =>
        simp only [List.getElem?_cons_succ] at hj
        simpa only [initParams, List.getD_cons_succ] using h1 j e hj
  obtain ⟨st, h0, h1⟩ := key evl g
  refine ⟨st, h0, fun e => ?_⟩
  exact h1 e.1 _ (List.getElem?_eq_getElem e.2)

theorem mStep_smoothed {a : ℝ} (ha : 0 < a) (hk : 0 < k) (evs : Fin n → Ev nu ni nl) (q : Resp n k)
    (hq : ∀ e z, 0 ≤ q e z) : Smoothed a evs q (mStep a evs q) := by
  have part : ∀ {m : Nat} (id : Fin n → Fin m) (j : Fin m) z,
      normalize (weights a id q) j z * (∑ e, q e z + m * a) = ∑ e with id e = j, q e z + a := by
    intro m id j z
    have hm : (0 : ℝ) < m := by exact_mod_cast j.pos
    have hs : 0 ≤ ∑ e, q e z := Finset.sum_nonneg (fun e _ => hq e z)
    unfold normalize
    rw [sum_weights, mul_comm a, div_mul_cancel₀ _ (by positivity)]
    unfold weights
    rw [Finset.sum_filter]
  refine ⟨?_, fun x z => part _ x z, fun y z => part _ y z, fun r z => part _ r z⟩
  intro z
  have h1 : ∑ z', (∑ e, q e z' + a) = ∑ z', ∑ e, q e z' + k * a := by
    rw [Finset.sum_add_distrib]
    simp
  have hk' : (0 : ℝ) < k := by exact_mod_cast hk
  have hs : 0 ≤ ∑ z', ∑ e, q e z' := Finset.sum_nonneg (fun z _ => Finset.sum_nonneg (fun e _ => hq e z))
  show (∑ e, q e z + a) / (∑ z', (∑ e, q e z' + a)) * _ = _
  rw [h1, div_mul_cancel₀ _ (by positivity)]

theorem recorded_results (cf : Config γ) (nu ni nl : Nat) {n it : Nat} (initial final : ℝ)
    (d : Dict String Val) (hn : n ≠ 0) (hit : it + 1 ≤ cf.maxiter) :
    Recorded cf nu ni nl n (it + 1) initial final
      ((results cf nu ni nl n initial it (some final)).foldl (fun d kv => d.set kv.1 kv.2) d) := by
  have hex : exceeded it cf.maxiter = decide (¬ it + 1 < cf.maxiter) := by
    unfold exceeded
    rw [decide_eq_decide]
    omega
  have hp : cf.k + nu * cf.k + ni * cf.k + nl * cf.k = cf.k * (1 + nu + ni + nl) := by ring
  by_cases hlt : it + 1 < cf.maxiter
  · constructor <;> rw [Dict.get?_foldl_set] <;>
      simp [results, hex, hlt, lossVal, hn, statusMessage, hp]
  · constructor <;> rw [Dict.get?_foldl_set] <;>
      simp [results, hex, hlt, lossVal, hn, statusMessage, hp]

/-- C113 for MultinomialPLSA: with `alpha > 0` and a `maxiter` of at least one, training starts at the
smoothed counts of responsibilities drawn one event after the other from the generator of this fit, each
draw preferring the classes of the level of its event; `fit_results_` has the loss there, the loss of the
returned parameters, the number of steps between them, and the sizes of the data. -/
theorem C113_plsa_start (cf : Config γ) (hk : 0 < cf.k) (ha : 0 < cf.alpha) (hmax : 1 ≤ cf.maxiter)
    (hR : DrawsWeights cf.rng) (mk : Int → γ) (env : γ)
    (r : Rec ℝ α φ ε γ Params Val) {d : ScoreData ℝ α φ ε} {rows : List (List α)} {sc : List ℝ}
    (h : ScoreBuilt d rows sc) (hne : rows ≠ []) (lo hi st : ℝ) (m : Nat)
    (hd : d.scoreDomain = some [lo, hi, st]) (hst : 0 < st) (hm : hi = lo + (m : ℝ) * st)
    (idx : Option (List Int)) (c₀ c₁ : Nat) (hjs : columnsOf d.toEventData idx = .ok [c₀, c₁]) :
    ∃ (r' : Rec ℝ α φ ε γ Params Val) (nu ni N : Nat) (evl : List (Ev nu ni (m + 1))) (levels : List ℝ)
      (q : Resp evl.length cf.k) (start : Theta nu ni (m + 1) cf.k),
      Rec.fitPredictor (plsa cf) mk env r d idx = .ok r' ∧
      TrainedOnLevels d.toEventData rows sc c₀ c₁ lo st m evl ∧
      (∀ t, d.eventOtypes[c₀]? = some t → nu = count d.eventOtypes rows t) ∧
      (∀ t, d.eventOtypes[c₁]? = some t → ni = count d.eventOtypes rows t) ∧
      DrawnInOrder cf.rng (generator mk env r) evl q ∧ Smoothed cf.alpha (fun e => evl[e]) q start ∧
      r'.params = some (store ((emStep cf.alpha (fun e => evl[e]))^[N] start) levels) ∧
      Recorded cf nu ni (m + 1) rows.length N (meanLoss (fun e => evl[e]) start)
        (meanLoss (fun e => evl[e]) ((emStep cf.alpha (fun e => evl[e]))^[N] start)) r'.fitResults := by
  obtain ⟨r', nu, ni, nl, N, evl, levels, it, cur, h1, h2, h3, h4, rfl, h6, h7, h8, h9, _, h11, h12⟩ :=
    plsa_fit_run cf hk mk env r h hne lo hi st m hd hst hm idx c₀ c₁ hjs
  obtain ⟨rfl, rfl⟩ := h11 hmax
  refine ⟨r', nu, ni, it + 1, evl, levels, drawn cf.rng cf.k (generator mk env r) evl,
    reached cf.alpha (fun e => evl[e]) (drawn cf.rng cf.k (generator mk env r) evl) 0, h1, h2, h3, h4,
    drawn_inOrder _ _ _, mStep_smoothed ha hk _ _ (drawn_nonneg hR _ _ _), h6, ?_⟩
  rw [h12]
  have hn : rows.length ≠ 0 := by
    rw [Ne, List.length_eq_zero_iff]; exact hne
  have := recorded_results cf nu ni (m + 1) (n := rows.length) (it := it)
    (loss (fun e => evl[e]) (reached cf.alpha (fun e => evl[e])
      (drawn cf.rng cf.k (generator mk env r) evl) 0))
    (loss (fun e => evl[e]) (reached cf.alpha (fun e => evl[e])
      (drawn cf.rng cf.k (generator mk env r) evl) (it + 1))) r.fitResults hn h8
  rw [loss_eq, loss_eq] at this
  rw [loss_eq, loss_eq]
  exact this

/-- The hypotheses of C113 hold for `exScores`. -/
example : ∃ (r' : Rec ℝ Nat Nat Nat Unit Params Val) (N : Nat) (initial final : ℝ),
    Rec.fitPredictor (plsa (exConfig 3)) (fun _ => ()) () (Rec.init (some 1) initialResults) exScores none =
      .ok r' ∧ Recorded (exConfig 3) 2 2 2 2 N initial final r'.fitResults := by
  obtain ⟨r', nu, ni, N, evl, levels, q, start, h1, _, h3, h4, _, _, _, h8⟩ :=
    C113_plsa_start (exConfig 3) Nat.one_pos one_pos (by decide) (by intro k g a z; exact zero_le_one)
      (fun _ => ()) () (Rec.init (some 1) initialResults) exScores_built (by simp) 0 1 1 1 rfl one_pos
      (by norm_num) none 0 1 rfl
  have e1 : nu = 2 := by rw [h3 0 rfl, ← length_ids]; decide +kernel
  have e2 : ni = 2 := by rw [h4 1 rfl, ← length_ids]; decide +kernel
  subst e1 e2
  exact ⟨r', N, _, _, h1, h8⟩

end PLSA

namespace MF

/-- An optimizer that stays where it starts, and a generator that draws ones. -/
noncomputable def exStay : Config Unit where
  C := 1
  k := 1
  method := "l-bfgs-b"
  kwargs := []
  opt := fun _ f _ x _ _ => ⟨x, true, 0, "", f x, 0, 1, 1⟩
  rng := ⟨fun _ _ _ _ _ => (fun _ _ => 1, ())⟩

/-- The hypotheses of C113 for LogisticPMF hold for `PLSA.exScores`. -/
example : ∃ (r' : Rec ℝ Nat Nat Nat Unit Params Val) (initial : ℝ),
    Rec.fitExplicit (logistic exStay) (fun _ => ()) () (Rec.init (some 1) initialResults) PLSA.exScores
      none = .ok r' ∧ r'.fitResults.get? "initial_loss" = some (.real initial) ∧
      r'.fitResults.get? "n_parameters" = some (.nat 9) := by
  obtain ⟨r', nu, ni, evs, start, h1, _, h3, h4, _, _, h7, _⟩ :=
    C113_logistic_start exStay (fun _ => ()) () (Rec.init (some 1) initialResults) PLSA.exScores_built rfl rfl
      (by intro s hs; simpa using hs) (by simp) (by simp) none 0 1 rfl (exScores_several 0) (exScores_several 1)
  have e1 : nu = 2 := by rw [h3 0 rfl, ← length_ids]; decide +kernel
  have e2 : ni = 2 := by rw [h4 1 rfl, ← length_ids]; decide +kernel
  subst e1 e2
  exact ⟨r', _, h1, h7.initial, h7.parameters⟩

/-- The hypotheses of C113 for PMF and ImplicitLogisticPMF hold for `PLSA.exScores`. -/
example : (∃ r', Rec.fitPredictor (pmf exStay) (fun _ => ()) () (Rec.init (some 1) initialResults)
      PLSA.exScores (some [1, 0]) = .ok r') ∧
    ∃ r', Rec.fitImplicit (implicit exStay) (fun _ => ()) () (Rec.init (some 1) initialResults)
      PLSA.exScores.toEventData (some [0, 1]) = .ok r' := by
  obtain ⟨r', _, _, _, _, _, h1, _⟩ :=
    C113_pmf_start exStay (fun _ => ()) () (Rec.init (some 1) initialResults) PLSA.exScores_built (by simp)
      (some [1, 0]) 1 0 rfl (exScores_several 1) (exScores_several 0)
  obtain ⟨r'', _, _, h2, _⟩ :=
    C113_implicit_start exStay (fun _ => ()) () (Rec.init (some 1) initialResults) PLSA.exScores_built.inv.1
      (by simp) rfl rfl (exScores_several 0) (exScores_several 1)
  exact ⟨⟨r', h1⟩, r'', h2⟩

end MF
end Kam
