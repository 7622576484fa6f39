/-
Property theorems of the matrix factorization models, continued: C30, C35-C37, C39.
-/
import Verif.MF.Props

namespace Kam
namespace MF
open scoped BigOperators
open Spec
variable {nu ni k : Nat}

/-! ### C30 -/

/-- What the initial coefficients of the explicit models must satisfy. -/
structure GoodInit (evs : List (Event nu ni)) (v : Views nu ni k) : Prop where
  mu : v.mu * evs.length = (evs.map (·.score)).sum
  bu : ∀ u, (∃ e ∈ evs, e.user = u) →
    v.bu u * (evs.filter (fun e => decide (e.user = u))).length =
      ((evs.filter (fun e => decide (e.user = u))).map (fun e => e.score - v.mu)).sum
  bi : ∀ i, ((evs.filter (fun e => decide (e.item = i))).map
    (fun e => e.score - (v.mu + v.bu e.user + v.bi i))).sum = 0
  unseenUser : ∀ u, (∀ e ∈ evs, e.user ≠ u) → v.bu u = 0 ∧ ∀ f, v.p u f = 0
  unseenItem : ∀ i, (∀ e ∈ evs, e.item ≠ i) → v.bi i = 0 ∧ ∀ f, v.q i f = 0

theorem list_sum_const {β : Type} (l : List β) (a : ℝ) : (l.map (fun _ => a)).sum = a * l.length := by
  induction l with
  | nil => simp
  | cons b l ih => simp only [List.map_cons, List.sum_cons, ih, List.length_cons]; push_cast; ring

theorem mem_mask {β : Type} {n : Nat} (evs : List β) (id : β → Fin n) (j : Fin n) :
    j ∈ mask evs id ↔ ∃ e ∈ evs, id e = j := by
  simp [mask]

theorem scatter_unseen {β : Type} {n k : Nat} (evs : List β) (id : β → Fin n) (z : Nat → Nat → ℝ)
    (j : Fin n) (h : ∀ e ∈ evs, id e ≠ j) (f : Fin k) : scatter (mask evs id) z j f = 0 := by
  unfold scatter
  rw [if_neg]
  rw [mem_mask]
  rintro ⟨e, he, hj⟩
  exact h e he hj

theorem filter_empty {β : Type} {n : Nat} {evs : List β} {id : β → Fin n} {j : Fin n}
    (h : ∀ e ∈ evs, id e ≠ j) : evs.filter (fun e => decide (id e = j)) = [] := by
  rw [List.filter_eq_nil_iff]
  intro e he
  simpa using h e he

theorem goodInit (evs : List (Event nu ni)) (hne : evs ≠ []) (zp zq : Nat → Nat → ℝ) :
    GoodInit (k := k) evs ⟨(initBias evs).1, (initBias evs).2.1, (initBias evs).2.2,
      scatter (mask evs (·.user)) zp, scatter (mask evs (·.item)) zq⟩ := by
  have hlen : (evs.length : ℝ) ≠ 0 := by
    have := List.length_pos_of_ne_nil hne
    positivity
  refine ⟨?_, ?_, ?_, ?_, ?_⟩
  · exact div_mul_cancel₀ _ hlen
  · rintro u ⟨e, he, hu⟩
    have hpos : 0 < (evs.filter (fun e => decide (e.user = u))).length :=
      List.length_pos_of_mem (List.mem_filter.2 ⟨he, by simpa using hu⟩)
    simp only [initBias, if_pos hpos]
    exact div_mul_cancel₀ _ (by positivity)
  · intro i
    have h1 : ∀ l : List (Event nu ni), (l.map (fun e => e.score -
        ((initBias evs).1 + (initBias evs).2.1 e.user + (initBias evs).2.2 i))).sum =
        (l.map (fun e => e.score - ((initBias evs).1 + (initBias evs).2.1 e.user))).sum -
          (initBias evs).2.2 i * l.length := by
      intro l
      rw [← list_sum_const, eq_sub_iff_add_eq, ← list_sum_add]
      congr 1
      apply List.map_congr_left
      intro e _
      ring
    simp only
    rw [h1]
    rcases Nat.eq_zero_or_pos (evs.filter (fun e => decide (e.item = i))).length with h0 | h0
    · have : evs.filter (fun e => decide (e.item = i)) = [] := List.eq_nil_of_length_eq_zero h0
      rw [this]; simp
    · have hb : (initBias evs).2.2 i * (evs.filter (fun e => decide (e.item = i))).length =
        ((evs.filter (fun e => decide (e.item = i))).map
          (fun e => e.score - ((initBias evs).1 + (initBias evs).2.1 e.user))).sum := by
        simp only [initBias, if_pos h0]
        exact div_mul_cancel₀ _ (by positivity)
      rw [hb]; ring
  · intro u hu
    refine ⟨?_, scatter_unseen _ _ _ _ hu⟩
    simp only [initBias]
    rw [filter_empty (id := fun e : Event nu ni => e.user) hu]
    simp
  · intro i hi
    refine ⟨?_, scatter_unseen _ _ _ _ hi⟩
    simp only [initBias]
    rw [filter_empty (id := fun e : Event nu ni => e.item) hi]
    simp

/-- C30: the initial coefficients of PMF (and of LogisticPMF), for every non-empty list of events
and every output of the random generator. -/
theorem C30_initial_coefficients {γ : Type} (R : Rng γ) (g : γ) (evs : List (Event nu ni))
    (hne : evs ≠ []) :
    GoodInit evs (unpack (PMF.initCoef R g k evs).1) ∧
    GoodInit evs (unpack (Logistic.initCoef R g k evs).1) := by
  constructor
  · unfold PMF.initCoef
    simp only
    rw [unpack_pack]
    exact goodInit evs hne _ _
  · unfold Logistic.initCoef
    simp only
    rw [unpack_pack]
    exact goodInit evs hne _ _

/-- C30, the factors: rows of users and items with events are rows of what the generator drew with
mean 0 and the standard deviation of the residuals, each drawn row used for one object. -/
theorem C30_initial_factors {γ : Type} (R : Rng γ) (g : γ) (evs : List (Event nu ni)) :
    ∃ (σ : ℝ) (nU nI : Nat) (ru : Fin nu → Nat) (ri : Fin ni → Nat),
      let zp := (R.normal g 0 σ nU k).1
      let zq := (R.normal (R.normal g 0 σ nU k).2 0 σ nI k).1
      let v := unpack (PMF.initCoef R g k evs).1
      0 ≤ σ ∧
      σ ^ 2 * evs.length = (evs.map (fun e =>
        (e.score - (v.mu + v.bu e.user + v.bi e.item)) ^ 2)).sum ∧
      (∀ u, (∃ e ∈ evs, e.user = u) → ru u < nU ∧ (∀ f, v.p u f = zp (ru u) f) ∧
        ∀ u', ru u = ru u' → u = u') ∧
      (∀ i, (∃ e ∈ evs, e.item = i) → ri i < nI ∧ (∀ f, v.q i f = zq (ri i) f) ∧
        ∀ i', ri i = ri i' → i = i') := by
  have hfold : ∀ (f : Event nu ni → ℝ) (l : List (Event nu ni)) (a : ℝ),
      l.foldl (fun var e => var + f e) a = a + (l.map f).sum := by
    intro f l
    induction l with
    | nil => intro a; simp
    | cons e l ih => intro a; simp only [List.foldl_cons, ih, List.map_cons, List.sum_cons]; ring
  have hidx : ∀ {n : Nat} (l : List (Fin n)) (x y : Fin n), x ∈ l → l.idxOf x = l.idxOf y → x = y := by
    intro n l x y hx h
    have h1 := List.idxOf_lt_length_of_mem hx
    have h2 := h1
    rw [h] at h2
    rw [← List.getElem_idxOf h1, ← List.getElem_idxOf h2]
    simp only [h]
  refine ⟨Real.sqrt ((evs.foldl (fun var e => var + (e.score - ((initBias evs).1 +
    (initBias evs).2.1 e.user + (initBias evs).2.2 e.item)) ^ 2) 0.0) / (evs.length : ℝ)),
    (mask evs (·.user)).length, (mask evs (·.item)).length,
    fun u => (mask evs (·.user)).idxOf u, fun i => (mask evs (·.item)).idxOf i, ?_⟩
  unfold PMF.initCoef
  simp only
  rw [unpack_pack]
  refine ⟨Real.sqrt_nonneg _, ?_, ?_, ?_⟩
  · rw [hfold]
    have hnn : 0 ≤ (evs.map (fun e => (e.score - ((initBias evs).1 + (initBias evs).2.1 e.user +
        (initBias evs).2.2 e.item)) ^ 2)).sum := by
      apply List.sum_nonneg
      simp only [List.mem_map]
      rintro x ⟨e, _, rfl⟩
      positivity
    rw [Real.sq_sqrt (by norm_num; positivity)]
    rcases evs with _ | ⟨e, l⟩
    · simp
    · rw [div_mul_cancel₀]
      · norm_num
      · simp only [List.length_cons]; positivity
  · intro u hu
    refine ⟨List.idxOf_lt_length_of_mem ((mem_mask _ _ _).2 hu), ?_,
      fun u' h => hidx _ u u' ((mem_mask _ _ _).2 hu) h⟩
    intro f
    simp only [scatter]
    rw [if_pos ((mem_mask _ _ _).2 hu)]
  · intro i hi
    refine ⟨List.idxOf_lt_length_of_mem ((mem_mask _ _ _).2 hi), ?_,
      fun i' h => hidx _ i i' ((mem_mask _ _ _).2 hi) h⟩
    intro f
    simp only [scatter]
    rw [if_pos ((mem_mask _ _ _).2 hi)]

/-! ### C35, C36 -/

theorem logistic_loss_eq (C : ℝ) (evs : List (Event nu ni)) (c : Coef nu ni k) :
    Logistic.loss C evs c = (evs.map (fun e =>
      -logLik e.score (safeSigmoid (est (unpack c) e.user e.item)))).sum +
        0.5 * C * reg (unpack c) := by
  have : (evs.map (fun e => -logLik e.score (safeSigmoid (est (unpack c) e.user e.item)))).sum =
      -(evs.map (fun e => logLik e.score (safeSigmoid (est (unpack c) e.user e.item)))).sum := by
    have h := list_sum_mul_left evs (-1)
      (fun e => logLik e.score (safeSigmoid (est (unpack c) e.user e.item)))
    simpa using h
  rw [this]
  rfl

/-- The full statement of C35. -/
def C35_full : Prop := ∀ (nu ni k : Nat) (C : ℝ) (evs : List (Event nu ni)) (c : Coef nu ni k),
  IsGradient (Logistic.loss C evs) (Logistic.gradLoss C evs c) c

/-- C35, the part that holds: the gradient is correct where no event is clipped by `safe_sigmoid`.
Missing: points where an estimate leaves the domain (`C35_clipped_gradient`, `C35_refuted`). -/
theorem C35_logistic_gradient_partial (C : ℝ) (evs : List (Event nu ni)) (c : Coef nu ni k)
    (h : ∀ e ∈ evs, |est (unpack c) e.user e.item| < 34.538776394910684) :
    IsGradient (Logistic.loss C evs) (Logistic.gradLoss C evs c) c := by
  refine ⟨dot (Logistic.gradLoss C evs c), ?_, dot_apply _⟩
  have h := hasFDerivAt_total C evs (fun e x => -logLik e.score (safeSigmoid x))
    (fun e => safeSigmoid (est (unpack c) e.user e.item) - e.score) c (by
      intro e he
      obtain ⟨h1, h2⟩ := abs_lt.1 (h e he)
      exact hasDerivAt_logLoss _ _ h1 h2)
  have e1 : (fun c : Coef nu ni k => (evs.map (fun e =>
      -logLik e.score (safeSigmoid (est (unpack c) e.user e.item)))).sum +
        0.5 * C * reg (unpack c)) = Logistic.loss C evs := by
    funext c; rw [logistic_loss_eq]
  rw [e1] at h
  exact h

/-- What the gradient really is away from the two boundary points: clipped events contribute
nothing.  The code adds `safeSigmoid est - score` for them too. -/
theorem C35_clipped_gradient (C : ℝ) (evs : List (Event nu ni)) (c : Coef nu ni k)
    (h : ∀ e ∈ evs, |est (unpack c) e.user e.item| ≠ 34.538776394910684) :
    IsGradient (Logistic.loss C evs) (Logistic.gradLoss C
      (evs.filter (fun e => decide (|est (unpack c) e.user e.item| < 34.538776394910684))) c) c := by
  refine ⟨_, ?_, dot_apply _⟩
  have h1 := hasFDerivAt_total C evs (fun e x => -logLik e.score (safeSigmoid x))
    (fun e => if |est (unpack c) e.user e.item| < 34.538776394910684 then
      safeSigmoid (est (unpack c) e.user e.item) - e.score else 0) c (by
      intro e he
      split
      · rename_i hlt
        obtain ⟨h1, h2⟩ := abs_lt.1 hlt
        exact hasDerivAt_logLoss _ _ h1 h2
      · rename_i hlt
        have hgt : 34.538776394910684 < |est (unpack c) e.user e.item| :=
          lt_of_le_of_ne (not_lt.1 hlt) (Ne.symm (h e he))
        refine hasDerivAt_logLoss_clipped _ _ ?_
        rcases lt_abs.1 hgt with h2 | h2
        · right; exact h2
        · left; unfold sigmoidDom; linarith)
  have e1 : (fun c : Coef nu ni k => (evs.map (fun e =>
      -logLik e.score (safeSigmoid (est (unpack c) e.user e.item)))).sum +
        0.5 * C * reg (unpack c)) = Logistic.loss C evs := by
    funext c; rw [logistic_loss_eq]
  rw [e1] at h1
  have hsum : ∀ (l : List (Event nu ni)) (P : Event nu ni → Prop) [DecidablePred P]
      (w : Event nu ni → ℝ), (l.map (fun e => if P e then w e else 0)).sum =
        ((l.filter (fun e => decide (P e))).map w).sum := by
    intro l P _ w
    induction l with
    | nil => simp
    | cons e l ih => by_cases hp : P e <;> simp [hp, ih]
  have hbin : ∀ {n : Nat} (id : Event nu ni → Fin n) (P : Event nu ni → Prop) [DecidablePred P]
      (w x : Event nu ni → ℝ) (j : Fin n),
      bincount evs id (fun e => (if P e then w e else 0) * x e) j =
        bincount (evs.filter (fun e => decide (P e))) id (fun e => w e * x e) j := by
    intro n id P _ w x j
    unfold bincount
    have := hsum (evs.filter (fun e => decide (id e = j))) P (fun e => w e * x e)
    have e2 : (fun e => (if P e then w e else 0) * x e) =
        fun e => if P e then w e * x e else 0 := by
      funext e; split <;> simp
    rw [e2, this, List.filter_filter, List.filter_filter]
    congr 2
    apply List.filter_congr
    intro e _
    rw [Bool.and_comm]
  have hbin1 : ∀ {n : Nat} (id : Event nu ni → Fin n) (P : Event nu ni → Prop) [DecidablePred P]
      (w : Event nu ni → ℝ) (j : Fin n),
      bincount evs id (fun e => if P e then w e else 0) j =
        bincount (evs.filter (fun e => decide (P e))) id w j := by
    intro n id P _ w j
    have := hbin id P w (fun _ => 1) j
    simpa using this
  have hg : gradTerms (unpack c) evs (fun e =>
      if |est (unpack c) e.user e.item| < 34.538776394910684 then
        safeSigmoid (est (unpack c) e.user e.item) - e.score else 0) =
      gradTerms (unpack c)
        (evs.filter (fun e => decide (|est (unpack c) e.user e.item| < 34.538776394910684)))
        (fun e => safeSigmoid (est (unpack c) e.user e.item) - e.score) := by
    unfold gradTerms
    ext
    · exact hsum _ _ _
    · exact hbin1 _ _ _ _
    · exact hbin1 _ _ _ _
    · exact hbin _ _ _ _ _
    · exact hbin _ _ _ _ _
  rw [hg] at h1
  exact h1

theorem IsGradient_unique {N : Nat} {f : (Fin N → ℝ) → ℝ} {g g' c : Fin N → ℝ}
    (h : IsGradient f g c) (h' : IsGradient f g' c) : g = g' := by
  obtain ⟨D, h1, h2⟩ := h
  obtain ⟨D', h1', h2'⟩ := h'
  have hD := h1.unique h1'
  funext j
  have e := congrArg (fun D => D (Pi.single j 1)) hD
  simp only [h2, h2'] at e
  simpa [Pi.single_apply] using e

/-- Views with `mu = 40` and zeros elsewhere. -/
noncomputable def exFar : Views 1 1 1 := ⟨40, fun _ => 0, fun _ => 0, fun _ _ => 0, fun _ _ => 0⟩

theorem est_exFar (u : Fin 1) (i : Fin 1) : est exFar u i = 40 := by simp [est, exFar]

/-- C35 is false in general: with `mu = 40` the sigmoid is clipped, the loss does not change with
`mu`, but the gradient returned for `mu` is not zero. -/
theorem C35_refuted : ¬ C35_full := by
  intro hall
  have h1 := hall 1 1 1 0 [⟨0, 0, 1⟩] (pack exFar)
  have h2 := C35_clipped_gradient (k := 1) 0 [⟨(0 : Fin 1), (0 : Fin 1), 1⟩] (pack exFar) (by
    intro e _
    rw [unpack_pack, est_exFar]
    norm_num)
  have h3 := IsGradient_unique h1 h2
  have h4 := congrArg (fun c : Coef 1 1 1 => (unpack c).mu) h3
  unfold Logistic.gradLoss at h4
  simp only [unpack_pack] at h4
  have h5 : ¬ |est exFar (0 : Fin 1) (0 : Fin 1)| < 34.538776394910684 := by
    rw [est_exFar]; norm_num
  simp only [addReg, gradTerms, List.map_cons, List.map_nil, List.sum_cons, List.sum_nil,
    est_exFar, List.filter_cons, List.filter_nil] at h4
  rw [if_neg (by norm_num)] at h4
  simp only [List.map_nil, List.sum_nil, add_zero] at h4
  have := safeSigmoid_lt_one 40
  linarith

example : ∀ e ∈ exBinEvs, |est (unpack (pack ⟨2, fun _ => 1, fun _ => 0, fun _ _ => 3, fun _ _ => 4⟩ :
    Coef 1 1 1)) e.user e.item| < 34.538776394910684 := by
  intro e _
  rw [unpack_pack]
  simp [est]
  norm_num

/-! ### C37 -/

theorem sum_finRange {n : Nat} (f : Fin n → ℝ) : ((List.finRange n).map f).sum = ∑ i, f i := by
  rw [← List.ofFn_eq_map, List.sum_ofFn]

theorem sum_allPairs (m : Fin nu → Fin ni → Nat) (f : Event nu ni → ℝ) :
    ((allPairs m).map f).sum = ∑ u, ∑ i, f ⟨u, i, m u i⟩ := by
  unfold allPairs
  have h : ∀ l : List (Fin nu), ((l.flatMap (fun u => (List.finRange ni).map
      (fun i => (⟨u, i, (m u i : ℝ)⟩ : Event nu ni)))).map f).sum =
      (l.map (fun u => ∑ i, f ⟨u, i, m u i⟩)).sum := by
    intro l
    induction l with
    | nil => rfl
    | cons u l ih =>
      rw [List.flatMap_cons, List.map_append, List.sum_append, ih, List.map_cons, List.sum_cons,
        List.map_map, ← sum_finRange]
      rfl
  rw [h, sum_finRange]

theorem bincount_eq_sum {β : Type} {n : Nat} (evs : List β) (id : β → Fin n) (w : β → ℝ) (j : Fin n) :
    bincount evs id w j = (evs.map (fun e => if id e = j then w e else 0)).sum := by
  induction evs with
  | nil => rfl
  | cons e l ih => rw [bincount_cons, ih, List.map_cons, List.sum_cons]

theorem bincount_allPairs_user (m : Fin nu → Fin ni → Nat) (w : Event nu ni → ℝ) (u : Fin nu) :
    bincount (allPairs m) (·.user) w u = ∑ i, w ⟨u, i, m u i⟩ := by
  rw [bincount_eq_sum, sum_allPairs]
  rw [Finset.sum_eq_single u]
  · simp
  · intro u' _ hu'
    simp [hu']
  · simp

theorem bincount_allPairs_item (m : Fin nu → Fin ni → Nat) (w : Event nu ni → ℝ) (i : Fin ni) :
    bincount (allPairs m) (·.item) w i = ∑ u, w ⟨u, i, m u i⟩ := by
  rw [bincount_eq_sum, sum_allPairs]
  congr 1
  funext u
  simp

theorem implicit_loss_eq (C : ℝ) (m : Implicit.Mat nu ni) (c : Coef nu ni k) :
    Implicit.loss C m c = Logistic.loss C (allPairs m) c := by
  have hf : ∀ (l : List (Fin nu)) (g : Fin nu → ℝ) (a : ℝ),
      l.foldl (fun l u => l - g u) a = a - (l.map g).sum := by
    intro l g
    induction l with
    | nil => intro a; simp
    | cons u l ih => intro a; simp only [List.foldl_cons, ih, List.map_cons, List.sum_cons]; ring
  unfold Implicit.loss Logistic.loss
  simp only
  rw [hf, sum_allPairs, sum_finRange]
  norm_num
  rfl

/-- The accumulated state of the loop of the implicit gradient. -/
theorem gradStep_foldl (m : Implicit.Mat nu ni) (v : Views nu ni k) (l : List (Fin nu)) (hl : l.Nodup)
    (g : Views nu ni k) :
    l.foldl (Implicit.gradStep m v) g =
      { mu := g.mu + (l.map (fun u => ∑ i, (Implicit.esc v u i - (m u i : ℝ)))).sum
        bu := fun u => if u ∈ l then ∑ i, (Implicit.esc v u i - (m u i : ℝ)) else g.bu u
        bi := fun i => g.bi i + (l.map (fun u => Implicit.esc v u i - (m u i : ℝ))).sum
        p := fun u f => if u ∈ l then ∑ i, (Implicit.esc v u i - (m u i : ℝ)) * v.q i f else g.p u f
        q := fun i f => g.q i f +
          (l.map (fun u => (Implicit.esc v u i - (m u i : ℝ)) * v.p u f)).sum } := by
  induction l generalizing g with
  | nil => simp
  | cons u l ih =>
    rw [List.foldl_cons, ih (List.nodup_cons.1 hl).2]
    have hu : u ∉ l := (List.nodup_cons.1 hl).1
    ext
    · simp only [Implicit.gradStep, List.map_cons, List.sum_cons]; ring
    · rename_i x
      by_cases hx : x = u
      · subst hx; simp [hu, Implicit.gradStep]
      · simp [hx, Implicit.gradStep]
    · simp only [Implicit.gradStep, List.map_cons, List.sum_cons]; ring
    · rename_i x f
      by_cases hx : x = u
      · subst hx; simp [hu, Implicit.gradStep]
      · simp [hx, Implicit.gradStep]
    · simp only [Implicit.gradStep, List.map_cons, List.sum_cons]; ring

theorem implicit_grad_eq (C : ℝ) (m : Implicit.Mat nu ni) (c : Coef nu ni k) :
    Implicit.gradLoss C m c = Logistic.gradLoss C (allPairs m) c := by
  unfold Implicit.gradLoss Logistic.gradLoss
  simp only
  congr 2
  rw [gradStep_foldl _ _ _ (List.nodup_finRange nu)]
  unfold gradTerms
  ext
  · simp only [sum_allPairs, sum_finRange, zero_add]; rfl
  · simp only [bincount_allPairs_user, List.mem_finRange, if_true]; rfl
  · simp only [bincount_allPairs_item, sum_finRange, zero_add]; rfl
  · simp only [bincount_allPairs_user, List.mem_finRange, if_true]; rfl
  · simp only [bincount_allPairs_item, sum_finRange, zero_add]; rfl

theorem logistic_perm (C : ℝ) {e1 e2 : List (Event nu ni)} (h : e1.Perm e2) (c : Coef nu ni k) :
    Logistic.loss C e1 c = Logistic.loss C e2 c ∧
      Logistic.gradLoss C e1 c = Logistic.gradLoss C e2 c := by
  constructor
  · unfold Logistic.loss
    simp only
    rw [(h.map _).sum_eq]
  · unfold Logistic.gradLoss
    simp only
    rw [gradTerms_perm _ h]

/-- `evs` lists every user-item pair once, scored by the matrix. -/
def Completes (m : Implicit.Mat nu ni) (evs : List (Event nu ni)) : Prop :=
  (∀ e ∈ evs, e.score = m e.user e.item) ∧
    ∀ u i, (evs.filter (fun e => decide (e.user = u ∧ e.item = i))).length = 1

theorem completes_perm {m : Implicit.Mat nu ni} {evs : List (Event nu ni)} (h : Completes m evs) :
    evs.Perm (allPairs m) := by
  obtain ⟨h1, h2⟩ := h
  have hmem : ∀ e : Event nu ni, e ∈ allPairs m ↔ e.score = m e.user e.item := by
    intro e
    simp only [allPairs, List.mem_flatMap, List.mem_map, List.mem_finRange, true_and]
    constructor
    · rintro ⟨u, i, rfl⟩; rfl
    · intro he; exact ⟨e.user, e.item, by cases e; simp_all⟩
  have hnd : (allPairs m).Nodup := by
    unfold allPairs
    rw [List.nodup_flatMap]
    constructor
    · intro u _
      refine List.Nodup.map ?_ (List.nodup_finRange ni)
      intro i j hij
      simpa using congrArg Event.item hij
    · refine List.Pairwise.imp ?_ (List.nodup_finRange nu)
      intro u u' hne
      simp only [Function.onFun, List.disjoint_left, List.mem_map, List.mem_finRange, true_and]
      rintro e ⟨i, rfl⟩ ⟨j, hj⟩
      exact hne (by simpa using (congrArg Event.user hj).symm)
  have hnd2 : evs.Nodup := by
    classical
    rw [List.nodup_iff_count_le_one]
    intro e
    have h3 := h2 e.user e.item
    rw [← h3, ← List.countP_eq_length_filter, List.count]
    apply List.countP_mono_left
    intro x _ hx
    have : x = e := by simpa using hx
    simp [this]
  rw [List.perm_ext_iff_of_nodup hnd2 hnd]
  intro e
  rw [hmem]
  constructor
  · exact h1 e
  · intro he
    have h3 := h2 e.user e.item
    obtain ⟨e', he'⟩ := List.length_eq_one_iff.1 h3
    have h4 : e' ∈ evs.filter (fun x => decide (x.user = e.user ∧ x.item = e.item)) := by
      rw [he']; simp
    rw [List.mem_filter] at h4
    obtain ⟨h5, h6⟩ := h4
    have h6 : e'.user = e.user ∧ e'.item = e.item := by simpa using h6
    have h7 := h1 e' h5
    have : e' = e := by
      cases e; cases e'; simp_all
    rw [← this]; exact h5

/-- C37: loss and gradient of the implicit model are those of the explicit model on the events that
list every user-item pair once with its matrix entry as score, in any order. -/
theorem C37_implicit_is_explicit (C : ℝ) (m : Implicit.Mat nu ni) (evs : List (Event nu ni))
    (h : Completes m evs) (c : Coef nu ni k) :
    Implicit.loss C m c = Logistic.loss C evs c ∧
      Implicit.gradLoss C m c = Logistic.gradLoss C evs c := by
  obtain ⟨h1, h2⟩ := logistic_perm C (completes_perm h) c
  rw [h1, h2]
  exact ⟨implicit_loss_eq C m c, implicit_grad_eq C m c⟩

example : Completes (nu := 1) (ni := 2) (fun _ i => i.1) [⟨0, 1, 1⟩, ⟨0, 0, 0⟩] := by
  constructor
  · intro e he
    simp only [List.mem_cons, List.not_mem_nil, or_false] at he
    rcases he with rfl | rfl <;> simp
  · intro u i
    fin_cases u
    fin_cases i <;> simp

/-- The full statement of C36. -/
def C36_full : Prop := ∀ (nu ni k : Nat) (C : ℝ) (m : Implicit.Mat nu ni) (c : Coef nu ni k),
  IsGradient (Implicit.loss C m) (Implicit.gradLoss C m c) c

/-- C36, the part that holds: no pair is clipped.  Missing: the clipped region, see `C36_refuted`. -/
theorem C36_implicit_gradient_partial (C : ℝ) (m : Implicit.Mat nu ni) (c : Coef nu ni k)
    (h : ∀ u i, |est (unpack c) u i| < 34.538776394910684) :
    IsGradient (Implicit.loss C m) (Implicit.gradLoss C m c) c := by
  have h1 := C35_logistic_gradient_partial C (allPairs m) c (fun e _ => h e.user e.item)
  rw [implicit_grad_eq]
  have : Implicit.loss C m = Logistic.loss (k := k) C (allPairs m) := by
    funext c; exact implicit_loss_eq C m c
  rw [this]
  exact h1

/-- C36 is false in general, for the same reason as C35. -/
theorem C36_refuted : ¬ C36_full := by
  intro hall
  have h1 := hall 1 1 1 0 (fun _ _ => 1) (pack exFar)
  have h2 := C35_clipped_gradient (k := 1) 0 (allPairs (nu := 1) (ni := 1) (fun _ _ => 1)) (pack exFar)
    (by intro e _; rw [unpack_pack, est_exFar]; norm_num)
  have he : Implicit.loss 0 (fun _ _ => 1) =
      Logistic.loss (k := 1) 0 (allPairs (nu := 1) (ni := 1) (fun _ _ => 1)) := by
    funext c; exact implicit_loss_eq _ _ _
  rw [he] at h1
  have h3 := IsGradient_unique h1 h2
  have h4 := congrArg (fun c : Coef 1 1 1 => (unpack c).mu) h3
  rw [implicit_grad_eq] at h4
  unfold Logistic.gradLoss at h4
  simp only [unpack_pack] at h4
  have hl : allPairs (nu := 1) (ni := 1) (fun _ _ => 1) = [⟨0, 0, 1⟩] := by
    simp [allPairs, List.finRange_succ]
  rw [hl] at h4
  simp only [addReg, gradTerms, List.map_cons, List.map_nil, List.sum_cons, List.sum_nil,
    est_exFar, List.filter_cons, List.filter_nil] at h4
  rw [if_neg (by norm_num)] at h4
  simp only [List.map_nil, List.sum_nil, add_zero] at h4
  have := safeSigmoid_lt_one 40
  linarith

/-! ### C39 -/

theorem logLik_nonpos {s x : ℝ} (hs : s = 0 ∨ s = 1) (h0 : 0 < x) (h1 : x < 1) : logLik s x ≤ 0 := by
  unfold logLik
  rcases hs with rfl | rfl
  · have := Real.log_nonpos (x := 1 - x) (by linarith) (by linarith)
    linarith
  · have := Real.log_nonpos (x := x) (by linarith) (by linarith)
    linarith

/-- C39: the losses of the logistic models are not negative for 0/1 scores and `C ≥ 0`, and every
prediction lies strictly between 0 and 1. -/
theorem C39_logistic_loss_and_range (C : ℝ) (hC : 0 ≤ C) :
    (∀ (evs : List (Event nu ni)) (c : Coef nu ni k), (∀ e ∈ evs, e.score = 0 ∨ e.score = 1) →
      0 ≤ Logistic.loss C evs c) ∧
    (∀ (m : Implicit.Mat nu ni) (c : Coef nu ni k), (∀ u i, m u i = 0 ∨ m u i = 1) →
      0 ≤ Implicit.loss C m c) ∧
    (∀ (θ : Params) (rows : List (List Int)) (ys : List ℝ), rawPredict safeSigmoid θ rows = .ok ys →
      ys.length = rows.length ∧ ∀ y ∈ ys, 0 < y ∧ y < 1) := by
  have hlog : ∀ (evs : List (Event nu ni)) (c : Coef nu ni k),
      (∀ e ∈ evs, e.score = 0 ∨ e.score = 1) → 0 ≤ Logistic.loss C evs c := by
    intro evs c hb
    rw [logistic_loss_eq]
    have h1 : 0 ≤ (evs.map (fun e =>
        -logLik e.score (safeSigmoid (est (unpack c) e.user e.item)))).sum := by
      apply List.sum_nonneg
      simp only [List.mem_map]
      rintro x ⟨e, he, rfl⟩
      have := logLik_nonpos (hb e he) (safeSigmoid_pos (est (unpack c) e.user e.item))
        (safeSigmoid_lt_one _)
      linarith
    have h2 : 0 ≤ reg (unpack c) := by unfold reg; positivity
    positivity
  refine ⟨hlog, ?_, ?_⟩
  · intro m c hb
    rw [implicit_loss_eq]
    apply hlog
    intro e he
    simp only [allPairs, List.mem_flatMap, List.mem_map, List.mem_finRange, true_and] at he
    obtain ⟨u, i, rfl⟩ := he
    rcases hb u i with h | h <;> simp [h]
  · intro θ rows ys h
    refine ⟨mapM_ok_length h, ?_⟩
    unfold rawPredict at h
    rw [mapM_ok_iff] at h
    intro y hy
    obtain ⟨row, _, hr⟩ : ∃ row ∈ rows, (rawScore θ row).map safeSigmoid = .ok y := by
      clear * - h hy
      induction h with
      | nil => cases hy
      | cons h1 h2 ih =>
        rcases List.mem_cons.1 hy with rfl | hy
        · exact ⟨_, by simp, h1⟩
        · obtain ⟨row, hr, he⟩ := ih hy
          exact ⟨row, by simp [hr], he⟩
    cases hx : rawScore θ row with
    | error e => rw [hx] at hr; cases hr
    | ok x =>
      rw [hx] at hr
      cases hr
      exact ⟨safeSigmoid_pos _, safeSigmoid_lt_one _⟩

end MF
end Kam
