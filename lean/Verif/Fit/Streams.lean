/-
C157: how many random numbers the classes of recommenders draw.
-/
import Verif.Rec.StreamsProps
import Verif.Fit.Start
import Verif.Fit.Tolerance

set_option linter.unusedSectionVars false

namespace Kam
open scoped BigOperators
open Spec

/-! ### Model -/

/-- The state in which `fit` of PMF or LogisticPMF leaves the generator: `_init_coef` draws if it gets that far, after it has stored the
biases (score_predictor/matrix_factorization.py:202-207, item_finder/matrix_factorization.py:205-209), and nothing after it draws
(score_predictor/matrix_factorization.py:336-396, item_finder/matrix_factorization.py:344-404). -/
noncomputable def MF.leftExplicit {γ : Type} (cf : MF.Config γ)
    (initCoef : ∀ nu ni : Nat, γ → List (MF.Event nu ni) → MF.Coef nu ni cf.k × γ) (v : View ℝ γ) (g : γ) : γ :=
  match npGet v.nObjects 0, npGet v.nObjects 1, v.score with
  | .ok nu, .ok ni, some sc =>
    match MF.parseEvents nu ni v.event sc, MF.allocate nu ni with
    | .ok evs, .ok _ => (initCoef nu ni g evs).2
    | _, _ => g
  | _, _, _ => g

/-- The same for ImplicitLogisticPMF (item_finder/matrix_factorization.py:566-572). -/
noncomputable def MF.leftImplicit {γ : Type} (cf : MF.Config γ) (v : View ℝ γ) (g : γ) : γ :=
  match getEventArray v with
  | .ok (m, [nu, ni]) =>
    match MF.allocate nu ni with
    | .ok _ => (MF.Implicit.initCoef cf.rng g cf.k (MF.matOf nu ni m)).2
    | .error _ => g
  | _ => g

/-- The loop over the events of `_init_params` (score_predictor/topic_model.py:166-168): a digitized score without a row of `a` ends it
with `IndexError`. -/
noncomputable def PLSA.drawLoop {γ : Type} (R : PLSA.Rng γ) (k nl : Nat) : γ → List Int → γ
  | g, [] => g
  | g, x :: xs =>
    match MF.toFin nl x with
    | .ok r => PLSA.drawLoop R k nl (R.dirichlet g (PLSA.initAlpha nl k r)).2 xs
    | .error _ => g

/-- The state in which `fit` of MultinomialPLSA leaves the generator (score_predictor/topic_model.py:242-320; only `_init_params`, line
247, draws, after the score levels in line 244 and the digitized scores in line 246). -/
noncomputable def PLSA.left {γ : Type} (cf : PLSA.Config γ) (v : View ℝ γ) (g : γ) : γ :=
  match v.score, v.scoreDomain, v.nScoreLevels with
  | some sc, some dom, some nl =>
    match (do npLinspace (← npGet dom 0) (← npGet dom 1) nl : Res (List ℝ)), PLSA.digitize dom sc with
    | .ok _, .ok ds => PLSA.drawLoop cf.rng cf.k nl.toNat g ds
    | _, _ => g
  | _, _, _ => g

/-! ### Specification -/

/-- The number of distinct ids in a column of the events. -/
def Spec.distinct {α : Type} [DecidableEq α] (rows : List (List α)) (c : Nat) : Nat := (rows.filterMap (·[c]?)).toFinset.card

/-- Two draws one after the other, of a row of `k` numbers for each user and for each item with events. -/
def MF.TwoDraws {γ : Type} (R : MF.Rng γ) (k : Nat) (σ : ℝ) (users items : Nat) (g g' : γ) : Prop :=
  g' = (R.normal (R.normal g 0 σ users k).2 0 σ items k).2

/-- One draw for each event in order, with the preferred topics of the level of its score. -/
def PLSA.DrawPerEvent {γ : Type} {nu ni nl : Nat} (R : PLSA.Rng γ) (k : Nat) (evl : List (PLSA.Ev nu ni nl)) (g g' : γ) : Prop :=
  ∃ state : Nat → γ, state 0 = g ∧ state evl.length = g' ∧
    ∀ (j : Nat) (e : PLSA.Ev nu ni nl), evl[j]? = some e → state (j + 1) = (R.dirichlet (state j) (PLSA.preferred nl k e.level)).2

namespace MF
open Streams
variable {α φ ε γ : Type} [LinearOrder α]

/-! ### Lemmas -/

lemma card_column {ot : List Nat} {rows : List (List α)} {n c t : Nat} (hc : ot[c]? = some t) (S : Finset (Fin n))
    (hS : ∀ j : Nat, (∃ x ∈ S, x.1 = j) ↔ ∃ row ∈ rows, ∃ x, row[c]? = some x ∧ j = rank ot rows t x) : S.card = distinct rows c := by
  have h1 : S.image Fin.val = (rows.filterMap (·[c]?)).toFinset.image (rank ot rows t) := by
    ext j
    simp only [Finset.mem_image, List.mem_toFinset, List.mem_filterMap]
    rw [hS j]
    constructor
    · rintro ⟨row, hr, x, hx, rfl⟩; exact ⟨x, ⟨row, hr, hx⟩, rfl⟩
    · rintro ⟨x, ⟨row, hr, hx⟩, rfl⟩; exact ⟨row, hr, x, hx, rfl⟩
  have h2 : (S.image Fin.val).card = S.card := Finset.card_image_of_injective _ Fin.val_injective
  have h3 : ((rows.filterMap (·[c]?)).toFinset.image (rank ot rows t)).card = (rows.filterMap (·[c]?)).toFinset.card := by
    apply Finset.card_image_of_injOn
    intro x hx y hy hxy
    simp only [Finset.mem_coe, List.mem_toFinset, List.mem_filterMap] at hx hy
    obtain ⟨r1, hr1, hx⟩ := hx
    obtain ⟨r2, hr2, hy⟩ := hy
    exact rank_inj ⟨r1, hr1, c, hc, hx⟩ ⟨r2, hr2, c, hc, hy⟩ hxy
  rw [← h2, h1, h3, distinct]

lemma card_withEvents {d : EventData α φ ε} {rows : List (List α)} {sc : List ℝ} {c₀ c₁ nu ni : Nat} {evs : List (Event nu ni)}
    (ht : TrainedOn d rows sc c₀ c₁ evs) (hsc : sc.length = rows.length) :
    (withEvents evs (·.user)).card = distinct rows c₀ ∧ (withEvents evs (·.item)).card = distinct rows c₁ := by
  obtain ⟨hlen, hev⟩ := ht
  by_cases hne : rows = []
  · subst hne
    have : evs = [] := List.length_eq_zero_iff.1 hlen
    subst this
    exact ⟨rfl, rfl⟩
  obtain ⟨row0, hrow0⟩ := List.exists_mem_of_ne_nil _ hne
  have pair : ∀ j : Nat, j < rows.length → ∃ row e, row ∈ rows ∧ e ∈ evs ∧ rows[j]? = some row ∧ evs[j]? = some e ∧
      PairOf d.eventOtypes rows c₀ c₁ row e.user e.item := by
    intro j hj
    obtain ⟨e, he, hp, _⟩ := hev j _ _ (List.getElem?_eq_getElem hj) (List.getElem?_eq_getElem (by omega))
    exact ⟨_, e, List.getElem_mem hj, List.mem_of_getElem? he, List.getElem?_eq_getElem hj, he, hp⟩
  obtain ⟨_, _, _, _, _, _, t₀, t₁, _, _, ht₀, ht₁, _⟩ := pair 0 (List.length_pos_iff.2 hne)
  constructor
  · refine card_column ht₀ _ (fun j => ⟨?_, ?_⟩)
    · rintro ⟨u, hu, rfl⟩
      obtain ⟨e, he, rfl⟩ := (mem_withEvents _ _ _).1 hu
      obtain ⟨n, hn⟩ := List.mem_iff_getElem?.1 he
      obtain ⟨row, e', hr, _, _, he', s₀, s₁, x, y, hs₀, _, hx, _, hux, _⟩ := pair n (by rw [← hlen]; exact (List.getElem?_eq_some_iff.1 hn).1)
      rw [hn] at he'; cases he'
      rw [ht₀] at hs₀; cases hs₀
      exact ⟨row, hr, x, hx, hux⟩
    · rintro ⟨row, hr, x, hx, rfl⟩
      obtain ⟨n, hn⟩ := List.mem_iff_getElem?.1 hr
      obtain ⟨row', e, _, he, hr', _, s₀, s₁, x', y, hs₀, _, hx', _, hux, _⟩ := pair n (List.getElem?_eq_some_iff.1 hn).1
      rw [hn] at hr'; cases hr'
      rw [ht₀] at hs₀; cases hs₀
      rw [hx] at hx'; cases hx'
      exact ⟨e.user, (mem_withEvents _ _ _).2 ⟨e, he, rfl⟩, hux⟩
  · refine card_column ht₁ _ (fun j => ⟨?_, ?_⟩)
    · rintro ⟨u, hu, rfl⟩
      obtain ⟨e, he, rfl⟩ := (mem_withEvents _ _ _).1 hu
      obtain ⟨n, hn⟩ := List.mem_iff_getElem?.1 he
      obtain ⟨row, e', hr, _, _, he', s₀, s₁, x, y, _, hs₁, _, hy, _, hiy⟩ := pair n (by rw [← hlen]; exact (List.getElem?_eq_some_iff.1 hn).1)
      rw [hn] at he'; cases he'
      rw [ht₁] at hs₁; cases hs₁
      exact ⟨row, hr, y, hy, hiy⟩
    · rintro ⟨row, hr, y, hy, rfl⟩
      obtain ⟨n, hn⟩ := List.mem_iff_getElem?.1 hr
      obtain ⟨row', e, _, he, hr', _, s₀, s₁, x, y', _, hs₁, _, hy', _, hiy⟩ := pair n (List.getElem?_eq_some_iff.1 hn).1
      rw [hn] at hr'; cases hr'
      rw [ht₁] at hs₁; cases hs₁
      rw [hy] at hy'; cases hy'
      exact ⟨e.item, (mem_withEvents _ _ _).2 ⟨e, he, rfl⟩, hiy⟩

lemma pmf_residualDev {nu ni k : Nat} (R : Rng γ) (g : γ) (evs : List (Event nu ni)) :
    ResidualDev evs (unpack (PMF.initCoef R g k evs).1) (Real.sqrt ((evs.foldl (fun var e => var + (e.score - ((initBias evs).1 +
      (initBias evs).2.1 e.user + (initBias evs).2.2 e.item)) ^ 2) 0.0) / (evs.length : ℝ))) := by
  have hfold : ∀ (f : Event nu ni → ℝ) (l : List (Event nu ni)) (a : ℝ), l.foldl (fun var e => var + f e) a = a + (l.map f).sum := by
    intro f l
    induction l with
    | nil => intro a; simp
    | cons e l ih => intro a; simp only [List.foldl_cons, ih, List.map_cons, List.sum_cons]; ring
  unfold PMF.initCoef
  simp only
  rw [unpack_pack]
  refine ⟨Real.sqrt_nonneg _, ?_⟩
  have hs : 0 ≤ (evs.map (fun e => (e.score - ((initBias evs).1 + (initBias evs).2.1 e.user + (initBias evs).2.2 e.item)) ^ 2)).sum := by
    apply List.sum_nonneg
    intro x hx
    obtain ⟨e, _, rfl⟩ := List.mem_map.1 hx
    positivity
  rw [hfold]
  rw [Real.sq_sqrt (div_nonneg (by norm_num; exact hs) (Nat.cast_nonneg _))]
  rcases evs with _ | ⟨e, evs⟩
  · simp
  · rw [div_mul_cancel₀ _ (by simp only [List.length_cons]; positivity)]
    norm_num

lemma left_total {cf : Config γ} (ic : ∀ nu ni : Nat, γ → List (Event nu ni) → Coef nu ni cf.k × γ)
    {d : EventData α φ ε} {rows : List (List α)} {sc : List ℝ} {c₀ c₁ nu ni : Nat}
    {v : View ℝ γ} (hv : SeesPairs v d rows c₀ c₁ nu ni) (hs : v.score = some sc) (hsc : sc.length = rows.length) :
    ∃ evs : List (Event nu ni), TrainedOn d rows sc c₀ c₁ evs ∧
      ∀ g, (nu ≠ 1 → ni ≠ 1 → leftExplicit cf ic v g = (ic nu ni g evs).2) ∧ (nu = 1 ∨ ni = 1 → leftExplicit cf ic v g = g) := by
  obtain ⟨evs, hp, ht⟩ := parseEvents_total hv hsc
  refine ⟨evs, ht, fun g => ⟨fun hu hi => ?_, fun h1 => ?_⟩⟩
  · simp only [leftExplicit, hv.users, hv.items, hs, hp, allocate_ok hu hi]
  · simp only [leftExplicit, hv.users, hv.items, hs, hp, allocate_one h1]

lemma stream_of_fit {θ V : Type} {S : Setup ℝ γ θ V} {w : World ℝ α φ ε γ θ V} {i : Nat} (hs : (w.recs i).seed = none)
    {d : ScoreData ℝ α φ ε} {idx : Option (List Int)} {r1 : Rec ℝ α φ ε γ θ V}
    (h : superAs (S.kind i) S.seeded (w.streams (S.handle i)) (w.recs i) d idx = .ok r1) :
    (step S w (.fit i d idx)).streams (S.handle i) = S.left i r1.view (w.streams (S.handle i)) := by
  simp only [step, hs, Option.isSome_none, Bool.false_eq_true, if_false, Function.update_self, afterFit, h]

/-! ### C157 -/

/-- C157 for PMF: `fit` of a recommender without an integer seed advances its generator by a draw for the users and one for the items that
occur in the events, with the deviation of the residuals of the biases. -/
theorem C157_pmf (cf : Config γ) (S : Setup ℝ γ Params Val) (w : World ℝ α φ ε γ Params Val) (i : Nat)
    (hk : S.kind i = .predictor) (hL : S.left i = leftExplicit cf (fun _ _ g evs => PMF.initCoef cf.rng g cf.k evs))
    (hs : (w.recs i).seed = none) {d : ScoreData ℝ α φ ε} {rows : List (List α)} {sc : List ℝ} (h : ScoreBuilt d rows sc)
    (hne : rows ≠ []) (idx : Option (List Int)) (c₀ c₁ : Nat) (hjs : columnsOf d.toEventData idx = .ok [c₀, c₁])
    (hsu : Several d.eventOtypes rows c₀) (hsi : Several d.eventOtypes rows c₁) :
    ∃ (nu ni : Nat) (evs : List (Event nu ni)) (v : Views nu ni cf.k) (σ : ℝ), TrainedOn d.toEventData rows sc c₀ c₁ evs ∧
      GoodInit evs v ∧ ResidualDev evs v σ ∧
      TwoDraws cf.rng cf.k σ (distinct rows c₀) (distinct rows c₁) (w.streams (S.handle i))
        ((step S w (.fit i d idx)).streams (S.handle i)) := by
  obtain ⟨hb, hsc, hl, _⟩ := h.inv
  obtain ⟨nu, ni, hv, hn1, hn2⟩ := view_sees S.seeded (w.streams (S.handle i)) (w.recs i) hb idx c₀ c₁ hjs
  have hfit := eventFit_eq S.seeded (w.streams (S.handle i)) (w.recs i) hb.holds idx _ hjs
  have hv' : SeesPairs (Rec.setScoreInfo (fittedInfo S.seeded (w.streams (S.handle i)) (w.recs i) d.toEventData rows idx [c₀, c₁]) d).view
      d.toEventData rows c₀ c₁ nu ni := ⟨hv.users, hv.items, hv.rng, hv.length, hv.rows⟩
  obtain ⟨evs, ht, hleft⟩ := left_total (cf := cf) (fun _ _ g evs => PMF.initCoef cf.rng g cf.k evs) hv' hsc hl
  have hevs : evs ≠ [] := by
    intro he
    rw [he] at ht
    exact hne (List.length_eq_zero_iff.1 ht.1.symm)
  have hsup : superAs (S.kind i) S.seeded (w.streams (S.handle i)) (w.recs i) d idx =
      .ok (Rec.setScoreInfo (fittedInfo S.seeded (w.streams (S.handle i)) (w.recs i) d.toEventData rows idx [c₀, c₁]) d) := by
    rw [hk]
    simp only [superAs, Rec.predictorSuperFit, hfit]
  have hst := stream_of_fit hs hsup
  rw [hL, (hleft _).1 (several_ne hb.holds hjs (by simp) hn1 hsu) (several_ne hb.holds hjs (by simp) hn2 hsi)] at hst
  obtain ⟨e1, e2⟩ := card_withEvents ht hl
  refine ⟨nu, ni, evs, unpack (PMF.initCoef cf.rng (w.streams (S.handle i)) cf.k evs).1,
    Real.sqrt ((evs.foldl (fun var e => var + (e.score - ((initBias evs).1 +
    (initBias evs).2.1 e.user + (initBias evs).2.2 e.item)) ^ 2) 0.0) / (evs.length : ℝ)), ht,
    (C30_initial_coefficients cf.rng _ evs hevs).1, ?_, ?_⟩
  · exact pmf_residualDev cf.rng _ evs
  · rw [TwoDraws, hst, ← e1, ← e2, ← length_mask, ← length_mask]
    rfl

/-- C157 for LogisticPMF on two-class binary data: the same, with deviation 1. -/
theorem C157_logistic (cf : Config γ) (S : Setup ℝ γ Params Val) (w : World ℝ α φ ε γ Params Val) (i : Nat)
    (hk : S.kind i = .explicit) (hL : S.left i = leftExplicit cf (fun _ _ g evs => Logistic.initCoef cf.rng g cf.k evs))
    (hs : (w.recs i).seed = none) {d : ScoreData ℝ α φ ε} {rows : List (List α)} {sc : List ℝ} (h : ScoreBuilt d rows sc)
    (hdom : d.scoreDomain = some [0, 1, 1]) (hlev : d.nScoreLevels = some 2)
    (hbin : ∀ s ∈ sc, s = 0 ∨ s = 1) (h0 : 0 ∈ sc) (h1 : 1 ∈ sc)
    (idx : Option (List Int)) (c₀ c₁ : Nat) (hjs : columnsOf d.toEventData idx = .ok [c₀, c₁])
    (hsu : Several d.eventOtypes rows c₀) (hsi : Several d.eventOtypes rows c₁) :
    TwoDraws cf.rng cf.k 1 (distinct rows c₀) (distinct rows c₁) (w.streams (S.handle i))
      ((step S w (.fit i d idx)).streams (S.handle i)) := by
  obtain ⟨hb, hsc, hl, _⟩ := h.inv
  obtain ⟨nu, ni, hv, hn1, hn2⟩ := view_sees S.seeded (w.streams (S.handle i)) (w.recs i) hb idx c₀ c₁ hjs
  have hfit := eventFit_eq S.seeded (w.streams (S.handle i)) (w.recs i) hb.holds idx _ hjs
  have hv' : SeesPairs (Rec.setScoreInfo (fittedInfo S.seeded (w.streams (S.handle i)) (w.recs i) d.toEventData rows idx [c₀, c₁]) d).view
      d.toEventData rows c₀ c₁ nu ni := ⟨hv.users, hv.items, hv.rng, hv.length, hv.rows⟩
  obtain ⟨evs, ht, hleft⟩ := left_total (cf := cf) (fun _ _ g evs => Logistic.initCoef cf.rng g cf.k evs) hv' hsc hl
  have hacc : acceptsBinary d = true := (acceptsBinary_iff d).2 ⟨hdom, hlev, sc, hsc, hbin, h0, h1⟩
  have hsup : superAs (S.kind i) S.seeded (w.streams (S.handle i)) (w.recs i) d idx =
      .ok (Rec.setScoreInfo (fittedInfo S.seeded (w.streams (S.handle i)) (w.recs i) d.toEventData rows idx [c₀, c₁]) d) := by
    rw [hk]
    simp only [superAs, Rec.explicitSuperFit, hfit, hacc, if_true]
  have hst := stream_of_fit hs hsup
  rw [hL, (hleft _).1 (several_ne hb.holds hjs (by simp) hn1 hsu) (several_ne hb.holds hjs (by simp) hn2 hsi)] at hst
  obtain ⟨e1, e2⟩ := card_withEvents ht hl
  rw [TwoDraws, hst, ← e1, ← e2, ← length_mask, ← length_mask]
  rfl

/-- C157 for ImplicitLogisticPMF: a row for every user and item of the data. -/
theorem C157_implicit (cf : Config γ) (S : Setup ℝ γ Params Val) (w : World ℝ α φ ε γ Params Val) (i : Nat)
    (hk : S.kind i = .implicit) (hL : S.left i = leftImplicit cf)
    (hs : (w.recs i).seed = none) {d : ScoreData ℝ α φ ε} {rows : List (List α)} (h : Built d.toEventData rows)
    (h0 : d.eventOtypes[0]? = some 0) (h1 : d.eventOtypes[1]? = some 1)
    (hsu : Several d.eventOtypes rows 0) (hsi : Several d.eventOtypes rows 1) :
    TwoDraws cf.rng cf.k 1 (count d.eventOtypes rows 0) (count d.eventOtypes rows 1) (w.streams (S.handle i))
      ((step S w (.fit i d (some [0, 1]))).streams (S.handle i)) := by
  have hd := h.holds
  have hlen : d.eventOtypes.length = d.sEvent := hd.wf.len_otypes
  have h1lt : 1 < d.eventOtypes.length := (List.getElem?_eq_some_iff.1 h1).1
  have hjs : columnsOf d.toEventData (some [0, 1]) = .ok [0, 1] :=
    positions_nat [0, 1] d.sEvent (by simp; omega)
  have hfit := eventFit_eq S.seeded (w.streams (S.handle i)) (w.recs i) hd _ _ hjs
  obtain ⟨m, hm, _⟩ := C38_counts_partial S.seeded (w.streams (S.handle i)) (w.recs i) h h0 h1 hfit
  have hsup : superAs (S.kind i) S.seeded (w.streams (S.handle i)) (w.recs i) d (some [0, 1]) =
      .ok (fittedInfo S.seeded (w.streams (S.handle i)) (w.recs i) d.toEventData rows (some [0, 1]) [0, 1]) := by
    rw [hk]
    exact hfit
  rw [TwoDraws, stream_of_fit hs hsup, hL]
  simp only [leftImplicit, hm, allocate_ok (hsu 0 h0) (hsi 1 h1)]
  rfl

/-- C157: with one user or one item PMF raises `TypeError` before it draws anything. -/
theorem C157_pmf_one (cf : Config γ) (S : Setup ℝ γ Params Val) (w : World ℝ α φ ε γ Params Val) (i : Nat)
    (hk : S.kind i = .predictor) (hL : S.left i = leftExplicit cf (fun _ _ g evs => PMF.initCoef cf.rng g cf.k evs))
    {d : ScoreData ℝ α φ ε} {rows : List (List α)} {sc : List ℝ} (h : ScoreBuilt d rows sc)
    (idx : Option (List Int)) (c₀ c₁ t : Nat) (hjs : columnsOf d.toEventData idx = .ok [c₀, c₁])
    (ht : d.eventOtypes[c₀]? = some t ∨ d.eventOtypes[c₁]? = some t) (hone : count d.eventOtypes rows t = 1) :
    (step S w (.fit i d idx)).streams = w.streams := by
  obtain ⟨hb, hsc, hl, _⟩ := h.inv
  obtain ⟨nu, ni, hv, hn1, hn2⟩ := view_sees S.seeded (w.streams (S.handle i)) (w.recs i) hb idx c₀ c₁ hjs
  have hfit := eventFit_eq S.seeded (w.streams (S.handle i)) (w.recs i) hb.holds idx _ hjs
  have hv' : SeesPairs (Rec.setScoreInfo (fittedInfo S.seeded (w.streams (S.handle i)) (w.recs i) d.toEventData rows idx [c₀, c₁]) d).view
      d.toEventData rows c₀ c₁ nu ni := ⟨hv.users, hv.items, hv.rng, hv.length, hv.rows⟩
  obtain ⟨evs, _, hleft⟩ := left_total (cf := cf) (fun _ _ g evs => PMF.initCoef cf.rng g cf.k evs) hv' hsc hl
  have hsup : superAs (S.kind i) S.seeded (w.streams (S.handle i)) (w.recs i) d idx =
      .ok (Rec.setScoreInfo (fittedInfo S.seeded (w.streams (S.handle i)) (w.recs i) d.toEventData rows idx [c₀, c₁]) d) := by
    rw [hk]
    simp only [superAs, Rec.predictorSuperFit, hfit]
  have hl1 := (hleft (w.streams (S.handle i))).2 (by
    rcases ht with ht | ht
    · exact .inl ((hn1 _ ht).trans hone)
    · exact .inr ((hn2 _ ht).trans hone))
  simp only [step, afterFit, hsup, hL, hl1, Function.update_eq_self, ite_self]

/-- A generator that counts the numbers drawn. -/
noncomputable def exCounting : Config Nat where
  C := 1
  k := 3
  method := "CG"
  kwargs := []
  opt := fun _ f _ x0 _ _ => ⟨x0, true, 0, "", f x0, 1, 1, 1⟩
  rng := ⟨fun g _ _ n k => (fun _ _ => g, g + n * k)⟩

/-- LogisticPMF with numpy's generator, everything else PMF. -/
noncomputable def exSetup : Setup ℝ Nat Params Val where
  kind i := if i = 0 then .explicit else .predictor
  learner i := if i = 0 then logistic exCounting else pmf exCounting
  left i := if i = 0 then leftExplicit exCounting (fun _ _ g evs => Logistic.initCoef exCounting.rng g exCounting.k evs)
    else leftExplicit exCounting (fun _ _ g evs => PMF.initCoef exCounting.rng g exCounting.k evs)
  handle _ := 0
  seeded _ := 0

/-- Recommender 0 has no seed, the others have 7. -/
def exWorld : World ℝ Nat Nat Nat Nat Params Val where
  streams _ := 0
  recs i := Rec.init (if i = 0 then none else some 7) initialResults

/-- Two fits on two users and two items, with 3 factors: 12 numbers each, whatever a seeded recommender does in between. -/
example : (exec exSetup exWorld [.fit 0 PLSA.exScores none, .fit 1 PLSA.exScores none, .fit 0 PLSA.exScores none]).streams 0 = 24 := by
  have hx : ∀ w : World ℝ Nat Nat Nat Nat Params Val, (w.recs 0).seed = none →
      (step exSetup w (.fit 0 PLSA.exScores none)).streams 0 = w.streams 0 + 12 := by
    intro w hw
    have h := C157_logistic exCounting exSetup w 0 rfl rfl hw PLSA.exScores_built rfl rfl (by simp) (by simp) (by simp) none 0 1 rfl
      (exScores_several 0) (exScores_several 1)
    have h' : (step exSetup w (.fit 0 PLSA.exScores none)).streams 0 = _ := h
    rw [h']
    have d0 : distinct [[1, 10], [2, 20]] 0 = 2 := by decide
    have d1 : distinct [[1, 10], [2, 20]] 1 = 2 := by decide
    rw [d0, d1]
    rfl
  show (step exSetup (step exSetup (step exSetup exWorld (.fit 0 PLSA.exScores none)) (.fit 1 PLSA.exScores none))
    (.fit 0 PLSA.exScores none)).streams 0 = 24
  have s0 : (((step exSetup (step exSetup exWorld (.fit 0 PLSA.exScores none)) (.fit 1 PLSA.exScores none))).recs 0).seed = none :=
    exec_seed exSetup [.fit 0 PLSA.exScores none, .fit 1 PLSA.exScores none] exWorld 0
  have s1 : ((step exSetup exWorld (.fit 0 PLSA.exScores none)).recs 1).seed = some 7 :=
    exec_seed exSetup [.fit 0 PLSA.exScores none] exWorld 1
  rw [hx _ s0, C157_seeded_draws_nothing exSetup _ s1]
  rw [hx _ rfl]
  rfl

/-- The case of C157_pmf_one: the single item 10. -/
example : (step exSetup exWorld (.fit 2 exOneItem none)).streams = exWorld.streams :=
  C157_pmf_one exCounting exSetup exWorld 2 rfl rfl exOneItem_built none 0 1 1 rfl (.inr rfl) exOneItem_count

/-- The hypotheses of C157_pmf and C157_implicit. -/
example : ScoreBuilt PLSA.exScores [[1, 10], [2, 20]] [0, 1] ∧ columnsOf PLSA.exScores.toEventData none = .ok [0, 1] ∧
    PLSA.exScores.eventOtypes[0]? = some 0 ∧ PLSA.exScores.eventOtypes[1]? = some 1 :=
  ⟨PLSA.exScores_built, rfl, rfl, rfl⟩

/-- A recommender without an integer seed depends on what was drawn before: the case that C157_seeded excludes. -/
example : (step exSetup exWorld (.draw 0 (· + 5))).streams 0 = 5 := rfl

end MF

namespace PLSA
open Streams
variable {α φ ε γ : Type} [LinearOrder α]

lemma drawLoop_all {nu ni nl : Nat} (R : Rng γ) (k : Nat) (evl : List (Ev nu ni nl)) (g : γ) :
    DrawPerEvent R k evl g (drawLoop R k nl g (evl.map (fun e => (e.level.1 : Int)))) := by
  induction evl generalizing g with
  | nil => exact ⟨fun _ => g, rfl, rfl, by intro j e h; simp at h⟩
  | cons a l ih =>
    obtain ⟨st, h0, h1, h2⟩ := ih (R.dirichlet g (initAlpha nl k a.level)).2
    have hpref : initAlpha nl k a.level = preferred nl k a.level := by
      funext z
      unfold initAlpha preferred
      split <;> norm_num
    have hf : MF.toFin nl (a.level.1 : Int) = .ok a.level := by
      unfold MF.toFin; rw [dif_pos (by have := a.level.2; omega)]; rfl
    refine ⟨fun j => match j with | 0 => g | j + 1 => st j, rfl, ?_, ?_⟩
    · simp only [List.length_cons, List.map_cons, drawLoop, hf]
      exact h1
    · intro j e hj
      cases j with
      | zero =>
        simp only [List.getElem?_cons_zero, Option.some.injEq] at hj
        subst hj
        simp only [h0, hpref]
      | succ j => exact h2 j e (by simpa using hj)

/-- C157 for MultinomialPLSA on loaded data over a regular score domain: one draw per event, in order. -/
theorem C157_plsa (cf : Config γ) (hk0 : 0 < cf.k) (S : Setup ℝ γ Params Val) (w : World ℝ α φ ε γ Params Val) (i : Nat)
    (hk : S.kind i = .predictor) (hL : S.left i = PLSA.left cf) (hsd : (w.recs i).seed = none)
    {d : ScoreData ℝ α φ ε} {rows : List (List α)} {sc : List ℝ}
    (h : ScoreBuilt d rows sc) (hne : rows ≠ []) (lo hi st : ℝ) (m : Nat)
    (hd : d.scoreDomain = some [lo, hi, st]) (hst : 0 < st) (hm : hi = lo + (m : ℝ) * st)
    (idx : Option (List Int)) (c₀ c₁ : Nat) (hjs : columnsOf d.toEventData idx = .ok [c₀, c₁]) :
    ∃ (nu ni : Nat) (evl : List (Ev nu ni (m + 1))), TrainedOnLevels d.toEventData rows sc c₀ c₁ lo st m evl ∧
      DrawPerEvent cf.rng cf.k evl (w.streams (S.handle i)) ((step S w (.fit i d idx)).streams (S.handle i)) := by
  obtain ⟨hb, hs, hl, _⟩ := h.inv
  obtain ⟨_, nu, ni, nl, _, evl, levels, _, _, _, ht, _, _, hnl, _, hlev, _⟩ :=
    plsa_fit_run cf hk0 S.seeded (w.streams (S.handle i)) (w.recs i) h hne lo hi st m hd hst hm idx c₀ c₁ hjs
  subst hnl
  refine ⟨nu, ni, evl, ht, ?_⟩
  obtain ⟨hn, _⟩ := C15_digitized_in_range_partial h lo hi st m hd hst hm []
  have hds : sc.map (fun x => ((min ⌈(hi - lo) / st⌉.toNat ⌊(x - lo) / st + 1 / 2⌋.toNat : Nat) : Int)) =
      evl.map (fun e => (e.level.1 : Int)) := by
    obtain ⟨ls, _, c2, c3, c4, _⟩ := C16_nearest_level h lo hi st m hd hst hm
    apply List.ext_getElem?
    intro j
    rw [List.getElem?_map, List.getElem?_map]
    rcases lt_or_ge j rows.length with hj | hj
    · obtain ⟨s, hsj⟩ : ∃ s, sc[j]? = some s := ⟨_, List.getElem?_eq_getElem (by omega)⟩
      obtain ⟨e, he, _, hem, hmin⟩ := ht.2 j _ s (List.getElem?_eq_getElem hj) hsj
      rw [hsj, he, Option.map_some, Option.map_some, Option.some.injEq]
      obtain ⟨j', d1, lj, d2, d3⟩ := c4 s
      rw [digitizeScore_eq d lo hi st hst [] hd] at d1
      simp only [List.map_cons, List.map_nil, Except.ok.injEq, List.cons.injEq, and_true] at d1
      rw [d1]
      have hjl : j' < ls.length := (List.getElem?_eq_some_iff.1 d2).1
      have hlj := c3 _ _ d2
      have hel : e.level.1 < ls.length := by omega
      have hle := c3 _ _ (List.getElem?_eq_getElem hel)
      have a := d3 e.level.1 _ (List.getElem?_eq_getElem hel)
      have b := hmin j' (by omega)
      rw [hlj, hle] at a
      have heq := le_antisymm a.1 b.1
      have h1 := a.2 heq.symm
      have h2 := b.2 heq
      have : j' = e.level.1 := by omega
      rw [this]
    · rw [List.getElem?_eq_none (by omega), List.getElem?_eq_none (by rw [ht.1]; omega)]
      rfl
  have hfit := eventFit_eq S.seeded (w.streams (S.handle i)) (w.recs i) hb.holds idx _ hjs
  have hsup : superAs (S.kind i) S.seeded (w.streams (S.handle i)) (w.recs i) d idx =
      .ok (Rec.setScoreInfo (fittedInfo S.seeded (w.streams (S.handle i)) (w.recs i) d.toEventData rows idx [c₀, c₁]) d) := by
    rw [hk]
    simp only [superAs, Rec.predictorSuperFit, hfit]
  obtain ⟨g0, g1, _⟩ := npGet_dom lo hi st []
  have hls : ∃ ls, npLinspace lo hi ((m : Int) + 1) = .ok ls := by
    unfold npLinspace
    rw [if_neg (by omega)]
    exact ⟨_, rfl⟩
  obtain ⟨ls, hls⟩ := hls
  have hleft : PLSA.left cf (Rec.setScoreInfo (fittedInfo S.seeded (w.streams (S.handle i)) (w.recs i) d.toEventData rows idx [c₀, c₁]) d).view
      (w.streams (S.handle i)) = drawLoop cf.rng cf.k (m + 1) (w.streams (S.handle i)) (evl.map (fun e => (e.level.1 : Int))) := by
    have v1 : (Rec.setScoreInfo (fittedInfo S.seeded (w.streams (S.handle i)) (w.recs i) d.toEventData rows idx [c₀, c₁]) d).view.score =
        some sc := hs
    have v2 : (Rec.setScoreInfo (fittedInfo S.seeded (w.streams (S.handle i)) (w.recs i) d.toEventData rows idx
        [c₀, c₁]) d).view.scoreDomain = some [lo, hi, st] := hd
    have v3 : (Rec.setScoreInfo (fittedInfo S.seeded (w.streams (S.handle i)) (w.recs i) d.toEventData rows idx
        [c₀, c₁]) d).view.nScoreLevels = some ((m : Int) + 1) := hn
    unfold PLSA.left
    rw [v1, v2, v3]
    simp only [g0, g1, hls, bind, Except.bind, digitize_eq lo hi st hst, hds]
    rfl
  rw [MF.stream_of_fit hsd hsup, hL, hleft]
  exact drawLoop_all cf.rng cf.k evl _

/-- The case of C157_plsa: `exScores` of Fit/Props. -/
example : ScoreBuilt exScores [[1, 10], [2, 20]] [0, 1] ∧ exScores.scoreDomain = some [0, 1, 1] ∧ (1 : ℝ) = 0 + ((1 : Nat) : ℝ) * 1 ∧
    columnsOf exScores.toEventData none = .ok [0, 1] := ⟨exScores_built, rfl, by norm_num, rfl⟩

end PLSA
end Kam
