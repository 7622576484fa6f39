/-
C70: fitting succeeds on loaded data and trains on exactly the loaded events.
-/
import Verif.PLSA.Props3
import Verif.Rec.Props4

set_option linter.unusedSectionVars false

namespace Kam
open scoped BigOperators
open Spec

section
variable {K : Type} [Field K] [LinearOrder K] [IsStrictOrderedRing K] [FloorRing K]
variable {α φ ε γ θ V : Type} [LinearOrder α]

/-- There is not exactly one object of the type of a column. -/
def Spec.Several (otypes : List Nat) (rows : List (List α)) (c : Nat) : Prop := ∀ t, otypes[c]? = some t → count otypes rows t ≠ 1

/-- The internal pair of a user and an item column of an external event. -/
def Spec.PairOf (otypes : List Nat) (rows : List (List α)) (c₀ c₁ : Nat) (row : List α) (u i : Nat) :
    Prop :=
  ∃ t₀ t₁ x y, otypes[c₀]? = some t₀ ∧ otypes[c₁]? = some t₁ ∧ row[c₀]? = some x ∧ row[c₁]? = some y ∧
    u = rank otypes rows t₀ x ∧ i = rank otypes rows t₁ y

/-- What training sees after the super class `fit` with an `event_index` of two columns. -/
structure SeesPairs (v : View K γ) (d : EventData α φ ε) (rows : List (List α)) (c₀ c₁ nu ni : Nat) :
    Prop where
  users : npGet v.nObjects 0 = .ok nu
  items : npGet v.nObjects 1 = .ok ni
  rng : ∃ g, v.rng = some g
  length : v.event.length = rows.length
  rows : ∀ (j : Nat) (row : List α), rows[j]? = some row → ∃ (u : Fin nu) (i : Fin ni),
    v.event[j]? = some [(u : Int), (i : Int)] ∧ PairOf d.eventOtypes rows c₀ c₁ row u i

theorem view_sees (mk : Int → γ) (env : γ) (r : Rec K α φ ε γ θ V) {d : EventData α φ ε}
    {rows : List (List α)} (h : Built d rows) (idx : Option (List Int)) (c₀ c₁ : Nat)
    (hjs : columnsOf d idx = .ok [c₀, c₁]) :
    ∃ nu ni, SeesPairs (fittedInfo mk env r d rows idx [c₀, c₁]).view d rows c₀ c₁ nu ni ∧
      (∀ t, d.eventOtypes[c₀]? = some t → nu = count d.eventOtypes rows t) ∧
      (∀ t, d.eventOtypes[c₁]? = some t → ni = count d.eventOtypes rows t) := by
  have hd := h.holds
  obtain ⟨r', hr', _, hlen, hnl, hev⟩ := (C20_fit_alignment mk env r h idx).1 _ hjs
  rw [eventFit_eq mk env r hd idx _ hjs] at hr'
  cases hr'
  have hlt : ∀ j ∈ [c₀, c₁], j < d.eventOtypes.length := by
    rw [hd.wf.len_otypes]
    exact Sel.positions_lt (columnsOf_positions d idx _ hjs)
  have hc₀ := hlt c₀ (by simp)
  have hc₁ := hlt c₁ (by simp)
  have hobj : (fittedInfo mk env r d rows idx [c₀, c₁]).view.nObjects =
      [count d.eventOtypes rows d.eventOtypes[c₀], count d.eventOtypes rows d.eventOtypes[c₁]] := by
    show gather _ [c₀, c₁] = _
    unfold gather
    simp [hc₀, hc₁, length_ids]
  refine ⟨_, _, ⟨by rw [hobj]; rfl, by rw [hobj]; rfl, ⟨_, rfl⟩, hlen, ?_⟩, ?_, ?_⟩
  · intro j row hj
    obtain ⟨o, ho, hol, hall⟩ := hev j row hj
    have hrl : row.length = d.eventOtypes.length := hd.reg row (List.mem_of_getElem? hj)
    obtain ⟨a, b, rfl⟩ := List.length_eq_two.1 hol
    have hx : row[c₀]? = some (row[c₀]'(by omega)) := List.getElem?_eq_getElem _
    have hy : row[c₁]? = some (row[c₁]'(by omega)) := List.getElem?_eq_getElem _
    obtain ⟨h1, _, h3⟩ := hall 0 c₀ _ _ rfl (List.getElem?_eq_getElem hc₀) hx
    obtain ⟨h4, _, h6⟩ := hall 1 c₁ _ _ rfl (List.getElem?_eq_getElem hc₁) hy
    simp only [List.getElem?_cons_zero, List.getElem?_cons_succ, Option.some.injEq] at h1 h4
    rw [h1, h4] at ho
    exact ⟨⟨_, h3⟩, ⟨_, h6⟩, ho, _, _, _, _, List.getElem?_eq_getElem hc₀, List.getElem?_eq_getElem hc₁,
      hx, hy, rfl, rfl⟩
  · intro t ht
    rw [List.getElem?_eq_getElem hc₀] at ht
    cases ht; rfl
  · intro t ht
    rw [List.getElem?_eq_getElem hc₁] at ht
    cases ht; rfl

theorem finish_of_train {L : Learner K γ θ V} {r : Rec K α φ ε γ θ V} {p : θ} {res : List (String × V)}
    (h : L.train r.view = .ok (p, res)) : ∃ r', Rec.finish L r = .ok r' ∧ r'.params = some p := by
  unfold Rec.finish
  rw [h]
  exact ⟨_, rfl, rfl⟩

theorem finish_results {L : Learner K γ θ V} {r : Rec K α φ ε γ θ V} {p : θ} {res : List (String × V)}
    (h : L.train r.view = .ok (p, res)) :
    ∃ r', Rec.finish L r = .ok r' ∧ r'.params = some p ∧
      r'.fitResults = res.foldl (fun d kv => d.set kv.1 kv.2) r.fitResults := by
  unfold Rec.finish
  rw [h]
  exact ⟨_, rfl, rfl, rfl⟩

end

namespace MF
variable {α φ ε γ : Type} [LinearOrder α]

theorem several_ne {d : EventData α φ ε} {rows : List (List α)} (hd : EventData.Holds d rows) {idx : Option (List Int)} {js : List Nat}
    (hjs : columnsOf d idx = .ok js) {c n : Nat} (hc : c ∈ js)
    (hn : ∀ t, d.eventOtypes[c]? = some t → n = count d.eventOtypes rows t) (hs : Several d.eventOtypes rows c) : n ≠ 1 := by
  have hlt : c < d.eventOtypes.length := by
    rw [hd.wf.len_otypes]
    exact Sel.positions_lt (columnsOf_positions d idx _ hjs) c hc
  have := hn _ (List.getElem?_eq_getElem hlt)
  rw [this]
  exact hs _ (List.getElem?_eq_getElem hlt)

/-- `evs` are the events `rows` with the scores `sc` in internal ids. -/
def TrainedOn (d : EventData α φ ε) (rows : List (List α)) (sc : List ℝ) (c₀ c₁ : Nat) {nu ni : Nat}
    (evs : List (Event nu ni)) : Prop :=
  evs.length = rows.length ∧ ∀ (j : Nat) (row : List α) (s : ℝ), rows[j]? = some row →
    sc[j]? = some s → ∃ e, evs[j]? = some e ∧ PairOf d.eventOtypes rows c₀ c₁ row e.user e.item ∧
      e.score = s

theorem parseEvents_total {d : EventData α φ ε} {rows : List (List α)} {sc : List ℝ} {c₀ c₁ nu ni : Nat}
    {v : View ℝ γ} (hv : SeesPairs v d rows c₀ c₁ nu ni) (hsc : sc.length = rows.length) :
    ∃ evs, parseEvents nu ni v.event sc = .ok evs ∧ TrainedOn d rows sc c₀ c₁ evs := by
  unfold parseEvents
  rw [if_pos (by rw [hv.length, hsc])]
  have key : ∀ (l : List (List Int × ℝ)), (∀ x ∈ l, ∃ (u : Fin nu) (i : Fin ni), x.1 = [(u : Int), (i : Int)]) →
      ∃ evs : List (Event nu ni), l.mapM (fun x => do
        let u ← toFin nu (← npGet x.1 0)
        let i ← toFin ni (← npGet x.1 1)
        return (⟨u, i, x.2⟩ : Event nu ni)) = .ok evs ∧
        List.Forall₂ (fun x (e : Event nu ni) => x.1 = [(e.user : Int), (e.item : Int)] ∧ e.score = x.2) l evs := by
    intro l
    induction l with
    | nil => exact fun _ => ⟨[], rfl, .nil⟩
    | cons x l ih =>
      intro hl
      obtain ⟨es, hes, hf⟩ := ih (fun y hy => hl y (by simp [hy]))
      obtain ⟨u, i, hx⟩ := hl x (by simp)
      have e0 : npGet x.1 0 = .ok (u : Int) := by rw [hx]; rfl
      have e00 : npGet x.1 1 = .ok (i : Int) := by rw [hx]; rfl
      have e1 : toFin nu (u : Int) = .ok u := by
        unfold toFin; rw [dif_pos (by have := u.2; omega)]; rfl
      have e2 : toFin ni (i : Int) = .ok i := by
        unfold toFin; rw [dif_pos (by have := i.2; omega)]; rfl
      refine ⟨⟨u, i, x.2⟩ :: es, ?_, .cons ⟨hx, rfl⟩ hf⟩
      rw [List.mapM_cons, hes]
      simp only [e0, e00, e1, e2, bind, Except.bind, pure, Except.pure]
  obtain ⟨evs, h1, h2⟩ := key (v.event.zip sc) (by
    intro x hx
    obtain ⟨j, hj⟩ := List.mem_iff_getElem?.1 (List.of_mem_zip hx).1
    have hjl : j < rows.length := by rw [← hv.length]; exact (List.getElem?_eq_some_iff.1 hj).1
    obtain ⟨u, i, h1, _⟩ := hv.rows j _ (List.getElem?_eq_getElem hjl)
    rw [hj] at h1
    simp only [Option.some.injEq] at h1
    exact ⟨u, i, h1⟩)
  refine ⟨evs, h1, ?_, ?_⟩
  · rw [← h2.length_eq, List.length_zip, hv.length, hsc, min_self]
  · intro j row s hj hs
    obtain ⟨u, i, h3, h4⟩ := hv.rows j row hj
    rw [List.forall₂_iff_get] at h2
    obtain ⟨hl, h2⟩ := h2
    have hz : (v.event.zip sc)[j]? = some ([(u : Int), (i : Int)], s) := by
      rw [List.getElem?_zip_eq_some]; exact ⟨h3, hs⟩
    obtain ⟨hz1, hz2⟩ := List.getElem?_eq_some_iff.1 hz
    have := h2 j hz1 (by omega)
    simp only [List.get_eq_getElem, hz2] at this
    refine ⟨_, List.getElem?_eq_getElem (by omega), ?_, this.2⟩
    have h5 := this.1
    simp only [List.cons.injEq, Nat.cast_inj, and_true] at h5
    rw [← h5.1, ← h5.2]
    exact h4

theorem allocate_ok {nu ni : Nat} (hu : nu ≠ 1) (hi : ni ≠ 1) : allocate nu ni = .ok () := by
  unfold allocate
  rw [if_neg (by omega)]

theorem allocate_one {nu ni : Nat} (h : nu = 1 ∨ ni = 1) : allocate nu ni = .error .typeError := by
  unfold allocate
  rw [if_pos h]

theorem trainExplicit_total {cf : Config γ}
    (ic : ∀ nu ni : Nat, γ → List (Event nu ni) → Coef nu ni cf.k × γ)
    (lo : ∀ nu ni : Nat, List (Event nu ni) → Coef nu ni cf.k → ℝ)
    (gr : ∀ nu ni : Nat, List (Event nu ni) → Coef nu ni cf.k → Coef nu ni cf.k)
    {d : EventData α φ ε} {rows : List (List α)} {sc : List ℝ} {c₀ c₁ nu ni : Nat}
    {v : View ℝ γ} (hv : SeesPairs v d rows c₀ c₁ nu ni) (hs : v.score = some sc)
    (hsc : sc.length = rows.length) (hu : nu ≠ 1) (hi : ni ≠ 1) :
    ∃ (g : γ) (evs : List (Event nu ni)) (res : List (String × Val)), v.rng = some g ∧
      TrainedOn d rows sc c₀ c₁ evs ∧
      trainExplicit cf ic lo gr v = .ok (store (nu := nu) (ni := ni) (k := cf.k)
        (cf.opt _ (lo nu ni evs) (gr nu ni evs) (ic nu ni g evs).1 cf.method cf.kwargs).x, res) := by
  obtain ⟨g, hg⟩ := hv.rng
  obtain ⟨evs, hp, ht⟩ := parseEvents_total hv hsc
  refine ⟨g, evs, results cf nu ni v.nEvents (lo nu ni evs (ic nu ni g evs).1)
    (cf.opt _ (lo nu ni evs) (gr nu ni evs) (ic nu ni g evs).1 cf.method cf.kwargs), hg, ht, ?_⟩
  simp only [trainExplicit, hv.users, hv.items, hs, hg, hp, allocate_ok hu hi, bind, Except.bind, pure, Except.pure]

theorem trainExplicit_one {cf : Config γ}
    (ic : ∀ nu ni : Nat, γ → List (Event nu ni) → Coef nu ni cf.k × γ)
    (lo : ∀ nu ni : Nat, List (Event nu ni) → Coef nu ni cf.k → ℝ)
    (gr : ∀ nu ni : Nat, List (Event nu ni) → Coef nu ni cf.k → Coef nu ni cf.k)
    {d : EventData α φ ε} {rows : List (List α)} {sc : List ℝ} {c₀ c₁ nu ni : Nat}
    {v : View ℝ γ} (hv : SeesPairs v d rows c₀ c₁ nu ni) (hs : v.score = some sc)
    (hsc : sc.length = rows.length) (h1 : nu = 1 ∨ ni = 1) : trainExplicit cf ic lo gr v = .error .typeError := by
  obtain ⟨g, hg⟩ := hv.rng
  obtain ⟨evs, hp, ht⟩ := parseEvents_total hv hsc
  simp only [trainExplicit, hv.users, hv.items, hs, hg, hp, allocate_one h1, bind, Except.bind]

/-- C70 for PMF: on loaded data with more than one user and item, and any `event_index` of two columns, `fit` succeeds and the
parameters are what the optimizer returns for the loss and gradient of exactly these events,
started at the initial coefficients. -/
theorem C70_pmf_fit_partial (cf : Config γ) (mk : Int → γ) (env : γ) (r : Rec ℝ α φ ε γ Params Val)
    {d : ScoreData ℝ α φ ε} {rows : List (List α)} {sc : List ℝ} (h : ScoreBuilt d rows sc)
    (_hne : rows ≠ []) (idx : Option (List Int)) (c₀ c₁ : Nat)
    (hjs : columnsOf d.toEventData idx = .ok [c₀, c₁])
    (hsu : Several d.eventOtypes rows c₀) (hsi : Several d.eventOtypes rows c₁) :
    ∃ (r' : Rec ℝ α φ ε γ Params Val) (nu ni : Nat) (evs : List (Event nu ni)) (g : γ),
      Rec.fitPredictor (pmf cf) mk env r d idx = .ok r' ∧
      TrainedOn d.toEventData rows sc c₀ c₁ evs ∧
      (∀ t, d.eventOtypes[c₀]? = some t → nu = count d.eventOtypes rows t) ∧
      (∀ t, d.eventOtypes[c₁]? = some t → ni = count d.eventOtypes rows t) ∧
      r'.params = some (store (nu := nu) (ni := ni) (k := cf.k)
        (cf.opt _ (PMF.loss cf.C evs) (PMF.gradLoss cf.C evs) (PMF.initCoef cf.rng g cf.k evs).1
          cf.method cf.kwargs).x) := by
  obtain ⟨hb, hs, hl, _⟩ := h.inv
  obtain ⟨nu, ni, hv, hn1, hn2⟩ := view_sees mk env r hb idx c₀ c₁ hjs
  have hfit := eventFit_eq mk env r hb.holds idx _ hjs
  have hv' : SeesPairs (Rec.setScoreInfo (fittedInfo mk env r d.toEventData rows idx [c₀, c₁]) d).view
      d.toEventData rows c₀ c₁ nu ni := ⟨hv.users, hv.items, hv.rng, hv.length, hv.rows⟩
  obtain ⟨g, evs, res, _, ht, htr⟩ := trainExplicit_total (cf := cf)
    (fun _ _ g evs => PMF.initCoef cf.rng g cf.k evs) (fun _ _ => PMF.loss cf.C)
    (fun _ _ => PMF.gradLoss cf.C) hv' hs hl (several_ne hb.holds hjs (by simp) hn1 hsu) (several_ne hb.holds hjs (by simp) hn2 hsi)
  obtain ⟨r', h1, h2⟩ := finish_of_train (L := pmf cf) htr
  refine ⟨r', nu, ni, evs, g, ?_, ht, hn1, hn2, h2⟩
  unfold Rec.fitPredictor Rec.predictorSuperFit
  simp only [hfit]
  exact h1

/-- C70 for LogisticPMF: the same, more than one user and item, on two-class binary data. -/
theorem C70_logistic_fit_partial (cf : Config γ) (mk : Int → γ) (env : γ) (r : Rec ℝ α φ ε γ Params Val)
    {d : ScoreData ℝ α φ ε} {rows : List (List α)} {sc : List ℝ} (h : ScoreBuilt d rows sc)
    (hdom : d.scoreDomain = some [0, 1, 1]) (hlev : d.nScoreLevels = some 2)
    (hbin : ∀ s ∈ sc, s = 0 ∨ s = 1) (h0 : 0 ∈ sc) (h1 : 1 ∈ sc)
    (idx : Option (List Int)) (c₀ c₁ : Nat) (hjs : columnsOf d.toEventData idx = .ok [c₀, c₁])
    (hsu : Several d.eventOtypes rows c₀) (hsi : Several d.eventOtypes rows c₁) :
    ∃ (r' : Rec ℝ α φ ε γ Params Val) (nu ni : Nat) (evs : List (Event nu ni)) (g : γ),
      Rec.fitExplicit (logistic cf) mk env r d idx = .ok r' ∧
      TrainedOn d.toEventData rows sc c₀ c₁ evs ∧
      (∀ t, d.eventOtypes[c₀]? = some t → nu = count d.eventOtypes rows t) ∧
      (∀ t, d.eventOtypes[c₁]? = some t → ni = count d.eventOtypes rows t) ∧
      r'.params = some (store (nu := nu) (ni := ni) (k := cf.k)
        (cf.opt _ (Logistic.loss cf.C evs) (Logistic.gradLoss cf.C evs)
          (Logistic.initCoef cf.rng g cf.k evs).1 cf.method cf.kwargs).x) := by
  obtain ⟨hb, hs, hl, _⟩ := h.inv
  obtain ⟨nu, ni, hv, hn1, hn2⟩ := view_sees mk env r hb idx c₀ c₁ hjs
  have hfit := eventFit_eq mk env r hb.holds idx _ hjs
  have hv' : SeesPairs (Rec.setScoreInfo (fittedInfo mk env r d.toEventData rows idx [c₀, c₁]) d).view
      d.toEventData rows c₀ c₁ nu ni := ⟨hv.users, hv.items, hv.rng, hv.length, hv.rows⟩
  obtain ⟨g, evs, res, _, ht, htr⟩ := trainExplicit_total (cf := cf)
    (fun _ _ g evs => Logistic.initCoef cf.rng g cf.k evs) (fun _ _ => Logistic.loss cf.C)
    (fun _ _ => Logistic.gradLoss cf.C) hv' hs hl (several_ne hb.holds hjs (by simp) hn1 hsu) (several_ne hb.holds hjs (by simp) hn2 hsi)
  obtain ⟨r', h3, h2⟩ := finish_of_train (L := logistic cf) htr
  have hacc : acceptsBinary d = true := (acceptsBinary_iff d).2 ⟨hdom, hlev, sc, hs, hbin, h0, h1⟩
  refine ⟨r', nu, ni, evs, g, ?_, ht, hn1, hn2, h2⟩
  unfold Rec.fitExplicit Rec.explicitSuperFit
  simp only [hfit, hacc, if_true]
  exact h3

/-- C70 for ImplicitLogisticPMF with `event_index=(0, 1)` on user-item events with more than one user and item: `fit` succeeds and
the optimized loss is that of the matrix counting each pair of a user and an item. -/
theorem C70_implicit_fit_partial (cf : Config γ) (mk : Int → γ) (env : γ) (r : Rec ℝ α φ ε γ Params Val)
    {d : EventData α φ ε} {rows : List (List α)} (h : Built d rows) (_hne : rows ≠ [])
    (h0 : d.eventOtypes[0]? = some 0) (h1 : d.eventOtypes[1]? = some 1)
    (hsu : Several d.eventOtypes rows 0) (hsi : Several d.eventOtypes rows 1) :
    ∃ (r' : Rec ℝ α φ ε γ Params Val)
      (m : Implicit.Mat (count d.eventOtypes rows 0) (count d.eventOtypes rows 1)) (g : γ),
      Rec.fitImplicit (implicit cf) mk env r d (some [0, 1]) = .ok r' ∧
      (∀ x y (u : Fin (count d.eventOtypes rows 0)) (i : Fin (count d.eventOtypes rows 1)),
        IsObject d.eventOtypes rows 0 x → IsObject d.eventOtypes rows 1 y →
        u.1 = rank d.eventOtypes rows 0 x → i.1 = rank d.eventOtypes rows 1 y →
        m u i = rows.countP (fun row => decide (row[0]? = some x ∧ row[1]? = some y))) ∧
      r'.params = some (store (nu := count d.eventOtypes rows 0) (ni := count d.eventOtypes rows 1)
        (k := cf.k) (cf.opt _ (Implicit.loss cf.C m) (Implicit.gradLoss cf.C m)
          (Implicit.initCoef cf.rng g cf.k m).1 cf.method cf.kwargs).x) := by
  have hd := h.holds
  have hlen : d.eventOtypes.length = d.sEvent := hd.wf.len_otypes
  have h1lt : 1 < d.eventOtypes.length := (List.getElem?_eq_some_iff.1 h1).1
  have hjs : columnsOf d (some [0, 1]) = .ok [0, 1] :=
    positions_nat [0, 1] d.sEvent (by simp; omega)
  have hfit := eventFit_eq mk env r hd _ _ hjs
  obtain ⟨m, hm, hml, hmw, hc⟩ := C38_counts_partial mk env r h h0 h1 hfit
  obtain ⟨_, _, hv, _⟩ := view_sees mk env r h _ 0 1 hjs
  obtain ⟨g, hg⟩ := hv.rng
  have htr : ∃ res, (implicit cf).train (fittedInfo mk env r d rows (some [0, 1]) [0, 1]).view =
      .ok (store (nu := count d.eventOtypes rows 0) (ni := count d.eventOtypes rows 1)
        (k := cf.k) (cf.opt _ (Implicit.loss cf.C (matOf _ _ m)) (Implicit.gradLoss cf.C (matOf _ _ m))
          (Implicit.initCoef cf.rng g cf.k (matOf _ _ m)).1 cf.method cf.kwargs).x, res) := by
    simp only [implicit, hm, bind, Except.bind, hg, allocate_ok (hsu 0 h0) (hsi 1 h1), pure, Except.pure]
    exact ⟨_, rfl⟩
  obtain ⟨res, htr⟩ := htr
  obtain ⟨r', h3, h2⟩ := finish_of_train htr
  refine ⟨r', matOf _ _ m, g, ?_, ?_, h2⟩
  · unfold Rec.fitImplicit
    simp only [hfit]
    exact h3
  · intro x y u i hx hy hu hi
    obtain ⟨mr, g1, g2⟩ := hc x y hx hy
    unfold matOf
    rw [hu, hi]
    simp only [List.getD_eq_getElem?_getD, g1, g2, Option.getD_some]

/-- The claim of C70 for PMF without the condition on the number of objects. -/
def C70_full : Prop :=
  ∀ (cf : Config Unit) (r : Rec ℝ Nat Nat Nat Unit Params Val) (d : ScoreData ℝ Nat Nat Nat) (rows : List (List Nat)) (sc : List ℝ),
    ScoreBuilt d rows sc → rows ≠ [] → d.eventOtypes = [0, 1] →
      ∃ r', Rec.fitPredictor (pmf cf) (fun _ => ()) () r d (some [0, 1]) = .ok r'

theorem finish_error {K θ V : Type} {L : Learner K γ θ V} {r : Rec K α φ ε γ θ V} {e : Exc} (h : L.train r.view = .error e) :
    Rec.finish L r = .error (e, r) := by
  unfold Rec.finish
  rw [h]

/-- C70, the other case: if there is one user or one item only, none of the three models can be fitted, whatever the events, scores,
settings, optimizer and random numbers: `fit` raises `TypeError`. -/
theorem C70_one_object (cf : Config γ) (mk : Int → γ) (env : γ) (r : Rec ℝ α φ ε γ Params Val) {d : ScoreData ℝ α φ ε} {rows : List (List α)}
    {sc : List ℝ} (h : ScoreBuilt d rows sc) (idx : Option (List Int)) (c₀ c₁ t : Nat) (hjs : columnsOf d.toEventData idx = .ok [c₀, c₁])
    (ht : d.eventOtypes[c₀]? = some t ∨ d.eventOtypes[c₁]? = some t) (h1 : count d.eventOtypes rows t = 1) :
    (∃ r', Rec.fitPredictor (pmf cf) mk env r d idx = .error (.typeError, r')) ∧
    (acceptsBinary d = true → ∃ r', Rec.fitExplicit (logistic cf) mk env r d idx = .error (.typeError, r')) := by
  obtain ⟨hb, hs, hl, _⟩ := h.inv
  obtain ⟨nu, ni, hv, hn1, hn2⟩ := view_sees mk env r hb idx c₀ c₁ hjs
  have hfit := eventFit_eq mk env r hb.holds idx _ hjs
  have hv' : SeesPairs (Rec.setScoreInfo (fittedInfo mk env r d.toEventData rows idx [c₀, c₁]) d).view
      d.toEventData rows c₀ c₁ nu ni := ⟨hv.users, hv.items, hv.rng, hv.length, hv.rows⟩
  have hone : nu = 1 ∨ ni = 1 := by
    rcases ht with ht | ht
    · exact .inl ((hn1 t ht).trans h1)
    · exact .inr ((hn2 t ht).trans h1)
  constructor
  · have := finish_error (L := pmf cf) (trainExplicit_one (cf := cf) (fun _ _ g evs => PMF.initCoef cf.rng g cf.k evs)
      (fun _ _ => PMF.loss cf.C) (fun _ _ => PMF.gradLoss cf.C) hv' hs hl hone)
    unfold Rec.fitPredictor Rec.predictorSuperFit
    simp only [hfit]
    exact ⟨_, this⟩
  · intro hacc
    have := finish_error (L := logistic cf) (trainExplicit_one (cf := cf) (fun _ _ g evs => Logistic.initCoef cf.rng g cf.k evs)
      (fun _ _ => Logistic.loss cf.C) (fun _ _ => Logistic.gradLoss cf.C) hv' hs hl hone)
    unfold Rec.fitExplicit Rec.explicitSuperFit
    simp only [hfit, hacc, if_true]
    exact ⟨_, this⟩

/-- C70, the exception for ImplicitLogisticPMF with `event_index=(0, 1)`: `fit` always raises TypeError for the events of a single user, and
for those with a single item. -/
theorem C70_implicit_one_object (cf : Config γ) (mk : Int → γ) (env : γ) (r : Rec ℝ α φ ε γ Params Val) {d : EventData α φ ε} {rows : List (List α)}
    (hb : Built d rows) (h0 : d.eventOtypes[0]? = some 0) (h1 : d.eventOtypes[1]? = some 1)
    (hc : count d.eventOtypes rows 0 = 1 ∨ count d.eventOtypes rows 1 = 1) :
    ∃ r', Rec.fitImplicit (implicit cf) mk env r d (some [0, 1]) = .error (.typeError, r') := by
  have hd := hb.holds
  have hlen : d.eventOtypes.length = d.sEvent := hd.wf.len_otypes
  have h1lt : 1 < d.eventOtypes.length := (List.getElem?_eq_some_iff.1 h1).1
  have hjs : columnsOf d (some [0, 1]) = .ok [0, 1] := positions_nat [0, 1] d.sEvent (by simp; omega)
  have hfit := eventFit_eq mk env r hd _ _ hjs
  obtain ⟨m, hm, _⟩ := C38_counts_partial mk env r hb h0 h1 hfit
  obtain ⟨_, _, hv, _⟩ := view_sees mk env r hb _ 0 1 hjs
  obtain ⟨g, hg⟩ := hv.rng
  have htr : (implicit cf).train (fittedInfo mk env r d rows (some [0, 1]) [0, 1]).view = .error .typeError := by
    simp only [implicit, hm, bind, Except.bind, hg, allocate_one hc]
  unfold Rec.fitImplicit
  simp only [hfit]
  exact ⟨_, finish_error htr⟩

/-- Hence a recommender `PMF` that was fitted has seen no or several objects at each position. -/
theorem pmf_several {cf : Config γ} {mk : Int → γ} {env : γ} {r r' : Rec ℝ α φ ε γ Params Val} {d : ScoreData ℝ α φ ε} {rows : List (List α)}
    {sc : List ℝ} (h : ScoreBuilt d rows sc) {idx : Option (List Int)} {c₀ c₁ : Nat} (hjs : columnsOf d.toEventData idx = .ok [c₀, c₁])
    (hfit : Rec.fitPredictor (pmf cf) mk env r d idx = .ok r') : Several d.eventOtypes rows c₀ ∧ Several d.eventOtypes rows c₁ := by
  constructor <;> intro t ht h1
  · obtain ⟨_, e⟩ := (C70_one_object cf mk env r h idx c₀ c₁ t hjs (.inl ht) h1).1
    rw [hfit] at e
    cases e
  · obtain ⟨_, e⟩ := (C70_one_object cf mk env r h idx c₀ c₁ t hjs (.inr ht) h1).1
    rw [hfit] at e
    cases e

theorem logistic_several {cf : Config γ} {mk : Int → γ} {env : γ} {r r' : Rec ℝ α φ ε γ Params Val} {d : ScoreData ℝ α φ ε} {rows : List (List α)}
    {sc : List ℝ} (h : ScoreBuilt d rows sc) {idx : Option (List Int)} {c₀ c₁ : Nat} (hjs : columnsOf d.toEventData idx = .ok [c₀, c₁])
    (hacc : acceptsBinary d = true)
    (hfit : Rec.fitExplicit (logistic cf) mk env r d idx = .ok r') : Several d.eventOtypes rows c₀ ∧ Several d.eventOtypes rows c₁ := by
  constructor <;> intro t ht h1
  · obtain ⟨_, e⟩ := (C70_one_object cf mk env r h idx c₀ c₁ t hjs (.inl ht) h1).2 hacc
    rw [hfit] at e
    cases e
  · obtain ⟨_, e⟩ := (C70_one_object cf mk env r h idx c₀ c₁ t hjs (.inr ht) h1).2 hacc
    rw [hfit] at e
    cases e

theorem implicit_several {cf : Config γ} {mk : Int → γ} {env : γ} {r r' : Rec ℝ α φ ε γ Params Val} {d : EventData α φ ε} {rows : List (List α)}
    (h : Built d rows) (h0 : d.eventOtypes[0]? = some 0) (h1 : d.eventOtypes[1]? = some 1)
    (hfit : Rec.fitImplicit (implicit cf) mk env r d (some [0, 1]) = .ok r') : Several d.eventOtypes rows 0 ∧ Several d.eventOtypes rows 1 := by
  constructor <;> intro t ht hc
  · obtain rfl : 0 = t := by rw [h0] at ht; exact Option.some.inj ht
    obtain ⟨_, e⟩ := C70_implicit_one_object cf mk env r h h0 h1 (.inl hc)
    rw [hfit] at e
    cases e
  · obtain rfl : 1 = t := by rw [h1] at ht; exact Option.some.inj ht
    obtain ⟨_, e⟩ := C70_implicit_one_object cf mk env r h h0 h1 (.inr hc)
    rw [hfit] at e
    cases e

end MF

namespace PLSA
variable {α φ ε γ : Type} [LinearOrder α]

/-- The events of the topic model: internal ids, and the index of the level next to the score (the higher one of
two). -/
def TrainedOnLevels (d : EventData α φ ε) (rows : List (List α)) (sc : List ℝ) (c₀ c₁ : Nat) (lo st : ℝ) (m : Nat)
    {nu ni nl : Nat} (evs : List (Ev nu ni nl)) : Prop :=
  evs.length = rows.length ∧ ∀ (j : Nat) (row : List α) (s : ℝ), rows[j]? = some row →
    sc[j]? = some s → ∃ e, evs[j]? = some e ∧ PairOf d.eventOtypes rows c₀ c₁ row e.user e.item ∧
      e.level.1 ≤ m ∧ ∀ i ≤ m, |s - (lo + (e.level.1 : ℝ) * st)| ≤ |s - (lo + (i : ℝ) * st)| ∧
        (|s - (lo + (i : ℝ) * st)| = |s - (lo + (e.level.1 : ℝ) * st)| → i ≤ e.level.1)

/-- Everything a fit of the topic model on loaded data leaves behind. -/
theorem plsa_fit_run (cf : Config γ) (hk : 0 < cf.k) (mk : Int → γ) (env : γ)
    (r : Rec ℝ α φ ε γ Params Val) {d : ScoreData ℝ α φ ε} {rows : List (List α)} {sc : List ℝ}
    (h : ScoreBuilt d rows sc) (_hne : rows ≠ []) (lo hi st : ℝ) (m : Nat)
    (hd : d.scoreDomain = some [lo, hi, st]) (hst : 0 < st) (hm : hi = lo + (m : ℝ) * st)
    (idx : Option (List Int)) (c₀ c₁ : Nat) (hjs : columnsOf d.toEventData idx = .ok [c₀, c₁]) :
    ∃ (r' : Rec ℝ α φ ε γ Params Val) (nu ni nl N : Nat) (evl : List (Ev nu ni nl)) (levels : List ℝ)
      (it : Nat) (cur : Option ℝ),
      Rec.fitPredictor (plsa cf) mk env r d idx = .ok r' ∧
      TrainedOnLevels d.toEventData rows sc c₀ c₁ lo st m evl ∧
      (∀ t, d.eventOtypes[c₀]? = some t → nu = count d.eventOtypes rows t) ∧
      (∀ t, d.eventOtypes[c₁]? = some t → ni = count d.eventOtypes rows t) ∧ nl = m + 1 ∧
      r'.params = some (store (reached cf.alpha (fun e => evl[e]) (drawn cf.rng cf.k (match r.seed with | some s => mk s | none => env) evl) N) levels) ∧
      d.getScoreLevels = .ok levels ∧ N ≤ cf.maxiter ∧ (1 ≤ cf.maxiter → 1 ≤ N) ∧
      (cf.maxiter = 0 → it = 0 ∧ cur = none) ∧
      (1 ≤ cf.maxiter → it + 1 = N ∧ cur = some (loss (fun e => evl[e]) (reached cf.alpha (fun e => evl[e])
        (drawn cf.rng cf.k (match r.seed with | some s => mk s | none => env) evl) N))) ∧
      r'.fitResults = (results cf nu ni nl rows.length (loss (fun e => evl[e]) (reached cf.alpha
        (fun e => evl[e]) (drawn cf.rng cf.k (match r.seed with | some s => mk s | none => env) evl) 0))
        it cur).foldl (fun d kv => d.set kv.1 kv.2) r.fitResults := by
  obtain ⟨hb, hs, hl, _⟩ := h.inv
  obtain ⟨nu, ni, hv, hn1, hn2⟩ := view_sees mk env r hb idx c₀ c₁ hjs
  have hfit := eventFit_eq mk env r hb.holds idx _ hjs
  obtain ⟨hn, _⟩ := C15_digitized_in_range_partial h lo hi st m hd hst hm []
  obtain ⟨g, hg⟩ := hv.rng
  obtain ⟨p, res, htr⟩ := train_total (cf := cf)
    (v := (Rec.setScoreInfo (fittedInfo mk env r d.toEventData rows idx [c₀, c₁]) d).view)
    hv.users hv.items hs hd hst hm hn hg (by
      show (fittedInfo mk env r d.toEventData rows idx [c₀, c₁]).view.event.length = _
      rw [hv.length, hl]) (by
      intro row hr
      obtain ⟨j, hj⟩ := List.mem_iff_getElem?.1 hr
      have hj' : (fittedInfo mk env r d.toEventData rows idx [c₀, c₁]).view.event[j]? = some row := hj
      have hjl : j < rows.length := by
        rw [← hv.length]; exact (List.getElem?_eq_some_iff.1 hj').1
      obtain ⟨u, i, h1, _⟩ := hv.rows j _ (List.getElem?_eq_getElem hjl)
      rw [hj'] at h1
      cases h1
      exact ⟨u, i, rfl, rfl⟩) hk
  obtain ⟨r', h3, h3', h3r⟩ := finish_results (L := plsa cf) htr
  obtain ⟨nu', ni', nl', evl, g', levels, dom, lo', hi', hev, hg', hnl, hdom, hlo, hhi, hlev, hk', θ, it, cur, hloop, hp, hres⟩ :=
    train_ok htr
  obtain rfl : nu' = nu := by
    have := hev.users
    rw [show (Rec.setScoreInfo (fittedInfo mk env r d.toEventData rows idx [c₀, c₁]) d).view.nObjects =
      (fittedInfo mk env r d.toEventData rows idx [c₀, c₁]).view.nObjects from rfl, hv.users] at this
    cases this; rfl
  obtain rfl : ni' = ni := by
    have := hev.items
    rw [show (Rec.setScoreInfo (fittedInfo mk env r d.toEventData rows idx [c₀, c₁]) d).view.nObjects =
      (fittedInfo mk env r d.toEventData rows idx [c₀, c₁]).view.nObjects from rfl, hv.items] at this
    cases this; rfl
  obtain rfl : nl' = (m : Int) + 1 := by
    have : d.nScoreLevels = some nl' := hnl
    rw [hn] at this
    cases this; rfl
  obtain rfl : dom = [lo, hi, st] := by
    have : d.scoreDomain = some dom := hdom
    rw [hd] at this
    cases this; rfl
  obtain rfl : g' = (match r.seed with | some s => mk s | none => env) := by
    cases hg'; rfl
  have hsteps : ∃ N, θ = reached cf.alpha (fun e => evl[e])
        (drawn cf.rng cf.k (match r.seed with | some s => mk s | none => env) evl) N ∧ N ≤ cf.maxiter ∧
      (1 ≤ cf.maxiter → 1 ≤ N) ∧ (cf.maxiter = 0 → it = 0 ∧ cur = none) ∧
      (1 ≤ cf.maxiter → it + 1 = N ∧ cur = some (loss (fun e => evl[e]) (reached cf.alpha (fun e => evl[e])
        (drawn cf.rng cf.k (match r.seed with | some s => mk s | none => env) evl) N))) := by
    rcases Nat.eq_zero_or_pos cf.maxiter with h0 | h0
    · rw [h0] at hloop
      cases hloop
      exact ⟨0, rfl, Nat.zero_le _, fun h => by omega, fun _ => ⟨rfl, rfl⟩, fun h => by omega⟩
    · obtain ⟨M, k1, k2, _⟩ := loop_spec (emStep cf.alpha (fun e => evl[e]))
        (loss (fun e => evl[e])) cf.tol cf.maxiter cf.maxiter (le_refl _) h0 0 none
        (mStep cf.alpha (fun e => evl[e]) (drawn cf.rng cf.k _ evl))
      rw [k2] at hloop
      cases hloop
      exact ⟨M + 1, rfl, k1, fun _ => by omega, fun h => by omega, fun _ => ⟨by omega, rfl⟩⟩
  obtain ⟨N, hN, hN1, hN2, hN3, hN4⟩ := hsteps
  have hlen : evl.length = rows.length := by
    rw [hev.length]; exact hv.length
  refine ⟨r', nu', ni', _, N, evl, levels, it, cur, ?_, ?_, hn1, hn2, by omega, ?_, ?_, hN1, hN2, hN3, hN4, ?_⟩
  · unfold Rec.fitPredictor Rec.predictorSuperFit
    simp only [hfit]
    exact h3
  · refine ⟨hlen, ?_⟩
    intro j row s hj hsj
    have hjl : j < rows.length := (List.getElem?_eq_some_iff.1 hj).1
    obtain ⟨e, he⟩ : ∃ e, evl[j]? = some e := ⟨_, List.getElem?_eq_getElem (by omega)⟩
    refine ⟨e, he, ?_, ?_⟩
    · obtain ⟨u, i, e1, e2⟩ := hv.rows j row hj
      obtain ⟨k1, k2⟩ := hev.ids j _ _ e1 he
      have k1' : (u.1 : Int) = (e.user.1 : Int) := Except.ok.inj k1
      have k2' : (i.1 : Int) = (e.item.1 : Int) := Except.ok.inj k2
      rw [show e.user.1 = u.1 by omega, show e.item.1 = i.1 by omega]
      exact e2
    · obtain ⟨dom, sc', ds, q1, q2, q3, q4⟩ := hev.levels
      obtain rfl : dom = [lo, hi, st] := by
        have : d.scoreDomain = some dom := q1
        rw [hd] at this
        cases this; rfl
      obtain rfl : sc' = sc := by
        have : d.score = some sc' := q2
        rw [hs] at this
        cases this; rfl
      have hds := q4 j _ he
      rw [digitize_eq lo hi st hst] at q3
      cases q3
      rw [List.getElem?_map, hsj, Option.map_some, Option.some.injEq] at hds
      obtain ⟨ls, _, c2, c3, c4, _⟩ := C16_nearest_level h lo hi st m hd hst hm
      obtain ⟨j', d1, lj, d2, d3⟩ := c4 s
      rw [digitizeScore_eq d lo hi st hst [] hd] at d1
      simp only [List.map_cons, List.map_nil, Except.ok.injEq, List.cons.injEq, and_true] at d1
      rw [d1] at hds
      have hjj : j' = e.level.1 := by exact_mod_cast hds
      rw [hjj] at d2
      have hlj := c3 _ _ d2
      have hjm : e.level.1 < ls.length := (List.getElem?_eq_some_iff.1 d2).1
      refine ⟨by omega, ?_⟩
      intro i hi'
      have hil : i < ls.length := by omega
      have hli := c3 i _ (List.getElem?_eq_getElem hil)
      have := d3 i _ (List.getElem?_eq_getElem hil)
      rw [hlj, hli, hjj] at this
      exact this
  · rw [h3', hp, hN]
  · unfold ScoreData.getScoreLevels
    simp only [hd, hn, hlo, hhi, hlev, bind, Except.bind]
  · rw [h3r, hres, ← hlen]
    rfl

/-- C70 for MultinomialPLSA: on loaded data over a regular score domain and any `event_index` of two
columns, `fit` succeeds, and the parameters are those reached by EM steps on exactly the given events
with digitized scores, from the drawn responsibilities; the stored levels are those of the domain. -/
theorem C70_plsa_fit (cf : Config γ) (hk : 0 < cf.k) (mk : Int → γ) (env : γ)
    (r : Rec ℝ α φ ε γ Params Val) {d : ScoreData ℝ α φ ε} {rows : List (List α)} {sc : List ℝ}
    (h : ScoreBuilt d rows sc) (_hne : rows ≠ []) (lo hi st : ℝ) (m : Nat)
    (hd : d.scoreDomain = some [lo, hi, st]) (hst : 0 < st) (hm : hi = lo + (m : ℝ) * st)
    (idx : Option (List Int)) (c₀ c₁ : Nat) (hjs : columnsOf d.toEventData idx = .ok [c₀, c₁]) :
    ∃ (r' : Rec ℝ α φ ε γ Params Val) (nu ni nl N : Nat) (evl : List (Ev nu ni nl)) (g : γ) (levels : List ℝ),
      Rec.fitPredictor (plsa cf) mk env r d idx = .ok r' ∧
      TrainedOnLevels d.toEventData rows sc c₀ c₁ lo st m evl ∧
      (∀ t, d.eventOtypes[c₀]? = some t → nu = count d.eventOtypes rows t) ∧
      (∀ t, d.eventOtypes[c₁]? = some t → ni = count d.eventOtypes rows t) ∧ nl = m + 1 ∧
      r'.params = some (store (reached cf.alpha (fun e => evl[e]) (drawn cf.rng cf.k g evl) N) levels) ∧
      d.getScoreLevels = .ok levels ∧ N ≤ cf.maxiter ∧ (1 ≤ cf.maxiter → 1 ≤ N) := by
  obtain ⟨r', nu, ni, nl, N, evl, levels, it, cur, h1, h2, h3, h4, h5, h6, h7, h8, h9, _⟩ :=
    plsa_fit_run cf hk mk env r h _hne lo hi st m hd hst hm idx c₀ c₁ hjs
  exact ⟨r', nu, ni, nl, N, evl, _, levels, h1, h2, h3, h4, h5, h6, h7, h8, h9⟩

/-- Two users, one item, the scores 0 and 1 over the domain (0, 1, 1). -/
def exScores : ScoreData ℝ Nat Nat Nat := ⟨MF.exSquare, some [0, 1, 1], some [0, 1], some 2⟩

theorem exScores_built : ScoreBuilt exScores [[1, 10], [2, 20]] [0, 1] := by
  refine .load (d0 := ⟨⟨2, [0, 0], [none, none], [none, none], [none, none], 2, [0, 1], 0, none, none⟩,
    none, none, none⟩) (event := ⟨2, [[1, 10], [2, 20]]⟩) (dom := some [0, 1, 1]) (ef := none)
    (.init (n := 2) (arg := .none) rfl) ?_ (by rintro f ⟨⟩) rfl ?_
  · intro r hr
    simp only [List.mem_cons, List.not_mem_nil, or_false] at hr
    rcases hr with rfl | rfl <;> rfl
  · unfold ScoreData.setEvent
    have h1 := EventData.setEvent_eq (⟨2, [0, 0], [none, none], [none, none], [none, none], 2, [0, 1], 0,
      none, none⟩ : EventData Nat Nat Nat) (Reachable.init (n := 2) (arg := .none) rfl).wf
      ⟨2, [[1, 10], [2, 20]]⟩ (by
        intro r hr
        simp only [List.mem_cons, List.not_mem_nil, or_false] at hr
        rcases hr with rfl | rfl <;> rfl) rfl none
    simp only [h1, ScoreData.resolveDomain, levels_binary]
    rfl

/-- The hypotheses of C70 and C43 hold for `exScores`. -/
example : ∃ r', Rec.fitPredictor (plsa (exConfig 3)) (fun _ => ()) () (Rec.init (some 1) initialResults)
    exScores none = .ok r' ∧ exScores.eventOtypes = [0, 1] ∧ 0 < (exConfig 3).alpha ∧
    DrawsWeights (exConfig 3).rng := by
  obtain ⟨r', _, _, _, _, _, _, _, h, _⟩ := C70_plsa_fit (exConfig 3) Nat.one_pos (fun _ => ()) ()
    (Rec.init (some 1) initialResults) exScores_built (by simp) 0 1 1 1 rfl one_pos (by norm_num) none 0 1
    rfl
  refine ⟨r', h, rfl, one_pos, ?_⟩
  intro k g a z
  exact zero_le_one

end PLSA

namespace MF

theorem exScores_several (c : Nat) : Several PLSA.exScores.eventOtypes [[1, 10], [2, 20]] c := by
  intro t ht
  have e : PLSA.exScores.eventOtypes = [0, 1] := rfl
  rw [e] at ht ⊢
  rw [← length_ids]
  match c with
  | 0 => simp only [List.getElem?_cons_zero, Option.some.injEq] at ht; subst ht; decide +kernel
  | 1 => simp only [List.getElem?_cons_succ, List.getElem?_cons_zero, Option.some.injEq] at ht; subst ht; decide +kernel
  | c + 2 => simp at ht

/-- The hypotheses of C70 for the explicit models hold for `PLSA.exScores`. -/
example : ScoreBuilt PLSA.exScores [[1, 10], [2, 20]] [0, 1] ∧
    PLSA.exScores.scoreDomain = some [0, 1, 1] ∧ PLSA.exScores.nScoreLevels = some 2 ∧
    columnsOf PLSA.exScores.toEventData (some [1, 0]) = .ok [1, 0] ∧
    Several PLSA.exScores.eventOtypes [[1, 10], [2, 20]] 1 ∧ Several PLSA.exScores.eventOtypes [[1, 10], [2, 20]] 0 :=
  ⟨PLSA.exScores_built, rfl, rfl, rfl, exScores_several 1, exScores_several 0⟩

/-- Users 1 and 2 and the single item 10, with scores. -/
def exOneItem : ScoreData ℝ Nat Nat Nat := ⟨exPair, some [0, 1, 1], some [0, 1], some 2⟩

theorem exOneItem_built : ScoreBuilt exOneItem [[1, 10], [2, 10]] [0, 1] := by
  refine .load (d0 := ⟨⟨2, [0, 0], [none, none], [none, none], [none, none], 2, [0, 1], 0, none, none⟩,
    none, none, none⟩) (event := ⟨2, [[1, 10], [2, 10]]⟩) (dom := some [0, 1, 1]) (ef := none)
    (.init (n := 2) (arg := .none) rfl) ?_ (by rintro f ⟨⟩) rfl ?_
  · intro r hr
    simp only [List.mem_cons, List.not_mem_nil, or_false] at hr
    rcases hr with rfl | rfl <;> rfl
  · unfold ScoreData.setEvent
    have h1 := EventData.setEvent_eq (⟨2, [0, 0], [none, none], [none, none], [none, none], 2, [0, 1], 0,
      none, none⟩ : EventData Nat Nat Nat) (Reachable.init (n := 2) (arg := .none) rfl).wf
      ⟨2, [[1, 10], [2, 10]]⟩ (by
        intro r hr
        simp only [List.mem_cons, List.not_mem_nil, or_false] at hr
        rcases hr with rfl | rfl <;> rfl) rfl none
    simp only [h1, ScoreData.resolveDomain, levels_binary]
    rfl

theorem exOneItem_count : count exOneItem.eventOtypes [[1, 10], [2, 10]] 1 = 1 := by
  have e : exOneItem.eventOtypes = [0, 1] := rfl
  rw [e, ← length_ids]
  decide +kernel

/-- The full C70 is false of the code: two users and the single item 10 cannot be fitted. -/
theorem C70_refuted : ¬ C70_full := by
  intro h
  obtain ⟨r', hr'⟩ := h ⟨1, 1, "CG", [], fun _ f _ x0 _ _ => ⟨x0, true, 0, "", f x0, 1, 1, 1⟩, ⟨fun _ _ _ _ _ => (fun _ _ => 1, ())⟩⟩
    (Rec.init none initialResults) exOneItem _ _ exOneItem_built (by simp) rfl
  obtain ⟨_, e⟩ := (C70_one_object _ (fun _ => ()) () (Rec.init none initialResults) exOneItem_built (some [0, 1]) 0 1 1 rfl
    (.inr rfl) exOneItem_count).1
  rw [hr'] at e
  cases e

end MF
end Kam
