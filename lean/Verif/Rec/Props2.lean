/-
Property theorems for the recommender base classes, continued (C21-C23, C25, C26, C38, C69).
-/
import Verif.Rec.Props

set_option linter.unusedSectionVars false

namespace Kam
open Spec
variable {K : Type} [Field K] [LinearOrder K] [IsStrictOrderedRing K] [FloorRing K]
variable {α φ ε γ θ V : Type} [LinearOrder α]

/-- C21: one type per column in order, columns used in order: `predict` scores the internal ids
of the requested objects, unknown ids being the unknown object of their column. -/
theorem C21_predict_scores_internal_ids {L : Learner K γ θ V} {mk : Int → γ} {env : γ}
    {r r' : Rec K α φ ε γ θ V} {d : EventData α φ ε} {rows : List (List α)} (h : Built d rows)
    (hlay : d.eventOtypes = List.range d.sEvent) (idx : Option (List Int))
    (hidx : idx = none ∨ idx = some ((List.range d.sEvent).map Int.ofNat))
    (hfit : FittedBy L mk env r d idx r') :
    ∃ p, r'.params = some p ∧ PredictsRight L r' p d rows (List.range d.sEvent) := by
  have hd := h.holds
  obtain ⟨js, hjs, hf, ⟨p, hp⟩, _⟩ := hfit.fittedOn hd
  have hcol : columnsOf d idx = .ok (List.range d.sEvent) := by
    rcases hidx with rfl | rfl
    · rfl
    · exact positions_nat _ _ (by simp)
  rw [hjs] at hcol
  cases hcol
  refine ⟨p, hp, predict_identity hd hf hjs hp ?_⟩
  intro e t ht
  rw [hlay] at ht ⊢
  rw [List.getElem?_eq_some_iff] at ht
  obtain ⟨hlt, ht⟩ := ht
  simp only [List.getElem_range] at ht
  subst ht
  simp only [List.length_range] at hlt
  exact List.getElem?_range hlt

/-- C22 (partial): all columns in order, and a layout in which the type of each column is also
the type of the column with that number (for instance two columns of one type, `(0, 0)`).
Missing: other layouts and event indices, for which the claim is false (`C22_refuted_*`). -/
theorem C22_predict_any_layout_partial {L : Learner K γ θ V} {mk : Int → γ} {env : γ}
    {r r' : Rec K α φ ε γ θ V} {d : EventData α φ ε} {rows : List (List α)} (h : Built d rows)
    (hidem : ∀ (e t : Nat), d.eventOtypes[e]? = some t → d.eventOtypes[t]? = some t)
    (idx : Option (List Int)) (hidx : columnsOf d idx = .ok (List.range d.sEvent))
    (hfit : FittedBy L mk env r d idx r') :
    ∃ p, r'.params = some p ∧ PredictsRight L r' p d rows (List.range d.sEvent) := by
  have hd := h.holds
  obtain ⟨js, hjs, hf, ⟨p, hp⟩, _⟩ := hfit.fittedOn hd
  rw [hidx] at hjs
  cases hjs
  exact ⟨p, hp, predict_identity hd hf hidx hp hidem⟩

/-! Witnesses against the full C22. -/

/-- A model that learns nothing and predicts the first internal id it is given. -/
def exLearner : Learner ℚ Unit Unit Unit where
  train := fun _ => .ok ((), [])
  rawPredict := fun _ rows => rows.mapM (fun row => do return ((← npGet row 0 : Int) : ℚ))

def exRec : Rec ℚ Nat Nat Nat Unit Unit Unit := Rec.init none []

/-- Users 1 and 2 and the single item 10. -/
def exPair : EventData Nat Nat Nat :=
  (⟨2, [0, 0], [none, none], [none, none], [none, none], 2, [0, 1], 0, none, none⟩ :
    EventData Nat Nat Nat).loaded [[1, 10], [2, 10]] none

theorem exPair_built : Built exPair [[1, 10], [2, 10]] :=
  .load (d0 := ⟨2, [0, 0], [none, none], [none, none], [none, none], 2, [0, 1], 0, none, none⟩)
    (event := ⟨2, [[1, 10], [2, 10]]⟩) (ef := none)
    (.init (n := 2) (arg := .none) rfl)
    (by intro r hr; simp only [List.mem_cons, List.not_mem_nil, or_false] at hr
        rcases hr with rfl | rfl <;> rfl)
    (by rintro f ⟨⟩)
    (EventData.setEvent_eq _ (Reachable.init (n := 2) (arg := .none) rfl).wf _
      (by intro r hr; simp only [List.mem_cons, List.not_mem_nil, or_false] at hr
          rcases hr with rfl | rfl <;> rfl) rfl _)

/-- The same events with the layout `(1, 0)`: the first column holds objects of type 1. -/
def exFlip : EventData Nat Nat Nat :=
  (⟨2, [0, 0], [none, none], [none, none], [none, none], 2, [1, 0], 0, none, none⟩ :
    EventData Nat Nat Nat).loaded [[1, 10], [2, 10]] none

theorem exFlip_built : Built exFlip [[1, 10], [2, 10]] :=
  .load (d0 := ⟨2, [0, 0], [none, none], [none, none], [none, none], 2, [1, 0], 0, none, none⟩)
    (event := ⟨2, [[1, 10], [2, 10]]⟩) (ef := none)
    (.init (n := 2) (arg := .arr 1 [1, 0]) rfl)
    (by intro r hr; simp only [List.mem_cons, List.not_mem_nil, or_false] at hr
        rcases hr with rfl | rfl <;> rfl)
    (by rintro f ⟨⟩)
    (EventData.setEvent_eq _ (Reachable.init (n := 2) (arg := .arr 1 [1, 0]) rfl).wf _
      (by intro r hr; simp only [List.mem_cons, List.not_mem_nil, or_false] at hr
          rcases hr with rfl | rfl <;> rfl) rfl _)

/-- The full statement of C22. -/
def C22_full : Prop := ∀ (L : Learner ℚ Unit Unit Unit) (mk : Int → Unit) (env : Unit)
    (r r' : Rec ℚ Nat Nat Nat Unit Unit Unit) (d : EventData Nat Nat Nat) (rows : List (List Nat))
    (idx : Option (List Int)) (js : List Nat), Built d rows → columnsOf d idx = .ok js →
    FittedBy L mk env r d idx r' →
    ∃ p, r'.params = some p ∧ PredictsRight L r' p d rows js

/-- The recommender after a successful `fit` (the old one if it fails). -/
def fittedRec (d : EventData Nat Nat Nat) (idx : Option (List Int)) :
    Rec ℚ Nat Nat Nat Unit Unit Unit :=
  match Rec.fitImplicit exLearner (fun _ => ()) () exRec d idx with
  | .ok r => r
  | .error e => e.2

theorem encodes_single {ot : List Nat} {rows : List (List Nat)} {js : List Nat} {row : List Nat}
    {os : List (List Int)} (h : List.Forall₂ (Encodes ot rows js) [row] os) :
    ∃ o, os = [o] ∧ Encodes ot rows js row o := by
  cases h with
  | cons h1 h2 => cases h2; exact ⟨_, rfl, h1⟩

/-- Recommender trained with `event_index=(1, 0)` (item first): the request of the known user 1 and
the known item 10 is scored as two unknown objects. -/
theorem C22_refuted_event_index : ¬ C22_full := by
  intro hall
  obtain ⟨p, hp, hpr⟩ := hall exLearner (fun _ => ()) () exRec (fittedRec exPair (some [1, 0])) exPair
    [[1, 10], [2, 10]]
    (some [1, 0]) [1, 0] exPair_built rfl (.implicit rfl)
  obtain ⟨os, h1, h2⟩ := hpr ⟨2, [[1, 10]]⟩
    (by intro r hr; simp only [List.mem_cons, List.not_mem_nil, or_false] at hr; subst hr; rfl)
    rfl (by decide) (by simp)
  obtain ⟨o, rfl, h3, h4⟩ := encodes_single h1
  have h5 := h4 0 1 1 10 rfl rfl rfl
  have hl : lookup exPair.eventOtypes [[1, 10], [2, 10]] 1 10 = 0 := by
    rw [← idxOf_lookup]; rfl
  rw [hl] at h5
  obtain ⟨x, y, rfl⟩ := List.length_eq_two.1 h3
  cases h5
  have h6 : (Except.ok (Pred.scalar 1) : Res (Pred ℚ)) = .ok (Pred.scalar 0) := h2
  cases h6

/-- Recommender trained on a container with layout `(1, 0)` and all defaults: an unknown object in
the first column is scored with internal id 1, which is the known object 2. -/
theorem C22_refuted_layout : ¬ C22_full := by
  intro hall
  obtain ⟨p, hp, hpr⟩ := hall exLearner (fun _ => ()) () exRec (fittedRec exFlip none) exFlip [[1, 10], [2, 10]]
    none [0, 1] exFlip_built rfl (.implicit rfl)
  obtain ⟨os, h1, h2⟩ := hpr ⟨2, [[3, 10]]⟩
    (by intro r hr; simp only [List.mem_cons, List.not_mem_nil, or_false] at hr; subst hr; rfl)
    rfl (by decide) (by simp)
  obtain ⟨o, rfl, h3, h4⟩ := encodes_single h1
  have h5 := h4 0 0 1 3 rfl rfl rfl
  have hl : lookup exFlip.eventOtypes [[1, 10], [2, 10]] 1 3 = 2 := by
    rw [← idxOf_lookup]; rfl
  rw [hl] at h5
  obtain ⟨x, y, rfl⟩ := List.length_eq_two.1 h3
  cases h5
  have h6 : (Except.ok (Pred.scalar 1) : Res (Pred ℚ)) = .ok (Pred.scalar 2) := h2
  cases h6

/-- With an event index shorter than the events, `fit` succeeds but every `predict` raises. -/
theorem C22_refuted_width :
    FittedBy exLearner (fun _ => ()) () exRec exLoaded (some [0, 1])
      (fittedRec exLoaded (some [0, 1])) ∧
    ∀ row : List Nat, row.length = 3 →
      ∃ e, Rec.predict exLearner (fittedRec exLoaded (some [0, 1])) (.vec row) = .error e := by
  refine ⟨.implicit rfl, ?_⟩
  intro row hrow
  match row, hrow with
  | [a, b, c], _ => exact ⟨.indexError, rfl⟩

example : Built exPair [[1, 10], [2, 10]] ∧ exPair.eventOtypes = List.range exPair.sEvent ∧
    ∃ r', FittedBy exLearner (fun _ => ()) () exRec exPair none r' :=
  ⟨exPair_built, rfl, _, .implicit rfl⟩

/-! ### C23 -/

/-- `raw_predict` treats the rows of a batch one by one (proved for the concrete models in
Verif/MF and Verif/PLSA). -/
def RowWise (L : Learner K γ θ V) (p : θ) : Prop :=
  ∃ f : List Int → Res K, ∀ rows, L.rawPredict p rows = rows.mapM f

theorem mapM_bind {ε' α' β' γ' : Type} (f : α' → Except ε' β') (g : β' → Except ε' γ') (l : List α')
    (r : List γ') :
    (l.mapM f >>= fun ys => ys.mapM g) = .ok r ↔ l.mapM (fun x => f x >>= g) = .ok r := by
  rw [mapM_ok_iff]
  constructor
  · intro h
    cases hf : l.mapM f with
    | error e => rw [hf] at h; cases h
    | ok ys =>
      rw [hf] at h
      have h : ys.mapM g = .ok r := h
      rw [mapM_ok_iff] at h hf
      clear * - h hf
      induction hf generalizing r with
      | nil => cases h; exact .nil
      | cons h1 _ ih =>
        cases h with
        | cons h3 h4 =>
          refine .cons ?_ (ih _ h4)
          rw [h1]; exact h3
  · intro h
    induction h with
    | nil => rfl
    | @cons x z l r h1 _ ih =>
      rw [List.mapM_cons]
      cases hx : f x with
      | error e => rw [hx] at h1; cases h1
      | ok y =>
        rw [hx] at h1
        cases hl : l.mapM f with
        | error e => rw [hl] at ih; cases ih
        | ok ys =>
          rw [hl] at ih
          have ih : ys.mapM g = .ok r := ih
          have h1 : g y = .ok z := h1
          simp only [bind, Except.bind, pure, Except.pure, hx, hl] at *
          rw [List.mapM_cons]
          simp [h1, ih, bind, Except.bind, pure, Except.pure]

/-- One request row, from external ids to the score. -/
def predictRow (r : Rec K α φ ε γ θ V) (ix : List Int)
    (m : EventData.Missing) (f : List Int → Res K) (row : List α) : Res K :=
  npTake row ix >>= fun x => r.info.toIidRow m x >>= f

theorem predict_ok_iff {L : Learner K γ θ V} {r : Rec K α φ ε γ θ V} {p : θ} {ix : List Int}
    {m : EventData.Missing} {f : List Int → Res K} (hp : r.params = some p)
    (hix : r.eventIndex = some ix) (hm : r.info.resolveMissing .none = .ok m)
    (hlen : ix.length = r.info.sEvent) (hf : ∀ rows, L.rawPredict p rows = rows.mapM f)
    (a : Arr2 α) (hne : a.rows ≠ []) (hc : a.ncols ≠ 0) (y : Pred K) :
    Rec.predict L r (.mat a) = .ok y ↔
      ∃ ys, y = squeeze ys ∧ a.rows.mapM (predictRow r ix m f) = .ok ys := by
  have he : a.rows.isEmpty = false := by simpa using hne
  have e1 : Rec.predict L r (.mat a) = ((a.rows.mapM (fun row => npTake row ix)) >>= fun rows =>
      rows.mapM (r.info.toIidRow m) >>= fun b => b.mapM f).map squeeze := by
    unfold Rec.predict Rec.checkArray EventData.toIidEvent
    simp only [bind, Except.bind, he, Bool.false_or, beq_iff_eq, hc, if_false, hix, hm, hlen,
      if_true, hp, pure, Except.pure, hf]
    cases hr : a.rows.mapM (fun row => npTake row ix) with
    | error e => rfl
    | ok rows =>
      simp only
      cases hr2 : rows.mapM (r.info.toIidRow m) with
      | error e => rfl
      | ok b =>
        simp only
        cases b.mapM f <;> rfl
  have e2 : ∀ ys, ((a.rows.mapM (fun row => npTake row ix)) >>= fun rows =>
      rows.mapM (r.info.toIidRow m) >>= fun b => b.mapM f) = .ok ys ↔
      a.rows.mapM (predictRow r ix m f) = .ok ys := by
    intro ys
    have : ((a.rows.mapM (fun row => npTake row ix)) >>= fun rows =>
        rows.mapM (r.info.toIidRow m) >>= fun b => b.mapM f) = .ok ys ↔
        ((a.rows.mapM (fun row => npTake row ix)) >>= fun rows =>
          rows.mapM (fun x => r.info.toIidRow m x >>= f)) = .ok ys := by
      cases a.rows.mapM (fun row => npTake row ix) with
      | error e => exact Iff.rfl
      | ok rows => exact mapM_bind (r.info.toIidRow m) f rows ys
    rw [this, mapM_bind]
    rfl
  rw [e1]
  constructor
  · intro h
    cases hx : ((a.rows.mapM (fun row => npTake row ix)) >>= fun rows =>
      rows.mapM (r.info.toIidRow m) >>= fun b => b.mapM f) with
    | error e => rw [hx] at h; cases h
    | ok ys =>
      rw [hx] at h
      cases h
      exact ⟨ys, rfl, (e2 ys).1 hx⟩
  · rintro ⟨ys, rfl, h⟩
    rw [(e2 ys).2 h]
    rfl

/-- C23: a batch of at least two rows is predicted exactly when each of its rows is, and then the
result is the vector of the predictions of the single rows; each of these is a scalar. -/
theorem C23_batch_row_wise {L : Learner K γ θ V} {r : Rec K α φ ε γ θ V} {p : θ}
    (hp : r.params = some p) (hL : RowWise L p) (a : Arr2 α) (hreg : a.Regular)
    (hc : a.ncols ≠ 0) :
    (2 ≤ a.rows.length → ∀ y, Rec.predict L r (.mat a) = .ok y ↔
      ∃ ys, y = .vec ys ∧
        List.Forall₂ (fun row x => Rec.predict L r (.vec row) = .ok (.scalar x)) a.rows ys) ∧
    (∀ row y, row ∈ a.rows → Rec.predict L r (.vec row) = .ok y → ∃ x, y = .scalar x) := by
  obtain ⟨f, hf⟩ := hL
  -- the cases in which nothing can be predicted
  have hnone : r.eventIndex = none → ∀ e : ArrN α, ∀ y, Rec.predict L r e ≠ .ok y := by
    intro h e y hy
    unfold Rec.predict at hy
    simp only [bind, Except.bind, h] at hy
    cases hca : Rec.checkArray e with
    | error e => rw [hca] at hy; cases hy
    | ok a => rw [hca] at hy; cases hy
  have hvec : ∀ row : List α, Rec.predict L r (.vec row) = Rec.predict L r (.mat ⟨row.length, [row]⟩) :=
    fun _ => rfl
  cases hix : r.eventIndex with
  | none =>
    refine ⟨fun h2 y => ⟨fun h => absurd h (hnone hix _ _), ?_⟩, fun row y _ h => absurd h (hnone hix _ _)⟩
    rintro ⟨ys, rfl, h⟩
    exfalso
    match hrows : a.rows, ys, h with
    | [], _, _ => rw [hrows] at h2; simp at h2
    | row :: _, y :: _, .cons h1 _ => exact hnone hix _ _ h1
  | some ix =>
    have hbad : (ix.length ≠ r.info.sEvent ∨ (∀ m, r.info.resolveMissing .none ≠ .ok m)) →
        ∀ e : ArrN α, ∀ y, Rec.predict L r e ≠ .ok y := by
      intro hb e y hy
      unfold Rec.predict EventData.toIidEvent at hy
      simp only [bind, Except.bind, hix] at hy
      cases hca : Rec.checkArray e with
      | error e => rw [hca] at hy; cases hy
      | ok a =>
        rw [hca] at hy
        simp only at hy
        cases hr : a.rows.mapM (fun row => npTake row ix) with
        | error e => rw [hr] at hy; cases hy
        | ok rows =>
          rw [hr] at hy
          simp only at hy
          cases hm : r.info.resolveMissing .none with
          | error e => rw [hm] at hy; cases hy
          | ok m =>
            rw [hm] at hy
            rcases hb with hb | hb
            · simp only [hb, if_false] at hy
              cases hy
            · exact hb m hm
    by_cases hlen : ix.length = r.info.sEvent
    · cases hm : r.info.resolveMissing .none with
      | error e =>
        have hb := hbad (Or.inr (fun m h => by rw [hm] at h; cases h))
        refine ⟨fun h2 y => ⟨fun h => absurd h (hb _ _), ?_⟩, fun row y _ h => absurd h (hb _ _)⟩
        rintro ⟨ys, rfl, h⟩
        exfalso
        match hrows : a.rows, ys, h with
        | [], _, _ => rw [hrows] at h2; simp at h2
        | row :: _, y :: _, .cons h1 _ => exact hb _ _ h1
      | ok m =>
        have hsingle : ∀ row ∈ a.rows, ∀ y, Rec.predict L r (.vec row) = .ok y ↔
            ∃ x, y = .scalar x ∧ predictRow r ix m f row = .ok x := by
          intro row hr y
          rw [hvec, predict_ok_iff hp hix hm hlen hf _ (by simp) (by
            simpa using (by rw [hreg row hr]; exact hc : row.length ≠ 0))]
          simp only [List.mapM_cons, List.mapM_nil, bind, Except.bind, pure, Except.pure]
          constructor
          · rintro ⟨ys, rfl, h⟩
            cases hx : predictRow r ix m f row with
            | error e => rw [hx] at h; cases h
            | ok x => rw [hx] at h; cases h; exact ⟨x, rfl, rfl⟩
          · rintro ⟨x, rfl, h⟩
            refine ⟨[x], rfl, ?_⟩
            rw [h]
        refine ⟨?_, ?_⟩
        · intro h2 y
          have hne : a.rows ≠ [] := by intro h; rw [h] at h2; simp at h2
          rw [predict_ok_iff hp hix hm hlen hf a hne hc]
          have hF : ∀ ys, a.rows.mapM (predictRow r ix m f) = .ok ys ↔
              List.Forall₂ (fun row x => Rec.predict L r (.vec row) = .ok (.scalar x)) a.rows ys := by
            intro ys
            rw [mapM_ok_iff]
            have hiff : ∀ row ∈ a.rows, ∀ x, predictRow r ix m f row = .ok x ↔
                Rec.predict L r (.vec row) = .ok (.scalar x) := by
              intro row hr x
              rw [hsingle row hr]
              constructor
              · intro h; exact ⟨x, rfl, h⟩
              · rintro ⟨x', hx', h⟩
                cases hx'; exact h
            clear * - hiff
            generalize a.rows = rows at hiff
            induction rows generalizing ys with
            | nil =>
              cases ys with
              | nil => simp
              | cons y ys => simp
            | cons row rows ih =>
              cases ys with
              | nil => simp
              | cons y ys =>
                rw [List.forall₂_cons, List.forall₂_cons]
                exact and_congr (hiff row List.mem_cons_self y)
                  (ih ys (fun row' h => hiff row' (List.mem_cons_of_mem _ h)))
          constructor
          · rintro ⟨ys, rfl, h⟩
            have hl := mapM_ok_length h
            refine ⟨ys, ?_, (hF ys).1 h⟩
            match ys, hl with
            | [], hl => rfl
            | [x], hl => simp at hl; omega
            | x :: y :: ys, hl => rfl
          · rintro ⟨ys, rfl, h⟩
            have h' := (hF ys).2 h
            have hl := mapM_ok_length h'
            refine ⟨ys, ?_, h'⟩
            match ys, hl with
            | [], hl => rfl
            | [x], hl => simp at hl; omega
            | x :: y :: ys, hl => rfl
        · intro row y hr h
          obtain ⟨x, hx, _⟩ := (hsingle row hr y).1 h
          exact ⟨x, hx⟩
    · have hb := hbad (Or.inl hlen)
      refine ⟨fun h2 y => ⟨fun h => absurd h (hb _ _), ?_⟩, fun row y _ h => absurd h (hb _ _)⟩
      rintro ⟨ys, rfl, h⟩
      exfalso
      match hrows : a.rows, ys, h with
      | [], _, _ => rw [hrows] at h2; simp at h2
      | row :: _, y :: _, .cons h1 _ => exact hb _ _ h1

example : RowWise exLearner () := ⟨_, fun _ => rfl⟩

/-- C23, the boundaries: a batch without rows or without columns is refused with `ValueError` by every recommender, and
a batch of one row is the request of that row. -/
theorem C23_empty_and_single (L : Learner K γ θ V) (r : Rec K α φ ε γ θ V) :
    (∀ a : Arr2 α, a.rows = [] ∨ a.ncols = 0 → Rec.predict L r (.mat a) = .error .valueError) ∧
    Rec.predict L r (.vec []) = .error .valueError ∧
    ∀ row : List α, Rec.predict L r (.mat ⟨row.length, [row]⟩) = Rec.predict L r (.vec row) := by
  refine ⟨?_, rfl, fun _ => rfl⟩
  rintro ⟨n, rows⟩ (h | h)
  · simp only at h; subst h; rfl
  · simp only at h; subst h
    unfold Rec.predict Rec.checkArray
    simp [bind, Except.bind]

/-! ### C25 -/

/-- C25: after a successful `fit` the recommender holds no events, event features, scores or
random generator, and whatever these attributes are, `predict` gives the same answer. -/
theorem C25_training_data_dropped {L : Learner K γ θ V} {mk : Int → γ} {env : γ}
    {r r' : Rec K α φ ε γ θ V} {d : EventData α φ ε} {rows : List (List α)} (h : Built d rows)
    {idx : Option (List Int)} (hfit : FittedBy L mk env r d idx r') :
    r'.info.event = none ∧ r'.info.eventFeature = none ∧ r'.score = none ∧ r'.rng = none ∧
    ∀ (ev : Option (List (List Int))) (ef : Option (List ε)) (sc : Option (List K))
      (g : Option γ) (eev : ArrN α),
      Rec.predict L { r' with info := { r'.info with event := ev, eventFeature := ef }
                              score := sc, rng := g } eev = Rec.predict L r' eev := by
  obtain ⟨_, _, _, _, h1, h2, h3, h4⟩ := hfit.fittedOn h.holds
  exact ⟨h1, h2, h3, h4, fun _ _ _ _ _ => rfl⟩

example : ∃ r', FittedBy exLearner (fun _ => ()) () exRec exLoaded none r' := ⟨_, .implicit rfl⟩

end Kam
