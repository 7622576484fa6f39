/-
Property theorems for the recommender base classes, continued (C38, C69).
-/
import Verif.Rec.Props3

set_option linter.unusedSectionVars false

namespace Kam
open Spec
variable {K : Type} [Field K] [LinearOrder K] [IsStrictOrderedRing K] [FloorRing K]
variable {α φ ε γ θ V : Type} [LinearOrder α]

/-! ### C38 -/

/-- The full claim: the matrix made from the training events of a fitted implicit item finder has
the shape users x items of the two selected columns, and its entries tell whether a pair occurs. -/
def BinaryMatrix (d : EventData α φ ε) (rows : List (List α)) (c0 c1 : Nat)
    (m : List (List Nat)) : Prop :=
  ∀ t0 t1, d.eventOtypes[c0]? = some t0 → d.eventOtypes[c1]? = some t1 →
    m.length = count d.eventOtypes rows t0 ∧
    (∀ mr ∈ m, mr.length = count d.eventOtypes rows t1) ∧
    ∀ x y, IsObject d.eventOtypes rows t0 x → IsObject d.eventOtypes rows t1 y →
      ∃ mr, m[rank d.eventOtypes rows t0 x]? = some mr ∧
        ((∃ row ∈ rows, row[c0]? = some x ∧ row[c1]? = some y) →
          mr[rank d.eventOtypes rows t1 y]? = some 1) ∧
        ((¬ ∃ row ∈ rows, row[c0]? = some x ∧ row[c1]? = some y) →
          mr[rank d.eventOtypes rows t1 y]? = some 0)

/-- C38 (partial): for columns of types 0 and 1 in front and the default `event_index=(0, 1)`, the
matrix holds the number of occurrences of each pair.  Missing: repeated events (their entries
exceed 1), other event indices and layouts (`C38_refuted_*`). -/
theorem C38_counts_partial (mk : Int → γ) (env : γ) (r : Rec K α φ ε γ θ V) {d : EventData α φ ε}
    {rows : List (List α)} (h : Built d rows) (h0 : d.eventOtypes[0]? = some 0)
    (h1 : d.eventOtypes[1]? = some 1) {r' : Rec K α φ ε γ θ V}
    (hfit : Rec.eventFit mk env r d (some [0, 1]) = .ok r') :
    ∃ m, getEventArray r'.view = .ok (m, [count d.eventOtypes rows 0, count d.eventOtypes rows 1]) ∧
      m.length = count d.eventOtypes rows 0 ∧
      (∀ mr ∈ m, mr.length = count d.eventOtypes rows 1) ∧
      ∀ x y, IsObject d.eventOtypes rows 0 x → IsObject d.eventOtypes rows 1 y →
        ∃ mr, m[rank d.eventOtypes rows 0 x]? = some mr ∧
          mr[rank d.eventOtypes rows 1 y]? =
            some (rows.countP (fun row => decide (row[0]? = some x ∧ row[1]? = some y))) := by
  have hd := h.holds
  have hlen : d.eventOtypes.length = d.sEvent := hd.wf.len_otypes
  have h1lt : 1 < d.eventOtypes.length := (List.getElem?_eq_some_iff.1 h1).1
  have hjs : columnsOf d (some [0, 1]) = .ok [0, 1] :=
    positions_nat [0, 1] d.sEvent (by simp; omega)
  rw [eventFit_eq mk env r hd _ _ hjs] at hfit
  simp only [Except.ok.injEq] at hfit
  subst hfit
  obtain ⟨tl, hot⟩ : ∃ tl, d.eventOtypes = 0 :: 1 :: tl := by
    match he : d.eventOtypes with
    | [] => rw [he] at h1; cases h1
    | [_] => rw [he] at h1; cases h1
    | a :: b :: tl => rw [he] at h0 h1; cases h0; cases h1; exact ⟨tl, rfl⟩
  let U : List α → Int := fun row => match row with
    | a :: _ => ((ids d.eventOtypes rows 0).idxOf a : Int)
    | [] => 0
  let I : List α → Int := fun row => match row with
    | _ :: b :: _ => ((ids d.eventOtypes rows 1).idxOf b : Int)
    | _ => 0
  have hshape : ∀ row ∈ rows, ∃ a b rs, row = a :: b :: rs := by
    intro row hr
    have := hd.reg row hr
    rw [hot] at this
    match row, this with
    | a :: b :: rs, _ => exact ⟨a, b, rs, rfl⟩
  have hobj : ∀ row ∈ rows, ∀ a b rs, row = a :: b :: rs →
      IsObject d.eventOtypes rows 0 a ∧ IsObject d.eventOtypes rows 1 b := by
    rintro row hr a b rs rfl
    exact ⟨⟨_, hr, 0, h0, rfl⟩, ⟨_, hr, 1, h1, rfl⟩⟩
  have henc : ∀ row ∈ rows, gather (encodeRow d.eventOtypes rows row) [0, 1] = [U row, I row] := by
    intro row hr
    obtain ⟨a, b, rs, rfl⟩ := hshape row hr
    have e0 := EventData.encodeRow_getElem? d.eventOtypes rows (a :: b :: rs) 0 0 a h0 rfl
    have e1 := EventData.encodeRow_getElem? d.eventOtypes rows (a :: b :: rs) 1 1 b h1 rfl
    simp only [gather, List.filterMap_cons, List.filterMap_nil, e0, e1, U, I]
  have hevent : (fittedInfo mk env r d rows (some [0, 1]) [0, 1]).view.event =
      rows.map (fun row => [U row, I row]) := by
    simp only [Rec.view, fittedInfo, Option.getD_some]
    exact List.map_congr_left henc
  have hn : (fittedInfo mk env r d rows (some [0, 1]) [0, 1]).view.nObjects =
      [count d.eventOtypes rows 0, count d.eventOtypes rows 1] := by
    simp only [Rec.view, fittedInfo]
    rw [← length_ids, ← length_ids]
    have g0 : (d.eventOtypes.map (fun t => (ids d.eventOtypes rows t).length))[0]? =
        some (ids d.eventOtypes rows 0).length := by simp [h0]
    have g1 : (d.eventOtypes.map (fun t => (ids d.eventOtypes rows t).length))[1]? =
        some (ids d.eventOtypes rows 1).length := by simp [h1]
    simp only [gather, List.filterMap_cons, List.filterMap_nil, g0, g1]
  have hts : npTake (fittedInfo mk env r d rows (some [0, 1]) [0, 1]).view.eventOtypes [0, 1] =
      .ok [0, 1] := by
    have : (fittedInfo mk env r d rows (some [0, 1]) [0, 1]).view.eventOtypes = 0 :: 1 :: tl := hot
    rw [this]
    have := npTake_gather (0 :: 1 :: tl) [0, 1] (by simp)
    exact this
  have hns : npTake [count d.eventOtypes rows 0, count d.eventOtypes rows 1] [0, 1] =
      .ok [count d.eventOtypes rows 0, count d.eventOtypes rows 1] := rfl
  have hu : (rows.map (fun row => [U row, I row])).mapM (fun row => npGet row 0) =
      .ok (rows.map U) := by
    rw [mapM_map]
    exact mapM_ok rows (fun row _ => rfl)
  have hi : (rows.map (fun row => [U row, I row])).mapM (fun row => npGet row 1) =
      .ok (rows.map I) := by
    rw [mapM_map]
    exact mapM_ok rows (fun row _ => rfl)
  have hzip : (rows.map U).zip (rows.map I) = rows.map (fun row => (U row, I row)) := by
    rw [List.zip_map']
  have hUI : ∀ row ∈ rows, ∃ x y, row[0]? = some x ∧ row[1]? = some y ∧
      IsObject d.eventOtypes rows 0 x ∧ IsObject d.eventOtypes rows 1 y ∧
      U row = ((ids d.eventOtypes rows 0).idxOf x : Int) ∧
      I row = ((ids d.eventOtypes rows 1).idxOf y : Int) := by
    intro row hr
    obtain ⟨a, b, rs, rfl⟩ := hshape row hr
    obtain ⟨o1, o2⟩ := hobj _ hr a b rs rfl
    exact ⟨a, b, rfl, rfl, o1, o2, rfl, rfl⟩
  have hall : (rows.map (fun row => (U row, I row))).all (fun p =>
      decide (0 ≤ p.1 ∧ p.1 < (count d.eventOtypes rows 0 : Int) ∧ 0 ≤ p.2 ∧
        p.2 < (count d.eventOtypes rows 1 : Int))) = true := by
    rw [List.all_eq_true]
    intro p hp
    obtain ⟨row, hr, rfl⟩ := List.mem_map.1 hp
    obtain ⟨x, y, _, _, ox, oy, ex, ey⟩ := hUI row hr
    have l0 := List.idxOf_lt_length_iff.2 ((mem_ids _ _ _ _).2 ox)
    have l1 := List.idxOf_lt_length_iff.2 ((mem_ids _ _ _ _).2 oy)
    rw [length_ids] at l0 l1
    simp only [decide_eq_true_eq, ex, ey]
    omega
  refine ⟨(List.range (count d.eventOtypes rows 0)).map (fun (u : Nat) =>
    (List.range (count d.eventOtypes rows 1)).map (fun (i : Nat) =>
      (rows.map (fun row => (U row, I row))).countP
        (fun p => decide (p.1 = (u : Int) ∧ p.2 = (i : Int))))), ?_, ?_, ?_, ?_⟩
  · unfold getEventArray
    have hix : (fittedInfo mk env r d rows (some [0, 1]) [0, 1]).view.eventIndex = [0, 1] := rfl
    rw [hevent, hn, hix, hts]
    have g0 : npGet ([0, 1] : List Int) 0 = .ok 0 := rfl
    have g1 : npGet ([0, 1] : List Int) 1 = .ok 1 := rfl
    have hm : ([0, 1] : List Nat).map Int.ofNat = [0, 1] := rfl
    simp only [bind, Except.bind, hm, hns, g0, g1, hu, hi, hzip, hall, if_true, pure, Except.pure]
  · simp
  · intro mr hmr
    obtain ⟨u, _, rfl⟩ := List.mem_map.1 hmr
    simp
  · intro x y ox oy
    have l0 := List.idxOf_lt_length_iff.2 ((mem_ids _ _ _ _).2 ox)
    have l1 := List.idxOf_lt_length_iff.2 ((mem_ids _ _ _ _).2 oy)
    rw [length_ids] at l0 l1
    rw [← idxOf_ids _ _ _ _ ox, ← idxOf_ids _ _ _ _ oy]
    refine ⟨(List.range (count d.eventOtypes rows 1)).map (fun (i : Nat) =>
      (rows.map (fun row => (U row, I row))).countP
        (fun p => decide (p.1 = (((ids d.eventOtypes rows 0).idxOf x : Nat) : Int) ∧
          p.2 = (i : Int)))), ?_, ?_⟩
    · rw [List.getElem?_map, List.getElem?_range l0]; rfl
    · rw [List.getElem?_map, List.getElem?_range l1]
      simp only [Option.map_some, Option.some.injEq]
      rw [List.countP_map]
      apply List.countP_congr
      intro row hr
      obtain ⟨x', y', rx, ry, ox', oy', ex, ey⟩ := hUI row hr
      simp only [Function.comp, decide_eq_true_eq, ex, ey, rx, ry, Option.some.injEq]
      constructor
      · rintro ⟨e1, e2⟩
        exact ⟨(List.idxOf_inj ((mem_ids _ _ _ _).2 ox')).1 (by exact_mod_cast e1),
          (List.idxOf_inj ((mem_ids _ _ _ _).2 oy')).1 (by exact_mod_cast e2)⟩
      · rintro ⟨rfl, rfl⟩
        exact ⟨rfl, rfl⟩

/-- C38 (partial): without repeated pairs the matrix is the claimed binary matrix. -/
theorem C38_binary_partial (mk : Int → γ) (env : γ) (r : Rec K α φ ε γ θ V) {d : EventData α φ ε}
    {rows : List (List α)} (h : Built d rows) (h0 : d.eventOtypes[0]? = some 0)
    (h1 : d.eventOtypes[1]? = some 1) (hnd : (rows.map (fun row => row.take 2)).Nodup)
    {r' : Rec K α φ ε γ θ V} (hfit : Rec.eventFit mk env r d (some [0, 1]) = .ok r') :
    ∃ m ns, getEventArray r'.view = .ok (m, ns) ∧ BinaryMatrix d rows 0 1 m := by
  obtain ⟨m, hm, hl, hw, hc⟩ := C38_counts_partial mk env r h h0 h1 hfit
  refine ⟨m, _, hm, ?_⟩
  intro t0 t1 e0 e1
  rw [h0] at e0
  rw [h1] at e1
  cases e0
  cases e1
  refine ⟨hl, hw, ?_⟩
  intro x y ox oy
  obtain ⟨mr, g1, g2⟩ := hc x y ox oy
  refine ⟨mr, g1, ?_, ?_⟩
  · rintro ⟨row, hr, rx, ry⟩
    rw [g2]
    congr 1
    have hle : rows.countP (fun row => decide (row[0]? = some x ∧ row[1]? = some y)) ≤ 1 := by
      have e : rows.countP (fun row => decide (row[0]? = some x ∧ row[1]? = some y)) =
          (rows.map (fun row => row.take 2)).count [x, y] := by
        rw [List.count, List.countP_map]
        apply List.countP_congr
        intro row' _
        simp only [decide_eq_true_eq, Function.comp, beq_iff_eq]
        match row' with
        | [] => simp
        | [a] => simp
        | a :: b :: rs => simp
      rw [e]
      exact List.nodup_iff_count_le_one.1 hnd _
    have hpos : 0 < rows.countP (fun row => decide (row[0]? = some x ∧ row[1]? = some y)) :=
      List.countP_pos_iff.2 ⟨row, hr, by simp [rx, ry]⟩
    omega
  · intro hno
    rw [g2]
    congr 1
    rw [List.countP_eq_zero]
    intro row hr
    simp only [decide_eq_true_eq]
    intro hc
    exact hno ⟨row, hr, hc.1, hc.2⟩

example : Built exPair [[1, 10], [2, 10]] ∧ exPair.eventOtypes[0]? = some 0 ∧
    exPair.eventOtypes[1]? = some 1 ∧
    (([[1, 10], [2, 10]] : List (List Nat)).map (fun row => row.take 2)).Nodup ∧
    ∃ r', Rec.eventFit (fun _ => ()) () exRec exPair (some [0, 1]) = .ok r' :=
  ⟨exPair_built, rfl, rfl, by decide, _, rfl⟩

/-- User 1 consumed item 10 twice. -/
def exTwice : EventData Nat Nat Nat :=
  (⟨2, [0, 0], [none, none], [none, none], [none, none], 2, [0, 1], 0, none, none⟩ :
    EventData Nat Nat Nat).loaded [[1, 10], [1, 10]] none

theorem exTwice_built : Built exTwice [[1, 10], [1, 10]] :=
  .load (d0 := ⟨2, [0, 0], [none, none], [none, none], [none, none], 2, [0, 1], 0, none, none⟩)
    (event := ⟨2, [[1, 10], [1, 10]]⟩) (ef := none)
    (.init (n := 2) (arg := .none) rfl)
    (by intro r hr; simp only [List.mem_cons, List.not_mem_nil, or_false] at hr
        rcases hr with rfl | rfl <;> rfl)
    (by rintro f ⟨⟩)
    (EventData.setEvent_eq _ (Reachable.init (n := 2) (arg := .none) rfl).wf _
      (by intro r hr; simp only [List.mem_cons, List.not_mem_nil, or_false] at hr
          rcases hr with rfl | rfl <;> rfl) rfl _)

/-- The full C38 is false of the code: a repeated event gives an entry 2. -/
theorem C38_refuted_repeated : ∃ (d : EventData Nat Nat Nat) (rows : List (List Nat))
    (r' : Rec ℚ Nat Nat Nat Unit Unit Unit), Built d rows ∧
    Rec.eventFit (fun _ => ()) () exRec d (some [0, 1]) = .ok r' ∧
    ∃ m ns, getEventArray r'.view = .ok (m, ns) ∧ ¬ BinaryMatrix d rows 0 1 m := by
  refine ⟨exTwice, _, _, exTwice_built, rfl, [[2]], [1, 1], rfl, ?_⟩
  intro h
  have ox : IsObject exTwice.eventOtypes [[1, 10], [1, 10]] 0 1 :=
    ⟨[1, 10], by simp, 0, rfl, rfl⟩
  have oy : IsObject exTwice.eventOtypes [[1, 10], [1, 10]] 1 10 :=
    ⟨[1, 10], by simp, 1, rfl, rfl⟩
  obtain ⟨_, _, h3⟩ := h 0 1 rfl rfl
  obtain ⟨mr, h4, h5, _⟩ := h3 1 10 ox oy
  have rx : rank exTwice.eventOtypes [[1, 10], [1, 10]] 0 1 = 0 := by
    rw [← idxOf_ids _ _ _ _ ox]; rfl
  have ry : rank exTwice.eventOtypes [[1, 10], [1, 10]] 1 10 = 0 := by
    rw [← idxOf_ids _ _ _ _ oy]; rfl
  rw [rx] at h4
  rw [ry] at h5
  cases h4
  have := h5 ⟨_, List.mem_cons_self, rfl, rfl⟩
  cases this

/-- With `event_index=(0, 2)` the base class fits, but the matrix cannot be made: `IndexError`
(the index is applied to the already selected columns). -/
theorem C38_refuted_index : ∃ (d : EventData Nat Nat Nat) (rows : List (List Nat))
    (r' : Rec ℚ Nat Nat Nat Unit Unit Unit), Built d rows ∧
    Rec.eventFit (fun _ => ()) () exRec d (some [0, 2]) = .ok r' ∧
    getEventArray r'.view = .error .indexError :=
  ⟨exLoaded, _, _, exLoaded_built, rfl, rfl⟩

/-! ### C69 -/

/-- The full C69: a `fit` that raises leaves all predictions as they were. -/
def C69_full : Prop := ∀ (kind : Kind) (L : Learner ℚ Unit Unit Unit) (mk : Int → Unit) (env : Unit)
    (r r' : Rec ℚ Nat Nat Nat Unit Unit Unit) (d : ScoreData ℚ Nat Nat Nat) (rows : List (List Nat))
    (sc : List ℚ) (idx : Option (List Int)) (e : Exc), History kind L mk none [] [] r →
    ScoreBuilt d rows sc → fitAs kind L mk env r d idx = .error (e, r') →
    ∀ eev, Rec.predict L r' eev = Rec.predict L r eev

/-- C69 (partial): whatever `fit` raises before training starts (missing events, illegal
`event_index`, non-binary scores for the explicit item finder: what it raises whatever the learner does), learned
parameters and fit results are those of before.  Missing: predictions are not, because the id tables are already replaced
(`C69_refuted`). -/
theorem C69_failing_fit_partial {kind : Kind} {mk : Int → γ} {env : γ}
    {r r' : Rec K α φ ε γ θ V} {d : ScoreData K α φ ε} {idx : Option (List Int)} {e : Exc}
    (hfit : ∀ L : Learner K γ θ V, fitAs kind L mk env r d idx = .error (e, r')) :
    r'.params = r.params ∧ r'.fitResults = r.fitResults := by
  let L : Learner K γ θ V := ⟨fun _ => .error .valueError, fun _ _ => .error .valueError⟩
  replace hfit := hfit L
  have hev : ∀ e r1, Rec.eventFit mk env r d.toEventData idx = .error (e, r1) →
      r1.params = r.params ∧ r1.fitResults = r.fitResults := by
    intro e r1 h
    unfold Rec.eventFit Rec.baseFit at h
    simp only at h
    split at h
    · cases h; exact ⟨rfl, rfl⟩
    · split at h
      · cases h; exact ⟨rfl, rfl⟩
      · split at h
        · cases h; exact ⟨rfl, rfl⟩
        · split at h
          · cases h; exact ⟨rfl, rfl⟩
          · cases h
  have hok : ∀ r1, Rec.eventFit mk env r d.toEventData idx = .ok r1 →
      r1.params = r.params ∧ r1.fitResults = r.fitResults := by
    intro r1 h
    unfold Rec.eventFit Rec.baseFit at h
    simp only at h
    split at h
    · cases h
    · split at h
      · cases h
      · split at h
        · cases h
        · split at h
          · cases h
          · cases h; exact ⟨rfl, rfl⟩
  have hfin : ∀ r1 : Rec K α φ ε γ θ V, Rec.finish L r1 = .error (e, r') → r' = r1 := by
    intro r1 h1
    unfold Rec.finish at h1
    split at h1
    · cases h1; rfl
    · cases h1
  cases kind with
  | predictor =>
    simp only [fitAs, Rec.fitPredictor, Rec.predictorSuperFit] at hfit
    split at hfit
    · rename_i er hr1
      split at hr1
      · rename_i er2 hr2
        cases hr1
        cases hfit
        exact hev _ _ hr2
      · cases hr1
    · rename_i r1 hr1
      split at hr1
      · cases hr1
      · rename_i r2 hr2
        cases hr1
        have := hfin _ hfit
        subst this
        exact hok r2 hr2
  | explicit =>
    simp only [fitAs, Rec.fitExplicit, Rec.explicitSuperFit] at hfit
    split at hfit
    · rename_i er hr1
      split at hr1
      · rename_i er2 hr2
        cases hr1
        cases hfit
        exact hev _ _ hr2
      · rename_i r2 hr2
        split at hr1
        · cases hr1
        · cases hr1
          cases hfit
          exact hok _ hr2
    · rename_i r1 hr1
      split at hr1
      · cases hr1
      · rename_i r2 hr2
        split at hr1
        · cases hr1
          have := hfin _ hfit
          subst this
          exact hok r2 hr2
        · cases hr1
  | implicit =>
    simp only [fitAs, Rec.fitImplicit] at hfit
    split at hfit
    · rename_i er hr1
      cases hfit
      exact hev _ _ hr1
    · rename_i r1 hr1
      have := hfin _ hfit
      subst this
      exact hok _ hr1

/-- An empty container for users x items with scores. -/
def exScore0 : ScoreData ℚ Nat Nat Nat :=
  { nOtypes := 2, nObjects := [0, 0], eid := [none, none], iid := [none, none],
    feature := [none, none], sEvent := 2, eventOtypes := [0, 1], nEvents := 0, event := none,
    eventFeature := none, scoreDomain := none, score := none, nScoreLevels := none }

theorem exScore0_reachable : Reachable exScore0.toEventData := .init (n := 2) (arg := .none) rfl

/-- Binary data of users 1 and 2. -/
def exBin : ScoreData ℚ Nat Nat Nat :=
  { exPair with scoreDomain := some [0, 1, 1], score := some [0, 1], nScoreLevels := some 2 }

/-- Five-level data of users 0 and 1. -/
def exFive : ScoreData ℚ Nat Nat Nat :=
  { (exScore0.toEventData.loaded [[0, 10], [1, 10]] none : EventData Nat Nat Nat) with
    scoreDomain := some [1, 5, 1], score := some [3, 4], nScoreLevels := some 5 }

theorem exFive_built : ScoreBuilt exFive [[0, 10], [1, 10]] [3, 4] := by
  have hreg : (⟨2, [[0, 10], [1, 10]]⟩ : Arr2 Nat).Regular := by
    intro r hr; simp only [List.mem_cons, List.not_mem_nil, or_false] at hr
    rcases hr with rfl | rfl <;> rfl
  refine .load (d0 := exScore0) (event := ⟨2, [[0, 10], [1, 10]]⟩) (dom := some [1, 5, 1])
    (ef := none) exScore0_reachable hreg (by rintro f ⟨⟩) rfl ?_
  unfold ScoreData.setEvent
  have h1 : exScore0.toEventData.setEvent ⟨2, [[0, 10], [1, 10]]⟩ none =
      .ok (exScore0.toEventData.loaded [[0, 10], [1, 10]] none) :=
    EventData.setEvent_eq _ exScore0_reachable.wf _ hreg rfl _
  simp only [h1, ScoreData.resolveDomain, levels_151]
  rfl

theorem exBin_accepted : acceptsBinary exBin = true :=
  (acceptsBinary_iff exBin).2 ⟨rfl, rfl, [0, 1], rfl, by simp, by simp, by simp⟩

theorem exFive_rejected : acceptsBinary exFive = false := by
  by_contra h
  rw [Bool.not_eq_false] at h
  obtain ⟨h1, _⟩ := (acceptsBinary_iff exFive).1 h
  have h2 : (some [1, 5, 1] : Option (List ℚ)) = some [0, 1, 1] := h1
  simp at h2

/-- The explicit item finder after training on `exBin` (the old state on failure). -/
def exFirst : Rec ℚ Nat Nat Nat Unit Unit Unit :=
  match Rec.eventFit (fun _ => ()) () exRec exPair none with
  | .error e => e.2
  | .ok r => match Rec.finish exLearner (r.setScoreInfo exBin) with
    | .error e => e.2
    | .ok r => r

/-- The same recommender after the base class has read `exFive`. -/
def exSecond : Rec ℚ Nat Nat Nat Unit Unit Unit :=
  match Rec.eventFit (fun _ => ()) () exFirst exFive.toEventData none with
  | .error e => e.2
  | .ok r => r

/-- The full C69 is false of the code: an explicit item finder trained on users 1 and 2 refuses
five-level data of users 0 and 1, and afterwards scores user 1 with the parameters of user 2. -/
theorem C69_refuted : ¬ C69_full := by
  intro hall
  have hfit : ∃ r, fitAs .explicit exLearner (fun _ => ()) () exRec exBin none = .ok r ∧
      Rec.predict exLearner r (.vec [1, 10]) = .ok (.scalar 0) ∧
      ∃ r', fitAs .explicit exLearner (fun _ => ()) () r exFive none = .error (.valueError, r') ∧
        Rec.predict exLearner r' (.vec [1, 10]) = .ok (.scalar 1) := by
    refine ⟨exFirst, ?_, rfl, exSecond, ?_, rfl⟩
    · simp only [fitAs, Rec.fitExplicit, Rec.explicitSuperFit, exBin_accepted]
      rfl
    · simp only [fitAs, Rec.fitExplicit, Rec.explicitSuperFit, exFive_rejected]
      rfl
  obtain ⟨r, h1, h2, r', h3, h4⟩ := hfit
  have := hall .explicit exLearner (fun _ => ()) () r r' exFive _ _ none _
    (.fit (d := exBin) (idx := none) (env := ()) .init h1) exFive_built h3 (.vec [1, 10])
  rw [h2, h4] at this
  cases this

end Kam
