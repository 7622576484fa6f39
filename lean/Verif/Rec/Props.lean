/-
Property theorems for the recommender base classes (C19-C23, C25, C26, C69).
-/
import Verif.Rec.Lemmas

set_option linter.unusedSectionVars false

namespace Kam
open Spec
variable {K : Type} [Field K] [LinearOrder K] [IsStrictOrderedRing K] [FloorRing K]
variable {α φ ε γ θ V : Type} [LinearOrder α]

/-! ### C20 -/

/-- C20: after `fit(data, event_index)` the model sees, for the `j`-th selected column `c`, the
internal ids of that column and the number of objects of its type; an illegal `event_index`
raises `IndexError`. -/
theorem C20_fit_alignment (mk : Int → γ) (env : γ) (r : Rec K α φ ε γ θ V) {d : EventData α φ ε}
    {rows : List (List α)} (h : Built d rows) (idx : Option (List Int)) :
    (∀ js, columnsOf d idx = .ok js → ∃ r', Rec.eventFit mk env r d idx = .ok r' ∧
      r'.view.nEvents = rows.length ∧ r'.view.event.length = rows.length ∧
      r'.view.nObjects.length = js.length ∧
      ∀ (k : Nat) (row : List α), rows[k]? = some row →
        ∃ o, r'.view.event[k]? = some o ∧ o.length = js.length ∧
          ∀ (j c t : Nat) (x : α), js[j]? = some c → d.eventOtypes[c]? = some t →
            row[c]? = some x →
            o[j]? = some (rank d.eventOtypes rows t x : Int) ∧
            r'.view.nObjects[j]? = some (count d.eventOtypes rows t) ∧
            rank d.eventOtypes rows t x < count d.eventOtypes rows t) ∧
    (∀ e, columnsOf d idx = .error e →
      ∃ r', Rec.eventFit mk env r d idx = .error (.indexError, r')) := by
  have hd := h.holds
  refine ⟨?_, fun e he => eventFit_error mk env r hd idx e he⟩
  intro js hjs
  have hlt : ∀ j ∈ js, j < d.eventOtypes.length := by
    rw [hd.wf.len_otypes]
    exact Sel.positions_lt (columnsOf_positions d idx js hjs)
  refine ⟨_, eventFit_eq mk env r hd idx js hjs, hd.nEvents, by simp [Rec.view, fittedInfo], ?_, ?_⟩
  · exact length_gather _ _ (by simpa using hlt)
  · intro k row hk
    have hrow := List.mem_of_getElem? hk
    have hl := EventData.length_encodeRow d.eventOtypes rows row (hd.reg row hrow)
    refine ⟨gather (encodeRow d.eventOtypes rows row) js, ?_, ?_, ?_⟩
    · simp [Rec.view, fittedInfo, hk]
    · exact length_gather _ _ (by rw [hl]; exact hlt)
    · intro j c t x hj ht hx
      have hob : IsObject d.eventOtypes rows t x := ⟨row, hrow, c, ht, hx⟩
      refine ⟨?_, ?_, ?_⟩
      · rw [getElem?_gather _ _ (by rw [hl]; exact hlt), hj]
        simp only [Option.bind_some]
        rw [EventData.encodeRow_getElem? _ _ _ _ _ _ ht hx, idxOf_ids _ _ _ _ hob]
      · simp only [Rec.view, fittedInfo]
        rw [getElem?_gather _ _ (by simpa using hlt), hj]
        simp [ht, length_ids]
      · rw [← idxOf_ids _ _ _ _ hob, ← length_ids]
        exact List.idxOf_lt_length_iff.2 ((mem_ids _ _ _ _).2 hob)

example : Built exLoaded exEvent.rows ∧ columnsOf exLoaded (some [2, -2]) = .ok [2, 1] :=
  ⟨exLoaded_built, rfl⟩

/-! ### fitted recommenders -/

theorem finish_ok {L : Learner K γ θ V} {r r' : Rec K α φ ε γ θ V} (h : Rec.finish L r = .ok r') :
    ∃ p res, L.train r.view = .ok (p, res) ∧ r' = Rec.removeData { r with
      params := some p
      fitResults := res.foldl (fun d kv => d.set kv.1 kv.2) r.fitResults } := by
  unfold Rec.finish at h
  split at h
  · cases h
  · rename_i p res hp
    cases h
    exact ⟨p, res, hp, rfl⟩

/-- What every successful `fit` leaves behind. -/
theorem Spec.FittedBy.fittedOn {L : Learner K γ θ V} {mk : Int → γ} {env : γ}
    {r r' : Rec K α φ ε γ θ V} {d : EventData α φ ε} {idx : Option (List Int)}
    {rows : List (List α)} (h : FittedBy L mk env r d idx r') (hd : d.Holds rows) :
    ∃ js, columnsOf d idx = .ok js ∧ FittedOn r' d rows idx js ∧
      (∃ p, r'.params = some p) ∧ r'.info.event = none ∧ r'.info.eventFeature = none ∧
      r'.score = none ∧ r'.rng = none := by
  have key : ∀ {r1 r2 : Rec K α φ ε γ θ V}, Rec.eventFit mk env r d idx = .ok r1 →
      ∃ js, columnsOf d idx = .ok js ∧ r1 = fittedInfo mk env r d rows idx js := by
    intro r1 _ h1
    cases hc : columnsOf d idx with
    | error e =>
      obtain ⟨r2, h2⟩ := eventFit_error mk env r hd idx e hc
      rw [h1] at h2; cases h2
    | ok js =>
      rw [eventFit_eq mk env r hd idx js hc] at h1
      cases h1
      exact ⟨js, rfl, rfl⟩
  cases h with
  | predictor h =>
    unfold Rec.fitPredictor Rec.predictorSuperFit at h
    split at h
    · cases h
    · rename_i r1 hr1
      split at hr1
      · cases hr1
      · rename_i r2 hr2
        cases hr1
        obtain ⟨js, hjs, rfl⟩ := key (r2 := r2) hr2
        obtain ⟨p, res, _, rfl⟩ := finish_ok h
        exact ⟨js, hjs, ⟨rfl, rfl, rfl, rfl, rfl⟩, ⟨p, rfl⟩, rfl, rfl, rfl, rfl⟩
  | explicit h =>
    unfold Rec.fitExplicit Rec.explicitSuperFit at h
    split at h
    · cases h
    · rename_i r1 hr1
      split at hr1
      · cases hr1
      · rename_i r2 hr2
        split at hr1
        · cases hr1
          obtain ⟨js, hjs, rfl⟩ := key (r2 := r2) hr2
          obtain ⟨p, res, _, rfl⟩ := finish_ok h
          exact ⟨js, hjs, ⟨rfl, rfl, rfl, rfl, rfl⟩, ⟨p, rfl⟩, rfl, rfl, rfl, rfl⟩
        · cases hr1
  | implicit h =>
    unfold Rec.fitImplicit at h
    split at h
    · cases h
    · rename_i r1 hr1
      obtain ⟨js, hjs, rfl⟩ := key (r2 := r1) hr1
      obtain ⟨p, res, _, rfl⟩ := finish_ok h
      exact ⟨js, hjs, ⟨rfl, rfl, rfl, rfl, rfl⟩, ⟨p, rfl⟩, rfl, rfl, rfl, rfl⟩

/-! ### C19 -/

/-- C19: on a loaded container with a legal `event_index`, the explicit item finder goes on to
train exactly when the data are two-class binary, and raises `ValueError` otherwise. -/
theorem C19_accepts_exactly_binary (mk : Int → γ) (env : γ) (r : Rec K α φ ε γ θ V)
    {d : ScoreData K α φ ε} {rows : List (List α)} {sc : List K} (h : ScoreBuilt d rows sc)
    (idx : Option (List Int)) (js : List Nat) (hjs : columnsOf d.toEventData idx = .ok js) :
    ((d.scoreDomain = some [0, 1, 1] ∧ d.nScoreLevels = some 2 ∧
        (∀ s ∈ sc, s = 0 ∨ s = 1) ∧ 0 ∈ sc ∧ 1 ∈ sc) →
      ∃ r', Rec.explicitSuperFit mk env r d idx = .ok r' ∧ r'.view.score = some sc) ∧
    (¬ (d.scoreDomain = some [0, 1, 1] ∧ d.nScoreLevels = some 2 ∧
        (∀ s ∈ sc, s = 0 ∨ s = 1) ∧ 0 ∈ sc ∧ 1 ∈ sc) →
      ∃ r', Rec.explicitSuperFit mk env r d idx = .error (.valueError, r') ∧
        ∀ L : Learner K γ θ V, Rec.fitExplicit L mk env r d idx = .error (.valueError, r')) := by
  obtain ⟨hb, hs, _, _⟩ := h.inv
  have hfit := eventFit_eq mk env r hb.holds idx js hjs
  have hacc := acceptsBinary_iff d
  constructor
  · rintro ⟨h1, h2, h3⟩
    have : acceptsBinary d = true := hacc.2 ⟨h1, h2, sc, hs, h3⟩
    refine ⟨Rec.setScoreInfo (fittedInfo mk env r d.toEventData rows idx js) d, ?_, hs⟩
    unfold Rec.explicitSuperFit; rw [hfit]; simp only [this, if_true]
  · intro hno
    have : acceptsBinary d = false := by
      by_contra hc
      rw [Bool.not_eq_false] at hc
      obtain ⟨h1, h2, sc', hs', h3⟩ := hacc.1 hc
      rw [hs] at hs'
      cases hs'
      exact hno ⟨h1, h2, h3⟩
    have hsup : Rec.explicitSuperFit mk env r d idx =
        .error (.valueError, fittedInfo mk env r d.toEventData rows idx js) := by
      unfold Rec.explicitSuperFit; rw [hfit]; simp [this]
    refine ⟨_, hsup, ?_⟩
    intro L
    unfold Rec.fitExplicit
    rw [hsup]

example : ∃ d, exRegular.binarizeScore (some 3) = .ok d ∧ ScoreBuilt d exEvent3.rows [0, 0, 1] ∧
    d.scoreDomain = some [0, 1, 1] := by
  refine ⟨_, rfl, ?_, rfl⟩
  have := ScoreBuilt.binarize (t := 3) exRegular_built rfl
  have h5 : ¬ (5 : ℚ) ≤ 3 := by norm_num
  simpa [h5] using this

/-! ### C21, C22 -/

theorem idxOf_lookup (ot : List Nat) (rows : List (List α)) (t : Nat) (x : α) :
    (if x ∈ ids ot rows t then ((ids ot rows t).idxOf x : Int) else ((ids ot rows t).length : Int)) =
      lookup ot rows t x := by
  unfold lookup
  by_cases hob : IsObject ot rows t x
  · simp [hob, mem_ids, idxOf_ids _ _ _ _ hob]
  · simp [hob, mem_ids, length_ids]

/-- The input of the model for one request row, as the code computes it. -/
theorem toIidRow_fitted {d : EventData α φ ε} {rows : List (List α)} (hd : d.Holds rows)
    {r : Rec K α φ ε γ θ V} {idx : Option (List Int)} {js : List Nat}
    (hf : FittedOn r d rows idx js) (vs : List Int) (hvs : vs.length = d.sEvent) (row : List α)
    (hrow : row.length = d.sEvent) :
    ∃ o, r.info.toIidRow (.vector vs) row = .ok o ∧ o.length = d.sEvent ∧
      ∀ (e t : Nat) (x : α) (v : Int), d.eventOtypes[e]? = some t → row[e]? = some x →
        vs[e]? = some v →
        o[e]? = some (if x ∈ ids d.eventOtypes rows t then
          ((ids d.eventOtypes rows t).idxOf x : Int) else v) := by
  rw [toIidRow_congr _ d hf.iid hf.eventOtypes hf.sEvent]
  exact hd.toIidRow_ok vs hvs row hrow

theorem gather_eq_self {β : Type} (a : List β) (n : Nat) (h : a.length = n) :
    gather a (List.range n) = a := by subst h; exact gather_range a

/-- With the identity event index the rows reach `to_iid_event` unchanged. -/
theorem predict_identity {d : EventData α φ ε} {rows : List (List α)} (hd : d.Holds rows)
    {L : Learner K γ θ V} {r : Rec K α φ ε γ θ V} {idx : Option (List Int)}
    (hf : FittedOn r d rows idx (List.range d.sEvent))
    (hidx : columnsOf d idx = .ok (List.range d.sEvent)) {p : θ} (hp : r.params = some p)
    (hidem : ∀ (e t : Nat), d.eventOtypes[e]? = some t → d.eventOtypes[t]? = some t) :
    PredictsRight L r p d rows (List.range d.sEvent) := by
  intro a hreg hc hc' hne
  have hlen := hd.wf.len_otypes
  have hpos := columnsOf_positions d idx _ hidx
  have hn : r.info.nObjects = d.eventOtypes.map (fun t => (ids d.eventOtypes rows t).length) := by
    rw [hf.nObjects]; exact gather_eq_self _ _ (by simp [hlen])
  -- the default missing values
  have hmiss : r.info.resolveMissing .none = .ok (.vector
      (d.eventOtypes.map (fun t => ((ids d.eventOtypes rows t).length : Int)))) := by
    unfold EventData.resolveMissing
    have : npTake r.info.nObjects (r.info.eventOtypes.map Int.ofNat) =
        .ok (d.eventOtypes.map (fun t => (ids d.eventOtypes rows t).length)) := by
      unfold npTake
      rw [hf.eventOtypes, mapM_map]
      apply mapM_ok
      intro t ht
      obtain ⟨e, he⟩ := List.getElem?_of_mem ht
      have h2 := hidem e t he
      have hl : t < r.info.nObjects.length := by
        rw [hn, List.length_map]
        rw [List.getElem?_eq_some_iff] at h2; exact h2.1
      have h3 : r.info.nObjects[t]? = some (ids d.eventOtypes rows t).length := by
        rw [hn, List.getElem?_map, h2]; rfl
      have h1 := npGet_ofNat r.info.nObjects t hl
      rw [List.getElem?_eq_getElem hl] at h3
      simp only [Option.some.injEq] at h3
      rw [← h3]
      exact h1
    simp [this, bind, Except.bind, pure, Except.pure]
  have hrow : ∀ row ∈ a.rows, ∃ o, r.info.toIidRow (.vector (d.eventOtypes.map
      (fun t => ((ids d.eventOtypes rows t).length : Int)))) row = .ok o ∧
      Encodes d.eventOtypes rows (List.range d.sEvent) row o := by
    intro row hr
    obtain ⟨o, o1, o2, o3⟩ := toIidRow_fitted hd hf (d.eventOtypes.map
      (fun t => ((ids d.eventOtypes rows t).length : Int))) (by simp [hlen]) row
      (by rw [hreg row hr, hc])
    refine ⟨o, o1, by simp [o2], ?_⟩
    intro j c t x hj ht hx
    have hjc : j = c := by
      rw [List.getElem?_eq_some_iff] at hj
      obtain ⟨_, hj⟩ := hj
      simpa using hj
    subst hjc
    rw [o3 j t x _ ht hx (by simp [ht]; rfl), idxOf_lookup]
  choose! f hf' using hrow
  refine ⟨a.rows.map f, ?_, ?_⟩
  · rw [List.forall₂_map_right_iff]
    exact List.forall₂_same.2 (fun row hr => (hf' row hr).2)
  · unfold Rec.predict Rec.checkArray
    have hrows : a.rows.mapM (fun row => npTake row (storedIndex d idx)) = .ok a.rows := by
      have := mapM_ok (f := fun row : List α => npTake row (storedIndex d idx)) (g := id) a.rows (by
        intro row hr
        have hl : row.length = d.sEvent := by rw [hreg row hr, hc]
        have := npTake_positions row (storedIndex d idx) (List.range d.sEvent) (by rw [hl]; exact hpos)
        rw [this, gather_eq_self _ _ hl]; rfl)
      simpa using this
    have hixlen : (storedIndex d idx).length = d.sEvent := by
      have := Sel.positions_index_length hpos
      simpa using this.symm
    have hconv : r.info.toIidEvent (.mat ⟨(storedIndex d idx).length, a.rows⟩) .none =
        .ok (.mat ⟨(storedIndex d idx).length, a.rows.map f⟩) := by
      unfold EventData.toIidEvent
      have := mapM_ok a.rows (fun row hr => (hf' row hr).1)
      simp only [hmiss, bind, Except.bind, hixlen, hf.sEvent, if_true, this, pure, Except.pure]
    have he : a.rows.isEmpty = false := by simpa using hne
    simp only [bind, Except.bind, he, Bool.false_or, beq_iff_eq, hc', if_false, hf.eventIndex,
      hrows, hconv, hp, pure, Except.pure]
    cases L.rawPredict p (a.rows.map f) <;> rfl

end Kam
