/-
What `predict` computes for every layout of the columns and every event index, and exactly when
that is right (C22).
-/
import Verif.Rec.Props2

set_option linter.unusedSectionVars false

namespace Kam
open Spec
variable {K : Type} [Field K] [LinearOrder K] [IsStrictOrderedRing K] [FloorRing K]
variable {α φ ε γ θ V : Type} [LinearOrder α]

open Classical in
/-- The ids the model is really given for a request row.  In position `e` stands the object of the
column `js[e]` looked up among the objects of the type of column `e`; if it is not one of them,
the number of objects of the type of column `js[t]`. -/
def Spec.Mixes (otypes : List Nat) (rows : List (List α)) (js : List Nat) (row : List α)
    (o : List Int) : Prop :=
  o.length = otypes.length ∧ ∀ (e t c c' t' : Nat) (x : α), otypes[e]? = some t →
    js[e]? = some c → row[c]? = some x → js[t]? = some c' → otypes[c']? = some t' →
    o[e]? = some (if IsObject otypes rows t x then (rank otypes rows t x : Int)
      else (count otypes rows t' : Int))

theorem columns_lt {d : EventData α φ ε} {idx : Option (List Int)} {js : List Nat}
    (hjs : columnsOf d idx = .ok js) : ∀ j ∈ js, j < d.sEvent :=
  Sel.positions_lt (columnsOf_positions d idx _ hjs)

theorem npTake_error_of_ge {β : Type} (a : List β) (ts : List Nat) (h : ∃ t ∈ ts, a.length ≤ t) :
    ∃ e, npTake a (ts.map Int.ofNat) = .error e := by
  cases hn : npTake a (ts.map Int.ofNat) with
  | error e => exact ⟨e, rfl⟩
  | ok r =>
    exfalso
    obtain ⟨t, ht, hle⟩ := h
    unfold npTake at hn
    rw [mapM_map, mapM_ok_iff] at hn
    obtain ⟨i, hi⟩ := List.getElem?_of_mem ht
    rw [List.forall₂_iff_get] at hn
    obtain ⟨h1, h2⟩ := hn
    rw [List.getElem?_eq_some_iff] at hi
    obtain ⟨hi, hit⟩ := hi
    have := h2 i hi (h1 ▸ hi)
    simp only [List.get_eq_getElem, hit] at this
    rw [npGet_of_ge a _ (by simpa using hle)] at this
    cases this

/-- What `predict` computes when as many columns are selected as the events have and the numbers
of the types are numbers of columns. -/
theorem predict_mixes {d : EventData α φ ε} {rows : List (List α)} (hd : d.Holds rows)
    {L : Learner K γ θ V} {r : Rec K α φ ε γ θ V} {idx : Option (List Int)} {js : List Nat}
    (hf : FittedOn r d rows idx js) (hidx : columnsOf d idx = .ok js) {p : θ}
    (hp : r.params = some p) (hw : js.length = d.sEvent) (ht : ∀ t ∈ d.eventOtypes, t < d.sEvent)
    (a : Arr2 α) (hreg : a.Regular) (hc : a.ncols = d.sEvent) (hc' : a.ncols ≠ 0)
    (hne : a.rows ≠ []) :
    ∃ os, List.Forall₂ (Mixes d.eventOtypes rows js) a.rows os ∧
      Rec.predict L r (.mat a) = (L.rawPredict p os).map squeeze := by
  have hlen := hd.wf.len_otypes
  have hpos := columnsOf_positions d idx _ hidx
  have hlt := columns_lt hidx
  have hlt' : ∀ j ∈ js, j < (d.eventOtypes.map (fun t => (ids d.eventOtypes rows t).length)).length := by
    simpa [hlen] using hlt
  have hnl : r.info.nObjects.length = d.sEvent := by
    rw [hf.nObjects, length_gather _ _ hlt', hw]
  have hmiss : r.info.resolveMissing .none = .ok (.vector
      ((gather r.info.nObjects d.eventOtypes).map Int.ofNat)) := by
    unfold EventData.resolveMissing
    rw [hf.eventOtypes, npTake_gather _ _ (by rw [hnl]; exact ht)]
    rfl
  have hvl : ((gather r.info.nObjects d.eventOtypes).map Int.ofNat).length = d.sEvent := by
    rw [List.length_map, length_gather _ _ (by rw [hnl]; exact ht), hlen]
  have hrow : ∀ row ∈ a.rows, ∃ o, r.info.toIidRow (.vector
      ((gather r.info.nObjects d.eventOtypes).map Int.ofNat)) (gather row js) = .ok o ∧
      Mixes d.eventOtypes rows js row o := by
    intro row hr
    have hrl : row.length = d.sEvent := by rw [hreg row hr, hc]
    obtain ⟨o, o1, o2, o3⟩ := toIidRow_fitted hd hf _ hvl (gather row js)
      (by rw [length_gather _ _ (by rw [hrl]; exact hlt), hw])
    refine ⟨o, o1, by rw [o2, hlen], ?_⟩
    intro e t c c' t' x h1 h2 h3 h4 h5
    have hx : (gather row js)[e]? = some x := by
      rw [getElem?_gather _ _ (by rw [hrl]; exact hlt), h2]; exact h3
    have hv : ((gather r.info.nObjects d.eventOtypes).map Int.ofNat)[e]? =
        some ((ids d.eventOtypes rows t').length : Int) := by
      rw [List.getElem?_map, getElem?_gather _ _ (by rw [hnl]; exact ht), h1]
      simp only [Option.bind_some]
      rw [hf.nObjects, getElem?_gather _ _ hlt', h4]
      simp [h5]
    rw [o3 e t x _ h1 hx hv]
    by_cases hob : IsObject d.eventOtypes rows t x
    · simp [hob, mem_ids, idxOf_ids _ _ _ _ hob]
    · simp [hob, mem_ids, length_ids]
  choose! f hf' using hrow
  refine ⟨a.rows.map f, ?_, ?_⟩
  · rw [List.forall₂_map_right_iff]
    exact List.forall₂_same.2 (fun row hr => (hf' row hr).2)
  · unfold Rec.predict Rec.checkArray
    have hrows : a.rows.mapM (fun row => npTake row (storedIndex d idx)) =
        .ok (a.rows.map (fun row => gather row js)) :=
      mapM_ok a.rows (by
        intro row hr
        have hl : row.length = d.sEvent := by rw [hreg row hr, hc]
        exact npTake_positions row (storedIndex d idx) js (by rw [hl]; exact hpos))
    have hixlen : (storedIndex d idx).length = d.sEvent := by
      rw [← hw]; exact (Sel.positions_index_length hpos).symm
    have hconv : r.info.toIidEvent (.mat ⟨(storedIndex d idx).length,
          a.rows.map (fun row => gather row js)⟩) .none =
        .ok (.mat ⟨(storedIndex d idx).length, a.rows.map f⟩) := by
      unfold EventData.toIidEvent
      have := mapM_ok a.rows (fun row hr => (hf' row hr).1)
      simp only [hmiss, bind, Except.bind, hixlen, hf.sEvent, if_true, mapM_map, this, pure,
        Except.pure]
    have he : a.rows.isEmpty = false := by simpa using hne
    simp only [bind, Except.bind, he, Bool.false_or, beq_iff_eq, hc', if_false, hf.eventIndex,
      hrows, hconv, hp, pure, Except.pure]
    cases L.rawPredict p (a.rows.map f) <;> rfl

/-- In every other case `predict` raises. -/
theorem predict_raises {d : EventData α φ ε} {rows : List (List α)} (hd : d.Holds rows)
    {L : Learner K γ θ V} {r : Rec K α φ ε γ θ V} {idx : Option (List Int)} {js : List Nat}
    (hf : FittedOn r d rows idx js) (hidx : columnsOf d idx = .ok js)
    (hbad : js.length ≠ d.sEvent ∨ ∃ t ∈ d.eventOtypes, js.length ≤ t) (a : ArrN α) :
    ∃ e, Rec.predict L r a = .error e := by
  have hlen := hd.wf.len_otypes
  have hpos := columnsOf_positions d idx _ hidx
  have hlt := columns_lt hidx
  have hixlen : (storedIndex d idx).length = js.length := (Sel.positions_index_length hpos).symm
  have hlt' : ∀ j ∈ js, j < (d.eventOtypes.map (fun t => (ids d.eventOtypes rows t).length)).length := by
    simpa [hlen] using hlt
  have hconv : ∀ xs : List (List α), ∃ e, r.info.toIidEvent
      (.mat ⟨(storedIndex d idx).length, xs⟩) .none = .error e := by
    intro xs
    unfold EventData.toIidEvent
    cases hm : r.info.resolveMissing .none with
    | error e => exact ⟨e, rfl⟩
    | ok m =>
      rcases hbad with h | h
      · refine ⟨.typeError, ?_⟩
        have : ¬ (storedIndex d idx).length = r.info.sEvent := by rw [hixlen, hf.sEvent]; exact h
        simp only [bind, Except.bind, this, if_false]
      · exfalso
        obtain ⟨e, he⟩ := npTake_error_of_ge r.info.nObjects d.eventOtypes (by
          rw [hf.nObjects, length_gather _ _ hlt']; exact h)
        unfold EventData.resolveMissing at hm
        rw [hf.eventOtypes, he] at hm
        cases hm
  unfold Rec.predict
  cases hca : Rec.checkArray a with
  | error e => exact ⟨e, rfl⟩
  | ok b =>
    simp only [bind, Except.bind, hf.eventIndex]
    cases hr : b.rows.mapM (fun row => npTake row (storedIndex d idx)) with
    | error e => exact ⟨e, rfl⟩
    | ok xs =>
      obtain ⟨e, he⟩ := hconv xs
      refine ⟨e, ?_⟩
      simp only [he]

/-- C22: what `predict` does after any successful `fit`, for every layout and event index.  If the
index selects as many columns as the events have, and each type number is also the number of a
column, the model scores the ids described by `Mixes`; otherwise every `predict` raises. -/
theorem C22_predict_exact {L L' : Learner K γ θ V} {mk : Int → γ} {env : γ}
    {r r' : Rec K α φ ε γ θ V} {d : EventData α φ ε} {rows : List (List α)} (h : Built d rows)
    {idx : Option (List Int)} {js : List Nat} (hidx : columnsOf d idx = .ok js)
    (hfit : FittedBy L mk env r d idx r') :
    ∃ p, r'.params = some p ∧
      (js.length = d.sEvent → (∀ t ∈ d.eventOtypes, t < d.sEvent) →
        ∀ a : Arr2 α, a.Regular → a.ncols = d.sEvent → a.ncols ≠ 0 → a.rows ≠ [] →
          ∃ os, List.Forall₂ (Mixes d.eventOtypes rows js) a.rows os ∧
            Rec.predict L' r' (.mat a) = (L'.rawPredict p os).map squeeze) ∧
      ((js.length ≠ d.sEvent ∨ ∃ t ∈ d.eventOtypes, js.length ≤ t) →
        ∀ a : ArrN α, ∃ e, Rec.predict L' r' a = .error e) := by
  have hd := h.holds
  obtain ⟨js', hjs, hf, ⟨p, hp⟩, _⟩ := hfit.fittedOn hd
  rw [hidx] at hjs
  cases hjs
  exact ⟨p, hp, fun hw ht => predict_mixes hd hf hidx hp hw ht,
    fun hb => predict_raises hd hf hidx hb⟩

/-! ### When the ids are right -/

theorem objects_finite (ot : List Nat) (rows : List (List α)) (t : Nat) :
    {x | IsObject ot rows t x}.Finite := by
  have : {x | IsObject ot rows t x} = ((ids ot rows t).toFinset : Set α) := by
    ext x; simp [mem_ids]
  rw [this]; exact Finset.finite_toSet _

theorem rank_lt_count {ot : List Nat} {rows : List (List α)} {t : Nat} {x : α}
    (h : IsObject ot rows t x) : rank ot rows t x < count ot rows t := by
  rw [← idxOf_ids _ _ _ _ h, ← length_ids]
  exact List.idxOf_lt_length_iff.2 ((mem_ids _ _ _ _).2 h)

theorem rank_lt_rank {ot : List Nat} {rows : List (List α)} {t : Nat} {x y : α}
    (h : IsObject ot rows t x) (hxy : x < y) : rank ot rows t x < rank ot rows t y := by
  unfold rank
  apply Set.ncard_lt_ncard
  · refine ⟨fun z hz => ⟨hz.1, hz.2.trans hxy⟩, fun hsub => ?_⟩
    exact lt_irrefl x (hsub (⟨h, hxy⟩ : IsObject ot rows t x ∧ x < y)).2
  · exact (objects_finite ot rows t).subset (fun z hz => hz.1)

open Classical in
/-- The id used for every object of a column of type `u`, looked up as an object of type `t`, with
the number of objects of type `t'` for unknown ones, is right exactly if `t'` has as many objects
as `u` and the objects of `u` are those of `t`, except possibly the greatest of them. -/
theorem mixed_ids_right_iff [Infinite α] (ot : List Nat) (rows : List (List α)) (t t' u : Nat) :
    (∀ x : α, (if IsObject ot rows t x then (rank ot rows t x : Int) else (count ot rows t' : Int)) =
      lookup ot rows u x) ↔
    count ot rows t' = count ot rows u ∧ (∀ x, IsObject ot rows u x → IsObject ot rows t x) ∧
      ∀ x y, IsObject ot rows t x → ¬ IsObject ot rows u x → IsObject ot rows t y → y ≤ x := by
  constructor
  · intro h
    have hc : count ot rows t' = count ot rows u := by
      obtain ⟨x, hx⟩ := ((objects_finite ot rows t).union (objects_finite ot rows u)).exists_notMem
      have hx1 : ¬ IsObject ot rows t x := fun h => hx (Or.inl h)
      have hx2 : ¬ IsObject ot rows u x := fun h => hx (Or.inr h)
      have := h x
      unfold lookup at this
      rw [if_neg hx1, if_neg hx2] at this
      exact_mod_cast this
    have hsub : ∀ x, IsObject ot rows u x → IsObject ot rows t x := by
      intro x hx
      by_contra hn
      have := h x
      unfold lookup at this
      rw [if_neg hn, if_pos hx] at this
      have h1 := rank_lt_count hx
      omega
    refine ⟨hc, hsub, ?_⟩
    intro x y hx hxu hy
    by_contra hlt
    rw [not_le] at hlt
    have h1 := h x
    unfold lookup at h1
    rw [if_pos hx, if_neg hxu] at h1
    have h2 := rank_lt_rank hx hlt
    have h3 := h y
    unfold lookup at h3
    rw [if_pos hy] at h3
    by_cases hyu : IsObject ot rows u y
    · rw [if_pos hyu] at h3
      have := rank_lt_count hyu
      omega
    · rw [if_neg hyu] at h3
      omega
  · rintro ⟨hc, hsub, hg⟩ x
    unfold lookup
    by_cases ht : IsObject ot rows t x
    · by_cases hu : IsObject ot rows u x
      · rw [if_pos ht, if_pos hu]
        congr 1
        unfold rank
        congr 1
        ext y
        simp only [Set.mem_ofPred_eq]
        constructor
        · rintro ⟨hy, hyx⟩
          refine ⟨?_, hyx⟩
          by_contra hyu
          exact absurd (hg y x hy hyu ht) (not_le.2 hyx)
        · rintro ⟨hy, hyx⟩; exact ⟨hsub y hy, hyx⟩
      · rw [if_pos ht, if_neg hu]
        congr 1
        unfold rank count
        congr 1
        ext y
        simp only [Set.mem_ofPred_eq]
        constructor
        · rintro ⟨hy, hyx⟩
          by_contra hyu
          exact absurd (hg y x hy hyu ht) (not_le.2 hyx)
        · intro hy
          refine ⟨hsub y hy, lt_of_le_of_ne (hg x y ht hu (hsub y hy)) ?_⟩
          rintro rfl
          exact hu hy
    · have hu : ¬ IsObject ot rows u x := fun h => ht (hsub x h)
      rw [if_neg ht, if_neg hu, hc]

/-- The layouts and event indices for which `predict` is right: the index selects as many columns
as the events have; and for every position `e`, with `t` the type of column `e` and `u` the type of
the column selected for that position, `t` is the number of a position too, as many objects have
the type of the column selected there as have type `u`, and the objects of type `u` are those of
type `t`, except possibly the greatest of these. -/
def Spec.LayoutFits (otypes : List Nat) (rows : List (List α)) (js : List Nat) : Prop :=
  js.length = otypes.length ∧ ∀ (e t c u : Nat), otypes[e]? = some t → js[e]? = some c →
    otypes[c]? = some u → ∃ c' t', js[t]? = some c' ∧ otypes[c']? = some t' ∧
      count otypes rows t' = count otypes rows u ∧
      (∀ x, IsObject otypes rows u x → IsObject otypes rows t x) ∧
      ∀ x y, IsObject otypes rows t x → ¬ IsObject otypes rows u x → IsObject otypes rows t y → y ≤ x

/-- C22, exactly: after any successful `fit`, `predict` scores the internal ids of the requested
objects, whatever the model computes from ids, if and only if layout and event index fit. -/
theorem C22_exact [Infinite α] {L : Learner K γ θ V} {mk : Int → γ} {env : γ}
    {r r' : Rec K α φ ε γ θ V} {d : EventData α φ ε} {rows : List (List α)} (h : Built d rows)
    (hs : 0 < d.sEvent) {idx : Option (List Int)} {js : List Nat} (hidx : columnsOf d idx = .ok js)
    (hfit : FittedBy L mk env r d idx r') :
    ∃ p, r'.params = some p ∧
      ((∀ L' : Learner K γ θ V, PredictsRight L' r' p d rows js) ↔
        LayoutFits d.eventOtypes rows js) := by
  have hd := h.holds
  have hlen := hd.wf.len_otypes
  obtain ⟨js', hjs, hf, ⟨p, hp⟩, _⟩ := hfit.fittedOn hd
  rw [hidx] at hjs
  cases hjs
  have hlt := columns_lt hidx
  refine ⟨p, hp, ?_, ?_⟩
  · intro hall
    -- no error
    have hgood : ¬ (js.length ≠ d.sEvent ∨ ∃ t ∈ d.eventOtypes, js.length ≤ t) := by
      intro hbad
      obtain ⟨x⟩ : Nonempty α := inferInstance
      obtain ⟨os, _, ho⟩ := hall ⟨L.train, fun _ _ => .ok [0]⟩
        ⟨d.sEvent, [List.replicate d.sEvent x]⟩ (by intro row hr; simp at hr; simp [hr]) rfl
        (by simp only; omega) (by simp)
      obtain ⟨e, he⟩ := predict_raises (L := ⟨L.train, fun _ _ => .ok [0]⟩) hd hf hidx hbad
        (.mat ⟨d.sEvent, [List.replicate d.sEvent x]⟩)
      rw [he] at ho
      cases ho
    rw [not_or, not_not] at hgood
    obtain ⟨hw, ht⟩ := hgood
    have ht : ∀ t ∈ d.eventOtypes, t < d.sEvent := by
      intro t hm
      by_contra hn
      exact ht ⟨t, hm, by omega⟩
    refine ⟨by rw [hw, hlen], ?_⟩
    intro e t c u h1 h2 h3
    have htl : t < js.length := by rw [hw]; exact ht t (List.mem_of_getElem? h1)
    have hcl : js[t] < d.eventOtypes.length := by rw [hlen]; exact hlt _ (List.getElem_mem _)
    refine ⟨js[t], d.eventOtypes[js[t]], List.getElem?_eq_getElem _, List.getElem?_eq_getElem _, ?_⟩
    rw [← mixed_ids_right_iff]
    intro x
    have hreg : (⟨d.sEvent, [List.replicate d.sEvent x]⟩ : Arr2 α).Regular := by
      intro row hr; simp at hr; simp [hr]
    obtain ⟨os, hos, ho⟩ := predict_mixes (L := L) hd hf hidx hp hw ht
      ⟨d.sEvent, [List.replicate d.sEvent x]⟩ hreg rfl (by simp only; omega) (by simp)
    obtain ⟨o, rfl, hm⟩ : ∃ o, os = [o] ∧ Mixes d.eventOtypes rows js (List.replicate d.sEvent x) o := by
      cases hos with
      | cons a1 a2 => cases a2; exact ⟨_, rfl, a1⟩
    -- a model that recognizes the ids that it is given
    obtain ⟨os2, hos2, ho2⟩ := predict_mixes
      (L := ⟨L.train, fun _ os => .ok (if os = [o] then [0] else [1])⟩) hd hf hidx hp hw ht
      ⟨d.sEvent, [List.replicate d.sEvent x]⟩ hreg rfl (by simp only; omega) (by simp)
    obtain ⟨o2, rfl, hm2⟩ : ∃ o, os2 = [o] ∧ Mixes d.eventOtypes rows js (List.replicate d.sEvent x) o := by
      cases hos2 with
      | cons a1 a2 => cases a2; exact ⟨_, rfl, a1⟩
    obtain ⟨os3, hos3, ho3⟩ := hall
      ⟨L.train, fun _ os => .ok (if os = [o] then [0] else [1])⟩
      ⟨d.sEvent, [List.replicate d.sEvent x]⟩ hreg rfl (by simp only; omega) (by simp)
    obtain ⟨o3, rfl, hm3⟩ : ∃ o, os3 = [o] ∧
        Encodes d.eventOtypes rows js (List.replicate d.sEvent x) o := by
      cases hos3 with
      | cons a1 a2 => cases a2; exact ⟨_, rfl, a1⟩
    have hcell : ∀ o', Mixes d.eventOtypes rows js (List.replicate d.sEvent x) o' → o' = o := by
      intro o' hm'
      apply List.ext_getElem?
      intro k
      by_cases hk : k < d.sEvent
      · have hk1 : k < d.eventOtypes.length := by omega
        have hk2 : k < js.length := by omega
        have a1 := List.getElem?_eq_getElem hk1
        have a2 := List.getElem?_eq_getElem hk2
        have hk3 : d.eventOtypes[k] < js.length := by rw [hw]; exact ht _ (List.getElem_mem _)
        have a3 := List.getElem?_eq_getElem hk3
        have hk4 : js[d.eventOtypes[k]] < d.eventOtypes.length := by
          rw [hlen]; exact hlt _ (List.getElem_mem _)
        have a4 := List.getElem?_eq_getElem hk4
        have hx : (List.replicate d.sEvent x)[js[k]]? = some x := by
          simp [hlt _ (List.getElem_mem hk2)]
        rw [hm'.2 k _ _ _ _ x a1 a2 hx a3 a4, hm.2 k _ _ _ _ x a1 a2 hx a3 a4]
      · rw [List.getElem?_eq_none (by rw [hm'.1]; omega), List.getElem?_eq_none (by rw [hm.1]; omega)]
    have : o2 = o := hcell o2 hm2
    subst this
    rw [ho2] at ho3
    have h32 : o3 = o2 := by
      by_contra hn
      simp [hn, Except.map, squeeze] at ho3
    subst h32
    have b1 := hm3.2 e c u x h2 h3 (by
      simp [hlt c (List.mem_of_getElem? h2)])
    have b2 := hm2.2 e t c _ _ x h1 h2 (by
      simp [hlt c (List.mem_of_getElem? h2)]) (List.getElem?_eq_getElem htl) (List.getElem?_eq_getElem hcl)
    rw [b1] at b2
    exact (Option.some.inj b2).symm
  · rintro ⟨hw, hfit⟩ L' a hreg hc hc' hne
    rw [hlen] at hw
    have ht : ∀ t ∈ d.eventOtypes, t < d.sEvent := by
      intro t hm
      obtain ⟨e, he⟩ := List.getElem?_of_mem hm
      have hel : e < js.length := by
        rw [hw, ← hlen]; exact (List.getElem?_eq_some_iff.1 he).1
      have hcl : js[e] < d.eventOtypes.length := by rw [hlen]; exact hlt _ (List.getElem_mem _)
      obtain ⟨c', t', h1, _⟩ := hfit e t _ _ he (List.getElem?_eq_getElem hel)
        (List.getElem?_eq_getElem hcl)
      rw [← hw]; exact (List.getElem?_eq_some_iff.1 h1).1
    obtain ⟨os, hos, ho⟩ := predict_mixes (L := L') hd hf hidx hp hw ht a hreg hc hc' hne
    refine ⟨os, ?_, ho⟩
    refine List.Forall₂.imp ?_ hos
    intro row o hm
    refine ⟨by rw [hm.1, hlen, hw], ?_⟩
    intro j c u x hj hu hx
    have hjl : j < d.eventOtypes.length := by
      rw [hlen, ← hw]; exact (List.getElem?_eq_some_iff.1 hj).1
    have a1 := List.getElem?_eq_getElem hjl
    obtain ⟨c', t', h1, h2, h3⟩ := hfit j _ c u a1 hj hu
    rw [hm.2 j _ c c' t' x a1 hj hx h1 h2,
      (mixed_ids_right_iff d.eventOtypes rows d.eventOtypes[j] t' u).2 h3 x]

/-- Two columns of one type may be used in either order. -/
theorem layoutFits_same_type (rows : List (List α)) : LayoutFits [0, 0] rows [1, 0] := by
  refine ⟨rfl, ?_⟩
  intro e t c u h1 h2 h3
  have ht : t = 0 := by
    have := List.mem_of_getElem? h1
    simpa using this
  have hu : u = 0 := by
    have := List.mem_of_getElem? h3
    simpa using this
  subst ht hu
  exact ⟨1, 0, rfl, rfl, rfl, fun _ h => h, fun x _ h hn => absurd h hn⟩

/-- Columns of two types may not be used in reverse order if their numbers of objects differ. -/
theorem not_layoutFits_reversed {rows : List (List α)}
    (h : count [0, 1] rows 0 ≠ count [0, 1] rows 1) : ¬ LayoutFits [0, 1] rows [1, 0] := by
  rintro ⟨_, hf⟩
  obtain ⟨c', t', h1, h2, h3, h4, h5⟩ := hf 0 0 1 1 rfl rfl rfl
  obtain ⟨c2, t2, g1, g2, g3, g4, g5⟩ := hf 1 1 0 0 rfl rfl rfl
  apply h
  unfold count
  congr 1
  ext x
  exact ⟨g4 x, h4 x⟩

/-- The hypotheses of `C22_exact` on concrete data: users 1 and 2 and the single item 10, the item
column first. -/
example : Built exPair [[1, 10], [2, 10]] ∧ 0 < exPair.sEvent ∧
    columnsOf exPair (some [1, 0]) = .ok [1, 0] ∧
    FittedBy exLearner (fun _ => ()) () exRec exPair (some [1, 0])
      (fittedRec exPair (some [1, 0])) ∧
    ¬ LayoutFits exPair.eventOtypes [[1, 10], [2, 10]] [1, 0] := by
  refine ⟨exPair_built, by decide, rfl, .implicit rfl, not_layoutFits_reversed ?_⟩
  rw [← length_ids, ← length_ids]
  decide

end Kam
