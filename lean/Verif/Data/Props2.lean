/-
Property theorems for the data containers, continued (C09-C12, C14).
-/
import Verif.Data.Props

namespace Kam
open EventData Spec
variable {α φ ε : Type} [LinearOrder α]

/-! ### C09 -/

/-- Object features, where present, have one row per object (what `set_feature` produces). -/
def FeaturesSized (d : EventData α φ ε) : Prop :=
  ∀ (t : Nat) (f : List φ), d.feature[t]? = some (some f) → d.nObjects[t]? = some f.length

theorem FeaturesSized.ok {d : EventData α φ ε} {rows : List (List α)} (h : FeaturesSized d)
    (hd : d.Holds rows) : d.FeatureOK rows := by
  intro t f hf
  have hlt : t < d.nOtypes := by
    rw [← hd.wf.len_feature]
    rw [List.getElem?_eq_some_iff] at hf; exact hf.1
  have := h t f hf
  rw [hd.nObjects_get hlt] at this
  simpa [eq_comm] using this

theorem keptIndex_comp (ot : List Nat) (rows rows' rows'' : List (List α))
    (h2 : ∀ r ∈ rows'', r ∈ rows') (t : Nat) :
    gather (keptIndex ot rows rows' t) (keptIndex ot rows' rows'' t) = keptIndex ot rows rows'' t := by
  unfold keptIndex
  have : ∀ l : List α, (∀ x ∈ l, x ∈ ids ot rows' t) →
      gather ((ids ot rows' t).map (ids ot rows t).idxOf) (l.map (ids ot rows' t).idxOf) =
        l.map (ids ot rows t).idxOf := by
    intro l
    induction l with
    | nil => intro _; rfl
    | cons x xs ih =>
      intro h
      have hx := h x (by simp)
      have ih' := ih (fun y hy => h y (by simp [hy]))
      unfold gather at ih' ⊢
      have e : ((ids ot rows' t).map (ids ot rows t).idxOf)[(ids ot rows' t).idxOf x]? =
          some ((ids ot rows t).idxOf x) := by
        rw [List.getElem?_map, List.getElem?_eq_getElem (List.idxOf_lt_length_iff.2 hx)]
        simp
      simp only [List.map_cons, List.filterMap_cons, e, ih']
  exact this _ (fun x hx => mem_ids_mono ot rows' rows'' h2 hx)

theorem filtered_filtered (d : EventData α φ ε) (rows : List (List α))
    (hok : d.FeatureOK rows) (hef : ∀ f, d.eventFeature = some f → f.length = rows.length)
    (js ks : List Nat) (hjs : ∀ j ∈ js, j < rows.length) :
    (d.filtered rows js).filtered (gather rows js) ks = d.filtered rows (gather js ks) := by
  have hg := gather_gather rows js ks hjs
  have hsub1 : ∀ r ∈ gather rows js, r ∈ rows := fun r hr => mem_of_mem_gather hr
  have hsub2 : ∀ r ∈ gather (gather rows js) ks, r ∈ gather rows js :=
    fun r hr => mem_of_mem_gather hr
  have hfeat : (List.range d.nOtypes).map ((d.filtered rows js).keptFeature (gather rows js)
        (gather (gather rows js) ks)) =
      (List.range d.nOtypes).map (d.keptFeature rows (gather (gather rows js) ks)) := by
    apply List.map_congr_left
    intro t ht
    rw [List.mem_range] at ht
    have e : (d.filtered rows js).feature[t]? = some (d.keptFeature rows (gather rows js) t) := by
      simp [filtered, ht]
    unfold keptFeature at e ⊢
    rw [e]
    cases hf : d.feature[t]? with
    | none => simp
    | some o =>
      cases o with
      | none => simp
      | some f =>
        simp only [Option.getD_some, Option.map_some, Option.some.injEq]
        have hl := hok t f hf
        rw [gather_gather _ _ _ (by rw [hl]; exact keptIndex_lt _ _ _ hsub1 t)]
        have : (d.filtered rows js).eventOtypes = d.eventOtypes := rfl
        rw [this, keptIndex_comp _ _ _ _ hsub2]
  have hE : (d.eventFeature.map (fun f => gather f js)).map (fun f => gather f ks) =
      d.eventFeature.map (fun f => gather f (gather js ks)) := by
    cases hE : d.eventFeature with
    | none => rfl
    | some f =>
      simp only [Option.map_some, Option.some.injEq]
      exact gather_gather _ _ _ (by rw [hef f hE]; exact hjs)
  have hfeat' := hfeat
  unfold filtered at hfeat' ⊢
  simp only [hE, hg] at *
  rw [hfeat']

/-- C09: filtering by `c1` and then by `c2` is filtering by any selection `c12` whose `k`-th
position is the position in the source of the event `c2` takes from the first result. -/
theorem C09_filters_compose {d d1 d2 : EventData α φ ε} {rows rows1 : List (List α)}
    (h : Built d rows) (hs : FeaturesSized d) (c1 c2 c12 : Sel) (js1 js2 js12 : List Nat)
    (h1 : d.filterEvent c1 = .ok (some d1)) (h2 : d1.filterEvent c2 = .ok (some d2))
    (hr : c1.apply rows = .ok rows1)
    (p1 : c1.positions rows.length = .ok js1) (p2 : c2.positions rows1.length = .ok js2)
    (p12 : c12.positions rows.length = .ok js12)
    (hcomp : ∀ k : Nat, js12[k]? = (js2[k]?).bind (fun j => js1[j]?)) :
    d.filterEvent c12 = .ok (some d2) := by
  have hd := h.holds
  have hok := hs.ok hd
  have hef := h.eventFeature_length
  have hlt := Sel.positions_lt p1
  have hrows : rows1 = gather rows js1 := by
    unfold Sel.apply at hr; rw [p1] at hr; simpa [eq_comm] using hr
  subst hrows
  have e1 := filterEvent_eq d rows hd hok hef c1 js1 p1
  rw [e1] at h1
  simp only [Except.ok.injEq, Option.some.injEq] at h1
  subst h1
  have hd1 := holds_filtered d rows hd js1
  have hef1 : ∀ f, (d.filtered rows js1).eventFeature = some f → f.length = (gather rows js1).length := by
    intro f hf
    simp only [filtered, Option.map_eq_some_iff] at hf
    obtain ⟨g, hg, rfl⟩ := hf
    rw [length_gather _ _ (by rw [hef g hg]; exact hlt), length_gather _ _ hlt]
  have e2 := filterEvent_eq _ _ hd1 (featureOK_filtered d rows hok js1) hef1 c2 js2 p2
  rw [e2] at h2
  simp only [Except.ok.injEq, Option.some.injEq] at h2
  subst h2
  have hlt2 : ∀ j ∈ js2, j < js1.length := by
    intro j hj
    have := Sel.positions_lt p2 j hj
    rwa [length_gather _ _ hlt] at this
  have hj : js12 = gather js1 js2 := by
    apply List.ext_getElem?
    intro k
    rw [hcomp, getElem?_gather _ _ hlt2]
  rw [filterEvent_eq d rows hd hok hef c12 js12 p12, filtered_filtered d rows hok hef js1 js2 hlt, hj]

/-- C09: filtering by the all-true mask changes nothing. -/
theorem C09_filter_all {d : EventData α φ ε} {rows : List (List α)}
    (h : Built d rows) (hs : FeaturesSized d) :
    d.filterEvent (.mask (List.replicate d.nEvents true)) = .ok (some d) := by
  have hd := h.holds
  have hok := hs.ok hd
  have hef := h.eventFeature_length
  have hp : (Sel.mask (List.replicate d.nEvents true)).positions rows.length =
      .ok (List.range rows.length) := by
    simp [Sel.positions, hd.nEvents, nonzeroFrom_all_true, List.range_eq_range']
  rw [filterEvent_eq d rows hd hok hef _ _ hp]
  simp only [Except.ok.injEq, Option.some.injEq]
  have hfeat : (List.range d.nOtypes).map (d.keptFeature rows rows) = d.feature := by
    apply List.ext_getElem
    · simp [hd.wf.len_feature]
    · intro t h1 h2
      simp only [List.getElem_map, List.getElem_range]
      have hf : d.feature[t]? = some d.feature[t] := List.getElem?_eq_getElem h2
      unfold keptFeature
      rw [hf]
      cases ho : d.feature[t] with
      | none => simp
      | some f =>
        rw [ho] at hf
        simp only [Option.getD_some, Option.map_some, Option.some.injEq]
        have : keptIndex d.eventOtypes rows rows t = List.range f.length := by
          unfold keptIndex
          rw [hok t f hf]
          apply List.ext_getElem
          · simp
          · intro i h3 h4
            simp only [List.getElem_map, List.getElem_range]
            exact (nodup_ids _ _ _).idxOf_getElem i _
        rw [this, gather_range]
  have hE : d.eventFeature.map (fun f => gather f (List.range rows.length)) = d.eventFeature := by
    cases hE : d.eventFeature with
    | none => rfl
    | some f => simp only [Option.map_some]; rw [← hef f hE, gather_range]
  unfold filtered
  simp only [gather_range, hfeat, hE]
  rw [← hd.nObjects, ← hd.eid, ← hd.iid, ← hd.event, ← hd.nEvents]

example : Built exLoaded exEvent.rows ∧ FeaturesSized exLoaded ∧
    (Sel.mask [true, false, true, true]).positions 4 = .ok [0, 2, 3] ∧
    (Sel.index [-1, 0]).positions 3 = .ok [2, 0] ∧
    (Sel.index [3, 0]).positions 4 = .ok [3, 0] ∧
    (∀ k : Nat, [3, 0][k]? = ([2, 0][k]?).bind (fun j => [0, 2, 3][j]?)) := by
  refine ⟨exLoaded_built, ?_, rfl, rfl, rfl, ?_⟩
  · intro t f hf
    have : exLoaded.feature = [none, none, none] := rfl
    rw [this] at hf
    match t, hf with
    | 0, hf => cases hf
    | 1, hf => cases hf
    | 2, hf => cases hf
    | (t + 3), hf => cases hf
  · intro k
    match k with
    | 0 => rfl
    | 1 => rfl
    | (k + 2) => rfl

/-! ### C10 -/

omit [LinearOrder α] in
/-- C10: exactly the documented arguments are accepted; every other argument raises
`ValueError`; and what an accepted call builds. -/
theorem C10_constructor (n : Int) (arg : OtypesArg) :
    ((∃ d : EventData α φ ε, EventData.init n arg = .ok d) ↔
      (1 ≤ n ∧ ∀ ndim entries, arg = .arr ndim entries →
        ndim = 1 ∧ entries ≠ [] ∧ ∀ t ∈ entries, 0 ≤ t ∧ t < n)) ∧
    (∀ e, EventData.init (α := α) (φ := φ) (ε := ε) n arg = .error e → e = .valueError) ∧
    (∀ d : EventData α φ ε, EventData.init n arg = .ok d →
      (d.nOtypes : Int) = n ∧ d.event = none ∧
      (arg = .none → d.eventOtypes = List.range n.toNat ∧ (d.sEvent : Int) = n) ∧
      (∀ ndim entries, arg = .arr ndim entries →
        d.eventOtypes.map Int.ofNat = entries ∧ d.sEvent = entries.length)) := by
  unfold EventData.init
  by_cases hn : n < 1
  · simp only [hn, if_true]
    refine ⟨⟨?_, ?_⟩, ?_, ?_⟩
    · rintro ⟨d, h⟩; cases h
    · rintro ⟨h, _⟩; omega
    · intro e h; cases h; rfl
    · intro d h; cases h
  · simp only [hn, if_false]
    cases arg with
    | none =>
      refine ⟨⟨fun _ => ⟨by omega, by rintro _ _ ⟨⟩⟩, fun _ => ⟨_, rfl⟩⟩, ?_, ?_⟩
      · intro e h; cases h
      · intro d h
        simp only [Except.ok.injEq] at h
        subst h
        refine ⟨by simp only; omega, rfl, fun _ => ⟨rfl, by simp only; omega⟩, ?_⟩
        rintro _ _ ⟨⟩
    | arr ndim entries =>
      simp only
      by_cases h1 : ndim = 1
      · by_cases h2 : entries = []
        · simp only [h1, h2, ne_eq, not_true_eq_false, if_false, if_true]
          refine ⟨⟨?_, ?_⟩, ?_, ?_⟩
          · rintro ⟨d, h⟩; cases h
          · rintro ⟨_, h⟩; exact absurd rfl (h 1 [] rfl).2.1
          · intro e h; cases h; rfl
          · intro d h; cases h
        · by_cases h3 : entries.any (· < 0) = true
          · simp only [h1, h2, h3, ne_eq, not_true_eq_false, if_false, if_true]
            refine ⟨⟨?_, ?_⟩, ?_, ?_⟩
            · rintro ⟨d, h⟩; cases h
            · rintro ⟨_, h⟩
              simp only [List.any_eq_true, decide_eq_true_eq] at h3
              obtain ⟨t, ht, h3⟩ := h3
              have := ((h 1 entries rfl).2.2 t ht).1
              omega
            · intro e h; cases h; rfl
            · intro d h; cases h
          · by_cases h4 : entries.any (fun t => decide (n ≤ t)) = true
            · simp only [h1, h2, h3, h4, ne_eq, not_true_eq_false, if_false, if_true,
                Bool.false_eq_true]
              refine ⟨⟨?_, ?_⟩, ?_, ?_⟩
              · rintro ⟨d, h⟩; cases h
              · rintro ⟨_, h⟩
                simp only [List.any_eq_true, decide_eq_true_eq] at h4
                obtain ⟨t, ht, h4⟩ := h4
                have := ((h 1 entries rfl).2.2 t ht).2
                omega
              · intro e h; cases h; rfl
              · intro d h; cases h
            · simp only [h1, h2, h3, h4, ne_eq, not_true_eq_false, if_false,
                Bool.false_eq_true]
              simp only [List.any_eq_true, decide_eq_true_eq, not_exists, not_and] at h3 h4
              have hb : ∀ t ∈ entries, 0 ≤ t ∧ t < n := fun t ht =>
                ⟨by have := h3 t ht; omega, by have := h4 t ht; omega⟩
              refine ⟨⟨fun _ => ⟨by omega, ?_⟩, fun _ => ⟨_, rfl⟩⟩, ?_, ?_⟩
              · rintro nd es ⟨⟩; exact ⟨rfl, h2, hb⟩
              · intro e h; cases h
              · intro d h
                simp only [Except.ok.injEq] at h
                subst h
                refine ⟨by simp only; omega, rfl, by rintro ⟨⟩, ?_⟩
                rintro nd es ⟨⟩
                refine ⟨?_, rfl⟩
                simp only [List.map_map]
                conv_rhs => rw [← List.map_id entries]
                apply List.map_congr_left
                intro t ht
                have := (hb t ht).1
                simp only [Function.comp_apply, Int.ofNat_eq_natCast, id_eq]
                omega
      · simp only [h1, ne_eq, not_false_eq_true, if_true]
        refine ⟨⟨?_, ?_⟩, ?_, ?_⟩
        · rintro ⟨d, h⟩; cases h
        · rintro ⟨_, h⟩; exact absurd (h ndim entries rfl).1 h1
        · intro e h; cases h; rfl
        · intro d h; cases h

example : (∃ d : EventData Nat Nat Nat, EventData.init 3 (.arr 1 [0, 2, 0]) = .ok d) ∧
    EventData.init (α := Nat) (φ := Nat) (ε := Nat) 2 (.arr 1 [0, 2]) = .error .valueError :=
  ⟨⟨_, rfl⟩, rfl⟩

/-! ### C11 -/

/-- C11: `set_feature` succeeds exactly when every loaded object of the type is listed, and then
the row of internal id `j` is the feature at the last listed position of its external id; nothing
else changes.  Otherwise `IndexError` is raised. -/
theorem C11_set_feature {d : EventData α φ ε} {rows : List (List α)} (h : Built d rows) (t : Nat)
    (ht : t < d.nOtypes) (eids : List α) (f : List φ) (hlen : f.length = eids.length) :
    ((∃ d', d.setFeature t eids f = .ok d') ↔ ∀ x, IsObject d.eventOtypes rows t x → x ∈ eids) ∧
    (∀ e, d.setFeature t eids f = .error e → e = .indexError) ∧
    (∀ d', d.setFeature t eids f = .ok d' →
      (∃ g, d' = { d with feature := d.feature.set t (some g) } ∧
        d'.feature[t]? = some (some g) ∧ d.nObjects[t]? = some g.length) ∧
      ∀ x, IsObject d.eventOtypes rows t x →
        ∃ i : Nat, eids[i]? = some x ∧ (∀ i' : Nat, i < i' → eids[i']? ≠ some x) ∧
          featureOf d' t x = f[i]? ∧ (featureOf d' t x).isSome) := by
  have hd := h.holds
  have hiid := hd.iid_get ht
  obtain ⟨index, f1, f2, f3⟩ := featureIndex_spec (ids d.eventOtypes rows t) (nodup_ids _ _ _) eids
  have hset : d.setFeature t eids f = (npTake f index).map
      (fun g => { d with feature := d.feature.set t (some g) }) := by
    unfold setFeature
    simp only [hiid, bind, Except.bind, f1]
    cases npTake f index <;> rfl
  have hfl : t < d.feature.length := by rw [hd.wf.len_feature]; exact ht
  by_cases hall : ∀ x, IsObject d.eventOtypes rows t x → x ∈ eids
  · -- every object listed: the index array is in range
    have hidx : ∀ j (hj : j < (ids d.eventOtypes rows t).length), ∃ i : Nat,
        LastAt eids (ids d.eventOtypes rows t)[j] i ∧ index[j]? = some (i : Int) := by
      intro j hj
      rcases f3 j hj with h1 | ⟨h1, _⟩
      · exact h1
      · exact absurd (hall _ ((mem_ids _ _ _ _).1 (List.getElem_mem hj))) h1
    choose! last hlast hlidx using hidx
    have hix : index = ((List.range (ids d.eventOtypes rows t).length).map last).map Int.ofNat := by
      apply List.ext_getElem?
      intro j
      by_cases hj : j < (ids d.eventOtypes rows t).length
      · rw [hlidx j hj]; simp [hj]
      · have : index[j]? = none := by rw [List.getElem?_eq_none_iff, f2]; omega
        rw [this]; simp; omega
    have hlt : ∀ j ∈ (List.range (ids d.eventOtypes rows t).length).map last, j < f.length := by
      intro i hi
      rw [List.mem_map] at hi
      obtain ⟨j, hj, rfl⟩ := hi
      have := (hlast j (List.mem_range.1 hj)).1
      rw [List.getElem?_eq_some_iff] at this
      rw [hlen]; exact this.1
    have htake : npTake f index =
        .ok (gather f ((List.range (ids d.eventOtypes rows t).length).map last)) := by
      rw [hix, npTake_gather _ _ hlt]
    rw [htake] at hset
    refine ⟨⟨fun _ => hall, fun _ => ⟨_, hset⟩⟩, ?_, ?_⟩
    · intro e he; rw [hset] at he; cases he
    · intro d' hd'
      rw [hset] at hd'
      simp only [Except.map, Except.ok.injEq] at hd'
      subst hd'
      refine ⟨⟨_, rfl, by simp [hfl], ?_⟩, ?_⟩
      · rw [hd.nObjects_get ht, length_gather _ _ hlt]; simp
      · intro x hx
        have hxm := (mem_ids _ _ _ _).2 hx
        have hj := List.idxOf_lt_length_iff.2 hxm
        have hl := hlast _ hj
        rw [List.getElem_idxOf] at hl
        refine ⟨last ((ids d.eventOtypes rows t).idxOf x), hl.1, hl.2, ?_⟩
        have hii : ({ d with feature := d.feature.set t (some (gather f
            ((List.range (ids d.eventOtypes rows t).length).map last))) } : EventData α φ ε).toIid t x
            = .ok ((ids d.eventOtypes rows t).idxOf x) := by
          have : ({ d with feature := d.feature.set t (some (gather f
            ((List.range (ids d.eventOtypes rows t).length).map last))) } : EventData α φ ε).toIid t x
              = d.toIid t x := rfl
          rw [this, hd.toIid_eq ht]; simp [hxm]
        have hfo : featureOf ({ d with feature := d.feature.set t (some (gather f
            ((List.range (ids d.eventOtypes rows t).length).map last))) } : EventData α φ ε) t x =
            f[last ((ids d.eventOtypes rows t).idxOf x)]? := by
          unfold featureOf
          rw [hii]
          simp only [List.getElem?_set, hfl, if_true]
          rw [getElem?_gather _ _ hlt]
          simp [hj]
        rw [hfo]
        refine ⟨rfl, ?_⟩
        have := hlt _ (List.mem_map_of_mem (List.mem_range.2 hj))
        simp [this]
  · -- some object is not listed: its entry of the index array is out of range
    have : ∃ x, IsObject d.eventOtypes rows t x ∧ x ∉ eids := by
      by_contra hcon
      apply hall
      intro x hx
      by_contra hxe
      exact hcon ⟨x, hx, hxe⟩
    obtain ⟨x, hx, hxe⟩ := this
    have hxm := (mem_ids _ _ _ _).2 hx
    have hj := List.idxOf_lt_length_iff.2 hxm
    have hbad : index[(ids d.eventOtypes rows t).idxOf x]? = some (eids.length : Int) := by
      rcases f3 _ hj with ⟨i, h1, _⟩ | ⟨_, h2⟩
      · rw [List.getElem_idxOf] at h1
        exact absurd (List.mem_of_getElem? h1.1) hxe
      · exact h2
    have herr : npTake f index = .error .indexError := by
      unfold npTake
      have hmem := List.mem_of_getElem? hbad
      clear hbad hset f1 f2 f3
      induction index with
      | nil => cases hmem
      | cons i is ih =>
        rw [List.mapM_cons]
        have hnp : ∀ i : Int, (∃ y, npGet f i = .ok y) ∨ npGet f i = .error .indexError := by
          intro i
          unfold npGet
          split
          · right; rfl
          · split
            · left; exact ⟨_, rfl⟩
            · right; rfl
        rcases List.mem_cons.1 hmem with rfl | hm
        · rw [npGet_of_ge _ _ (by omega)]; rfl
        · rcases hnp i with ⟨y, hy⟩ | hy
          · rw [hy, ih hm]; rfl
          · rw [hy]; rfl
    rw [herr] at hset
    refine ⟨⟨?_, fun hc => absurd hc hall⟩, ?_, ?_⟩
    · rintro ⟨d', hd'⟩; rw [hset] at hd'; cases hd'
    · intro e he; rw [hset] at he; cases he; rfl
    · intro d' hd'; rw [hset] at hd'; cases hd'

/-- C11, order independence: listing the same (external id, feature) pairs in another order, with
no external id listed twice, gives the same result. -/
theorem C11_order_irrelevant {d : EventData α φ ε} {rows : List (List α)} (h : Built d rows) (t : Nat)
    (ht : t < d.nOtypes) (eids eids' : List α) (f f' : List φ) (hlen : f.length = eids.length)
    (hlen' : f'.length = eids'.length)
    (hperm : (eids.zip f).Perm (eids'.zip f')) (hnd : eids.Nodup) :
    d.setFeature t eids f = d.setFeature t eids' f' := by
  have hp : eids.Perm eids' := by
    have := hperm.map Prod.fst
    rwa [List.map_fst_zip (by omega), List.map_fst_zip (by omega)] at this
  have hnd' : eids'.Nodup := hp.nodup_iff.1 hnd
  obtain ⟨a1, a2, a3⟩ := C11_set_feature h t ht eids f hlen
  obtain ⟨b1, b2, b3⟩ := C11_set_feature h t ht eids' f' hlen'
  have hiff : (∀ x, IsObject d.eventOtypes rows t x → x ∈ eids) ↔
      (∀ x, IsObject d.eventOtypes rows t x → x ∈ eids') := by
    simp only [hp.mem_iff]
  cases hA : d.setFeature t eids f with
  | error e =>
    cases hB : d.setFeature t eids' f' with
    | error e' => rw [a2 e hA, b2 e' hB]
    | ok d' =>
      have := a1.2 (hiff.2 (b1.1 ⟨d', hB⟩))
      rw [hA] at this; obtain ⟨_, h⟩ := this; cases h
  | ok d1 =>
    cases hB : d.setFeature t eids' f' with
    | error e' =>
      have := b1.2 (hiff.1 (a1.1 ⟨d1, hA⟩))
      rw [hB] at this; obtain ⟨_, h⟩ := this; cases h
    | ok d2 =>
      obtain ⟨⟨g1, c1, c2, c3⟩, c4⟩ := a3 d1 hA
      obtain ⟨⟨g2, e1, e2, e3⟩, e4⟩ := b3 d2 hB
      have hd := h.holds
      have hgl : g1.length = g2.length := by rw [c3] at e3; simpa using e3
      have hg1l : g1.length = (ids d.eventOtypes rows t).length := by
        rw [hd.nObjects_get ht] at c3; simpa [eq_comm] using c3
      have hgg : g1 = g2 := by
        apply List.ext_getElem?
        intro j
        by_cases hj : j < g1.length
        · have hj' : j < (ids d.eventOtypes rows t).length := by omega
          have hx := (mem_ids d.eventOtypes rows t _).1 (List.getElem_mem hj')
          have key : ∀ (c : EventData α φ ε) (g : List φ),
              c = { d with feature := d.feature.set t (some g) } → c.feature[t]? = some (some g) →
              featureOf c t (ids d.eventOtypes rows t)[j] = g[j]? := by
            intro c g hc hcf
            unfold featureOf
            rw [hcf]
            have : c.toIid t (ids d.eventOtypes rows t)[j] = .ok j := by
              have : c.toIid t (ids d.eventOtypes rows t)[j] =
                d.toIid t (ids d.eventOtypes rows t)[j] := by rw [hc]; rfl
              rw [this, hd.toIid_eq ht]
              simp only [List.getElem_mem, if_true]
              rw [(nodup_ids _ _ _).idxOf_getElem j hj']
            rw [this]
          obtain ⟨i1, p1, _, p3, p4⟩ := c4 _ hx
          obtain ⟨i2, q1, _, q3, q4⟩ := e4 _ hx
          rw [key d1 g1 c1 c2] at p3 p4
          rw [key d2 g2 e1 e2] at q3 q4
          rw [p3, q3]
          -- the pair listed at `i1` on the left is listed at `i2` on the right
          rw [p3] at p4
          rw [q3] at q4
          obtain ⟨v, hv⟩ := Option.isSome_iff_exists.1 p4
          obtain ⟨w, hw⟩ := Option.isSome_iff_exists.1 q4
          have m1 : ((ids d.eventOtypes rows t)[j], v) ∈ eids.zip f := by
            apply List.mem_of_getElem? (i := i1)
            rw [List.getElem?_zip_eq_some]; exact ⟨p1, hv⟩
          have m2 := (hperm.mem_iff).1 m1
          obtain ⟨i3, h3⟩ := List.mem_iff_getElem?.1 m2
          rw [List.getElem?_zip_eq_some] at h3
          have h5 : i3 = i2 := by
            rw [List.getElem?_eq_some_iff] at q1 h3
            obtain ⟨l1, r1⟩ := h3.1
            obtain ⟨l2, r2⟩ := q1
            exact (hnd'.getElem_inj_iff).1 (by rw [r1, r2])
          subst h5
          rw [hv, ← h3.2]
        · rw [List.getElem?_eq_none_iff.2 (by omega), List.getElem?_eq_none_iff.2 (by omega)]
      rw [c1, e1, hgg]

example : ∃ d', Built exLoaded exEvent.rows ∧ 0 < exLoaded.nOtypes ∧
    exLoaded.setFeature 0 [2, 9, 5, 7, 1, 9] [20, 90, 50, 70, 10, 91] = .ok d' ∧
    d'.feature = [some [20, 50, 70, 91], none, none] ∧
    exLoaded.setFeature 0 [2, 9, 5] [20, 90, 50] = .error .indexError :=
  ⟨_, exLoaded_built, by decide, rfl, rfl, rfl⟩

/-! ### C12 -/

/-- Part of C12 that holds: after any history, a load leaves everything except the object
features as on a fresh container with the same layout.  Missing: `feature` (see `C12_refuted`). -/
theorem C12_reload_partial {d0 d d1 : EventData α φ ε} (h0 : Reachable d0) (h1 : Reachable d1)
    (hn : d1.nOtypes = d0.nOtypes) (ho : d1.eventOtypes = d0.eventOtypes)
    (event : Arr2 α) (hreg : event.Regular) (ef : Option (List ε))
    (h : d0.setEvent event ef = .ok d) :
    d1.setEvent event ef = .ok { d with feature := d1.feature } ∧ d.feature = d0.feature := by
  have hs : d1.sEvent = d0.sEvent := by rw [← h0.wf.len_otypes, ← h1.wf.len_otypes, ho]
  rw [setEvent_ok_iff _ h0.wf _ hreg] at h
  obtain ⟨hc, rfl⟩ := h
  rw [setEvent_eq _ h1.wf _ hreg (by rw [hc, hs])]
  simp [loaded, hn, ho, hs]

/-- The full C12 is false of the code: object features of an earlier load survive a reload, and
may then have a length that does not match the object table. -/
theorem C12_refuted : ¬ (∀ (d0 d1 d d' : EventData Nat Nat Nat) (event : Arr2 Nat),
    (∃ n arg, EventData.init n arg = .ok d0) → Reachable d1 → d1.nOtypes = d0.nOtypes →
    d1.eventOtypes = d0.eventOtypes → event.Regular →
    d0.setEvent event none = .ok d → d1.setEvent event none = .ok d' → d' = d) := by
  intro hall
  let small : Arr2 Nat := ⟨3, [[7, 30, 5]]⟩
  have hsmall : small.Regular := by
    intro r hr
    simp only [small, List.mem_cons, List.not_mem_nil, or_false] at hr
    subst hr; rfl
  let c : EventData Nat Nat Nat := { exLoaded with feature := [some [20, 50, 70, 90], none, none] }
  have hc : exLoaded.setFeature 0 [2, 5, 7, 9] [20, 50, 70, 90] = .ok c := rfl
  have hcr : Reachable c := .setFeature exLoaded_built.reachable hc
  have := hall exLayout c _ _ small ⟨3, .arr 1 [0, 2, 0], rfl⟩ hcr rfl rfl hsmall
    (setEvent_eq _ exLayout_reachable.wf _ hsmall rfl _) (setEvent_eq _ hcr.wf _ hsmall rfl _)
  have h2 := congrArg EventData.feature this
  have e1 : (c.loaded small.rows none).feature = [some [20, 50, 70, 90], none, none] := rfl
  have e2 : (exLayout.loaded small.rows none).feature = [none, none, none] := rfl
  rw [e1, e2] at h2
  cases h2

example : Reachable exLayout ∧ Reachable exLoaded ∧ exLoaded.nOtypes = exLayout.nOtypes ∧
    exLoaded.eventOtypes = exLayout.eventOtypes ∧ exEvent.Regular :=
  ⟨exLayout_reachable, exLoaded_built.reachable, rfl, rfl, exEvent_regular⟩

/-! ### C14 -/

/-- C14: `set_event` raises exactly for arrays of the wrong width (`IndexError`), and then leaves
the container as it was. -/
theorem C14_failing_set_event {d : EventData α φ ε} (h : Reachable d) (event : Arr2 α)
    (hreg : event.Regular) (ef : Option (List ε)) :
    (event.ncols ≠ d.sEvent → d.setEvent event ef = .error (.indexError, d)) ∧
    (event.ncols = d.sEvent → ∃ d', d.setEvent event ef = .ok d') :=
  ⟨fun hc => setEvent_width d h.wf event hc ef,
   fun hc => ⟨_, setEvent_eq d h.wf event hreg hc ef⟩⟩

example : Reachable exLoaded ∧ (⟨2, [[1, 2]]⟩ : Arr2 Nat).ncols ≠ exLoaded.sEvent :=
  ⟨exLoaded_built.reachable, by decide⟩

end Kam
