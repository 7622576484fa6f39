/-
C122: selecting events after all data are loaded, or before, gives the same container.
-/
import Verif.Data.Props2

set_option linter.unusedSectionVars false

namespace Kam
namespace EventData
open Spec
variable {α φ ε : Type} [LinearOrder α]

/-- Loading a data set: the events, then any number of tables of object features
(the type of the objects, their external ids, their features). -/
def loadAll (d : EventData α φ ε) (event : Arr2 α) (ef : Option (List ε))
    (feats : List (Nat × List α × List φ)) : Res (EventData α φ ε) :=
  match d.setEvent event ef with
  | .error e => .error e.1
  | .ok d => feats.foldlM (fun d p => d.setFeature p.1 p.2.1 p.2.2) d

theorem setFeature_type_lt {d d1 : EventData α φ ε} {rows : List (List α)} (hd : d.Holds rows)
    {t : Nat} {eids : List α} {f : List φ} (h : d.setFeature t eids f = .ok d1) : t < d.nOtypes := by
  unfold setFeature at h
  cases hi : d.iid[t]? with
  | none => rw [hi] at h; cases h
  | some o =>
    rw [← hd.wf.len_iid]
    rw [List.getElem?_eq_some_iff] at hi
    exact hi.1

theorem featureOf_set {d : EventData α φ ε} {rows : List (List α)} (hd : d.Holds rows) {t : Nat}
    (ht : t < d.nOtypes) (g : List φ) {j : Nat} (hj : j < (ids d.eventOtypes rows t).length)
    {c : EventData α φ ε} (hc : c = { d with feature := d.feature.set t (some g) })
    (hcf : c.feature[t]? = some (some g)) :
    featureOf c t (ids d.eventOtypes rows t)[j] = g[j]? := by
  unfold featureOf
  rw [hcf]
  have : c.toIid t (ids d.eventOtypes rows t)[j] = .ok j := by
    have : c.toIid t (ids d.eventOtypes rows t)[j] =
      d.toIid t (ids d.eventOtypes rows t)[j] := by rw [hc]; rfl
    rw [this, hd.toIid_eq ht]
    simp only [List.getElem_mem, if_true]
    rw [(nodup_ids _ _ _).idxOf_getElem j hj]
  rw [this]

/-- The features of the objects, by external id, whatever else is loaded. -/
theorem setFeature_filtered {d d1 : EventData α φ ε} {rows : List (List α)} (h : Built d rows)
    {js : List Nat} (hB : Built (d.filtered rows js) (gather rows js))
    {t : Nat} {eids : List α} {f : List φ} (hlen : f.length = eids.length)
    (hset : d.setFeature t eids f = .ok d1) :
    (d.filtered rows js).setFeature t eids f = .ok (d1.filtered rows js) := by
  have hd := h.holds
  have hd' := hB.holds
  have ht := setFeature_type_lt hd hset
  have ht' : t < (d.filtered rows js).nOtypes := ht
  have hsub : ∀ r ∈ gather rows js, r ∈ rows := fun r hr => mem_of_mem_gather hr
  obtain ⟨a1, a2, a3⟩ := C11_set_feature h t ht eids f hlen
  obtain ⟨b1, b2, b3⟩ := C11_set_feature hB t ht' eids f hlen
  have hall := a1.1 ⟨d1, hset⟩
  obtain ⟨d2, hset2⟩ := b1.2 (fun x hx => hall x (isObject_mono _ _ _ hsub hx))
  rw [hset2]
  obtain ⟨⟨g1, c1, c2, c3⟩, c4⟩ := a3 d1 hset
  obtain ⟨⟨g2, e1, e2, e3⟩, e4⟩ := b3 d2 hset2
  have hg1l : g1.length = (ids d.eventOtypes rows t).length := by
    rw [hd.nObjects_get ht] at c3; simpa [eq_comm] using c3
  have hg2l : g2.length = (ids d.eventOtypes (gather rows js) t).length := by
    rw [hd'.nObjects_get ht'] at e3; simpa [eq_comm, filtered] using e3
  have hkl := keptIndex_lt d.eventOtypes rows (gather rows js) hsub t
  have hgg : gather g1 (keptIndex d.eventOtypes rows (gather rows js) t) = g2 := by
    apply List.ext_getElem?
    intro j
    rw [getElem?_gather _ _ (by rw [hg1l]; exact hkl)]
    by_cases hj : j < (ids d.eventOtypes (gather rows js) t).length
    · have hx := (mem_ids d.eventOtypes (gather rows js) t _).1 (List.getElem_mem hj)
      have hx1 := isObject_mono _ _ _ hsub hx
      have hm1 := (mem_ids _ _ _ _).2 hx1
      have hi := List.idxOf_lt_length_iff.2 hm1
      obtain ⟨i1, p1, p2, p3, p4⟩ := c4 _ hx1
      obtain ⟨i2, q1, q2, q3, q4⟩ := e4 _ hx
      have hii : i1 = i2 := by
        rcases lt_trichotomy i1 i2 with h | h | h
        · exact absurd q1 (p2 i2 h)
        · exact h
        · exact absurd p1 (q2 i1 h)
      have k1 := featureOf_set hd ht g1 hi c1 c2
      rw [List.getElem_idxOf] at k1
      have k2 := featureOf_set hd' ht' g2 (j := j) hj e1 e2
      have hkj : (keptIndex d.eventOtypes rows (gather rows js) t)[j]? =
          some ((ids d.eventOtypes rows t).idxOf (ids d.eventOtypes (gather rows js) t)[j]) := by
        unfold keptIndex
        simp [hj]
      rw [hkj, Option.bind_some, ← k1, p3, hii, ← q3]
      exact k2
    · rw [List.getElem?_eq_none (l := g2) (by omega),
        List.getElem?_eq_none (by unfold keptIndex; simpa using not_lt.1 hj)]
      rfl
  congr 1
  have hf : d2.feature = (d1.filtered rows js).feature := by
    rw [e1, c1]
    simp only [filtered]
    apply List.ext_getElem?
    intro k
    rw [List.getElem?_set]
    by_cases hk : t = k
    · subst hk
      simp only [if_true, List.length_map, List.length_range, ht]
      rw [List.getElem?_map, List.getElem?_range ht]
      simp only [Option.map_some, keptFeature]
      rw [List.getElem?_set]
      simp only [if_true, hd.wf.len_feature, ht]
      simp [hgg]
    · simp only [hk, if_false]
      by_cases hkn : k < d.nOtypes
      · rw [List.getElem?_map, List.getElem?_map, List.getElem?_range hkn]
        simp only [Option.map_some, keptFeature]
        rw [List.getElem?_set]
        simp [hk]
      · rw [List.getElem?_eq_none (by simpa using not_lt.1 hkn),
          List.getElem?_eq_none (by simpa using not_lt.1 hkn)]
  have hd2 : d2 = { d1.filtered rows js with feature := d2.feature } := by
    rw [e1, c1]; rfl
  rw [hd2, hf]

/-- C122, one step: giving objects their features and then selecting events is selecting events and
then giving the remaining objects their features, for every selection and every table of features
that covers the objects. -/
theorem C122_features_commute_with_filter {d d1 : EventData α φ ε} {rows : List (List α)}
    (h : Built d rows)
    (hfeat : ∀ (t : Nat) (f : List φ), d.feature[t]? = some (some f) →
      d.nObjects[t]? = some f.length)
    {t : Nat} {eids : List α} {f : List φ} (hlen : f.length = eids.length)
    (hset : d.setFeature t eids f = .ok d1) (cond : Sel) {rows' : List (List α)}
    (hsel : cond.apply rows = .ok rows') :
    ∃ d' d1', d.filterEvent cond = .ok (some d') ∧ d1.filterEvent cond = .ok (some d1') ∧
      d'.setFeature t eids f = .ok d1' ∧ Built d1' rows' := by
  have hd := h.holds
  have ht := setFeature_type_lt hd hset
  have hok : d.FeatureOK rows := by
    intro t f hf
    have hlt : t < d.nOtypes := by
      rw [← hd.wf.len_feature]
      rw [List.getElem?_eq_some_iff] at hf; exact hf.1
    have := hfeat t f hf
    rw [hd.nObjects_get hlt] at this
    simpa [eq_comm] using this
  have h1 : Built d1 rows := .setFeature h hset
  have hd1 := h1.holds
  obtain ⟨_, _, a3⟩ := C11_set_feature h t ht eids f hlen
  obtain ⟨⟨g, c1, c2, c3⟩, _⟩ := a3 d1 hset
  have hok1 : d1.FeatureOK rows := by
    intro u f' hf'
    by_cases hu : u = t
    · subst hu
      rw [c2] at hf'
      cases hf'
      rw [hd.nObjects_get ht] at c3
      rw [c1]
      simpa [eq_comm] using c3
    · rw [c1] at hf' ⊢
      simp only [List.getElem?_set, Ne.symm hu, if_false] at hf'
      exact hok u f' hf'
  cases hjs : cond.positions rows.length with
  | error e => unfold Sel.apply at hsel; rw [hjs] at hsel; cases hsel
  | ok js =>
    have e := filterEvent_eq d rows hd hok h.eventFeature_length cond js hjs
    have e1 := filterEvent_eq d1 rows hd1 hok1 h1.eventFeature_length cond js hjs
    have hr : rows' = gather rows js := by
      unfold Sel.apply at hsel; rw [hjs] at hsel; cases hsel; rfl
    subst hr
    exact ⟨_, _, e, e1, setFeature_filtered h (.filterEvent h hsel e) hlen hset,
      .filterEvent h1 hsel e1⟩

theorem features_commute (feats : List (Nat × List α × List φ))
    (hlen : ∀ p ∈ feats, p.2.2.length = p.2.1.length) {rows rows' : List (List α)} (cond : Sel)
    (hsel : cond.apply rows = .ok rows') :
    ∀ {d dn : EventData α φ ε}, Built d rows →
    (∀ (t : Nat) (f : List φ), d.feature[t]? = some (some f) → d.nObjects[t]? = some f.length) →
    feats.foldlM (fun d p => d.setFeature p.1 p.2.1 p.2.2) d = .ok dn →
    ∃ d' dn', d.filterEvent cond = .ok (some d') ∧ dn.filterEvent cond = .ok (some dn') ∧
      feats.foldlM (fun d p => d.setFeature p.1 p.2.1 p.2.2) d' = .ok dn' := by
  induction feats with
  | nil =>
    intro d dn h hf hn
    cases hn
    obtain ⟨d', hd'⟩ := C06_filter_total h hf cond hsel
    exact ⟨d', d', hd', hd', rfl⟩
  | cons p ps ih =>
    intro d dn h hf hn
    rw [List.foldlM_cons] at hn
    cases hs : d.setFeature p.1 p.2.1 p.2.2 with
    | error e => rw [hs] at hn; cases hn
    | ok d1 =>
      rw [hs] at hn
      have hn : ps.foldlM (fun d p => d.setFeature p.1 p.2.1 p.2.2) d1 = .ok dn := hn
      obtain ⟨d', d1', k1, k2, k3, _⟩ := C122_features_commute_with_filter h hf (hlen p (by simp)) hs cond hsel
      have hf1 : ∀ (t : Nat) (f : List φ), d1.feature[t]? = some (some f) →
          d1.nObjects[t]? = some f.length := by
        obtain ⟨_, _, a3⟩ := C11_set_feature h p.1 (setFeature_type_lt h.holds hs) p.2.1 p.2.2
          (hlen p (by simp))
        obtain ⟨⟨g, c1, c2, c3⟩, _⟩ := a3 d1 hs
        intro u f' hf'
        by_cases hu : u = p.1
        · subst hu
          rw [c2] at hf'
          cases hf'
          rw [c1]; exact c3
        · rw [c1] at hf' ⊢
          simp only [List.getElem?_set, Ne.symm hu, if_false] at hf'
          exact hf u f' hf'
      obtain ⟨e1, dn', m1, m2, m3⟩ := ih (fun q hq => hlen q (by simp [hq])) (.setFeature h hs) hf1 hn
      rw [k2] at m1
      cases m1
      refine ⟨d', dn', k1, m2, ?_⟩
      rw [List.foldlM_cons, k3]
      exact m3

/-- C122: let a container without object features be loaded with events, event features and any
tables of object features.  Selecting events from the result gives exactly the container that is
obtained by loading the selected events with their event features and the same tables. -/
theorem C122_filter_is_part {d0 d : EventData α φ ε} (h0 : Reachable d0)
    (hnone : ∀ o ∈ d0.feature, o = none) {event : Arr2 α} (hreg : event.Regular)
    {ef : Option (List ε)} (hef : ∀ f, ef = some f → f.length = event.rows.length)
    {feats : List (Nat × List α × List φ)} (hlen : ∀ p ∈ feats, p.2.2.length = p.2.1.length)
    (hload : loadAll d0 event ef feats = .ok d) (cond : Sel) {js : List Nat}
    (hjs : cond.positions event.rows.length = .ok js) :
    ∃ d', d.filterEvent cond = .ok (some d') ∧
      loadAll d0 ⟨event.ncols, gather event.rows js⟩ (ef.map (fun f => gather f js)) feats =
        .ok d' := by
  unfold loadAll at hload ⊢
  cases hs : d0.setEvent event ef with
  | error e => rw [hs] at hload; cases hload
  | ok d1 =>
    rw [hs] at hload
    have hload : feats.foldlM (fun d p => d.setFeature p.1 p.2.1 p.2.2) d1 = .ok d := hload
    have hB : Built d1 event.rows := .load h0 hreg hef hs
    have hw : event.ncols = d0.sEvent := ((setEvent_ok_iff d0 h0.wf event hreg ef d1).1 hs).1
    have hd1 := setEvent_eq d0 h0.wf event hreg hw ef
    rw [hs] at hd1
    cases hd1
    have hsel : cond.apply event.rows = .ok (gather event.rows js) := by
      unfold Sel.apply; rw [hjs]
    have hfeat : ∀ (t : Nat) (f : List φ), (d0.loaded event.rows ef).feature[t]? = some (some f) →
        (d0.loaded event.rows ef).nObjects[t]? = some f.length := by
      intro t f hf
      have := hnone _ (List.mem_of_getElem? (show d0.feature[t]? = some (some f) from hf))
      cases this
    obtain ⟨d', dn', k1, k2, k3⟩ := features_commute feats hlen cond hsel hB hfeat hload
    have hreg' : (⟨event.ncols, gather event.rows js⟩ : Arr2 α).Regular := by
      intro r hr
      exact hreg r (mem_of_mem_gather hr)
    have hs' := setEvent_eq d0 h0.wf ⟨event.ncols, gather event.rows js⟩ hreg' hw
      (ef.map (fun f => gather f js))
    rw [hs']
    refine ⟨dn', k2, ?_⟩
    have hok : (d0.loaded event.rows ef).FeatureOK event.rows := by
      intro t f hf
      have := hnone _ (List.mem_of_getElem? (show d0.feature[t]? = some (some f) from hf))
      cases this
    have := filterEvent_eq _ _ hB.holds hok hB.eventFeature_length cond js hjs
    rw [k1] at this
    have hd' : d' = d0.loaded (gather event.rows js) (ef.map (fun f => gather f js)) := by
      cases this
      have hfn : (List.range d0.nOtypes).map ((d0.loaded event.rows ef).keptFeature event.rows
          (gather event.rows js)) = d0.feature := by
        apply List.ext_getElem?
        intro k
        by_cases hk : k < d0.nOtypes
        · have hkl : k < d0.feature.length := by rw [h0.wf.len_feature]; exact hk
          have hn : d0.feature[k] = none := hnone _ (List.getElem_mem hkl)
          rw [List.getElem?_map, List.getElem?_range hk, List.getElem?_eq_getElem hkl, hn]
          simp [keptFeature, loaded, List.getElem?_eq_getElem hkl, hn]
        · rw [List.getElem?_eq_none (by simpa using not_lt.1 hk),
            List.getElem?_eq_none (by rw [h0.wf.len_feature]; omega)]
      unfold filtered
      simp only [loaded] at hfn ⊢
      rw [hfn]
    rw [← hd']
    exact k3

/-- Three events of users 1, 2 and items 10, 20, loaded with the features of users, of which the
first and third are selected. -/
example : ∃ (d0 d d' : EventData Nat String Nat), Reachable d0 ∧ (∀ o ∈ d0.feature, o = none) ∧
    loadAll d0 ⟨2, [[1, 10], [2, 20], [1, 20]]⟩ (some [7, 8, 9]) [(0, [2, 1], ["b", "a"])] = .ok d ∧
    (Sel.mask [true, false, true]).positions 3 = .ok [0, 2] ∧
    d.filterEvent (.mask [true, false, true]) = .ok (some d') ∧
    d'.feature = [some ["a"], none] ∧ d'.eventFeature = some [7, 9] := by
  refine ⟨_, _, _, .init (n := 2) (arg := .none) rfl, ?_, rfl, rfl, rfl, rfl, rfl⟩
  simp

end EventData
end Kam
