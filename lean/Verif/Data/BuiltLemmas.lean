/-
Containers produced by arbitrary histories of API calls.
-/
import Verif.Data.FilterLemmas

namespace Kam
variable {α φ ε : Type} [LinearOrder α]
namespace EventData

/-- What `filter_event` does to the feature array of one type: drop `None`, otherwise select the
kept rows (raising when a stale array is too short). -/
def FeatStep (self : EventData α φ ε) (rows rows' : List (List α)) (t : Nat)
    (o : Option (Option (List φ))) : Prop :=
  match self.feature[t]? with
  | some (some f) => ∃ f', npTake f ((keptIndex self.eventOtypes rows rows' t).map Int.ofNat) =
      .ok f' ∧ o = some (some f')
  | _ => o = self.feature[t]?

theorem filterOtype_loop_gen (self d d1 : EventData α φ ε) (rows rows' : List (List α))
    (hself : self.Holds rows) (hsub : ∀ r ∈ rows', r ∈ rows)
    (hot : d.eventOtypes = self.eventOtypes)
    (hev : d.event = some (rows'.map (mixRow self.eventOtypes rows rows' 0)))
    (hf : d.feature = self.feature) (k : Nat) (hk : k ≤ self.nOtypes)
    (h : (List.range k).foldlM (filterOtype self) d = .ok d1) :
    d1 = { d with
      event := some (rows'.map (mixRow self.eventOtypes rows rows' k))
      eid := (List.range k).foldl
        (fun acc t => acc.set t (some (ids self.eventOtypes rows' t))) d.eid
      iid := (List.range k).foldl
        (fun acc t => acc.set t (some (Dict.ofPairs (ids self.eventOtypes rows' t).zipIdx))) d.iid
      nObjects := (List.range k).foldl
        (fun acc t => acc.set t (ids self.eventOtypes rows' t).length) d.nObjects
      feature := d1.feature } ∧
    d1.feature.length = self.feature.length ∧
    (∀ t, k ≤ t → d1.feature[t]? = self.feature[t]?) ∧
    (∀ t, t < k → self.FeatStep rows rows' t d1.feature[t]?) := by
  induction k generalizing d1 with
  | zero =>
    simp only [List.range_zero, List.foldlM_nil, pure, Except.pure, Except.ok.injEq] at h
    subst h
    refine ⟨?_, by rw [hf], by simp [hf], by simp⟩
    cases d; simp_all
  | succ k ih =>
    rw [List.range_succ, List.foldlM_append] at h
    cases h0 : (List.range k).foldlM (filterOtype self) d with
    | error e => rw [h0] at h; simp [bind, Except.bind] at h
    | ok d0 =>
      obtain ⟨i1, i2, i3, i4⟩ := ih d0 (by omega) h0
      rw [h0] at h
      simp only [List.foldlM_cons, List.foldlM_nil, bind, Except.bind] at h
      rw [filterOtype_gen self d0 rows rows' k hself hsub (by omega)
        (by rw [i1]; exact hot) (by rw [i1])] at h
      have hfk : k < self.feature.length := by rw [hself.wf.len_feature]; omega
      have hd0k : d0.feature[k]? = self.feature[k]? := i3 k (le_refl k)
      simp only [List.range_succ, List.foldl_append, List.foldl_cons, List.foldl_nil]
      cases hfe : self.feature[k]? with
      | none => rw [List.getElem?_eq_getElem hfk] at hfe; cases hfe
      | some o =>
        cases o with
        | none =>
          simp only [hfe, pure, Except.pure, Except.ok.injEq] at h
          have hfeat : d1.feature = d0.feature := by rw [← h]
          refine ⟨?_, by rw [hfeat, i2], ?_, ?_⟩
          · rw [← h, i1]
          · intro t ht; rw [hfeat]; exact i3 t (by omega)
          · intro t ht
            rcases Nat.lt_or_eq_of_le (Nat.lt_succ_iff.1 ht) with ht' | ht'
            · rw [hfeat]; exact i4 t ht'
            · subst ht'
              unfold FeatStep
              rw [hfe, hfeat, hd0k, hfe]
        | some f =>
          simp only [hfe] at h
          cases hn : npTake f ((keptIndex self.eventOtypes rows rows' k).map Int.ofNat) with
          | error e => simp [hn] at h
          | ok f' =>
            simp only [hn, pure, Except.pure, Except.ok.injEq] at h
            have hfeat : d1.feature = d0.feature.set k (some f') := by rw [← h]
            refine ⟨?_, by rw [hfeat]; simp [i2], ?_, ?_⟩
            · rw [← h]
              conv_lhs => rw [i1]
            · intro t ht
              rw [hfeat, List.getElem?_set]
              have : ¬ k = t := by omega
              simp only [this, if_false]
              exact i3 t (by omega)
            · intro t ht
              rcases Nat.lt_or_eq_of_le (Nat.lt_succ_iff.1 ht) with ht' | ht'
              · have : ¬ k = t := by omega
                rw [hfeat, List.getElem?_set]
                simp only [this, if_false]
                exact i4 t ht'
              · subst ht'
                unfold FeatStep
                rw [hfe]
                refine ⟨f', hn, ?_⟩
                rw [hfeat, List.getElem?_set]
                simp [i2, hfk]

/-- Everything a successful `filter_event` does, for arbitrary object features. -/
theorem filterEvent_gen (d d' : EventData α φ ε) (rows : List (List α)) (hd : d.Holds rows)
    (cond : Sel) (h : d.filterEvent cond = .ok (some d')) :
    ∃ js, cond.positions rows.length = .ok js ∧
      d' = { d.filtered rows js with
              feature := d'.feature
              eventFeature := d'.eventFeature } ∧
      d'.feature.length = d.nOtypes ∧
      (∀ t, t < d.nOtypes → d.FeatStep rows (gather rows js) t d'.feature[t]?) ∧
      (match d.eventFeature with
        | some f => ∃ f', cond.apply f = .ok f' ∧ d'.eventFeature = some f'
        | none => d'.eventFeature = none) := by
  have hwf := hd.wf
  cases hjs : cond.positions rows.length with
  | error e =>
    rw [filterEvent_index_error d rows hd cond e hjs] at h
    cases h
  | ok js =>
    have hsub : ∀ r ∈ gather rows js, r ∈ rows := fun r hr => mem_of_mem_gather hr
    refine ⟨js, rfl, ?_⟩
    unfold filterEvent at h
    simp only [hd.event, Sel.apply, List.length_map, hjs, bind, Except.bind, gather_map] at h
    have hmix0 : (gather rows js).map (mixRow d.eventOtypes rows (gather rows js) 0) =
        (gather rows js).map (encodeRow d.eventOtypes rows) := by
      apply List.map_congr_left; intro r _; unfold mixRow encodeRow; simp
    have hmixn : (gather rows js).map (mixRow d.eventOtypes rows (gather rows js) d.nOtypes) =
        (gather rows js).map (encodeRow d.eventOtypes (gather rows js)) := by
      apply List.map_congr_left; intro r _
      unfold mixRow encodeRow
      have : ∀ (ot : List Nat) (r : List α), (∀ t ∈ ot, t < d.nOtypes) →
          List.zipWith (fun t x => if t < d.nOtypes then
              ((ids d.eventOtypes (gather rows js) t).idxOf x : Int)
              else ((ids d.eventOtypes rows t).idxOf x : Int)) ot r =
          List.zipWith (fun t x => ((ids d.eventOtypes (gather rows js) t).idxOf x : Int)) ot r := by
        intro ot
        induction ot with
        | nil => intro r _; cases r <;> rfl
        | cons t ot ih =>
          intro r h
          cases r with
          | nil => rfl
          | cons x xs =>
            have := h t (by simp)
            simp [this, ih xs (fun u hu => h u (by simp [hu]))]
      exact this _ _ hwf.otypes_lt
    split at h
    · cases h
    · rename_i d1 h1
      obtain ⟨g1, g2, g3, g4⟩ := filterOtype_loop_gen d
        { d with
          event := some ((gather rows js).map (encodeRow d.eventOtypes rows))
          nEvents := (gather rows js).length } d1 rows (gather rows js) hd hsub rfl
        (by simp only; rw [hmix0]) rfl d.nOtypes (le_refl _) h1
      rw [foldl_set_eq _ _ _ hwf.len_nObjects, foldl_set_eq _ _ _ hwf.len_eid,
        foldl_set_eq _ _ _ hwf.len_iid, hmixn] at g1
      cases hE : d.eventFeature with
      | none =>
        simp only [hE, pure, Except.pure, Except.ok.injEq, Option.some.injEq] at h
        have hE1 : d1.eventFeature = none := by rw [g1]; exact hE
        have hfeat : d'.feature = d1.feature := by rw [← h]
        refine ⟨?_, by rw [hfeat, g2, hwf.len_feature], ?_, ?_⟩
        · rw [← h]
          conv_lhs => rw [g1]
          simp [filtered, hE, hE1]
        · intro t ht; rw [hfeat]; exact g4 t ht
        · rw [← h]; exact hE1
      | some f =>
        simp only [hE] at h
        cases ha : cond.positions f.length with
        | error e => simp [ha] at h
        | ok ks =>
          simp only [ha, pure, Except.pure, Except.ok.injEq, Option.some.injEq] at h
          have hfeat : d'.feature = d1.feature := by rw [← h]
          refine ⟨?_, by rw [hfeat, g2, hwf.len_feature], ?_, ?_⟩
          · rw [← h]
            conv_lhs => rw [g1]
            simp [filtered]
          · intro t ht; rw [hfeat]; exact g4 t ht
          · refine ⟨gather f ks, ?_, ?_⟩
            · simp [Sel.apply, ha]
            · rw [← h]

theorem filterEvent_isSome (d : EventData α φ ε) (rows : List (List α)) (hd : d.Holds rows)
    (cond : Sel) : d.filterEvent cond ≠ .ok none := by
  intro h
  unfold filterEvent at h
  simp only [hd.event, bind, Except.bind] at h
  split at h
  · cases h
  · split at h
    · cases h
    · split at h
      · cases h
      · cases h

theorem holds_filterEvent (d d' : EventData α φ ε) (rows : List (List α)) (hd : d.Holds rows)
    (cond : Sel) (h : d.filterEvent cond = .ok (some d')) (rows' : List (List α))
    (hr : cond.apply rows = .ok rows') : d'.Holds rows' := by
  obtain ⟨js, h1, h2, h3, _, _⟩ := filterEvent_gen d d' rows hd cond h
  have hh := holds_filtered d rows hd js
  have : rows' = gather rows js := by
    unfold Sel.apply at hr; rw [h1] at hr; simpa [eq_comm] using hr
  subst this
  rw [h2]
  exact ⟨⟨hh.wf.pos, hh.wf.len_nObjects, hh.wf.len_eid, hh.wf.len_iid, h3, hh.wf.len_otypes,
    hh.wf.otypes_lt⟩, hh.reg, hh.nObjects, hh.eid, hh.iid, hh.event, hh.nEvents⟩

/-! ### set_feature -/

/-- `i` is the last position of `x` in `l`. -/
def LastAt {β : Type} (l : List β) (x : β) (i : Nat) : Prop :=
  l[i]? = some x ∧ ∀ i', i < i' → l[i']? ≠ some x

theorem featureIndex_spec (objs : List α) (hnd : objs.Nodup) (eids : List α) :
    ∃ index, featureIndex (Dict.ofPairs objs.zipIdx) eids = .ok index ∧
      index.length = objs.length ∧
      ∀ j (hj : j < objs.length),
        (∃ i, LastAt eids objs[j] i ∧ index[j]? = some (i : Int)) ∨
        (objs[j] ∉ eids ∧ index[j]? = some (eids.length : Int)) := by
  have key : ∀ (l : List α) (a : List Int) (s : Nat), a.length = objs.length →
      ∃ out, (l.zipIdx s).foldlM (fun index p =>
          match (Dict.ofPairs objs.zipIdx).get? p.1 with
          | some j => npSet index (j : Int) (p.2 : Int)
          | none => .ok index) a = (.ok out : Res (List Int)) ∧
        out.length = objs.length ∧
        ∀ j (hj : j < objs.length),
          (∃ i, LastAt l objs[j] i ∧ out[j]? = some ((s + i : Nat) : Int)) ∨
          (objs[j] ∉ l ∧ out[j]? = a[j]?) := by
    intro l
    induction l with
    | nil =>
      intro a s ha
      exact ⟨a, rfl, ha, fun j hj => Or.inr ⟨by simp, rfl⟩⟩
    | cons x xs ih =>
      intro a s ha
      simp only [List.zipIdx_cons, List.foldlM_cons]
      by_cases hx : x ∈ objs
      · have hget : (Dict.ofPairs objs.zipIdx).get? x = some (objs.idxOf x) := by
          rw [Dict.get?_ofPairs_zipIdx _ hnd]; simp [hx]
        have hlt : objs.idxOf x < a.length := by rw [ha]; exact List.idxOf_lt_length_iff.2 hx
        obtain ⟨out, o1, o2, o3⟩ := ih (a.set (objs.idxOf x) (s : Int)) (s + 1) (by simp [ha])
        refine ⟨out, ?_, o2, ?_⟩
        · simp only [hget, npSet_ofNat a _ hlt, bind, Except.bind]
          exact o1
        · intro j hj
          rcases o3 j hj with ⟨i, ⟨hi1, hi2⟩, hi3⟩ | ⟨hn, ho⟩
          · left
            refine ⟨i + 1, ⟨by simpa using hi1, ?_⟩, by rw [hi3]; congr 2; omega⟩
            intro i' hi'
            cases i' with
            | zero => omega
            | succ i' => simpa using hi2 i' (by omega)
          · by_cases hxj : x = objs[j]
            · left
              refine ⟨0, ⟨by simp [hxj], ?_⟩, ?_⟩
              · intro i' hi'
                cases i' with
                | zero => omega
                | succ i' =>
                  simp only [List.getElem?_cons_succ]
                  intro hcon
                  exact hn (List.mem_of_getElem? hcon)
              · rw [ho]
                have : objs.idxOf x = j := by rw [hxj]; exact hnd.idxOf_getElem j hj
                rw [this] at hlt ⊢
                simp [hlt]
            · right
              refine ⟨by simp [Ne.symm hxj, hn], ?_⟩
              rw [ho, List.getElem?_set]
              have : ¬ objs.idxOf x = j := by
                intro hcon
                apply hxj
                subst hcon
                simp
              simp [this]
      · have hget : (Dict.ofPairs objs.zipIdx).get? x = none := by
          rw [Dict.get?_ofPairs_zipIdx _ hnd]; simp [hx]
        obtain ⟨out, o1, o2, o3⟩ := ih a (s + 1) ha
        refine ⟨out, ?_, o2, ?_⟩
        · simp only [hget, bind, Except.bind]
          exact o1
        · intro j hj
          have hxj : ¬ x = objs[j] := fun hcon => hx (by rw [hcon]; exact List.getElem_mem _)
          rcases o3 j hj with ⟨i, ⟨hi1, hi2⟩, hi3⟩ | ⟨hn, ho⟩
          · left
            refine ⟨i + 1, ⟨by simpa using hi1, ?_⟩, by rw [hi3]; congr 2; omega⟩
            intro i' hi'
            cases i' with
            | zero => omega
            | succ i' => simpa using hi2 i' (by omega)
          · right
            exact ⟨by simp [Ne.symm hxj, hn], ho⟩
  obtain ⟨out, o1, o2, o3⟩ := key eids
    (List.replicate (Dict.ofPairs objs.zipIdx).length (eids.length : Int)) 0
    (by simp [Dict.length_ofPairs_zipIdx _ hnd])
  refine ⟨out, o1, o2, ?_⟩
  intro j hj
  rcases o3 j hj with ⟨i, h1, h2⟩ | ⟨h1, h2⟩
  · left; exact ⟨i, h1, by simpa using h2⟩
  · right
    refine ⟨h1, ?_⟩
    rw [h2]
    have : j < (Dict.ofPairs objs.zipIdx).length := by
      rw [Dict.length_ofPairs_zipIdx _ hnd]; exact hj
    simp [this]

end EventData
end Kam
