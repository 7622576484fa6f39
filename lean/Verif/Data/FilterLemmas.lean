/-
Closed form of `filter_event`.
-/
import Verif.Data.Lemmas

namespace Kam
variable {α φ ε : Type} [LinearOrder α]

theorem selMask_zipWith {β γ : Type} (f : Nat → β → γ) (k : Nat) (ot : List Nat) (r : List β) :
    selMask (ot.map (fun u => decide (u = k))) (List.zipWith f ot r) =
      (selMask (ot.map (fun u => decide (u = k))) r).map (f k) := by
  induction ot generalizing r with
  | nil => cases r <;> rfl
  | cons t ot ih =>
    cases r with
    | nil => simp only [List.map_cons, List.zipWith_nil_right]; cases decide (t = k) <;> rfl
    | cons x xs =>
      by_cases h : t = k
      · subst h; simp [selMask, ih]
      · simp [selMask, ih, h]

theorem putMask_zipWith {β γ : Type} (f : Nat → β → γ) (g : β → γ) (k : Nat) (ot : List Nat)
    (r : List β) :
    putMask (ot.map (fun u => decide (u = k))) (List.zipWith f ot r)
      ((selMask (ot.map (fun u => decide (u = k))) r).map g) =
      List.zipWith (fun t x => if t = k then g x else f t x) ot r := by
  induction ot generalizing r with
  | nil => cases r <;> rfl
  | cons t ot ih =>
    cases r with
    | nil => simp only [List.map_cons, List.zipWith_nil_right]; cases decide (t = k) <;> rfl
    | cons x xs =>
      by_cases h : t = k
      · subst h; simp [selMask, putMask, ih]
      · simp [selMask, putMask, ih, h]

/-- Inserting the numbers `0, 1, ...` at distinct positions. -/
theorem genIdSubstitutionTable_spec (n : Nat) (js : List Nat) (hnd : js.Nodup)
    (hlt : ∀ j ∈ js, j < n) :
    ∃ table, EventData.genIdSubstitutionTable n (js.map Int.ofNat) = .ok table ∧
      table.length = n ∧ ∀ i (h : i < js.length), table[js[i]]? = some (i : Int) := by
  have key : ∀ (js : List Nat) (a : List Int) (s : Nat), a.length = n → js.Nodup →
      (∀ j ∈ js, j < n) →
      ∃ table, ((js.map Int.ofNat).zipIdx s).foldlM
          (fun table p => npSet table p.1 (p.2 : Int)) a = (.ok table : Res (List Int)) ∧
        table.length = n ∧ (∀ i (h : i < js.length), table[js[i]]? = some ((s + i : Nat) : Int)) ∧
        (∀ j, j ∉ js → table[j]? = a[j]?) := by
    intro js
    induction js with
    | nil => intro a s ha _ _; exact ⟨a, rfl, ha, by simp, by simp⟩
    | cons j js ih =>
      intro a s ha hnd hlt
      rw [List.nodup_cons] at hnd
      have hj : j < a.length := by rw [ha]; exact hlt j (by simp)
      obtain ⟨table, h1, h2, h3, h4⟩ := ih (a.set j (s : Int)) (s + 1) (by simp [ha]) hnd.2
        (fun x hx => hlt x (by simp [hx]))
      refine ⟨table, ?_, h2, ?_, ?_⟩
      · simp only [List.map_cons, List.zipIdx_cons, List.foldlM_cons]
        have : npSet a (Int.ofNat j) ((s : Nat) : Int) = .ok (a.set j (s : Int)) :=
          npSet_ofNat a j hj _
        rw [this]
        exact h1
      · intro i hi
        cases i with
        | zero =>
          simp only [List.getElem_cons_zero, Nat.add_zero]
          rw [h4 j hnd.1]
          simp [hj]
        | succ i =>
          simp only [List.getElem_cons_succ]
          rw [h3 i (by simpa using hi)]
          congr 2; omega
      · intro x hx
        simp only [List.mem_cons, not_or] at hx
        rw [h4 x hx.2, List.getElem?_set]
        simp [Ne.symm hx.1]
  obtain ⟨table, h1, h2, h3, _⟩ := key js (List.replicate n (-1)) 0 (by simp) hnd hlt
  exact ⟨table, h1, h2, fun i hi => by simpa using h3 i hi⟩

/-- Position in the old table of each object kept by the filter. -/
def keptIndex (otypes : List Nat) (rows rows' : List (List α)) (t : Nat) : List Nat :=
  (ids otypes rows' t).map (ids otypes rows t).idxOf

/-- Rows during the renumbering: the types below `k` are already renumbered. -/
def mixRow (otypes : List Nat) (rows rows' : List (List α)) (k : Nat) (r : List α) : List Int :=
  List.zipWith (fun t x => if t < k then ((ids otypes rows' t).idxOf x : Int)
    else ((ids otypes rows t).idxOf x : Int)) otypes r

section
variable (otypes : List Nat) (rows rows' : List (List α)) (hsub : ∀ r ∈ rows', r ∈ rows)
include hsub

omit [LinearOrder α] in
theorem isObject_mono {t : Nat} {x : α} (h : Spec.IsObject otypes rows' t x) :
    Spec.IsObject otypes rows t x := by
  obtain ⟨r, hr, e, h1, h2⟩ := h
  exact ⟨r, hsub r hr, e, h1, h2⟩

theorem mem_ids_mono {t : Nat} {x : α} (h : x ∈ ids otypes rows' t) : x ∈ ids otypes rows t := by
  rw [mem_ids] at *; exact isObject_mono otypes rows rows' hsub h

theorem subIndex_eq (k : Nat) :
    npUnique ((rows'.map (mixRow otypes rows rows' k)).flatMap
        (selMask (otypes.map (fun u => decide (u = k))))) =
      (keptIndex otypes rows rows' k).map Int.ofNat := by
  have h1 : (rows'.map (mixRow otypes rows rows' k)).flatMap
        (selMask (otypes.map (fun u => decide (u = k)))) =
      (objs otypes rows' k).map (fun x => ((ids otypes rows k).idxOf x : Int)) := by
    unfold objs
    rw [List.flatMap_map, List.map_flatMap]
    congr 1
    funext r
    unfold mixRow
    rw [selMask_zipWith]
    simp
  rw [h1, npUnique_map]
  · unfold keptIndex ids
    simp [Function.comp_def]
  · intro x hx y hy hxy
    have hx' : x ∈ ids otypes rows k :=
      (mem_ids _ _ _ _).2 (isObject_mono otypes rows rows' hsub ((mem_objs _ _ _ _).1 hx))
    have hy' : y ∈ ids otypes rows k :=
      (mem_ids _ _ _ _).2 (isObject_mono otypes rows rows' hsub ((mem_objs _ _ _ _).1 hy))
    exact_mod_cast idxOf_lt_idxOf (sorted_ids _ _ _) hx' hy' hxy

theorem keptIndex_lt (t : Nat) : ∀ j ∈ keptIndex otypes rows rows' t,
    j < (ids otypes rows t).length := by
  intro j hj
  unfold keptIndex at hj
  rw [List.mem_map] at hj
  obtain ⟨x, hx, rfl⟩ := hj
  exact List.idxOf_lt_length_iff.2 (mem_ids_mono otypes rows rows' hsub hx)

theorem keptIndex_nodup (t : Nat) : (keptIndex otypes rows rows' t).Nodup := by
  unfold keptIndex
  apply (nodup_ids otypes rows' t).map_on
  intro x hx y _ hxy
  exact (List.idxOf_inj (mem_ids_mono otypes rows rows' hsub hx)).1 hxy

theorem gather_keptIndex (t : Nat) :
    gather (ids otypes rows t) (keptIndex otypes rows rows' t) = ids otypes rows' t := by
  unfold keptIndex gather
  rw [List.filterMap_map]
  have : ∀ l : List α, (∀ x ∈ l, x ∈ ids otypes rows t) →
      l.filterMap ((fun j => (ids otypes rows t)[j]?) ∘ (ids otypes rows t).idxOf) = l := by
    intro l
    induction l with
    | nil => intro _; rfl
    | cons x xs ih =>
      intro h
      have hx : (ids otypes rows t).idxOf x < (ids otypes rows t).length :=
        List.idxOf_lt_length_iff.2 (h x (by simp))
      rw [List.filterMap_cons]
      simp only [Function.comp_apply, List.getElem?_eq_getElem hx, List.getElem_idxOf]
      exact congrArg (x :: ·) (ih (fun y hy => h y (by simp [hy])))
  exact this _ (fun x hx => mem_ids_mono otypes rows rows' hsub hx)

end

namespace EventData

/-- The container `d` represents the external event rows `rows`. -/
structure Holds (d : EventData α φ ε) (rows : List (List α)) : Prop where
  wf : d.WF
  reg : ∀ r ∈ rows, r.length = d.eventOtypes.length
  nObjects : d.nObjects =
    (List.range d.nOtypes).map (fun t => (ids d.eventOtypes rows t).length)
  eid : d.eid = (List.range d.nOtypes).map (fun t => some (ids d.eventOtypes rows t))
  iid : d.iid = (List.range d.nOtypes).map
      (fun t => some (Dict.ofPairs (ids d.eventOtypes rows t).zipIdx))
  event : d.event = some (rows.map (encodeRow d.eventOtypes rows))
  nEvents : d.nEvents = rows.length

/-- Every object-feature array has one row per object. -/
def FeatureOK (d : EventData α φ ε) (rows : List (List α)) : Prop :=
  ∀ (t : Nat) (f : List φ), d.feature[t]? = some (some f) →
    f.length = (ids d.eventOtypes rows t).length

theorem wf_loaded (d : EventData α φ ε) (hwf : d.WF) (rows : List (List α))
    (ef : Option (List ε)) : (d.loaded rows ef).WF := by
  constructor <;> simp [loaded, hwf.pos, hwf.len_feature, hwf.len_otypes]
  exact hwf.otypes_lt

theorem holds_loaded (d : EventData α φ ε) (hwf : d.WF) (rows : List (List α))
    (hreg : ∀ r ∈ rows, r.length = d.eventOtypes.length) (ef : Option (List ε)) :
    (d.loaded rows ef).Holds rows := by
  refine ⟨wf_loaded d hwf rows ef, hreg, ?_, ?_, ?_, ?_, ?_⟩ <;> rfl

/-- Object features of the kept objects. -/
def keptFeature (d : EventData α φ ε) (rows rows' : List (List α)) (t : Nat) : Option (List φ) :=
  ((d.feature[t]?).getD none).map (fun f => gather f (keptIndex d.eventOtypes rows rows' t))

/-- One round of the renumbering loop. -/
theorem filterOtype_gen (self d : EventData α φ ε) (rows rows' : List (List α)) (k : Nat)
    (hself : self.Holds rows)
    (hsub : ∀ r ∈ rows', r ∈ rows) (hk : k < self.nOtypes)
    (hot : d.eventOtypes = self.eventOtypes)
    (hev : d.event = some (rows'.map (mixRow self.eventOtypes rows rows' k))) :
    filterOtype self d k =
      match self.feature[k]? with
      | some (some f) =>
        match npTake f ((keptIndex self.eventOtypes rows rows' k).map Int.ofNat) with
        | .ok f' => .ok { d with
            event := some (rows'.map (mixRow self.eventOtypes rows rows' (k + 1)))
            eid := d.eid.set k (some (ids self.eventOtypes rows' k))
            iid := d.iid.set k (some (Dict.ofPairs (ids self.eventOtypes rows' k).zipIdx))
            nObjects := d.nObjects.set k (ids self.eventOtypes rows' k).length
            feature := d.feature.set k (some f') }
        | .error e => .error e
      | _ => .ok { d with
            event := some (rows'.map (mixRow self.eventOtypes rows rows' (k + 1)))
            eid := d.eid.set k (some (ids self.eventOtypes rows' k))
            iid := d.iid.set k (some (Dict.ofPairs (ids self.eventOtypes rows' k).zipIdx))
            nObjects := d.nObjects.set k (ids self.eventOtypes rows' k).length } := by
  have hwf := hself.wf
  have heid : self.eid[k]? = some (some (ids self.eventOtypes rows k)) := by
    rw [hself.eid]; simp [hk]
  have hnd := keptIndex_nodup self.eventOtypes rows rows' hsub k
  have hlt := keptIndex_lt self.eventOtypes rows rows' hsub k
  obtain ⟨table, ht1, ht2, ht3⟩ := genIdSubstitutionTable_spec
    (ids self.eventOtypes rows k).length (keptIndex self.eventOtypes rows rows' k) hnd hlt
  have hsi := subIndex_eq self.eventOtypes rows rows' hsub k
  -- the table renumbers the kept objects
  have htab : ∀ x ∈ ids self.eventOtypes rows' k,
      npGet table ((ids self.eventOtypes rows k).idxOf x : Int) =
        .ok ((ids self.eventOtypes rows' k).idxOf x : Int) := by
    intro x hx
    have hi : (ids self.eventOtypes rows' k).idxOf x <
        (keptIndex self.eventOtypes rows rows' k).length := by
      unfold keptIndex; rw [List.length_map]; exact List.idxOf_lt_length_iff.2 hx
    have h3 := ht3 _ hi
    have hidx : (keptIndex self.eventOtypes rows rows' k)[(ids self.eventOtypes rows' k).idxOf x] =
        (ids self.eventOtypes rows k).idxOf x := by
      simp [keptIndex]
    rw [hidx] at h3
    have hl : (ids self.eventOtypes rows k).idxOf x < table.length := by
      rw [ht2]; exact List.idxOf_lt_length_iff.2 (mem_ids_mono _ _ _ hsub hx)
    rw [npGet_ofNat table _ hl]
    rw [List.getElem?_eq_getElem hl] at h3
    simpa using h3
  have hnew : (rows'.map (mixRow self.eventOtypes rows rows' k)).mapM
      (fun r => npTake table (selMask (self.eventOtypes.map (fun t => decide (t = k))) r)) =
      .ok (rows'.map (fun r => (selMask (self.eventOtypes.map (fun t => decide (t = k))) r).map
        (fun x => ((ids self.eventOtypes rows' k).idxOf x : Int)))) := by
    rw [mapM_map]
    apply mapM_ok
    intro r hr
    unfold mixRow
    rw [selMask_zipWith]
    unfold npTake
    rw [mapM_map]
    apply mapM_ok
    intro x hx
    simp only [lt_irrefl, if_false]
    apply htab
    rw [mem_ids, ← mem_objs]
    unfold objs
    rw [List.mem_flatMap]
    exact ⟨r, hr, hx⟩
  have hput : List.zipWith (putMask (self.eventOtypes.map (fun t => decide (t = k))))
      (rows'.map (mixRow self.eventOtypes rows rows' k))
      (rows'.map (fun r => (selMask (self.eventOtypes.map (fun t => decide (t = k))) r).map
        (fun x => ((ids self.eventOtypes rows' k).idxOf x : Int)))) =
      rows'.map (mixRow self.eventOtypes rows rows' (k + 1)) := by
    rw [List.zipWith_map, List.zipWith_self]
    apply List.map_congr_left
    intro r _
    unfold mixRow
    rw [putMask_zipWith]
    congr 1
    funext t x
    by_cases h1 : t = k
    · subst h1; simp
    · by_cases h2 : t < k
      · have : t < k + 1 := by omega
        simp [h1, h2, this]
      · have : ¬ t < k + 1 := by omega
        simp [h1, h2, this]
  have heid' := npTake_gather (ids self.eventOtypes rows k) _ hlt
  have hfk : k < self.feature.length := by rw [hwf.len_feature]; exact hk
  unfold filterOtype
  simp only [hev, hot, hsi, heid, ht1, hnew, hput, bind, Except.bind, pure, Except.pure, heid',
    gather_keptIndex self.eventOtypes rows rows' hsub k]
  cases hfe : self.feature[k]? with
  | none => rw [List.getElem?_eq_getElem hfk] at hfe; cases hfe
  | some o =>
    cases o with
    | none => rfl
    | some f =>
      cases hn : npTake f ((keptIndex self.eventOtypes rows rows' k).map Int.ofNat) with
      | ok f' => simp [hn]
      | error e => simp [hn]

/-- One round of the renumbering loop, when the object features have the right size. -/
theorem filterOtype_ok (self d : EventData α φ ε) (rows rows' : List (List α)) (k : Nat)
    (hself : self.Holds rows) (hfeat : self.FeatureOK rows)
    (hsub : ∀ r ∈ rows', r ∈ rows) (hk : k < self.nOtypes)
    (hot : d.eventOtypes = self.eventOtypes)
    (hev : d.event = some (rows'.map (mixRow self.eventOtypes rows rows' k)))
    (hf : d.feature[k]? = self.feature[k]?) :
    filterOtype self d k = .ok { d with
      event := some (rows'.map (mixRow self.eventOtypes rows rows' (k + 1)))
      eid := d.eid.set k (some (ids self.eventOtypes rows' k))
      iid := d.iid.set k (some (Dict.ofPairs (ids self.eventOtypes rows' k).zipIdx))
      nObjects := d.nObjects.set k (ids self.eventOtypes rows' k).length
      feature := d.feature.set k (self.keptFeature rows rows' k) } := by
  have hwf := hself.wf
  have hlt := keptIndex_lt self.eventOtypes rows rows' hsub k
  have hfk : k < self.feature.length := by rw [hwf.len_feature]; exact hk
  rw [filterOtype_gen self d rows rows' k hself hsub hk hot hev]
  cases hfe : self.feature[k]? with
  | none => rw [List.getElem?_eq_getElem hfk] at hfe; cases hfe
  | some o =>
    cases o with
    | none =>
      simp only [keptFeature, hfe, Option.getD_some, Option.map_none]
      rw [hfe] at hf
      have : d.feature.set k none = d.feature := by
        apply List.ext_getElem?
        intro i
        rw [List.getElem?_set]
        by_cases hi : k = i
        · subst hi
          have hklt : k < d.feature.length := by
            rw [List.getElem?_eq_some_iff] at hf; exact hf.1
          rw [hf]; simp [hklt]
        · simp [hi]
      rw [this]
    | some f =>
      have hfl : f.length = (ids self.eventOtypes rows k).length := hfeat k f hfe
      have := npTake_gather f (keptIndex self.eventOtypes rows rows' k)
        (by rw [hfl]; exact hlt)
      simp [keptFeature, hfe, this]

/-- Closed form of the filtered container. -/
def filtered (d : EventData α φ ε) (rows : List (List α)) (js : List Nat) : EventData α φ ε :=
  let rows' := gather rows js
  { d with
    nObjects := (List.range d.nOtypes).map (fun t => (ids d.eventOtypes rows' t).length)
    eid := (List.range d.nOtypes).map (fun t => some (ids d.eventOtypes rows' t))
    iid := (List.range d.nOtypes).map
      (fun t => some (Dict.ofPairs (ids d.eventOtypes rows' t).zipIdx))
    event := some (rows'.map (encodeRow d.eventOtypes rows'))
    nEvents := rows'.length
    feature := (List.range d.nOtypes).map (d.keptFeature rows rows')
    eventFeature := d.eventFeature.map (fun f => gather f js) }

theorem filterOtype_loop (self d : EventData α φ ε) (rows rows' : List (List α))
    (hself : self.Holds rows) (hfeat : self.FeatureOK rows)
    (hsub : ∀ r ∈ rows', r ∈ rows)
    (hot : d.eventOtypes = self.eventOtypes)
    (hev : d.event = some (rows'.map (mixRow self.eventOtypes rows rows' 0)))
    (hf : d.feature = self.feature) (k : Nat) (hk : k ≤ self.nOtypes) :
    (List.range k).foldlM (filterOtype self) d = .ok { d with
      event := some (rows'.map (mixRow self.eventOtypes rows rows' k))
      eid := (List.range k).foldl
        (fun acc t => acc.set t (some (ids self.eventOtypes rows' t))) d.eid
      iid := (List.range k).foldl
        (fun acc t => acc.set t (some (Dict.ofPairs (ids self.eventOtypes rows' t).zipIdx))) d.iid
      nObjects := (List.range k).foldl
        (fun acc t => acc.set t (ids self.eventOtypes rows' t).length) d.nObjects
      feature := (List.range k).foldl
        (fun acc t => acc.set t (self.keptFeature rows rows' t)) d.feature } := by
  induction k with
  | zero => cases d; simp_all [pure, Except.pure]
  | succ k ih =>
    rw [List.range_succ, List.foldlM_append, ih (by omega)]
    simp only [List.foldlM_cons, List.foldlM_nil, bind, Except.bind, List.foldl_append,
      List.foldl_cons, List.foldl_nil]
    rw [filterOtype_ok self _ rows rows' k hself hfeat hsub (by omega)]
    · rfl
    · exact hot
    · rfl
    · simp only
      rw [getElem?_foldl_set, hf]
      simp

theorem filterEvent_eq (d : EventData α φ ε) (rows : List (List α)) (hd : d.Holds rows)
    (hfeat : d.FeatureOK rows) (hef : ∀ f, d.eventFeature = some f → f.length = rows.length)
    (cond : Sel) (js : List Nat) (hjs : cond.positions rows.length = .ok js) :
    d.filterEvent cond = .ok (some (d.filtered rows js)) := by
  have hwf := hd.wf
  have hsub : ∀ r ∈ gather rows js, r ∈ rows := fun r hr => mem_of_mem_gather hr
  unfold filterEvent
  simp only [hd.event, Sel.apply, List.length_map, hjs, bind, Except.bind, gather_map]
  have hmix : ∀ k, (gather rows js).map (mixRow d.eventOtypes rows (gather rows js) 0) =
      (gather rows js).map (encodeRow d.eventOtypes rows) ∧
      (k = d.nOtypes → (gather rows js).map (mixRow d.eventOtypes rows (gather rows js) k) =
      (gather rows js).map (encodeRow d.eventOtypes (gather rows js))) := by
    intro k
    constructor
    · apply List.map_congr_left; intro r _; unfold mixRow encodeRow; simp
    · rintro rfl
      apply List.map_congr_left; intro r _
      unfold mixRow encodeRow
      have : ∀ (ot : List Nat) (r : List α), (∀ t ∈ ot, t < d.nOtypes) →
          List.zipWith (fun t x => if t < d.nOtypes then
              ((ids d.eventOtypes (gather rows js) t).idxOf x : Int)
              else ((ids d.eventOtypes rows t).idxOf x : Int)) ot r =
          List.zipWith (fun t x => ((ids d.eventOtypes (gather rows js) t).idxOf x : Int)) ot r := by
        intro ot
        induction ot with
        | nil => intro r _; cases r <;> rfl
        | cons t ot ih =>
          intro r h
          cases r with
          | nil => rfl
          | cons x xs =>
            have := h t (by simp)
            simp [this, ih xs (fun u hu => h u (by simp [hu]))]
      exact this _ _ hwf.otypes_lt
  rw [filterOtype_loop d _ rows (gather rows js) hd hfeat hsub]
  · simp only
    rw [foldl_set_eq _ _ _ hwf.len_nObjects, foldl_set_eq _ _ _ hwf.len_eid,
      foldl_set_eq _ _ _ hwf.len_iid, foldl_set_eq _ _ _ hwf.len_feature, (hmix d.nOtypes).2 rfl]
    cases hE : d.eventFeature with
    | none => simp [filtered, hE, pure, Except.pure]
    | some f =>
      have := hef f hE
      simp [filtered, hE, this, hjs, pure, Except.pure]
  · rfl
  · simp only; rw [(hmix 0).1]
  · rfl
  · simp

theorem filterEvent_index_error (d : EventData α φ ε) (rows : List (List α)) (hd : d.Holds rows)
    (cond : Sel) (e : Exc) (hjs : cond.positions rows.length = .error e) :
    d.filterEvent cond = .error e := by
  unfold filterEvent
  simp [hd.event, Sel.apply, hjs, bind, Except.bind]

theorem holds_filtered (d : EventData α φ ε) (rows : List (List α)) (hd : d.Holds rows)
    (js : List Nat) : (d.filtered rows js).Holds (gather rows js) := by
  have hwf := hd.wf
  refine ⟨?_, ?_, rfl, rfl, rfl, rfl, rfl⟩
  · constructor <;> simp [filtered, hwf.pos, hwf.len_otypes]
    exact hwf.otypes_lt
  · intro r hr; exact hd.reg r (mem_of_mem_gather hr)

theorem featureOK_filtered (d : EventData α φ ε) (rows : List (List α))
    (hfeat : d.FeatureOK rows) (js : List Nat) :
    (d.filtered rows js).FeatureOK (gather rows js) := by
  intro t f hf
  have hsub : ∀ r ∈ gather rows js, r ∈ rows := fun r hr => mem_of_mem_gather hr
  simp only [filtered, List.getElem?_map, Option.map_eq_some_iff] at hf
  obtain ⟨t', ht', hf⟩ := hf
  have : t' = t := by
    rw [List.getElem?_eq_some_iff] at ht'
    obtain ⟨_, h⟩ := ht'
    simpa using h.symm
  subst this
  unfold keptFeature at hf
  rw [Option.map_eq_some_iff] at hf
  obtain ⟨g, hg, rfl⟩ := hf
  have hg' : d.feature[t']? = some (some g) := by
    cases h : d.feature[t']? with
    | none => rw [h] at hg; cases hg
    | some o => rw [h] at hg; simpa using hg
  rw [length_gather]
  · simp [keptIndex, filtered]
  · rw [hfeat t' g hg']
    exact keptIndex_lt _ _ _ hsub t'

end EventData
end Kam
