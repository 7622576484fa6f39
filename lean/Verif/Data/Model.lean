/-
Model of kamrecsys/data/base.py and kamrecsys/data/event.py (value level: aliasing of the
arrays is modelled in Verif/Heap).
-/
import Verif.Py.Basic

namespace Kam

/-- State of an `EventData` container (base.py:214-227, event.py:177-195).
`α`: external ids; `φ`: rows of an object-feature array; `ε`: rows of the event-feature
array.  `none` is Python's `None`.
`feature` is created by `BaseData.__init__`. -/
structure EventData (α φ ε : Type) where
  nOtypes : Nat
  nObjects : List Nat
  eid : List (Option (List α))
  iid : List (Option (Dict α Nat))
  feature : List (Option (List φ))
  sEvent : Nat
  eventOtypes : List Nat
  nEvents : Nat
  event : Option (List (List Int))
  eventFeature : Option (List ε)

/-- The `event_otypes` argument after `np.array(...)`: absent, or an array with a number of
dimensions and its (flattened) integer entries. -/
inductive OtypesArg where
  | none
  | arr (ndim : Nat) (entries : List Int)

variable {α φ ε : Type} [LinearOrder α]

namespace EventData

/-- `BaseData.__init__` followed by `EventData.__init__` (base.py:214-227,
event.py:177-195).  `np.min` of an empty array raises `ValueError` as well. -/
def init (nOtypes : Int) (arg : OtypesArg) : Res (EventData α φ ε) :=
  -- base.py:221-222
  if nOtypes < 1 then .error .valueError
  else
    let n := nOtypes.toNat
    -- base.py:223-227, event.py:180-184
    let base : EventData α φ ε :=
      { nOtypes := n
        nObjects := List.replicate n 0
        eid := List.replicate n none
        iid := List.replicate n none
        feature := List.replicate n none
        sEvent := 0
        eventOtypes := []
        nEvents := 0
        event := none
        eventFeature := none }
    match arg with
    -- event.py:186-188
    | .none => .ok { base with sEvent := n, eventOtypes := List.range n }
    -- event.py:189-195
    | .arr ndim entries =>
      if ndim ≠ 1 then .error .valueError
      else if entries = [] then .error .valueError
      else if entries.any (· < 0) then .error .valueError
      else if entries.any (fun t => nOtypes ≤ t) then .error .valueError
      else .ok { base with sEvent := entries.length, eventOtypes := entries.map Int.toNat }

/-- `to_eid` (base.py:71-95): `self.eid[otype][iid]` with `IndexError` turned into
`ValueError`; before `set_event` the entry is `None`, whose subscript is a `TypeError`. -/
def toEid (d : EventData α φ ε) (otype : Int) (iid : Int) : Res α :=
  match npGet d.eid otype with
  | .error _ => .error .valueError
  | .ok none => .error .typeError
  | .ok (some ids) =>
    match npGet ids iid with
    | .ok x => .ok x
    | .error _ => .error .valueError

/-- `to_iid` (base.py:97-121): `self.iid[otype][eid]` with `KeyError` turned into
`ValueError`; an illegal `otype` raises `IndexError`. -/
def toIid (d : EventData α φ ε) (otype : Int) (eid : α) : Res Nat :=
  match npGet d.iid otype with
  | .error e => .error e
  | .ok none => .error .typeError
  | .ok (some m) =>
    match m.getItem eid with
    | .ok i => .ok i
    | .error _ => .error .valueError

/-- `_gen_id` (base.py:123-146). -/
def genId (xs : List α) : Nat × List α × Dict α Nat :=
  let eid := npUnique xs
  (eid.length, eid, Dict.ofPairs eid.zipIdx)

/-- The flattened sub-array `event[:, event_otypes == otype]` (event.py:210, 265, 269-270).  A
boolean column index of the wrong length is an `IndexError`. -/
def otypeCols {β : Type} (d : EventData α φ ε) (otype : Nat) (ncols : Nat)
    (rows : List (List β)) : Res (List β) :=
  if d.eventOtypes.length ≠ ncols then .error .indexError
  else .ok (rows.flatMap (selMask (d.eventOtypes.map (fun t => decide (t = otype)))))

/-- One round of the first loop of `set_event` (event.py:208-210).  The three arrays have
`n_otypes` entries and `otype < n_otypes`, so the item assignments cannot fail. -/
def setEventObjects (event : Arr2 α) (d : EventData α φ ε) (otype : Nat) :
    Mut (EventData α φ ε) (EventData α φ ε) :=
  match d.otypeCols otype event.ncols event.rows with
  | .error e => .error (e, d)
  | .ok sub =>
    let (n, eid, iid) := genId sub
    .ok { d with
      nObjects := d.nObjects.set otype n
      eid := d.eid.set otype (some eid)
      iid := d.iid.set otype (some iid) }

/-- One round of the second loop of `set_event` (event.py:213-215):
`self.event[:, e] = [iid[i] for i in event[:, e]]`. -/
def setEventColumn (event : Arr2 α) (d : EventData α φ ε) (e : Nat) : Mut (EventData α φ ε) (EventData α φ ε) :=
  match d.eventOtypes[e]? with
  | none => .error (.indexError, d)
  | some t =>
    match d.iid[t]? with
    | none => .error (.indexError, d)
    | some none => .error (.typeError, d)
    | some (some iid) =>
      match column event.rows e with
      | .error x => .error (x, d)
      | .ok col =>
        match col.mapM iid.getItem with
        | .error x => .error (x, d)
        | .ok vals =>
          .ok { d with event := d.event.map (fun rows => setColumn rows e (vals.map Int.ofNat)) }

/-- `set_event` (event.py:197-221).  `np.empty_like` leaves the new array uninitialised; it is
modelled as zeros (every entry is overwritten by the loop). -/
def setEvent (d : EventData α φ ε) (event : Arr2 α) (eventFeature : Option (List ε)) :
    Mut (EventData α φ ε) (EventData α φ ε) := do
  -- event.py:208-210
  let d ← (List.range d.nOtypes).foldlM (setEventObjects event) d
  -- event.py:212
  let d := { d with event := some (event.rows.map (fun r => r.map (fun _ => (0 : Int)))) }
  -- event.py:213-215
  let d ← (List.range d.sEvent).foldlM (setEventColumn event) d
  -- event.py:217-221
  .ok { d with nEvents := event.rows.length, eventFeature := eventFeature }

/-- `self.eid[self.event_otypes[e]]`, with `IndexError` / `TypeError` for illegal states. -/
def eidOfColumn (d : EventData α φ ε) (e : Nat) : Res (List α) :=
  match d.eventOtypes[e]? with
  | none => .error .indexError
  | some t =>
    match d.eid[t]? with
    | none => .error .indexError
    | some none => .error .typeError
    | some (some ids) => .ok ids

/-- `to_eid_event` on one row (event.py:65-69). -/
def toEidRow (d : EventData α φ ε) (row : List Int) : Res (List α) :=
  (List.range d.sEvent).mapM (fun e => do
    let ids ← d.eidOfColumn e
    let i ← npGet row e
    npGet ids i)

/-- `self.eid[0].dtype` (event.py:69, 71): before `set_event` the entry is `None`, which has no such attribute. -/
def eidDtype (d : EventData α φ ε) : Res Unit :=
  match d.eid[0]? with
  | none => .error .indexError
  | some none => .error .attributeError
  | some (some _) => .ok ()

/-- `to_eid_event` (event.py:50-77).  In the 2-d case the loop fills the result column by
column; since every cell is written exactly once from the cell at the same position it is
modelled row by row (the exceptions are the same, only their order could differ). -/
def toEidEvent (d : EventData α φ ε) (data : ArrN Int) : Res (ArrN α) :=
  match data with
  | .vec xs =>
    if xs.length = d.sEvent then do
      let row ← d.toEidRow xs
      d.eidDtype
      return .vec row
    else .error .typeError
  | .mat a =>
    if a.ncols = d.sEvent then do
      d.eidDtype
      let rows ← a.rows.mapM d.toEidRow
      return .mat { ncols := a.ncols, rows := rows }
    else .error .typeError
  | .other => .error .typeError

/-- The `missing_values` argument of `to_iid_event`: absent, a vector, or a single integer. -/
inductive Missing where
  | none
  | vector (vs : List Int)
  | scalar (v : Int)

/-- `missing_values[e]`: subscripting an integer is a `TypeError`. -/
def Missing.item (m : Missing) (e : Nat) : Res Int :=
  match m with
  | .none => .error .typeError
  | .vector vs => npGet vs e
  | .scalar _ => .error .typeError

/-- `self.iid[self.event_otypes[e]].get` (event.py:106, 111-112); `None`, the entry before `set_event`, has no `get`. -/
def iidOfColumn (d : EventData α φ ε) (e : Nat) : Res (Dict α Nat) :=
  match d.eventOtypes[e]? with
  | none => .error .indexError
  | some t =>
    match d.iid[t]? with
    | none => .error .indexError
    | some none => .error .attributeError
    | some (some m) => .ok m

/-- `missing_values = self.n_objects[self.event_otypes]` when absent (event.py:102-103). -/
def resolveMissing (d : EventData α φ ε) (m : Missing) : Res Missing :=
  match m with
  | .none => do
    let ns ← npTake d.nObjects (d.eventOtypes.map Int.ofNat)
    return .vector (ns.map Int.ofNat)
  | m => .ok m

/-- `to_iid_event` on one row (event.py:104-107): Python evaluates `missing_values[e]` before
calling `.get`, so it may raise even if the id is known. -/
def toIidRow (d : EventData α φ ε) (m : Missing) (row : List α) : Res (List Int) :=
  (List.range d.sEvent).mapM (fun e => do
    let iid ← d.iidOfColumn e
    let x ← npGet row e
    let mv ← m.item e
    return ((iid.get? x).map Int.ofNat).getD mv)

/-- `to_iid_event` (event.py:79-117); the 2-d loop is modelled row by row as in
`toEidEvent`. -/
def toIidEvent (d : EventData α φ ε) (ev : ArrN α) (missing : Missing) : Res (ArrN Int) := do
  let m ← d.resolveMissing missing
  match ev with
  | .vec xs => if xs.length = d.sEvent then return .vec (← d.toIidRow m xs) else .error .typeError
  | .mat a =>
    if a.ncols = d.sEvent then do
      let rows ← a.rows.mapM (d.toIidRow m)
      return .mat { ncols := a.ncols, rows := rows }
    else .error .typeError
  | .other => .error .typeError

/-- `_gen_id_substitution_table` (base.py:148-172): a table of `-1` with
`table[sub_index] = arange(len(sub_index))`. -/
def genIdSubstitutionTable (nOrig : Nat) (subIndex : List Int) : Res (List Int) :=
  subIndex.zipIdx.foldlM (fun table p => npSet table p.1 (p.2 : Int)) (List.replicate nOrig (-1))

/-- One round of the loop of `filter_event` (event.py:262-277).  `self` is the source, `d`
the copy under construction.  `eid[otype]` is an array whenever `event` is not `None`
(`set_event` assigns both), otherwise `.shape` raises `AttributeError`. -/
def filterOtype (self : EventData α φ ε) (d : EventData α φ ε) (otype : Nat) :
    Res (EventData α φ ε) := do
  let rows ← (match d.event with | some r => .ok r | none => .error .typeError)
  let mask := d.eventOtypes.map (fun t => decide (t = otype))
  -- event.py:265
  let subIndex := npUnique (rows.flatMap (selMask mask))
  let orig ← (match self.eid[otype]? with
    | some (some ids) => .ok ids
    | some none => .error .attributeError
    | none => .error .indexError)
  -- event.py:268
  let table ← genIdSubstitutionTable orig.length subIndex
  -- event.py:269-270
  let newSub ← rows.mapM (fun r => npTake table (selMask mask r))
  let rows' := List.zipWith (putMask mask) rows newSub
  -- event.py:273-275
  let eid' ← npTake orig subIndex
  let iid' := Dict.ofPairs eid'.zipIdx
  -- event.py:276-277
  let feat' ← (match self.feature[otype]? with
    | some (some f) => do
        let f' ← npTake f subIndex
        return d.feature.set otype (some f')
    | some none => .ok d.feature
    | none => .error .indexError)
  return { d with
    event := some rows'
    eid := d.eid.set otype (some eid')
    iid := d.iid.set otype (some iid')
    nObjects := d.nObjects.set otype eid'.length
    feature := feat' }

/-- `filter_event` (event.py:223-283).  `Except.ok none` is the `None` returned when no event
has been loaded. -/
def filterEvent (self : EventData α φ ε) (cond : Sel) : Res (Option (EventData α φ ε)) :=
  match self.event with
  | none => .ok none
  | some rows => do
    -- event.py:246-253
    let rows' ← cond.apply rows
    let d := { self with event := some rows', nEvents := rows'.length }
    -- event.py:256-259 copy the object arrays; a no-op at value level (see Verif/Heap)
    -- event.py:262-277
    let d ← (List.range d.nOtypes).foldlM (filterOtype self) d
    -- event.py:280-281
    let ef ← (match self.eventFeature with
      | some f => do return some (← cond.apply f)
      | none => .ok d.eventFeature)
    return some { d with eventFeature := ef }

/-- The index loop of `set_feature` (base.py:242-246):
`for i, j in enumerate(eid): if j in iid: index[iid[j]] = i`. -/
def featureIndex (iid : Dict α Nat) (eids : List α) : Res (List Int) :=
  eids.zipIdx.foldlM
    (fun index p =>
      match iid.get? p.1 with
      | some j => npSet index (j : Int) (p.2 : Int)
      | none => .ok index)
    (List.replicate iid.length (eids.length : Int))

/-- `set_feature` (base.py:229-247). -/
def setFeature (d : EventData α φ ε) (otype : Nat) (eids : List α) (feature : List φ) :
    Res (EventData α φ ε) := do
  let iid ← (match d.iid[otype]? with
    | some (some m) => .ok m
    | some none => .error .typeError
    | none => .error .indexError)
  let index ← featureIndex iid eids
  let f ← npTake feature index
  return { d with feature := d.feature.set otype (some f) }

end EventData
end Kam
