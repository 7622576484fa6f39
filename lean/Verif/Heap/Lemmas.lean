/-
Helper lemmas for Verif/Heap: every call on an object computes the same values as the value level
model and stores only into arrays of that object or new arrays.
-/
import Verif.Heap.Model
import Verif.Py.Lemmas

set_option linter.unusedSectionVars false

namespace Kam.Heap

variable {K α φ ε γ θ V : Type}

section
variable {β : Type}

lemma cell_append_lt (l m : List (List β)) {a : Nat} (h : a < l.length) : cell (l ++ m) a = cell l a := by
  simp [cell, List.getElem?_append, h]

@[simp] lemma cell_append_len (l : List (List β)) (x : List β) : cell (l ++ [x]) l.length = x := by
  simp [cell]

lemma cell_set_eq (l : List (List β)) (x : List β) {a : Nat} (h : a < l.length) : cell (l.set a x) a = x := by
  simp [cell, h]

lemma cell_set_ne (l : List (List β)) (x : List β) {a b : Nat} (h : a ≠ b) : cell (l.set a x) b = cell l b := by
  simp [cell, h]

end

/-- The addresses held by a container exist. -/
structure Obj.Valid (h : Arrays K α φ ε) (o : Obj) : Prop where
  nObjects : o.nObjects < h.ints.length
  eid : o.eid < h.eids.length
  iid : o.iid < h.iids.length
  feature : o.feature < h.feats.length
  event : ∀ a, o.event = some a → a < h.evs.length
  eventFeature : ∀ a, o.eventFeature = some a → a < h.efs.length
  score : ∀ a, o.score = some a → a < h.nums.length
  scoreDomain : ∀ a, o.scoreDomain = some a → a < h.nums.length

/-- The addresses held by a recommender exist. -/
structure RObj.Valid (h : Arrays K α φ ε) (r : RObj γ θ V) : Prop where
  nObjects : ∀ a, r.nObjects = some a → a < h.ints.length
  eid : ∀ a, r.eid = some a → a < h.eids.length
  iid : ∀ a, r.iid = some a → a < h.iids.length
  event : ∀ a, r.event = some a → a < h.evs.length
  eventFeature : ∀ a, r.eventFeature = some a → a < h.efs.length
  score : ∀ a, r.score = some a → a < h.nums.length
  scoreDomain : ∀ a, r.scoreDomain = some a → a < h.nums.length

/-- `h` keeps all arrays of `h₀` except those at the given addresses. -/
structure Keep (wi we wd wf : Nat) (h₀ h : Arrays K α φ ε) : Prop where
  li : h₀.ints.length ≤ h.ints.length
  le : h₀.eids.length ≤ h.eids.length
  ld : h₀.iids.length ≤ h.iids.length
  lf : h₀.feats.length ≤ h.feats.length
  lv : h₀.evs.length ≤ h.evs.length
  lx : h₀.efs.length ≤ h.efs.length
  ln : h₀.nums.length ≤ h.nums.length
  ints : ∀ a < h₀.ints.length, a ≠ wi → cell h.ints a = cell h₀.ints a
  eids : ∀ a < h₀.eids.length, a ≠ we → cell h.eids a = cell h₀.eids a
  iids : ∀ a < h₀.iids.length, a ≠ wd → cell h.iids a = cell h₀.iids a
  feats : ∀ a < h₀.feats.length, a ≠ wf → cell h.feats a = cell h₀.feats a
  evs : ∀ a < h₀.evs.length, cell h.evs a = cell h₀.evs a
  efs : ∀ a < h₀.efs.length, cell h.efs a = cell h₀.efs a
  nums : ∀ a < h₀.nums.length, cell h.nums a = cell h₀.nums a

variable {wi we wd wf : Nat} {h₀ h : Arrays K α φ ε}

lemma Keep.refl (h : Arrays K α φ ε) : Keep wi we wd wf h h :=
  ⟨le_rfl, le_rfl, le_rfl, le_rfl, le_rfl, le_rfl, le_rfl, fun _ _ _ => rfl, fun _ _ _ => rfl,
    fun _ _ _ => rfl, fun _ _ _ => rfl, fun _ _ => rfl, fun _ _ => rfl, fun _ _ => rfl⟩

lemma map_cell_congr {β : Type} {l₀ l : List (List β)} {x : Option Nat}
    (hv : ∀ a, x = some a → a < l₀.length) (hk : ∀ a, x = some a → a < l₀.length → cell l a = cell l₀ a) :
    x.map (cell l) = x.map (cell l₀) := by
  cases x with
  | none => rfl
  | some a => simp [hk a rfl (hv a rfl)]

/-- A container that holds none of the changed arrays reports the same. -/
lemma Keep.val_eq (k : Keep wi we wd wf h₀ h) {x : Obj} (hv : x.Valid h₀) (h1 : x.nObjects ≠ wi)
    (h2 : x.eid ≠ we) (h3 : x.iid ≠ wd) (h4 : x.feature ≠ wf) : x.val h = x.val h₀ := by
  unfold Obj.val
  rw [k.ints _ hv.nObjects h1, k.eids _ hv.eid h2, k.iids _ hv.iid h3, k.feats _ hv.feature h4,
    map_cell_congr hv.event (fun a _ h => k.evs a h),
    map_cell_congr hv.eventFeature (fun a _ h => k.efs a h),
    map_cell_congr hv.score (fun a _ h => k.nums a h),
    map_cell_congr hv.scoreDomain (fun a _ h => k.nums a h)]

lemma Keep.valid (k : Keep wi we wd wf h₀ h) {x : Obj} (hv : x.Valid h₀) : x.Valid h :=
  ⟨hv.nObjects.trans_le k.li, hv.eid.trans_le k.le, hv.iid.trans_le k.ld, hv.feature.trans_le k.lf,
    fun a e => (hv.event a e).trans_le k.lv, fun a e => (hv.eventFeature a e).trans_le k.lx,
    fun a e => (hv.score a e).trans_le k.ln, fun a e => (hv.scoreDomain a e).trans_le k.ln⟩

lemma Keep.rvalid (k : Keep wi we wd wf h₀ h) {x : RObj γ θ V} (hv : x.Valid h₀) : x.Valid h :=
  ⟨fun a e => (hv.nObjects a e).trans_le k.li, fun a e => (hv.eid a e).trans_le k.le,
    fun a e => (hv.iid a e).trans_le k.ld,
    fun a e => (hv.event a e).trans_le k.lv, fun a e => (hv.eventFeature a e).trans_le k.lx,
    fun a e => (hv.score a e).trans_le k.ln, fun a e => (hv.scoreDomain a e).trans_le k.ln⟩

/-- A recommender that holds none of the changed arrays has the same attributes. -/
lemma Keep.rval_eq (k : Keep wi we wd wf h₀ h) {x : RObj γ θ V} (hv : x.Valid h₀)
    (h1 : x.nObjects ≠ some wi) (h2 : x.eid ≠ some we) (h3 : x.iid ≠ some wd) :
    x.val h = x.val h₀ := by
  unfold RObj.val
  rw [map_cell_congr hv.nObjects (fun a e h => k.ints a h (fun hh => h1 (by rw [e, hh]))),
    map_cell_congr hv.eid (fun a e h => k.eids a h (fun hh => h2 (by rw [e, hh]))),
    map_cell_congr hv.iid (fun a e h => k.iids a h (fun hh => h3 (by rw [e, hh]))),
    map_cell_congr hv.event (fun a _ h => k.evs a h),
    map_cell_congr hv.eventFeature (fun a _ h => k.efs a h),
    map_cell_congr hv.score (fun a _ h => k.nums a h),
    map_cell_congr hv.scoreDomain (fun a _ h => k.nums a h)]

/-! ### stores and new arrays keep the rest -/

lemma Keep.storeObjects (k : Keep wi we wd wf h₀ h) {o : Obj} (d : EventData α φ ε)
    (h1 : o.nObjects = wi ∨ h₀.ints.length ≤ o.nObjects) (h2 : o.eid = we ∨ h₀.eids.length ≤ o.eid)
    (h3 : o.iid = wd ∨ h₀.iids.length ≤ o.iid) : Keep wi we wd wf h₀ (storeObjects h o d) where
  li := by simpa [Heap.storeObjects] using k.li
  le := by simpa [Heap.storeObjects] using k.le
  ld := by simpa [Heap.storeObjects] using k.ld
  lf := k.lf
  lv := k.lv
  lx := k.lx
  ln := k.ln
  ints a ha hn := by
    rw [Heap.storeObjects, cell_set_ne _ _ (by omega)]; exact k.ints a ha hn
  eids a ha hn := by
    rw [Heap.storeObjects, cell_set_ne _ _ (by omega)]; exact k.eids a ha hn
  iids a ha hn := by
    rw [Heap.storeObjects, cell_set_ne _ _ (by omega)]; exact k.iids a ha hn
  feats := k.feats
  evs := k.evs
  efs := k.efs
  nums := k.nums

lemma Keep.storeFeature (k : Keep wi we wd wf h₀ h) {o : Obj} (d : EventData α φ ε)
    (h1 : o.feature = wf ∨ h₀.feats.length ≤ o.feature) :
    Keep wi we wd wf h₀ (storeFeature h o d) where
  li := k.li
  le := k.le
  ld := k.ld
  lf := by simpa [Heap.storeFeature] using k.lf
  lv := k.lv
  lx := k.lx
  ln := k.ln
  ints := k.ints
  eids := k.eids
  iids := k.iids
  feats a ha hn := by
    rw [Heap.storeFeature, cell_set_ne _ _ (by omega)]; exact k.feats a ha hn
  evs := k.evs
  efs := k.efs
  nums := k.nums

/-- Everything but the event arrays is as before. -/
lemma Keep.evs_only (k : Keep wi we wd wf h₀ h) (evs' : List (List (List Int)))
    (hl : h₀.evs.length ≤ evs'.length) (hc : ∀ a < h₀.evs.length, cell evs' a = cell h₀.evs a) :
    Keep wi we wd wf h₀ { h with evs := evs' } :=
  ⟨k.li, k.le, k.ld, k.lf, hl, k.lx, k.ln, k.ints, k.eids, k.iids, k.feats, hc, k.efs, k.nums⟩

lemma Keep.storeEvent (k : Keep wi we wd wf h₀ h) {o : Obj} (d : EventData α φ ε)
    (h1 : ∀ a, o.event = some a → h₀.evs.length ≤ a) : Keep wi we wd wf h₀ (storeEvent h o d) := by
  unfold Heap.storeEvent
  split
  · rename_i a rows ha _
    refine k.evs_only _ (by simpa using k.lv) ?_
    intro b hb
    have := h1 a ha
    rw [cell_set_ne _ _ (by omega)]
    exact k.evs b hb
  · exact k

lemma Keep.appendEvs (k : Keep wi we wd wf h₀ h) (x : List (List Int)) :
    Keep wi we wd wf h₀ { h with evs := h.evs ++ [x] } := by
  refine k.evs_only _ (by have := k.lv; simp; omega) ?_
  intro b hb
  rw [cell_append_lt _ _ (hb.trans_le k.lv)]
  exact k.evs b hb

lemma Keep.appendEfs (k : Keep wi we wd wf h₀ h) (x : List ε) :
    Keep wi we wd wf h₀ { h with efs := h.efs ++ [x] } :=
  ⟨k.li, k.le, k.ld, k.lf, k.lv, by have := k.lx; simp; omega, k.ln, k.ints, k.eids, k.iids, k.feats,
    k.evs, fun b hb => (cell_append_lt _ _ (hb.trans_le k.lx)).trans (k.efs b hb), k.nums⟩

lemma Keep.appendNums (k : Keep wi we wd wf h₀ h) (x : List K) :
    Keep wi we wd wf h₀ { h with nums := h.nums ++ [x] } :=
  ⟨k.li, k.le, k.ld, k.lf, k.lv, k.lx, by have := k.ln; simp; omega, k.ints, k.eids, k.iids, k.feats,
    k.evs, k.efs, fun b hb => (cell_append_lt _ _ (hb.trans_le k.ln)).trans (k.nums b hb)⟩

lemma Keep.appendInts (k : Keep wi we wd wf h₀ h) (x : List Nat) :
    Keep wi we wd wf h₀ { h with ints := h.ints ++ [x] } :=
  ⟨by have := k.li; simp; omega, k.le, k.ld, k.lf, k.lv, k.lx, k.ln,
    fun b hb hn => (cell_append_lt _ _ (hb.trans_le k.li)).trans (k.ints b hb hn), k.eids, k.iids,
    k.feats, k.evs, k.efs, k.nums⟩

lemma Keep.appendObj (k : Keep wi we wd wf h₀ h) (a : List Nat) (b : List (Option (List α)))
    (c : List (Option (Dict α Nat))) (d : List (Option (List φ))) :
    Keep wi we wd wf h₀ { h with ints := h.ints ++ [a], eids := h.eids ++ [b], iids := h.iids ++ [c],
                                 feats := h.feats ++ [d] } :=
  ⟨by have := k.li; simp; omega, by have := k.le; simp; omega, by have := k.ld; simp; omega,
    by have := k.lf; simp; omega, k.lv, k.lx, k.ln,
    fun b hb hn => (cell_append_lt _ _ (hb.trans_le k.li)).trans (k.ints b hb hn),
    fun b hb hn => (cell_append_lt _ _ (hb.trans_le k.le)).trans (k.eids b hb hn),
    fun b hb hn => (cell_append_lt _ _ (hb.trans_le k.ld)).trans (k.iids b hb hn),
    fun b hb hn => (cell_append_lt _ _ (hb.trans_le k.lf)).trans (k.feats b hb hn),
    k.evs, k.efs, k.nums⟩

/-! ### simulation -/

/-- A result on objects corresponds to a result on values, and the states satisfy `I`. -/
def Sim {σ τ : Type} (abs : σ → τ) (I : σ → Prop) : Mut σ σ → Mut τ τ → Prop
  | .ok s, .ok d => abs s = d ∧ I s
  | .error (e, s), .error (e', d) => e = e' ∧ abs s = d ∧ I s
  | _, _ => False

lemma Sim.mono {σ τ : Type} {abs : σ → τ} {I J : σ → Prop} (hIJ : ∀ s, I s → J s) {x : Mut σ σ}
    {y : Mut τ τ} (h : Sim abs I x y) : Sim abs J x y := by
  rcases x with ⟨e, s⟩ | s <;> rcases y with ⟨e', d⟩ | d <;> simp only [Sim] at h ⊢
  · exact ⟨h.1, h.2.1, hIJ _ h.2.2⟩
  · exact ⟨h.1, hIJ _ h.2⟩

lemma Sim.foldlM {σ τ ι : Type} {abs : σ → τ} {I : σ → Prop} {f : σ → ι → Mut σ σ} {g : τ → ι → Mut τ τ}
    (hfg : ∀ s i, I s → Sim abs I (f s i) (g (abs s) i)) (l : List ι) :
    ∀ s, I s → Sim abs I (l.foldlM f s) (l.foldlM g (abs s)) := by
  induction l with
  | nil => intro s hs; exact ⟨rfl, hs⟩
  | cons i l ih =>
    intro s hs
    have h := hfg s i hs
    simp only [List.foldlM_cons]
    rcases hx : f s i with ⟨e, s'⟩ | s' <;> rcases hy : g (abs s) i with ⟨e', d⟩ | d <;>
      rw [hx, hy] at h <;> simp only [Sim] at h
    · exact h
    · obtain ⟨rfl, hs'⟩ := h
      exact ih s' hs'

lemma Sim.bind {σ τ : Type} {abs : σ → τ} {I J : σ → Prop} {x : Mut σ σ} {y : Mut τ τ}
    {f : σ → Mut σ σ} {g : τ → Mut τ τ} (h : Sim abs I x y) (hIJ : ∀ s, I s → J s)
    (hfg : ∀ s, I s → Sim abs J (f s) (g (abs s))) : Sim abs J (x >>= f) (y >>= g) := by
  rcases x with ⟨e, s⟩ | s <;> rcases y with ⟨e', d⟩ | d <;> simp only [Sim] at h
  · exact ⟨h.1, h.2.1, hIJ _ h.2.2⟩
  · obtain ⟨rfl, hs⟩ := h
    exact hfg s hs

/-- The same for calls that leave no trace when they raise. -/
def SimR {σ τ : Type} (abs : σ → τ) (I : σ → Prop) : Res σ → Res τ → Prop
  | .ok s, .ok d => abs s = d ∧ I s
  | .error e, .error e' => e = e'
  | _, _ => False

lemma SimR.foldlM {σ τ ι : Type} {abs : σ → τ} {I : σ → Prop} {f : σ → ι → Res σ} {g : τ → ι → Res τ}
    (hfg : ∀ s i, I s → SimR abs I (f s i) (g (abs s) i)) (l : List ι) :
    ∀ s, I s → SimR abs I (l.foldlM f s) (l.foldlM g (abs s)) := by
  induction l with
  | nil => intro s hs; exact ⟨rfl, hs⟩
  | cons i l ih =>
    intro s hs
    have h := hfg s i hs
    simp only [List.foldlM_cons]
    rcases hx : f s i with e | s' <;> rcases hy : g (abs s) i with e' | d <;>
      rw [hx, hy] at h <;> simp only [SimR] at h
    · exact h
    · obtain ⟨rfl, hs'⟩ := h
      exact ih s' hs'

/-- The values of the current object of a state. -/
abbrev St.val (s : St K α φ ε) : ScoreData K α φ ε := s.2.val s.1

/-- A call on the container `o`, started in `h₀`, has so far stored only into arrays of `o` and new
ones. -/
structure Own (h₀ : Arrays K α φ ε) (o : Obj) (s : St K α φ ε) : Prop where
  keep : Keep o.nObjects o.eid o.iid o.feature h₀ s.1
  valid : s.2.Valid s.1
  nObjects : s.2.nObjects = o.nObjects
  eid : s.2.eid = o.eid
  iid : s.2.iid = o.iid
  feature : s.2.feature = o.feature

/-- Everything but the score attributes is untouched, see `Own`. -/
structure OwnE (h₀ : Arrays K α φ ε) (o : Obj) (s : St K α φ ε) : Prop extends Own h₀ o s where
  nums : s.1.nums = h₀.nums
  score : s.2.score = o.score
  scoreDomain : s.2.scoreDomain = o.scoreDomain
  nScoreLevels : s.2.nScoreLevels = o.nScoreLevels

section
variable [LinearOrder α] {o : Obj}

lemma val_storeObjects {s : St K α φ ε} (hv : s.2.Valid s.1) (d : EventData α φ ε) :
    s.2.val (storeObjects s.1 s.2 d) =
      { s.val with nObjects := d.nObjects, eid := d.eid, iid := d.iid } := by
  simp [Obj.val, storeObjects, cell_set_eq _ _ hv.nObjects, cell_set_eq _ _ hv.eid,
    cell_set_eq _ _ hv.iid]

lemma val_storeFeature {s : St K α φ ε} (hv : s.2.Valid s.1) (d : EventData α φ ε) :
    s.2.val (storeFeature s.1 s.2 d) = { s.val with feature := d.feature } := by
  simp [Obj.val, storeFeature, cell_set_eq _ _ hv.feature]

lemma val_storeEvent {s : St K α φ ε} (hv : s.2.Valid s.1) (d : EventData α φ ε)
    (h : d.event.isSome = s.2.event.isSome) :
    s.2.val (storeEvent s.1 s.2 d) = { s.val with event := d.event } := by
  rcases ha : s.2.event with _ | a <;> rcases hd : d.event with _ | rows <;> rw [ha, hd] at h <;>
    simp at h
  · simp [Obj.val, storeEvent, ha, hd]
  · simp [Obj.val, storeEvent, ha, hd, cell_set_eq _ _ (hv.event a ha)]

lemma valid_storeObjects {s : St K α φ ε} (hv : s.2.Valid s.1) (d : EventData α φ ε) :
    s.2.Valid (storeObjects s.1 s.2 d) := by
  constructor <;> simp [storeObjects, hv.nObjects, hv.eid, hv.iid, hv.feature] <;>
    first | exact hv.event | exact hv.eventFeature | exact hv.score | exact hv.scoreDomain

lemma valid_storeFeature {s : St K α φ ε} (hv : s.2.Valid s.1) (d : EventData α φ ε) :
    s.2.Valid (storeFeature s.1 s.2 d) := by
  constructor <;> simp [storeFeature, hv.nObjects, hv.eid, hv.iid, hv.feature] <;>
    first | exact hv.event | exact hv.eventFeature | exact hv.score | exact hv.scoreDomain

lemma valid_storeEvent {s : St K α φ ε} (hv : s.2.Valid s.1) (d : EventData α φ ε) :
    s.2.Valid (storeEvent s.1 s.2 d) := by
  unfold storeEvent
  split
  · constructor <;> simp [hv.nObjects, hv.eid, hv.iid, hv.feature] <;>
      first | exact hv.event | exact hv.eventFeature | exact hv.score | exact hv.scoreDomain
  · exact hv

lemma setEventObjects_shape (event : Arr2 α) (d : EventData α φ ε) (t : Nat) :
    (∃ e, EventData.setEventObjects event d t = .error (e, d)) ∨
    ∃ d', EventData.setEventObjects event d t = .ok d' ∧
      d' = { d with nObjects := d'.nObjects, eid := d'.eid, iid := d'.iid } := by
  unfold EventData.setEventObjects
  split
  · exact .inl ⟨_, rfl⟩
  · exact .inr ⟨_, rfl, rfl⟩

lemma setEventColumn_shape (event : Arr2 α) (d : EventData α φ ε) (t : Nat) :
    (∃ e, EventData.setEventColumn event d t = .error (e, d)) ∨
    ∃ d', EventData.setEventColumn event d t = .ok d' ∧ d' = { d with event := d'.event } ∧
      d'.event.isSome = d.event.isSome := by
  unfold EventData.setEventColumn
  repeat' split
  all_goals first | exact .inl ⟨_, rfl⟩ | exact .inr ⟨_, rfl, rfl, by simp⟩

/-- The first loop of `set_event`. -/
lemma roundObjects_sim (event : Arr2 α) (s : St K α φ ε) (t : Nat) (hs : OwnE h₀ o s) :
    Sim (fun s : St K α φ ε => s.val.toEventData) (OwnE h₀ o) (roundObjects event s t)
      (EventData.setEventObjects event s.val.toEventData t) := by
  unfold roundObjects
  rcases setEventObjects_shape event s.val.toEventData t with ⟨e, he⟩ | ⟨d, he, hd⟩
  · rw [he]
    exact ⟨rfl, rfl, hs⟩
  · rw [he]
    refine ⟨?_, ⟨⟨?_, ?_, hs.nObjects, hs.eid, hs.iid, hs.feature⟩, hs.nums, hs.score,
        hs.scoreDomain, hs.nScoreLevels⟩⟩
    · show ((s.2.val (storeObjects s.1 s.2 _)).toEventData) = _
      rw [val_storeObjects hs.valid]
      exact hd.symm
    · exact hs.keep.storeObjects _ (.inl hs.nObjects) (.inl hs.eid) (.inl hs.iid)
    · exact valid_storeObjects hs.valid _

@[simp] lemma storeEvent_nums (h : Arrays K α φ ε) (o : Obj) (d : EventData α φ ε) :
    (storeEvent h o d).nums = h.nums := by
  unfold storeEvent; split <;> rfl

/-- The second loop of `set_event`. -/
lemma roundColumn_sim (event : Arr2 α) (s : St K α φ ε) (t : Nat)
    (hs : OwnE h₀ o s ∧ ∀ a, s.2.event = some a → h₀.evs.length ≤ a) :
    Sim (fun s : St K α φ ε => s.val.toEventData)
      (fun s => OwnE h₀ o s ∧ ∀ a, s.2.event = some a → h₀.evs.length ≤ a) (roundColumn event s t)
      (EventData.setEventColumn event s.val.toEventData t) := by
  obtain ⟨hs, hf⟩ := hs
  unfold roundColumn
  rcases setEventColumn_shape event s.val.toEventData t with ⟨e, he⟩ | ⟨d, he, hd, hsome⟩
  · rw [he]
    exact ⟨rfl, rfl, hs, hf⟩
  · rw [he]
    refine ⟨?_, ⟨⟨?_, ?_, hs.nObjects, hs.eid, hs.iid, hs.feature⟩, ?_, hs.score,
        hs.scoreDomain, hs.nScoreLevels⟩, hf⟩
    · show ((s.2.val (storeEvent s.1 s.2 _)).toEventData) = _
      rw [val_storeEvent hs.valid _ (by rw [hsome]; simp [Obj.val])]
      exact hd.symm
    · exact hs.keep.storeEvent _ hf
    · exact valid_storeEvent hs.valid _
    · simpa using hs.nums

lemma val_bindEvent {s : St K α φ ε} (rows : List (List Int)) :
    (bindEvent s.1 s.2 rows).val = { s.val with event := some rows } := by
  simp [St.val, Obj.val, bindEvent]

lemma valid_bindEvent {s : St K α φ ε} (hv : s.2.Valid s.1) (rows : List (List Int)) :
    (bindEvent s.1 s.2 rows).2.Valid (bindEvent s.1 s.2 rows).1 := by
  constructor <;> simp [bindEvent, hv.nObjects, hv.eid, hv.iid, hv.feature] <;>
    first | exact hv.eventFeature | exact hv.score | exact hv.scoreDomain

lemma val_bindEventFeature {s : St K α φ ε} (f : Option (List ε)) :
    (bindEventFeature s.1 s.2 f).val = { s.val with eventFeature := f } := by
  cases f <;> simp [St.val, Obj.val, bindEventFeature]

lemma valid_bindEventFeature {s : St K α φ ε} (hv : s.2.Valid s.1) (f : Option (List ε)) :
    (bindEventFeature s.1 s.2 f).2.Valid (bindEventFeature s.1 s.2 f).1 := by
  cases f <;> constructor <;> simp [bindEventFeature, hv.nObjects, hv.eid, hv.iid, hv.feature] <;>
    first | exact hv.event | exact hv.score | exact hv.scoreDomain

lemma map_cell_append {β : Type} {l : List (List β)} {x : Option Nat}
    (hv : ∀ a, x = some a → a < l.length) (y : List (List β)) : x.map (cell (l ++ y)) = x.map (cell l) :=
  map_cell_congr hv (fun _ _ h => cell_append_lt _ _ h)

lemma val_bindScore {s : St K α φ ε} (hv : s.2.Valid s.1) (f : List K) :
    (bindScore s.1 s.2 f).val = { s.val with score := some f } := by
  simp [St.val, Obj.val, bindScore, map_cell_append hv.scoreDomain]

lemma val_bindDomain {s : St K α φ ε} (hv : s.2.Valid s.1) (f : List K) :
    (bindDomain s.1 s.2 f).val = { s.val with scoreDomain := some f } := by
  simp [St.val, Obj.val, bindDomain, map_cell_append hv.score]

lemma valid_bindScore {s : St K α φ ε} (hv : s.2.Valid s.1) (f : List K) :
    (bindScore s.1 s.2 f).2.Valid (bindScore s.1 s.2 f).1 := by
  constructor <;> simp [bindScore, hv.nObjects, hv.eid, hv.iid, hv.feature] <;>
    first | exact hv.event | exact hv.eventFeature | exact fun a e => (hv.scoreDomain a e).le

lemma valid_bindDomain {s : St K α φ ε} (hv : s.2.Valid s.1) (f : List K) :
    (bindDomain s.1 s.2 f).2.Valid (bindDomain s.1 s.2 f).1 := by
  constructor <;> simp [bindDomain, hv.nObjects, hv.eid, hv.iid, hv.feature] <;>
    first | exact hv.event | exact hv.eventFeature | exact fun a e => (hv.score a e).le

lemma keep_bindEventFeature (k : Keep wi we wd wf h₀ h) (o : Obj) (f : Option (List ε)) :
    Keep wi we wd wf h₀ (bindEventFeature h o f).1 := by
  cases f with
  | none => exact k
  | some f => exact k.appendEfs f

lemma Own.start (hv : o.Valid h₀) : Own h₀ o (h₀, o) := ⟨Keep.refl _, hv, rfl, rfl, rfl, rfl⟩

lemma Own.bindEvent {s : St K α φ ε} (hs : Own h₀ o s) (rows : List (List Int)) :
    Own h₀ o (bindEvent s.1 s.2 rows) :=
  ⟨hs.keep.appendEvs rows, valid_bindEvent hs.valid rows, hs.nObjects, hs.eid, hs.iid, hs.feature⟩

lemma Own.bindEventFeature {s : St K α φ ε} (hs : Own h₀ o s) (f : Option (List ε)) :
    Own h₀ o (bindEventFeature s.1 s.2 f) := by
  refine ⟨keep_bindEventFeature hs.keep s.2 f, valid_bindEventFeature hs.valid f, ?_, ?_, ?_, ?_⟩ <;>
    cases f <;> simp [Heap.bindEventFeature, hs.nObjects, hs.eid, hs.iid, hs.feature]

lemma Own.bindScore {s : St K α φ ε} (hs : Own h₀ o s) (f : List K) :
    Own h₀ o (bindScore s.1 s.2 f) :=
  ⟨hs.keep.appendNums f, valid_bindScore hs.valid f, hs.nObjects, hs.eid, hs.iid, hs.feature⟩

lemma Own.bindDomain {s : St K α φ ε} (hs : Own h₀ o s) (f : List K) :
    Own h₀ o (bindDomain s.1 s.2 f) :=
  ⟨hs.keep.appendNums f, valid_bindDomain hs.valid f, hs.nObjects, hs.eid, hs.iid, hs.feature⟩

lemma Own.levels {s : St K α φ ε} (hs : Own h₀ o s) (n : Option Int) :
    Own h₀ o (s.1, { s.2 with nScoreLevels := n }) :=
  ⟨hs.keep, ⟨hs.valid.nObjects, hs.valid.eid, hs.valid.iid, hs.valid.feature, hs.valid.event,
    hs.valid.eventFeature, hs.valid.score, hs.valid.scoreDomain⟩, hs.nObjects, hs.eid, hs.iid, hs.feature⟩

lemma Own.events {s : St K α φ ε} (hs : Own h₀ o s) (n : Nat) :
    Own h₀ o (s.1, { s.2 with nEvents := n }) :=
  ⟨hs.keep, ⟨hs.valid.nObjects, hs.valid.eid, hs.valid.iid, hs.valid.feature, hs.valid.event,
    hs.valid.eventFeature, hs.valid.score, hs.valid.scoreDomain⟩, hs.nObjects, hs.eid, hs.iid, hs.feature⟩

/-- `EventData.set_event` on an object. -/
lemma setEventBase_sim (event : Arr2 α) (ef : Option (List ε)) (hv : o.Valid h₀) :
    Sim (fun s : St K α φ ε => s.val.toEventData) (OwnE h₀ o) (setEventBase (h₀, o) event ef)
      ((o.val h₀).toEventData.setEvent event ef) := by
  unfold setEventBase EventData.setEvent
  refine Sim.bind (Sim.foldlM (I := OwnE h₀ o) (fun s i hs => roundObjects_sim event s i hs)
    (List.range o.nOtypes) (h₀, o) ⟨Own.start hv, rfl, rfl, rfl, rfl⟩) (fun _ h => h) ?_
  intro s hs
  set rows := event.rows.map (fun r => r.map (fun _ => (0 : Int))) with hrows
  have hs2 : OwnE h₀ o (bindEvent s.1 s.2 rows) ∧
      ∀ a, (bindEvent s.1 s.2 rows).2.event = some a → h₀.evs.length ≤ a := by
    refine ⟨⟨hs.toOwn.bindEvent rows, hs.nums, hs.score, hs.scoreDomain, hs.nScoreLevels⟩, ?_⟩
    intro a ha
    have : s.1.evs.length = a := by simpa [bindEvent] using ha
    have := hs.keep.lv
    omega
  have h2 := Sim.foldlM (fun s i hs => roundColumn_sim event s i hs)
    (List.range s.2.sEvent) (bindEvent s.1 s.2 rows) hs2
  have e2 : (bindEvent s.1 s.2 rows).val.toEventData = { s.val.toEventData with event := some rows } := by
    rw [val_bindEvent]
  rw [e2] at h2
  refine Sim.bind h2 (fun _ h => h.1) ?_
  intro s' ⟨hs', hf⟩
  have ho := (hs'.toOwn.events event.rows.length).bindEventFeature ef
  refine ⟨?_, ⟨ho, ?_, ?_, ?_, ?_⟩⟩
  · show (bindEventFeature (s'.1, { s'.2 with nEvents := event.rows.length } ).1
      (s'.1, { s'.2 with nEvents := event.rows.length } ).2 ef).val.toEventData = _
    rw [val_bindEventFeature]
    rfl
  all_goals cases ef <;> simp [bindEventFeature, hs'.nums, hs'.score, hs'.scoreDomain, hs'.nScoreLevels]

variable [Field K] [LinearOrder K] [IsStrictOrderedRing K] [FloorRing K]

/-- `EventWithScoreData.set_event` on an object. -/
lemma setEvent_sim (event : Arr2 α) (score : List K) (dom : Option (List K)) (ef : Option (List ε))
    (hv : o.Valid h₀) :
    Sim St.val (Own h₀ o) (setEvent (h₀, o) event score dom ef)
      ((o.val h₀).setEvent event score dom ef) := by
  have h1 := setEventBase_sim event ef hv
  have key : ∀ s, OwnE h₀ o s → s.val = { o.val h₀ with toEventData := s.val.toEventData } := by
    intro s hs
    have : s.val = { s.val with toEventData := s.val.toEventData } := rfl
    rw [this]
    simp [Obj.val, hs.score, hs.scoreDomain, hs.nScoreLevels, hs.nums]
  unfold setEvent ScoreData.setEvent
  rcases hx : setEventBase (h₀, o) event ef with ⟨e, s⟩ | s <;>
    rcases hy : (o.val h₀).toEventData.setEvent event ef with ⟨e', d⟩ | d <;> rw [hx, hy] at h1 <;>
    simp only [Sim] at h1
  · obtain ⟨rfl, rfl, hs⟩ := h1
    exact ⟨rfl, key s hs, hs.toOwn⟩
  obtain ⟨rfl, hs⟩ := h1
  have hk : (bindScore s.1 s.2 score).val =
      { o.val h₀ with toEventData := s.val.toEventData, score := some score } := by
    rw [val_bindScore hs.valid, key s hs]
  simp only
  rcases ScoreData.resolveDomain score dom with e | dm
  · exact ⟨rfl, hk, hs.toOwn.bindScore score⟩
  simp only
  have hk2 := val_bindDomain (s := bindScore s.1 s.2 score) (valid_bindScore hs.valid score) dm
  rw [hk] at hk2
  have ho := (hs.toOwn.bindScore score).bindDomain dm
  rcases ScoreData.levelsOfDomain dm with e | n
  · exact ⟨rfl, hk2, ho⟩
  · refine ⟨?_, ho.levels (some n)⟩
    have : ∀ (s : St K α φ ε) (n : Int), St.val (s.1, { s.2 with nScoreLevels := some n }) =
      { s.val with nScoreLevels := some n } := fun _ _ => rfl
    rw [this, hk2]

end
end Kam.Heap
