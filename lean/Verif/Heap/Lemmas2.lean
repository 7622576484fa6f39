/-
Helper lemmas for Verif/Heap, continued: `set_feature`, `binarize_score`, `filter_event` and `fit` on
objects.
-/
import Verif.Heap.Lemmas

set_option linter.unusedSectionVars false

namespace Kam.Heap

variable {K α φ ε γ θ V : Type}

/-- Every array of `h₀` is as before. -/
abbrev KeepAll (h₀ h : Arrays K α φ ε) : Prop :=
  Keep h₀.ints.length h₀.eids.length h₀.iids.length h₀.feats.length h₀ h

variable {h₀ h : Arrays K α φ ε} {o : Obj}

lemma KeepAll.weaken {wi we wd wf : Nat} (k : KeepAll h₀ h) : Keep wi we wd wf h₀ h :=
  ⟨k.li, k.le, k.ld, k.lf, k.lv, k.lx, k.ln, fun a ha _ => k.ints a ha (by omega),
    fun a ha _ => k.eids a ha (by omega), fun a ha _ => k.iids a ha (by omega),
    fun a ha _ => k.feats a ha (by omega), k.evs, k.efs, k.nums⟩

lemma KeepAll.val (k : KeepAll h₀ h) (hv : o.Valid h₀) : o.val h = o.val h₀ :=
  k.val_eq hv hv.nObjects.ne hv.eid.ne hv.iid.ne hv.feature.ne

lemma KeepAll.rval (k : KeepAll h₀ h) {r : RObj γ θ V} (hv : r.Valid h₀) : r.val h = r.val h₀ :=
  k.rval_eq hv (fun e => lt_irrefl _ (hv.nObjects _ e)) (fun e => lt_irrefl _ (hv.eid _ e))
    (fun e => lt_irrefl _ (hv.iid _ e))

section
variable [LinearOrder α]

lemma setFeature_shape (d d' : EventData α φ ε) (t : Nat) (eids : List α) (f : List φ)
    (h : d.setFeature t eids f = .ok d') : d' = { d with feature := d'.feature } := by
  unfold EventData.setFeature at h
  simp only [bind, Except.bind] at h
  split at h
  · cases h
  split at h
  · cases h
  split at h
  · cases h
  · cases h
    rfl

/-- `set_feature` on an object. -/
lemma setFeature_sim (hv : o.Valid h₀) (t : Nat) (eids : List α) (f : List φ) :
    SimR St.val (fun s => s.2 = o ∧ s.2.Valid s.1 ∧
        Keep h₀.ints.length h₀.eids.length h₀.iids.length o.feature h₀ s.1)
      (setFeature (h₀, o) t eids f) ((o.val h₀).setFeature t eids f) := by
  unfold setFeature ScoreData.setFeature
  rcases hx : (o.val h₀).toEventData.setFeature t eids f with e | d
  · simp [bind, Except.bind, SimR]
  · have hd := setFeature_shape _ _ _ _ _ hx
    simp only [bind, Except.bind, pure, Except.pure, SimR]
    refine ⟨?_, trivial, ?_, (Keep.refl _).storeFeature d (.inl rfl)⟩
    · show o.val (storeFeature h₀ o d) = _
      rw [val_storeFeature (s := (h₀, o)) hv]
      rw [hd]
    · exact valid_storeFeature (s := (h₀, o)) hv d

section
variable [Field K] [LinearOrder K]

/-- `binarize_score` on an object. -/
lemma binarizeScore_sim (hv : o.Valid h₀) (t : Option K) :
    SimR St.val (fun s => KeepAll h₀ s.1 ∧ s.2.Valid s.1 ∧ s.2.nObjects = o.nObjects ∧ s.2.eid = o.eid ∧
        s.2.iid = o.iid ∧ s.2.feature = o.feature)
      (binarizeScore (h₀, o) t) ((o.val h₀).binarizeScore t) := by
  unfold binarizeScore
  rcases hx : (o.val h₀).binarizeScore t with e | d
  · simp [bind, Except.bind, SimR]
  · have hd : ∃ xs ys, d = { o.val h₀ with score := some xs, scoreDomain := some ys, nScoreLevels := some 2 } := by
      unfold ScoreData.binarizeScore at hx
      simp only [bind, Except.bind] at hx
      split at hx
      · cases hx
      split at hx
      · cases hx
      · cases hx
        exact ⟨_, _, rfl⟩
    obtain ⟨xs, ys, rfl⟩ := hd
    simp only [bind, Except.bind, pure, Except.pure, SimR]
    have v1 := valid_bindScore (s := (h₀, o)) hv xs
    have v2 := valid_bindDomain (s := bindScore h₀ o xs) v1 ys
    refine ⟨?_, ((Keep.refl _).appendNums xs).appendNums ys, ?_, rfl, rfl, rfl, rfl⟩
    · have e1 := val_bindScore (s := (h₀, o)) hv xs
      have e2 := val_bindDomain (s := bindScore h₀ o xs) v1 ys
      rw [e1] at e2
      have : ∀ (s : St K α φ ε) (n : Int), St.val (s.1, { s.2 with nScoreLevels := some n }) =
        { s.val with nScoreLevels := some n } := fun _ _ => rfl
      rw [this, e2]
    · exact ⟨v2.nObjects, v2.eid, v2.iid, v2.feature, v2.event, v2.eventFeature, v2.score, v2.scoreDomain⟩

end

/-! ### filter_event -/

lemma filterOtype_shape (self d d' : EventData α φ ε) (t : Nat)
    (h : EventData.filterOtype self d t = .ok d') :
    d' = { d with event := d'.event, eid := d'.eid, iid := d'.iid, nObjects := d'.nObjects
                  feature := d'.feature } ∧ d.event.isSome ∧ d'.event.isSome := by
  unfold EventData.filterOtype at h
  rcases he : d.event with _ | rows
  · rw [he] at h; cases h
  rw [he] at h
  simp only [bind, Except.bind] at h
  split at h
  · cases h
  split at h
  · cases h
  split at h
  · cases h
  split at h
  · cases h
  split at h
  · cases h
  cases h
  exact ⟨rfl, rfl, rfl⟩

/-- The copy under construction in `filter_event` holds new arrays only, except for those that are
assigned at the end. -/
structure Copy (h₀ : Arrays K α φ ε) (o : Obj) (s : St K α φ ε) : Prop where
  keep : KeepAll h₀ s.1
  valid : s.2.Valid s.1
  nObjects : s.2.nObjects = h₀.ints.length
  eid : s.2.eid = h₀.eids.length
  iid : s.2.iid = h₀.iids.length
  feature : s.2.feature = h₀.feats.length
  event : s.2.event = some h₀.evs.length
  eventFeature : s.2.eventFeature = o.eventFeature
  score : s.2.score = o.score
  scoreDomain : s.2.scoreDomain = o.scoreDomain
  nScoreLevels : s.2.nScoreLevels = o.nScoreLevels
  efs : s.1.efs = h₀.efs
  nums : s.1.nums = h₀.nums

@[simp] lemma storeEvent_efs (h : Arrays K α φ ε) (o : Obj) (d : EventData α φ ε) :
    (storeEvent h o d).efs = h.efs := by
  unfold storeEvent; split <;> rfl

lemma roundFilter_sim (hv : o.Valid h₀) (s : St K α φ ε) (t : Nat) (hs : Copy h₀ o s) :
    SimR (fun s : St K α φ ε => s.val.toEventData) (Copy h₀ o) (roundFilter o s t)
      (EventData.filterOtype (o.val h₀).toEventData s.val.toEventData t) := by
  unfold roundFilter
  rw [hs.keep.val hv]
  rcases hx : EventData.filterOtype (o.val h₀).toEventData s.val.toEventData t with e | d
  · simp [bind, Except.bind, SimR]
  · obtain ⟨hd, hd1, hd2⟩ := filterOtype_shape _ _ _ _ hx
    simp only [bind, Except.bind, pure, Except.pure, SimR]
    have v1 := valid_storeEvent hs.valid d
    have v2 := valid_storeObjects (s := (storeEvent s.1 s.2 d, s.2)) v1 d
    have v3 := valid_storeFeature (s := (storeObjects (storeEvent s.1 s.2 d) s.2 d, s.2)) v2 d
    refine ⟨?_, ?_, v3, hs.nObjects, hs.eid, hs.iid, hs.feature, hs.event, hs.eventFeature, hs.score,
      hs.scoreDomain, hs.nScoreLevels, ?_, ?_⟩
    · have e1 := val_storeEvent hs.valid d (by rw [hd2, hs.event]; rfl)
      have e2 := val_storeObjects (s := (storeEvent s.1 s.2 d, s.2)) v1 d
      have e3 := val_storeFeature (s := (storeObjects (storeEvent s.1 s.2 d) s.2 d, s.2)) v2 d
      show (s.2.val (storeFeature (storeObjects (storeEvent s.1 s.2 d) s.2 d) s.2 d)).toEventData = _
      simp only [St.val] at e1 e2 e3
      rw [e3, e2, e1]
      exact hd.symm
    · refine Keep.storeFeature (Keep.storeObjects (Keep.storeEvent hs.keep d ?_) d ?_ ?_ ?_) d ?_
      · intro a ha
        rw [hs.event] at ha
        cases ha
        exact le_rfl
      all_goals first | exact .inl hs.nObjects | exact .inl hs.eid | exact .inl hs.iid | exact .inl hs.feature
    · simpa [storeFeature, storeObjects] using hs.efs
    · simpa [storeFeature, storeObjects] using hs.nums

/-- The result of a call that may return `None`. -/
def SimO {σ τ : Type} (abs : σ → τ) (I : σ → Prop) : Res (Option σ) → Res (Option τ) → Prop
  | .ok (some s), .ok (some d) => abs s = d ∧ I s
  | .ok none, .ok none => True
  | .error e, .error e' => e = e'
  | _, _ => False

/-- A new container: its object arrays are new. -/
structure Fresh (h₀ : Arrays K α φ ε) (s : St K α φ ε) : Prop where
  keep : KeepAll h₀ s.1
  valid : s.2.Valid s.1
  nObjects : s.2.nObjects = h₀.ints.length
  eid : s.2.eid = h₀.eids.length
  iid : s.2.iid = h₀.iids.length
  feature : s.2.feature = h₀.feats.length

lemma Copy.fresh {s : St K α φ ε} (h : Copy h₀ o s) : Fresh h₀ s :=
  ⟨h.keep, h.valid, h.nObjects, h.eid, h.iid, h.feature⟩

/-- `filter_event` on an object. -/
lemma filterEvent_sim (hv : o.Valid h₀) (cond : Sel) :
    SimO St.val (Fresh h₀) (filterEvent h₀ o cond) ((o.val h₀).filterEvent cond) := by
  unfold filterEvent ScoreData.filterEvent EventData.filterEvent
  rcases he : o.event with _ | a
  · simp [Obj.val, he, bind, Except.bind, pure, Except.pure, SimO]
  have e0 : (o.val h₀).event = some (cell h₀.evs a) := by simp [Obj.val, he]
  rw [e0]
  simp only [bind, Except.bind]
  rcases cond.apply (cell h₀.evs a) with e | rows
  · simp [SimO]
  simp only
  generalize hc : copyArrays _ _ = c
  have v1 := valid_bindEvent (s := (h₀, o)) hv rows
  have c2 : Copy h₀ o c := by
    subst hc
    refine ⟨((Keep.refl _).appendEvs rows).appendObj _ _ _ _, ?_, rfl, rfl, rfl, rfl, rfl, rfl, rfl, rfl, rfl,
      rfl, rfl⟩
    constructor <;> simp [copyArrays] <;>
      first | exact v1.event | exact v1.eventFeature | exact v1.score | exact v1.scoreDomain
  have a2 : c.val.toEventData =
      { (o.val h₀).toEventData with event := some rows, nEvents := rows.length } := by
    subst hc
    simp [St.val, Obj.val, copyArrays, bindEvent]
  have h3 := SimR.foldlM (fun s i hs => roundFilter_sim hv s i hs) (List.range o.nOtypes) _ c2
  rw [a2] at h3
  have n1 : c.2.nOtypes = o.nOtypes := by subst hc; rfl
  rw [n1]
  have n2 : (o.val h₀).toEventData.nOtypes = o.nOtypes := rfl
  rcases hx : (List.range o.nOtypes).foldlM (roundFilter o) c with e | s <;>
    rcases hy : (List.range o.nOtypes).foldlM (EventData.filterOtype (o.val h₀).toEventData)
      { (o.val h₀).toEventData with event := some rows, nEvents := rows.length } with e' | d <;>
    rw [hx, hy] at h3 <;> simp only [SimR] at h3
  · simp only [n2] at hy ⊢
    rw [hy]
    exact h3
  obtain ⟨rfl, hs⟩ := h3
  simp only [n2] at hy ⊢
  rw [hy]
  simp only
  have key : s.val = { o.val h₀ with toEventData := s.val.toEventData } := by
    have : s.val = { s.val with toEventData := s.val.toEventData } := rfl
    rw [this]
    simp [Obj.val, hs.score, hs.scoreDomain, hs.nScoreLevels, hs.nums]
  have fin : ∀ (s' : St K α φ ε), Fresh h₀ s' → ∀ b, s'.val = { o.val h₀ with toEventData := b } →
      ∀ xs, (bindScore s'.1 s'.2 xs).val = { o.val h₀ with toEventData := b, score := some xs } ∧
        Fresh h₀ (bindScore s'.1 s'.2 xs) := by
    intro s' hf b hval xs
    refine ⟨?_, hf.keep.appendNums xs, valid_bindScore hf.valid xs, hf.nObjects, hf.eid, hf.iid, hf.feature⟩
    rw [val_bindScore hf.valid, hval]
  have hef' : ∀ f, Fresh h₀ (bindEventFeature s.1 s.2 (some f)) ∧
      (bindEventFeature s.1 s.2 (some f)).val =
        { o.val h₀ with toEventData := { s.val.toEventData with eventFeature := some f } } := by
    intro f
    refine ⟨⟨hs.keep.appendEfs f, valid_bindEventFeature hs.valid _, hs.nObjects, hs.eid, hs.iid, hs.feature⟩, ?_⟩
    rw [val_bindEventFeature, key]
  have hnef : ∀ f, (bindEventFeature s.1 s.2 (some f)).1.nums = h₀.nums := fun _ => hs.nums
  rcases hef : o.eventFeature with _ | c <;> rcases hos : o.score with _ | c'
  · have e4 : (o.val h₀).eventFeature = none := by simp [Obj.val, hef]
    have e5 : (o.val h₀).score = none := by simp [Obj.val, hos]
    rw [e4]
    simp only [pure, Except.pure]
    rw [e5]
    exact ⟨by rw [← e5]; exact key, hs.fresh⟩
  · have e4 : (o.val h₀).eventFeature = none := by simp [Obj.val, hef]
    have e5 : (o.val h₀).score = some (cell h₀.nums c') := by simp [Obj.val, hos]
    rw [e4]
    simp only [pure, Except.pure]
    rw [e5, hs.nums]
    simp only
    rcases cond.apply (cell h₀.nums c') with e | xs
    · exact rfl
    · exact fin s hs.fresh _ key xs
  · have e4 : (o.val h₀).eventFeature = some (cell h₀.efs c) := by simp [Obj.val, hef]
    have e5 : (o.val h₀).score = none := by simp [Obj.val, hos]
    rw [e4, hs.efs]
    simp only [pure, Except.pure]
    rcases cond.apply (cell h₀.efs c) with e | f
    · exact rfl
    · simp only
      rw [e5]
      exact ⟨by rw [← e5]; exact (hef' f).2, (hef' f).1⟩
  · have e4 : (o.val h₀).eventFeature = some (cell h₀.efs c) := by simp [Obj.val, hef]
    have e5 : (o.val h₀).score = some (cell h₀.nums c') := by simp [Obj.val, hos]
    rw [e4, hs.efs]
    simp only [pure, Except.pure]
    rcases cond.apply (cell h₀.efs c) with e | f
    · exact rfl
    · simp only
      rw [e5, hnef f]
      simp only
      rcases cond.apply (cell h₀.nums c') with e | xs
      · exact rfl
      · exact fin _ (hef' f).1 _ (hef' f).2 xs

/-- `__init__` makes new arrays. -/
lemma create_sim (n : Int) (arg : OtypesArg) :
    SimR (St.val (K := K) (α := α) (φ := φ) (ε := ε)) (Fresh h₀) (create h₀ n arg) (ScoreData.init n arg) := by
  unfold create
  rcases hx : (ScoreData.init n arg : Res (ScoreData K α φ ε)) with e | d
  · simp [bind, Except.bind, SimR]
  · simp only [bind, Except.bind, pure, Except.pure, SimR]
    have hd : d.event = none ∧ d.eventFeature = none ∧ d.score = none ∧ d.scoreDomain = none ∧
        d.nScoreLevels = none := by
      unfold ScoreData.init EventData.init at hx
      simp only [bind, Except.bind] at hx
      repeat' split at hx
      all_goals cases hx
      all_goals rename_i hq
      all_goals repeat' split at hq
      all_goals cases hq
      all_goals exact ⟨rfl, rfl, rfl, rfl, rfl⟩
    obtain ⟨d1, d2, d3, d4, d5⟩ := hd
    refine ⟨?_, (Keep.refl _).appendObj _ _ _ _, ?_, rfl, rfl, rfl, rfl⟩
    · rcases d with ⟨⟨⟩, _, _, _⟩
      simp at d1 d2 d3 d4 d5
      simp [St.val, Obj.val, *]
    · constructor <;> simp

end
end Kam.Heap
