/-
Helper lemmas for Verif/Heap, continued: whole programs.
-/
import Verif.Heap.Lemmas3

set_option linter.unusedSectionVars false

namespace Kam.Heap

variable {K α φ ε γ θ V : Type}

/-- What the containers of a program report, in the order of their creation. -/
def World.vals (w : World K α φ ε γ θ V) : List (ScoreData K α φ ε) := w.objs.map (fun o => o.val w.heap)

/-- All addresses exist and no two containers hold the same object array. -/
structure Inv (w : World K α φ ε γ θ V) : Prop where
  objs : ∀ o ∈ w.objs, o.Valid w.heap
  recs : ∀ r ∈ w.recs, r.Valid w.heap
  nObjects : (w.objs.map Obj.nObjects).Nodup
  eid : (w.objs.map Obj.eid).Nodup
  iid : (w.objs.map Obj.iid).Nodup
  feature : (w.objs.map Obj.feature).Nodup

lemma map_set_same {β δ : Type} (f : β → δ) (l : List β) {i : Nat} {o o' : β} (h : l[i]? = some o)
    (hf : f o' = f o) : (l.set i o').map f = l.map f := by
  apply List.ext_getElem?
  intro j
  by_cases hj : i = j
  · subst hj
    obtain ⟨hi, he⟩ := List.getElem?_eq_some_iff.mp h
    simp [hi, hf, he]
  · simp [hj]

lemma mem_of_mem_set {β : Type} {l : List β} {i : Nat} {x y : β} (h : x ∈ l.set i y) : x = y ∨ x ∈ l := by
  rcases List.mem_or_eq_of_mem_set h with h | h
  · exact .inr h
  · exact .inl h

lemma ne_of_nodup_map {β δ : Type} (f : β → δ) {l : List β} (hn : (l.map f).Nodup) {i j : Nat} {x y : β}
    (hx : l[i]? = some x) (hy : l[j]? = some y) (hij : i ≠ j) : f x ≠ f y := by
  intro he
  apply hij
  have h1 : (l.map f)[i]? = some (f x) := by simp [hx]
  have h2 : (l.map f)[j]? = some (f y) := by simp [hy]
  obtain ⟨hi, h1⟩ := List.getElem?_eq_some_iff.mp h1
  obtain ⟨hj, h2⟩ := List.getElem?_eq_some_iff.mp h2
  exact (List.Nodup.getElem_inj_iff hn).mp (by rw [h1, h2, he])

/-- A call on container `i`. -/
lemma Inv.own {w : World K α φ ε γ θ V} (hw : Inv w) {i : Nat} {o : Obj} (ho : w.objs[i]? = some o)
    {s : St K α φ ε} (hs : Own w.heap o s) :
    Inv { w with heap := s.1, objs := w.objs.set i s.2 } ∧
    World.vals { w with heap := s.1, objs := w.objs.set i s.2 } = w.vals.set i s.val := by
  constructor
  · refine ⟨?_, fun r hr => hs.keep.rvalid (hw.recs r hr), ?_, ?_, ?_, ?_⟩
    · intro x hx
      rcases mem_of_mem_set hx with rfl | hx
      · exact hs.valid
      · exact hs.keep.valid (hw.objs x hx)
    · show ((w.objs.set i s.2).map Obj.nObjects).Nodup
      rw [map_set_same _ _ ho hs.nObjects]; exact hw.nObjects
    · show ((w.objs.set i s.2).map Obj.eid).Nodup
      rw [map_set_same _ _ ho hs.eid]; exact hw.eid
    · show ((w.objs.set i s.2).map Obj.iid).Nodup
      rw [map_set_same _ _ ho hs.iid]; exact hw.iid
    · show ((w.objs.set i s.2).map Obj.feature).Nodup
      rw [map_set_same _ _ ho hs.feature]; exact hw.feature
  · unfold World.vals
    apply List.ext_getElem?
    intro j
    simp only [List.getElem?_map, List.getElem?_set, List.length_map]
    by_cases hj : i = j
    · subst hj
      obtain ⟨hi, _⟩ := List.getElem?_eq_some_iff.mp ho
      simp [hi]
    · simp only [hj, if_false]
      rcases hx : w.objs[j]? with _ | x
      · rfl
      · simp only [Option.map_some]
        rw [hs.keep.val_eq (hw.objs x (List.mem_of_getElem? hx))
          (ne_of_nodup_map _ hw.nObjects hx ho (Ne.symm hj)) (ne_of_nodup_map _ hw.eid hx ho (Ne.symm hj))
          (ne_of_nodup_map _ hw.iid hx ho (Ne.symm hj)) (ne_of_nodup_map _ hw.feature hx ho (Ne.symm hj))]

/-- A call that makes a container. -/
lemma Inv.fresh {w : World K α φ ε γ θ V} (hw : Inv w) {s : St K α φ ε} (hs : Fresh w.heap s) :
    Inv { w with heap := s.1, objs := w.objs ++ [s.2] } ∧
    World.vals { w with heap := s.1, objs := w.objs ++ [s.2] } = w.vals ++ [s.val] := by
  have nd : ∀ (f : Obj → Nat) (n : Nat), (w.objs.map f).Nodup → (∀ o ∈ w.objs, f o < n) → f s.2 = n →
      ((w.objs ++ [s.2]).map f).Nodup := by
    intro f n h1 h2 h3
    rw [List.map_append, List.nodup_append]
    refine ⟨h1, by simp, ?_⟩
    intro a ha b hb
    obtain ⟨o, ho, rfl⟩ := List.mem_map.mp ha
    simp at hb
    have := h2 o ho
    omega
  constructor
  · refine ⟨?_, fun r hr => hs.keep.rvalid (hw.recs r hr), ?_, ?_, ?_, ?_⟩
    · intro x hx
      rcases List.mem_append.mp hx with hx | hx
      · exact hs.keep.valid (hw.objs x hx)
      · simp at hx
        subst hx
        exact hs.valid
    · exact nd _ _ hw.nObjects (fun o ho => (hw.objs o ho).nObjects) hs.nObjects
    · exact nd _ _ hw.eid (fun o ho => (hw.objs o ho).eid) hs.eid
    · exact nd _ _ hw.iid (fun o ho => (hw.objs o ho).iid) hs.iid
    · exact nd _ _ hw.feature (fun o ho => (hw.objs o ho).feature) hs.feature
  · unfold World.vals
    simp only [List.map_append, List.map_cons, List.map_nil]
    congr 1
    exact List.map_congr_left (fun o ho => hs.keep.val (hw.objs o ho))

/-- A call on recommender `j`. -/
lemma Inv.recs_set {w : World K α φ ε γ θ V} (hw : Inv w) {s : RSt K α φ ε γ θ V} (hs : FitI w.heap s)
    (j : Nat) :
    Inv { w with heap := s.1, recs := w.recs.set j s.2 } ∧
    World.vals { w with heap := s.1, recs := w.recs.set j s.2 } = w.vals := by
  constructor
  · refine ⟨fun o ho => hs.keep.valid (hw.objs o ho), ?_, hw.nObjects, hw.eid, hw.iid, hw.feature⟩
    intro x hx
    rcases mem_of_mem_set hx with rfl | hx
    · exact hs.valid
    · exact hs.keep.rvalid (hw.recs x hx)
  · exact List.map_congr_left (fun o ho => hs.keep.val (hw.objs o ho))

lemma removeData_valid {h : Arrays K α φ ε} {r : RObj γ θ V} (hr : r.Valid h) : (removeData r).Valid h := by
  refine ⟨hr.nObjects, hr.eid, hr.iid, ?_, ?_, ?_, hr.scoreDomain⟩ <;> · intro a h; cases h

/-- A program whose containers are values, one call: nothing is shared (data/base.py, data/event.py,
data/event_with_score.py as modelled in Verif/Data and Verif/Score).  Calls on recommenders do not
concern containers. -/
def vstep [LinearOrder α] [Field K] [LinearOrder K] [IsStrictOrderedRing K] [FloorRing K]
    (ds : List (ScoreData K α φ ε)) (op : Op K α φ ε γ θ V) : List (ScoreData K α φ ε) :=
  match op with
  | .new n arg =>
    match (ScoreData.init n arg : Res (ScoreData K α φ ε)) with
    | .ok d => ds ++ [d]
    | .error _ => ds
  | .setEvent i event score dom ef =>
    match ds[i]? with
    | none => ds
    | some d =>
      match d.setEvent event score dom ef with
      | .ok d' => ds.set i d'
      | .error (_, d') => ds.set i d'
  | .setFeature i otype eids feature =>
    match ds[i]? with
    | none => ds
    | some d =>
      match d.setFeature otype eids feature with
      | .ok d' => ds.set i d'
      | .error _ => ds
  | .binarize i t =>
    match ds[i]? with
    | none => ds
    | some d =>
      match d.binarizeScore t with
      | .ok d' => ds.set i d'
      | .error _ => ds
  | .filter i cond =>
    match ds[i]? with
    | none => ds
    | some d =>
      match d.filterEvent cond with
      | .ok (some d') => ds ++ [d']
      | _ => ds
  | _ => ds

/-- What a call does to the objects, next to what it does to values. -/
inductive Effect [LinearOrder α] [Field K] [LinearOrder K] [IsStrictOrderedRing K] [FloorRing K]
    (w : World K α φ ε γ θ V) (op : Op K α φ ε γ θ V) : World K α φ ε γ θ V → Prop
  | nothing (hv : vstep w.vals op = w.vals) : Effect w op w
  | own (i : Nat) (o : Obj) (s : St K α φ ε) (ho : w.objs[i]? = some o) (hs : Own w.heap o s)
      (hv : vstep w.vals op = w.vals.set i s.val)
      (hk : (∃ a b c d, op = .setEvent i a b c d) ∨
        Keep w.heap.ints.length w.heap.eids.length w.heap.iids.length o.feature w.heap s.1)
      (hc : (∃ a b c d, op = .setEvent i a b c d) ∨ (∃ a b c, op = .setFeature i a b c) ∨
        (∃ a, op = .binarize i a) ∧ KeepAll w.heap s.1) :
      Effect w op { w with heap := s.1, objs := w.objs.set i s.2 }
  | fresh (s : St K α φ ε) (hs : Fresh w.heap s) (hv : vstep w.vals op = w.vals ++ [s.val]) :
      Effect w op { w with heap := s.1, objs := w.objs ++ [s.2] }
  | recommender (j : Nat) (s : RSt K α φ ε γ θ V) (hs : FitI w.heap s) (hv : vstep w.vals op = w.vals)
      (hj : (∃ a b c d e, op = .fit a b c j d e) ∨ ∃ r, w.recs[j]? = some r ∧ s = (w.heap, removeData r)) :
      Effect w op { w with heap := s.1, recs := w.recs.set j s.2 }
  | newRec (r : RObj γ θ V) (hr : r.Valid w.heap) (hv : vstep w.vals op = w.vals) :
      Effect w op { w with recs := w.recs ++ [r] }

lemma vals_getElem? (w : World K α φ ε γ θ V) (i : Nat) :
    w.vals[i]? = (w.objs[i]?).map (fun o => o.val w.heap) := by
  simp [World.vals]

lemma step_effect' [LinearOrder α] [Field K] [LinearOrder K] [IsStrictOrderedRing K] [FloorRing K]
    (mk : Int → γ) {w : World K α φ ε γ θ V} (hobjs : ∀ o ∈ w.objs, o.Valid w.heap) (hrecs : ∀ r ∈ w.recs, r.Valid w.heap) (op : Op K α φ ε γ θ V) :
    Effect w op (step mk w op) := by
  cases op with
  | new n arg =>
    have h := create_sim (h₀ := w.heap) n arg
    simp only [step]
    rcases hx : create w.heap n arg with e | s <;>
      rcases hy : (ScoreData.init n arg : Res (ScoreData K α φ ε)) with e' | d <;> rw [hx, hy] at h <;>
      simp only [SimR] at h
    · exact .nothing (by simp [vstep, hy])
    · obtain ⟨rfl, hs⟩ := h
      exact .fresh s hs (by simp [vstep, hy])
  | setEvent i event score dom ef =>
    simp only [step]
    rcases ho : w.objs[i]? with _ | o
    · exact .nothing (by simp [vstep, vals_getElem?, ho])
    · have h := setEvent_sim event score dom ef (hobjs o (List.mem_of_getElem? ho))
      simp only
      rcases hx : setEvent (w.heap, o) event score dom ef with ⟨e, s⟩ | s <;>
        rcases hy : (o.val w.heap).setEvent event score dom ef with ⟨e', d⟩ | d <;> rw [hx, hy] at h <;>
        simp only [Sim] at h
      · obtain ⟨rfl, rfl, hs⟩ := h
        exact .own i o s ho hs (by simp [vstep, vals_getElem?, ho, hy]) (.inl ⟨_, _, _, _, rfl⟩) (.inl ⟨_, _, _, _, rfl⟩)
      · obtain ⟨rfl, hs⟩ := h
        exact .own i o s ho hs (by simp [vstep, vals_getElem?, ho, hy]) (.inl ⟨_, _, _, _, rfl⟩) (.inl ⟨_, _, _, _, rfl⟩)
  | setFeature i t eids f =>
    simp only [step]
    rcases ho : w.objs[i]? with _ | o
    · exact .nothing (by simp [vstep, vals_getElem?, ho])
    · have h := setFeature_sim (hobjs o (List.mem_of_getElem? ho)) t eids f
      simp only
      rcases hx : setFeature (w.heap, o) t eids f with e | s <;>
        rcases hy : (o.val w.heap).setFeature t eids f with e' | d <;> rw [hx, hy] at h <;>
        simp only [SimR] at h
      · exact .nothing (by simp [vstep, vals_getElem?, ho, hy])
      · obtain ⟨rfl, h1, h2, h3⟩ := h
        refine .own i o s ho ⟨?_, h2, by rw [h1], by rw [h1], by rw [h1], by rw [h1]⟩
          (by simp [vstep, vals_getElem?, ho, hy]) (.inr h3) (.inr (.inl ⟨_, _, _, rfl⟩))
        exact ⟨h3.li, h3.le, h3.ld, h3.lf, h3.lv, h3.lx, h3.ln, fun a ha _ => h3.ints a ha (by omega),
          fun a ha _ => h3.eids a ha (by omega), fun a ha _ => h3.iids a ha (by omega), h3.feats, h3.evs, h3.efs,
          h3.nums⟩
  | binarize i t =>
    simp only [step]
    rcases ho : w.objs[i]? with _ | o
    · exact .nothing (by simp [vstep, vals_getElem?, ho])
    · have h := binarizeScore_sim (hobjs o (List.mem_of_getElem? ho)) t
      simp only
      rcases hx : binarizeScore (w.heap, o) t with e | s <;>
        rcases hy : (o.val w.heap).binarizeScore t with e' | d <;> rw [hx, hy] at h <;>
        simp only [SimR] at h
      · exact .nothing (by simp [vstep, vals_getElem?, ho, hy])
      · obtain ⟨rfl, h1, h2, h3, h4, h5, h6⟩ := h
        exact .own i o s ho ⟨h1.weaken, h2, h3, h4, h5, h6⟩
          (by simp [vstep, vals_getElem?, ho, hy]) (.inr h1.weaken) (.inr (.inr ⟨⟨_, rfl⟩, h1⟩))
  | filter i cond =>
    simp only [step]
    rcases ho : w.objs[i]? with _ | o
    · exact .nothing (by simp [vstep, vals_getElem?, ho])
    · have h := filterEvent_sim (hobjs o (List.mem_of_getElem? ho)) cond
      simp only
      rcases hx : filterEvent w.heap o cond with e | _ | s <;>
        rcases hy : (o.val w.heap).filterEvent cond with e' | _ | d <;> rw [hx, hy] at h <;>
        simp only [SimO] at h
      · exact .nothing (by simp [vstep, vals_getElem?, ho, hy])
      · exact .nothing (by simp [vstep, vals_getElem?, ho, hy])
      · obtain ⟨rfl, hs⟩ := h
        exact .fresh s hs (by simp [vstep, vals_getElem?, ho, hy])
  | newRec seed results =>
    refine .newRec _ ?_ rfl
    constructor <;> · intro a h; cases h
  | fit fam L env j i idx =>
    simp only [step]
    rcases hr : w.recs[j]? with _ | r
    · exact .nothing rfl
    rcases ho : w.objs[i]? with _ | o
    · exact .nothing rfl
    have h := fit_sim (hobjs o (List.mem_of_getElem? ho)) r (hrecs r (List.mem_of_getElem? hr)) fam L mk
      env idx
    simp only
    rcases hx : fit fam L mk env (w.heap, r) o idx with ⟨e, s⟩ | s <;>
      rcases hy : fitValue fam L mk env (r.val w.heap) (o.val w.heap) idx with ⟨e', d⟩ | d <;>
      rw [hx, hy] at h <;> simp only [SimF] at h
    · exact .recommender j s h.2.2 rfl (.inl ⟨_, _, _, _, _, rfl⟩)
    · exact .recommender j s h.2.toFitI rfl (.inl ⟨_, _, _, _, _, rfl⟩)
  | removeData j =>
    simp only [step]
    rcases hr : w.recs[j]? with _ | r
    · exact .nothing rfl
    · exact .recommender j (w.heap, removeData r)
        ⟨Keep.refl _, removeData_valid (hrecs r (List.mem_of_getElem? hr))⟩ rfl (.inr ⟨r, hr, rfl⟩)

lemma step_effect [LinearOrder α] [Field K] [LinearOrder K] [IsStrictOrderedRing K] [FloorRing K]
    (mk : Int → γ) {w : World K α φ ε γ θ V} (hw : Inv w) (op : Op K α φ ε γ θ V) :
    Effect w op (step mk w op) := step_effect' mk hw.objs hw.recs op

lemma Inv.step [LinearOrder α] [Field K] [LinearOrder K] [IsStrictOrderedRing K] [FloorRing K]
    (mk : Int → γ) {w : World K α φ ε γ θ V} (hw : Inv w) (op : Op K α φ ε γ θ V) :
    Inv (step mk w op) ∧ (step mk w op).vals = vstep w.vals op := by
  have h := step_effect mk hw op
  generalize Heap.step mk w op = w' at h
  cases h with
  | nothing hv => exact ⟨hw, hv.symm⟩
  | own i o s ho hs hv hk => rw [hv]; exact hw.own ho hs
  | fresh s hs hv => rw [hv]; exact hw.fresh hs
  | recommender j s hs hv hj => rw [hv]; exact hw.recs_set hs j
  | newRec r hr hv =>
    rw [hv]
    refine ⟨⟨hw.objs, ?_, hw.nObjects, hw.eid, hw.iid, hw.feature⟩, rfl⟩
    intro x hx
    rcases List.mem_append.mp hx with hx | hx
    · exact hw.recs x hx
    · simp at hx
      subst hx
      exact hr

lemma Inv.empty : Inv (World.empty : World K α φ ε γ θ V) := by
  constructor <;> simp [World.empty]

lemma Inv.run [LinearOrder α] [Field K] [LinearOrder K] [IsStrictOrderedRing K] [FloorRing K]
    (mk : Int → γ) {w : World K α φ ε γ θ V} (hw : Inv w) (ops : List (Op K α φ ε γ θ V)) :
    Inv (run mk w ops) ∧ (run mk w ops).vals = ops.foldl vstep w.vals := by
  induction ops generalizing w with
  | nil => exact ⟨hw, rfl⟩
  | cons op ops ih =>
    have h := hw.step mk op
    have h2 := ih h.1
    refine ⟨h2.1, ?_⟩
    rw [List.foldl_cons, ← h.2]
    exact h2.2

end Kam.Heap
