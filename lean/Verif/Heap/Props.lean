/-
Independence of containers and recommenders that share arrays: C13, C24.
-/
import Verif.Heap.Lemmas4
import Verif.Rec.Props4
import Mathlib.Algebra.Order.Ring.Rat
import Mathlib.Data.Rat.Floor

set_option linter.unusedSectionVars false

namespace Kam.Heap

variable {K α φ ε γ θ V : Type} [LinearOrder α] [Field K] [LinearOrder K] [IsStrictOrderedRing K] [FloorRing K]

/-- The container a call is made on, if the call can change it. -/
def Op.target : Op K α φ ε γ θ V → Option Nat
  | .setEvent i _ _ _ _ => some i
  | .setFeature i _ _ _ => some i
  | .binarize i _ => some i
  | _ => none

/-- **C13**: whatever calls a program makes, its containers report what they would report if no two
objects shared an array. -/
theorem C13_values (mk : Int → γ) (ops : List (Op K α φ ε γ θ V)) :
    (run mk World.empty ops).vals = ops.foldl vstep [] :=
  ((Inv.empty (K := K) (α := α) (φ := φ) (ε := ε) (γ := γ) (θ := θ) (V := V)).run mk ops).2

lemma vstep_other (ds : List (ScoreData K α φ ε)) (op : Op K α φ ε γ θ V) (i : Nat) (hi : i < ds.length)
    (ht : op.target ≠ some i) : (vstep ds op)[i]? = ds[i]? := by
  have app : ∀ d, (ds ++ [d])[i]? = ds[i]? := fun d => by simp [List.getElem?_append, hi]
  cases op <;> simp only [Op.target, ne_eq, Option.some.injEq] at ht <;> simp only [vstep]
  all_goals repeat' split
  all_goals first
    | rfl
    | exact app _
    | (rw [List.getElem?_set_ne ht])

lemma vstep_length (ds : List (ScoreData K α φ ε)) (op : Op K α φ ε γ θ V) : ds.length ≤ (vstep ds op).length := by
  cases op <;> simp only [vstep]
  all_goals repeat' split
  all_goals simp

/-- **C13**: a container reports the same after any sequence of calls that are not made on it, in every
program; in particular neither the source of `filter_event` nor its result is changed through the
other, and no recommender changes a container. -/
theorem C13_independent (mk : Int → γ) (before later : List (Op K α φ ε γ θ V)) (i : Nat)
    (hi : i < (run mk World.empty before).vals.length) (ht : ∀ op ∈ later, op.target ≠ some i) :
    (run mk World.empty (before ++ later)).vals[i]? = (run mk World.empty before).vals[i]? := by
  rw [C13_values, C13_values, List.foldl_append]
  rw [C13_values] at hi
  generalize before.foldl vstep [] = ds at hi ⊢
  induction later generalizing ds with
  | nil => rfl
  | cons op later ih =>
    rw [List.foldl_cons, ih (fun op h => ht op (List.mem_cons_of_mem _ h)) _
      (hi.trans_le (vstep_length ds op))]
    exact vstep_other ds op i hi (ht op List.mem_cons_self)

/-! ### recommenders -/

/-- What recommender `j` predicts for external ids. -/
def World.predict (L : Learner K γ θ V) (w : World K α φ ε γ θ V) (j : Nat) (eev : ArrN α) :
    Option (Res (Pred K)) :=
  (w.recs[j]?).map (fun r => Rec.predict L (r.val w.heap) eev)

/-- Recommender `j` is `r`, was fitted on container `i` and its attributes are `v`. -/
structure Fitted (w : World K α φ ε γ θ V) (i j : Nat) (r : RObj γ θ V) (v : Rec K α φ ε γ θ V) : Prop where
  inv : Inv w
  mem : w.recs[j]? = some r
  obj : ∃ o, w.objs[i]? = some o ∧ r.eid = some o.eid ∧ r.iid = some o.iid
  nObjects : ∀ x ∈ w.objs, r.nObjects ≠ some x.nObjects
  dropped : removeData r = r
  val : r.val w.heap = v

lemma Fitted.step (mk : Int → γ) {w : World K α φ ε γ θ V} {i j : Nat} {r : RObj γ θ V} {v : Rec K α φ ε γ θ V}
    (hw : Fitted w i j r v) (op : Op K α φ ε γ θ V) (h1 : ∀ a b c d, op ≠ .setEvent i a b c d)
    (h2 : ∀ a b c d e, op ≠ .fit a b c j d e) : Fitted (step mk w op) i j r v := by
  have hinv := (hw.inv.step mk op).1
  have h := step_effect mk hw.inv op
  have hrv := hw.inv.recs r (List.mem_of_getElem? hw.mem)
  generalize Heap.step mk w op = w' at h hinv
  obtain ⟨x, hx, hxe, hxi⟩ := hw.obj
  cases h with
  | nothing _ => exact hw
  | own k o s ho hs hv hk =>
    refine ⟨hinv, hw.mem, ?_, ?_, hw.dropped, ?_⟩
    · by_cases hki : k = i
      · subst hki
        obtain ⟨hlt, _⟩ := List.getElem?_eq_some_iff.mp ho
        refine ⟨s.2, by simp [hlt], ?_, ?_⟩
        · rw [hs.eid, hxe]; rw [hx] at ho; cases ho; rfl
        · rw [hs.iid, hxi]; rw [hx] at ho; cases ho; rfl
      · exact ⟨x, by simp [hki, hx], hxe, hxi⟩
    · intro y hy
      rcases mem_of_mem_set hy with rfl | hy
      · rw [hs.nObjects]; exact hw.nObjects o (List.mem_of_getElem? ho)
      · exact hw.nObjects y hy
    · refine Eq.trans ?_ hw.val
      rcases hk with ⟨a, b, c, d, rfl⟩ | hk
      · have hki : k ≠ i := by
          rintro rfl
          exact h1 _ _ _ _ rfl
        refine hs.keep.rval_eq hrv (hw.nObjects o (List.mem_of_getElem? ho)) ?_ ?_
        · rw [hxe]
          intro he
          exact ne_of_nodup_map _ hw.inv.eid hx ho (Ne.symm hki) (Option.some.inj he)
        · rw [hxi]
          intro he
          exact ne_of_nodup_map _ hw.inv.iid hx ho (Ne.symm hki) (Option.some.inj he)
      · exact hk.rval_eq hrv (fun e => lt_irrefl _ (hrv.nObjects _ e)) (fun e => lt_irrefl _ (hrv.eid _ e))
          (fun e => lt_irrefl _ (hrv.iid _ e))
  | fresh s hs hv =>
    refine ⟨hinv, hw.mem, ⟨x, ?_, hxe, hxi⟩, ?_, hw.dropped, (hs.keep.rval hrv).trans hw.val⟩
    · obtain ⟨hlt, hh⟩ := List.getElem?_eq_some_iff.mp hx
      simp [List.getElem?_append, hlt, hh]
    · intro y hy
      rcases List.mem_append.mp hy with hy | hy
      · exact hw.nObjects y hy
      · simp at hy
        subst hy
        rw [hs.nObjects]
        exact fun e => lt_irrefl _ (hrv.nObjects _ e)
  | recommender k s hs hv hj =>
    refine ⟨hinv, ?_, ⟨x, hx, hxe, hxi⟩, hw.nObjects, hw.dropped, (hs.keep.rval hrv).trans hw.val⟩
    by_cases hkj : k = j
    · subst hkj
      rcases hj with ⟨a, b, c, d, e, rfl⟩ | ⟨r', hr', rfl⟩
      · exact absurd rfl (h2 _ _ _ _ _)
      · rw [hw.mem] at hr'
        cases hr'
        obtain ⟨hlt, _⟩ := List.getElem?_eq_some_iff.mp hw.mem
        simp [hlt, hw.dropped]
    · simp [hkj, hw.mem]
  | newRec r' hr' hv =>
    refine ⟨hinv, ?_, ⟨x, hx, hxe, hxi⟩, hw.nObjects, hw.dropped, hw.val⟩
    obtain ⟨hlt, hh⟩ := List.getElem?_eq_some_iff.mp hw.mem
    simp [List.getElem?_append, hlt, hh]

lemma fit_dropped {h : Arrays K α φ ε} {r : RObj γ θ V} {o : Obj} {fam : Family} {L : Learner K γ θ V}
    {mk : Int → γ} {env : γ} {idx : Option (List Int)} {s : RSt K α φ ε γ θ V}
    (hf : fit fam L mk env (h, r) o idx = .ok s) : removeData s.2 = s.2 := by
  unfold fit at hf
  split at hf
  · cases hf
  · unfold finish at hf
    split at hf
    · cases hf
    · cases hf
      rfl

/-- **C24** (partial): after a successful `fit`, no sequence of calls changes what the recommender
predicts, unless `set_event` is called on the training container (or the recommender is fitted again);
its predictions are those of the recommender fitted on the values of the container.  Missing:
`set_event` on the training container, see `C24_refuted`. -/
theorem C24_independent_partial (mk : Int → γ) (before later : List (Op K α φ ε γ θ V)) (fam : Family)
    (L : Learner K γ θ V) (env : γ) (j i : Nat) (idx : Option (List Int)) (r : RObj γ θ V) (o : Obj)
    (s : RSt K α φ ε γ θ V)
    (hr : (run mk World.empty before).recs[j]? = some r) (ho : (run mk World.empty before).objs[i]? = some o)
    (hf : fit fam L mk env ((run mk World.empty before).heap, r) o idx = .ok s)
    (h1 : ∀ a b c d, Op.setEvent i a b c d ∉ later) (h2 : ∀ a b c d e, Op.fit a b c j d e ∉ later) :
    ∃ r', fitValue fam L mk env (r.val (run mk World.empty before).heap)
        (o.val (run mk World.empty before).heap) idx = .ok r' ∧
      ∀ (L' : Learner K γ θ V) (eev : ArrN α),
        (run mk World.empty (before ++ [.fit fam L env j i idx] ++ later)).predict L' j eev =
          some (Rec.predict L' r' eev) := by
  have hI := (Inv.empty.run mk before).1
  have happ : run mk World.empty (before ++ [.fit fam L env j i idx] ++ later) =
      List.foldl (Heap.step mk) (run mk World.empty before) ([.fit fam L env j i idx] ++ later) := by
    rw [run, run, List.append_assoc, List.foldl_append]
  rw [happ]
  clear happ
  generalize run mk World.empty before = w at *
  have hsim := fit_sim (hI.objs o (List.mem_of_getElem? ho)) r (hI.recs r (List.mem_of_getElem? hr)) fam L mk
    env idx
  rw [hf] at hsim
  rcases hy : fitValue fam L mk env (r.val w.heap) (o.val w.heap) idx with ⟨e', d⟩ | d <;> rw [hy] at hsim <;>
    simp only [SimF] at hsim
  obtain ⟨hd, hs⟩ := hsim
  refine ⟨d, rfl, ?_⟩
  intro L' eev
  rw [List.singleton_append, List.foldl_cons]
  have hstep : Heap.step mk w (.fit fam L env j i idx) = { w with heap := s.1, recs := w.recs.set j s.2 } := by
    simp only [Heap.step, hr, ho, hf]
  obtain ⟨hlt, _⟩ := List.getElem?_eq_some_iff.mp hr
  have hF : Fitted (Heap.step mk w (.fit fam L env j i idx)) i j s.2 d := by
    rw [hstep]
    refine ⟨(hI.recs_set hs.toFitI j).1, by simp [hlt], ⟨o, ho, hs.eid, hs.iid⟩, ?_, fit_dropped hf, hd⟩
    intro x hx
    obtain ⟨a, ha, hle⟩ := hs.nObjects
    rw [ha]
    intro he
    have := (hI.objs x hx).nObjects
    have := Option.some.inj he
    omega
  generalize Heap.step mk w (.fit fam L env j i idx) = w' at hF
  have hF' : Fitted (later.foldl (Heap.step mk) w') i j s.2 d := by
    clear hy hs hd hstep
    induction later generalizing w' with
    | nil => exact hF
    | cons op later ih =>
      rw [List.foldl_cons]
      refine ih (fun a b c d h => h1 a b c d (List.mem_cons_of_mem _ h))
        (fun a b c d e h => h2 a b c d e (List.mem_cons_of_mem _ h)) _ ?_
      refine hF.step mk op ?_ ?_
      · rintro a b c d rfl
        exact h1 _ _ _ _ List.mem_cons_self
      · rintro a b c d e rfl
        exact h2 _ _ _ _ _ List.mem_cons_self
  simp [World.predict, hF'.mem, hF'.val]

/-- The recommender with the id tables of a container. -/
def withTables (r : Rec K α φ ε γ θ V) (d : ScoreData K α φ ε) : Rec K α φ ε γ θ V :=
  { r with info := { r.info with eid := d.eid, iid := d.iid } }

lemma rval_tables {wi we wd wf : Nat} {h₀ h : Arrays K α φ ε} (k : Keep wi we wd wf h₀ h) {r : RObj γ θ V}
    (hv : r.Valid h₀) (h1 : r.nObjects ≠ some wi) {x : Obj} (h2 : r.eid = some x.eid)
    (h3 : r.iid = some x.iid) : r.val h = withTables (r.val h₀) (x.val h) := by
  unfold RObj.val withTables Obj.val
  rw [map_cell_congr hv.nObjects (fun a e h => k.ints a h (fun hh => h1 (by rw [e, hh]))),
    map_cell_congr hv.event (fun a _ h => k.evs a h),
    map_cell_congr hv.eventFeature (fun a _ h => k.efs a h),
    map_cell_congr hv.score (fun a _ h => k.nums a h),
    map_cell_congr hv.scoreDomain (fun a _ h => k.nums a h), h2, h3]
  rfl

/-- As `Fitted`, with the current id tables of container `i`. -/
structure Tied (w : World K α φ ε γ θ V) (i j : Nat) (r : RObj γ θ V) (v : Rec K α φ ε γ θ V) : Prop where
  inv : Inv w
  mem : w.recs[j]? = some r
  obj : ∃ o, w.objs[i]? = some o ∧ r.eid = some o.eid ∧ r.iid = some o.iid ∧
    r.val w.heap = withTables v (o.val w.heap)
  nObjects : ∀ x ∈ w.objs, r.nObjects ≠ some x.nObjects
  dropped : removeData r = r

lemma Tied.step (mk : Int → γ) {w : World K α φ ε γ θ V} {i j : Nat} {r : RObj γ θ V} {v : Rec K α φ ε γ θ V}
    (hw : Tied w i j r v) (op : Op K α φ ε γ θ V)
    (h2 : ∀ a b c d e, op ≠ .fit a b c j d e) : Tied (step mk w op) i j r v := by
  have hinv := (hw.inv.step mk op).1
  have h := step_effect mk hw.inv op
  have hrv := hw.inv.recs r (List.mem_of_getElem? hw.mem)
  generalize Heap.step mk w op = w' at h hinv
  obtain ⟨x, hx, hxe, hxi, hxv⟩ := hw.obj
  have hxval := hw.inv.objs x (List.mem_of_getElem? hx)
  have all : ∀ h', KeepAll w.heap h' → r.val h' = withTables v (x.val h') := by
    intro h' k
    rw [k.rval hrv, hxv, k.val hxval]
  cases h with
  | nothing _ => exact hw
  | own k o s ho hs hv hk =>
    have hr' : ∀ y : Obj, r.eid = some y.eid → r.iid = some y.iid → r.val s.1 = withTables v (y.val s.1) := by
      intro y e1 e2
      rw [rval_tables hs.keep hrv (hw.nObjects o (List.mem_of_getElem? ho)) e1 e2, hxv]
      rfl
    refine ⟨hinv, hw.mem, ?_, ?_, hw.dropped⟩
    · by_cases hki : k = i
      · subst hki
        obtain ⟨hlt, _⟩ := List.getElem?_eq_some_iff.mp ho
        rw [hx] at ho
        cases ho
        exact ⟨s.2, by simp [hlt], by rw [hs.eid, hxe], by rw [hs.iid, hxi],
          hr' s.2 (by rw [hs.eid, hxe]) (by rw [hs.iid, hxi])⟩
      · exact ⟨x, by simp [hki, hx], hxe, hxi, hr' x hxe hxi⟩
    · intro y hy
      rcases mem_of_mem_set hy with rfl | hy
      · rw [hs.nObjects]; exact hw.nObjects o (List.mem_of_getElem? ho)
      · exact hw.nObjects y hy
  | fresh s hs hv =>
    refine ⟨hinv, hw.mem, ⟨x, ?_, hxe, hxi, all _ hs.keep⟩, ?_, hw.dropped⟩
    · obtain ⟨hlt, hh⟩ := List.getElem?_eq_some_iff.mp hx
      simp [List.getElem?_append, hlt, hh]
    · intro y hy
      rcases List.mem_append.mp hy with hy | hy
      · exact hw.nObjects y hy
      · simp at hy
        subst hy
        rw [hs.nObjects]
        exact fun e => lt_irrefl _ (hrv.nObjects _ e)
  | recommender k s hs hv hj =>
    refine ⟨hinv, ?_, ⟨x, hx, hxe, hxi, all _ hs.keep⟩, hw.nObjects, hw.dropped⟩
    by_cases hkj : k = j
    · subst hkj
      rcases hj with ⟨a, b, c, d, e, rfl⟩ | ⟨r', hr', rfl⟩
      · exact absurd rfl (h2 _ _ _ _ _)
      · rw [hw.mem] at hr'
        cases hr'
        obtain ⟨hlt, _⟩ := List.getElem?_eq_some_iff.mp hw.mem
        simp [hlt, hw.dropped]
    · simp [hkj, hw.mem]
  | newRec r' hr' hv =>
    refine ⟨hinv, ?_, ⟨x, hx, hxe, hxi, hxv⟩, hw.nObjects, hw.dropped⟩
    obtain ⟨hlt, hh⟩ := List.getElem?_eq_some_iff.mp hw.mem
    simp [List.getElem?_append, hlt, hh]

/-- **C24**, what holds for every history: after a successful `fit` (and until it is fitted again) a
recommender predicts with the parameters and sizes learned by that `fit` and the id tables its training
container reports at the time of the prediction; nothing else in the program has an influence.  So
`set_event` on the training container is harmless exactly as far as it rebuilds the same id tables. -/
theorem C24_tables (mk : Int → γ) (before later : List (Op K α φ ε γ θ V)) (fam : Family)
    (L : Learner K γ θ V) (env : γ) (j i : Nat) (idx : Option (List Int)) (r : RObj γ θ V) (o : Obj)
    (s : RSt K α φ ε γ θ V)
    (hr : (run mk World.empty before).recs[j]? = some r) (ho : (run mk World.empty before).objs[i]? = some o)
    (hf : fit fam L mk env ((run mk World.empty before).heap, r) o idx = .ok s)
    (h2 : ∀ a b c d e, Op.fit a b c j d e ∉ later) :
    ∃ r', fitValue fam L mk env (r.val (run mk World.empty before).heap)
        (o.val (run mk World.empty before).heap) idx = .ok r' ∧
      ∃ d, (run mk World.empty (before ++ [.fit fam L env j i idx] ++ later)).vals[i]? = some d ∧
      ∀ (L' : Learner K γ θ V) (eev : ArrN α),
        (run mk World.empty (before ++ [.fit fam L env j i idx] ++ later)).predict L' j eev =
          some (Rec.predict L' (withTables r' d) eev) := by
  have hI := (Inv.empty.run mk before).1
  have happ : run mk World.empty (before ++ [.fit fam L env j i idx] ++ later) =
      List.foldl (Heap.step mk) (run mk World.empty before) ([.fit fam L env j i idx] ++ later) := by
    rw [run, run, List.append_assoc, List.foldl_append]
  rw [happ]
  clear happ
  generalize run mk World.empty before = w at *
  have hsim := fit_sim (hI.objs o (List.mem_of_getElem? ho)) r (hI.recs r (List.mem_of_getElem? hr)) fam L mk
    env idx
  rw [hf] at hsim
  rcases hy : fitValue fam L mk env (r.val w.heap) (o.val w.heap) idx with ⟨e', d⟩ | d <;> rw [hy] at hsim <;>
    simp only [SimF] at hsim
  obtain ⟨hd, hs⟩ := hsim
  refine ⟨d, rfl, ?_⟩
  rw [List.singleton_append, List.foldl_cons]
  have hstep : Heap.step mk w (.fit fam L env j i idx) = { w with heap := s.1, recs := w.recs.set j s.2 } := by
    simp only [Heap.step, hr, ho, hf]
  obtain ⟨hlt, _⟩ := List.getElem?_eq_some_iff.mp hr
  have hF : Tied (Heap.step mk w (.fit fam L env j i idx)) i j s.2 d := by
    rw [hstep]
    refine ⟨(hI.recs_set hs.toFitI j).1, by simp [hlt], ⟨o, ho, hs.eid, hs.iid, ?_⟩, ?_, fit_dropped hf⟩
    · refine Eq.trans (rval_tables (Keep.refl (wi := s.1.ints.length) (we := 0) (wd := 0) (wf := 0) s.1) hs.valid
        (fun e => lt_irrefl _ (hs.valid.nObjects _ e)) hs.eid hs.iid) ?_
      rw [show s.2.val s.1 = d from hd]
    · intro x hx
      obtain ⟨a, ha, hle⟩ := hs.nObjects
      rw [ha]
      intro he
      have := (hI.objs x hx).nObjects
      have := Option.some.inj he
      omega
  generalize Heap.step mk w (.fit fam L env j i idx) = w' at hF
  have hF' : Tied (later.foldl (Heap.step mk) w') i j s.2 d := by
    clear hy hs hd hstep
    induction later generalizing w' with
    | nil => exact hF
    | cons op later ih =>
      rw [List.foldl_cons]
      refine ih (fun a b c d e h => h2 a b c d e (List.mem_cons_of_mem _ h)) _ ?_
      refine hF.step mk op ?_
      rintro a b c d e rfl
      exact h2 _ _ _ _ _ List.mem_cons_self
  obtain ⟨x, hx, _, _, hv⟩ := hF'.obj
  exact ⟨_, by rw [vals_getElem?, hx]; rfl, fun L' eev => by simp [World.predict, hF'.mem, hv]⟩

/-! ### concrete programs -/

/-- Predicts the internal id of the first object. -/
def exFirst : Learner ℚ Unit Unit Unit :=
  { train := fun _ => .ok ((), []), rawPredict := fun _ rows => .ok (rows.map (fun row => ((row.headD 0 : Int) : ℚ))) }

/-- Two events are loaded, a part of them is filtered, a recommender is made. -/
def exBefore : List (Op ℚ Nat Unit Unit Unit Unit Unit) :=
  [.new 2 .none, .setEvent 0 ⟨2, [[1, 1], [2, 2]]⟩ [1, 2] (some [1, 2, 1]) none, .filter 0 (.index [1]), .newRec none []]

/-- The training container is loaded anew. -/
def exReload : Op ℚ Nat Unit Unit Unit Unit Unit :=
  .setEvent 0 ⟨2, [[0, 1], [1, 2]]⟩ [1, 2] (some [1, 2, 1]) none

/-- The hypotheses of `C13_independent` for the filtered container, whose source is loaded anew. -/
example : 1 < (run (fun _ => ()) World.empty exBefore).vals.length ∧
    (∀ op ∈ [exReload], op.target ≠ some 1) ∧
    (run (fun _ => ()) World.empty exBefore).vals.map (fun d => d.eid) =
      [[some [1, 2], some [1, 2]], [some [2], some [2]]] ∧
    (run (fun _ => ()) World.empty (exBefore ++ [exReload])).vals.map (fun d => d.eid) =
      [[some [0, 1], some [1, 2]], [some [2], some [2]]] :=
  ⟨by decide, by simp [exReload, Op.target], rfl, rfl⟩

/-- Calls other than its own `fit` do not change a new recommender. -/
lemma keep_new (mk : Int → γ) {seed : Option Int} {results : Dict String V} {j : Nat} {ops : List (Op K α φ ε γ θ V)}
    {w : World K α φ ε γ θ V} (hno : ∀ a b c d e, Op.fit a b c j d e ∉ ops) (h : w.recs[j]? = some (newRec seed results)) :
    (run mk w ops).recs[j]? = some (newRec seed results) := by
  revert hno h
  revert w
  induction ops with
  | nil => intro w _ h; exact h
  | cons op ops ih =>
    intro w hno h
    rw [run, List.foldl_cons]
    refine ih (fun a b c d e hm => hno a b c d e (by simp [hm])) ?_
    obtain ⟨hlt, _⟩ := List.getElem?_eq_some_iff.mp h
    cases op with
    | new n arg => simp only [step]; split <;> exact h
    | setEvent k a b c d => simp only [step]; split <;> [exact h; (split <;> exact h)]
    | setFeature k a b c => simp only [step]; split <;> [exact h; (split <;> exact h)]
    | binarize k a => simp only [step]; split <;> [exact h; (split <;> exact h)]
    | filter k a => simp only [step]; split <;> [exact h; (split <;> exact h)]
    | newRec a b =>
      simp only [step]
      rw [List.getElem?_append_left hlt]
      exact h
    | fit a b c k d e =>
      have hk : k ≠ j := by
        rintro rfl
        exact hno a b c d e (by simp)
      simp only [step]
      split
      · split <;> (simp only []; rw [List.getElem?_set_ne hk]; exact h)
      · exact h
    | removeData k =>
      simp only [step]
      split
      · exact h
      · rename_i r hr
        by_cases hk : k = j
        · subst hk
          rw [h] at hr
          cases hr
          simp only []
          rw [List.getElem?_set_self hlt]
          rfl
        · simp only []
          rw [List.getElem?_set_ne hk]
          exact h

/-- **C24**: creating a recommender yields an untrained one with the given seed, and until it is fitted no sequence of calls changes
it, so its first `fit` is that of a recommender no other object had any influence on. -/
theorem C24_new_recommender (mk : Int → γ) (before between later : List (Op K α φ ε γ θ V)) (seed : Option Int) (results : Dict String V)
    (fam : Family) (L : Learner K γ θ V) (env : γ) (j i : Nat) (idx : Option (List Int)) (o : Obj) (s : RSt K α φ ε γ θ V)
    (hj : j = (run mk World.empty before).recs.length) (h0 : ∀ a b c d e, Op.fit a b c j d e ∉ between)
    (ho : (run mk World.empty (before ++ [.newRec seed results] ++ between)).objs[i]? = some o) :
    ∃ r, (run mk World.empty (before ++ [.newRec seed results] ++ between)).recs[j]? = some r ∧
      r.val (run mk World.empty (before ++ [.newRec seed results] ++ between)).heap = Rec.init seed results ∧
      (fit fam L mk env ((run mk World.empty (before ++ [.newRec seed results] ++ between)).heap, r) o idx = .ok s →
        (∀ a b c d, Op.setEvent i a b c d ∉ later) → (∀ a b c d e, Op.fit a b c j d e ∉ later) →
        ∃ r', fitValue fam L mk env (Rec.init seed results)
            (o.val (run mk World.empty (before ++ [.newRec seed results] ++ between)).heap) idx = .ok r' ∧
          ∀ (L' : Learner K γ θ V) (eev : ArrN α),
            (run mk World.empty (before ++ [.newRec seed results] ++ between ++ [.fit fam L env j i idx] ++ later)).predict L' j eev =
              some (Rec.predict L' r' eev)) := by
  have hmem : (run mk World.empty (before ++ [.newRec seed results] ++ between)).recs[j]? = some (newRec seed results) := by
    rw [run, List.foldl_append, List.foldl_append]
    refine keep_new mk h0 ?_
    rw [List.foldl_cons, List.foldl_nil, hj]
    exact List.getElem?_concat_length
  generalize before ++ [.newRec seed results] ++ between = all at ho hmem ⊢
  have hval : ∀ h : Arrays K α φ ε, (newRec seed results : RObj γ θ V).val h = Rec.init seed results := fun _ => rfl
  refine ⟨newRec seed results, hmem, hval _, ?_⟩
  intro hf h1 h2
  have h := C24_independent_partial mk all later fam L env j i idx (newRec seed results) o s hmem ho hf h1 h2
  rw [hval] at h
  exact h

/-- The hypotheses of `C24_independent_partial` and `C24_tables`. -/
example : ∃ r o s, (run (fun _ => ()) World.empty exBefore).recs[0]? = some r ∧
    (run (fun _ => ()) World.empty exBefore).objs[0]? = some o ∧
    fit .implicit exFirst (fun _ => ()) () ((run (fun _ => ()) World.empty exBefore).heap, r) o none = .ok s :=
  ⟨_, _, _, rfl, rfl, rfl⟩

/-- The hypotheses of `C24_new_recommender`: a second recommender, created before the container is loaded anew. -/
example : ∃ r o s, (run (fun _ => ()) World.empty exBefore).recs.length = 1 ∧
    (run (fun _ => ()) World.empty (exBefore ++ [.newRec (some 3) []] ++ [exReload])).recs[1]? = some r ∧
    (run (fun _ => ()) World.empty (exBefore ++ [.newRec (some 3) []] ++ [exReload])).objs[0]? = some o ∧
    fit .implicit exFirst (fun _ => ()) () ((run (fun _ => ()) World.empty (exBefore ++ [.newRec (some 3) []] ++ [exReload])).heap, r) o none =
      .ok s ∧ r.seed = some 3 :=
  ⟨_, _, _, rfl, rfl, rfl, rfl, rfl⟩

/-- **C24** is false for `set_event` on the training container: the recommender still holds its id
tables, which are overwritten in place, so it predicts 0 for the event (1, 1) before and 1 after. -/
theorem C24_refuted : ∃ (before : List (Op ℚ Nat Unit Unit Unit Unit Unit)) (op : Op ℚ Nat Unit Unit Unit Unit Unit)
    (r : RObj Unit Unit Unit) (o : Obj) (s : RSt ℚ Nat Unit Unit Unit Unit Unit),
    (run (fun _ => ()) World.empty before).recs[0]? = some r ∧
    (run (fun _ => ()) World.empty before).objs[0]? = some o ∧
    fit .implicit exFirst (fun _ => ()) () ((run (fun _ => ()) World.empty before).heap, r) o none = .ok s ∧
    op.target = some 0 ∧
    (run (fun _ => ()) World.empty (before ++ [.fit .implicit exFirst () 0 0 none])).predict exFirst 0
      (.vec [1, 1]) = some (.ok (.scalar 0)) ∧
    (run (fun _ => ()) World.empty (before ++ [.fit .implicit exFirst () 0 0 none, op])).predict exFirst 0
      (.vec [1, 1]) = some (.ok (.scalar 1)) :=
  ⟨exBefore, exReload, _, _, _, rfl, rfl, rfl, rfl, rfl, rfl⟩

end Kam.Heap
