/-
Renaming objects: the experiment scripts.
-/
import Verif.Relabel.Rec
import Verif.Exp.Model

set_option linter.unusedSectionVars false

namespace Kam.Relabel
open Scripts Exp

variable {K α β φ ε F V T γ M N : Type} [Field K] [LinearOrder K] [IsStrictOrderedRing K] [FloorRing K]
  [LinearOrder α] [LinearOrder β]

/-- The surroundings of a run in which the ids are written by `id`. -/
def env (id : β → V) (e : Env K α ε F V T γ) : Env K β ε F V T γ where
  gen := e.gen
  ofSeed := e.ofSeed
  entropy := e.entropy
  id := id
  num := e.num
  nat := e.nat
  int := e.int
  bool := e.bool
  file := e.file
  names := e.names
  field := e.field
  iso := e.iso
  elapsed := e.elapsed
  elapsedU := e.elapsedU

/-- A file with renamed users (first column) and items (second column). -/
def table (f : Nat → α → β) (t : Table K α ε) : Table K β ε where
  event := ⟨t.event.ncols, rows f [0, 1] t.event.rows⟩
  score := t.score
  feature := t.feature

/-- Containers of users and items, as the scripts load them. -/
def Pair (d : ScoreData K α φ ε) : Prop := d.eventOtypes = [0, 1] ∧ d.sEvent = 2

/-- Recommenders that do not look at ids beyond their order. -/
structure Agree (f : Nat → α → β) (R : Recommender K α φ ε V γ M) (R' : Recommender K β φ ε V γ N) (g : M → N) : Prop where
  fit : ∀ s d, Pair d → R'.fit s (scoreData f d) = (R.fit s d).map (fun p => (g p.1, p.2))
  predict : ∀ s d p evs, Pair d → R.fit s d = .ok p → R'.predict (g p.1) (rows f [0, 1] evs) = R.predict p.1 evs

theorem fitWith_relabel {f : Nat → α → β} {R : Recommender K α φ ε V γ M} {R' : Recommender K β φ ε V γ N} {g : M → N}
    (ha : Agree f R R' g) (id : β → V) (e : Env K α ε F V T γ) (seed : Option Int) (s : γ) (d : ScoreData K α φ ε)
    (hd : Pair d) :
    fitWith (env id e) R' seed s (scoreData f d) = (fitWith e R seed s d).map (fun p => (g p.1, p.2)) := by
  cases seed with
  | none => exact ha.fit s d hd
  | some n =>
    simp only [fitWith]
    have h : (env id e).ofSeed n = e.ofSeed n := rfl
    rw [h]
    cases e.ofSeed n with
    | error x => rfl
    | ok s' =>
      simp only [bind, Except.bind, ha.fit s' d hd]
      cases R.fit s' d <;> rfl

theorem fitWith_ok {R : Recommender K α φ ε V γ M} {e : Env K α ε F V T γ} {seed : Option Int} {s : γ}
    {d : ScoreData K α φ ε} {p : M × Dict String (J V) × γ} (h : fitWith e R seed s d = .ok p) :
    ∃ s' q, R.fit s' d = .ok q ∧ q.1 = p.1 := by
  cases seed with
  | none => exact ⟨s, p, h, rfl⟩
  | some n =>
    simp only [fitWith] at h
    cases h1 : e.ofSeed n with
    | error x => rw [h1] at h; cases h
    | ok s' =>
      rw [h1] at h
      simp only [bind, Except.bind] at h
      cases h2 : R.fit s' d with
      | error x => rw [h2] at h; cases h
      | ok q => rw [h2] at h; cases h; exact ⟨s', q, h2, rfl⟩

theorem training_relabel {f : Nat → α → β} {R : Recommender K α φ ε V γ M} {R' : Recommender K β φ ε V γ N} {g : M → N}
    (ha : Agree f R R' g) (id : β → V) (e : Env K α ε F V T γ) (clock : Nat → T) (seed : Option Int) (s : Sys γ)
    (d : ScoreData K α φ ε) (hd : Pair d) :
    training (env id e) clock R' seed s (scoreData f d) = (training e clock R seed s d).map (fun p => (g p.1, p.2)) := by
  simp only [training, fitWith_relabel ha id e seed s.glob d hd]
  cases fitWith e R seed s.glob d <;> rfl

theorem training_ok {R : Recommender K α φ ε V γ M} {e : Env K α ε F V T γ} {clock : Nat → T} {seed : Option Int} {s : Sys γ}
    {d : ScoreData K α φ ε} {p : M × Dict String (J V) × Sys γ} (h : training e clock R seed s d = .ok p) :
    ∃ s' q, R.fit s' d = .ok q ∧ q.1 = p.1 := by
  simp only [training] at h
  cases h1 : fitWith e R seed s.glob d with
  | error x => rw [h1] at h; cases h
  | ok q =>
    rw [h1] at h
    cases h
    exact fitWith_ok h1

theorem testing_relabel {f : Nat → α → β} {R : Recommender K α φ ε V γ M} {R' : Recommender K β φ ε V γ N} {m : M} {m' : N}
    (h : ∀ evs, R'.predict m' (rows f [0, 1] evs) = R.predict m evs) (id : β → V) (e : Env K α ε F V T γ) (clock : Nat → T)
    (s : Sys γ) (evs : List (List α)) :
    testing (env id e) clock R' m' s (rows f [0, 1] evs) = testing e clock R m s evs := by
  simp only [testing, h]
  have hl : (rows f [0, 1] evs).length = evs.length := by simp [rows]
  rw [hl]
  rfl

theorem externalEvents_relabel (f : Nat → α → β) (d : ScoreData K α φ ε) (hd : Pair d) :
    externalEvents (scoreData f d) = (externalEvents d).map (rows f [0, 1]) := by
  simp only [externalEvents]
  have h1 : (scoreData f d).event = d.event := rfl
  have h2 : (scoreData f d).sEvent = d.sEvent := rfl
  have h3 : (scoreData f d).toEventData = data f d.toEventData := rfl
  rw [h1, h2, h3]
  cases d.event with
  | none => rfl
  | some rs =>
    simp only [toEidEvent_data, hd.1]
    cases d.toEventData.toEidEvent (.mat ⟨d.sEvent, rs⟩) with
    | error x => rfl
    | ok y => cases y <;> rfl

theorem objectsAt_relabel (f : Nat → α → β) (d : ScoreData K α φ ε) (e : Nat) :
    objectsAt (scoreData f d) e = objectsAt d e := rfl

theorem encEvents_relabel {f : Nat → α → β} (id : β → V) (e : Env K α ε F V T γ) (hid : ∀ t x, id (f t x) = e.id x)
    (rs : List (List α)) : encEvents (env id e) (rows f [0, 1] rs) = encEvents e rs := by
  simp only [encEvents, rows, List.map_map, Function.comp_def]
  refine congrArg J.list (List.map_congr_left (fun r _ => congrArg J.list ?_))
  apply List.ext_getElem?
  intro i
  simp only [List.getElem?_map, getElem?_row]
  cases r[i]? with
  | none => rfl
  | some x =>
    simp only [Option.map_some]
    have : (env id e).id = id := rfl
    rw [this, hid]

/-- Loaders that read renamed files. -/
def LoadAgree (f : Nat → α → β) (load : Loader K α φ ε F) (load' : Loader K β φ ε F) : Prop :=
  ∀ file dom, load' file dom = (load file dom).map (fun p => (scoreData f p.1, p.2)) ∧
    ∀ p, load file dom = .ok p → Pair p.1

theorem report_render (id : β → V) (e : Env K α ε F V T γ) (r : Report F K V) :
    r.render (env id e) = r.render e := rfl

theorem holdoutTest_relabel {f : Nat → α → β} {R : Recommender K α φ ε V γ M}
    {R' : Recommender K β φ ε V γ N} {g : M → N} (ha : Agree f R R' g) {load : Loader K α φ ε F} {load' : Loader K β φ ε F}
    (hl : LoadAgree f load load') (id : β → V) (e : Env K α ε F V T γ) (hid : ∀ t x, id (f t x) = e.id x)
    (clock : Nat → T) (st : Setting K F V) (s : Sys γ) :
    holdoutTest (env id e) clock R' load' st s = holdoutTest e clock R load st s := by
  simp only [holdoutTest]
  rw [(hl st.trainFile st.scoreDomain).1]
  cases h1 : load st.trainFile st.scoreDomain with
  | error x => rfl
  | ok p =>
    have hp := (hl st.trainFile st.scoreDomain).2 p h1
    simp only [Except.map, bind, Except.bind]
    cases st.testFile with
    | none => rfl
    | some tf =>
      simp only
      rw [(hl tf p.2).1]
      cases h2 : load tf p.2 with
      | error x => rfl
      | ok q =>
        have hq := (hl tf p.2).2 q h2
        simp only [Except.map, externalEvents_relabel f q.1 hq, objectsAt_relabel]
        cases externalEvents q.1 with
        | error x => rfl
        | ok evs =>
          simp only
          cases objectsAt p.1 0 with
          | error x => rfl
          | ok a =>
            cases objectsAt p.1 1 with
            | error x => rfl
            | ok b =>
              cases objectsAt q.1 0 with
              | error x => rfl
              | ok c =>
                cases objectsAt q.1 1 with
                | error x => rfl
                | ok d =>
                  simp only [training_relabel ha id e clock st.seed s p.1 hp]
                  cases h3 : training e clock R st.seed s p.1 with
                  | error x => rfl
                  | ok m =>
                    simp only [Except.map]
                    obtain ⟨s', m', hm, hm'⟩ := training_ok h3
                    rw [testing_relabel (m := m.1) (m' := g m.1) (fun evs => by
                      rw [← hm']; exact ha.predict s' p.1 m' evs hp hm) id e clock]
                    cases testing e clock R m.1 m.2.2 evs with
                    | error x => rfl
                    | ok y =>
                      simp only [encEvents_relabel id e hid]
                      rfl

theorem cvFold_relabel {f : Nat → α → β} (hf : ∀ t, StrictMono (f t)) {R : Recommender K α φ ε V γ M}
    {R' : Recommender K β φ ε V γ N} {g : M → N} (ha : Agree f R R' g) (id : β → V) (e : Env K α ε F V T γ)
    (hid : ∀ t x, id (f t x) = e.id x) (clock : Nat → T) (seed : Option Int) (d : ScoreData K α φ ε) (hd : Pair d)
    (evs : List (List α)) (fold : Nat) (trainI testI : List Nat) (s : Sys γ) (acc : Acc V)
    (hfil : ∀ d', d.filterEvent (.index (trainI.map Int.ofNat)) = .ok (some d') → Pair d') :
    cvFold (env id e) clock R' seed (scoreData f d) (rows f [0, 1] evs) fold trainI testI s acc =
      cvFold e clock R seed d evs fold trainI testI s acc := by
  simp only [cvFold, filterEvent_scoreData hf]
  cases h1 : d.filterEvent (.index (trainI.map Int.ofNat)) with
  | error x => rfl
  | ok o =>
    cases o with
    | none => rfl
    | some d' =>
      have hd' := hfil d' h1
      simp only [Except.map, Option.map_some, bind, Except.bind, training_relabel ha id e clock seed s d' hd']
      cases h3 : training e clock R seed s d' with
      | error x => rfl
      | ok m =>
        obtain ⟨s', m', hm, hm'⟩ := training_ok h3
        simp only
        have hg : gather (rows f [0, 1] evs) testI = rows f [0, 1] (gather evs testI) := gather_map _ _ _
        rw [hg, testing_relabel (m := m.1) (m' := g m.1) (fun evs => by
          rw [← hm']; exact ha.predict s' d' m' evs hd' hm) id e clock]
        cases testing e clock R m.1 m.2.2 (gather evs testI) with
        | error x => rfl
        | ok y =>
          simp only [encEvents_relabel id e hid]
          rfl

theorem column_rows_users (f : Nat → α → β) (rs : List (List α)) :
    column (rows f [0, 1] rs) 0 = (column rs 0).map (List.map (f 0)) := column_rows f [0, 1] rs 0

theorem cvLoop_relabel {f : Nat → α → β} (hf : ∀ t, StrictMono (f t)) {R : Recommender K α φ ε V γ M}
    {R' : Recommender K β φ ε V γ N} {g : M → N} (ha : Agree f R R' g) (id : β → V) (e : Env K α ε F V T γ)
    (hid : ∀ t x, id (f t x) = e.id x) (clock : Nat → T) (seed : Option Int) (cfg : Split.ShuffleConfig K)
    (d : ScoreData K α φ ε) (hd : Pair d) (evs : List (List α)) (users : List α) (target : Option Int)
    (hfil : ∀ ix d', d.filterEvent (.index ix) = .ok (some d') → Pair d')
    (n fold : Nat) (s : Sys γ) (acc : Acc V) :
    cvLoop (env id e) clock R' seed cfg (scoreData f d) (rows f [0, 1] evs) (users.map (f 0)) target n fold s acc =
      cvLoop e clock R seed cfg d evs users target n fold s acc := by
  induction n generalizing fold s acc with
  | zero => rfl
  | succ n ih =>
    simp only [cvLoop, npUnique_strictMono (hf 0), List.length_map, shuffleMask_map (hf 0)]
    have hgen : (env id e).gen = e.gen := rfl
    rw [hgen]
    cases Split.shuffleMask e.gen cfg users s.glob (List.replicate users.length false) (npUnique users) with
    | error x => rfl
    | ok p =>
      simp only [bind, Except.bind]
      split
      · exact ih _ _ _
      · rw [cvFold_relabel hf ha id e hid clock seed d hd evs fold _ _ _ acc (fun d' h => hfil _ d' h)]
        split
        · rfl
        · exact ih _ _ _

/-- `filter_event` keeps the types of the columns. -/
theorem filterOtype_cols {self d d' : EventData α φ ε} {t : Nat} (h : EventData.filterOtype self d t = .ok d') :
    d'.eventOtypes = d.eventOtypes ∧ d'.sEvent = d.sEvent := by
  simp only [EventData.filterOtype, bind, Except.bind] at h
  repeat' split at h
  all_goals first | cases h; done | skip
  all_goals first | (cases h; exact ⟨rfl, rfl⟩)

theorem filterEvent_cols {d d' : EventData α φ ε} {cond : Sel} (h : d.filterEvent cond = .ok (some d')) :
    d'.eventOtypes = d.eventOtypes ∧ d'.sEvent = d.sEvent := by
  have key : ∀ (l : List Nat) (s s' : EventData α φ ε), l.foldlM (EventData.filterOtype d) s = .ok s' →
      s'.eventOtypes = s.eventOtypes ∧ s'.sEvent = s.sEvent := by
    intro l
    induction l with
    | nil => intro s s' h; cases h; exact ⟨rfl, rfl⟩
    | cons i l ih =>
      intro s s' h
      simp only [List.foldlM_cons] at h
      cases hi : EventData.filterOtype d s i with
      | error x => rw [hi] at h; cases h
      | ok s1 =>
        rw [hi] at h
        have h1 := ih s1 s' h
        have h2 := filterOtype_cols hi
        exact ⟨h1.1.trans h2.1, h1.2.trans h2.2⟩
  simp only [EventData.filterEvent] at h
  cases he : d.event with
  | none => rw [he] at h; cases h
  | some rs =>
    rw [he] at h
    simp only [bind, Except.bind] at h
    cases hc : cond.apply rs with
    | error x => rw [hc] at h; cases h
    | ok rs' =>
      rw [hc] at h
      simp only at h
      cases hk : (List.range d.nOtypes).foldlM (EventData.filterOtype d) { d with event := some rs', nEvents := rs'.length } with
      | error x => rw [hk] at h; cases h
      | ok d1 =>
        rw [hk] at h
        have h1 := key _ _ _ hk
        simp only at h
        split at h
        · cases h
        · cases h
          exact h1

theorem pair_filter {d d' : ScoreData K α φ ε} {cond : Sel} (hd : Pair d) (h : d.filterEvent cond = .ok (some d')) : Pair d' := by
  simp only [ScoreData.filterEvent] at h
  cases hb : d.toEventData.filterEvent cond with
  | error x => rw [hb] at h; cases h
  | ok o =>
    rw [hb] at h
    cases o with
    | none => cases h
    | some b =>
      have h1 := filterEvent_cols hb
      have h2 : Pair { d with toEventData := b } := ⟨h1.1.trans hd.1, h1.2.trans hd.2⟩
      simp only [bind, Except.bind] at h
      cases hs : d.score with
      | none => rw [hs] at h; cases h; exact h2
      | some xs =>
        rw [hs] at h
        simp only at h
        cases hc : cond.apply xs with
        | error x => rw [hc] at h; cases h
        | ok ys => rw [hc] at h; cases h; exact h2

theorem cvTest_relabel {f : Nat → α → β} (hf : ∀ t, StrictMono (f t)) {R : Recommender K α φ ε V γ M}
    {R' : Recommender K β φ ε V γ N} {g : M → N} (ha : Agree f R R' g) {load : Loader K α φ ε F} {load' : Loader K β φ ε F}
    (hl : LoadAgree f load load') (id : β → V) (e : Env K α ε F V T γ) (hid : ∀ t x, id (f t x) = e.id x)
    (clock : Nat → T) (st : Setting K F V) (target : Option Int) (s : Sys γ) :
    cvTest (env id e) clock R' load' st target s = cvTest e clock R load st target s := by
  simp only [cvTest]
  rw [(hl st.trainFile st.scoreDomain).1]
  cases h1 : load st.trainFile st.scoreDomain with
  | error x => rfl
  | ok p =>
    have hp := (hl st.trainFile st.scoreDomain).2 p h1
    simp only [Except.map, bind, Except.bind, externalEvents_relabel f p.1 hp, objectsAt_relabel]
    cases externalEvents p.1 with
    | error x => rfl
    | ok evs =>
      simp only
      cases objectsAt p.1 0 with
      | error x => rfl
      | ok a =>
        cases objectsAt p.1 1 with
        | error x => rfl
        | ok b =>
          simp only
          cases Split.validateInit (cvConfig (K := K) st.nFolds).testSize (cvConfig (K := K) st.nFolds).trainSize with
          | error x => rfl
          | ok u =>
            simp only [column_rows_users]
            cases column evs 0 with
            | error x => rfl
            | ok users =>
              simp only [Except.map]
              rw [cvLoop_relabel hf ha id e hid clock st.seed _ p.1 hp evs users target
                (fun ix d' h => pair_filter hp h)]
              rfl

/-- `do_task` with renamed files. -/
theorem doTask_relabel {f : Nat → α → β} (hf : ∀ t, StrictMono (f t)) {R : Recommender K α φ ε V γ M}
    {R' : Recommender K β φ ε V γ N} {g : M → N} (ha : Agree f R R' g) {load : Loader K α φ ε F} {load' : Loader K β φ ε F}
    (hl : LoadAgree f load load') (id : β → V) (e : Env K α ε F V T γ) (hid : ∀ t x, id (f t x) = e.id x)
    (clock : Nat → T) (st : Setting K F V) (target : Option Int) :
    doTask (env id e) clock R' load' st target = doTask e clock R load st target := by
  simp only [doTask, cvTest_relabel hf ha hl id e hid, holdoutTest_relabel ha hl id e hid]
  rfl

/-! ### Loading -/

theorem loadEventWithScore_relabel {f : Nat → α → β} (hf : ∀ t, StrictMono (f t)) (t : Table K α ε) (dom : Option (List K)) :
    (loadEventWithScore (table f t) dom : Res (ScoreData K β φ ε)) =
      (loadEventWithScore t dom : Res (ScoreData K α φ ε)).map (scoreData f) := by
  simp only [loadEventWithScore]
  rw [init_scoreData f]
  cases h : (ScoreData.init 2 .none : Res (ScoreData K α φ ε)) with
  | error x => rfl
  | ok d =>
    have ho : d.eventOtypes = [0, 1] := by
      have h' : (.ok d : Res (ScoreData K α φ ε)) = ScoreData.init 2 .none := h.symm
      simp only [ScoreData.init, EventData.init] at h'
      cases h'
      rfl
    simp only [Except.map, bind, Except.bind]
    have h2 := setEvent_scoreData hf d t.event t.score dom t.feature
    rw [ho] at h2
    show dropState ((scoreData f d).setEvent ⟨t.event.ncols, rows f [0, 1] t.event.rows⟩ t.score dom t.feature) = _
    rw [h2]
    cases d.setEvent t.event t.score dom t.feature <;> rfl

theorem setEvent_cols {d d' : EventData α φ ε} {ev : Arr2 α} {ef : Option (List ε)} (h : d.setEvent ev ef = .ok d') :
    d'.eventOtypes = d.eventOtypes ∧ d'.sEvent = d.sEvent := by
  have k1 : ∀ (l : List Nat) (s s' : EventData α φ ε), l.foldlM (EventData.setEventObjects ev) s = .ok s' →
      s'.eventOtypes = s.eventOtypes ∧ s'.sEvent = s.sEvent := by
    intro l
    induction l with
    | nil => intro s s' h; cases h; exact ⟨rfl, rfl⟩
    | cons i l ih =>
      intro s s' h
      simp only [List.foldlM_cons] at h
      cases hi : EventData.setEventObjects ev s i with
      | error x => rw [hi] at h; cases h
      | ok s1 =>
        rw [hi] at h
        have h1 := ih s1 s' h
        simp only [EventData.setEventObjects] at hi
        split at hi
        · cases hi
        · cases hi; exact h1
  have k2 : ∀ (l : List Nat) (s s' : EventData α φ ε), l.foldlM (EventData.setEventColumn ev) s = .ok s' →
      s'.eventOtypes = s.eventOtypes ∧ s'.sEvent = s.sEvent := by
    intro l
    induction l with
    | nil => intro s s' h; cases h; exact ⟨rfl, rfl⟩
    | cons i l ih =>
      intro s s' h
      simp only [List.foldlM_cons] at h
      cases hi : EventData.setEventColumn ev s i with
      | error x => rw [hi] at h; cases h
      | ok s1 =>
        rw [hi] at h
        have h1 := ih s1 s' h
        simp only [EventData.setEventColumn] at hi
        repeat' split at hi
        all_goals first | (cases hi; exact h1) | cases hi
  simp only [EventData.setEvent, bind, Except.bind] at h
  cases h1 : (List.range d.nOtypes).foldlM (EventData.setEventObjects ev) d with
  | error x => rw [h1] at h; cases h
  | ok d1 =>
    rw [h1] at h
    simp only at h
    split at h
    · cases h
    · rename_i d2 h2
      cases h
      have e1 := k1 _ _ _ h1
      have e2 := k2 _ _ _ h2
      exact ⟨e2.1.trans e1.1, e2.2.trans e1.2⟩

theorem loadEventWithScore_pair {t : Table K α ε} {dom : Option (List K)} {d : ScoreData K α φ ε}
    (h : loadEventWithScore t dom = .ok d) : Pair d := by
  simp only [loadEventWithScore, ScoreData.init, EventData.init] at h
  simp only [bind, Except.bind, pure, Except.pure, dropState] at h
  split at h
  · cases h
  · rename_i d0 h0
    cases h0
    split at h
    · rename_i x hx
      cases h
      simp only [ScoreData.setEvent] at hx
      split at hx
      · cases hx
      · rename_i b hb
        have hc := setEvent_cols hb
        split at hx
        · cases hx
        · split at hx
          · cases hx
          · cases hx
            exact ⟨hc.1, hc.2⟩
    · cases h

/-- The files after renaming. -/
def files (f : Nat → α → β) (read : F → Res (Table K α ε)) : F → Res (Table K β ε) := fun x => (read x).map (table f)

theorem loadDataSP_relabel {f : Nat → α → β} (hf : ∀ t, StrictMono (f t)) (read : F → Res (Table K α ε)) :
    LoadAgree f (loadDataSP read : Loader K α φ ε F) (loadDataSP (files f read)) := by
  intro file dom
  constructor
  · simp only [loadDataSP, files]
    cases read file with
    | error x => rfl
    | ok t =>
      simp only [Except.map, bind, Except.bind]
      rw [loadEventWithScore_relabel hf]
      cases (loadEventWithScore t (if dom.all (fun x => decide (x = 0)) then none else some dom) : Res (ScoreData K α φ ε)) with
      | error x => rfl
      | ok d =>
        simp only [Except.map]
        have : (scoreData f d).scoreDomain = d.scoreDomain := rfl
        rw [this]
        cases d.scoreDomain <;> rfl
  · intro p h
    simp only [loadDataSP, bind, Except.bind] at h
    split at h
    · cases h
    · split at h
      · cases h
      · rename_i d hd
        split at h
        · cases h
          exact loadEventWithScore_pair hd
        · cases h

theorem loadDataIF_relabel {f : Nat → α → β} (hf : ∀ t, StrictMono (f t)) (read : F → Res (Table K α ε)) :
    LoadAgree f (loadDataIF read : Loader K α φ ε F) (loadDataIF (files f read)) := by
  intro file dom
  constructor
  · simp only [loadDataIF, files]
    cases read file with
    | error x => rfl
    | ok t =>
      simp only [Except.map, bind, Except.bind]
      rw [loadEventWithScore_relabel hf]
      cases (loadEventWithScore t (if dom.all (fun x => decide (x = 0)) then none else some dom) : Res (ScoreData K α φ ε)) with
      | error x => rfl
      | ok d =>
        simp only [Except.map]
        have : (scoreData f d).scoreDomain = d.scoreDomain := rfl
        rw [this]
        cases d.scoreDomain with
        | none => rfl
        | some dm =>
          simp only [binarizeScore_scoreData]
          cases d.binarizeScore none <;> rfl
  · intro p h
    simp only [loadDataIF, bind, Except.bind] at h
    split at h
    · cases h
    · split at h
      · cases h
      · rename_i d hd
        have hp := loadEventWithScore_pair hd
        split at h
        · split at h
          · cases h
          · rename_i d' hb
            cases h
            simp only [ScoreData.binarizeScore, bind, Except.bind] at hb
            split at hb
            · cases hb
            · split at hb
              · cases hb
              · cases hb
                exact hp
        · cases h

end Kam.Relabel
