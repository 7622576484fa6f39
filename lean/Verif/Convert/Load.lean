import Verif.Convert.Lemmas2
import Verif.Data.Props2

set_option linter.unusedSectionVars false

namespace Kam.Convert
open Convert.Spec Kam.Spec

variable {K φ ε : Type} [Field K] [LinearOrder K] [IsStrictOrderedRing K] [FloorRing K]

lemma ok_bind {ε' α β : Type} (x : α) (f : α → Except ε' β) : (Except.ok x >>= f) = f x := rfl

lemma sEvents_init {n : Int} {arg : OtypesArg} {d : EventData Int φ ε} (h : EventData.init n arg = .ok d) :
    sEvents n arg = d.sEvent := by
  unfold EventData.init at h
  split at h
  · cases h
  · simp only at h
    split at h
    · cases h; rfl
    · split at h
      · cases h
      · split at h
        · cases h
        · split at h
          · cases h
          · split at h
            · cases h
            · cases h; rfl

lemma recs_many {cs : List (List (Cell K))} (h : cs.length ≠ 1) : recs cs = .many cs := by
  match cs, h with
  | [], _ => rfl
  | [r], h => simp at h
  | _ :: _ :: _, _ => rfl

lemma take_cells (ids : List Int) (l : List (Cell K)) :
    ((ids.map Cell.int ++ l).take ids.length).map Cell.toInt = ids := by
  rw [List.take_append_of_le_length (by simp), List.take_of_length_le (by simp), List.map_map]
  conv_rhs => rw [← List.map_id ids]
  rfl

lemma reads_built {α : Type} [LinearOrder α] {d : EventData α φ ε} {rows : List (List α)} (h : Built d rows) : Reads d rows := by
  have hd := h.holds
  refine ⟨_, hd.event, ?_⟩
  have hrows : (rows.map (encodeRow d.eventOtypes rows)).mapM d.toEidRow = .ok rows := by
    rw [mapM_map]
    have := mapM_ok (g := id) rows (f := fun x => d.toEidRow (encodeRow d.eventOtypes rows x))
      (fun r hr => hd.toEidRow_encode hr)
    simpa using this
  unfold EventData.toEidEvent
  simp only [if_true, hd.eidDtype_eq, hrows, ok_bind, pure, Except.pure]

/-- What `load_event_with_score` does with the records of a file that stand for the entries `es`. -/
lemma loadScore_set (nan : K) {text : Str} {n : Int} {arg : OtypesArg} {dom : Option (List K)} {ft : Option (List FType)}
    {d0 : ScoreData K Int φ (List (Cell K))} {es : List (Entry K)}
    (hinit : ScoreData.init n arg = .ok d0) (hs : d0.sEvent ≠ 1)
    (hx : genfromtxt nan (List.replicate d0.sEvent .int ++ .float :: ft.getD []) text = .ok (recs (es.map Entry.cells)))
    (hids : ∀ e ∈ es, e.ids.length = d0.sEvent) (hne : es.length ≠ 1) :
    Reachable d0.toEventData ∧ (⟨d0.sEvent, es.map Entry.ids⟩ : Arr2 Int).Regular ∧
    (loadEventWithScore nan text n arg dom ft : Res (ScoreData K Int φ (List (Cell K)))) =
      dropState (d0.setEvent ⟨d0.sEvent, es.map Entry.ids⟩ (es.map Entry.score) dom (ft.map (fun _ => es.map Entry.feats))) := by
  have hr : Reachable d0.toEventData ∧ EventData.init n arg = .ok d0.toEventData := by
    unfold ScoreData.init at hinit
    cases hb : (EventData.init n arg : Res (EventData Int φ (List (Cell K)))) with
    | error e => rw [hb] at hinit; cases hinit
    | ok b => rw [hb] at hinit; cases hinit; exact ⟨.init hb, rfl⟩
  have hse := sEvents_init hr.2
  rw [recs_many (by simpa using hne)] at hx
  have hev : eventColumn d0.sEvent (.many (es.map Entry.cells)) = .ok ⟨d0.sEvent, es.map Entry.ids⟩ := by
    unfold eventColumn
    simp only [if_neg hs]
    congr 2
    rw [List.map_map]
    apply List.map_congr_left
    intro e he
    show ((e.ids.map Cell.int ++ _).take d0.sEvent).map Cell.toInt = e.ids
    rw [← hids e he]
    exact take_cells _ _
  have hsc : numColumn d0.sEvent (.many (es.map Entry.cells)) = es.map Entry.score := by
    unfold numColumn
    simp only []
    clear hx hne hev
    induction es with
    | nil => rfl
    | cons e es ih =>
      have h1 : (e.cells)[d0.sEvent]? = some (.num e.score) := by
        unfold Entry.cells
        rw [← hids e (by simp)]
        simp
      rw [List.map_cons, List.filterMap_cons, h1]
      simp only [Option.map_some, Cell.toNum, List.map_cons]
      rw [ih (fun e' he' => hids e' (List.mem_cons_of_mem _ he'))]
  have hft : columnsFrom (d0.sEvent + 1) (.many (es.map Entry.cells)) = es.map Entry.feats := by
    unfold columnsFrom
    simp only []
    rw [List.map_map]
    apply List.map_congr_left
    intro e he
    show (e.ids.map Cell.int ++ Cell.num e.score :: e.feats).drop (d0.sEvent + 1) = e.feats
    rw [← hids e he]
    rw [List.drop_append]
    simp
  have hreg : (⟨d0.sEvent, es.map Entry.ids⟩ : Arr2 Int).Regular := by
    intro r hr
    obtain ⟨e, he, rfl⟩ := List.mem_map.1 hr
    exact hids e he
  refine ⟨hr.1, hreg, ?_⟩
  unfold loadEventWithScore
  simp only [hse, hx, hinit, ok_bind, hev, hsc, hft]

lemma loadScore_ok (nan : K) {text : Str} {n : Int} {arg : OtypesArg} {dom : Option (List K)} {ft : Option (List FType)}
    {d0 : ScoreData K Int φ (List (Cell K))} {es : List (Entry K)} {dm : List K} {lv : Int}
    (hinit : ScoreData.init n arg = .ok d0) (hs : d0.sEvent ≠ 1)
    (hx : genfromtxt nan (List.replicate d0.sEvent .int ++ .float :: ft.getD []) text = .ok (recs (es.map Entry.cells)))
    (hids : ∀ e ∈ es, e.ids.length = d0.sEvent) (hne : es.length ≠ 1)
    (hd : ScoreData.resolveDomain (es.map Entry.score) dom = .ok dm) (hlv : ScoreData.levelsOfDomain dm = .ok lv) :
    ∃ d : ScoreData K Int φ (List (Cell K)), loadEventWithScore nan text n arg dom ft = .ok d ∧
      ScoreBuilt d (es.map Entry.ids) (es.map Entry.score) ∧ d.scoreDomain = some dm ∧
      d.eventFeature = ft.map (fun _ => es.map Entry.feats) ∧ d.sEvent = d0.sEvent ∧ d.eventOtypes = d0.eventOtypes ∧
      d.nOtypes = d0.nOtypes ∧ d.feature = d0.feature := by
  obtain ⟨hr, hreg, hload⟩ := loadScore_set nan (dom := dom) hinit hs hx hids hne
  have hset := EventData.setEvent_eq d0.toEventData hr.wf ⟨d0.sEvent, es.map Entry.ids⟩ hreg rfl (ft.map (fun _ => es.map Entry.feats))
  have hset' : d0.setEvent ⟨d0.sEvent, es.map Entry.ids⟩ (es.map Entry.score) dom (ft.map (fun _ => es.map Entry.feats)) =
      .ok { d0 with toEventData := d0.toEventData.loaded (es.map Entry.ids) (ft.map (fun _ => es.map Entry.feats))
                    score := some (es.map Entry.score), scoreDomain := some dm, nScoreLevels := some lv } := by
    unfold ScoreData.setEvent
    rw [hset]
    simp only [hd, hlv]
  refine ⟨_, ?_, .load hr hreg ?_ (by simp) hset', rfl, rfl, rfl, rfl, rfl, rfl⟩
  · rw [hload, hset']
    rfl
  · intro f hf
    cases ft with
    | none => cases hf
    | some _ => cases hf; simp

lemma load_ok (nan : K) {text : Str} {n : Int} {arg : OtypesArg} {ft : Option (List FType)}
    {d0 : EventData Int φ (List (Cell K))} {es : List (Entry K)}
    (hinit : EventData.init n arg = .ok d0) (hs : d0.sEvent ≠ 1)
    (hx : genfromtxt nan (List.replicate d0.sEvent .int ++ ft.getD []) text = .ok (recs (es.map Entry.bare)))
    (hids : ∀ e ∈ es, e.ids.length = d0.sEvent) (hne : es.length ≠ 1) :
    ∃ d : EventData Int φ (List (Cell K)), loadEvent nan text n arg ft = .ok d ∧
      Built d (es.map Entry.ids) ∧
      d.eventFeature = ft.map (fun _ => es.map Entry.feats) ∧ d.sEvent = d0.sEvent ∧ d.eventOtypes = d0.eventOtypes ∧
      d.nOtypes = d0.nOtypes := by
  have hr : Reachable d0 := .init hinit
  have hse := sEvents_init hinit
  rw [recs_many (by simpa using hne)] at hx
  have hev : eventColumn d0.sEvent (.many (es.map Entry.bare)) = .ok ⟨d0.sEvent, es.map Entry.ids⟩ := by
    unfold eventColumn
    simp only [if_neg hs]
    congr 2
    rw [List.map_map]
    apply List.map_congr_left
    intro e he
    show ((e.ids.map Cell.int ++ _).take d0.sEvent).map Cell.toInt = e.ids
    rw [← hids e he]
    exact take_cells _ _
  have hft : columnsFrom d0.sEvent (.many (es.map Entry.bare)) = es.map Entry.feats := by
    unfold columnsFrom
    simp only []
    rw [List.map_map]
    apply List.map_congr_left
    intro e he
    show (e.ids.map Cell.int ++ e.feats).drop d0.sEvent = e.feats
    rw [← hids e he]
    rw [List.drop_append]
    simp
  have hreg : (⟨d0.sEvent, es.map Entry.ids⟩ : Arr2 Int).Regular := by
    intro r hr
    obtain ⟨e, he, rfl⟩ := List.mem_map.1 hr
    exact hids e he
  have hset := EventData.setEvent_eq d0 hr.wf ⟨d0.sEvent, es.map Entry.ids⟩ hreg rfl (ft.map (fun _ => es.map Entry.feats))
  refine ⟨_, ?_, .load hr hreg ?_ hset, rfl, rfl, rfl, rfl⟩
  · unfold loadEvent
    simp only [hse, hx, hinit, ok_bind, hev, hft, hset]
    rfl
  · intro f hf
    cases ft with
    | none => cases hf
    | some _ => cases hf; simp

end Kam.Convert
