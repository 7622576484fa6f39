/-
C158: what an interrupted `set_event` leaves in the container.
-/
import Verif.Data.Steps
import Verif.Data.Props2
import Verif.Score.Props
import Verif.Rec.Model

set_option linter.unusedSectionVars false

namespace Kam
namespace Load
open Spec
variable {K α φ ε γ θ V : Type} [LinearOrder α]

/-! ### Lemmas -/

lemma getElem?_three (T n : Nat) : ((List.range T).flatMap (fun t => [Stmt.count t, .externals t, .internals t]))[n]? =
    if n < 3 * T then some (if n % 3 = 0 then .count (n / 3) else if n % 3 = 1 then .externals (n / 3) else .internals (n / 3)) else none := by
  have hlen : ∀ T, ((List.range T).flatMap (fun t => [Stmt.count t, .externals t, .internals t])).length = 3 * T := by
    intro T
    induction T with
    | zero => rfl
    | succ T ih => rw [List.range_succ, List.flatMap_append, List.length_append, ih]; simp; omega
  induction T with
  | zero => simp
  | succ T ih =>
    rw [List.range_succ, List.flatMap_append]
    rcases lt_or_ge n (3 * T) with h | h
    · rw [List.getElem?_append_left (by rw [hlen]; exact h), ih, if_pos h, if_pos (show n < 3 * (T + 1) by omega)]
    · rw [List.getElem?_append_right (by rw [hlen]; exact h), hlen]
      simp only [List.flatMap_cons, List.flatMap_nil, List.append_nil]
      rcases lt_or_ge n (3 * (T + 1)) with h2 | h2
      · rw [if_pos h2]
        have : n = 3 * T ∨ n = 3 * T + 1 ∨ n = 3 * T + 2 := by omega
        rcases this with rfl | rfl | rfl
        · have h3 : 3 * T % 3 = 0 := by omega
          have h4 : 3 * T / 3 = T := by omega
          simp [h3]
        · have h3 : (3 * T + 1) % 3 = 1 := by omega
          have h4 : (3 * T + 1) / 3 = T := by omega
          simp [h3, h4]
        · have h3 : (3 * T + 2) % 3 = 2 := by omega
          have h4 : (3 * T + 2) / 3 = T := by omega
          simp [h3, h4]
      · rw [if_neg (by omega)]
        exact List.getElem?_eq_none (by simp; omega)

lemma length_three (T : Nat) : ((List.range T).flatMap (fun t => [Stmt.count t, .externals t, .internals t])).length = 3 * T := by
  induction T with
  | zero => rfl
  | succ T ih => rw [List.range_succ, List.flatMap_append, List.length_append, ih]; simp; omega

lemma length_program (d : EventData α φ ε) : (program d).length = 3 * d.nOtypes + 1 + d.sEvent + 2 := by
  unfold program
  rw [List.length_append, length_three]
  simp
  omega

/-- Where a container stands after `n` assignments. -/
structure At (event : Arr2 α) (ef : Option (List ε)) (junk : Nat → Nat → Int) (n : Nat) (d d' : EventData α φ ε) : Prop where
  nOtypes : d'.nOtypes = d.nOtypes
  feature : d'.feature = d.feature
  sEvent : d'.sEvent = d.sEvent
  eventOtypes : d'.eventOtypes = d.eventOtypes
  lenN : d'.nObjects.length = d.nOtypes
  lenE : d'.eid.length = d.nOtypes
  lenI : d'.iid.length = d.nOtypes
  nObjects : ∀ t < d.nOtypes, d'.nObjects[t]? = if 3 * t < n then some (ids d.eventOtypes event.rows t).length else d.nObjects[t]?
  eid : ∀ t < d.nOtypes, d'.eid[t]? = if 3 * t + 1 < n then some (some (ids d.eventOtypes event.rows t)) else d.eid[t]?
  iid : ∀ t < d.nOtypes, d'.iid[t]? =
    if 3 * t + 2 < n then some (some (Dict.ofPairs (ids d.eventOtypes event.rows t).zipIdx)) else d.iid[t]?
  events : d'.event = if 3 * d.nOtypes < n then some (event.rows.mapIdx (fun j r => (List.range d.sEvent).map (fun e =>
    if 3 * d.nOtypes + 1 + e < n then ((encodeRow d.eventOtypes event.rows r)[e]?).getD 0 else junk j e))) else d.event
  nEvents : d'.nEvents = if 3 * d.nOtypes + 1 + d.sEvent < n then event.rows.length else d.nEvents
  eventFeature : d'.eventFeature = if 3 * d.nOtypes + 1 + d.sEvent + 1 < n then ef else d.eventFeature

lemma at_zero {event : Arr2 α} {ef : Option (List ε)} {junk : Nat → Nat → Int} {d : EventData α φ ε} (hwf : d.WF) :
    At event ef junk 0 d d :=
  ⟨rfl, rfl, rfl, rfl, hwf.len_nObjects, hwf.len_eid, hwf.len_iid, fun _ _ => rfl, fun _ _ => rfl, fun _ _ => rfl, rfl, rfl, rfl⟩

lemma at_succ {event : Arr2 α} {ef : Option (List ε)} {junk : Nat → Nat → Int} {d d' : EventData α φ ε} (hwf : d.WF)
    (hreg : event.Regular) (hcols : event.ncols = d.sEvent) {n : Nat} (h : At event ef junk n d d') {s : Stmt}
    (hs : (program d)[n]? = some s) : ∃ d'', exec event ef junk d' s = .ok d'' ∧ At event ef junk (n + 1) d d'' := by
  have hlen : d'.eventOtypes.length = event.ncols := by rw [h.eventOtypes, hwf.len_otypes, hcols]
  have hsub : ∀ t, d'.otypeCols t event.ncols event.rows = .ok (objs d.eventOtypes event.rows t) := by
    intro t
    unfold EventData.otypeCols
    rw [if_neg (by simpa using hlen), h.eventOtypes]
    rfl
  have hgen : ∀ t, EventData.genId (objs d.eventOtypes event.rows t) =
      ((ids d.eventOtypes event.rows t).length, ids d.eventOtypes event.rows t, Dict.ofPairs (ids d.eventOtypes event.rows t).zipIdx) :=
    fun t => rfl
  unfold program at hs
  rcases lt_or_ge n (3 * d.nOtypes) with hn | hn
  · rw [List.getElem?_append_left (by rw [length_three]; exact hn), getElem?_three, if_pos hn, Option.some.injEq] at hs
    have hT : n / 3 < d.nOtypes := by omega
    have hev : (if 3 * d.nOtypes < n + 1 then some (event.rows.mapIdx (fun j r => (List.range d.sEvent).map (fun e =>
        if 3 * d.nOtypes + 1 + e < n + 1 then ((encodeRow d.eventOtypes event.rows r)[e]?).getD 0 else junk j e))) else d.event) = d'.event := by
      rw [h.events, if_neg (by omega), if_neg (by omega)]
    have hne : (if 3 * d.nOtypes + 1 + d.sEvent < n + 1 then event.rows.length else d.nEvents) = d'.nEvents := by
      rw [h.nEvents, if_neg (by omega), if_neg (by omega)]
    have hef : (if 3 * d.nOtypes + 1 + d.sEvent + 1 < n + 1 then ef else d.eventFeature) = d'.eventFeature := by
      rw [h.eventFeature, if_neg (by omega), if_neg (by omega)]
    have cong : ∀ {p q : Prop} [Decidable p] [Decidable q] {β : Type} {a b : β}, (p ↔ q) → (if p then a else b) = if q then a else b := by
      intro p q _ _ β a b hpq; simp only [hpq]
    split_ifs at hs with h0 h1
    · subst hs
      refine ⟨{ d' with nObjects := d'.nObjects.set (n / 3) (ids d.eventOtypes event.rows (n / 3)).length },
        by simp only [exec, hsub, hgen], ?_⟩
      refine ⟨h.nOtypes, h.feature, h.sEvent, h.eventOtypes, ?_, h.lenE, h.lenI, ?_, ?_, ?_, hev.symm, hne.symm, hef.symm⟩
      · simp [h.lenN]
      · intro t ht
        rw [List.getElem?_set]
        by_cases hnt : n / 3 = t
        · rw [if_pos hnt, if_pos (by rw [h.lenN, hnt]; exact ht), if_pos (by omega), hnt]
        · rw [if_neg hnt, h.nObjects t ht]
          exact cong (by omega)
      · intro t ht; rw [h.eid t ht]; exact cong (by omega)
      · intro t ht; rw [h.iid t ht]; exact cong (by omega)
    · subst hs
      refine ⟨{ d' with eid := d'.eid.set (n / 3) (some (ids d.eventOtypes event.rows (n / 3))) },
        by simp only [exec, hsub, hgen], ?_⟩
      refine ⟨h.nOtypes, h.feature, h.sEvent, h.eventOtypes, h.lenN, ?_, h.lenI, ?_, ?_, ?_, hev.symm, hne.symm, hef.symm⟩
      · simp [h.lenE]
      · intro t ht; rw [h.nObjects t ht]; exact cong (by omega)
      · intro t ht
        rw [List.getElem?_set]
        by_cases hnt : n / 3 = t
        · rw [if_pos hnt, if_pos (by rw [h.lenE, hnt]; exact ht), if_pos (by omega), hnt]
        · rw [if_neg hnt, h.eid t ht]
          exact cong (by omega)
      · intro t ht; rw [h.iid t ht]; exact cong (by omega)
    · subst hs
      refine ⟨{ d' with iid := d'.iid.set (n / 3) (some (Dict.ofPairs (ids d.eventOtypes event.rows (n / 3)).zipIdx)) },
        by simp only [exec, hsub, hgen], ?_⟩
      refine ⟨h.nOtypes, h.feature, h.sEvent, h.eventOtypes, h.lenN, h.lenE, ?_, ?_, ?_, ?_, hev.symm, hne.symm, hef.symm⟩
      · simp [h.lenI]
      · intro t ht; rw [h.nObjects t ht]; exact cong (by omega)
      · intro t ht; rw [h.eid t ht]; exact cong (by omega)
      · intro t ht
        rw [List.getElem?_set]
        by_cases hnt : n / 3 = t
        · rw [if_pos hnt, if_pos (by rw [h.lenI, hnt]; exact ht), if_pos (by omega), hnt]
        · rw [if_neg hnt, h.iid t ht]
          exact cong (by omega)
  · rw [List.getElem?_append_right (by rw [length_three]; exact hn), length_three] at hs
    have tN : ∀ t < d.nOtypes, d'.nObjects[t]? = if 3 * t < n + 1 then some (ids d.eventOtypes event.rows t).length else d.nObjects[t]? := by
      intro t ht; rw [h.nObjects t ht, if_pos (by omega), if_pos (by omega)]
    have tE : ∀ t < d.nOtypes, d'.eid[t]? = if 3 * t + 1 < n + 1 then some (some (ids d.eventOtypes event.rows t)) else d.eid[t]? := by
      intro t ht; rw [h.eid t ht, if_pos (by omega), if_pos (by omega)]
    have tI : ∀ t < d.nOtypes, d'.iid[t]? = if 3 * t + 2 < n + 1 then
        some (some (Dict.ofPairs (ids d.eventOtypes event.rows t).zipIdx)) else d.iid[t]? := by
      intro t ht; rw [h.iid t ht, if_pos (by omega), if_pos (by omega)]
    obtain ⟨m, rfl⟩ : ∃ m, n = 3 * d.nOtypes + m := ⟨n - 3 * d.nOtypes, by omega⟩
    rw [show 3 * d.nOtypes + m - 3 * d.nOtypes = m by omega] at hs
    cases m with
    | zero =>
      simp only [List.getElem?_cons_zero, Option.some.injEq] at hs
      subst hs
      refine ⟨_, rfl, h.nOtypes, h.feature, h.sEvent, h.eventOtypes, h.lenN, h.lenE, h.lenI, tN, tE, tI, ?_, ?_, ?_⟩
      · rw [if_pos (by omega)]
        simp only [Option.some.injEq, hcols]
        congr 1
        funext j r
        apply List.map_congr_left
        intro e he
        rw [if_neg (by omega)]
      · rw [h.nEvents, if_neg (by omega), if_neg (by omega)]
      · rw [h.eventFeature, if_neg (by omega), if_neg (by omega)]
    | succ e =>
      rw [List.getElem?_cons_succ] at hs
      have hev := h.events
      rw [if_pos (by omega)] at hev
      rcases lt_or_ge e d.sEvent with he | he
      · rw [List.getElem?_append_left (by simpa using he), List.getElem?_map, List.getElem?_range he, Option.map_some, Option.some.injEq] at hs
        subst hs
        have he' : e < d'.eventOtypes.length := by rw [hlen, hcols]; exact he
        obtain ⟨t, ht, htT⟩ : ∃ t, d'.eventOtypes[e]? = some t ∧ t < d.nOtypes := by
          refine ⟨_, List.getElem?_eq_getElem he', ?_⟩
          have := List.getElem_mem he'
          simp only [h.eventOtypes] at this ⊢
          exact hwf.otypes_lt _ this
        have hi := h.iid _ htT
        rw [if_pos (by omega)] at hi
        refine ⟨_, EventData.setEventColumn_ok event d' e _ (by intro r hr; rw [hreg r hr, hlen]) ht (by rw [hi, h.eventOtypes]), ?_⟩
        refine ⟨h.nOtypes, h.feature, h.sEvent, h.eventOtypes, h.lenN, h.lenE, h.lenI, tN, tE, tI, ?_, ?_, ?_⟩
        · rw [if_pos (by omega)]
          simp only [hev, Option.map_some, Option.some.injEq, h.eventOtypes]
          unfold setColumn
          apply List.ext_getElem?
          intro j
          rw [List.getElem?_zipWith, List.getElem?_mapIdx, List.getElem?_map, List.getElem?_mapIdx]
          cases hr : event.rows[j]? with
          | none => rfl
          | some r =>
            simp only [Option.map_some, Option.some.injEq]
            apply List.ext_getElem?
            intro c
            rw [List.getElem?_set]
            rcases lt_or_ge c d.sEvent with hc | hc
            · by_cases hce : e = c
              · subst hce
                rw [if_pos rfl, if_pos (by simpa using he), List.getElem?_map, List.getElem?_range he, Option.map_some, if_pos (by omega)]
              · rw [if_neg hce, List.getElem?_map, List.getElem?_map, List.getElem?_range hc, Option.map_some, Option.map_some]
                congr 1
                by_cases hlt : c < e
                · rw [if_pos (by omega), if_pos (by omega)]
                · rw [if_neg (by omega), if_neg (by omega)]
            · rw [if_neg (by omega), List.getElem?_eq_none (by simpa using hc), List.getElem?_eq_none (by simpa using hc)]
        · rw [show (_ : EventData α φ ε).nEvents = d'.nEvents from rfl, h.nEvents, if_neg (by omega), if_neg (by omega)]
        · rw [show (_ : EventData α φ ε).eventFeature = d'.eventFeature from rfl, h.eventFeature, if_neg (by omega), if_neg (by omega)]
      · rw [List.getElem?_append_right (by simpa using he)] at hs
        simp only [List.length_map, List.length_range] at hs
        have hev' : d'.event = if 3 * d.nOtypes < 3 * d.nOtypes + (e + 1) + 1 then some (event.rows.mapIdx (fun j r =>
            (List.range d.sEvent).map (fun c => if 3 * d.nOtypes + 1 + c < 3 * d.nOtypes + (e + 1) + 1 then
              ((encodeRow d.eventOtypes event.rows r)[c]?).getD 0 else junk j c))) else d.event := by
          rw [if_pos (by omega), hev]
          congr 2
          funext j r
          apply List.map_congr_left
          intro c hc
          rw [List.mem_range] at hc
          rw [if_pos (by omega), if_pos (by omega)]
        obtain ⟨q, rfl⟩ : ∃ q, e = d.sEvent + q := ⟨e - d.sEvent, by omega⟩
        rw [show d.sEvent + q - d.sEvent = q by omega] at hs
        match q, hs with
        | 0, hs =>
          simp only [List.getElem?_cons_zero, Option.some.injEq] at hs
          subst hs
          refine ⟨_, rfl, h.nOtypes, h.feature, h.sEvent, h.eventOtypes, h.lenN, h.lenE, h.lenI, tN, tE, tI, hev', ?_, ?_⟩
          · rw [if_pos (by omega)]
            simp [hev]
          · rw [show (_ : EventData α φ ε).eventFeature = d'.eventFeature from rfl, h.eventFeature, if_neg (by omega), if_neg (by omega)]
        | 1, hs =>
          simp only [List.getElem?_cons_succ, List.getElem?_cons_zero, Option.some.injEq] at hs
          subst hs
          refine ⟨_, rfl, h.nOtypes, h.feature, h.sEvent, h.eventOtypes, h.lenN, h.lenE, h.lenI, tN, tE, tI, hev', ?_, ?_⟩
          · rw [show (_ : EventData α φ ε).nEvents = d'.nEvents from rfl, h.nEvents, if_pos (by omega), if_pos (by omega)]
          · rw [if_pos (by omega)]
        | q + 2, hs => simp at hs

lemma run_at {event : Arr2 α} {ef : Option (List ε)} {junk : Nat → Nat → Int} {d : EventData α φ ε} (hwf : d.WF)
    (hreg : event.Regular) (hcols : event.ncols = d.sEvent) (n : Nat) (hn : n ≤ (program d).length) :
    ∃ d', run event ef junk n d = .ok d' ∧ At event ef junk n d d' := by
  induction n with
  | zero => exact ⟨d, rfl, at_zero hwf⟩
  | succ n ih =>
    obtain ⟨d', h1, h2⟩ := ih (by omega)
    have hs : (program d)[n]? = some (program d)[n] := List.getElem?_eq_getElem (by omega)
    obtain ⟨d'', h3, h4⟩ := at_succ hwf hreg hcols h2 hs
    refine ⟨d'', ?_, h4⟩
    unfold run at h1 ⊢
    rw [List.take_add_one, hs, Option.toList_some, List.foldlM_append, h1]
    simp only [bind, Except.bind, List.foldlM_cons, List.foldlM_nil, h3, pure, Except.pure]

lemma at_wf {event : Arr2 α} {ef : Option (List ε)} {junk : Nat → Nat → Int} {n : Nat} {d d' : EventData α φ ε} (hwf : d.WF)
    (h : At event ef junk n d d') : d'.WF :=
  ⟨by rw [h.nOtypes]; exact hwf.pos, by rw [h.lenN, h.nOtypes], by rw [h.lenE, h.nOtypes], by rw [h.lenI, h.nOtypes],
    by rw [h.feature, h.nOtypes]; exact hwf.len_feature, by rw [h.eventOtypes, h.sEvent]; exact hwf.len_otypes,
    by rw [h.eventOtypes, h.nOtypes]; exact hwf.otypes_lt⟩

lemma at_loaded {event : Arr2 α} {ef : Option (List ε)} {junk : Nat → Nat → Int} {n : Nat} {d d' : EventData α φ ε} (hwf : d.WF)
    (hreg : event.Regular) (hcols : event.ncols = d.sEvent) (hat : At event ef junk n d d') (hn : 3 * d.nOtypes + 1 + d.sEvent < n) :
    d' = { d.loaded event.rows ef with eventFeature := d'.eventFeature } := by
  have hN : d'.nObjects = (List.range d.nOtypes).map (fun t => (ids d.eventOtypes event.rows t).length) := by
    apply List.ext_getElem?
    intro t
    rcases lt_or_ge t d.nOtypes with ht | ht
    · rw [hat.nObjects t ht, if_pos (by omega)]; simp [ht]
    · rw [List.getElem?_eq_none (by rw [hat.lenN]; exact ht), List.getElem?_eq_none (by simpa using ht)]
  have hE : d'.eid = (List.range d.nOtypes).map (fun t => some (ids d.eventOtypes event.rows t)) := by
    apply List.ext_getElem?
    intro t
    rcases lt_or_ge t d.nOtypes with ht | ht
    · rw [hat.eid t ht, if_pos (by omega)]; simp [ht]
    · rw [List.getElem?_eq_none (by rw [hat.lenE]; exact ht), List.getElem?_eq_none (by simpa using ht)]
  have hI : d'.iid = (List.range d.nOtypes).map (fun t => some (Dict.ofPairs (ids d.eventOtypes event.rows t).zipIdx)) := by
    apply List.ext_getElem?
    intro t
    rcases lt_or_ge t d.nOtypes with ht | ht
    · rw [hat.iid t ht, if_pos (by omega)]; simp [ht]
    · rw [List.getElem?_eq_none (by rw [hat.lenI]; exact ht), List.getElem?_eq_none (by simpa using ht)]
  have hev : d'.event = some (event.rows.map (encodeRow d.eventOtypes event.rows)) := by
    rw [hat.events, if_pos (by omega), Option.some.injEq]
    apply List.ext_getElem?
    intro j
    rw [List.getElem?_mapIdx, List.getElem?_map]
    cases hr : event.rows[j]? with
    | none => rfl
    | some r =>
      rw [Option.map_some, Option.map_some, Option.some.injEq]
      have hl : (encodeRow d.eventOtypes event.rows r).length = d.sEvent := by
        rw [EventData.length_encodeRow _ _ _ (by rw [hreg r (List.mem_of_getElem? hr), hcols, hwf.len_otypes]), hwf.len_otypes]
      apply List.ext_getElem?
      intro e
      rcases lt_or_ge e d.sEvent with he | he
      · rw [List.getElem?_map, List.getElem?_range he, Option.map_some, if_pos (by omega),
          List.getElem?_eq_getElem (by rw [hl]; exact he)]
        rfl
      · rw [List.getElem?_eq_none (by simpa using he), List.getElem?_eq_none (by rw [hl]; exact he)]
  have hne := hat.nEvents
  rw [if_pos (by omega)] at hne
  obtain ⟨a1, a2, a3, a4, a5, a6, a7, a8, a9, a10⟩ := d'
  have e1 := hat.nOtypes
  have e2 := hat.feature
  have e3 := hat.sEvent
  have e4 := hat.eventOtypes
  simp only at hN hE hI hev hne e1 e2 e3 e4
  subst hN hE hI hev hne e1 e2 e3 e4
  rfl

/-! ### Specification -/

/-- The number of assignments of a call of `set_event` for events of `S` objects of `T` types. -/
def Spec.total (T S : Nat) : Nat := 3 * T + 1 + S + 2

/-- What can be left of a container after calls of `set_event` that were interrupted, each after some number of assignments. -/
inductive Spec.Interrupted : EventData α φ ε → EventData α φ ε → Prop
  | none (d : EventData α φ ε) : Interrupted d d
  | again {d d' d'' : EventData α φ ε} (event : Arr2 α) (ef : Option (List ε)) (junk : Nat → Nat → Int) (n : Nat) :
      Interrupted d d' → event.Regular → event.ncols = d'.sEvent → run event ef junk n d' = .ok d'' → Interrupted d d''

/-! ### C158 -/

/-- C158: after the first `n` assignments of a call that would end with `d1`, every part of the container is the old one or the one of `d1`,
and `n` says which; the entries of the columns of the event array that are not yet assigned are what was in memory. -/
theorem C158_points {d d1 : EventData α φ ε} (h : Reachable d) {event : Arr2 α} (hreg : event.Regular) {ef : Option (List ε)}
    (h1 : d.setEvent event ef = .ok d1) (junk : Nat → Nat → Int) (n : Nat) (hn : n ≤ Spec.total d.nOtypes d.sEvent) :
    ∃ d', run event ef junk n d = .ok d' ∧
      (d'.nOtypes = d.nOtypes ∧ d'.sEvent = d.sEvent ∧ d'.eventOtypes = d.eventOtypes ∧ d'.feature = d.feature) ∧
      (∀ t < d.nOtypes, d'.nObjects[t]? = if 3 * t < n then d1.nObjects[t]? else d.nObjects[t]?) ∧
      (∀ t < d.nOtypes, ∀ i, d'.toEid t i = if 3 * t + 1 < n then d1.toEid t i else d.toEid t i) ∧
      (∀ t < d.nOtypes, ∀ x, d'.toIid t x = if 3 * t + 2 < n then d1.toIid t x else d.toIid t x) ∧
      (n ≤ 3 * d.nOtypes → d'.event = d.event) ∧
      (3 * d.nOtypes < n → ∃ a a1, d'.event = some a ∧ d1.event = some a1 ∧ a.length = a1.length ∧
        ∀ (j e : Nat) (r1 : List Int) (x : Int), a1[j]? = some r1 → r1[e]? = some x →
          ∃ r, a[j]? = some r ∧ r.length = r1.length ∧ r[e]? = some (if 3 * d.nOtypes + 1 + e < n then x else junk j e)) ∧
      d'.nEvents = (if 3 * d.nOtypes + 1 + d.sEvent < n then d1.nEvents else d.nEvents) ∧
      d'.eventFeature = (if 3 * d.nOtypes + 1 + d.sEvent + 1 < n then d1.eventFeature else d.eventFeature) := by
  rw [EventData.setEvent_ok_iff _ h.wf _ hreg] at h1
  obtain ⟨hcols, rfl⟩ := h1
  obtain ⟨d', hrun, hat⟩ := run_at (ef := ef) (junk := junk) h.wf hreg hcols n (by rw [length_program]; exact hn)
  have npg : ∀ {β : Type} (a : List β) (t : Nat), npGet a (t : Int) = match a[t]? with | some x => .ok x | none => .error .indexError := by
    intro β a t
    rcases lt_or_ge t a.length with ht | ht
    · rw [npGet_ofNat a t ht, List.getElem?_eq_getElem ht]
    · rw [npGet_of_ge a t (by omega), List.getElem?_eq_none ht]
  refine ⟨d', hrun, ⟨hat.nOtypes, hat.sEvent, hat.eventOtypes, hat.feature⟩, ?_, ?_, ?_, ?_, ?_, hat.nEvents, hat.eventFeature⟩
  · intro t ht
    rw [hat.nObjects t ht]
    simp [EventData.loaded, ht]
  · intro t ht i
    unfold EventData.toEid
    rw [npg, npg, npg, hat.eid t ht]
    by_cases hc : 3 * t + 1 < n
    · rw [if_pos hc, if_pos hc]
      simp [EventData.loaded, ht]
    · rw [if_neg hc, if_neg hc]
  · intro t ht x
    unfold EventData.toIid
    rw [npg, npg, npg, hat.iid t ht]
    by_cases hc : 3 * t + 2 < n
    · rw [if_pos hc, if_pos hc]
      simp [EventData.loaded, ht]
    · rw [if_neg hc, if_neg hc]
  · intro hle
    rw [hat.events, if_neg (by omega)]
  · intro hlt
    have hev := hat.events
    rw [if_pos hlt] at hev
    refine ⟨_, _, hev, rfl, by simp, ?_⟩
    intro j e r1 x hj hx
    rw [List.getElem?_map, Option.map_eq_some_iff] at hj
    obtain ⟨row, hrow, rfl⟩ := hj
    have hl : (encodeRow d.eventOtypes event.rows row).length = d.sEvent := by
      rw [EventData.length_encodeRow _ _ _ (by rw [hreg row (List.mem_of_getElem? hrow), hcols, h.wf.len_otypes]), h.wf.len_otypes]
    have he : e < d.sEvent := by rw [← hl]; exact (List.getElem?_eq_some_iff.1 hx).1
    refine ⟨_, by rw [List.getElem?_mapIdx, hrow]; rfl, by simp [hl], ?_⟩
    rw [List.getElem?_map, List.getElem?_range he, Option.map_some, hx]
    rfl

/-- C158: all assignments together are the call. -/
theorem C158_completed {d : EventData α φ ε} (h : Reachable d) {event : Arr2 α} (hreg : event.Regular) (hcols : event.ncols = d.sEvent)
    (ef : Option (List ε)) (junk : Nat → Nat → Int) :
    run event ef junk (Spec.total d.nOtypes d.sEvent) d = d.setEvent event ef := by
  obtain ⟨d', hrun, hat⟩ := run_at (ef := ef) (junk := junk) h.wf hreg hcols (Spec.total d.nOtypes d.sEvent)
    (by rw [length_program]; exact le_refl (Spec.total d.nOtypes d.sEvent))
  have hf := hat.eventFeature
  rw [if_pos (by unfold Spec.total; omega)] at hf
  rw [hrun, EventData.setEvent_eq d h.wf event hreg hcols ef, at_loaded h.wf hreg hcols hat (by unfold Spec.total; omega), hf]
  rfl

/-- C158: in a container without events, an interrupted first call is noticed, as there still is no event array, or it leaves an array; once
the number of events is not zero, only the event features can be missing. -/
theorem C158_first {d d1 : EventData α φ ε} (h : Reachable d) (h0 : d.event = none) (h0n : d.nEvents = 0) {event : Arr2 α}
    (hreg : event.Regular) {ef : Option (List ε)} (h1 : d.setEvent event ef = .ok d1) (junk : Nat → Nat → Int) (n : Nat)
    (hn : n ≤ Spec.total d.nOtypes d.sEvent) :
    ∃ d', run event ef junk n d = .ok d' ∧
      (n ≤ 3 * d.nOtypes → (∀ cond, d'.filterEvent cond = .ok none) ∧
        ∀ (K γ θ V : Type) (mk : Int → γ) (env : γ) (r : Rec K α φ ε γ θ V) (idx : Option (List Int)),
          ∃ r', Rec.eventFit mk env r d' idx = .error (.attributeError, r')) ∧
      (3 * d.nOtypes < n → (∀ t < d.nOtypes, (∀ i, d'.toEid t i = d1.toEid t i) ∧ (∀ x, d'.toIid t x = d1.toIid t x) ∧
        d'.nObjects[t]? = d1.nObjects[t]?)) ∧
      (d'.nEvents ≠ 0 → d' = { d1 with eventFeature := d'.eventFeature } ∧
        (d'.eventFeature = d1.eventFeature ∨ d'.eventFeature = d.eventFeature)) := by
  obtain ⟨d2, hrun, -, hN, hE, hI, hev, -, hne, hf⟩ := C158_points h hreg h1 junk n hn
  rw [EventData.setEvent_ok_iff _ h.wf _ hreg] at h1
  obtain ⟨hcols, rfl⟩ := h1
  obtain ⟨d', hrun', hat⟩ := run_at (ef := ef) (junk := junk) h.wf hreg hcols n (by rw [length_program]; exact hn)
  rw [hrun] at hrun'
  cases hrun'
  refine ⟨d2, hrun, ?_, ?_, ?_⟩
  · intro hle
    have : d2.event = none := by rw [hev hle, h0]
    refine ⟨fun cond => by unfold EventData.filterEvent; rw [this], ?_⟩
    intro K γ θ V mk env r idx
    unfold Rec.eventFit
    simp only [this]
    exact ⟨_, rfl⟩
  · intro hlt t ht
    refine ⟨fun i => by rw [hE t ht, if_pos (by omega)], fun x => by rw [hI t ht, if_pos (by omega)], by rw [hN t ht, if_pos (by omega)]⟩
  · intro hz
    have hgt : 3 * d.nOtypes + 1 + d.sEvent < n := by
      by_contra hc
      rw [if_neg hc] at hne
      exact hz (by rw [hne, h0n])
    refine ⟨at_loaded h.wf hreg hcols hat hgt, ?_⟩
    rw [hf]
    split
    · exact Or.inl rfl
    · exact Or.inr rfl

/-- C158: whatever interrupted calls left, the next call that is not interrupted makes of the container what it would have made of the one
before them. -/
theorem C158_retry {d d' : EventData α φ ε} (h : Reachable d) (hi : Spec.Interrupted d d') {event : Arr2 α} (hreg : event.Regular)
    (hcols : event.ncols = d.sEvent) (ef : Option (List ε)) : d'.setEvent event ef = d.setEvent event ef := by
  have key : d'.WF ∧ d'.nOtypes = d.nOtypes ∧ d'.sEvent = d.sEvent ∧ d'.eventOtypes = d.eventOtypes ∧ d'.feature = d.feature := by
    induction hi with
    | none => exact ⟨h.wf, rfl, rfl, rfl, rfl⟩
    | @again d2 d3 ev f junk n _ hr hc hrun ih =>
      obtain ⟨w, e1, e2, e3, e4⟩ := ih
      have hrun' : run ev f junk (min n (program d2).length) d2 = .ok d3 := by
        rw [← hrun]
        unfold run
        congr 1
        rcases le_total n (program d2).length with hle | hle
        · rw [min_eq_left hle]
        · rw [min_eq_right hle, List.take_of_length_le hle, List.take_length]
      obtain ⟨d4, h4, hat⟩ := run_at (ef := f) (junk := junk) w hr hc (min n (program d2).length) (min_le_right _ _)
      rw [hrun'] at h4
      cases h4
      exact ⟨at_wf w hat, hat.nOtypes.trans e1, hat.sEvent.trans e2, hat.eventOtypes.trans e3, hat.feature.trans e4⟩
  obtain ⟨w, e1, e2, e3, e4⟩ := key
  rw [EventData.setEvent_eq d' w event hreg (by rw [hcols, e2]) ef, EventData.setEvent_eq d h.wf event hreg hcols ef]
  unfold EventData.loaded
  obtain ⟨a1, a2, a3, a4, a5, a6, a7, a8, a9, a10⟩ := d'
  simp only at e1 e2 e3 e4
  subst e1 e2 e3 e4
  rfl

/-- C158: after an interruption before the event array is replaced, an old event is read with the tables as they are: its entry of type `t` is
the old object if the table of `t` is not yet replaced, and the object of the same rank in the new events otherwise. -/
theorem C158_mixture {d d1 : EventData α φ ε} {rows : List (List α)} (h : Built d rows) {event : Arr2 α} (hreg : event.Regular)
    {ef : Option (List ε)} (h1 : d.setEvent event ef = .ok d1) (junk : Nat → Nat → Int) (n : Nat) (hn : n ≤ 3 * d.nOtypes) :
    ∃ d' iev, run event ef junk n d = .ok d' ∧ d'.event = some iev ∧ iev.length = rows.length ∧
      ∀ (j : Nat) (v : List Int) (r : List α), iev[j]? = some v → rows[j]? = some r →
        ∀ y, d'.toEidEvent (.vec v) = .ok (.vec y) ↔ y.length = r.length ∧
          ∀ (e t : Nat) (x : α), d.eventOtypes[e]? = some t → r[e]? = some x →
            (n ≤ 3 * t + 1 → y[e]? = some x) ∧
            (3 * t + 1 < n → ∃ z, y[e]? = some z ∧ IsObject d.eventOtypes event.rows t z ∧
              rank d.eventOtypes event.rows t z = rank d.eventOtypes rows t x) := by
  rw [EventData.setEvent_ok_iff _ h.reachable.wf _ hreg] at h1
  obtain ⟨hcols, rfl⟩ := h1
  have hd := h.holds
  obtain ⟨d', hrun, hat⟩ := run_at (ef := ef) (junk := junk) hd.wf hreg hcols n (by rw [length_program]; omega)
  have hev : d'.event = some (rows.map (encodeRow d.eventOtypes rows)) := by
    rw [hat.events, if_neg (by omega), hd.event]
  refine ⟨d', _, hrun, hev, by simp, ?_⟩
  intro j v r hv hr y
  rw [List.getElem?_map, hr, Option.map_some, Option.some.injEq] at hv
  subst hv
  have hrm : r ∈ rows := List.mem_of_getElem? hr
  have hlr := hd.reg r hrm
  have hlen : (encodeRow d.eventOtypes rows r).length = d'.sEvent := by
    rw [EventData.length_encodeRow _ _ _ hlr, hd.wf.len_otypes, hat.sEvent]
  have heid : ∀ t < d.nOtypes, d'.eid[t]? = some (some (ids d.eventOtypes (if 3 * t + 1 < n then event.rows else rows) t)) := by
    intro t ht
    rw [hat.eid t ht, hd.eid]
    split
    · rfl
    · simp [ht]
  have hdt : d'.eidDtype = .ok () := by
    unfold EventData.eidDtype
    rw [heid 0 hd.wf.pos]
  have hcell : ∀ (e t : Nat) (x z : α), d.eventOtypes[e]? = some t → r[e]? = some x →
      ((do let ids ← d'.eidOfColumn e; let i ← npGet (encodeRow d.eventOtypes rows r) e; npGet ids i) = Except.ok z ↔
        if 3 * t + 1 < n then IsObject d.eventOtypes event.rows t z ∧ rank d.eventOtypes event.rows t z = rank d.eventOtypes rows t x
        else z = x) := by
    intro e t x z het hx
    have ht := hd.wf.otypes_lt t (List.mem_of_getElem? het)
    have hcol : d'.eidOfColumn e = .ok (ids d.eventOtypes (if 3 * t + 1 < n then event.rows else rows) t) := by
      unfold EventData.eidOfColumn
      rw [hat.eventOtypes, het]
      simp only [heid t ht]
    have hobj : IsObject d.eventOtypes rows t x := ⟨r, hrm, e, het, hx⟩
    have henc := EventData.encodeRow_getElem? d.eventOtypes rows r e t x het hx
    have hel := (List.getElem?_eq_some_iff.1 henc).1
    have hge : npGet (encodeRow d.eventOtypes rows r) (e : Int) = .ok (((ids d.eventOtypes rows t).idxOf x : Nat) : Int) := by
      rw [npGet_ofNat _ _ hel, (List.getElem?_eq_some_iff.1 henc).2]
    simp only [hcol, hge, bind, Except.bind]
    rw [idxOf_ids _ _ _ _ hobj]
    split
    · constructor
      · intro hz
        rcases lt_or_ge (rank d.eventOtypes rows t x) (ids d.eventOtypes event.rows t).length with hlt | hge
        · rw [npGet_ofNat _ _ hlt, Except.ok.injEq] at hz
          have hzm : IsObject d.eventOtypes event.rows t z := by
            rw [← mem_ids, ← hz]; exact List.getElem_mem hlt
          refine ⟨hzm, ?_⟩
          rw [← idxOf_ids _ _ _ _ hzm, ← hz, (nodup_ids _ _ _).idxOf_getElem]
        · rw [npGet_of_ge _ _ (by omega)] at hz
          cases hz
      · rintro ⟨hzm, hrk⟩
        rw [← hrk, ← idxOf_ids _ _ _ _ hzm, npGet_ofNat _ _ (List.idxOf_lt_length_iff.2 ((mem_ids _ _ _ _).2 hzm))]
        simp
    · rw [← idxOf_ids _ _ _ _ hobj, npGet_ofNat _ _ (List.idxOf_lt_length_iff.2 ((mem_ids _ _ _ _).2 hobj))]
      simp [eq_comm]
  have hsd : d'.toEidEvent (.vec (encodeRow d.eventOtypes rows r)) = .ok (.vec y) ↔
      d'.toEidRow (encodeRow d.eventOtypes rows r) = .ok y := by
    unfold EventData.toEidEvent
    simp only [hlen, if_true, hdt, bind, Except.bind, pure, Except.pure]
    cases d'.toEidRow (encodeRow d.eventOtypes rows r) <;> simp
  rw [hsd]
  unfold EventData.toEidRow
  rw [mapM_ok_iff, List.forall₂_iff_get]
  have hS : d'.sEvent = r.length := by rw [hat.sEvent, hlr, hd.wf.len_otypes]
  constructor
  · rintro ⟨hl, hall⟩
    rw [List.length_range] at hl
    refine ⟨by omega, ?_⟩
    intro e t x het hx
    have he : e < r.length := (List.getElem?_eq_some_iff.1 hx).1
    have hc := hall e (by rw [List.length_range]; omega) (by omega)
    simp only [List.get_eq_getElem, List.getElem_range] at hc
    have hye : y[e]? = some (y[e]'(by omega)) := List.getElem?_eq_getElem (by omega)
    have hc' := (hcell e t x _ het hx).1 hc
    constructor
    · intro hle
      rw [if_neg (by omega)] at hc'
      rw [hye, hc']
    · intro hlt
      rw [if_pos hlt] at hc'
      exact ⟨_, hye, hc'⟩
  · rintro ⟨hl, hall⟩
    refine ⟨by rw [List.length_range]; omega, ?_⟩
    intro e he1 he2
    rw [List.length_range] at he1
    simp only [List.get_eq_getElem, List.getElem_range]
    have hx : r[e]? = some (r[e]'(by omega)) := List.getElem?_eq_getElem (by omega)
    have het : d.eventOtypes[e]? = some (d.eventOtypes[e]'(by omega)) := List.getElem?_eq_getElem (by omega)
    have hye : y[e]? = some (y[e]'(by omega)) := List.getElem?_eq_getElem (by omega)
    refine (hcell e _ _ _ het hx).2 ?_
    obtain ⟨g1, g2⟩ := hall e _ _ het hx
    split
    · rename_i hlt
      obtain ⟨z, hz, hz2⟩ := g2 hlt
      rw [hye, Option.some.injEq] at hz
      rw [hz]
      exact hz2
    · rename_i hlt
      have := g1 (by omega)
      rw [hye, Option.some.injEq] at this
      exact this

section
variable {K : Type} [Field K] [LinearOrder K] [IsStrictOrderedRing K] [FloorRing K]

/-- C158: the events of a container with scores are loaded first, then the scores, their domain and the number of levels are assigned in
this order: each is the old one or the one of the completed call. -/
theorem C158_score {d d1 : ScoreData K α φ ε} (h : Reachable d.toEventData) {event : Arr2 α} (hreg : event.Regular) {score : List K}
    {dom : Option (List K)} {ef : Option (List ε)} (h1 : d.setEvent event score dom ef = .ok d1) (junk : Nat → Nat → Int) (n : Nat)
    (hn : n ≤ Spec.total d.nOtypes d.sEvent + 3) :
    ∃ d', runScore event score dom ef junk n d = .ok d' ∧
      run event ef junk (min n (Spec.total d.nOtypes d.sEvent)) d.toEventData = .ok d'.toEventData ∧
      d'.score = (if Spec.total d.nOtypes d.sEvent < n then d1.score else d.score) ∧
      d'.scoreDomain = (if Spec.total d.nOtypes d.sEvent + 1 < n then d1.scoreDomain else d.scoreDomain) ∧
      d'.nScoreLevels = (if Spec.total d.nOtypes d.sEvent + 2 < n then d1.nScoreLevels else d.nScoreLevels) ∧
      (n = Spec.total d.nOtypes d.sEvent + 3 → d' = d1) := by
  unfold ScoreData.setEvent at h1
  cases hb : d.toEventData.setEvent event ef with
  | error e => rw [hb] at h1; cases h1
  | ok b =>
    rw [hb] at h1
    simp only at h1
    cases hdm : ScoreData.resolveDomain score dom with
    | error e => rw [hdm] at h1; cases h1
    | ok dm =>
      rw [hdm] at h1
      simp only at h1
      cases hlv : ScoreData.levelsOfDomain dm with
      | error e => rw [hlv] at h1; cases h1
      | ok lv =>
        rw [hlv] at h1
        simp only [Except.ok.injEq] at h1
        subst h1
        have hcols := ((EventData.setEvent_ok_iff _ h.wf _ hreg _ _).1 hb).1
        have hlen : (program d.toEventData).length = Spec.total d.nOtypes d.sEvent := length_program _
        have hall := C158_completed h hreg hcols ef junk
        rw [hb] at hall
        have htake : ∀ m, Spec.total d.nOtypes d.sEvent ≤ m → run event ef junk m d.toEventData = .ok b := by
          intro m hm
          rw [← hall]
          unfold run
          rw [List.take_of_length_le (by omega), List.take_of_length_le (by omega)]
        unfold runScore
        rw [hlen]
        rcases le_or_gt n (Spec.total d.nOtypes d.sEvent) with hle | hgt
        · obtain ⟨b', hb', -⟩ := C158_points h hreg hb junk n hle
          rw [min_eq_left hle, hb', Nat.sub_eq_zero_of_le hle]
          refine ⟨{ d with toEventData := b' }, rfl, rfl, ?_, ?_, ?_, ?_⟩
          · rw [if_neg (by omega)]
          · rw [if_neg (by omega)]
          · rw [if_neg (by omega)]
          · intro; omega
        · rw [min_eq_right hgt.le, htake n hgt.le, htake _ (le_refl _)]
          obtain hk | hk | hk : n = Spec.total d.nOtypes d.sEvent + 1 ∨ n = Spec.total d.nOtypes d.sEvent + 2 ∨
              n = Spec.total d.nOtypes d.sEvent + 3 := by omega
          · rw [hk, Nat.add_sub_cancel_left]
            exact ⟨{ d with toEventData := b, score := some score }, rfl, rfl, by simp, by simp, by simp, by intro; omega⟩
          · rw [hk, Nat.add_sub_cancel_left]
            refine ⟨{ d with toEventData := b, score := some score, scoreDomain := some dm }, ?_, rfl, by simp, by simp, by simp,
              by intro; omega⟩
            simp only [List.take, List.foldlM, execScore, bind, Except.bind, hdm, pure, Except.pure]
          · rw [hk, Nat.add_sub_cancel_left]
            refine ⟨{ d with toEventData := b, score := some score, scoreDomain := some dm, nScoreLevels := some lv }, ?_, rfl, by simp,
              by simp, by simp, by intro; rfl⟩
            simp only [List.take, List.foldlM, execScore, bind, Except.bind, hdm, hlv, pure, Except.pure]

/-- C158: the same for scores: whatever interrupted calls left in the events and the score attributes, a completed call gives the container it
would have given without them. -/
theorem C158_retry_score {d d' d1 : ScoreData K α φ ε} (h : Reachable d.toEventData) (hi : Spec.Interrupted d.toEventData d'.toEventData)
    {event : Arr2 α} (hreg : event.Regular) {score : List K} {dom : Option (List K)} {ef : Option (List ε)}
    (h1 : d.setEvent event score dom ef = .ok d1) : d'.setEvent event score dom ef = .ok d1 := by
  have hcols : event.ncols = d.sEvent := by
    cases hb : d.toEventData.setEvent event ef with
    | error e => unfold ScoreData.setEvent at h1; rw [hb] at h1; cases h1
    | ok b => exact ((EventData.setEvent_ok_iff _ h.wf _ hreg _ _).1 hb).1
  unfold ScoreData.setEvent at h1 ⊢
  rw [C158_retry h hi hreg hcols ef]
  cases hb : d.toEventData.setEvent event ef with
  | error e => rw [hb] at h1; cases h1
  | ok b =>
    rw [hb] at h1
    simp only at h1 ⊢
    cases hdm : ScoreData.resolveDomain score dom with
    | error e => rw [hdm] at h1; cases h1
    | ok dm =>
      rw [hdm] at h1
      simp only at h1 ⊢
      cases hlv : ScoreData.levelsOfDomain dm with
      | error e => rw [hlv] at h1; cases h1
      | ok lv =>
        rw [hlv] at h1
        exact h1

end

/-! ### Concrete cases -/

/-- The container of the examples loaded with other events. -/
def exOther : Arr2 Nat := ⟨3, [[8, 31, 6], [6, 11, 8], [1, 31, 4]]⟩

theorem exOther_regular : exOther.Regular := by
  intro r hr
  simp only [exOther, List.mem_cons, List.not_mem_nil, or_false] at hr
  rcases hr with rfl | rfl | rfl <;> rfl

theorem exOther_loads : exLoaded.setEvent exOther none = .ok (exLoaded.loaded exOther.rows none) :=
  EventData.setEvent_eq _ exLoaded_built.reachable.wf _ exOther_regular rfl _

example : Reachable exLoaded ∧ exOther.Regular ∧
    (∃ d1, exLoaded.setEvent exOther none = .ok d1) ∧ Spec.total exLoaded.nOtypes exLoaded.sEvent = 15 ∧
    (∃ d', run exOther none (fun _ _ => 77) 11 exLoaded = .ok d' ∧ d'.event = some [[3, 77, 77], [2, 77, 77], [0, 77, 77]] ∧
      d'.nEvents = 4) :=
  ⟨exLoaded_built.reachable, exOther_regular, ⟨_, exOther_loads⟩, by decide,
    ⟨_, rfl, by decide, by decide⟩⟩

example : Reachable exLayout ∧ exLayout.event = none ∧ exLayout.nEvents = 0 ∧ exEvent.Regular ∧
    exLayout.setEvent exEvent (some [100, 101, 102, 103]) = .ok exLoaded :=
  ⟨exLayout_reachable, rfl, rfl, exEvent_regular, exLoaded_eq⟩

example : Built exLoaded exEvent.rows ∧ exOther.Regular ∧ (∃ d1, exLoaded.setEvent exOther none = .ok d1) ∧ 6 ≤ 3 * exLoaded.nOtypes ∧
    exLoaded.toEidEvent (.vec [2, 2, 1]) = .ok (.vec [7, 30, 5]) ∧
    ∃ d', run exOther none (fun _ _ => 0) 6 exLoaded = .ok d' ∧ d'.toEidEvent (.vec [2, 2, 1]) = .ok (.vec [6, 30, 4]) :=
  ⟨exLoaded_built, exOther_regular, ⟨_, exOther_loads⟩, by decide, by rfl, ⟨_, rfl, by rfl⟩⟩

/-- Two interrupted calls, the second on what the first left, and the call repeated. -/
example : ∃ d2, Spec.Interrupted exLoaded d2 ∧ d2.event ≠ exLoaded.event ∧
    d2.setEvent exOther none = .ok (exLoaded.loaded exOther.rows none) := by
  have hi : Spec.Interrupted exLoaded _ := .again exEvent none (fun _ _ => 5) 12
    (.again exOther none (fun _ _ => 77) 11 (.none exLoaded) exOther_regular rfl rfl) exEvent_regular rfl rfl
  exact ⟨_, hi, by decide, (C158_retry exLoaded_built.reachable hi exOther_regular rfl none).trans exOther_loads⟩

example : Reachable exScoreLayout.toEventData ∧ exEvent3.Regular ∧
    exScoreLayout.setEvent exEvent3 [1, 3, 5] (some [1, 5, 1]) none = .ok exRegular := by
  refine ⟨exLayout_reachable, exEvent3_regular, ?_⟩
  unfold ScoreData.setEvent
  have h1 : exScoreLayout.toEventData.setEvent exEvent3 none = .ok (exLayout.loaded exEvent3.rows none) :=
    EventData.setEvent_eq _ exLayout_reachable.wf _ exEvent3_regular rfl _
  simp only [h1, ScoreData.resolveDomain, levels_151]
  rfl

/-- C158: the expectation "an interrupted call leaves the old events or the new ones, or reading the events fails" is false of the code. -/
theorem C158_refuted :
    ¬ ∀ (d d1 d' : EventData Nat Nat Nat) (rows : List (List Nat)) (event : Arr2 Nat) (junk : Nat → Nat → Int) (n : Nat)
      (iev : List (List Int)) (read : Arr2 Nat),
      Built d rows → event.Regular → d.setEvent event none = .ok d1 → run event none junk n d = .ok d' → d'.event = some iev →
        d'.toEidEvent (.mat ⟨d.sEvent, iev⟩) = .ok (.mat read) → read.rows = rows ∨ read.rows = event.rows := by
  intro hall
  have := hall exLoaded _ _ _ exOther (fun _ _ => 0) 6 _ ⟨3, [[6, 30, 4], [4, 10, 4], [8, 30, 6], [4, 20, 1]]⟩
    exLoaded_built exOther_regular exOther_loads rfl rfl rfl
  revert this
  decide

end Load
end Kam
