/-
C159: calls of `set_event` of one container in several threads.
-/
import Verif.Data.Threads
import Verif.Data.Interrupt

set_option linter.unusedSectionVars false

namespace Kam
namespace Threads
open Load Spec
variable {α φ ε : Type} [LinearOrder α]

/-! ### Lemmas -/

lemma program_cases {d : EventData α φ ε} {n : Nat} {s : Stmt} (hs : (program d)[n]? = some s) :
    (∃ t < d.nOtypes, n = 3 * t ∧ s = .count t) ∨ (∃ t < d.nOtypes, n = 3 * t + 1 ∧ s = .externals t) ∨
    (∃ t < d.nOtypes, n = 3 * t + 2 ∧ s = .internals t) ∨ (n = 3 * d.nOtypes ∧ s = .array) ∨
    (∃ e < d.sEvent, n = 3 * d.nOtypes + 1 + e ∧ s = .column e) ∨ (n = 3 * d.nOtypes + 1 + d.sEvent ∧ s = .number) ∨
    (n = 3 * d.nOtypes + 1 + d.sEvent + 1 ∧ s = .feature) := by
  unfold program at hs
  rcases lt_or_ge n (3 * d.nOtypes) with hn | hn
  · rw [List.getElem?_append_left (by rw [length_three]; exact hn), getElem?_three, if_pos hn, Option.some.injEq] at hs
    split_ifs at hs with h0 h1
    · exact .inl ⟨n / 3, by omega, by omega, hs.symm⟩
    · exact .inr (.inl ⟨n / 3, by omega, by omega, hs.symm⟩)
    · exact .inr (.inr (.inl ⟨n / 3, by omega, by omega, hs.symm⟩))
  · rw [List.getElem?_append_right (by rw [length_three]; exact hn), length_three] at hs
    obtain ⟨m, rfl⟩ : ∃ m, n = 3 * d.nOtypes + m := ⟨n - 3 * d.nOtypes, by omega⟩
    rw [show 3 * d.nOtypes + m - 3 * d.nOtypes = m by omega] at hs
    cases m with
    | zero =>
      simp only [List.getElem?_cons_zero, Option.some.injEq] at hs
      exact .inr (.inr (.inr (.inl ⟨rfl, hs.symm⟩)))
    | succ e =>
      rw [List.getElem?_cons_succ] at hs
      rcases lt_or_ge e d.sEvent with he | he
      · rw [List.getElem?_append_left (by simpa using he), List.getElem?_map, List.getElem?_range he, Option.map_some, Option.some.injEq] at hs
        exact .inr (.inr (.inr (.inr (.inl ⟨e, he, by omega, hs.symm⟩))))
      · rw [List.getElem?_append_right (by simpa using he)] at hs
        simp only [List.length_map, List.length_range] at hs
        obtain ⟨q, rfl⟩ : ∃ q, e = d.sEvent + q := ⟨e - d.sEvent, by omega⟩
        rw [show d.sEvent + q - d.sEvent = q by omega] at hs
        match q, hs with
        | 0, hs =>
          simp only [List.getElem?_cons_zero, Option.some.injEq] at hs
          exact .inr (.inr (.inr (.inr (.inr (.inl ⟨by omega, hs.symm⟩)))))
        | 1, hs =>
          simp only [List.getElem?_cons_succ, List.getElem?_cons_zero, Option.some.injEq] at hs
          exact .inr (.inr (.inr (.inr (.inr (.inr ⟨by omega, hs.symm⟩)))))
        | q + 2, hs => simp at hs

lemma program_congr {d d' : EventData α φ ε} (h1 : d'.nOtypes = d.nOtypes) (h2 : d'.sEvent = d.sEvent) : program d' = program d := by
  unfold program
  rw [h1, h2]

lemma lt_update {f : Nat → Nat} {i n k c : Nat} (hn : f i = n) (h : c < Function.update f i (n + 1) k) : c < f k ∨ (k = i ∧ c = n) := by
  by_cases hk : k = i
  · subst hk
    rw [Function.update_self] at h
    omega
  · rw [Function.update_of_ne hk] at h
    exact .inl h

lemma update_le {f : Nat → Nat} {i n k : Nat} (hn : f i = n) : f k ≤ Function.update f i (n + 1) k := by
  by_cases hk : k = i
  · subst hk; rw [Function.update_self]; omega
  · rw [Function.update_of_ne hk]

/-- What holds at any moment while threads load the same events. -/
structure Joint (event : Arr2 α) (ef : Option (List ε)) (d : EventData α φ ε) (s : Shared α φ ε) : Prop where
  nOtypes : s.data.nOtypes = d.nOtypes
  feature : s.data.feature = d.feature
  sEvent : s.data.sEvent = d.sEvent
  eventOtypes : s.data.eventOtypes = d.eventOtypes
  lenN : s.data.nObjects.length = d.nOtypes
  lenE : s.data.eid.length = d.nOtypes
  lenI : s.data.iid.length = d.nOtypes
  nObjects : ∀ i, ∀ t < d.nOtypes, 3 * t < s.done i → s.data.nObjects[t]? = some (ids d.eventOtypes event.rows t).length
  nObjects' : ∀ t < d.nOtypes, s.data.nObjects[t]? = some (ids d.eventOtypes event.rows t).length ∨ s.data.nObjects[t]? = d.nObjects[t]?
  eid : ∀ i, ∀ t < d.nOtypes, 3 * t + 1 < s.done i → s.data.eid[t]? = some (some (ids d.eventOtypes event.rows t))
  eid' : ∀ t < d.nOtypes, s.data.eid[t]? = some (some (ids d.eventOtypes event.rows t)) ∨ s.data.eid[t]? = d.eid[t]?
  iid : ∀ i, ∀ t < d.nOtypes, 3 * t + 2 < s.done i → s.data.iid[t]? = some (some (Dict.ofPairs (ids d.eventOtypes event.rows t).zipIdx))
  iid' : ∀ t < d.nOtypes, s.data.iid[t]? = some (some (Dict.ofPairs (ids d.eventOtypes event.rows t).zipIdx)) ∨ s.data.iid[t]? = d.iid[t]?
  events : ((∀ i, s.done i ≤ 3 * d.nOtypes) ∧ s.data.event = d.event) ∨ ∃ X arr, 3 * d.nOtypes < s.done X ∧ s.data.event = some arr ∧
    arr.length = event.rows.length ∧ (∀ row ∈ arr, row.length = d.sEvent) ∧
    ∀ e < d.sEvent, 3 * d.nOtypes + 1 + e < s.done X → ∀ (j : Nat) (r : List α) (row : List Int), event.rows[j]? = some r → arr[j]? = some row →
      row[e]? = some (((encodeRow d.eventOtypes event.rows r)[e]?).getD 0)
  nEvents : ∀ i, 3 * d.nOtypes + 1 + d.sEvent < s.done i → s.data.nEvents = event.rows.length
  nEvents' : s.data.nEvents = event.rows.length ∨ s.data.nEvents = d.nEvents
  eventFeature : ∀ i, 3 * d.nOtypes + 1 + d.sEvent + 1 < s.done i → s.data.eventFeature = ef
  eventFeature' : s.data.eventFeature = ef ∨ s.data.eventFeature = d.eventFeature
  raised : ∀ i, s.raised i = none
  bound : ∀ i, s.done i ≤ Load.Spec.total d.nOtypes d.sEvent

lemma joint_start {event : Arr2 α} {ef : Option (List ε)} {d : EventData α φ ε} (hwf : d.WF) :
    Joint event ef d ⟨d, fun _ => 0, fun _ => none⟩ where
  nOtypes := rfl
  feature := rfl
  sEvent := rfl
  eventOtypes := rfl
  lenN := hwf.len_nObjects
  lenE := hwf.len_eid
  lenI := hwf.len_iid
  nObjects := fun _ _ _ h => absurd h (by simp)
  nObjects' := fun _ _ => .inr rfl
  eid := fun _ _ _ h => absurd h (by simp)
  eid' := fun _ _ => .inr rfl
  iid := fun _ _ _ h => absurd h (by simp)
  iid' := fun _ _ => .inr rfl
  events := .inl ⟨fun _ => by simp, rfl⟩
  nEvents := fun _ h => absurd h (by simp)
  nEvents' := .inr rfl
  eventFeature := fun _ h => absurd h (by simp)
  eventFeature' := .inr rfl
  raised := fun _ => rfl
  bound := fun _ => by simp

lemma joint_step {event : Arr2 α} {ef : Option (List ε)} {junk : Nat → Nat → Nat → Int} {d : EventData α φ ε} (hwf : d.WF)
    (hreg : event.Regular) (hcols : event.ncols = d.sEvent) {s : Shared α φ ε} (h : Joint event ef d s) (i : Nat) :
    Joint event ef d (step (fun j => ⟨event, ef, junk j⟩) s i) := by
  have hpr : program s.data = program d := program_congr h.nOtypes h.sEvent
  unfold step
  rw [h.raised i, hpr]
  cases hst : (program d)[s.done i]? with
  | none => exact h
  | some stmt =>
    have hnb : s.done i + 1 ≤ Load.Spec.total d.nOtypes d.sEvent := by
      have := (List.getElem?_eq_some_iff.1 hst).1
      rw [length_program] at this
      unfold Load.Spec.total
      omega
    have hbound : ∀ k, Function.update s.done i (s.done i + 1) k ≤ Load.Spec.total d.nOtypes d.sEvent := by
      intro k
      by_cases hk : k = i
      · subst hk; rw [Function.update_self]; exact hnb
      · rw [Function.update_of_ne hk]; exact h.bound k
    have hlen : s.data.eventOtypes.length = event.ncols := by rw [h.eventOtypes, hwf.len_otypes, hcols]
    have hsub : ∀ t, s.data.otypeCols t event.ncols event.rows = .ok (objs d.eventOtypes event.rows t) := by
      intro t
      unfold EventData.otypeCols
      rw [if_neg (by simpa using hlen), h.eventOtypes]
      rfl
    have hgen : ∀ t, EventData.genId (objs d.eventOtypes event.rows t) =
        ((ids d.eventOtypes event.rows t).length, ids d.eventOtypes event.rows t, Dict.ofPairs (ids d.eventOtypes event.rows t).zipIdx) :=
      fun t => rfl
    have up := @lt_update s.done i (s.done i)
    -- the event array stays
    have keep : s.done i ≠ 3 * d.nOtypes → (∀ e, s.done i ≠ 3 * d.nOtypes + 1 + e ∨ d.sEvent ≤ e) →
        ((∀ k, Function.update s.done i (s.done i + 1) k ≤ 3 * d.nOtypes) ∧ s.data.event = d.event) ∨ ∃ X arr,
        3 * d.nOtypes < Function.update s.done i (s.done i + 1) X ∧ s.data.event = some arr ∧
        arr.length = event.rows.length ∧ (∀ row ∈ arr, row.length = d.sEvent) ∧
        ∀ e < d.sEvent, 3 * d.nOtypes + 1 + e < Function.update s.done i (s.done i + 1) X → ∀ (j : Nat) (r : List α) (row : List Int),
          event.rows[j]? = some r → arr[j]? = some row → row[e]? = some (((encodeRow d.eventOtypes event.rows r)[e]?).getD 0) := by
      intro h1 h2
      rcases h.events with ⟨ha, hb⟩ | ⟨X, arr, hX, hb, hc, hd', he⟩
      · refine .inl ⟨fun k => ?_, hb⟩
        by_contra hcon
        rcases up rfl (by omega : 3 * d.nOtypes < Function.update s.done i (s.done i + 1) k) with h3 | ⟨-, h3⟩
        · have := ha k; omega
        · exact h1 h3.symm
      · refine .inr ⟨X, arr, lt_of_lt_of_le hX (update_le rfl), hb, hc, hd', ?_⟩
        intro e hes hlt
        rcases up rfl hlt with h3 | ⟨-, h3⟩
        · exact he e hes h3
        · rcases h2 e with h4 | h4
          · exact absurd h3.symm h4
          · omega
    have cN : s.done i ∉ {n | ∃ t < d.nOtypes, n = 3 * t} → ∀ k, ∀ t < d.nOtypes, 3 * t < Function.update s.done i (s.done i + 1) k →
        s.data.nObjects[t]? = some (ids d.eventOtypes event.rows t).length := by
      intro hno k t ht hlt
      rcases up rfl hlt with h3 | ⟨-, h3⟩
      · exact h.nObjects k t ht h3
      · exact absurd ⟨t, ht, h3.symm⟩ hno
    have cE : s.done i ∉ {n | ∃ t < d.nOtypes, n = 3 * t + 1} → ∀ k, ∀ t < d.nOtypes,
        3 * t + 1 < Function.update s.done i (s.done i + 1) k → s.data.eid[t]? = some (some (ids d.eventOtypes event.rows t)) := by
      intro hno k t ht hlt
      rcases up rfl hlt with h3 | ⟨-, h3⟩
      · exact h.eid k t ht h3
      · exact absurd ⟨t, ht, h3.symm⟩ hno
    have cI : s.done i ∉ {n | ∃ t < d.nOtypes, n = 3 * t + 2} → ∀ k, ∀ t < d.nOtypes,
        3 * t + 2 < Function.update s.done i (s.done i + 1) k →
        s.data.iid[t]? = some (some (Dict.ofPairs (ids d.eventOtypes event.rows t).zipIdx)) := by
      intro hno k t ht hlt
      rcases up rfl hlt with h3 | ⟨-, h3⟩
      · exact h.iid k t ht h3
      · exact absurd ⟨t, ht, h3.symm⟩ hno
    have cM : s.done i ≠ 3 * d.nOtypes + 1 + d.sEvent → ∀ k, 3 * d.nOtypes + 1 + d.sEvent < Function.update s.done i (s.done i + 1) k →
        s.data.nEvents = event.rows.length := by
      intro hno k hlt
      rcases up rfl hlt with h3 | ⟨-, h3⟩
      · exact h.nEvents k h3
      · exact absurd h3.symm hno
    have cF : s.done i ≠ 3 * d.nOtypes + 1 + d.sEvent + 1 → ∀ k,
        3 * d.nOtypes + 1 + d.sEvent + 1 < Function.update s.done i (s.done i + 1) k → s.data.eventFeature = ef := by
      intro hno k hlt
      rcases up rfl hlt with h3 | ⟨-, h3⟩
      · exact h.eventFeature k h3
      · exact absurd h3.symm hno
    rcases program_cases hst with ⟨t0, ht0, hn, rfl⟩ | ⟨t0, ht0, hn, rfl⟩ | ⟨t0, ht0, hn, rfl⟩ | ⟨hn, rfl⟩ | ⟨e0, he0, hn, rfl⟩ | ⟨hn, rfl⟩ |
      ⟨hn, rfl⟩
    · simp only [write, exec, hsub, hgen]
      have hset : ∀ t < d.nOtypes, (s.data.nObjects.set t0 (ids d.eventOtypes event.rows t0).length)[t]? =
          if t0 = t then some (ids d.eventOtypes event.rows t).length else s.data.nObjects[t]? := by
        intro t ht
        rw [List.getElem?_set]
        by_cases htt : t0 = t
        · subst htt; rw [if_pos rfl, if_pos (by rw [h.lenN]; exact ht), if_pos rfl]
        · rw [if_neg htt, if_neg htt]
      refine ⟨h.nOtypes, h.feature, h.sEvent, h.eventOtypes, by simp [h.lenN], h.lenE, h.lenI, ?_, ?_, cE (by rintro ⟨t, ht, h3⟩; omega), h.eid',
        cI (by rintro ⟨t, ht, h3⟩; omega), h.iid', keep (by omega) (fun e => by omega), cM (by omega), h.nEvents', cF (by omega),
        h.eventFeature', h.raised, hbound⟩
      · intro k t ht hlt
        show (s.data.nObjects.set t0 _)[t]? = _
        rw [hset t ht]
        split
        · rfl
        · rename_i hne
          rcases up rfl hlt with h3 | ⟨-, h3⟩
          · exact h.nObjects k t ht h3
          · omega
      · intro t ht
        show (s.data.nObjects.set t0 _)[t]? = _ ∨ (s.data.nObjects.set t0 _)[t]? = _
        rw [hset t ht]
        split
        · exact .inl rfl
        · exact h.nObjects' t ht
    · simp only [write, exec, hsub, hgen]
      have hset : ∀ t < d.nOtypes, (s.data.eid.set t0 (some (ids d.eventOtypes event.rows t0)))[t]? =
          if t0 = t then some (some (ids d.eventOtypes event.rows t)) else s.data.eid[t]? := by
        intro t ht
        rw [List.getElem?_set]
        by_cases htt : t0 = t
        · subst htt; rw [if_pos rfl, if_pos (by rw [h.lenE]; exact ht), if_pos rfl]
        · rw [if_neg htt, if_neg htt]
      refine ⟨h.nOtypes, h.feature, h.sEvent, h.eventOtypes, h.lenN, by simp [h.lenE], h.lenI, cN (by rintro ⟨t, ht, h3⟩; omega), h.nObjects',
        ?_, ?_, cI (by rintro ⟨t, ht, h3⟩; omega), h.iid', keep (by omega) (fun e => by omega), cM (by omega), h.nEvents', cF (by omega),
        h.eventFeature', h.raised, hbound⟩
      · intro k t ht hlt
        show (s.data.eid.set t0 _)[t]? = _
        rw [hset t ht]
        split
        · rfl
        · rename_i hne
          rcases up rfl hlt with h3 | ⟨-, h3⟩
          · exact h.eid k t ht h3
          · omega
      · intro t ht
        show (s.data.eid.set t0 _)[t]? = _ ∨ (s.data.eid.set t0 _)[t]? = _
        rw [hset t ht]
        split
        · exact .inl rfl
        · exact h.eid' t ht
    · simp only [write, exec, hsub, hgen]
      have hset : ∀ t < d.nOtypes, (s.data.iid.set t0 (some (Dict.ofPairs (ids d.eventOtypes event.rows t0).zipIdx)))[t]? =
          if t0 = t then some (some (Dict.ofPairs (ids d.eventOtypes event.rows t).zipIdx)) else s.data.iid[t]? := by
        intro t ht
        rw [List.getElem?_set]
        by_cases htt : t0 = t
        · subst htt; rw [if_pos rfl, if_pos (by rw [h.lenI]; exact ht), if_pos rfl]
        · rw [if_neg htt, if_neg htt]
      refine ⟨h.nOtypes, h.feature, h.sEvent, h.eventOtypes, h.lenN, h.lenE, by simp [h.lenI], cN (by rintro ⟨t, ht, h3⟩; omega), h.nObjects',
        cE (by rintro ⟨t, ht, h3⟩; omega), h.eid', ?_, ?_, keep (by omega) (fun e => by omega), cM (by omega), h.nEvents', cF (by omega),
        h.eventFeature', h.raised, hbound⟩
      · intro k t ht hlt
        show (s.data.iid.set t0 _)[t]? = _
        rw [hset t ht]
        split
        · rfl
        · rename_i hne
          rcases up rfl hlt with h3 | ⟨-, h3⟩
          · exact h.iid k t ht h3
          · omega
      · intro t ht
        show (s.data.iid.set t0 _)[t]? = _ ∨ (s.data.iid.set t0 _)[t]? = _
        rw [hset t ht]
        split
        · exact .inl rfl
        · exact h.iid' t ht
    · simp only [write, exec]
      refine ⟨h.nOtypes, h.feature, h.sEvent, h.eventOtypes, h.lenN, h.lenE, h.lenI, cN (by rintro ⟨t, ht, h3⟩; omega), h.nObjects',
        cE (by rintro ⟨t, ht, h3⟩; omega), h.eid', cI (by rintro ⟨t, ht, h3⟩; omega), h.iid', ?_, cM (by omega), h.nEvents', cF (by omega),
        h.eventFeature', h.raised, hbound⟩
      refine .inr ⟨i, _, ?_, rfl, by simp, ?_, ?_⟩
      · simp only [Function.update_self]; omega
      · intro row hr
        rw [List.mem_mapIdx] at hr
        obtain ⟨j, hj, rfl⟩ := hr
        simp [hcols]
      · intro e _ hlt
        simp only [Function.update_self] at hlt
        omega
    · obtain ⟨X, arr, hX, hb, hc, hd', hcol⟩ : ∃ X arr, 3 * d.nOtypes < s.done X ∧ s.data.event = some arr ∧
          arr.length = event.rows.length ∧ (∀ row ∈ arr, row.length = d.sEvent) ∧
          ∀ e < d.sEvent, 3 * d.nOtypes + 1 + e < s.done X → ∀ (j : Nat) (r : List α) (row : List Int), event.rows[j]? = some r →
            arr[j]? = some row → row[e]? = some (((encodeRow d.eventOtypes event.rows r)[e]?).getD 0) := by
        rcases h.events with ⟨ha, -⟩ | hx
        · have := ha i; omega
        · exact hx
      have he' : e0 < s.data.eventOtypes.length := by rw [hlen, hcols]; exact he0
      obtain ⟨t, ht, htT⟩ : ∃ t, s.data.eventOtypes[e0]? = some t ∧ t < d.nOtypes := by
        refine ⟨_, List.getElem?_eq_getElem he', ?_⟩
        have := List.getElem_mem he'
        simp only [h.eventOtypes] at this ⊢
        exact hwf.otypes_lt _ this
      have hi := h.iid i t htT (by omega)
      have hw : write ⟨event, ef, junk i⟩ s.data (.column e0) = .ok { s.data with event := some (setColumn arr e0
          (event.rows.map (fun r => ((encodeRow d.eventOtypes event.rows r)[e0]?).getD 0))) } := by
        simp only [write, exec]
        rw [EventData.setEventColumn_ok event s.data e0 _ (by intro r hr; rw [hreg r hr, hlen]) ht (by rw [hi, h.eventOtypes])]
        simp only [hb, Option.map_some, hc, if_true, h.eventOtypes]
      simp only [hw]
      refine ⟨h.nOtypes, h.feature, h.sEvent, h.eventOtypes, h.lenN, h.lenE, h.lenI, cN (by rintro ⟨t, ht, h3⟩; omega), h.nObjects',
        cE (by rintro ⟨t, ht, h3⟩; omega), h.eid', cI (by rintro ⟨t, ht, h3⟩; omega), h.iid', ?_, cM (by omega), h.nEvents', cF (by omega),
        h.eventFeature', h.raised, hbound⟩
      have hrow : ∀ (j : Nat) (row : List Int), (setColumn arr e0
          (event.rows.map (fun r => ((encodeRow d.eventOtypes event.rows r)[e0]?).getD 0)))[j]? = some row →
          ∃ r old, event.rows[j]? = some r ∧ arr[j]? = some old ∧
            row = old.set e0 (((encodeRow d.eventOtypes event.rows r)[e0]?).getD 0) := by
        intro j row hj
        unfold setColumn at hj
        rw [List.getElem?_zipWith] at hj
        cases h1 : arr[j]? with
        | none => rw [h1] at hj; simp at hj
        | some old =>
          rw [h1, List.getElem?_map] at hj
          cases h2 : event.rows[j]? with
          | none => rw [h2] at hj; simp at hj
          | some r =>
            rw [h2] at hj
            simp only [Option.map_some, Option.some.injEq] at hj
            exact ⟨r, old, rfl, rfl, hj.symm⟩
      refine .inr ⟨X, _, lt_of_lt_of_le hX (update_le rfl), rfl, by simp [setColumn, hc], ?_, ?_⟩
      · intro row hr
        obtain ⟨j, hj⟩ := List.mem_iff_getElem?.1 hr
        obtain ⟨r, old, -, h2, rfl⟩ := hrow j row hj
        rw [List.length_set]
        exact hd' old (List.mem_of_getElem? h2)
      · intro e hes hlt j r row hr hj
        obtain ⟨r', old, h1, h2, rfl⟩ := hrow j row hj
        rw [hr, Option.some.injEq] at h1
        subst h1
        have hol := hd' old (List.mem_of_getElem? h2)
        rw [List.getElem?_set]
        by_cases hee : e0 = e
        · subst hee
          rw [if_pos rfl, if_pos (by omega)]
        · rw [if_neg hee]
          rcases up rfl hlt with h3 | ⟨-, h3⟩
          · exact hcol e hes h3 j r old hr h2
          · omega
    · obtain ⟨X, arr, hX, hb, hc, -⟩ : ∃ X arr, 3 * d.nOtypes < s.done X ∧ s.data.event = some arr ∧
          arr.length = event.rows.length ∧ True := by
        rcases h.events with ⟨ha, -⟩ | ⟨X, arr, h1, h2, h3, -⟩
        · have := ha i; omega
        · exact ⟨X, arr, h1, h2, h3, trivial⟩
      simp only [write, exec]
      have hne : (s.data.event.map List.length).getD 0 = event.rows.length := by rw [hb]; exact hc
      rw [hne]
      refine ⟨h.nOtypes, h.feature, h.sEvent, h.eventOtypes, h.lenN, h.lenE, h.lenI, cN (by rintro ⟨t, ht, h3⟩; omega), h.nObjects',
        cE (by rintro ⟨t, ht, h3⟩; omega), h.eid', cI (by rintro ⟨t, ht, h3⟩; omega), h.iid', keep (by omega) (fun e => by omega),
        fun _ _ => rfl, .inl rfl, cF (by omega), h.eventFeature', h.raised, hbound⟩
    · simp only [write, exec]
      refine ⟨h.nOtypes, h.feature, h.sEvent, h.eventOtypes, h.lenN, h.lenE, h.lenI, cN (by rintro ⟨t, ht, h3⟩; omega), h.nObjects',
        cE (by rintro ⟨t, ht, h3⟩; omega), h.eid', cI (by rintro ⟨t, ht, h3⟩; omega), h.iid', keep (by omega) (fun e => by omega),
        cM (by omega), h.nEvents', fun _ _ => rfl, .inl rfl, h.raised, hbound⟩

lemma joint_schedule {event : Arr2 α} {ef : Option (List ε)} {junk : Nat → Nat → Nat → Int} {d : EventData α φ ε} (hwf : d.WF)
    (hreg : event.Regular) (hcols : event.ncols = d.sEvent) (threads : List Nat) :
    Joint event ef d (schedule (fun j => ⟨event, ef, junk j⟩) d threads) := by
  unfold schedule
  generalize hs : (⟨d, fun _ => 0, fun _ => none⟩ : Shared α φ ε) = s
  have h : Joint event ef d s := by rw [← hs]; exact joint_start hwf
  clear hs
  induction threads generalizing s with
  | nil => exact h
  | cons i l ih => exact ih _ (joint_step hwf hreg hcols h i)

lemma done_step {calls : Nat → Call α ε} {s : Shared α φ ε} {i : Nat} (h : ∀ k, (step calls s i).raised k = none) (k : Nat) :
    (step calls s i).done k = if k = i ∧ s.done i < (program s.data).length then s.done k + 1 else s.done k := by
  unfold step at h ⊢
  cases hr : s.raised i with
  | some x =>
    have := h i
    simp [hr] at this
  | none =>
    rw [hr] at h
    rcases lt_or_ge (s.done i) (program s.data).length with hlt | hge
    · rw [List.getElem?_eq_getElem hlt] at h ⊢
      simp only at h ⊢
      generalize write (calls i) s.data (program s.data)[s.done i] = w at h ⊢
      cases w with
      | error x =>
        have := h i
        simp [Function.update_self] at this
      | ok d =>
        simp only [hlt, and_true]
        by_cases hk : k = i
        · subst hk; rw [Function.update_self, if_pos rfl]
        · rw [Function.update_of_ne hk, if_neg hk]
    · rw [List.getElem?_eq_none hge, if_neg (by omega)]

lemma done_schedule {event : Arr2 α} {ef : Option (List ε)} {junk : Nat → Nat → Nat → Int} {d : EventData α φ ε} (hwf : d.WF)
    (hreg : event.Regular) (hcols : event.ncols = d.sEvent) (threads : List Nat) (k : Nat) :
    (schedule (fun j => ⟨event, ef, junk j⟩) d threads).done k = min (threads.count k) (Load.Spec.total d.nOtypes d.sEvent) := by
  induction threads using List.reverseRecOn with
  | nil => simp [schedule]
  | append_singleton l i ih =>
    have hj := joint_schedule (ef := ef) (junk := junk) hwf hreg hcols l
    have hj' := joint_schedule (ef := ef) (junk := junk) hwf hreg hcols (l ++ [i])
    unfold schedule at hj hj' ih ⊢
    rw [List.foldl_append] at hj' ⊢
    simp only [List.foldl_cons, List.foldl_nil] at hj' ⊢
    rw [done_step hj'.raised, program_congr hj.nOtypes hj.sEvent, length_program, ih, List.count_append, List.count_singleton]
    have hd : (List.foldl (step fun j => ⟨event, ef, junk j⟩) ⟨d, fun _ => 0, fun _ => none⟩ l).done k = _ := ih
    unfold Load.Spec.total at ih ⊢
    by_cases hk : k = i
    · subst hk
      rw [ih]
      simp only [true_and, beq_self_eq_true, if_true]
      split_ifs <;> omega
    · have hk' : (i == k) = false := by simpa using fun h => hk h.symm
      simp only [hk, false_and, if_false, hk']
      simp

lemma joint_loaded {event : Arr2 α} {ef : Option (List ε)} {d : EventData α φ ε} {s : Shared α φ ε} (hwf : d.WF)
    (hreg : event.Regular) (hcols : event.ncols = d.sEvent) (h : Joint event ef d s) {i : Nat} (hi : s.done i ≠ 0)
    (hall : ∀ k, s.done k ≠ 0 → s.done k = Load.Spec.total d.nOtypes d.sEvent) : s.data = d.loaded event.rows ef := by
  have hti := hall i hi
  unfold Load.Spec.total at hti hall
  have hN : s.data.nObjects = (List.range d.nOtypes).map (fun t => (ids d.eventOtypes event.rows t).length) := by
    apply List.ext_getElem?
    intro t
    rcases lt_or_ge t d.nOtypes with ht | ht
    · rw [h.nObjects i t ht (by omega)]; simp [ht]
    · rw [List.getElem?_eq_none (by rw [h.lenN]; exact ht), List.getElem?_eq_none (by simpa using ht)]
  have hE : s.data.eid = (List.range d.nOtypes).map (fun t => some (ids d.eventOtypes event.rows t)) := by
    apply List.ext_getElem?
    intro t
    rcases lt_or_ge t d.nOtypes with ht | ht
    · rw [h.eid i t ht (by omega)]; simp [ht]
    · rw [List.getElem?_eq_none (by rw [h.lenE]; exact ht), List.getElem?_eq_none (by simpa using ht)]
  have hI : s.data.iid = (List.range d.nOtypes).map (fun t => some (Dict.ofPairs (ids d.eventOtypes event.rows t).zipIdx)) := by
    apply List.ext_getElem?
    intro t
    rcases lt_or_ge t d.nOtypes with ht | ht
    · rw [h.iid i t ht (by omega)]; simp [ht]
    · rw [List.getElem?_eq_none (by rw [h.lenI]; exact ht), List.getElem?_eq_none (by simpa using ht)]
  have hev : s.data.event = some (event.rows.map (encodeRow d.eventOtypes event.rows)) := by
    rcases h.events with ⟨ha, -⟩ | ⟨X, arr, hX, hb, hc, hl, he⟩
    · have := ha i; omega
    · have hX' := hall X (by omega)
      rw [hb, Option.some.injEq]
      apply List.ext_getElem?
      intro j
      rw [List.getElem?_map]
      cases hr : event.rows[j]? with
      | none =>
        rw [List.getElem?_eq_none_iff] at hr
        rw [List.getElem?_eq_none (by omega)]
        rfl
      | some r =>
        have hj := (List.getElem?_eq_some_iff.1 hr).1
        have harr : arr[j]? = some (arr[j]'(by omega)) := List.getElem?_eq_getElem (by omega)
        rw [harr, Option.map_some, Option.some.injEq]
        have hl1 := hl _ (List.mem_of_getElem? harr)
        have hl2 : (encodeRow d.eventOtypes event.rows r).length = d.sEvent := by
          rw [EventData.length_encodeRow _ _ _ (by rw [hreg r (List.mem_of_getElem? hr), hcols, hwf.len_otypes]), hwf.len_otypes]
        apply List.ext_getElem?
        intro e
        rcases lt_or_ge e d.sEvent with hes | hes
        · rw [he e hes (by omega) j r _ hr harr, List.getElem?_eq_getElem (by rw [hl2]; exact hes)]
          rfl
        · rw [List.getElem?_eq_none (by omega), List.getElem?_eq_none (by omega)]
  have hne := h.nEvents i (by omega)
  have hef := h.eventFeature i (by omega)
  have e1 := h.nOtypes
  have e2 := h.feature
  have e3 := h.sEvent
  have e4 := h.eventOtypes
  generalize s.data = d' at *
  obtain ⟨a1, a2, a3, a4, a5, a6, a7, a8, a9, a10⟩ := d'
  simp only at hN hE hI hev hne hef e1 e2 e3 e4
  subst hN hE hI hev hne hef e1 e2 e3 e4
  rfl

/-- The only field a column assignment changes is the array, and it raises `KeyError` at most. -/
lemma setEventColumn_frame (event : Arr2 α) (d : EventData α φ ε) (e : Nat) :
    (∀ d', EventData.setEventColumn event d e = .ok d' → d' = { d with event := d'.event }) ∧
    (∀ x d', EventData.setEventColumn event d e = .error (x, d') → d' = d) := by
  unfold EventData.setEventColumn
  constructor
  · intro d' h
    split at h <;> try cases h
    split at h <;> try cases h
    split at h <;> try cases h
    split at h <;> cases h
    rfl
  · intro x d' h
    split at h
    · cases h; rfl
    · split at h
      · cases h; rfl
      · cases h; rfl
      · split at h
        · cases h; rfl
        · split at h <;> cases h
          rfl

lemma mapM_getItem_error {iid : Dict α Nat} {l : List α} {x : Exc} (h : l.mapM iid.getItem = .error x) : x = .keyError := by
  induction l with
  | nil => cases h
  | cons a l ih =>
    rw [List.mapM_cons] at h
    cases h1 : iid.getItem a with
    | error y =>
      rw [h1] at h
      have : y = x := by cases h; rfl
      subst this
      unfold Dict.getItem at h1
      split at h1 <;> cases h1
      rfl
    | ok v =>
      rw [h1] at h
      cases h2 : l.mapM iid.getItem with
      | error y =>
        rw [h2] at h
        have : y = x := by cases h; rfl
        subst this
        exact ih h2
      | ok w => rw [h2] at h; cases h

lemma setEventColumn_error {event : Arr2 α} {d d' : EventData α φ ε} {e t : Nat} {iid : Dict α Nat} {x : Exc}
    (hl : ∀ r ∈ event.rows, e < r.length) (ht : d.eventOtypes[e]? = some t) (hi : d.iid[t]? = some (some iid))
    (h : EventData.setEventColumn event d e = .error (x, d')) : x = .keyError := by
  unfold EventData.setEventColumn at h
  simp only [ht, hi] at h
  cases hc : column event.rows e with
  | error y =>
    exfalso
    rw [EventData.column_ok event.rows e hl] at hc
    cases hc
  | ok col =>
    simp only [hc] at h
    cases hm : col.mapM iid.getItem with
    | error y =>
      simp only [hm] at h
      cases h
      exact mapM_getItem_error hm
    | ok v => simp only [hm] at h; cases h

/-- What holds at any moment while threads of `P` load any events. -/
structure Mixed (calls : Nat → Call α ε) (P : Nat → Prop) (d : EventData α φ ε) (s : Shared α φ ε) : Prop where
  nOtypes : s.data.nOtypes = d.nOtypes
  feature : s.data.feature = d.feature
  sEvent : s.data.sEvent = d.sEvent
  eventOtypes : s.data.eventOtypes = d.eventOtypes
  lenN : s.data.nObjects.length = d.nOtypes
  lenE : s.data.eid.length = d.nOtypes
  lenI : s.data.iid.length = d.nOtypes
  nObjects : ∀ t < d.nOtypes, s.data.nObjects[t]? = d.nObjects[t]? ∨
    ∃ j, P j ∧ s.data.nObjects[t]? = some (ids d.eventOtypes (calls j).event.rows t).length
  eid : ∀ t < d.nOtypes, s.data.eid[t]? = d.eid[t]? ∨ ∃ j, P j ∧ s.data.eid[t]? = some (some (ids d.eventOtypes (calls j).event.rows t))
  iid : ∀ t < d.nOtypes, s.data.iid[t]? = d.iid[t]? ∨
    ∃ j, P j ∧ s.data.iid[t]? = some (some (Dict.ofPairs (ids d.eventOtypes (calls j).event.rows t).zipIdx))
  tables : ∀ i, ∀ t < d.nOtypes, 3 * t + 2 < s.done i → ∃ iid, s.data.iid[t]? = some (some iid)
  raised : ∀ i x, s.raised i = some x → x = .keyError ∨ x = .valueError
  idle : ∀ i, ¬ P i → s.done i = 0 ∧ s.raised i = none

lemma mixed_wf {calls : Nat → Call α ε} {P : Nat → Prop} {d : EventData α φ ε} {s : Shared α φ ε} (hwf : d.WF) (h : Mixed calls P d s) :
    s.data.WF :=
  ⟨by rw [h.nOtypes]; exact hwf.pos, by rw [h.lenN, h.nOtypes], by rw [h.lenE, h.nOtypes], by rw [h.lenI, h.nOtypes],
    by rw [h.feature, h.nOtypes]; exact hwf.len_feature, by rw [h.eventOtypes, h.sEvent]; exact hwf.len_otypes,
    by rw [h.eventOtypes, h.nOtypes]; exact hwf.otypes_lt⟩

lemma mixed_start {calls : Nat → Call α ε} {P : Nat → Prop} {d : EventData α φ ε} (hwf : d.WF) :
    Mixed calls P d ⟨d, fun _ => 0, fun _ => none⟩ :=
  ⟨rfl, rfl, rfl, rfl, hwf.len_nObjects, hwf.len_eid, hwf.len_iid, fun _ _ => .inl rfl, fun _ _ => .inl rfl, fun _ _ => .inl rfl,
    fun _ _ _ h => absurd h (by simp), fun _ _ h => by simp at h, fun _ _ => ⟨rfl, rfl⟩⟩

lemma mixed_step {calls : Nat → Call α ε} {P : Nat → Prop} {d : EventData α φ ε} (hwf : d.WF)
    (hreg : ∀ i, P i → (calls i).event.Regular ∧ (calls i).event.ncols = d.sEvent) {s : Shared α φ ε} (h : Mixed calls P d s) {i : Nat}
    (hP : P i) : Mixed calls P d (step calls s i) := by
  obtain ⟨hr, hcols⟩ := hreg i hP
  have hpr : program s.data = program d := program_congr h.nOtypes h.sEvent
  unfold step
  rw [hpr]
  cases hra : s.raised i with
  | some x => exact h
  | none =>
    cases hst : (program d)[s.done i]? with
    | none => exact h
    | some stmt =>
      have hlen : s.data.eventOtypes.length = (calls i).event.ncols := by rw [h.eventOtypes, hwf.len_otypes, hcols]
      have hsub : ∀ t, s.data.otypeCols t (calls i).event.ncols (calls i).event.rows =
          .ok (objs d.eventOtypes (calls i).event.rows t) := by
        intro t
        unfold EventData.otypeCols
        rw [if_neg (by simpa using hlen), h.eventOtypes]
        rfl
      have hgen : ∀ t, EventData.genId (objs d.eventOtypes (calls i).event.rows t) =
          ((ids d.eventOtypes (calls i).event.rows t).length, ids d.eventOtypes (calls i).event.rows t,
            Dict.ofPairs (ids d.eventOtypes (calls i).event.rows t).zipIdx) :=
        fun t => rfl
      have up := @lt_update s.done i (s.done i)
      have hidle : ∀ k, ¬ P k → Function.update s.done i (s.done i + 1) k = 0 ∧ s.raised k = none := by
        intro k hk
        have hki : k ≠ i := by rintro rfl; exact hk hP
        rw [Function.update_of_ne hki]
        exact h.idle k hk
      have ctab : (∀ t < d.nOtypes, s.done i ≠ 3 * t + 2) → ∀ k, ∀ t < d.nOtypes,
          3 * t + 2 < Function.update s.done i (s.done i + 1) k → ∃ iid, s.data.iid[t]? = some (some iid) := by
        intro hno k t ht hlt
        rcases up rfl hlt with h3 | ⟨-, h3⟩
        · exact h.tables k t ht h3
        · exact absurd h3.symm (hno t ht)
      rcases program_cases hst with ⟨t0, ht0, hn, rfl⟩ | ⟨t0, ht0, hn, rfl⟩ | ⟨t0, ht0, hn, rfl⟩ | ⟨hn, rfl⟩ | ⟨e0, he0, hn, rfl⟩ |
        ⟨hn, rfl⟩ | ⟨hn, rfl⟩
      · simp only [write, exec, hsub, hgen]
        refine ⟨h.nOtypes, h.feature, h.sEvent, h.eventOtypes, by simp [h.lenN], h.lenE, h.lenI, ?_, h.eid, h.iid,
          ctab (fun t ht => by omega), h.raised, hidle⟩
        intro t ht
        simp only [List.getElem?_set]
        by_cases htt : t0 = t
        · subst htt
          rw [if_pos rfl, if_pos (by rw [h.lenN]; exact ht)]
          exact .inr ⟨i, hP, rfl⟩
        · rw [if_neg htt]; exact h.nObjects t ht
      · simp only [write, exec, hsub, hgen]
        refine ⟨h.nOtypes, h.feature, h.sEvent, h.eventOtypes, h.lenN, by simp [h.lenE], h.lenI, h.nObjects, ?_, h.iid,
          ctab (fun t ht => by omega), h.raised, hidle⟩
        intro t ht
        simp only [List.getElem?_set]
        by_cases htt : t0 = t
        · subst htt
          rw [if_pos rfl, if_pos (by rw [h.lenE]; exact ht)]
          exact .inr ⟨i, hP, rfl⟩
        · rw [if_neg htt]; exact h.eid t ht
      · simp only [write, exec, hsub, hgen]
        refine ⟨h.nOtypes, h.feature, h.sEvent, h.eventOtypes, h.lenN, h.lenE, by simp [h.lenI], h.nObjects, h.eid, ?_, ?_, h.raised,
          hidle⟩
        · intro t ht
          simp only [List.getElem?_set]
          by_cases htt : t0 = t
          · subst htt
            rw [if_pos rfl, if_pos (by rw [h.lenI]; exact ht)]
            exact .inr ⟨i, hP, rfl⟩
          · rw [if_neg htt]; exact h.iid t ht
        · intro k t ht hlt
          simp only [List.getElem?_set]
          by_cases htt : t0 = t
          · subst htt
            rw [if_pos rfl, if_pos (by rw [h.lenI]; exact ht)]
            exact ⟨_, rfl⟩
          · rw [if_neg htt]
            rcases up rfl hlt with h3 | ⟨-, h3⟩
            · exact h.tables k t ht h3
            · omega
      · simp only [write, exec]
        exact ⟨h.nOtypes, h.feature, h.sEvent, h.eventOtypes, h.lenN, h.lenE, h.lenI, h.nObjects, h.eid, h.iid,
          ctab (fun t ht => by omega), h.raised, hidle⟩
      · have hw : (∀ d', write (calls i) s.data (.column e0) = .ok d' → d' = { s.data with event := d'.event }) ∧
            (∀ x d', write (calls i) s.data (.column e0) = .error (x, d') → d' = s.data ∧ (x = .keyError ∨ x = .valueError)) := by
          have he' : e0 < s.data.eventOtypes.length := by rw [hlen, hcols]; exact he0
          obtain ⟨t, ht, htT⟩ : ∃ t, s.data.eventOtypes[e0]? = some t ∧ t < d.nOtypes := by
            refine ⟨_, List.getElem?_eq_getElem he', ?_⟩
            have := List.getElem_mem he'
            simp only [h.eventOtypes] at this ⊢
            exact hwf.otypes_lt _ this
          obtain ⟨iid, hi⟩ := h.tables i t htT (by omega)
          have hl : ∀ r ∈ (calls i).event.rows, e0 < r.length := by intro r hm; rw [hr r hm, hcols]; exact he0
          have f1 := setEventColumn_frame (calls i).event s.data e0
          have g1 : ∀ x d', EventData.setEventColumn (calls i).event s.data e0 = .error (x, d') → x = .keyError :=
            fun x d' hx => setEventColumn_error hl ht hi hx
          simp only [write, exec]
          cases hc : EventData.setEventColumn (calls i).event s.data e0 with
          | error y =>
            obtain ⟨y, dy⟩ := y
            refine ⟨fun d' hx => (nomatch hx), ?_⟩
            intro x d' hx
            simp only [Except.error.injEq, Prod.mk.injEq] at hx
            obtain ⟨rfl, rfl⟩ := hx
            exact ⟨f1.2 _ _ hc, .inl (g1 _ _ hc)⟩
          | ok d1 =>
            simp only
            by_cases hlen2 : s.data.event.map List.length = some (calls i).event.rows.length
            · rw [if_pos hlen2]
              refine ⟨?_, fun x d' hx => (nomatch hx)⟩
              intro d' hx
              cases hx
              exact f1.1 _ hc
            · rw [if_neg hlen2]
              by_cases hone : (calls i).event.rows.length = 1
              · rw [if_pos hone]
                have f2 := setEventColumn_frame ⟨(calls i).event.ncols,
                  List.replicate ((s.data.event.map List.length).getD 0) ((calls i).event.rows.headD [])⟩ s.data e0
                refine ⟨f2.1, fun x d' hx => ⟨f2.2 x d' hx, .inl (setEventColumn_error ?_ ht hi hx)⟩⟩
                intro r hm
                have hm' := List.eq_of_mem_replicate hm
                obtain ⟨r0, hr0⟩ := List.length_eq_one_iff.1 hone
                rw [hm', hr0]
                exact hl r0 (by rw [hr0]; simp)
              · rw [if_neg hone]
                refine ⟨fun d' hx => (nomatch hx), ?_⟩
                intro x d' hx
                simp only [Except.error.injEq, Prod.mk.injEq] at hx
                exact ⟨hx.2.symm, .inr hx.1.symm⟩
        cases hwr : write (calls i) s.data (.column e0) with
        | ok d1 =>
          simp only [hwr]
          have hd1 := hw.1 d1 hwr
          generalize d1.event = ev at hd1
          subst hd1
          exact ⟨h.nOtypes, h.feature, h.sEvent, h.eventOtypes, h.lenN, h.lenE, h.lenI, h.nObjects, h.eid, h.iid,
            ctab (fun t ht => by omega), h.raised, hidle⟩
        | error y =>
          obtain ⟨x, d1⟩ := y
          simp only [hwr]
          obtain ⟨hd1, hx⟩ := hw.2 x d1 hwr
          subst hd1
          refine ⟨h.nOtypes, h.feature, h.sEvent, h.eventOtypes, h.lenN, h.lenE, h.lenI, h.nObjects, h.eid, h.iid, h.tables, ?_, ?_⟩
          · intro k y hk
            simp only at hk
            by_cases hki : k = i
            · subst hki
              rw [Function.update_self, Option.some.injEq] at hk
              rw [← hk]; exact hx
            · rw [Function.update_of_ne hki] at hk
              exact h.raised k y hk
          · intro k hk
            have hki : k ≠ i := by rintro rfl; exact hk hP
            simp only [Function.update_of_ne hki]
            exact h.idle k hk
      · simp only [write, exec]
        exact ⟨h.nOtypes, h.feature, h.sEvent, h.eventOtypes, h.lenN, h.lenE, h.lenI, h.nObjects, h.eid, h.iid,
          ctab (fun t ht => by omega), h.raised, hidle⟩
      · simp only [write, exec]
        exact ⟨h.nOtypes, h.feature, h.sEvent, h.eventOtypes, h.lenN, h.lenE, h.lenI, h.nObjects, h.eid, h.iid,
          ctab (fun t ht => by omega), h.raised, hidle⟩

lemma mixed_schedule {calls : Nat → Call α ε} {d : EventData α φ ε} (hwf : d.WF) (threads : List Nat)
    (hreg : ∀ i ∈ threads, (calls i).event.Regular ∧ (calls i).event.ncols = d.sEvent) :
    Mixed calls (· ∈ threads) d (schedule calls d threads) := by
  unfold schedule
  have gen : ∀ (l : List Nat) (s : Shared α φ ε), (∀ i ∈ l, i ∈ threads) → Mixed calls (· ∈ threads) d s →
      Mixed calls (· ∈ threads) d (l.foldl (step calls) s) := by
    intro l
    induction l with
    | nil => intro s _ h; exact h
    | cons i l ih =>
      intro s hl h
      exact ih _ (fun k hk => hl k (List.mem_cons_of_mem _ hk)) (mixed_step hwf hreg h (hl i (by simp)))
  exact gen threads _ (fun _ h => h) (mixed_start hwf)

/-- A thread that makes its first `n` assignments without another in between. -/
lemma alone_steps {calls : Nat → Call α ε} {s : Shared α φ ε} (hwf : s.data.WF) {i : Nat} (hreg : (calls i).event.Regular)
    (hcols : (calls i).event.ncols = s.data.sEvent) (h0 : s.done i = 0) (hr : s.raised i = none) (n : Nat)
    (hn : n ≤ (program s.data).length) :
    At (calls i).event (calls i).ef (calls i).junk n s.data ((List.replicate n i).foldl (step calls) s).data ∧
      ((List.replicate n i).foldl (step calls) s).done i = n ∧ ((List.replicate n i).foldl (step calls) s).raised i = none := by
  induction n with
  | zero => exact ⟨at_zero hwf, h0, hr⟩
  | succ n ih =>
    obtain ⟨hat, hd, hra⟩ := ih (by omega)
    rw [List.replicate_succ', List.foldl_append]
    simp only [List.foldl_cons, List.foldl_nil]
    generalize (List.replicate n i).foldl (step calls) s = s' at hat hd hra ⊢
    have hs : (program s.data)[n]? = some (program s.data)[n] := List.getElem?_eq_getElem (by omega)
    obtain ⟨d'', hex, hat'⟩ := at_succ hwf hreg hcols hat hs
    have hw : write (calls i) s'.data (program s.data)[n] = .ok d'' := by
      generalize hst : (program s.data)[n] = stmt at hex hs
      cases stmt with
      | column e =>
        have hle : s'.data.event.map List.length = some (calls i).event.rows.length := by
          have hev := hat.events
          rw [if_pos] at hev
          · rw [hev]; simp
          · rcases program_cases hs with ⟨t, -, -, h4⟩ | ⟨t, -, -, h4⟩ | ⟨t, -, -, h4⟩ | ⟨-, h4⟩ | ⟨e', -, h5, -⟩ | ⟨-, h4⟩ | ⟨-, h4⟩
            · cases h4
            · cases h4
            · cases h4
            · cases h4
            · omega
            · cases h4
            · cases h4
        simp only [write, hex, hle, if_true]
      | count t => exact hex
      | externals t => exact hex
      | internals t => exact hex
      | array => exact hex
      | number => exact hex
      | feature => exact hex
    unfold step
    rw [hra, hd, program_congr hat.nOtypes hat.sEvent, hs]
    simp only [hw]
    exact ⟨hat', by rw [Function.update_self], hra⟩

lemma npGet_nat {β : Type} (a : List β) (t : Nat) :
    npGet a (t : Int) = match a[t]? with | some x => .ok x | none => .error .indexError := by
  rcases lt_or_ge t a.length with ht | ht
  · rw [npGet_ofNat a t ht, List.getElem?_eq_getElem ht]
  · rw [npGet_of_ge a t (by omega), List.getElem?_eq_none ht]

lemma toEid_congr {d d' : EventData α φ ε} {t : Nat} (h : d'.eid[t]? = d.eid[t]?) (i : Int) : d'.toEid t i = d.toEid t i := by
  unfold EventData.toEid
  rw [npGet_nat, npGet_nat, h]

lemma toIid_congr {d d' : EventData α φ ε} {t : Nat} (h : d'.iid[t]? = d.iid[t]?) (x : α) : d'.toIid t x = d.toIid t x := by
  unfold EventData.toIid
  rw [npGet_nat, npGet_nat, h]

/-! ### C159 -/

/-- C159: threads that load the same events into one container, whatever the schedule: no call raises an exception, each has made as many
assignments as it has been given turns, and when all that have started are finished, the container is the one a single call leaves. -/
theorem C159_same {d d1 : EventData α φ ε} (h : Reachable d) {event : Arr2 α} (hreg : event.Regular) {ef : Option (List ε)}
    (h1 : d.setEvent event ef = .ok d1) (junk : Nat → Nat → Nat → Int) (threads : List Nat) :
    (∀ i, (schedule (fun j => ⟨event, ef, junk j⟩) d threads).raised i = none) ∧
    (∀ i, (schedule (fun j => ⟨event, ef, junk j⟩) d threads).done i = min (threads.count i) (Load.Spec.total d.nOtypes d.sEvent)) ∧
    (threads ≠ [] → (∀ i ∈ threads, Load.Spec.total d.nOtypes d.sEvent ≤ threads.count i) →
      (schedule (fun j => ⟨event, ef, junk j⟩) d threads).data = d1) := by
  rw [EventData.setEvent_ok_iff _ h.wf _ hreg] at h1
  obtain ⟨hcols, rfl⟩ := h1
  have hj := joint_schedule (ef := ef) (junk := junk) h.wf hreg hcols threads
  have hd := done_schedule (ef := ef) (junk := junk) h.wf hreg hcols threads
  refine ⟨hj.raised, hd, ?_⟩
  intro hne hall
  obtain ⟨i, hi⟩ := List.exists_mem_of_ne_nil _ hne
  have hfin : ∀ k, (schedule (fun j => ⟨event, ef, junk j⟩) d threads).done k ≠ 0 →
      (schedule (fun j => ⟨event, ef, junk j⟩) d threads).done k = Load.Spec.total d.nOtypes d.sEvent := by
    intro k hk
    rw [hd k] at hk ⊢
    have : k ∈ threads := by
      by_contra hno
      rw [List.count_eq_zero.2 hno] at hk
      simp at hk
    have := hall k this
    omega
  refine joint_loaded h.wf hreg hcols hj (i := i) ?_ hfin
  rw [hd i]
  have := hall i hi
  have h0 : 0 < Load.Spec.total d.nOtypes d.sEvent := by unfold Load.Spec.total; omega
  omega

/-- C159: while these threads run, another thread that reads the number of objects, converts an id or reads the number of events gets the old
answer or the new one. -/
theorem C159_readers {d d1 : EventData α φ ε} (h : Reachable d) {event : Arr2 α} (hreg : event.Regular) {ef : Option (List ε)}
    (h1 : d.setEvent event ef = .ok d1) (junk : Nat → Nat → Nat → Int) (threads : List Nat) (s : Shared α φ ε)
    (hs : s = schedule (fun j => ⟨event, ef, junk j⟩) d threads) :
    (s.data.nOtypes = d.nOtypes ∧ s.data.sEvent = d.sEvent ∧ s.data.eventOtypes = d.eventOtypes ∧ s.data.feature = d.feature) ∧
    (∀ t < d.nOtypes, s.data.nObjects[t]? = d.nObjects[t]? ∨ s.data.nObjects[t]? = d1.nObjects[t]?) ∧
    (∀ t < d.nOtypes, (∀ i, s.data.toEid t i = d.toEid t i) ∨ ∀ i, s.data.toEid t i = d1.toEid t i) ∧
    (∀ t < d.nOtypes, (∀ x, s.data.toIid t x = d.toIid t x) ∨ ∀ x, s.data.toIid t x = d1.toIid t x) ∧
    (s.data.nEvents = d.nEvents ∨ s.data.nEvents = d1.nEvents) ∧
    (s.data.eventFeature = d.eventFeature ∨ s.data.eventFeature = d1.eventFeature) := by
  rw [EventData.setEvent_ok_iff _ h.wf _ hreg] at h1
  obtain ⟨hcols, rfl⟩ := h1
  have hj := joint_schedule (ef := ef) (junk := junk) h.wf hreg hcols threads
  rw [← hs] at hj
  refine ⟨⟨hj.nOtypes, hj.sEvent, hj.eventOtypes, hj.feature⟩, ?_, ?_, ?_, hj.nEvents'.symm, hj.eventFeature'.symm⟩
  · intro t ht
    rcases hj.nObjects' t ht with h2 | h2
    · refine .inr ?_; rw [h2]; simp [EventData.loaded, ht]
    · exact .inl h2
  · intro t ht
    rcases hj.eid' t ht with h2 | h2
    · exact .inr (toEid_congr (by rw [h2]; simp [EventData.loaded, ht]))
    · exact .inl (toEid_congr h2)
  · intro t ht
    rcases hj.iid' t ht with h2 | h2
    · exact .inr (toIid_congr (by rw [h2]; simp [EventData.loaded, ht]))
    · exact .inl (toIid_congr h2)

/-- C159: threads that load any events, whatever the schedule: at every moment the conversion of the ids of one type in one direction is
completely the old one or the one of a single call, the layout does not change, and the only exceptions are `KeyError` and `ValueError`. -/
theorem C159_parts {d : EventData α φ ε} (h : Reachable d) (calls : Nat → Call α ε) (threads : List Nat)
    (hreg : ∀ i ∈ threads, (calls i).event.Regular ∧ (calls i).event.ncols = d.sEvent) (s : Shared α φ ε)
    (hs : s = schedule calls d threads) :
    (s.data.nOtypes = d.nOtypes ∧ s.data.sEvent = d.sEvent ∧ s.data.eventOtypes = d.eventOtypes ∧ s.data.feature = d.feature) ∧
    (∀ t < d.nOtypes, s.data.nObjects[t]? = d.nObjects[t]? ∨ ∃ j ∈ threads, ∃ dj, d.setEvent (calls j).event (calls j).ef = .ok dj ∧
      s.data.nObjects[t]? = dj.nObjects[t]?) ∧
    (∀ t < d.nOtypes, (∀ i, s.data.toEid t i = d.toEid t i) ∨ ∃ j ∈ threads, ∃ dj,
      d.setEvent (calls j).event (calls j).ef = .ok dj ∧ ∀ i, s.data.toEid t i = dj.toEid t i) ∧
    (∀ t < d.nOtypes, (∀ x, s.data.toIid t x = d.toIid t x) ∨ ∃ j ∈ threads, ∃ dj,
      d.setEvent (calls j).event (calls j).ef = .ok dj ∧ ∀ x, s.data.toIid t x = dj.toIid t x) ∧
    (∀ i x, s.raised i = some x → i ∈ threads ∧ (x = .keyError ∨ x = .valueError)) := by
  have hm := mixed_schedule (calls := calls) h.wf threads hreg
  rw [← hs] at hm
  have hload : ∀ j ∈ threads, d.setEvent (calls j).event (calls j).ef = .ok (d.loaded (calls j).event.rows (calls j).ef) :=
    fun j hj => EventData.setEvent_eq d h.wf _ (hreg j hj).1 (hreg j hj).2 _
  refine ⟨⟨hm.nOtypes, hm.sEvent, hm.eventOtypes, hm.feature⟩, ?_, ?_, ?_, ?_⟩
  · intro t ht
    rcases hm.nObjects t ht with h2 | ⟨j, hj, h2⟩
    · exact .inl h2
    · exact .inr ⟨j, hj, _, hload j hj, by rw [h2]; simp [EventData.loaded, ht]⟩
  · intro t ht
    rcases hm.eid t ht with h2 | ⟨j, hj, h2⟩
    · exact .inl (toEid_congr h2)
    · exact .inr ⟨j, hj, _, hload j hj, toEid_congr (by rw [h2]; simp [EventData.loaded, ht])⟩
  · intro t ht
    rcases hm.iid t ht with h2 | ⟨j, hj, h2⟩
    · exact .inl (toIid_congr h2)
    · exact .inr ⟨j, hj, _, hload j hj, toIid_congr (by rw [h2]; simp [EventData.loaded, ht])⟩
  · intro i x hx
    refine ⟨?_, hm.raised i x hx⟩
    by_contra hno
    rw [(hm.idle i hno).2] at hx
    cases hx

/-- C159: whatever other threads have done so far, finished or not, a call that then runs without another in between leaves the container as
if it had been the only one. -/
theorem C159_alone {d : EventData α φ ε} (h : Reachable d) (calls : Nat → Call α ε) (threads : List Nat)
    (hreg : ∀ i ∈ threads, (calls i).event.Regular ∧ (calls i).event.ncols = d.sEvent) (i : Nat) (hi : i ∉ threads)
    (hregi : (calls i).event.Regular) {di : EventData α φ ε} (h1 : d.setEvent (calls i).event (calls i).ef = .ok di) :
    (schedule calls d (threads ++ List.replicate (Load.Spec.total d.nOtypes d.sEvent) i)).data = di ∧
    (schedule calls d (threads ++ List.replicate (Load.Spec.total d.nOtypes d.sEvent) i)).raised i = none := by
  rw [EventData.setEvent_ok_iff _ h.wf _ hregi] at h1
  obtain ⟨hcols, rfl⟩ := h1
  have hm := mixed_schedule (calls := calls) h.wf threads hreg
  have hsch : schedule calls d (threads ++ List.replicate (Load.Spec.total d.nOtypes d.sEvent) i) =
      (List.replicate (Load.Spec.total d.nOtypes d.sEvent) i).foldl (step calls) (schedule calls d threads) := by
    unfold schedule
    rw [List.foldl_append]
  rw [hsch]
  generalize schedule calls d threads = s at hm ⊢
  have hwf := mixed_wf h.wf hm
  have hcols' : (calls i).event.ncols = s.data.sEvent := by rw [hcols, hm.sEvent]
  obtain ⟨hat, -, hr⟩ := alone_steps (calls := calls) hwf hregi hcols' (hm.idle i hi).1 (hm.idle i hi).2
    (Load.Spec.total d.nOtypes d.sEvent) (by rw [length_program, hm.nOtypes, hm.sEvent]; exact le_refl _)
  refine ⟨?_, hr⟩
  have hf := hat.eventFeature
  have hlt : 3 * s.data.nOtypes + 1 + s.data.sEvent + 1 < Load.Spec.total d.nOtypes d.sEvent := by
    rw [hm.nOtypes, hm.sEvent]; unfold Load.Spec.total; omega
  rw [if_pos hlt] at hf
  rw [at_loaded hwf hregi hcols' hat (by omega), hf]
  unfold EventData.loaded
  rw [hm.nOtypes, hm.sEvent, hm.eventOtypes, hm.feature]

/-! ### Examples -/

/-- Two calls with different events. -/
def exCalls : Nat → Call Nat Nat
  | 0 => ⟨exEvent, none, fun _ _ => 0⟩
  | _ => ⟨⟨3, [[5, 30, 8], [9, 20, 5]]⟩, none, fun _ _ => 0⟩

example : Reachable exLayout ∧ exEvent.Regular ∧ (∃ d1, exLayout.setEvent exEvent (none : Option (List Nat)) = .ok d1) ∧
    Load.Spec.total exLayout.nOtypes exLayout.sEvent = 15 ∧
    (∀ i ∈ (List.replicate 15 [0, 1, 2]).flatten, 15 ≤ (List.replicate 15 [0, 1, 2]).flatten.count i) :=
  ⟨exLayout_reachable, exEvent_regular, ⟨_, rfl⟩, rfl, by decide⟩

example : ∀ i ∈ [0, 1, 1, 0], (exCalls i).event.Regular ∧ (exCalls i).event.ncols = exLayout.sEvent := by
  intro i hi
  simp only [List.mem_cons, List.not_mem_nil, or_false] at hi
  have h0 : (exCalls 0).event.Regular := exEvent_regular
  have h1 : (exCalls 1).event.Regular := by
    intro r hr
    simp only [exCalls, List.mem_cons, List.not_mem_nil, or_false] at hr
    rcases hr with rfl | rfl <;> rfl
  rcases hi with rfl | rfl | rfl | rfl
  · exact ⟨h0, rfl⟩
  · exact ⟨h1, rfl⟩
  · exact ⟨h1, rfl⟩
  · exact ⟨h0, rfl⟩

/-- Calls can fail: the first as it does not find its ids in the tables of the second, the second as the array has become that of the first. -/
example : (schedule exCalls exLayout (List.replicate 9 0 ++ List.replicate 9 1 ++ [0, 0, 0])).raised 0 = some .keyError := by
  decide

example : (schedule exCalls exLayout (List.replicate 10 1 ++ List.replicate 10 0 ++ [1])).raised 1 = some .valueError := by
  decide

example : 2 ∉ [0, 1, 1, 0] ∧ (exCalls 2).event.Regular ∧ ∃ di, exLayout.setEvent (exCalls 2).event (exCalls 2).ef = .ok di :=
  ⟨by decide, by intro r hr; simp only [exCalls, List.mem_cons, List.not_mem_nil, or_false] at hr; rcases hr with rfl | rfl <;> rfl,
    _, rfl⟩

/-- Two calls of which the second has only objects of the first, in a schedule that lets both finish. -/
def exSubset : Nat → Call Nat Nat
  | 0 => ⟨exEvent, none, fun _ _ => 0⟩
  | _ => ⟨⟨3, [[7, 30, 5], [5, 10, 5]]⟩, none, fun _ _ => 0⟩

def exThreads : List Nat := [0, 0, 1, 1, 1, 0] ++ List.replicate 12 0 ++ List.replicate 12 1

theorem exSubset_regular : ∀ i ∈ exThreads, (exSubset i).event.Regular ∧ (exSubset i).event.ncols = exLayout.sEvent := by
  intro i hi
  have h01 : i = 0 ∨ i = 1 := by
    revert i
    decide
  rcases h01 with rfl | rfl
  · exact ⟨exEvent_regular, rfl⟩
  · refine ⟨?_, rfl⟩
    intro r hr
    simp only [exSubset, List.mem_cons, List.not_mem_nil, or_false] at hr
    rcases hr with rfl | rfl <;> rfl

theorem exSubset_finished : ∀ i ∈ exThreads, (schedule exSubset exLayout exThreads).done i = Load.Spec.total exLayout.nOtypes exLayout.sEvent := by
  decide

/-- C159: the expectation "when all calls are finished, the container is the one that one of the calls leaves" is false of the code. -/
theorem C159_refuted :
    ¬ ∀ (d : EventData Nat Nat Nat) (calls : Nat → Call Nat Nat) (threads : List Nat), Reachable d →
      (∀ i ∈ threads, (calls i).event.Regular ∧ (calls i).event.ncols = d.sEvent) →
      (∀ i ∈ threads, (schedule calls d threads).done i = Load.Spec.total d.nOtypes d.sEvent) →
      ∃ i ∈ threads, d.setEvent (calls i).event (calls i).ef = .ok (schedule calls d threads).data := by
  intro hall
  obtain ⟨i, hi, h⟩ := hall exLayout exSubset exThreads exLayout_reachable exSubset_regular exSubset_finished
  have h2 : ∀ i ∈ exThreads, (exLayout.loaded (exSubset i).event.rows (exSubset i).ef).iid[0]? =
      (schedule exSubset exLayout exThreads).data.iid[0]? → (exLayout.loaded (exSubset i).event.rows (exSubset i).ef).eid[0]? ≠
      (schedule exSubset exLayout exThreads).data.eid[0]? := by
    decide
  rw [EventData.setEvent_eq _ exLayout_reachable.wf _ (exSubset_regular i hi).1 (exSubset_regular i hi).2, Except.ok.injEq] at h
  exact h2 i hi (by rw [h]) (by rw [h])

/-- C159: nor are the two conversions then inverse to each other: an id can come back as another one, and the objects of loaded events can
have no external id. -/
theorem C159_refuted_round_trip :
    ¬ ∀ (d : EventData Nat Nat Nat) (calls : Nat → Call Nat Nat) (threads : List Nat), Reachable d →
      (∀ i ∈ threads, (calls i).event.Regular ∧ (calls i).event.ncols = d.sEvent) →
      (∀ i ∈ threads, (schedule calls d threads).done i = Load.Spec.total d.nOtypes d.sEvent) →
      ∀ t < d.nOtypes, ∀ (x i : Nat), (schedule calls d threads).data.toIid t x = .ok i →
        (schedule calls d threads).data.toEid t i = .ok x := by
  intro hall
  have := hall exLayout exSubset exThreads exLayout_reachable exSubset_regular exSubset_finished 0 (by decide) 5 1 rfl
  have h7 : (schedule exSubset exLayout exThreads).data.toEid ((0 : Nat) : Int) ((1 : Nat) : Int) = .ok 7 := rfl
  rw [h7] at this
  cases this

end Threads
end Kam
