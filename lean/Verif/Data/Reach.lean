/-
Every reachable container is well formed; every built container represents its rows.
-/
import Verif.Data.BuiltLemmas

namespace Kam
variable {α φ ε : Type} [LinearOrder α]
namespace EventData

omit [LinearOrder α] in
theorem init_wf {n : Int} {arg : OtypesArg} {d : EventData α φ ε}
    (h : EventData.init n arg = .ok d) : d.WF := by
  unfold EventData.init at h
  split at h
  · cases h
  · rename_i hn
    cases arg with
    | none =>
      simp only [Except.ok.injEq] at h
      subst h
      constructor <;> simp
      omega
    | arr ndim entries =>
      simp only at h
      split at h
      · cases h
      · split at h
        · cases h
        · split at h
          · cases h
          · split at h
            · cases h
            · rename_i h1 h2
              simp only [Except.ok.injEq] at h
              subst h
              constructor <;> simp
              · omega
              · intro t ht
                simp only [List.any_eq_true, decide_eq_true_eq, not_exists, not_and] at h1 h2
                have := h1 t ht
                have := h2 t ht
                omega

theorem setEvent_ok_iff (d : EventData α φ ε) (hwf : d.WF) (event : Arr2 α) (hreg : event.Regular)
    (ef : Option (List ε)) (d' : EventData α φ ε) :
    d.setEvent event ef = .ok d' ↔ event.ncols = d.sEvent ∧ d' = d.loaded event.rows ef := by
  by_cases hc : event.ncols = d.sEvent
  · rw [setEvent_eq d hwf event hreg hc ef]
    simp [hc, eq_comm]
  · rw [setEvent_width d hwf event hc ef]
    simp [hc]

theorem setEvent_error_iff (d : EventData α φ ε) (hwf : d.WF) (event : Arr2 α)
    (hreg : event.Regular) (ef : Option (List ε)) (e : Exc) (d' : EventData α φ ε) :
    d.setEvent event ef = .error (e, d') ↔ event.ncols ≠ d.sEvent ∧ e = .indexError ∧ d' = d := by
  by_cases hc : event.ncols = d.sEvent
  · rw [setEvent_eq d hwf event hreg hc ef]
    simp [hc]
  · rw [setEvent_width d hwf event hc ef]
    simp [hc, eq_comm]

theorem setFeature_ok {d d' : EventData α φ ε} {t : Nat} {eids : List α} {f : List φ}
    (h : d.setFeature t eids f = .ok d') :
    ∃ f', d' = { d with feature := d.feature.set t (some f') } := by
  unfold setFeature at h
  simp only [bind, Except.bind] at h
  split at h
  · cases h
  · split at h
    · cases h
    · split at h
      · cases h
      · rename_i f' _
        simp only [pure, Except.pure, Except.ok.injEq] at h
        exact ⟨f', h.symm⟩

theorem filterOtype_wf {self d d' : EventData α φ ε} {t : Nat} (hwf : d.WF)
    (h : filterOtype self d t = .ok d') : d'.WF ∧ d'.nOtypes = d.nOtypes ∧
      d'.sEvent = d.sEvent ∧ d'.eventOtypes = d.eventOtypes := by
  unfold filterOtype at h
  simp only [bind, Except.bind] at h
  repeat' (split at h; · cases h)
  simp only [pure, Except.pure, Except.ok.injEq] at h
  subst h
  rename_i feat' hfeat
  refine ⟨⟨hwf.pos, by simp [hwf.len_nObjects], by simp [hwf.len_eid], by simp [hwf.len_iid], ?_,
    hwf.len_otypes, hwf.otypes_lt⟩, rfl, rfl, rfl⟩
  simp only
  split at hfeat
  · split at hfeat
    · cases hfeat
    · cases hfeat
      simp [hwf.len_feature]
  · cases hfeat
    exact hwf.len_feature
  · cases hfeat

theorem filterOtype_foldlM_wf (self : EventData α φ ε) (ts : List Nat) (d d' : EventData α φ ε)
    (hwf : d.WF) (h : ts.foldlM (filterOtype self) d = .ok d') : d'.WF := by
  induction ts generalizing d with
  | nil =>
    simp only [List.foldlM_nil, pure, Except.pure, Except.ok.injEq] at h
    subst h; exact hwf
  | cons t ts ih =>
    simp only [List.foldlM_cons, bind, Except.bind] at h
    split at h
    · cases h
    · rename_i d1 h1
      exact ih d1 (filterOtype_wf hwf h1).1 h

theorem filterEvent_wf {d d' : EventData α φ ε} {cond : Sel} (hwf : d.WF)
    (h : d.filterEvent cond = .ok (some d')) : d'.WF := by
  unfold filterEvent at h
  split at h
  · cases h
  · simp only [bind, Except.bind] at h
    split at h
    · cases h
    · split at h
      · cases h
      · rename_i d1 h1
        have hw : d1.WF := by
          refine filterOtype_foldlM_wf d _ _ d1 ?_ h1
          exact ⟨hwf.pos, hwf.len_nObjects, hwf.len_eid, hwf.len_iid, hwf.len_feature,
            hwf.len_otypes, hwf.otypes_lt⟩
        split at h
        · cases h
        · simp only [pure, Except.pure, Except.ok.injEq, Option.some.injEq] at h
          subst h
          exact ⟨hw.pos, hw.len_nObjects, hw.len_eid, hw.len_iid, hw.len_feature,
            hw.len_otypes, hw.otypes_lt⟩

end EventData

open EventData in
theorem Spec.Reachable.wf {d : EventData α φ ε} (h : Spec.Reachable d) : d.WF := by
  induction h with
  | init h => exact init_wf h
  | setEvent _ hreg h ih =>
    rw [setEvent_ok_iff _ ih _ hreg] at h
    rw [h.2]; exact wf_loaded _ ih _ _
  | setEventError _ hreg h ih =>
    rw [setEvent_error_iff _ ih _ hreg] at h
    rw [h.2.2]; exact ih
  | setFeature _ h ih =>
    obtain ⟨f', rfl⟩ := setFeature_ok h
    exact ⟨ih.pos, ih.len_nObjects, ih.len_eid, ih.len_iid, by simp [ih.len_feature],
      ih.len_otypes, ih.otypes_lt⟩
  | filterEvent _ h ih => exact filterEvent_wf ih h

theorem Spec.Built.reachable {d : EventData α φ ε} {rows : List (List α)}
    (h : Spec.Built d rows) : Spec.Reachable d := by
  induction h with
  | load hr hreg _ h => exact .setEvent hr hreg h
  | setFeature _ h ih => exact .setFeature ih h
  | filterEvent _ _ h ih => exact .filterEvent ih h

open EventData in
theorem Spec.Built.holds {d : EventData α φ ε} {rows : List (List α)}
    (h : Spec.Built d rows) : d.Holds rows := by
  induction h with
  | load hr hreg _ h =>
    rw [setEvent_ok_iff _ hr.wf _ hreg] at h
    rw [h.2]
    exact holds_loaded _ hr.wf _ (fun r hx => by rw [hreg r hx, h.1, hr.wf.len_otypes]) _
  | setFeature _ h ih =>
    obtain ⟨f', rfl⟩ := setFeature_ok h
    exact ⟨⟨ih.wf.pos, ih.wf.len_nObjects, ih.wf.len_eid, ih.wf.len_iid,
      by simp [ih.wf.len_feature], ih.wf.len_otypes, ih.wf.otypes_lt⟩, ih.reg, ih.nObjects, ih.eid,
      ih.iid, ih.event, ih.nEvents⟩
  | filterEvent _ hr h ih => exact holds_filterEvent _ _ _ ih _ h _ hr

open EventData in
theorem Spec.Built.eventFeature_length {d : EventData α φ ε} {rows : List (List α)}
    (h : Spec.Built d rows) : ∀ f, d.eventFeature = some f → f.length = rows.length := by
  induction h with
  | load hr hreg hef h =>
    rw [setEvent_ok_iff _ hr.wf _ hreg] at h
    rw [h.2]
    exact hef
  | setFeature _ h ih =>
    obtain ⟨f', rfl⟩ := setFeature_ok h
    exact ih
  | @filterEvent d d' rows rows' cond hb hr h ih =>
    intro f hf
    obtain ⟨js, h1, _, _, _, h5⟩ := filterEvent_gen d d' rows hb.holds cond h
    have hrows : rows' = gather rows js := by
      unfold Sel.apply at hr; rw [h1] at hr; simpa [eq_comm] using hr
    cases hE : d.eventFeature with
    | none => rw [hE] at h5; simp only at h5; rw [h5] at hf; cases hf
    | some g =>
      rw [hE] at h5
      obtain ⟨f', h6, h7⟩ := h5
      rw [h7] at hf
      simp only [Option.some.injEq] at hf
      subst hf
      have hlen := ih g hE
      unfold Sel.apply at h6
      rw [hlen, h1] at h6
      simp only [Except.ok.injEq] at h6
      subst h6
      rw [hrows, length_gather _ _ (by rw [hlen]; exact Sel.positions_lt h1),
        length_gather _ _ (Sel.positions_lt h1)]

end Kam
