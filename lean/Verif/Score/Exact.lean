/-
C12, C17: exactly when reloading forgets everything, and when observed scores are digitized into range.
-/
import Verif.Score.Props
import Verif.Data.Props2

set_option linter.unusedSectionVars false

namespace Kam
open Spec

section
variable {α φ ε : Type} [LinearOrder α]

/-- C12, exactly: a load on a used container gives what it gives on a fresh one of the same layout if and only if
the used container has no object features. -/
theorem C12_iff {n : Int} {arg : OtypesArg} {d0 d1 d d' : EventData α φ ε} (h0 : EventData.init n arg = .ok d0) (h1 : Reachable d1)
    (hn : d1.nOtypes = d0.nOtypes) (ho : d1.eventOtypes = d0.eventOtypes) (event : Arr2 α) (hreg : event.Regular)
    (ef : Option (List ε)) (h : d0.setEvent event ef = .ok d) (h' : d1.setEvent event ef = .ok d') :
    d' = d ↔ ∀ f ∈ d1.feature, f = none := by
  obtain ⟨e, hf⟩ := C12_reload_partial (.init h0) h1 hn ho event hreg ef h
  rw [h'] at e
  cases e
  have hfresh : d0.feature = List.replicate d0.nOtypes none := by
    clear hn ho h hf h'
    unfold EventData.init at h0
    split at h0
    · cases h0
    · cases arg with
      | none => cases h0; rfl
      | arr ndim entries =>
        simp only at h0
        repeat' split at h0
        all_goals cases h0
        rfl
  have hl : d1.feature.length = d0.nOtypes := by rw [h1.wf.len_feature, hn]
  constructor
  · intro e f hfm
    have e' := congrArg EventData.feature e
    simp only at e'
    rw [e', hf, hfresh] at hfm
    exact List.eq_of_mem_replicate hfm
  · intro hall
    have : d1.feature = d.feature := by
      rw [hf, hfresh]
      exact List.eq_replicate_iff.2 ⟨hl, hall⟩
    rw [this]
end

section
variable {K α φ ε : Type} [Field K] [LinearOrder K] [IsStrictOrderedRing K] [FloorRing K] [LinearOrder α]

/-- C17, exactly: with an estimated domain the observed scores are digitized into range if and only if the range of the
scores exceeds a multiple of the stride by less than half a stride. -/
theorem C17_iff {d0 d : ScoreData K α φ ε} (hr : Reachable d0.toEventData) {event : Arr2 α} (hreg : event.Regular)
    (hw : event.ncols = d0.sEvent) {sc : List K} {ef : Option (List ε)} (h : d0.setEvent event sc none ef = .ok d)
    {lo hi st : K} {n : Int} (hd : d.scoreDomain = some [lo, hi, st]) (hn : d.nScoreLevels = some n) :
    (∃ ds, d.digitizeScore none = .ok ds ∧ ∀ v ∈ ds, 0 ≤ v ∧ v < n) ↔
      ∃ m : Nat, lo + (m : K) * st ≤ hi ∧ hi < lo + (m : K) * st + st / 2 := by
  obtain ⟨c1, c2⟩ := C17_estimated_domain_partial d0 hr event hreg hw sc ef
  have hne : ∃ x ∈ sc, ∃ y ∈ sc, x ≠ y := by
    by_contra hcon
    push Not at hcon
    obtain ⟨d', hd'⟩ := c2 hcon
    rw [h] at hd'
    cases hd'
  obtain ⟨d2, lo', hi', st', e1, e2, ⟨l1, l2⟩, ⟨u1, u2⟩, _, _, e3, hst, _⟩ := c1 hne
  rw [h] at e1
  cases e1
  rw [hd] at e2
  cases e2
  rw [hn] at e3
  cases e3
  have hs : d.score = some sc := by
    unfold ScoreData.setEvent at h
    split at h
    · cases h
    · split at h
      · cases h
      · split at h
        · cases h
        · cases h; rfl
  have hdig : d.digitizeScore none = d.digitizeScore (some sc) := by
    unfold ScoreData.digitizeScore
    rw [hs]
  rw [hdig, digitizeScore_eq d lo hi st hst [] hd sc]
  have hlh : lo ≤ hi := l2 hi u1
  have hq0 : 0 ≤ (hi - lo) / st := div_nonneg (by linarith) hst.le
  set q := (hi - lo) / st with hq
  have hhi : hi = lo + q * st := by rw [hq]; field_simp; ring
  have hf0 : 0 ≤ ⌊q⌋ := Int.floor_nonneg.2 hq0
  constructor
  · rintro ⟨ds, hds, hall⟩
    cases hds
    have hbig := (hall _ (List.mem_map_of_mem (f := fun x => ((min ⌈q⌉.toNat ⌊(x - lo) / st + 1 / 2⌋.toNat : Nat) : Int)) u1)).2
    rw [← hq] at hbig
    refine ⟨⌊q⌋.toNat, ?_, ?_⟩
    · have e : ((⌊q⌋.toNat : Nat) : K) = (⌊q⌋ : K) := by
        have : ((⌊q⌋.toNat : Nat) : Int) = ⌊q⌋ := Int.toNat_of_nonneg hf0
        exact_mod_cast congrArg (Int.cast : Int → K) this
      rw [e]
      have := Int.floor_le q
      nlinarith
    · have e : ((⌊q⌋.toNat : Nat) : K) = (⌊q⌋ : K) := by
        have : ((⌊q⌋.toNat : Nat) : Int) = ⌊q⌋ := Int.toNat_of_nonneg hf0
        exact_mod_cast congrArg (Int.cast : Int → K) this
      rw [e]
      by_contra hcon
      push Not at hcon
      have h1 : (⌊q⌋ : K) + 1 / 2 ≤ q := by
        have : ((⌊q⌋ : K) + 1 / 2) * st ≤ q * st := by nlinarith
        exact le_of_mul_le_mul_right this hst
      have h2 : ⌊q⌋ + 1 ≤ ⌊q + 1 / 2⌋ := by
        rw [Int.le_floor]; push_cast; linarith [show (1 / 2 : K) + 1 / 2 = 1 by norm_num]
      have h3 : ⌊q⌋ + 1 ≤ ⌈q⌉ := by
        rw [Int.add_one_le_iff, Int.lt_ceil]
        linarith [show (0 : K) < 1 / 2 by norm_num]
      omega
  · rintro ⟨m, hm1, hm2⟩
    refine ⟨_, rfl, ?_⟩
    have hfl : ⌊q⌋ = m := by
      rw [Int.floor_eq_iff]
      constructor
      · have : ((m : Int) : K) * st ≤ q * st := by push_cast; linarith
        exact le_of_mul_le_mul_right this hst
      · have : q * st < (((m : Int) : K) + 1) * st := by push_cast; nlinarith
        exact lt_of_mul_lt_mul_right this hst.le
    have hfl2 : ⌊q + 1 / 2⌋ ≤ m := by
      rw [← Int.lt_add_one_iff, Int.floor_lt]
      have : q * st < ((m : K) + 1 / 2) * st := by nlinarith
      have := lt_of_mul_lt_mul_right this hst.le
      push_cast
      linarith [show (1 / 2 : K) + 1 / 2 = 1 by norm_num]
    intro v hv
    obtain ⟨x, hx, rfl⟩ := List.mem_map.1 hv
    refine ⟨Int.natCast_nonneg _, ?_⟩
    have : ⌊(x - lo) / st + 1 / 2⌋ ≤ ⌊q + 1 / 2⌋ := by
      apply Int.floor_le_floor
      have := div_le_div_of_nonneg_right (sub_le_sub_right (u2 x hx) lo) hst.le
      linarith
    omega

/-- The scores 0, 2 and 5 are estimated to the domain (0, 5, 2), which exceeds a multiple of the stride by half a stride. -/
example : Reachable exScoreLayout.toEventData ∧ exEvent3.Regular ∧ exEvent3.ncols = exScoreLayout.sEvent ∧
    exIrregular.scoreDomain = some [0, 5, 2] ∧ exIrregular.nScoreLevels = some 3 :=
  ⟨exLayout_reachable, exEvent3_regular, rfl, rfl, rfl⟩

/-- A fresh container and a used one with the features of an earlier load. -/
example : (EventData.init 3 (.arr 1 [0, 2, 0]) : Res (EventData Nat Nat Nat)) = .ok exLayout ∧ Reachable exLoaded ∧
    exLoaded.nOtypes = exLayout.nOtypes ∧ exLoaded.eventOtypes = exLayout.eventOtypes ∧ exEvent.Regular ∧
    (∃ d, exLayout.setEvent exEvent none = .ok d) ∧ ∃ d', exLoaded.setEvent exEvent none = .ok d' :=
  ⟨rfl, exLoaded_built.reachable, rfl, rfl, exEvent_regular,
    ⟨_, EventData.setEvent_eq _ exLayout_reachable.wf _ exEvent_regular rfl _⟩,
    ⟨_, EventData.setEvent_eq _ exLoaded_built.reachable.wf _ exEvent_regular rfl _⟩⟩

end
end Kam
