/-
C155, continued: the first call of `fit` interrupted within the allocation, and the entry `success` of `fit_results_`.
-/
import Verif.Fit.Interrupt

set_option linter.unusedSectionVars false

namespace Kam
open Spec
namespace MF
namespace Steps

variable {α φ ε γ : Type} [LinearOrder α] {nu ni k : Nat}

lemma rawScore_none {o : Obj γ nu ni k} (hq : o.q = .none) (row : List Int) : ∃ e, rawScore o row = .error e := by
  unfold rawScore
  rw [hq]
  have step : ∀ {β : Type} (x : Res β) (f : β → Res ℝ), (∀ b, ∃ e, f b = .error e) → ∃ e, (x >>= f) = .error e := by
    intro β x f hf
    cases x with
    | error e => exact ⟨e, rfl⟩
    | ok b => exact hf b
  exact step _ _ fun _ => step _ _ fun _ => step _ _ fun _ => step _ _ fun _ => step _ _ fun _ => step _ _ fun _ => step _ _ fun _ =>
    step _ _ fun _ => step _ _ fun _ => ⟨.typeError, rfl⟩

/-- C155: a new recommender whose first call of `fit` stops before all attributes have been assigned raises in `predict`. -/
theorem C155_new {mk : Int → γ} {env : γ} {d : EventData α φ ε} {rows : List (List α)} (h : Built d rows)
    (hlay : d.eventOtypes = [0, 1]) {idx : Option (List Int)} (hidx : idx = none ∨ idx = some [0, 1]) (link : ℝ → ℝ)
    {r r1 : Rec ℝ α φ ε γ (Obj γ (count [0, 1] rows 0) (count [0, 1] rows 1) k) Val} (hfit : Rec.eventFit mk env r d idx = .ok r1)
    {o0 o : Obj γ (count [0, 1] rows 0) (count [0, 1] rows 1) k} (hnew : o0.q = .none) (hl : Leaves (allocation.take 5) o0 o)
    (a : Arr2 α) (hreg : a.Regular) (hc : a.ncols = 2) (hne : a.rows ≠ []) :
    ∃ e, Rec.predict (learner link) { r1 with params := some o } (.mat a) = .error e := by
  obtain ⟨hrow, hpr⟩ := predict_obj (link := link) h hlay hidx hfit o a hreg hc hne
  have hq : o.q = .none := by
    have key : ∀ {l : List (Stmt γ (count [0, 1] rows 0) (count [0, 1] rows 1) k)} {x y}, Leaves l x y →
        (∀ s ∈ l, ∀ u v, s u = .ok v → v.q = u.q) → y.q = x.q := by
      intro l x y hl
      induction hl with
      | here => intro _; rfl
      | step hs _ ih => intro hk; exact (ih fun s hs' => hk s (by simp [hs'])).trans (hk _ (by simp) _ _ hs)
    rw [key hl, hnew]
    intro s hs u v huv
    simp only [allocation, List.take_succ_cons, List.take_zero, List.mem_cons, List.not_mem_nil, or_false] at hs
    rcases hs with rfl | rfl | rfl | rfl | rfl <;> cases huv <;> rfl
  rw [hpr]
  rcases hrows : a.rows with _ | ⟨row, l⟩
  · exact absurd hrows hne
  · obtain ⟨x, i, rfl⟩ := hrow row (by rw [hrows]; simp)
    obtain ⟨e, he⟩ := rawScore_none hq [lookup [0, 1] rows 0 x, lookup [0, 1] rows 1 i]
    refine ⟨e, ?_⟩
    have : rowScore link o rows [x, i] = .error e := by
      show (rawScore _ _).map _ = _
      rw [he]
      rfl
    rw [List.mapM_cons, this]
    rfl

/-! ### `success` -/

/-- A statement that keeps the entry `success`. -/
def Silent (s : Stmt γ nu ni k) : Prop := ∀ o o', s o = .ok o' → o'.results.get? "success" = o.results.get? "success"

lemma leaves_silent {l : List (Stmt γ nu ni k)} (hq : ∀ s ∈ l, Silent s) {o o' : Obj γ nu ni k} (h : Leaves l o o') :
    o'.results.get? "success" = o.results.get? "success" := by
  induction h with
  | here => rfl
  | step hs _ ih => exact (ih fun s hs' => hq s (by simp [hs'])).trans (hq _ (by simp) _ _ hs)

private lemma bind_ok {β δ : Type} {x : Res β} {f : β → Res δ} {y : δ} (h : (x >>= f) = .ok y) : ∃ a, x = .ok a ∧ f a = .ok y := by
  cases x with
  | error e => cases h
  | ok a => exact ⟨a, rfl, h⟩

lemma silent_explicit (R : Rng γ) (sd : Views nu ni k → ℝ) (evs : List (Event nu ni)) : ∀ s ∈ initExplicit R sd evs, Silent s := by
  intro s hs
  simp only [initExplicit, List.mem_cons, List.mem_append, List.mem_map, List.not_mem_nil, or_false] at hs
  rcases hs with rfl | ⟨u, _, rfl⟩ | ⟨i, _, rfl⟩ | rfl | rfl
  · rintro o o' ⟨⟩; rfl
  · intro o o' h
    unfold setUser at h
    simp only at h
    split at h
    · obtain ⟨_, _, h⟩ := bind_ok h
      cases h; rfl
    · cases h; rfl
  · intro o o' h
    unfold setItem at h
    simp only at h
    split at h
    · obtain ⟨_, _, h⟩ := bind_ok h
      cases h; rfl
    · cases h; rfl
  · rintro o o' ⟨⟩; rfl
  · rintro o o' ⟨⟩; rfl

lemma silent_implicit (R : Rng γ) (m : Implicit.Mat nu ni) : ∀ s ∈ initImplicit (k := k) R m, Silent s := by
  intro s hs
  simp only [initImplicit, List.mem_cons, List.not_mem_nil, or_false] at hs
  rcases hs with rfl | rfl | rfl | rfl | rfl
  · rintro o o' ⟨⟩; rfl
  · intro o o' h
    obtain ⟨_, _, h⟩ := bind_ok h
    cases h; rfl
  · intro o o' h
    obtain ⟨_, _, h⟩ := bind_ok h
    cases h; rfl
  · rintro o o' ⟨⟩; rfl
  · rintro o o' ⟨⟩; rfl

lemma Variant.silent {cf : Config γ} {g : γ} {init : List (Stmt γ nu ni cf.k)} {loss grad link c0}
    (h : Variant cf g init loss grad link c0) : ∀ s ∈ init, Silent s := by
  cases h with
  | pmf evs _ => exact silent_explicit _ _ _
  | logistic evs _ => exact silent_explicit _ _ _
  | implicit m => exact silent_implicit _ _

lemma silent_record {key : String} (hk : key ≠ "success") (f : OptResult (size nu ni k) → Val) : Silent (record (γ := γ) key f) := by
  intro o o' h
  unfold record at h
  split at h
  · cases h
    show (Dict.set _ _ _).get? _ = _
    rw [Dict.get?_set, if_neg hk]
  · cases h

lemma completes_unique {l : List (Stmt γ nu ni k)} {o a b : Obj γ nu ni k} (ha : Completes l o a) (hb : Completes l o b) : a = b := by
  induction ha with
  | nil => cases hb; rfl
  | step hs _ ih =>
    cases hb with
    | step hs' hb =>
      rw [hs] at hs'
      cases hs'
      exact ih hb

/-- C155: `success` appears in `fit_results_`, or changes there, only when what is used for predictions is final. -/
theorem C155_success {cf : Config γ} {g : γ} {init : List (Stmt γ nu ni cf.k)} {loss grad link c0}
    (hv : Variant cf g init loss grad link c0) {nEvents : Nat} {o0 o oc : Obj γ nu ni cf.k}
    (hl : Leaves (program cf nEvents init loss grad) o0 o) (hc : Completes (program cf nEvents init loss grad) o0 oc)
    (h : o.results.get? "success" ≠ o0.results.get? "success") :
    o.mu = oc.mu ∧ o.bu = oc.bu ∧ o.bi = oc.bi ∧ o.p = oc.p ∧ o.q = oc.q := by
  have e : program cf nEvents init loss grad =
      (allocation ++ (init ++ (optimization cf.method cf.kwargs cf.opt loss grad ++ (copyBack :: (extension ++
        (recording nEvents cf.method cf.kwargs).take 4))))) ++ (recording nEvents cf.method cf.kwargs).drop 4 := by
    unfold program
    simp only [List.append_assoc, List.cons_append, List.take_append_drop]
  rw [e] at hl hc
  rcases leaves_append hl with hl | ⟨m, h1, h2⟩
  · refine absurd (leaves_silent ?_ hl) h
    intro s hs
    simp only [List.mem_append, List.mem_cons] at hs
    rcases hs with hs | hs | hs | rfl | hs | hs
    · simp only [allocation, List.mem_cons, List.not_mem_nil, or_false] at hs
      rcases hs with rfl | rfl | rfl | rfl | rfl | rfl <;> (rintro o o' ⟨⟩; rfl)
    · exact hv.silent s hs
    · simp only [optimization, List.mem_cons, List.not_mem_nil, or_false] at hs
      rcases hs with rfl | rfl
      · rintro o o' ⟨⟩
        show (Dict.set _ _ _).get? _ = _
        rw [Dict.get?_set, if_neg (by decide)]
      · rintro o o' ⟨⟩; rfl
    · intro o o' h
      unfold copyBack at h
      split at h
      · cases h; rfl
      · cases h
    · simp only [extension, List.mem_cons, List.not_mem_nil, or_false] at hs
      rcases hs with rfl | rfl | rfl | rfl | rfl <;> (rintro o o' ⟨⟩; rfl)
    · simp only [recording, List.take_succ_cons, List.take_zero, List.mem_cons, List.not_mem_nil, or_false] at hs
      rcases hs with rfl | rfl | rfl | rfl <;> exact silent_record (by decide) _
  · obtain ⟨m', h3, h4⟩ := completes_append.1 hc
    cases completes_unique h1 h3
    have q : ∀ s ∈ (recording (γ := γ) (nu := nu) (ni := ni) (k := cf.k) nEvents cf.method cf.kwargs).drop 4, Quiet s := fun s hs =>
      quiet_recording _ _ _ s (List.mem_of_mem_drop hs)
    obtain ⟨a1, a2, a3, a4, a5⟩ := leaves_same q h2
    obtain ⟨b1, b2, b3, b4, b5⟩ := leaves_same q (completes_leaves h4)
    exact ⟨a1.trans b1.symm, a2.trans b2.symm, a3.trans b3.symm, a4.trans b4.symm, a5.trans b5.symm⟩

/-- A new recommender, interrupted after two statements. -/
example : ∃ r1 o, Rec.eventFit (fun _ => ()) () (Rec.init none [] : Rec ℝ Nat Nat Nat Unit
      (Obj Unit (count [0, 1] [[1, 10], [2, 20]] 0) (count [0, 1] [[1, 10], [2, 20]] 1) exConfig.k) Val) exSquare none = .ok r1 ∧
    Leaves (allocation.take 5) exStart o ∧ o.mu = .view ∧
    ∃ e, Rec.predict (learner id) { r1 with params := some o } (.mat ⟨2, [[1, 10]]⟩) = .error e := by
  have hl : Leaves (allocation.take 5) exStart { exStart with coef := ⟨0, fun _ => 0, fun _ => 0, fun _ _ => 0, fun _ _ => 0⟩, mu := .view } :=
    .step rfl (.step rfl .here)
  exact ⟨_, _, rfl, hl, rfl, C155_new exSquare_built rfl (.inl rfl) id rfl rfl hl ⟨2, [[1, 10]]⟩
    (by intro r hr; rw [List.mem_singleton.1 hr]; rfl) rfl (by simp)⟩

/-- After a complete call the entry is there. -/
example : ∃ o, Completes (program exConfig 2 (initExplicit exConfig.rng (residual exEvents) exEvents) (PMF.loss exConfig.C exEvents)
      (PMF.gradLoss exConfig.C exEvents)) exStart o ∧ o.results.get? "success" ≠ exStart.results.get? "success" := by
  obtain ⟨o, ho⟩ := C155_runs exVariant 2 exStart (by rw [exCount 0 (by omega)]; omega) (by rw [exCount 1 (by omega)]; omega)
  refine ⟨o, ho, ?_⟩
  rw [(C155_completed exVariant rfl ho).2.2.2.2.2]
  intro h
  cases h

end Steps
end MF
end Kam
