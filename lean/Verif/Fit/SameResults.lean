/-
C165: what `fit_results_` says after several calls of `fit` of the same matrix factorization.
-/
import Verif.Fit.SameProps

set_option linter.unusedSectionVars false

namespace Kam
namespace MF
namespace Same

/-- What one would like to have: if all calls have come to their ends, `final_loss` in `fit_results_` is that of the call whose parameters
the recommender holds. -/
def C165_report : Prop :=
  ∀ (opt : Optimizer) (method : String) (kwargs : List (String × String)) (w : World Nat 2 2 1) (threads : List Nat)
    (g : Nat → Nat) (init : Nat → List (Shared Nat 2 2 1 → Res (Shared Nat 2 2 1))) (nEvents : Nat → Nat),
    (∀ i, w.rest i = program (g i) (init i) (nEvents i) method kwargs) → (∀ i, (w.call i).res = none) → (∀ i, w.raised i = none) →
    threads ≠ [] → (∀ i ∈ threads, (interleave opt method kwargs w threads).rest i = []) →
    ∃ i ∈ threads, ∃ x0, Holds (interleave opt method kwargs w threads).self (opt _ (w.call i).loss (w.call i).grad x0 method kwargs).x ∧
      (interleave opt method kwargs w threads).self.results.get? "final_loss" =
        some (.real (opt _ (w.call i).loss (w.call i).grad x0 method kwargs).fn)

/-- An optimizer that gives the loss at 0, also as the mean. -/
noncomputable def repOpt : Optimizer := fun _ f _ _ _ _ => ⟨fun _ => f fun _ => 0, true, 0, "", f fun _ => 0, 1, 1, 1⟩

/-- As `exSame`, with losses that differ between the threads. -/
noncomputable def repSame : World Nat 2 2 1 := { exSame with call := fun i => ⟨fun _ => (i : ℝ), fun _ _ => 0, none⟩ }

/-- Both calls have their results; the second stores its result last, the first writes `fit_results_` last. -/
def repThreads : List Nat := List.replicate 15 0 ++ (List.replicate 15 1 ++ ([0] ++ (List.replicate 19 1 ++ (List.replicate 21 0 ++ List.replicate 3 1))))

set_option maxRecDepth 10000 in
/-- C165: `fit_results_` can be that of another call than the parameters, although no call has raised an exception. -/
theorem C165_report_refuted : ¬ C165_report := by
  intro h
  obtain ⟨i, hi, x0, hh, hl⟩ := h repOpt "CG" [] repSame repThreads id
    (fun _ => initImplicit exRng fun _ _ => 1) (fun _ => 4) (fun _ => rfl) (fun _ => rfl) (fun _ => rfl) (by decide) (by
      intro i hi
      have : i = 0 ∨ i = 1 := by
        revert i
        decide
      rcases this with rfl | rfl
      · rfl
      · rfl)
  have h1 : (interleave repOpt "CG" [] repSame repThreads).self.mu = .own (((1 : Nat) : ℝ)) := rfl
  have h2 : (interleave repOpt "CG" [] repSame repThreads).self.results.get? "final_loss" = some (.real ((0 : Nat) : ℝ)) := rfl
  have h3 := hh.mu
  rw [h1] at h3
  rw [h2] at hl
  have e1 : (unpack (repOpt (size 2 2 1) (repSame.call i).loss (repSame.call i).grad x0 "CG" []).x).mu = (i : ℝ) := rfl
  have e2 : (repOpt (size 2 2 1) (repSame.call i).loss (repSame.call i).grad x0 "CG" []).fn = (i : ℝ) := rfl
  rw [e1] at h3
  rw [e2] at hl
  injection h3 with h3
  injection hl with hl
  injection hl with hl
  rw [← h3] at hl
  norm_num at hl

end Same
end MF
end Kam
