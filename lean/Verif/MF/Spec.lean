/-
Specification vocabulary for the matrix factorization models.
-/
import Verif.MF.Model
import Mathlib.Analysis.Calculus.FDeriv.Basic

namespace Kam
namespace Spec
open scoped BigOperators

/-- `g` is the gradient of `f` at `c`: the Frechet derivative of `f` at `c` in direction `v` is the
inner product of `g` and `v`. -/
def IsGradient {N : Nat} (f : (Fin N → ℝ) → ℝ) (g c : Fin N → ℝ) : Prop :=
  ∃ D : (Fin N → ℝ) →L[ℝ] ℝ, HasFDerivAt f D c ∧ ∀ v, D v = ∑ j, g j * v j

/-- The request row of an event. -/
def evRow {nu ni : Nat} (e : MF.Event nu ni) : List Int := [(e.user : Int), (e.item : Int)]

/-- All user-item pairs, scored by a matrix. -/
def allPairs {nu ni : Nat} (m : Fin nu → Fin ni → Nat) : List (MF.Event nu ni) :=
  (List.finRange nu).flatMap (fun u => (List.finRange ni).map (fun i => ⟨u, i, (m u i : ℝ)⟩))

end Spec
end Kam
