/-
Specification vocabulary for the topic model.
-/
import Verif.PLSA.Model
import Verif.Rec.Spec

namespace Kam
namespace Spec
open scoped BigOperators
open PLSA
variable {n nu ni nl k : Nat}

/-- The joint probability `Pr[X, Y, R] = sum_Z Pr[X|Z] Pr[Y|Z] Pr[R|Z] Pr[Z]` of the documentation
(score_predictor/topic_model.py:83). -/
noncomputable def prob (θ : Theta nu ni nl k) (x : Fin nu) (y : Fin ni) (r : Fin nl) : ℝ :=
  ∑ z, θ.pX x z * θ.pY y z * θ.pR r z * θ.pZ z

/-- Log-likelihood of the training events. -/
noncomputable def logLikelihood (evs : Fin n → Ev nu ni nl) (θ : Theta nu ni nl k) : ℝ :=
  ∑ e, Real.log (prob θ (evs e).user (evs e).item (evs e).level)

/-- The mean negative log-likelihood of the training events. -/
noncomputable def meanLoss (evs : Fin n → Ev nu ni nl) (θ : Theta nu ni nl k) : ℝ := -logLikelihood evs θ / n

/-- The relative change of the loss is below the tolerance (a loss of zero has no relative change). -/
def WithinTol (tol cur pre : ℝ) : Prop := cur ≠ 0 ∧ |cur - pre| < tol * |cur|

/-- Sum of the logarithms of all parameters. -/
noncomputable def logPrior (θ : Theta nu ni nl k) : ℝ :=
  ∑ z, (Real.log (θ.pZ z) + ∑ x, Real.log (θ.pX x z) + ∑ y, Real.log (θ.pY y z) +
    ∑ r, Real.log (θ.pR r z))

/-- A positive probability distribution. -/
def PosDist {m : Nat} (p : Fin m → ℝ) : Prop := (∀ j, 0 < p j) ∧ ∑ j, p j = 1

/-- All parameters are positive distributions. -/
structure Proper (θ : Theta nu ni nl k) : Prop where
  z : PosDist θ.pZ
  x : ∀ z, PosDist (fun j => θ.pX j z)
  y : ∀ z, PosDist (fun j => θ.pY j z)
  r : ∀ z, PosDist (fun j => θ.pR j z)

/-- Probability of level `r` together with the known ones of user and item: an unknown (`none`)
object is summed out. -/
noncomputable def marginal (θ : Theta nu ni nl k) (u : Option (Fin nu)) (i : Option (Fin ni))
    (r : Fin nl) : ℝ :=
  match u, i with
  | some x, some y => prob θ x y r
  | none, some y => ∑ x, prob θ x y r
  | some x, none => ∑ y, prob θ x y r
  | none, none => ∑ x, ∑ y, prob θ x y r

/-- The conditional distribution `Pr[R | X, Y]`, `Pr[R | Y]`, `Pr[R | X]` or `Pr[R]`. -/
noncomputable def conditional (θ : Theta nu ni nl k) (u : Option (Fin nu)) (i : Option (Fin ni))
    (r : Fin nl) : ℝ :=
  marginal θ u i r / ∑ r', marginal θ u i r'

open Classical in
/-- The internal id of an object that occurred in training, `none` for the others. -/
noncomputable def known {α : Type} [LinearOrder α] (rows : List (List α)) (t : Nat) (x : α) :
    Option (Fin (count [0, 1] rows t)) :=
  if h : IsObject [0, 1] rows t x ∧ rank [0, 1] rows t x < count [0, 1] rows t then
    some ⟨rank [0, 1] rows t x, h.2⟩
  else none

/-- `evl` lists the training events with digitized scores that `fit` reads. -/
structure TrainingEvents {γ : Type} (v : View ℝ γ) (evl : List (Ev nu ni nl)) : Prop where
  users : npGet v.nObjects 0 = .ok nu
  items : npGet v.nObjects 1 = .ok ni
  length : evl.length = v.event.length
  ids : ∀ (j : Nat) (row : List Int) (e : Ev nu ni nl), v.event[j]? = some row →
    evl[j]? = some e → npGet row 0 = .ok (e.user : Int) ∧ npGet row 1 = .ok (e.item : Int)
  levels : ∃ dom sc ds, v.scoreDomain = some dom ∧ v.score = some sc ∧ digitize dom sc = .ok ds ∧
    ∀ (j : Nat) (e : Ev nu ni nl), evl[j]? = some e → ds[j]? = some (e.level : Int)

end Spec
end Kam
