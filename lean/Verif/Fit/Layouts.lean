/-
C70: the fit of `ImplicitLogisticPMF` for every layout and every index of two columns.  No new model.
-/
import Verif.Fit.Props
import Verif.Rec.Matrix

set_option linter.unusedSectionVars false

namespace Kam
namespace MF
open Spec
variable {α φ ε γ : Type} [LinearOrder α]

private lemma implicit_train_ok {cf : Config γ} {v : View ℝ γ} {m : List (List Nat)} {nu ni : Nat} {g : γ} (hm : getEventArray v = .ok (m, [nu, ni]))
    (hg : v.rng = some g) (h0 : nu ≠ 1) (h1 : ni ≠ 1) : ∃ res, (implicit cf).train v =
      .ok (store (nu := nu) (ni := ni) (k := cf.k) (cf.opt _ (Implicit.loss cf.C (matOf _ _ m)) (Implicit.gradLoss cf.C (matOf _ _ m))
          (Implicit.initCoef cf.rng g cf.k (matOf _ _ m)).1 cf.method cf.kwargs).x, res) := by
  simp only [implicit, hm, bind, Except.bind, hg, allocate_ok h0 h1, pure, Except.pure]
  exact ⟨_, rfl⟩

/-- C70 for ImplicitLogisticPMF, every layout and index `(a, b)` of two columns `c0` and `c1`, of types `t0` and `t1` (which columns `A` to
`D` are is explained at `C38_exact`): `fit` succeeds exactly when the matrix can be made and neither of its sides is 1, and then the
parameters are what the optimizer returns for the loss and gradient of the matrix that counts the pairs in the columns `A` and `B`. -/
theorem C70_implicit_exact (cf : Config γ) (mk : Int → γ) (env : γ) (r : Rec ℝ α φ ε γ Params Val) {d : EventData α φ ε}
    {rows : List (List α)} (h : Built d rows) (hne : rows ≠ []) {a b : Int} {c0 c1 t0 t1 : Nat}
    (hix : columnsOf d (some [a, b]) = .ok [c0, c1]) (ht0 : d.eventOtypes[c0]? = some t0) (ht1 : d.eventOtypes[c1]? = some t1) :
    ((∃ r', Rec.fitImplicit (implicit cf) mk env r d (some [a, b]) = .ok r') ↔
      ∃ A B C D, Picks c0 c1 a A ∧ Picks c0 c1 b B ∧ Picks c0 c1 (t0 : Int) C ∧ Picks c0 c1 (t1 : Int) D ∧
        HasRoom d.eventOtypes rows A C ∧ HasRoom d.eventOtypes rows B D ∧ Several d.eventOtypes rows C ∧ Several d.eventOtypes rows D) ∧
    ∀ r' A B C D s t u v, Rec.fitImplicit (implicit cf) mk env r d (some [a, b]) = .ok r' → Picks c0 c1 a A → Picks c0 c1 b B →
      Picks c0 c1 (t0 : Int) C → Picks c0 c1 (t1 : Int) D → d.eventOtypes[A]? = some s → d.eventOtypes[B]? = some t →
      d.eventOtypes[C]? = some u → d.eventOtypes[D]? = some v →
      ∃ (m : Implicit.Mat (count d.eventOtypes rows u) (count d.eventOtypes rows v)) (g : γ),
        (∀ x y (i : Fin (count d.eventOtypes rows u)) (j : Fin (count d.eventOtypes rows v)), IsObject d.eventOtypes rows s x →
          IsObject d.eventOtypes rows t y → i.1 = rank d.eventOtypes rows s x → j.1 = rank d.eventOtypes rows t y →
          m i j = rows.countP (fun row => decide (row[A]? = some x ∧ row[B]? = some y))) ∧
        r'.params = some (store (nu := count d.eventOtypes rows u) (ni := count d.eventOtypes rows v)
          (k := cf.k) (cf.opt _ (Implicit.loss cf.C m) (Implicit.gradLoss cf.C m)
            (Implicit.initCoef cf.rng g cf.k m).1 cf.method cf.kwargs).x) := by
  have hd := h.holds
  have hfit := eventFit_eq mk env r hd _ _ hix
  obtain ⟨hiff, hval⟩ := C38_exact mk env r h hne hix ht0 ht1 hfit
  obtain ⟨_, _, hv, _⟩ := view_sees mk env r h _ c0 c1 hix
  obtain ⟨g, hg⟩ := hv.rng
  have lt : ∀ {A i}, Picks c0 c1 i A → ∃ s, d.eventOtypes[A]? = some s := by
    intro A i hA
    rcases hA.or with rfl | rfl
    · exact ⟨_, ht0⟩
    · exact ⟨_, ht1⟩
  have hfi : Rec.fitImplicit (implicit cf) mk env r d (some [a, b]) =
      Rec.finish (implicit cf) (fittedInfo mk env r d rows (some [a, b]) [c0, c1]) := by
    unfold Rec.fitImplicit
    simp only [hfit]
  have hinv : ∀ r', Rec.fitImplicit (implicit cf) mk env r d (some [a, b]) = .ok r' →
      ∃ m ns, getEventArray (fittedInfo mk env r d rows (some [a, b]) [c0, c1]).view = .ok (m, ns) ∧
        ∀ nu ni, ns = [nu, ni] → nu ≠ 1 ∧ ni ≠ 1 := by
    intro r' hr'
    rw [hfi] at hr'
    cases hm : getEventArray (fittedInfo mk env r d rows (some [a, b]) [c0, c1]).view with
    | error e =>
      have : (implicit cf).train (fittedInfo mk env r d rows (some [a, b]) [c0, c1]).view = .error e := by
        simp only [implicit, hm, bind, Except.bind]
      rw [finish_error this] at hr'
      cases hr'
    | ok x =>
      obtain ⟨m, ns⟩ := x
      refine ⟨m, ns, rfl, ?_⟩
      rintro nu ni rfl
      by_contra hcon
      have hone : nu = 1 ∨ ni = 1 := by by_contra k; rw [not_or] at k; exact hcon k
      have : (implicit cf).train (fittedInfo mk env r d rows (some [a, b]) [c0, c1]).view = .error .typeError := by
        simp only [implicit, hm, bind, Except.bind, hg, allocate_one hone]
      rw [finish_error this] at hr'
      cases hr'
  refine ⟨⟨?_, ?_⟩, ?_⟩
  · rintro ⟨r', hr'⟩
    obtain ⟨m, ns, hm, hns⟩ := hinv r' hr'
    obtain ⟨A, B, C, D, hA, hB, hC, hD, k1, k2⟩ := hiff.1 ⟨m, ns, hm⟩
    obtain ⟨s, eA⟩ := lt hA
    obtain ⟨t, eB⟩ := lt hB
    obtain ⟨u, eC⟩ := lt hC
    obtain ⟨v, eD⟩ := lt hD
    obtain ⟨e, _⟩ := hval m ns A B C D s t u v hm hA hB hC hD eA eB eC eD
    obtain ⟨n1, n2⟩ := hns _ _ e
    refine ⟨A, B, C, D, hA, hB, hC, hD, k1, k2, fun u' hu' => ?_, fun v' hv' => ?_⟩
    · rw [eC] at hu'; cases hu'; exact n1
    · rw [eD] at hv'; cases hv'; exact n2
  · rintro ⟨A, B, C, D, hA, hB, hC, hD, k1, k2, s1, s2⟩
    obtain ⟨s, eA⟩ := lt hA
    obtain ⟨t, eB⟩ := lt hB
    obtain ⟨u, eC⟩ := lt hC
    obtain ⟨v, eD⟩ := lt hD
    obtain ⟨m, ns, hm⟩ := hiff.2 ⟨A, B, C, D, hA, hB, hC, hD, k1, k2⟩
    obtain ⟨e, _⟩ := hval m ns A B C D s t u v hm hA hB hC hD eA eB eC eD
    subst e
    obtain ⟨res, htr⟩ := implicit_train_ok (cf := cf) hm hg (s1 u eC) (s2 v eD)
    obtain ⟨r', h3, _⟩ := finish_of_train htr
    exact ⟨r', by rw [hfi]; exact h3⟩
  · intro r' A B C D s t u v hr' hA hB hC hD eA eB eC eD
    obtain ⟨m, ns, hm, hns⟩ := hinv r' hr'
    obtain ⟨e, _, _, hcnt⟩ := hval m ns A B C D s t u v hm hA hB hC hD eA eB eC eD
    subst e
    obtain ⟨n1, n2⟩ := hns _ _ rfl
    obtain ⟨res, htr⟩ := implicit_train_ok (cf := cf) hm hg n1 n2
    obtain ⟨r'', h3, hp⟩ := finish_of_train htr
    rw [hfi] at hr'
    have : r'' = r' := by
      have := h3.symm.trans hr'
      cases this
      rfl
    subst this
    refine ⟨matOf _ _ m, g, ?_, hp⟩
    intro x y i j hx hy hi hj
    obtain ⟨mr, g1, g2⟩ := hcnt x y hx hy (hi ▸ i.2) (hj ▸ j.2)
    unfold matOf
    rw [hi, hj]
    simp [List.getD, g1, g2]

/-- The conditions can be met, with the columns exchanged: two users and two items, index `(1, 0)`. -/
example : ∃ r', Rec.fitImplicit (implicit (γ := Unit) ⟨1, 1, "CG", [], fun _ f _ x0 _ _ => ⟨x0, true, 0, "", f x0, 1, 1, 1⟩,
    ⟨fun _ _ _ _ _ => (fun _ _ => 1, ())⟩⟩) (fun _ => ()) () (Rec.init none initialResults) exSquare (some [1, 0]) = .ok r' := by
  have room : ∀ c, HasRoom exSquare.eventOtypes [[1, 10], [2, 20]] c c := by
    intro c s u hs hu row hr x hx
    rw [hs] at hu
    cases hu
    rw [← idxOf_ids _ _ _ _ ⟨row, hr, c, hs, hx⟩, ← length_ids]
    exact List.idxOf_lt_length_iff.2 ((mem_ids _ _ _ _).2 ⟨row, hr, c, hs, hx⟩)
  have hcol : columnsOf exSquare (some [1, 0]) = .ok [1, 0] := rfl
  refine (C70_implicit_exact _ _ _ _ exSquare_built (by simp) hcol (t0 := 1) (t1 := 0) rfl rfl).1.2
    ⟨0, 1, 0, 1, .second, .first, .second, .first, room 0, room 1, exScores_several 0, exScores_several 1⟩

end MF
end Kam
