/-
C155, continued: a later call of `fit` interrupted within the allocation.  The attributes are replaced one after another by views of an
array of zeros, so that predictions mix parameters of the earlier call with zeros.
-/
import Verif.Fit.Interrupt2

set_option linter.unusedSectionVars false

namespace Kam
open Spec
namespace MF
namespace Steps

variable {α φ ε γ : Type} [LinearOrder α] {nu ni k : Nat}

/-! ### Specification -/

/-- The entry `r` of an array that may have been replaced by `n` zeros. -/
def Entry {β : Type} (replaced : Prop) [Decidable replaced] (old : List β) (n : Nat) (zero : β) (r : Nat) : Option β :=
  if replaced then (if r < n then some zero else none) else old[r]?

/-- The prediction for a pair after `j` of the six statements of the allocation: the mean, user biases, item biases, user factors and item
factors are those of the earlier call or zero. -/
def Mixed (link : ℝ → ℝ) (rows : List (List α)) (k j : Nat) (mu0 : ℝ) (bu0 bi0 : List ℝ) (p0 q0 : List (List ℝ)) (row : List α) (y : ℝ) :
    Prop :=
  ∃ x i, ∃ u v : Nat, row = [x, i] ∧ lookup [0, 1] rows 0 x = u ∧ lookup [0, 1] rows 1 i = v ∧ ∃ bu bi p q,
    Entry (3 ≤ j) bu0 (count [0, 1] rows 0) 0 u = some bu ∧ Entry (4 ≤ j) bi0 (count [0, 1] rows 1) 0 v = some bi ∧
    Entry (5 ≤ j) p0 (count [0, 1] rows 0) (List.replicate k 0) u = some p ∧
    Entry (6 ≤ j) q0 (count [0, 1] rows 1) (List.replicate k 0) v = some q ∧
    y = link ((if 2 ≤ j then 0 else mu0) + bu + bi + (List.zipWith (· * ·) p q).sum)

/-! ### Lemmas -/

lemma allocation_at {o0 o : Obj γ nu ni k} (hu : nu ≠ 1) (hi : ni ≠ 1) (h : Leaves allocation o0 o) :
    ∃ j ≤ 6, o.mu = (if 2 ≤ j then .view else o0.mu) ∧ o.bu = (if 3 ≤ j then .view else o0.bu) ∧
      o.bi = (if 4 ≤ j then .view else o0.bi) ∧ o.p = (if 5 ≤ j then .view else o0.p) ∧ o.q = (if 6 ≤ j then .view else o0.q) ∧
      (1 ≤ j → o.coef = ⟨0, fun _ => 0, fun _ => 0, fun _ _ => 0, fun _ _ => 0⟩) := by
  unfold allocation at h
  rw [if_neg hu, if_neg hi] at h
  cases h with
  | here => exact ⟨0, by omega, rfl, rfl, rfl, rfl, rfl, by omega⟩
  | step h1 h =>
    cases h1
    cases h with
    | here => exact ⟨1, by omega, rfl, rfl, rfl, rfl, rfl, fun _ => rfl⟩
    | step h1 h =>
      cases h1
      cases h with
      | here => exact ⟨2, by omega, rfl, rfl, rfl, rfl, rfl, fun _ => rfl⟩
      | step h1 h =>
        cases h1
        cases h with
        | here => exact ⟨3, by omega, rfl, rfl, rfl, rfl, rfl, fun _ => rfl⟩
        | step h1 h =>
          cases h1
          cases h with
          | here => exact ⟨4, by omega, rfl, rfl, rfl, rfl, rfl, fun _ => rfl⟩
          | step h1 h =>
            cases h1
            cases h with
            | here => exact ⟨5, by omega, rfl, rfl, rfl, rfl, rfl, fun _ => rfl⟩
            | step h1 h =>
              cases h1
              cases h with
              | here => exact ⟨6, by omega, rfl, rfl, rfl, rfl, rfl, fun _ => rfl⟩

lemma read_entry {β : Type} {R : Prop} [Decidable R] {a : Attr (List β)} {old v : List β} {n : Nat} {zero : β}
    (ha : a = if R then .view else .own old) (hv : R → v = List.replicate n zero) (r : Nat) :
    ∃ l, a.read v = .ok l ∧ npGet l (r : Int) = match Entry R old n zero r with | some b => .ok b | none => .error .indexError := by
  have npg : ∀ l : List β, npGet l (r : Int) = match l[r]? with | some b => .ok b | none => .error .indexError := by
    intro l
    rcases lt_or_ge r l.length with hr | hr
    · rw [npGet_ofNat l r hr, List.getElem?_eq_getElem hr]
    · rw [npGet_of_ge l r (by omega), List.getElem?_eq_none hr]
  unfold Entry
  by_cases hR : R
  · rw [if_pos hR] at ha ⊢
    refine ⟨v, by rw [ha]; rfl, ?_⟩
    rw [npg, hv hR, List.getElem?_replicate]
  · rw [if_neg hR] at ha ⊢
    exact ⟨old, by rw [ha]; rfl, npg old⟩

/-- C155: a call of `fit` of a trained recommender that stops within the allocation of the parameters.  `predict` then computes with a
mixture: what has been replaced counts as zero, the rest is what the earlier call learned.  It raises `IndexError` exactly if an array
lacks an entry for a requested object: an old array, because the new data have more objects, or a new one, because the object is unknown. -/
theorem C155_again {mk : Int → γ} {env : γ} {d : EventData α φ ε} {rows : List (List α)} (h : Built d rows)
    (hlay : d.eventOtypes = [0, 1]) {idx : Option (List Int)} (hidx : idx = none ∨ idx = some [0, 1]) (link : ℝ → ℝ)
    {r r1 : Rec ℝ α φ ε γ (Obj γ (count [0, 1] rows 0) (count [0, 1] rows 1) k) Val} (hfit : Rec.eventFit mk env r d idx = .ok r1)
    {o0 o : Obj γ (count [0, 1] rows 0) (count [0, 1] rows 1) k} {mu0 : ℝ} {bu0 bi0 : List ℝ} {p0 q0 : List (List ℝ)}
    (hmu : o0.mu = .own mu0) (hbu : o0.bu = .own bu0) (hbi : o0.bi = .own bi0) (hp : o0.p = .own p0) (hq : o0.q = .own q0)
    (hpk : ∀ x ∈ p0, x.length = k) (hqk : ∀ x ∈ q0, x.length = k)
    (hu : count [0, 1] rows 0 ≠ 1) (hi : count [0, 1] rows 1 ≠ 1) (hl : Leaves allocation o0 o) :
    ∃ j ≤ 6, o.mu = (if 2 ≤ j then .view else o0.mu) ∧ o.q = (if 6 ≤ j then .view else o0.q) ∧
      ∀ (a : Arr2 α), a.Regular → a.ncols = 2 → a.rows ≠ [] →
        ((∃ ys, Rec.predict (learner link) { r1 with params := some o } (.mat a) = .ok (squeeze ys) ∧
            List.Forall₂ (Mixed link rows k j mu0 bu0 bi0 p0 q0) a.rows ys) ∨
          Rec.predict (learner link) { r1 with params := some o } (.mat a) = .error .indexError) ∧
        ((∃ row ∈ a.rows, ∀ y, ¬ Mixed link rows k j mu0 bu0 bi0 p0 q0 row y) →
          Rec.predict (learner link) { r1 with params := some o } (.mat a) = .error .indexError) := by
  obtain ⟨j, hj, e1, e2, e3, e4, e5, ec⟩ := allocation_at hu hi hl
  refine ⟨j, hj, e1, e5, ?_⟩
  intro a hreg hc hne
  obtain ⟨hrow, hpr⟩ := predict_obj (link := link) h hlay hidx hfit o a hreg hc hne
  rw [hpr]
  have hlook : ∀ t x, ∃ n : Nat, lookup [0, 1] rows t x = n := by
    intro t x
    unfold lookup
    split
    · exact ⟨_, rfl⟩
    · exact ⟨_, rfl⟩
  rw [hbu] at e2
  rw [hbi] at e3
  rw [hp] at e4
  rw [hq] at e5
  rw [hmu] at e1
  have lenP : ∀ r p, Entry (5 ≤ j) p0 (count [0, 1] rows 0) (List.replicate k 0) r = some p → p.length = k := by
    intro r p he
    unfold Entry at he
    split at he
    · split at he
      · cases he; simp
      · cases he
    · exact hpk p (List.mem_of_getElem? he)
  have lenQ : ∀ r p, Entry (6 ≤ j) q0 (count [0, 1] rows 1) (List.replicate k 0) r = some p → p.length = k := by
    intro r p he
    unfold Entry at he
    split at he
    · split at he
      · cases he; simp
      · cases he
    · exact hqk p (List.mem_of_getElem? he)
  have key : ∀ row ∈ a.rows, (rowScore link o rows row = .error .indexError ∧ ∀ y, ¬ Mixed link rows k j mu0 bu0 bi0 p0 q0 row y) ∨
      ∃ y, rowScore link o rows row = .ok y ∧ Mixed link rows k j mu0 bu0 bi0 p0 q0 row y := by
    intro row hr
    obtain ⟨x, i, rfl⟩ := hrow row hr
    obtain ⟨u, hu'⟩ := hlook 0 x
    obtain ⟨v, hv'⟩ := hlook 1 i
    obtain ⟨l1, r1', g1⟩ := read_entry (v := List.ofFn o.coef.bu) (n := count [0, 1] rows 0) (zero := 0) e2
      (fun hR => by rw [ec (by omega)]; simp [List.ofFn_const]) u
    obtain ⟨l2, r2', g2⟩ := read_entry (v := List.ofFn o.coef.bi) (n := count [0, 1] rows 1) (zero := 0) e3
      (fun hR => by rw [ec (by omega)]; simp [List.ofFn_const]) v
    obtain ⟨l3, r3', g3⟩ := read_entry (v := List.ofFn (fun u => List.ofFn (o.coef.p u))) (n := count [0, 1] rows 0)
      (zero := List.replicate k 0) e4 (fun hR => by rw [ec (by omega)]; simp [List.ofFn_const]) u
    obtain ⟨l4, r4', g4⟩ := read_entry (v := List.ofFn (fun i => List.ofFn (o.coef.q i))) (n := count [0, 1] rows 1)
      (zero := List.replicate k 0) e5 (fun hR => by rw [ec (by omega)]; simp [List.ofFn_const]) v
    have hm : o.mu.read o.coef.mu = .ok (if 2 ≤ j then 0 else mu0) := by
      rw [e1]
      split
      · rw [ec (by omega)]; rfl
      · rfl
    have h0 : npGet [(u : Int), (v : Int)] 0 = .ok (u : Int) := rfl
    have h1 : npGet [(u : Int), (v : Int)] 1 = .ok (v : Int) := rfl
    have nomix : ∀ y, Mixed link rows k j mu0 bu0 bi0 p0 q0 [x, i] y → ∃ bu bi p q,
        Entry (3 ≤ j) bu0 (count [0, 1] rows 0) 0 u = some bu ∧ Entry (4 ≤ j) bi0 (count [0, 1] rows 1) 0 v = some bi ∧
        Entry (5 ≤ j) p0 (count [0, 1] rows 0) (List.replicate k 0) u = some p ∧
        Entry (6 ≤ j) q0 (count [0, 1] rows 1) (List.replicate k 0) v = some q := by
      rintro y ⟨x', i', u', v', hxi, hu2, hv2, bu, bi, p, q, b1, b2, b3, b4, -⟩
      cases hxi
      have : u' = u := by rw [hu'] at hu2; exact_mod_cast hu2.symm
      subst this
      have : v' = v := by rw [hv'] at hv2; exact_mod_cast hv2.symm
      subst this
      exact ⟨bu, bi, p, q, b1, b2, b3, b4⟩
    have hrs : rowScore link o rows [x, i] = (rawScore o [(u : Int), (v : Int)]).map link := by
      rw [← hu', ← hv']; rfl
    rw [hrs]
    unfold rawScore
    simp only [h0, h1, hm, r1', r2', r3', r4', g1, g2, g3, g4, bind, Except.bind]
    cases c1 : Entry (3 ≤ j) bu0 (count [0, 1] rows 0) 0 u with
    | none => exact .inl ⟨rfl, fun y hy => by obtain ⟨bu, bi, p, q, b1, b2, b3, b4⟩ := nomix y hy; rw [c1] at b1; cases b1⟩
    | some bu =>
      cases c2 : Entry (4 ≤ j) bi0 (count [0, 1] rows 1) 0 v with
      | none => exact .inl ⟨rfl, fun y hy => by obtain ⟨bu, bi, p, q, b1, b2, b3, b4⟩ := nomix y hy; rw [c2] at b2; cases b2⟩
      | some bi =>
        cases c3 : Entry (5 ≤ j) p0 (count [0, 1] rows 0) (List.replicate k 0) u with
        | none => exact .inl ⟨rfl, fun y hy => by obtain ⟨bu, bi, p, q, b1, b2, b3, b4⟩ := nomix y hy; rw [c3] at b3; cases b3⟩
        | some p =>
          cases c4 : Entry (6 ≤ j) q0 (count [0, 1] rows 1) (List.replicate k 0) v with
          | none => exact .inl ⟨rfl, fun y hy => by obtain ⟨bu, bi, p, q, b1, b2, b3, b4⟩ := nomix y hy; rw [c4] at b4; cases b4⟩
          | some q =>
            refine .inr ⟨_, ?_, x, i, u, v, rfl, hu', hv', bu, bi, p, q, c1, c2, c3, c4, rfl⟩
            have : mulRows p q = .ok (List.zipWith (· * ·) p q) := by
              unfold mulRows
              rw [if_pos (by rw [lenP _ _ c3, lenQ _ _ c4])]
            simp only [this]
            rfl
  obtain ⟨k1, k2⟩ := mapM_either (f := rowScore link o rows) (P := Mixed link rows k j mu0 bu0 bi0 p0 q0) (e := .indexError) (l := a.rows)
    (fun row hr => (key row hr).imp (fun h => h.1) id)
  constructor
  · rcases k1 with k1 | ⟨ys, k1, k3⟩
    · exact .inr (by rw [k1]; rfl)
    · exact .inl ⟨ys, by rw [k1]; rfl, k3⟩
  · rintro ⟨row, hr, hno⟩
    rw [k2 ⟨row, hr, ((key row hr).resolve_right (by rintro ⟨y, -, hy⟩; exact hno y hy)).1⟩]
    rfl

/-- A trained recommender that is fitted again and interrupted after the mean and the user biases have been replaced: known pairs get the
old item biases and products of factors only. -/
example : ∃ r1 o, Rec.eventFit (fun _ => ()) () (Rec.init none [] : Rec ℝ Nat Nat Nat Unit
      (Obj Unit (count [0, 1] [[1, 10], [2, 20]] 0) (count [0, 1] [[1, 10], [2, 20]] 1) exConfig.k) Val) exSquare none = .ok r1 ∧
    Leaves allocation { exStart with mu := .own 3, bu := .own [1, 2, 0], bi := .own [5, 7, 0], p := .own [[1], [2], [0]], q := .own [[4], [3], [0]] } o ∧
    o.mu = .view ∧ o.bu = .view ∧ o.bi = .own [5, 7, 0] ∧
    (count [0, 1] [[1, 10], [2, 20]] 0 ≠ 1 ∧ count [0, 1] [[1, 10], [2, 20]] 1 ≠ 1) := by
  refine ⟨_, _, rfl, .step rfl (.step rfl (.step rfl .here)), rfl, ?_, rfl, ?_, ?_⟩
  · show (if _ then Attr.number else Attr.view) = Attr.view
    rw [if_neg (by rw [exCount 0 (by omega)]; omega)]
  · rw [exCount 0 (by omega)]; omega
  · rw [exCount 1 (by omega)]; omega

end Steps
end MF
end Kam
