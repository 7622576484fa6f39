/-
C143: losses and gradients of the matrix factorizations with machine arithmetic.

Every operation on numbers is rounded to 53 binary digits (`fl`); `np.sum` and `np.bincount` add in some order (`RoundedSum`).
Simplified: no overflow or underflow.  The loops of `ImplicitLogisticPMF` over the users add to arrays of zeros; the additions of
zeros are left out, as they are exact.
-/
import Verif.Float.Score
import Verif.MF.Props5

set_option linter.unusedSectionVars false

namespace Kam.Fl
open Spec
open scoped BigOperators

variable {nu ni k : Nat}

/-! ### Model -/

/-- `mu[0] + bu[u] + bi[i] + np.sum(p[u, :] * q[i, :])` (score_predictor/matrix_factorization.py:238-239, 288-289,
item_finder/matrix_factorization.py:242-244, 293-295, 607-609, 658-660). -/
def Estimate (v : MF.Views nu ni k) (u : Fin nu) (i : Fin ni) (x : ℝ) : Prop :=
  ∃ d, RoundedSum (List.ofFn (fun f => fl (v.p u f * v.q i f))) d ∧ x = fl (fl (fl (v.mu + v.bu u) + v.bi i) + d)

/-- `np.sum(bu**2) + np.sum(bi**2) + np.sum(p**2) + np.sum(q**2)` (score_predictor/matrix_factorization.py:243,
item_finder/matrix_factorization.py:248, 614). -/
def Reg (v : MF.Views nu ni k) (r : ℝ) : Prop :=
  ∃ a b c d, RoundedSum (List.ofFn (fun u => fl (v.bu u ^ 2))) a ∧ RoundedSum (List.ofFn (fun i => fl (v.bi i ^ 2))) b ∧
    RoundedSum ((Finset.univ : Finset (Fin nu × Fin k)).toList.map (fun x => fl (v.p x.1 x.2 ^ 2))) c ∧
    RoundedSum ((Finset.univ : Finset (Fin ni × Fin k)).toList.map (fun x => fl (v.q x.1 x.2 ^ 2))) d ∧
    r = fl (fl (fl (a + b) + c) + d)

/-- The events with a number computed for each of them from the machine's estimate. -/
def Terms (v : MF.Views nu ni k) (evs : List (MF.Event nu ni)) (f : ℝ → ℝ → ℝ) (ws : List (MF.Event nu ni × ℝ)) : Prop :=
  ws.map Prod.fst = evs ∧ ∀ w ∈ ws, ∃ x, Estimate v w.1.user w.1.item x ∧ w.2 = f w.1.score x

/-- `PMF.loss` (score_predictor/matrix_factorization.py:238-245). -/
def PMFLoss (C : ℝ) (evs : List (MF.Event nu ni)) (c : MF.Coef nu ni k) (l : ℝ) : Prop :=
  ∃ ws s r, Terms (MF.unpack c) evs (fun sc x => fl (sc - x)) ws ∧ RoundedSum (ws.map (fun w => fl (w.2 ^ 2))) s ∧
    Reg (MF.unpack c) r ∧ l = fl (fl (0.5 * s) + fl (fl (0.5 * C) * r))

/-- The gradient from the terms of the events (score_predictor/matrix_factorization.py:290-308,
item_finder/matrix_factorization.py:298-316, 656-673). -/
structure Grad (C : ℝ) (v : MF.Views nu ni k) (ws : List (MF.Event nu ni × ℝ)) (g : MF.Views nu ni k) : Prop where
  mu : RoundedSum (ws.map Prod.snd) g.mu
  bu : ∀ u, ∃ s, RoundedSum ((ws.filter (fun w => decide (w.1.user = u))).map Prod.snd) s ∧ g.bu u = fl (s + fl (C * v.bu u))
  bi : ∀ i, ∃ s, RoundedSum ((ws.filter (fun w => decide (w.1.item = i))).map Prod.snd) s ∧ g.bi i = fl (s + fl (C * v.bi i))
  p : ∀ u f, ∃ s, RoundedSum ((ws.filter (fun w => decide (w.1.user = u))).map (fun w => fl (w.2 * v.q w.1.item f))) s ∧
    g.p u f = fl (s + fl (C * v.p u f))
  q : ∀ i f, ∃ s, RoundedSum ((ws.filter (fun w => decide (w.1.item = i))).map (fun w => fl (w.2 * v.p w.1.user f))) s ∧
    g.q i f = fl (s + fl (C * v.q i f))

/-- `PMF.grad_loss` (score_predictor/matrix_factorization.py:288-310). -/
def PMFGrad (C : ℝ) (evs : List (MF.Event nu ni)) (c : MF.Coef nu ni k) (g : MF.Views nu ni k) : Prop :=
  ∃ ws, Terms (MF.unpack c) evs (fun sc x => -fl (sc - x)) ws ∧ Grad C (MF.unpack c) ws g

/-- `LogisticPMF.grad_loss` (item_finder/matrix_factorization.py:293-318) with the function `E` as `expit`. -/
def LogisticGrad (E : ℝ → ℝ) (C : ℝ) (evs : List (MF.Event nu ni)) (c : MF.Coef nu ni k) (g : MF.Views nu ni k) : Prop :=
  ∃ ws, Terms (MF.unpack c) evs (fun sc x => residual sc (safeSigmoid E (some (some x)))) ws ∧ Grad C (MF.unpack c) ws g

/-- `ImplicitLogisticPMF.grad_loss` (item_finder/matrix_factorization.py:655-675): all pairs of a user and an item are events. -/
def ImplicitGrad (E : ℝ → ℝ) (C : ℝ) (m : MF.Implicit.Mat nu ni) (c : MF.Coef nu ni k) (g : MF.Views nu ni k) : Prop :=
  LogisticGrad E C (allPairs m) c g

end Kam.Fl

/-! ### Specification -/

namespace Kam.Spec
open scoped BigOperators
variable {nu ni k : Nat}

/-- The sum of the sizes of the terms of an estimate. -/
noncomputable def spread (v : MF.Views nu ni k) (e : MF.Event nu ni) : ℝ :=
  |v.mu| + |v.bu e.user| + |v.bi e.item| + ∑ f, |v.p e.user f * v.q e.item f|

/-- What the rounding error of an entry of a gradient is measured by: the sum of the sizes of its terms, if the term of an event
has the size `w`. -/
noncomputable def gradSize (C : ℝ) (v : MF.Views nu ni k) (evs : List (MF.Event nu ni)) (w : MF.Event nu ni → ℝ) : MF.Slot nu ni k → ℝ
  | .mu => (evs.map w).sum
  | .bu u => ((evs.filter (fun e => decide (e.user = u))).map w).sum + |C * v.bu u|
  | .bi i => ((evs.filter (fun e => decide (e.item = i))).map w).sum + |C * v.bi i|
  | .p u f => ((evs.filter (fun e => decide (e.user = u))).map (fun e => w e * |v.q e.item f|)).sum + |C * v.p u f|
  | .q i f => ((evs.filter (fun e => decide (e.item = i))).map (fun e => w e * |v.p e.user f|)).sum + |C * v.q i f|

end Kam.Spec

namespace Kam.Fl
open Spec
open scoped BigOperators
variable {nu ni k : Nat}

/-! ### Sums over events -/

lemma ofFn_get {β γ : Type} (ws : List β) (f : β → γ) : List.ofFn (fun j : Fin ws.length => f ws[j]) = ws.map f := by
  apply List.ext_getElem <;> simp

lemma dev_terms {β : Type} {n : Nat} {ws : List β} {a f s : β → ℝ} (h : ∀ w ∈ ws, Dev n (a w) (f w) (s w)) {x : ℝ}
    (hx : RoundedSum (ws.map f) x) : Dev (n + ws.length) (ws.map a).sum x (ws.map s).sum := by
  rw [← ofFn_get] at hx
  have := dev_sum_of (a := fun j : Fin ws.length => a ws[j]) (s := fun j : Fin ws.length => s ws[j])
    (fun j => h ws[j] (List.getElem_mem _)) hx
  rw [← List.sum_ofFn, ← List.sum_ofFn, ofFn_get, ofFn_get] at this
  exact this.mono (by omega)

lemma dev_estimate {v : MF.Views nu ni k} {e : MF.Event nu ni} {x : ℝ} (h : Estimate v e.user e.item x) :
    Dev (k + 4) (MF.est v e.user e.item) x (spread v e) := by
  obtain ⟨d, h1, rfl⟩ := h
  have h2 := dev_sum_of (fun f => (Dev.refl (v.p e.user f * v.q e.item f)).fl) h1
  have a1 := ((((Dev.refl v.mu).add (Dev.refl (v.bu e.user))).fl).add ((Dev.refl (v.bi e.item)).mono (by omega))).fl
  exact ((a1.mono (by omega : 0 + 1 + 1 ≤ k + 3)).add (h2.mono (by omega : 0 + 1 + (k - 1) ≤ k + 3))).fl

lemma dev_square {n : Nat} {a b s : ℝ} (h : Dev n a b s) : Dev (n + n + 1) (a ^ 2) (fl (b ^ 2)) (s ^ 2) := by
  have := (h.mul h).fl
  rwa [← pow_two, ← pow_two, ← pow_two] at this

lemma dev_squares {β : Type} [Fintype β] (f : β → ℝ) {x : ℝ} (h : RoundedSum ((Finset.univ : Finset β).toList.map (fun b => fl (f b ^ 2))) x) :
    Dev (1 + Fintype.card β) (∑ b, f b ^ 2) x (∑ b, f b ^ 2) := by
  have := dev_terms (n := 1) (a := fun b => f b ^ 2) (s := fun b => f b ^ 2) (fun b _ => by
    have := (Dev.refl (f b ^ 2)).fl
    rwa [abs_of_nonneg (sq_nonneg _)] at this) h
  rw [Finset.sum_map_toList] at this
  simpa using this

lemma dev_squares_fin {n : Nat} (f : Fin n → ℝ) {x : ℝ} (h : RoundedSum (List.ofFn (fun b => fl (f b ^ 2))) x) :
    Dev (1 + n) (∑ b, f b ^ 2) x (∑ b, f b ^ 2) :=
  (dev_sum_of (fun b => by
    have := (Dev.refl (f b ^ 2)).fl
    rwa [abs_of_nonneg (sq_nonneg _)] at this) h).mono (by omega)

lemma dev_reg {v : MF.Views nu ni k} {r : ℝ} (h : Reg v r) : Dev (nu + ni + nu * k + ni * k + 4) (MF.reg v) r (MF.reg v) := by
  obtain ⟨a, b, c, d, ha, hb, hc, hd, rfl⟩ := h
  have h1 := dev_squares_fin v.bu ha
  have h2 := dev_squares_fin v.bi hb
  have h3 := dev_squares (fun x : Fin nu × Fin k => v.p x.1 x.2) hc
  have h4 := dev_squares (fun x : Fin ni × Fin k => v.q x.1 x.2) hd
  rw [Fintype.sum_prod_type, Fintype.card_prod, Fintype.card_fin, Fintype.card_fin] at h3 h4
  have h5 := ((h1.mono (by omega : _ ≤ nu + ni + 1)).add (h2.mono (by omega))).fl
  have h6 := ((h5.mono (by omega : _ ≤ nu + ni + nu * k + 2)).add (h3.mono (by omega))).fl
  exact ((h6.mono (by omega : _ ≤ nu + ni + nu * k + ni * k + 3)).add (h4.mono (by omega))).fl

lemma terms_sum {v : MF.Views nu ni k} {evs : List (MF.Event nu ni)} {f : ℝ → ℝ → ℝ} {ws : List (MF.Event nu ni × ℝ)}
    (h : Terms v evs f ws) (a : MF.Event nu ni → ℝ) : (ws.map (fun w => a w.1)).sum = (evs.map a).sum := by
  rw [← h.1, List.map_map]
  rfl

lemma terms_length {v : MF.Views nu ni k} {evs : List (MF.Event nu ni)} {f : ℝ → ℝ → ℝ} {ws : List (MF.Event nu ni × ℝ)}
    (h : Terms v evs f ws) : ws.length = evs.length := by rw [← h.1, List.length_map]

lemma terms_filter {v : MF.Views nu ni k} {evs : List (MF.Event nu ni)} {f : ℝ → ℝ → ℝ} {ws : List (MF.Event nu ni × ℝ)}
    (h : Terms v evs f ws) (P : MF.Event nu ni → Bool) (a : MF.Event nu ni → ℝ) :
    ((ws.filter (fun w => P w.1)).map (fun w => a w.1)).sum = ((evs.filter P).map a).sum := by
  rw [← h.1, List.filter_map, List.map_map]
  rfl

/-! ### The loss of PMF -/

/-- C143: the loss of `PMF` the optimizer sees differs from the exact one by a small multiple of the sizes of its terms. -/
theorem C143_loss {C : ℝ} (hC : 0 ≤ C) {evs : List (MF.Event nu ni)} {c : MF.Coef nu ni k} {l : ℝ} (h : PMFLoss C evs c l)
    (hn : evs.length + MF.size nu ni k + 2 * k + 20 ≤ 2 ^ 52) :
    |l - MF.PMF.loss C evs c| ≤ (evs.length + MF.size nu ni k + 2 * k + 20) / 2 ^ 52 *
      (0.5 * (evs.map (fun e => (|e.score| + spread (MF.unpack c) e) ^ 2)).sum + 0.5 * C * MF.reg (MF.unpack c)) := by
  obtain ⟨ws, s, r, h1, h2, h3, rfl⟩ := h
  have d1 : Dev (2 * k + 11 + ws.length) (ws.map (fun w => (w.1.score - MF.est (MF.unpack c) w.1.user w.1.item) ^ 2)).sum s
      (ws.map (fun w => (|w.1.score| + spread (MF.unpack c) w.1) ^ 2)).sum := by
    refine dev_terms (fun w hw => ?_) h2
    obtain ⟨x, hx, e⟩ := h1.2 w hw
    have := dev_square ((((Dev.refl w.1.score).mono (Nat.zero_le (k + 4))).sub (dev_estimate hx)).fl)
    rw [e]
    exact this.mono (by omega)
  rw [terms_sum h1 (fun e => (e.score - MF.est (MF.unpack c) e.user e.item) ^ 2),
    terms_sum h1 (fun e => (|e.score| + spread (MF.unpack c) e) ^ 2), terms_length h1] at d1
  have d2 := dev_reg h3
  have ha : |(0.5 : ℝ)| = 0.5 := abs_of_nonneg (by norm_num)
  have d3 := ((Dev.refl (0.5 : ℝ)).mul d1).fl
  have d4 := ((((Dev.refl (0.5 : ℝ)).mul (Dev.refl C)).fl).mul d2).fl
  rw [ha] at d3 d4
  rw [abs_of_nonneg hC] at d4
  have d5 := ((d3.mono (by omega : _ ≤ evs.length + MF.size nu ni k + 2 * k + 19)).add (d4.mono (by unfold MF.size; omega))).fl
  have := d5.relative hn
  rwa [show ((evs.length + MF.size nu ni k + 2 * k + 19 + 1 : Nat) : ℝ) = evs.length + MF.size nu ni k + 2 * k + 20 by
    push_cast; ring] at this

/-- C143: the loss of `PMF` the optimizer sees is never negative. -/
theorem C143_loss_nonneg {C : ℝ} (hC : 0 ≤ C) {evs : List (MF.Event nu ni)} {c : MF.Coef nu ni k} {l : ℝ} (h : PMFLoss C evs c l) : 0 ≤ l := by
  obtain ⟨ws, s, r, h1, h2, ⟨a, b, c', d, ha, hb, hc, hd, rfl⟩, rfl⟩ := h
  have pos : ∀ {x : ℝ}, 0 ≤ x → 0 ≤ fl x := fun hx => (near_fl hx).nonneg
  have sums : ∀ {β : Type} {xs : List β} {f : β → ℝ} {y : ℝ}, RoundedSum (xs.map (fun b => fl (f b ^ 2))) y → 0 ≤ y := by
    intro β xs f y hy
    refine (near_sum hy ?_).nonneg
    intro x hx
    obtain ⟨b, _, rfl⟩ := List.mem_map.1 hx
    exact pos (sq_nonneg _)
  have p1 : 0 ≤ s := sums h2
  have p2 : 0 ≤ a := by
    rw [List.ofFn_eq_map] at ha
    exact sums ha
  have p3 : 0 ≤ b := by
    rw [List.ofFn_eq_map] at hb
    exact sums hb
  have p4 : 0 ≤ c' := sums hc
  have p5 : 0 ≤ d := sums hd
  have p6 : 0 ≤ fl (fl (fl (a + b) + c') + d) := pos (add_nonneg (pos (add_nonneg (pos (add_nonneg p2 p3)) p4)) p5)
  exact pos (add_nonneg (pos (mul_nonneg (by norm_num) p1)) (pos (mul_nonneg (pos (mul_nonneg (by norm_num) hC)) p6)))

/-! ### Gradients -/

lemma dev_grad {C : ℝ} {v : MF.Views nu ni k} {evs : List (MF.Event nu ni)} {f : ℝ → ℝ → ℝ} {ws : List (MF.Event nu ni × ℝ)}
    (ht : Terms v evs f ws) {g : MF.Views nu ni k} (hg : Grad C v ws g) {n : Nat} {a s : MF.Event nu ni → ℝ}
    (h : ∀ w ∈ ws, Dev n (a w.1) w.2 (s w.1)) (sl : MF.Slot nu ni k) :
    Dev (n + evs.length + 2) ((MF.addReg C v (MF.gradTerms v evs a)).get sl) (g.get sl) (gradSize C v evs s sl) := by
  have lens : ∀ P : MF.Event nu ni → Bool, (ws.filter (fun w => P w.1)).length ≤ evs.length := fun P =>
    (List.length_filter_le _ _).trans_eq (terms_length ht)
  have bias : ∀ (P : MF.Event nu ni → Bool) (b x y : ℝ), RoundedSum ((ws.filter (fun w => P w.1)).map Prod.snd) x → y = fl (x + fl (C * b)) →
      Dev (n + evs.length + 2) (((evs.filter P).map a).sum + C * b) y (((evs.filter P).map s).sum + |C * b|) := by
    intro P b x y hx hy
    have h1 := dev_terms (a := fun w => a w.1) (s := fun w => s w.1) (fun w hw => h w (List.mem_of_mem_filter hw)) hx
    rw [terms_filter ht, terms_filter ht] at h1
    have h2 := ((h1.mono (by have := lens P; omega : _ ≤ n + evs.length + 1)).add
      (((Dev.refl (C * b)).fl).mono (by omega))).fl
    rw [hy]
    exact h2
  have fac : ∀ (P : MF.Event nu ni → Bool) (z : MF.Event nu ni → ℝ) (b x y : ℝ),
      RoundedSum ((ws.filter (fun w => P w.1)).map (fun w => fl (w.2 * z w.1))) x → y = fl (x + fl (C * b)) →
      Dev (n + evs.length + 2) (((evs.filter P).map (fun e => a e * z e)).sum + C * b) y
        (((evs.filter P).map (fun e => s e * |z e|)).sum + |C * b|) := by
    intro P z b x y hx hy
    have h1 := dev_terms (a := fun w => a w.1 * z w.1) (s := fun w => s w.1 * |z w.1|) (n := n + 1) (fun w hw =>
      ((h w (List.mem_of_mem_filter hw)).mul (Dev.refl (z w.1))).fl) hx
    rw [terms_filter ht (a := fun e => a e * z e), terms_filter ht (a := fun e => s e * |z e|)] at h1
    have h2 := ((h1.mono (by have := lens P; omega : _ ≤ n + evs.length + 1)).add
      (((Dev.refl (C * b)).fl).mono (by omega))).fl
    rw [hy]
    exact h2
  cases sl with
  | mu =>
    have h1 := dev_terms (a := fun w => a w.1) (s := fun w => s w.1) h hg.mu
    rw [terms_sum ht, terms_sum ht, terms_length ht] at h1
    exact h1.mono (by omega)
  | bu u => obtain ⟨x, h1, h2⟩ := hg.bu u; exact bias (fun e => decide (e.user = u)) _ x _ h1 h2
  | bi i => obtain ⟨x, h1, h2⟩ := hg.bi i; exact bias (fun e => decide (e.item = i)) _ x _ h1 h2
  | p u f => obtain ⟨x, h1, h2⟩ := hg.p u f; exact fac (fun e => decide (e.user = u)) (fun e => v.q e.item f) _ x _ h1 h2
  | q i f => obtain ⟨x, h1, h2⟩ := hg.q i f; exact fac (fun e => decide (e.item = i)) (fun e => v.p e.user f) _ x _ h1 h2

/-- C143: every entry of the gradient of `PMF` the optimizer sees differs from the exact one by a small multiple of the sizes of
its terms. -/
theorem C143_gradient {C : ℝ} {evs : List (MF.Event nu ni)} {c : MF.Coef nu ni k} {g : MF.Views nu ni k} (h : PMFGrad C evs c g)
    (hn : evs.length + k + 7 ≤ 2 ^ 52) (s : MF.Slot nu ni k) :
    |g.get s - MF.PMF.gradLoss C evs c ⟨MF.pos s, MF.pos_lt s⟩| ≤
      (evs.length + k + 7) / 2 ^ 52 * gradSize C (MF.unpack c) evs (fun e => |e.score| + spread (MF.unpack c) e) s := by
  obtain ⟨ws, h1, h2⟩ := h
  have h3 := dev_grad h1 h2 (n := k + 5) (a := fun e => -(e.score - MF.est (MF.unpack c) e.user e.item))
    (s := fun e => |e.score| + spread (MF.unpack c) e) (fun w hw => by
      obtain ⟨x, hx, e⟩ := h1.2 w hw
      rw [e]
      exact ((((Dev.refl w.1.score).mono (Nat.zero_le (k + 4))).sub (dev_estimate hx)).fl).neg) s
  have h4 := (h3.mono (by omega : _ ≤ evs.length + k + 7)).relative hn
  have e : MF.PMF.gradLoss C evs c ⟨MF.pos s, MF.pos_lt s⟩ =
      (MF.addReg C (MF.unpack c) (MF.gradTerms (MF.unpack c) evs (fun e => -(e.score - MF.est (MF.unpack c) e.user e.item)))).get s := by
    rw [← MF.get_unpack (MF.PMF.gradLoss C evs c) s]
    unfold MF.PMF.gradLoss
    rw [MF.unpack_pack]
  rw [e]
  push_cast at h4
  exact h4

lemma dev_sigmoid {E : ℝ → ℝ} (hE : AccurateExpit E) {n : Nat} {a x s : ℝ} (h : Dev n a x s) :
    Dev (n + 91) (MF.safeSigmoid a) (safeSigmoid E (some (some x))) (1 + s) := by
  have hs := h.nonneg
  have h1 := C133_logistic hE x a
  have u0 : (0 : ℝ) ≤ u := by unfold u; norm_num
  have b1 : 1 + (91 : Nat) * u ≤ (1 + u) ^ 91 := one_add_mul_le_pow (by linarith) 91
  have b2 : (1e-14 : ℝ) ≤ (91 : Nat) * u := by unfold u; norm_num
  have g1 : (1 : ℝ) ≤ (1 + u) ^ n := one_le_pow₀ (by linarith)
  have g2 : (1 : ℝ) ≤ (1 + u) ^ 91 := one_le_pow₀ (by linarith)
  constructor
  · rw [abs_of_pos (MF.safeSigmoid_pos a)]
    linarith [MF.safeSigmoid_lt_one a]
  · have m1 : (1 + u) ^ n ≤ (1 + u) ^ (n + 91) := pow_le_pow_right₀ (by linarith) (by omega)
    have m2 : (1 + u) ^ 91 ≤ (1 + u) ^ (n + 91) := pow_le_pow_right₀ (by linarith) (by omega)
    have m3 : ((1 + u) ^ n - 1) * s ≤ ((1 + u) ^ (n + 91) - 1) * s := mul_le_mul_of_nonneg_right (by linarith) hs
    have := h.2
    have h0 : 0 ≤ |x - a| := abs_nonneg _
    have e : ((1 + u) ^ (n + 91) - 1) * (1 + s) = ((1 + u) ^ (n + 91) - 1) + ((1 + u) ^ (n + 91) - 1) * s := by ring
    rw [e]
    clear e
    generalize (1 + u) ^ (n + 91) = A at *
    generalize (1 + u) ^ 91 = B at *
    generalize (1 + u) ^ n = D at *
    generalize ((91 : Nat) : ℝ) * u = U at *
    generalize (D - 1) * s = X at *
    generalize (A - 1) * s = Y at *
    linarith

/-- C143: every entry of the gradient of `LogisticPMF` the optimizer sees is accurate, if `expit` is. -/
theorem C143_gradient_logistic {E : ℝ → ℝ} (hE : AccurateExpit E) {C : ℝ} {evs : List (MF.Event nu ni)} {c : MF.Coef nu ni k}
    {g : MF.Views nu ni k} (h : LogisticGrad E C evs c g) (hn : evs.length + k + 98 ≤ 2 ^ 52) (s : MF.Slot nu ni k) :
    |g.get s - MF.Logistic.gradLoss C evs c ⟨MF.pos s, MF.pos_lt s⟩| ≤
      (evs.length + k + 98) / 2 ^ 52 * gradSize C (MF.unpack c) evs (fun e => 1 + |e.score| + spread (MF.unpack c) e) s := by
  obtain ⟨ws, h1, h2⟩ := h
  have h3 := dev_grad h1 h2 (n := k + 96) (a := fun e => MF.safeSigmoid (MF.est (MF.unpack c) e.user e.item) - e.score)
    (s := fun e => 1 + |e.score| + spread (MF.unpack c) e) (fun w hw => by
      obtain ⟨x, hx, e⟩ := h1.2 w hw
      rw [e, show 1 + |w.1.score| + spread (MF.unpack c) w.1 = 1 + spread (MF.unpack c) w.1 + |w.1.score| by ring]
      exact ((dev_sigmoid hE (dev_estimate hx)).sub ((Dev.refl w.1.score).mono (Nat.zero_le _))).fl) s
  have h4 := (h3.mono (by omega : _ ≤ evs.length + k + 98)).relative hn
  have e : MF.Logistic.gradLoss C evs c ⟨MF.pos s, MF.pos_lt s⟩ =
      (MF.addReg C (MF.unpack c) (MF.gradTerms (MF.unpack c) evs
        (fun e => MF.safeSigmoid (MF.est (MF.unpack c) e.user e.item) - e.score))).get s := by
    rw [← MF.get_unpack (MF.Logistic.gradLoss C evs c) s]
    unfold MF.Logistic.gradLoss
    rw [MF.unpack_pack]
  rw [e]
  push_cast at h4
  exact h4

lemma list_sum_sub {β : Type} (l : List β) (f g : β → ℝ) : (l.map (fun e => f e - g e)).sum = (l.map f).sum - (l.map g).sum := by
  induction l with
  | nil => simp
  | cons a l ih => simp only [List.map_cons, List.sum_cons, ih]; ring

lemma allPairs_length (m : MF.Implicit.Mat nu ni) : (allPairs m).length = nu * ni := by
  simp [allPairs, List.length_flatMap]

/-- C143: every entry of the gradient of `ImplicitLogisticPMF` the optimizer sees is accurate, if `expit` is. -/
theorem C143_gradient_implicit {E : ℝ → ℝ} (hE : AccurateExpit E) {C : ℝ} {m : MF.Implicit.Mat nu ni} {c : MF.Coef nu ni k}
    {g : MF.Views nu ni k} (h : ImplicitGrad E C m c g) (hn : nu * ni + k + 98 ≤ 2 ^ 52) (s : MF.Slot nu ni k) :
    |g.get s - MF.Implicit.gradLoss C m c ⟨MF.pos s, MF.pos_lt s⟩| ≤
      (nu * ni + k + 98) / 2 ^ 52 *
        gradSize C (MF.unpack c) (allPairs m) (fun e => 1 + |e.score| + spread (MF.unpack c) e) s := by
  have := C143_gradient_logistic hE h (by rw [allPairs_length]; exact hn) s
  rw [allPairs_length, ← MF.implicit_grad_eq] at this
  push_cast at this
  exact this

/-! ### Where the optimizer stops -/

/-- C143: if the entry of the gradient for the global bias the optimizer sees is at most `ε`, the mean of the exact predictions
for the training events is close to the mean of their scores. -/
theorem C143_stopped {C ε : ℝ} {evs : List (MF.Event nu ni)} (he : evs ≠ []) {c : MF.Coef nu ni k} {g : MF.Views nu ni k}
    (hn : evs.length + k + 98 ≤ 2 ^ 52) (hε : |g.mu| ≤ ε) :
    (PMFGrad C evs c g → ∃ ys, MF.rawPredict id (MF.store c) (evs.map evRow) = .ok ys ∧ ys.length = evs.length ∧
      |ys.sum / ys.length - (evs.map (·.score)).sum / evs.length| ≤ ε / evs.length + (evs.length + k + 7) / 2 ^ 52 *
        ((evs.map (fun e => |e.score| + spread (MF.unpack c) e)).sum / evs.length)) ∧
    (∀ E, AccurateExpit E → LogisticGrad E C evs c g →
      ∃ ys, MF.rawPredict MF.safeSigmoid (MF.store c) (evs.map evRow) = .ok ys ∧ ys.length = evs.length ∧
      |ys.sum / ys.length - (evs.map (·.score)).sum / evs.length| ≤ ε / evs.length + (evs.length + k + 98) / 2 ^ 52 *
        ((evs.map (fun e => 1 + |e.score| + spread (MF.unpack c) e)).sum / evs.length)) := by
  have hl : (0 : ℝ) < evs.length := by exact_mod_cast List.length_pos_iff.2 he
  have key : ∀ (link : ℝ → ℝ) (a B : ℝ), |g.mu - a| ≤ B →
      a = (evs.map (fun e => link (MF.est (MF.unpack c) e.user e.item))).sum - (evs.map (·.score)).sum →
      ∃ ys, MF.rawPredict link (MF.store c) (evs.map evRow) = .ok ys ∧ ys.length = evs.length ∧
        |ys.sum / ys.length - (evs.map (·.score)).sum / evs.length| ≤ (ε + B) / evs.length := by
    intro link a B h1 h2
    refine ⟨_, MF.rawPredict_events link c evs, by simp, ?_⟩
    rw [List.length_map, ← sub_div, ← h2, abs_div, abs_of_pos hl]
    apply div_le_div_of_nonneg_right _ hl.le
    have : |a| ≤ |g.mu - a| + |g.mu| := by
      rw [abs_sub_comm]
      exact abs_sub_abs_le_abs_sub a g.mu |> fun h => by linarith
    linarith
  have mus : ∀ w : MF.Event nu ni → ℝ, MF.pack (MF.addReg C (MF.unpack c) (MF.gradTerms (MF.unpack c) evs w))
      ⟨MF.pos MF.Slot.mu, MF.pos_lt MF.Slot.mu⟩ = (evs.map w).sum := by
    intro w
    rw [← MF.get_unpack (MF.pack _) MF.Slot.mu, MF.unpack_pack]
    rfl
  refine ⟨fun h => ?_, fun E hE h => ?_⟩
  · obtain ⟨ys, h1, h2, h3⟩ := key id _ _ (C143_gradient h (by omega) .mu) (by
      refine (mus _).trans ?_
      rw [← list_sum_sub]
      congr 1
      apply List.map_congr_left
      intro e _
      simp)
    refine ⟨ys, h1, h2, h3.trans_eq ?_⟩
    simp only [gradSize]
    ring
  · obtain ⟨ys, h1, h2, h3⟩ := key MF.safeSigmoid _ _ (C143_gradient_logistic hE h hn .mu) (by
      refine (mus _).trans ?_
      rw [← list_sum_sub])
    refine ⟨ys, h1, h2, h3.trans_eq ?_⟩
    simp only [gradSize]
    ring

/-- C143: the entries for an object without events are exactly the ones of the penalty; they are zero if the coefficients are. -/
theorem C143_unused {C : ℝ} {v : MF.Views nu ni k} {ws : List (MF.Event nu ni × ℝ)} {g : MF.Views nu ni k} (h : Grad C v ws g) :
    (∀ u, (∀ w ∈ ws, w.1.user ≠ u) → g.bu u = fl (fl (C * v.bu u)) ∧ ∀ f, g.p u f = fl (fl (C * v.p u f))) ∧
    (∀ i, (∀ w ∈ ws, w.1.item ≠ i) → g.bi i = fl (fl (C * v.bi i)) ∧ ∀ f, g.q i f = fl (fl (C * v.q i f))) := by
  have nil : ∀ {P : MF.Event nu ni × ℝ → Bool} {f : MF.Event nu ni × ℝ → ℝ} {s : ℝ}, (∀ w ∈ ws, P w = false) →
      RoundedSum ((ws.filter P).map f) s → s = 0 := by
    intro P f s hP hs
    rw [List.filter_eq_nil_iff.2 (fun w hw => by rw [hP w hw]; simp)] at hs
    exact sum_zero hs (by simp)
  refine ⟨fun u hu => ⟨?_, fun f => ?_⟩, fun i hi => ⟨?_, fun f => ?_⟩⟩
  · obtain ⟨s, h1, h2⟩ := h.bu u
    rw [h2, nil (fun w hw => by simpa using hu w hw) h1, zero_add]
  · obtain ⟨s, h1, h2⟩ := h.p u f
    rw [h2, nil (fun w hw => by simpa using hu w hw) h1, zero_add]
  · obtain ⟨s, h1, h2⟩ := h.bi i
    rw [h2, nil (fun w hw => by simpa using hi w hw) h1, zero_add]
  · obtain ⟨s, h1, h2⟩ := h.q i f
    rw [h2, nil (fun w hw => by simpa using hi w hw) h1, zero_add]

/-! ### The relations hold of some result for every input -/

lemma exists_estimate (v : MF.Views nu ni k) (u : Fin nu) (i : Fin ni) : ∃ x, Estimate v u i x := by
  obtain ⟨d, hd⟩ := exists_sum (List.ofFn (fun f => fl (v.p u f * v.q i f)))
  exact ⟨_, d, hd, rfl⟩

lemma exists_terms (v : MF.Views nu ni k) (evs : List (MF.Event nu ni)) (f : ℝ → ℝ → ℝ) : ∃ ws, Terms v evs f ws := by
  choose x hx using fun e : MF.Event nu ni => exists_estimate v e.user e.item
  refine ⟨evs.map (fun e => (e, f e.score (x e))), ?_, ?_⟩
  · rw [List.map_map]
    exact List.map_id evs
  · intro w hw
    obtain ⟨e, _, rfl⟩ := List.mem_map.1 hw
    exact ⟨_, hx e, rfl⟩

lemma exists_grad (C : ℝ) (v : MF.Views nu ni k) (ws : List (MF.Event nu ni × ℝ)) : ∃ g, Grad C v ws g := by
  obtain ⟨m, hm⟩ := exists_sum (ws.map Prod.snd)
  choose a ha using fun u : Fin nu => exists_sum ((ws.filter (fun w => decide (w.1.user = u))).map Prod.snd)
  choose b hb using fun i : Fin ni => exists_sum ((ws.filter (fun w => decide (w.1.item = i))).map Prod.snd)
  choose c hc using fun (u : Fin nu) (f : Fin k) =>
    exists_sum ((ws.filter (fun w => decide (w.1.user = u))).map (fun w => fl (w.2 * v.q w.1.item f)))
  choose d hd using fun (i : Fin ni) (f : Fin k) =>
    exists_sum ((ws.filter (fun w => decide (w.1.item = i))).map (fun w => fl (w.2 * v.p w.1.user f)))
  exact ⟨⟨m, _, _, _, _⟩, hm, fun u => ⟨_, ha u, rfl⟩, fun i => ⟨_, hb i, rfl⟩, fun u f => ⟨_, hc u f, rfl⟩, fun i f => ⟨_, hd i f, rfl⟩⟩

/-- C143: there is a result of the machine for every input, so that the statements above are not empty. -/
theorem C143_exists (E : ℝ → ℝ) (C : ℝ) (evs : List (MF.Event nu ni)) (m : MF.Implicit.Mat nu ni) (c : MF.Coef nu ni k) :
    (∃ l, PMFLoss C evs c l) ∧ (∃ g, PMFGrad C evs c g) ∧ (∃ g, LogisticGrad E C evs c g) ∧ ∃ g, ImplicitGrad E C m c g := by
  refine ⟨?_, ?_, ?_, ?_⟩
  · obtain ⟨ws, hw⟩ := exists_terms (MF.unpack c) evs (fun sc x => fl (sc - x))
    obtain ⟨s, hs⟩ := exists_sum (ws.map (fun w => fl (w.2 ^ 2)))
    obtain ⟨a, ha⟩ := exists_sum (List.ofFn (fun u => fl ((MF.unpack c).bu u ^ 2)))
    obtain ⟨b, hb⟩ := exists_sum (List.ofFn (fun i => fl ((MF.unpack c).bi i ^ 2)))
    obtain ⟨p, hp⟩ := exists_sum ((Finset.univ : Finset (Fin nu × Fin k)).toList.map (fun x => fl ((MF.unpack c).p x.1 x.2 ^ 2)))
    obtain ⟨q, hq⟩ := exists_sum ((Finset.univ : Finset (Fin ni × Fin k)).toList.map (fun x => fl ((MF.unpack c).q x.1 x.2 ^ 2)))
    exact ⟨_, ws, s, _, hw, hs, ⟨a, b, p, q, ha, hb, hp, hq, rfl⟩, rfl⟩
  all_goals
    obtain ⟨ws, hw⟩ := exists_terms (MF.unpack c) _ _
    obtain ⟨g, hg⟩ := exists_grad C (MF.unpack c) ws
    exact ⟨g, ws, hw, hg⟩

/-- A factorization with one user, two items and one factor. -/
example : ∃ g, PMFGrad 0.01 [⟨0, 0, 5⟩, ⟨0, 1, 3⟩] (MF.pack (nu := 1) (ni := 2) (k := 1) ⟨3, fun _ => 0.5, fun _ => 0.25, fun _ _ => 1, fun _ _ => 2⟩) g ∧
    ([⟨0, 0, 5⟩, ⟨0, 1, 3⟩] : List (MF.Event 1 2)).length + 1 + 98 ≤ 2 ^ 52 := by
  obtain ⟨g, hg⟩ := (C143_exists (fun y => fl (1 / (1 + Real.exp (-y)))) 0.01 _ (fun _ _ => 0) _).2.1
  exact ⟨g, hg, by norm_num⟩

end Kam.Fl
