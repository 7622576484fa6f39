/-
Property theorems of the topic model, continued: the numbering of latent classes, events, users and
items does not matter (C91), one latent class (C92), and EM stalls only at a fixed point (C41).
-/
import Verif.PLSA.Props4
import Verif.MF.Props4

set_option linter.unusedSectionVars false

namespace Kam
namespace PLSA
open scoped BigOperators
open Spec
variable {n nu ni nl k : Nat} {γ : Type}

/-! ### what a request sees -/

/-- Joint probability of level `r` and the known objects of a request, up to a constant. -/
noncomputable def seen (θ : Theta nu ni nl k) (u : Option (Fin nu)) (i : Option (Fin ni)) (r : Fin nl) :
    ℝ :=
  ∑ z, θ.pZ z * θ.pR r z * MF.extend θ.pX (fun _ => 1) u z * MF.extend θ.pY (fun _ => 1) i z

/-- The answer computed from a distribution over the levels (score_predictor/topic_model.py:350-353). -/
noncomputable def answer (b : Bool) (levels dist : List ℝ) : Res ℝ :=
  if b then
    if dist.length = levels.length then .ok (List.zipWith (· * ·) dist levels).sum
    else .error .valueError
  else (argmax dist).bind (fun j => npGet levels ((j : Nat) : Int))

theorem predictRow_code (b : Bool) (θ : Theta nu ni nl k) (levels : List ℝ) (row : List Int)
    (u : Option (Fin nu)) (i : Option (Fin ni)) {x y : Int} (h0 : npGet row 0 = .ok x)
    (h1 : npGet row 1 = .ok y)
    (hx : npGet (store θ levels).pX x = .ok (MF.extend θ.pX (fun _ => 1) u))
    (hy : npGet (store θ levels).pY y = .ok (MF.extend θ.pY (fun _ => 1) i)) :
    predictRow b (store θ levels) row =
      answer b levels (List.ofFn (fun r => seen θ u i r / ∑ r', seen θ u i r')) := by
  unfold predictRow answer
  simp only [h0, h1, hx, hy, bind, Except.bind, pure, Except.pure]
  rfl

theorem predictRow_codes (b : Bool) (θ : Theta nu ni nl k) (levels : List ℝ)
    (u : Option (Fin nu)) (i : Option (Fin ni)) :
    predictRow b (store θ levels) [MF.code u, MF.code i] =
      answer b levels (List.ofFn (fun r => seen θ u i r / ∑ r', seen θ u i r')) :=
  predictRow_code b θ levels _ u i rfl rfl (MF.npGet_extend _ _ _) (MF.npGet_extend _ _ _)

/-- Parameters that give the same joint probabilities give the same answers to all requests. -/
theorem predictRow_congr {k' : Nat} (b : Bool) {θ : Theta nu ni nl k} {θ' : Theta nu ni nl k'}
    (levels : List ℝ) (h : ∀ u i r, seen θ u i r = seen θ' u i r) (row : List Int) :
    predictRow b (store θ levels) row = predictRow b (store θ' levels) row := by
  cases h0 : npGet row 0 with
  | error e => unfold predictRow; simp only [h0, bind, Except.bind]
  | ok x =>
  rcases MF.npGet_any nu x with ⟨u, hu⟩ | hu
  · cases h1 : npGet row 1 with
    | error e =>
      unfold predictRow
      have a1 := hu θ.pX (fun _ => (1 : ℝ))
      have a2 := hu θ'.pX (fun _ => (1 : ℝ))
      simp only [h0, h1, bind, Except.bind, store, a1, a2]
    | ok y =>
    rcases MF.npGet_any ni y with ⟨i, hi⟩ | hi
    · rw [predictRow_code b θ levels row u i h0 h1 (hu _ _) (hi _ _),
        predictRow_code b θ' levels row u i h0 h1 (hu _ _) (hi _ _)]
      simp only [h]
    · unfold predictRow
      have a1 := hu θ.pX (fun _ => (1 : ℝ))
      have a2 := hu θ'.pX (fun _ => (1 : ℝ))
      have b1 := hi θ.pY (fun _ => (1 : ℝ))
      have b2 := hi θ'.pY (fun _ => (1 : ℝ))
      simp only [h0, h1, bind, Except.bind, store, a1, a2, b1, b2]
  · unfold predictRow
    have a1 := hu θ.pX (fun _ => (1 : ℝ))
    have a2 := hu θ'.pX (fun _ => (1 : ℝ))
    simp only [h0, bind, Except.bind, store, a1, a2]

/-! ### C91: latent classes -/

/-- Latent class `z` becomes class `σ z`. -/
def relabel (σ : Equiv.Perm (Fin k)) (θ : Theta nu ni nl k) : Theta nu ni nl k where
  pZ := fun z => θ.pZ (σ.symm z)
  pX := fun x z => θ.pX x (σ.symm z)
  pY := fun y z => θ.pY y (σ.symm z)
  pR := fun r z => θ.pR r (σ.symm z)

theorem joint_relabel (σ : Equiv.Perm (Fin k)) (θ : Theta nu ni nl k) (e : Ev nu ni nl) (z : Fin k) :
    joint (relabel σ θ) e z = joint θ e (σ.symm z) := rfl

theorem sum_joint_relabel (σ : Equiv.Perm (Fin k)) (θ : Theta nu ni nl k) (e : Ev nu ni nl) :
    ∑ z, joint (relabel σ θ) e z = ∑ z, joint θ e z :=
  Equiv.sum_comp σ.symm (joint θ e)

theorem mStep_relabel (σ : Equiv.Perm (Fin k)) (a : ℝ) (evs : Fin n → Ev nu ni nl) (q : Resp n k) :
    mStep a evs (fun e z => q e (σ.symm z)) = relabel σ (mStep a evs q) := by
  apply Theta.ext
  · funext z
    show (∑ e, q e (σ.symm z) + a) / ∑ z', (∑ e, q e (σ.symm z') + a) =
      (∑ e, q e (σ.symm z) + a) / ∑ z', (∑ e, q e z' + a)
    rw [Equiv.sum_comp σ.symm (fun z => ∑ e, q e z + a)]
  · rfl
  · rfl
  · rfl

theorem eStep_relabel (σ : Equiv.Perm (Fin k)) (θ : Theta nu ni nl k) (evs : Fin n → Ev nu ni nl) :
    eStep (relabel σ θ) evs = fun e z => eStep θ evs e (σ.symm z) := by
  funext e z
  unfold eStep
  rw [sum_joint_relabel, joint_relabel]

theorem emStep_relabel (σ : Equiv.Perm (Fin k)) (a : ℝ) (evs : Fin n → Ev nu ni nl)
    (θ : Theta nu ni nl k) : emStep a evs (relabel σ θ) = relabel σ (emStep a evs θ) := by
  unfold emStep
  rw [eStep_relabel, mStep_relabel]

/-- C91: renumbering the latent classes of the initialization renumbers those of the parameters
after every number of steps; the loss and all answers to requests stay the same. -/
theorem C91_latent_classes (σ : Equiv.Perm (Fin k)) (a : ℝ) (evs : Fin n → Ev nu ni nl)
    (q : Resp n k) (m : Nat) (levels : List ℝ) :
    reached a evs (fun e z => q e (σ.symm z)) m = relabel σ (reached a evs q m) ∧
    loss evs (reached a evs (fun e z => q e (σ.symm z)) m) = loss evs (reached a evs q m) ∧
    ∀ b row, predictRow b (store (reached a evs (fun e z => q e (σ.symm z)) m) levels) row =
      predictRow b (store (reached a evs q m) levels) row := by
  have h : reached a evs (fun e z => q e (σ.symm z)) m = relabel σ (reached a evs q m) := by
    induction m with
    | zero => exact mStep_relabel σ a evs q
    | succ m ih => rw [reached_succ, reached_succ, ih, emStep_relabel]
  rw [h]
  refine ⟨rfl, ?_, fun b row => ?_⟩
  · unfold loss
    simp only [sum_joint_relabel]
  · apply predictRow_congr
    intro u i r
    have := Equiv.sum_comp σ.symm (fun z => (reached a evs q m).pZ z * (reached a evs q m).pR r z *
      MF.extend (reached a evs q m).pX (fun _ => 1) u z * MF.extend (reached a evs q m).pY (fun _ => 1) i z)
    unfold seen
    rw [← this]
    apply Finset.sum_congr rfl
    intro z _
    cases u <;> cases i <;> rfl

/-! ### C91: events -/

theorem mStep_perm (π : Equiv.Perm (Fin n)) (a : ℝ) (evs : Fin n → Ev nu ni nl) (q : Resp n k) :
    mStep a (fun e => evs (π e)) (fun e => q (π e)) = mStep a evs q := by
  have hw : ∀ {m : Nat} (id : Fin n → Fin m),
      weights a (fun e => id (π e)) (fun e => q (π e)) = weights a id q := by
    intro m id
    funext j z
    unfold weights
    rw [Equiv.sum_comp π (fun e => if id e = j then q e z else 0)]
  apply Theta.ext
  · funext z
    show (∑ e, q (π e) z + a) / ∑ z', (∑ e, q (π e) z' + a) =
      (∑ e, q e z + a) / ∑ z', (∑ e, q e z' + a)
    have : ∀ z, ∑ e, q (π e) z = ∑ e, q e z := fun z => Equiv.sum_comp π (fun e => q e z)
    simp only [this]
  · exact congrArg normalize (hw (fun e => (evs e).user))
  · exact congrArg normalize (hw (fun e => (evs e).item))
  · exact congrArg normalize (hw (fun e => (evs e).level))

/-- C91: the order of the events does not matter when their initial responsibilities move along. -/
theorem C91_events (π : Equiv.Perm (Fin n)) (a : ℝ) (evs : Fin n → Ev nu ni nl) (q : Resp n k)
    (m : Nat) :
    reached a (fun e => evs (π e)) (fun e => q (π e)) m = reached a evs q m ∧
    ∀ θ : Theta nu ni nl k, loss (fun e => evs (π e)) θ = loss evs θ := by
  refine ⟨?_, fun θ => ?_⟩
  · induction m with
    | zero => exact mStep_perm π a evs q
    | succ m ih =>
      rw [reached_succ, reached_succ, ih]
      exact mStep_perm π a evs (eStep (reached a evs q m) evs)
  · unfold loss
    rw [Equiv.sum_comp π (fun e => Real.log (∑ z, joint θ (evs e) z))]

/-! ### C91: users and items -/

/-- User `x` becomes user `σ x`, item `y` becomes item `τ y`. -/
def renameObjects (σ : Equiv.Perm (Fin nu)) (τ : Equiv.Perm (Fin ni)) (θ : Theta nu ni nl k) :
    Theta nu ni nl k :=
  { θ with pX := fun x z => θ.pX (σ.symm x) z, pY := fun y z => θ.pY (τ.symm y) z }

/-- The same for an event. -/
def renameEv (σ : Equiv.Perm (Fin nu)) (τ : Equiv.Perm (Fin ni)) (e : Ev nu ni nl) : Ev nu ni nl :=
  ⟨σ e.user, τ e.item, e.level⟩

theorem joint_rename (σ : Equiv.Perm (Fin nu)) (τ : Equiv.Perm (Fin ni)) (θ : Theta nu ni nl k)
    (e : Ev nu ni nl) : joint (renameObjects σ τ θ) (renameEv σ τ e) = joint θ e := by
  funext z
  simp [joint, renameObjects, renameEv]

theorem mStep_rename (σ : Equiv.Perm (Fin nu)) (τ : Equiv.Perm (Fin ni)) (a : ℝ)
    (evs : Fin n → Ev nu ni nl) (q : Resp n k) :
    mStep a (fun e => renameEv σ τ (evs e)) q = renameObjects σ τ (mStep a evs q) := by
  have hw : ∀ {m : Nat} (ρ : Equiv.Perm (Fin m)) (id : Fin n → Fin m) j z,
      normalize (weights a (fun e => ρ (id e)) q) j z = normalize (weights a id q) (ρ.symm j) z := by
    intro m ρ id j z
    have h1 : ∀ j, weights a (fun e => ρ (id e)) q j z = weights a id q (ρ.symm j) z := by
      intro j
      unfold weights
      simp only [← Equiv.eq_symm_apply]
    unfold normalize
    simp only [h1]
    rw [Equiv.sum_comp ρ.symm (fun j => weights a id q j z)]
  apply Theta.ext
  · rfl
  · funext x z
    exact hw σ (fun e => (evs e).user) x z
  · funext y z
    exact hw τ (fun e => (evs e).item) y z
  · rfl

/-- C91: renumbering users and items renumbers the parameters after every number of steps; the loss
and the answers about the same objects (also about unknown ones) stay the same. -/
theorem C91_objects (σ : Equiv.Perm (Fin nu)) (τ : Equiv.Perm (Fin ni)) (a : ℝ)
    (evs : Fin n → Ev nu ni nl) (q : Resp n k) (m : Nat) (levels : List ℝ) :
    reached a (fun e => renameEv σ τ (evs e)) q m = renameObjects σ τ (reached a evs q m) ∧
    loss (fun e => renameEv σ τ (evs e)) (reached a (fun e => renameEv σ τ (evs e)) q m) =
      loss evs (reached a evs q m) ∧
    ∀ b u i, predictRow b (store (reached a (fun e => renameEv σ τ (evs e)) q m) levels)
        [MF.code (Option.map σ u), MF.code (Option.map τ i)] =
      predictRow b (store (reached a evs q m) levels) [MF.code u, MF.code i] := by
  have h : reached a (fun e => renameEv σ τ (evs e)) q m = renameObjects σ τ (reached a evs q m) := by
    induction m with
    | zero => exact mStep_rename σ τ a evs q
    | succ m ih =>
      rw [reached_succ, reached_succ, ih]
      have : eStep (renameObjects σ τ (reached a evs q m)) (fun e => renameEv σ τ (evs e)) =
          eStep (reached a evs q m) evs := by
        funext e z
        unfold eStep
        simp only [joint_rename]
      unfold emStep
      rw [this, mStep_rename]
  rw [h]
  refine ⟨rfl, ?_, fun b u i => ?_⟩
  · unfold loss
    simp only [joint_rename]
  · rw [predictRow_codes, predictRow_codes]
    have : ∀ r, seen (renameObjects σ τ (reached a evs q m)) (Option.map σ u) (Option.map τ i) r =
        seen (reached a evs q m) u i r := by
      intro r
      unfold seen
      cases u <;> cases i <;> simp [renameObjects, MF.extend]
    simp only [this]

/-- Users and items exchanged. -/
def swapObjects (θ : Theta nu ni nl k) : Theta ni nu nl k := ⟨θ.pZ, θ.pY, θ.pX, θ.pR⟩

/-- C91: the roles of users and items can be exchanged. -/
theorem C91_swapped_roles (a : ℝ) (evs : Fin n → Ev nu ni nl) (q : Resp n k) (m : Nat)
    (levels : List ℝ) :
    reached a (fun e => (⟨(evs e).item, (evs e).user, (evs e).level⟩ : Ev ni nu nl)) q m =
      swapObjects (reached a evs q m) ∧
    ∀ b (u : Option (Fin nu)) (i : Option (Fin ni)),
      predictRow b (store (swapObjects (reached a evs q m)) levels) [MF.code i, MF.code u] =
        predictRow b (store (reached a evs q m) levels) [MF.code u, MF.code i] := by
  have hj : ∀ (θ : Theta nu ni nl k) (e : Ev nu ni nl) z,
      joint (swapObjects θ) ⟨e.item, e.user, e.level⟩ z = joint θ e z := by
    intro θ e z
    simp only [joint, swapObjects]
    ring
  refine ⟨?_, fun b u i => ?_⟩
  · induction m with
    | zero => rfl
    | succ m ih =>
      rw [reached_succ, reached_succ, ih]
      unfold emStep
      have : eStep (swapObjects (reached a evs q m))
          (fun e => (⟨(evs e).item, (evs e).user, (evs e).level⟩ : Ev ni nu nl)) =
          eStep (reached a evs q m) evs := by
        funext e z
        unfold eStep
        simp only [hj]
      rw [this]
      rfl
  · rw [predictRow_codes, predictRow_codes]
    have : ∀ r, seen (swapObjects (reached a evs q m)) i u r = seen (reached a evs q m) u i r := by
      intro r
      unfold seen
      apply Finset.sum_congr rfl
      intro z _
      cases u <;> cases i <;> (simp [swapObjects, MF.extend]; try ring)
    simp only [this]

/-! ### C92: one latent class -/

theorem one_class {a : ℝ} (ha : 0 ≤ a) (hn : 0 < n) (evs : Fin n → Ev nu ni nl) (q : Resp n 1)
    (hq : ∀ e, q e 0 = 1) (m : Nat) (levels : List ℝ) (b : Bool) :
    reached a evs q m = reached a evs q 0 ∧
    (∀ (u : Option (Fin nu)) (i : Option (Fin ni)), (a = 0 → (∀ x, u = some x → ∃ e, (evs e).user = x) ∧
        (∀ y, i = some y → ∃ e, (evs e).item = y)) →
      predictRow b (store (reached a evs q m) levels) [MF.code u, MF.code i] =
        answer b levels (List.ofFn (fun r : Fin nl =>
          ((Finset.univ.filter (fun e => (evs e).level = r)).card + a) / (n + a * nl)))) := by
  have hq' : q = fun _ _ => 1 := by
    funext e z
    rw [Fin.fin_one_eq_zero z]
    exact hq e
  subst hq'
  have hn' : (0 : ℝ) < n := by exact_mod_cast hn
  have hg : ∀ m, Good a evs (reached a evs (fun _ (_ : Fin 1) => 1) m) := fun m =>
    reached_good ha Nat.one_pos hn evs (fun _ _ => zero_le_one) (fun _ _ _ => one_pos) m
  have hE : ∀ m, eStep (reached a evs (fun _ (_ : Fin 1) => 1) m) evs = fun _ _ => 1 := by
    intro m
    funext e z
    have h1 := eStep_sum (hg m) Nat.one_pos e
    rw [Fin.sum_univ_one] at h1
    rw [Fin.fin_one_eq_zero z]
    exact h1
  have hfix : ∀ m, reached a evs (fun _ (_ : Fin 1) => 1) m = mStep a evs (fun _ _ => 1) := by
    intro m
    cases m with
    | zero => rfl
    | succ m => rw [reached_succ]; unfold emStep; rw [hE]
  refine ⟨by rw [hfix, hfix], fun u i hui => ?_⟩
  rw [hfix, predictRow_codes]
  congr 1
  have hG : Good a evs (mStep a evs (fun _ (_ : Fin 1) => (1 : ℝ))) := hg 0
  set θ := mStep a evs (fun _ (_ : Fin 1) => (1 : ℝ)) with hθ
  have hx : MF.extend θ.pX (fun _ => 1) u 0 ≠ 0 := by
    cases u with
    | none => exact one_ne_zero
    | some x =>
      rcases ha.eq_or_lt with h0 | h0
      · obtain ⟨e, he⟩ := (hui h0.symm).1 x rfl
        have := hG.posX e 0
        rw [he] at this
        exact this.ne'
      · exact (hG.allX h0 x 0).ne'
  have hy : MF.extend θ.pY (fun _ => 1) i 0 ≠ 0 := by
    cases i with
    | none => exact one_ne_zero
    | some x =>
      rcases ha.eq_or_lt with h0 | h0
      · obtain ⟨e, he⟩ := (hui h0.symm).2 x rfl
        have := hG.posY e 0
        rw [he] at this
        exact this.ne'
      · exact (hG.allY h0 x 0).ne'
  have hz : θ.pZ 0 = 1 := by
    have := hG.sumZ
    rwa [Fin.sum_univ_one] at this
  congr 1
  funext r
  unfold seen
  simp only [Fin.sum_univ_one, hz, one_mul]
  have hs : ∑ r', θ.pR r' 0 * MF.extend θ.pX (fun _ => 1) u 0 * MF.extend θ.pY (fun _ => 1) i 0 =
      MF.extend θ.pX (fun _ => 1) u 0 * MF.extend θ.pY (fun _ => 1) i 0 := by
    rw [← Finset.sum_mul, ← Finset.sum_mul, hG.sumR, one_mul]
  rw [hs, mul_assoc, mul_div_assoc, div_self (mul_ne_zero hx hy), mul_one]
  show normalize (weights a (fun e => (evs e).level) (fun _ _ => 1)) r 0 = _
  unfold normalize
  rw [sum_weights]
  unfold weights
  simp

/-- C92: with one latent class EM steps change nothing, and all requests about users and items get
the same answer; with `use_expectation` it is the mean level under the smoothed frequencies of the
levels.  (Without smoothing, known users and items must have an event.) -/
theorem C92_one_class {a : ℝ} (ha : 0 ≤ a) (hn : 0 < n) (evs : Fin n → Ev nu ni nl) (q : Resp n 1)
    (hq : ∀ e, q e 0 = 1) (m : Nat) (l : Fin nl → ℝ)
    (hev : a = 0 → (∀ x, ∃ e, (evs e).user = x) ∧ ∀ y, ∃ e, (evs e).item = y) :
    reached a evs q m = reached a evs q 0 ∧
    (∀ b (u u' : Option (Fin nu)) (i i' : Option (Fin ni)),
      predictRow b (store (reached a evs q m) (List.ofFn l)) [MF.code u, MF.code i] =
      predictRow b (store (reached a evs q m) (List.ofFn l)) [MF.code u', MF.code i']) ∧
    ∀ (u : Option (Fin nu)) (i : Option (Fin ni)),
      predictRow true (store (reached a evs q m) (List.ofFn l)) [MF.code u, MF.code i] =
      .ok (∑ r : Fin nl, ((Finset.univ.filter (fun e => (evs e).level = r)).card + a) / (n + a * nl) *
        l r) := by
  have h := fun b => one_class ha hn evs q hq m (List.ofFn l) b
  have hany : ∀ (u : Option (Fin nu)) (i : Option (Fin ni)), a = 0 →
      (∀ x, u = some x → ∃ e, (evs e).user = x) ∧ (∀ y, i = some y → ∃ e, (evs e).item = y) :=
    fun u i h0 => ⟨fun x _ => (hev h0).1 x, fun y _ => (hev h0).2 y⟩
  refine ⟨(h true).1, fun b u u' i i' => ?_, fun u i => ?_⟩
  · rw [(h b).2 u i (hany u i), (h b).2 u' i' (hany u' i')]
  · rw [(h true).2 u i (hany u i)]
    unfold answer
    rw [if_pos rfl, if_pos (by simp), MF.zipWith_ofFn]

/-- The levels of two events, one user and one item with smoothing one: both levels have the
frequency one half. -/
example : (∀ e, (fun _ _ => 1 : Resp 2 1) e 0 = 1) ∧
    (List.ofFn (fun r : Fin 2 =>
      ((Finset.univ.filter (fun e : Fin 2 => (⟨0, 0, e⟩ : Ev 1 1 2).level = r)).card + (1 : ℝ)) /
        ((2 : Nat) + 1 * (2 : Nat)))) = [1 / 2, 1 / 2] := by
  refine ⟨fun _ => rfl, ?_⟩
  simp only [List.ofFn_succ, List.ofFn_zero]
  have h0 : (Finset.univ.filter (fun e : Fin 2 => e = 0)).card = 1 := by decide
  have h1 : (Finset.univ.filter (fun e : Fin 2 => e = 1)).card = 1 := by decide
  norm_num [h0, h1]

/-! ### C41: the gain is positive unless nothing changes -/

/-- An EM step that changes the parameters increases the objective of C41. -/
theorem C41_strict {a : ℝ} (ha : 0 < a) (hk : 0 < k) (hn : 0 < n) (evs : Fin n → Ev nu ni nl)
    (θ : Theta nu ni nl k) (h : Proper θ) (hne : emStep a evs θ ≠ θ) :
    logLikelihood evs θ + a * logPrior θ <
      logLikelihood evs (emStep a evs θ) + a * logPrior (emStep a evs θ) := by
  rw [← objective_eq, ← objective_eq]
  by_contra hc
  apply hne
  have hgain := emStep_gain (evs := evs) ha hk hn h
  have hg := emStep_good ha.le hk hn (h.good a evs)
  have key : ∀ {x y : ℝ}, 0 ≤ x → 0 ≤ y →
      a * (√y - √x) ^ 2 ≤ objective a evs (emStep a evs θ) - objective a evs θ → y = x := by
    intro x y hx hy hle
    have h1 : a * (√y - √x) ^ 2 ≤ 0 := le_trans hle (by linarith)
    have h2 : (√y - √x) ^ 2 = 0 := by
      have := sq_nonneg (√y - √x)
      nlinarith
    have h3 : √y = √x := by
      have := pow_eq_zero_iff (two_ne_zero) |>.1 h2
      linarith
    rw [← Real.sq_sqrt hx, ← Real.sq_sqrt hy, h3]
  apply Theta.ext
  · funext z; exact key (h.z.1 z).le (hg.nnZ z) (hgain.z z)
  · funext x z; exact key ((h.x z).1 x).le (hg.nnX x z) (hgain.x x z)
  · funext x z; exact key ((h.y z).1 x).le (hg.nnY x z) (hgain.y x z)
  · funext x z; exact key ((h.r z).1 x).le (hg.nnR x z) (hgain.r x z)

end PLSA
end Kam
