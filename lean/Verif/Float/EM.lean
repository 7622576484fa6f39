/-
C139: training of the topic model with machine arithmetic.
-/
import Verif.Float.Topic

set_option linter.unusedSectionVars false

namespace Kam.Fl
open Spec
open scoped BigOperators

section
variable {n nu ni nl k : Nat}

/-! ### Model -/

/-- `np.bincount` with weights, transposed, plus `alpha` (score_predictor/topic_model.py:185-192, 196-203, 207-214): the sum of the
weights of the events of every object, in some order, and one rounded addition. -/
def Weights {m : Nat} (a : ℝ) (id : Fin n → Fin m) (q : PLSA.Resp n k) (w : Fin m → Fin k → ℝ) : Prop :=
  ∀ j z, ∃ s, RoundedSum (((List.finRange n).filter (fun e => id e = j)).map (fun e => q e z)) s ∧ w j z = fl (s + a)

/-- `p /= p.sum(axis=0, keepdims=True)` (score_predictor/topic_model.py:193, 204, 215). -/
def Normalize {m : Nat} (w p : Fin m → Fin k → ℝ) : Prop :=
  ∀ z, ∃ s, RoundedSum (List.ofFn (fun j => w j z)) s ∧ ∀ j, p j z = fl (w j z / s)

/-- `pZ_` (score_predictor/topic_model.py:218-219). -/
def Marginal (a : ℝ) (q : PLSA.Resp n k) (p : Fin k → ℝ) : Prop :=
  ∃ w : Fin k → ℝ, (∀ z, ∃ s, RoundedSum (List.ofFn (fun e => q e z)) s ∧ w z = fl (s + a)) ∧
    ∃ s, RoundedSum (List.ofFn w) s ∧ ∀ z, p z = fl (w z / s)

/-- `maximization_step` (score_predictor/topic_model.py:170-219). -/
structure MStep (a : ℝ) (evs : Fin n → PLSA.Ev nu ni nl) (q : PLSA.Resp n k) (θ : PLSA.Theta nu ni nl k) : Prop where
  r : ∃ w, Weights a (fun e => (evs e).level) q w ∧ Normalize w θ.pR
  x : ∃ w, Weights a (fun e => (evs e).user) q w ∧ Normalize w θ.pX
  y : ∃ w, Weights a (fun e => (evs e).item) q w ∧ Normalize w θ.pY
  z : Marginal a q θ.pZ

/-- The product of the E-step, from left to right (score_predictor/topic_model.py:270-274). -/
noncomputable def joint (θ : PLSA.Theta nu ni nl k) (e : PLSA.Ev nu ni nl) (z : Fin k) : ℝ :=
  fl (fl (fl (θ.pZ z * θ.pR e.level z) * θ.pX e.user z) * θ.pY e.item z)

/-- The E-step (score_predictor/topic_model.py:270-275). -/
def EStep (θ : PLSA.Theta nu ni nl k) (evs : Fin n → PLSA.Ev nu ni nl) (q : PLSA.Resp n k) : Prop :=
  ∀ e, ∃ s, RoundedSum (List.ofFn (joint θ (evs e))) s ∧ ∀ z, q e z = fl (joint θ (evs e) z / s)

/-- The parameters after the first M-step and `t` passes of the main loop (score_predictor/topic_model.py:246-249, 263-278). -/
inductive Trained (a : ℝ) (evs : Fin n → PLSA.Ev nu ni nl) (q0 : PLSA.Resp n k) : Nat → PLSA.Theta nu ni nl k → Prop
  | first {θ} (h : MStep a evs q0 θ) : Trained a evs q0 0 θ
  | pass {t θ q θ'} (h : Trained a evs q0 t θ) (he : EStep θ evs q) (hm : MStep a evs q θ') : Trained a evs q0 (t + 1) θ'

/-! ### Specification -/

namespace Spec

/-- Positive numbers with a sum of 1 up to rounding. -/
def AlmostDist {m : Nat} (p : Fin m → ℝ) : Prop := (∀ j, 0 < p j) ∧ |∑ j, p j - 1| ≤ 2 * m / 2 ^ 52

/-- All parameters are positive distributions up to rounding. -/
structure AlmostProper (θ : PLSA.Theta nu ni nl k) : Prop where
  z : AlmostDist θ.pZ
  x : ∀ z, AlmostDist (fun j => θ.pX j z)
  y : ∀ z, AlmostDist (fun j => θ.pY j z)
  r : ∀ z, AlmostDist (fun j => θ.pR j z)

/-- All parameters are positive. -/
structure Positive (θ : PLSA.Theta nu ni nl k) : Prop where
  z : ∀ z, 0 < θ.pZ z
  x : ∀ j z, 0 < θ.pX j z
  y : ∀ j z, 0 < θ.pY j z
  r : ∀ j z, 0 < θ.pR j z

/-- Every parameter differs from the one of `θ` by at most this relative error. -/
structure Within (ε : ℝ) (θ θ' : PLSA.Theta nu ni nl k) : Prop where
  z : ∀ z, |θ'.pZ z - θ.pZ z| ≤ ε * θ.pZ z
  x : ∀ j z, |θ'.pX j z - θ.pX j z| ≤ ε * θ.pX j z
  y : ∀ j z, |θ'.pY j z - θ.pY j z| ≤ ε * θ.pY j z
  r : ∀ j z, |θ'.pR j z - θ.pR j z| ≤ ε * θ.pR j z

end Spec

open Fl.Spec

/-! ### Steps -/

lemma near_finset {m c : Nat} {a f : Fin m → ℝ} (h : ∀ i, Near c (a i) (f i)) : Near c (∑ i, a i) (∑ i, f i) := by
  have := near_list (n := c) (as := List.ofFn a) (bs := List.ofFn f) (by
    rw [List.forall₂_iff_get]
    refine ⟨by simp, fun i h1 h2 => ?_⟩
    simp only [List.get_ofFn]
    exact h _)
  rwa [List.sum_ofFn, List.sum_ofFn] at this

/-- A division by a rounded sum. -/
lemma quotients {m c : Nat} {w' w p : Fin m → ℝ} (h : ∀ j, Near c (w' j) (w j)) (hpos : 0 < ∑ j, w' j) {s : ℝ}
    (hs : RoundedSum (List.ofFn w) s) (hp : ∀ j, p j = fl (w j / s)) :
    (∀ j, Near (3 * c + 2 * m) (w' j / ∑ j, w' j) (p j)) ∧ Near (2 * m) 1 (∑ j, p j) ∧ ∀ j, p j ≤ (1 + u) ^ (2 * m) := by
  have hm : 0 < m := by
    by_contra hc
    have : m = 0 := by omega
    subst this
    simp at hpos
  have hw := near_finset h
  have hwpos := hw.pos hpos
  have h1 : Near (m - 1) (∑ j, w j) s := by
    have := near_ofFn (k := 0) (fun j => Near.refl (h j).nonneg) hs
    rwa [zero_add] at this
  have hsum : Near (2 * m) 1 (∑ j, p j) := by
    have h6 : ∀ j, Near 1 (w j / s) (p j) := by
      intro j
      rw [hp j]
      exact near_fl (div_nonneg (h j).nonneg h1.nonneg)
    have h7 := near_finset h6
    have h8 : Near (2 * (m - 1)) 1 (∑ j, w j / s) := by
      have := (h1.inv hwpos).scale hwpos.le
      rw [inv_mul_cancel₀ hwpos.ne'] at this
      have e : ∑ j, w j / s = s⁻¹ * ∑ j, w j := by
        rw [Finset.mul_sum]
        exact Finset.sum_congr rfl (fun r _ => by rw [div_eq_inv_mul])
      rwa [e]
    exact (h8.trans h7).mono (by omega)
  have hnn : ∀ j, 0 ≤ p j := by
    intro j
    rw [hp j]
    exact (near_fl (div_nonneg (h j).nonneg h1.nonneg)).nonneg
  refine ⟨?_, hsum, ?_⟩
  · intro j
    have h4 := hw.trans h1
    have h5 := ((h j).mul (h4.inv hpos)).fl
    rw [hp j, div_eq_mul_inv, div_eq_mul_inv]
    exact h5.mono (by omega)
  · intro j
    have : p j ≤ ∑ j, p j := Finset.single_le_sum (fun i _ => hnn i) (Finset.mem_univ j)
    have h2 := hsum.2.2
    rw [mul_one] at h2
    exact this.trans h2

lemma sum_filter {m : Nat} (id : Fin n → Fin m) (j : Fin m) (f : Fin n → ℝ) :
    (((List.finRange n).filter (fun e => id e = j)).map f).sum = ∑ e, if id e = j then f e else 0 := by
  have e1 : ∀ l : List (Fin n), ((l.filter (fun e => id e = j)).map f).sum = (l.map (fun e => if id e = j then f e else 0)).sum := by
    intro l
    induction l with
    | nil => simp
    | cons x l ih =>
      by_cases h : id x = j
      · simp [h, ih]
      · simp [h, ih]
  rw [e1, ← List.sum_ofFn, List.ofFn_eq_map]

lemma weights_near {m c : Nat} {a : ℝ} (ha : 0 ≤ a) {id : Fin n → Fin m} {q' q : PLSA.Resp n k} (hq : ∀ e z, Near c (q' e z) (q e z))
    {w : Fin m → Fin k → ℝ} (h : Weights a id q w) (j : Fin m) (z : Fin k) :
    Near (c + n + 1) (PLSA.weights a id q' j z) (w j z) := by
  obtain ⟨s, hs, hw⟩ := h j z
  have h1 := near_sum hs (by
    intro x hx
    obtain ⟨e, -, rfl⟩ := List.mem_map.1 hx
    exact (hq e z).nonneg)
  rw [sum_filter] at h1
  have h0 : Near c (∑ e, if id e = j then q' e z else 0) (∑ e, if id e = j then q e z else 0) := by
    refine near_finset (fun e => ?_)
    split
    · exact hq e z
    · exact (Near.refl le_rfl).mono (Nat.zero_le _)
  have hl : (((List.finRange n).filter (fun e => id e = j)).map (fun e => q e z)).length ≤ n := by
    rw [List.length_map]
    exact (List.length_filter_le _ _).trans (by simp)
  rw [hw]
  exact (((h0.trans h1).mono (m := c + n) (by omega)).add ((Near.refl ha).mono (Nat.zero_le _))).fl

lemma marginal_near {c : Nat} {a : ℝ} (ha : 0 ≤ a) {q' q : PLSA.Resp n k} (hq : ∀ e z, Near c (q' e z) (q e z)) {w : Fin k → ℝ}
    (h : ∀ z, ∃ s, RoundedSum (List.ofFn (fun e => q e z)) s ∧ w z = fl (s + a)) (z : Fin k) :
    Near (c + n + 1) (∑ e, q' e z + a) (w z) := by
  obtain ⟨s, hs, hw⟩ := h z
  have h1 := near_ofFn (fun e => hq e z) hs
  rw [hw]
  exact ((h1.mono (m := c + n) (by omega)).add ((Near.refl ha).mono (Nat.zero_le _))).fl

lemma weights_pos {m : Nat} {a : ℝ} (ha : 0 < a) {id : Fin n → Fin m} {q : PLSA.Resp n k} (hq : ∀ e z, 0 ≤ q e z)
    (j : Fin m) (z : Fin k) : 0 < PLSA.weights a id q j z := by
  unfold PLSA.weights
  have : 0 ≤ ∑ e, if id e = j then q e z else 0 := Finset.sum_nonneg (fun e _ => by split <;> [exact hq e z; exact le_rfl])
  linarith

/-- What is known about one array of a machine M-step. -/
lemma array_near {m c : Nat} {a : ℝ} (ha : 0 < a) {id : Fin n → Fin m} {q' q : PLSA.Resp n k} (hq : ∀ e z, Near c (q' e z) (q e z))
    {p : Fin m → Fin k → ℝ} (h : ∃ w, Weights a id q w ∧ Normalize w p) (j : Fin m) (z : Fin k) :
    Near (3 * (c + n + 1) + 2 * m) (PLSA.normalize (PLSA.weights a id q') j z) (p j z) ∧ Near (2 * m) 1 (∑ j, p j z) ∧
      0 < PLSA.normalize (PLSA.weights a id q') j z := by
  obtain ⟨w, hw, hn⟩ := h
  obtain ⟨s, hs, hp⟩ := hn z
  have hq0 : ∀ e z, 0 ≤ q' e z := fun e z => (hq e z).1
  have hpos : 0 < ∑ j, PLSA.weights a id q' j z := Finset.sum_pos (fun j _ => weights_pos ha hq0 j z) ⟨j, Finset.mem_univ j⟩
  obtain ⟨q1, q2, -⟩ := quotients (fun j => weights_near ha.le hq hw j z) hpos hs hp
  exact ⟨q1 j, q2, div_pos (weights_pos ha hq0 j z) hpos⟩

lemma prior_near {c : Nat} {a : ℝ} (ha : 0 < a) {q' q : PLSA.Resp n k} (hq : ∀ e z, Near c (q' e z) (q e z)) {p : Fin k → ℝ}
    (h : Marginal a q p) (z : Fin k) :
    Near (3 * (c + n + 1) + 2 * k) ((∑ e, q' e z + a) / ∑ z', (∑ e, q' e z' + a)) (p z) ∧ Near (2 * k) 1 (∑ z, p z) ∧
      0 < (∑ e, q' e z + a) / ∑ z', (∑ e, q' e z' + a) := by
  obtain ⟨w, hw, s, hs, hp⟩ := h
  have hp1 : ∀ z, 0 < ∑ e, q' e z + a := fun z => by
    have : 0 ≤ ∑ e, q' e z := Finset.sum_nonneg (fun e _ => (hq e z).1)
    linarith
  have hpos : 0 < ∑ z', (∑ e, q' e z' + a) := Finset.sum_pos (fun z _ => hp1 z) ⟨z, Finset.mem_univ z⟩
  obtain ⟨q1, q2, -⟩ := quotients (fun z => marginal_near ha.le hq hw z) hpos hs hp
  exact ⟨q1 z, q2, div_pos (hp1 z) hpos⟩

lemma almost {m : Nat} (hm : 2 * m ≤ 2 ^ 52) {s : ℝ} (h : Near (2 * m) 1 s) : |s - 1| ≤ 2 * m / 2 ^ 52 := by
  have := h.relative hm
  push_cast at this
  rwa [mul_one] at this

/-- The machine M-step with responsibilities that carry errors already. -/
lemma mStep_near {c : Nat} {a : ℝ} (ha : 0 < a) {evs : Fin n → PLSA.Ev nu ni nl} {q' q : PLSA.Resp n k}
    (hq : ∀ e z, Near c (q' e z) (q e z)) {θ : PLSA.Theta nu ni nl k} (h : MStep a evs q θ) (hn : 0 < n) (hk : 0 < k)
    (hmax : 3 * (c + n + 1) + 2 * (k + nu + ni + nl) ≤ 2 ^ 52) :
    AlmostProper θ ∧ Within (((3 * (c + n + 1) + 2 * (k + nu + ni + nl) : Nat) : ℝ) / 2 ^ 52) (PLSA.mStep a evs q') θ := by
  have rel : ∀ {N : Nat} {x y : ℝ}, Near N x y → N ≤ 3 * (c + n + 1) + 2 * (k + nu + ni + nl) →
      |y - x| ≤ ((3 * (c + n + 1) + 2 * (k + nu + ni + nl) : Nat) : ℝ) / 2 ^ 52 * x :=
    fun hN hle => (hN.mono hle).relative hmax
  refine ⟨⟨⟨fun z => ?_, ?_⟩, fun z => ⟨fun j => ?_, ?_⟩, fun z => ⟨fun j => ?_, ?_⟩, fun z => ⟨fun j => ?_, ?_⟩⟩,
    ⟨fun z => ?_, fun j z => ?_, fun j z => ?_, fun j z => ?_⟩⟩
  · obtain ⟨h1, -, h3⟩ := prior_near ha hq h.z z
    exact h1.pos h3
  · exact almost (by omega) (prior_near ha hq h.z ⟨0, hk⟩).2.1
  · obtain ⟨h1, -, h3⟩ := array_near ha hq h.x j z
    exact h1.pos h3
  · exact almost (by omega) (array_near ha hq h.x (evs ⟨0, hn⟩).user z).2.1
  · obtain ⟨h1, -, h3⟩ := array_near ha hq h.y j z
    exact h1.pos h3
  · exact almost (by omega) (array_near ha hq h.y (evs ⟨0, hn⟩).item z).2.1
  · obtain ⟨h1, -, h3⟩ := array_near ha hq h.r j z
    exact h1.pos h3
  · exact almost (by omega) (array_near ha hq h.r (evs ⟨0, hn⟩).level z).2.1
  · exact rel (prior_near ha hq h.z z).1 (by omega)
  · exact rel (array_near ha hq h.x j z).1 (by omega)
  · exact rel (array_near ha hq h.y j z).1 (by omega)
  · exact rel (array_near ha hq h.r j z).1 (by omega)

/-- C139: whatever the responsibilities are, as long as none is negative, the machine M-step gives positive parameters that are
distributions up to rounding, and each is close to the one exact arithmetic gives. -/
theorem C139_mstep {a : ℝ} (ha : 0 < a) {evs : Fin n → PLSA.Ev nu ni nl} {q : PLSA.Resp n k} (hq : ∀ e z, 0 ≤ q e z)
    {θ : PLSA.Theta nu ni nl k} (h : MStep a evs q θ) (hn : 0 < n) (hk : 0 < k)
    (hmax : 3 * (n + 1) + 2 * (k + nu + ni + nl) ≤ 2 ^ 52) :
    AlmostProper θ ∧ Within ((3 * (n + 1) + 2 * (k + nu + ni + nl)) / 2 ^ 52) (PLSA.mStep a evs q) θ := by
  obtain ⟨h1, h2⟩ := mStep_near (c := 0) ha (fun e z => Near.refl (hq e z)) h hn hk (by omega)
  refine ⟨h1, ?_⟩
  push_cast at h2
  rwa [zero_add] at h2

lemma joint_near {θ : PLSA.Theta nu ni nl k} (hθ : Positive θ) (e : PLSA.Ev nu ni nl) (z : Fin k) :
    Near 3 (PLSA.joint θ e z) (joint θ e z) ∧ 0 < PLSA.joint θ e z := by
  have e1 := near_fl (mul_pos (hθ.z z) (hθ.r e.level z)).le
  have e2 := (e1.scale (hθ.x e.user z).le).fl
  exact ⟨(e2.scale (hθ.y e.item z).le).fl, mul_pos (mul_pos (mul_pos (hθ.z z) (hθ.r _ z)) (hθ.x _ z)) (hθ.y _ z)⟩

lemma eStep_near {θ : PLSA.Theta nu ni nl k} (hθ : Positive θ) {evs : Fin n → PLSA.Ev nu ni nl} {q : PLSA.Resp n k}
    (h : EStep θ evs q) (e : Fin n) (z : Fin k) :
    Near (9 + 2 * k) (PLSA.eStep θ evs e z) (q e z) ∧ Near (2 * k) 1 (∑ z, q e z) ∧ 0 < PLSA.eStep θ evs e z := by
  obtain ⟨s, hs, hq⟩ := h e
  have hpos : 0 < ∑ z, PLSA.joint θ (evs e) z := Finset.sum_pos (fun z _ => (joint_near hθ _ z).2) ⟨z, Finset.mem_univ z⟩
  obtain ⟨q1, q2, -⟩ := quotients (fun z => (joint_near hθ (evs e) z).1) hpos hs hq
  exact ⟨(q1 z).mono (by omega), q2, div_pos (joint_near hθ _ z).2 hpos⟩

/-- C139: for positive parameters the machine E-step gives every event positive responsibilities that are a distribution up to
rounding, and each is close to the one exact arithmetic gives. -/
theorem C139_estep {θ : PLSA.Theta nu ni nl k} (hθ : Positive θ) {evs : Fin n → PLSA.Ev nu ni nl} {q : PLSA.Resp n k}
    (h : EStep θ evs q) (hk : 0 < k) (hmax : 9 + 2 * k ≤ 2 ^ 52) (e : Fin n) :
    AlmostDist (q e) ∧ ∀ z, |q e z - PLSA.eStep θ evs e z| ≤ (9 + 2 * k) / 2 ^ 52 * PLSA.eStep θ evs e z := by
  refine ⟨⟨fun z => ?_, ?_⟩, fun z => ?_⟩
  · obtain ⟨h1, -, h3⟩ := eStep_near hθ h e z
    exact h1.pos h3
  · exact almost (by omega) (eStep_near hθ h e ⟨0, hk⟩).2.1
  · have := (eStep_near hθ h e z).1.relative hmax
    push_cast at this
    exact this

lemma Spec.AlmostProper.positive {θ : PLSA.Theta nu ni nl k} (h : AlmostProper θ) : Positive θ :=
  ⟨h.z.1, fun j z => (h.x z).1 j, fun j z => (h.y z).1 j, fun j z => (h.r z).1 j⟩

/-- C139: one pass of the main loop in machine arithmetic gives the parameters of an exact pass up to a relative error that depends on
the numbers of events, topics, users, items and levels only. -/
theorem C139_pass {a : ℝ} (ha : 0 < a) {evs : Fin n → PLSA.Ev nu ni nl} {θ θ' : PLSA.Theta nu ni nl k} (hθ : Positive θ)
    {q : PLSA.Resp n k} (he : EStep θ evs q) (hm : MStep a evs q θ') (hn : 0 < n) (hk : 0 < k)
    (hmax : 3 * n + 8 * k + 2 * (nu + ni + nl) + 30 ≤ 2 ^ 52) :
    AlmostProper θ' ∧ Within ((3 * n + 8 * k + 2 * (nu + ni + nl) + 30) / 2 ^ 52) (PLSA.emStep a evs θ) θ' := by
  obtain ⟨h1, h2⟩ := mStep_near (c := 9 + 2 * k) ha (fun e z => (eStep_near hθ he e z).1) hm hn hk (by omega)
  refine ⟨h1, ?_⟩
  have e : (((3 * (9 + 2 * k + n + 1) + 2 * (k + nu + ni + nl) : Nat) : ℝ)) = 3 * n + 8 * k + 2 * (nu + ni + nl) + 30 := by
    push_cast; ring
  rw [e] at h2
  exact h2

/-- C139: after any number of passes all parameters are positive, and they are distributions up to a rounding error that does not
grow with the number of passes. -/
theorem C139_training {a : ℝ} (ha : 0 < a) {evs : Fin n → PLSA.Ev nu ni nl} {q0 : PLSA.Resp n k} (hq : ∀ e z, 0 ≤ q0 e z)
    {t : Nat} {θ : PLSA.Theta nu ni nl k} (h : Trained a evs q0 t θ) (hn : 0 < n) (hk : 0 < k)
    (hmax : 3 * n + 8 * k + 2 * (nu + ni + nl) + 30 ≤ 2 ^ 52) : AlmostProper θ := by
  induction h with
  | first h => exact (C139_mstep ha hq h hn hk (by omega)).1
  | pass _ he hm ih => exact (C139_pass ha ih.positive he hm hn hk hmax).1

/-! ### No underflow -/

/-- The partial products of the E-step (score_predictor/topic_model.py:270-274). -/
noncomputable def products (θ : PLSA.Theta nu ni nl k) (e : PLSA.Ev nu ni nl) (z : Fin k) : List ℝ :=
  [fl (θ.pZ z * θ.pR e.level z), fl (fl (θ.pZ z * θ.pR e.level z) * θ.pX e.user z), joint θ e z]

/-- All parameters lie between two numbers. -/
structure Bounded (lo hi : ℝ) (θ : PLSA.Theta nu ni nl k) : Prop where
  z : ∀ z, lo ≤ θ.pZ z ∧ θ.pZ z ≤ hi
  x : ∀ j z, lo ≤ θ.pX j z ∧ θ.pX j z ≤ hi
  y : ∀ j z, lo ≤ θ.pY j z ∧ θ.pY j z ≤ hi
  r : ∀ j z, lo ≤ θ.pR j z ∧ θ.pR j z ≤ hi

lemma low_half {N : Nat} (h : N ≤ 2 ^ 52) : 1 / 2 ≤ (1 - u) ^ N := by
  have e1 := one_add_mul_le_pow (a := -u) (by linarith [u_small]) N
  rw [← sub_eq_add_neg] at e1
  have h2 : (N : ℝ) ≤ 2 ^ 52 := by exact_mod_cast h
  have e2 : (N : ℝ) * u ≤ 2 ^ 52 * u := mul_le_mul_of_nonneg_right h2 u_pos.le
  have e3 : (2 ^ 52 : ℝ) * u = 1 / 2 := by unfold u; norm_num
  linarith

lemma high_two {N : Nat} (h : N ≤ 2 ^ 52) : (1 + u) ^ N ≤ 2 := by
  have h1 := high_bound h
  have h2 : (N : ℝ) ≤ 2 ^ 52 := by exact_mod_cast h
  have h3 : (N : ℝ) / 2 ^ 52 ≤ 1 := by rw [div_le_one (by norm_num)]; exact h2
  linarith

lemma Near.half {N : Nat} {a b : ℝ} (h : Near N a b) (hN : N ≤ 2 ^ 52) : a / 2 ≤ b ∧ b ≤ 2 * a := by
  constructor
  · have := mul_le_mul_of_nonneg_right (low_half hN) h.1
    linarith [h.2.1]
  · have := mul_le_mul_of_nonneg_right (high_two hN) h.1
    linarith [h.2.2]

lemma array_bounds {m : Nat} {a : ℝ} (ha : 0 < a) {id : Fin n → Fin m} {q : PLSA.Resp n k} (hq : ∀ e z, 0 ≤ q e z ∧ q e z ≤ 2)
    {p : Fin m → Fin k → ℝ} (h : ∃ w, Weights a id q w ∧ Normalize w p) (M : Nat) (hM : m ≤ M) (hmax : 3 * (n + 1) + 2 * m ≤ 2 ^ 52)
    (j : Fin m) (z : Fin k) : a / (2 * (2 * n + M * a)) ≤ p j z ∧ p j z ≤ 2 := by
  obtain ⟨h1, h2, -⟩ := array_near (c := 0) ha (fun e z => Near.refl (hq e z).1) h j z
  have b1 := (h1.half (by omega)).1
  have hsum : ∑ j, PLSA.weights a id q j z ≤ 2 * n + M * a := by
    have e1 : ∑ j, PLSA.weights a id q j z = ∑ e, q e z + m * a := by
      unfold PLSA.weights
      rw [Finset.sum_add_distrib, Finset.sum_comm]
      congr 1
      · refine Finset.sum_congr rfl (fun e _ => ?_)
        simp
      · simp
    have e2 : ∑ e, q e z ≤ ∑ _e : Fin n, (2 : ℝ) := Finset.sum_le_sum (fun e _ => (hq e z).2)
    have e3 : ∑ _e : Fin n, (2 : ℝ) = 2 * n := by simp [mul_comm]
    have e4 : (m : ℝ) * a ≤ M * a := mul_le_mul_of_nonneg_right (by exact_mod_cast hM) ha.le
    rw [e1]; linarith
  have hpos : 0 < ∑ j, PLSA.weights a id q j z :=
    Finset.sum_pos (fun j _ => weights_pos ha (fun e z => (hq e z).1) j z) ⟨j, Finset.mem_univ j⟩
  have hw : a ≤ PLSA.weights a id q j z := by
    unfold PLSA.weights
    have : 0 ≤ ∑ e, if id e = j then q e z else 0 :=
      Finset.sum_nonneg (fun e _ => by split <;> [exact (hq e z).1; exact le_rfl])
    linarith
  constructor
  · refine le_trans ?_ b1
    unfold PLSA.normalize
    have : a / (2 * n + M * a) ≤ PLSA.weights a id q j z / ∑ j', PLSA.weights a id q j' z :=
      div_le_div₀ (ha.le.trans hw) hw hpos hsum
    have e : a / (2 * (2 * n + M * a)) = a / (2 * n + M * a) / 2 := by rw [div_div]; congr 1; ring
    rw [e]; linarith
  · have hnn : ∀ j, 0 ≤ p j z := fun j => (array_near (c := 0) ha (fun e z => Near.refl (hq e z).1) h j z).1.nonneg
    have h3 : p j z ≤ ∑ j, p j z := Finset.single_le_sum (fun i _ => hnn i) (Finset.mem_univ j)
    have := (h2.half (by omega)).2
    linarith

lemma prior_bounds {a : ℝ} (ha : 0 < a) {q : PLSA.Resp n k} (hq : ∀ e z, 0 ≤ q e z ∧ (∑ z, q e z) ≤ 2)
    {p : Fin k → ℝ} (h : Marginal a q p) (M : Nat) (hM : k ≤ M) (hmax : 3 * (n + 1) + 2 * k ≤ 2 ^ 52)
    (z : Fin k) : a / (2 * (2 * n + M * a)) ≤ p z ∧ p z ≤ 2 := by
  obtain ⟨h1, h2, -⟩ := prior_near (c := 0) ha (fun e z => Near.refl (hq e z).1) h z
  have b1 := (h1.half (by omega)).1
  have hw : ∀ z, a ≤ ∑ e, q e z + a := fun z => by
    have : 0 ≤ ∑ e, q e z := Finset.sum_nonneg (fun e _ => (hq e z).1)
    linarith
  have hsum : ∑ z', (∑ e, q e z' + a) ≤ 2 * n + M * a := by
    have e1 : ∑ z', (∑ e, q e z' + a) = ∑ e, (∑ z', q e z') + k * a := by
      rw [Finset.sum_add_distrib, Finset.sum_comm]
      simp
    have e2 : ∑ e, (∑ z', q e z') ≤ ∑ _e : Fin n, (2 : ℝ) := Finset.sum_le_sum (fun e _ => (hq e z).2)
    have e3 : ∑ _e : Fin n, (2 : ℝ) = 2 * n := by simp [mul_comm]
    have e4 : (k : ℝ) * a ≤ M * a := mul_le_mul_of_nonneg_right (by exact_mod_cast hM) ha.le
    rw [e1]; linarith
  have hpos : 0 < ∑ z', (∑ e, q e z' + a) := Finset.sum_pos (fun z _ => ha.trans_le (hw z)) ⟨z, Finset.mem_univ z⟩
  constructor
  · refine le_trans ?_ b1
    have : a / (2 * n + M * a) ≤ (∑ e, q e z + a) / ∑ z', (∑ e, q e z' + a) := div_le_div₀ (ha.le.trans (hw z)) (hw z) hpos hsum
    have e : a / (2 * (2 * n + M * a)) = a / (2 * n + M * a) / 2 := by rw [div_div]; congr 1; ring
    rw [e]; linarith
  · have hnn : ∀ z, 0 ≤ p z := fun z => (prior_near (c := 0) ha (fun e z => Near.refl (hq e z).1) h z).1.nonneg
    have h3 : p z ≤ ∑ z, p z := Finset.single_le_sum (fun i _ => hnn i) (Finset.mem_univ z)
    have := (h2.half (by omega)).2
    linarith

/-- Responsibilities of a Dirichlet draw or of an E-step, up to rounding. -/
def Draw (q : PLSA.Resp n k) : Prop := ∀ e, (∀ z, 0 ≤ q e z) ∧ ∑ z, q e z ≤ 2

lemma Draw.le {q : PLSA.Resp n k} (h : Draw q) (e : Fin n) (z : Fin k) : 0 ≤ q e z ∧ q e z ≤ 2 :=
  ⟨(h e).1 z, (Finset.single_le_sum (fun i _ => (h e).1 i) (Finset.mem_univ z)).trans (h e).2⟩

lemma mStep_bounded {a : ℝ} (ha : 0 < a) {evs : Fin n → PLSA.Ev nu ni nl} {q : PLSA.Resp n k} (hq : Draw q)
    {θ : PLSA.Theta nu ni nl k} (h : MStep a evs q θ) (hmax : 3 * n + 8 * k + 2 * (nu + ni + nl) + 30 ≤ 2 ^ 52) :
    Bounded (a / (2 * (2 * n + (k + nu + ni + nl : Nat) * a))) 2 θ :=
  ⟨fun z => prior_bounds ha (fun e z => ⟨(hq e).1 z, (hq e).2⟩) h.z _ (by omega) (by omega) z,
   fun j z => array_bounds ha hq.le h.x _ (by omega) (by omega) j z,
   fun j z => array_bounds ha hq.le h.y _ (by omega) (by omega) j z,
   fun j z => array_bounds ha hq.le h.r _ (by omega) (by omega) j z⟩

lemma eStep_draw {θ : PLSA.Theta nu ni nl k} (hθ : Positive θ) {evs : Fin n → PLSA.Ev nu ni nl} {q : PLSA.Resp n k}
    (h : EStep θ evs q) (hk : 0 < k) (hmax : 2 * k ≤ 2 ^ 52) : Draw q := by
  intro e
  refine ⟨fun z => (eStep_near hθ h e z).1.nonneg, ?_⟩
  have := ((eStep_near hθ h e ⟨0, hk⟩).2.1.half hmax).2
  linarith

/-- C139: after any number of passes every parameter is at least `alpha / (4 n + 2 (k + nu + ni + nl) alpha)` and at most 2. -/
theorem C139_bounded {a : ℝ} (ha : 0 < a) {evs : Fin n → PLSA.Ev nu ni nl} {q0 : PLSA.Resp n k} (hq : Draw q0)
    {t : Nat} {θ : PLSA.Theta nu ni nl k} (h : Trained a evs q0 t θ) (hn : 0 < n) (hk : 0 < k)
    (hmax : 3 * n + 8 * k + 2 * (nu + ni + nl) + 30 ≤ 2 ^ 52) :
    Bounded (a / (2 * (2 * n + (k + nu + ni + nl : Nat) * a))) 2 θ := by
  cases h with
  | first h => exact mStep_bounded ha hq h hmax
  | pass h he hm =>
    have hp := (C139_training ha (fun e z => (hq e).1 z) h hn hk hmax).positive
    exact mStep_bounded ha (eStep_draw hp he hk (by omega)) hm hmax

/-- The results of the operations of an E-step, for bounded parameters. -/
lemma eStep_bounds {lo : ℝ} (hlo : 0 < lo) {θ : PLSA.Theta nu ni nl k} (hb : Bounded lo 2 θ) (hlo1 : lo ≤ 1)
    {evs : Fin n → PLSA.Ev nu ni nl} {q : PLSA.Resp n k} (h : EStep θ evs q) (hmax : 9 + 2 * k ≤ 2 ^ 52) (e : Fin n) (z : Fin k) :
    (∀ x ∈ products θ (evs e) z, lo ^ 4 / 2 ≤ x ∧ x ≤ 32) ∧ lo ^ 4 / (64 * k) ≤ q e z ∧ q e z ≤ 2 := by
  have hθ : Positive θ := ⟨fun z => hlo.trans_le (hb.z z).1, fun j z => hlo.trans_le (hb.x j z).1,
    fun j z => hlo.trans_le (hb.y j z).1, fun j z => hlo.trans_le (hb.r j z).1⟩
  have hk : 0 < k := z.pos
  have p1 : ∀ z, lo ^ 2 ≤ θ.pZ z * θ.pR (evs e).level z ∧ θ.pZ z * θ.pR (evs e).level z ≤ 4 := fun z => by
    have a1 := hb.z z
    have a2 := hb.r (evs e).level z
    constructor
    · rw [sq]; exact mul_le_mul a1.1 a2.1 hlo.le (hlo.le.trans a1.1)
    · calc _ ≤ (2 : ℝ) * 2 := mul_le_mul a1.2 a2.2 (hlo.le.trans a2.1) (by norm_num)
        _ = 4 := by norm_num
  have p2 : ∀ z, lo ^ 3 ≤ θ.pZ z * θ.pR (evs e).level z * θ.pX (evs e).user z ∧
      θ.pZ z * θ.pR (evs e).level z * θ.pX (evs e).user z ≤ 8 := fun z => by
    have a2 := hb.x (evs e).user z
    constructor
    · rw [pow_succ]; exact mul_le_mul (p1 z).1 a2.1 hlo.le ((sq_nonneg lo).trans (p1 z).1)
    · calc _ ≤ (4 : ℝ) * 2 := mul_le_mul (p1 z).2 a2.2 (hlo.le.trans a2.1) (by norm_num)
        _ = 8 := by norm_num
  have p3 : ∀ z, lo ^ 4 ≤ PLSA.joint θ (evs e) z ∧ PLSA.joint θ (evs e) z ≤ 16 := fun z => by
    have a2 := hb.y (evs e).item z
    constructor
    · rw [pow_succ]; exact mul_le_mul (p2 z).1 a2.1 hlo.le ((pow_pos hlo 3).le.trans (p2 z).1)
    · calc _ ≤ (8 : ℝ) * 2 := mul_le_mul (p2 z).2 a2.2 (hlo.le.trans a2.1) (by norm_num)
        _ = 16 := by norm_num
  have m2 : lo ^ 4 ≤ lo ^ 2 := pow_le_pow_of_le_one hlo.le hlo1 (by norm_num)
  have m3 : lo ^ 4 ≤ lo ^ 3 := pow_le_pow_of_le_one hlo.le hlo1 (by norm_num)
  refine ⟨?_, ?_, ?_⟩
  · intro x hx
    simp only [products, List.mem_cons, List.not_mem_nil, or_false] at hx
    have e1 := near_fl (mul_pos (hθ.z z) (hθ.r (evs e).level z)).le
    have e2 := (e1.scale (hθ.x (evs e).user z).le).fl
    have e3 := (joint_near hθ (evs e) z).1
    rcases hx with rfl | rfl | rfl
    · have := e1.half (by norm_num)
      exact ⟨by linarith [(p1 z).1], by linarith [(p1 z).2]⟩
    · have := e2.half (by norm_num)
      exact ⟨by linarith [(p2 z).1], by linarith [(p2 z).2]⟩
    · have := e3.half (by norm_num)
      exact ⟨by linarith [(p3 z).1], by linarith [(p3 z).2]⟩
  · have h1 := ((eStep_near hθ h e z).1.half hmax).1
    refine le_trans ?_ h1
    have hsum : ∑ z', PLSA.joint θ (evs e) z' ≤ 16 * k := by
      calc _ ≤ ∑ _z : Fin k, (16 : ℝ) := Finset.sum_le_sum (fun z _ => (p3 z).2)
        _ = 16 * k := by simp [mul_comm]
    have hpos : 0 < ∑ z, PLSA.joint θ (evs e) z := Finset.sum_pos (fun z _ => (joint_near hθ _ z).2) ⟨z, Finset.mem_univ z⟩
    have h2 : lo ^ 4 / (16 * k) ≤ PLSA.eStep θ evs e z := by
      unfold PLSA.eStep
      exact div_le_div₀ ((pow_pos hlo 4).le.trans (p3 z).1) (p3 z).1 hpos hsum
    have hkr : (0 : ℝ) < k := by exact_mod_cast hk
    have e1 : lo ^ 4 / (64 * k) = lo ^ 4 / (16 * k) / 4 := by rw [div_div]; congr 1; ring
    have h3 : 0 ≤ lo ^ 4 / (16 * k) := by positivity
    rw [e1]; linarith
  · exact ((eStep_draw hθ h hk (by omega)).le e z).2

/-- C139: for up to 2^48 events, topics, users, items and levels and an `alpha` of at least 2^-100, no multiplication or division
of the training underflows or overflows: all results are normal numbers. (Additions cannot underflow; that the sums of the M-step do not
overflow is not stated: they are below `4 (2 n + (k + nu + ni + nl) alpha)`.) -/
theorem C139_normal {a : ℝ} (ha : 1 / 2 ^ 100 ≤ a) {evs : Fin n → PLSA.Ev nu ni nl} {q0 : PLSA.Resp n k}
    (hq : Draw q0) {t : Nat} {θ : PLSA.Theta nu ni nl k} (h : Trained a evs q0 t θ) (hn : 0 < n) (hk : 0 < k)
    (hmax : n + k + nu + ni + nl ≤ 2 ^ 48) {q : PLSA.Resp n k} (he : EStep θ evs q) :
    Bounded (1 / 2 ^ 160) 2 θ ∧
    ∀ e z, (∀ x ∈ products θ (evs e) z, (1 / 2 ^ 1022 : ℝ) ≤ x ∧ x ≤ 2 ^ 1023) ∧ (1 / 2 ^ 1022 : ℝ) ≤ q e z ∧ q e z ≤ 2 ^ 1023 := by
  have ha0 : 0 < a := lt_of_lt_of_le (by positivity) ha
  have hb := C139_bounded ha0 hq h hn hk (by omega)
  have hlo : (1 / 2 ^ 160 : ℝ) ≤ a / (2 * (2 * n + (k + nu + ni + nl : Nat) * a)) := by
    have h1 : (n : ℝ) ≤ 2 ^ 48 := by exact_mod_cast (by omega : n ≤ 2 ^ 48)
    have h2 : ((k + nu + ni + nl : Nat) : ℝ) ≤ 2 ^ 48 := by exact_mod_cast (by omega : k + nu + ni + nl ≤ 2 ^ 48)
    have hn' : (0 : ℝ) < n := by exact_mod_cast hn
    have h3 : 0 < 2 * (2 * (n : ℝ) + (k + nu + ni + nl : Nat) * a) := by positivity
    rw [div_le_div_iff₀ (by positivity) h3, one_mul]
    have h4 : ((k + nu + ni + nl : Nat) : ℝ) * a ≤ 2 ^ 48 * a := mul_le_mul_of_nonneg_right h2 ha0.le
    have h5 : (n : ℝ) ≤ 2 ^ 48 * (2 ^ 100 * a) := by
      have : 1 ≤ 2 ^ 100 * a := by
        have := mul_le_mul_of_nonneg_left ha (by positivity : (0 : ℝ) ≤ 2 ^ 100)
        rwa [mul_one_div, div_self (by positivity)] at this
      nlinarith
    nlinarith
  have hb' : Bounded (1 / 2 ^ 160) 2 θ := ⟨fun z => ⟨hlo.trans (hb.z z).1, (hb.z z).2⟩,
    fun j z => ⟨hlo.trans (hb.x j z).1, (hb.x j z).2⟩, fun j z => ⟨hlo.trans (hb.y j z).1, (hb.y j z).2⟩,
    fun j z => ⟨hlo.trans (hb.r j z).1, (hb.r j z).2⟩⟩
  refine ⟨hb', fun e z => ?_⟩
  obtain ⟨h1, h2, h3⟩ := eStep_bounds (by positivity) hb' (by rw [div_le_one (by positivity)]; exact one_le_pow₀ (by norm_num)) he
    (by omega) e z
  have e4 : ((1 / 2 ^ 160 : ℝ)) ^ 4 = 1 / 2 ^ 640 := by rw [div_pow, one_pow, ← pow_mul]
  rw [e4] at h1 h2
  have big : (32 : ℝ) ≤ 2 ^ 1023 := by
    calc (32 : ℝ) = 2 ^ 5 := by norm_num
      _ ≤ 2 ^ 1023 := pow_le_pow_right₀ (by norm_num) (by norm_num)
  refine ⟨fun x hx => ⟨le_trans ?_ (h1 x hx).1, (h1 x hx).2.trans big⟩, le_trans ?_ h2, h3.trans (le_trans (by norm_num) big)⟩
  · rw [div_div, ← pow_succ]
    exact one_div_le_one_div_of_le (by positivity) (pow_le_pow_right₀ (by norm_num) (by norm_num))
  · have hk' : (k : ℝ) ≤ 2 ^ 48 := by exact_mod_cast (by omega : k ≤ 2 ^ 48)
    have hk0 : (0 : ℝ) < k := by exact_mod_cast hk
    rw [div_div]
    refine one_div_le_one_div_of_le (by positivity) ?_
    calc (2 : ℝ) ^ 640 * (64 * k) ≤ 2 ^ 640 * (2 ^ 6 * 2 ^ 48) := by
          apply mul_le_mul_of_nonneg_left _ (by positivity)
          have : (64 : ℝ) = 2 ^ 6 := by norm_num
          rw [this]
          exact mul_le_mul_of_nonneg_left hk' (by positivity)
      _ = 2 ^ 694 := by rw [← pow_add, ← pow_add]
      _ ≤ 2 ^ 1022 := pow_le_pow_right₀ (by norm_num) (by norm_num)

/-! ### Predictions after training -/

/-- C139: the parameters of a machine training meet the hypotheses of `C134_expectation` and `C134_mode`, for known and unknown users
and items. -/
theorem C139_predicts {θ : PLSA.Theta nu ni nl k} (hθ : AlmostProper θ) (hk : 0 < k) (hnl : 0 < nl)
    (levels : List ℝ) : ∀ x ∈ (PLSA.store θ levels).pX, ∀ y ∈ (PLSA.store θ levels).pY, Weighted (PLSA.store θ levels) x y := by
  intro x hx y hy
  have hp := hθ.positive
  have hx' : ∀ z, 0 < x z := by
    intro z
    have hx0 : ∀ x : Fin k → ℝ, x ∈ List.ofFn θ.pX ++ [fun _ => 1] → (∃ i, θ.pX i = x) ∨ x = fun _ => 1 := fun x hx => by
      rwa [List.mem_append, List.mem_ofFn, List.mem_singleton] at hx
    rcases hx0 x hx with ⟨i, rfl⟩ | rfl
    · exact hp.x i z
    · exact one_pos
  have hy' : ∀ z, 0 < y z := by
    intro z
    have hy0 : ∀ y : Fin k → ℝ, y ∈ List.ofFn θ.pY ++ [fun _ => 1] → (∃ i, θ.pY i = y) ∨ y = fun _ => 1 := fun y hy => by
      rwa [List.mem_append, List.mem_ofFn, List.mem_singleton] at hy
    rcases hy0 y hy with ⟨i, rfl⟩ | rfl
    · exact hp.y i z
    · exact one_pos
  refine ⟨fun z => (hp.z z).le, fun r z => (hp.r r z).le, fun z => (hx' z).le, fun z => (hy' z).le, ?_⟩
  refine Finset.sum_pos (fun r _ => Finset.sum_pos (fun z _ => ?_) ⟨⟨0, hk⟩, Finset.mem_univ _⟩) ⟨⟨0, hnl⟩, Finset.mem_univ _⟩
  exact mul_pos (mul_pos (mul_pos (hp.z z) (hp.r r z)) (hx' z)) (hy' z)

/-! ### Instances -/

lemma exists_mStep (a : ℝ) (evs : Fin n → PLSA.Ev nu ni nl) (q : PLSA.Resp n k) : ∃ θ : PLSA.Theta nu ni nl k, MStep a evs q θ := by
  have arr : ∀ {m : Nat} (id : Fin n → Fin m), ∃ p : Fin m → Fin k → ℝ, ∃ w, Weights a id q w ∧ Normalize w p := by
    intro m id
    choose s hs using fun (j : Fin m) (z : Fin k) => exists_sum (((List.finRange n).filter (fun e => id e = j)).map (fun e => q e z))
    choose t ht using fun z => exists_sum (List.ofFn (fun j => fl (s j z + a)))
    exact ⟨fun j z => fl (fl (s j z + a) / t z), fun j z => fl (s j z + a), fun j z => ⟨s j z, hs j z, rfl⟩,
      fun z => ⟨t z, ht z, fun j => rfl⟩⟩
  obtain ⟨pR, hR⟩ := arr (fun e => (evs e).level)
  obtain ⟨pX, hX⟩ := arr (fun e => (evs e).user)
  obtain ⟨pY, hY⟩ := arr (fun e => (evs e).item)
  choose s hs using fun z => exists_sum (List.ofFn (fun e => q e z))
  obtain ⟨t, ht⟩ := exists_sum (List.ofFn (fun z => fl (s z + a)))
  exact ⟨⟨fun z => fl (fl (s z + a) / t), pX, pY, pR⟩, ⟨hR, hX, hY, ⟨fun z => fl (s z + a), fun z => ⟨s z, hs z, rfl⟩, t, ht, fun z => rfl⟩⟩⟩

lemma exists_eStep (θ : PLSA.Theta nu ni nl k) (evs : Fin n → PLSA.Ev nu ni nl) : ∃ q : PLSA.Resp n k, EStep θ evs q := by
  choose s hs using fun e => exists_sum (List.ofFn (joint θ (evs e)))
  exact ⟨fun e z => fl (joint θ (evs e) z / s e), fun e => ⟨s e, hs e, fun z => rfl⟩⟩

/-- There is a machine training of every length. -/
theorem exists_trained (a : ℝ) (evs : Fin n → PLSA.Ev nu ni nl) (q0 : PLSA.Resp n k) (t : Nat) :
    ∃ θ, Trained a evs q0 t θ := by
  induction t with
  | zero =>
    obtain ⟨θ, h⟩ := exists_mStep a evs q0
    exact ⟨θ, .first h⟩
  | succ t ih =>
    obtain ⟨θ, h⟩ := ih
    obtain ⟨q, he⟩ := exists_eStep θ evs
    obtain ⟨θ', hm⟩ := exists_mStep a evs q
    exact ⟨θ', .pass h he hm⟩

/-- Two events, two topics, 1000 passes: the hypotheses can be met, and so the conclusions hold. -/
example : ∃ (evs : Fin 2 → PLSA.Ev 2 1 2) (q0 : PLSA.Resp 2 2) (θ : PLSA.Theta 2 1 2 2), Draw q0 ∧ Trained 1 evs q0 1000 θ ∧
    AlmostProper θ := by
  let evs : Fin 2 → PLSA.Ev 2 1 2 := fun e => ⟨e, 0, e⟩
  let q0 : PLSA.Resp 2 2 := fun _ z => if z = 0 then 1 / 4 else 3 / 4
  have hq : Draw q0 := by
    intro e
    constructor
    · intro z
      change (0 : ℝ) ≤ if z = 0 then 1 / 4 else 3 / 4
      split_ifs <;> norm_num
    · change ∑ z : Fin 2, (if z = 0 then (1 / 4 : ℝ) else 3 / 4) ≤ 2
      norm_num [Fin.sum_univ_succ]
  obtain ⟨θ, h⟩ := exists_trained 1 evs q0 1000
  exact ⟨evs, q0, θ, hq, h, C139_training one_pos (fun e z => (hq e).1 z) h (by norm_num) (by norm_num) (by norm_num)⟩

end

end Kam.Fl
