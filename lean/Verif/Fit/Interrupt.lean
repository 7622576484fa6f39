/-
C155: what a call of `fit` of a matrix factorization leaves behind if it does not come to its end.
-/
import Verif.Fit.Steps
import Verif.Fit.Props

set_option linter.unusedSectionVars false

namespace Kam
open Spec
namespace MF
namespace Steps

variable {α φ ε γ : Type} [LinearOrder α] {nu ni k : Nat}

/-! ### Specification -/

/-- The statements are executed one after the other up to some point: `o'` is what is left when the execution stops there, because the next
statement raises an exception or is interrupted. -/
inductive Leaves : List (Stmt γ nu ni k) → Obj γ nu ni k → Obj γ nu ni k → Prop
  | here {l o} : Leaves l o o
  | step {s l o o' o''} : s o = .ok o' → Leaves l o' o'' → Leaves (s :: l) o o''

/-- All statements are executed. -/
inductive Completes : List (Stmt γ nu ni k) → Obj γ nu ni k → Obj γ nu ni k → Prop
  | nil {o} : Completes [] o o
  | step {s l o o' o''} : s o = .ok o' → Completes l o' o'' → Completes (s :: l) o o''

/-- The statements are executed until one raises `e`; `o'` is what is left. -/
inductive Raises (e : Exc) : List (Stmt γ nu ni k) → Obj γ nu ni k → Obj γ nu ni k → Prop
  | here {s l o} : s o = .error e → Raises e (s :: l) o o
  | step {s l o o' o''} : s o = .ok o' → Raises e l o' o'' → Raises e (s :: l) o o''

/-- Every user and every item has an event, as in all loaded data. -/
def Covered (evs : List (Event nu ni)) : Prop := (∀ u, ∃ e ∈ evs, e.user = u) ∧ ∀ i, ∃ e ∈ evs, e.item = i

/-- A user and an item of the training data. -/
def Known (rows : List (List α)) (row : List α) : Prop := ∃ x i, row = [x, i] ∧ IsObject [0, 1] rows 0 x ∧ IsObject [0, 1] rows 1 i

/-- The prediction of the coefficients `v` for a known pair. -/
def Estimates (link : ℝ → ℝ) (rows : List (List α)) (v : Views (count [0, 1] rows 0) (count [0, 1] rows 1) k) (row : List α) (y : ℝ) : Prop :=
  ∃ x i, row = [x, i] ∧ ∃ (hx : rank [0, 1] rows 0 x < count [0, 1] rows 0) (hi : rank [0, 1] rows 1 i < count [0, 1] rows 1),
    y = link (est v ⟨_, hx⟩ ⟨_, hi⟩)

/-- A recommender whose attributes are those of `o`, seen by `predict`. -/
noncomputable def learner (link : ℝ → ℝ) : Learner ℝ γ (Obj γ nu ni k) Val := ⟨fun _ => .error .typeError, rawPredict link⟩

/-! ### Lemmas -/

lemma leaves_append {a b : List (Stmt γ nu ni k)} {o o' : Obj γ nu ni k} (h : Leaves (a ++ b) o o') :
    Leaves a o o' ∨ ∃ m, Completes a o m ∧ Leaves b m o' := by
  induction a generalizing o with
  | nil => exact .inr ⟨o, .nil, h⟩
  | cons s l ih =>
    rw [List.cons_append] at h
    cases h with
    | here => exact .inl .here
    | step hs hl =>
      rcases ih hl with h | ⟨m, h1, h2⟩
      · exact .inl (.step hs h)
      · exact .inr ⟨m, .step hs h1, h2⟩

lemma completes_append {a b : List (Stmt γ nu ni k)} {o o' : Obj γ nu ni k} :
    Completes (a ++ b) o o' ↔ ∃ m, Completes a o m ∧ Completes b m o' := by
  induction a generalizing o with
  | nil =>
    constructor
    · intro h; exact ⟨o, .nil, h⟩
    · rintro ⟨m, h1, h2⟩; cases h1; exact h2
  | cons s l ih =>
    constructor
    · intro h
      rw [List.cons_append] at h
      cases h with
      | step hs hl =>
        obtain ⟨m, h1, h2⟩ := ih.1 hl
        exact ⟨m, .step hs h1, h2⟩
    · rintro ⟨m, h1, h2⟩
      cases h1 with
      | step hs hl => exact .step hs (ih.2 ⟨m, hl, h2⟩)

/-- The same attributes. -/
def Same (o o' : Obj γ nu ni k) : Prop := o'.mu = o.mu ∧ o'.bu = o.bu ∧ o'.bi = o.bi ∧ o'.p = o.p ∧ o'.q = o.q

lemma Same.refl (o : Obj γ nu ni k) : Same o o := ⟨rfl, rfl, rfl, rfl, rfl⟩

lemma Same.trans {a b c : Obj γ nu ni k} (h : Same a b) (h' : Same b c) : Same a c :=
  ⟨h'.1.trans h.1, h'.2.1.trans h.2.1, h'.2.2.1.trans h.2.2.1, h'.2.2.2.1.trans h.2.2.2.1, h'.2.2.2.2.trans h.2.2.2.2⟩

/-- A statement that keeps what the attributes hold. -/
def Quiet (s : Stmt γ nu ni k) : Prop := ∀ o o', s o = .ok o' → Same o o'

lemma leaves_same {l : List (Stmt γ nu ni k)} (hq : ∀ s ∈ l, Quiet s) {o o' : Obj γ nu ni k} (h : Leaves l o o') : Same o o' := by
  induction h with
  | here => exact .refl _
  | step hs _ ih => exact (hq _ (by simp) _ _ hs).trans (ih fun s hs' => hq s (by simp [hs']))

lemma completes_leaves {l : List (Stmt γ nu ni k)} {o o' : Obj γ nu ni k} (h : Completes l o o') : Leaves l o o' := by
  induction h with
  | nil => exact .here
  | step hs _ ih => exact .step hs ih

private lemma bind_ok {β δ : Type} {x : Res β} {f : β → Res δ} {y : δ} (h : (x >>= f) = .ok y) : ∃ a, x = .ok a ∧ f a = .ok y := by
  cases x with
  | error e => cases h
  | ok a => exact ⟨a, rfl, h⟩

lemma quiet_user (evs : List (Event nu ni)) (u : Fin nu) : Quiet (setUser (γ := γ) (k := k) evs u) := by
  intro o o' h
  unfold setUser at h
  simp only at h
  split at h
  · obtain ⟨_, _, h⟩ := bind_ok h
    cases h
    exact ⟨rfl, rfl, rfl, rfl, rfl⟩
  · cases h
    exact .refl _

lemma quiet_item (evs : List (Event nu ni)) (i : Fin ni) : Quiet (setItem (γ := γ) (k := k) evs i) := by
  intro o o' h
  unfold setItem at h
  simp only at h
  split at h
  · obtain ⟨_, _, h⟩ := bind_ok h
    cases h
    exact ⟨rfl, rfl, rfl, rfl, rfl⟩
  · cases h
    exact .refl _

lemma quiet_explicit (R : Rng γ) (sd : Views nu ni k → ℝ) (evs : List (Event nu ni)) : ∀ s ∈ initExplicit R sd evs, Quiet s := by
  intro s hs
  simp only [initExplicit, List.mem_cons, List.mem_append, List.mem_map, List.not_mem_nil, or_false] at hs
  rcases hs with rfl | ⟨u, _, rfl⟩ | ⟨i, _, rfl⟩ | rfl | rfl
  · rintro o o' ⟨⟩; exact ⟨rfl, rfl, rfl, rfl, rfl⟩
  · exact quiet_user evs u
  · exact quiet_item evs i
  · rintro o o' ⟨⟩; exact ⟨rfl, rfl, rfl, rfl, rfl⟩
  · rintro o o' ⟨⟩; exact ⟨rfl, rfl, rfl, rfl, rfl⟩

lemma quiet_implicit (R : Rng γ) (m : Implicit.Mat nu ni) : ∀ s ∈ initImplicit (k := k) R m, Quiet s := by
  intro s hs
  simp only [initImplicit, List.mem_cons, List.not_mem_nil, or_false] at hs
  rcases hs with rfl | rfl | rfl | rfl | rfl
  · rintro o o' ⟨⟩; exact ⟨rfl, rfl, rfl, rfl, rfl⟩
  · intro o o' h
    obtain ⟨_, _, h⟩ := bind_ok h
    cases h; exact ⟨rfl, rfl, rfl, rfl, rfl⟩
  · intro o o' h
    obtain ⟨_, _, h⟩ := bind_ok h
    cases h; exact ⟨rfl, rfl, rfl, rfl, rfl⟩
  · rintro o o' ⟨⟩; exact ⟨rfl, rfl, rfl, rfl, rfl⟩
  · rintro o o' ⟨⟩; exact ⟨rfl, rfl, rfl, rfl, rfl⟩

lemma quiet_optimization (method : String) (kwargs : List (String × String)) (opt : Optimizer) (loss : Coef nu ni k → ℝ)
    (grad : Coef nu ni k → Coef nu ni k) : ∀ s ∈ optimization (γ := γ) method kwargs opt loss grad, Quiet s := by
  intro s hs
  simp only [optimization, List.mem_cons, List.not_mem_nil, or_false] at hs
  rcases hs with rfl | rfl
  · rintro o o' ⟨⟩; exact ⟨rfl, rfl, rfl, rfl, rfl⟩
  · rintro o o' ⟨⟩; exact ⟨rfl, rfl, rfl, rfl, rfl⟩

lemma quiet_recording (n : Nat) (method : String) (kwargs : List (String × String)) :
    ∀ s ∈ recording (γ := γ) (nu := nu) (ni := ni) (k := k) n method kwargs, Quiet s := by
  intro s hs o o' h
  simp only [recording, List.mem_cons, List.not_mem_nil, or_false] at hs
  have key : ∀ key f, record (γ := γ) (nu := nu) (ni := ni) (k := k) key f o = .ok o' → Same o o' := by
    intro key f h
    unfold record at h
    split at h
    · cases h; exact ⟨rfl, rfl, rfl, rfl, rfl⟩
    · cases h
  rcases hs with rfl | rfl | rfl | rfl | rfl | rfl | rfl | rfl | rfl | rfl | rfl | rfl | rfl <;> exact key _ _ h

/-- The attributes after the allocation. -/
lemma allocated {o o' : Obj γ nu ni k} (h : Completes allocation o o') : o'.mu = .view ∧ o'.bu = (if nu = 1 then .number else .view) ∧
    o'.bi = (if ni = 1 then .number else .view) ∧ o'.p = .view ∧ o'.q = .view ∧ o'.rng = o.rng ∧ o'.results = o.results ∧
    o'.coef = ⟨0, fun _ => 0, fun _ => 0, fun _ _ => 0, fun _ _ => 0⟩ := by
  unfold allocation at h
  cases h with | step h1 h =>
  cases h with | step h2 h =>
  cases h with | step h3 h =>
  cases h with | step h4 h =>
  cases h with | step h5 h =>
  cases h with | step h6 h =>
  cases h
  cases h1; cases h2; cases h3; cases h4; cases h5; cases h6
  exact ⟨rfl, rfl, rfl, rfl, rfl, rfl, rfl, rfl⟩

lemma allocates (o : Obj γ nu ni k) : ∃ o', Completes allocation o o' :=
  ⟨_, .step rfl (.step rfl (.step rfl (.step rfl (.step rfl (.step rfl .nil)))))⟩

lemma npGet_ofFn {β : Type} {n : Nat} (f : Fin n → β) (u : Fin n) : npGet (List.ofFn f) (u : Int) = .ok (f u) := by
  rw [npGet_ofNat _ u.1 (by simp)]
  simp

lemma npGet_ofFn_last {β : Type} {n : Nat} (f : Fin n → β) : npGet (List.ofFn f) (n : Int) = .error .indexError :=
  npGet_of_ge _ _ (by simp)

/-! ### predictions -/

/-- The attribute is a view or its extension by one entry. -/
def Extended {β : Type} (v : List β) (z : β) (a : Attr (List β)) : Prop := a = .view ∨ a = .own (v ++ [z])

lemma read_extended {β : Type} {n : Nat} {f : Fin n → β} {z : β} {a : Attr (List β)} (h : Extended (List.ofFn f) z a) (u : Option (Fin n)) :
    ∃ l, a.read (List.ofFn f) = .ok l ∧ (npGet l (code u) = .ok (extend f z u) ∨ npGet l (code u) = .error .indexError) ∧
      ((∃ w, u = some w) → npGet l (code u) = .ok (extend f z u)) ∧ (a = .view → u = none → npGet l (code u) = .error .indexError) := by
  rcases h with rfl | rfl
  · refine ⟨_, rfl, ?_⟩
    cases u with
    | none => exact ⟨.inr (npGet_ofFn_last f), (fun ⟨w, e⟩ => nomatch e), fun _ _ => npGet_ofFn_last f⟩
    | some w => exact ⟨.inl (npGet_ofFn f w), (fun _ => npGet_ofFn f w), fun _ e => nomatch e⟩
  · exact ⟨_, rfl, .inl (npGet_extend f z u), fun _ => npGet_extend f z u, fun e => nomatch e⟩

lemma rows_extend {n : Nat} (f : Fin n → Fin k → ℝ) (x : Option (Fin n)) :
    extend (fun u => List.ofFn (f u)) (List.replicate k 0) x = List.ofFn (extend f (fun _ => 0) x) := by
  cases x with
  | none => simp [extend]
  | some x => rfl

lemma mulRows_ofFn (a b : Fin k → ℝ) : mulRows (List.ofFn a) (List.ofFn b) = .ok (List.zipWith (· * ·) (List.ofFn a) (List.ofFn b)) := by
  unfold mulRows
  rw [if_pos (by simp)]

/-- Predictions from attributes that are views of the coefficients or made from them. -/
lemma rawScore_extended {o : Obj γ nu ni k} (hmu : o.mu = .view ∨ o.mu = .own o.coef.mu) (hbu : Extended (List.ofFn o.coef.bu) 0 o.bu)
    (hbi : Extended (List.ofFn o.coef.bi) 0 o.bi)
    (hp : Extended (List.ofFn (fun u => List.ofFn (o.coef.p u))) (List.replicate k 0) o.p)
    (hq : Extended (List.ofFn (fun i => List.ofFn (o.coef.q i))) (List.replicate k 0) o.q) (u : Option (Fin nu)) (i : Option (Fin ni)) :
    (rawScore o [code u, code i] = .ok (estO o.coef u i) ∨ rawScore o [code u, code i] = .error .indexError) ∧
    ((∃ w, u = some w) → (∃ w, i = some w) → rawScore o [code u, code i] = .ok (estO o.coef u i)) ∧
    (o.bu = .view → o.bi = .view → u = none ∨ i = none → rawScore o [code u, code i] = .error .indexError) := by
  obtain ⟨l1, r1, a1, b1, c1⟩ := read_extended hbu u
  obtain ⟨l2, r2, a2, b2, c2⟩ := read_extended hbi i
  obtain ⟨l3, r3, a3, b3, _⟩ := read_extended hp u
  obtain ⟨l4, r4, a4, b4, _⟩ := read_extended hq i
  have r0 : o.mu.read o.coef.mu = .ok o.coef.mu := by rcases hmu with h | h <;> rw [h] <;> rfl
  have h0 : npGet [code u, code i] 0 = .ok (code u) := rfl
  have h1 : npGet [code u, code i] 1 = .ok (code i) := rfl
  rw [rows_extend] at a3 b3 a4 b4
  have good : npGet l1 (code u) = .ok (extend o.coef.bu 0 u) → npGet l2 (code i) = .ok (extend o.coef.bi 0 i) →
      npGet l3 (code u) = .ok (List.ofFn (extend o.coef.p (fun _ => 0) u)) →
      npGet l4 (code i) = .ok (List.ofFn (extend o.coef.q (fun _ => 0) i)) → rawScore o [code u, code i] = .ok (estO o.coef u i) := by
    intro e1 e2 e3 e4
    unfold rawScore
    rw [h0, h1, r0, r1, r2, r3, r4]
    simp only [bind, Except.bind, e1, e2, e3, e4, mulRows_ofFn, pure, Except.pure]
    rw [zipWith_ofFn]
    rfl
  have bad1 : npGet l1 (code u) = .error .indexError → rawScore o [code u, code i] = .error .indexError := by
    intro e
    unfold rawScore
    rw [h0, h1, r0, r1]
    simp only [bind, Except.bind, e]
  have bad2 : npGet l1 (code u) = .ok (extend o.coef.bu 0 u) → npGet l2 (code i) = .error .indexError →
      rawScore o [code u, code i] = .error .indexError := by
    intro e e'
    unfold rawScore
    rw [h0, h1, r0, r1, r2]
    simp only [bind, Except.bind, e, e']
  have bad3 : npGet l1 (code u) = .ok (extend o.coef.bu 0 u) → npGet l2 (code i) = .ok (extend o.coef.bi 0 i) →
      npGet l3 (code u) = .error .indexError → rawScore o [code u, code i] = .error .indexError := by
    intro e e' e3
    unfold rawScore
    rw [h0, h1, r0, r1, r2, r3]
    simp only [bind, Except.bind, e, e', e3]
  have bad4 : npGet l1 (code u) = .ok (extend o.coef.bu 0 u) → npGet l2 (code i) = .ok (extend o.coef.bi 0 i) →
      npGet l3 (code u) = .ok (List.ofFn (extend o.coef.p (fun _ => 0) u)) → npGet l4 (code i) = .error .indexError →
      rawScore o [code u, code i] = .error .indexError := by
    intro e e' e3 e4
    unfold rawScore
    rw [h0, h1, r0, r1, r2, r3, r4]
    simp only [bind, Except.bind, e, e', e3, e4]
  refine ⟨?_, fun hu hi => good (b1 hu) (b2 hi) (b3 hu) (b4 hi), ?_⟩
  · rcases a1 with a1 | a1
    · rcases a2 with a2 | a2
      · rcases a3 with a3 | a3
        · rcases a4 with a4 | a4
          · exact .inl (good a1 a2 a3 a4)
          · exact .inr (bad4 a1 a2 a3 a4)
        · exact .inr (bad3 a1 a2 a3)
      · exact .inr (bad2 a1 a2)
    · exact .inr (bad1 a1)
  · rintro v1 v2 (h | h)
    · exact bad1 (c1 v1 h)
    · rcases a1 with a1 | a1
      · exact bad2 a1 (c2 v2 h)
      · exact bad1 a1

/-! ### initial coefficients -/

/-- What the initialization may change besides the coefficients: the random generator. -/
def Kept (o o' : Obj γ nu ni k) : Prop := o'.rng = o.rng ∧ o'.results = o.results

lemma users_loop (evs : List (Event nu ni)) (us : List (Fin nu)) {o o' : Obj γ nu ni k} (h : Completes (us.map (setUser evs)) o o') :
    Kept o o' ∧ o'.coef = { o.coef with bu := fun u =>
      if u ∈ us ∧ 0 < (evs.filter (fun e => decide (e.user = u))).length then
        ((evs.filter (fun e => decide (e.user = u))).map (fun e => e.score - o.coef.mu)).sum /
          ((evs.filter (fun e => decide (e.user = u))).length : ℝ) else o.coef.bu u } := by
  induction us generalizing o with
  | nil => cases h; exact ⟨⟨rfl, rfl⟩, by simp⟩
  | cons v us ih =>
    rw [List.map_cons] at h
    cases h with
    | @step _ _ _ m _ hs hl =>
      obtain ⟨⟨k1, k2⟩, k3⟩ := ih hl
      unfold setUser at hs
      simp only at hs
      split at hs
      · rename_i hpos
        obtain ⟨_, _, hs⟩ := bind_ok hs
        cases hs
        refine ⟨⟨k1, k2⟩, ?_⟩
        rw [k3]
        simp only [Views.mk.injEq, true_and, and_true]
        funext u
        by_cases hu : u = v
        · subst hu
          simp only [List.mem_cons, true_or, true_and, hpos, if_true, Function.update_self]
          split <;> rfl
        · simp [hu]
      · rename_i hneg
        cases hs
        refine ⟨⟨k1, k2⟩, ?_⟩
        rw [k3]
        simp only [Views.mk.injEq, true_and, and_true]
        funext u
        by_cases hu : u = v
        · subst hu
          simp [hneg]
        · simp [hu]

lemma items_loop (evs : List (Event nu ni)) (is : List (Fin ni)) {o o' : Obj γ nu ni k} (h : Completes (is.map (setItem evs)) o o') :
    Kept o o' ∧ o'.coef = { o.coef with bi := fun i =>
      if i ∈ is ∧ 0 < (evs.filter (fun e => decide (e.item = i))).length then
        ((evs.filter (fun e => decide (e.item = i))).map (fun e => e.score - (o.coef.mu + o.coef.bu e.user))).sum /
          ((evs.filter (fun e => decide (e.item = i))).length : ℝ) else o.coef.bi i } := by
  induction is generalizing o with
  | nil => cases h; exact ⟨⟨rfl, rfl⟩, by simp⟩
  | cons v is ih =>
    rw [List.map_cons] at h
    cases h with
    | @step _ _ _ m _ hs hl =>
      obtain ⟨⟨k1, k2⟩, k3⟩ := ih hl
      unfold setItem at hs
      simp only at hs
      split at hs
      · rename_i hpos
        obtain ⟨_, _, hs⟩ := bind_ok hs
        cases hs
        refine ⟨⟨k1, k2⟩, ?_⟩
        rw [k3]
        simp only [Views.mk.injEq, true_and, and_true]
        funext u
        by_cases hu : u = v
        · subst hu
          simp only [List.mem_cons, true_or, true_and, hpos, if_true, Function.update_self]
          split <;> rfl
        · simp [hu]
      · rename_i hneg
        cases hs
        refine ⟨⟨k1, k2⟩, ?_⟩
        rw [k3]
        simp only [Views.mk.injEq, true_and, and_true]
        funext u
        by_cases hu : u = v
        · subst hu
          simp [hneg]
        · simp [hu]

/-- The initialization from zeros, in one expression. -/
lemma explicit_init (R : Rng γ) (sd : Views nu ni k → ℝ) (evs : List (Event nu ni)) {o o' : Obj γ nu ni k}
    (h0 : o.coef = ⟨0, fun _ => 0, fun _ => 0, fun _ _ => 0, fun _ _ => 0⟩) (h : Completes (initExplicit R sd evs) o o') :
    let b := initBias evs
    let s1 := sd ⟨b.1, b.2.1, b.2.2, fun _ _ => 0, fun _ _ => 0⟩
    let zp := R.normal o.rng 0 s1 (mask evs (·.user)).length k
    let s2 := sd ⟨b.1, b.2.1, b.2.2, scatter (mask evs (·.user)) zp.1, fun _ _ => 0⟩
    let zq := R.normal zp.2 0 s2 (mask evs (·.item)).length k
    o'.coef = ⟨b.1, b.2.1, b.2.2, scatter (mask evs (·.user)) zp.1, scatter (mask evs (·.item)) zq.1⟩ ∧ o'.rng = zq.2 ∧
      o'.results = o.results := by
  unfold initExplicit at h
  cases h with
  | @step _ _ _ m1 _ hs h =>
    cases hs
    rw [completes_append] at h
    obtain ⟨m2, hu, h⟩ := h
    rw [completes_append] at h
    obtain ⟨m3, hi, h⟩ := h
    obtain ⟨⟨u1, u2⟩, u3⟩ := users_loop evs _ hu
    obtain ⟨⟨i1, i2⟩, i3⟩ := items_loop evs _ hi
    cases h with
    | step hp h =>
      cases h with
      | step hq h =>
        cases h
        have e3 : m3.coef = ⟨(initBias evs).1, (initBias evs).2.1, (initBias evs).2.2, fun _ _ => 0, fun _ _ => 0⟩ := by
          rw [i3, u3]
          simp only [h0, List.mem_finRange, true_and]
          rfl
        have r3 : m3.rng = o.rng := i1.trans u1
        have f3 : m3.results = o.results := i2.trans u2
        cases hp
        cases hq
        simp only [e3, r3, f3]
        exact ⟨rfl, rfl, trivial⟩

/-- One of the three recommenders after the super class's `fit` has prepared the events: its initialization, loss, gradient and link
function, and the initial coefficients according to `Verif/MF/Model` when the generator is in the state `g`. -/
inductive Variant (cf : Config γ) (g : γ) :
    List (Stmt γ nu ni cf.k) → (Coef nu ni cf.k → ℝ) → (Coef nu ni cf.k → Coef nu ni cf.k) → (ℝ → ℝ) → Coef nu ni cf.k → Prop
  | pmf (evs : List (Event nu ni)) (hc : Covered evs) :
    Variant cf g (initExplicit cf.rng (residual evs) evs) (PMF.loss cf.C evs) (PMF.gradLoss cf.C evs) id
      (PMF.initCoef cf.rng g cf.k evs).1
  | logistic (evs : List (Event nu ni)) (hc : Covered evs) :
    Variant cf g (initExplicit cf.rng (fun _ => 1) evs) (Logistic.loss cf.C evs) (Logistic.gradLoss cf.C evs) safeSigmoid
      (Logistic.initCoef cf.rng g cf.k evs).1
  | implicit (m : Implicit.Mat nu ni) :
    Variant cf g (initImplicit cf.rng m) (Implicit.loss cf.C m) (Implicit.gradLoss cf.C m) safeSigmoid
      (Implicit.initCoef cf.rng g cf.k m).1

lemma Variant.quiet {cf : Config γ} {g : γ} {init : List (Stmt γ nu ni cf.k)} {loss grad link c0}
    (h : Variant cf g init loss grad link c0) : ∀ s ∈ init, Quiet s := by
  cases h with
  | pmf evs _ => exact quiet_explicit _ _ _
  | logistic evs _ => exact quiet_explicit _ _ _
  | implicit m => exact quiet_implicit _ _

/-- The coefficients after the initialization. -/
lemma Variant.initial {cf : Config γ} {g : γ} {init : List (Stmt γ nu ni cf.k)} {loss grad link c0}
    (h : Variant cf g init loss grad link c0) {o o' : Obj γ nu ni cf.k}
    (h0 : o.coef = ⟨0, fun _ => 0, fun _ => 0, fun _ _ => 0, fun _ _ => 0⟩) (hg : o.rng = g) (hi : Completes init o o') :
    o'.coef = unpack c0 ∧ o'.results = o.results := by
  subst hg
  cases h with
  | pmf evs _ =>
    obtain ⟨h1, _, h3⟩ := explicit_init _ _ _ h0 hi
    refine ⟨?_, h3⟩
    rw [h1]
    unfold PMF.initCoef
    simp only [unpack_pack]
    rfl
  | logistic evs _ =>
    obtain ⟨h1, _, h3⟩ := explicit_init _ _ _ h0 hi
    refine ⟨?_, h3⟩
    rw [h1]
    unfold Logistic.initCoef
    simp only [unpack_pack]
  | implicit m =>
    unfold initImplicit at hi
    cases hi with | step s1 hi =>
    cases hi with | step s2 hi =>
    cases hi with | step s3 hi =>
    cases hi with | step s4 hi =>
    cases hi with | step s5 hi =>
    cases hi
    cases s1
    obtain ⟨_, _, s2⟩ := bind_ok s2
    cases s2
    obtain ⟨_, _, s3⟩ := bind_ok s3
    cases s3
    cases s4
    cases s5
    refine ⟨?_, rfl⟩
    unfold Implicit.initCoef
    simp only [unpack_pack]

/-! ### C155 -/

/-- The score of a requested pair of external ids. -/
noncomputable def rowScore (link : ℝ → ℝ) (o : Obj γ nu ni k) (rows : List (List α)) : List α → Res ℝ
  | [x, i] => (rawScore o [lookup [0, 1] rows 0 x, lookup [0, 1] rows 1 i]).map link
  | _ => .error .valueError

/-- After the super class's `fit` has returned, `predict` looks the requested ids up among the new data and applies whatever the
attributes hold. -/
theorem predict_obj {link : ℝ → ℝ} {mk : Int → γ} {env : γ} {d : EventData α φ ε} {rows : List (List α)} (h : Built d rows)
    (hlay : d.eventOtypes = [0, 1]) {idx : Option (List Int)} (hidx : idx = none ∨ idx = some [0, 1])
    {r r1 : Rec ℝ α φ ε γ (Obj γ (count [0, 1] rows 0) (count [0, 1] rows 1) k) Val} (hfit : Rec.eventFit mk env r d idx = .ok r1)
    (o : Obj γ (count [0, 1] rows 0) (count [0, 1] rows 1) k) (a : Arr2 α) (hreg : a.Regular) (hc : a.ncols = 2) (hne : a.rows ≠ []) :
    (∀ row ∈ a.rows, ∃ x i, row = [x, i]) ∧
    Rec.predict (learner link) { r1 with params := some o } (.mat a) =
      (a.rows.mapM (rowScore link o rows)).map squeeze := by
  have hd := h.holds
  have hs : d.sEvent = 2 := by rw [← hd.wf.len_otypes, hlay]; rfl
  have hcol : columnsOf d idx = .ok (List.range d.sEvent) := by
    rcases hidx with rfl | rfl
    · rfl
    · simp only [columnsOf, hs]; rfl
  have h2 := eventFit_eq mk env r hd idx _ hcol
  rw [h2] at hfit
  cases hfit
  have hf : FittedOn { fittedInfo mk env r d rows idx (List.range d.sEvent) with params := some o } d rows idx (List.range d.sEvent) :=
    ⟨rfl, rfl, rfl, rfl, rfl⟩
  have hidem : ∀ e t : Nat, d.eventOtypes[e]? = some t → d.eventOtypes[t]? = some t := by
    rw [hlay]
    intro e t he
    rcases e with _ | _ | e
    · cases he; rfl
    · cases he; rfl
    · cases he
  obtain ⟨os, h3, h4⟩ := predict_identity (L := learner link) hd hf hcol rfl hidem a hreg (by rw [hc, hs]) (by rw [hc]; decide) hne
  have hrow : ∀ row ∈ a.rows, ∃ x i, row = [x, i] := fun row hr => List.length_eq_two.1 (by rw [hreg row hr, hc])
  refine ⟨hrow, ?_⟩
  rw [h4]
  congr 1
  clear h4 hne
  have key : ∀ (l : List (List α)) (os : List (List Int)), (∀ row ∈ l, ∃ x i, row = [x, i]) →
      List.Forall₂ (Encodes d.eventOtypes rows (List.range d.sEvent)) l os →
      rawPredict link o os = l.mapM (rowScore link o rows) := by
    intro l os hl hfa
    induction hfa with
    | nil => rfl
    | @cons row os0 l os he _ ih =>
      obtain ⟨x, i, rfl⟩ := hl row (by simp)
      obtain ⟨he1, he2⟩ := he
      rw [hs] at he1 he2
      rw [hlay] at he2
      obtain ⟨o1, o2, rfl⟩ := List.length_eq_two.1 he1
      have e1 := he2 0 0 0 x rfl rfl rfl
      have e2 := he2 1 1 1 i rfl rfl rfl
      simp only [List.getElem?_cons_zero, List.getElem?_cons_succ, Option.some.injEq] at e1 e2
      subst e1 e2
      have := ih (fun r hr => hl r (by simp [hr]))
      unfold rawPredict at this ⊢
      rw [List.mapM_cons, List.mapM_cons, this]
      rfl
  exact key _ _ hrow h3

lemma mapM_total {β δ : Type} {f : β → Res δ} {P : β → δ → Prop} {l : List β} (h : ∀ x ∈ l, ∃ y, f x = .ok y ∧ P x y) :
    ∃ ys, l.mapM f = .ok ys ∧ List.Forall₂ P l ys := by
  induction l with
  | nil => exact ⟨[], rfl, .nil⟩
  | cons x l ih =>
    obtain ⟨y, h1, h2⟩ := h x (by simp)
    obtain ⟨ys, h3, h4⟩ := ih fun x hx => h x (by simp [hx])
    exact ⟨y :: ys, by rw [List.mapM_cons, h1, h3]; rfl, .cons h2 h4⟩

lemma mapM_either {β δ : Type} {f : β → Res δ} {P : β → δ → Prop} {e : Exc} {l : List β}
    (h : ∀ x ∈ l, f x = .error e ∨ ∃ y, f x = .ok y ∧ P x y) :
    (l.mapM f = .error e ∨ ∃ ys, l.mapM f = .ok ys ∧ List.Forall₂ P l ys) ∧ ((∃ x ∈ l, f x = .error e) → l.mapM f = .error e) := by
  induction l with
  | nil => exact ⟨.inr ⟨[], rfl, .nil⟩, by rintro ⟨x, hx, _⟩; cases hx⟩
  | cons x l ih =>
    obtain ⟨ih1, ih2⟩ := ih fun x hx => h x (by simp [hx])
    rcases h x (by simp) with hx | ⟨y, hx, hy⟩
    · have : (x :: l).mapM f = .error e := by rw [List.mapM_cons, hx]; rfl
      exact ⟨.inl this, fun _ => this⟩
    · constructor
      · rcases ih1 with h1 | ⟨ys, h1, h2⟩
        · exact .inl (by rw [List.mapM_cons, hx, h1]; rfl)
        · exact .inr ⟨y :: ys, by rw [List.mapM_cons, hx, h1]; rfl, .cons hy h2⟩
      · rintro ⟨z, hz, he⟩
        rcases List.mem_cons.1 hz with rfl | hz
        · rw [hx] at he; cases he
        · rw [List.mapM_cons, hx, ih2 ⟨z, hz, he⟩]; rfl

/-- C155: a call that does not come to its end after the parameters have been allocated and before the optimizer has returned.  From
then on `predict` gives for known users and items what the coefficients say as they are at that moment, and raises `IndexError` as soon
as one requested user or item did not occur in the new data. -/
theorem C155_training {cf : Config γ} {mk : Int → γ} {env g : γ} {d : EventData α φ ε} {rows : List (List α)} (h : Built d rows)
    (hlay : d.eventOtypes = [0, 1]) {idx : Option (List Int)} (hidx : idx = none ∨ idx = some [0, 1])
    (hu : count [0, 1] rows 0 ≠ 1) (hi : count [0, 1] rows 1 ≠ 1)
    {r r1 : Rec ℝ α φ ε γ (Obj γ (count [0, 1] rows 0) (count [0, 1] rows 1) cf.k) Val} (hfit : Rec.eventFit mk env r d idx = .ok r1)
    {init : List (Stmt γ (count [0, 1] rows 0) (count [0, 1] rows 1) cf.k)} {loss grad link c0}
    (hv : Variant cf g init loss grad link c0) {o0 o1 o : Obj γ (count [0, 1] rows 0) (count [0, 1] rows 1) cf.k}
    (ha : Completes allocation o0 o1) (hl : Leaves (init ++ optimization cf.method cf.kwargs cf.opt loss grad) o1 o)
    (a : Arr2 α) (hreg : a.Regular) (hc : a.ncols = 2) (hne : a.rows ≠ []) :
    ((∀ row ∈ a.rows, Known rows row) →
      ∃ ys, Rec.predict (learner link) { r1 with params := some o } (.mat a) = .ok (squeeze ys) ∧
        List.Forall₂ (Estimates link rows o.coef) a.rows ys) ∧
    ((∃ row ∈ a.rows, ¬ Known rows row) →
      Rec.predict (learner link) { r1 with params := some o } (.mat a) = .error .indexError) := by
  obtain ⟨hrow, hpr⟩ := predict_obj (link := link) h hlay hidx hfit o a hreg hc hne
  obtain ⟨a1, a2, a3, a4, a5, _⟩ := allocated ha
  rw [if_neg hu] at a2
  rw [if_neg hi] at a3
  obtain ⟨s1, s2, s3, s4, s5⟩ := leaves_same (fun s hs => by
    rcases List.mem_append.1 hs with hs | hs
    · exact hv.quiet s hs
    · exact quiet_optimization _ _ _ _ _ s hs) hl
  have key := rawScore_extended (.inl (s1.trans a1)) (.inl (s2.trans a2)) (.inl (s3.trans a3)) (.inl (s4.trans a4)) (.inl (s5.trans a5))
  have good : ∀ row, Known rows row → ∃ y, rowScore link o rows row = .ok y ∧ Estimates link rows o.coef row y := by
    rintro row ⟨x, i, rfl, hx, hy⟩
    obtain ⟨h1, e1⟩ := (lookup_code rows 0 x).1 hx
    obtain ⟨h2, e2⟩ := (lookup_code rows 1 i).1 hy
    have := (key (some ⟨_, h1⟩) (some ⟨_, h2⟩)).2.1 ⟨_, rfl⟩ ⟨_, rfl⟩
    refine ⟨link (est o.coef ⟨_, h1⟩ ⟨_, h2⟩), ?_, x, i, rfl, h1, h2, rfl⟩
    simp only [rowScore, e1, e2, this]
    rfl
  have bad : ∀ row, (∃ x i, row = [x, i]) → ¬ Known rows row → rowScore link o rows row = .error .indexError := by
    rintro row ⟨x, i, rfl⟩ hn
    have hv2 := s2.trans a2
    have hv3 := s3.trans a3
    by_cases hx : IsObject [0, 1] rows 0 x <;> by_cases hy : IsObject [0, 1] rows 1 i
    · exact absurd ⟨x, i, rfl, hx, hy⟩ hn
    · obtain ⟨h1, e1⟩ := (lookup_code rows 0 x).1 hx
      simp only [rowScore, e1, (lookup_code rows 1 i).2 hy, (key (some ⟨_, h1⟩) none).2.2 hv2 hv3 (.inr rfl)]
      rfl
    · obtain ⟨h2, e2⟩ := (lookup_code rows 1 i).1 hy
      simp only [rowScore, e2, (lookup_code rows 0 x).2 hx, (key none (some ⟨_, h2⟩)).2.2 hv2 hv3 (.inl rfl)]
      rfl
    · simp only [rowScore, (lookup_code rows 1 i).2 hy, (lookup_code rows 0 x).2 hx, (key none none).2.2 hv2 hv3 (.inl rfl)]
      rfl
  rw [hpr]
  constructor
  · intro hk
    obtain ⟨ys, h1, h2⟩ := mapM_total (fun row hr => good row (hk row hr))
    exact ⟨ys, by rw [h1]; rfl, h2⟩
  · rintro ⟨row, hr, hn⟩
    have := (mapM_either (P := Estimates link rows o.coef) (e := .indexError) (l := a.rows) (fun row hr => by
      by_cases hk : Known rows row
      · exact .inr (good row hk)
      · exact .inl (bad row (hrow row hr) hk))).2 ⟨row, hr, bad row (hrow row hr) hn⟩
    rw [this]
    rfl

/-- C155: while the optimizer runs these coefficients are the initial ones of the model, so an interrupted fit leaves a recommender that
predicts with untrained parameters. -/
theorem C155_optimizer {cf : Config γ} {g : γ} {init : List (Stmt γ nu ni cf.k)} {loss grad link c0}
    (hv : Variant cf g init loss grad link c0) {o0 o1 o2 o : Obj γ nu ni cf.k} (hg : o0.rng = g) (ha : Completes allocation o0 o1)
    (hi : Completes init o1 o2) (hl : Leaves (optimization cf.method cf.kwargs cf.opt loss grad) o2 o) :
    o.coef = unpack c0 := by
  obtain ⟨_, _, _, _, _, a6, _, a8⟩ := allocated ha
  obtain ⟨h1, _⟩ := hv.initial a8 (a6.trans hg) hi
  rw [← h1]
  unfold optimization at hl
  cases hl with
  | here => rfl
  | step s1 hl =>
    cases s1
    cases hl with
    | here => rfl
    | step s2 hl =>
      cases s2
      cases hl
      rfl

lemma recording_keeps {n : Nat} {method : String} {kwargs : List (String × String)} {o o' : Obj γ nu ni k}
    (h : Leaves (recording n method kwargs) o o') : o'.coef = o.coef ∧ Same o o' := by
  refine ⟨?_, leaves_same (quiet_recording _ _ _) h⟩
  have hall : ∀ s ∈ recording (γ := γ) (nu := nu) (ni := ni) (k := k) n method kwargs, ∀ o o', s o = .ok o' → o'.coef = o.coef := by
    intro s hs o o' h
    have key : ∀ key f, record (γ := γ) (nu := nu) (ni := ni) (k := k) key f o = .ok o' → o'.coef = o.coef := by
      intro key f h
      unfold record at h
      split at h
      · cases h; rfl
      · cases h
    simp only [recording, List.mem_cons, List.not_mem_nil, or_false] at hs
    rcases hs with rfl | rfl | rfl | rfl | rfl | rfl | rfl | rfl | rfl | rfl | rfl | rfl | rfl <;> exact key _ _ h
  generalize recording (γ := γ) (nu := nu) (ni := ni) (k := k) n method kwargs = l at h hall
  induction h with
  | here => rfl
  | step hs _ ih => exact (ih fun s hs' => hall s (by simp [hs'])).trans (hall _ (by simp) _ _ hs)

/-- C155: a call that does not come to its end after the result of the optimizer has been stored.  From then on `predict` gives for known
users and items the predictions of the completed fit; for requests with unknown ones it gives those too or raises `IndexError`. -/
theorem C155_stored_partial {cf : Config γ} {mk : Int → γ} {env g : γ} {d : EventData α φ ε} {rows : List (List α)} (h : Built d rows)
    (hlay : d.eventOtypes = [0, 1]) {idx : Option (List Int)} (hidx : idx = none ∨ idx = some [0, 1])
    (hu : count [0, 1] rows 0 ≠ 1) (hi : count [0, 1] rows 1 ≠ 1)
    {r r1 : Rec ℝ α φ ε γ (Obj γ (count [0, 1] rows 0) (count [0, 1] rows 1) cf.k) Val} (hfit : Rec.eventFit mk env r d idx = .ok r1)
    {init : List (Stmt γ (count [0, 1] rows 0) (count [0, 1] rows 1) cf.k)} {loss grad link c0}
    (hv : Variant cf g init loss grad link c0) {o0 o1 o : Obj γ (count [0, 1] rows 0) (count [0, 1] rows 1) cf.k} (hg : o0.rng = g)
    (ha : Completes (allocation ++ (init ++ (optimization cf.method cf.kwargs cf.opt loss grad ++ [copyBack]))) o0 o1) {nEvents : Nat}
    (hl : Leaves (extension ++ recording nEvents cf.method cf.kwargs) o1 o)
    (a : Arr2 α) (hreg : a.Regular) (hc : a.ncols = 2) (hne : a.rows ≠ []) :
    ((∀ row ∈ a.rows, Known rows row) →
      ∃ ys, Rec.predict (learner link) { r1 with params := some o } (.mat a) = .ok (squeeze ys) ∧
        List.Forall₂ (RowPrediction link (store (cf.opt _ loss grad c0 cf.method cf.kwargs).x) rows) a.rows ys) ∧
    (Rec.predict (learner link) { r1 with params := some o } (.mat a) = .error .indexError ∨
      ∃ ys, Rec.predict (learner link) { r1 with params := some o } (.mat a) = .ok (squeeze ys) ∧
        List.Forall₂ (RowPrediction link (store (cf.opt _ loss grad c0 cf.method cf.kwargs).x) rows) a.rows ys) := by
  obtain ⟨hrow, hpr⟩ := predict_obj (link := link) h hlay hidx hfit o a hreg hc hne
  obtain ⟨m1, ha, hb⟩ := completes_append.1 ha
  obtain ⟨m2, hb, hcp⟩ := completes_append.1 hb
  obtain ⟨m3, hcp, hd⟩ := completes_append.1 hcp
  obtain ⟨a1, a2, a3, a4, a5, a6, _, a8⟩ := allocated ha
  rw [if_neg hu] at a2
  rw [if_neg hi] at a3
  obtain ⟨i1, _⟩ := hv.initial a8 (a6.trans hg) hb
  obtain ⟨s1, s2, s3, s4, s5⟩ := leaves_same hv.quiet (completes_leaves hb)
  obtain ⟨t1, t2, t3, t4, t5⟩ := leaves_same (quiet_optimization _ _ _ _ _) (completes_leaves hcp)
  have hres : m3.res = some (cf.opt _ loss grad c0 cf.method cf.kwargs) := by
    unfold optimization at hcp
    cases hcp with | step e1 hcp =>
    cases hcp with | step e2 hcp =>
    cases hcp
    cases e1; cases e2
    simp only [i1, pack_unpack]
  have hcoef : o1.coef = unpack (cf.opt _ loss grad c0 cf.method cf.kwargs).x ∧ Same m3 o1 := by
    cases hd with | step e1 hd =>
    cases hd
    unfold copyBack at e1
    rw [hres] at e1
    cases e1
    exact ⟨rfl, rfl, rfl, rfl, rfl, rfl⟩
  obtain ⟨hcoef, c1, c2, c3, c4, c5⟩ := hcoef
  have v1 := c1.trans (t1.trans (s1.trans a1))
  have v2 := c2.trans (t2.trans (s2.trans a2))
  have v3 := c3.trans (t3.trans (s3.trans a3))
  have v4 := c4.trans (t4.trans (s4.trans a4))
  have v5 := c5.trans (t5.trans (s5.trans a5))
  generalize (cf.opt _ loss grad c0 cf.method cf.kwargs).x = c at hcoef
  have shape : o.coef = unpack c ∧ (o.mu = .view ∨ o.mu = .own o.coef.mu) ∧ Extended (List.ofFn o.coef.bu) 0 o.bu ∧
      Extended (List.ofFn o.coef.bi) 0 o.bi ∧ Extended (List.ofFn (fun u => List.ofFn (o.coef.p u))) (List.replicate cf.k 0) o.p ∧
      Extended (List.ofFn (fun i => List.ofFn (o.coef.q i))) (List.replicate cf.k 0) o.q := by
    rcases leaves_append hl with hl | ⟨m, hm, hl⟩
    · unfold extension at hl
      cases hl with
      | here => exact ⟨hcoef, .inl v1, .inl v2, .inl v3, .inl v4, .inl v5⟩
      | step e hl =>
      cases e
      cases hl with
      | here => exact ⟨hcoef, .inr rfl, .inl v2, .inl v3, .inl v4, .inl v5⟩
      | step e hl =>
      cases e
      cases hl with
      | here => exact ⟨hcoef, .inr rfl, .inr rfl, .inl v3, .inl v4, .inl v5⟩
      | step e hl =>
      cases e
      cases hl with
      | here => exact ⟨hcoef, .inr rfl, .inr rfl, .inr rfl, .inl v4, .inl v5⟩
      | step e hl =>
      cases e
      cases hl with
      | here => exact ⟨hcoef, .inr rfl, .inr rfl, .inr rfl, .inr rfl, .inl v5⟩
      | step e hl =>
      cases e
      cases hl
      exact ⟨hcoef, .inr rfl, .inr rfl, .inr rfl, .inr rfl, .inr rfl⟩
    · obtain ⟨q, q1, q2, q3, q4, q5⟩ := recording_keeps hl
      unfold extension at hm
      cases hm with | step e hm =>
      cases e
      cases hm with | step e hm =>
      cases e
      cases hm with | step e hm =>
      cases e
      cases hm with | step e hm =>
      cases e
      cases hm with | step e hm =>
      cases e
      cases hm
      refine ⟨q.trans hcoef, .inr ?_, .inr ?_, .inr ?_, .inr ?_, .inr ?_⟩ <;> rw [q]
      · exact q1
      · exact q2
      · exact q3
      · exact q4
      · exact q5
  obtain ⟨w0, w1, w2, w3, w4, w5⟩ := shape
  have key := rawScore_extended w1 w2 w3 w4 w5
  -- the predictions of the completed fit
  have done : ∀ x i, ∃ y, (MF.rawScore (store c) [lookup [0, 1] rows 0 x, lookup [0, 1] rows 1 i]).map link = .ok y ∧
      RowPrediction link (store c) rows [x, i] y := rawScore_lookup rows link c
  have look : ∀ t x, ∃ w : Option (Fin (count [0, 1] rows t)), lookup [0, 1] rows t x = code w ∧
      (IsObject [0, 1] rows t x → ∃ z, w = some z) := by
    intro t x
    by_cases hx : IsObject [0, 1] rows t x
    · obtain ⟨h1, e1⟩ := (lookup_code rows t x).1 hx
      exact ⟨_, e1, fun _ => ⟨_, rfl⟩⟩
    · exact ⟨_, (lookup_code rows t x).2 hx, fun h => absurd h hx⟩
  have row : ∀ x i, (rowScore link o rows [x, i] = .error .indexError ∨
        ∃ y, rowScore link o rows [x, i] = .ok y ∧ RowPrediction link (store c) rows [x, i] y) ∧
      (Known rows [x, i] → ∃ y, rowScore link o rows [x, i] = .ok y ∧ RowPrediction link (store c) rows [x, i] y) := by
    intro x i
    obtain ⟨w, e1, k1⟩ := look 0 x
    obtain ⟨w', e2, k2⟩ := look 1 i
    obtain ⟨y, y1, y2⟩ := done x i
    rw [e1, e2, rawScore_store] at y1
    cases y1
    have er : rowScore link o rows [x, i] = (rawScore o [code w, code w']).map link := by rw [← e1, ← e2]; rfl
    rw [er]
    obtain ⟨b1, b2, _⟩ := key w w'
    rw [w0] at b1 b2
    constructor
    · rcases b1 with b1 | b1
      · exact .inr ⟨_, by rw [b1]; rfl, y2⟩
      · exact .inl (by rw [b1]; rfl)
    · rintro ⟨x', i', hxi, hx, hy⟩
      cases hxi
      exact ⟨_, by rw [b2 (k1 hx) (k2 hy)]; rfl, y2⟩
  rw [hpr]
  constructor
  · intro hk
    obtain ⟨ys, y1, y2⟩ := mapM_total (f := rowScore link o rows) (P := RowPrediction link (store c) rows) (l := a.rows) (by
      intro w hr
      obtain ⟨x, i, rfl⟩ := hrow w hr
      exact (row x i).2 (hk _ hr))
    exact ⟨ys, by rw [y1]; rfl, y2⟩
  · rcases (mapM_either (f := rowScore link o rows) (P := RowPrediction link (store c) rows) (e := .indexError) (l := a.rows) (by
      intro w hr
      obtain ⟨x, i, rfl⟩ := hrow w hr
      exact (row x i).1)).1 with y1 | ⟨ys, y1, y2⟩
    · exact .inl (by rw [y1]; rfl)
    · exact .inr ⟨ys, by rw [y1]; rfl, y2⟩

/-- C155: a call that comes to its end leaves what `Verif/MF/Model` says, whatever was left before, so a fit after an interrupted one
is like any other. -/
theorem C155_completed {cf : Config γ} {g : γ} {init : List (Stmt γ nu ni cf.k)} {loss grad link c0}
    (hv : Variant cf g init loss grad link c0) {nEvents : Nat} {o0 o : Obj γ nu ni cf.k} (hg : o0.rng = g)
    (h : Completes (program cf nEvents init loss grad) o0 o) :
    o.mu = .own (store (cf.opt _ loss grad c0 cf.method cf.kwargs).x).mu ∧
    o.bu = .own (store (cf.opt _ loss grad c0 cf.method cf.kwargs).x).bu ∧
    o.bi = .own (store (cf.opt _ loss grad c0 cf.method cf.kwargs).x).bi ∧
    o.p = .own (store (cf.opt _ loss grad c0 cf.method cf.kwargs).x).p ∧
    o.q = .own (store (cf.opt _ loss grad c0 cf.method cf.kwargs).x).q ∧
    o.results = (results cf nu ni nEvents (loss c0) (cf.opt _ loss grad c0 cf.method cf.kwargs)).foldl (fun d kv => d.set kv.1 kv.2)
      o0.results := by
  unfold program at h
  obtain ⟨m1, ha, h⟩ := completes_append.1 h
  obtain ⟨m2, hi, h⟩ := completes_append.1 h
  obtain ⟨m3, ho, h⟩ := completes_append.1 h
  obtain ⟨_, _, _, _, _, a6, a7, a8⟩ := allocated ha
  obtain ⟨i1, i2⟩ := hv.initial a8 (a6.trans hg) hi
  have hres : m3.res = some (cf.opt _ loss grad c0 cf.method cf.kwargs) ∧
      m3.results = o0.results.set "initial_loss" (.real (loss c0)) := by
    unfold optimization at ho
    cases ho with | step e1 ho =>
    cases ho with | step e2 ho =>
    cases ho
    cases e1; cases e2
    simp only [i1, pack_unpack, i2, a7]
    exact ⟨trivial, trivial⟩
  obtain ⟨hres, hr⟩ := hres
  generalize cf.opt _ loss grad c0 cf.method cf.kwargs = res at hres
  cases h with | step e1 h =>
  unfold copyBack at e1
  rw [hres] at e1
  cases e1
  obtain ⟨m4, he, h⟩ := completes_append.1 h
  have hx : m4.mu = .own (store res.x).mu ∧ m4.bu = .own (store res.x).bu ∧ m4.bi = .own (store res.x).bi ∧
      m4.p = .own (store res.x).p ∧ m4.q = .own (store res.x).q ∧ m4.res = some res ∧ m4.results = m3.results := by
    unfold extension at he
    cases he with | step e he =>
    cases e
    cases he with | step e he =>
    cases e
    cases he with | step e he =>
    cases e
    cases he with | step e he =>
    cases e
    cases he with | step e he =>
    cases e
    cases he
    exact ⟨rfl, rfl, rfl, rfl, rfl, rfl, rfl⟩
  obtain ⟨x1, x2, x3, x4, x5, x6, x7⟩ := hx
  have hrec : ∀ (l : List (String × (OptResult (size nu ni cf.k) → Val))) (o o' : Obj γ nu ni cf.k), o.res = some res →
      Completes (l.map (fun kv => record kv.1 kv.2)) o o' →
      Same o o' ∧ o'.results = (l.map (fun kv => (kv.1, kv.2 res))).foldl (fun d kv => d.set kv.1 kv.2) o.results := by
    intro l
    induction l with
    | nil => intro o o' _ h; cases h; exact ⟨.refl _, rfl⟩
    | cons kv l ih =>
      intro o o' hr h
      rw [List.map_cons] at h
      cases h with | step e h =>
      unfold record at e
      rw [hr] at e
      cases e
      obtain ⟨h1, h2⟩ := ih _ _ (by rfl) h
      exact ⟨h1, h2⟩
  have h5 := hrec [("n_users", fun _ => .nat nu), ("n_items", fun _ => .nat ni), ("n_events", fun _ => .nat nEvents),
    ("n_parameters", fun _ => .nat (size nu ni cf.k)), ("success", fun res => .bool res.success),
    ("status", fun res => .nat res.status), ("message", fun res => .str res.message),
    ("final_loss", fun res => .real res.fn), ("n_iterations", fun res => .nat res.nit),
    ("func_calls", fun res => .nat res.nfev), ("grad_calls", fun res => .nat res.njev),
    ("optimizer_method", fun _ => .str cf.method), ("optimizer_kwargs", fun _ => .kwargs cf.kwargs)] m4 o x6 h
  obtain ⟨⟨s1, s2, s3, s4, s5⟩, h6⟩ := h5
  refine ⟨s1.trans x1, s2.trans x2, s3.trans x3, s4.trans x4, s5.trans x5, ?_⟩
  rw [h6, x7, hr]
  rfl

lemma raises_append {e : Exc} {a b : List (Stmt γ nu ni k)} {o o' : Obj γ nu ni k} (h : Raises e a o o') : Raises e (a ++ b) o o' := by
  induction h with
  | here h => exact .here h
  | step h _ ih => exact .step h ih

lemma completes_raises {e : Exc} {a b : List (Stmt γ nu ni k)} {o m o' : Obj γ nu ni k} (h : Completes a o m) (h' : Raises e b m o') :
    Raises e (a ++ b) o o' := by
  induction h with
  | nil => exact h'
  | step h _ ih => exact .step h (ih h')

lemma raises_not_completes {e : Exc} {a b : List (Stmt γ nu ni k)} {o m m' : Obj γ nu ni k} (h : Raises e a o m)
    (h' : Completes (a ++ b) o m') : False := by
  induction h with
  | here h => cases h' with | step s _ => rw [h] at s; cases s
  | step h _ ih => cases h' with | step s h' => rw [h] at s; cases s; exact ih h'

lemma users_run (evs : List (Event nu ni)) (us : List (Fin nu)) (o : Obj γ nu ni k) (hb : o.bu = .view) :
    ∃ o', Completes (us.map (setUser evs)) o o' := by
  induction us generalizing o with
  | nil => exact ⟨o, .nil⟩
  | cons u us ih =>
    have : ∃ o', setUser evs u o = .ok o' ∧ o'.bu = .view := by
      unfold setUser
      simp only
      split
      · rw [hb]; exact ⟨_, rfl, rfl⟩
      · exact ⟨o, rfl, hb⟩
    obtain ⟨o', h1, h2⟩ := this
    obtain ⟨o'', h3⟩ := ih o' h2
    exact ⟨o'', .step h1 h3⟩

lemma items_run (evs : List (Event nu ni)) (is : List (Fin ni)) (o : Obj γ nu ni k) (hb : o.bi = .view) :
    ∃ o', Completes (is.map (setItem evs)) o o' := by
  induction is generalizing o with
  | nil => exact ⟨o, .nil⟩
  | cons u us ih =>
    have : ∃ o', setItem evs u o = .ok o' ∧ o'.bi = .view := by
      unfold setItem
      simp only
      split
      · rw [hb]; exact ⟨_, rfl, rfl⟩
      · exact ⟨o, rfl, hb⟩
    obtain ⟨o', h1, h2⟩ := this
    obtain ⟨o'', h3⟩ := ih o' h2
    exact ⟨o'', .step h1 h3⟩

lemma filter_pos {β : Type} {l : List β} {p : β → Bool} (h : ∃ x ∈ l, p x = true) : 0 < (l.filter p).length := by
  obtain ⟨x, h1, h2⟩ := h
  exact List.length_pos_of_mem (List.mem_filter.2 ⟨h1, h2⟩)

/-- With one user or one item the initialization raises. -/
lemma Variant.one {cf : Config γ} {g : γ} {init : List (Stmt γ nu ni cf.k)} {loss grad link c0}
    (hv : Variant cf g init loss grad link c0) {o : Obj γ nu ni cf.k} (hbu : o.bu = if nu = 1 then .number else .view)
    (hbi : o.bi = if ni = 1 then .number else .view) (hone : nu = 1 ∨ ni = 1) : ∃ o', Raises .typeError init o o' := by
  have hex : ∀ sd evs, Covered evs → ∃ o', Raises .typeError (initExplicit cf.rng sd evs) o o' := by
    intro sd evs hc
    unfold initExplicit
    suffices ∀ m : Obj γ nu ni cf.k, m.bu = o.bu → m.bi = o.bi → ∃ o', Raises .typeError ((List.finRange nu).map (setUser evs) ++
        ((List.finRange ni).map (setItem evs) ++ [drawUsers cf.rng sd evs, drawItems cf.rng sd evs])) m o' by
      obtain ⟨o', h⟩ := this { o with coef := { o.coef with mu := (evs.map (·.score)).sum / (evs.length : ℝ) } } rfl rfl
      exact ⟨o', .step rfl h⟩
    intro m m1 m2
    by_cases hn : nu = 1
    · rw [if_pos hn] at hbu
      obtain ⟨us, hus⟩ : ∃ us, List.finRange nu = ⟨0, by omega⟩ :: us := by subst hn; exact ⟨[], rfl⟩
      rw [hus]
      refine ⟨m, raises_append (.here ?_)⟩
      unfold setUser
      simp only
      rw [if_pos (filter_pos (by obtain ⟨e, h1, h2⟩ := hc.1 ⟨0, by omega⟩; exact ⟨e, h1, by simp [h2]⟩)), m1, hbu]
      rfl
    · rw [if_neg hn] at hbu
      have hn' : ni = 1 := hone.resolve_left hn
      rw [if_pos hn'] at hbi
      obtain ⟨m', hm⟩ := users_run evs (List.finRange nu) m (m1.trans hbu)
      have hs := leaves_same (fun s hs => by
        obtain ⟨u, _, rfl⟩ := List.mem_map.1 hs
        exact quiet_user evs u) (completes_leaves hm)
      obtain ⟨us, hus⟩ : ∃ us, List.finRange ni = ⟨0, by omega⟩ :: us := by subst hn'; exact ⟨[], rfl⟩
      refine ⟨m', completes_raises hm (raises_append ?_)⟩
      rw [hus]
      refine .here ?_
      unfold setItem
      simp only
      rw [if_pos (filter_pos (by obtain ⟨e, h1, h2⟩ := hc.2 ⟨0, by omega⟩; exact ⟨e, h1, by simp [h2]⟩)), hs.2.2.1, m2, hbi]
      rfl
  cases hv with
  | pmf evs hc => exact hex _ _ hc
  | logistic evs hc => exact hex _ _ hc
  | implicit mat =>
    unfold initImplicit
    by_cases hn : nu = 1
    · rw [if_pos hn] at hbu
      refine ⟨_, .step rfl (.here ?_)⟩
      simp only [hbu]
      rfl
    · rw [if_neg hn] at hbu
      rw [if_pos (hone.resolve_left hn)] at hbi
      refine ⟨_, .step rfl (.step (by simp only [hbu]; rfl) (.here ?_))⟩
      simp only [hbi]
      rfl

/-- Otherwise the call comes to its end, if nothing interrupts it. -/
theorem C155_runs {cf : Config γ} {g : γ} {init : List (Stmt γ nu ni cf.k)} {loss grad link c0}
    (hv : Variant cf g init loss grad link c0) (nEvents : Nat) (o0 : Obj γ nu ni cf.k) (hu : nu ≠ 1) (hi : ni ≠ 1) :
    ∃ o, Completes (program cf nEvents init loss grad) o0 o := by
  obtain ⟨o1, ha⟩ := allocates o0
  obtain ⟨a1, a2, a3, _⟩ := allocated ha
  rw [if_neg hu] at a2
  rw [if_neg hi] at a3
  have hex : ∀ sd evs, ∃ o', Completes (initExplicit cf.rng sd evs) o1 o' := by
    intro sd evs
    obtain ⟨m2, h2⟩ := users_run (k := cf.k) evs (List.finRange nu)
      { o1 with coef := { o1.coef with mu := (evs.map (·.score)).sum / (evs.length : ℝ) } } a2
    have hs := leaves_same (fun s hs => by
        obtain ⟨u, _, rfl⟩ := List.mem_map.1 hs
        exact quiet_user evs u) (completes_leaves h2)
    obtain ⟨m3, h3⟩ := items_run evs (List.finRange ni) m2 (hs.2.2.1.trans a3)
    exact ⟨_, .step rfl (completes_append.2 ⟨m2, h2, completes_append.2 ⟨m3, h3, .step rfl (.step rfl .nil)⟩⟩)⟩
  have hini : ∃ o2, Completes init o1 o2 := by
    cases hv with
    | pmf evs _ => exact hex _ _
    | logistic evs _ => exact hex _ _
    | implicit m =>
      exact ⟨_, .step rfl (.step (by simp only [a2]; rfl) (.step (by simp only [a3]; rfl) (.step rfl (.step rfl .nil))))⟩
  obtain ⟨o2, h2⟩ := hini
  have ho : ∃ o3, Completes (optimization cf.method cf.kwargs cf.opt loss grad) o2 o3 ∧ ∃ res, o3.res = some res :=
    ⟨_, .step rfl (.step rfl .nil), _, rfl⟩
  obtain ⟨o3, h3, res, hres⟩ := ho
  have hx : ∃ o4, Completes extension { o3 with coef := unpack res.x } o4 ∧ o4.res = some res :=
    ⟨_, .step rfl (.step rfl (.step rfl (.step rfl (.step rfl .nil)))), hres⟩
  obtain ⟨o4, h4, hres4⟩ := hx
  have hr : ∀ (l : List (String × (OptResult (size nu ni cf.k) → Val))) (o : Obj γ nu ni cf.k), o.res = some res →
      ∃ o', Completes (l.map (fun kv => record kv.1 kv.2)) o o' := by
    intro l
    induction l with
    | nil => intro o _; exact ⟨o, .nil⟩
    | cons kv l ih =>
      intro o ho
      obtain ⟨o', h⟩ := ih { o with results := o.results.set kv.1 (kv.2 res) } ho
      exact ⟨o', .step (by simp only [record, ho]) h⟩
  obtain ⟨o5, h5⟩ := hr [("n_users", fun _ => .nat nu), ("n_items", fun _ => .nat ni), ("n_events", fun _ => .nat nEvents),
    ("n_parameters", fun _ => .nat (size nu ni cf.k)), ("success", fun res => .bool res.success),
    ("status", fun res => .nat res.status), ("message", fun res => .str res.message),
    ("final_loss", fun res => .real res.fn), ("n_iterations", fun res => .nat res.nit),
    ("func_calls", fun res => .nat res.nfev), ("grad_calls", fun res => .nat res.njev),
    ("optimizer_method", fun _ => .str cf.method), ("optimizer_kwargs", fun _ => .kwargs cf.kwargs)] o4 hres4
  exact ⟨o5, completes_append.2 ⟨o1, ha, completes_append.2 ⟨o2, h2, completes_append.2 ⟨o3, h3,
    .step (by simp only [copyBack, hres]) (completes_append.2 ⟨o4, h4, h5⟩)⟩⟩⟩⟩

/-- C155: with one user or one item the call raises `TypeError`, and from the allocation on every prediction raises `IndexError`. -/
theorem C155_one_object {cf : Config γ} {mk : Int → γ} {env g : γ} {d : EventData α φ ε} {rows : List (List α)} (h : Built d rows)
    (hlay : d.eventOtypes = [0, 1]) {idx : Option (List Int)} (hidx : idx = none ∨ idx = some [0, 1])
    (hone : count [0, 1] rows 0 = 1 ∨ count [0, 1] rows 1 = 1)
    {r r1 : Rec ℝ α φ ε γ (Obj γ (count [0, 1] rows 0) (count [0, 1] rows 1) cf.k) Val} (hfit : Rec.eventFit mk env r d idx = .ok r1)
    {init : List (Stmt γ (count [0, 1] rows 0) (count [0, 1] rows 1) cf.k)} {loss grad link c0}
    (hv : Variant cf g init loss grad link c0) (nEvents : Nat) {o0 o1 : Obj γ (count [0, 1] rows 0) (count [0, 1] rows 1) cf.k}
    (ha : Completes allocation o0 o1) :
    (∃ o, Raises .typeError (program cf nEvents init loss grad) o0 o) ∧
    ∀ o, Leaves (init ++ (optimization cf.method cf.kwargs cf.opt loss grad ++ (copyBack :: (extension ++
        recording nEvents cf.method cf.kwargs)))) o1 o →
      ∀ a : Arr2 α, a.Regular → a.ncols = 2 → a.rows ≠ [] →
        Rec.predict (learner link) { r1 with params := some o } (.mat a) = .error .indexError := by
  obtain ⟨a1, a2, a3, a4, a5, _⟩ := allocated ha
  obtain ⟨ob, hraise⟩ := hv.one a2 a3 hone
  refine ⟨⟨ob, completes_raises ha (raises_append hraise)⟩, ?_⟩
  intro o hl a hreg hc hne
  obtain ⟨hrow, hpr⟩ := predict_obj (link := link) h hlay hidx hfit o a hreg hc hne
  rcases leaves_append hl with hl | ⟨m, hm, _⟩
  · obtain ⟨s1, s2, s3, s4, s5⟩ := leaves_same hv.quiet hl
    have hb : ∀ row ∈ a.rows, rowScore link o rows row = .error .indexError := by
      intro row hr
      obtain ⟨x, i, rfl⟩ := hrow row hr
      unfold rowScore
      simp only
      generalize lookup [0, 1] rows 1 i = y
      obtain ⟨w, hw⟩ : ∃ w : Option (Fin (count [0, 1] rows 0)), lookup [0, 1] rows 0 x = code w := by
        by_cases hx : IsObject [0, 1] rows 0 x
        · obtain ⟨h1, e1⟩ := (lookup_code rows 0 x).1 hx
          exact ⟨_, e1⟩
        · exact ⟨_, (lookup_code rows 0 x).2 hx⟩
      rw [hw]
      have h0 : npGet [code w, y] 0 = .ok (code w) := rfl
      have h1 : npGet [code w, y] 1 = .ok y := rfl
      unfold rawScore
      rw [h0, h1, s1, a1, s2, a2, s3, a3]
      by_cases hn : count [0, 1] rows 0 = 1
      · rw [if_pos hn]
        rfl
      · rw [if_neg hn, if_pos (hone.resolve_left hn)]
        cases w with
        | none =>
          have : npGet (List.ofFn o.coef.bu) (code (none : Option (Fin (count [0, 1] rows 0)))) = .error .indexError := npGet_ofFn_last _
          simp only [Attr.read, bind, Except.bind, this]
          rfl
        | some w =>
          have : npGet (List.ofFn o.coef.bu) (code (some w)) = .ok (o.coef.bu w) := npGet_ofFn _ _
          simp only [Attr.read, bind, Except.bind, this]
          rfl
    rw [hpr]
    obtain ⟨row, hr⟩ := List.exists_mem_of_ne_nil _ hne
    rw [(mapM_either (P := fun _ _ => False) (fun row hr => .inl (hb row hr))).2 ⟨row, hr, hb row hr⟩]
    rfl
  · have hm' : Completes (init ++ []) o1 m := by rw [List.append_nil]; exact hm
    exact (raises_not_completes hraise hm').elim

/-- C155: these are all points at which a call can stop. -/
theorem C155_points {cf : Config γ} {init : List (Stmt γ nu ni cf.k)} {loss grad} {nEvents : Nat} {o0 o : Obj γ nu ni cf.k}
    (h : Leaves (program cf nEvents init loss grad) o0 o) :
    Leaves allocation o0 o ∨
    (∃ o1, Completes allocation o0 o1 ∧ Leaves (init ++ optimization cf.method cf.kwargs cf.opt loss grad) o1 o) ∨
    ∃ o1, Completes (allocation ++ (init ++ (optimization cf.method cf.kwargs cf.opt loss grad ++ [copyBack]))) o0 o1 ∧
      Leaves (extension ++ recording nEvents cf.method cf.kwargs) o1 o := by
  unfold program at h
  rcases leaves_append h with h | ⟨o1, ha, h⟩
  · exact .inl h
  rw [← List.append_assoc] at h
  rcases leaves_append h with h | ⟨o2, hb, h⟩
  · exact .inr (.inl ⟨o1, ha, h⟩)
  cases h with
  | here => exact .inr (.inl ⟨o1, ha, completes_leaves hb⟩)
  | step e h =>
    refine .inr (.inr ⟨_, ?_, h⟩)
    obtain ⟨m, hb, hb'⟩ := completes_append.1 hb
    exact completes_append.2 ⟨o1, ha, completes_append.2 ⟨m, hb, completes_append.2 ⟨o2, hb', .step e .nil⟩⟩⟩

/-- The full C155: whenever a call of `fit` on several users and items stops, `predict` raises, gives what it gave with the parameters the
recommender had before, or gives what it would give after the whole call. -/
def C155_full : Prop :=
  ∀ (cf : Config Unit) (d : EventData Nat Nat Nat) (rows : List (List Nat)), Built d rows → d.eventOtypes = [0, 1] →
    count [0, 1] rows 0 ≠ 1 → count [0, 1] rows 1 ≠ 1 →
    ∀ r r1 : Rec ℝ Nat Nat Nat Unit (Obj Unit (count [0, 1] rows 0) (count [0, 1] rows 1) cf.k) Val,
    Rec.eventFit (fun _ => ()) () r d none = .ok r1 →
    ∀ (init : List (Stmt Unit (count [0, 1] rows 0) (count [0, 1] rows 1) cf.k)) loss grad link c0,
    Variant cf () init loss grad link c0 → ∀ nEvents o0 o, Leaves (program cf nEvents init loss grad) o0 o →
    ∀ a : Arr2 Nat, a.Regular → a.ncols = 2 → a.rows ≠ [] →
      (∃ e, Rec.predict (learner link) { r1 with params := some o } (.mat a) = .error e) ∨
      Rec.predict (learner link) { r1 with params := some o } (.mat a) =
        Rec.predict (learner link) { r1 with params := some o0 } (.mat a) ∨
      ∃ ys, Rec.predict (learner link) { r1 with params := some o } (.mat a) = .ok (squeeze ys) ∧
        List.Forall₂ (RowPrediction link (store (cf.opt _ loss grad c0 cf.method cf.kwargs).x) rows) a.rows ys

/-- An optimizer that adds one to the global mean. -/
noncomputable def exConfig : Config Unit where
  C := 1
  k := 1
  method := "CG"
  kwargs := []
  opt := fun _ f _ x0 _ _ => ⟨fun j => x0 j + if j.1 = 0 then 1 else 0, true, 0, "", f x0, 1, 1, 1⟩
  rng := ⟨fun _ _ _ _ _ => (fun _ _ => 1, ())⟩

lemma exCount (t : Nat) (ht : t < 2) : count [0, 1] [[1, 10], [2, 20]] t = 2 := by
  rw [← length_ids]
  rcases t with _ | _ | t
  · decide
  · decide
  · omega

/-- The two events of `exSquare` with the scores 5 and 1. -/
noncomputable def exEvents : List (Event (count [0, 1] [[1, 10], [2, 20]] 0) (count [0, 1] [[1, 10], [2, 20]] 1)) :=
  [⟨⟨0, by rw [exCount 0 (by omega)]; omega⟩, ⟨0, by rw [exCount 1 (by omega)]; omega⟩, 5⟩,
   ⟨⟨1, by rw [exCount 0 (by omega)]; omega⟩, ⟨1, by rw [exCount 1 (by omega)]; omega⟩, 1⟩]

lemma exCovered : Covered exEvents := by
  constructor
  · intro u
    have := u.2
    have h2 := exCount 0 (by omega)
    rcases (by omega : u.1 = 0 ∨ u.1 = 1) with h | h
    · exact ⟨_, List.mem_cons_self, Fin.ext h.symm⟩
    · exact ⟨_, List.mem_cons_of_mem _ List.mem_cons_self, Fin.ext h.symm⟩
  · intro u
    have := u.2
    have h2 := exCount 1 (by omega)
    rcases (by omega : u.1 = 0 ∨ u.1 = 1) with h | h
    · exact ⟨_, List.mem_cons_self, Fin.ext h.symm⟩
    · exact ⟨_, List.mem_cons_of_mem _ List.mem_cons_self, Fin.ext h.symm⟩

/-- A recommender before its first fit. -/
noncomputable def exStart : Obj Unit (count [0, 1] [[1, 10], [2, 20]] 0) (count [0, 1] [[1, 10], [2, 20]] 1) exConfig.k :=
  ⟨⟨0, fun _ => 0, fun _ => 0, fun _ _ => 0, fun _ _ => 0⟩, .none, .none, .none, .none, .none, (), none, initialResults⟩

lemma exVariant : Variant exConfig () (initExplicit exConfig.rng (residual exEvents) exEvents) (PMF.loss exConfig.C exEvents)
    (PMF.gradLoss exConfig.C exEvents) id (PMF.initCoef exConfig.rng () exConfig.k exEvents).1 := .pmf exEvents exCovered

/-- C155 is not true in full: PMF interrupted while the optimizer runs predicts with untrained parameters. -/
theorem C155_refuted : ¬ C155_full := by
  intro hfull
  have hu : count [0, 1] [[1, 10], [2, 20]] 0 ≠ 1 := by rw [exCount 0 (by omega)]; omega
  have hi : count [0, 1] [[1, 10], [2, 20]] 1 ≠ 1 := by rw [exCount 1 (by omega)]; omega
  obtain ⟨r1, hfit⟩ : ∃ r1, Rec.eventFit (fun _ => ()) () (Rec.init none [] : Rec ℝ Nat Nat Nat Unit
      (Obj Unit (count [0, 1] [[1, 10], [2, 20]] 0) (count [0, 1] [[1, 10], [2, 20]] 1) exConfig.k) Val) exSquare none = .ok r1 :=
    ⟨_, rfl⟩
  obtain ⟨oc, hrun⟩ := C155_runs exVariant 2 exStart hu hi
  unfold program at hrun
  obtain ⟨o1, ha, hrun⟩ := completes_append.1 hrun
  obtain ⟨o2, hb, _⟩ := completes_append.1 hrun
  have leaves_of : ∀ {a b : List (Stmt Unit (count [0, 1] [[1, 10], [2, 20]] 0) (count [0, 1] [[1, 10], [2, 20]] 1) exConfig.k)} {o m o'},
      Completes a o m → Leaves b m o' → Leaves (a ++ b) o o' := by
    intro a b o m o' h h'
    induction h with
    | nil => exact h'
    | step s _ ih => exact .step s (ih h')
  have hl : Leaves (program exConfig 2 (initExplicit exConfig.rng (residual exEvents) exEvents) (PMF.loss exConfig.C exEvents)
      (PMF.gradLoss exConfig.C exEvents)) exStart o2 := leaves_of ha (leaves_of hb .here)
  have hcoef := C155_optimizer exVariant rfl ha hb .here
  have hk1 : IsObject [0, 1] [[1, 10], [2, 20]] 0 1 := (mem_ids _ _ _ _).1 (by decide)
  have hk2 : IsObject [0, 1] [[1, 10], [2, 20]] 1 10 := (mem_ids _ _ _ _).1 (by decide)
  have hreg : (⟨2, [[1, 10]]⟩ : Arr2 Nat).Regular := by intro r hr; rw [List.mem_singleton.1 hr]; rfl
  have htr := (C155_training exSquare_built rfl (.inl rfl) hu hi hfit exVariant ha (o := o2)
    (by have := leaves_of hb (Leaves.here (l := optimization exConfig.method exConfig.kwargs exConfig.opt
          (PMF.loss exConfig.C exEvents) (PMF.gradLoss exConfig.C exEvents))); exact this)
    ⟨2, [[1, 10]]⟩ hreg rfl (by simp)).1 (by
      intro row hr
      rw [List.mem_singleton.1 hr]
      exact ⟨1, 10, rfl, hk1, hk2⟩)
  obtain ⟨ys, hp, hys⟩ := htr
  rcases hfull exConfig exSquare _ exSquare_built rfl hu hi _ r1 hfit _ _ _ _ _ exVariant 2 exStart o2 hl ⟨2, [[1, 10]]⟩ hreg rfl (by simp)
    with ⟨e, h⟩ | h | ⟨zs, h, hzs⟩
  · rw [hp] at h; cases h
  · rw [hp, (predict_obj (link := id) exSquare_built rfl (.inl rfl) hfit exStart ⟨2, [[1, 10]]⟩ hreg rfl (by simp)).2] at h
    cases h
  · rw [hp] at h
    cases hys with | @cons _ y _ _ hy hys =>
    cases hys
    cases hzs with | @cons _ z _ _ hz hzs =>
    cases hzs
    have hyz : y = z := by
      have : (squeeze [y]) = squeeze [z] := by injection h
      simpa [squeeze] using this
    obtain ⟨x, i, hxi, hx, hi', hy⟩ := hy
    cases hxi
    obtain ⟨_, _, _, hz⟩ := hz 1 10 rfl
    obtain ⟨b, b', f, f', g1, g2, g3, g4, hz⟩ := hz hk1 hk2
    unfold store at g1 g2 g3 g4 hz
    rw [getElem?_ofFn_append _ _ _ hx] at g1 g3
    rw [getElem?_ofFn_append _ _ _ hi'] at g2 g4
    cases g1; cases g2; cases g3; cases g4
    rw [zipWith_ofFn] at hz
    rw [hcoef] at hy
    subst hyz
    rw [hy] at hz
    simp only [est, id, unpack, exConfig, pos] at hz
    norm_num at hz

/-- The run that is interrupted there would come to its end: what `C155_completed`, `C155_stored_partial` and `C155_points` ask for. -/
example : ∃ o1 o, Completes (allocation ++ (initExplicit exConfig.rng (residual exEvents) exEvents ++
      (optimization exConfig.method exConfig.kwargs exConfig.opt (PMF.loss exConfig.C exEvents) (PMF.gradLoss exConfig.C exEvents) ++
        [copyBack]))) exStart o1 ∧
    Leaves (extension ++ recording 2 exConfig.method exConfig.kwargs) o1 o ∧
    Completes (program exConfig 2 (initExplicit exConfig.rng (residual exEvents) exEvents) (PMF.loss exConfig.C exEvents)
      (PMF.gradLoss exConfig.C exEvents)) exStart o := by
  obtain ⟨o, h⟩ := C155_runs exVariant 2 exStart (by rw [exCount 0 (by omega)]; omega) (by rw [exCount 1 (by omega)]; omega)
  have h' := h
  unfold program at h'
  obtain ⟨m1, ha, h'⟩ := completes_append.1 h'
  obtain ⟨m2, hb, h'⟩ := completes_append.1 h'
  obtain ⟨m3, hc, h'⟩ := completes_append.1 h'
  cases h' with | step e h' =>
  exact ⟨_, o, completes_append.2 ⟨m1, ha, completes_append.2 ⟨m2, hb, completes_append.2 ⟨m3, hc, .step e .nil⟩⟩⟩,
    completes_leaves h', h⟩

/-- One item: what `C155_one_object` asks for, with the implicit model. -/
example : ∃ r1, Built exOneItem.toEventData [[1, 10], [2, 10]] ∧ exOneItem.eventOtypes = [0, 1] ∧
    count [0, 1] [[1, 10], [2, 10]] 1 = 1 ∧
    Rec.eventFit (fun _ => ()) () (Rec.init none [] : Rec ℝ Nat Nat Nat Unit
      (Obj Unit (count [0, 1] [[1, 10], [2, 10]] 0) (count [0, 1] [[1, 10], [2, 10]] 1) 1) Val) exOneItem.toEventData none = .ok r1 :=
  ⟨_, exOneItem_built.inv.1, rfl, exOneItem_count, rfl⟩


end Steps
end MF
end Kam
