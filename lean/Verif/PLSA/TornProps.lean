/-
C163: `predict` of the topic model in one thread while its `fit` runs in another.
-/
import Verif.PLSA.Torn
import Verif.PLSA.Interrupt

set_option linter.unusedSectionVars false

namespace Kam
open Spec
namespace PLSA
namespace Steps
open scoped BigOperators

variable {α φ ε γ : Type} [LinearOrder α] {n nu ni nl k : Nat}

/-- The state after `m` statements. -/
noncomputable def after (cf : Config γ) (evs : Fin n → Ev nu ni nl) (o : Obj n nu ni nl cf.k) (m : Nat) : Obj n nu ni nl cf.k :=
  run ((program cf evs).take m) o

lemma torn_ready {o : Nat → Obj n nu ni nl k} {bx by' : Nat → Bool} (h : ∀ j < 4, Ready (bx j) (by' j) (o j)) :
    ∃ θ, theta (torn o) = some θ ∧ (∀ z, 0 < θ.pZ z) ∧ (∀ j z, 0 < θ.pX j z) ∧ (∀ j z, 0 < θ.pY j z) ∧ (∀ j z, 0 < θ.pR j z) ∧
      (torn o).extX = bx 2 ∧ (torn o).extY = by' 3 := by
  obtain ⟨θ0, h0⟩ := (h 0 (by omega)).there
  obtain ⟨θ1, h1⟩ := (h 1 (by omega)).there
  obtain ⟨θ2, h2⟩ := (h 2 (by omega)).there
  obtain ⟨θ3, h3⟩ := (h 3 (by omega)).there
  obtain ⟨z, _, _, _⟩ := theta_eq h0
  obtain ⟨_, _, _, r⟩ := theta_eq h1
  obtain ⟨_, x, _, _⟩ := theta_eq h2
  obtain ⟨_, _, y, _⟩ := theta_eq h3
  exact ⟨⟨θ0.pZ, θ2.pX, θ3.pY, θ1.pR⟩, theta_of z x y r, (h 0 (by omega)).pos.z _ z, (h 2 (by omega)).pos.x _ x,
    (h 3 (by omega)).pos.y _ y, (h 1 (by omega)).pos.r _ r, (h 2 (by omega)).extX, (h 3 (by omega)).extY⟩

/-- C163: `pZ_`, `pRgZ_`, `pXgZ_` and `pYgZ_` are read after `m 0`, …, `m 3` statements, all after the four arrays have been assigned for the
first time.  As long as the entry for unknown users (items) had not been appended when `pXgZ_` (`pYgZ_`) was read, `predict` raises
`IndexError` if one requested user (item) did not occur in the new data; in all other cases it returns scores within the score domain,
although the four arrays need never have been the parameters at the same time. -/
theorem C163_domain {cf : Config γ} (hk : 0 < cf.k) (ha : 0 < cf.alpha) {mk : Int → γ} {env : γ} {d : EventData α φ ε}
    {rows : List (List α)} (h : Built d rows) (hlay : d.eventOtypes = [0, 1]) {idx : Option (List Int)} (hidx : idx = none ∨ idx = some [0, 1])
    {r r1 : Rec ℝ α φ ε γ (Obj n (count [0, 1] rows 0) (count [0, 1] rows 1) nl cf.k) Val} (hfit : Rec.eventFit mk env r d idx = .ok r1)
    (evs : Fin n → Ev (count [0, 1] rows 0) (count [0, 1] rows 1) nl) {o : Obj n (count [0, 1] rows 0) (count [0, 1] rows 1) nl cf.k}
    (hq : ∀ e z, 0 ≤ o.q e z) {levels : List ℝ} (hlev : levels.length = nl) (hnl : 0 < nl) {m : Nat → Nat} (hm : ∀ j < 4, 7 ≤ m j)
    (a : Arr2 α) (hreg : a.Regular) (hc : a.ncols = 2) (hne : a.rows ≠ []) :
    ((∃ row ∈ a.rows, NewUser rows row ∧ m 2 + 1 < (program cf evs).length ∨ NewItem rows row ∧ m 3 < (program cf evs).length) →
      Rec.predict (learner cf.useExpectation levels) { r1 with params := some (torn fun j => after cf evs o (m j)) } (.mat a) =
        .error .indexError) ∧
    ((∀ row ∈ a.rows, (NewUser rows row → (program cf evs).length ≤ m 2 + 1) ∧ (NewItem rows row → (program cf evs).length ≤ m 3)) →
      ∃ ys, Rec.predict (learner cf.useExpectation levels) { r1 with params := some (torn fun j => after cf evs o (m j)) } (.mat a) =
        .ok (squeeze ys) ∧ ys.length = a.rows.length ∧
        ∀ y ∈ ys, ∀ lo hi, (∀ l ∈ levels, lo ≤ l ∧ l ≤ hi) → lo ≤ y ∧ y ≤ hi) := by
  obtain ⟨θ, hθ, q1, q2, q3, q4, hX, hY⟩ := torn_ready (o := fun j => after cf evs o (m j))
    (bx := fun j => decide ((program cf evs).length ≤ m j + 1)) (by' := fun j => decide ((program cf evs).length ≤ m j))
    fun j hj => ready_take ha evs hq (hm j hj)
  generalize torn (fun j => after cf evs o (m j)) = o' at *
  generalize hL : (program cf evs).length = L at *
  obtain ⟨hrow, hpr⟩ := predict_rows (L := learner (γ := γ) cf.useExpectation levels) (p := o')
    (f := predictRow cf.useExpectation (params levels (decide (L ≤ m 2 + 1)) (decide (L ≤ m 3)) θ))
    (by intro l; show rawPredict _ _ _ _ = _; unfold rawPredict; rw [hθ, hX, hY]) h hlay hidx hfit a hreg hc hne
  rw [hpr]
  have base := predictRow_positive hk hnl q1 q2 q3 q4 cf.useExpectation hlev (decide (L ≤ m 2 + 1)) (decide (L ≤ m 3))
  have bad : ∀ row ∈ a.rows, (NewUser rows row ∧ m 2 + 1 < L ∨ NewItem rows row ∧ m 3 < L) →
      onPair (predictRow cf.useExpectation (params levels (decide (L ≤ m 2 + 1)) (decide (L ≤ m 3)) θ)) rows row = .error .indexError := by
    intro row hr hb
    obtain ⟨x, i, rfl⟩ := hrow row hr
    obtain ⟨u, e1, n1⟩ := lookup_cases rows 0 x
    obtain ⟨v, e2, n2⟩ := lookup_cases rows 1 i
    show predictRow _ _ [_, _] = _
    rw [e1, e2]
    refine (base u v).1 ?_
    rcases hb with ⟨⟨x', i', e, hx⟩, hl⟩ | ⟨⟨x', i', e, hx⟩, hl⟩ <;> cases e
    · exact .inl ⟨n1.2 hx, by simp; omega⟩
    · exact .inr ⟨n2.2 hx, by simp; omega⟩
  have good : ∀ row ∈ a.rows, ¬ (NewUser rows row ∧ m 2 + 1 < L ∨ NewItem rows row ∧ m 3 < L) →
      ∃ y, onPair (predictRow cf.useExpectation (params levels (decide (L ≤ m 2 + 1)) (decide (L ≤ m 3)) θ)) rows row = .ok y ∧
        ∀ lo hi, (∀ l ∈ levels, lo ≤ l ∧ l ≤ hi) → lo ≤ y ∧ y ≤ hi := by
    intro row hr hb
    obtain ⟨x, i, rfl⟩ := hrow row hr
    obtain ⟨u, e1, n1⟩ := lookup_cases rows 0 x
    obtain ⟨v, e2, n2⟩ := lookup_cases rows 1 i
    show ∃ y, predictRow _ _ [_, _] = _ ∧ _
    rw [e1, e2]
    refine (base u v).2 ?_ ?_
    · rintro ⟨h1, h2⟩
      exact hb (.inl ⟨⟨x, i, rfl, n1.1 h1⟩, by simpa using h2⟩)
    · rintro ⟨h1, h2⟩
      exact hb (.inr ⟨⟨x, i, rfl, n2.1 h1⟩, by simpa using h2⟩)
  constructor
  · rintro ⟨row, hr, hb⟩
    have := (MF.Steps.mapM_either (P := fun _ _ => True) (e := .indexError) (l := a.rows)
      (f := onPair (predictRow cf.useExpectation (params levels (decide (L ≤ m 2 + 1)) (decide (L ≤ m 3)) θ)) rows) (by
        intro row hr
        by_cases hb : NewUser rows row ∧ m 2 + 1 < L ∨ NewItem rows row ∧ m 3 < L
        · exact .inl (bad row hr hb)
        · obtain ⟨y, h1, _⟩ := good row hr hb
          exact .inr ⟨y, h1, trivial⟩)).2 ⟨row, hr, bad row hr hb⟩
    rw [this]
    rfl
  · intro hall
    obtain ⟨ys, h1, h2⟩ := MF.Steps.mapM_total (P := fun _ y => ∀ lo hi, (∀ l ∈ levels, lo ≤ l ∧ l ≤ hi) → lo ≤ y ∧ y ≤ hi)
      (l := a.rows) fun row hr => good row hr (by
        have := hall row hr
        rintro (⟨h1, h2⟩ | ⟨h1, h2⟩)
        · have := this.1 h1; omega
        · have := this.2 h1; omega)
    refine ⟨ys, by rw [h1]; rfl, h2.length_eq.symm, ?_⟩
    intro y hy
    obtain ⟨j, hj, rfl⟩ := List.getElem_of_mem hy
    exact (List.forall₂_iff_get.1 h2).2 j (by rw [h2.length_eq]; exact hj) hj

/-- C163: if a new recommender has no `pZ_` yet when it is read, `predict` raises `TypeError`, whatever the other arrays are by then. -/
theorem C163_early {cf : Config γ} {mk : Int → γ} {env : γ} {d : EventData α φ ε}
    {rows : List (List α)} (h : Built d rows) (hlay : d.eventOtypes = [0, 1]) {idx : Option (List Int)} (hidx : idx = none ∨ idx = some [0, 1])
    {r r1 : Rec ℝ α φ ε γ (Obj n (count [0, 1] rows 0) (count [0, 1] rows 1) nl cf.k) Val} (hfit : Rec.eventFit mk env r d idx = .ok r1)
    (evs : Fin n → Ev (count [0, 1] rows 0) (count [0, 1] rows 1) nl) {o : Obj n (count [0, 1] rows 0) (count [0, 1] rows 1) nl cf.k}
    (hz : o.pZ = none) (levels : List ℝ) {m : Nat → Nat} (hm : m 0 < 7)
    (a : Arr2 α) (hreg : a.Regular) (hc : a.ncols = 2) (hne : a.rows ≠ []) :
    Rec.predict (learner cf.useExpectation levels) { r1 with params := some (torn fun j => after cf evs o (m j)) } (.mat a) =
      .error .typeError := by
  have hz' : (torn fun j => after cf evs o (m j)).pZ = none := by
    show (run ((program cf evs).take (m 0)) o).pZ = none
    generalize m 0 = m at hm
    have : m = 0 ∨ m = 1 ∨ m = 2 ∨ m = 3 ∨ m = 4 ∨ m = 5 ∨ m = 6 := by omega
    rcases this with rfl | rfl | rfl | rfl | rfl | rfl | rfl <;> exact hz
  obtain ⟨_, os, _, hpr⟩ := predict_raw (learner cf.useExpectation levels) (torn fun j => after cf evs o (m j)) h hlay hidx hfit a hreg hc hne
  rw [hpr]
  show (rawPredict _ _ _ _).map _ = _
  unfold rawPredict theta
  rw [hz']
  rfl

/-- After the loop the four arrays do not change any more but for the rows appended. -/
lemma theta_after {cf : Config γ} (evs : Fin n → Ev nu ni nl) (o : Obj n nu ni nl cf.k) {m : Nat} (hm : 11 + 13 * cf.maxiter ≤ m) :
    theta (after cf evs o m) = theta (run (program cf evs) o) := by
  obtain ⟨j, rfl⟩ : ∃ j, m = 11 + 13 * cf.maxiter + j := ⟨m - (11 + 13 * cf.maxiter), by omega⟩
  have hlen : (head (k := cf.k) cf.alpha evs ++ passes cf.alpha cf.tol evs (List.range cf.maxiter)).length = 11 + 13 * cf.maxiter := by
    rw [List.length_append, passes_length, List.length_range]
    rfl
  unfold after
  rw [program, ← List.append_assoc, ← hlen]
  generalize head (k := cf.k) cf.alpha evs ++ passes cf.alpha cf.tol evs (List.range cf.maxiter) = l
  rw [List.take_length_add_append, run_append, run_append]
  generalize run l o = o'
  rw [(run_tail o').1]
  refine run_ind (P := fun p => theta p = theta o') ?_ rfl j
  intro s hs p hp
  rw [← hp]
  simp only [tail, List.mem_cons, List.not_mem_nil, or_false] at hs
  rcases hs with rfl | rfl | rfl | rfl | rfl | rfl | rfl | rfl | rfl | rfl | rfl | rfl <;> rfl

lemma torn_theta {o : Nat → Obj n nu ni nl k} {θ : Theta nu ni nl k} (h : ∀ j < 4, theta (o j) = some θ) : theta (torn o) = some θ :=
  theta_of (theta_eq (h 0 (by omega))).1 (theta_eq (h 2 (by omega))).2.1 (theta_eq (h 3 (by omega))).2.2.1 (theta_eq (h 1 (by omega))).2.2.2

/-- For known users and items it makes no difference whether the rows for unknown ones have been appended. -/
lemma predictRow_known (b : Bool) (levels : List ℝ) (θ : Theta nu ni nl k) (bx by' bx' by'' : Bool) (u : Fin nu) (i : Fin ni) :
    predictRow b (params levels bx by' θ) [MF.code (some u), MF.code (some i)] =
      predictRow b (params levels bx' by'' θ) [MF.code (some u), MF.code (some i)] := by
  have e : ∀ bx by', predictRow b (params levels bx by' θ) [MF.code (some u), MF.code (some i)] =
      predictRow b (params levels true true θ) [MF.code (some u), MF.code (some i)] := by
    intro bx by'
    have x1 := (npGet_list θ.pX (fun _ => (1 : ℝ)) bx (some u)).2 (.inl ⟨u, rfl⟩)
    have y1 := (npGet_list θ.pY (fun _ => (1 : ℝ)) by' (some i)).2 (.inl ⟨i, rfl⟩)
    have x2 := (npGet_list θ.pX (fun _ => (1 : ℝ)) true (some u)).2 (.inl ⟨u, rfl⟩)
    have y2 := (npGet_list θ.pY (fun _ => (1 : ℝ)) true (some i)).2 (.inl ⟨i, rfl⟩)
    show (npGet (params levels bx by' θ).pX (MF.code (some u))).bind _ = (npGet (params levels true true θ).pX (MF.code (some u))).bind _
    rw [show npGet (params levels bx by' θ).pX (MF.code (some u)) = _ from x1,
      show npGet (params levels true true θ).pX (MF.code (some u)) = _ from x2]
    show (npGet (params levels bx by' θ).pY (MF.code (some i))).bind _ = (npGet (params levels true true θ).pY (MF.code (some i))).bind _
    rw [show npGet (params levels bx by' θ).pY (MF.code (some i)) = _ from y1,
      show npGet (params levels true true θ).pY (MF.code (some i)) = _ from y2]
    rfl
  rw [e, e bx' by'']

/-- C163: if the loop has come to its end when the first array is read, pairs of a user and an item that occurred in the new data get the
scores of the completed call. -/
theorem C163_known {cf : Config γ} {mk : Int → γ} {env : γ} {d : EventData α φ ε}
    {rows : List (List α)} (h : Built d rows) (hlay : d.eventOtypes = [0, 1]) {idx : Option (List Int)} (hidx : idx = none ∨ idx = some [0, 1])
    {r r1 : Rec ℝ α φ ε γ (Obj n (count [0, 1] rows 0) (count [0, 1] rows 1) nl cf.k) Val} (hfit : Rec.eventFit mk env r d idx = .ok r1)
    (evs : Fin n → Ev (count [0, 1] rows 0) (count [0, 1] rows 1) nl) (o : Obj n (count [0, 1] rows 0) (count [0, 1] rows 1) nl cf.k)
    (levels : List ℝ) {m : Nat → Nat} (hm : ∀ j < 4, 11 + 13 * cf.maxiter ≤ m j)
    (a : Arr2 α) (hreg : a.Regular) (hc : a.ncols = 2) (hne : a.rows ≠ []) (hold : ∀ row ∈ a.rows, ¬ NewUser rows row ∧ ¬ NewItem rows row) :
    Rec.predict (learner cf.useExpectation levels) { r1 with params := some (torn fun j => after cf evs o (m j)) } (.mat a) =
      Rec.predict (learner cf.useExpectation levels) { r1 with params := some (run (program cf evs) o) } (.mat a) := by
  have hfull := (C156_completed evs o levels cf.useExpectation [] rfl).1
  have htorn := torn_theta (o := fun j => after cf evs o (m j)) fun j hj => (theta_after evs o (hm j hj)).trans hfull
  generalize torn (fun j => after cf evs o (m j)) = p at *
  generalize run (program cf evs) o = p' at *
  revert htorn hfull
  generalize (loop (emStep cf.alpha evs) (loss evs) cf.tol cf.maxiter cf.maxiter 0 none (mStep cf.alpha evs o.q)
      (loss evs (mStep cf.alpha evs o.q))).1 = θ
  intro htorn hfull
  obtain ⟨hrow, hpr⟩ := predict_rows (L := learner (γ := γ) cf.useExpectation levels) (p := p)
    (f := predictRow cf.useExpectation (params levels p.extX p.extY θ))
    (by intro l; show rawPredict _ _ _ _ = _; unfold rawPredict; rw [htorn]) h hlay hidx hfit a hreg hc hne
  have hpr' := (predict_rows (L := learner (γ := γ) cf.useExpectation levels) (p := p')
    (f := predictRow cf.useExpectation (params levels p'.extX p'.extY θ))
    (by intro l; show rawPredict _ _ _ _ = _; unfold rawPredict; rw [hfull]) h hlay hidx hfit a hreg hc hne).2
  rw [hpr, hpr']
  congr 1
  clear hne hreg hpr hpr'
  generalize a.rows = l at *
  induction l with
  | nil => rfl
  | cons row l ih =>
    rw [List.mapM_cons, List.mapM_cons, ih (fun r hr => hold r (by simp [hr])) (fun r hr => hrow r (by simp [hr]))]
    congr 1
    obtain ⟨x, i, rfl⟩ := hrow row (by simp)
    obtain ⟨u, e1, n1⟩ := lookup_cases rows 0 x
    obtain ⟨v, e2, n2⟩ := lookup_cases rows 1 i
    obtain ⟨h1, h2⟩ := hold [x, i] (by simp)
    cases u with
    | none => exact absurd ⟨x, i, rfl, n1.1 rfl⟩ h1
    | some u =>
      cases v with
      | none => exact absurd ⟨x, i, rfl, n2.1 rfl⟩ h2
      | some v =>
        show predictRow _ _ [_, _] = predictRow _ _ [_, _]
        rw [e1, e2]
        exact predictRow_known _ _ _ _ _ _ _ _ _

/-! ### examples -/

/-- `pZ_` is read in the first pass, `pRgZ_` in the second, `pXgZ_` and `pYgZ_` in the third. -/
def exMoments : Nat → Nat
  | 0 => 12
  | 1 => 30
  | _ => 42

lemma exLength : (program (exConfig 3) exEvs).length = 62 := by
  rw [program, List.length_append, List.length_append, passes_length, List.length_range]
  rfl

/-- The pair `(1, 10)` gets a score between 1 and 5, a request with user 3 raises `IndexError`, and if `pZ_` is read too early, `TypeError`. -/
example : ∃ r1 : ExRec, Rec.eventFit (fun _ => ()) () (Rec.init none initialResults) MF.exSquare none = .ok r1 ∧
    (∃ y, Rec.predict (learner true [1, 5]) { r1 with params := some (torn fun j => after (exConfig 3) exEvs exStart (exMoments j)) }
      (.mat ⟨2, [[1, 10]]⟩) = .ok (squeeze [y]) ∧ 1 ≤ y ∧ y ≤ 5) ∧
    Rec.predict (learner true [1, 5]) { r1 with params := some (torn fun j => after (exConfig 3) exEvs exStart (exMoments j)) }
      (.mat ⟨2, [[1, 10], [3, 20]]⟩) = .error .indexError ∧
    Rec.predict (learner true [1, 5]) { r1 with params := some (torn fun j => after (exConfig 3) exEvs exStart (j + 6)) }
      (.mat ⟨2, [[1, 10]]⟩) = .error .typeError := by
  have hfit : ∃ r1 : ExRec,
      Rec.eventFit (fun _ => ()) () (Rec.init none initialResults) MF.exSquare none = .ok r1 := ⟨_, rfl⟩
  obtain ⟨r1, hfit⟩ := hfit
  have h1 : IsObject [0, 1] [[1, 10], [2, 20]] 0 1 := (mem_ids _ _ _ _).1 (by decide)
  have h2 : IsObject [0, 1] [[1, 10], [2, 20]] 1 10 := (mem_ids _ _ _ _).1 (by decide)
  have h3 : ¬ IsObject [0, 1] [[1, 10], [2, 20]] 0 3 := fun h => absurd ((mem_ids _ _ _ _).2 h) (by decide)
  have hq : ∀ e z, 0 ≤ exStart.q e z := fun _ _ => zero_le_one
  refine ⟨r1, hfit, ?_, ?_, ?_⟩
  · obtain ⟨ys, g1, g2, g3⟩ := (C163_domain (cf := exConfig 3) one_pos one_pos MF.exSquare_built rfl (.inl rfl) hfit exEvs hq
      (levels := [1, 5]) rfl two_pos (m := exMoments) (by decide) ⟨2, [[1, 10]]⟩ (by intro r hr; rw [List.mem_singleton.1 hr]; rfl) rfl (by simp)).2 (by
        intro row hr
        rw [List.mem_singleton.1 hr]
        constructor
        · rintro ⟨x, i, e, hx⟩; cases e; exact absurd h1 hx
        · rintro ⟨x, i, e, hx⟩; cases e; exact absurd h2 hx)
    obtain ⟨y, rfl⟩ := List.length_eq_one_iff.1 g2
    exact ⟨y, g1, g3 y (by simp) 1 5 (by intro l hl; simp at hl; rcases hl with rfl | rfl <;> norm_num)⟩
  · exact (C163_domain (cf := exConfig 3) one_pos one_pos MF.exSquare_built rfl (.inl rfl) hfit exEvs hq
      (levels := [1, 5]) rfl two_pos (m := exMoments) (by decide) ⟨2, [[1, 10], [3, 20]]⟩
      (by intro r hr; simp at hr; rcases hr with rfl | rfl <;> rfl) rfl (by simp)).1
      ⟨[3, 20], by simp, .inl ⟨⟨3, 20, rfl, h3⟩, by rw [exLength]; decide⟩⟩
  · exact C163_early (cf := exConfig 3) MF.exSquare_built rfl (.inl rfl) hfit exEvs rfl [1, 5] (m := fun j => j + 6) (by decide) ⟨2, [[1, 10]]⟩
      (by intro r hr; rw [List.mem_singleton.1 hr]; rfl) rfl (by simp)

/-- After the loop, but before the rows for unknown users and items have been appended. -/
example : ∃ r1 : ExRec, Rec.eventFit (fun _ => ()) () (Rec.init none initialResults) MF.exSquare none = .ok r1 ∧
    Rec.predict (learner true [1, 5]) { r1 with params := some (torn fun j => after (exConfig 3) exEvs exStart (50 + 2 * j)) }
      (.mat ⟨2, [[1, 10]]⟩) =
    Rec.predict (learner true [1, 5]) { r1 with params := some (run (program (exConfig 3) exEvs) exStart) } (.mat ⟨2, [[1, 10]]⟩) := by
  have hfit : ∃ r1 : ExRec,
      Rec.eventFit (fun _ => ()) () (Rec.init none initialResults) MF.exSquare none = .ok r1 := ⟨_, rfl⟩
  obtain ⟨r1, hfit⟩ := hfit
  have h1 : IsObject [0, 1] [[1, 10], [2, 20]] 0 1 := (mem_ids _ _ _ _).1 (by decide)
  have h2 : IsObject [0, 1] [[1, 10], [2, 20]] 1 10 := (mem_ids _ _ _ _).1 (by decide)
  refine ⟨r1, hfit, C163_known (cf := exConfig 3) MF.exSquare_built rfl (.inl rfl) hfit exEvs exStart [1, 5] (m := fun j => 50 + 2 * j)
    (by intro j _; show 11 + 13 * 3 ≤ 50 + 2 * j; omega) ⟨2, [[1, 10]]⟩ (by intro r hr; rw [List.mem_singleton.1 hr]; rfl) rfl (by simp) ?_⟩
  intro row hr
  rw [List.mem_singleton.1 hr]
  constructor
  · rintro ⟨x, i, e, hx⟩; cases e; exact absurd h1 hx
  · rintro ⟨x, i, e, hx⟩; cases e; exact absurd h2 hx

end Steps
end PLSA
end Kam
