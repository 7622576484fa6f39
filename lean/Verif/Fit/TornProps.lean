/-
C162: prediction in one thread while `fit` of the same recommender runs in another.
-/
import Verif.Fit.Torn
import Verif.Fit.Interrupt

set_option linter.unusedSectionVars false

namespace Kam
open Spec
namespace MF
namespace Steps
variable {α φ ε γ : Type} [LinearOrder α] {nu ni k : Nat}

/-! ### Specification -/

/-- The state of the recommender after the first `n` statements. -/
def Moment (l : List (Stmt γ nu ni k)) (o0 : Obj γ nu ni k) (n : Nat) (o : Obj γ nu ni k) : Prop := Completes (l.take n) o0 o

/-- Parameters of which some are of `a` and some of `b`: the mean, the biases and the factors are of `b` where `late` says so. -/
def Mixture (late : Nat → Prop) [DecidablePred late] (a b : Views nu ni k) : Views nu ni k :=
  ⟨if late 0 then b.mu else a.mu, if late 1 then b.bu else a.bu, if late 2 then b.bi else a.bi, if late 3 then b.p else a.p,
    if late 4 then b.q else a.q⟩

/-! ### Lemmas -/

/-- Every attribute shows the coefficients, by itself or extended by an entry for unknown objects. -/
def Shows (o : Obj γ nu ni k) : Prop :=
  (o.mu = .view ∨ o.mu = .own o.coef.mu) ∧ Extended (List.ofFn o.coef.bu) 0 o.bu ∧ Extended (List.ofFn o.coef.bi) 0 o.bi ∧
    Extended (List.ofFn (fun u => List.ofFn (o.coef.p u))) (List.replicate k 0) o.p ∧
    Extended (List.ofFn (fun i => List.ofFn (o.coef.q i))) (List.replicate k 0) o.q

lemma shows_view {o : Obj γ nu ni k} (v1 : o.mu = .view) (v2 : o.bu = .view) (v3 : o.bi = .view) (v4 : o.p = .view) (v5 : o.q = .view) :
    Shows o := ⟨.inl v1, .inl v2, .inl v3, .inl v4, .inl v5⟩

lemma shows_extension {o1 o : Obj γ nu ni k} {c : Views nu ni k} (hcoef : o1.coef = c) (v1 : o1.mu = .view) (v2 : o1.bu = .view)
    (v3 : o1.bi = .view) (v4 : o1.p = .view) (v5 : o1.q = .view) {nEvents : Nat} {method : String} {kwargs : List (String × String)}
    (hl : Leaves (extension ++ recording nEvents method kwargs) o1 o) : o.coef = c ∧ Shows o := by
  rcases leaves_append hl with hl | ⟨m, hm, hl⟩
  · unfold extension at hl
    cases hl with
    | here => exact ⟨hcoef, .inl v1, .inl v2, .inl v3, .inl v4, .inl v5⟩
    | step e hl =>
    cases e
    cases hl with
    | here => exact ⟨hcoef, .inr rfl, .inl v2, .inl v3, .inl v4, .inl v5⟩
    | step e hl =>
    cases e
    cases hl with
    | here => exact ⟨hcoef, .inr rfl, .inr rfl, .inl v3, .inl v4, .inl v5⟩
    | step e hl =>
    cases e
    cases hl with
    | here => exact ⟨hcoef, .inr rfl, .inr rfl, .inr rfl, .inl v4, .inl v5⟩
    | step e hl =>
    cases e
    cases hl with
    | here => exact ⟨hcoef, .inr rfl, .inr rfl, .inr rfl, .inr rfl, .inl v5⟩
    | step e hl =>
    cases e
    cases hl
    exact ⟨hcoef, .inr rfl, .inr rfl, .inr rfl, .inr rfl, .inr rfl⟩
  · obtain ⟨q, q1, q2, q3, q4, q5⟩ := recording_keeps hl
    unfold extension at hm
    cases hm with | step e hm =>
    cases e
    cases hm with | step e hm =>
    cases e
    cases hm with | step e hm =>
    cases e
    cases hm with | step e hm =>
    cases e
    cases hm with | step e hm =>
    cases e
    cases hm
    refine ⟨q.trans hcoef, .inr ?_, .inr ?_, .inr ?_, .inr ?_, .inr ?_⟩ <;> rw [q]
    · exact q1
    · exact q2
    · exact q3
    · exact q4
    · exact q5

lemma moment_leaves {l : List (Stmt γ nu ni k)} {o0 o : Obj γ nu ni k} {n : Nat} (h : Moment l o0 n o) : Leaves l o0 o := by
  unfold Moment at h
  induction l generalizing n o0 with
  | nil =>
    rw [List.take_nil] at h
    cases h
    exact .here
  | cons s l ih =>
    cases n with
    | zero => cases h; exact .here
    | succ n =>
      rw [List.take_succ_cons] at h
      cases h with
      | step e h => exact .step e (ih h)

/-- The number of statements up to the one that stores the result of the optimizer. -/
def stored (init : List (Stmt γ nu ni k)) : Nat := (allocation ++ init : List (Stmt γ nu ni k)).length + 3

/-- After the initialization the attributes show the initial coefficients until the result is stored, and the result from then on. -/
lemma moment {cf : Config γ} {g : γ} {init : List (Stmt γ nu ni cf.k)} {loss grad link c0} (hv : Variant cf g init loss grad link c0)
    (hu : nu ≠ 1) (hi : ni ≠ 1) {nEvents n : Nat} {o0 o : Obj γ nu ni cf.k} (hg : o0.rng = g)
    (hm : Moment (program cf nEvents init loss grad) o0 n o) (hn : (allocation ++ init : List (Stmt γ nu ni cf.k)).length ≤ n) :
    o.coef = unpack (if stored init ≤ n then (cf.opt _ loss grad c0 cf.method cf.kwargs).x else c0) ∧ Shows o := by
  unfold Moment program at hm
  rw [← List.append_assoc, List.take_append, List.take_of_length_le hn] at hm
  obtain ⟨m2, h1, h2⟩ := completes_append.1 hm
  obtain ⟨m1, ha, hb⟩ := completes_append.1 h1
  obtain ⟨a1, a2, a3, a4, a5, a6, _, a8⟩ := allocated ha
  rw [if_neg hu] at a2
  rw [if_neg hi] at a3
  obtain ⟨i1, _⟩ := hv.initial a8 (a6.trans hg) hb
  obtain ⟨s1, s2, s3, s4, s5⟩ := leaves_same hv.quiet (completes_leaves hb)
  have v1 := s1.trans a1
  have v2 := s2.trans a2
  have v3 := s3.trans a3
  have v4 := s4.trans a4
  have v5 := s5.trans a5
  obtain ⟨m, hnm⟩ : ∃ m, n = (allocation ++ init : List (Stmt γ nu ni cf.k)).length + m := ⟨_, (Nat.add_sub_cancel' hn).symm⟩
  have hsub : n - (allocation ++ init : List (Stmt γ nu ni cf.k)).length = m := by omega
  have hst : stored init ≤ n ↔ 3 ≤ m := by unfold stored; omega
  rw [hsub] at h2
  unfold optimization at h2
  rcases m with _ | _ | _ | m
  · rw [if_neg (by omega)]
    cases h2
    exact ⟨i1, shows_view v1 v2 v3 v4 v5⟩
  · rw [if_neg (by omega)]
    cases h2 with | step e1 h2 =>
    cases h2
    cases e1
    exact ⟨i1, shows_view v1 v2 v3 v4 v5⟩
  · rw [if_neg (by omega)]
    cases h2 with | step e1 h2 =>
    cases h2 with | step e2 h2 =>
    cases h2
    cases e1; cases e2
    exact ⟨i1, shows_view v1 v2 v3 v4 v5⟩
  · rw [if_pos (by omega)]
    cases h2 with | step e1 h2 =>
    cases h2 with | step e2 h2 =>
    cases h2 with | step e3 h2 =>
    cases e1; cases e2; cases e3
    refine shows_extension (o1 := _) ?_ ?_ ?_ ?_ ?_ ?_ (moment_leaves h2)
    · simp only [i1, pack_unpack]
    · exact v1
    · exact v2
    · exact v3
    · exact v4
    · exact v5

/-- Reads at several moments see a mixture. -/
lemma torn_shows {o : Nat → Obj γ nu ni k} {late : Nat → Prop} [DecidablePred late] {a b : Views nu ni k}
    (h : ∀ j < 5, (o j).coef = (if late j then b else a) ∧ Shows (o j)) : (torn o).coef = Mixture late a b ∧ Shows (torn o) := by
  refine ⟨?_, (h 0 (by omega)).2.1, (h 1 (by omega)).2.2.1, (h 2 (by omega)).2.2.2.1, (h 3 (by omega)).2.2.2.2.1,
    (h 4 (by omega)).2.2.2.2.2⟩
  unfold torn Mixture
  simp only [(h 0 (by omega)).1, (h 1 (by omega)).1, (h 2 (by omega)).1, (h 3 (by omega)).1, (h 4 (by omega)).1]
  congr 1 <;> split <;> rfl

/-! ### C162 -/

/-- C162: `predict` in one thread while `fit` of the same recommender runs in another and has initialized the parameters.  For known users
and items it never raises, and what it computes with is a mixture: each of the five attributes is the initial one if it is read before the
result of the optimizer is stored, and that of the result otherwise. -/
theorem C162_mixture {cf : Config γ} {mk : Int → γ} {env g : γ} {d : EventData α φ ε} {rows : List (List α)} (h : Built d rows)
    (hlay : d.eventOtypes = [0, 1]) {idx : Option (List Int)} (hidx : idx = none ∨ idx = some [0, 1])
    (hu : count [0, 1] rows 0 ≠ 1) (hi : count [0, 1] rows 1 ≠ 1)
    {r r1 : Rec ℝ α φ ε γ (Obj γ (count [0, 1] rows 0) (count [0, 1] rows 1) cf.k) Val} (hfit : Rec.eventFit mk env r d idx = .ok r1)
    {init : List (Stmt γ (count [0, 1] rows 0) (count [0, 1] rows 1) cf.k)} {loss grad link c0}
    (hv : Variant cf g init loss grad link c0) {nEvents : Nat} {o0 : Obj γ (count [0, 1] rows 0) (count [0, 1] rows 1) cf.k}
    (hg : o0.rng = g) {t : Nat → Nat} {o : Nat → Obj γ (count [0, 1] rows 0) (count [0, 1] rows 1) cf.k}
    (hm : ∀ j < 5, Moment (program cf nEvents init loss grad) o0 (t j) (o j)) (hs : ∀ j < 5, 6 + init.length ≤ t j)
    (a : Arr2 α) (hreg : a.Regular) (hc : a.ncols = 2) (hne : a.rows ≠ []) (hk : ∀ row ∈ a.rows, Known rows row) :
    ∃ ys, Rec.predict (learner link) { r1 with params := some (torn o) } (.mat a) = .ok (squeeze ys) ∧
      List.Forall₂ (Estimates link rows (Mixture (fun j => 6 + init.length + 3 ≤ t j) (unpack c0)
        (unpack (cf.opt _ loss grad c0 cf.method cf.kwargs).x))) a.rows ys := by
  obtain ⟨hrow, hpr⟩ := predict_obj (link := link) h hlay hidx hfit (torn o) a hreg hc hne
  have hst : stored init = 6 + init.length + 3 := by unfold stored; rw [List.length_append]; rfl
  obtain ⟨hcoef, w1, w2, w3, w4, w5⟩ := torn_shows (o := o) (late := fun j => 6 + init.length + 3 ≤ t j) (a := unpack c0)
    (b := unpack (cf.opt _ loss grad c0 cf.method cf.kwargs).x) (by
      intro j hj
      obtain ⟨e1, e2⟩ := moment hv hu hi hg (hm j hj) (by rw [List.length_append]; exact hs j hj)
      refine ⟨?_, e2⟩
      rw [e1, hst]
      split <;> rfl)
  have key := rawScore_extended w1 w2 w3 w4 w5
  rw [hcoef] at key
  rw [hpr]
  obtain ⟨ys, y1, y2⟩ := mapM_total (f := rowScore link (torn o) rows) (P := Estimates link rows (Mixture (fun j => 6 + init.length + 3 ≤ t j)
    (unpack c0) (unpack (cf.opt _ loss grad c0 cf.method cf.kwargs).x))) (l := a.rows) (by
      intro row hr
      obtain ⟨x, i, rfl, hx, hy⟩ := hk row hr
      obtain ⟨h1, e1⟩ := (lookup_code rows 0 x).1 hx
      obtain ⟨h2, e2⟩ := (lookup_code rows 1 i).1 hy
      have := (key (some ⟨_, h1⟩) (some ⟨_, h2⟩)).2.1 ⟨_, rfl⟩ ⟨_, rfl⟩
      refine ⟨_, ?_, x, i, rfl, h1, h2, rfl⟩
      simp only [rowScore, e1, e2, this]
      rfl)
  exact ⟨ys, by rw [y1]; rfl, y2⟩

/-- C162: the same from the moment on when the parameters have been allocated, with the coefficients as they are when they are read. -/
theorem C162_training {cf : Config γ} {mk : Int → γ} {env g : γ} {d : EventData α φ ε} {rows : List (List α)} (h : Built d rows)
    (hlay : d.eventOtypes = [0, 1]) {idx : Option (List Int)} (hidx : idx = none ∨ idx = some [0, 1])
    (hu : count [0, 1] rows 0 ≠ 1) (hi : count [0, 1] rows 1 ≠ 1)
    {r r1 : Rec ℝ α φ ε γ (Obj γ (count [0, 1] rows 0) (count [0, 1] rows 1) cf.k) Val} (hfit : Rec.eventFit mk env r d idx = .ok r1)
    {init : List (Stmt γ (count [0, 1] rows 0) (count [0, 1] rows 1) cf.k)} {loss grad link c0}
    (hv : Variant cf g init loss grad link c0) {nEvents : Nat} {o0 : Obj γ (count [0, 1] rows 0) (count [0, 1] rows 1) cf.k}
    (hg : o0.rng = g) {t : Nat → Nat} {o : Nat → Obj γ (count [0, 1] rows 0) (count [0, 1] rows 1) cf.k}
    (hm : ∀ j < 5, Moment (program cf nEvents init loss grad) o0 (t j) (o j)) (hs : ∀ j < 5, 6 ≤ t j)
    (a : Arr2 α) (hreg : a.Regular) (hc : a.ncols = 2) (hne : a.rows ≠ []) (hk : ∀ row ∈ a.rows, Known rows row) :
    ∃ ys, Rec.predict (learner link) { r1 with params := some (torn o) } (.mat a) = .ok (squeeze ys) ∧
      List.Forall₂ (Estimates link rows ⟨(o 0).coef.mu, (o 1).coef.bu, (o 2).coef.bi, (o 3).coef.p, (o 4).coef.q⟩) a.rows ys := by
  obtain ⟨hrow, hpr⟩ := predict_obj (link := link) h hlay hidx hfit (torn o) a hreg hc hne
  have hsh : ∀ j < 5, Shows (o j) := by
    intro j hj
    rcases Nat.lt_or_ge (t j) (6 + init.length) with hlt | hge
    · have hmj := hm j hj
      unfold Moment program at hmj
      rw [List.take_append, List.take_of_length_le (by exact hs j hj), List.take_append_of_le_length
        (by simp only [allocation, List.length_cons, List.length_nil]; omega)] at hmj
      obtain ⟨m1, ha, hb⟩ := completes_append.1 hmj
      obtain ⟨a1, a2, a3, a4, a5, _⟩ := allocated ha
      rw [if_neg hu] at a2
      rw [if_neg hi] at a3
      obtain ⟨s1, s2, s3, s4, s5⟩ := leaves_same hv.quiet (moment_leaves hb)
      exact shows_view (s1.trans a1) (s2.trans a2) (s3.trans a3) (s4.trans a4) (s5.trans a5)
    · exact (moment hv hu hi hg (hm j hj) (by rw [List.length_append]; exact hge)).2
  have key := rawScore_extended (o := torn o) (hsh 0 (by omega)).1 (hsh 1 (by omega)).2.1 (hsh 2 (by omega)).2.2.1
    (hsh 3 (by omega)).2.2.2.1 (hsh 4 (by omega)).2.2.2.2
  rw [hpr]
  obtain ⟨ys, y1, y2⟩ := mapM_total (f := rowScore link (torn o) rows) (P := Estimates link rows (torn o).coef) (l := a.rows) (by
      intro row hr
      obtain ⟨x, i, rfl, hx, hy⟩ := hk row hr
      obtain ⟨h1, e1⟩ := (lookup_code rows 0 x).1 hx
      obtain ⟨h2, e2⟩ := (lookup_code rows 1 i).1 hy
      have := (key (some ⟨_, h1⟩) (some ⟨_, h2⟩)).2.1 ⟨_, rfl⟩ ⟨_, rfl⟩
      refine ⟨_, ?_, x, i, rfl, h1, h2, rfl⟩
      simp only [rowScore, e1, e2, this]
      rfl)
  exact ⟨ys, by rw [y1]; rfl, y2⟩

/-- C162: once the result is stored, the moments do not matter: known pairs get the predictions of the completed fit, and a request with
unknown ones gets these or `IndexError`. -/
theorem C162_stored {cf : Config γ} {mk : Int → γ} {env g : γ} {d : EventData α φ ε} {rows : List (List α)} (h : Built d rows)
    (hlay : d.eventOtypes = [0, 1]) {idx : Option (List Int)} (hidx : idx = none ∨ idx = some [0, 1])
    (hu : count [0, 1] rows 0 ≠ 1) (hi : count [0, 1] rows 1 ≠ 1)
    {r r1 : Rec ℝ α φ ε γ (Obj γ (count [0, 1] rows 0) (count [0, 1] rows 1) cf.k) Val} (hfit : Rec.eventFit mk env r d idx = .ok r1)
    {init : List (Stmt γ (count [0, 1] rows 0) (count [0, 1] rows 1) cf.k)} {loss grad link c0}
    (hv : Variant cf g init loss grad link c0) {nEvents : Nat} {o0 : Obj γ (count [0, 1] rows 0) (count [0, 1] rows 1) cf.k}
    (hg : o0.rng = g) {t : Nat → Nat} {o : Nat → Obj γ (count [0, 1] rows 0) (count [0, 1] rows 1) cf.k}
    (hm : ∀ j < 5, Moment (program cf nEvents init loss grad) o0 (t j) (o j)) (hs : ∀ j < 5, 6 + init.length + 3 ≤ t j)
    (a : Arr2 α) (hreg : a.Regular) (hc : a.ncols = 2) (hne : a.rows ≠ []) :
    ((∀ row ∈ a.rows, Known rows row) →
      ∃ ys, Rec.predict (learner link) { r1 with params := some (torn o) } (.mat a) = .ok (squeeze ys) ∧
        List.Forall₂ (RowPrediction link (store (cf.opt _ loss grad c0 cf.method cf.kwargs).x) rows) a.rows ys) ∧
    (Rec.predict (learner link) { r1 with params := some (torn o) } (.mat a) = .error .indexError ∨
      ∃ ys, Rec.predict (learner link) { r1 with params := some (torn o) } (.mat a) = .ok (squeeze ys) ∧
        List.Forall₂ (RowPrediction link (store (cf.opt _ loss grad c0 cf.method cf.kwargs).x) rows) a.rows ys) := by
  obtain ⟨hrow, hpr⟩ := predict_obj (link := link) h hlay hidx hfit (torn o) a hreg hc hne
  have hst : stored init = 6 + init.length + 3 := by unfold stored; rw [List.length_append]; rfl
  obtain ⟨w0, w1, w2, w3, w4, w5⟩ := torn_shows (o := o) (late := fun _ => True) (a := unpack c0)
    (b := unpack (cf.opt _ loss grad c0 cf.method cf.kwargs).x) (by
      intro j hj
      obtain ⟨e1, e2⟩ := moment hv hu hi hg (hm j hj) (by have := hs j hj; unfold stored at hst; omega)
      refine ⟨?_, e2⟩
      rw [e1, hst, if_pos (hs j hj), if_pos trivial])
  have key := rawScore_extended w1 w2 w3 w4 w5
  generalize (cf.opt _ loss grad c0 cf.method cf.kwargs).x = c at w0
  replace w0 : (torn o).coef = unpack c := w0
  -- the predictions of the completed fit
  have done : ∀ x i, ∃ y, (MF.rawScore (store c) [lookup [0, 1] rows 0 x, lookup [0, 1] rows 1 i]).map link = .ok y ∧
      RowPrediction link (store c) rows [x, i] y := rawScore_lookup rows link c
  have look : ∀ t x, ∃ w : Option (Fin (count [0, 1] rows t)), lookup [0, 1] rows t x = code w ∧
      (IsObject [0, 1] rows t x → ∃ z, w = some z) := by
    intro t x
    by_cases hx : IsObject [0, 1] rows t x
    · obtain ⟨h1, e1⟩ := (lookup_code rows t x).1 hx
      exact ⟨_, e1, fun _ => ⟨_, rfl⟩⟩
    · exact ⟨_, (lookup_code rows t x).2 hx, fun h => absurd h hx⟩
  have row : ∀ x i, (rowScore link (torn o) rows [x, i] = .error .indexError ∨
        ∃ y, rowScore link (torn o) rows [x, i] = .ok y ∧ RowPrediction link (store c) rows [x, i] y) ∧
      (Known rows [x, i] → ∃ y, rowScore link (torn o) rows [x, i] = .ok y ∧ RowPrediction link (store c) rows [x, i] y) := by
    intro x i
    obtain ⟨w, e1, k1⟩ := look 0 x
    obtain ⟨w', e2, k2⟩ := look 1 i
    obtain ⟨y, y1, y2⟩ := done x i
    rw [e1, e2, rawScore_store] at y1
    cases y1
    have er : rowScore link (torn o) rows [x, i] = (rawScore (torn o) [code w, code w']).map link := by rw [← e1, ← e2]; rfl
    rw [er]
    obtain ⟨b1, b2, _⟩ := key w w'
    rw [w0] at b1 b2
    constructor
    · rcases b1 with b1 | b1
      · exact .inr ⟨_, by rw [b1]; rfl, y2⟩
      · exact .inl (by rw [b1]; rfl)
    · rintro ⟨x', i', hxi, hx, hy⟩
      cases hxi
      exact ⟨_, by rw [b2 (k1 hx) (k2 hy)]; rfl, y2⟩
  rw [hpr]
  constructor
  · intro hk
    obtain ⟨ys, y1, y2⟩ := mapM_total (f := rowScore link (torn o) rows) (P := RowPrediction link (store c) rows) (l := a.rows) (by
      intro w hr
      obtain ⟨x, i, rfl⟩ := hrow w hr
      exact (row x i).2 (hk _ hr))
    exact ⟨ys, by rw [y1]; rfl, y2⟩
  · rcases (mapM_either (f := rowScore link (torn o) rows) (P := RowPrediction link (store c) rows) (e := .indexError) (l := a.rows) (by
      intro w hr
      obtain ⟨x, i, rfl⟩ := hrow w hr
      exact (row x i).1)).1 with y1 | ⟨ys, y1, y2⟩
    · exact .inl (by rw [y1]; rfl)
    · exact .inr ⟨ys, by rw [y1]; rfl, y2⟩

/-- C162: reads at one moment are those of a recommender that is not being fitted, so that a call of `predict` during which no statement of
`fit` is executed is as in C155. -/
theorem C162_one_moment (o : Obj γ nu ni k) : torn (fun _ => o) = o := rfl

/-! ### Predictions of no moment -/

/-- The full C162: what `predict` gives while `fit` is running is what it would give at one moment of the call, if the initialization is
over. -/
def C162_full : Prop :=
  ∀ (cf : Config Unit) (d : EventData Nat Nat Nat) (rows : List (List Nat)), Built d rows → d.eventOtypes = [0, 1] →
    count [0, 1] rows 0 ≠ 1 → count [0, 1] rows 1 ≠ 1 →
    ∀ r r1 : Rec ℝ Nat Nat Nat Unit (Obj Unit (count [0, 1] rows 0) (count [0, 1] rows 1) cf.k) Val,
    Rec.eventFit (fun _ => ()) () r d none = .ok r1 →
    ∀ (init : List (Stmt Unit (count [0, 1] rows 0) (count [0, 1] rows 1) cf.k)) loss grad link c0,
    Variant cf () init loss grad link c0 → ∀ nEvents o0 (t : Nat → Nat) o, Monotone t → 6 + init.length ≤ t 0 →
    (∀ j < 5, Moment (program cf nEvents init loss grad) o0 (t j) (o j)) →
    ∀ a : Arr2 Nat, a.Regular → a.ncols = 2 → a.rows ≠ [] → (∀ row ∈ a.rows, Known rows row) →
      ∃ n o', 6 + init.length ≤ n ∧ Moment (program cf nEvents init loss grad) o0 n o' ∧
        Rec.predict (learner link) { r1 with params := some (torn o) } (.mat a) =
          Rec.predict (learner link) { r1 with params := some o' } (.mat a)

/-- An optimizer that adds one to the global mean and to the biases of two users. -/
noncomputable def exBoth : Config Unit where
  C := 1
  k := 1
  method := "CG"
  kwargs := []
  opt := fun _ f _ x0 _ _ => ⟨fun j => x0 j + if j.1 ≤ 2 then 1 else 0, true, 0, "", f x0, 1, 1, 1⟩
  rng := ⟨fun _ _ _ _ _ => (fun _ _ => 1, ())⟩

lemma exVariantBoth : Variant exBoth () (initExplicit exBoth.rng (residual exEvents) exEvents) (PMF.loss exBoth.C exEvents)
    (PMF.gradLoss exBoth.C exEvents) id (PMF.initCoef exBoth.rng () exBoth.k exEvents).1 := .pmf exEvents exCovered

lemma moments {l : List (Stmt γ nu ni k)} {o0 o : Obj γ nu ni k} (h : Completes l o0 o) (n : Nat) : ∃ o', Moment l o0 n o' := by
  rw [← List.take_append_drop n l] at h
  obtain ⟨m, h1, _⟩ := completes_append.1 h
  exact ⟨m, h1⟩

/-- C162 is not true in full: a prediction that reads the mean before and the biases after the result is stored is that of no moment. -/
theorem C162_refuted : ¬ C162_full := by
  intro hfull
  have hu : count [0, 1] [[1, 10], [2, 20]] 0 ≠ 1 := by rw [exCount 0 (by omega)]; omega
  have hi : count [0, 1] [[1, 10], [2, 20]] 1 ≠ 1 := by rw [exCount 1 (by omega)]; omega
  obtain ⟨r1, hfit⟩ : ∃ r1, Rec.eventFit (fun _ => ()) () (Rec.init none [] : Rec ℝ Nat Nat Nat Unit
      (Obj Unit (count [0, 1] [[1, 10], [2, 20]] 0) (count [0, 1] [[1, 10], [2, 20]] 1) exBoth.k) Val) exSquare none = .ok r1 :=
    ⟨_, rfl⟩
  obtain ⟨oc, hrun⟩ := C155_runs exVariantBoth 2 ⟨⟨0, fun _ => 0, fun _ => 0, fun _ _ => 0, fun _ _ => 0⟩, .none, .none, .none, .none, .none,
    (), none, initialResults⟩ hu hi
  generalize hinit : initExplicit exBoth.rng (residual exEvents) exEvents = init at hrun
  have hv := exVariantBoth
  rw [hinit] at hv
  obtain ⟨oa, ha⟩ := moments hrun (6 + init.length)
  obtain ⟨ob, hb⟩ := moments hrun (6 + init.length + 3)
  have hk1 : IsObject [0, 1] [[1, 10], [2, 20]] 0 1 := (mem_ids _ _ _ _).1 (by decide)
  have hk2 : IsObject [0, 1] [[1, 10], [2, 20]] 1 10 := (mem_ids _ _ _ _).1 (by decide)
  have hreg : (⟨2, [[1, 10]]⟩ : Arr2 Nat).Regular := by intro r hr; rw [List.mem_singleton.1 hr]; rfl
  have hknown : ∀ row ∈ (⟨2, [[1, 10]]⟩ : Arr2 Nat).rows, Known [[1, 10], [2, 20]] row := by
    intro row hr
    rw [List.mem_singleton.1 hr]
    exact ⟨1, 10, rfl, hk1, hk2⟩
  have hm : ∀ j < 5, Moment (program exBoth 2 init (PMF.loss exBoth.C exEvents) (PMF.gradLoss exBoth.C exEvents))
      ⟨⟨0, fun _ => 0, fun _ => 0, fun _ _ => 0, fun _ _ => 0⟩, .none, .none, .none, .none, .none, (), none, initialResults⟩
      (if j = 0 then 6 + init.length else 6 + init.length + 3) (if j = 0 then oa else ob) := by
    intro j _
    by_cases hj : j = 0
    · rw [if_pos hj, if_pos hj]; exact ha
    · rw [if_neg hj, if_neg hj]; exact hb
  have hmono : Monotone (fun j : Nat => if j = 0 then 6 + init.length else 6 + init.length + 3) := by
    intro i j hij
    show (if i = 0 then _ else _) ≤ if j = 0 then _ else _
    split <;> split <;> omega
  obtain ⟨n, o', hn, hmo, heq⟩ := hfull exBoth exSquare _ exSquare_built rfl hu hi _ r1 hfit _ _ _ _ _ hv 2 _ _
    (fun j => if j = 0 then oa else ob)
    hmono (by simp) hm ⟨2, [[1, 10]]⟩ hreg rfl (by simp) hknown
  obtain ⟨ys, p1, f1⟩ := C162_mixture exSquare_built rfl (.inl rfl) hu hi hfit hv rfl
    (t := fun j => if j = 0 then 6 + init.length else 6 + init.length + 3) (o := fun j => if j = 0 then oa else ob) hm
    (fun j _ => by show _ ≤ if j = 0 then _ else _; split <;> omega) ⟨2, [[1, 10]]⟩ hreg rfl (by simp) hknown
  obtain ⟨zs, p2, f2⟩ := C162_mixture exSquare_built rfl (.inl rfl) hu hi hfit hv rfl (t := fun _ => n) (o := fun _ => o') (fun _ _ => hmo)
    (fun _ _ => hn) ⟨2, [[1, 10]]⟩ hreg rfl (by simp) hknown
  rw [C162_one_moment] at p2
  rw [p1, p2] at heq
  cases f1 with | @cons _ y _ _ hy f1 =>
  cases f1
  cases f2 with | @cons _ z _ _ hz f2 =>
  cases f2
  have hyz : y = z := by
    have : (squeeze [y]) = squeeze [z] := by injection heq
    simpa [squeeze] using this
  obtain ⟨x, i, hxi, hx, hi', hy⟩ := hy
  cases hxi
  obtain ⟨x, i, hxi, hx2, hi2, hz⟩ := hz
  cases hxi
  subst hyz
  have hr : rank [0, 1] [[1, 10], [2, 20]] 0 1 < 2 := lt_of_lt_of_eq hx (exCount 0 (by omega))
  have hc0 := exCount 0 (by omega)
  rw [hy] at hz
  clear hy p1 p2 hm hmo hb ha hrun hv
  generalize (PMF.initCoef exBoth.rng () exBoth.k exEvents).1 = c0 at hz
  obtain ⟨B, hB⟩ : ∃ B, B = unpack (exBoth.opt _ (PMF.loss exBoth.C exEvents) (PMF.gradLoss exBoth.C exEvents) c0 exBoth.method
    exBoth.kwargs).x := ⟨_, rfl⟩
  have b0 : B.mu = (unpack c0).mu + 1 := by rw [hB]; simp [unpack, exBoth, pos]
  have b1 : ∀ u, B.bu u = (unpack c0).bu u + 1 := by
    intro u
    have := u.2
    rw [hB]
    simp only [unpack, exBoth, pos]
    rw [if_pos (by omega)]
  have b2 : B.bi = (unpack c0).bi := by
    funext i
    rw [hB]
    simp only [unpack, exBoth, pos]
    rw [if_neg (by omega), add_zero]
  have b3 : B.p = (unpack c0).p := by
    funext i f
    have h2 := exCount 1 (by omega)
    rw [hB]
    simp only [unpack, exBoth, pos]
    rw [if_neg (by omega), add_zero]
  have b4 : B.q = (unpack c0).q := by
    funext i f
    have h2 := exCount 1 (by omega)
    rw [hB]
    simp only [unpack, exBoth, pos]
    rw [if_neg (by omega), add_zero]
  rw [← hB] at hz
  unfold Mixture at hz
  have e0 : ¬ (6 + init.length + 3 ≤ if (0 : Nat) = 0 then 6 + init.length else 6 + init.length + 3) := by rw [if_pos rfl]; omega
  have e1 : ∀ j : Nat, j ≠ 0 → 6 + init.length + 3 ≤ if j = 0 then 6 + init.length else 6 + init.length + 3 := by
    intro j hj
    rw [if_neg hj]
  rw [if_neg e0, if_pos (e1 1 (by omega)), if_pos (e1 2 (by omega)), if_pos (e1 3 (by omega)), if_pos (e1 4 (by omega))] at hz
  by_cases hl : 6 + init.length + 3 ≤ n
  · simp only [if_pos hl, est, id, b0] at hz
    linarith
  · simp only [if_neg hl, est, id, b1, b2, b3, b4] at hz
    linarith

/-- Every number of statements is a moment of a fit of two users and two items: what `C162_mixture`, `C162_training` and `C162_stored` ask
for. -/
example (t : Nat → Nat) : count [0, 1] [[1, 10], [2, 20]] 0 ≠ 1 ∧ count [0, 1] [[1, 10], [2, 20]] 1 ≠ 1 ∧
    ∃ o : Nat → Obj Unit (count [0, 1] [[1, 10], [2, 20]] 0) (count [0, 1] [[1, 10], [2, 20]] 1) exConfig.k,
      ∀ j < 5, Moment (program exConfig 2 (initExplicit exConfig.rng (residual exEvents) exEvents) (PMF.loss exConfig.C exEvents)
        (PMF.gradLoss exConfig.C exEvents)) exStart (t j) (o j) := by
  have hu : count [0, 1] [[1, 10], [2, 20]] 0 ≠ 1 := by rw [exCount 0 (by omega)]; omega
  have hi : count [0, 1] [[1, 10], [2, 20]] 1 ≠ 1 := by rw [exCount 1 (by omega)]; omega
  obtain ⟨oc, hrun⟩ := C155_runs exVariant 2 exStart hu hi
  choose o ho using fun j => moments hrun (t j)
  exact ⟨hu, hi, o, fun j _ => ho j⟩

end Steps
end MF
end Kam
