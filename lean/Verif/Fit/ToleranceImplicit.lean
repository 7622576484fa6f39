/-
C152 for `ImplicitLogisticPMF`.
-/
import Verif.Fit.Tolerance
import Verif.Data.Convertible

set_option linter.unusedSectionVars false

namespace Kam
namespace MF
open scoped BigOperators
open Spec

variable {α φ ε γ : Type} [LinearOrder α]

/-! ### Specification -/

/-- The rows of external ids of events `(user, item)`. -/
def pairRows (E : List (α × α)) : List (List α) := E.map (fun t => [t.1, t.2])

/-- The users, and the items, of the events. -/
def usersOf (E : List (α × α)) : Finset α := (E.map Prod.fst).toFinset

def itemsOf (E : List (α × α)) : Finset α := (E.map Prod.snd).toFinset

/-- How much the predictions fall short of the number of events of a user and an item. -/
noncomputable def short (s : α → α → ℝ) (E : List (α × α)) (x i : α) : ℝ := (E.count (x, i) : ℝ) - s x i

/-! ### Lemmas -/

/-- All pairs of known users and items with their numbers of events, in the order of internal ids. -/
private def grid (E : List (α × α)) : List (α × α × ℝ) :=
  (ids [0, 1] (pairRows E) 0).flatMap (fun x => (ids [0, 1] (pairRows E) 1).map (fun i => (x, i, (E.count (x, i) : ℝ))))

theorem isObject_pair_user (E : List (α × α)) (x : α) : IsObject [0, 1] (pairRows E) 0 x ↔ x ∈ usersOf E := by
  unfold IsObject pairRows usersOf
  simp only [List.mem_toFinset, List.mem_map]
  constructor
  · rintro ⟨r, ⟨t, ht, rfl⟩, e, h1, h2⟩
    rcases e with _ | _ | e
    · exact ⟨t, ht, by simpa using h2⟩
    · simp at h1
    · simp at h1
  · rintro ⟨t, ht, rfl⟩
    exact ⟨_, ⟨t, ht, rfl⟩, 0, rfl, rfl⟩

theorem isObject_pair_item (E : List (α × α)) (x : α) : IsObject [0, 1] (pairRows E) 1 x ↔ x ∈ itemsOf E := by
  unfold IsObject pairRows itemsOf
  simp only [List.mem_toFinset, List.mem_map]
  constructor
  · rintro ⟨r, ⟨t, ht, rfl⟩, e, h1, h2⟩
    rcases e with _ | _ | e
    · simp at h1
    · exact ⟨t, ht, by simpa using h2⟩
    · simp at h1
  · rintro ⟨t, ht, rfl⟩
    exact ⟨_, ⟨t, ht, rfl⟩, 1, rfl, rfl⟩

private theorem mem_grid (E : List (α × α)) (t : α × α × ℝ) :
    t ∈ grid E ↔ t.1 ∈ usersOf E ∧ t.2.1 ∈ itemsOf E ∧ t.2.2 = (E.count (t.1, t.2.1) : ℝ) := by
  unfold grid
  simp only [List.mem_flatMap, List.mem_map, mem_ids, isObject_pair_user, isObject_pair_item]
  constructor
  · rintro ⟨x, hx, i, hi, rfl⟩
    exact ⟨hx, hi, rfl⟩
  · rintro ⟨h1, h2, h3⟩
    exact ⟨t.1, h1, t.2.1, h2, by rw [← h3]⟩

private theorem grid_user {E : List (α × α)} (hne : E ≠ []) (x : α) : KnownUser (grid E) x ↔ x ∈ usersOf E := by
  obtain ⟨e, l, rfl⟩ := List.exists_cons_of_ne_nil hne
  constructor
  · rintro ⟨t, ht, rfl⟩
    exact ((mem_grid _ t).1 ht).1
  · intro hx
    exact ⟨(x, e.2, ((e :: l).count (x, e.2) : ℝ)), (mem_grid _ _).2 ⟨hx, by simp [itemsOf], rfl⟩, rfl⟩

private theorem grid_item {E : List (α × α)} (hne : E ≠ []) (x : α) : KnownItem (grid E) x ↔ x ∈ itemsOf E := by
  obtain ⟨e, l, rfl⟩ := List.exists_cons_of_ne_nil hne
  constructor
  · rintro ⟨t, ht, rfl⟩
    exact ((mem_grid _ t).1 ht).2.1
  · intro hx
    exact ⟨(e.1, x, ((e :: l).count (e.1, x) : ℝ)), (mem_grid _ _).2 ⟨by simp [usersOf], hx, rfl⟩, rfl⟩

private theorem grid_object {E : List (α × α)} (hne : E ≠ []) (t : Nat) (ht : t = 0 ∨ t = 1) (x : α) :
    IsObject [0, 1] (rowsOf (grid E)) t x ↔ IsObject [0, 1] (pairRows E) t x := by
  rcases ht with rfl | rfl
  · rw [isObject_user, grid_user hne, isObject_pair_user]
  · rw [isObject_item, grid_item hne, isObject_pair_item]

private theorem grid_rank {E : List (α × α)} (hne : E ≠ []) (t : Nat) (ht : t = 0 ∨ t = 1) (x : α) :
    rank [0, 1] (rowsOf (grid E)) t x = rank [0, 1] (pairRows E) t x := by
  unfold rank
  simp only [grid_object hne t ht]

private theorem grid_offset {E : List (α × α)} (hne : E ≠ []) (p : Params) (x : α) : offset p (rowsOf (grid E)) x = offset p (pairRows E) x := by
  classical
  unfold offset
  simp only [grid_object hne 0 (.inl rfl), grid_rank hne 0 (.inl rfl)]

private theorem grid_worth {E : List (α × α)} (hne : E ≠ []) (p : Params) (x i : α) :
    worth p (rowsOf (grid E)) x i = worth p (pairRows E) x i := by
  classical
  unfold worth
  simp only [grid_object hne 0 (.inl rfl), grid_rank hne 0 (.inl rfl), grid_object hne 1 (.inr rfl), grid_rank hne 1 (.inr rfl)]

theorem ids_finRange (ot : List Nat) (rows : List (List α)) (t : Nat) :
    List.Forall₂ (fun x (u : Fin (count ot rows t)) => IsObject ot rows t x ∧ u.1 = rank ot rows t x) (ids ot rows t) (List.finRange (count ot rows t)) := by
  rw [List.forall₂_iff_get]
  refine ⟨by rw [List.length_finRange, length_ids], fun j h1 h2 => ?_⟩
  obtain ⟨g1, g2⟩ := (ids_getElem?_iff ot rows t j _).1 (List.getElem?_eq_getElem h1)
  refine ⟨g1, ?_⟩
  simp only [List.get_eq_getElem]
  rw [g2]
  simp

private theorem grid_matches {ot : List Nat} (hot : ot = [0, 1]) {E : List (α × α)} (hne : E ≠ [])
    {m : Fin (count ot (pairRows E) 0) → Fin (count ot (pairRows E) 1) → Nat}
    (hm : ∀ x y u i, IsObject ot (pairRows E) 0 x → IsObject ot (pairRows E) 1 y → u.1 = rank ot (pairRows E) 0 x →
      i.1 = rank ot (pairRows E) 1 y → m u i = (pairRows E).countP (fun row => decide (row[0]? = some x ∧ row[1]? = some y))) :
    List.Forall₂ (Matches (grid E)) (grid E) (allPairs m) := by
  subst hot
  have hcount : ∀ x y, (pairRows E).countP (fun row => decide (row[0]? = some x ∧ row[1]? = some y)) = E.count (x, y) := by
    intro x y
    unfold pairRows
    rw [List.countP_map, List.count]
    refine List.countP_congr (fun t _ => ?_)
    simp [Prod.ext_iff]
  unfold allPairs
  conv => arg 2; unfold grid
  refine List.rel_flatMap (ids_finRange [0, 1] (pairRows E) 0) (fun x u hxu => ?_)
  rw [List.forall₂_map_left_iff, List.forall₂_map_right_iff]
  refine (ids_finRange [0, 1] (pairRows E) 1).imp (fun y i hyi => ?_)
  refine ⟨?_, ?_, ?_⟩
  · rw [grid_rank hne 0 (.inl rfl)]; exact hxu.2
  · rw [grid_rank hne 1 (.inr rfl)]; exact hyi.2
  · simp only [hm x y u i hxu.1 hyi.1 hxu.2 hyi.2, hcount]

theorem sum_count_items (E : List (α × α)) (I : Finset α) (hI : ∀ t ∈ E, t.2 ∈ I) (x : α) :
    ∑ i ∈ I, E.count (x, i) = E.countP (fun t => decide (t.1 = x)) := by
  induction E with
  | nil => simp
  | cons t E ih =>
    rw [List.countP_cons, ← ih (fun t ht => hI t (by simp [ht]))]
    simp only [List.count_cons, Finset.sum_add_distrib]
    congr 1
    have ht := hI t (by simp)
    by_cases h : t.1 = x
    · subst h
      rw [Finset.sum_eq_single t.2]
      · simp
      · intro i _ hne
        rw [if_neg]
        simp only [beq_iff_eq, Prod.ext_iff, true_and]
        exact fun h => hne h.symm
      · exact fun h => absurd ht h
    · rw [Finset.sum_eq_zero]
      · simp [h]
      · intro i _
        rw [if_neg]
        simp only [beq_iff_eq, Prod.ext_iff]
        exact fun h' => h h'.1

theorem sum_count_users (E : List (α × α)) (U : Finset α) (hU : ∀ t ∈ E, t.1 ∈ U) (i : α) :
    ∑ x ∈ U, E.count (x, i) = E.countP (fun t => decide (t.2 = i)) := by
  induction E with
  | nil => simp
  | cons t E ih =>
    rw [List.countP_cons, ← ih (fun t ht => hU t (by simp [ht]))]
    simp only [List.count_cons, Finset.sum_add_distrib]
    congr 1
    have ht := hU t (by simp)
    by_cases h : t.2 = i
    · subst h
      rw [Finset.sum_eq_single t.1]
      · simp
      · intro i _ hne
        rw [if_neg]
        simp only [beq_iff_eq, Prod.ext_iff, and_true]
        exact fun h => hne h.symm
      · exact fun h => absurd ht h
    · rw [Finset.sum_eq_zero]
      · simp [h]
      · intro i _
        rw [if_neg]
        simp only [beq_iff_eq, Prod.ext_iff]
        exact fun h' => h h'.2

theorem sum_count_all (E : List (α × α)) : ∑ x ∈ usersOf E, ∑ i ∈ itemsOf E, E.count (x, i) = E.length := by
  have hI : ∀ t ∈ E, t.2 ∈ itemsOf E := fun t ht => by simpa [itemsOf] using ⟨t.1, ht⟩
  have hU : ∀ t ∈ E, t.1 ∈ usersOf E := fun t ht => by simpa [usersOf] using ⟨t.2, ht⟩
  simp only [sum_count_items E _ hI]
  have : ∀ (L : List (α × α)) (U : Finset α), (∀ t ∈ L, t.1 ∈ U) → ∑ x ∈ U, L.countP (fun t => decide (t.1 = x)) = L.length := by
    intro L U hU
    induction L with
    | nil => simp
    | cons t L ih =>
      simp only [List.countP_cons, Finset.sum_add_distrib, List.length_cons]
      rw [ih (fun t ht => hU t (by simp [ht]))]
      congr 1
      have ht := hU t (by simp)
      simp [ht]
  exact this E _ hU

theorem sum_filter_ite {β : Type} (l : List β) (P : β → Bool) (F : β → ℝ) : ((l.filter P).map F).sum = (l.map (fun b => if P b then F b else 0)).sum := by
  induction l with
  | nil => rfl
  | cons b l ih =>
    cases h : P b with
    | false => rw [List.filter_cons_of_neg (by simp [h]), List.map_cons, List.sum_cons, ih, h]; simp
    | true => rw [List.filter_cons_of_pos h, List.map_cons, List.map_cons, List.sum_cons, List.sum_cons, ih, h]; simp

private theorem errors_grid (E : List (α × α)) (s : α → α → ℝ) (P : α × α × ℝ → Bool) :
    errors s (grid E) P = ∑ x ∈ usersOf E, ∑ i ∈ itemsOf E, if P (x, i, (E.count (x, i) : ℝ)) then short s E x i else 0 := by
  have hu : usersOf E = (ids [0, 1] (pairRows E) 0).toFinset := by
    ext x; rw [List.mem_toFinset, mem_ids, isObject_pair_user]
  have hi : itemsOf E = (ids [0, 1] (pairRows E) 1).toFinset := by
    ext x; rw [List.mem_toFinset, mem_ids, isObject_pair_item]
  unfold errors
  rw [sum_filter_ite, hu, hi, List.sum_toFinset _ (nodup_ids _ _ _)]
  unfold grid
  rw [List.map_flatMap, List.flatMap_def, List.sum_flatten, List.map_map]
  congr 1
  refine List.map_congr_left (fun x _ => ?_)
  simp only [Function.comp_apply]
  rw [List.sum_toFinset _ (nodup_ids _ _ _), List.map_map]
  rfl

/-! ### Theorem -/

/-- C152 for `ImplicitLogisticPMF`, with respect to all pairs of a known user and a known item.  The probabilities of a user, or an item, sum
up to its number of events less `C` times what it adds to the linear score `z`, and all probabilities to the number of events, up to `δ`. -/
theorem C152_implicit_success (cf : Config γ) {δ : ℝ} (hst : Stops δ cf.opt) {mk : Int → γ} {env : γ} {r r' : Rec ℝ α φ ε γ Params Val}
    {d : EventData α φ ε} {E : List (α × α)} (hne : E ≠ []) (h : Built d (pairRows E))
    (hlay : d.eventOtypes = [0, 1]) (idx : Option (List Int)) (hidx : idx = none ∨ idx = some [0, 1])
    (hfit : Rec.fitImplicit (implicit cf) mk env r d idx = .ok r') (hok : r'.fitResults.get? "success" = some (.bool true)) :
    ∃ s z : α → α → ℝ, Scores (implicit cf) r' s ∧ (∀ x i, s x i = safeSigmoid (z x i)) ∧
      |∑ x ∈ usersOf E, ∑ i ∈ itemsOf E, s x i - E.length| ≤ δ ∧
      ∀ m n, m ∉ usersOf E → n ∉ itemsOf E →
        (∀ x ∈ usersOf E, |∑ i ∈ itemsOf E, s x i - ((E.countP (fun t => decide (t.1 = x)) : ℝ) - cf.C * (z x n - z m n))| ≤ δ) ∧
        ∀ i ∈ itemsOf E, |∑ x ∈ usersOf E, s x i - ((E.countP (fun t => decide (t.2 = i)) : ℝ) - cf.C * (z m i - z m n))| ≤ δ := by
  classical
  have hs2 : d.sEvent = 2 := by rw [← h.holds.wf.len_otypes, hlay]; rfl
  have hfit0 : Rec.fitImplicit (implicit cf) mk env r d (some [0, 1]) = .ok r' := by
    rcases hidx with rfl | rfl
    · rw [← hfit]
      unfold Rec.fitImplicit Rec.eventFit
      simp only [hs2]
      rfl
    · exact hfit
  obtain ⟨hsu, hsi⟩ := implicit_several h (by rw [hlay]; rfl) (by rw [hlay]; rfl) hfit0
  obtain ⟨r'', mat, start, hfit', hmat, _, hrec, hp⟩ := C113_implicit_start cf mk env r h (by simpa [pairRows] using hne)
    (by rw [hlay]; rfl) (by rw [hlay]; rfl) hsu hsi
  have hr : r'' = r' := by
    rw [hfit'] at hfit0
    cases hfit0
    rfl
  subst hr
  have hsc := scores_of_fit .implicit h hlay idx hidx (.implicit hfit) hp
  have hsucc := hrec.success
  rw [hok] at hsucc
  simp only [Option.some.injEq, Val.bool.injEq] at hsucc
  have hw := hst _ _ _ _ _ _ hsucc.symm
  generalize (cf.opt _ (Implicit.loss cf.C mat) (Implicit.gradLoss cf.C mat) start cf.method cf.kwargs).x = c at hsc hw
  have hm := grid_matches hlay hne hmat
  have hbal := (C152_small_gradient δ cf.C c).2.2 mat hw
  obtain ⟨h1, h2⟩ := predictions_balanced c hm hbal rfl rfl
  simp only [grid_offset hne, grid_worth hne, grid_user hne, grid_item hne] at h1 h2
  refine ⟨_, _, hsc, fun _ _ => rfl, ?_, fun m n hmn hnn => ⟨fun x hx => ?_, fun i hi => ?_⟩⟩
  · rw [errors_grid] at h1
    simp only [if_true, short, Finset.sum_sub_distrib] at h1
    have := sum_count_all E
    rw [← this]
    push_cast
    rw [abs_sub_comm]
    exact h1
  · have := (h2 m n hmn hnn).1 x hx
    rw [errors_grid] at this
    have hI : ∀ t ∈ E, t.2 ∈ itemsOf E := fun t ht => by simpa [itemsOf] using ⟨t.1, ht⟩
    rw [← sum_count_items E _ hI x]
    rw [Finset.sum_eq_single x] at this
    · simp only [decide_true, if_true, short, Finset.sum_sub_distrib] at this
      push_cast
      rw [abs_sub_comm]
      convert this using 2
      ring
    · intro y _ hyx
      exact Finset.sum_eq_zero (fun i _ => by simp [hyx])
    · exact fun h => absurd hx h
  · have := (h2 m n hmn hnn).2 i hi
    rw [errors_grid, Finset.sum_comm] at this
    have hU : ∀ t ∈ E, t.1 ∈ usersOf E := fun t ht => by simpa [usersOf] using ⟨t.2, ht⟩
    rw [← sum_count_users E _ hU i]
    rw [Finset.sum_eq_single i] at this
    · simp only [decide_true, if_true, short, Finset.sum_sub_distrib] at this
      push_cast
      rw [abs_sub_comm]
      convert this using 2
      ring
    · intro y _ hyx
      exact Finset.sum_eq_zero (fun i _ => by simp [hyx])
    · exact fun h => absurd hi h

/-! ### Example -/

theorem zero_within {nu ni k : Nat} (evs : List (Event nu ni)) {δ : ℝ} (hsum : (evs.map (fun e => |1 / 2 - e.score|)).sum ≤ δ) :
    Within δ (Logistic.gradLoss 1 evs (0 : Coef nu ni k)) := by
  have hs : safeSigmoid 0 = 1 / 2 := by
    rw [safeSigmoid_eq, clip_eq_self (by linarith [sigmoidDom_pos]) sigmoidDom_pos.le]
    simp [expit]; norm_num
  have h0 : ∀ e : Event nu ni, safeSigmoid (est (unpack (0 : Coef nu ni k)) e.user e.item) = 1 / 2 := by
    intro e
    rw [← hs]
    simp [est, unpack]
  intro j
  unfold Logistic.gradLoss pack
  simp only [h0]
  generalize slotAt j = t
  have hd : 0 ≤ δ := le_trans (List.sum_nonneg (by rintro x hx; obtain ⟨e, _, rfl⟩ := List.mem_map.1 hx; positivity)) hsum
  cases t with
  | mu =>
    simp only [Views.get, addReg, gradTerms]
    exact (abs_sum_le_list _ _).trans hsum
  | bu u =>
    simp only [Views.get, addReg, gradTerms, unpack, Pi.zero_apply, mul_zero, add_zero]
    exact (abs_bincount_le _ _ _ _).trans hsum
  | bi u =>
    simp only [Views.get, addReg, gradTerms, unpack, Pi.zero_apply, mul_zero, add_zero]
    exact (abs_bincount_le _ _ _ _).trans hsum
  | p u f =>
    simp only [Views.get, addReg, gradTerms, unpack, Pi.zero_apply, mul_zero, add_zero]
    refine (abs_bincount_le _ _ _ _).trans ?_
    simpa using hd
  | q u f =>
    simp only [Views.get, addReg, gradTerms, unpack, Pi.zero_apply, mul_zero, add_zero]
    refine (abs_bincount_le _ _ _ _).trans ?_
    simpa using hd

/-- The hypotheses of `C152_implicit_success` hold for two events and an optimizer that finds gradients of at most 6. -/
example : ∃ r' : Rec ℝ Nat Nat Nat Unit Params Val, Rec.fitImplicit (implicit (exFinds 6)) (fun _ => ()) ()
    (Rec.init (some 1) initialResults) PLSA.exScores.toEventData none = .ok r' ∧ r'.fitResults.get? "success" = some (.bool true) ∧
    Built PLSA.exScores.toEventData (pairRows [(1, 10), (2, 20)]) := by
  have hb : Built PLSA.exScores.toEventData (pairRows [(1, 10), (2, 20)]) := PLSA.exScores_built.inv.1
  obtain ⟨r', mat, start, hfit, hmat, _, hrec, _⟩ := C113_implicit_start (exFinds 6) (fun _ => ()) () (Rec.init (some 1) initialResults) hb
    (by simp [pairRows]) rfl rfl (exScores_several 0) (exScores_several 1)
  refine ⟨r', hfit, ?_, hb⟩
  rw [hrec.success]
  refine congrArg (fun b => some (Val.bool b)) (exFinds_success (g := Implicit.gradLoss 1 mat) ⟨0, ?_⟩ start _ _)
  rw [implicit_grad_eq]
  refine zero_within _ ?_
  have hm := grid_matches (E := [(1, 10), (2, 20)]) rfl (by simp) hmat
  have hw : ∀ e ∈ allPairs mat, |1 / 2 - e.score| ≤ 3 / 2 := by
    intro e he
    obtain ⟨j, hj, rfl⟩ := List.mem_iff_getElem.1 he
    have hm' := List.forall₂_iff_get.1 hm
    obtain ⟨_, _, h3⟩ := hm'.2 j (hm'.1.symm ▸ hj) hj
    have h4 := (mem_grid _ _).1 (List.get_mem (grid [(1, 10), (2, 20)]) ⟨j, hm'.1.symm ▸ hj⟩)
    have h5 : (allPairs mat)[j].score = _ := h3
    rw [h5, h4.2.2]
    have h6 := List.count_le_length (a := (((grid [(1, 10), (2, 20)]).get ⟨j, hm'.1.symm ▸ hj⟩).1,
      ((grid [(1, 10), (2, 20)]).get ⟨j, hm'.1.symm ▸ hj⟩).2.1)) (l := [((1 : Nat), (10 : Nat)), (2, 20)])
    simp only [List.length_cons, List.length_nil] at h6
    have h7 : ((List.count (((grid [(1, 10), (2, 20)]).get ⟨j, hm'.1.symm ▸ hj⟩).1,
      ((grid [(1, 10), (2, 20)]).get ⟨j, hm'.1.symm ▸ hj⟩).2.1) [((1 : Nat), (10 : Nat)), (2, 20)] : Nat) : ℝ) ≤ 2 := by exact_mod_cast h6
    have h8 : (0 : ℝ) ≤ ((List.count (((grid [(1, 10), (2, 20)]).get ⟨j, hm'.1.symm ▸ hj⟩).1,
      ((grid [(1, 10), (2, 20)]).get ⟨j, hm'.1.symm ▸ hj⟩).2.1) [((1 : Nat), (10 : Nat)), (2, 20)] : Nat) : ℝ) := Nat.cast_nonneg _
    rw [abs_le]
    constructor <;> linarith
  have hl : (allPairs mat).length = 4 := by
    refine (List.forall₂_iff_get.1 hm).1.symm.trans ?_
    have e1 : (ids [0, 1] (pairRows [((1 : Nat), (10 : Nat)), (2, 20)]) 0).length = 2 := by decide +kernel
    have e2 : (ids [0, 1] (pairRows [((1 : Nat), (10 : Nat)), (2, 20)]) 1).length = 2 := by decide +kernel
    unfold grid
    simp [List.length_flatMap, e1, e2]
  have := List.sum_le_card_nsmul ((allPairs mat).map (fun e => |1 / 2 - e.score|)) (3 / 2)
    (by intro x hx; obtain ⟨e, he, rfl⟩ := List.mem_map.1 hx; exact hw e he)
  rw [List.length_map, hl] at this
  norm_num at this ⊢
  exact this

end MF
end Kam
