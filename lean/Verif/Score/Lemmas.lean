/-
Closed forms of the score-container functions.
-/
import Verif.Score.Model
import Verif.Data.Props2
import Mathlib.Tactic.Linarith
import Mathlib.Tactic.Ring
import Mathlib.Tactic.FieldSimp
import Mathlib.Tactic.NormNum

set_option linter.unusedSectionVars false

namespace Kam
variable {K : Type} [Field K] [LinearOrder K] [IsStrictOrderedRing K] [FloorRing K]
variable {α φ ε : Type} [LinearOrder α]

omit [Field K] [LinearOrder K] [IsStrictOrderedRing K] [FloorRing K] in
theorem npGet_dom (lo hi st : K) (rest : List K) :
    npGet (lo :: hi :: st :: rest) 0 = .ok lo ∧ npGet (lo :: hi :: st :: rest) 1 = .ok hi ∧
    npGet (lo :: hi :: st :: rest) 2 = .ok st := by
  refine ⟨?_, ?_, ?_⟩
  · exact npGet_ofNat (lo :: hi :: st :: rest) 0 (by simp)
  · exact npGet_ofNat (lo :: hi :: st :: rest) 1 (by simp)
  · exact npGet_ofNat (lo :: hi :: st :: rest) 2 (by simp)

omit [Field K] [IsStrictOrderedRing K] [FloorRing K] in
theorem countP_range_lt (N : Nat) (m : Nat) :
    (List.range N).countP (fun i => decide (i < m)) = min N m := by
  induction N with
  | zero => simp
  | succ N ih =>
    rw [List.range_succ, List.countP_append, ih]
    by_cases h : N < m
    · simp [h]; omega
    · simp [h]; omega

/-- Edges of a positive stride are increasing. -/
theorem scoreBins_sorted (lo st : K) (hst : 0 < st) (N : Nat) :
    ([⊥] ++ ((List.range N).map (fun (i : Nat) => lo + (i : K) * st)).map
      (fun b => (((b + st / 2 : K) : WithTop K) : Ext K)) ++ [((⊤ : WithTop K) : Ext K)]).Pairwise
        (· ≤ ·) := by
  rw [List.pairwise_append]
  refine ⟨?_, by simp, ?_⟩
  · rw [List.singleton_append, List.pairwise_cons]
    refine ⟨fun _ _ => bot_le, ?_⟩
    rw [List.map_map, List.pairwise_map]
    apply List.Pairwise.imp _ (List.pairwise_lt_range (n := N))
    intro a b hab
    simp only [Function.comp_apply, WithBot.coe_le_coe, WithTop.coe_le_coe]
    have : (a : K) ≤ b := by exact_mod_cast hab.le
    nlinarith
  · intro x _ y hy
    simp only [List.mem_singleton] at hy
    subst hy
    cases x with
    | bot => exact bot_le
    | coe x => exact WithBot.coe_le_coe.2 le_top

/-- Number of edges at or below a score. -/
theorem scoreBins_count (lo st : K) (hst : 0 < st) (N : Nat) (x : K) :
    ([⊥] ++ ((List.range N).map (fun (i : Nat) => lo + (i : K) * st)).map
      (fun b => (((b + st / 2 : K) : WithTop K) : Ext K)) ++ [((⊤ : WithTop K) : Ext K)]).countP
        (fun b => decide (b ≤ ((x : WithTop K) : Ext K))) =
      min N (⌊(x - lo) / st + 1 / 2⌋.toNat) + 1 := by
  rw [List.countP_append, List.countP_append]
  have h1 : List.countP (fun b => decide (b ≤ ((x : WithTop K) : Ext K))) [⊥] = 1 := by simp
  have h2 : List.countP (fun b => decide (b ≤ ((x : WithTop K) : Ext K)))
      [((⊤ : WithTop K) : Ext K)] = 0 := by
    simp only [List.countP_singleton, WithBot.coe_le_coe, top_le_iff, WithTop.coe_ne_top, decide_false,
      Bool.false_eq_true, if_false]
  rw [h1, h2, List.countP_map, List.countP_map, ← countP_range_lt]
  rw [Nat.add_zero, Nat.add_comm]
  congr 1
  apply List.countP_congr
  intro i _
  simp only [Function.comp_apply, WithBot.coe_le_coe, WithTop.coe_le_coe, decide_eq_true_eq]
  rw [Int.lt_toNat, Int.lt_iff_add_one_le, Int.le_floor]
  push_cast
  constructor
  · intro h
    have : (x - lo) / st ≥ i + 1 / 2 := by
      rw [ge_iff_le, le_div_iff₀ hst]; linarith
    linarith
  · intro h
    have : (x - lo) / st ≥ i + 1 / 2 := by linarith
    rw [ge_iff_le, le_div_iff₀ hst] at this
    linarith

/-- Closed form of `digitize_score` for a positive stride. -/
theorem digitizeScore_eq (d : ScoreData K α φ ε) (lo hi st : K) (hst : 0 < st) (rest : List K)
    (hd : d.scoreDomain = some (lo :: hi :: st :: rest)) (xs : List K) :
    d.digitizeScore (some xs) = .ok (xs.map (fun x =>
      ((min ⌈(hi - lo) / st⌉.toNat ⌊(x - lo) / st + 1 / 2⌋.toNat : Nat) : Int))) := by
  unfold ScoreData.digitizeScore generateScoreBins npArange npDigitize
  obtain ⟨g0, g1, g2⟩ := npGet_dom lo hi st rest
  simp only [hd, g0, g1, g2, hst.ne', if_false, bind, Except.bind, pure, Except.pure]
  rw [if_pos (scoreBins_sorted lo st hst _)]
  simp only [scoreBins_count lo st hst]
  rw [List.map_map]
  congr 1
  apply List.map_congr_left
  intro x _
  simp

theorem levelsOfDomain_eq (lo hi st : K) (hst : 0 < st) (rest : List K) (hlh : lo ≤ hi) :
    ScoreData.levelsOfDomain (lo :: hi :: st :: rest) = .ok (⌊(hi - lo) / st⌋ + 1) := by
  unfold ScoreData.levelsOfDomain pyInt
  obtain ⟨g0, g1, g2⟩ := npGet_dom lo hi st rest
  have : 0 ≤ (hi - lo) / st := div_nonneg (by linarith) hst.le
  simp [g0, g1, g2, hst.ne', this, bind, Except.bind, pure, Except.pure]

/-! ### min, max, diff, unique -/

theorem foldl_min_le (xs : List K) (x : K) :
    xs.foldl min x ≤ x ∧ (∀ y ∈ xs, xs.foldl min x ≤ y) ∧ (xs.foldl min x = x ∨ xs.foldl min x ∈ xs) := by
  induction xs generalizing x with
  | nil => simp
  | cons y ys ih =>
    obtain ⟨h1, h2, h3⟩ := ih (min x y)
    simp only [List.foldl_cons]
    refine ⟨le_trans h1 (min_le_left _ _), ?_, ?_⟩
    · intro z hz
      rcases List.mem_cons.1 hz with rfl | hz
      · exact le_trans h1 (min_le_right _ _)
      · exact h2 z hz
    · rcases h3 with h3 | h3
      · rw [h3]
        rcases min_choice x y with h | h
        · left; exact h
        · right; rw [h]; simp
      · right; simp [h3]

theorem foldl_max_ge (xs : List K) (x : K) :
    x ≤ xs.foldl max x ∧ (∀ y ∈ xs, y ≤ xs.foldl max x) ∧ (xs.foldl max x = x ∨ xs.foldl max x ∈ xs) := by
  induction xs generalizing x with
  | nil => simp
  | cons y ys ih =>
    obtain ⟨h1, h2, h3⟩ := ih (max x y)
    simp only [List.foldl_cons]
    refine ⟨le_trans (le_max_left _ _) h1, ?_, ?_⟩
    · intro z hz
      rcases List.mem_cons.1 hz with rfl | hz
      · exact le_trans (le_max_right _ _) h1
      · exact h2 z hz
    · rcases h3 with h3 | h3
      · rw [h3]
        rcases max_choice x y with h | h
        · left; exact h
        · right; rw [h]; simp
      · right; simp [h3]

/-- `np.min` is the least element. -/
theorem npMin_ok {xs : List K} (h : xs ≠ []) :
    ∃ m, npMin xs = .ok m ∧ m ∈ xs ∧ ∀ y ∈ xs, m ≤ y := by
  cases xs with
  | nil => exact absurd rfl h
  | cons x xs =>
    obtain ⟨h1, h2, h3⟩ := foldl_min_le xs x
    refine ⟨_, rfl, ?_, ?_⟩
    · rcases h3 with h3 | h3
      · rw [h3]; simp
      · simp [h3]
    · intro y hy
      rcases List.mem_cons.1 hy with rfl | hy
      · exact h1
      · exact h2 y hy

theorem npMax_ok {xs : List K} (h : xs ≠ []) :
    ∃ m, npMax xs = .ok m ∧ m ∈ xs ∧ ∀ y ∈ xs, y ≤ m := by
  cases xs with
  | nil => exact absurd rfl h
  | cons x xs =>
    obtain ⟨h1, h2, h3⟩ := foldl_max_ge xs x
    refine ⟨_, rfl, ?_, ?_⟩
    · rcases h3 with h3 | h3
      · rw [h3]; simp
      · simp [h3]
    · intro y hy
      rcases List.mem_cons.1 hy with rfl | hy
      · exact h1
      · exact h2 y hy

/-- Consecutive gaps of a strictly increasing list are positive gaps between its elements, and
every gap of two elements is at least one of them. -/
theorem npDiff_sorted (l : List K) (hs : l.Pairwise (· < ·)) :
    (∀ g ∈ npDiff l, ∃ x ∈ l, ∃ y ∈ l, x < y ∧ g = y - x) ∧
    (∀ x ∈ l, ∀ y ∈ l, x < y → ∃ g ∈ npDiff l, g ≤ y - x) := by
  induction l with
  | nil => simp [npDiff]
  | cons a l ih =>
    rw [List.pairwise_cons] at hs
    obtain ⟨ih1, ih2⟩ := ih hs.2
    cases l with
    | nil =>
      refine ⟨by simp [npDiff], ?_⟩
      intro x hx y hy hxy
      simp only [List.mem_singleton] at hx hy
      subst hx; subst hy
      exact absurd hxy (lt_irrefl _)
    | cons b l =>
      simp only [npDiff]
      constructor
      · intro g hg
        rcases List.mem_cons.1 hg with rfl | hg
        · exact ⟨a, by simp, b, by simp, hs.1 b (by simp), rfl⟩
        · obtain ⟨x, hx, y, hy, h⟩ := ih1 g hg
          exact ⟨x, by simp only [List.mem_cons] at hx ⊢; tauto, y,
            by simp only [List.mem_cons] at hy ⊢; tauto, h⟩
      · intro x hx y hy hxy
        rcases List.mem_cons.1 hx with rfl | hx
        · rcases List.mem_cons.1 hy with rfl | hy
          · exact absurd hxy (lt_irrefl _)
          · refine ⟨b - x, by simp, ?_⟩
            have : b ≤ y := by
              rcases List.mem_cons.1 hy with rfl | hy'
              · exact le_refl _
              · exact ((List.pairwise_cons.1 hs.2).1 y hy').le
            linarith
        · rename_i hx'
          rcases List.mem_cons.1 hy with rfl | hy
          · exact absurd hxy (not_lt.2 (hs.1 x (by assumption)).le)
          · obtain ⟨g, hg, h⟩ := ih2 x hx y hy hxy
            exact ⟨g, by simp [hg], h⟩

theorem npDiff_ne_nil (l : List K) : npDiff l ≠ [] ↔ 2 ≤ l.length := by
  match l with
  | [] => simp [npDiff]
  | [x] => simp [npDiff]
  | x :: y :: l => simp [npDiff]

end Kam
