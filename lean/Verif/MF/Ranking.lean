/-
C148: what the ranking of items depends on.
-/
import Verif.MF.Props3
import Verif.Metrics.Auc

set_option linter.unusedSectionVars false

namespace Kam
namespace MF
open Spec
variable {α φ ε γ : Type} [LinearOrder α]

/-! ### Specification -/

/-- `w` is what the learned parameters say in favour of an item for a user: the bias of the item plus the product of the factors of
user and item; for an unknown user the bias alone, for an unknown item nothing. -/
structure Favours (p : Params) (rows : List (List α)) (w : α → α → ℝ) : Prop where
  both : ∀ x i, IsObject [0, 1] rows 0 x → IsObject [0, 1] rows 1 i → ∃ b f f', p.bi[rank [0, 1] rows 1 i]? = some b ∧
    p.p[rank [0, 1] rows 0 x]? = some f ∧ p.q[rank [0, 1] rows 1 i]? = some f' ∧ w x i = b + (List.zipWith (· * ·) f f').sum
  newUser : ∀ x i, ¬ IsObject [0, 1] rows 0 x → IsObject [0, 1] rows 1 i → p.bi[rank [0, 1] rows 1 i]? = some (w x i)
  newItem : ∀ x i, ¬ IsObject [0, 1] rows 1 i → w x i = 0

/-- `predict` gives the request of user `x` and item `i` the score `s x i`, in every batch. -/
def Scores (L : Learner ℝ γ Params Val) (r : Rec ℝ α φ ε γ Params Val) (s : α → α → ℝ) : Prop :=
  ∀ reqs : List (α × α), reqs ≠ [] → Rec.predict L r (.mat ⟨2, reqs.map (fun q => [q.1, q.2])⟩) = .ok (squeeze (reqs.map (fun q => s q.1 q.2)))

/-! ### Lemmas -/

theorem expit_strictMono : StrictMono expit := by
  intro x y h
  unfold expit
  have h1 : Real.exp (-y) < Real.exp (-x) := Real.exp_lt_exp.2 (by linarith)
  have h2 := Real.exp_pos (-y)
  exact one_div_lt_one_div_of_lt (by linarith) (by linarith)

theorem safeSigmoid_lt_or {x y : ℝ} (h : x < y) : safeSigmoid x < safeSigmoid y ∨
    (safeSigmoid x = safeSigmoid y ∧ (y ≤ -sigmoidDom ∨ sigmoidDom ≤ x)) := by
  have hp := sigmoidDom_pos
  by_cases h1 : y ≤ -sigmoidDom
  · right
    refine ⟨?_, .inl h1⟩
    rw [safeSigmoid_eq, safeSigmoid_eq, clip_of_lt h1, clip_of_lt (by linarith)]
  · by_cases h2 : sigmoidDom ≤ x
    · right
      refine ⟨?_, .inr h2⟩
      rw [safeSigmoid_eq, safeSigmoid_eq, clip_of_gt h2, clip_of_gt (by linarith)]
    · left
      rw [safeSigmoid_eq, safeSigmoid_eq]
      apply expit_strictMono
      unfold clip
      push Not at h1 h2
      rw [max_eq_left h1.le]
      rcases le_total x (-sigmoidDom) with h3 | h3
      · rw [max_eq_right h3, min_eq_left (by linarith)]
        exact lt_min h1 (by linarith)
      · rw [max_eq_left h3, min_eq_left h2.le]
        exact lt_min h h2

open Classical in
/-- The score in favour of an item. -/
noncomputable def worth (p : Params) (rows : List (List α)) (x i : α) : ℝ :=
  if IsObject [0, 1] rows 1 i then
    p.bi.getD (rank [0, 1] rows 1 i) 0 + if IsObject [0, 1] rows 0 x then
      (List.zipWith (· * ·) (p.p.getD (rank [0, 1] rows 0 x) []) (p.q.getD (rank [0, 1] rows 1 i) [])).sum else 0
  else 0

open Classical in
/-- What all items get from a user. -/
noncomputable def offset (p : Params) (rows : List (List α)) (x : α) : ℝ :=
  p.mu + if IsObject [0, 1] rows 0 x then p.bu.getD (rank [0, 1] rows 0 x) 0 else 0

theorem row_score {link : ℝ → ℝ} {p : Params} {rows : List (List α)} {x i : α} {y : ℝ} (h : RowPrediction link p rows [x, i] y) :
    y = link (offset p rows x + worth p rows x i) := by
  obtain ⟨h1, h2, h3, h4⟩ := h x i rfl
  unfold offset worth
  by_cases hx : IsObject [0, 1] rows 0 x <;> by_cases hi : IsObject [0, 1] rows 1 i
  · obtain ⟨b, b', f, f', e1, e2, e3, e4, rfl⟩ := h4 hx hi
    simp only [hx, hi, if_true, List.getD, e1, e2, e3, e4, Option.getD_some]
    congr 1
    ring
  · obtain ⟨b, e1, rfl⟩ := h2 hx hi
    simp only [hx, hi, if_true, if_false, List.getD, e1, Option.getD_some, add_zero]
  · obtain ⟨b, e1, rfl⟩ := h1 hx hi
    simp only [hx, hi, if_true, if_false, List.getD, e1, Option.getD_some, add_zero]
  · rw [h3 hx hi]
    simp only [hx, hi, if_false, add_zero]

theorem forall₂_pairs {R : List α → ℝ → Prop} {s : α → α → ℝ} (hR : ∀ x i y, R [x, i] y → y = s x i) :
    ∀ (reqs : List (α × α)) (ys : List ℝ), List.Forall₂ R (reqs.map (fun q => [q.1, q.2])) ys → ys = reqs.map (fun q => s q.1 q.2) := by
  intro reqs
  induction reqs with
  | nil => intro ys h; cases h; rfl
  | cons q reqs ih =>
    intro ys h
    rw [List.map_cons] at h
    cases h with
    | cons h1 h2 => rw [List.map_cons, ih _ h2, hR _ _ _ h1]

/-! ### Theorems -/

section
variable {cf : Config γ} {L : Learner ℝ γ Params Val} {link : ℝ → ℝ}

/-- C148: a fitted factorization model gives a user at least as high a score for an item as for another whenever its parameters favour
the item — whatever the global mean and the bias of the user.  All unknown users get the same scores, and so the same ranking, by item
biases; all unknown items get the same score. -/
theorem C148_ranking (hL : Model cf L link) {mk : Int → γ} {env : γ} {r r' : Rec ℝ α φ ε γ Params Val}
    {d : EventData α φ ε} {rows : List (List α)} (h : Built d rows) (hlay : d.eventOtypes = [0, 1])
    (idx : Option (List Int)) (hidx : idx = none ∨ idx = some [0, 1]) (hfit : FittedBy L mk env r d idx r') :
    ∃ (p : Params) (s w : α → α → ℝ), r'.params = some p ∧ Scores L r' s ∧ Favours p rows w ∧
      (∀ x i j, w x i ≤ w x j → s x i ≤ s x j) ∧
      (∀ x x' i, ¬ IsObject [0, 1] rows 0 x → ¬ IsObject [0, 1] rows 0 x' → s x i = s x' i) ∧
      (∀ x i i', ¬ IsObject [0, 1] rows 1 i → ¬ IsObject [0, 1] rows 1 i' → s x i = s x i') ∧
      (L = pmf cf → ∀ x i j, w x i < w x j → s x i < s x j) ∧
      ∀ x i j, w x i < w x j → s x i < s x j ∨ (s x i = s x j ∧ (s x i = safeSigmoid (-sigmoidDom) ∨ s x i = safeSigmoid sigmoidDom)) := by
  obtain ⟨p, hp, hbu, hbi, hpr⟩ := C32_unknown_objects hL h hlay idx hidx hfit
  have hmono : ∀ a b, a ≤ b → link a ≤ link b := by
    cases hL
    · exact fun _ _ h => h
    · exact C34_safe_sigmoid.1
    · exact C34_safe_sigmoid.1
  have ends : ∀ a b : ℝ, a < b → safeSigmoid a < safeSigmoid b ∨
      (safeSigmoid a = safeSigmoid b ∧ (safeSigmoid a = safeSigmoid (-sigmoidDom) ∨ safeSigmoid a = safeSigmoid sigmoidDom)) := by
    intro a b hab
    have hd := sigmoidDom_pos
    rcases safeSigmoid_lt_or hab with h1 | ⟨h1, h2 | h2⟩
    · exact .inl h1
    · refine .inr ⟨h1, .inl ?_⟩
      rw [safeSigmoid_eq, safeSigmoid_eq, clip_of_lt (by linarith), clip_of_lt le_rfl]
    · refine .inr ⟨h1, .inr ?_⟩
      rw [safeSigmoid_eq, safeSigmoid_eq, clip_of_gt h2, clip_of_gt le_rfl]
  refine ⟨p, fun x i => link (offset p rows x + worth p rows x i), worth p rows, hp, ?_, ?_, ?_, ?_, ?_, ?_, ?_⟩
  · intro reqs hne
    obtain ⟨ys, h1, h2⟩ := hpr ⟨2, reqs.map (fun q => [q.1, q.2])⟩ (by
      intro row hr
      obtain ⟨q, _, rfl⟩ := List.mem_map.1 hr
      rfl) rfl (by simpa using hne)
    rw [h1, forall₂_pairs (fun x i y hy => row_score hy) reqs ys h2]
  · -- the known objects have entries
    have known : ∀ x i, ∃ y, RowPrediction link p rows [x, i] y := by
      intro x i
      obtain ⟨ys, _, h2⟩ := hpr ⟨2, [[x, i]]⟩ (by intro row hr; simp at hr; subst hr; rfl) rfl (by simp)
      cases h2 with
      | cons h1 _ => exact ⟨_, h1⟩
    constructor
    · intro x i hx hi
      obtain ⟨y, hy⟩ := known x i
      obtain ⟨b, b', f, f', e1, e2, e3, e4, _⟩ := (hy x i rfl).2.2.2 hx hi
      refine ⟨b', f, f', e2, e3, e4, ?_⟩
      unfold worth
      simp only [hx, hi, if_true, List.getD, e2, e3, e4, Option.getD_some]
    · intro x i hx hi
      obtain ⟨y, hy⟩ := known x i
      obtain ⟨b, e1, _⟩ := (hy x i rfl).1 hx hi
      unfold worth
      simp only [hx, hi, if_true, if_false, List.getD, e1, Option.getD_some, add_zero]
    · intro x i hi
      unfold worth
      rw [if_neg hi]
  · intro x i j hw
    exact hmono _ _ (by linarith)
  · intro x x' i hx hx'
    simp only [offset, worth, hx, hx', if_false]
  · intro x i i' hi hi'
    simp only [worth, hi, hi', if_false]
  · intro hpmf x i j hw
    cases hL with
    | pmf => simp only [id]; linarith
    | logistic =>
      exfalso
      have := congrArg (fun L => L.rawPredict ⟨0, [0], [0], [[]], [[]]⟩ [[0, 0]]) hpmf
      simp only [pmf, logistic] at this
      have e1 : rawPredict id (⟨0, [0], [0], [[]], [[]]⟩ : Params) [[0, 0]] = .ok [0] := by
        simp [rawPredict, rawScore, Except.map, npGet, npIndex, bind, Except.bind, pure, Except.pure]
      have e2 : rawPredict safeSigmoid (⟨0, [0], [0], [[]], [[]]⟩ : Params) [[0, 0]] = .ok [safeSigmoid 0] := by
        simp [rawPredict, rawScore, Except.map, npGet, npIndex, bind, Except.bind, pure, Except.pure]
      rw [e1, e2] at this
      have h0 : safeSigmoid 0 = 0 := by simpa using this
      linarith [safeSigmoid_pos 0]
    | implicit =>
      exfalso
      have := congrArg (fun L => L.rawPredict ⟨0, [0], [0], [[]], [[]]⟩ [[0, 0]]) hpmf
      simp only [pmf, implicit] at this
      have e1 : rawPredict id (⟨0, [0], [0], [[]], [[]]⟩ : Params) [[0, 0]] = .ok [0] := by
        simp [rawPredict, rawScore, Except.map, npGet, npIndex, bind, Except.bind, pure, Except.pure]
      have e2 : rawPredict safeSigmoid (⟨0, [0], [0], [[]], [[]]⟩ : Params) [[0, 0]] = .ok [safeSigmoid 0] := by
        simp [rawPredict, rawScore, Except.map, npGet, npIndex, bind, Except.bind, pure, Except.pure]
      rw [e1, e2] at this
      have h0 : safeSigmoid 0 = 0 := by simpa using this
      linarith [safeSigmoid_pos 0]
  · intro x i j hw
    cases hL with
    | pmf => left; simp only [id]; linarith
    | logistic => exact ends _ _ (by linarith)
    | implicit => exact ends _ _ (by linarith)

end

/-- C148: the area under the ROC curve of logistic predictions is that of the linear scores behind them, cut off at the ends of the
domain of the sigmoid. -/
theorem C148_auc (t zs : List ℝ) : Metrics.Spec.concordance t (zs.map safeSigmoid) =
    Metrics.Spec.concordance t (zs.map (fun z => min (max z (-sigmoidDom)) sigmoidDom)) := by
  rw [← Metrics.C140_order expit expit_strictMono t (zs.map (fun z => min (max z (-sigmoidDom)) sigmoidDom)), List.map_map]
  congr 1

/-- C148: and exactly that of the linear scores if none of them is cut off. -/
theorem C148_auc_inside (t zs : List ℝ) (h : ∀ z ∈ zs, -sigmoidDom ≤ z ∧ z ≤ sigmoidDom) :
    Metrics.Spec.concordance t (zs.map safeSigmoid) = Metrics.Spec.concordance t zs := by
  rw [C148_auc]
  congr 1
  conv_rhs => rw [← List.map_id zs]
  refine List.map_congr_left (fun z hz => ?_)
  rw [max_eq_left (h z hz).1, min_eq_left (h z hz).2]
  rfl

/-- C148: that bound matters: two scores beyond the domain become a tie, and an area of 1 becomes 1/2. -/
theorem C148_auc_tie : Metrics.Spec.concordance [1, 0] [(101 : ℝ), 100] = 1 ∧
    Metrics.Spec.concordance [1, 0] ([(101 : ℝ), 100].map safeSigmoid) = 1 / 2 := by
  have h1 : sigmoidDom ≤ 100 := by unfold sigmoidDom; norm_num
  have hd := sigmoidDom_pos
  constructor
  · norm_num [Metrics.Spec.concordance, Metrics.Spec.scoresOf, Metrics.Spec.inOrder]
  · rw [C148_auc]
    have e1 : min (max (101 : ℝ) (-sigmoidDom)) sigmoidDom = sigmoidDom := by
      rw [max_eq_left (by linarith), min_eq_right (by linarith)]
    have e2 : min (max (100 : ℝ) (-sigmoidDom)) sigmoidDom = sigmoidDom := by
      rw [max_eq_left (by linarith), min_eq_right (by linarith)]
    simp only [List.map_cons, List.map_nil, e1, e2]
    norm_num [Metrics.Spec.concordance, Metrics.Spec.scoresOf, Metrics.Spec.inOrder]

/-- The hypotheses of `C148_ranking`, and its conclusion for two new users of a fitted model. -/
example : ∃ (r' : Rec ℝ Nat Nat Nat Unit Params Val) (s : Nat → Nat → ℝ),
    FittedBy (implicit exConfig) (fun _ => ()) () (Rec.init (some 1) initialResults) exSquare none r' ∧
    Scores (implicit exConfig) r' s ∧ s 7 10 = s 8 10 := by
  obtain ⟨r', hfit⟩ : ∃ r' : Rec ℝ Nat Nat Nat Unit Params Val,
      FittedBy (implicit exConfig) (fun _ => ()) () (Rec.init (some 1) initialResults) exSquare none r' := ⟨_, .implicit rfl⟩
  obtain ⟨p, s, w, _, hs, _, _, hn, _⟩ := C148_ranking (.implicit) exSquare_built rfl none (.inl rfl) hfit
  refine ⟨r', s, hfit, hs, hn 7 8 10 ?_ ?_⟩ <;>
    (rintro ⟨row, hr, e, h1, h2⟩; rcases e with _ | _ | e <;> simp at h1 h2 hr; rcases hr with rfl | rfl <;> simp at h2)

end MF
end Kam
