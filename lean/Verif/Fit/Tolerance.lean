/-
C152: what a successful optimization guarantees about predictions.
-/
import Verif.Fit.Start
import Verif.MF.Ranking
import Verif.MF.Tolerance
import Verif.Rec.Layout

set_option linter.unusedSectionVars false

namespace Kam
namespace MF
open scoped BigOperators
open Spec

variable {α φ ε γ : Type} [LinearOrder α]

/-! ### Specification -/

/-- When the optimizer reports success, no entry of the gradient exceeds `δ` at the point it returns
(the rule of scipy's `CG` and `BFGS`, with the option `gtol`). -/
def Stops (δ : ℝ) (opt : Optimizer) : Prop :=
  ∀ N f g x0 method kw, (opt N f g x0 method kw).success = true → Within δ (g (opt N f g x0 method kw).x)

/-- The reported loss is the one at the point the optimizer returns. -/
def Honest (opt : Optimizer) : Prop := ∀ N f g x0 method kw, (opt N f g x0 method kw).fn = f (opt N f g x0 method kw).x

/-- The external ids of training events. -/
def rowsOf (T : List (α × α × ℝ)) : List (List α) := T.map (fun t => [t.1, t.2.1])

/-- The user occurs in the training events. -/
def KnownUser (T : List (α × α × ℝ)) (x : α) : Prop := ∃ t ∈ T, t.1 = x

/-- The item occurs in the training events. -/
def KnownItem (T : List (α × α × ℝ)) (i : α) : Prop := ∃ t ∈ T, t.2.1 = i

/-- The sum of the errors of the predictions `s` for the training events picked by `P`. -/
noncomputable def errors (s : α → α → ℝ) (T : List (α × α × ℝ)) (P : α × α × ℝ → Bool) : ℝ :=
  ((T.filter P).map (fun t => t.2.2 - s t.1 t.2.1)).sum

/-! ### Lemmas -/

theorem isObject_user (T : List (α × α × ℝ)) (x : α) : IsObject [0, 1] (rowsOf T) 0 x ↔ KnownUser T x := by
  unfold IsObject rowsOf KnownUser
  constructor
  · rintro ⟨r, hr, e, h1, h2⟩
    obtain ⟨t, ht, rfl⟩ := List.mem_map.1 hr
    rcases e with _ | _ | e
    · exact ⟨t, ht, by simpa using h2⟩
    · simp at h1
    · simp at h1
  · rintro ⟨t, ht, rfl⟩
    exact ⟨_, List.mem_map.2 ⟨t, ht, rfl⟩, 0, rfl, rfl⟩

theorem isObject_item (T : List (α × α × ℝ)) (x : α) : IsObject [0, 1] (rowsOf T) 1 x ↔ KnownItem T x := by
  unfold IsObject rowsOf KnownItem
  constructor
  · rintro ⟨r, hr, e, h1, h2⟩
    obtain ⟨t, ht, rfl⟩ := List.mem_map.1 hr
    rcases e with _ | _ | e
    · simp at h1
    · exact ⟨t, ht, by simpa using h2⟩
    · simp at h1
  · rintro ⟨t, ht, rfl⟩
    exact ⟨_, List.mem_map.2 ⟨t, ht, rfl⟩, 1, rfl, rfl⟩

theorem rank_inj {ot : List Nat} {rows : List (List α)} {t : Nat} {x y : α} (hx : IsObject ot rows t x) (hy : IsObject ot rows t y)
    (h : rank ot rows t x = rank ot rows t y) : x = y := by
  rcases lt_trichotomy x y with hlt | rfl | hlt
  · have := rank_lt_rank hx hlt; omega
  · rfl
  · have := rank_lt_rank hy hlt; omega

/-- The scores of a fitted model in terms of its parameters. -/
theorem scores_of_fit {cf : Config γ} {L : Learner ℝ γ Params Val} {link : ℝ → ℝ} (hL : Model cf L link) {mk : Int → γ} {env : γ}
    {r r' : Rec ℝ α φ ε γ Params Val} {d : EventData α φ ε} {rows : List (List α)} (h : Built d rows) (hlay : d.eventOtypes = [0, 1])
    (idx : Option (List Int)) (hidx : idx = none ∨ idx = some [0, 1]) (hfit : FittedBy L mk env r d idx r') {p : Params}
    (hp : r'.params = some p) : Scores L r' (fun x i => link (offset p rows x + worth p rows x i)) := by
  obtain ⟨p', hp', _, _, hpr⟩ := C32_unknown_objects hL h hlay idx hidx hfit
  rw [hp] at hp'
  cases hp'
  intro reqs hne
  obtain ⟨ys, h1, h2⟩ := hpr ⟨2, reqs.map (fun q => [q.1, q.2])⟩ (by
    intro row hr
    obtain ⟨q, _, rfl⟩ := List.mem_map.1 hr
    rfl) rfl (by simpa using hne)
  rw [h1, forall₂_pairs (fun x i y hy => row_score hy) reqs ys h2]

theorem sum_filter_forall₂ {β δ : Type} {R : β → δ → Prop} {l : List β} {l' : List δ} (h : List.Forall₂ R l l') {P : β → Bool} {Q : δ → Bool}
    {F : β → ℝ} {G : δ → ℝ} (hR : ∀ b d, b ∈ l → R b d → P b = Q d ∧ F b = G d) :
    ((l.filter P).map F).sum = ((l'.filter Q).map G).sum := by
  induction h with
  | nil => rfl
  | @cons b d l l' h1 h2 ih =>
    obtain ⟨e1, e2⟩ := hR b d (by simp) h1
    have ih := ih (fun b d hb => hR b d (by simp [hb]))
    cases hP : P b with
    | false => rw [List.filter_cons_of_neg (by simp [hP]), List.filter_cons_of_neg (by simp [← e1, hP]), ih]
    | true =>
      rw [List.filter_cons_of_pos hP, List.filter_cons_of_pos (by rw [← e1, hP]), List.map_cons, List.map_cons, List.sum_cons, List.sum_cons,
        ih, e2]

/-- The internal event of an external one. -/
def Matches (T : List (α × α × ℝ)) {nu ni : Nat} (t : α × α × ℝ) (e : Event nu ni) : Prop :=
  e.user.1 = rank [0, 1] (rowsOf T) 0 t.1 ∧ e.item.1 = rank [0, 1] (rowsOf T) 1 t.2.1 ∧ e.score = t.2.2

theorem trainedOn_matches {d : EventData α φ ε} {T : List (α × α × ℝ)} (hlay : d.eventOtypes = [0, 1]) {nu ni : Nat} {evs : List (Event nu ni)}
    (h : TrainedOn d (rowsOf T) (T.map (·.2.2)) 0 1 evs) : List.Forall₂ (Matches T) T evs := by
  obtain ⟨hl, h⟩ := h
  have hl' : T.length = evs.length := by rw [hl]; simp [rowsOf]
  rw [List.forall₂_iff_get]
  refine ⟨hl', fun j h1 h2 => ?_⟩
  obtain ⟨e, he, ⟨t₀, t₁, x, y, e1, e2, e3, e4, e5, e6⟩, e7⟩ := h j [T[j].1, T[j].2.1] T[j].2.2
    (by simp only [rowsOf, List.getElem?_map, List.getElem?_eq_getElem h1, Option.map_some])
    (by simp only [List.getElem?_map, List.getElem?_eq_getElem h1, Option.map_some])
  rw [hlay] at e1 e2 e5 e6
  simp only [List.getElem?_cons_zero, List.getElem?_cons_succ, Option.some.injEq] at e1 e2 e3 e4
  subst e1 e2 e3 e4
  rw [List.getElem?_eq_getElem h2] at he
  simp only [Option.some.injEq] at he
  subst he
  exact ⟨e5, e6, e7⟩

section
variable {T : List (α × α × ℝ)} {nu ni k : Nat} (c : Coef nu ni k)

theorem offset_known {x : α} (hx : KnownUser T x) (u : Fin nu) (hu : u.1 = rank [0, 1] (rowsOf T) 0 x) :
    offset (store c) (rowsOf T) x = (unpack c).mu + (unpack c).bu u := by
  unfold offset
  rw [if_pos ((isObject_user T x).2 hx), List.getD, ← hu]
  simp only [store]
  rw [getElem?_ofFn_append _ _ _ u.2]
  rfl

theorem offset_new {x : α} (hx : ¬ KnownUser T x) : offset (store c) (rowsOf T) x = (unpack c).mu := by
  unfold offset
  rw [if_neg (fun h => hx ((isObject_user T x).1 h))]
  simp [store]

theorem worth_new {x i : α} (hi : ¬ KnownItem T i) : worth (store c) (rowsOf T) x i = 0 := by
  unfold worth
  rw [if_neg (fun h => hi ((isObject_item T i).1 h))]

theorem worth_newUser {x i : α} (hx : ¬ KnownUser T x) (hi : KnownItem T i) (y : Fin ni) (hy : y.1 = rank [0, 1] (rowsOf T) 1 i) :
    worth (store c) (rowsOf T) x i = (unpack c).bi y := by
  unfold worth
  rw [if_pos ((isObject_item T i).2 hi), if_neg (fun h => hx ((isObject_user T x).1 h)), List.getD, ← hy]
  simp only [store]
  rw [getElem?_ofFn_append _ _ _ y.2]
  simp

theorem zipWith_ofFn_sum {n : Nat} (f g : Fin n → ℝ) : (List.zipWith (· * ·) (List.ofFn f) (List.ofFn g)).sum = ∑ j, f j * g j := by
  rw [← List.sum_ofFn]
  congr 1
  apply List.ext_getElem
  · simp
  · intro j h1 h2
    simp

theorem worth_known {x i : α} (hx : KnownUser T x) (hi : KnownItem T i) (u : Fin nu) (hu : u.1 = rank [0, 1] (rowsOf T) 0 x)
    (y : Fin ni) (hy : y.1 = rank [0, 1] (rowsOf T) 1 i) :
    worth (store c) (rowsOf T) x i = (unpack c).bi y + ∑ f, (unpack c).p u f * (unpack c).q y f := by
  unfold worth
  rw [if_pos ((isObject_item T i).2 hi), if_pos ((isObject_user T x).2 hx), List.getD, List.getD, List.getD, ← hy, ← hu]
  simp only [store]
  rw [getElem?_ofFn_append _ _ _ y.2, getElem?_ofFn_append _ _ _ y.2, getElem?_ofFn_append _ _ _ u.2]
  simp only [Option.getD_some]
  rw [zipWith_ofFn_sum]

/-- The errors of the predictions are those of the training events. -/
theorem errors_eq {evs : List (Event nu ni)} (hm : List.Forall₂ (Matches T) T evs) (link : ℝ → ℝ) {P : α × α × ℝ → Bool}
    {Q : Event nu ni → Bool} (hPQ : ∀ t e, t ∈ T → Matches T t e → P t = Q e) :
    errors (fun x i => link (offset (store c) (rowsOf T) x + worth (store c) (rowsOf T) x i)) T P = errorSum link (unpack c) evs Q := by
  unfold errors errorSum
  refine sum_filter_forall₂ hm (fun t e ht h => ⟨hPQ t e ht h, ?_⟩)
  obtain ⟨h1, h2, h3⟩ := h
  have hx : KnownUser T t.1 := ⟨t, ht, rfl⟩
  have hi : KnownItem T t.2.1 := ⟨t, ht, rfl⟩
  show t.2.2 - link _ = _
  rw [offset_known c hx e.user h1, worth_known c hx hi e.user h1 e.item h2, h3]
  congr 2
  ring

theorem user_known {evs : List (Event nu ni)} (hm : List.Forall₂ (Matches T) T evs) {x : α} (hx : KnownUser T x) :
    ∃ u : Fin nu, u.1 = rank [0, 1] (rowsOf T) 0 x ∧ ∀ t (e : Event nu ni), t ∈ T → Matches T t e → decide (t.1 = x) = decide (e.user = u) := by
  obtain ⟨t, ht, rfl⟩ := hx
  obtain ⟨j, hj, rfl⟩ := List.mem_iff_getElem.1 ht
  have hm' := (List.forall₂_iff_get.1 hm)
  obtain ⟨h1, _, _⟩ := hm'.2 j hj (hm'.1 ▸ hj)
  refine ⟨_, h1, fun t e ht' h => ?_⟩
  rw [decide_eq_decide]
  constructor
  · intro he
    apply Fin.ext
    rw [h.1, he]
    exact h1.symm
  · intro he
    refine rank_inj ((isObject_user T _).2 ⟨t, ht', rfl⟩) ((isObject_user T _).2 ⟨_, ht, rfl⟩) ?_
    rw [← h.1, he]
    exact h1

theorem item_known {evs : List (Event nu ni)} (hm : List.Forall₂ (Matches T) T evs) {x : α} (hx : KnownItem T x) :
    ∃ u : Fin ni, u.1 = rank [0, 1] (rowsOf T) 1 x ∧ ∀ t (e : Event nu ni), t ∈ T → Matches T t e → decide (t.2.1 = x) = decide (e.item = u) := by
  obtain ⟨t, ht, rfl⟩ := hx
  obtain ⟨j, hj, rfl⟩ := List.mem_iff_getElem.1 ht
  have hm' := (List.forall₂_iff_get.1 hm)
  obtain ⟨_, h1, _⟩ := hm'.2 j hj (hm'.1 ▸ hj)
  refine ⟨_, h1, fun t e ht' h => ?_⟩
  rw [decide_eq_decide]
  constructor
  · intro he
    apply Fin.ext
    rw [h.2.1, he]
    exact h1.symm
  · intro he
    refine rank_inj ((isObject_item T _).2 ⟨t, ht', rfl⟩) ((isObject_item T _).2 ⟨_, ht, rfl⟩) ?_
    rw [← h.2.1, he]
    exact h1

end

/-! ### Theorems -/

theorem columns_default {d : EventData α φ ε} {rows : List (List α)} (h : Built d rows) (hlay : d.eventOtypes = [0, 1])
    {idx : Option (List Int)} (hidx : idx = none ∨ idx = some [0, 1]) : columnsOf d idx = .ok [0, 1] := by
  have hs : d.sEvent = 2 := by rw [← h.holds.wf.len_otypes, hlay]; rfl
  rcases hidx with rfl | rfl
  · simp only [columnsOf, hs]; rfl
  · simp only [columnsOf, hs]; rfl

/-- What a small gradient says about the predictions of a fitted model. -/
theorem predictions_balanced {T : List (α × α × ℝ)} {nu ni k : Nat} (c : Coef nu ni k) {evs : List (Event nu ni)}
    (hm : List.Forall₂ (Matches T) T evs) {link : ℝ → ℝ} {δ C : ℝ} (hbal : Balanced link δ C evs (unpack c)) {s z : α → α → ℝ}
    (hz : z = fun x i => offset (store c) (rowsOf T) x + worth (store c) (rowsOf T) x i) (hs : s = fun x i => link (z x i)) :
    |errors s T (fun _ => true)| ≤ δ ∧
      ∀ m n, ¬ KnownUser T m → ¬ KnownItem T n →
        (∀ x, KnownUser T x → |errors s T (fun t => decide (t.1 = x)) - C * (z x n - z m n)| ≤ δ) ∧
        ∀ i, KnownItem T i → |errors s T (fun t => decide (t.2.1 = i)) - C * (z m i - z m n)| ≤ δ := by
  subst hz hs
  refine ⟨?_, fun m n hmn hnn => ⟨fun x hx => ?_, fun i hi => ?_⟩⟩
  · rw [errors_eq c hm link (Q := fun _ => true) (fun _ _ _ _ => rfl)]
    exact hbal.all
  · obtain ⟨u, hu, hPQ⟩ := user_known hm hx
    rw [errors_eq c hm link hPQ]
    simp only [worth_new c hnn, offset_known c hx u hu, offset_new c hmn]
    have := hbal.user u
    convert this using 3
    ring
  · obtain ⟨y, hy, hPQ⟩ := item_known hm hi
    rw [errors_eq c hm link hPQ]
    simp only [worth_new c hnn, worth_newUser c hmn hi y hy, offset_new c hmn]
    have := hbal.item y
    convert this using 3
    ring

/-- C152: a recommender `PMF` whose optimizer reported success, with a rule that bounds the gradient by `δ`.  The errors of its predictions
for the training events sum up to at most `δ`; the errors for the events of one user sum up to `C` times what the user adds to the
prediction for a new user, up to `δ`, and those for the events of one item to `C` times what the item adds to that for a new item. -/
theorem C152_pmf_success (cf : Config γ) {δ : ℝ} (hst : Stops δ cf.opt) {mk : Int → γ} {env : γ} {r r' : Rec ℝ α φ ε γ Params Val}
    {d : ScoreData ℝ α φ ε} {T : List (α × α × ℝ)} (hne : T ≠ []) (h : ScoreBuilt d (rowsOf T) (T.map (·.2.2)))
    (hlay : d.eventOtypes = [0, 1]) (idx : Option (List Int)) (hidx : idx = none ∨ idx = some [0, 1])
    (hfit : Rec.fitPredictor (pmf cf) mk env r d idx = .ok r') (hok : r'.fitResults.get? "success" = some (.bool true)) :
    ∃ s, Scores (pmf cf) r' s ∧ |errors s T (fun _ => true)| ≤ δ ∧
      ∀ m n, ¬ KnownUser T m → ¬ KnownItem T n →
        (∀ x, KnownUser T x → |errors s T (fun t => decide (t.1 = x)) - cf.C * (s x n - s m n)| ≤ δ) ∧
        ∀ i, KnownItem T i → |errors s T (fun t => decide (t.2.1 = i)) - cf.C * (s m i - s m n)| ≤ δ := by
  have hb := h.inv.1
  obtain ⟨hsu, hsi⟩ := pmf_several h (columns_default hb hlay hidx) hfit
  obtain ⟨r'', nu, ni, evs, start, σ, hfit', ht, _, _, _, _, _, hrec, hp⟩ := C113_pmf_start cf mk env r h
    (by simpa [rowsOf] using hne) idx 0 1 (columns_default hb hlay hidx) hsu hsi
  rw [hfit] at hfit'
  cases hfit'
  have hs := scores_of_fit .pmf hb hlay idx hidx (.predictor hfit) hp
  have hsucc := hrec.success
  rw [hok] at hsucc
  simp only [Option.some.injEq, Val.bool.injEq] at hsucc
  have hw := hst _ _ _ _ _ _ hsucc.symm
  exact ⟨_, hs, predictions_balanced _ (trainedOn_matches hlay ht) ((C152_small_gradient δ cf.C _).1 evs hw) rfl rfl⟩

/-- C152 for `LogisticPMF`: its predictions are probabilities `safeSigmoid (z x i)`; their errors sum up to at most `δ`, so their mean
is the share of positive events up to `δ` divided by the number of events; and the errors for the events of one user or item sum up to
`C` times what it adds to `z`. -/
theorem C152_logistic_success (cf : Config γ) {δ : ℝ} (hst : Stops δ cf.opt) {mk : Int → γ} {env : γ} {r r' : Rec ℝ α φ ε γ Params Val}
    {d : ScoreData ℝ α φ ε} {T : List (α × α × ℝ)} (h : ScoreBuilt d (rowsOf T) (T.map (·.2.2)))
    (hlay : d.eventOtypes = [0, 1]) (idx : Option (List Int)) (hidx : idx = none ∨ idx = some [0, 1])
    (hfit : Rec.fitExplicit (logistic cf) mk env r d idx = .ok r') (hok : r'.fitResults.get? "success" = some (.bool true)) :
    ∃ s z : α → α → ℝ, Scores (logistic cf) r' s ∧ (∀ x i, s x i = safeSigmoid (z x i)) ∧ |errors s T (fun _ => true)| ≤ δ ∧
      ∀ m n, ¬ KnownUser T m → ¬ KnownItem T n →
        (∀ x, KnownUser T x → |errors s T (fun t => decide (t.1 = x)) - cf.C * (z x n - z m n)| ≤ δ) ∧
        ∀ i, KnownItem T i → |errors s T (fun t => decide (t.2.1 = i)) - cf.C * (z m i - z m n)| ≤ δ := by
  have hb := h.inv.1
  have hacc : acceptsBinary d = true := by
    by_contra hn
    unfold Rec.fitExplicit Rec.explicitSuperFit at hfit
    generalize Rec.eventFit mk env r d.toEventData idx = x at hfit
    cases x with
    | error e => cases hfit
    | ok r1 =>
      simp only [if_neg hn] at hfit
      cases hfit
  obtain ⟨h1, h2, sc, h3, h4, h5, h6⟩ := (acceptsBinary_iff d).1 hacc
  have hsc : sc = T.map (·.2.2) := by
    have := h.inv.2.1
    rw [h3] at this
    exact Option.some.inj this
  subst hsc
  obtain ⟨hsu, hsi⟩ := logistic_several h (columns_default hb hlay hidx) hacc hfit
  obtain ⟨r'', nu, ni, evs, start, hfit', ht, _, _, _, _, hrec, hp⟩ := C113_logistic_start cf mk env r h h1 h2 h4 h5 h6
    idx 0 1 (columns_default hb hlay hidx) hsu hsi
  rw [hfit] at hfit'
  cases hfit'
  have hs := scores_of_fit .logistic hb hlay idx hidx (.explicit hfit) hp
  have hsucc := hrec.success
  rw [hok] at hsucc
  simp only [Option.some.injEq, Val.bool.injEq] at hsucc
  have hw := hst _ _ _ _ _ _ hsucc.symm
  exact ⟨_, _, hs, fun _ _ => rfl,
    predictions_balanced _ (trainedOn_matches hlay ht) ((C152_small_gradient δ cf.C _).2.1 evs hw) rfl rfl⟩

/-! ### Bounds from the loss -/

theorem abs_add_le_of_sq {a b q P : ℝ} (h : a ^ 2 + b ^ 2 + 2 * |q| ≤ P) : |a + b + q| ≤ Real.sqrt (2 * P) + P / 2 := by
  have h1 : |a| + |b| ≤ Real.sqrt (2 * P) := by
    apply Real.le_sqrt_of_sq_le
    have := abs_nonneg q
    nlinarith [sq_nonneg (|a| - |b|), sq_abs a, sq_abs b]
  have h2 : |q| ≤ P / 2 := by nlinarith [sq_nonneg a, sq_nonneg b]
  calc |a + b + q| ≤ |a + b| + |q| := abs_add_le _ _
    _ ≤ |a| + |b| + |q| := by linarith [abs_add_le a b]
    _ ≤ _ := by linarith

theorem reg_ge {nu ni k : Nat} (v : Views nu ni k) (u : Fin nu) (i : Fin ni) :
    v.bu u ^ 2 + v.bi i ^ 2 + 2 * |∑ f, v.p u f * v.q i f| ≤ reg v := by
  have h1 : v.bu u ^ 2 ≤ ∑ u, v.bu u ^ 2 := Finset.single_le_sum (f := fun u => v.bu u ^ 2) (fun _ _ => sq_nonneg _) (Finset.mem_univ u)
  have h2 : v.bi i ^ 2 ≤ ∑ i, v.bi i ^ 2 := Finset.single_le_sum (f := fun u => v.bi u ^ 2) (fun _ _ => sq_nonneg _) (Finset.mem_univ i)
  have h3 : ∑ f, v.p u f ^ 2 ≤ ∑ u, ∑ f, v.p u f ^ 2 := Finset.single_le_sum (f := fun u => ∑ f, v.p u f ^ 2)
    (fun _ _ => Finset.sum_nonneg (fun _ _ => sq_nonneg _)) (Finset.mem_univ u)
  have h4 : ∑ f, v.q i f ^ 2 ≤ ∑ u, ∑ f, v.q u f ^ 2 := Finset.single_le_sum (f := fun u => ∑ f, v.q u f ^ 2)
    (fun _ _ => Finset.sum_nonneg (fun _ _ => sq_nonneg _)) (Finset.mem_univ i)
  have h5 : 2 * |∑ f, v.p u f * v.q i f| ≤ ∑ f, v.p u f ^ 2 + ∑ f, v.q i f ^ 2 := by
    rw [← Finset.sum_add_distrib]
    calc 2 * |∑ f, v.p u f * v.q i f| ≤ 2 * ∑ f, |v.p u f * v.q i f| := by
          have := Finset.abs_sum_le_sum_abs (fun f => v.p u f * v.q i f) Finset.univ
          linarith
      _ = ∑ f, 2 * |v.p u f * v.q i f| := by rw [Finset.mul_sum]
      _ ≤ _ := Finset.sum_le_sum (fun f _ => by
          rw [abs_mul]
          nlinarith [sq_nonneg (|v.p u f| - |v.q i f|), sq_abs (v.p u f), sq_abs (v.q i f)])
  unfold reg
  linarith

theorem reg_ge_bu {nu ni k : Nat} (v : Views nu ni k) (u : Fin nu) : v.bu u ^ 2 ≤ reg v := by
  have h1 : v.bu u ^ 2 ≤ ∑ u, v.bu u ^ 2 := Finset.single_le_sum (f := fun u => v.bu u ^ 2) (fun _ _ => sq_nonneg _) (Finset.mem_univ u)
  have h2 : 0 ≤ ∑ i, v.bi i ^ 2 := Finset.sum_nonneg (fun _ _ => sq_nonneg _)
  have h3 : 0 ≤ ∑ u, ∑ f, v.p u f ^ 2 := Finset.sum_nonneg (fun _ _ => Finset.sum_nonneg (fun _ _ => sq_nonneg _))
  have h4 : 0 ≤ ∑ u, ∑ f, v.q u f ^ 2 := Finset.sum_nonneg (fun _ _ => Finset.sum_nonneg (fun _ _ => sq_nonneg _))
  unfold reg
  linarith

theorem reg_ge_bi {nu ni k : Nat} (v : Views nu ni k) (i : Fin ni) : v.bi i ^ 2 ≤ reg v := by
  have h1 : v.bi i ^ 2 ≤ ∑ u, v.bi u ^ 2 := Finset.single_le_sum (f := fun u => v.bi u ^ 2) (fun _ _ => sq_nonneg _) (Finset.mem_univ i)
  have h2 : 0 ≤ ∑ i, v.bu i ^ 2 := Finset.sum_nonneg (fun _ _ => sq_nonneg _)
  have h3 : 0 ≤ ∑ u, ∑ f, v.p u f ^ 2 := Finset.sum_nonneg (fun _ _ => Finset.sum_nonneg (fun _ _ => sq_nonneg _))
  have h4 : 0 ≤ ∑ u, ∑ f, v.q u f ^ 2 := Finset.sum_nonneg (fun _ _ => Finset.sum_nonneg (fun _ _ => sq_nonneg _))
  unfold reg
  linarith

/-- The score of any request stays near the global mean. -/
theorem score_near {T : List (α × α × ℝ)} {nu ni k : Nat} (c : Coef nu ni k) {evs : List (Event nu ni)}
    (hm : List.Forall₂ (Matches T) T evs) {P : ℝ} (hP : reg (unpack c) ≤ P) (x i : α) :
    |offset (store c) (rowsOf T) x + worth (store c) (rowsOf T) x i - (unpack c).mu| ≤ Real.sqrt (2 * P) + P / 2 := by
  by_cases hx : KnownUser T x <;> by_cases hi : KnownItem T i
  · obtain ⟨u, hu, _⟩ := user_known hm hx
    obtain ⟨y, hy, _⟩ := item_known hm hi
    rw [offset_known c hx u hu, worth_known c hx hi u hu y hy]
    have := abs_add_le_of_sq ((reg_ge (unpack c) u y).trans hP)
    convert this using 2
    ring
  · obtain ⟨u, hu, _⟩ := user_known hm hx
    rw [offset_known c hx u hu, worth_new c hi]
    have := abs_add_le_of_sq (a := (unpack c).bu u) (b := 0) (q := 0) (by simpa using (reg_ge_bu (unpack c) u).trans hP)
    convert this using 2
    ring
  · obtain ⟨y, hy, _⟩ := item_known hm hi
    rw [offset_new c hx, worth_newUser c hx hi y hy]
    have := abs_add_le_of_sq (a := 0) (b := (unpack c).bi y) (q := 0) (by simpa using (reg_ge_bi (unpack c) y).trans hP)
    convert this using 2
    ring
  · rw [offset_new c hx, worth_new c hi]
    have h0 : 0 ≤ reg (unpack c) := by unfold reg; positivity
    have := abs_add_le_of_sq (a := 0) (b := 0) (q := 0) (by simpa using h0.trans hP)
    convert this using 2
    ring

/-- C152: what the reported loss says about the predictions of `PMF`, whether the optimizer succeeded or not: the squared errors for the
training events sum up to at most twice the loss, and no prediction, for known or new users and items, is farther from
the prediction for a new user and a new item than the loss `l` allows: `2 √(l / C) + l / C`. -/
theorem C152_pmf_loss (cf : Config γ) (hC : 0 < cf.C) (hho : Honest cf.opt) {mk : Int → γ} {env : γ} {r r' : Rec ℝ α φ ε γ Params Val}
    {d : ScoreData ℝ α φ ε} {T : List (α × α × ℝ)} (hne : T ≠ []) (h : ScoreBuilt d (rowsOf T) (T.map (·.2.2)))
    (hlay : d.eventOtypes = [0, 1]) (idx : Option (List Int)) (hidx : idx = none ∨ idx = some [0, 1])
    (hfit : Rec.fitPredictor (pmf cf) mk env r d idx = .ok r') :
    ∃ s l, Scores (pmf cf) r' s ∧ r'.fitResults.get? "final_loss" = some (.real l) ∧ 0 ≤ l ∧
      (T.map (fun t => (t.2.2 - s t.1 t.2.1) ^ 2)).sum ≤ 2 * l ∧
      ∀ m n, ¬ KnownUser T m → ¬ KnownItem T n → ∀ x i, |s x i - s m n| ≤ 2 * Real.sqrt (l / cf.C) + l / cf.C := by
  have hb := h.inv.1
  obtain ⟨hsu, hsi⟩ := pmf_several h (columns_default hb hlay hidx) hfit
  obtain ⟨r'', nu, ni, evs, start, σ, hfit', ht, _, _, _, _, _, hrec, hp⟩ := C113_pmf_start cf mk env r h
    (by simpa [rowsOf] using hne) idx 0 1 (columns_default hb hlay hidx) hsu hsi
  rw [hfit] at hfit'
  cases hfit'
  have hs := scores_of_fit .pmf hb hlay idx hidx (.predictor hfit) hp
  have hfin := hrec.final
  rw [hho] at hfin
  generalize hc : (cf.opt _ (PMF.loss cf.C evs) (PMF.gradLoss cf.C evs) start cf.method cf.kwargs).x = c at hs hfin
  have hm := trainedOn_matches hlay ht
  have hsq : (T.map (fun t => (t.2.2 - id (offset (store c) (rowsOf T) t.1 + worth (store c) (rowsOf T) t.1 t.2.1)) ^ 2)).sum =
      (evs.map (fun e => (e.score - est (unpack c) e.user e.item) ^ 2)).sum := by
    have := sum_filter_forall₂ hm (P := fun _ => true) (Q := fun _ => true)
      (F := fun t => (t.2.2 - id (offset (store c) (rowsOf T) t.1 + worth (store c) (rowsOf T) t.1 t.2.1)) ^ 2)
      (G := fun e => (e.score - est (unpack c) e.user e.item) ^ 2) (by
        rintro t e htT ⟨h1, h2, h3⟩
        have hx : KnownUser T t.1 := ⟨t, htT, rfl⟩
        have hi : KnownItem T t.2.1 := ⟨t, htT, rfl⟩
        refine ⟨rfl, ?_⟩
        rw [offset_known c hx e.user h1, worth_known c hx hi e.user h1 e.item h2, h3]
        unfold est
        simp only [id]
        ring)
    simpa using this
  have hreg : 0 ≤ reg (unpack c) := by unfold reg; positivity
  have herr : 0 ≤ (evs.map (fun e => (e.score - est (unpack c) e.user e.item) ^ 2)).sum :=
    List.sum_nonneg (by rintro x hx; obtain ⟨e, _, rfl⟩ := List.mem_map.1 hx; positivity)
  have hl : PMF.loss cf.C evs c = 1 / 2 * (evs.map (fun e => (e.score - est (unpack c) e.user e.item) ^ 2)).sum + cf.C / 2 * reg (unpack c) := by
    unfold PMF.loss
    ring
  have hCr := mul_nonneg hC.le hreg
  refine ⟨_, PMF.loss cf.C evs c, hs, hfin, ?_, ?_, fun m n hmn hnn x i => ?_⟩
  · rw [hl]; linarith
  · rw [hsq, hl]; linarith
  · have hP : reg (unpack c) ≤ 2 * (PMF.loss cf.C evs c / cf.C) := by
      rw [← mul_div_assoc, le_div_iff₀ hC, hl]
      linarith
    have := score_near c hm hP x i
    simp only [id, offset_new c hmn, worth_new c hnn, add_zero]
    refine this.trans (le_of_eq ?_)
    rw [show 2 * (2 * (PMF.loss cf.C evs c / cf.C)) = 2 ^ 2 * (PMF.loss cf.C evs c / cf.C) by ring,
      Real.sqrt_mul (by norm_num), Real.sqrt_sq (by norm_num)]
    ring

/-- The probability that the predictions `s` give to what happened in a training event. -/
noncomputable def truth (s : α → α → ℝ) (t : α × α × ℝ) : ℝ :=
  if t.2.2 = 1 then s t.1 t.2.1 else 1 - s t.1 t.2.1

/-- C152 for the loss of `LogisticPMF`, whether the optimizer succeeded or not: the surprises `-log` of the probabilities given to the
training events sum up to at most the loss `l`, so none of them got less than `exp (-l)`; and the linear score `z` of any user and item is
within `2 √(l / C) + l / C` of that of a new user and a new item. -/
theorem C152_logistic_loss (cf : Config γ) (hC : 0 < cf.C) (hho : Honest cf.opt) {mk : Int → γ} {env : γ} {r r' : Rec ℝ α φ ε γ Params Val}
    {d : ScoreData ℝ α φ ε} {T : List (α × α × ℝ)} (h : ScoreBuilt d (rowsOf T) (T.map (·.2.2)))
    (hlay : d.eventOtypes = [0, 1]) (idx : Option (List Int)) (hidx : idx = none ∨ idx = some [0, 1])
    (hfit : Rec.fitExplicit (logistic cf) mk env r d idx = .ok r') :
    ∃ (s z : α → α → ℝ) (l : ℝ), Scores (logistic cf) r' s ∧ (∀ x i, s x i = safeSigmoid (z x i)) ∧
      r'.fitResults.get? "final_loss" = some (.real l) ∧ 0 ≤ l ∧ (T.map (fun t => -Real.log (truth s t))).sum ≤ l ∧
      (∀ t ∈ T, Real.exp (-l) ≤ truth s t) ∧
      ∀ m n, ¬ KnownUser T m → ¬ KnownItem T n → ∀ x i, |z x i - z m n| ≤ 2 * Real.sqrt (l / cf.C) + l / cf.C := by
  have hb := h.inv.1
  have hacc : acceptsBinary d = true := by
    by_contra hn
    unfold Rec.fitExplicit Rec.explicitSuperFit at hfit
    generalize Rec.eventFit mk env r d.toEventData idx = x at hfit
    cases x with
    | error e => cases hfit
    | ok r1 =>
      simp only [if_neg hn] at hfit
      cases hfit
  obtain ⟨h1, h2, sc, h3, h4, h5, h6⟩ := (acceptsBinary_iff d).1 hacc
  have hsc : sc = T.map (·.2.2) := by
    have := h.inv.2.1
    rw [h3] at this
    exact Option.some.inj this
  subst hsc
  obtain ⟨hsu, hsi⟩ := logistic_several h (columns_default hb hlay hidx) hacc hfit
  obtain ⟨r'', nu, ni, evs, start, hfit', ht, _, _, _, _, hrec, hp⟩ := C113_logistic_start cf mk env r h h1 h2 h4 h5 h6
    idx 0 1 (columns_default hb hlay hidx) hsu hsi
  rw [hfit] at hfit'
  cases hfit'
  have hs := scores_of_fit .logistic hb hlay idx hidx (.explicit hfit) hp
  have hfin := hrec.final
  rw [hho] at hfin
  generalize hc : (cf.opt _ (Logistic.loss cf.C evs) (Logistic.gradLoss cf.C evs) start cf.method cf.kwargs).x = c at hs hfin
  have hm := trainedOn_matches hlay ht
  set s : α → α → ℝ := fun x i => safeSigmoid (offset (store c) (rowsOf T) x + worth (store c) (rowsOf T) x i) with hsdef
  have htruth : ∀ t, 0 < truth s t ∧ truth s t < 1 := by
    intro t
    have a1 := safeSigmoid_pos (offset (store c) (rowsOf T) t.1 + worth (store c) (rowsOf T) t.1 t.2.1)
    have a2 := safeSigmoid_lt_one (offset (store c) (rowsOf T) t.1 + worth (store c) (rowsOf T) t.1 t.2.1)
    unfold truth
    split
    · exact ⟨a1, a2⟩
    · simp only [hsdef]
      constructor <;> linarith
  have hsum : (T.map (fun t => -Real.log (truth s t))).sum =
      (evs.map (fun e => -logLik e.score (safeSigmoid (est (unpack c) e.user e.item)))).sum := by
    have := sum_filter_forall₂ hm (P := fun _ => true) (Q := fun _ => true)
      (F := fun t => -Real.log (truth s t))
      (G := fun e => -logLik e.score (safeSigmoid (est (unpack c) e.user e.item))) (by
        rintro t e htT ⟨g1, g2, g3⟩
        have hx : KnownUser T t.1 := ⟨t, htT, rfl⟩
        have hi : KnownItem T t.2.1 := ⟨t, htT, rfl⟩
        refine ⟨rfl, ?_⟩
        have hst : s t.1 t.2.1 = safeSigmoid (est (unpack c) e.user e.item) := by
          simp only [hsdef]
          rw [offset_known c hx e.user g1, worth_known c hx hi e.user g1 e.item g2]
          unfold est
          congr 1
          ring
        unfold truth logLik
        rw [hst, g3]
        rcases h4 t.2.2 (List.mem_map.2 ⟨t, htT, rfl⟩) with h0 | h0 <;> rw [h0] <;> simp)
    simpa using this
  have hl : Logistic.loss cf.C evs c = (T.map (fun t => -Real.log (truth s t))).sum + cf.C / 2 * reg (unpack c) := by
    rw [hsum]
    rw [Logistic.loss]
    have : ∀ l : List (Event nu ni), (l.map (fun e => -logLik e.score (safeSigmoid (est (unpack c) e.user e.item)))).sum =
        -(l.map (fun e => logLik e.score (safeSigmoid (est (unpack c) e.user e.item)))).sum := by
      intro l
      induction l with
      | nil => simp
      | cons e l ih => simp only [List.map_cons, List.sum_cons, ih]; ring
    rw [this]
    rw [show (0.5 : ℝ) = 1 / 2 by norm_num]
    ring
  have hreg : 0 ≤ reg (unpack c) := by unfold reg; positivity
  have hCr := mul_nonneg hC.le hreg
  have hpos : ∀ t ∈ T, 0 ≤ -Real.log (truth s t) := fun t _ => by
    have := Real.log_nonpos (htruth t).1.le (htruth t).2.le
    linarith
  have herr : 0 ≤ (T.map (fun t => -Real.log (truth s t))).sum :=
    List.sum_nonneg (by rintro x hx; obtain ⟨t, ht, rfl⟩ := List.mem_map.1 hx; exact hpos t ht)
  refine ⟨s, fun x i => offset (store c) (rowsOf T) x + worth (store c) (rowsOf T) x i, Logistic.loss cf.C evs c, hs, fun _ _ => rfl, hfin,
    ?_, ?_, fun t htT => ?_, fun m n hmn hnn x i => ?_⟩
  · rw [hl]; linarith
  · rw [hl]; linarith
  · have hle : -Real.log (truth s t) ≤ (T.map (fun t => -Real.log (truth s t))).sum :=
      List.single_le_sum (by rintro x hx; obtain ⟨t, ht, rfl⟩ := List.mem_map.1 hx; exact hpos t ht) _ (List.mem_map.2 ⟨t, htT, rfl⟩)
    rw [← Real.le_log_iff_exp_le (htruth t).1, hl]
    linarith
  · have hP : reg (unpack c) ≤ 2 * (Logistic.loss cf.C evs c / cf.C) := by
      rw [← mul_div_assoc, le_div_iff₀ hC, hl]
      linarith
    have := score_near c hm hP x i
    simp only [offset_new c hmn, worth_new c hnn, add_zero]
    refine this.trans (le_of_eq ?_)
    rw [show 2 * (2 * (Logistic.loss cf.C evs c / cf.C)) = 2 ^ 2 * (Logistic.loss cf.C evs c / cf.C) by ring,
      Real.sqrt_mul (by norm_num), Real.sqrt_sq (by norm_num)]
    ring

/-! ### Examples -/

open Classical in
/-- An optimizer that finds a point with a small gradient, if there is one. -/
noncomputable def exFinds (δ : ℝ) : Config Unit where
  C := 1
  k := 1
  method := "CG"
  kwargs := []
  opt := fun _ f g x0 _ _ => if h : ∃ x, Within δ (g x) then ⟨h.choose, true, 0, "", f h.choose, 1, 1, 1⟩ else ⟨x0, false, 1, "", f x0, 1, 1, 1⟩
  rng := ⟨fun _ _ _ _ _ => (fun _ _ => 1, ())⟩

theorem exFinds_stops (δ : ℝ) : Stops δ (exFinds δ).opt := by
  intro N f g x0 method kw h
  simp only [exFinds] at h ⊢
  split
  · rename_i h'
    exact h'.choose_spec
  · rename_i h'
    rw [dif_neg h'] at h
    cases h

theorem exFinds_honest (δ : ℝ) : Honest (exFinds δ).opt := by
  intro N f g x0 method kw
  simp only [exFinds]
  split <;> rfl

theorem exFinds_success {δ : ℝ} {N : Nat} {f : (Fin N → ℝ) → ℝ} {g : (Fin N → ℝ) → Fin N → ℝ} (h : ∃ x, Within δ (g x)) (x0 : Fin N → ℝ)
    (method : String) (kw : List (String × String)) : ((exFinds δ).opt N f g x0 method kw).success = true := by
  simp only [exFinds]
  rw [dif_pos h]

/-- Two events of two users, scores 0 and 1. -/
def exTwo : List (Nat × Nat × ℝ) := [(1, 10, 0), (2, 20, 1)]

theorem exTwo_built : ScoreBuilt PLSA.exScores (rowsOf exTwo) (exTwo.map (·.2.2)) := PLSA.exScores_built

/-- `PMF` with an optimizer that finds a stationary point: its hypotheses hold, and the biases seen in predictions cancel the errors. -/
example : ∃ (r' : Rec ℝ Nat Nat Nat Unit Params Val) (s : Nat → Nat → ℝ),
    Rec.fitPredictor (pmf (exFinds 0)) (fun _ => ()) () (Rec.init (some 1) initialResults) PLSA.exScores none = .ok r' ∧
    r'.fitResults.get? "success" = some (.bool true) ∧ Scores (pmf (exFinds 0)) r' s ∧
    (0 - s 1 10) + (1 - s 2 20) = 0 ∧ 0 - s 1 10 = s 1 11 - s 3 11 := by
  obtain ⟨r', nu, ni, evs, start, σ, hfit, _, _, _, _, _, _, hrec, _⟩ := C113_pmf_start (exFinds 0) (fun _ => ()) ()
    (Rec.init (some 1) initialResults) exTwo_built (by simp [rowsOf, exTwo]) none 0 1 rfl (exScores_several 0) (exScores_several 1)
  obtain ⟨c, hc⟩ := (C86_optimum_exists (nu := nu) (ni := ni) (k := (exFinds 0).k) 1 one_pos).1 evs
  have hg := ((C87_optimum 1 one_pos evs c).2 hc).1
  have hok : r'.fitResults.get? "success" = some (.bool true) := by
    rw [hrec.success, exFinds_success ⟨c, by
      show Within 0 (PMF.gradLoss 1 evs c)
      rw [hg]
      intro j
      simp⟩]
  obtain ⟨s, h1, h2, h3⟩ := C152_pmf_success (exFinds 0) (exFinds_stops 0) (T := exTwo) (by simp [exTwo]) exTwo_built rfl none (.inl rfl) hfit hok
  obtain ⟨h4, _⟩ := h3 3 11 (by simp [KnownUser, exTwo]) (by simp [KnownItem, exTwo])
  refine ⟨r', s, hfit, hok, h1, ?_, ?_⟩
  · have := abs_nonpos_iff.1 h2
    simpa [errors, exTwo] using this
  · have := abs_nonpos_iff.1 (h4 1 ⟨(1, 10, 0), by simp [exTwo], rfl⟩)
    simp only [errors, exTwo] at this
    simp [exFinds] at this
    linarith

theorem abs_sum_le_list {β : Type} (evs : List β) (w : β → ℝ) : |(evs.map w).sum| ≤ (evs.map (fun e => |w e|)).sum := by
  induction evs with
  | nil => simp
  | cons e l ih =>
    rw [List.map_cons, List.sum_cons, List.map_cons, List.sum_cons]
    exact (abs_add_le _ _).trans (by linarith)

theorem abs_bincount_le {β : Type} {n : Nat} (evs : List β) (id : β → Fin n) (w : β → ℝ) (j : Fin n) :
    |bincount evs id w j| ≤ (evs.map (fun e => |w e|)).sum := by
  unfold bincount
  induction evs with
  | nil => simp
  | cons e l ih =>
    rw [List.map_cons, List.sum_cons]
    by_cases h : id e = j
    · rw [List.filter_cons_of_pos (by simpa using h), List.map_cons, List.sum_cons]
      exact (abs_add_le _ _).trans (by linarith)
    · rw [List.filter_cons_of_neg (by simpa using h)]
      have := abs_nonneg (w e)
      linarith

/-- `LogisticPMF` with an optimizer that finds gradients of at most 1: the mean prediction is off by at most 1/2. -/
example : ∃ (r' : Rec ℝ Nat Nat Nat Unit Params Val) (s : Nat → Nat → ℝ),
    Rec.fitExplicit (logistic (exFinds 1)) (fun _ => ()) () (Rec.init (some 1) initialResults) PLSA.exScores none = .ok r' ∧
    r'.fitResults.get? "success" = some (.bool true) ∧ Scores (logistic (exFinds 1)) r' s ∧
    |(s 1 10 + s 2 20) / 2 - 1 / 2| ≤ 1 / 2 := by
  obtain ⟨r', nu, ni, evs, start, hfit, ht, _, _, _, _, hrec, _⟩ := C113_logistic_start (exFinds 1) (fun _ => ()) ()
    (Rec.init (some 1) initialResults) exTwo_built rfl rfl (by intro s hs; simpa [exTwo] using hs) (by simp [exTwo]) (by simp [exTwo]) none 0 1 rfl (exScores_several 0) (exScores_several 1)
  have hm := trainedOn_matches (T := exTwo) rfl ht
  have hw : ∀ e ∈ evs, |safeSigmoid (est (unpack (0 : Coef nu ni 1)) e.user e.item) - e.score| ≤ 1 / 2 := by
    intro e he
    have h0 : est (unpack (0 : Coef nu ni 1)) e.user e.item = 0 := by simp [est, unpack]
    have h1 : safeSigmoid 0 = 1 / 2 := by
      have hd := sigmoidDom_pos
      simp only [safeSigmoid, clip]
      rw [max_eq_left (by linarith), min_eq_left (by linarith)]
      norm_num
    rw [h0, h1]
    obtain ⟨j, hj, rfl⟩ := List.mem_iff_getElem.1 he
    have hm' := List.forall₂_iff_get.1 hm
    obtain ⟨_, _, h3⟩ := hm'.2 j (hm'.1.symm ▸ hj) hj
    have h4 : exTwo.get ⟨j, hm'.1.symm ▸ hj⟩ ∈ exTwo := List.get_mem _ _
    simp only [exTwo, List.mem_cons, List.not_mem_nil, or_false] at h4
    have h5 : evs[j].score = (exTwo.get ⟨j, hm'.1.symm ▸ hj⟩).2.2 := h3
    have h6 : (exTwo.get ⟨j, hm'.1.symm ▸ hj⟩).2.2 = 0 ∨ (exTwo.get ⟨j, hm'.1.symm ▸ hj⟩).2.2 = 1 := by
      rcases h4 with h4 | h4
      · left; exact congrArg (fun t => t.2.2) h4
      · right; exact congrArg (fun t => t.2.2) h4
    rw [h5]
    rcases h6 with h6 | h6 <;> rw [h6] <;> norm_num [abs_le]
  have hsum : (evs.map (fun e => |safeSigmoid (est (unpack (0 : Coef nu ni 1)) e.user e.item) - e.score|)).sum ≤ 1 := by
    have hl : evs.length = 2 := (List.forall₂_iff_get.1 hm).1.symm
    have := List.sum_le_card_nsmul (evs.map (fun e => |safeSigmoid (est (unpack (0 : Coef nu ni 1)) e.user e.item) - e.score|)) (1 / 2)
      (by intro x hx; obtain ⟨e, he, rfl⟩ := List.mem_map.1 hx; exact hw e he)
    rw [List.length_map, hl] at this
    norm_num at this ⊢
    exact this
  have hzero : Within 1 (Logistic.gradLoss 1 evs (0 : Coef nu ni 1)) := by
    intro j
    unfold Logistic.gradLoss pack
    generalize slotAt j = t
    cases t with
    | mu =>
      simp only [Views.get, addReg, gradTerms]
      refine le_trans ?_ hsum
      exact abs_sum_le_list _ _
    | bu u =>
      simp only [Views.get, addReg, gradTerms, unpack, Pi.zero_apply, mul_zero, add_zero]
      exact (abs_bincount_le _ _ _ _).trans hsum
    | bi u =>
      simp only [Views.get, addReg, gradTerms, unpack, Pi.zero_apply, mul_zero, add_zero]
      exact (abs_bincount_le _ _ _ _).trans hsum
    | p u f =>
      simp only [Views.get, addReg, gradTerms, unpack, Pi.zero_apply, mul_zero, add_zero]
      refine (abs_bincount_le _ _ _ _).trans ?_
      simp
    | q u f =>
      simp only [Views.get, addReg, gradTerms, unpack, Pi.zero_apply, mul_zero, add_zero]
      refine (abs_bincount_le _ _ _ _).trans ?_
      simp
  have hok : r'.fitResults.get? "success" = some (.bool true) := by
    rw [hrec.success]
    exact congrArg (fun b => some (Val.bool b)) (exFinds_success (g := Logistic.gradLoss 1 evs) ⟨0, hzero⟩ start _ _)
  obtain ⟨s, z, h1, _, h2, _⟩ := C152_logistic_success (exFinds 1) (exFinds_stops 1) (T := exTwo) exTwo_built rfl none (.inl rfl) hfit hok
  refine ⟨r', s, hfit, hok, h1, ?_⟩
  simp only [errors, exTwo, List.filter_true, List.map_cons, List.map_nil, List.sum_cons, List.sum_nil] at h2
  rw [abs_le] at h2 ⊢
  constructor <;> linarith [h2.1, h2.2]

/-- The hypotheses of `C152_pmf_loss`. -/
example : ∃ r' : Rec ℝ Nat Nat Nat Unit Params Val, Rec.fitPredictor (pmf (exFinds 0)) (fun _ => ()) () (Rec.init (some 1) initialResults)
    PLSA.exScores none = .ok r' ∧ 0 < (exFinds 0).C ∧ Honest (exFinds 0).opt := by
  obtain ⟨r', _, _, _, _, _, hfit, _⟩ := C113_pmf_start (exFinds 0) (fun _ => ()) ()
    (Rec.init (some 1) initialResults) exTwo_built (by simp [rowsOf, exTwo]) none 0 1 rfl (exScores_several 0) (exScores_several 1)
  exact ⟨r', hfit, one_pos, exFinds_honest 0⟩

/-- The hypotheses of `C152_logistic_loss`. -/
example : ∃ r' : Rec ℝ Nat Nat Nat Unit Params Val, Rec.fitExplicit (logistic (exFinds 1)) (fun _ => ()) () (Rec.init (some 1) initialResults)
    PLSA.exScores none = .ok r' ∧ 0 < (exFinds 1).C ∧ Honest (exFinds 1).opt := by
  obtain ⟨r', _, _, _, _, hfit, _⟩ := C113_logistic_start (exFinds 1) (fun _ => ()) ()
    (Rec.init (some 1) initialResults) exTwo_built rfl rfl (by intro s hs; simpa [exTwo] using hs) (by simp [exTwo]) (by simp [exTwo]) none 0 1 rfl (exScores_several 0) (exScores_several 1)
  exact ⟨r', hfit, one_pos, exFinds_honest 1⟩

end MF
end Kam
