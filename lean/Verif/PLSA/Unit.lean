/-
C145 for the topic model: training does not depend on the unit of the scores, predictions are in the unit of the scores.
-/
import Verif.Score.Unit
import Verif.PLSA.Props5
import Verif.Fit.Props

set_option linter.unusedSectionVars false

namespace Kam.Rescale
open Spec PLSA
open scoped BigOperators

variable {γ : Type} {α φ ε : Type} [LinearOrder α]

/-- Learned parameters with the levels in the new unit. -/
noncomputable def params (p q : ℝ) (P : Params) : Params := { P with levels := P.levels.map (rescale p q) }

/-- What training reads, in the new unit. -/
noncomputable def view (p q : ℝ) (v : View ℝ γ) : View ℝ γ :=
  { v with score := v.score.map (List.map (rescale p q)), scoreDomain := v.scoreDomain.map (rescaleDomain p q) }

/-- A recommender in the new unit. -/
noncomputable def recommender (p q : ℝ) (r : Rec ℝ α φ ε γ Params Val) : Rec ℝ α φ ε γ Params Val :=
  { r with
    score := r.score.map (List.map (rescale p q))
    scoreDomain := r.scoreDomain.map (rescaleDomain p q)
    params := r.params.map (params p q) }

/-- Predictions in the new unit. -/
noncomputable def pred (p q : ℝ) : Pred ℝ → Pred ℝ
  | .scalar x => .scalar (rescale p q x)
  | .vec xs => .vec (xs.map (rescale p q))

theorem pred_squeeze (p q : ℝ) (ys : List ℝ) : pred p q (squeeze ys) = squeeze (ys.map (rescale p q)) := by
  match ys with
  | [] => rfl
  | [_] => rfl
  | _ :: _ :: _ => rfl

variable {p : ℝ} (hp : 0 < p) (q : ℝ)

section
include hp

theorem digitize_map (dom xs : List ℝ) :
    digitize (rescaleDomain p q dom) (xs.map (rescale p q)) = digitize dom xs := by
  simp only [digitize, generateScoreBins_map hp]
  cases generateScoreBins dom with
  | error e => rfl
  | ok bins => simp only [Except.map, bind, Except.bind, npDigitize_map hp]

omit hp in
theorem npGet_two {β : Type} (a b : β) (l : List β) : npGet (a :: b :: l) 0 = .ok a ∧ npGet (a :: b :: l) 1 = .ok b :=
  ⟨npGet_ofNat (a :: b :: l) 0 (by simp), npGet_ofNat (a :: b :: l) 1 (by simp)⟩

omit hp in
theorem rescaleDomain_two (lo hi : ℝ) (l : List ℝ) :
    ∃ l', rescaleDomain p q (lo :: hi :: l) = rescale p q lo :: rescale p q hi :: l' := by
  cases l with
  | nil => exact ⟨[], rfl⟩
  | cons st rest => exact ⟨_, rfl⟩

theorem train_map (cf : Config γ) (v : View ℝ γ) :
    train cf (view p q v) = (train cf v).map (fun x => (params p q x.1, x.2)) := by
  rcases v with ⟨ev, no, eo, ei, ne, sc, dom, nl, g⟩
  simp only [train, view]
  cases npGet no 0 with
  | error e => rfl
  | ok nu =>
  cases npGet no 1 with
  | error e => rfl
  | ok ni =>
  cases sc with
  | none => rfl
  | some sc =>
  cases dom with
  | none => rfl
  | some dom =>
  cases nl with
  | none => rfl
  | some nl =>
  cases g with
  | none => rfl
  | some g =>
  simp only [bind, Except.bind, Option.map_some, digitize_map hp]
  match dom with
  | [] => rfl
  | [_] => rfl
  | lo :: hi :: l =>
    have hg : npGet (rescaleDomain p q (lo :: hi :: l)) 0 = .ok (rescale p q lo) ∧
        npGet (rescaleDomain p q (lo :: hi :: l)) 1 = .ok (rescale p q hi) := by
      obtain ⟨l', hl'⟩ := rescaleDomain_two (p := p) q lo hi l
      rw [hl']
      exact npGet_two _ _ _
    simp only [hg.1, hg.2, (npGet_two lo hi l).1, (npGet_two lo hi l).2, npLinspace_map hp]
    cases npLinspace lo hi nl with
    | error e => rfl
    | ok levels =>
      simp only [Except.map]
      cases digitize (lo :: hi :: l) sc with
      | error e => rfl
      | ok ds =>
        simp only
        cases parseEvents nu ni nl.toNat ev ds with
        | error e => rfl
        | ok evl =>
          simp only
          split
          · rfl
          · rfl

omit hp in
theorem eventFit_map (mk : Int → γ) (env : γ) (r : Rec ℝ α φ ε γ Params Val) (d : EventData α φ ε)
    (idx : Option (List Int)) :
    Rec.eventFit mk env (recommender p q r) d idx = Relabel.mutMap (recommender p q) (Rec.eventFit mk env r d idx) := by
  cases idx <;>
  · simp only [Rec.eventFit, Rec.baseFit]
    cases d.event with
    | none => rfl
    | some rs =>
      simp only
      split
      · rfl
      · cases npTake d.nObjects (d.eventOtypes.map Int.ofNat) with
        | error e => rfl
        | ok ns =>
          simp only
          split <;> rfl

/-- C145: `fit` of the topic model on the data in the new unit gives the recommender in the new unit: the same
distributions, the same entries of `fit_results_`, the levels in the new unit, and the same exception if training fails. -/
theorem C145_plsa_fit (cf : Config γ) (mk : Int → γ) (env : γ) (r : Rec ℝ α φ ε γ Params Val) (d : ScoreData ℝ α φ ε)
    (idx : Option (List Int)) :
    Rec.fitPredictor (plsa cf) mk env (recommender p q r) (scoreData p q d) idx =
      Relabel.mutMap (recommender p q) (Rec.fitPredictor (plsa cf) mk env r d idx) := by
  simp only [Rec.fitPredictor, Rec.predictorSuperFit]
  have h : (scoreData p q d).toEventData = d.toEventData := rfl
  rw [h, eventFit_map]
  cases Rec.eventFit mk env r d.toEventData idx with
  | error e => rfl
  | ok r' =>
    simp only [Relabel.mutMap, Rec.finish]
    have hv : (Rec.setScoreInfo (recommender p q r') (scoreData p q d)).view = view p q (Rec.setScoreInfo r' d).view := rfl
    rw [hv]
    have ht : (plsa cf).train = train cf := rfl
    rw [ht, train_map hp]
    cases train cf (Rec.setScoreInfo r' d).view with
    | error e => rfl
    | ok x => rfl

omit hp in
/-- The distribution over the levels has mass one, so that its mean is in the unit of the levels. -/
theorem answer_map (b : Bool) (levels dist : List ℝ) (h1 : b = true → dist.sum = 1) :
    answer b (levels.map (rescale p q)) dist = (answer b levels dist).map (rescale p q) := by
  cases b with
  | true =>
    simp only [answer, if_true, List.length_map]
    split
    · rename_i hl
      simp only [Except.map]
      congr 1
      have key : ∀ (ds ls : List ℝ), ds.length = ls.length →
          (List.zipWith (· * ·) ds (ls.map (rescale p q))).sum = p * (List.zipWith (· * ·) ds ls).sum + q * ds.sum := by
        intro ds
        induction ds with
        | nil => intro ls _; simp
        | cons x ds ih =>
          intro ls hls
          cases ls with
          | nil => simp at hls
          | cons y ls =>
            simp only [List.map_cons, List.zipWith_cons_cons, List.sum_cons]
            rw [ih ls (by simpa using hls)]
            unfold rescale; ring
      rw [key _ _ hl, h1 rfl]
      unfold rescale; ring
    · rfl
  | false =>
    simp only [answer, Bool.false_eq_true, if_false]
    cases argmax dist with
    | error e => rfl
    | ok j => simp only [Except.bind, Relabel.npGet_map]

omit hp in
theorem seen_sum {nu ni nl k : Nat} {θ : Theta nu ni nl k} (hθ : Proper θ) (hk : 0 < k) (hl : 0 < nl) (u : Option (Fin nu))
    (i : Option (Fin ni)) : (List.ofFn (fun r => seen θ u i r / ∑ r', seen θ u i r')).sum = 1 := by
  have hx : ∀ z, 0 < MF.extend θ.pX (fun _ => 1) u z := by
    intro z
    cases u with
    | none => exact one_pos
    | some u => exact (hθ.x z).1 u
  have hy : ∀ z, 0 < MF.extend θ.pY (fun _ => 1) i z := by
    intro z
    cases i with
    | none => exact one_pos
    | some i => exact (hθ.y z).1 i
  have hs : ∀ r, 0 < seen θ u i r := by
    intro r
    unfold seen
    have : (Finset.univ : Finset (Fin k)).Nonempty := ⟨⟨0, hk⟩, Finset.mem_univ _⟩
    exact Finset.sum_pos (fun z _ => mul_pos (mul_pos (mul_pos (hθ.z.1 z) ((hθ.r z).1 r)) (hx z)) (hy z)) this
  rw [List.sum_ofFn, ← Finset.sum_div]
  apply div_self
  have : (Finset.univ : Finset (Fin nl)).Nonempty := ⟨⟨0, hl⟩, Finset.mem_univ _⟩
  exact (Finset.sum_pos (fun r _ => hs r) this).ne'

omit hp in
theorem predictRow_map {nu ni nl k : Nat} (b : Bool) {θ : Theta nu ni nl k} (levels : List ℝ)
    (h1 : b = true → ∀ u i, (List.ofFn (fun r => seen θ u i r / ∑ r', seen θ u i r')).sum = 1) (row : List Int) :
    PLSA.predictRow b (store θ (levels.map (rescale p q))) row = (PLSA.predictRow b (store θ levels) row).map (rescale p q) := by
  cases h0 : npGet row 0 with
  | error e => unfold PLSA.predictRow; simp only [h0, bind, Except.bind, Except.map]
  | ok x =>
  rcases MF.npGet_any nu x with ⟨u, hu⟩ | hu
  · cases h2 : npGet row 1 with
    | error e =>
      unfold PLSA.predictRow
      have a1 := hu θ.pX (fun _ => (1 : ℝ))
      simp only [h0, h2, bind, Except.bind, store, a1, Except.map]
    | ok y =>
    rcases MF.npGet_any ni y with ⟨i, hi⟩ | hi
    · rw [predictRow_code b θ _ row u i h0 h2 (hu _ _) (hi _ _),
        predictRow_code b θ levels row u i h0 h2 (hu _ _) (hi _ _)]
      exact answer_map q b levels _ (fun hb => h1 hb u i)
    · unfold PLSA.predictRow
      have a1 := hu θ.pX (fun _ => (1 : ℝ))
      have b1 := hi θ.pY (fun _ => (1 : ℝ))
      simp only [h0, h2, bind, Except.bind, store, a1, b1, Except.map]
  · unfold PLSA.predictRow
    have a1 := hu θ.pX (fun _ => (1 : ℝ))
    simp only [h0, bind, Except.bind, store, a1, Except.map]

omit hp in
theorem mapM_map {β : Type} (f g : β → Res ℝ) (k : ℝ → ℝ) (h : ∀ x, g x = (f x).map k) (l : List β) :
    l.mapM g = (l.mapM f).map (List.map k) := by
  induction l with
  | nil => rfl
  | cons x l ih =>
    rw [List.mapM_cons, List.mapM_cons, ih, h]
    cases f x with
    | error e => rfl
    | ok y =>
      simp only [Except.map, bind, Except.bind]
      cases l.mapM f <;> rfl

/-- C145: predictions of a topic model trained on the data in the new unit are the old predictions in the new unit, for
known and unknown users and items, and the same exceptions: the mode without any condition, the expectation when the
smoothing parameter is positive and there was an event. -/
theorem C145_plsa_predict {cf : Config γ} {mk : Int → γ} {env : γ} {r r' : Rec ℝ α φ ε γ Params Val}
    {d : ScoreData ℝ α φ ε} {rows : List (List α)} {sc : List ℝ} (h : ScoreBuilt d rows sc) {idx : Option (List Int)}
    (hexp : cf.useExpectation = true → 0 < cf.alpha ∧ DrawsWeights cf.rng ∧ rows ≠ [])
    (hfit : Rec.fitPredictor (plsa cf) mk env r d idx = .ok r') :
    ∃ r'', Rec.fitPredictor (plsa cf) mk env (recommender p q r) (scoreData p q d) idx = .ok r'' ∧
      r''.fitResults = r'.fitResults ∧
      ∀ eev, Rec.predict (plsa cf) r'' eev = (Rec.predict (plsa cf) r' eev).map (pred p q) := by
  refine ⟨recommender p q r', by rw [C145_plsa_fit hp, hfit]; rfl, rfl, ?_⟩
  obtain ⟨hb, _, _, _⟩ := h.inv
  obtain ⟨v, P, res, ht, hP, _, _, _, _, hvl⟩ := fitPredictor_view hb.holds hfit
  have key : ∀ row, PLSA.predictRow cf.useExpectation (params p q P) row =
      (PLSA.predictRow cf.useExpectation P row).map (rescale p q) := by
    obtain ⟨nu, ni, nl, evl, g, levels, dom, lo, hi, _, _, _, _, _, _, _, _, θ, it, cur, _, rfl, _⟩ := train_ok ht
    by_cases he : cf.useExpectation = true
    · obtain ⟨ha, hR, hne⟩ := hexp he
      obtain ⟨nu', ni', nl', θ', levels', _, _, _, hst, hθ', hk, hl, _⟩ := fitted_proper ha hR ht (by
        intro h0; rw [h0] at hvl; exact hne (List.length_eq_zero_iff.1 hvl.symm))
      rw [hst]
      exact fun row => predictRow_map q _ levels' (fun _ u i => seen_sum hθ' hk hl u i) row
    · exact fun row => predictRow_map q _ levels (fun hb => absurd hb he) row
  intro eev
  simp only [Rec.predict]
  cases Rec.checkArray eev with
  | error e => rfl
  | ok a =>
    have h1 : (recommender p q r').eventIndex = r'.eventIndex := rfl
    have h2 : (recommender p q r').info = r'.info := rfl
    have h3 : (recommender p q r').params = some (params p q P) := by simp only [recommender, hP, Option.map_some]
    simp only [bind, Except.bind, h1, h2, h3, hP]
    cases r'.eventIndex with
    | none => rfl
    | some ix =>
      simp only
      cases a.rows.mapM (fun row => npTake row ix) with
      | error e => rfl
      | ok rs =>
        simp only
        cases r'.info.toIidEvent (.mat ⟨ix.length, rs⟩) .none with
        | error e => rfl
        | ok o =>
          cases o with
          | vec _ => rfl
          | other => rfl
          | mat b =>
            have hm := mapM_map (PLSA.predictRow cf.useExpectation P) (PLSA.predictRow cf.useExpectation (params p q P)) (rescale p q)
              key b.rows
            simp only [plsa, hm]
            cases b.rows.mapM (PLSA.predictRow cf.useExpectation P) with
            | error e => rfl
            | ok ys => simp only [Except.map, pure, Except.pure, pred_squeeze]

end

/-- The hypotheses hold for `PLSA.exScores`, and stars from 0 to 1 become percentages. -/
example : ∃ r' r'', Rec.fitPredictor (plsa (exConfig 3)) (fun _ => ()) () (Rec.init (some 1) initialResults) exScores none =
      .ok r' ∧
    Rec.fitPredictor (plsa (exConfig 3)) (fun _ => ()) () (Rec.init (some 1) initialResults) (scoreData 100 0 exScores) none =
      .ok r'' ∧
    ∀ eev, Rec.predict (plsa (exConfig 3)) r'' eev = (Rec.predict (plsa (exConfig 3)) r' eev).map (pred 100 0) := by
  obtain ⟨r', _, _, _, _, _, _, _, h, _⟩ := C70_plsa_fit (exConfig 3) Nat.one_pos (fun _ => ()) ()
    (Rec.init (some 1) initialResults) exScores_built (by simp) 0 1 1 1 rfl one_pos (by norm_num) none 0 1
    rfl
  obtain ⟨r'', h1, _, h2⟩ := C145_plsa_predict (p := 100) (by norm_num) 0 exScores_built
    (fun _ => ⟨one_pos, fun _ _ _ => zero_le_one, by simp⟩) h
  exact ⟨r', r'', h, h1, h2⟩

end Kam.Rescale
