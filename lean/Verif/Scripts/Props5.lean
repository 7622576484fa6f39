/-
C97: the statistics script from end to end.
-/
import Verif.Scripts.Examples
import Verif.Scripts.Stats
import Verif.Metrics.Props4
import Verif.Scripts.Report

set_option linter.unusedSectionVars false

namespace Kam.Scripts
open Spec
open Metrics (Fl)

variable {K α φ ε F V T γ M : Type} [Field K] [LinearOrder K] [IsStrictOrderedRing K] [FloorRing K] [LinearOrder α]

/-- The numbers of a list in the file, anything else left out. -/
def numbers (se : StatsEnv V) (j : J V) : List Fl :=
  match j with
  | .list l => l.filterMap (fun x => match x with
    | .leaf v => match se.float v with
      | .ok f => some f
      | .error _ => none
    | _ => none)
  | _ => []

/-- The pairs of true and predicted scores of the folds, fold by fold. -/
def foldPairs (se : StatsEnv V) (l : List (Rec V)) : List (Fl × Fl) :=
  l.flatMap (fun r => (numbers se r.trues).zip (numbers se r.predicted))

/-- A number `x` written by an experiment script is read as the real number `c x`: as itself, or rounded to what the file
can hold. -/
def Reads (env : Env K α ε F V T γ) (se : StatsEnv V) (c : K → ℝ) : Prop := ∀ x, se.float (env.num x) = .ok (.fin (c x))

lemma readFloats_nums {env : Env K α ε F V T γ} {se : StatsEnv V} {c : K → ℝ} (h : Reads env se c) {β : Type} (f : β → K) (xs : List β) :
    readFloats se (xs.map (fun x => J.leaf (env.num (f x)))) = .ok (xs.map (fun x => Fl.fin (c (f x)))) := by
  unfold readFloats
  rw [mapM_map]
  exact mapM_ok _ (fun x _ => h (f x))

lemma numbers_nums {env : Env K α ε F V T γ} {se : StatsEnv V} {c : K → ℝ} (h : Reads env se c) {β : Type} (f : β → K) (xs : List β) :
    numbers se (.list (xs.map (fun x => J.leaf (env.num (f x))))) = xs.map (fun x => Fl.fin (c (f x))) := by
  unfold numbers
  induction xs with
  | nil => rfl
  | cons x xs ih =>
    simp only [] at ih
    simp only [List.map_cons, List.filterMap_cons, h (f x)]
    rw [ih]

lemma readDomain_enc {env : Env K α ε F V T γ} {se : StatsEnv V} {c : K → ℝ} (h : Reads env se c) (dom : List K) :
    readDomain se (encScores env dom) = .ok (dom.map c) := by
  unfold readDomain encScores
  simp only []
  rw [readFloats_nums h (fun x => x), ok_bind, mapM_map]
  exact mapM_ok _ (fun x _ => rfl)

lemma zip_pairs {β : Type} (f g : β → ℝ) (xs : List β) :
    (xs.map (fun x => Fl.fin (f x))).zip (xs.map (fun x => Fl.fin (g x))) = xs.map (fun x => (Fl.fin (f x), Fl.fin (g x))) := by
  rw [List.zip_map']

/-- The pairs the statistics of a cross validation are computed on. -/
lemma statsInput_pairs {env : Env K α ε F V T γ} {rec : Recommender K α φ ε V γ M} {load : Loader K α φ ε F} {se : StatsEnv V}
    {c : K → ℝ} (hr : Reads env se c) {hd : Head V} {l : List (Rec V)} (hP : ∀ x ∈ l, GoodRec env rec load x) (hne : l ≠ [])
    (hm : ∀ x ∈ l, ∀ y, x.event ≠ .list [y]) :
    ∃ t p, statsInput (tree hd l) = .ok (t, p) ∧ readFloats se t = .ok ((foldPairs se l).map Prod.fst) ∧
      readFloats se p = .ok ((foldPairs se l).map Prod.snd) := by
  have n2 : perFold l (·.trues) ≠ [] := by simpa [perFold] using hne
  have n3 : perFold l (·.predicted) ≠ [] := by simpa [perFold] using hne
  have key : ∀ l : List (Rec V), (∀ x ∈ l, GoodRec env rec load x) → (∀ x ∈ l, ∀ y, x.event ≠ .list [y]) →
      ∃ (tv pv : List (List (J V))) (xs : List (List α × K × K)),
      (perFold l (·.trues)).map (·.2) = tv.map J.list ∧ (perFold l (·.predicted)).map (·.2) = pv.map J.list ∧
      tv.flatten = xs.map (fun x => J.leaf (env.num x.2.1)) ∧ pv.flatten = xs.map (fun x => J.leaf (env.num x.2.2)) ∧
      foldPairs se l = xs.map (fun x => (Fl.fin (c x.2.1), Fl.fin (c x.2.2))) := by
    intro l hP hm
    induction l with
    | nil => exact ⟨[], [], [], rfl, rfl, rfl, rfl, rfl⟩
    | cons x l ih =>
      obtain ⟨tv, pv, xs, h1, h2, h3, h4, h5⟩ := ih (fun y hy => hP y (by simp [hy])) (fun y hy => hm y (by simp [hy]))
      obtain ⟨p, k3⟩ := (hP x (by simp)).lists.2 (hm x (by simp))
      obtain ⟨e, t, k1, k2, ys, f1, f2, f3, f5⟩ := hP x (by simp)
      have f4 : p = ys.map (fun x => J.leaf (env.num x.2.2)) := by
        rcases encPred_list env ys with ⟨_, e⟩ | ⟨z, _, e⟩
        · rw [f5, e] at k3
          simpa using k3.symm
        · rw [f5, e] at k3
          cases k3
      refine ⟨t :: tv, p :: pv, ys ++ xs, ?_, ?_, ?_, ?_, ?_⟩
      · show x.trues :: (perFold l (·.trues)).map (·.2) = _; rw [h1, k2]; rfl
      · show x.predicted :: (perFold l (·.predicted)).map (·.2) = _; rw [h2, k3]; rfl
      · rw [List.flatten_cons, f3, h3, List.map_append]
      · rw [List.flatten_cons, f4, h4, List.map_append]
      · show (numbers se x.trues).zip (numbers se x.predicted) ++ foldPairs se l = _
        rw [h5, k2, k3, f3, f4, numbers_nums hr (fun x : List α × K × K => x.2.1), numbers_nums hr (fun x : List α × K × K => x.2.2),
          zip_pairs, List.map_append]
  obtain ⟨tv, pv, xs, h2, h3, h4, h5, h6⟩ := key l hP hm
  refine ⟨tv.flatten, pv.flatten, ?_, ?_, ?_⟩
  · rw [statsInput_tree, concatValues_ok h2 n2, concatValues_ok h3 n3]
    rfl
  · rw [h4, readFloats_nums hr (fun x : List α × K × K => x.2.1), h6, List.map_map]; rfl
  · rw [h5, readFloats_nums hr (fun x : List α × K × K => x.2.2), h6, List.map_map]; rfl

/-- The statistics fail when there is a number among the arrays. -/
lemma statsInput_single {env : Env K α ε F V T γ} {rec : Recommender K α φ ε V γ M} {load : Loader K α φ ε F}
    {hd : Head V} {l : List (Rec V)} (hP : ∀ x ∈ l, GoodRec env rec load x)
    (hm : ∃ x ∈ l, ∃ y, x.event = .list [y]) : statsInput (tree hd l) = .error .valueError := by
  have hbind : ∀ {A B : Type} {x : Res A} {g : A → Res B} {e : Exc}, (x >>= g) = .error e →
      x = .error e ∨ ∃ a, x = .ok a ∧ g a = .error e := by
    intro A B x g e h
    cases x with
    | error e' => cases h; exact Or.inl rfl
    | ok a => exact Or.inr ⟨a, rfl, h⟩
  have hmap : ∀ (f : String × J V → Res (List (J V))) (d : List (String × J V)) e,
      (∀ p e, f p = .error e → e = .valueError) → d.mapM f = .error e → e = .valueError := by
    intro f d e hf
    induction d with
    | nil => intro h; cases h
    | cons q d ih =>
      intro h
      rw [List.mapM_cons] at h
      rcases hbind h with h | ⟨a, _, h⟩
      · exact hf _ _ h
      · rcases hbind h with h | ⟨as, _, h⟩
        · exact ih h
        · cases h
  have herr : ∀ (d : Dict String (J V)) e, concatValues d = .error e → e = .valueError := by
    intro d e h
    unfold concatValues at h
    rcases hbind h with h | ⟨a, _, h⟩
    · refine hmap _ _ _ ?_ h
      rintro ⟨k, v⟩ e h
      cases v with
      | list l => cases h
      | leaf v => cases h; rfl
      | dict v => cases h; rfl
    · split at h
      · cases h; rfl
      · cases h
  rw [statsInput_tree]
  cases ht : concatValues (perFold l (·.trues)) with
  | error e => rw [herr _ _ ht]; rfl
  | ok t =>
    rw [ok_bind]
    cases hp : concatValues (perFold l (·.predicted)) with
    | error e => rw [herr _ _ hp]; rfl
    | ok p =>
      obtain ⟨x, hx, y, hy⟩ := hm
      exact absurd hy ((hP x hx).lists.1 (concatValues_lists hp (x.key, x.predicted) (List.mem_map.2 ⟨x, hx, rfl⟩)) y)

/-- Folds with the same numbers, in any order, give the same pairs in some order. -/
lemma foldPairs_perm (se : StatsEnv V) {l l' : List (Rec V)} (hl : (l.map (·.key)).Nodup) (hl' : (l'.map (·.key)).Nodup)
    (hk : ∀ k, k ∈ l.map (·.key) ↔ k ∈ l'.map (·.key))
    (hs : ∀ r ∈ l, ∀ r' ∈ l', r.key = r'.key → r.trues = r'.trues ∧ r.predicted = r'.predicted) :
    (foldPairs se l).Perm (foldPairs se l') := by
  have e : ∀ x : List (Rec V), foldPairs se x = (x.map (fun r => (r.key, r.trues, r.predicted))).flatMap
      (fun t => (numbers se t.2.1).zip (numbers se t.2.2)) := by
    intro x
    unfold foldPairs
    rw [List.flatMap_map]
  rw [e, e]
  apply List.Perm.flatMap_right
  have nd : ∀ x : List (Rec V), (x.map (·.key)).Nodup → (x.map (fun r => (r.key, r.trues, r.predicted))).Nodup := by
    intro x hx
    refine List.Nodup.of_map Prod.fst ?_
    rw [List.map_map]
    exact hx
  have sub : ∀ x y : List (Rec V), (∀ k, k ∈ x.map (·.key) → k ∈ y.map (·.key)) →
      (∀ r ∈ x, ∀ r' ∈ y, r.key = r'.key → r.trues = r'.trues ∧ r.predicted = r'.predicted) →
      ∀ t ∈ x.map (fun r => (r.key, r.trues, r.predicted)), t ∈ y.map (fun r => (r.key, r.trues, r.predicted)) := by
    intro x y h1 h2 t ht
    obtain ⟨r, hr, rfl⟩ := List.mem_map.1 ht
    obtain ⟨r', hr', e⟩ := List.mem_map.1 (h1 r.key (List.mem_map.2 ⟨r, hr, rfl⟩))
    obtain ⟨a, b⟩ := h2 r hr r' hr' e.symm
    exact List.mem_map.2 ⟨r', hr', by rw [e, a, b]⟩
  refine (List.perm_ext_iff_of_nodup (nd l hl) (nd l' hl')).2 (fun t => ⟨?_, ?_⟩)
  · exact sub l l' (fun k => (hk k).1) hs t
  · exact sub l' l (fun k => (hk k).2) (fun r hr r' hr' e => by
      obtain ⟨a, b⟩ := hs r' hr' r hr e.symm
      exact ⟨a.symm, b.symm⟩) t

lemma statsOf_congr {env : Env K α ε F V T γ} {rec : Recommender K α φ ε V γ M} {load : Loader K α φ ε F} {se : StatsEnv V}
    {c : K → ℝ} (hr : Reads env se c)
    (hauc : ∀ rs rs' : List (ℝ × ℝ), rs.Perm rs' →
      se.auc (rs.map Prod.fst) (rs.map Prod.snd) = se.auc (rs'.map Prod.fst) (rs'.map Prod.snd))
    {hd hd' : Head V} {l l' : List (Rec V)} (hP : ∀ x ∈ l, GoodRec env rec load x) (hP' : ∀ x ∈ l', GoodRec env rec load x)
    (hne : l ≠ []) (hne' : l' ≠ []) (hperm : (foldPairs se l).Perm (foldPairs se l'))
    (hone : (∃ x ∈ l, ∃ y, x.event = .list [y]) ↔ ∃ x ∈ l', ∃ y, x.event = .list [y])
    (hm : (tree hd l).item2 "model" "task_type" = (tree hd' l').item2 "model" "task_type")
    (hc : (tree hd l).item2 "condition" "score_domain" = (tree hd' l').item2 "condition" "score_domain") :
    statsOf se (tree hd l) = statsOf se (tree hd' l') := by
  by_cases h1 : ∃ x ∈ l, ∃ y, x.event = .list [y]
  · unfold statsOf
    rw [statsInput_single hP h1, statsInput_single hP' (hone.1 h1)]
    rfl
  obtain ⟨t, p, a1, a2, a3⟩ := statsInput_pairs (hd := hd) hr hP hne (fun x hx y hy => h1 ⟨x, hx, y, hy⟩)
  obtain ⟨t', p', b1, b2, b3⟩ := statsInput_pairs (hd := hd') hr hP' hne' (fun x hx y hy => h1 (hone.2 ⟨x, hx, y, hy⟩))
  unfold statsOf
  rw [a1, b1, hm, hc]
  simp only [ok_bind, a2, a3, b2, b3]
  rw [Metrics.C96_item_finder se.auc hauc hperm]
  simp only [fun dom => Metrics.C96_score_predictor hperm dom]

/-! ### What the statistics script writes -/

lemma path_item (j : J V) (k : String) (ks : List String) : j.path (k :: ks) = (j.item k >>= fun x => x.path ks) := rfl

lemma path_item2 (j : J V) (a b : String) : j.item2 a b = j.path [a, b] := by
  unfold J.item2 J.path
  simp [List.foldlM]

lemma item_filter (d : Dict String (J V)) (k x : String) : Dict.get? (d.filter (fun p => decide (p.1 ≠ k))) x =
    if x = k then none else Dict.get? d x := by
  induction d with
  | nil => simp [Dict.get?]
  | cons p d ih =>
    obtain ⟨y, v⟩ := p
    by_cases hy : y = k
    · subst hy
      rw [List.filter_cons_of_neg (by simp), ih]
      by_cases hx : x = y
      · rw [if_pos hx, if_pos hx]
      · rw [if_neg hx, if_neg hx]
        simp [Dict.get?, Ne.symm hx]
    · rw [List.filter_cons_of_pos (by simpa using hy)]
      have e : ∀ C : Dict String (J V), Dict.get? ((y, v) :: C) x = if y = x then some v else Dict.get? C x := fun _ => rfl
      rw [e, e, ih]
      by_cases hx : x = k
      · subst hx
        rw [if_neg hy]
        simp
      · rw [if_neg hx, if_neg hx]

/-- C97: the script adds an entry `statistics`, which does not depend on `--keepdata`, and removes the
predictions unless asked to keep them; every other entry of the file is kept as it is.  It fails only when the
statistics cannot be computed. -/
theorem C97_output {se : StatsEnv V} {keepdata : Bool} {j : J V} :
    ((∃ out, stats se keepdata j = .ok out) ↔ ∃ st, statsOf se j = .ok st) ∧
    ∀ out st, stats se keepdata j = .ok out → statsOf se j = .ok st →
      out.item "statistics" = .ok st ∧
      (∀ k, k ≠ "statistics" → k ≠ "prediction" → out.item k = j.item k) ∧
      (keepdata = true → out.item "prediction" = j.item "prediction") ∧
      (keepdata = false → out.item "prediction" = .error .keyError) := by
  have hdict : ∀ st, statsOf se j = .ok st → ∃ d v, j = .dict d ∧ Dict.get? d "prediction" = some v := by
    intro st h
    unfold statsOf at h
    obtain ⟨⟨t, p⟩, h1, _⟩ := bind_ok h
    unfold statsInput at h1
    simp only [] at h1
    obtain ⟨e, h2, _⟩ := bind_ok h1
    unfold J.item2 at h2
    obtain ⟨x, h3, _⟩ := bind_ok h2
    unfold J.item at h3
    cases j with
    | leaf v => cases h3
    | list l => cases h3
    | dict d =>
      simp only [] at h3
      unfold Dict.getItem at h3
      split at h3
      · rename_i v hv
        exact ⟨d, v, rfl, hv⟩
      · cases h3
  have hrun : ∀ st, statsOf se j = .ok st → ∃ d, j = .dict d ∧ stats se keepdata j =
      .ok (.dict (if keepdata then Dict.set d "statistics" st else
        (Dict.set d "statistics" st).filter (fun p => decide (p.1 ≠ "prediction")))) := by
    intro st h
    obtain ⟨d, v, rfl, hv⟩ := hdict st h
    refine ⟨d, rfl, ?_⟩
    unfold stats
    rw [h, ok_bind]
    simp only [J.setItem, ok_bind]
    cases keepdata with
    | true => simp [pure, Except.pure]
    | false =>
      simp only [Bool.false_eq_true, if_false, J.delItem]
      rw [if_pos]
      rw [Dict.mem_keys_iff]
      exact ⟨v, by rw [Dict.get?_set, if_neg (by decide)]; exact hv⟩
  constructor
  · constructor
    · rintro ⟨out, h⟩
      unfold stats at h
      obtain ⟨st, h1, _⟩ := bind_ok h
      exact ⟨st, h1⟩
    · rintro ⟨st, h⟩
      obtain ⟨d, _, h1⟩ := hrun st h
      exact ⟨_, h1⟩
  · intro out st h1 h2
    obtain ⟨d, rfl, h3⟩ := hrun st h2
    rw [h1] at h3
    simp only [Except.ok.injEq] at h3
    subst h3
    cases keepdata with
    | true =>
      simp only [if_true, J.item, Dict.getItem, Dict.get?_set]
      refine ⟨by simp, ?_, by simp, by simp⟩
      intro k h1 h2
      rw [if_neg (Ne.symm h1)]
    | false =>
      simp only [Bool.false_eq_true, if_false, J.item, Dict.getItem, item_filter, Dict.get?_set]
      refine ⟨by simp, ?_, by simp, by simp⟩
      intro k h1 h2
      rw [if_neg h2, if_neg (Ne.symm h1)]

/-- The pairs the statistics of any result file are computed on. -/
lemma statsInput_made {env : Env K α ε F V T γ} {rec : Recommender K α φ ε V γ M} {load : Loader K α φ ε F} {tru : V} {j : J V}
    {se : StatsEnv V} {c : K → ℝ} (hr : Reads env se c) (hload : Loads load) (hrec : ScoresEach rec) (hnames : env.names.Nodup)
    (h : Made env rec load tru j) {key : String} (hk : j.HasFold key) (hone : ¬ j.OneTest) :
    ∃ (xs : List (List α × K × K)) (e : J V) (t p : List (J V)), (∀ x ∈ xs, Genuine rec load x) ∧
      j.path ["prediction", "event"] = .ok e ∧
      Flat e (xs.map (fun x => J.list (x.1.map (fun y => J.leaf (env.id y))))) ∧
      statsInput j = .ok (t, p) ∧ readFloats se t = .ok (xs.map (fun x => Fl.fin (c x.2.1))) ∧
      readFloats se p = .ok (xs.map (fun x => Fl.fin (c x.2.2))) := by
  obtain ⟨t, p, hs⟩ := (C62_defined_iff hload hrec hnames h key hk).2 hone
  obtain ⟨xs, e, h1, h2, h3, rfl, rfl⟩ := C62_pairs_belong_together hload hrec hnames h t p hs
  exact ⟨xs, e, _, _, h1, h2, h3, hs, readFloats_nums hr (fun x : List α × K × K => x.2.1) xs,
    readFloats_nums hr (fun x : List α × K × K => x.2.2) xs⟩

/-- C97, what holds: for every result file of a score predictor, however it came about, without a fold of a single
test event, the script succeeds and reports the
number of test events, means and standard deviations of the absolute and the squared errors and of the true and predicted
scores over the events of the file, where the true score of an event is the one in the loaded data and the
predicted one was made for this event by a fitted recommender; both histograms count how many scores are nearest to each
score level. -/
theorem C97_score_predictor_partial {env : Env K α ε F V T γ} {rec : Recommender K α φ ε V γ M} {load : Loader K α φ ε F} {tru : V} {j : J V}
    {se : StatsEnv V} {c : K → ℝ} (hr : Reads env se c) (hload : Loads load) (hrec : ScoresEach rec) (hnames : env.names.Nodup)
    (h : Made env rec load tru j) {key : String} (hk : j.HasFold key) (hone : ¬ j.OneTest) {v : V}
    (htask : j.path ["model", "task_type"] = .ok (.leaf v)) (hv : se.text v = some "score_predictor")
    {lo hi st : K} (hst : 0 < c st) (hdom : j.path ["condition", "score_domain"] = .ok (encScores env [lo, hi, st])) (keepdata : Bool) :
    ∃ (out e : J V) (xs : List (List α × K × K)),
      stats se keepdata j = .ok out ∧ (∀ x ∈ xs, Genuine rec load x) ∧ j.path ["prediction", "event"] = .ok e ∧
      Flat e (xs.map (fun x => J.list (x.1.map (fun y => J.leaf (env.id y))))) ∧
      PredictorReport se out (xs.map (fun x => (c x.2.1, c x.2.2))) (c lo) (c hi) (c st) := by
  obtain ⟨xs, e, t, p, a1, a2, a3, a4, a5, a6⟩ := statsInput_made hr hload hrec hnames h hk hone
  obtain ⟨r, b1, b2⟩ := predictor_report (V := V) (ps := xs.map (fun x => (c x.2.1, c x.2.2))) (lo := c lo) (hi := c hi) hst
  simp only [List.map_map, Function.comp_def] at b1
  have hs : statsOf se j = .ok (predictorTree se r) := by
    unfold statsOf
    rw [a4, path_item2, path_item2, htask, hdom]
    simp only [ok_bind, hv, if_true, readDomain_enc hr, a5, a6]
    rw [show [lo, hi, st].map c = [c lo, c hi, c st] from rfl, b1]
    rfl
  obtain ⟨o1, o2⟩ := C97_output (se := se) (keepdata := keepdata) (j := j)
  obtain ⟨out, ho⟩ := o1.2 ⟨_, hs⟩
  obtain ⟨o3, _⟩ := o2 out _ ho hs
  refine ⟨out, e, xs, ho, a1, a2, a3, b2 se out fun ks => ?_⟩
  rw [path_item, o3, ok_bind]

/-- True scores of the item-finder script are 0 or 1. -/
lemma genuine_binary {rec : Recommender K α φ ε V γ M} {read : F → Res (Table K α ε)}
    (hread : ∀ f t, read f = .ok t → TableOk t) {x : List α × K × K} (h : Genuine rec (loadDataIF read) x) :
    x.2.1 = 0 ∨ x.2.1 = 1 := by
  obtain ⟨f, dom, d, dm, rows, sc, h1, h2, ⟨i, _, h3⟩, _⟩ := h
  obtain ⟨t, lo, hi, st, rest, _, _, _, h4, _⟩ := loadDataIF_ok hread h1
  have e := h2.inv.2.1
  rw [h4.inv.2.1] at e
  simp only [Option.some.injEq] at e
  subst e
  have := List.mem_of_getElem? h3
  obtain ⟨y, _, hy⟩ := List.mem_map.1 this
  rw [← hy]
  split
  · exact Or.inl rfl
  · exact Or.inr rfl

/-- C97, what holds: the same for the item-finder script: for every result file with at least one test event, and no
fold of a single one, the statistics
script succeeds; the area under the curve is reported exactly when both kinds of events occur, and it is that of
the binarized scores of the events and the predictions made for them. -/
theorem C97_item_finder_partial {env : Env K α ε F V T γ} {rec : Recommender K α φ ε V γ M} {read : F → Res (Table K α ε)} {tru : V} {j : J V}
    {se : StatsEnv V} {c : K → ℝ} (hr : Reads env se c) (hc0 : c 0 = 0) (hc1 : c 1 = 1) (hread : ∀ f t, read f = .ok t → TableOk t) (hrec : ScoresEach rec) (hnames : env.names.Nodup)
    (h : Made env rec (loadDataIF read) tru j) {key : String} (hk : j.HasFold key) (hone : ¬ j.OneTest) {v : V}
    (htask : j.path ["model", "task_type"] = .ok (.leaf v)) (hv : se.text v = some "item_finder") (keepdata : Bool) :
    ∃ (e : J V) (xs : List (List α × K × K)), (∀ x ∈ xs, Genuine rec (loadDataIF read) x) ∧ j.path ["prediction", "event"] = .ok e ∧
      Flat e (xs.map (fun x => J.list (x.1.map (fun y => J.leaf (env.id y))))) ∧ (∀ x ∈ xs, x.2.1 = 0 ∨ x.2.1 = 1) ∧
      (xs = [] → stats se keepdata j = .error .valueError) ∧
      (xs ≠ [] → ∃ out, stats se keepdata j = .ok out ∧
        FinderReport se out (xs.map (fun x => (c x.2.1, c x.2.2)))) := by
  obtain ⟨xs, e, t, p, a1, a2, a3, a4, a5, a6⟩ := statsInput_made hr (loadDataIF_loads hread) hrec hnames h hk hone
  have hbin : ∀ x ∈ xs, x.2.1 = 0 ∨ x.2.1 = 1 := fun x hx => genuine_binary hread (a1 x hx)
  have hf : statsOf se j = (Metrics.itemFinderStatistics se.auc (xs.map (fun x => Fl.fin (c x.2.1))) (xs.map (fun x => Fl.fin (c x.2.2))) >>=
      fun r => .ok (finderTree se r)) := by
    unfold statsOf
    rw [a4, path_item2, htask]
    simp only [ok_bind, hv]
    rw [if_neg (by simp), if_pos trivial, a5, a6]
    rfl
  refine ⟨e, xs, a1, a2, a3, hbin, ?_, ?_⟩
  · rintro rfl
    unfold stats
    rw [hf, List.map_nil, List.map_nil, Metrics.C59_rejects _ _ _ (Or.inl rfl)]
    rfl
  · intro hne
    obtain ⟨r, b1, b2⟩ := finder_report (V := V) se.auc (ps := xs.map (fun x => (c x.2.1, c x.2.2))) (by simpa using hne) (by
        intro s hs
        obtain ⟨x, hx, rfl⟩ := List.mem_map.1 hs
        rcases hbin x hx with e | e
        · left; simp only [e, hc0]
        · right; simp only [e, hc1])
    simp only [List.map_map, Function.comp_def] at b1
    have hs : statsOf se j = .ok (finderTree se r) := by
      rw [hf, b1, ok_bind]
    obtain ⟨o1, o2⟩ := C97_output (se := se) (keepdata := keepdata) (j := j)
    obtain ⟨out, ho⟩ := o1.2 ⟨_, hs⟩
    obtain ⟨o3, _⟩ := o2 out _ ho hs
    refine ⟨out, ho, b2 se out rfl fun ks => ?_⟩
    rw [path_item, o3, ok_bind]

/-- C97, what fails: the script raises an exception for every result file that has a fold with a single test
event. -/
theorem C97_single {env : Env K α ε F V T γ} {rec : Recommender K α φ ε V γ M} {load : Loader K α φ ε F} {tru : V} {j : J V}
    (hload : Loads load) (hrec : ScoresEach rec) (hnames : env.names.Nodup) (h : Made env rec load tru j)
    {key : String} (hk : j.HasFold key) (hone : j.OneTest) (se : StatsEnv V) (keepdata : Bool) :
    ∃ e, stats se keepdata j = .error e := by
  have hn : ¬ ∃ t p, statsInput j = .ok (t, p) := fun hs => (C62_defined_iff hload hrec hnames h key hk).1 hs hone
  cases hs : stats se keepdata j with
  | error e => exact ⟨e, rfl⟩
  | ok out =>
    unfold stats at hs
    obtain ⟨st, hs, _⟩ := bind_ok hs
    unfold statsOf at hs
    obtain ⟨⟨t, p⟩, hs, _⟩ := bind_ok hs
    exact absurd ⟨t, p, hs⟩ hn

/-! ### Files with the same folds -/

lemma held_no_fold {cond env : Dict String (J V)} {tr te md : J V} {ev tv : List (J V)} {pv : J V} {feat : Dict String (J V)} (key : String) (v : J V) :
    (held cond env tr te md ev tv pv feat).path ["prediction", "event", key] ≠ .ok v := by
  simp [held, J.path, J.item, Dict.getItem, Dict.get?, bind, Except.bind]

/-- C97: two result files with the same folds, the same task type and the same score domain have the same
statistics (or none), in whatever order the folds stand in the files. -/
theorem C97_same_folds {env : Env K α ε F V T γ} {rec : Recommender K α φ ε V γ M} {load : Loader K α φ ε F} {tru : V} {j j' : J V}
    {se : StatsEnv V} {c : K → ℝ} (hr : Reads env se c)
    (hauc : ∀ rs rs' : List (ℝ × ℝ), rs.Perm rs' →
      se.auc (rs.map Prod.fst) (rs.map Prod.snd) = se.auc (rs'.map Prod.fst) (rs'.map Prod.snd))
    (hload : Loads load) (hrec : ScoresEach rec) (hnames : env.names.Nodup)
    (h : Made env rec load tru j) (h' : Made env rec load tru j')
    (hsome : ∃ key, j.HasFold key) (hfolds : ∀ key, j.HasFold key ↔ j'.HasFold key)
    (hsame : ∀ key, j.HasFold key → SameFold j j' key)
    (htask : j.path ["model", "task_type"] = j'.path ["model", "task_type"])
    (hdom : j.path ["condition", "score_domain"] = j'.path ["condition", "score_domain"]) :
    statsOf se j = statsOf se j' := by
  obtain ⟨key, hk⟩ := hsome
  obtain ⟨v, v1, v2⟩ := (hsame key hk).prediction "event" (by simp)
  cases h.shape hload hrec hnames with
  | held => exact absurd v1 (held_no_fold _ _)
  | cv hd l hP hN hK =>
    cases h'.shape hload hrec hnames with
    | held => exact absurd v2 (held_no_fold _ _)
    | cv hd' l' hP' hN' hK' =>
      have hne : l ≠ [] := by
        rintro rfl
        rw [hasFold_tree] at hk
        simp at hk
      have hne' : l' ≠ [] := by
        rintro rfl
        rw [hfolds, hasFold_tree] at hk
        simp at hk
      rw [← path_item2, ← path_item2] at htask hdom
      have hkeys : ∀ k, k ∈ l.map (·.key) ↔ k ∈ l'.map (·.key) := by
        intro k
        have := hfolds k
        rwa [hasFold_tree, hasFold_tree] at this
      have hev : ∀ r ∈ l, ∀ r' ∈ l', r.key = r'.key → r.event = r'.event := by
        intro r hr r' hr' e
        have hs := hsame r.key ((hasFold_tree _ _ _).2 (List.mem_map.2 ⟨r, hr, rfl⟩))
        obtain ⟨a, a1, a2⟩ := hs.prediction "event" (by simp)
        rw [path_event hd l hK hr] at a1
        rw [e, path_event hd' l' hK' hr'] at a2
        simp only [Except.ok.injEq] at a1 a2
        exact a1.trans a2.symm
      have hone : (∃ x ∈ l, ∃ y, x.event = .list [y]) ↔ ∃ x ∈ l', ∃ y, x.event = .list [y] := by
        constructor
        · rintro ⟨r, hr, y, hy⟩
          obtain ⟨r', hr', e⟩ := List.mem_map.1 ((hkeys r.key).1 (List.mem_map.2 ⟨r, hr, rfl⟩))
          exact ⟨r', hr', y, (hev r hr r' hr' e.symm).symm.trans hy⟩
        · rintro ⟨r', hr', y, hy⟩
          obtain ⟨r, hr, e⟩ := List.mem_map.1 ((hkeys r'.key).2 (List.mem_map.2 ⟨r', hr', rfl⟩))
          exact ⟨r, hr, y, (hev r hr r' hr' e).trans hy⟩
      refine statsOf_congr hr hauc hP hP' hne hne' (foldPairs_perm se hK hK' ?_ ?_) hone htask hdom
      · intro k
        have := hfolds k
        rwa [hasFold_tree, hasFold_tree] at this
      · intro r hr r' hr' e
        have hs := hsame r.key ((hasFold_tree _ _ _).2 (List.mem_map.2 ⟨r, hr, rfl⟩))
        obtain ⟨a, a1, a2⟩ := hs.prediction "true" (by simp)
        obtain ⟨b, b1, b2⟩ := hs.prediction "predicted" (by simp)
        rw [path_true hd l hK hr] at a1
        rw [path_predicted hd l hK hr] at b1
        rw [e, path_true hd' l' hK' hr'] at a2
        rw [e, path_predicted hd' l' hK' hr'] at b2
        simp only [Except.ok.injEq] at a1 a2 b1 b2
        exact ⟨a1.trans a2.symm, b1.trans b2.symm⟩

/-- C97: the statistics of a cross validation whose folds were run one by one, each with its own clock and
environment, and merged in any order are those of the full cross validation. -/
theorem C97_merged {env : Env K α ε F V T γ} {clock : Nat → T} {rec : Recommender K α φ ε V γ M}
    {load : Loader K α φ ε F} {s : Setting K F V} {n : Int} {full : J V} {se : StatsEnv V} {c : K → ℝ} (hr : Reads env se c)
    (hauc : ∀ rs rs' : List (ℝ × ℝ), rs.Perm rs' →
      se.auc (rs.map Prod.fst) (rs.map Prod.snd) = se.auc (rs'.map Prod.fst) (rs'.map Prod.snd))
    (hload : Loads load) (hrec : ScoresEach rec) (hnames : env.names.Nodup) (hcv : s.cv = true) (hseed : s.seed = some n)
    (hfull : doTask env clock rec load s none = .ok full)
    (order : List Nat) (horder : order.Perm (List.range s.nFolds.toNat)) (hne : order ≠ [])
    (clocks : Nat → Nat → T) (conditions environments : Nat → Dict String (J V)) (tru out : V) :
    ∃ files merged,
      order.mapM (fun i => doTask env (clocks i) rec load
        { s with condition := conditions i, environment := environments i } (some (i : Int))) = .ok files ∧
      merge tru out files = .ok merged ∧ statsOf se merged = statsOf se full := by
  obtain ⟨files, merged, h1, h2, h3, h4, h5, h6, h7, h8, h9⟩ := C60_folds_merge_to_full_run hload hnames hcv hseed hfull order horder hne
    clocks conditions environments tru out
  refine ⟨files, merged, h1, h2, ?_⟩
  have hfiles : ∀ f ∈ files, Made env rec load tru f := by
    intro f hf
    have : ∀ (o : List Nat) (fs : List (J V)), o.mapM (fun i => doTask env (clocks i) rec load
        { s with condition := conditions i, environment := environments i } (some (i : Int))) = .ok fs →
        ∀ f ∈ fs, Made env rec load tru f := by
      intro o
      induction o with
      | nil =>
        intro fs hfs f hf
        simp [pure, Except.pure] at hfs
        subst hfs
        simp at hf
      | cons i o ih =>
        intro fs hfs f hf
        rw [List.mapM_cons] at hfs
        obtain ⟨a, e1, hfs⟩ := bind_ok hfs
        obtain ⟨as, e2, hfs⟩ := bind_ok hfs
        simp only [pure, Except.pure, Except.ok.injEq] at hfs
        subst hfs
        rw [List.mem_cons] at hf
        rcases hf with rfl | hf
        · exact .run e1
        · exact ih as e2 f hf
    exact this order files h1 f hf
  obtain ⟨i0, hi0⟩ := List.exists_mem_of_ne_nil _ hne
  have hi0' := List.mem_range.1 (horder.mem_iff.1 hi0)
  have hrepr : ∀ key, full.HasFold key → ∃ i : Nat, (i : Int) < s.nFolds ∧ key = Nat.repr i := by
    intro key hk
    obtain ⟨i, a, _, b⟩ := (C61_folds hload hcv hfull key).1 hk
    exact ⟨i, a, b⟩
  refine (C97_same_folds hr hauc hload hrec hnames (.run hfull) (.merge hfiles h2)
    ⟨Nat.repr i0, (h5 i0).2 (by omega)⟩ h4 ?_ ?_ ?_).symm
  · intro key hk
    obtain ⟨i, hi, rfl⟩ := hrepr key hk
    exact h6 i hi
  · have e : ∀ t : J V, t.path ["model", "task_type"] = (t.path ["model"] >>= fun x => x.item "task_type") := by
      intro t; simp [J.path]
    rw [e, e, h8, h9]
  · obtain ⟨v, v1, v2⟩ := h7 "score_domain" (by simp)
    rw [v1, v2]

namespace Ex

/-- How the statistics script reads the example files. -/
noncomputable def senv : StatsEnv Val where
  float v := match v with
    | .num q => .ok (.fin (q : ℝ))
    | _ => .error .valueError
  text v := match v with
    | .str s => some s
    | _ => none
  num _ := .bool true
  nat := .nat
  int := .int
  auc := Metrics.pairsAuc

lemma senv_reads : Reads env senv (fun q => (q : ℝ)) := fun _ => rfl

/-- The command line with the entry of the model section the statistics script reads. -/
def typed (task : String) (cv : Bool) : Setting ℚ Nat Val :=
  { setting cv with model := [("task_type", .leaf (.str task))] }

/-- The file has this task type, its score domain is 1 to 5 with stride 1, it has fold 0, and
there are arrays to compute statistics on. -/
def ready (task : String) (r : Res (J Val)) : Bool :=
  match r with
  | .error _ => false
  | .ok j => (match j.path ["model", "task_type"] with
      | .ok (.leaf (.str s)) => decide (s = task)
      | _ => false) &&
    (match j.path ["condition", "score_domain"] with
      | .ok (.list [.leaf (.num a), .leaf (.num b), .leaf (.num c)]) => decide (a = 1 ∧ b = 5 ∧ c = 1)
      | _ => false) &&
    (match j.path ["training", "results"] with
      | .ok (.dict d) => decide ("0" ∈ Dict.keys d)
      | _ => false) && (statsInput j).isOk

lemma ready_ok {task : String} {r : Res (J Val)} (h : ready task r = true) : ∃ j, r = .ok j ∧
    j.path ["model", "task_type"] = .ok (.leaf (.str task)) ∧
    j.path ["condition", "score_domain"] = .ok (encScores env [1, 5, 1]) ∧ j.HasFold "0" ∧ ∃ t p, statsInput j = .ok (t, p) := by
  cases r with
  | error e => cases h
  | ok j =>
    refine ⟨j, rfl, ?_⟩
    simp only [ready, Bool.and_eq_true] at h
    obtain ⟨⟨⟨h1, h2⟩, h3⟩, h4⟩ := h
    obtain ⟨⟨t, p⟩, h4⟩ := isOk_exists h4
    refine ⟨?_, ?_, ?_, t, p, h4⟩
    · split at h1
      · rename_i s hs
        rw [hs, of_decide_eq_true h1]
      · cases h1
    · split at h2
      · rename_i a b c hs
        obtain ⟨rfl, rfl, rfl⟩ := of_decide_eq_true h2
        rw [hs]
        rfl
      · cases h2
    · split at h3
      · rename_i d hd
        exact ⟨d, hd, of_decide_eq_true h3⟩
      · cases h3

/-- C97 is not vacuous: statistics of a cross validation of a score predictor and of a hold-out run of an item
finder. -/
example : (∃ j out, Made env mean (loadDataSP read) (.bool true) j ∧ stats senv false j = .ok out) ∧
    ∃ j out, Made env mean (loadDataIF read) (.bool true) j ∧ stats senv true j = .ok out := by
  constructor
  · obtain ⟨j, h1, h2, h3, h4, h5⟩ := ready_ok (task := "score_predictor")
      (r := doTask env _root_.id mean (loadDataSP read) (typed "score_predictor" true) none) (by decide +kernel)
    obtain ⟨out, _, _, h, _⟩ := C97_score_predictor_partial senv_reads (loadDataSP_loads read_ok) mean_scores (by decide)
      (.run (tru := .bool true) h1) h4
      ((C62_defined_iff (loadDataSP_loads read_ok) mean_scores (by decide) (.run (tru := .bool true) h1) "0" h4).1 h5) h2 rfl (lo := 1) (hi := 5) (st := 1) (by simp) h3 false
    exact ⟨j, out, .run h1, h⟩
  · obtain ⟨j, h1, h2, h3, h4, h5⟩ := ready_ok (task := "item_finder")
      (r := doTask env _root_.id mean (loadDataIF read) (typed "item_finder" false) none) (by decide +kernel)
    obtain ⟨e, xs, a1, a2, a3, _, _, a4⟩ := C97_item_finder_partial senv_reads (by simp) (by simp) read_ok mean_scores (by decide)
      (.run (tru := .bool true) h1) h4
      ((C62_defined_iff (loadDataIF_loads read_ok) mean_scores (by decide) (.run (tru := .bool true) h1) "0" h4).1 h5) h2 rfl true
    obtain ⟨f, t₁, t₂, lo, hi, train, g, g', m, res, esc, b1, b2, b3, b4, b5, b6, b7, b8, b9⟩ := C65_one_threshold read_ok rfl h1
    have hf : f = 1 := by simpa [typed, setting] using b1.symm
    subst hf
    simp only [read, Except.ok.injEq] at b3
    subst b3
    rw [b8] at a2
    simp only [Except.ok.injEq] at a2
    subst a2
    obtain ⟨out, h, _⟩ := a4 (by rintro rfl; exact absurd a3 (by intro h; cases h))
    exact ⟨j, out, .run h1, h⟩

/-- C97 is not vacuous: three folds run one by one and merged in another order. -/
example : ∃ full files merged, doTask env _root_.id mean (loadDataIF read) (typed "item_finder" true) none = .ok full ∧
    [2, 0, 1].mapM (fun i => doTask env (fun t => 100 * i + t) mean (loadDataIF read)
        { typed "item_finder" true with condition := [], environment := [("host", .leaf (.nat i))] } (some (i : Int))) = .ok files ∧
    merge (.bool true) (.str "out") files = .ok merged ∧ statsOf senv merged = statsOf senv full := by
  obtain ⟨full, h1, _⟩ := ready_ok (task := "item_finder")
      (r := doTask env _root_.id mean (loadDataIF read) (typed "item_finder" true) none) (by decide +kernel)
  obtain ⟨files, merged, a1, a2, a3⟩ := C97_merged senv_reads (fun _ _ => Metrics.pairsAuc_perm) (loadDataIF_loads read_ok) mean_scores
    (by decide) rfl rfl h1 [2, 0, 1] (by decide) (by simp) (fun i t => 100 * i + t) (fun _ => [])
    (fun i => [("host", .leaf (.nat i))]) (.bool true) (.str "out")
  exact ⟨full, files, merged, h1, a1, a2, a3⟩

end Ex

/-- The part of C97 that is false: there is a cross validation of a score predictor, with three folds, a recorded
score domain of positive stride and the task type in its place, whose file the statistics script does not accept. -/
theorem C97_refuted : ¬ ∀ (s : Setting ℚ Nat Ex.Val) (j : J Ex.Val), s.cv = true → s.nFolds = 3 →
    s.model = [("task_type", .leaf (.str "score_predictor"))] →
    doTask Ex.env id Ex.mean (loadDataSP Ex.read) s none = .ok j →
    j.path ["condition", "score_domain"] = .ok (encScores Ex.env [1, 5, 1]) → ∃ out, stats Ex.senv false j = .ok out := by
  intro hall
  have hrun : (match doTask Ex.env id Ex.mean (loadDataSP Ex.read)
      { Ex.typed "score_predictor" true with trainFile := 2, scoreDomain := [1, 5, 1] } none with
    | .ok j => (match j.path ["condition", "score_domain"] with
      | .ok (.list [.leaf (.num a), .leaf (.num b), .leaf (.num c)]) => decide (a = 1 ∧ b = 5 ∧ c = 1)
      | _ => false) && !(statsInput j).isOk
    | .error _ => false) = true := by decide +kernel
  cases hj : doTask Ex.env id Ex.mean (loadDataSP Ex.read)
      { Ex.typed "score_predictor" true with trainFile := 2, scoreDomain := [1, 5, 1] } none with
  | error e => rw [hj] at hrun; cases hrun
  | ok j =>
    rw [hj] at hrun
    simp only [Bool.and_eq_true, Bool.not_eq_true'] at hrun
    obtain ⟨h1, h2⟩ := hrun
    have hdom : j.path ["condition", "score_domain"] = .ok (encScores Ex.env [1, 5, 1]) := by
      split at h1
      · rename_i a b c hs
        obtain ⟨rfl, rfl, rfl⟩ := of_decide_eq_true h1
        rw [hs]
        rfl
      · cases h1
    obtain ⟨out, ho⟩ := hall _ j rfl rfl rfl hj hdom
    unfold stats at ho
    obtain ⟨st, ho, _⟩ := bind_ok ho
    unfold statsOf at ho
    obtain ⟨⟨t, p⟩, ho, _⟩ := bind_ok ho
    rw [ho] at h2
    cases h2

end Kam.Scripts
