/-
C62, C63: statistics over result files, and what merging keeps.
-/
import Verif.Scripts.Shape

set_option linter.unusedSectionVars false

namespace Kam.Scripts
open Spec

variable {K α φ ε F V T γ M : Type} [Field K] [LinearOrder K] [IsStrictOrderedRing K] [FloorRing K] [LinearOrder α]

/-! ### C62 -/

/-- The arrays are those of events with their true and predicted scores, in one order; a single prediction is
stored as a number. -/
def Triples (env : Env K α ε F V T γ) (rec : Recommender K α φ ε V γ M) (load : Loader K α φ ε F)
    (ev tv : List (J V)) (pv : J V) : Prop :=
  ∃ xs : List (List α × K × K), (∀ x ∈ xs, Genuine rec load x) ∧
    ev = xs.map (fun x => J.list (x.1.map (fun y => J.leaf (env.id y)))) ∧
    tv = xs.map (fun x => J.leaf (env.num x.2.1)) ∧ pv = encPred env (squeeze (xs.map (fun x => x.2.2)))

/-- A fold with such arrays. -/
def GoodRec (env : Env K α ε F V T γ) (rec : Recommender K α φ ε V γ M) (load : Loader K α φ ε F) (x : Rec V) : Prop :=
  ∃ ev tv, x.event = .list ev ∧ x.trues = .list tv ∧ Triples env rec load ev tv x.predicted

/-- Unless there is a single prediction, an array of them is stored. -/
lemma encPred_list (env : Env K α ε F V T γ) (xs : List (List α × K × K)) :
    (xs.length ≠ 1 ∧ encPred env (squeeze (xs.map (fun x => x.2.2))) = .list (xs.map (fun x => J.leaf (env.num x.2.2)))) ∨
    ∃ x, xs = [x] ∧ encPred env (squeeze (xs.map (fun x => x.2.2))) = .leaf (env.num x.2.2) := by
  match xs with
  | [] => exact Or.inl ⟨by simp, rfl⟩
  | [x] => exact Or.inr ⟨x, rfl, rfl⟩
  | x :: y :: l =>
    refine Or.inl ⟨by simp, ?_⟩
    simp [squeeze, encPred, encScores, List.map_map]

lemma triples_gather {env : Env K α ε F V T γ} {rec : Recommender K α φ ε V γ M} {load : Loader K α φ ε F}
    {f : F} {dom dm : List K} {d d' : ScoreData K α φ ε} {rows : List (List α)} {sc : List K}
    (hl : load f dom = .ok (d, dm)) (hb : ScoreBuilt d rows sc) {g g' : γ} {m : M} {res : Dict String (J V)}
    (hfit : rec.fit g d' = .ok (m, res, g')) {ix : List Nat} (hix : ∀ i ∈ ix, i < rows.length) {ps : Pred K}
    (hp : rec.predict m (gather rows ix) = .ok ps) (hlen : ∃ ys : List K, ps = squeeze ys ∧ ys.length = ix.length) :
    ∃ ev tv, encEvents env (gather rows ix) = .list ev ∧ encScores env (gather sc ix) = .list tv ∧
      Triples env rec load ev tv (encPred env ps) := by
  obtain ⟨esc, rfl, hlen⟩ := hlen
  have hsc : sc.length = rows.length := hb.inv.2.2.1
  have l1 : (gather rows ix).length = ix.length := length_gather _ _ hix
  have l2 : (gather sc ix).length = ix.length := length_gather _ _ (by rw [hsc]; exact hix)
  refine ⟨_, _, rfl, rfl, (gather rows ix).zip ((gather sc ix).zip esc), ?_, ?_, ?_, ?_⟩
  · intro x hx
    obtain ⟨k, hk⟩ := List.mem_iff_getElem?.1 hx
    rw [List.getElem?_zip_eq_some] at hk
    obtain ⟨h1, h2⟩ := hk
    have h2' := h2
    obtain ⟨x1, x2, x3⟩ := x
    rw [List.getElem?_zip_eq_some] at h2
    obtain ⟨h2, h3⟩ := h2
    simp only [] at h1 h2 h3
    have hk : k < ix.length := by
      rw [← l1]
      exact (List.getElem?_eq_some_iff.1 h1).1
    have g1 := getElem?_gather rows ix hix k
    have g2 := getElem?_gather sc ix (by rw [hsc]; exact hix) k
    rw [h1] at g1
    rw [h2] at g2
    rw [List.getElem?_eq_getElem hk] at g1 g2
    exact ⟨f, dom, d, dm, rows, sc, hl, hb, ⟨ix[k], g1.symm, g2.symm⟩, g, g', d', m, res, gather rows ix, esc, k, hfit, hp, h1, h3⟩
  · rw [show (fun x : List α × K × K => J.list (x.1.map (fun y => J.leaf (env.id y)))) =
      (fun r : List α => J.list (r.map (fun y => J.leaf (env.id y)))) ∘ Prod.fst from rfl, ← List.map_map,
      List.map_fst_zip (by rw [List.length_zip, l1, l2, hlen]; omega)]
  · rw [show (fun x : List α × K × K => (J.leaf (env.num x.2.1) : J V)) =
      ((fun y : K => J.leaf (env.num y)) ∘ Prod.fst) ∘ Prod.snd from rfl, ← List.map_map,
      List.map_snd_zip (by rw [List.length_zip, l1, l2, hlen]; omega), ← List.map_map,
      List.map_fst_zip (by rw [l2, hlen])]
  · rw [show (fun x : List α × K × K => x.2.2) = Prod.snd ∘ Prod.snd from rfl, ← List.map_map,
      List.map_snd_zip (by rw [List.length_zip, l1, l2, hlen]; omega), List.map_snd_zip (by rw [l2, hlen])]

/-- Every result file has one of the two forms. -/
lemma Made.shape {env : Env K α ε F V T γ} {rec : Recommender K α φ ε V γ M} {load : Loader K α φ ε F} {tru : V} {j : J V}
    (hload : Loads load) (hrec : ScoresEach rec) (hnames : env.names.Nodup) (h : Made env rec load tru j) :
    Shape (GoodRec env rec load) (Triples env rec load) j := by
  induction h with
  | @run clock s target j h =>
    by_cases hcv : s.cv = true
    · obtain ⟨data, dm, ev, sc, users, items, groups, l, hl, hsc, hj, hf, hr⟩ := doTask_cv hcv hload.score h
      obtain ⟨rows, sc', hb⟩ := hload _ _ _ _ hl.load
      have hev : rows = ev := by
        have := externalEvents_built hb.inv.1
        rw [hl.events] at this
        simpa using this.symm
      have hs : sc' = sc := by
        have := hb.inv.2.1
        rw [hsc] at this
        simpa using this.symm
      subst hev hs
      rw [hj]
      refine .cv _ _ ?_ ?_ ?_
      · intro x hx
        obtain ⟨r, hrl, rfl⟩ := List.mem_map.1 hx
        obtain ⟨hd, g, d', m, g', f1, f2, f3⟩ := hr r hrl
        have hlen : groups.length = rows.length := by
          simpa using (congrArg List.length (column_zero hl.groups)).symm
        have hfold := hd.isFold
        rw [hlen] at hfold
        have h4 := hrec _ _ _ f3
        rw [length_gather _ _ hfold.test_lt] at h4
        exact triples_gather hl.load hb f2 hfold.test_lt f3 h4
      · intro ns hns
        cases he : data.eventFeature with
        | none => simp [headOf, he] at hns
        | some x => simp [headOf, he] at hns; rw [← hns]; exact hnames
      · have : (l.map (recOf env rows sc' data.eventFeature)).map (·.key) = (l.map (·.fold)).map Nat.repr := by
          simp [recOf]
        rw [this, hf]
        refine List.Nodup.map (fun a b h => Nat.repr_injective h) ?_
        unfold wanted
        exact List.Nodup.filter _ (List.nodup_range')
    · obtain ⟨f, train, test, dom₁, dom₂, rows, sc, tu, ti, su, si, g, g', m, res, esc, hh, rfl⟩ :=
        doTask_holdout hload (by simpa using hcv) h
      have h4 := hrec _ _ _ hh.predict
      have hl : sc.length = rows.length := hh.built.inv.2.2.1
      obtain ⟨ev, tv, e1, e2, ht⟩ := triples_gather (env := env) hh.loadTest hh.built hh.fit (ix := List.range rows.length)
        (by simp) (by rw [gather_range]; exact hh.predict) (by simpa using h4)
      rw [gather_range] at e1
      rw [← hl, gather_range] at e2
      have := Shape.held (P := GoodRec env rec load) (Q := Triples env rec load) ((s.condition.set "score_domain" (encScores env dom₂)).set
            "n_folds" (.leaf (env.int 1))) s.environment (.dict [("file", .leaf (env.file (some s.trainFile))), ("n_events", .leaf (env.nat train.nEvents)),
          ("n_users", .leaf (env.nat tu)), ("n_items", .leaf (env.nat ti)),
          ("results", .dict [("0", .dict (update
            [("start_time", .leaf (env.iso (clock 0))), ("end_time", .leaf (env.iso (clock 1))),
             ("elapsed_time", .leaf (env.elapsed (clock 1) (clock 0))),
             ("elapsed_utime", .leaf (env.elapsedU (clock 1) (clock 0)))] res))])]) (.dict [("file", .leaf (env.file (some s.trainFile))), ("n_events", .leaf (env.nat test.nEvents)),
          ("n_users", .leaf (env.nat su)), ("n_items", .leaf (env.nat si)),
          ("results", .dict [("0", .dict
            [("start_time", .leaf (env.iso (clock 2))), ("end_time", .leaf (env.iso (clock 2))),
             ("elapsed_time", .leaf (env.elapsed (clock 3) (clock 2))),
             ("elapsed_utime", .leaf (env.elapsedU (clock 3) (clock 2))),
             ("n_events", .leaf (env.nat rows.length))])])]) (.dict s.model) ev tv (encPred env esc)
             (match test.eventFeature with
               | none => []
               | some fs => [("event_feature", .dict (env.names.map (fun k => (k, encFeature env k fs))))]) ht
      unfold held at this
      rw [← e1, ← e2] at this
      exact this
  | merge hf hm ih => exact Shape.merge ih hm

lemma concatValues_ok {d : Dict String (J V)} {parts : List (List (J V))} (h : d.map (·.2) = parts.map J.list) (hne : d ≠ []) :
    concatValues d = .ok parts.flatten := by
  have key : ∀ f : String × J V → Res (List (J V)), (∀ k l, f (k, .list l) = .ok l) → d.mapM f = .ok parts := by
    intro f hf
    clear hne
    induction d generalizing parts with
    | nil => cases parts with
      | nil => rfl
      | cons a p => simp at h
    | cons p d ih => cases parts with
      | nil => simp at h
      | cons a q =>
        simp only [List.map_cons, List.cons.injEq] at h
        obtain ⟨k, v⟩ := p
        simp only [] at h
        rw [List.mapM_cons, h.1, hf, ok_bind, ih h.2]
        rfl
  have hp : parts ≠ [] := by
    rintro rfl
    exact hne (by simpa using h)
  unfold concatValues
  rw [key _ (fun _ _ => rfl), ok_bind]
  simp [hp, pure, Except.pure]

lemma concatValues_lists {d : Dict String (J V)} {r : List (J V)} (h : concatValues d = .ok r) :
    ∀ p ∈ d, ∃ l, p.2 = .list l := by
  unfold concatValues at h
  obtain ⟨parts, h1, h2⟩ := bind_ok h
  intro p hp
  clear h h2
  induction d generalizing parts with
  | nil => simp at hp
  | cons q d ih =>
    rw [List.mapM_cons] at h1
    obtain ⟨a, e1, h1⟩ := bind_ok h1
    obtain ⟨as, e2, _⟩ := bind_ok h1
    rw [List.mem_cons] at hp
    rcases hp with rfl | hp
    · obtain ⟨k, v⟩ := p
      cases v with
      | list l => exact ⟨l, rfl⟩
      | leaf v => cases e1
      | dict d => cases e1
    · exact ih _ e2 hp

lemma mem_of_get? {ν : Type} {d : Dict String ν} {k : String} {v : ν} (h : d.get? k = some v) : (k, v) ∈ d := by
  induction d with
  | nil => simp [Dict.get?] at h
  | cons p d ih =>
    obtain ⟨k', v'⟩ := p
    unfold Dict.get? at h
    split at h
    · rename_i e
      simp only [Option.some.injEq] at h
      rw [e, h]
      exact List.mem_cons_self
    · exact List.mem_cons_of_mem _ (ih h)

/-- A fold stores its predictions as an array unless it has a single test event. -/
lemma GoodRec.lists {env : Env K α ε F V T γ} {rec : Recommender K α φ ε V γ M} {load : Loader K α φ ε F} {x : Rec V}
    (h : GoodRec env rec load x) : (∃ l, x.predicted = .list l) ↔ ∀ y, x.event ≠ .list [y] := by
  obtain ⟨ev, tv, h1, h2, xs, g1, g2, g3, g4⟩ := h
  rcases encPred_list env xs with ⟨hn, e⟩ | ⟨z, hz, e⟩
  · rw [e] at g4
    refine ⟨fun _ y hy => hn ?_, fun _ => ⟨_, g4⟩⟩
    rw [h1, g2] at hy
    simp only [J.list.injEq] at hy
    simpa using congrArg List.length hy
  · rw [e] at g4
    constructor
    · rintro ⟨l, hl⟩
      rw [g4] at hl
      cases hl
    · intro hall
      refine absurd ?_ (hall (J.list (z.1.map (fun y => J.leaf (env.id y)))))
      rw [h1, g2, hz]
      rfl

lemma goodRecs_flat {env : Env K α ε F V T γ} {rec : Recommender K α φ ε V γ M} {load : Loader K α φ ε F} (l : List (Rec V))
    (h : ∀ x ∈ l, GoodRec env rec load x) (hm : ∀ x ∈ l, ∀ y, x.event ≠ .list [y]) : ∃ ev tv pv : List (List (J V)),
    (perFold l (·.event)).map (·.2) = ev.map J.list ∧ (perFold l (·.trues)).map (·.2) = tv.map J.list ∧
    (perFold l (·.predicted)).map (·.2) = pv.map J.list ∧
    ∃ xs : List (List α × K × K), (∀ x ∈ xs, Genuine rec load x) ∧
      ev.flatten = xs.map (fun x => J.list (x.1.map (fun y => J.leaf (env.id y)))) ∧
      tv.flatten = xs.map (fun x => J.leaf (env.num x.2.1)) ∧ pv.flatten = xs.map (fun x => J.leaf (env.num x.2.2)) := by
  induction l with
  | nil => exact ⟨[], [], [], rfl, rfl, rfl, [], by simp, rfl, rfl, rfl⟩
  | cons x l ih =>
    obtain ⟨ev, tv, pv, h1, h2, h3, xs, g1, g2, g3, g4⟩ := ih (fun y hy => h y (by simp [hy])) (fun y hy => hm y (by simp [hy]))
    obtain ⟨p, k3⟩ := (h x (by simp)).lists.2 (hm x (by simp))
    obtain ⟨e, t, k1, k2, ys, f1, f2, f3, f4⟩ := h x (by simp)
    have f5 : p = ys.map (fun x => J.leaf (env.num x.2.2)) := by
      rcases encPred_list env ys with ⟨_, e⟩ | ⟨z, _, e⟩
      · rw [f4, e] at k3
        simpa using k3.symm
      · rw [f4, e] at k3
        cases k3
    refine ⟨e :: ev, t :: tv, p :: pv, ?_, ?_, ?_, ys ++ xs, ?_, ?_, ?_, ?_⟩
    · show x.event :: (perFold l (·.event)).map (·.2) = _; rw [h1, k1]; rfl
    · show x.trues :: (perFold l (·.trues)).map (·.2) = _; rw [h2, k2]; rfl
    · show x.predicted :: (perFold l (·.predicted)).map (·.2) = _; rw [h3, k3]; rfl
    · intro y hy
      rw [List.mem_append] at hy
      rcases hy with hy | hy
      · exact f1 y hy
      · exact g1 y hy
    · rw [List.flatten_cons, f2, g2, List.map_append]
    · rw [List.flatten_cons, f3, g3, List.map_append]
    · rw [List.flatten_cons, f5, g4, List.map_append]

lemma item2_event (hd : Head V) (l : List (Rec V)) :
    (tree hd l).item2 "prediction" "event" = .ok (.dict (perFold l (·.event))) := by
  simp [tree, J.item2, J.item, Dict.getItem, Dict.get?, ok_bind, predictionOf]

lemma item2_true (hd : Head V) (l : List (Rec V)) :
    (tree hd l).item2 "prediction" "true" = .ok (.dict (perFold l (·.trues))) := by
  simp [tree, J.item2, J.item, Dict.getItem, Dict.get?, ok_bind, predictionOf]

lemma item2_predicted (hd : Head V) (l : List (Rec V)) :
    (tree hd l).item2 "prediction" "predicted" = .ok (.dict (perFold l (·.predicted))) := by
  simp [tree, J.item2, J.item, Dict.getItem, Dict.get?, ok_bind, predictionOf]

lemma statsInput_tree (hd : Head V) (l : List (Rec V)) : statsInput (tree hd l) = (concatValues (perFold l (·.trues)) >>= fun t =>
    concatValues (perFold l (·.predicted)) >>= fun p => .ok (t, p)) := by
  unfold statsInput
  rw [item2_event, item2_true, item2_predicted]
  simp only [ok_bind]
  rfl

/-- C62: for every result file, however it came about, the arrays on which the statistics are computed are
those of a list of events, in this order: at every position the true score is the one the loaded file gives
to the event and the prediction is one that a fitted recommender made for the event; and the events stored in
the file are the same in the same order. -/
theorem C62_pairs_belong_together {env : Env K α ε F V T γ} {rec : Recommender K α φ ε V γ M} {load : Loader K α φ ε F} {tru : V} {j : J V}
    (hload : Loads load) (hrec : ScoresEach rec) (hnames : env.names.Nodup) (h : Made env rec load tru j)
    (t p : List (J V)) (hs : statsInput j = .ok (t, p)) :
    ∃ (xs : List (List α × K × K)) (e : J V), (∀ x ∈ xs, Genuine rec load x) ∧
      j.path ["prediction", "event"] = .ok e ∧
      Flat e (xs.map (fun x => J.list (x.1.map (fun y => J.leaf (env.id y))))) ∧
      t = xs.map (fun x => J.leaf (env.num x.2.1)) ∧ p = xs.map (fun x => J.leaf (env.num x.2.2)) := by
  cases h.shape hload hrec hnames with
  | cv hd l hP hN hK =>
    rw [statsInput_tree] at hs
    have hne : l ≠ [] := by
      rintro rfl
      simp [concatValues, perFold, bind, Except.bind, pure, Except.pure] at hs
    have n2 : perFold l (·.trues) ≠ [] := by simpa [perFold] using hne
    have n3 : perFold l (·.predicted) ≠ [] := by simpa [perFold] using hne
    have hm : ∀ x ∈ l, ∀ y, x.event ≠ .list [y] := by
      obtain ⟨t', _, hs⟩ := bind_ok hs
      obtain ⟨p', hp', _⟩ := bind_ok hs
      intro x hx
      exact (hP x hx).lists.1 (concatValues_lists hp' (x.key, x.predicted) (List.mem_map.2 ⟨x, hx, rfl⟩))
    obtain ⟨ev, tv, pv, h1, h2, h3, xs, g1, g2, g3, g4⟩ := goodRecs_flat l hP hm
    rw [concatValues_ok h2 n2, concatValues_ok h3 n3] at hs
    simp only [ok_bind, Except.ok.injEq, Prod.mk.injEq] at hs
    refine ⟨xs, .dict (perFold l (·.event)), g1, ?_, ?_, ?_, ?_⟩
    · simp [J.path, tree, J.item, Dict.getItem, Dict.get?, ok_bind, predictionOf]
    · rw [← g2]; exact .dict _ _ h1
    · rw [← g3, hs.1]
    · rw [← g4, hs.2]
  | held cond env' tr te md ev tv pv feat hq =>
    obtain ⟨xs, g1, g2, g3, g4⟩ := hq
    unfold statsInput at hs
    simp [held, J.item2, J.item, Dict.getItem, Dict.get?, ok_bind] at hs
    rcases encPred_list env xs with ⟨_, e⟩ | ⟨z, _, e⟩
    · rw [e] at g4
      subst g4
      simp at hs
      refine ⟨xs, .list ev, g1, ?_, ?_, ?_, ?_⟩
      · simp [held, J.path, J.item, Dict.getItem, Dict.get?, ok_bind]
      · rw [g2]; exact .list _
      · rw [← g3, hs.1]
      · rw [hs.2]
    · rw [e] at g4
      subst g4
      cases hs

/-- C62: the statistics are defined for the result files that have a fold and no fold with a single test event,
and for no others: the prediction for a single event is stored as a number. -/
theorem C62_defined_iff {env : Env K α ε F V T γ} {rec : Recommender K α φ ε V γ M} {load : Loader K α φ ε F} {tru : V} {j : J V}
    (hload : Loads load) (hrec : ScoresEach rec) (hnames : env.names.Nodup) (h : Made env rec load tru j)
    (key : String) (hk : j.HasFold key) : (∃ t p, statsInput j = .ok (t, p)) ↔ ¬ j.OneTest := by
  cases h.shape hload hrec hnames with
  | cv hd l hP hN hK =>
    have hone : (tree hd l).OneTest ↔ ∃ x ∈ l, ∃ y, x.event = .list [y] := by
      have hpath : ∀ k, (tree hd l).path ["prediction", "event", k] = Dict.getItem (perFold l (·.event)) k := by
        intro k
        simp [J.path, tree, J.item, Dict.getItem, Dict.get?, ok_bind, predictionOf]
      constructor
      · rintro (⟨x, hx⟩ | ⟨k, x, hx⟩)
        · simp [J.path, tree, J.item, Dict.getItem, Dict.get?, ok_bind, predictionOf] at hx
        · rw [hpath] at hx
          unfold Dict.getItem at hx
          cases hg : Dict.get? (perFold l (·.event)) k with
          | none => rw [hg] at hx; cases hx
          | some v =>
            rw [hg] at hx
            simp only [Except.ok.injEq] at hx
            subst hx
            obtain ⟨r, hr, e⟩ := List.mem_map.1 (mem_of_get? hg)
            simp only [Prod.mk.injEq] at e
            exact ⟨r, hr, x, e.2⟩
      · rintro ⟨r, hr, y, hy⟩
        right
        refine ⟨r.key, y, ?_⟩
        rw [path_event hd l hK hr, hy]
    rw [hone]
    have hne : l ≠ [] := by
      rintro rfl
      rw [hasFold_tree] at hk
      simp at hk
    have n2 : perFold l (·.trues) ≠ [] := by simpa [perFold] using hne
    have n3 : perFold l (·.predicted) ≠ [] := by simpa [perFold] using hne
    rw [statsInput_tree]
    constructor
    · rintro ⟨t, p, hs⟩ ⟨x, hx, y, hy⟩
      obtain ⟨t', _, hs⟩ := bind_ok hs
      obtain ⟨p', hp', _⟩ := bind_ok hs
      exact (hP x hx).lists.1 (concatValues_lists hp' (x.key, x.predicted) (List.mem_map.2 ⟨x, hx, rfl⟩)) y hy
    · intro hn
      obtain ⟨ev, tv, pv, h1, h2, h3, _⟩ := goodRecs_flat l hP (fun x hx y hy => hn ⟨x, hx, y, hy⟩)
      refine ⟨tv.flatten, pv.flatten, ?_⟩
      rw [concatValues_ok h2 n2, concatValues_ok h3 n3]
      rfl
  | held cond env' tr te md ev tv pv feat hq =>
    obtain ⟨xs, g1, g2, g3, g4⟩ := hq
    have hone : (held cond env' tr te md ev tv pv feat).OneTest ↔ ∃ y, ev = [y] := by
      constructor
      · rintro (⟨x, hx⟩ | ⟨k, x, hx⟩)
        · simp [J.path, held, J.item, Dict.getItem, Dict.get?, ok_bind] at hx
          exact ⟨x, hx⟩
        · simp [held, J.path, J.item, Dict.getItem, Dict.get?, bind, Except.bind] at hx
      · rintro ⟨y, rfl⟩
        left
        exact ⟨y, by simp [J.path, held, J.item, Dict.getItem, Dict.get?, ok_bind]⟩
    rw [hone]
    unfold statsInput
    simp only [held, J.item2, J.item, Dict.getItem, Dict.get?, ok_bind, if_true, String.reduceEq, if_false, List.cons_append,
      List.nil_append]
    rcases encPred_list env xs with ⟨hl, e⟩ | ⟨z, hz, e⟩
    · rw [e] at g4
      subst g4
      refine ⟨fun _ => ?_, fun _ => ⟨_, _, rfl⟩⟩
      rintro ⟨y, rfl⟩
      exact hl (by simpa using (congrArg List.length g2).symm)
    · rw [e] at g4
      subst g4
      constructor
      · rintro ⟨t, p, hs⟩
        cases hs
      · intro hn
        exact absurd ⟨_, by rw [g2, hz]; rfl⟩ hn

/-! ### C63 -/

/-- C63, what holds: all folds of the first file are kept, and so is the fold of every file that has only one;
and every fold of the merged file is, entry by entry, a fold of one of the files.  What fails is that a later
file with several folds loses all but the first (`C63_refuted`). -/
theorem C63_merge_keeps_partial {env : Env K α ε F V T γ} {rec : Recommender K α φ ε V γ M} {load : Loader K α φ ε F} {tru out : V}
    (hload : Loads load) (hrec : ScoresEach rec) (hnames : env.names.Nodup) {files : List (J V)} {merged : J V}
    (h : ∀ f ∈ files, Made env rec load tru f) (hm : merge tru out files = .ok merged) :
    (∀ f ∈ files.head?, ∀ key, f.HasFold key → merged.HasFold key) ∧
    (∀ f ∈ files, (∀ k k', f.HasFold k → f.HasFold k' → k = k') → ∀ key, f.HasFold key → merged.HasFold key) ∧
    (∀ key, merged.HasFold key → ∃ f ∈ files, f.HasFold key ∧
      (∀ sec ∈ ["training", "test"], merged.path [sec, "results", key] = f.path [sec, "results", key]) ∧
      ∀ sub ∈ ["event", "true", "predicted", "mask"], merged.path ["prediction", sub, key] = f.path ["prediction", sub, key]) := by
  have hs : ∀ f ∈ files, Shape (GoodRec env rec load) (Triples env rec load) f := fun f hf => (h f hf).shape hload hrec hnames
  rcases merge_elim hs hm with ⟨f, fs, rfl, hP, hK, hn⟩ | ⟨cond, env', cond', env'', tr, te, md, ev, tv, pv, feat, rfl, hq, rfl⟩
  · rw [merge_tree tru out f fs hn] at hm
    simp only [Except.ok.injEq] at hm
    subst hm
    obtain ⟨a, b, c⟩ := foldl_upsert (fs.map (fun g => g.2.1)) (f.2.1 :: f.2.2) (hK f (by simp))
    refine ⟨?_, ?_, ?_⟩
    · intro g hg key hk
      simp only [List.map_cons, List.head?_cons, Option.mem_def, Option.some.injEq] at hg
      subst hg
      rw [hasFold_tree]
      rw [File.tree, hasFold_tree] at hk
      exact (c key).2 (Or.inl hk)
    · intro g hg hone key hk
      rw [hasFold_tree, c]
      obtain ⟨g, hg', rfl⟩ := List.mem_map.1 hg
      have : key = g.2.1.key := hone _ _ hk (by rw [File.tree, hasFold_tree]; simp)
      rw [List.mem_cons] at hg'
      rcases hg' with rfl | hg'
      · left; rw [this]; simp
      · right; rw [this]; exact List.mem_map.2 ⟨_, List.mem_map.2 ⟨g, hg', rfl⟩, rfl⟩
    · intro key hk
      rw [hasFold_tree] at hk
      obtain ⟨x, hx, rfl⟩ := List.mem_map.1 hk
      obtain ⟨g, hg, hxg⟩ : ∃ g ∈ f :: fs, x ∈ g.2.1 :: g.2.2 := by
        rcases b x hx with hx | hx
        · exact ⟨f, by simp, hx⟩
        · obtain ⟨g, hg, rfl⟩ := List.mem_map.1 hx
          exact ⟨g, by simp [hg], by simp⟩
      refine ⟨g.tree, List.mem_map.2 ⟨g, hg, rfl⟩, ?_, ?_, ?_⟩
      · rw [File.tree, hasFold_tree]; exact List.mem_map.2 ⟨x, hxg, rfl⟩
      · intro sec hsec
        simp only [List.mem_cons, List.not_mem_nil, or_false] at hsec
        rcases hsec with rfl | rfl
        · rw [path_training _ _ a hx, File.tree, path_training _ _ (hK g hg) hxg]
        · rw [path_test _ _ a hx, File.tree, path_test _ _ (hK g hg) hxg]
      · intro sub hsub
        simp only [List.mem_cons, List.not_mem_nil, or_false] at hsub
        rcases hsub with rfl | rfl | rfl | rfl
        · rw [path_event _ _ a hx, File.tree, path_event _ _ (hK g hg) hxg]
        · rw [path_true _ _ a hx, File.tree, path_true _ _ (hK g hg) hxg]
        · rw [path_predicted _ _ a hx, File.tree, path_predicted _ _ (hK g hg) hxg]
        · rw [path_mask _ _ a hx, File.tree, path_mask _ _ (hK g hg) hxg]
  · have e : ∀ p : List String, p.head? = some "training" ∨ p.head? = some "test" ∨ p.head? = some "prediction" →
        (held cond' env'' tr te md ev tv pv feat).path p = (held cond env' tr te md ev tv pv feat).path p := by
      intro p hp
      cases p with
      | nil => simp at hp
      | cons a p =>
        simp only [List.head?_cons, Option.some.injEq] at hp
        rcases hp with rfl | rfl | rfl <;>
          simp [held, J.path, J.item, Dict.getItem, Dict.get?, ok_bind]
    have e2 : ∀ key, (held cond' env'' tr te md ev tv pv feat).HasFold key ↔ (held cond env' tr te md ev tv pv feat).HasFold key := by
      intro key
      unfold J.HasFold
      rw [e _ (by simp)]
    refine ⟨?_, ?_, ?_⟩
    · intro g hg key hk
      simp at hg
      subst hg
      exact (e2 key).2 hk
    · intro g hg _ key hk
      simp at hg
      subst hg
      exact (e2 key).2 hk
    · intro key hk
      refine ⟨_, by simp, (e2 key).1 hk, ?_, ?_⟩
      · intro sec hsec
        simp only [List.mem_cons, List.not_mem_nil, or_false] at hsec
        rcases hsec with rfl | rfl <;> exact e _ (by simp)
      · intro sub _
        exact e _ (by simp)

/-- C63, what happens instead: merging a file with further folds of a full run onto a file with one of them
drops all but its first fold. -/
theorem C63_dropped (h h2 : Head V) (r x y : Rec V) (l : List (Rec V)) (tru out : V)
    (hn : ∀ ns, h.names = some ns → ns.Nodup ∧ ∀ k ∈ ns, ∃ ns2, h2.names = some ns2 ∧ k ∈ ns2)
    (hy : y.key ≠ r.key) (hxy : y.key ≠ x.key) :
    ∃ merged, merge tru out [tree h [r], tree h2 (x :: y :: l)] = .ok merged ∧
      (tree h2 (x :: y :: l)).HasFold y.key ∧ ¬ merged.HasFold y.key := by
  have e := merge_tree tru out ((h, r, []) : File V) [(h2, x, y :: l)] (by
    intro ns hns
    refine ⟨(hn ns hns).1, ?_⟩
    intro g hg
    simp only [List.mem_singleton] at hg
    subst hg
    exact (hn ns hns).2)
  refine ⟨_, e, ?_, ?_⟩
  · rw [hasFold_tree]; simp
  · rw [hasFold_tree]
    simp only [List.map_cons, List.map_nil, List.foldl_cons, List.foldl_nil]
    rw [keys_upsert]
    simp [hy, hxy]

end Kam.Scripts
