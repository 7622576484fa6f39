/-
End-to-end properties of the matrix factorization recommenders: unknown objects (C32), batches
(C23) and refitting (C26).
-/
import Verif.MF.Props2

set_option linter.unusedSectionVars false

namespace Kam
open scoped BigOperators
open Spec

section
variable {K : Type} [Field K] [LinearOrder K] [IsStrictOrderedRing K] [FloorRing K]
variable {α φ ε γ θ V : Type} [LinearOrder α]

/-- The parameters of a fitted recommender come from its training on the stored shape. -/
theorem Spec.FittedBy.trained {L : Learner K γ θ V} {mk : Int → γ} {env : γ}
    {r r' : Rec K α φ ε γ θ V} {d : EventData α φ ε} {idx : Option (List Int)}
    (h : FittedBy L mk env r d idx r') :
    ∃ v p res, L.train v = .ok (p, res) ∧ r'.params = some p ∧ v.nObjects = r'.info.nObjects ∧
      v.eventOtypes = r'.info.eventOtypes ∧ v.eventIndex = r'.eventIndex.getD [] := by
  have key : ∀ {r1 : Rec K α φ ε γ θ V}, Rec.finish L r1 = .ok r' →
      ∃ v p res, L.train v = .ok (p, res) ∧ r'.params = some p ∧ v.nObjects = r'.info.nObjects ∧
        v.eventOtypes = r'.info.eventOtypes ∧ v.eventIndex = r'.eventIndex.getD [] := by
    intro r1 h1
    obtain ⟨p, res, h2, rfl⟩ := finish_ok h1
    exact ⟨_, p, res, h2, rfl, rfl, rfl, rfl⟩
  cases h with
  | predictor h =>
    unfold Rec.fitPredictor at h
    split at h
    · cases h
    · exact key h
  | explicit h =>
    unfold Rec.fitExplicit at h
    split at h
    · cases h
    · exact key h
  | implicit h =>
    unfold Rec.fitImplicit at h
    split at h
    · cases h
    · exact key h
end

namespace MF
variable {α φ ε γ : Type} [LinearOrder α]

/-- One of the three matrix factorization models with its link function. -/
inductive Model (cf : Config γ) : Learner ℝ γ Params Val → (ℝ → ℝ) → Prop
  | pmf : Model cf (pmf cf) id
  | logistic : Model cf (logistic cf) safeSigmoid
  | implicit : Model cf (implicit cf) safeSigmoid

/-- The names assigned to `fit_results_` by a fit. -/
def resultKeys : List String :=
  ["initial_loss", "n_users", "n_items", "n_events", "n_parameters", "success", "status", "message",
   "final_loss", "n_iterations", "func_calls", "grad_calls", "optimizer_method", "optimizer_kwargs"]

/-- What a successful training returns. -/
theorem train_ok {cf : Config γ} {L : Learner ℝ γ Params Val} {link : ℝ → ℝ} (hL : Model cf L link)
    {v : View ℝ γ} {p : Params} {res : List (String × Val)} (h : L.train v = .ok (p, res)) :
    ∃ (nu ni : Nat) (c : Coef nu ni cf.k), p = store c ∧ res.map (·.1) = resultKeys ∧
      ((npGet v.nObjects 0 = .ok nu ∧ npGet v.nObjects 1 = .ok ni) ∨
       ∃ ts, npTake v.eventOtypes v.eventIndex = .ok ts ∧
        npTake v.nObjects (ts.map Int.ofNat) = .ok [nu, ni]) := by
  have hex : ∀ (ic) (lo) (gr), trainExplicit cf ic lo gr v = .ok (p, res) →
      ∃ (nu ni : Nat) (c : Coef nu ni cf.k), p = store c ∧ res.map (·.1) = resultKeys ∧
      ((npGet v.nObjects 0 = .ok nu ∧ npGet v.nObjects 1 = .ok ni) ∨
       ∃ ts, npTake v.eventOtypes v.eventIndex = .ok ts ∧
        npTake v.nObjects (ts.map Int.ofNat) = .ok [nu, ni]) := by
    intro ic lo gr h
    unfold trainExplicit at h
    cases h0 : npGet v.nObjects 0 with
    | error e => rw [h0] at h; cases h
    | ok nu =>
      cases h1 : npGet v.nObjects 1 with
      | error e => rw [h0, h1] at h; cases h
      | ok ni =>
        rw [h0, h1] at h
        simp only [bind, Except.bind] at h
        split at h
        · cases h2 : parseEvents nu ni v.event ‹_› with
          | error e => rw [h2] at h; cases h
          | ok evs =>
            rw [h2] at h
            cases h3 : allocate nu ni with
            | error e => rw [h3] at h; cases h
            | ok _ =>
              rw [h3] at h
              cases h
              exact ⟨nu, ni, _, rfl, rfl, .inl ⟨rfl, rfl⟩⟩
        · cases h
  cases hL with
  | pmf => exact hex _ _ _ h
  | logistic => exact hex _ _ _ h
  | implicit =>
    simp only [implicit] at h
    cases h0 : getEventArray v with
    | error e => rw [h0] at h; cases h
    | ok x =>
      rw [h0] at h
      simp only [bind, Except.bind] at h
      split at h
      · rename_i nu ni g hns _
        have ha : allocate nu ni = .ok () := by
          cases h3 : allocate nu ni with
          | error e => rw [h3] at h; cases h
          | ok _ => rfl
        rw [ha] at h
        cases h
        refine ⟨nu, ni, _, rfl, rfl, .inr ?_⟩
        unfold getEventArray at h0
        cases h1 : npTake v.eventOtypes v.eventIndex with
        | error e => rw [h1] at h0; cases h0
        | ok ts =>
          refine ⟨ts, rfl, ?_⟩
          cases h2 : npTake v.nObjects (ts.map Int.ofNat) with
          | error e => rw [h1] at h0; simp only [bind, Except.bind, h2] at h0; cases h0
          | ok ns =>
            rw [h1] at h0
            simp only [bind, Except.bind, h2] at h0
            clear h1 h2
            split at h0
            · cases h0
            · split at h0
              · cases h0
              · split at h0
                · cases h0
                · split at h0
                  · cases h0
                  · split at h0
                    · split at h0
                      · cases h0; exact congrArg _ hns
                      · cases h0
                    · cases h0
      · cases h

theorem model_rawPredict {cf : Config γ} {L : Learner ℝ γ Params Val} {link : ℝ → ℝ}
    (hL : Model cf L link) : L.rawPredict = rawPredict link := by cases hL <;> rfl

/-- C23 for the matrix factorization models: predictions of a batch are those of its rows. -/
theorem C23_mf {cf : Config γ} {L : Learner ℝ γ Params Val} {link : ℝ → ℝ} (hL : Model cf L link)
    {r : Rec ℝ α φ ε γ Params Val} {p : Params} (hp : r.params = some p) (a : Arr2 α)
    (hreg : a.Regular) (hc : a.ncols ≠ 0) :
    (2 ≤ a.rows.length → ∀ y, Rec.predict L r (.mat a) = .ok y ↔
      ∃ ys, y = .vec ys ∧
        List.Forall₂ (fun row x => Rec.predict L r (.vec row) = .ok (.scalar x)) a.rows ys) ∧
    (∀ row y, row ∈ a.rows → Rec.predict L r (.vec row) = .ok y → ∃ x, y = .scalar x) :=
  C23_batch_row_wise hp ⟨fun row => (rawScore p row).map link, by
    intro rows; rw [model_rawPredict hL]; rfl⟩ a hreg hc

/-- C26 for the matrix factorization models. -/
theorem C26_mf {cf : Config γ} {L : Learner ℝ γ Params Val} {link : ℝ → ℝ} (hL : Model cf L link)
    {kind : Kind} {mk : Int → γ} {s : Int} {r : Rec ℝ α φ ε γ Params Val}
    (h : History kind L mk (some s) initialResults resultKeys r)
    {d : ScoreData ℝ α φ ε} {idx : Option (List Int)} {env env' : γ} {r' : Rec ℝ α φ ε γ Params Val}
    (hfit : fitAs kind L mk env r d idx = .ok r') :
    ∃ q', fitAs kind L mk env' (Rec.init (some s) initialResults) d idx = .ok q' ∧ SameFit L r' q' := by
  refine C26_refit_forgets ?_ ?_ h hfit
  · intro k hk
    simp only [initialResults, Dict.keys, List.map_cons, List.map_nil, List.mem_cons,
      List.not_mem_nil, or_false] at hk
    rcases hk with rfl | rfl <;> simp [resultKeys]
  · intro v p res ht k
    obtain ⟨_, _, _, _, hk, _⟩ := train_ok hL ht
    rw [hk]

/-! ### C32 -/

/-- The prediction `y` for the request `(user, item)` uses the biases and factors of the objects
that occurred in training, and nothing for the others. -/
def RowPrediction (link : ℝ → ℝ) (p : Params) (rows : List (List α)) (row : List α) (y : ℝ) : Prop :=
  ∀ x i, row = [x, i] →
    (¬ IsObject [0, 1] rows 0 x → IsObject [0, 1] rows 1 i →
      ∃ b, p.bi[rank [0, 1] rows 1 i]? = some b ∧ y = link (p.mu + b)) ∧
    (IsObject [0, 1] rows 0 x → ¬ IsObject [0, 1] rows 1 i →
      ∃ b, p.bu[rank [0, 1] rows 0 x]? = some b ∧ y = link (p.mu + b)) ∧
    (¬ IsObject [0, 1] rows 0 x → ¬ IsObject [0, 1] rows 1 i → y = link p.mu) ∧
    (IsObject [0, 1] rows 0 x → IsObject [0, 1] rows 1 i →
      ∃ b b' f f', p.bu[rank [0, 1] rows 0 x]? = some b ∧ p.bi[rank [0, 1] rows 1 i]? = some b' ∧
        p.p[rank [0, 1] rows 0 x]? = some f ∧ p.q[rank [0, 1] rows 1 i]? = some f' ∧
        y = link (p.mu + b + b' + (List.zipWith (· * ·) f f').sum))

theorem getElem?_ofFn_append {β : Type} {n : Nat} (f : Fin n → β) (z : β) (i : Nat) (h : i < n) :
    (List.ofFn f ++ [z])[i]? = some (f ⟨i, h⟩) := by
  rw [List.getElem?_append_left (by simpa using h)]
  simp [h]

theorem lookup_code (rows : List (List α)) (t : Nat) (x : α) :
    (IsObject [0, 1] rows t x → ∃ (h : rank [0, 1] rows t x < count [0, 1] rows t),
      lookup [0, 1] rows t x = code (some (⟨rank [0, 1] rows t x, h⟩ : Fin (count [0, 1] rows t)))) ∧
    (¬ IsObject [0, 1] rows t x →
      lookup [0, 1] rows t x = code (none : Option (Fin (count [0, 1] rows t)))) := by
  constructor
  · intro ho
    have h : rank [0, 1] rows t x < count [0, 1] rows t := by
      rw [← idxOf_ids _ _ _ _ ho, ← length_ids]
      exact List.idxOf_lt_length_of_mem ((mem_ids _ _ _ _).2 ho)
    refine ⟨h, ?_⟩
    unfold lookup
    rw [if_pos ho]; rfl
  · intro ho
    unfold lookup
    rw [if_neg ho]; rfl

/-- Raw prediction for the internal form of a request. -/
theorem rawScore_lookup {k : Nat} (rows : List (List α)) (link : ℝ → ℝ)
    (c : Coef (count [0, 1] rows 0) (count [0, 1] rows 1) k) (x i : α) :
    ∃ y, (rawScore (store c) [lookup [0, 1] rows 0 x, lookup [0, 1] rows 1 i]).map link = .ok y ∧
      RowPrediction link (store c) rows [x, i] y := by
  have hu := lookup_code rows 0 x
  have hi := lookup_code rows 1 i
  by_cases hx : IsObject [0, 1] rows 0 x <;> by_cases hy : IsObject [0, 1] rows 1 i
  · obtain ⟨h1, e1⟩ := hu.1 hx
    obtain ⟨h2, e2⟩ := hi.1 hy
    rw [e1, e2, rawScore_store]
    refine ⟨_, rfl, ?_⟩
    rintro x' i' ⟨⟩
    refine ⟨fun h => absurd hx h, fun _ h => absurd hy h, fun h => absurd hx h, fun _ _ => ?_⟩
    refine ⟨_, _, _, _, getElem?_ofFn_append _ _ _ h1, getElem?_ofFn_append _ _ _ h2,
      getElem?_ofFn_append _ _ _ h1, getElem?_ofFn_append _ _ _ h2, ?_⟩
    rw [zipWith_ofFn]
    rfl
  · obtain ⟨h1, e1⟩ := hu.1 hx
    rw [e1, hi.2 hy, rawScore_store]
    refine ⟨_, rfl, ?_⟩
    rintro x' i' ⟨⟩
    refine ⟨fun h => absurd hx h, fun _ _ => ?_, fun h => absurd hx h, fun _ h => absurd h hy⟩
    refine ⟨_, getElem?_ofFn_append _ _ _ h1, ?_⟩
    rw [(estO_none _).2.1]
    rfl
  · obtain ⟨h2, e2⟩ := hi.1 hy
    rw [e2, hu.2 hx, rawScore_store]
    refine ⟨_, rfl, ?_⟩
    rintro x' i' ⟨⟩
    refine ⟨fun _ _ => ?_, fun h => absurd h hx, fun _ h => absurd hy h, fun h => absurd h hx⟩
    refine ⟨_, getElem?_ofFn_append _ _ _ h2, ?_⟩
    rw [(estO_none _).1]
    rfl
  · rw [hu.2 hx, hi.2 hy, rawScore_store]
    refine ⟨_, rfl, ?_⟩
    rintro x' i' ⟨⟩
    refine ⟨fun _ h => absurd h hy, fun h => absurd h hx, fun _ _ => ?_, fun h => absurd h hx⟩
    rw [(estO_none _).2.2]
    rfl

/-- C32: the models trained on user-item events predict the global mean plus the known bias when
one of the two objects did not occur in training, the global mean when both did not (through the
link function), and the full estimate when both did; for every training data, every result of the
optimizer and every batch of requests. -/
theorem C32_unknown_objects {cf : Config γ} {L : Learner ℝ γ Params Val} {link : ℝ → ℝ}
    (hL : Model cf L link) {mk : Int → γ} {env : γ} {r r' : Rec ℝ α φ ε γ Params Val}
    {d : EventData α φ ε} {rows : List (List α)} (h : Built d rows) (hlay : d.eventOtypes = [0, 1])
    (idx : Option (List Int)) (hidx : idx = none ∨ idx = some [0, 1])
    (hfit : FittedBy L mk env r d idx r') :
    ∃ p, r'.params = some p ∧
      p.bu.length = count [0, 1] rows 0 + 1 ∧ p.bi.length = count [0, 1] rows 1 + 1 ∧
      ∀ a : Arr2 α, a.Regular → a.ncols = 2 → a.rows ≠ [] →
        ∃ ys, Rec.predict L r' (.mat a) = .ok (squeeze ys) ∧
          List.Forall₂ (RowPrediction link p rows) a.rows ys := by
  have hd := h.holds
  have hs : d.sEvent = 2 := by rw [← hd.wf.len_otypes, hlay]; rfl
  have hlay' : d.eventOtypes = List.range d.sEvent := by rw [hlay, hs]; rfl
  have hidx' : idx = none ∨ idx = some ((List.range d.sEvent).map Int.ofNat) := by
    rw [hs]; exact hidx
  obtain ⟨p, hp, hpr⟩ := C21_predict_scores_internal_ids h hlay' idx hidx' hfit
  obtain ⟨js, hjs, hf, _⟩ := hfit.fittedOn hd
  have hjs' : js = [0, 1] := by
    rcases hidx with rfl | rfl
    · simp only [columnsOf] at hjs; cases hjs; rw [hs]; rfl
    · simp only [columnsOf, hs] at hjs; cases hjs; rfl
  have hstored : storedIndex d idx = [0, 1] := by
    rcases hidx with rfl | rfl
    · simp only [storedIndex, hs]; rfl
    · rfl
  obtain ⟨v, p', res, ht, hp', hn, ho, hix⟩ := hfit.trained
  rw [hp] at hp'
  cases hp'
  have hn' : v.nObjects = [count [0, 1] rows 0, count [0, 1] rows 1] := by
    rw [hn, hf.nObjects, hjs', hlay]
    simp only [List.map_cons, List.map_nil, length_ids]
    rfl
  have ho' : v.eventOtypes = [0, 1] := by rw [ho, hf.eventOtypes, hlay]
  have hix' : v.eventIndex = [0, 1] := by rw [hix, hf.eventIndex, hstored]; rfl
  obtain ⟨nu, ni, c, rfl, _, hshape⟩ := train_ok hL ht
  have hnu : nu = count [0, 1] rows 0 ∧ ni = count [0, 1] rows 1 := by
    rw [hn', ho', hix'] at hshape
    rcases hshape with ⟨h1, h2⟩ | ⟨ts, h1, h2⟩
    · cases h1; cases h2; exact ⟨rfl, rfl⟩
    · cases h1; cases h2; exact ⟨rfl, rfl⟩
  obtain ⟨rfl, rfl⟩ := hnu
  refine ⟨_, hp, by simp [store], by simp [store], ?_⟩
  intro a hreg hc hne
  obtain ⟨os, h1, h2⟩ := hpr a hreg (by rw [hc, hs]) (by rw [hc]; decide) hne
  rw [h2, model_rawPredict hL]
  have key : ∀ (l : List (List α)) (os : List (List Int)), (∀ row ∈ l, row.length = 2) →
      List.Forall₂ (Encodes d.eventOtypes rows (List.range d.sEvent)) l os →
      ∃ ys, rawPredict link (store c) os = .ok ys ∧
        List.Forall₂ (RowPrediction link (store c) rows) l ys := by
    intro l os hl hfa
    induction hfa with
    | nil => exact ⟨[], rfl, .nil⟩
    | @cons row o l os he _ ih =>
      obtain ⟨ys, h3, h4⟩ := ih (fun r hr => hl r (by simp [hr]))
      obtain ⟨x, i, rfl⟩ := List.length_eq_two.1 (hl row (by simp))
      obtain ⟨he1, he2⟩ := he
      rw [hs] at he1 he2
      rw [hlay] at he2
      obtain ⟨o1, o2, rfl⟩ := List.length_eq_two.1 he1
      have e1 := he2 0 0 0 x rfl rfl rfl
      have e2 := he2 1 1 1 i rfl rfl rfl
      simp only [List.getElem?_cons_zero, List.getElem?_cons_succ, Option.some.injEq] at e1 e2
      subst e1 e2
      obtain ⟨y, h5, h6⟩ := rawScore_lookup rows link c x i
      refine ⟨y :: ys, ?_, .cons h6 h4⟩
      unfold rawPredict at h3 ⊢
      rw [List.mapM_cons, h5, h3]
      rfl
  obtain ⟨ys, h3, h4⟩ := key a.rows os (fun row hr => by rw [hreg row hr, hc]) h1
  exact ⟨ys, by rw [h3]; rfl, h4⟩

/-- A configuration whose optimizer returns the initial point. -/
noncomputable def exConfig : Config Unit where
  C := 1
  k := 1
  method := "CG"
  kwargs := []
  opt := fun _ f _ x0 _ _ => ⟨x0, true, 0, "", f x0, 1, 1, 1⟩
  rng := ⟨fun _ _ _ _ _ => (fun _ _ => 1, ())⟩

/-- User 1 with item 10 and user 2 with item 20. -/
def exSquare : EventData Nat Nat Nat :=
  (⟨2, [0, 0], [none, none], [none, none], [none, none], 2, [0, 1], 0, none, none⟩ :
    EventData Nat Nat Nat).loaded [[1, 10], [2, 20]] none

theorem exSquare_built : Built exSquare [[1, 10], [2, 20]] :=
  .load (d0 := ⟨2, [0, 0], [none, none], [none, none], [none, none], 2, [0, 1], 0, none, none⟩)
    (event := ⟨2, [[1, 10], [2, 20]]⟩) (ef := none)
    (.init (n := 2) (arg := .none) rfl)
    (by intro r hr; simp only [List.mem_cons, List.not_mem_nil, or_false] at hr
        rcases hr with rfl | rfl <;> rfl)
    (by rintro f ⟨⟩)
    (EventData.setEvent_eq _ (Reachable.init (n := 2) (arg := .none) rfl).wf _
      (by intro r hr; simp only [List.mem_cons, List.not_mem_nil, or_false] at hr
          rcases hr with rfl | rfl <;> rfl) rfl none)

/-- Training the implicit model on `exSquare` succeeds: the hypotheses of `C32_unknown_objects`. -/
example : ∃ r' : Rec ℝ Nat Nat Nat Unit Params Val, Built exSquare [[1, 10], [2, 20]] ∧
    exSquare.eventOtypes = [0, 1] ∧
    FittedBy (implicit exConfig) (fun _ => ()) () (Rec.init (some 1) initialResults) exSquare none r' :=
  ⟨_, exSquare_built, rfl, .implicit rfl⟩

end MF
end Kam
