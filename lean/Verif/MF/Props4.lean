/-
Symmetries of the matrix factorization models: shifted scores (C82), rotated latent factors (C83),
renamed users and items (C84), repeated data (C85).
-/
import Verif.MF.Props3
import Mathlib.Data.Matrix.Mul
import Mathlib.LinearAlgebra.Matrix.NonsingularInverse

set_option linter.unusedSectionVars false

namespace Kam
namespace MF
open scoped BigOperators
open Spec

variable {nu ni k : Nat}

/-! ### C82: shifted scores -/

/-- The training events with `t` added to every score. -/
def shiftScores (t : ℝ) (evs : List (Event nu ni)) : List (Event nu ni) :=
  evs.map (fun e => { e with score := e.score + t })

/-- The vector with entry `t` at the position of `mu` and 0 elsewhere. -/
def muDir (t : ℝ) : Coef nu ni k := fun j => if j.1 = 0 then t else 0

theorem unpack_muDir (t : ℝ) (c : Coef nu ni k) :
    unpack (c + muDir t) = { unpack c with mu := (unpack c).mu + t } := by
  have h : ∀ s : Slot nu ni k, (unpack (c + muDir t)).get s =
      (unpack c).get s + (if s = .mu then t else 0) := by
    intro s
    rw [get_unpack, get_unpack]
    simp only [Pi.add_apply, muDir]
    congr 1
    cases s <;> simp [pos]
  apply Views.ext
  · exact h .mu
  · funext u; have := h (.bu u); simpa [Views.get] using this
  · funext i; have := h (.bi i); simpa [Views.get] using this
  · funext u f; have := h (.p u f); simpa [Views.get] using this
  · funext i f; have := h (.q i f); simpa [Views.get] using this

theorem est_shift (t : ℝ) (v : Views nu ni k) (u : Fin nu) (i : Fin ni) :
    est { v with mu := v.mu + t } u i = est v u i + t := by
  unfold est; ring

theorem loss_shift (C t : ℝ) (evs : List (Event nu ni)) (c : Coef nu ni k) :
    PMF.loss C (shiftScores t evs) (c + muDir t) = PMF.loss C evs c := by
  unfold PMF.loss shiftScores
  simp only [unpack_muDir, List.map_map]
  have hr : reg { unpack c with mu := (unpack c).mu + t } = reg (unpack c) := rfl
  rw [hr]
  congr 3
  apply List.map_congr_left
  intro e _
  simp only [Function.comp, est_shift]
  ring

theorem bincount_map {β β' : Type} {n : Nat} (f : β → β') (evs : List β) (id : β' → Fin n)
    (w : β' → ℝ) (j : Fin n) :
    bincount (evs.map f) id w j = bincount evs (id ∘ f) (w ∘ f) j := by
  unfold bincount
  rw [List.filter_map, List.map_map]
  rfl

theorem gradLoss_shift (C t : ℝ) (evs : List (Event nu ni)) (c : Coef nu ni k) :
    PMF.gradLoss C (shiftScores t evs) (c + muDir t) = PMF.gradLoss C evs c := by
  unfold PMF.gradLoss shiftScores
  simp only [unpack_muDir]
  congr 1
  unfold gradTerms addReg
  simp only [bincount_map, List.map_map]
  have hw : (fun e : Event nu ni => -(e.score - est { unpack c with mu := (unpack c).mu + t }
      e.user e.item)) ∘ (fun e : Event nu ni => { e with score := e.score + t }) =
      fun e => -(e.score - est (unpack c) e.user e.item) := by
    funext e
    simp only [Function.comp, est_shift]
    ring
  have hw2 : ∀ g : Event nu ni → ℝ,
      (∀ e : Event nu ni, g { e with score := e.score + t } = g e) →
      (fun e : Event nu ni => -(e.score - est { unpack c with mu := (unpack c).mu + t }
      e.user e.item) * g e) ∘ (fun e : Event nu ni => { e with score := e.score + t }) =
      fun e => -(e.score - est (unpack c) e.user e.item) * g e := by
    intro g hg
    funext e
    simp only [Function.comp, est_shift, hg]
    ring
  rw [hw]
  apply Views.ext
  · rfl
  · rfl
  · rfl
  · funext u f
    simp only
    rw [hw2 (fun e => (unpack c).q e.item f) (fun _ => rfl)]
    rfl
  · funext i f
    simp only
    rw [hw2 (fun e => (unpack c).p e.user f) (fun _ => rfl)]
    rfl

theorem initBias_shift (t : ℝ) (evs : List (Event nu ni)) (hne : evs ≠ []) :
    initBias (shiftScores t evs) = ((initBias evs).1 + t, (initBias evs).2.1, (initBias evs).2.2) := by
  have hl : (evs.length : ℝ) ≠ 0 := by
    have := List.length_pos_iff.2 hne
    positivity
  have hmu : ((shiftScores t evs).map (·.score)).sum / ((shiftScores t evs).length : ℝ) =
      (evs.map (·.score)).sum / (evs.length : ℝ) + t := by
    unfold shiftScores
    rw [List.map_map, List.length_map]
    have : (evs.map ((fun e : Event nu ni => e.score) ∘ fun e => { e with score := e.score + t })).sum =
        (evs.map (·.score)).sum + t * evs.length := by
      rw [← list_sum_const, ← list_sum_add]
      rfl
    rw [this]
    field_simp
  have hf : ∀ q : Event nu ni → Bool, (∀ e : Event nu ni, q { e with score := e.score + t } = q e) →
      (shiftScores t evs).filter q = shiftScores t (evs.filter q) := by
    intro q hq
    unfold shiftScores
    rw [List.filter_map]
    congr 1
    apply List.filter_congr
    intro e _
    exact hq e
  have hbu : ∀ u, (initBias (shiftScores t evs)).2.1 u = (initBias evs).2.1 u := by
    intro u
    unfold initBias
    simp only
    rw [hmu, hf (fun e => decide (e.user = u)) (fun _ => rfl)]
    unfold shiftScores
    rw [List.length_map, List.map_map]
    congr 3
    apply List.map_congr_left
    intro e _
    simp only [Function.comp]
    ring
  have hbi : ∀ i, (initBias (shiftScores t evs)).2.2 i = (initBias evs).2.2 i := by
    intro i
    have hbi0 : ∀ l : List (Event nu ni), (initBias l).2.2 i =
        (let j := l.filter (fun e => decide (e.item = i))
         if 0 < j.length then (j.map (fun e => e.score - ((l.map (·.score)).sum / (l.length : ℝ) +
           (initBias l).2.1 e.user))).sum / (j.length : ℝ) else 0) := fun _ => rfl
    rw [hbi0, hbi0]
    simp only [hbu, hmu]
    rw [hf (fun e => decide (e.item = i)) (fun _ => rfl)]
    have hl2 : ∀ l : List (Event nu ni), (shiftScores t l).length = l.length := by
      intro l; simp [shiftScores]
    have hm2 : ∀ (l : List (Event nu ni)) (h : Event nu ni → ℝ), (shiftScores t l).map h =
        l.map (fun e => h { e with score := e.score + t }) := by
      intro l h; simp [shiftScores, Function.comp_def]
    rw [hl2, hm2]
    congr 3
    apply List.map_congr_left
    intro e _
    ring
  refine Prod.ext hmu (Prod.ext (funext hbu) (funext hbi))

theorem initCoef_shift {γ : Type} (R : Rng γ) (g : γ) (t : ℝ) (evs : List (Event nu ni))
    (hne : evs ≠ []) :
    PMF.initCoef R g k (shiftScores t evs) =
      ((PMF.initCoef R g k evs).1 + muDir t, (PMF.initCoef R g k evs).2) := by
  unfold PMF.initCoef
  simp only
  rw [initBias_shift t evs hne]
  have hmu : mask (shiftScores t evs) (·.user) = mask evs (·.user) := by
    unfold mask shiftScores
    simp [List.any_map, Function.comp_def]
  have hmi : mask (shiftScores t evs) (·.item) = mask evs (·.item) := by
    unfold mask shiftScores
    simp [List.any_map, Function.comp_def]
  have hvar : ((shiftScores t evs).foldl (fun var e => var + (e.score - ((initBias evs).1 + t +
        (initBias evs).2.1 e.user + (initBias evs).2.2 e.item)) ^ 2) 0.0) =
      evs.foldl (fun var e => var + (e.score - ((initBias evs).1 +
        (initBias evs).2.1 e.user + (initBias evs).2.2 e.item)) ^ 2) 0.0 := by
    unfold shiftScores
    rw [List.foldl_map]
    congr 1
    funext var e
    ring
  have hlen : (shiftScores t evs).length = evs.length := by simp [shiftScores]
  simp only
  rw [hmu, hmi, hvar, hlen]
  refine Prod.ext ?_ rfl
  simp only
  rw [← pack_unpack (_ + muDir t), unpack_muDir, unpack_pack]

/-- An optimizer whose result depends only on the shape of the function: if the function is moved
by `d` together with its gradient and the initial point, then the solution moves by `d` and nothing
else changes. -/
def Equivariant (opt : Optimizer) : Prop :=
  ∀ (N : Nat) (f : (Fin N → ℝ) → ℝ) (g : (Fin N → ℝ) → (Fin N → ℝ)) (x0 d : Fin N → ℝ)
    (m : String) (kw : List (String × String)),
    opt N (fun x => f (x - d)) (fun x => g (x - d)) (x0 + d) m kw =
      { opt N f g x0 m kw with x := (opt N f g x0 m kw).x + d }

/-- Learned parameters with `t` added to the global bias. -/
def Params.shift (t : ℝ) (p : Params) : Params := { p with mu := p.mu + t }

theorem store_shift (t : ℝ) (c : Coef nu ni k) : store (c + muDir t) = (store c).shift t := by
  unfold store Params.shift
  simp only [unpack_muDir]

theorem rawScore_shift (t : ℝ) (p : Params) (row : List Int) :
    rawScore (p.shift t) row = (rawScore p row).map (· + t) := by
  unfold rawScore Params.shift
  cases npGet row 0 with
  | error e => rfl
  | ok u =>
    cases npGet row 1 with
    | error e => rfl
    | ok i =>
      simp only [bind, Except.bind]
      cases npGet p.bu u with
      | error e => rfl
      | ok a =>
        cases npGet p.bi i with
        | error e => rfl
        | ok b =>
          simp only
          cases npGet p.p u with
          | error e => rfl
          | ok x =>
            cases npGet p.q i with
            | error e => rfl
            | ok y =>
              simp only [pure, Except.pure, Except.map]
              congr 1
              ring

theorem mapM_except_map {β δ δ' : Type} (f : β → Res δ) (g : δ → δ') (l : List β) :
    l.mapM (fun x => (f x).map g) = (l.mapM f).map (List.map g) := by
  induction l with
  | nil => rfl
  | cons x l ih =>
    rw [List.mapM_cons, List.mapM_cons, ih]
    cases f x with
    | error e => rfl
    | ok y =>
      simp only [bind, Except.bind, Except.map]
      cases l.mapM f with
      | error e => rfl
      | ok ys => rfl

theorem rawPredict_shift (t : ℝ) (p : Params) (rows : List (List Int)) :
    rawPredict id (p.shift t) rows = (rawPredict id p rows).map (List.map (· + t)) := by
  unfold rawPredict
  rw [← mapM_except_map]
  congr 1
  funext row
  rw [rawScore_shift]
  cases rawScore p row <;> rfl

theorem parseEvents_shift (t : ℝ) (nu ni : Nat) (ev : List (List Int)) (sc : List ℝ) :
    parseEvents nu ni ev (sc.map (· + t)) = (parseEvents nu ni ev sc).map (shiftScores t) := by
  unfold parseEvents
  rw [List.length_map]
  split
  · rw [List.zip_map_right, mapM_map]
    unfold shiftScores
    rw [← mapM_except_map]
    congr 1
    funext x
    simp only [bind, Except.bind, Prod.map, id]
    cases npGet x.1 0 with
    | error e => rfl
    | ok a =>
      simp only
      cases toFin nu a with
      | error e => rfl
      | ok u =>
        simp only
        cases npGet x.1 1 with
        | error e => rfl
        | ok b =>
          simp only
          cases toFin ni b with
          | error e => rfl
          | ok i => rfl
  · rfl

theorem parseEvents_ne_nil {nu ni : Nat} {ev : List (List Int)} {sc : List ℝ}
    {evs : List (Event nu ni)} (h : parseEvents nu ni ev sc = .ok evs) (hne : sc ≠ []) : evs ≠ [] := by
  unfold parseEvents at h
  split at h
  · rename_i hl
    have h1 := (mapM_ok_iff.1 h).length_eq
    rw [eq_comm] at h1
    rw [List.length_zip, hl, min_self] at h1
    intro h2
    rw [h2] at h1
    exact hne (List.length_eq_zero_iff.1 h1.symm)
  · cases h

theorem train_shift {γ : Type} (cf : Config γ) (heq : Equivariant cf.opt) (t : ℝ) (v : View ℝ γ)
    (sc : List ℝ) (hv : v.score = some sc) (hne : sc ≠ []) (dom : Option (List ℝ)) (lv : Option Int) :
    (pmf cf).train { v with
      score := some (sc.map (· + t)), scoreDomain := dom, nScoreLevels := lv } =
      ((pmf cf).train v).map (fun x => (x.1.shift t, x.2)) := by
  simp only [pmf, trainExplicit]
  cases npGet v.nObjects 0 with
  | error e => rfl
  | ok nu =>
    cases npGet v.nObjects 1 with
    | error e => rfl
    | ok ni =>
      simp only [bind, Except.bind, hv]
      cases hr : v.rng with
      | none => rfl
      | some g =>
        simp only
        rw [parseEvents_shift]
        cases hp : parseEvents nu ni v.event sc with
        | error e => rfl
        | ok evs =>
          have hevs := parseEvents_ne_nil hp hne
          cases allocate nu ni with
          | error e => rfl
          | ok _ =>
          have hloss : PMF.loss cf.C (shiftScores t evs) =
              fun x : Coef nu ni cf.k => PMF.loss cf.C evs (x - muDir t) := by
            funext x
            rw [← loss_shift cf.C t evs (x - muDir t), sub_add_cancel]
          have hgrad : PMF.gradLoss cf.C (shiftScores t evs) =
              fun x : Coef nu ni cf.k => PMF.gradLoss cf.C evs (x - muDir t) := by
            funext x
            rw [← gradLoss_shift cf.C t evs (x - muDir t), sub_add_cancel]
          simp only [Except.map, pure, Except.pure]
          rw [hloss, hgrad, initCoef_shift _ _ _ _ hevs]
          simp only
          rw [heq, store_shift, add_sub_cancel_right]
          rfl

variable {α φ ε γ : Type} [LinearOrder α]

/-- Predictions with `t` added. -/
def addPred (t : ℝ) : Pred ℝ → Pred ℝ
  | .scalar x => .scalar (x + t)
  | .vec xs => .vec (xs.map (· + t))

theorem addPred_squeeze (t : ℝ) (ys : List ℝ) : addPred t (squeeze ys) = squeeze (ys.map (· + t)) := by
  match ys with
  | [] => rfl
  | [_] => rfl
  | _ :: _ :: _ => rfl

/-- C82: adding the same number to every training score (and possibly changing the score domain)
adds that number to the learned global bias and to every prediction of `PMF`, for known and unknown
users and items alike, and changes nothing else: all other parameters and all entries of
`fit_results_` are the same.  For every data, every earlier history of the recommender, every
random generator and every optimizer that commutes with translations. -/
theorem C82_shifted_scores (cf : Config γ) (heq : Equivariant cf.opt) (t : ℝ) {mk : Int → γ} {env : γ}
    {r r' : Rec ℝ α φ ε γ Params Val} {d d' : ScoreData ℝ α φ ε} {idx : Option (List Int)}
    {sc : List ℝ} (hsc : d.score = some sc) (hne : sc ≠ [])
    (hd1 : d'.toEventData = d.toEventData) (hd2 : d'.score = some (sc.map (· + t)))
    (hfit : Rec.fitPredictor (pmf cf) mk env r d idx = .ok r') :
    ∃ r'' p, Rec.fitPredictor (pmf cf) mk env r d' idx = .ok r'' ∧
      r'.params = some p ∧ r''.params = some { p with mu := p.mu + t } ∧
      r''.fitResults = r'.fitResults ∧
      ∀ eev, Rec.predict (pmf cf) r'' eev = (Rec.predict (pmf cf) r' eev).map (addPred t) := by
  unfold Rec.fitPredictor Rec.predictorSuperFit at hfit ⊢
  rw [hd1]
  cases h1 : Rec.eventFit mk env r d.toEventData idx with
  | error e => rw [h1] at hfit; cases hfit
  | ok r1 =>
    rw [h1] at hfit
    simp only at hfit ⊢
    unfold Rec.finish at hfit ⊢
    have hv : (Rec.setScoreInfo r1 d').view =
        { (Rec.setScoreInfo r1 d).view with
          score := some (sc.map (· + t)), scoreDomain := d'.scoreDomain,
          nScoreLevels := d'.nScoreLevels } := by
      unfold Rec.view Rec.setScoreInfo
      simp only [hd2]
    have ht := train_shift cf heq t (Rec.setScoreInfo r1 d).view sc (by exact hsc) hne d'.scoreDomain
      d'.nScoreLevels
    rw [hv, ht]
    cases h2 : (pmf cf).train (Rec.setScoreInfo r1 d).view with
    | error e => rw [h2] at hfit; cases hfit
    | ok x =>
      obtain ⟨p, res⟩ := x
      rw [h2] at hfit
      simp only [Except.map] at hfit ⊢
      cases hfit
      refine ⟨_, p, rfl, rfl, rfl, rfl, ?_⟩
      intro eev
      unfold Rec.predict
      cases Rec.checkArray eev with
      | error e => rfl
      | ok a =>
        simp only [bind, Except.bind, Rec.removeData, Rec.setScoreInfo]
        cases r1.eventIndex with
        | none => rfl
        | some ix =>
          simp only
          cases a.rows.mapM (fun row => npTake row ix) with
          | error e => rfl
          | ok rows =>
            simp only
            generalize EventData.toIidEvent (α := α) (φ := φ) (ε := ε) _ _ _ = w
            match w with
            | .error e => rfl
            | .ok (.vec _) => rfl
            | .ok (.other) => rfl
            | .ok (.mat b) =>
              simp only [pmf, pure, Except.pure]
              rw [rawPredict_shift]
              cases rawPredict id p b.rows with
              | error e => rfl
              | ok ys => simp only [Except.map, addPred_squeeze]

/-- Gradient descent with a fixed number of steps commutes with translations. -/
def descent : Optimizer := fun _ f g x0 _ _ =>
  let x := (fun x => x - g x)^[3] x0
  ⟨x, true, 0, "", f x, 3, 1, 3⟩

theorem descent_equivariant : Equivariant descent := by
  intro N f g x0 d m kw
  have h : ∀ n, (fun x => x - g (x - d))^[n] (x0 + d) = (fun x => x - g x)^[n] x0 + d := by
    intro n
    induction n with
    | zero => rfl
    | succ n ih =>
      rw [Function.iterate_succ_apply', Function.iterate_succ_apply', ih]
      simp only [add_sub_cancel_right]
      abel
  unfold descent
  simp only [h, add_sub_cancel_right]

/-- The hypotheses of `C82_shifted_scores` hold for a data set of two events. -/
example : ∃ (d d' : ScoreData ℝ Nat Nat Nat) (sc : List ℝ) (r' : Rec ℝ Nat Nat Nat Unit Params Val),
    d.score = some sc ∧ sc ≠ [] ∧ d'.toEventData = d.toEventData ∧
    d'.score = some (sc.map (· + 7)) ∧ Equivariant ({ exConfig with opt := descent }).opt ∧
    Rec.fitPredictor (pmf { exConfig with opt := descent }) (fun _ => ()) ()
      (Rec.init (some 1) initialResults) d none = .ok r' :=
  ⟨⟨exSquare, none, some [1, 5], none⟩, ⟨exSquare, none, some ([1, 5].map (· + 7)), none⟩, [1, 5], _, rfl,
    by simp, rfl, rfl, descent_equivariant, rfl⟩

/-! ### C83: rotated latent factors -/

/-- The parameters with all factor vectors multiplied by the matrix `R`. -/
noncomputable def rotate (R : Matrix (Fin k) (Fin k) ℝ) (v : Views nu ni k) : Views nu ni k :=
  { v with
    p := fun u f => ∑ f', v.p u f' * R f' f
    q := fun i f => ∑ f', v.q i f' * R f' f }

theorem dot_rotate (R : Matrix (Fin k) (Fin k) ℝ) (hR : R * R.transpose = 1) (a b : Fin k → ℝ) :
    ∑ f, (∑ f', a f' * R f' f) * (∑ f', b f' * R f' f) = ∑ f, a f * b f := by
  have h : Matrix.vecMul a R ⬝ᵥ Matrix.vecMul b R = a ⬝ᵥ b := by
    rw [← Matrix.mulVec_transpose R b, Matrix.dotProduct_mulVec, Matrix.vecMul_vecMul, hR,
      Matrix.vecMul_one]
  simpa [Matrix.vecMul, dotProduct] using h

theorem estO_rotate (R : Matrix (Fin k) (Fin k) ℝ) (hR : R * R.transpose = 1) (v : Views nu ni k)
    (u : Option (Fin nu)) (i : Option (Fin ni)) : estO (rotate R v) u i = estO v u i := by
  have h : ∀ {n : Nat} (f : Fin n → Fin k → ℝ) (x : Option (Fin n)),
      extend (fun u f' => ∑ g, f u g * R g f') (fun _ => 0) x =
        fun f' => ∑ g, extend f (fun _ => 0) x g * R g f' := by
    intro n f x
    cases x
    · funext f'; simp [extend]
    · rfl
  unfold estO rotate
  simp only [h, dot_rotate R hR]

theorem est_rotate (R : Matrix (Fin k) (Fin k) ℝ) (hR : R * R.transpose = 1) (v : Views nu ni k)
    (u : Fin nu) (i : Fin ni) : est (rotate R v) u i = est v u i := by
  rw [← estO_some, ← estO_some, estO_rotate R hR]

theorem reg_rotate (R : Matrix (Fin k) (Fin k) ℝ) (hR : R * R.transpose = 1) (v : Views nu ni k) :
    reg (rotate R v) = reg v := by
  unfold reg rotate
  simp only [pow_two, dot_rotate R hR]

theorem list_sum_mul_right {β : Type} (l : List β) (a : ℝ) (f : β → ℝ) :
    (l.map (fun e => f e * a)).sum = (l.map f).sum * a := by
  rw [mul_comm, ← list_sum_mul_left]
  congr 1
  apply List.map_congr_left
  intro e _
  ring

theorem gradTerms_rotate (R : Matrix (Fin k) (Fin k) ℝ) (v : Views nu ni k)
    (evs : List (Event nu ni)) (w : Event nu ni → ℝ) :
    gradTerms (rotate R v) evs w = rotate R (gradTerms v evs w) := by
  have h : ∀ {n : Nat} (id : Event nu ni → Fin n) (g : Event nu ni → Fin k → ℝ) (j : Fin n) (f : Fin k),
      bincount evs id (fun e => w e * ∑ f', g e f' * R f' f) j =
        ∑ f', bincount evs id (fun e => w e * g e f') j * R f' f := by
    intro n id g j f
    unfold bincount
    simp only [← list_sum_mul_right]
    rw [← list_sum_finset]
    congr 1
    apply List.map_congr_left
    intro e _
    rw [Finset.mul_sum]
    apply Finset.sum_congr rfl
    intro f' _
    ring
  unfold gradTerms rotate
  apply Views.ext
  · rfl
  · rfl
  · rfl
  · funext u f; exact h _ _ _ _
  · funext i f; exact h _ _ _ _

theorem addReg_rotate (R : Matrix (Fin k) (Fin k) ℝ) (C : ℝ) (v g : Views nu ni k) :
    addReg C (rotate R v) (rotate R g) = rotate R (addReg C v g) := by
  unfold addReg rotate
  apply Views.ext
  · rfl
  · rfl
  · rfl
  all_goals
    funext u f
    simp only [Finset.mul_sum, ← Finset.sum_add_distrib]
    apply Finset.sum_congr rfl
    intro f' _
    ring

/-- Positions of an array with one appended entry: every integer either names an entry or is
rejected. -/
theorem npGet_any (n : Nat) (x : Int) :
    (∃ o : Option (Fin n), ∀ {β : Type} (f : Fin n → β) (z : β),
      npGet (List.ofFn f ++ [z]) x = .ok (extend f z o)) ∨
    (∀ {β : Type} (f : Fin n → β) (z : β), npGet (List.ofFn f ++ [z]) x = .error .indexError) := by
  have hi : ∀ {β : Type} (f : Fin n → β) (z : β), (List.ofFn f ++ [z]).length = n + 1 := by
    intro β f z; simp
  cases h : npIndex (n + 1) x with
  | none =>
    right
    intro β f z
    unfold npGet
    rw [hi, h]
  | some j =>
    left
    have hj : j < n + 1 := by
      unfold npIndex at h
      split at h
      · split at h
        · cases h; omega
        · cases h
      · split at h
        · cases h; omega
        · cases h
    have key : ∀ {β : Type} (f : Fin n → β) (z : β),
        npGet (List.ofFn f ++ [z]) x = npGet (List.ofFn f ++ [z]) (j : Int) := by
      intro β f z
      have h2 : npIndex (n + 1) (j : Int) = some j := npIndex_ofNat hj
      unfold npGet
      rw [hi, h, h2]
    by_cases hjn : j < n
    · refine ⟨some ⟨j, hjn⟩, ?_⟩
      intro β f z
      rw [key]
      exact npGet_append_lt f z ⟨j, hjn⟩
    · obtain rfl : j = n := by omega
      refine ⟨none, ?_⟩
      intro β f z
      rw [key]
      exact npGet_append_last f z

/-- Two parameter vectors with the same estimates give the same predictions for every request. -/
theorem rawPredict_congr {k' : Nat} (link : ℝ → ℝ) (c : Coef nu ni k) (c' : Coef nu ni k')
    (h : ∀ u i, estO (unpack c) u i = estO (unpack c') u i) (rows : List (List Int)) :
    rawPredict link (store c) rows = rawPredict link (store c') rows := by
  unfold rawPredict
  congr 1
  funext row
  congr 1
  have hr : ∀ m : Nat, List.replicate m (0 : ℝ) = List.ofFn (fun _ : Fin m => (0 : ℝ)) := by
    intro m; simp
  have hp : ∀ (m n : Nat) (f : Fin n → Fin m → ℝ) (x : Option (Fin n)),
      extend (fun u => List.ofFn (f u)) (List.ofFn (fun _ : Fin m => (0 : ℝ))) x =
        List.ofFn (extend f (fun _ => 0) x) := by
    intro m n f x; cases x <;> rfl
  unfold rawScore store
  simp only [hr]
  cases npGet row 0 with
  | error e => rfl
  | ok u =>
    cases npGet row 1 with
    | error e => rfl
    | ok i =>
      simp only [bind, Except.bind]
      rcases npGet_any nu u with ⟨ou, hu⟩ | hu
      · rcases npGet_any ni i with ⟨oi, hi⟩ | hi
        · simp only [hu, hi, hp, zipWith_ofFn, pure, Except.pure]
          have := h ou oi
          unfold estO at this
          rw [this]
        · simp only [hu, hi]
      · simp only [hu]

/-! A common form of the two losses. -/

/-- Sum of a loss per event plus the regularization. -/
noncomputable def total (l : ℝ → ℝ → ℝ) (C : ℝ) (evs : List (Event nu ni)) (v : Views nu ni k) : ℝ :=
  (evs.map (fun e => l e.score (est v e.user e.item))).sum + 0.5 * C * reg v

/-- The gradient for a derivative `w` per event. -/
noncomputable def grad (w : ℝ → ℝ → ℝ) (C : ℝ) (evs : List (Event nu ni)) (v : Views nu ni k) :
    Views nu ni k :=
  addReg C v (gradTerms v evs (fun e => w e.score (est v e.user e.item)))

/-- Squared error of one event. -/
noncomputable def lossP (s x : ℝ) : ℝ := 0.5 * (s - x) ^ 2
/-- Negative log likelihood of one event. -/
noncomputable def lossL (s x : ℝ) : ℝ := -logLik s (safeSigmoid x)
noncomputable def gradP (s x : ℝ) : ℝ := -(s - x)
noncomputable def gradL (s x : ℝ) : ℝ := safeSigmoid x - s

theorem pmf_total (C : ℝ) (evs : List (Event nu ni)) (c : Coef nu ni k) :
    PMF.loss C evs c = total lossP C evs (unpack c) := by
  unfold PMF.loss total lossP
  simp only
  rw [list_sum_mul_left]

theorem logistic_total (C : ℝ) (evs : List (Event nu ni)) (c : Coef nu ni k) :
    Logistic.loss C evs c = total lossL C evs (unpack c) := logistic_loss_eq C evs c

theorem pmf_grad (C : ℝ) (evs : List (Event nu ni)) (c : Coef nu ni k) :
    PMF.gradLoss C evs c = pack (grad gradP C evs (unpack c)) := rfl

theorem logistic_grad (C : ℝ) (evs : List (Event nu ni)) (c : Coef nu ni k) :
    Logistic.gradLoss C evs c = pack (grad gradL C evs (unpack c)) := rfl

/-- C83: multiplying all latent factor vectors of users and items by one orthogonal matrix (a
rotation, a reflection, an exchange of factors) changes neither the loss of any of the three models
nor any prediction, whatever is requested; the gradient is multiplied by the same matrix. -/
theorem C83_rotated_factors (R : Matrix (Fin k) (Fin k) ℝ) (hR : R * R.transpose = 1)
    (v : Views nu ni k) (C : ℝ) :
    (∀ evs, PMF.loss C evs (pack (rotate R v)) = PMF.loss C evs (pack v) ∧
      unpack (PMF.gradLoss C evs (pack (rotate R v))) =
        rotate R (unpack (PMF.gradLoss C evs (pack v)))) ∧
    (∀ evs, Logistic.loss C evs (pack (rotate R v)) = Logistic.loss C evs (pack v) ∧
      unpack (Logistic.gradLoss C evs (pack (rotate R v))) =
        rotate R (unpack (Logistic.gradLoss C evs (pack v)))) ∧
    (∀ m, Implicit.loss C m (pack (rotate R v)) = Implicit.loss C m (pack v) ∧
      unpack (Implicit.gradLoss C m (pack (rotate R v))) =
        rotate R (unpack (Implicit.gradLoss C m (pack v)))) ∧
    (∀ link rows, rawPredict link (store (pack (rotate R v))) rows =
      rawPredict link (store (pack v)) rows) := by
  have ht : ∀ l (evs : List (Event nu ni)), total l C evs (rotate R v) = total l C evs v := by
    intro l evs
    unfold total
    simp only [est_rotate R hR, reg_rotate R hR]
  have hg : ∀ w (evs : List (Event nu ni)), grad w C evs (rotate R v) = rotate R (grad w C evs v) := by
    intro w evs
    unfold grad
    simp only [est_rotate R hR, gradTerms_rotate, addReg_rotate]
  have hlog : ∀ evs, Logistic.loss C evs (pack (rotate R v)) = Logistic.loss C evs (pack v) ∧
      unpack (Logistic.gradLoss C evs (pack (rotate R v))) =
        rotate R (unpack (Logistic.gradLoss C evs (pack v))) := by
    intro evs
    constructor
    · simp only [logistic_total, unpack_pack, ht]
    · simp only [logistic_grad, unpack_pack, hg]
  refine ⟨?_, hlog, ?_, ?_⟩
  · intro evs
    constructor
    · simp only [pmf_total, unpack_pack, ht]
    · simp only [pmf_grad, unpack_pack, hg]
  · intro m
    simp only [implicit_loss_eq, implicit_grad_eq]
    exact hlog _
  · intro link rows
    apply rawPredict_congr
    intro u i
    rw [unpack_pack, unpack_pack, estO_rotate R hR]

/-- A rotation that is not trivial. -/
example : (!![3 / 5, 4 / 5; -4 / 5, 3 / 5] : Matrix (Fin 2) (Fin 2) ℝ) *
    (!![3 / 5, 4 / 5; -4 / 5, 3 / 5] : Matrix (Fin 2) (Fin 2) ℝ).transpose = 1 := by
  ext i j
  fin_cases i <;> fin_cases j <;> norm_num [Matrix.mul_apply, Fin.sum_univ_two]

/-! ### C84: renamed users and items -/

/-- Events with renamed users and items. -/
def renameEvents (σ : Equiv.Perm (Fin nu)) (τ : Equiv.Perm (Fin ni)) (evs : List (Event nu ni)) :
    List (Event nu ni) :=
  evs.map (fun e => ⟨σ e.user, τ e.item, e.score⟩)

/-- Parameters with renamed users and items: the object `σ u` gets the parameters of `u`. -/
def rename (σ : Equiv.Perm (Fin nu)) (τ : Equiv.Perm (Fin ni)) (v : Views nu ni k) : Views nu ni k where
  mu := v.mu
  bu := fun u => v.bu (σ.symm u)
  bi := fun i => v.bi (τ.symm i)
  p := fun u => v.p (σ.symm u)
  q := fun i => v.q (τ.symm i)

/-- Events with users and items exchanged. -/
def swapEvents (evs : List (Event nu ni)) : List (Event ni nu) :=
  evs.map (fun e => ⟨e.item, e.user, e.score⟩)

/-- Parameters with users and items exchanged. -/
def swap (v : Views nu ni k) : Views ni nu k := ⟨v.mu, v.bi, v.bu, v.q, v.p⟩

theorem est_rename (σ : Equiv.Perm (Fin nu)) (τ : Equiv.Perm (Fin ni)) (v : Views nu ni k)
    (u : Fin nu) (i : Fin ni) : est (rename σ τ v) (σ u) (τ i) = est v u i := by
  simp [est, rename]

theorem reg_rename (σ : Equiv.Perm (Fin nu)) (τ : Equiv.Perm (Fin ni)) (v : Views nu ni k) :
    reg (rename σ τ v) = reg v := by
  unfold reg rename
  simp only
  rw [Equiv.sum_comp σ.symm (fun u => v.bu u ^ 2), Equiv.sum_comp τ.symm (fun u => v.bi u ^ 2),
    Equiv.sum_comp σ.symm (fun u => ∑ f, v.p u f ^ 2), Equiv.sum_comp τ.symm (fun u => ∑ f, v.q u f ^ 2)]

theorem bincount_equiv {β : Type} {n : Nat} (σ : Equiv.Perm (Fin n)) (evs : List β) (id : β → Fin n)
    (w : β → ℝ) (j : Fin n) :
    bincount evs (fun e => σ (id e)) w j = bincount evs id w (σ.symm j) := by
  unfold bincount
  congr 2
  apply List.filter_congr
  intro e _
  simp [Equiv.eq_symm_apply]

theorem grad_rename (σ : Equiv.Perm (Fin nu)) (τ : Equiv.Perm (Fin ni)) (w : ℝ → ℝ → ℝ) (C : ℝ)
    (evs : List (Event nu ni)) (v : Views nu ni k) :
    grad w C (renameEvents σ τ evs) (rename σ τ v) = rename σ τ (grad w C evs v) := by
  unfold grad renameEvents gradTerms addReg
  simp only [bincount_map, List.map_map, Function.comp_def, est_rename]
  apply Views.ext
  · rfl
  · funext u; simp only [rename, bincount_equiv σ]
  · funext i; simp only [rename, bincount_equiv τ]
  · funext u f; simp [rename, bincount_equiv σ]
  · funext i f; simp [rename, bincount_equiv τ]

theorem total_rename (σ : Equiv.Perm (Fin nu)) (τ : Equiv.Perm (Fin ni)) (l : ℝ → ℝ → ℝ) (C : ℝ)
    (evs : List (Event nu ni)) (v : Views nu ni k) :
    total l C (renameEvents σ τ evs) (rename σ τ v) = total l C evs v := by
  unfold total renameEvents
  rw [reg_rename, List.map_map]
  simp only [Function.comp_def, est_rename]

theorem est_swap (v : Views nu ni k) (u : Fin nu) (i : Fin ni) : est (swap v) i u = est v u i := by
  simp only [est, swap, mul_comm (v.q i _)]
  ring

theorem reg_swap (v : Views nu ni k) : reg (swap v) = reg v := by
  simp only [reg, swap]; ring

theorem total_swap (l : ℝ → ℝ → ℝ) (C : ℝ) (evs : List (Event nu ni)) (v : Views nu ni k) :
    total l C (swapEvents evs) (swap v) = total l C evs v := by
  unfold total swapEvents
  rw [reg_swap, List.map_map]
  simp only [Function.comp_def, est_swap]

theorem grad_swap (w : ℝ → ℝ → ℝ) (C : ℝ) (evs : List (Event nu ni)) (v : Views nu ni k) :
    grad w C (swapEvents evs) (swap v) = swap (grad w C evs v) := by
  unfold grad swapEvents gradTerms addReg
  simp only [bincount_map, List.map_map, Function.comp_def, est_swap]
  rfl

theorem mem_allPairs (m : Fin nu → Fin ni → Nat) (e : Event nu ni) :
    e ∈ allPairs m ↔ e.score = m e.user e.item := by
  simp only [allPairs, List.mem_flatMap, List.mem_map, List.mem_finRange, true_and]
  constructor
  · rintro ⟨u, i, rfl⟩; rfl
  · intro he; exact ⟨e.user, e.item, by cases e; simp_all⟩

theorem nodup_allPairs (m : Fin nu → Fin ni → Nat) : (allPairs m).Nodup := by
  unfold allPairs
  rw [List.nodup_flatMap]
  constructor
  · intro u _
    refine List.Nodup.map ?_ (List.nodup_finRange ni)
    intro i j hij
    simpa using congrArg Event.item hij
  · refine List.Pairwise.imp ?_ (List.nodup_finRange nu)
    intro u u' hne
    simp only [Function.onFun, List.disjoint_left, List.mem_map, List.mem_finRange, true_and]
    rintro e ⟨i, rfl⟩ ⟨j, hj⟩
    exact hne (by simpa using (congrArg Event.user hj).symm)

theorem allPairs_rename (σ : Equiv.Perm (Fin nu)) (τ : Equiv.Perm (Fin ni)) (m : Fin nu → Fin ni → Nat) :
    (renameEvents σ τ (allPairs m)).Perm (allPairs (fun u i => m (σ.symm u) (τ.symm i))) := by
  have hinj : Function.Injective (fun e : Event nu ni => (⟨σ e.user, τ e.item, e.score⟩ : Event nu ni)) := by
    intro e e' h
    cases e; cases e'
    simpa using h
  unfold renameEvents
  rw [List.perm_ext_iff_of_nodup ((nodup_allPairs m).map hinj) (nodup_allPairs _)]
  intro e
  rw [mem_allPairs, List.mem_map]
  constructor
  · rintro ⟨e', he', rfl⟩
    rw [mem_allPairs] at he'
    simpa using he'
  · intro he
    exact ⟨⟨σ.symm e.user, τ.symm e.item, e.score⟩, by rw [mem_allPairs]; exact he, by simp⟩

theorem allPairs_swap (m : Fin nu → Fin ni → Nat) :
    (swapEvents (allPairs m)).Perm (allPairs (fun i u => m u i)) := by
  have hinj : Function.Injective (fun e : Event nu ni => (⟨e.item, e.user, e.score⟩ : Event ni nu)) := by
    intro e e' h
    cases e; cases e'
    simp only [Event.mk.injEq] at h ⊢
    tauto
  unfold swapEvents
  rw [List.perm_ext_iff_of_nodup ((nodup_allPairs m).map hinj) (nodup_allPairs _)]
  intro e
  rw [mem_allPairs, List.mem_map]
  constructor
  · rintro ⟨e', he', rfl⟩
    rw [mem_allPairs] at he'
    exact he'
  · intro he
    exact ⟨⟨e.item, e.user, e.score⟩, by rw [mem_allPairs]; exact he, rfl⟩

/-- C84: numbering the users and items differently, or exchanging the roles of users and items,
renames the parameters accordingly and changes nothing else: the losses of the three models are the
same, the gradients are renamed in the same way, and the prediction for the renamed pair is the
prediction for the original pair, also when one or both objects are unknown. -/
theorem C84_renamed_objects (σ : Equiv.Perm (Fin nu)) (τ : Equiv.Perm (Fin ni)) (C : ℝ)
    (v : Views nu ni k) :
    (∀ evs, PMF.loss C (renameEvents σ τ evs) (pack (rename σ τ v)) = PMF.loss C evs (pack v) ∧
      unpack (PMF.gradLoss C (renameEvents σ τ evs) (pack (rename σ τ v))) =
        rename σ τ (unpack (PMF.gradLoss C evs (pack v)))) ∧
    (∀ evs, Logistic.loss C (renameEvents σ τ evs) (pack (rename σ τ v)) = Logistic.loss C evs (pack v) ∧
      unpack (Logistic.gradLoss C (renameEvents σ τ evs) (pack (rename σ τ v))) =
        rename σ τ (unpack (Logistic.gradLoss C evs (pack v)))) ∧
    (∀ m : Implicit.Mat nu ni,
      Implicit.loss C (fun u i => m (σ.symm u) (τ.symm i)) (pack (rename σ τ v)) =
        Implicit.loss C m (pack v) ∧
      unpack (Implicit.gradLoss C (fun u i => m (σ.symm u) (τ.symm i)) (pack (rename σ τ v))) =
        rename σ τ (unpack (Implicit.gradLoss C m (pack v)))) ∧
    (∀ u i, rawScore (store (pack (rename σ τ v))) [code (Option.map σ u), code (Option.map τ i)] =
      rawScore (store (pack v)) [code u, code i]) := by
  have hlog : ∀ evs, Logistic.loss C (renameEvents σ τ evs) (pack (rename σ τ v)) =
      Logistic.loss C evs (pack v) ∧
      unpack (Logistic.gradLoss C (renameEvents σ τ evs) (pack (rename σ τ v))) =
        rename σ τ (unpack (Logistic.gradLoss C evs (pack v))) := by
    intro evs
    constructor
    · simp only [logistic_total, unpack_pack, total_rename]
    · simp only [logistic_grad, unpack_pack, grad_rename]
  refine ⟨?_, hlog, ?_, ?_⟩
  · intro evs
    constructor
    · simp only [pmf_total, unpack_pack, total_rename]
    · simp only [pmf_grad, unpack_pack, grad_rename]
  · intro m
    simp only [implicit_loss_eq, implicit_grad_eq]
    rw [← (logistic_perm C (allPairs_rename σ τ m) _).1, ← (logistic_perm C (allPairs_rename σ τ m) _).2]
    exact hlog _
  · intro u i
    rw [rawScore_store, rawScore_store, unpack_pack, unpack_pack]
    congr 1
    cases u <;> cases i <;> simp [estO, extend, rename]

theorem C84_swapped_roles (C : ℝ) (v : Views nu ni k) :
    (∀ evs, PMF.loss C (swapEvents evs) (pack (swap v)) = PMF.loss C evs (pack v) ∧
      unpack (PMF.gradLoss C (swapEvents evs) (pack (swap v))) =
        swap (unpack (PMF.gradLoss C evs (pack v)))) ∧
    (∀ evs, Logistic.loss C (swapEvents evs) (pack (swap v)) = Logistic.loss C evs (pack v) ∧
      unpack (Logistic.gradLoss C (swapEvents evs) (pack (swap v))) =
        swap (unpack (Logistic.gradLoss C evs (pack v)))) ∧
    (∀ m : Implicit.Mat nu ni,
      Implicit.loss C (fun i u => m u i) (pack (swap v)) = Implicit.loss C m (pack v) ∧
      unpack (Implicit.gradLoss C (fun i u => m u i) (pack (swap v))) =
        swap (unpack (Implicit.gradLoss C m (pack v)))) ∧
    (∀ (u : Option (Fin nu)) (i : Option (Fin ni)), rawScore (store (pack (swap v))) [code i, code u] =
      rawScore (store (pack v)) [code u, code i]) := by
  have hlog : ∀ evs, Logistic.loss C (swapEvents evs) (pack (swap v)) =
      Logistic.loss C evs (pack v) ∧
      unpack (Logistic.gradLoss C (swapEvents evs) (pack (swap v))) =
        swap (unpack (Logistic.gradLoss C evs (pack v))) := by
    intro evs
    constructor
    · simp only [logistic_total, unpack_pack, total_swap]
    · simp only [logistic_grad, unpack_pack, grad_swap]
  refine ⟨?_, hlog, ?_, ?_⟩
  · intro evs
    constructor
    · simp only [pmf_total, unpack_pack, total_swap]
    · simp only [pmf_grad, unpack_pack, grad_swap]
  · intro m
    simp only [implicit_loss_eq, implicit_grad_eq]
    rw [← (logistic_perm C (allPairs_swap m) _).1, ← (logistic_perm C (allPairs_swap m) _).2]
    exact hlog _
  · intro u i
    rw [rawScore_store, rawScore_store, unpack_pack, unpack_pack]
    congr 1
    simp only [estO, swap, mul_comm (extend v.q _ _ _)]
    ring

/-- Renaming that moves every object. -/
example : renameEvents (Equiv.swap 0 1) (Equiv.swap 0 1) [(⟨0, 1, 3⟩ : Event 2 2), ⟨1, 1, 4⟩] =
    [⟨1, 0, 3⟩, ⟨0, 0, 4⟩] := by
  simp [renameEvents]

/-! ### C85: repeated data -/

theorem sum_repeat (evs : List (Event nu ni)) (n : Nat) (g : Event nu ni → ℝ) :
    ((List.replicate n evs).flatten.map g).sum = n * (evs.map g).sum := by
  induction n with
  | zero => simp
  | succ n ih =>
    rw [List.replicate_succ, List.flatten_cons, List.map_append, List.sum_append, ih]
    push_cast
    ring

theorem bincount_repeat {m : Nat} (evs : List (Event nu ni)) (n : Nat) (id : Event nu ni → Fin m)
    (g : Event nu ni → ℝ) (j : Fin m) :
    bincount (List.replicate n evs).flatten id g j = n * bincount evs id g j := by
  unfold bincount
  rw [List.filter_flatten, List.map_replicate, sum_repeat]

theorem total_repeat (l : ℝ → ℝ → ℝ) (C : ℝ) (evs : List (Event nu ni)) (v : Views nu ni k) (n : Nat) :
    total l (n * C) (List.replicate n evs).flatten v = n * total l C evs v := by
  unfold total
  rw [sum_repeat]
  ring

/-- C85: giving every event `n` times and multiplying the regularization by `n` multiplies the loss
and its gradient by `n`, so for `n ≥ 1` the same parameters are optimal. -/
theorem C85_repeated_events (C : ℝ) (evs : List (Event nu ni)) (n : Nat) (c : Coef nu ni k) :
    PMF.loss (n * C) (List.replicate n evs).flatten c = n * PMF.loss C evs c ∧
    Logistic.loss (n * C) (List.replicate n evs).flatten c = n * Logistic.loss C evs c ∧
    (∀ j, PMF.gradLoss (n * C) (List.replicate n evs).flatten c j = n * PMF.gradLoss C evs c j) ∧
    (∀ j, Logistic.gradLoss (n * C) (List.replicate n evs).flatten c j =
      n * Logistic.gradLoss C evs c j) := by
  have hg : ∀ w (j), pack (grad w (n * C) (List.replicate n evs).flatten (unpack c)) j =
      n * pack (grad w C evs (unpack c)) j := by
    intro w j
    unfold pack
    cases slotAt j <;> simp only [Views.get, grad, addReg, gradTerms, bincount_repeat, sum_repeat] <;> ring
  refine ⟨?_, ?_, ?_, ?_⟩
  · rw [pmf_total, pmf_total, total_repeat]
  · rw [logistic_total, logistic_total, total_repeat]
  · intro j; rw [pmf_grad, pmf_grad, hg]
  · intro j; rw [logistic_grad, logistic_grad, hg]

end MF
end Kam
