/-
C146: the experiment scripts on data in another unit.
-/
import Verif.PLSA.Unit
import Verif.Relabel.Scripts
import Verif.Scripts.Total
import Verif.Exp.Examples
import Verif.MF.Props4

set_option linter.unusedSectionVars false

namespace Kam.Rescale
open Spec Scripts Exp

variable {α φ ε F V T γ M N : Type} [LinearOrder α]

/-- A change of containers that changes the scores by `k` and keeps the events. -/
structure Change (k : ℝ → ℝ) (h : ScoreData ℝ α φ ε → ScoreData ℝ α φ ε) : Prop where
  base : ∀ d, (h d).toEventData = d.toEventData
  score : ∀ d, (h d).score = d.score.map (List.map k)
  filter : ∀ d c, (h d).filterEvent c = (d.filterEvent c).map (Option.map h)

/-- The same surroundings, in which the score `x` is written as `k x`. -/
def writing (k : ℝ → ℝ) (e : Env ℝ α ε F V T γ) : Env ℝ α ε F V T γ := { e with num := fun x => e.num (k x) }

/-- Changed predictions. -/
def onPred (k : ℝ → ℝ) : Pred ℝ → Pred ℝ
  | .scalar x => .scalar (k x)
  | .vec xs => .vec (xs.map k)

/-- Recommenders that follow the change on the containers in `P`. -/
structure Follows (k : ℝ → ℝ) (h : ScoreData ℝ α φ ε → ScoreData ℝ α φ ε) (P : ScoreData ℝ α φ ε → Prop)
    (R : Recommender ℝ α φ ε V γ M) (R' : Recommender ℝ α φ ε V γ N) (g : M → N) : Prop where
  fit : ∀ s d, P d → R'.fit s (h d) = (R.fit s d).map (fun x => (g x.1, x.2))
  predict : ∀ s d x evs, P d → R.fit s d = .ok x → R'.predict (g x.1) evs = (R.predict x.1 evs).map (onPred k)

variable {k : ℝ → ℝ} {h : ScoreData ℝ α φ ε → ScoreData ℝ α φ ε} {P : ScoreData ℝ α φ ε → Prop}
  {R : Recommender ℝ α φ ε V γ M} {R' : Recommender ℝ α φ ε V γ N} {g : M → N}

theorem encScores_writing (e : Env ℝ α ε F V T γ) (xs : List ℝ) : encScores e (xs.map k) = encScores (writing k e) xs := by
  simp only [encScores, writing, List.map_map, Function.comp_def]

theorem encPred_writing (e : Env ℝ α ε F V T γ) (x : Pred ℝ) : encPred e (onPred k x) = encPred (writing k e) x := by
  cases x with
  | scalar x => rfl
  | vec xs => exact encScores_writing e xs

theorem training_change (hf : Follows k h P R R' g) (e : Env ℝ α ε F V T γ) (clock : Nat → T) (seed : Option Int) (s : Sys γ)
    (d : ScoreData ℝ α φ ε) (hd : P d) :
    training e clock R' seed s (h d) = (training (writing k e) clock R seed s d).map (fun x => (g x.1, x.2)) := by
  have h1 : fitWith e R' seed s.glob (h d) = (fitWith (writing k e) R seed s.glob d).map (fun x => (g x.1, x.2)) := by
    cases seed with
    | none => exact hf.fit _ d hd
    | some n =>
      simp only [fitWith]
      have h : (writing k e).ofSeed n = e.ofSeed n := rfl
      rw [h]
      cases e.ofSeed n with
      | error x => rfl
      | ok s' =>
        simp only [bind, Except.bind, hf.fit s' d hd]
        cases R.fit s' d <;> rfl
  simp only [training, h1]
  cases fitWith (writing k e) R seed s.glob d <;> rfl

theorem testing_change {m : M} {m' : N} (h : ∀ evs, R'.predict m' evs = (R.predict m evs).map (onPred k))
    (e : Env ℝ α ε F V T γ) (clock : Nat → T) (s : Sys γ) (evs : List (List α)) :
    testing e clock R' m' s evs = (testing (writing k e) clock R m s evs).map (fun x => (onPred k x.1, x.2)) := by
  simp only [testing, h]
  cases R.predict m evs <;> rfl

theorem externalEvents_change (hc : Change k h) (d : ScoreData ℝ α φ ε) : externalEvents (h d) = externalEvents d := by
  simp only [externalEvents, hc.base]

theorem objectsAt_change (hc : Change k h) (d : ScoreData ℝ α φ ε) (i : Nat) : objectsAt (h d) i = objectsAt d i := by
  simp only [objectsAt, hc.base]

variable {load load' : Loader ℝ α φ ε F} {D : List ℝ → List ℝ} {dom' : List ℝ}

/-- Loaders that follow the change, starting from the domain given on the command line. -/
structure LoadFollows (h : ScoreData ℝ α φ ε → ScoreData ℝ α φ ε) (D : List ℝ → List ℝ) (load load' : Loader ℝ α φ ε F)
    (dom dom' : List ℝ) : Prop where
  first : ∀ f, load' f dom' = (load f dom).map (fun x => (h x.1, D x.2))
  next : ∀ f f' x, load f dom = .ok x → load' f' (D x.2) = (load f' x.2).map (fun x => (h x.1, D x.2))

theorem holdout_change (hc : Change k h) (hf : Follows k h P R R' g) (e : Env ℝ α ε F V T γ) (clock : Nat → T)
    (st : Setting ℝ F V) (c' : Dict String (J V)) (hl : LoadFollows h D load load' st.scoreDomain dom')
    (hP : ∀ x, load st.trainFile st.scoreDomain = .ok x → P x.1) (s : Sys γ) :
    holdoutTest e clock R' load' { st with scoreDomain := dom', condition := c' } s =
      (holdoutTest (writing k e) clock R load st s).map
        (fun r => { r with scoreDomain := D r.scoreDomain, condition := c' }) := by
  simp only [holdoutTest, hl.first]
  cases h1 : load st.trainFile st.scoreDomain with
  | error x => rfl
  | ok x =>
    have hx := hP x h1
    simp only [Except.map, bind, Except.bind]
    cases st.testFile with
    | none => rfl
    | some tf =>
      simp only [hl.next _ tf x h1]
      cases load tf x.2 with
      | error y => rfl
      | ok y =>
        simp only [Except.map, externalEvents_change hc, objectsAt_change hc]
        cases externalEvents y.1 with
        | error z => rfl
        | ok evs =>
          simp only
          cases objectsAt x.1 0 with
          | error z => rfl
          | ok a =>
            cases objectsAt x.1 1 with
            | error z => rfl
            | ok b =>
              cases objectsAt y.1 0 with
              | error z => rfl
              | ok c =>
                cases objectsAt y.1 1 with
                | error z => rfl
                | ok d =>
                  simp only [training_change hf e clock st.seed s x.1 hx]
                  cases h3 : training (writing k e) clock R st.seed s x.1 with
                  | error z => rfl
                  | ok m =>
                    simp only [Except.map]
                    obtain ⟨s', m', hm, hm'⟩ := Relabel.training_ok h3
                    rw [testing_change (k := k) (m := m.1) (m' := g m.1) (fun evs => by
                      rw [← hm']; exact hf.predict s' x.1 m' evs hx hm) e clock]
                    cases testing (writing k e) clock R m.1 m.2.2 evs with
                    | error z => rfl
                    | ok z =>
                      simp only [Except.map, hc.score, hc.base]
                      cases y.1.score with
                      | none => rfl
                      | some xs =>
                        simp only [Option.map_some, encScores_writing, encPred_writing]
                        rfl

theorem cvFold_change (hc : Change k h) (hf : Follows k h P R R' g) (e : Env ℝ α ε F V T γ) (clock : Nat → T)
    (seed : Option Int) (d : ScoreData ℝ α φ ε) (evs : List (List α)) (fold : Nat) (trainI testI : List Nat) (s : Sys γ)
    (acc : Acc V) (hfil : ∀ d', d.filterEvent (.index (trainI.map Int.ofNat)) = .ok (some d') → P d') :
    cvFold e clock R' seed (h d) evs fold trainI testI s acc =
      cvFold (writing k e) clock R seed d evs fold trainI testI s acc := by
  simp only [cvFold, hc.filter]
  cases h1 : d.filterEvent (.index (trainI.map Int.ofNat)) with
  | error x => rfl
  | ok o =>
    cases o with
    | none => rfl
    | some d' =>
      have hd' := hfil d' h1
      simp only [Except.map, Option.map_some, bind, Except.bind, training_change hf e clock seed s d' hd']
      cases h3 : training (writing k e) clock R seed s d' with
      | error x => rfl
      | ok m =>
        obtain ⟨s', m', hm, hm'⟩ := Relabel.training_ok h3
        simp only
        rw [testing_change (k := k) (m := m.1) (m' := g m.1) (fun evs => by
          rw [← hm']; exact hf.predict s' d' m' evs hd' hm) e clock]
        cases testing (writing k e) clock R m.1 m.2.2 (gather evs testI) with
        | error x => rfl
        | ok y =>
          simp only [Except.map, hc.score, hc.base]
          cases d.score with
          | none => rfl
          | some xs =>
            simp only [Option.map_some, gather_map, encScores_writing, encPred_writing]
            rfl

theorem cvLoop_change (hc : Change k h) (hf : Follows k h P R R' g) (e : Env ℝ α ε F V T γ) (clock : Nat → T)
    (seed : Option Int) (cfg : Split.ShuffleConfig ℝ) (d : ScoreData ℝ α φ ε) (evs : List (List α)) (users : List α)
    (target : Option Int)
    (hfil : ∀ mask s s' d', Split.shuffleMask e.gen cfg users s (List.replicate users.length false) (npUnique users) = .ok (mask, s') →
      d.filterEvent (.index (((List.range users.length).filter (fun i => !(mask.getD i false))).map Int.ofNat)) = .ok (some d') → P d')
    (n fold : Nat) (s : Sys γ) (acc : Acc V) :
    cvLoop e clock R' seed cfg (h d) evs users target n fold s acc =
      cvLoop (writing k e) clock R seed cfg d evs users target n fold s acc := by
  induction n generalizing fold s acc with
  | zero => rfl
  | succ n ih =>
    simp only [cvLoop]
    have hgen : (writing k e).gen = e.gen := rfl
    rw [hgen]
    cases h1 : Split.shuffleMask e.gen cfg users s.glob (List.replicate users.length false) (npUnique users) with
    | error x => rfl
    | ok p =>
      simp only [bind, Except.bind]
      split
      · exact ih _ _ _
      · rw [cvFold_change hc hf e clock seed d evs fold _ _ _ acc (fun d' h => hfil p.1 _ p.2 d' h1 h)]
        split
        · rfl
        · exact ih _ _ _

theorem cvTest_change (hc : Change k h) (hf : Follows k h P R R' g) (e : Env ℝ α ε F V T γ) (clock : Nat → T)
    (st : Setting ℝ F V) (c' : Dict String (J V)) (hl : LoadFollows h D load load' st.scoreDomain dom') (target : Option Int)
    (hfil : ∀ x evs users mask s s' d', load st.trainFile st.scoreDomain = .ok x → externalEvents x.1 = .ok evs →
      column evs 0 = .ok users →
      Split.shuffleMask e.gen (cvConfig (K := ℝ) st.nFolds) users s (List.replicate users.length false) (npUnique users) = .ok (mask, s') →
      x.1.filterEvent (.index (((List.range users.length).filter (fun i => !(mask.getD i false))).map Int.ofNat)) = .ok (some d') → P d')
    (s : Sys γ) :
    cvTest e clock R' load' { st with scoreDomain := dom', condition := c' } target s =
      (cvTest (writing k e) clock R load st target s).map
        (fun r => { r with scoreDomain := D r.scoreDomain, condition := c' }) := by
  simp only [cvTest, hl.first]
  cases h1 : load st.trainFile st.scoreDomain with
  | error x => rfl
  | ok x =>
    simp only [Except.map, bind, Except.bind, externalEvents_change hc, objectsAt_change hc]
    cases h2 : externalEvents x.1 with
    | error z => rfl
    | ok evs =>
      simp only
      cases objectsAt x.1 0 with
      | error z => rfl
      | ok a =>
        cases objectsAt x.1 1 with
        | error z => rfl
        | ok b =>
          simp only
          cases Split.validateInit (cvConfig (K := ℝ) st.nFolds).testSize (cvConfig (K := ℝ) st.nFolds).trainSize with
          | error z => rfl
          | ok u =>
            simp only
            cases h3 : column evs 0 with
            | error z => rfl
            | ok users =>
              simp only [hc.base]
              rw [cvLoop_change hc hf e clock st.seed _ x.1 evs users target (fun mask s s' d' => hfil x evs users mask s s' d' h1 h2 h3)]
              have hn : (writing k e).names = e.names := rfl
              rw [hn]
              generalize cvLoop (writing k e) clock R st.seed _ x.1 evs users target _ 0 s _ = w
              cases w <;> rfl

/-- What a run reports before it is written. -/
noncomputable def reported (e : Env ℝ α ε F V T γ) (clock : Nat → T) (rec : Recommender ℝ α φ ε V γ M)
    (load : Loader ℝ α φ ε F) (s : Setting ℝ F V) (target : Option Int) : Res (Report F ℝ V) := do
  let glob ← (match s.seed with
    | some n => e.ofSeed n
    | none => .ok e.entropy)
  if target.any (fun t => t < 0 ∨ s.nFolds ≤ t) then .error .typeError
  else if s.cv then cvTest e clock rec load s target ⟨glob, 0⟩ else holdoutTest e clock rec load s ⟨glob, 0⟩

theorem doTask_reported (e : Env ℝ α ε F V T γ) (clock : Nat → T) (rec : Recommender ℝ α φ ε V γ M)
    (load : Loader ℝ α φ ε F) (s : Setting ℝ F V) (target : Option Int) :
    doTask e clock rec load s target = (reported e clock rec load s target).map (fun r => r.render e) := by
  simp only [doTask, reported]
  cases s.seed with
  | none =>
    simp only [bind, Except.bind]
    split
    · rfl
    · split <;> (split <;> simp_all [Except.map, pure, Except.pure])
  | some n =>
    simp only
    cases e.ofSeed n with
    | error x => rfl
    | ok g =>
      simp only [bind, Except.bind]
      split
      · rfl
      · split <;> (split <;> simp_all [Except.map, pure, Except.pure])

theorem reported_condition {e : Env ℝ α ε F V T γ} {clock : Nat → T} {rec : Recommender ℝ α φ ε V γ M}
    {load : Loader ℝ α φ ε F} {s : Setting ℝ F V} {target : Option Int} {r : Report F ℝ V}
    (h : reported e clock rec load s target = .ok r) : r.condition = s.condition := by
  unfold reported at h
  obtain ⟨g, _, h⟩ := bind_ok h
  split at h
  · cases h
  · split at h
    · unfold cvTest at h
      obtain ⟨_, _, h⟩ := bind_ok h
      obtain ⟨_, _, h⟩ := bind_ok h
      obtain ⟨_, _, h⟩ := bind_ok h
      obtain ⟨_, _, h⟩ := bind_ok h
      obtain ⟨_, _, h⟩ := bind_ok h
      obtain ⟨_, _, h⟩ := bind_ok h
      obtain ⟨_, _, h⟩ := bind_ok h
      cases h
      rfl
    · exact holdoutTest_condition h

/-- What a run on changed data writes. -/
theorem doTask_change (hc : Change k h) (hf : Follows k h P R R' g) (e : Env ℝ α ε F V T γ) (clock : Nat → T)
    (st : Setting ℝ F V) (c' : Dict String (J V)) (hl : LoadFollows h D load load' st.scoreDomain dom') (target : Option Int)
    (hcond : ∀ x, c'.set "score_domain" x = st.condition.set "score_domain" x)
    (hP : st.cv = false → ∀ x, load st.trainFile st.scoreDomain = .ok x → P x.1)
    (hfil : st.cv = true → ∀ x evs users mask s s' d', load st.trainFile st.scoreDomain = .ok x → externalEvents x.1 = .ok evs →
      column evs 0 = .ok users →
      Split.shuffleMask e.gen (cvConfig (K := ℝ) st.nFolds) users s (List.replicate users.length false) (npUnique users) = .ok (mask, s') →
      x.1.filterEvent (.index (((List.range users.length).filter (fun i => !(mask.getD i false))).map Int.ofNat)) = .ok (some d') → P d') :
    ∃ res : Res (Report F ℝ V),
      doTask (writing k e) clock R load st target = res.map (fun r => r.render (writing k e)) ∧
      doTask e clock R' load' { st with scoreDomain := dom', condition := c' } target =
        res.map (fun r => { r with scoreDomain := D r.scoreDomain }.render e) := by
  refine ⟨reported (writing k e) clock R load st target, doTask_reported _ _ _ _ _ _, ?_⟩
  rw [doTask_reported]
  have h1 : reported e clock R' load' { st with scoreDomain := dom', condition := c' } target =
      (reported (writing k e) clock R load st target).map (fun r => { r with scoreDomain := D r.scoreDomain, condition := c' }) := by
    simp only [reported]
    have hs : (writing k e).ofSeed = e.ofSeed := rfl
    have hs' : (writing k e).entropy = e.entropy := rfl
    rw [hs, hs']
    generalize (match st.seed with
      | some n => e.ofSeed n
      | none => .ok e.entropy : Res γ) = w
    cases w with
    | error x => rfl
    | ok g0 =>
      simp only [bind, Except.bind]
      split
      · rfl
      · cases hcv : st.cv with
        | true =>
          simp only [if_true]
          have := cvTest_change hc hf e clock st c' hl target (hfil hcv) ⟨g0, 0⟩
          rw [hcv] at this
          exact this
        | false =>
          simp only [Bool.false_eq_true, if_false]
          have := holdout_change hc hf e clock st c' hl (hP hcv) ⟨g0, 0⟩
          rw [hcv] at this
          exact this
  rw [h1]
  cases h2 : reported (writing k e) clock R load st target with
  | error x => rfl
  | ok r =>
    have h3 := reported_condition h2
    simp only [Except.map, Report.render, hcond, h3]

/-! ### Loading -/

/-- A domain of the command line in the new unit; `0 0 0` stands for a domain found in the data. -/
noncomputable def domainIn (p q : ℝ) (dom : List ℝ) : List ℝ := if dom = [0, 0, 0] then dom else rescaleDomain p q dom

/-- A table with scores in the new unit. -/
noncomputable def table (p q : ℝ) (t : Table ℝ α ε) : Table ℝ α ε := { t with score := t.score.map (rescale p q) }

/-- Files with scores in the new unit. -/
noncomputable def files (p q : ℝ) (read : F → Res (Table ℝ α ε)) : F → Res (Table ℝ α ε) := fun f => (read f).map (table p q)

/-- The domains the scripts accept: `0 0 0`, or three numbers the last of which is not zero. -/
def Declared (dom : List ℝ) : Prop := dom = [0, 0, 0] ∨ ∃ lo hi st, dom = [lo, hi, st] ∧ st ≠ 0

variable {p : ℝ} (hp : 0 < p) (q : ℝ)
include hp

theorem asked_stride {lo hi st : ℝ} {rest : List ℝ} (h : st ≠ 0) :
    asked (lo :: hi :: st :: rest) = some (lo :: hi :: st :: rest) ∧
      asked (rescaleDomain p q (lo :: hi :: st :: rest)) = some (rescaleDomain p q (lo :: hi :: st :: rest)) := by
  have h' : p * st ≠ 0 := mul_ne_zero hp.ne' h
  constructor
  · simp [asked, h]
  · have h2 : rescaleDomain p q (lo :: hi :: st :: rest) = rescale p q lo :: rescale p q hi :: (p * st) :: rest := rfl
    rw [h2]
    simp [asked, h, hp.ne']

theorem asked_domainIn {dom : List ℝ} (h : Declared dom) : asked (domainIn p q dom) = (asked dom).map (rescaleDomain p q) := by
  rcases h with rfl | ⟨lo, hi, st, rfl, hst⟩
  · simp [domainIn, asked]
  · have hne : ¬ [lo, hi, st] = [0, 0, 0] := by simp [hst]
    obtain ⟨h1, h2⟩ := asked_stride hp q (lo := lo) (hi := hi) (rest := []) hst
    rw [domainIn, if_neg hne, h1, h2]
    rfl

theorem loadEventWithScore_unit (t : Table ℝ α ε) (dom : Option (List ℝ)) :
    (loadEventWithScore (table p q t) (dom.map (rescaleDomain p q)) : Res (ScoreData ℝ α φ ε)) =
      (loadEventWithScore t dom : Res (ScoreData ℝ α φ ε)).map (scoreData p q) := by
  simp only [loadEventWithScore]
  cases h : (ScoreData.init 2 .none : Res (ScoreData ℝ α φ ε)) with
  | error x => rfl
  | ok d =>
    simp only [bind, Except.bind]
    have hd : scoreData p q d = d := by
      simp only [ScoreData.init, EventData.init] at h
      cases h
      rfl
    have h2 := C145_set_event hp q d t.event t.score dom t.feature
    rw [hd] at h2
    show dropState (d.setEvent t.event (t.score.map (rescale p q)) (dom.map (rescaleDomain p q)) t.feature) = _
    rw [h2]
    cases d.setEvent t.event t.score dom t.feature <;> rfl

omit hp in
theorem loaded_stride {t : Table ℝ α ε} {dom : Option (List ℝ)} {d : ScoreData ℝ α φ ε} (h : loadEventWithScore t dom = .ok d)
    {dm : List ℝ} (hd : d.scoreDomain = some dm) : ∃ lo hi st rest, dm = lo :: hi :: st :: rest ∧ st ≠ 0 := by
  unfold loadEventWithScore at h
  obtain ⟨d0, h0, h⟩ := bind_ok h
  have hs : d0.setEvent t.event t.score dom t.feature = .ok d := by
    unfold dropState at h
    split at h
    · cases h; assumption
    · cases h
  obtain ⟨_, _, dm', n, a1, a2, a3, _⟩ := ScoreData.setEvent_ok hs
  rw [hd] at a3
  cases a3
  exact levels_ok_length a2

theorem loadSP_unit (read : F → Res (Table ℝ α ε)) (f : F) (dom dom' : List ℝ) (hd : asked dom' = (asked dom).map (rescaleDomain p q)) :
    loadDataSP (files p q read) f dom' =
      (loadDataSP read f dom : Res (ScoreData ℝ α φ ε × List ℝ)).map (fun x => (scoreData p q x.1, rescaleDomain p q x.2)) := by
  simp only [loadDataSP, files]
  cases read f with
  | error x => rfl
  | ok t =>
    simp only [Except.map, bind, Except.bind]
    have h1 := loadEventWithScore_unit (φ := φ) hp q t (asked dom)
    rw [← hd] at h1
    simp only [asked] at h1
    rw [h1]
    cases (loadEventWithScore t (if dom.all (fun x => decide (x = 0)) then none else some dom) : Res (ScoreData ℝ α φ ε)) with
    | error x => rfl
    | ok d =>
      simp only [Except.map]
      rcases d with ⟨b, dm, sc, n⟩
      cases dm <;> rfl

theorem loadIF_unit (read : F → Res (Table ℝ α ε)) (f : F) (dom dom' : List ℝ) (hd : asked dom' = (asked dom).map (rescaleDomain p q)) :
    loadDataIF (files p q read) f dom' =
      (loadDataIF read f dom : Res (ScoreData ℝ α φ ε × List ℝ)).map (fun x => (x.1, rescaleDomain p q x.2)) := by
  simp only [loadDataIF, files]
  cases read f with
  | error x => rfl
  | ok t =>
    simp only [Except.map, bind, Except.bind]
    have h1 := loadEventWithScore_unit (φ := φ) hp q t (asked dom)
    rw [← hd] at h1
    simp only [asked] at h1
    rw [h1]
    cases (loadEventWithScore t (if dom.all (fun x => decide (x = 0)) then none else some dom) : Res (ScoreData ℝ α φ ε)) with
    | error x => rfl
    | ok d =>
      simp only [Except.map]
      have h2 := C145_binarize hp q d none
      rw [Option.map_none] at h2
      rw [h2]
      rcases d with ⟨b, dm, sc, n⟩
      cases dm with
      | none => rfl
      | some dm =>
        simp only [scoreData, Option.map_some]
        cases ScoreData.binarizeScore (⟨b, some dm, sc, n⟩ : ScoreData ℝ α φ ε) none <;> rfl

theorem loadSP_follows (read : F → Res (Table ℝ α ε)) {dom : List ℝ} (hd : Declared dom) :
    LoadFollows (scoreData p q) (rescaleDomain p q) (loadDataSP read : Loader ℝ α φ ε F) (loadDataSP (files p q read)) dom
      (domainIn p q dom) where
  first f := loadSP_unit hp q read f dom _ (asked_domainIn hp q hd)
  next f f' x hx := by
    refine loadSP_unit hp q read f' x.2 _ ?_
    simp only [loadDataSP] at hx
    obtain ⟨t, _, hx⟩ := bind_ok hx
    obtain ⟨d, h1, hx⟩ := bind_ok hx
    split at hx
    · rename_i dm hdm
      cases hx
      obtain ⟨lo, hi, st, rest, rfl, hst⟩ := loaded_stride h1 hdm
      obtain ⟨h1, h2⟩ := asked_stride hp q (lo := lo) (hi := hi) (rest := rest) hst
      rw [h1, h2]
      rfl
    · cases hx

theorem loadIF_follows (read : F → Res (Table ℝ α ε)) {dom : List ℝ} (hd : Declared dom) :
    LoadFollows id (rescaleDomain p q) (loadDataIF read : Loader ℝ α φ ε F) (loadDataIF (files p q read)) dom
      (domainIn p q dom) where
  first f := loadIF_unit hp q read f dom _ (asked_domainIn hp q hd)
  next f f' x hx := by
    refine loadIF_unit hp q read f' x.2 _ ?_
    simp only [loadDataIF] at hx
    obtain ⟨t, _, hx⟩ := bind_ok hx
    obtain ⟨d, h1, hx⟩ := bind_ok hx
    split at hx
    · rename_i dm hdm
      obtain ⟨d', _, hx⟩ := bind_ok hx
      cases hx
      obtain ⟨lo, hi, st, rest, rfl, hst⟩ := loaded_stride h1 hdm
      obtain ⟨h1, h2⟩ := asked_stride hp q (lo := lo) (hi := hi) (rest := rest) hst
      rw [h1, h2]
      rfl
    · cases hx

theorem change_scoreData : Change (rescale p q) (scoreData p q : ScoreData ℝ α φ ε → ScoreData ℝ α φ ε) where
  base _ := rfl
  score _ := rfl
  filter d c := C145_filter hp q d c

omit hp in
theorem change_id : Change (fun x => x) (id : ScoreData ℝ α φ ε → ScoreData ℝ α φ ε) where
  base _ := rfl
  score d := by simp
  filter d c := by
    show d.filterEvent c = _
    cases d.filterEvent c with
    | error x => rfl
    | ok o => cases o <;> rfl

/-! ### Recommenders -/

omit hp in
theorem guardK_follows {k : ℝ → ℝ} (hf : Follows k h P R R' g) (n : Int) : Follows k h P (guardK n R) (guardK n R') g := by
  by_cases hn : n < 0
  · simp only [guardK, hn, if_true]
    exact ⟨fun _ _ _ => rfl, fun _ _ _ _ _ hx => by cases hx⟩
  · simp only [guardK, hn, if_false]
    exact hf

omit hp in
/-- A recommender follows itself when nothing changes. -/
theorem follows_id : Follows (fun x => x) id P R R id where
  fit s d _ := by
    cases h : R.fit s d with
    | error x => simp only [id, h]; rfl
    | ok x => simp only [id, h]; rfl
  predict s d x evs _ _ := by
    simp only [id]
    cases R.predict x.1 evs with
    | error x => rfl
    | ok y =>
      cases y with
      | scalar x => rfl
      | vec xs => simp only [Except.map, onPred, List.map_id']

/-- The containers a script trains with; `c`: there must be an event. -/
def Filled (c : Prop) (d : ScoreData ℝ α φ ε) : Prop := ∃ rows sc, ScoreBuilt d rows sc ∧ (c → rows ≠ [])

theorem plsa_follows {cf : PLSA.Config γ} {after : γ → ScoreData ℝ α φ ε → γ} (hafter : ∀ g d, after g (scoreData p q d) = after g d)
    (enc : PLSA.Val → J V) (hexp : cf.useExpectation = true → 0 < cf.alpha ∧ PLSA.DrawsWeights cf.rng) :
    Follows (rescale p q) (scoreData p q) (Filled (cf.useExpectation = true))
      (predictor (PLSA.plsa cf) PLSA.initialResults enc after) (predictor (PLSA.plsa cf) PLSA.initialResults enc after)
      (recommender p q) where
  fit s d _ := by
    simp only [predictor]
    have h1 := C145_plsa_fit hp q cf (fun _ => s) s (Rec.init none PLSA.initialResults : Rec ℝ α φ ε γ PLSA.Params PLSA.Val) d none
    have h2 : recommender p q (Rec.init none PLSA.initialResults : Rec ℝ α φ ε γ PLSA.Params PLSA.Val) =
      Rec.init none PLSA.initialResults := rfl
    rw [h2] at h1
    rw [h1]
    cases Rec.fitPredictor (PLSA.plsa cf) (fun _ => s) s (Rec.init none PLSA.initialResults) d none with
    | error x => rfl
    | ok r => simp only [Relabel.mutMap, hafter, Except.map]; rfl
  predict s d x evs hd hx := by
    obtain ⟨rows, sc, hb, hne⟩ := hd
    simp only [predictor] at hx ⊢
    have h2 : recommender p q (Rec.init none PLSA.initialResults : Rec ℝ α φ ε γ PLSA.Params PLSA.Val) =
      Rec.init none PLSA.initialResults := rfl
    cases h5 : Rec.fitPredictor (PLSA.plsa cf) (fun _ => s) s (Rec.init none PLSA.initialResults) d none with
    | error e => rw [h5] at hx; cases hx
    | ok r =>
      rw [h5] at hx
      cases hx
      obtain ⟨r'', h6, _, h7⟩ := C145_plsa_predict hp q hb (fun he => ⟨(hexp he).1, (hexp he).2, hne he⟩) h5
      have h8 := C145_plsa_fit hp q cf (fun _ => s) s (Rec.init none PLSA.initialResults : Rec ℝ α φ ε γ PLSA.Params PLSA.Val) d none
      rw [h5, h6] at h8
      cases h8
      rw [h7]
      cases Rec.predict (PLSA.plsa cf) r (.mat ⟨2, evs⟩) with
      | error e => rfl
      | ok y => cases y <;> rfl

omit hp in
/-- A recommender with `q` added to scores, domain and global bias. -/
noncomputable def shifted (r : Rec ℝ α φ ε γ MF.Params MF.Val) : Rec ℝ α φ ε γ MF.Params MF.Val :=
  { r with
    score := r.score.map (List.map (rescale 1 q))
    scoreDomain := r.scoreDomain.map (rescaleDomain 1 q)
    params := r.params.map (MF.Params.shift q) }

omit hp in
theorem pmf_fit (cf : MF.Config γ) (heq : MF.Equivariant cf.opt) (mk : Int → γ) (env : γ) (r : Rec ℝ α φ ε γ MF.Params MF.Val)
    (d : ScoreData ℝ α φ ε) (idx : Option (List Int)) {sc : List ℝ} (hsc : d.score = some sc) (hne : sc ≠ []) :
    Rec.fitPredictor (MF.pmf cf) mk env (shifted q r) (scoreData 1 q d) idx =
      Relabel.mutMap (shifted q) (Rec.fitPredictor (MF.pmf cf) mk env r d idx) := by
  have h0 : Rec.eventFit mk env (shifted q r) d.toEventData idx = Relabel.mutMap (shifted q) (Rec.eventFit mk env r d.toEventData idx) := by
    cases idx <;>
    · simp only [Rec.eventFit, Rec.baseFit]
      cases d.event with
      | none => rfl
      | some rs =>
        simp only
        split
        · rfl
        · cases npTake d.nObjects (d.eventOtypes.map Int.ofNat) with
          | error e => rfl
          | ok ns =>
            simp only
            split <;> rfl
  simp only [Rec.fitPredictor, Rec.predictorSuperFit]
  have h : (scoreData 1 q d).toEventData = d.toEventData := rfl
  rw [h, h0]
  cases Rec.eventFit mk env r d.toEventData idx with
  | error e => rfl
  | ok r' =>
    simp only [Relabel.mutMap, Rec.finish]
    have hmap : sc.map (rescale 1 q) = sc.map (· + q) := List.map_congr_left (fun x _ => by unfold rescale; ring)
    have hv : (Rec.setScoreInfo (shifted q r') (scoreData 1 q d)).view = { (Rec.setScoreInfo r' d).view with
        score := some (sc.map (· + q)), scoreDomain := (scoreData 1 q d).scoreDomain, nScoreLevels := d.nScoreLevels } := by
      rw [← hmap]
      simp only [Rec.view, Rec.setScoreInfo, scoreData, hsc, Option.map_some]
      rfl
    rw [hv, MF.train_shift cf heq q (Rec.setScoreInfo r' d).view sc hsc hne]
    cases (MF.pmf cf).train (Rec.setScoreInfo r' d).view with
    | error e => rfl
    | ok x => rfl

omit hp in
theorem pmf_follows {cf : MF.Config γ} (heq : MF.Equivariant cf.opt) {after : γ → ScoreData ℝ α φ ε → γ}
    (hafter : ∀ g d, after g (scoreData 1 q d) = after g d) (enc : MF.Val → J V) :
    Follows (rescale 1 q) (scoreData 1 q) (Filled True)
      (predictor (MF.pmf cf) MF.initialResults enc after) (predictor (MF.pmf cf) MF.initialResults enc after)
      (shifted q) where
  fit s d hd := by
    obtain ⟨rows, sc, hb, hne⟩ := hd
    have hsc := hb.inv.2.1
    have hne' : sc ≠ [] := by
      intro h0
      have := hb.inv.2.2.1
      rw [h0] at this
      exact hne trivial (List.length_eq_zero_iff.1 this.symm)
    simp only [predictor]
    have h1 := pmf_fit q cf heq (fun _ => s) s (Rec.init none MF.initialResults : Rec ℝ α φ ε γ MF.Params MF.Val) d none hsc hne'
    have h2 : shifted q (Rec.init none MF.initialResults : Rec ℝ α φ ε γ MF.Params MF.Val) = Rec.init none MF.initialResults := rfl
    rw [h2] at h1
    rw [h1]
    cases Rec.fitPredictor (MF.pmf cf) (fun _ => s) s (Rec.init none MF.initialResults) d none with
    | error x => rfl
    | ok r => simp only [Relabel.mutMap, hafter, Except.map]; rfl
  predict s d x evs hd hx := by
    obtain ⟨rows, sc, hb, hne⟩ := hd
    have hsc := hb.inv.2.1
    have hne' : sc ≠ [] := by
      intro h0
      have := hb.inv.2.2.1
      rw [h0] at this
      exact hne trivial (List.length_eq_zero_iff.1 this.symm)
    simp only [predictor] at hx ⊢
    cases h5 : Rec.fitPredictor (MF.pmf cf) (fun _ => s) s (Rec.init none MF.initialResults) d none with
    | error e => rw [h5] at hx; cases hx
    | ok r =>
      rw [h5] at hx
      cases hx
      have hmap : sc.map (rescale 1 q) = sc.map (· + q) := List.map_congr_left (fun x _ => by unfold rescale; ring)
      obtain ⟨r'', _, h6, _, _, _, h7⟩ := MF.C82_shifted_scores cf heq q (d' := scoreData 1 q d) hsc hne' rfl
        (by rw [← hmap]; simp only [scoreData, hsc, Option.map_some]) h5
      have h8 := pmf_fit q cf heq (fun _ => s) s (Rec.init none MF.initialResults : Rec ℝ α φ ε γ MF.Params MF.Val) d none hsc hne'
      have h2 : shifted q (Rec.init none MF.initialResults : Rec ℝ α φ ε γ MF.Params MF.Val) = Rec.init none MF.initialResults := rfl
      rw [h2, h5, h6] at h8
      cases h8
      rw [h7]
      have hr : rescale 1 q = (· + q) := funext fun x => by unfold rescale; ring
      rw [hr]
      cases Rec.predict (MF.pmf cf) r (.mat ⟨2, evs⟩) with
      | error e => rfl
      | ok y => cases y <;> rfl

/-! ### The containers of a run -/

omit hp in
theorem filled_loaded {c : Prop} {read : F → Res (Table ℝ α ε)} {f : F} (hread : ∀ t, read f = .ok t → TableOk t ∧ (c → t.event.rows ≠ []))
    {dom : List ℝ} {x : ScoreData ℝ α φ ε × List ℝ} (h : loadDataSP read f dom = .ok x) :
    ∃ t : Table ℝ α ε, ScoreBuilt x.1 t.event.rows t.score ∧ (∀ r ∈ t.event.rows, r.length = 2) ∧ (c → t.event.rows ≠ []) := by
  simp only [loadDataSP] at h
  obtain ⟨t, ht, h⟩ := bind_ok h
  obtain ⟨d, hd, h⟩ := bind_ok h
  have hp := Relabel.loadEventWithScore_pair hd
  have hb := (loadEvent_built (hread t ht).1 hd).1
  split at h
  · cases h
    refine ⟨t, hb, ?_, (hread t ht).2⟩
    intro r hr
    rw [hb.inv.1.holds.reg r hr, hp.1]
    rfl
  · cases h

omit hp in
theorem filled_fold {c : Prop} {rng : Split.Rng γ} {n : Int} {d d' : ScoreData ℝ α φ ε} {rows : List (List α)} {sc : List ℝ}
    (hb : ScoreBuilt d rows sc) (h2 : ∀ r ∈ rows, r.length = 2) (hne : c → rows ≠ []) {users : List α} (hu : column rows 0 = .ok users)
    {mask : List Bool} {s s' : γ}
    (hm : Split.shuffleMask rng (cvConfig (K := ℝ) n) users s (List.replicate users.length false) (npUnique users) = .ok (mask, s'))
    (hf : d.filterEvent (.index (((List.range users.length).filter (fun i => !(mask.getD i false))).map Int.ofNat)) = .ok (some d')) :
    Filled c d' := by
  have hdr : DrawnFold rng (cvConfig (K := ℝ) n) users ((List.range users.length).filter (fun i => !(mask.getD i false)))
      ((List.range users.length).filter (fun i => mask.getD i false)) := ⟨s, s', mask, hm, rfl, rfl⟩
  have hsp : FifthSplit rows _ _ := FifthSplit.of_drawn (K := ℝ) hu hdr
  have hix : ∀ i ∈ (List.range users.length).filter (fun i => !(mask.getD i false)), i < rows.length :=
    fun i hi => ((hsp.fold.train_iff i).1 hi).1
  refine ⟨_, _, filter_built hb hix hf, fun hc e => ?_⟩
  have htwo : TwoEach rows := by
    rw [twoEach_iff (K := ℝ) hu]
    by_contra hfit
    push Not at hfit
    rw [Split.shuffleMask_error rng (cvConfig (K := ℝ) n) users (npUnique users) hfit] at hm
    cases hm
  have := congrArg List.length e
  rw [length_gather _ _ hix] at this
  exact hsp.train_nonempty h2 (hne hc) htwo (List.length_eq_zero_iff.1 this)

/-! ### C146 -/

omit hp in
/-- A command line in the new unit. -/
noncomputable def inUnit (p q : ℝ) (o : Namespace F) : Namespace F := { o with domain := domainIn p q o.domain }

omit hp in
/-- C146: what two runs write is the same file, once the scores of the first are written in the new unit; only the score
domain has to be replaced, as its stride is a difference of scores.  When one run fails, both fail with the same exception. -/
def SameFile (p q : ℝ) (e : Env ℝ α ε F V T γ) (k : ℝ → ℝ) (old new : Res (J V)) : Prop :=
  (∃ x, old = .error x ∧ new = .error x) ∨
  ∃ (j j' : J V) (dm : List ℝ), old = .ok j ∧ new = .ok j' ∧
    j.path ["condition", "score_domain"] = .ok (encScores (writing k e) dm) ∧
    j'.path ["condition", "score_domain"] = .ok (encScores e (rescaleDomain p q dm)) ∧
    j.setItem2 "condition" "score_domain" (encScores e (rescaleDomain p q dm)) = .ok j'

omit hp in
theorem set_past {ν : Type} (d : Dict String ν) {a b : String} (hab : a ≠ b) (x y z : ν) :
    ((d.set a x).set b y).set a z = (d.set a z).set b y := by
  induction d with
  | nil => simp [Dict.set, hab]
  | cons p d ih =>
    obtain ⟨c, v⟩ := p
    by_cases h1 : c = a
    · subst h1; simp [Dict.set, hab]
    · by_cases h2 : c = b
      · subst h2; simp [Dict.set, h1, set_set]
      · simp [Dict.set, h1, h2, ih]

omit hp in
theorem sameFile {e : Env ℝ α ε F V T γ} {k : ℝ → ℝ} {old new : Res (J V)}
    (h : ∃ res : Res (Report F ℝ V), old = res.map (fun r => r.render (writing k e)) ∧
      new = res.map (fun r => { r with scoreDomain := rescaleDomain p q r.scoreDomain }.render e)) : SameFile p q e k old new := by
  obtain ⟨res, rfl, rfl⟩ := h
  cases res with
  | error x => exact .inl ⟨x, rfl, rfl⟩
  | ok r =>
    have hg : ∀ (d : Dict String (J V)) (x y : J V), Dict.get? ((d.set "score_domain" x).set "n_folds" y) "score_domain" = some x := by
      intro d x y
      rw [Dict.get?_set, if_neg (by decide), get?_set_self]
    refine .inr ⟨_, _, r.scoreDomain, rfl, rfl, ?_, ?_, ?_⟩
    · simp [J.path, J.item, Report.render, Dict.getItem, hg, ok_bind, Dict.get?]
    · simp [J.path, J.item, Report.render, Dict.getItem, hg, ok_bind, Dict.get?]
    · simp [J.setItem2, J.item, J.setItem, Report.render, Dict.getItem, ok_bind, Dict.get?, Dict.set, set_past _ (show "score_domain" ≠ "n_folds" by decide)]
      exact ⟨rfl, rfl, rfl⟩

/-- C146, topic models: a run on files with scores in the new unit and the declared domain in the new unit writes the file of
the run on the original files with all true and predicted scores in the new unit.  For predictions by expectation: with
positive pseudo-counts, weights that are not negative, and a training file with an event. -/
theorem C146_plsa (e : Env ℝ α ε F V T γ) (l : Lib α φ ε V γ) (hafter : ∀ g d, l.after g (scoreData p q d) = l.after g d)
    (clock : Nat → T) (environment : Dict String (J V)) (read : Bool → F → Res (Table ℝ α ε))
    (hread : ∀ b f t, read b f = .ok t → TableOk t) (o : Namespace F) (hdom : Declared o.domain) (b : Bool)
    (hm : o.method = if b then "plsam" else "plsamm")
    (hexp : b = true → 0 < o.alpha ∧ PLSA.DrawsWeights l.dirichlet ∧
      ∀ t, read o.timestamp (o.infile.getD o.infilep) = .ok t → t.event.rows ≠ []) :
    SameFile p q e (rescale p q) (task (writing (rescale p q) e) l clock environment read .sp o)
      (task e l clock environment (fun b => files p q (read b)) .sp (inUnit p q o)) := by
  obtain ⟨cf, h1, h2, h3⟩ := task_plsa_eq (writing (rescale p q) e) l clock environment read o b hm
  obtain ⟨cf', h1', h2', h3'⟩ := task_plsa_eq e l clock environment (fun b => files p q (read b)) (inUnit p q o) b hm
  have hcf : cf' = cf := by
    have : newPLSA l (optionsPLSA (inUnit p q o) b) = newPLSA l (optionsPLSA o b) := rfl
    rw [this, h1] at h1'
    cases h1'
    rfl
  subst hcf
  rw [h3, h3']
  refine sameFile q ?_
  refine doTask_change (P := Filled (cf'.useExpectation = true)) (change_scoreData hp q)
    (guardK_follows (plsa_follows hp q hafter l.plsa ?_) o.k) e clock _ _
    (loadSP_follows hp q (read o.timestamp) hdom) o.foldNo (fun _ => rfl) ?_ ?_
  · intro he
    rw [h2.expectation] at he
    exact ⟨by rw [h2.alpha]; exact (hexp he).1, by rw [h2.rng]; exact (hexp he).2.1⟩
  · intro _ x hx
    obtain ⟨t, hb, _, hne⟩ := filled_loaded (c := cf'.useExpectation = true) (fun t ht => ⟨hread _ _ t ht, fun he => by
      rw [h2.expectation] at he
      exact (hexp he).2.2 t ht⟩) hx
    exact ⟨_, _, hb, hne⟩
  · intro _ x evs users mask s s' d' hx hev hu hmask hf
    obtain ⟨t, hb, hl2, hne⟩ := filled_loaded (c := cf'.useExpectation = true) (fun t ht => ⟨hread _ _ t ht, fun he => by
      rw [h2.expectation] at he
      exact (hexp he).2.2 t ht⟩) hx
    rw [externalEvents_built hb.inv.1] at hev
    cases hev
    exact filled_fold hb hl2 hne hu hmask hf

/-- C146, item finders: the unit of the scores does not matter, as only their halves are used; the files differ in the score
domain only. -/
theorem C146_item_finder (e : Env ℝ α ε F V T γ) (l : Lib α φ ε V γ)
    (clock : Nat → T) (environment : Dict String (J V)) (read : Bool → F → Res (Table ℝ α ε))
    (o : Namespace F) (hdom : Declared o.domain) (hm : o.method = "lpmf") :
    SameFile p q e (fun x => x) (task e l clock environment read .itemFinder o)
      (task e l clock environment (fun b => files p q (read b)) .itemFinder (inUnit p q o)) := by
  obtain ⟨cf, h1, h2, h3⟩ := task_lpmf_eq e l clock environment read o hm
  obtain ⟨cf', h1', h2', h3'⟩ := task_lpmf_eq e l clock environment (fun b => files p q (read b)) (inUnit p q o) hm
  have hcf : cf' = cf := by
    have : newMF l (optionsMF (inUnit p q o)) = newMF l (optionsMF o) := rfl
    rw [this, h1] at h1'
    cases h1'
    rfl
  subst hcf
  rw [h3, h3']
  refine sameFile q ?_
  exact doTask_change (P := fun _ => True) change_id follows_id e clock _ _
    (loadIF_follows hp q (read o.timestamp) hdom) o.foldNo (fun _ => rfl) (fun _ _ _ => trivial)
    (fun _ _ _ _ _ _ _ _ _ _ _ _ _ => trivial)

omit hp in
/-- C146, matrix factorization: adding a number to all scores; for optimizers that commute with translations (C82) and
training files with an event. -/
theorem C146_pmf (e : Env ℝ α ε F V T γ) (l : Lib α φ ε V γ) (hafter : ∀ g d, l.after g (scoreData 1 q d) = l.after g d)
    (clock : Nat → T) (environment : Dict String (J V)) (read : Bool → F → Res (Table ℝ α ε))
    (hread : ∀ b f t, read b f = .ok t → TableOk t) (o : Namespace F) (hdom : Declared o.domain)
    (hm : o.method = "pmf") (heq : MF.Equivariant l.opt)
    (hne : ∀ t, read o.timestamp (o.infile.getD o.infilep) = .ok t → t.event.rows ≠ []) :
    SameFile 1 q e (rescale 1 q) (task (writing (rescale 1 q) e) l clock environment read .sp o)
      (task e l clock environment (fun b => files 1 q (read b)) .sp (inUnit 1 q o)) := by
  obtain ⟨cf, h1, h2, h3⟩ := task_pmf_eq (writing (rescale 1 q) e) l clock environment read o hm
  obtain ⟨cf', h1', h2', h3'⟩ := task_pmf_eq e l clock environment (fun b => files 1 q (read b)) (inUnit 1 q o) hm
  have hcf : cf' = cf := by
    have : newMF l (optionsMF (inUnit 1 q o)) = newMF l (optionsMF o) := rfl
    rw [this, h1] at h1'
    cases h1'
    rfl
  subst hcf
  rw [h3, h3']
  refine sameFile q ?_
  refine doTask_change (P := Filled True) (change_scoreData one_pos q)
    (guardK_follows (pmf_follows q (by rw [h2.opt]; exact heq) hafter l.mf) o.k) e clock _ _
    (loadSP_follows one_pos q (read o.timestamp) hdom) o.foldNo (fun _ => rfl) ?_ ?_
  · intro _ x hx
    obtain ⟨t, hb, _, hne⟩ := filled_loaded (c := True) (fun t ht => ⟨hread _ _ t ht, fun _ => hne t ht⟩) hx
    exact ⟨_, _, hb, hne⟩
  · intro _ x evs users mask s s' d' hx hev hu hmask hf
    obtain ⟨t, hb, hl2, hne⟩ := filled_loaded (c := True) (fun t ht => ⟨hread _ _ t ht, fun _ => hne t ht⟩) hx
    rw [externalEvents_built hb.inv.1] at hev
    cases hev
    exact filled_fold hb hl2 hne hu hmask hf

omit hp in
/-- The hypotheses of C146 are met, and the runs succeed: the example of Verif/Exp/Examples in the unit `2 * x + 1`. -/
example : ∃ o j j', commandLine .sp "stdin" "stdout" (Ex.args "plsam") ["data"] = some o ∧
    task (writing (rescale 2 1) Ex.env) Ex.lib _root_.id [] Ex.read .sp o = .ok j ∧
    task Ex.env Ex.lib _root_.id [] (fun b => files 2 1 (Ex.read b)) .sp (inUnit 2 1 o) = .ok j' ∧
    SameFile 2 1 Ex.env (rescale 2 1) (.ok j) (.ok j') := by
  obtain ⟨o, h0, h1, h2, h3, h4, h5, h6, h7, h8, h9⟩ := Ex.options .sp "plsam" (by simp [Script.choices])
  have ht : Ex.read o.timestamp (o.infile.getD o.infilep) = .ok ⟨⟨2, Ex.rows⟩, Ex.scores, some [1, 2, 3, 4, 5, 6, 7, 8]⟩ := by
    rw [h7]; rfl
  have hr : Ready (writing (rescale 2 1) Ex.env) o := ⟨(Ex.ready h4 h5).1, (Ex.ready h4 h5).2⟩
  obtain ⟨j, hj⟩ := (C103_plsa_cross_validation (writing (rescale 2 1) Ex.env) Ex.lib _root_.id [] Ex.read Ex.read_ok
    (fun _ _ _ => zero_le_one) (.inl h1) (by omega) (by rw [h9]; exact one_pos) h2 h6 (by
      intro t dm ht' hD
      cases hD with
      | given e _ => cases e; exact ⟨1, 1, 4, by norm_num, one_pos⟩
      | estimated e _ _ _ _ => norm_num at e)).2 ⟨hr, _, ht, .inl one_ne_zero, fun _ => ⟨by simp [Ex.rows], Ex.twoEach⟩⟩
  have h := C146_plsa (p := 2) (by norm_num) 1 Ex.env Ex.lib (fun _ _ => rfl) _root_.id [] Ex.read Ex.read_ok o
    (.inr ⟨1, 5, 1, h6, one_ne_zero⟩) true h1 (fun _ => ⟨by rw [h9]; exact one_pos, fun _ _ _ => zero_le_one, fun t h => by
      rw [ht] at h
      cases h
      simp [Ex.rows]⟩)
  rcases h with ⟨x, hx, _⟩ | ⟨j1, j2, dm, k1, k2, k3⟩
  · rw [hj] at hx; cases hx
  · rw [hj] at k1
    cases k1
    exact ⟨o, j, j2, h0, hj, k2, .inr ⟨j, j2, dm, rfl, rfl, k3⟩⟩

omit hp in
/-- The optimizer of the hypotheses of `C146_pmf`. -/
example : MF.Equivariant MF.descent := MF.descent_equivariant

end Kam.Rescale
