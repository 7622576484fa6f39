/-
C98: runs with a seed are reproducible.
-/
import Verif.Scripts.Props5

set_option linter.unusedSectionVars false

namespace Kam.Scripts
open Spec

variable {K α φ ε F V T γ M : Type} [Field K] [LinearOrder K] [IsStrictOrderedRing K] [FloorRing K] [LinearOrder α]

/-! ### Specification -/

/-- Two entries of a fold, equal up to the times. -/
def SameEntry (x y : Dict String (J V)) : Prop :=
  ∀ k, (k ∈ x.keys ↔ k ∈ y.keys) ∧ (k ∉ timing → x.get? k = y.get? k)

/-- Two result files are equal up to the times in the training and test results: the same conditions,
environment, model and predictions, the same description of the data, and the same folds in the same order with
the same results. -/
structure SameRun (a b : J V) : Prop where
  sections : ∀ sec ∈ ["condition", "environment", "model", "prediction"], ∃ v : J V, a.path [sec] = .ok v ∧ b.path [sec] = .ok v
  data : SameData a b
  results : ∀ sec ∈ ["training", "test"], ∃ x y : Dict String (J V),
    a.path [sec, "results"] = .ok (.dict x) ∧ b.path [sec, "results"] = .ok (.dict y) ∧ x.keys = y.keys ∧
    ∀ key ∈ x.keys, ∃ d e : Dict String (J V), x.get? key = some (.dict d) ∧ y.get? key = some (.dict e) ∧ SameEntry d e

/-- Two computations end alike: both with related values, or both with the same exception. -/
def Alike {β δ : Type} (R : β → δ → Prop) : Res β → Res δ → Prop
  | .ok a, .ok b => R a b
  | .error e, .error e' => e = e'
  | _, _ => False

/-! ### Simulation -/

lemma Alike.bind {β β' δ δ' : Type} {R : β → β' → Prop} {S : δ → δ' → Prop} {x : Res β} {y : Res β'} {f : β → Res δ}
    {g : β' → Res δ'} (h : Alike R x y) (hf : ∀ a b, R a b → Alike S (f a) (g b)) : Alike S (x >>= f) (y >>= g) := by
  cases x with
  | error e =>
    cases y with
    | error e' => exact h
    | ok b => exact h.elim
  | ok a =>
    cases y with
    | error e' => exact h.elim
    | ok b => exact hf a b h

lemma Alike.refl {β : Type} (x : Res β) : Alike Eq x x := by cases x <;> rfl

/-- The same step on both sides. -/
lemma Alike.same {β δ δ' : Type} {S : δ → δ' → Prop} {x : Res β} {f : β → Res δ} {g : β → Res δ'}
    (hf : ∀ a, Alike S (f a) (g a)) : Alike S (x >>= f) (x >>= g) :=
  (Alike.refl x).bind (by rintro a b rfl; exact hf a)

/-- The results of the folds, one by one. -/
def SameEntries (x y : Dict String (J V)) : Prop :=
  List.Forall₂ (fun p q => p.1 = q.1 ∧ ∃ d e, p.2 = J.dict d ∧ q.2 = J.dict e ∧ SameEntry d e) x y

lemma SameEntries.set {x y : Dict String (J V)} (h : SameEntries x y) (k : String) {d e : Dict String (J V)}
    (hde : SameEntry d e) : SameEntries (x.set k (.dict d)) (y.set k (.dict e)) := by
  unfold SameEntries at h ⊢
  induction h with
  | nil => exact .cons ⟨rfl, d, e, rfl, rfl, hde⟩ .nil
  | @cons p q x y hp h ih =>
    obtain ⟨k1, v1⟩ := p
    obtain ⟨k2, v2⟩ := q
    obtain ⟨hk, hv⟩ := hp
    simp only at hk hv
    subst hk
    unfold Dict.set
    by_cases e1 : k1 = k
    · rw [if_pos e1, if_pos e1]
      exact .cons ⟨rfl, d, e, rfl, rfl, hde⟩ h
    · rw [if_neg e1, if_neg e1]
      exact .cons ⟨rfl, hv⟩ ih

lemma SameEntries.keys {x y : Dict String (J V)} (h : SameEntries x y) : x.keys = y.keys := by
  unfold SameEntries at h
  induction h with
  | nil => rfl
  | cons hp _ ih => simp only [Dict.keys, List.map_cons, List.cons.injEq] at ih ⊢; exact ⟨hp.1, ih⟩

lemma SameEntries.get {x y : Dict String (J V)} (h : SameEntries x y) (key : String) (hk : key ∈ x.keys) :
    ∃ d e : Dict String (J V), x.get? key = some (.dict d) ∧ y.get? key = some (.dict e) ∧ SameEntry d e := by
  unfold SameEntries at h
  induction h with
  | nil => simp [Dict.keys] at hk
  | @cons p q x y hp h ih =>
    obtain ⟨k1, v1⟩ := p
    obtain ⟨k2, v2⟩ := q
    obtain ⟨he, d, e, h1, h2, h3⟩ := hp
    simp only at he h1 h2
    subst he
    by_cases e1 : k1 = key
    · exact ⟨d, e, by simp [Dict.get?, e1, h1], by simp [Dict.get?, e1, h2], h3⟩
    · have hk' : key ∈ Dict.keys x := by
        simp only [Dict.keys, List.map_cons, List.mem_cons] at hk
        rcases hk with rfl | hk
        · exact absurd rfl e1
        · exact hk
      obtain ⟨d', e', a, b, c⟩ := ih hk'
      exact ⟨d', e', by simp [Dict.get?, e1, a], by simp [Dict.get?, e1, b], c⟩

/-- Training with two clocks. -/
lemma training_alike (env : Env K α ε F V T γ) (clock clock' : Nat → T) (rec : Recommender K α φ ε V γ M) (seed : Option Int)
    (sys : Sys γ) (data : ScoreData K α φ ε) :
    Alike (fun a b => a.1 = b.1 ∧ SameEntry a.2.1 b.2.1 ∧ a.2.2 = b.2.2)
      (training env clock rec seed sys data) (training env clock' rec seed sys data) := by
  unfold training
  refine Alike.same ?_
  rintro ⟨m, res, g⟩
  refine ⟨rfl, ?_, rfl⟩
  exact training_same env (⟨0, clock sys.ticks, clock (sys.ticks + 1), clock 0, clock 0, [], [], res, .vec []⟩ : FD K V T)
    ⟨0, clock' sys.ticks, clock' (sys.ticks + 1), clock' 0, clock' 0, [], [], res, .vec []⟩ rfl

/-- Testing with two clocks. -/
lemma testing_alike (env : Env K α ε F V T γ) (clock clock' : Nat → T) (rec : Recommender K α φ ε V γ M) (m : M)
    (sys : Sys γ) (ev : List (List α)) :
    Alike (fun a b => a.1 = b.1 ∧ SameEntry a.2.1 b.2.1 ∧ a.2.2 = b.2.2)
      (testing env clock rec m sys ev) (testing env clock' rec m sys ev) := by
  unfold testing
  refine Alike.same ?_
  intro esc
  refine ⟨rfl, ?_, rfl⟩
  intro k
  constructor
  · simp [Dict.keys]
  · intro hk
    simp only [timing, List.mem_cons, List.not_mem_nil, or_false, not_or] at hk
    obtain ⟨h1, h2, h3, h4⟩ := hk
    simp [Dict.get?, Ne.symm h1, Ne.symm h2, Ne.symm h3, Ne.symm h4]

/-- The dictionaries of `cv_test` in two runs. -/
structure SameAcc (a b : Acc V) : Prop where
  training : SameEntries a.training b.training
  test : SameEntries a.test b.test
  event : a.event = b.event
  trues : a.trues = b.trues
  predicted : a.predicted = b.predicted
  mask : a.mask = b.mask
  feature : a.feature = b.feature

lemma cvFold_alike (env : Env K α ε F V T γ) (clock clock' : Nat → T) (rec : Recommender K α φ ε V γ M) (seed : Option Int)
    (data : ScoreData K α φ ε) (ev : List (List α)) (fold : Nat) (trainI testI : List Nat) (sys : Sys γ) {a b : Acc V}
    (hab : SameAcc a b) :
    Alike (fun x y => SameAcc x.1 y.1 ∧ x.2 = y.2) (cvFold env clock rec seed data ev fold trainI testI sys a)
      (cvFold env clock' rec seed data ev fold trainI testI sys b) := by
  unfold cvFold
  refine Alike.same ?_
  intro train
  refine (training_alike env clock clock' rec seed sys train).bind ?_
  rintro ⟨m, ti, s1⟩ ⟨m', ti', s1'⟩ ⟨h1, h2, h3⟩
  simp only at h1 h2 h3
  subst h1 h3
  refine (testing_alike env clock clock' rec m s1 _).bind ?_
  rintro ⟨esc, si, s2⟩ ⟨esc', si', s2'⟩ ⟨g1, g2, g3⟩
  simp only at g1 g2 g3
  subst g1 g3
  refine Alike.same ?_
  intro score
  refine ⟨⟨hab.training.set _ h2, hab.test.set _ g2, ?_, ?_, ?_, ?_, ?_⟩, rfl⟩
  · simp only [hab.event]
  · simp only [hab.trues]
  · simp only [hab.predicted]
  · simp only [hab.mask]
  · simp only [hab.feature]

lemma cvLoop_alike (env : Env K α ε F V T γ) (clock clock' : Nat → T) (rec : Recommender K α φ ε V γ M) (seed : Option Int)
    (cfg : Split.ShuffleConfig K) (data : ScoreData K α φ ε) (ev : List (List α)) (users : List α) (target : Option Int)
    (n : Nat) : ∀ (fold : Nat) (sys : Sys γ) {a b : Acc V}, SameAcc a b →
    Alike SameAcc (cvLoop env clock rec seed cfg data ev users target n fold sys a)
      (cvLoop env clock' rec seed cfg data ev users target n fold sys b) := by
  induction n with
  | zero => intro fold sys a b hab; exact hab
  | succ n ih =>
    intro fold sys a b hab
    unfold cvLoop
    refine Alike.same ?_
    rintro ⟨mask, g⟩
    simp only []
    split
    · exact ih _ _ hab
    · refine (cvFold_alike env clock clock' rec seed data ev _ _ _ _ hab).bind ?_
      rintro ⟨a', s⟩ ⟨b', s'⟩ ⟨h1, h2⟩
      simp only at h1 h2
      subst h2
      exact ih _ _ h1

/-- Two reports. -/
structure SameReport (a b : Report F K V) : Prop where
  condition : a.condition = b.condition
  scoreDomain : a.scoreDomain = b.scoreDomain
  nFolds : a.nFolds = b.nFolds
  environment : a.environment = b.environment
  model : a.model = b.model
  prediction : a.prediction = b.prediction
  training : SameEntries a.training.results b.training.results
  test : SameEntries a.test.results b.test.results
  trainData : (a.training.file, a.training.nEvents, a.training.nUsers, a.training.nItems) =
    (b.training.file, b.training.nEvents, b.training.nUsers, b.training.nItems)
  testData : (a.test.file, a.test.nEvents, a.test.nUsers, a.test.nItems) =
    (b.test.file, b.test.nEvents, b.test.nUsers, b.test.nItems)

lemma cvTest_alike (env : Env K α ε F V T γ) (clock clock' : Nat → T) (rec : Recommender K α φ ε V γ M)
    (load : Loader K α φ ε F) (s : Setting K F V) (target : Option Int) (sys : Sys γ) :
    Alike SameReport (cvTest env clock rec load s target sys) (cvTest env clock' rec load s target sys) := by
  unfold cvTest
  refine Alike.same ?_
  rintro ⟨data, dom⟩
  refine Alike.same fun ev => Alike.same fun users => Alike.same fun items => Alike.same fun _ => Alike.same fun groups => ?_
  refine (cvLoop_alike env clock clock' rec s.seed _ data ev groups target _ 0 sys
    (a := ⟨[], [], [], [], [], [], _⟩) (b := ⟨[], [], [], [], [], [], _⟩)
    ⟨.nil, .nil, rfl, rfl, rfl, rfl, rfl⟩).bind ?_
  intro a b hab
  refine ⟨rfl, rfl, rfl, rfl, rfl, ?_, hab.training, hab.test, rfl, rfl⟩
  simp only [hab.event, hab.trues, hab.predicted, hab.mask, hab.feature]

lemma holdoutTest_alike (env : Env K α ε F V T γ) (clock clock' : Nat → T) (rec : Recommender K α φ ε V γ M)
    (load : Loader K α φ ε F) (s : Setting K F V) (sys : Sys γ) :
    Alike SameReport (holdoutTest env clock rec load s sys) (holdoutTest env clock' rec load s sys) := by
  unfold holdoutTest
  refine Alike.same ?_
  rintro ⟨train, dom⟩
  refine Alike.same ?_
  rintro ⟨test, dom'⟩
  refine Alike.same fun ev => Alike.same fun _ => Alike.same fun _ => Alike.same fun _ => Alike.same fun _ => ?_
  refine (training_alike env clock clock' rec s.seed sys train).bind ?_
  rintro ⟨m, ti, s1⟩ ⟨m', ti', s1'⟩ ⟨h1, h2, h3⟩
  simp only at h1 h2 h3
  subst h1 h3
  refine (testing_alike env clock clock' rec m s1 _).bind ?_
  rintro ⟨esc, si, s2⟩ ⟨esc', si', s2'⟩ ⟨g1, g2, g3⟩
  simp only at g1 g2 g3
  subst g1 g3
  refine Alike.same fun _ => Alike.same fun score => ?_
  exact ⟨rfl, rfl, rfl, rfl, rfl, rfl, .cons ⟨rfl, _, _, rfl, rfl, h2⟩ .nil, .cons ⟨rfl, _, _, rfl, rfl, g2⟩ .nil, rfl, rfl⟩

lemma SameReport.render {a b : Report F K V} (h : SameReport a b) (env : Env K α ε F V T γ) :
    SameRun (a.render env) (b.render env) := by
  obtain ⟨t1, t2⟩ := Prod.mk.inj h.trainData
  obtain ⟨t2, t3⟩ := Prod.mk.inj t2
  obtain ⟨t3, t4⟩ := Prod.mk.inj t3
  obtain ⟨u1, u2⟩ := Prod.mk.inj h.testData
  obtain ⟨u2, u3⟩ := Prod.mk.inj u2
  obtain ⟨u3, u4⟩ := Prod.mk.inj u3
  refine ⟨?_, ?_, ?_⟩
  · intro sec hsec
    simp only [List.mem_cons, List.not_mem_nil, or_false] at hsec
    rcases hsec with rfl | rfl | rfl | rfl
    · exact ⟨.dict ((a.condition.set "score_domain" (encScores env a.scoreDomain)).set "n_folds" (.leaf (env.int a.nFolds))),
        by simp [J.path, Report.render, J.item, Dict.getItem, Dict.get?],
        by rw [h.condition, h.scoreDomain, h.nFolds]; simp [J.path, Report.render, J.item, Dict.getItem, Dict.get?]⟩
    · exact ⟨.dict a.environment, by simp [J.path, Report.render, J.item, Dict.getItem, Dict.get?],
        by rw [h.environment]; simp [J.path, Report.render, J.item, Dict.getItem, Dict.get?]⟩
    · exact ⟨.dict a.model, by simp [J.path, Report.render, J.item, Dict.getItem, Dict.get?],
        by rw [h.model]; simp [J.path, Report.render, J.item, Dict.getItem, Dict.get?]⟩
    · exact ⟨.dict a.prediction, by simp [J.path, Report.render, J.item, Dict.getItem, Dict.get?],
        by rw [h.prediction]; simp [J.path, Report.render, J.item, Dict.getItem, Dict.get?]⟩
  · intro sec hsec k hk
    simp only [List.mem_cons, List.not_mem_nil, or_false] at hsec hk
    rcases hsec with rfl | rfl <;> rcases hk with rfl | rfl | rfl | rfl <;>
      refine ⟨_, by simp [J.path, Report.render, Part.render, J.item, Dict.getItem, Dict.get?, ok_bind]; rfl, ?_⟩ <;>
      simp [J.path, Report.render, Part.render, J.item, Dict.getItem, Dict.get?, ok_bind, t1, t2, t3, t4, u1, u2, u3, u4]
  · intro sec hsec
    simp only [List.mem_cons, List.not_mem_nil, or_false] at hsec
    rcases hsec with rfl | rfl
    · exact ⟨a.training.results, b.training.results,
        by simp [J.path, Report.render, Part.render, J.item, Dict.getItem, Dict.get?, ok_bind],
        by simp [J.path, Report.render, Part.render, J.item, Dict.getItem, Dict.get?, ok_bind], h.training.keys, h.training.get⟩
    · exact ⟨a.test.results, b.test.results,
        by simp [J.path, Report.render, Part.render, J.item, Dict.getItem, Dict.get?, ok_bind],
        by simp [J.path, Report.render, Part.render, J.item, Dict.getItem, Dict.get?, ok_bind], h.test.keys, h.test.get⟩

/-- Everything but `do_task` ignores the entropy of the system. -/
lemma cvTest_entropy (env : Env K α ε F V T γ) (e : γ) (clock : Nat → T) (rec : Recommender K α φ ε V γ M)
    (load : Loader K α φ ε F) (s : Setting K F V) (target : Option Int) (sys : Sys γ) :
    cvTest { env with entropy := e } clock rec load s target sys = cvTest env clock rec load s target sys := by
  have hloop : ∀ (cfg : Split.ShuffleConfig K) (data : ScoreData K α φ ε) (ev : List (List α)) (users : List α) (n fold : Nat)
      (sys : Sys γ) (acc : Acc V), cvLoop { env with entropy := e } clock rec s.seed cfg data ev users target n fold sys acc =
        cvLoop env clock rec s.seed cfg data ev users target n fold sys acc := by
    intro cfg data ev users n
    induction n with
    | zero => intros; rfl
    | succ n ih =>
      intro fold sys acc
      unfold cvLoop
      congr 1
      funext ⟨mask, g⟩
      simp only [ih]
      rfl
  unfold cvTest
  simp only [hloop]

/-- C98: a run with a seed does not depend on the clock, on the entropy of the system or on the state numpy's
generator was in: two runs with equal settings fail with the same exception or write files that are equal up to
the times. -/
theorem C98_reproducible (env : Env K α ε F V T γ) (entropy : γ) (clock clock' : Nat → T) (rec : Recommender K α φ ε V γ M)
    (load : Loader K α φ ε F) (s : Setting K F V) (target : Option Int) (n : Int) (hseed : s.seed = some n) :
    (∀ e, doTask env clock rec load s target = .error e →
      doTask { env with entropy := entropy } clock' rec load s target = .error e) ∧
    (∀ j, doTask env clock rec load s target = .ok j →
      ∃ j', doTask { env with entropy := entropy } clock' rec load s target = .ok j' ∧ SameRun j j') := by
  have h : Alike SameRun (doTask env clock rec load s target)
      (doTask { env with entropy := entropy } clock' rec load s target) := by
    unfold doTask
    simp only [hseed]
    refine Alike.same fun glob => ?_
    split
    · rfl
    · cases s.cv
      · refine (holdoutTest_alike env clock clock' rec load s ⟨glob, 0⟩).bind ?_
        intro a b hab
        exact hab.render env
      · simp only [if_true, cvTest_entropy]
        refine (cvTest_alike env clock clock' rec load s target ⟨glob, 0⟩).bind ?_
        intro a b hab
        exact hab.render env
  constructor
  · intro e he
    rw [he] at h
    cases hx : doTask { env with entropy := entropy } clock' rec load s target with
    | error e' => rw [hx] at h; rw [show e = e' from h]
    | ok j => rw [hx] at h; exact h.elim
  · intro j hj
    rw [hj] at h
    cases hx : doTask { env with entropy := entropy } clock' rec load s target with
    | error e' => rw [hx] at h; exact h.elim
    | ok j' => rw [hx] at h; exact ⟨j', rfl, h⟩

/-! ### The number of folds -/

lemma shuffleMask_nSplits (rng : Split.Rng γ) (n n' : Int) (users : List α) (gs : List α) : ∀ (g : γ) (mask : List Bool),
    Split.shuffleMask rng (cvConfig (K := K) n) users g mask gs = Split.shuffleMask rng (cvConfig (K := K) n') users g mask gs := by
  induction gs with
  | nil => intros; rfl
  | cons x gs ih =>
    intro g mask
    have e : Split.trainTestSplit rng (cvConfig (K := K) n) g (Split.members users x) =
      Split.trainTestSplit rng (cvConfig (K := K) n') g (Split.members users x) := rfl
    unfold Split.shuffleMask
    rw [e]
    split
    · rfl
    · exact ih _ _

lemma shuffleMasks_prefix (rng : Split.Rng γ) (n n' : Int) (users : List α) (k : Nat) : ∀ (k' : Nat) (g : γ)
    (ms ms' : List (List Bool)), Split.shuffleMasks rng (cvConfig (K := K) n) users g k = .ok ms →
    Split.shuffleMasks rng (cvConfig (K := K) n') users g k' = .ok ms' →
    ∀ (i : Nat) (a b : List Bool), ms[i]? = some a → ms'[i]? = some b → a = b := by
  induction k with
  | zero =>
    intro k' g ms ms' h h' i a b ha hb
    simp only [Split.shuffleMasks, Except.ok.injEq] at h
    subst h
    simp at ha
  | succ k ih =>
    intro k' g ms ms' h h' i a b ha hb
    cases k' with
    | zero =>
      simp only [Split.shuffleMasks, Except.ok.injEq] at h'
      subst h'
      simp at hb
    | succ k' =>
      unfold Split.shuffleMasks at h h'
      rw [shuffleMask_nSplits rng n n' users] at h
      cases h1 : Split.shuffleMask rng (cvConfig (K := K) n') users g (List.replicate users.length false) (npUnique users) with
      | error e => rw [h1] at h; simp at h
      | ok p =>
        obtain ⟨m, g2⟩ := p
        rw [h1] at h h'
        simp only [] at h h'
        cases h2 : Split.shuffleMasks rng (cvConfig (K := K) n) users g2 k with
        | error e => rw [h2] at h; simp at h
        | ok l =>
          cases h3 : Split.shuffleMasks rng (cvConfig (K := K) n') users g2 k' with
          | error e => rw [h3] at h'; simp at h'
          | ok l' =>
            rw [h2] at h
            rw [h3] at h'
            simp only [Except.ok.injEq] at h h'
            subst h h'
            cases i with
            | zero => simp at ha hb; rw [← ha, ← hb]
            | succ i =>
              rw [List.getElem?_cons_succ] at ha hb
              exact ih k' g2 l l' h2 h3 i a b ha hb

/-- A fold is determined by its split and the generator. -/
lemma FoldOk.unique {rec : Recommender K α φ ε V γ M} {data : ScoreData K α φ ε} {ev : List (List α)} {g : γ}
    {r r' : FD K V T} (h : FoldOk rec data ev g r) (h' : FoldOk rec data ev g r') (e1 : r.trainI = r'.trainI)
    (e2 : r.testI = r'.testI) : r.res = r'.res ∧ r.esc = r'.esc := by
  obtain ⟨d, m, g1, a1, a2, a3⟩ := h
  obtain ⟨d', m', g2, b1, b2, b3⟩ := h'
  rw [e1, b1] at a1
  simp only [Except.ok.injEq, Option.some.injEq] at a1
  subst a1
  rw [b2] at a2
  simp only [Except.ok.injEq, Prod.mk.injEq] at a2
  obtain ⟨rfl, h2, _⟩ := a2
  rw [e2, b3] at a3
  simp only [Except.ok.injEq] at a3
  exact ⟨h2.symm, a3.symm⟩

/-- The keys of the folds of a run are different. -/
lemma wanted_nodup (env : Env K α ε F V T γ) (ev : List (List α)) (sc : List K) (ef : Option (List ε)) (target : Option Int)
    (n : Nat) (l : List (FD K V T)) (h : l.map (·.fold) = wanted target 0 n) :
    ((l.map (recOf env ev sc ef)).map (·.key)).Nodup := by
  have e : (l.map (recOf env ev sc ef)).map (·.key) = (l.map (·.fold)).map Nat.repr := by simp [recOf]
  rw [e, h]
  exact ((List.nodup_range' (step := 1)).filter _).map (fun _ _ h => Nat.repr_injective h)

/-- C98: with a seed, the number of folds has no influence on a fold: two cross validations of a file with equal
seeds and different numbers of folds (all folds, or a single one), with different clocks and environments, agree
on every fold both have. -/
theorem C98_number_of_folds {env : Env K α ε F V T γ} {clock clock' : Nat → T} {rec : Recommender K α φ ε V γ M}
    {load : Loader K α φ ε F} {s s' : Setting K F V} {target target' : Option Int} {n : Int} {j j' : J V} (hload : Loads load)
    (hcv : s.cv = true) (hcv' : s'.cv = true) (hseed : s.seed = some n) (hseed' : s'.seed = some n)
    (hfile : s'.trainFile = s.trainFile) (hdom : s'.scoreDomain = s.scoreDomain)
    (h : doTask env clock rec load s target = .ok j) (h' : doTask env clock' rec load s' target' = .ok j')
    (key : String) (hk : j.HasFold key) (hk' : j'.HasFold key) : SameFold j j' key := by
  obtain ⟨glob, data, dom, ev, sc, users, items, groups, acc, h0, h1, h2, h3, h4⟩ := doTask_cv_elim hcv hload.score h
  obtain ⟨glob', data', dom', ev', sc', users', items', groups', acc', g0, g1, g2, g3, g4⟩ := doTask_cv_elim hcv' hload.score h'
  rw [hseed] at h0 h3
  rw [hseed'] at g0 g3
  simp only [] at h0 g0
  rw [h0] at g0
  cases g0
  have e1 := g1.load
  rw [hfile, hdom, h1.load] at e1
  simp only [Except.ok.injEq, Prod.mk.injEq] at e1
  obtain ⟨rfl, rfl⟩ := e1
  have e2 := g1.events
  rw [h1.events] at e2
  cases e2
  have e3 := g1.groups
  rw [h1.groups] at e3
  cases e3
  rw [h2] at g2
  cases g2
  obtain ⟨ms, l, a0, a1, a2, a3⟩ := cvLoop_seeded h2 _ _ _ _ _ (by simp) h3
  obtain ⟨ms', l', b0, b1, b2, b3⟩ := cvLoop_seeded h2 _ _ _ _ _ (by simp) g3
  rw [List.nil_append] at a1 b1
  rw [h4, a1, render_reportOf, hasFold_tree] at hk
  rw [g4, b1, render_reportOf, hasFold_tree] at hk'
  obtain ⟨q, hq, rfl⟩ := List.mem_map.1 hk
  obtain ⟨r, hr, rfl⟩ := List.mem_map.1 hq
  obtain ⟨q', hq', hkey⟩ := List.mem_map.1 hk'
  obtain ⟨r', hr', rfl⟩ := List.mem_map.1 hq'
  have hfold : r.fold = r'.fold := (Nat.repr_injective hkey).symm
  obtain ⟨m, g, c1, c2, c3, c4, c5, c6⟩ := a3 r hr
  obtain ⟨m', g', d1, d2, d3, d4, d5, d6⟩ := b3 r' hr'
  rw [c5] at d5
  cases d5
  rw [← hfold] at d1
  obtain rfl := shuffleMasks_prefix env.gen s.nFolds s'.nFolds groups _ _ _ _ _ a0 b0 _ _ _ c1 d1
  obtain ⟨f1, f2⟩ := c6.unique d6 (by rw [c3, d3]) (by rw [c4, d4])
  rw [h4, a1, render_reportOf, g4, b1, render_reportOf]
  exact sameFold_tree (a := headOf env s dom data users items) (b := headOf env s' dom data users' items') rfl (wanted_nodup env ev sc data.eventFeature target _ l a2)
    (wanted_nodup env ev sc data.eventFeature target' _ l' b2) hq hq' hfold (by rw [c4, d4]) f1 f2

/-! ### The recorded domain -/

/-- A loader for which the domain it reports stands for the one it was asked for. -/
def Settles (load : Loader K α φ ε F) : Prop := ∀ f dom d dm, load f dom = .ok (d, dm) →
  load f dm = .ok (d, dm) ∧ ∀ f' d' dm', load f' dm = .ok (d', dm') → dm' = dm

lemma setEvent_resolved (d : ScoreData K α φ ε) (ev : Arr2 α) (sc : List K) {dom : Option (List K)} {dm : List K}
    (ef : Option (List ε)) (h : ScoreData.resolveDomain sc dom = .ok dm) :
    d.setEvent ev sc (some dm) ef = d.setEvent ev sc dom ef := by
  unfold ScoreData.setEvent
  rw [h]
  rfl

/-- Loading with the resolved domain. -/
lemma load_resolved {t : Table K α ε} {dom : Option (List K)} {d : ScoreData K α φ ε} {dm : List K}
    (h : loadEventWithScore t dom = .ok d) (hd : d.scoreDomain = some dm) :
    loadEventWithScore t (some dm) = .ok d ∧ (∃ x ∈ dm, x ≠ 0) ∧ ∀ dm', dom = some dm' → dm = dm' := by
  have h' := h
  unfold loadEventWithScore at h
  obtain ⟨d0, h0, h⟩ := bind_ok h
  have hs : d0.setEvent t.event t.score dom t.feature = .ok d := by
    unfold dropState at h
    split at h
    · cases h; assumption
    · cases h
  obtain ⟨_, _, dm1, n, a1, a2, a3, _⟩ := ScoreData.setEvent_ok hs
  rw [hd] at a3
  cases a3
  refine ⟨?_, ?_, ?_⟩
  · rw [← h']
    unfold loadEventWithScore
    rw [h0, ok_bind, ok_bind, setEvent_resolved d0 _ _ _ a1]
  · obtain ⟨lo, hi, st, rest, rfl, hst⟩ := levels_ok_length a2
    exact ⟨st, by simp, hst⟩
  · rintro dm' rfl
    simpa [ScoreData.resolveDomain] using a1.symm

lemma not_all_zero {dm : List K} (h : ∃ x ∈ dm, x ≠ 0) : ¬ (dm.all (fun x => decide (x = 0)) = true) := by
  intro hall
  obtain ⟨x, hx, hne⟩ := h
  rw [List.all_eq_true] at hall
  exact hne (by simpa using hall x hx)

lemma loadDataSP_settles (read : F → Res (Table K α ε)) : Settles (loadDataSP read : Loader K α φ ε F) := by
  have key : ∀ f dom d dm, (loadDataSP read : Loader K α φ ε F) f dom = .ok (d, dm) →
      (loadDataSP read : Loader K α φ ε F) f dm = .ok (d, dm) ∧ (∃ x ∈ dm, x ≠ 0) ∧ ((∃ x ∈ dom, x ≠ 0) → dm = dom) := by
    intro f dom d dm h
    unfold loadDataSP at h
    obtain ⟨t, h1, h⟩ := bind_ok h
    obtain ⟨d', h2, h⟩ := bind_ok h
    cases hd : d'.scoreDomain with
    | none => rw [hd] at h; cases h
    | some dm1 =>
      rw [hd] at h
      simp only [pure, Except.pure, Except.ok.injEq, Prod.mk.injEq] at h
      obtain ⟨rfl, rfl⟩ := h
      obtain ⟨a1, a2, a3⟩ := load_resolved h2 hd
      refine ⟨?_, a2, ?_⟩
      · unfold loadDataSP
        rw [h1, ok_bind, if_neg (not_all_zero a2), a1, ok_bind]
        simp only [hd, pure, Except.pure]
      · intro hx
        exact a3 dom (by rw [if_neg (not_all_zero hx)])
  intro f dom d dm h
  obtain ⟨h1, h2, _⟩ := key _ _ _ _ h
  refine ⟨h1, ?_⟩
  intro f' d' dm' h'
  exact (key _ _ _ _ h').2.2 h2

lemma loadDataIF_settles (read : F → Res (Table K α ε)) : Settles (loadDataIF read : Loader K α φ ε F) := by
  have key : ∀ f dom d dm, (loadDataIF read : Loader K α φ ε F) f dom = .ok (d, dm) →
      (loadDataIF read : Loader K α φ ε F) f dm = .ok (d, dm) ∧ (∃ x ∈ dm, x ≠ 0) ∧ ((∃ x ∈ dom, x ≠ 0) → dm = dom) := by
    intro f dom d dm h
    unfold loadDataIF at h
    obtain ⟨t, h1, h⟩ := bind_ok h
    obtain ⟨d', h2, h⟩ := bind_ok h
    cases hd : d'.scoreDomain with
    | none => rw [hd] at h; cases h
    | some dm1 =>
      rw [hd] at h
      simp only [] at h
      obtain ⟨d2, h3, h⟩ := bind_ok h
      simp only [pure, Except.pure, Except.ok.injEq, Prod.mk.injEq] at h
      obtain ⟨rfl, rfl⟩ := h
      obtain ⟨a1, a2, a3⟩ := load_resolved h2 hd
      refine ⟨?_, a2, ?_⟩
      · unfold loadDataIF
        rw [h1, ok_bind, if_neg (not_all_zero a2), a1, ok_bind]
        simp only [hd, h3, ok_bind, pure, Except.pure]
      · intro hx
        exact a3 dom (by rw [if_neg (not_all_zero hx)])
  intro f dom d dm h
  obtain ⟨h1, h2, _⟩ := key _ _ _ _ h
  refine ⟨h1, ?_⟩
  intro f' d' dm' h'
  exact (key _ _ _ _ h').2.2 h2

lemma doTask_settled {env : Env K α ε F V T γ} {clock : Nat → T} {rec : Recommender K α φ ε V γ M}
    {load : Loader K α φ ε F} (hload : Settles load) {s : Setting K F V} {target : Option Int} {j : J V}
    (h : doTask env clock rec load s target = .ok j) :
    ∃ dm, j.path ["condition", "score_domain"] = .ok (encScores env dm) ∧
      doTask env clock rec load { s with scoreDomain := dm } target = .ok j := by
  have cond : ∀ (r : Report F K V), (r.render env).path ["condition", "score_domain"] = .ok (encScores env r.scoreDomain) := by
    intro r
    simp [J.path, Report.render, J.item, Dict.getItem, Dict.get?, ok_bind, Dict.get?_set]
  unfold doTask at h
  obtain ⟨glob, h0, h⟩ := bind_ok h
  split at h
  · cases h
  · rename_i ht
    obtain ⟨r, h1, h⟩ := bind_ok (x := if s.cv then cvTest env clock rec load s target ⟨glob, 0⟩
      else holdoutTest env clock rec load s ⟨glob, 0⟩) (f := fun r => pure (r.render env)) (by cases hc : s.cv <;> simpa [hc] using h)
    simp only [pure, Except.pure, Except.ok.injEq] at h
    refine ⟨r.scoreDomain, by rw [← h]; exact cond r, ?_⟩
    have hrun : (if s.cv then cvTest env clock rec load { s with scoreDomain := r.scoreDomain } target ⟨glob, 0⟩
        else holdoutTest env clock rec load { s with scoreDomain := r.scoreDomain } ⟨glob, 0⟩) = .ok r := by
      cases hc : s.cv with
      | true =>
        rw [hc, if_pos rfl] at h1
        rw [if_pos rfl]
        unfold cvTest at h1
        obtain ⟨⟨data, dom⟩, e1, h1⟩ := bind_ok h1
        have hdom : r.scoreDomain = dom := by
          simp only [] at h1
          obtain ⟨_, _, h1⟩ := bind_ok h1
          obtain ⟨_, _, h1⟩ := bind_ok h1
          obtain ⟨_, _, h1⟩ := bind_ok h1
          obtain ⟨_, _, h1⟩ := bind_ok h1
          obtain ⟨_, _, h1⟩ := bind_ok h1
          obtain ⟨_, _, h1⟩ := bind_ok h1
          simp only [pure, Except.pure, Except.ok.injEq] at h1
          rw [← h1]
        rw [hdom]
        unfold cvTest
        rw [(hload _ _ _ _ e1).1, ok_bind]
        exact h1
      | false =>
        rw [hc, if_neg (by simp)] at h1
        rw [if_neg (by simp)]
        unfold holdoutTest at h1
        obtain ⟨⟨train, dom⟩, e1, h1⟩ := bind_ok h1
        simp only [] at h1
        obtain ⟨⟨test, dom'⟩, e2, h1⟩ := bind_ok h1
        have hdom : r.scoreDomain = dom' := by
          simp only [] at h1
          obtain ⟨_, _, h1⟩ := bind_ok h1
          obtain ⟨_, _, h1⟩ := bind_ok h1
          obtain ⟨_, _, h1⟩ := bind_ok h1
          obtain ⟨_, _, h1⟩ := bind_ok h1
          obtain ⟨_, _, h1⟩ := bind_ok h1
          obtain ⟨_, _, h1⟩ := bind_ok h1
          obtain ⟨_, _, h1⟩ := bind_ok h1
          obtain ⟨_, _, h1⟩ := bind_ok h1
          obtain ⟨_, _, h1⟩ := bind_ok h1
          simp only [pure, Except.pure, Except.ok.injEq] at h1
          rw [← h1]
        have hd2 : dom' = dom := by
          split at e2
          · cases e2
          · exact (hload _ _ _ _ e1).2 _ _ _ e2
        rw [hdom, hd2]
        unfold holdoutTest
        rw [(hload _ _ _ _ e1).1, ok_bind]
        simp only []
        rw [e2, ok_bind]
        exact h1
    unfold doTask
    simp only [h0, ok_bind]
    rw [if_neg ht]
    rw [← h]
    cases hc : s.cv <;> simp only [hc, if_true, if_false, Bool.false_eq_true] at hrun ⊢ <;> rw [hrun, ok_bind] <;> rfl

/-- C98: the score domain in a result file of either script, given on the command line, makes the run write the
same file again: a domain estimated from the data is recorded faithfully. -/
theorem C98_recorded_domain {env : Env K α ε F V T γ} {clock : Nat → T} {rec : Recommender K α φ ε V γ M}
    {read : F → Res (Table K α ε)} {s : Setting K F V} {target : Option Int} {j : J V} :
    (doTask env clock rec (loadDataSP read) s target = .ok j →
      ∃ dm, j.path ["condition", "score_domain"] = .ok (encScores env dm) ∧
        doTask env clock rec (loadDataSP read) { s with scoreDomain := dm } target = .ok j) ∧
    (doTask env clock rec (loadDataIF read) s target = .ok j →
      ∃ dm, j.path ["condition", "score_domain"] = .ok (encScores env dm) ∧
        doTask env clock rec (loadDataIF read) { s with scoreDomain := dm } target = .ok j) :=
  ⟨doTask_settled (loadDataSP_settles read), doTask_settled (loadDataIF_settles read)⟩

/-! ### Examples -/

namespace Ex

/-- C98 is not vacuous: a seeded run repeated at another time, with different entropy. -/
example : ∃ j j', doTask env _root_.id mean (loadDataSP read) (setting true) none = .ok j ∧
    doTask { env with entropy := 99 } (fun t => 10 * t + 3) mean (loadDataSP read) (setting true) none = .ok j' ∧ SameRun j j' := by
  obtain ⟨j, h⟩ := run_cv
  obtain ⟨j', h1, h2⟩ := (C98_reproducible env 99 _root_.id (fun t => 10 * t + 3) mean (loadDataSP read) (setting true) none 5 rfl).2 j h
  exact ⟨j, j', h, h1, h2⟩

/-- Three folds and five folds agree on the fold 2. -/
example : ∃ j j', doTask env _root_.id mean (loadDataSP read) (setting true) none = .ok j ∧
    doTask env _root_.id mean (loadDataSP read) { setting true with nFolds := 5 } (some 2) = .ok j' ∧ SameFold j j' "2" := by
  obtain ⟨j, h⟩ := run_cv
  obtain ⟨j', h'⟩ : ∃ j', doTask env _root_.id mean (loadDataSP read) { setting true with nFolds := 5 } (some 2) = .ok j' :=
    isOk_exists (by decide +kernel)
  refine ⟨j, j', h, h', C98_number_of_folds (s := setting true) (s' := { setting true with nFolds := 5 }) (loadDataSP_loads read_ok) rfl rfl rfl rfl rfl rfl h h' "2" ?_ ?_⟩
  · exact (C61_folds (loadDataSP_loads read_ok) rfl h "2").2 ⟨2, by decide, by simp, rfl⟩
  · exact (C61_folds (loadDataSP_loads read_ok) rfl h' "2").2 ⟨2, by decide, by simp, rfl⟩

/-- The estimated domain of the first file. -/
example : ∃ j, doTask env _root_.id mean (loadDataSP read) (setting false) none = .ok j ∧
    ∃ dm, doTask env _root_.id mean (loadDataSP read) { setting false with scoreDomain := dm } none = .ok j := by
  obtain ⟨j, h⟩ := run_holdout
  obtain ⟨dm, _, h2⟩ := C98_recorded_domain.1 h
  exact ⟨j, h, dm, h2⟩

end Ex

end Kam.Scripts
