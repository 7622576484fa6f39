/-
C100, C101: the options reach the recommender that is trained and are recorded as used; options that do not matter.
-/
import Verif.Exp.Props

set_option linter.unusedSectionVars false

namespace Kam.Exp
open Scripts

variable {F α φ ε V T γ : Type} [LinearOrder α]

/-! ### Specification -/

/-- A matrix factorization recommender with the regularization `C`, `k` factors, the optimizer `CG` with the tolerance
`tol`, silent, and with the limit `maxiter` iff it is given. -/
structure SetMF (lib : Lib α φ ε V γ) (o : Namespace F) (cf : MF.Config γ) : Prop where
  C : cf.C = o.C
  k : (cf.k : Int) = max o.k 0
  method : cf.method = lib.str (.str "CG")
  tol : Dict.get? cf.kwargs "tol" = some (lib.str (.real o.tol))
  disp : Dict.get? cf.kwargs "options.disp" = some (lib.str (.bool false))
  maxiter : Dict.get? cf.kwargs "options.maxiter" = o.maxiter.map (fun n => lib.str (.int n))
  others : ∀ p ∈ cf.kwargs, p.1 = "tol" ∨ p.1 = "options.disp" ∨ p.1 = "options.maxiter"
  opt : cf.opt = lib.opt
  rng : cf.rng = lib.normal

/-- A topic model with `k` topics and the smoothing `alpha`, the limit `maxiter` (100 by default; at least zero passes)
and the tolerance `tol`. -/
structure SetPLSA (lib : Lib α φ ε V γ) (o : Namespace F) (e : Bool) (cf : PLSA.Config γ) : Prop where
  alpha : cf.alpha = o.alpha
  k : (cf.k : Int) = max o.k 0
  expectation : cf.useExpectation = e
  maxiter : (cf.maxiter : Int) = max (o.maxiter.getD 100) 0
  tol : cf.tol = o.tol
  rng : cf.rng = lib.dirichlet

/-- What the run of a script is told about files, scores, validation and seed. -/
structure SetRun (o : Namespace F) (infile : F) (s : Setting ℝ F V) : Prop where
  trainFile : s.trainFile = infile
  testFile : s.testFile = o.testfile
  scoreDomain : s.scoreDomain = o.domain
  nFolds : s.nFolds = o.fold
  cv : s.cv = true ↔ o.validation = "cv"
  seed : s.seed = o.rseed

/-! ### Constructors -/

/-- The options of the matrix factorization methods. -/
def optionsMF (o : Namespace F) : Dict String OptVal :=
  (addMaxiter o [("C", .real o.C), ("k", .int o.k), ("tol", .real o.tol)]).set "random_state" (seedVal o.rseed)

/-- The options of the topic models. -/
def optionsPLSA (o : Namespace F) (e : Bool) : Dict String OptVal :=
  (addMaxiter o [("alpha", .real o.alpha), ("k", .int o.k), ("tol", .real o.tol), ("use_expectation", .bool e)]).set
    "random_state" (seedVal o.rseed)

lemma newMF_options (lib : Lib α φ ε V γ) (o : Namespace F) :
    ∃ cf, newMF lib (optionsMF o) = .ok (o.k, cf) ∧ SetMF lib o cf := by
  refine ⟨⟨o.C, o.k.toNat, lib.str (.str "CG"), [("tol", lib.str (.real o.tol)), ("options.disp", lib.str (.bool false))] ++
    (o.maxiter.map (fun n => ("options.maxiter", lib.str (.int n)))).toList, lib.opt, lib.normal⟩, ?_, ?_⟩
  · cases h : o.maxiter <;> cases h' : o.rseed <;>
      simp [newMF, seedVal, optionsMF, addMaxiter, h, h', Dict.set, Dict.getD, Dict.get?, OptVal.float, OptVal.int', bind, Except.bind,
        pure, Except.pure, restOf, OptVal.kw, Opt.construct, Opt.storeOptions, Opt.cell, Opt.setKey, Opt.popKey, Opt.erase,
        Opt.fitSettings, flatten, kwStr, consts]
  · refine ⟨rfl, by simp, rfl, rfl, rfl, ?_, ?_, rfl, rfl⟩
    · cases o.maxiter <;> rfl
    · intro p hp
      cases h : o.maxiter <;> simp [h] at hp
      · rcases hp with rfl | rfl <;> simp
      · rcases hp with rfl | rfl | rfl <;> simp

lemma newPLSA_options (lib : Lib α φ ε V γ) (o : Namespace F) (e : Bool) :
    ∃ cf, newPLSA lib (optionsPLSA o e) = .ok (o.k, cf) ∧ SetPLSA lib o e cf := by
  refine ⟨⟨o.k.toNat, o.alpha, e, (o.maxiter.getD 100).toNat, o.tol, lib.dirichlet⟩, ?_, ?_⟩
  · cases h : o.maxiter <;> cases h' : o.rseed <;>
      simp [newPLSA, seedVal, optionsPLSA, addMaxiter, h, h', Dict.set, Dict.getD, Dict.get?, Dict.getItem, OptVal.float, OptVal.int',
        bind, Except.bind, pure, Except.pure, restOf, OptVal.kw, Opt.constructPLSA, Opt.cell, Opt.setKey,
        Opt.fitPLSA, consts]
  · exact ⟨rfl, by simp, rfl, by simp, rfl, rfl⟩

lemma seedOf_MF (o : Namespace F) : seedOf (optionsMF o) = .ok o.rseed := by
  cases h : o.maxiter <;> cases h' : o.rseed <;> simp [seedOf, seedVal, optionsMF, addMaxiter, h, h', Dict.set, Dict.getD, Dict.get?]

lemma seedOf_PLSA (o : Namespace F) (e : Bool) : seedOf (optionsPLSA o e) = .ok o.rseed := by
  cases h : o.maxiter <;> cases h' : o.rseed <;> simp [seedOf, seedVal, optionsPLSA, addMaxiter, h, h', Dict.set, Dict.getD, Dict.get?]

/-- The `info` of a run of the method with the given class and options. -/
def infoOf (o : Namespace F) (cls : Class) (method : String) (options : Dict String OptVal) : Info F :=
  ⟨o.infile.getD o.infilep, o.outfile.getD o.outfilep, o.testfile, cls, method, options, o.domain, o.timestamp, o.validation,
    o.fold⟩

lemma setRun (o : Namespace F) (cls : Class) (method : String) (options : Dict String OptVal) (leaf : OptVal → V) (file : F → V)
    (environment : Dict String (J V)) :
    SetRun o (o.infile.getD o.infilep) ((infoOf o cls method options).setting leaf file environment o.rseed) :=
  ⟨rfl, rfl, rfl, rfl, decide_eq_true_iff, rfl⟩

section
variable (env : Env ℝ α ε F V T γ) (lib : Lib α φ ε V γ) (clock : Nat → T) (environment : Dict String (J V))
    (read : Bool → F → Res (Table ℝ α ε))

lemma task_pmf_eq (o : Namespace F) (hm : o.method = "pmf") :
    ∃ cf, newMF lib (optionsMF o) = .ok (o.k, cf) ∧ SetMF lib o cf ∧
      task env lib clock environment read .sp o =
        doTask env clock (guardK o.k (predictor (MF.pmf cf) MF.initialResults lib.mf lib.after)) (loadDataSP (read o.timestamp))
          ((infoOf o .pmf "probabilistic matrix factorization" (optionsMF o)).setting lib.leaf (fun f => env.file (some f))
            environment o.rseed) o.foldNo := by
  obtain ⟨cf, h1, h2⟩ := newMF_options lib o
  refine ⟨cf, h1, h2, ?_⟩
  have e : initInfo .sp o = .ok (infoOf o .pmf "probabilistic matrix factorization" (optionsMF o)) := by
    simp [initInfo, initModel, hm, bind, Except.bind, pure, Except.pure, infoOf, optionsMF]
  unfold task
  rw [e, ok_bind]
  simp only [infoOf, seedOf_MF, ok_bind, h1]

lemma task_plsa_eq (o : Namespace F) (e : Bool) (hm : o.method = if e then "plsam" else "plsamm") :
    ∃ cf, newPLSA lib (optionsPLSA o e) = .ok (o.k, cf) ∧ SetPLSA lib o e cf ∧
      task env lib clock environment read .sp o =
        doTask env clock (guardK o.k (predictor (PLSA.plsa cf) PLSA.initialResults lib.plsa lib.after))
          (loadDataSP (read o.timestamp))
          ((infoOf o .plsa (if e then "multionomial pLSA - expectation" else "multionomial pLSA - mode")
            (optionsPLSA o e)).setting lib.leaf (fun f => env.file (some f)) environment o.rseed) o.foldNo := by
  obtain ⟨cf, h1, h2⟩ := newPLSA_options lib o e
  refine ⟨cf, h1, h2, ?_⟩
  have e' : initInfo .sp o = .ok (infoOf o .plsa (if e then "multionomial pLSA - expectation" else "multionomial pLSA - mode")
      (optionsPLSA o e)) := by
    cases e <;> simp at hm <;> simp [initInfo, initModel, hm, bind, Except.bind, pure, Except.pure, infoOf, optionsPLSA]
  unfold task
  rw [e', ok_bind]
  simp only [infoOf, seedOf_PLSA, ok_bind, h1]

lemma task_lpmf_eq (o : Namespace F) (hm : o.method = "lpmf") :
    ∃ cf, newMF lib (optionsMF o) = .ok (o.k, cf) ∧ SetMF lib o cf ∧
      task env lib clock environment read .itemFinder o =
        doTask env clock (guardK o.k (finder (MF.logistic cf) MF.initialResults lib.mf lib.after)) (loadDataIF (read o.timestamp))
          ((infoOf o .logistic "logistic probabilistic matrix factorization" (optionsMF o)).setting lib.leaf
            (fun f => env.file (some f)) environment o.rseed) o.foldNo := by
  obtain ⟨cf, h1, h2⟩ := newMF_options lib o
  refine ⟨cf, h1, h2, ?_⟩
  have e : initInfo .itemFinder o = .ok (infoOf o .logistic "logistic probabilistic matrix factorization" (optionsMF o)) := by
    simp [initInfo, initModel, hm, bind, Except.bind, pure, Except.pure, infoOf, optionsMF]
  unfold task
  rw [e, ok_bind]
  simp only [infoOf, seedOf_MF, ok_bind, h1]

end

/-! ### C100 -/

lemma holdoutTest_condition {M : Type} {env : Env ℝ α ε F V T γ} {clock : Nat → T} {rec : Recommender ℝ α φ ε V γ M}
    {load : Loader ℝ α φ ε F} {s : Setting ℝ F V} {sys : Sys γ} {r : Report F ℝ V}
    (hr : holdoutTest env clock rec load s sys = .ok r) : r.condition = s.condition := by
  unfold holdoutTest at hr
  iterate 11
    obtain ⟨_, _, hr⟩ := bind_ok hr
  simp only [pure, Except.pure, Except.ok.injEq] at hr
  subst hr
  rfl

/-- The sections of a result file that only hold the settings. -/
lemma doTask_sections {M : Type} {env : Env ℝ α ε F V T γ} {clock : Nat → T} {rec : Recommender ℝ α φ ε V γ M}
    {load : Loader ℝ α φ ε F} {s : Setting ℝ F V} {target : Option Int} {j : J V}
    (h : doTask env clock rec load s target = .ok j) :
    j.path ["model"] = .ok (.dict s.model) ∧
    ∃ dom : List ℝ, j.path ["condition"] = .ok (.dict ((s.condition.set "score_domain" (encScores env dom)).set "n_folds"
      (.leaf (env.int (if s.cv then s.nFolds else 1))))) := by
  unfold doTask at h
  obtain ⟨g, _, h⟩ := bind_ok h
  split at h
  · cases h
  obtain ⟨r, hr, rfl⟩ : ∃ r, (if s.cv then cvTest env clock rec load s target ⟨g, 0⟩
      else holdoutTest env clock rec load s ⟨g, 0⟩) = .ok r ∧ r.render env = j := by
    cases hcv : s.cv <;> simp only [hcv, Bool.false_eq_true, if_true, if_false] at h ⊢ <;>
    · obtain ⟨r, hr, h⟩ := bind_ok h
      exact ⟨r, hr, by simpa [pure, Except.pure] using h⟩
  have key : r.model = s.model ∧ r.condition = s.condition ∧ r.nFolds = if s.cv then s.nFolds else 1 := by
    cases hcv : s.cv with
    | true =>
      simp only [hcv, if_true] at hr
      unfold cvTest at hr
      obtain ⟨_, _, hr⟩ := bind_ok hr
      obtain ⟨_, _, hr⟩ := bind_ok hr
      obtain ⟨_, _, hr⟩ := bind_ok hr
      obtain ⟨_, _, hr⟩ := bind_ok hr
      obtain ⟨_, _, hr⟩ := bind_ok hr
      obtain ⟨_, _, hr⟩ := bind_ok hr
      obtain ⟨_, _, hr⟩ := bind_ok hr
      simp only [pure, Except.pure, Except.ok.injEq] at hr
      subst hr
      exact ⟨rfl, rfl, rfl⟩
    | false =>
      simp only [hcv, Bool.false_eq_true, if_false] at hr
      unfold holdoutTest at hr
      obtain ⟨_, _, hr⟩ := bind_ok hr
      obtain ⟨_, _, hr⟩ := bind_ok hr
      obtain ⟨_, _, hr⟩ := bind_ok hr
      obtain ⟨_, _, hr⟩ := bind_ok hr
      obtain ⟨_, _, hr⟩ := bind_ok hr
      obtain ⟨_, _, hr⟩ := bind_ok hr
      obtain ⟨_, _, hr⟩ := bind_ok hr
      obtain ⟨_, _, hr⟩ := bind_ok hr
      obtain ⟨_, _, hr⟩ := bind_ok hr
      obtain ⟨_, _, hr⟩ := bind_ok hr
      obtain ⟨_, _, hr⟩ := bind_ok hr
      simp only [pure, Except.pure, Except.ok.injEq] at hr
      subst hr
      exact ⟨rfl, rfl, rfl⟩
  obtain ⟨k1, k2, k3⟩ := key
  refine ⟨?_, r.scoreDomain, ?_⟩
  · rw [← k1]; rfl
  · rw [← k2, ← k3]; rfl

section
variable (env : Env ℝ α ε F V T γ) (lib : Lib α φ ε V γ) (clock : Nat → T) (environment : Dict String (J V))
    (read : Bool → F → Res (Table ℝ α ε))

/-- C100 for the method `pmf`: the script runs the experiment of Verif/Scripts with a PMF recommender that has exactly the
settings of the command line. -/
theorem C100_pmf (o : Namespace F) (hm : o.method = "pmf") (f : F) (hf : o.infile = some f) :
    ∃ (cf : MF.Config γ) (s : Setting ℝ F V), SetMF lib o cf ∧ SetRun o f s ∧
      task env lib clock environment read .sp o =
        doTask env clock (guardK o.k (predictor (MF.pmf cf) MF.initialResults lib.mf lib.after))
          (loadDataSP (read o.timestamp)) s o.foldNo := by
  obtain ⟨cf, _, h2, h3⟩ := task_pmf_eq env lib clock environment read o hm
  have h4 := setRun o .pmf "probabilistic matrix factorization" (optionsMF o) lib.leaf (fun f => env.file (some f)) environment
  rw [hf] at h4
  exact ⟨cf, _, h2, h4, h3⟩

/-- C100 for the methods `plsam` (expected score) and `plsamm` (most probable score). -/
theorem C100_plsa (o : Namespace F) (hm : o.method = "plsam" ∨ o.method = "plsamm") (f : F) (hf : o.infile = some f) :
    ∃ (cf : PLSA.Config γ) (s : Setting ℝ F V), SetPLSA lib o (decide (o.method = "plsam")) cf ∧ SetRun o f s ∧
      task env lib clock environment read .sp o =
        doTask env clock (guardK o.k (predictor (PLSA.plsa cf) PLSA.initialResults lib.plsa lib.after))
          (loadDataSP (read o.timestamp)) s o.foldNo := by
  have hm' : o.method = if decide (o.method = "plsam") then "plsam" else "plsamm" := by
    rcases hm with h | h <;> rw [h] <;> rfl
  obtain ⟨cf, _, h2, h3⟩ := task_plsa_eq env lib clock environment read o _ hm'
  have h4 := setRun o .plsa (if decide (o.method = "plsam") then "multionomial pLSA - expectation" else "multionomial pLSA - mode")
    (optionsPLSA o (decide (o.method = "plsam"))) lib.leaf (fun f => env.file (some f)) environment
  rw [hf] at h4
  exact ⟨cf, _, h2, h4, h3⟩

/-- C100 for the method `lpmf` of the item finder script. -/
theorem C100_lpmf (o : Namespace F) (hm : o.method = "lpmf") (f : F) (hf : o.infile = some f) :
    ∃ (cf : MF.Config γ) (s : Setting ℝ F V), SetMF lib o cf ∧ SetRun o f s ∧
      task env lib clock environment read .itemFinder o =
        doTask env clock (guardK o.k (finder (MF.logistic cf) MF.initialResults lib.mf lib.after))
          (loadDataIF (read o.timestamp)) s o.foldNo := by
  obtain ⟨cf, _, h2, h3⟩ := task_lpmf_eq env lib clock environment read o hm
  have h4 := setRun o .logistic "logistic probabilistic matrix factorization" (optionsMF o) lib.leaf (fun f => env.file (some f))
    environment
  rw [hf] at h4
  exact ⟨cf, _, h2, h4, h3⟩

/-- What a result file says about the settings of the run: the options handed to the recommender and no others, its class,
and the conditions; a hold-out test has one fold. -/
structure Recorded (o : Namespace F) (options : Dict String OptVal) (cls : Class) (j : J V) : Prop where
  options : ∀ k v, j.path ["model", "options", k] = .ok v ↔ ∃ x, options.get? k = some x ∧ v = .leaf (lib.leaf x)
  name : j.path ["model", "name"] = .ok (.leaf (lib.leaf (.str cls.name)))
  scheme : j.path ["condition", "scheme"] = .ok (.leaf (lib.leaf (.str o.validation)))
  timestamp : j.path ["condition", "has_timestamp"] = .ok (.leaf (lib.leaf (.bool o.timestamp)))
  folds : j.path ["condition", "n_folds"] = .ok (.leaf (env.int (if o.validation = "cv" then o.fold else 1)))

lemma get?_leaves (options : Dict String OptVal) (k : String) :
    Dict.get? (options.map (fun p => (p.1, J.leaf (lib.leaf p.2)))) k = (options.get? k).map (fun x => J.leaf (lib.leaf x)) := by
  induction options with
  | nil => rfl
  | cons p l ih =>
    simp only [List.map_cons, Dict.get?]
    split
    · rfl
    · exact ih

lemma recorded {M : Type} {rec : Recommender ℝ α φ ε V γ M} {load : Loader ℝ α φ ε F} {o : Namespace F} {cls : Class}
    {method : String} {options : Dict String OptVal} {target : Option Int} {j : J V}
    (h : doTask env clock rec load ((infoOf o cls method options).setting lib.leaf (fun f => env.file (some f))
      environment o.rseed) target = .ok j) : Recorded env lib o options cls j := by
  obtain ⟨h1, dom, h2⟩ := doTask_sections h
  have p1 : ∀ ks, j.path ("model" :: ks) = (j.path ["model"] >>= fun x => x.path ks) := by
    intro ks; simp [J.path]
  have p2 : ∀ ks, j.path ("condition" :: ks) = (j.path ["condition"] >>= fun x => x.path ks) := by
    intro ks; simp [J.path]
  constructor
  · intro k v
    rw [p1, h1, ok_bind]
    have : (J.dict ((infoOf o cls method options).setting lib.leaf (fun f => env.file (some f)) environment o.rseed).model).path
        ["options", k] = Dict.getItem (options.map (fun p => (p.1, J.leaf (lib.leaf p.2)))) k := by
      simp only [J.path, List.foldlM_cons, List.foldlM_nil]
      rw [show (J.dict ((infoOf o cls method options).setting lib.leaf (fun f => env.file (some f)) environment o.rseed).model).item
        "options" = .ok (J.dict (options.map (fun p => (p.1, J.leaf (lib.leaf p.2))))) from rfl, ok_bind]
      simp only [J.item]
      cases Dict.getItem (options.map (fun p => (p.1, J.leaf (lib.leaf p.2)))) k <;> rfl
    rw [this]
    unfold Dict.getItem
    rw [get?_leaves]
    cases options.get? k with
    | none => simp
    | some x => simp [eq_comm]
  · rw [p1, h1, ok_bind]; rfl
  · rw [p2, h2, ok_bind]; rfl
  · rw [p2, h2, ok_bind]; rfl
  · rw [p2, h2, ok_bind]
    have : ((infoOf o cls method options).setting lib.leaf (fun f => env.file (some f)) environment o.rseed).cv =
        decide (o.validation = "cv") := rfl
    rw [this]
    by_cases hv : o.validation = "cv"
    · simp only [hv, decide_true, if_true]; rfl
    · simp only [hv, decide_false, Bool.false_eq_true, if_false]; rfl

/-- The options of the matrix factorization methods: those of the command line. -/
def MFOptions (o : Namespace F) (options : Dict String OptVal) : Prop := ∀ k, options.get? k =
  if k = "C" then some (.real o.C) else if k = "k" then some (.int o.k) else if k = "tol" then some (.real o.tol)
  else if k = "maxiter" then o.maxiter.map .int
  else if k = "random_state" then some (match o.rseed with | some n => .int n | none => .none) else none

/-- The options of the topic models: those of the command line. -/
def PLSAOptions (o : Namespace F) (e : Bool) (options : Dict String OptVal) : Prop := ∀ k, options.get? k =
  if k = "alpha" then some (.real o.alpha) else if k = "k" then some (.int o.k) else if k = "tol" then some (.real o.tol)
  else if k = "use_expectation" then some (.bool e) else if k = "maxiter" then o.maxiter.map .int
  else if k = "random_state" then some (match o.rseed with | some n => .int n | none => .none) else none

lemma options_MF (o : Namespace F) : MFOptions o (optionsMF o) := by
  intro k
  by_cases h0 : k = "C"
  · subst h0
    cases h : o.maxiter <;> cases h' : o.rseed <;>
      simp [optionsMF, addMaxiter, h, h', seedVal, Dict.set, Dict.get?]
  by_cases h1 : k = "k"
  · subst h1
    cases h : o.maxiter <;> cases h' : o.rseed <;>
      simp [optionsMF, addMaxiter, h, h', seedVal, Dict.set, Dict.get?]
  by_cases h2 : k = "tol"
  · subst h2
    cases h : o.maxiter <;> cases h' : o.rseed <;>
      simp [optionsMF, addMaxiter, h, h', seedVal, Dict.set, Dict.get?]
  by_cases h3 : k = "maxiter"
  · subst h3
    cases h : o.maxiter <;> cases h' : o.rseed <;>
      simp [optionsMF, addMaxiter, h, h', seedVal, Dict.set, Dict.get?]
  by_cases h4 : k = "random_state"
  · subst h4
    cases h : o.maxiter <;> cases h' : o.rseed <;>
      simp [optionsMF, addMaxiter, h, h', seedVal, Dict.set, Dict.get?]
  cases h : o.maxiter <;> cases h' : o.rseed <;>
    simp [optionsMF, addMaxiter, h, h', seedVal, Dict.set, Dict.get?, h0, Ne.symm h0, h1, Ne.symm h1, h2, Ne.symm h2, h3, Ne.symm h3, h4, Ne.symm h4]

lemma options_PLSA (o : Namespace F) (e : Bool) : PLSAOptions o e (optionsPLSA o e) := by
  intro k
  by_cases h0 : k = "alpha"
  · subst h0
    cases h : o.maxiter <;> cases h' : o.rseed <;>
      simp [optionsPLSA, addMaxiter, h, h', seedVal, Dict.set, Dict.get?]
  by_cases h1 : k = "k"
  · subst h1
    cases h : o.maxiter <;> cases h' : o.rseed <;>
      simp [optionsPLSA, addMaxiter, h, h', seedVal, Dict.set, Dict.get?]
  by_cases h2 : k = "tol"
  · subst h2
    cases h : o.maxiter <;> cases h' : o.rseed <;>
      simp [optionsPLSA, addMaxiter, h, h', seedVal, Dict.set, Dict.get?]
  by_cases h3 : k = "use_expectation"
  · subst h3
    cases h : o.maxiter <;> cases h' : o.rseed <;>
      simp [optionsPLSA, addMaxiter, h, h', seedVal, Dict.set, Dict.get?]
  by_cases h4 : k = "maxiter"
  · subst h4
    cases h : o.maxiter <;> cases h' : o.rseed <;>
      simp [optionsPLSA, addMaxiter, h, h', seedVal, Dict.set, Dict.get?]
  by_cases h5 : k = "random_state"
  · subst h5
    cases h : o.maxiter <;> cases h' : o.rseed <;>
      simp [optionsPLSA, addMaxiter, h, h', seedVal, Dict.set, Dict.get?]
  cases h : o.maxiter <;> cases h' : o.rseed <;>
    simp [optionsPLSA, addMaxiter, h, h', seedVal, Dict.set, Dict.get?, h0, Ne.symm h0, h1, Ne.symm h1, h2, Ne.symm h2, h3, Ne.symm h3, h4, Ne.symm h4, h5, Ne.symm h5]

/-- C100: the result file records the options that were used. -/
theorem C100_recorded {sc : Script} {o : Namespace F} {j : J V} (h : task env lib clock environment read sc o = .ok j) :
    ∃ options cls, Recorded env lib o options cls j ∧
      ((sc = .sp ∧ o.method = "pmf" ∧ cls = .pmf ∧ MFOptions o options) ∨
       (sc = .sp ∧ o.method = "plsam" ∧ cls = .plsa ∧ PLSAOptions o true options) ∨
       (sc = .sp ∧ o.method = "plsamm" ∧ cls = .plsa ∧ PLSAOptions o false options) ∨
       (sc = .itemFinder ∧ o.method = "lpmf" ∧ cls = .logistic ∧ MFOptions o options)) := by
  have e1 := options_MF o
  have e2 := options_PLSA o
  cases sc with
  | sp =>
    by_cases m1 : o.method = "pmf"
    · obtain ⟨cf, _, _, h3⟩ := task_pmf_eq env lib clock environment read o m1
      rw [h3] at h
      exact ⟨_, _, recorded env lib clock environment h, .inl ⟨rfl, m1, rfl, e1⟩⟩
    by_cases m2 : o.method = "plsam"
    · obtain ⟨cf, _, _, h3⟩ := task_plsa_eq env lib clock environment read o true m2
      rw [h3] at h
      exact ⟨_, _, recorded env lib clock environment h, .inr (.inl ⟨rfl, m2, rfl, e2 true⟩)⟩
    by_cases m3 : o.method = "plsamm"
    · obtain ⟨cf, _, _, h3⟩ := task_plsa_eq env lib clock environment read o false m3
      rw [h3] at h
      exact ⟨_, _, recorded env lib clock environment h, .inr (.inr (.inl ⟨rfl, m3, rfl, e2 false⟩))⟩
    · simp [task, initInfo, initModel, m1, m2, m3, bind, Except.bind] at h
  | itemFinder =>
    by_cases m1 : o.method = "lpmf"
    · obtain ⟨cf, _, _, h3⟩ := task_lpmf_eq env lib clock environment read o m1
      rw [h3] at h
      exact ⟨_, _, recorded env lib clock environment h, .inr (.inr (.inr ⟨rfl, m1, rfl, e1⟩))⟩
    · simp [task, initInfo, initModel, m1, bind, Except.bind] at h

/-- What a result file says about the recommender: its class, where that is defined, its kind, and the method. -/
def Labels (j : J V) (name module task method : String) : Prop :=
  j.path ["model", "name"] = .ok (.leaf (lib.leaf (.str name))) ∧ j.path ["model", "module"] = .ok (.leaf (lib.leaf (.str module))) ∧
  j.path ["model", "task_type"] = .ok (.leaf (lib.leaf (.str task))) ∧ j.path ["model", "method"] = .ok (.leaf (lib.leaf (.str method))) ∧
  j.path ["model", "recommender"] = .ok (.leaf (lib.leaf (.str ("<class '" ++ module ++ "." ++ name ++ "'>")))) ∧
  j.path ["model", "explicit_ratings"] = .ok (.leaf (lib.leaf (.bool true)))

lemma labels {M : Type} {rec : Recommender ℝ α φ ε V γ M} {load : Loader ℝ α φ ε F} {o : Namespace F} {cls : Class}
    {method : String} {options : Dict String OptVal} {target : Option Int} {j : J V}
    (h : doTask env clock rec load ((infoOf o cls method options).setting lib.leaf (fun f => env.file (some f))
      environment o.rseed) target = .ok j) : Labels lib j cls.name cls.module cls.task method := by
  obtain ⟨h1, dom, h2⟩ := doTask_sections h
  have p1 : ∀ ks, j.path ("model" :: ks) = (j.path ["model"] >>= fun x => x.path ks) := by
    intro ks; simp [J.path]
  refine ⟨?_, ?_, ?_, ?_, ?_, ?_⟩ <;> · rw [p1, h1, ok_bind]; rfl

/-- C100: the result file names the recommender that was trained. -/
theorem C100_labels {sc : Script} {o : Namespace F} {j : J V} (h : task env lib clock environment read sc o = .ok j) :
    (o.method = "pmf" → Labels lib j "PMF" "kamrecsys.score_predictor.matrix_factorization" "score_predictor"
      "probabilistic matrix factorization") ∧
    (o.method = "plsam" → Labels lib j "MultinomialPLSA" "kamrecsys.score_predictor.topic_model" "score_predictor"
      "multionomial pLSA - expectation") ∧
    (o.method = "plsamm" → Labels lib j "MultinomialPLSA" "kamrecsys.score_predictor.topic_model" "score_predictor"
      "multionomial pLSA - mode") ∧
    (o.method = "lpmf" → Labels lib j "LogisticPMF" "kamrecsys.item_finder.matrix_factorization" "item_finder"
      "logistic probabilistic matrix factorization") := by
  cases sc with
  | sp =>
    refine ⟨fun m1 => ?_, fun m2 => ?_, fun m3 => ?_, fun m4 => ?_⟩
    · obtain ⟨cf, _, _, h3⟩ := task_pmf_eq env lib clock environment read o m1
      rw [h3] at h
      exact labels env lib clock environment h
    · obtain ⟨cf, _, _, h3⟩ := task_plsa_eq env lib clock environment read o true m2
      rw [h3] at h
      exact labels env lib clock environment h
    · obtain ⟨cf, _, _, h3⟩ := task_plsa_eq env lib clock environment read o false m3
      rw [h3] at h
      exact labels env lib clock environment h
    · simp [task, initInfo, initModel, m4, bind, Except.bind] at h
  | itemFinder =>
    refine ⟨fun m1 => ?_, fun m2 => ?_, fun m3 => ?_, fun m4 => ?_⟩
    · simp [task, initInfo, initModel, m1, bind, Except.bind] at h
    · simp [task, initInfo, initModel, m2, bind, Except.bind] at h
    · simp [task, initInfo, initModel, m3, bind, Except.bind] at h
    · obtain ⟨cf, _, _, h3⟩ := task_lpmf_eq env lib clock environment read o m4
      rw [h3] at h
      exact labels env lib clock environment h

/-- C100: every accepted command line is one of the cases above. -/
theorem C100_methods {sc : Script} {stdin stdout : F} {args : List (Arg F)} {pos : List F} {o : Namespace F}
    (h : commandLine sc stdin stdout args pos = some o) :
    (∃ f, o.infile = some f) ∧ (o.validation = "holdout" ∨ o.validation = "cv") ∧
    ((sc = .sp ∧ (o.method = "pmf" ∨ o.method = "plsam" ∨ o.method = "plsamm")) ∨ (sc = .itemFinder ∧ o.method = "lpmf")) := by
  have hr := C99_options h
  have ha := (C99_accepted sc stdin stdout args pos).1 ⟨o, h⟩
  have last : ∀ {β : Type} (pick : Arg F → Option β) (d : β) (P : β → Prop), P d → (∀ a ∈ args, ∀ x, pick a = some x → P x) →
      P (lastOr pick args d) := by
    intro β pick d P h0 h1
    unfold lastOr
    cases hl : (args.filterMap pick).getLast? with
    | none => exact h0
    | some x =>
      obtain ⟨a, ha, hx⟩ := List.mem_filterMap.1 (List.mem_of_getLast? hl)
      exact h1 a ha x hx
  refine ⟨⟨_, hr.infile⟩, ?_, ?_⟩
  · rw [hr.validation]
    refine last _ _ (fun v => v = "holdout" ∨ v = "cv") (.inl rfl) ?_
    intro a haa x hx
    cases a <;> simp at hx
    subst hx
    exact ha.validation _ haa
  · rw [hr.method]
    cases sc with
    | sp =>
      refine .inl ⟨rfl, last _ _ (fun m => m = "pmf" ∨ m = "plsam" ∨ m = "plsamm") (.inl rfl) ?_⟩
      intro a haa x hx
      cases a <;> simp at hx
      subst hx
      rcases ha.method _ haa with ⟨_, h⟩ | ⟨h, _⟩
      · exact h
      · cases h
    | itemFinder =>
      refine .inr ⟨rfl, last _ _ (fun m => m = "lpmf") rfl ?_⟩
      intro a haa x hx
      cases a <;> simp at hx
      subst hx
      rcases ha.method _ haa with ⟨h, _⟩ | ⟨_, h⟩
      · cases h
      · exact h

/-- C101: the options of the other methods have no effect on the outcome: `--alpha` for the matrix factorization methods
and `-C` for the topic models. -/
theorem C101_other_methods (sc : Script) (o : Namespace F) (x : ℝ) :
    ((o.method = "pmf" ∨ o.method = "lpmf") →
      task env lib clock environment read sc { o with alpha := x } = task env lib clock environment read sc o) ∧
    ((o.method = "plsam" ∨ o.method = "plsamm") →
      task env lib clock environment read sc { o with C := x } = task env lib clock environment read sc o) := by
  constructor
  · intro hm
    have : initInfo sc { o with alpha := x } = initInfo sc o := by
      cases sc <;> rcases hm with hm | hm <;> simp [initInfo, initModel, hm, addMaxiter]
    unfold task
    rw [this]
  · intro hm
    have : initInfo sc { o with C := x } = initInfo sc o := by
      cases sc <;> rcases hm with hm | hm <;> simp [initInfo, initModel, hm, addMaxiter]
    unfold task
    rw [this]

/-- C101: verbosity has no effect on the outcome. -/
theorem C101_verbosity (sc : Script) (o : Namespace F) (b : Bool) :
    task env lib clock environment read sc { o with verbose := b } = task env lib clock environment read sc o := rfl

/-- C101: a cross validation does not depend on the test file. -/
theorem C101_test_file (sc : Script) (o : Namespace F) (t : Option F) (hv : o.validation = "cv") :
    task env lib clock environment read sc { o with testfile := t } = task env lib clock environment read sc o := by
  have gen : ∀ {M : Type} (rec : Recommender ℝ α φ ε V γ M) (load : Loader ℝ α φ ε F) (s : Setting ℝ F V) (target : Option Int),
      s.cv = true → doTask env clock rec load { s with testFile := t } target = doTask env clock rec load s target := by
    intro M rec load s target hcv
    unfold doTask
    simp only [hcv, if_true]
    rfl
  have h1 : initInfo sc { o with testfile := t } = (initInfo sc o).map (fun i => { i with testFile := t }) := by
    unfold initInfo
    have : initModel sc { o with testfile := t } = initModel sc o := by cases sc <;> rfl
    rw [this]
    cases initModel sc o <;> rfl
  unfold task
  rw [h1]
  cases h2 : initInfo sc o with
  | error e => rfl
  | ok i =>
    have hs : i.scheme = "cv" := by
      unfold initInfo at h2
      obtain ⟨x, _, h2⟩ := bind_ok h2
      simp only [pure, Except.pure, Except.ok.injEq] at h2
      rw [← h2]
      exact hv
    have hcv : ∀ seed, (i.setting lib.leaf (fun f => env.file (some f)) environment seed).cv = true := by
      intro seed
      simp only [Info.setting, hs, decide_true]
    simp only [Except.map, ok_bind]
    cases h3 : seedOf i.options with
    | error e => rfl
    | ok seed =>
      simp only [ok_bind]
      have e : ({ i with testFile := t } : Info F).setting lib.leaf (fun f => env.file (some f)) environment seed =
        { i.setting lib.leaf (fun f => env.file (some f)) environment seed with testFile := t } := rfl
      simp only [e, gen _ _ _ _ (hcv seed)]

/-- C101: a hold-out test does not depend on the number of folds, unless a fold is asked for. -/
theorem C101_folds_holdout (sc : Script) (o : Namespace F) (n : Int) (hv : o.validation = "holdout") (hf : o.foldNo = none) :
    task env lib clock environment read sc { o with fold := n } = task env lib clock environment read sc o := by
  have gen : ∀ {M : Type} (rec : Recommender ℝ α φ ε V γ M) (load : Loader ℝ α φ ε F) (s : Setting ℝ F V) (c : Dict String (J V)),
      s.cv = false → (∀ x y, (c.set "score_domain" x).set "n_folds" y = (s.condition.set "score_domain" x).set "n_folds" y) →
      doTask env clock rec load { s with nFolds := n, condition := c } none = doTask env clock rec load s none := by
    intro M rec load s c hcv hc
    unfold doTask
    simp only [hcv, Option.any_none, Bool.false_eq_true, if_false]
    refine bind_congr fun g => ?_
    have e : holdoutTest env clock rec load { s with nFolds := n, condition := c } ⟨g, 0⟩ =
        (fun r => { r with condition := c }) <$> holdoutTest env clock rec load s ⟨g, 0⟩ := by
      unfold holdoutTest
      simp only [map_bind, map_pure]
    rw [hcv] at e
    rw [e]
    cases hr : holdoutTest env clock rec load s ⟨g, 0⟩ with
    | error e => rfl
    | ok r =>
      have : r.condition = s.condition := holdoutTest_condition hr
      show Except.ok _ = Except.ok _
      simp only [Report.render, this, hc]
  have h1 : initInfo sc { o with fold := n } = (initInfo sc o).map (fun i => { i with nFolds := n }) := by
    unfold initInfo
    have : initModel sc { o with fold := n } = initModel sc o := by cases sc <;> rfl
    rw [this]
    cases initModel sc o <;> rfl
  unfold task
  rw [h1]
  cases h2 : initInfo sc o with
  | error e => rfl
  | ok i =>
    have hs : i.scheme = "holdout" := by
      unfold initInfo at h2
      obtain ⟨x, _, h2⟩ := bind_ok h2
      simp only [pure, Except.pure, Except.ok.injEq] at h2
      rw [← h2]
      exact hv
    have hcv : ∀ seed, (i.setting lib.leaf (fun f => env.file (some f)) environment seed).cv = false := by
      intro seed
      simp [Info.setting, hs]
    simp only [Except.map, ok_bind, hf]
    refine bind_congr fun seed => ?_
    · obtain ⟨c, hc1, hc2⟩ : ∃ c, ({ i with nFolds := n } : Info F).setting lib.leaf (fun f => env.file (some f)) environment seed =
          { i.setting lib.leaf (fun f => env.file (some f)) environment seed with nFolds := n, condition := c } ∧
          ∀ x y, (c.set "score_domain" x).set "n_folds" y =
            ((i.setting lib.leaf (fun f => env.file (some f)) environment seed).condition.set "score_domain" x).set "n_folds" y := by
        refine ⟨_, rfl, ?_⟩
        intro x y
        simp [Info.setting, Dict.set]
      have hcv' := hcv seed
      generalize i.setting lib.leaf (fun f => env.file (some f)) environment seed = S at *
      rw [hc1]
      cases i.cls <;> simp only [gen _ _ S c hcv' hc2]

end

end Kam.Exp
