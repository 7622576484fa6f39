/-
C120: what a result file tells about the machine of its run, and when a run ends for want of it.
C121: the version recorded beside the name of the script.
-/
import Verif.Exp.Machine
import Verif.Exp.Written
import Verif.Exp.WrittenExamples
import Verif.Convert.Lemmas

set_option linter.unusedSectionVars false

namespace Kam.Exp
open Scripts Kam.Convert

variable {α φ ε F V T γ : Type} [LinearOrder α]

/-! ### Specification -/

/-- The command that tells about the hardware under an operating system. -/
inductive Lists : String → List String → Prop
  | darwin : Lists "Darwin" ["/usr/sbin/system_profiler", "-detailLevel", "mini", "SPHardwareDataType"]
  | freeBSD : Lists "FreeBSD" ["/sbin/sysctl", "hw"]
  | linux : Lists "Linux" ["/bin/cat", "/proc/cpuinfo"]

/-- Machines whose environment can be looked up. -/
structure Describable (m : Machine) : Prop where
  devNull : m.devNull = true
  output : ∀ c, Lists m.system c → ∃ s, m.output c = some (some s)

/-- The lines of a text: together with the newlines between them they are the text. -/
structure LinesOf (l : List Str) (s : Str) : Prop where
  joined : (l.intersperse ['\n']).flatten = s
  single : ∀ x ∈ l, '\n' ∉ x
  nonempty : l ≠ []

/-- A line without the spaces in front of it. -/
def Trimmed (x y : Str) : Prop := ∃ n, x = List.replicate n ' ' ++ y ∧ y.head? ≠ some ' '

/-- The description of the hardware: all lines of the output, under Darwin those that remain without the first four and
the last two, without indentation; nothing under other systems. -/
inductive Hardware (m : Machine) : List Str → Prop
  | darwin {s : Str} {a b mid l : List Str} (hs : m.system = "Darwin")
      (ho : m.output ["/usr/sbin/system_profiler", "-detailLevel", "mini", "SPHardwareDataType"] = some (some s))
      (hl : LinesOf (a ++ mid ++ b) s) (ha : a.length = 4) (hb : b.length = 2) (h : List.Forall₂ Trimmed mid l) : Hardware m l
  | short {s : Str} {l : List Str} (hs : m.system = "Darwin")
      (ho : m.output ["/usr/sbin/system_profiler", "-detailLevel", "mini", "SPHardwareDataType"] = some (some s))
      (hl : LinesOf l s) (hn : l.length < 6) : Hardware m []
  | all {c : List String} {s : Str} {l : List Str} (hs : m.system = "FreeBSD" ∨ m.system = "Linux") (hc : Lists m.system c)
      (ho : m.output c = some (some s)) (hl : LinesOf l s) : Hardware m l
  | other (hs : ∀ c, ¬ Lists m.system c) : Hardware m []

/-- The last component of a path. -/
structure NameOf (name path : Str) : Prop where
  suffix : ∃ dir, path = dir ++ name ∧ (dir = [] ∨ dir.getLast? = some '/')
  single : '/' ∉ name

/-- What a result file tells about the machine. -/
structure Tells (str : String → V) (m : Machine) (j : J V) : Prop where
  name : ∃ name, j.path ["environment", "script", "name"] = .ok (.leaf (str (String.ofList name))) ∧ NameOf name m.argv0
  system : j.path ["environment", "system", "system"] = .ok (.leaf (str m.system))
  release : j.path ["environment", "system", "release"] = .ok (.leaf (str m.release))
  version : j.path ["environment", "system", "version"] = .ok (.leaf (str m.version))
  machine : j.path ["environment", "system", "machine"] = .ok (.leaf (str m.machine))
  processor : j.path ["environment", "system", "processor"] = .ok (.leaf (str m.processor))
  hardware : ∃ l, j.path ["environment", "system", "hardware"] = .ok (.list (l.map (fun x => .leaf (str (String.ofList x))))) ∧
    Hardware m l
  node : j.path ["environment", "system", "node"] = .error .keyError
  sklearn : j.path ["environment", "version", "sklearn"] = .ok (.leaf (str m.sklearn))
  numpy : j.path ["environment", "version", "numpy"] = .ok (.leaf (str m.numpy))
  scipy : j.path ["environment", "version", "scipy"] = .ok (.leaf (str m.scipy))
  compiler : j.path ["environment", "version", "python_compiler"] = .ok (.leaf (str m.compiler))
  implementation : j.path ["environment", "version", "python_implementation"] = .ok (.leaf (str m.implementation))
  python : j.path ["environment", "version", "python"] = .ok (.leaf (str m.python))
  kamrecsys : j.path ["environment", "version", "kamrecsys"] = .ok (.leaf (str m.kamrecsys))

/-! ### Lemmas -/

lemma split_single (c : Char) (s : Str) : ∀ x ∈ split c s, c ∉ x := by
  induction s with
  | nil => simp [split]
  | cons y s ih =>
    rw [split]
    split
    · intro x hx
      rcases List.mem_cons.1 hx with rfl | hx
      · simp
      · exact ih x hx
    · rename_i hy
      cases hs : split c s with
      | nil => exact absurd hs (split_ne_nil c s)
      | cons p ps =>
        rw [hs] at ih
        intro x hx
        rcases List.mem_cons.1 hx with rfl | hx
        · simp only [List.mem_cons, not_or]
          exact ⟨Ne.symm hy, ih p (by simp)⟩
        · exact ih x (List.mem_cons_of_mem _ hx)

lemma join_intersperse (c : Char) (l : List Str) : join c l = (l.intersperse [c]).flatten := by
  induction l with
  | nil => rfl
  | cons x l ih =>
    cases l with
    | nil => simp [join]
    | cons y l => rw [join, ih]; · simp
                  · simp

lemma linesOf_split (s : Str) : LinesOf (split '\n' s) s :=
  ⟨by rw [← join_intersperse, join_split], split_single _ _, split_ne_nil _ _⟩

lemma trimmed (x : Str) : Trimmed x (x.dropWhile (fun c => decide (c = ' '))) := by
  induction x with
  | nil => exact ⟨0, by simp, by simp⟩
  | cons c x ih =>
    by_cases hc : c = ' '
    · obtain ⟨n, h1, h2⟩ := ih
      subst hc
      refine ⟨n + 1, ?_, by simpa using h2⟩
      simp only [decide_true, List.dropWhile_cons_of_pos, List.replicate_succ, List.cons_append]
      rw [← h1]
    · exact ⟨0, by simp [hc], by simp [hc]⟩

lemma lists_iff {sys : String} {c : List String} : Lists sys c ↔
    (sys = "Darwin" ∧ c = ["/usr/sbin/system_profiler", "-detailLevel", "mini", "SPHardwareDataType"]) ∨
    (sys = "FreeBSD" ∧ c = ["/sbin/sysctl", "hw"]) ∨ (sys = "Linux" ∧ c = ["/bin/cat", "/proc/cpuinfo"]) := by
  constructor
  · rintro (_ | _ | _) <;> simp
  · rintro (⟨rfl, rfl⟩ | ⟨rfl, rfl⟩ | ⟨rfl, rfl⟩)
    · exact .darwin
    · exact .freeBSD
    · exact .linux

lemma run_ok {m : Machine} {c : List String} {s : Str} : m.run c = .ok s ↔ m.output c = some (some s) := by
  unfold Machine.run
  split <;> simp_all

lemma hardware_ok {m : Machine} {l : List Str} (h : m.hardware = .ok l) : Describable m ∧ Hardware m l := by
  unfold Machine.hardware at h
  split at h
  · cases h
  rename_i hd
  have hd : m.devNull = true := by simpa using hd
  split at h
  · rename_i hs
    obtain ⟨s, h1, h⟩ := bind_ok h
    rw [run_ok] at h1
    refine ⟨⟨hd, fun c hc => ?_⟩, ?_⟩
    · rw [hs, lists_iff] at hc
      rcases hc with ⟨_, rfl⟩ | ⟨hc, _⟩ | ⟨hc, _⟩
      · exact ⟨s, h1⟩
      · exact absurd hc (by decide)
      · exact absurd hc (by decide)
    · simp only [pure, Except.pure, Except.ok.injEq] at h
      subst h
      by_cases hn : (split '\n' s).length < 6
      · have : ((split '\n' s).take ((split '\n' s).length - 2)).drop 4 = [] := by
          apply List.drop_eq_nil_of_le
          rw [List.length_take]; omega
        rw [this]
        exact .short hs h1 (linesOf_split s) hn
      · have hlen : 6 ≤ (split '\n' s).length := by omega
        generalize hl : split '\n' s = l at hlen ⊢
        have e : l.take 4 ++ (l.take (l.length - 2)).drop 4 ++ l.drop (l.length - 2) = l := by
          have : l.take 4 = (l.take (l.length - 2)).take 4 := by rw [List.take_take]; congr 1; omega
          rw [this, List.take_append_drop, List.take_append_drop]
        refine .darwin (a := l.take 4) (b := l.drop (l.length - 2)) (mid := (l.take (l.length - 2)).drop 4) hs h1
          (by rw [e, ← hl]; exact linesOf_split s) (by rw [List.length_take]; omega) (by rw [List.length_drop]; omega) ?_
        generalize (l.take (l.length - 2)).drop 4 = mid
        induction mid with
        | nil => exact .nil
        | cons x mid ih => exact .cons (trimmed x) ih
  split at h
  · rename_i hs
    obtain ⟨s, h1, h⟩ := bind_ok h
    rw [run_ok] at h1
    simp only [pure, Except.pure, Except.ok.injEq] at h
    subst h
    refine ⟨⟨hd, fun c hc => ?_⟩, .all (.inl hs) (by rw [hs]; exact .freeBSD) h1 (linesOf_split s)⟩
    rw [hs, lists_iff] at hc
    rcases hc with ⟨hc, _⟩ | ⟨_, rfl⟩ | ⟨hc, _⟩
    · exact absurd hc (by decide)
    · exact ⟨s, h1⟩
    · exact absurd hc (by decide)
  split at h
  · rename_i hs
    obtain ⟨s, h1, h⟩ := bind_ok h
    rw [run_ok] at h1
    simp only [pure, Except.pure, Except.ok.injEq] at h
    subst h
    refine ⟨⟨hd, fun c hc => ?_⟩, .all (.inr hs) (by rw [hs]; exact .linux) h1 (linesOf_split s)⟩
    rw [hs, lists_iff] at hc
    rcases hc with ⟨hc, _⟩ | ⟨hc, _⟩ | ⟨_, rfl⟩
    · exact absurd hc (by decide)
    · exact absurd hc (by decide)
    · exact ⟨s, h1⟩
  · rename_i h1 h2 h3
    cases h
    have : ∀ c, ¬ Lists m.system c := by
      intro c hc
      rw [lists_iff] at hc
      rcases hc with ⟨hc, _⟩ | ⟨hc, _⟩ | ⟨hc, _⟩ <;> contradiction
    exact ⟨⟨hd, fun c hc => absurd hc (this c)⟩, .other this⟩

lemma hardware_of {m : Machine} (h : Describable m) : ∃ l, m.hardware = .ok l := by
  unfold Machine.hardware
  rw [if_neg (by simp [h.devNull])]
  split
  · rename_i hs
    obtain ⟨s, h1⟩ := h.output _ (by rw [hs]; exact .darwin)
    rw [← run_ok] at h1
    rw [h1]; exact ⟨_, rfl⟩
  split
  · rename_i hs
    obtain ⟨s, h1⟩ := h.output _ (by rw [hs]; exact .freeBSD)
    rw [← run_ok] at h1
    rw [h1]; exact ⟨_, rfl⟩
  split
  · rename_i hs
    obtain ⟨s, h1⟩ := h.output _ (by rw [hs]; exact .linux)
    rw [← run_ok] at h1
    rw [h1]; exact ⟨_, rfl⟩
  · exact ⟨_, rfl⟩

lemma systemInfo_ok {m : Machine} {str : String → V} {d : Dict String (J V)} (h : m.systemInfo str false = .ok d) :
    ∃ l, m.hardware = .ok l ∧ d = [("system", .leaf (str m.system)), ("release", .leaf (str m.release)),
      ("version", .leaf (str m.version)), ("machine", .leaf (str m.machine)), ("processor", .leaf (str m.processor)),
      ("hardware", .list (l.map (fun l => .leaf (str (String.ofList l)))))] := by
  unfold Machine.systemInfo at h
  obtain ⟨l, h1, h⟩ := bind_ok h
  refine ⟨l, h1, ?_⟩
  simp only [pure, Except.pure, Except.ok.injEq, Bool.false_eq_true, if_false] at h
  rw [← h]; simp [Dict.set]

lemma basename_name (s : Str) : NameOf (basename s) s := by
  have hne := split_ne_nil '/' s
  have e : basename s = (split '/' s).getLast hne := by
    unfold basename; rw [List.getLast?_eq_getLast_of_ne_nil hne]; rfl
  refine ⟨?_, by rw [e]; exact split_single _ _ _ (List.getLast_mem hne)⟩
  have hj := join_split '/' s
  rw [e]
  rw [join_intersperse] at hj
  clear e
  generalize split '/' s = l at hne hj ⊢
  subst hj
  induction l with
  | nil => exact absurd rfl hne
  | cons x l ih =>
    cases l with
    | nil => exact ⟨[], by simp, .inl rfl⟩
    | cons y l =>
      obtain ⟨dir, h1, h2⟩ := ih (by simp)
      refine ⟨x ++ '/' :: dir, ?_, .inr ?_⟩
      · rw [List.getLast_cons (a := x) (List.cons_ne_nil y l), List.intersperse_cons_cons, List.flatten_cons, List.flatten_cons,
          h1, List.append_assoc]
        rfl
      · rcases h2 with rfl | h2
        · simp
        · rw [List.getLast?_append, List.getLast?_cons, h2]; rfl

lemma environment_ok {m : Machine} {str : String → V} {e : Dict String (J V)} (h : m.environment str = .ok e) :
    ∃ sys, m.systemInfo str false = .ok sys ∧
      e = [("script", .dict [("name", .leaf (str (String.ofList (basename m.argv0)))), ("version", .leaf (str "2.0.0"))]),
        ("system", .dict sys), ("version", .dict [("sklearn", .leaf (str m.sklearn)), ("numpy", .leaf (str m.numpy)),
          ("scipy", .leaf (str m.scipy)), ("python_compiler", .leaf (str m.compiler)),
          ("python_implementation", .leaf (str m.implementation)), ("python", .leaf (str m.python)),
          ("kamrecsys", .leaf (str m.kamrecsys))])] := by
  unfold Machine.environment at h
  obtain ⟨sys, h1, h⟩ := bind_ok h
  refine ⟨sys, h1, ?_⟩
  simp only [pure, Except.pure, Except.ok.injEq] at h
  rw [← h]; simp [Dict.set, Machine.versionInfo, utilVersion]

/-- C120: the environment can be looked up exactly on the machines that allow it. -/
theorem C120_iff_describable (m : Machine) (str : String → V) : (∃ e, m.environment str = .ok e) ↔ Describable m := by
  constructor
  · rintro ⟨e, h⟩
    obtain ⟨sys, h1, _⟩ := environment_ok h
    obtain ⟨l, h2, _⟩ := systemInfo_ok h1
    exact (hardware_ok h2).1
  · intro h
    obtain ⟨l, hl⟩ := hardware_of h
    unfold Machine.environment Machine.systemInfo
    rw [hl]; exact ⟨_, rfl⟩

lemma doTask_environment {M : Type} {env : Env ℝ α ε F V T γ} {clock : Nat → T} {rec : Recommender ℝ α φ ε V γ M}
    {load : Loader ℝ α φ ε F} {s : Setting ℝ F V} {target : Option Int} {j : J V}
    (h : doTask env clock rec load s target = .ok j) : j.path ["environment"] = .ok (.dict s.environment) := by
  unfold doTask at h
  obtain ⟨g, _, h⟩ := bind_ok h
  split at h
  · cases h
  obtain ⟨r, hr, rfl⟩ : ∃ r, (if s.cv then cvTest env clock rec load s target ⟨g, 0⟩
      else holdoutTest env clock rec load s ⟨g, 0⟩) = .ok r ∧ r.render env = j := by
    cases hcv : s.cv <;> simp only [hcv, Bool.false_eq_true, if_true, if_false] at h ⊢ <;>
    · obtain ⟨r, hr, h⟩ := bind_ok h
      exact ⟨r, hr, by simpa [pure, Except.pure] using h⟩
  have key : r.environment = s.environment := by
    cases hcv : s.cv with
    | true =>
      simp only [hcv, if_true] at hr
      unfold cvTest at hr
      iterate 7
        obtain ⟨_, _, hr⟩ := bind_ok hr
      simp only [pure, Except.pure, Except.ok.injEq] at hr
      subst hr
      rfl
    | false =>
      simp only [hcv, Bool.false_eq_true, if_false] at hr
      unfold holdoutTest at hr
      iterate 11
        obtain ⟨_, _, hr⟩ := bind_ok hr
      simp only [pure, Except.pure, Except.ok.injEq] at hr
      subst hr
      rfl
  rw [← key]; rfl

lemma task_environment {env : Env ℝ α ε F V T γ} {lib : Lib α φ ε V γ} {clock : Nat → T} {e : Dict String (J V)}
    {read : Bool → F → Res (Table ℝ α ε)} {sc : Script} {o : Namespace F} {j : J V}
    (h : task env lib clock e read sc o = .ok j) : j.path ["environment"] = .ok (.dict e) := by
  unfold task at h
  obtain ⟨info, _, h⟩ := bind_ok h
  obtain ⟨seed, _, h⟩ := bind_ok h
  dsimp only at h
  split at h <;>
  · obtain ⟨⟨k, cf⟩, _, h⟩ := bind_ok h
    exact doTask_environment h

lemma doTask_before {M : Type} {env : Env ℝ α ε F V T γ} {clock : Nat → T} {rec : Recommender ℝ α φ ε V γ M}
    {load : Loader ℝ α φ ε F} {s : Setting ℝ F V} {target : Option Int} {x : Exc}
    (h : (do let _ ← (match s.seed with
                | some n => env.ofSeed n
                | none => .ok env.entropy)
             if target.any (fun t => t < 0 ∨ s.nFolds ≤ t) then .error .typeError else .ok () : Res Unit) = .error x) :
    doTask env clock rec load s target = .error x := by
  unfold doTask
  have main : ∀ (b : Bool) (r : Res (J V)), (if b = true then (.error .typeError : Res Unit) else .ok ()) = .error x →
      (if b = true then (.error .typeError : Res (J V)) else r) = .error x := by
    intro b r h
    cases b
    · cases h
    · rw [if_pos rfl] at h ⊢
      cases h; rfl
  cases hs : s.seed with
  | none =>
    simp only [hs, ok_bind] at h ⊢
    exact main _ _ h
  | some n =>
    simp only [hs] at h ⊢
    cases hn : env.ofSeed n with
    | error y => rw [hn] at h; cases h; rfl
    | ok g =>
      rw [hn, ok_bind] at h
      rw [ok_bind]
      exact main _ _ h

/-- What goes wrong before the environment is looked up goes wrong in the same way with any environment. -/
lemma task_before {env : Env ℝ α ε F V T γ} {lib : Lib α φ ε V γ} {clock : Nat → T} {e : Dict String (J V)}
    {read : Bool → F → Res (Table ℝ α ε)} {sc : Script} {o : Namespace F} {x : Exc}
    (h : before env sc o = .error x) : task env lib clock e read sc o = .error x := by
  unfold before at h
  cases sc with
  | sp =>
    by_cases m1 : o.method = "pmf"
    · obtain ⟨cf, _, _, h3⟩ := task_pmf_eq env lib clock e read o m1
      rw [h3]
      have e' : initInfo .sp o = .ok (infoOf o .pmf "probabilistic matrix factorization" (optionsMF o)) := by
        simp [initInfo, initModel, m1, bind, Except.bind, pure, Except.pure, infoOf, optionsMF]
      rw [e', ok_bind] at h
      simp only [infoOf, seedOf_MF, ok_bind] at h
      exact doTask_before h
    by_cases m2 : ∃ b : Bool, o.method = if b then "plsam" else "plsamm"
    · obtain ⟨b, m2⟩ := m2
      obtain ⟨cf, _, _, h3⟩ := task_plsa_eq env lib clock e read o b m2
      rw [h3]
      have e' : initInfo .sp o = .ok (infoOf o .plsa (if b then "multionomial pLSA - expectation" else "multionomial pLSA - mode")
          (optionsPLSA o b)) := by
        cases b <;> simp at m2 <;> simp [initInfo, initModel, m2, bind, Except.bind, pure, Except.pure, infoOf, optionsPLSA]
      rw [e', ok_bind] at h
      simp only [infoOf, seedOf_PLSA, ok_bind] at h
      exact doTask_before h
    · have m3 : o.method ≠ "plsam" := fun hm => m2 ⟨true, hm⟩
      have m4 : o.method ≠ "plsamm" := fun hm => m2 ⟨false, hm⟩
      simp [initInfo, initModel, m1, m3, m4, bind, Except.bind] at h
      simp [task, initInfo, initModel, m1, m3, m4, bind, Except.bind, h]
  | itemFinder =>
    by_cases m1 : o.method = "lpmf"
    · obtain ⟨cf, _, _, h3⟩ := task_lpmf_eq env lib clock e read o m1
      rw [h3]
      have e' : initInfo .itemFinder o = .ok (infoOf o .logistic "logistic probabilistic matrix factorization" (optionsMF o)) := by
        simp [initInfo, initModel, m1, bind, Except.bind, pure, Except.pure, infoOf, optionsMF]
      rw [e', ok_bind] at h
      simp only [infoOf, seedOf_MF, ok_bind] at h
      exact doTask_before h
    · simp [initInfo, initModel, m1, bind, Except.bind] at h
      simp [task, initInfo, initModel, m1, bind, Except.bind, h]

lemma path_of {j k : J V} {s : String} (h : j.path [s] = .ok k) (ks : List String) : j.path (s :: ks) = k.path ks := by
  have h1 : j.item s = .ok k := by
    unfold J.path at h
    rw [List.foldlM_cons] at h
    obtain ⟨k', hk, h⟩ := bind_ok h
    cases h
    exact hk
  unfold J.path
  rw [List.foldlM_cons, h1, ok_bind]

section
variable {env : Env ℝ α ε F V T γ} {lib : Lib α φ ε V γ} {clock : Nat → T} {m : Machine}
  {read : Bool → F → Res (Table ℝ α ε)} {sc : Script} {stdin stdout : F} {args : List (Arg F)} {pos : List F} {j : J V}

lemma taskOn_eq {o : Namespace F} {e : Dict String (J V)} (he : m.environment (fun s => lib.leaf (.str s)) = .ok e) :
    taskOn env lib clock m read sc o = task env lib clock e read sc o := by
  unfold taskOn
  cases hb : before env sc o with
  | error x => rw [task_before hb]; rfl
  | ok _ => rw [ok_bind, he, ok_bind]

/-- **C120**: on a machine that cannot be described every run ends with an exception, whatever the command line and the
data. -/
theorem C120_not_describable (h : ¬ Describable m) {r : Res (J V)}
    (hr : mainOn env lib clock m read sc stdin stdout args pos = some r) : ∃ x, r = .error x := by
  unfold mainOn at hr
  obtain ⟨o, _, rfl⟩ := Option.map_eq_some_iff.1 hr
  unfold taskOn
  cases before env sc o with
  | error x => exact ⟨x, rfl⟩
  | ok _ =>
    rw [ok_bind]
    cases he : m.environment (fun s => lib.leaf (.str s)) with
    | error x => exact ⟨x, rfl⟩
    | ok e => exact absurd ((C120_iff_describable m _).1 ⟨e, he⟩) h

/-- **C120**: on any other machine a run does what it does with a fixed section about the environment; the machine has no
other influence, neither on whether the run ends with an exception nor on the rest of the result. -/
theorem C120_describable (h : Describable m) (lib : Lib α φ ε V γ) : ∃ e : Dict String (J V),
    ∀ (env : Env ℝ α ε F V T γ) clock read sc stdin stdout args pos,
      mainOn env lib clock m read sc stdin stdout args pos = main env lib clock e read sc stdin stdout args pos := by
  obtain ⟨e, he⟩ := (C120_iff_describable m (fun s => lib.leaf (.str s))).2 h
  refine ⟨e, fun env clock read sc stdin stdout args pos => ?_⟩
  unfold mainOn main
  congr 1
  funext o
  exact taskOn_eq he

lemma mainOn_ok (h : mainOn env lib clock m read sc stdin stdout args pos = some (.ok j)) :
    ∃ e o, m.environment (fun s => lib.leaf (.str s)) = .ok e ∧ task env lib clock e read sc o = .ok j ∧
      main env lib clock e read sc stdin stdout args pos = some (.ok j) := by
  unfold mainOn at h
  obtain ⟨o, ho, h⟩ := Option.map_eq_some_iff.1 h
  have h' := h
  unfold taskOn at h'
  obtain ⟨_, _, h'⟩ := bind_ok h'
  obtain ⟨e, he, h'⟩ := bind_ok h'
  exact ⟨e, o, he, h', by unfold main; rw [ho, Option.map_some, h']⟩

/-- **C120**: what the result file of a run tells about the machine. -/
theorem C120_recorded (h : mainOn env lib clock m read sc stdin stdout args pos = some (.ok j)) :
    Tells (fun s => lib.leaf (.str s)) m j := by
  obtain ⟨e, o, he, h, _⟩ := mainOn_ok h
  obtain ⟨sys, h1, rfl⟩ := environment_ok he
  obtain ⟨l, h2, rfl⟩ := systemInfo_ok h1
  have hp : ∀ ks, j.path ("environment" :: ks) = _ := fun ks => path_of (task_environment h) ks
  refine ⟨⟨basename m.argv0, by rw [hp]; rfl, basename_name _⟩, by rw [hp]; rfl, by rw [hp]; rfl, by rw [hp]; rfl,
    by rw [hp]; rfl, by rw [hp]; rfl, ⟨l, by rw [hp]; rfl, (hardware_ok h2).2⟩, by rw [hp]; rfl, by rw [hp]; rfl,
    by rw [hp]; rfl, by rw [hp]; rfl, by rw [hp]; rfl, by rw [hp]; rfl, by rw [hp]; rfl, by rw [hp]; rfl⟩

/-- **C120**: the name of the host has no influence on a result. -/
theorem C120_host (node : String) : mainOn env lib clock { m with node := node } read sc stdin stdout args pos =
    mainOn env lib clock m read sc stdin stdout args pos := rfl

/-- **C120**: the function that describes a system records the name of the host when asked to, and nothing else changes. -/
theorem C120_host_asked (str : String → V) {d d' : Dict String (J V)} (h : m.systemInfo str false = .ok d)
    (h' : m.systemInfo str true = .ok d') : d'.get? "node" = some (.leaf (str m.node)) ∧ d.get? "node" = none ∧
      ∀ k, k ≠ "node" → d'.get? k = d.get? k := by
  obtain ⟨l, hl, rfl⟩ := systemInfo_ok h
  unfold Machine.systemInfo at h'
  rw [hl, ok_bind] at h'
  simp only [pure, Except.pure, Except.ok.injEq, if_true] at h'
  subst h'
  refine ⟨by simp [Dict.set, Dict.get?], by simp [Dict.get?], fun k hk => ?_⟩
  simp [Dict.set, Dict.get?, Ne.symm hk]

/-- **C120**: every description of a usable machine can be made with and without the name of the host. -/
theorem C120_system_info (str : String → V) (node : Bool) : (∃ d, m.systemInfo str node = .ok d) ↔ Describable m := by
  constructor
  · rintro ⟨d, h⟩
    unfold Machine.systemInfo at h
    obtain ⟨l, hl, _⟩ := bind_ok h
    exact (hardware_ok hl).1
  · intro h
    obtain ⟨l, hl⟩ := hardware_of h
    unfold Machine.systemInfo
    rw [hl]; exact ⟨_, rfl⟩

/-- C121: the version of the script that `--version` prints is the one in the result file. -/
def C121_full : Prop := ∀ (env : Env ℝ Nat Nat String (Util.Val ℝ Unit) Nat Nat) (lib : Lib Nat Unit Nat (Util.Val ℝ Unit) Nat)
  (clock : Nat → Nat) (m : Machine) (read : Bool → String → Res (Table ℝ Nat Nat)) (sc : Script) (stdin stdout : String)
  (args : List (Arg String)) (pos : List String) (j : J (Util.Val ℝ Unit)),
  mainOn env lib clock m read sc stdin stdout args pos = some (.ok j) →
    j.path ["environment", "script", "version"] = .ok (.leaf (lib.leaf (.str sc.version)))

/-- **C121**, what holds instead: both scripts record the version of the module they share, next to their own name. -/
theorem C121_script_version_partial (h : mainOn env lib clock m read sc stdin stdout args pos = some (.ok j)) :
    j.path ["environment", "script", "version"] = .ok (.leaf (lib.leaf (.str "2.0.0"))) ∧ sc.version ≠ "2.0.0" := by
  obtain ⟨e, o, he, h, _⟩ := mainOn_ok h
  obtain ⟨sys, h1, rfl⟩ := environment_ok he
  refine ⟨?_, by cases sc <;> decide⟩
  rw [path_of (task_environment h)]; rfl

end

/-- **C120**: the section about the machine can be written as JSON whatever the machine says; so every result can. -/
theorem C120_written {R C : Type} {env : Env ℝ α ε F (Util.Val R C) T γ} (hv : env.Writes Scalar)
    {lib : Lib α φ ε (Util.Val R C) γ} (hl : lib.Writes Scalar) {clock : Nat → T} {m : Machine}
    {read : Bool → F → Res (Table ℝ α ε)} {sc : Script} {stdin stdout : F} {args : List (Arg F)} {pos : List F}
    {j : J (Util.Val R C)} (h : mainOn env lib clock m read sc stdin stdout args pos = some (.ok j)) :
    ∃ j', Writes j j' ∧ J.Leaves Stored j' := by
  obtain ⟨e, o, he, _, h⟩ := mainOn_ok h
  obtain ⟨sys, h1, rfl⟩ := environment_ok he
  obtain ⟨l, h2, rfl⟩ := systemInfo_ok h1
  have hs : ∀ s : String, J.Leaves Scalar (.leaf (lib.leaf (.str s))) := fun s => .leaf (hl.leaf _)
  have hw : J.Leaves Scalar (.list (l.map (fun l => .leaf (lib.leaf (.str (String.ofList l)))))) := by
    refine .list fun x hx => ?_
    obtain ⟨y, _, rfl⟩ := List.mem_map.1 hx
    exact hs _
  have e1 : ∀ {a b : String} {s t : String}, J.Leaves Scalar (.dict [(a, .leaf (lib.leaf (.str s))), (b, .leaf (lib.leaf (.str t)))]) :=
    .dict (AllLeaves.cons (hs _) (AllLeaves.cons (hs _) AllLeaves.nil))
  exact C116_experiment hv hl (AllLeaves.cons e1 (AllLeaves.cons (.dict (AllLeaves.cons (hs _) (AllLeaves.cons (hs _)
    (AllLeaves.cons (hs _) (AllLeaves.cons (hs _) (AllLeaves.cons (hs _) (AllLeaves.cons hw AllLeaves.nil)))))))
    (AllLeaves.cons (.dict (AllLeaves.cons (hs _) (AllLeaves.cons (hs _) (AllLeaves.cons (hs _) (AllLeaves.cons (hs _)
      (AllLeaves.cons (hs _) (AllLeaves.cons (hs _) (AllLeaves.cons (hs _) AllLeaves.nil)))))))) AllLeaves.nil))) h

namespace ExMachine

/-- A machine under Linux. -/
def linux : Machine where
  system := "Linux"
  release := "5.4"
  version := "#1 SMP"
  machine := "x86_64"
  processor := "x86_64"
  node := "host"
  devNull := true
  output := fun c => if c = ["/bin/cat", "/proc/cpuinfo"] then some (some "cpu : 0\nflags : a\n".toList) else none
  sklearn := "0.20"
  numpy := "1.15"
  scipy := "1.1"
  compiler := "GCC"
  implementation := "CPython"
  python := "3.6"
  kamrecsys := "2.2.0"
  argv0 := "scripts/exp_recsys_sp.py".toList

theorem linux_describable : Describable linux :=
  ⟨rfl, fun c hc => by
    rw [lists_iff] at hc
    rcases hc with ⟨hc, _⟩ | ⟨hc, _⟩ | ⟨_, rfl⟩
    · exact absurd hc (by decide)
    · exact absurd hc (by decide)
    · exact ⟨_, rfl⟩⟩

/-- The description of the hardware, and the name of the script. -/
example : linux.hardware = .ok ["cpu : 0".toList, "flags : a".toList, []] ∧
    basename linux.argv0 = "exp_recsys_sp.py".toList := by decide +kernel

/-- A Darwin machine: the heading and the blank lines are dropped, and the indentation. -/
example : ({ linux with
      system := "Darwin"
      output := fun _ => some (some "Hardware:\n\n    Hardware Overview:\n\n      Model: Mac\n      Cores: 4\n\n".toList) } :
      Machine).hardware = .ok ["Model: Mac".toList, "Cores: 4".toList] := by decide +kernel

/-- A machine that cannot be described: the command is missing. -/
example : ¬ Describable { linux with output := fun _ => none } := by
  intro h
  obtain ⟨s, hs⟩ := h.output _ .linux
  cases hs

/-- A machine that cannot be described: `/proc/cpuinfo` has a byte sequence that is not UTF-8. -/
example : ¬ Describable { linux with output := fun _ => some none } := by
  intro h
  obtain ⟨s, hs⟩ := h.output _ .linux
  cases hs

/-- Under Solaris nothing is run. -/
example : Describable { linux with system := "SunOS", output := fun _ => none } :=
  ⟨rfl, fun c hc => by
    rw [lists_iff] at hc
    exact absurd hc (by simp)⟩

/-- Under Windows the null device cannot be opened by this name: no run succeeds. -/
example : ¬ Describable { linux with system := "Windows", devNull := false } := fun h => by
  have := h.devNull
  cases this

/-- A run on the Linux machine. -/
theorem runs : ∃ j, mainOn ExWritten.env ExWritten.lib id linux Ex.read .sp "stdin" "stdout" ExWritten.args ["data"] =
    some (.ok j) := by
  obtain ⟨e, he⟩ := C120_describable linux_describable ExWritten.lib
  rw [he]
  obtain ⟨o, ho⟩ := (C99_accepted (F := String) .sp "stdin" "stdout" ExWritten.args ["data"]).2
    ⟨by simp [ExWritten.args], by simp [ExWritten.args], by simp [ExWritten.args], by simp [ExWritten.args], by simp⟩
  have h := C99_options ho
  have hi : o.infile.getD o.infilep = "data" := by rw [h.infile]; rfl
  have hseed : o.rseed = none := h.rseed
  have hfold : o.foldNo = none := h.foldNo
  have hk : o.k = 1 := h.k
  obtain ⟨j, hj⟩ := C103_pmf_cross_validation ExWritten.env ExWritten.lib id e Ex.read Ex.read_ok h.method h.validation
    h.domain ⟨fun n hn => (by rw [hseed] at hn; cases hn), fun i hi => (by rw [hfold] at hi; cases hi)⟩
      (t := ⟨⟨2, Ex.rows⟩, Ex.scores, some [1, 2, 3, 4, 5, 6, 7, 8]⟩) (by rw [hi]; rfl) (.inl one_ne_zero)
      fun _ => ⟨by omega, Ex.twoEach, Ex.twoIds.1, Ex.spread⟩
  refine ⟨j, ?_⟩
  unfold main
  rw [ho, Option.map_some, hj]

/-- The run on the Linux machine tells about it and can be written. -/
example : ∃ j j', mainOn ExWritten.env ExWritten.lib id linux Ex.read .sp "stdin" "stdout" ExWritten.args ["data"] =
    some (.ok j) ∧ Tells .str linux j ∧ Writes j j' := by
  obtain ⟨j, hj⟩ := runs
  obtain ⟨j', h1, _⟩ := C120_written
    ⟨fun _ => .npInt _, fun _ => .npFloat _, fun _ => .int _, fun _ => .int _, fun f => by cases f <;> constructor,
      fun _ _ => .npInt _, fun _ => .str _, fun _ _ => .obj _, fun _ _ => .obj _⟩
    ⟨fun x => by cases x <;> constructor, fun _ => .leaf (.npBool _), fun _ => .leaf (.npFloat _)⟩ hj
  exact ⟨j, j', hj, C120_recorded hj, h1⟩

end ExMachine

/-- **C121** does not hold: a run of `exp_recsys_sp.py`, version 5.0.0, says 2.0.0. -/
theorem C121_script_version_refuted : ¬ C121_full := by
  intro h
  obtain ⟨j, hj⟩ := ExMachine.runs
  have h1 := h _ _ _ _ _ _ _ _ _ _ _ hj
  rw [(C121_script_version_partial hj).1] at h1
  simp [ExWritten.lib, Script.version] at h1

end Kam.Exp
