/-
C99: the command line of the experiment scripts.
-/
import Verif.Exp.Model
import Verif.Scripts.Props6

set_option linter.unusedSectionVars false

namespace Kam.Exp
open Scripts

variable {F : Type}

/-! ### Specification -/

/-- The argument of the last occurrence of an option, or its default. -/
def lastOr {β : Type} (pick : Arg F → Option β) (args : List (Arg F)) (dflt : β) : β :=
  ((args.filterMap pick).getLast?).getD dflt

/-- The command lines the scripts accept: no two options that exclude each other, a method and a validation scheme among
the choices, and at most two positional arguments. -/
structure Acceptable (sc : Script) (args : List (Arg F)) (pos : List F) : Prop where
  verbosity : ¬ (Arg.verbose ∈ args ∧ Arg.quiet ∈ args)
  timestamps : ¬ (Arg.timestamp ∈ args ∧ Arg.noTimestamp ∈ args)
  method : ∀ m, Arg.method m ∈ args → (sc = .sp ∧ (m = "pmf" ∨ m = "plsam" ∨ m = "plsamm")) ∨ (sc = .itemFinder ∧ m = "lpmf")
  validation : ∀ v, Arg.validation v ∈ args → v = "holdout" ∨ v = "cv"
  positional : pos.length ≤ 2

/-- What the options say, option by option: the last occurrence counts, otherwise the documented default.  The files are
those of `-i` and `-o`, else the positional arguments, else the standard streams. -/
structure Reads (sc : Script) (stdin stdout : F) (args : List (Arg F)) (pos : List F) (o : Namespace F) : Prop where
  verbose : o.verbose = false ↔ Arg.quiet ∈ args
  rseed : o.rseed = lastOr (fun a => match a with | .rseed n => some (some n) | _ => none) args none
  infile : o.infile = some (lastOr (fun a => match a with | .infile f => some f | _ => none) args ((pos[0]?).getD stdin))
  outfile : o.outfile = some (lastOr (fun a => match a with | .outfile f => some f | _ => none) args ((pos[1]?).getD stdout))
  testfile : o.testfile = lastOr (fun a => match a with | .testfile f => some (some f) | _ => none) args none
  method : o.method = lastOr (fun a => match a with | .method m => some m | _ => none) args
    (match sc with | .sp => "pmf" | .itemFinder => "lpmf")
  validation : o.validation = lastOr (fun a => match a with | .validation v => some v | _ => none) args "holdout"
  fold : o.fold = lastOr (fun a => match a with | .fold n => some n | _ => none) args 5
  foldNo : o.foldNo = lastOr (fun a => match a with | .foldNo n => some (some n) | _ => none) args none
  domain : o.domain = lastOr (fun a => match a with | .domain lo hi st => some [lo, hi, st] | _ => none) args [0, 0, 0]
  timestamp : o.timestamp = false ↔ Arg.noTimestamp ∈ args
  C : o.C = lastOr (fun a => match a with | .C x => some x | _ => none) args (1 / 100)
  k : o.k = lastOr (fun a => match a with | .dim n => some n | _ => none) args 1
  alpha : o.alpha = lastOr (fun a => match a with | .alpha x => some x | _ => none) args 1
  tol : o.tol = lastOr (fun a => match a with | .tol x => some x | _ => none) args (1 / 100000)
  maxiter : o.maxiter = lastOr (fun a => match a with | .maxiter n => some (some n) | _ => none) args none

/-! ### The parser -/

/-- What one option does to the namespace. -/
def put (o : Namespace F) : Arg F → Namespace F
  | .verbose => { o with verbose := true }
  | .quiet => { o with verbose := false }
  | .rseed n => { o with rseed := some n }
  | .infile f => { o with infile := some f }
  | .outfile f => { o with outfile := some f }
  | .testfile f => { o with testfile := some f }
  | .method m => { o with method := m }
  | .validation v => { o with validation := v }
  | .fold n => { o with fold := n }
  | .foldNo n => { o with foldNo := some n }
  | .domain lo hi st => { o with domain := [lo, hi, st] }
  | .noTimestamp => { o with timestamp := false }
  | .timestamp => { o with timestamp := true }
  | .C x => { o with C := x }
  | .dim n => { o with k := n }
  | .alpha x => { o with alpha := x }
  | .tol x => { o with tol := x }
  | .maxiter n => { o with maxiter := some n }

/-- The options can be read when the groups are in the state `s`. -/
structure Fine (sc : Script) (s : Seen) (args : List (Arg F)) : Prop where
  v1 : ¬ (Arg.verbose ∈ args ∧ (s.quiet = true ∨ Arg.quiet ∈ args))
  v2 : ¬ (Arg.quiet ∈ args ∧ (s.verbose = true ∨ Arg.verbose ∈ args))
  t1 : ¬ (Arg.timestamp ∈ args ∧ (s.noTimestamp = true ∨ Arg.noTimestamp ∈ args))
  t2 : ¬ (Arg.noTimestamp ∈ args ∧ (s.timestamp = true ∨ Arg.timestamp ∈ args))
  m : ∀ m, Arg.method m ∈ args → m ∈ sc.choices
  v : ∀ v, Arg.validation v ∈ args → v ∈ ["holdout", "cv"]

lemma fold_put (sc : Script) (args : List (Arg F)) (o : Namespace F) (s : Seen) :
    (Fine sc s args → ∃ s', args.foldlM (parseArg sc) (o, s) = some (args.foldl put o, s')) ∧
    (¬ Fine sc s args → args.foldlM (parseArg sc) (o, s) = none) := by
  induction args generalizing o s with
  | nil => exact ⟨fun _ => ⟨s, rfl⟩, fun h => absurd ⟨by simp, by simp, by simp, by simp, by simp, by simp⟩ h⟩
  | cons a args ih =>
    -- one option that is accepted
    have step : ∀ (s' : Seen), parseArg sc (o, s) a = some (put o a, s') → (Fine sc s (a :: args) ↔ Fine sc s' args) →
        (Fine sc s (a :: args) → ∃ s'', (a :: args).foldlM (parseArg sc) (o, s) = some ((a :: args).foldl put o, s'')) ∧
        (¬ Fine sc s (a :: args) → (a :: args).foldlM (parseArg sc) (o, s) = none) := by
      intro s' h1 h2
      rw [h2, List.foldlM_cons, h1, List.foldl_cons]
      exact ih (put o a) s'
    -- one that is not
    have stop : parseArg sc (o, s) a = none → ¬ Fine sc s (a :: args) →
        (Fine sc s (a :: args) → ∃ s'', (a :: args).foldlM (parseArg sc) (o, s) = some ((a :: args).foldl put o, s'')) ∧
        (¬ Fine sc s (a :: args) → (a :: args).foldlM (parseArg sc) (o, s) = none) := by
      intro h1 h2
      rw [List.foldlM_cons, h1]
      exact ⟨fun h => absurd h h2, fun _ => rfl⟩
    cases a with
    | verbose =>
      by_cases hq : s.quiet = true
      · refine stop (by simp [parseArg, hq]) (fun h => h.v1 ⟨by simp, .inl hq⟩)
      · refine step { s with verbose := true } (by simp [parseArg, hq, put]) ?_
        constructor
        · rintro ⟨h1, h2, h3, h4, h5, h6⟩
          simp at h1 h2 h3 h4 h5 h6
          exact ⟨by simp [hq]; tauto, by simp; tauto, by simp; tauto, by simp; tauto, h5, by simpa using h6⟩
        · rintro ⟨h1, h2, h3, h4, h5, h6⟩
          simp at h1 h2 h3 h4 h5 h6
          exact ⟨by simp [hq]; tauto, by simp; tauto, by simp; tauto, by simp; tauto, by simpa using h5, by simpa using h6⟩
    | quiet =>
      by_cases hq : s.verbose = true
      · refine stop (by simp [parseArg, hq]) (fun h => h.v2 ⟨by simp, .inl hq⟩)
      · refine step { s with quiet := true } (by simp [parseArg, hq, put]) ?_
        constructor
        · rintro ⟨h1, h2, h3, h4, h5, h6⟩
          simp at h1 h2 h3 h4 h5 h6
          exact ⟨by simp; tauto, by simp [hq]; tauto, by simp; tauto, by simp; tauto, h5, by simpa using h6⟩
        · rintro ⟨h1, h2, h3, h4, h5, h6⟩
          simp at h1 h2 h3 h4 h5 h6
          exact ⟨by simp; tauto, by simp [hq]; tauto, by simp; tauto, by simp; tauto, by simpa using h5, by simpa using h6⟩
    | noTimestamp =>
      by_cases hq : s.timestamp = true
      · refine stop (by simp [parseArg, hq]) (fun h => h.t2 ⟨by simp, .inl hq⟩)
      · refine step { s with noTimestamp := true } (by simp [parseArg, hq, put]) ?_
        constructor
        · rintro ⟨h1, h2, h3, h4, h5, h6⟩
          simp at h1 h2 h3 h4 h5 h6
          exact ⟨by simp; tauto, by simp; tauto, by simp; tauto, by simp [hq]; tauto, h5, by simpa using h6⟩
        · rintro ⟨h1, h2, h3, h4, h5, h6⟩
          simp at h1 h2 h3 h4 h5 h6
          exact ⟨by simp; tauto, by simp; tauto, by simp; tauto, by simp [hq]; tauto, by simpa using h5, by simpa using h6⟩
    | timestamp =>
      by_cases hq : s.noTimestamp = true
      · refine stop (by simp [parseArg, hq]) (fun h => h.t1 ⟨by simp, .inl hq⟩)
      · refine step { s with timestamp := true } (by simp [parseArg, hq, put]) ?_
        constructor
        · rintro ⟨h1, h2, h3, h4, h5, h6⟩
          simp at h1 h2 h3 h4 h5 h6
          exact ⟨by simp; tauto, by simp; tauto, by simp [hq]; tauto, by simp; tauto, h5, by simpa using h6⟩
        · rintro ⟨h1, h2, h3, h4, h5, h6⟩
          simp at h1 h2 h3 h4 h5 h6
          exact ⟨by simp; tauto, by simp; tauto, by simp [hq]; tauto, by simp; tauto, by simpa using h5, by simpa using h6⟩
    | method m =>
      by_cases hm : m ∈ sc.choices
      · refine step s (by simp [parseArg, hm, put]) ?_
        constructor
        · rintro ⟨h1, h2, h3, h4, h5, h6⟩
          exact ⟨by simpa using h1, by simpa using h2, by simpa using h3, by simpa using h4,
            fun m' hm' => h5 m' (by simp [hm']), by simpa using h6⟩
        · rintro ⟨h1, h2, h3, h4, h5, h6⟩
          refine ⟨by simpa using h1, by simpa using h2, by simpa using h3, by simpa using h4, ?_, by simpa using h6⟩
          intro m' hm'
          rcases List.mem_cons.1 hm' with h | h
          · cases h; exact hm
          · exact h5 m' h
      · exact stop (by simp [parseArg, hm]) (fun h => hm (h.m m (by simp)))
    | validation m =>
      by_cases hm : m ∈ ["holdout", "cv"]
      · refine step s (by simp only [parseArg, if_pos hm, put]) ?_
        constructor
        · rintro ⟨h1, h2, h3, h4, h5, h6⟩
          exact ⟨by simpa using h1, by simpa using h2, by simpa using h3, by simpa using h4, by simpa using h5,
            fun m' hm' => h6 m' (by simp [hm'])⟩
        · rintro ⟨h1, h2, h3, h4, h5, h6⟩
          refine ⟨by simpa using h1, by simpa using h2, by simpa using h3, by simpa using h4, by simpa using h5, ?_⟩
          intro m' hm'
          rcases List.mem_cons.1 hm' with h | h
          · cases h; exact hm
          · exact h6 m' h
      · exact stop (by simp only [parseArg, if_neg hm]) (fun h => hm (h.v m (by simp)))
    | _ =>
      refine step s rfl ?_
      constructor <;> rintro ⟨h1, h2, h3, h4, h5, h6⟩ <;>
        exact ⟨by simpa using h1, by simpa using h2, by simpa using h3, by simpa using h4, by simpa using h5,
          by simpa using h6⟩

lemma fine_iff (sc : Script) (args : List (Arg F)) (pos : List F) :
    Acceptable sc args pos ↔ Fine sc ⟨false, false, false, false⟩ args ∧ pos.length ≤ 2 := by
  constructor
  · rintro ⟨h1, h2, h3, h4, h5⟩
    refine ⟨⟨by simp; tauto, by simp; tauto, by simp; tauto, by simp; tauto, ?_, ?_⟩, h5⟩
    · intro m hm
      rcases h3 m hm with ⟨rfl, h⟩ | ⟨rfl, h⟩
      · simpa [Script.choices] using h
      · simpa [Script.choices] using h
    · intro v hv; simpa using h4 v hv
  · rintro ⟨⟨h1, h2, h3, h4, h5, h6⟩, h7⟩
    simp at h1 h2 h3 h4
    refine ⟨by tauto, by tauto, ?_, ?_, h7⟩
    · intro m hm
      have := h5 m hm
      cases sc with
      | sp => exact .inl ⟨rfl, by simpa [Script.choices] using this⟩
      | itemFinder => exact .inr ⟨rfl, by simpa [Script.choices] using this⟩
    · intro v hv; simpa using h6 v hv

/-- A field that is only written by the options `pick` selects. -/
lemma foldl_put {β : Type} (get : Namespace F → β) (pick : Arg F → Option β)
    (h : ∀ o a, get (put o a) = (pick a).getD (get o)) (args : List (Arg F)) (o : Namespace F) :
    get (args.foldl put o) = lastOr pick args (get o) := by
  unfold lastOr
  induction args generalizing o with
  | nil => rfl
  | cons a args ih =>
    rw [List.foldl_cons, ih, h]
    cases hp : pick a with
    | none => simp [hp]
    | some x => simp [hp, List.getLast?_cons]

lemma lastOr_some {β : Type} (pick : Arg F → Option β) (args : List (Arg F)) (d : β) :
    (lastOr (fun a => (pick a).map some) args none).getD d = lastOr pick args d := by
  unfold lastOr
  have : args.filterMap (fun a => (pick a).map some) = (args.filterMap pick).map some := by
    rw [List.map_filterMap]
  rw [this, List.getLast?_map]
  cases (args.filterMap pick).getLast? <;> rfl

/-- The last of several equal values. -/
lemma lastOr_flag (pick : Arg F → Option Bool) (args : List (Arg F))
    (h : ¬ (true ∈ args.filterMap pick ∧ false ∈ args.filterMap pick)) :
    lastOr pick args true = false ↔ false ∈ args.filterMap pick := by
  unfold lastOr
  cases hl : (args.filterMap pick).getLast? with
  | none =>
    rw [List.getLast?_eq_none_iff] at hl
    simp [hl]
  | some b =>
    have hm := List.mem_of_getLast? hl
    cases b with
    | false => simpa using hm
    | true =>
      simp only [Option.getD_some, Bool.true_eq_false, false_iff]
      exact fun hf => h ⟨hm, hf⟩

/-- C99: which command lines are accepted. -/
theorem C99_accepted (sc : Script) (stdin stdout : F) (args : List (Arg F)) (pos : List F) :
    (∃ o, commandLine sc stdin stdout args pos = some o) ↔ Acceptable sc args pos := by
  rw [fine_iff]
  obtain ⟨h1, h2⟩ := fold_put sc args (defaults sc stdin stdout) ⟨false, false, false, false⟩
  unfold commandLine
  by_cases hf : Fine sc ⟨false, false, false, false⟩ args
  · obtain ⟨s', e⟩ := h1 hf
    simp only [e, hf, true_and, Option.bind_eq_bind, Option.bind_some]
    match pos with
    | [] => simp
    | [i] => simp
    | [i, u] => simp
    | _ :: _ :: _ :: _ => simp
  · simp only [h2 hf, hf, false_and, iff_false, Option.bind_eq_bind, Option.bind_none]
    simp

/-- C99: what an accepted command line means. -/
theorem C99_options {sc : Script} {stdin stdout : F} {args : List (Arg F)} {pos : List F} {o : Namespace F}
    (h : commandLine sc stdin stdout args pos = some o) : Reads sc stdin stdout args pos o := by
  have hacc := (C99_accepted sc stdin stdout args pos).1 ⟨o, h⟩
  obtain ⟨s', e⟩ := (fold_put sc args (defaults sc stdin stdout) ⟨false, false, false, false⟩).1 ((fine_iff sc args pos).1 hacc).1
  have key : ∀ {β : Type} (get : Namespace F → β) (pick : Arg F → Option β),
      (∀ o a, get (put o a) = (pick a).getD (get o)) →
      get (args.foldl put (defaults sc stdin stdout)) = lastOr pick args (get (defaults sc stdin stdout)) :=
    fun get pick hp => foldl_put get pick hp args _
  have key' : ∀ (pick : Arg F → Option F) (get : Namespace F → Option F), get (defaults sc stdin stdout) = none →
      (∀ o a, get (put o a) = ((pick a).map some).getD (get o)) → ∀ d,
      (get (args.foldl put (defaults sc stdin stdout))).getD d = lastOr pick args d := by
    intro pick get h0 hp d
    rw [key get (fun a => (pick a).map some) hp, h0, lastOr_some]
  have verbose : (args.foldl put (defaults sc stdin stdout)).verbose = false ↔ Arg.quiet ∈ args := by
    rw [key (·.verbose) (fun a => match a with | .verbose => some true | .quiet => some false | _ => none)
      (by intro o a; cases a <;> rfl)]
    show lastOr _ args true = false ↔ _
    have e1 : ∀ b, b ∈ args.filterMap (fun a => match a with | .verbose => some true | .quiet => some false | _ => none) ↔
        (b = true ∧ Arg.verbose ∈ args) ∨ (b = false ∧ Arg.quiet ∈ args) := by
      intro b
      rw [List.mem_filterMap]
      constructor
      · rintro ⟨a, ha, hb⟩
        cases a <;> simp at hb <;> subst hb <;> simp [ha]
      · rintro (⟨rfl, h⟩ | ⟨rfl, h⟩)
        · exact ⟨_, h, rfl⟩
        · exact ⟨_, h, rfl⟩
    rw [lastOr_flag _ _ (by rw [e1, e1]; simpa using fun h => not_and.1 hacc.verbosity h), e1]
    simp
  have timestamp : (args.foldl put (defaults sc stdin stdout)).timestamp = false ↔ Arg.noTimestamp ∈ args := by
    rw [key (·.timestamp) (fun a => match a with | .timestamp => some true | .noTimestamp => some false | _ => none)
      (by intro o a; cases a <;> rfl)]
    show lastOr _ args true = false ↔ _
    have e1 : ∀ b, b ∈ args.filterMap (fun a => match a with | .timestamp => some true | .noTimestamp => some false | _ => none) ↔
        (b = true ∧ Arg.timestamp ∈ args) ∨ (b = false ∧ Arg.noTimestamp ∈ args) := by
      intro b
      rw [List.mem_filterMap]
      constructor
      · rintro ⟨a, ha, hb⟩
        cases a <;> simp at hb <;> subst hb <;> simp [ha]
      · rintro (⟨rfl, h⟩ | ⟨rfl, h⟩)
        · exact ⟨_, h, rfl⟩
        · exact ⟨_, h, rfl⟩
    rw [lastOr_flag _ _ (by rw [e1, e1]; simpa using fun h => not_and.1 hacc.timestamps h), e1]
    simp
  have main : ∀ (i u : F), (pos[0]?).getD stdin = i → (pos[1]?).getD stdout = u →
      o = { args.foldl put (defaults sc stdin stdout) with
        infilep := i
        outfilep := u
        infile := some ((args.foldl put (defaults sc stdin stdout)).infile.getD i)
        outfile := some ((args.foldl put (defaults sc stdin stdout)).outfile.getD u) } := by
    intro i u hi hu
    have ei : (args.foldl put (defaults sc stdin stdout)).infilep = stdin := by
      have : ∀ (l : List (Arg F)) (o : Namespace F), (l.foldl put o).infilep = o.infilep := by
        intro l
        induction l with
        | nil => intro o; rfl
        | cons a l ih => intro o; rw [List.foldl_cons, ih]; cases a <;> rfl
      exact this _ _
    have eu : (args.foldl put (defaults sc stdin stdout)).outfilep = stdout := by
      have : ∀ (l : List (Arg F)) (o : Namespace F), (l.foldl put o).outfilep = o.outfilep := by
        intro l
        induction l with
        | nil => intro o; rfl
        | cons a l ih => intro o; rw [List.foldl_cons, ih]; cases a <;> rfl
      exact this _ _
    unfold commandLine at h
    simp only [e, Option.bind_eq_bind, Option.bind_some] at h
    generalize args.foldl put (defaults sc stdin stdout) = p at *
    obtain ⟨⟩ := p
    simp only at ei eu
    subst ei eu
    have hp := hacc.positional
    match pos, hp with
    | [], _ => simp at hi hu h; subst hi hu h; rfl
    | [a], _ => simp at hi hu h; subst hi hu h; rfl
    | [a, b], _ => simp at hi hu h; subst hi hu h; rfl
  have hm := main _ _ rfl rfl
  constructor
  · rw [hm]; exact verbose
  · rw [hm]; exact key (·.rseed) _ (by intro o a; cases a <;> rfl)
  · rw [hm]
    exact congrArg some (key' (fun a => match a with | .infile f => some f | _ => none) (·.infile) rfl (by intro o a; cases a <;> rfl) _)
  · rw [hm]
    exact congrArg some (key' (fun a => match a with | .outfile f => some f | _ => none) (·.outfile) rfl (by intro o a; cases a <;> rfl) _)
  · rw [hm]; exact key (·.testfile) _ (by intro o a; cases a <;> rfl)
  · rw [hm]
    have := key (·.method) (fun a => match a with | .method m => some m | _ => none) (by intro o a; cases a <;> rfl)
    cases sc <;> exact this
  · rw [hm]; exact key (·.validation) _ (by intro o a; cases a <;> rfl)
  · rw [hm]; exact key (·.fold) _ (by intro o a; cases a <;> rfl)
  · rw [hm]; exact key (·.foldNo) _ (by intro o a; cases a <;> rfl)
  · rw [hm]; exact key (·.domain) _ (by intro o a; cases a <;> rfl)
  · rw [hm]; exact timestamp
  · rw [hm]
    have := key (·.C) (fun a => match a with | .C x => some x | _ => none) (by intro o a; cases a <;> rfl)
    rw [show (1 / 100 : ℝ) = (defaults sc stdin stdout).C by norm_num [defaults]]
    exact this
  · rw [hm]; exact key (·.k) _ (by intro o a; cases a <;> rfl)
  · rw [hm]
    have := key (·.alpha) (fun a => match a with | .alpha x => some x | _ => none) (by intro o a; cases a <;> rfl)
    rw [show (1 : ℝ) = (defaults sc stdin stdout).alpha by norm_num [defaults]]
    exact this
  · rw [hm]
    have := key (·.tol) (fun a => match a with | .tol x => some x | _ => none) (by intro o a; cases a <;> rfl)
    rw [show (1 / 100000 : ℝ) = (defaults sc stdin stdout).tol by norm_num [defaults]]
    exact this
  · rw [hm]; exact key (·.maxiter) _ (by intro o a; cases a <;> rfl)

/-! ### Examples -/

/-- `exp_recsys_sp.py -m plsam -k 3 -q -k 4 data`: accepted, with four latent classes. -/
example : ∃ o, commandLine .sp "stdin" "stdout" [.method "plsam", .dim 3, .quiet, .dim 4] ["data"] = some o ∧
    o.k = 4 ∧ o.method = "plsam" ∧ o.verbose = false ∧ o.infile = some "data" ∧ o.outfile = some "stdout" := by
  obtain ⟨o, ho⟩ := (C99_accepted (F := String) .sp "stdin" "stdout" [.method "plsam", .dim 3, .quiet, .dim 4] ["data"]).2
    ⟨by simp, by simp, by simp, by simp, by simp⟩
  have h := C99_options ho
  exact ⟨o, ho, h.k, h.method, h.verbose.2 (by simp), h.infile, h.outfile⟩

/-- `exp_recsys_if.py -m pmf`, `-q --verbose` and three files: not accepted. -/
example : commandLine (F := String) .itemFinder "stdin" "stdout" [.method "pmf"] [] = none ∧
    commandLine (F := String) .sp "stdin" "stdout" [.quiet, .verbose] [] = none ∧
    commandLine (F := String) .sp "stdin" "stdout" [] ["a", "b", "c"] = none := by
  refine ⟨?_, ?_, ?_⟩
  · cases h : commandLine (F := String) .itemFinder "stdin" "stdout" [.method "pmf"] [] with
    | none => rfl
    | some o => simpa using ((C99_accepted _ _ _ _ _).1 ⟨o, h⟩).method "pmf" (by simp)
  · cases h : commandLine (F := String) .sp "stdin" "stdout" [.quiet, .verbose] [] with
    | none => rfl
    | some o => exact absurd ⟨by simp, by simp⟩ ((C99_accepted _ _ _ _ _).1 ⟨o, h⟩).verbosity
  · cases h : commandLine (F := String) .sp "stdin" "stdout" [] ["a", "b", "c"] with
    | none => rfl
    | some o => simpa using ((C99_accepted _ _ _ _ _).1 ⟨o, h⟩).positional

end Kam.Exp
