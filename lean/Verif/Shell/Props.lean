/-
C109, C110, C111: what the scripts do to files.
-/
import Verif.Shell.Run2

set_option linter.unusedSectionVars false

namespace Kam.Shell
open Scripts
open Exp (Arg Namespace Seen parseArg defaults Script Lib commandLine)

variable {F C : Type} [DecidableEq F]
variable {α φ ε V T γ : Type} [LinearOrder α]

/-! ### Files of a command line -/

lemma foldlM_fine {sc : Script} {stdin stdout : F} {rs ws : List F} : ∀ (args : List (Arg F)) (st st' : Namespace F × Seen),
    args.foldlM (parseArg sc) st = some st' → Fine stdin stdout rs ws st.1 →
    (∀ f ∈ args.flatMap argReads, f ∈ rs) → (∀ f ∈ args.flatMap argWrites, f ∈ ws) → Fine stdin stdout rs ws st'.1
  | [], st, st', h, hf, _, _ => by
    simp only [List.foldlM_nil, pure, Option.some.injEq] at h
    exact h ▸ hf
  | a :: as, st, st', h, hf, hr, hw => by
    rw [List.foldlM_cons] at h
    cases e : parseArg sc st a with
    | none => rw [e] at h; cases h
    | some st1 =>
      rw [e] at h
      refine foldlM_fine as st1 st' h (parseArg_fine e hf ?_ ?_) ?_ ?_
      · exact fun f h => hr f (by rw [List.flatMap_cons]; exact List.mem_append_left _ h)
      · exact fun f h => hw f (by rw [List.flatMap_cons]; exact List.mem_append_left _ h)
      · exact fun f h => hr f (by rw [List.flatMap_cons]; exact List.mem_append_right _ h)
      · exact fun f h => hw f (by rw [List.flatMap_cons]; exact List.mem_append_right _ h)

/-- The training file and the test file are named in the command line, or standard input. -/
lemma commandLine_files {sc : Script} {stdin stdout : F} {args : List (Arg F)} {pos : List F} {o : Namespace F}
    (h : commandLine sc stdin stdout args pos = some o) :
    (∃ i, o.infile = some i ∧ (i ∈ (Command.exp sc args pos).reads ∨ i = stdin)) ∧
    ∀ t, o.testfile = some t → t ∈ (Command.exp sc args pos).reads := by
  unfold commandLine at h
  simp only [Option.bind_eq_bind, Option.bind_eq_some_iff] at h
  obtain ⟨⟨o1, s1⟩, h1, h⟩ := h
  have hf : Fine stdin stdout (Command.exp sc args pos).reads (Command.exp sc args pos).writes o1 :=
    foldlM_fine args _ _ h1
      ⟨fun _ h => by simp [defaults] at h, .inr rfl, fun _ h => by simp [defaults] at h, fun _ h => by simp [defaults] at h, .inr rfl⟩
      (fun f h => List.mem_append_left _ h) (fun f h => List.mem_append_left _ h)
  obtain ⟨f1, f2, f3, f4, f5⟩ := hf
  have hin : ∀ (ip : F), (ip ∈ (Command.exp sc args pos).reads ∨ ip = stdin) →
      (o1.infile.getD ip ∈ (Command.exp sc args pos).reads ∨ o1.infile.getD ip = stdin) := by
    intro ip hip
    cases e : o1.infile with
    | none => exact hip
    | some f => exact .inl (f1 f e)
  match pos with
  | [] =>
    simp only [Option.bind_some, pure, Option.some.injEq] at h
    subst h
    exact ⟨⟨_, rfl, hin _ f2⟩, f3⟩
  | [i] =>
    simp only [Option.bind_some, pure, Option.some.injEq] at h
    subst h
    exact ⟨⟨_, rfl, hin i (.inl (by simp [Command.reads]))⟩, f3⟩
  | [i, u] =>
    simp only [Option.bind_some, pure, Option.some.injEq] at h
    subst h
    exact ⟨⟨_, rfl, hin i (.inl (by simp [Command.reads]))⟩, f3⟩
  | i :: u :: x :: xs =>
    simp at h

/-! ### C109: what a run leaves behind -/

/-- C109: however a run of a script ends, it changes no file but those its command line names for writing, or its standard
output when it names none. -/
theorem C109_only_targets (S : Setup F C α φ ε V T γ) (m : Machine V T) (cmd : Command F) (w : Files F C) (f : F)
    (hf : f ∉ cmd.targets S.stdout) : ((cmd.prog S m).run w).2 f = w f :=
  run_unchanged (prog_within S m cmd) w hf

/-- C109: an experiment script whose command line is in order, whose input files are there and are not named for writing,
succeeds exactly if the task can be done with the files as they are; then its output file, and no other file, has the
result, and further files named for writing are empty. -/
theorem C109_experiment (S : Setup F C α φ ε V T γ) (m : Machine V T) {sc : Script} {args : List (Arg F)} {pos : List F} {w : Files F C}
    {o : Namespace F} (ho : commandLine sc S.stdin S.stdout args pos = some o)
    (hin : ∀ f ∈ (Command.exp sc args pos).reads, w f ≠ none)
    (hdis : ∀ f, f ∈ (Command.exp sc args pos).reads ∨ f = S.stdin → f ∉ (Command.exp sc args pos).writes) :
    ∃ u, o.outfile = some u ∧
    (∀ j, Exp.task S.env S.lib m.clock m.environment (reader S w) sc o = .ok j →
      (((Command.exp sc args pos).prog S m).run w).1 = .success ∧
      (((Command.exp sc args pos).prog S m).run w).2 u = some (S.encode j) ∧
      ∀ f, f ≠ u → (((Command.exp sc args pos).prog S m).run w).2 f =
        if f ∈ (Command.exp sc args pos).writes then some S.empty else w f) ∧
    (∀ e, Exp.task S.env S.lib m.clock m.environment (reader S w) sc o = .error e →
      (((Command.exp sc args pos).prog S m).run w).1 = .raised e ∧
      ∀ f, (((Command.exp sc args pos).prog S m).run w).2 f =
        if f ∈ (Command.exp sc args pos).writes then some S.empty else w f) := by
  rcases exp_run S m sc args pos w with ⟨o', u, h1, h2, h3, _⟩ | ⟨_, h | ⟨f, hf, h⟩⟩
  · rw [ho] at h1
    cases h1
    have he : Exp.task S.env S.lib m.clock m.environment (reader S (emptied S.empty w (Command.exp sc args pos).writes)) sc o =
        Exp.task S.env S.lib m.clock m.environment (reader S w) sc o := by
      obtain ⟨⟨i, hi, hi'⟩, ht⟩ := commandLine_files ho
      have key : ∀ f, f ∉ (Command.exp sc args pos).writes → ∀ b,
          reader S (emptied S.empty w (Command.exp sc args pos).writes) b f = reader S w b f := by
        intro f hf b
        unfold reader emptied
        rw [if_neg hf]
      refine task_read_congr (fun b => ?_) (fun t h b => key t (hdis t (.inl (ht t h))) b)
      rw [hi]
      exact key i (hdis i hi') b
    rw [he] at h3
    refine ⟨u, h2, fun j hj => ?_, fun e hj => ?_⟩
    · rw [h3, hj]
      refine ⟨rfl, by simp [finish], fun f hf => ?_⟩
      simp only [finish]
      rw [Function.update_of_ne hf]
      rfl
    · rw [h3, hj]
      exact ⟨rfl, fun f => rfl⟩
  · rw [ho] at h; cases h
  · exact absurd h (hin f hf)

/-- C109: the merging script, called with at least one file, not with both `--verbose` and `--quiet`, whose files are there
and are not named for writing, writes what merging the results in the files gives, and raises an exception when they cannot
be read or merged. -/
theorem C109_merge (S : Setup F C α φ ε V T γ) (m : Machine V T) {args : List (MergeArg F)} {pos : List F} {w : Files F C}
    (hargs : ¬ (.verbose ∈ args ∧ .quiet ∈ args)) (hpos : pos ≠ []) (hin : ∀ f ∈ pos, w f ≠ none)
    (hdis : ∀ f ∈ pos, f ∉ (Command.merge args pos).writes) {out : F}
    (hout : (Command.merge args pos).writes.getLast? = some out ∨ ((Command.merge args pos).writes = [] ∧ out = S.stdout)) :
    (∀ js j, List.Forall₂ (fun f j => ∃ c, w f = some c ∧ S.decode c = .ok j) pos js →
      merge S.tru (S.env.file (some out)) js = .ok j →
      (((Command.merge args pos).prog S m).run w).1 = .success ∧
      (((Command.merge args pos).prog S m).run w).2 out = some (S.encode j) ∧
      ∀ f, f ≠ out → (((Command.merge args pos).prog S m).run w).2 f =
        if f ∈ (Command.merge args pos).writes then some S.empty else w f) ∧
    ((¬ ∃ js j, List.Forall₂ (fun f j => ∃ c, w f = some c ∧ S.decode c = .ok j) pos js ∧
      merge S.tru (S.env.file (some out)) js = .ok j) →
      (∃ e, (((Command.merge args pos).prog S m).run w).1 = .raised e) ∧
      ∀ f, (((Command.merge args pos).prog S m).run w).2 f =
        if f ∈ (Command.merge args pos).writes then some S.empty else w f) := by
  have hu : (Command.merge args pos).writes.getLast?.getD S.stdout = out := by
    rcases hout with h | ⟨h, rfl⟩
    · rw [h]; rfl
    · rw [h]; rfl
  rcases merge_run S m args pos w with ⟨_, _, _, h3⟩ | ⟨_, h | h | ⟨f, hf, h⟩⟩
  · rw [hu] at h3
    have hm : pos.mapM (fun f => load S (emptied S.empty w (Command.merge args pos).writes f)) = pos.mapM (fun f => load S (w f)) := by
      refine mapM_congr _ (fun f hf => ?_)
      unfold emptied
      rw [if_neg (hdis f hf)]
    rw [hm] at h3
    have hiff : ∀ (fs : List F) (js : List (J V)), fs.mapM (fun f => load S (w f)) = .ok js ↔
        List.Forall₂ (fun f j => ∃ c, w f = some c ∧ S.decode c = .ok j) fs js := by
      intro fs
      induction fs with
      | nil =>
        intro js
        simp only [List.mapM_nil, pure, Except.pure, Except.ok.injEq, List.forall₂_nil_left_iff]
        exact eq_comm
      | cons f fs ih =>
        intro js
        rw [List.mapM_cons]
        constructor
        · intro h
          obtain ⟨j, h1, h⟩ := bind_ok h
          obtain ⟨js', h2, h⟩ := bind_ok h
          simp only [pure, Except.pure, Except.ok.injEq] at h
          subst h
          refine .cons ?_ ((ih js').1 h2)
          unfold load at h1
          cases hc : w f with
          | none => rw [hc] at h1; cases h1
          | some c => rw [hc] at h1; exact ⟨c, rfl, h1⟩
        · intro h
          cases h with
          | cons h1 h2 =>
            obtain ⟨c, hc, hj⟩ := h1
            have e : load S (w f) = S.decode c := by rw [hc]; rfl
            rw [e, hj, (ih _).2 h2]
            rfl
    refine ⟨fun js j hjs hj => ?_, fun hno => ?_⟩
    · rw [(hiff pos js).2 hjs, ok_bind] at h3
      rw [h3.1 j hj]
      exact ⟨rfl, by simp, fun f hf => Function.update_of_ne hf _ _⟩
    · cases hr : (pos.mapM (fun f => load S (w f)) >>= merge S.tru (S.env.file (some out))) with
      | ok j =>
        obtain ⟨js, h4, h5⟩ := bind_ok hr
        exact absurd ⟨js, j, (hiff pos js).1 h4, h5⟩ hno
      | error e =>
        obtain ⟨e', h4⟩ := h3.2 e hr
        rw [h4]
        exact ⟨⟨e', rfl⟩, fun f => rfl⟩
  · exact absurd h hargs
  · exact absurd h hpos
  · exact absurd h (hin f hf)

/-- C109: the statistics script, called with at most two positional arguments, not with both `--keepdata` and
`--no-keepdata`, whose input files are there and are not named for writing, writes the result with its statistics, without
the predictions unless `--keepdata` is given.  An option wins over a positional argument, and the last one over earlier
ones. -/
theorem C109_statistics (S : Setup F C α φ ε V T γ) (m : Machine V T) {args : List (StatsArg F)} {pos : List F} {w : Files F C}
    (hargs : ¬ (.keepdata ∈ args ∧ .noKeepdata ∈ args)) (hpos : pos.length ≤ 2)
    (hin : ∀ f ∈ (Command.stats args pos).reads, w f ≠ none)
    (hdis : ∀ f, f ∈ (Command.stats args pos).reads ∨ f = S.stdin → f ∉ (Command.stats args pos).writes)
    {keep : Bool} (hkeep : keep = true ↔ .keepdata ∈ args) {i u : F}
    (hi : (args.filterMap (fun a => match a with | .infile f => some f | _ => none)).getLast?.getD (pos[0]?.getD S.stdin) = i)
    (hu : (args.filterMap (fun a => match a with | .outfile f => some f | _ => none)).getLast?.getD (pos[1]?.getD S.stdout) = u) :
    (∀ c j j', w i = some c → S.decode c = .ok j → stats S.se keep j = .ok j' →
      (((Command.stats args pos).prog S m).run w).1 = .success ∧
      (((Command.stats args pos).prog S m).run w).2 u = some (S.encode j') ∧
      ∀ f, f ≠ u → (((Command.stats args pos).prog S m).run w).2 f =
        if f ∈ (Command.stats args pos).writes then some S.empty else w f) ∧
    ((¬ ∃ c j j', w i = some c ∧ S.decode c = .ok j ∧ stats S.se keep j = .ok j') →
      (∃ e, (((Command.stats args pos).prog S m).run w).1 = .raised e) ∧
      ∀ f, (((Command.stats args pos).prog S m).run w).2 f =
        if f ∈ (Command.stats args pos).writes then some S.empty else w f) := by
  have er : ∀ as : List (StatsArg F), as.flatMap statsReads = as.filterMap (fun a => match a with | .infile f => some f | _ => none) := by
    intro as
    induction as with
    | nil => rfl
    | cons a as ih =>
      rw [List.flatMap_cons, List.filterMap_cons, ih]
      cases a <;> rfl
  have ew : ∀ as : List (StatsArg F), as.flatMap statsWrites = as.filterMap (fun a => match a with | .outfile f => some f | _ => none) := by
    intro as
    induction as with
    | nil => rfl
    | cons a as ih =>
      rw [List.flatMap_cons, List.filterMap_cons, ih]
      cases a <;> rfl
  rcases stats_run S m args pos w with ⟨_, _, _, k, hk, h3⟩ | ⟨_, h | h | ⟨f, hf, h⟩⟩
  · have hkk : k = keep := by
      rw [Bool.eq_iff_iff, hk, hkeep]
    subst hkk
    rw [er, ew, hi, hu] at h3
    have hiw : i ∉ (Command.stats args pos).writes := by
      apply hdis
      rw [← hi]
      cases hl : (args.filterMap (fun a => match a with | .infile f => some f | _ => none)).getLast? with
      | some f =>
        left
        have := List.mem_of_getLast? hl
        rw [← er] at this
        exact List.mem_append_left _ this
      | none =>
        cases pos with
        | nil => exact .inr rfl
        | cons p ps =>
          left
          simp [Command.reads]
    have he : emptied S.empty w (Command.stats args pos).writes i = w i := by
      unfold emptied
      rw [if_neg hiw]
    rw [he] at h3
    refine ⟨fun c j j' hc hj hj' => ?_, fun hno => ?_⟩
    · have e : (load S (w i) >>= stats S.se k) = .ok j' := by
        rw [hc]
        show (S.decode c >>= _) = _
        rw [hj]
        exact hj'
      rw [h3, e]
      exact ⟨rfl, by simp [finish], fun f hf => Function.update_of_ne hf _ _⟩
    · cases hr : (load S (w i) >>= stats S.se k) with
      | ok j' =>
        obtain ⟨j, h4, h5⟩ := bind_ok hr
        unfold load at h4
        cases hc : w i with
        | none => rw [hc] at h4; cases h4
        | some c => rw [hc] at h4; exact absurd ⟨c, j, j', hc, h4, h5⟩ hno
      | error e =>
        rw [h3, hr]
        exact ⟨⟨e, rfl⟩, fun f => rfl⟩
  · exact absurd h hargs
  · omega
  · exact absurd h (hin f hf)

/-! ### C110: earlier results -/

/-- C110: a run that fails can destroy the result of an earlier one: a command line that is refused empties the output file
named before the mistake. -/
theorem C110_refuted (S : Setup F C α φ ε V T γ) (m : Machine V T) (f : F) (c : C) (hc : c ≠ S.empty) :
    ∃ (cmd : Command F) (w : Files F C), w f = some c ∧ ((cmd.prog S m).run w).1 = .usage ∧ ((cmd.prog S m).run w).2 f ≠ w f :=
  ⟨.merge [.outfile f] [], fun _ => some c, rfl, rfl, by
    show Function.update (fun _ => some c) f (some S.empty) f ≠ some c
    rw [Function.update_self]
    simpa using hc.symm⟩

/-- C110: statistics written over their own input lose the result: the file is emptied before it is read. -/
theorem C110_own_input (S : Setup F C α φ ε V T γ) (m : Machine V T) (f : F) {e : Exc} (he : S.decode S.empty = .error e)
    (w : Files F C) (hf : w f ≠ none) :
    ((Command.stats [.infile f, .outfile f] []).prog S m).run w = (.raised e, Function.update w f (some S.empty)) := by
  rcases stats_run S m [.infile f, .outfile f] [] w with ⟨_, _, _, keep, _, h⟩ | ⟨_, h | h | ⟨g, hg, h⟩⟩
  · rw [h]
    have e1 : emptied S.empty w (Command.stats [.infile f, .outfile f] []).writes = Function.update w f (some S.empty) := by
      rw [← emptied_nil S.empty (Function.update _ _ _), emptied_cons]
      rfl
    rw [e1]
    have e2 : load S (Function.update w f (some S.empty) f) = .error e := by
      rw [Function.update_self]
      exact he
    simp only [List.flatMap_cons, statsReads, statsWrites, List.flatMap_nil, List.append_nil, List.nil_append, List.getLast?_singleton,
      Option.getD_some, e2]
    rfl
  · simp at h
  · simp at h
  · simp only [Command.reads, List.flatMap_cons, List.flatMap_nil, List.append_nil, List.take_nil, List.mem_singleton] at hg
    subst hg
    exact absurd h hf

/-- C110: a run that raises an exception has emptied all files it names for writing. -/
theorem C110_raised_empties (S : Setup F C α φ ε V T γ) (m : Machine V T) (cmd : Command F) (w : Files F C) {e : Exc}
    (h : ((cmd.prog S m).run w).1 = .raised e) (f : F) (hf : f ∈ cmd.writes) : ((cmd.prog S m).run w).2 f = some S.empty := by
  have key : ∀ g, f ∈ cmd.writes → emptied S.empty w cmd.writes f = g → g = some S.empty := by
    rintro g hf rfl
    unfold emptied
    rw [if_pos hf]
  cases cmd with
  | exp sc args pos =>
    rcases exp_run S m sc args pos w with ⟨o, u, _, _, h3, _⟩ | ⟨h3, _⟩
    · rw [h3] at h ⊢
      cases hr : Exp.task S.env S.lib m.clock m.environment (reader S (emptied S.empty w (Command.exp sc args pos).writes)) sc o with
      | ok j => rw [hr] at h; cases h
      | error e' => exact key _ hf rfl
    · rw [h3] at h; cases h
  | merge args pos =>
    rcases merge_run S m args pos w with ⟨_, _, _, h3⟩ | ⟨h3, _⟩
    · cases hr : (pos.mapM (fun f => load S (emptied S.empty w (Command.merge args pos).writes f)) >>=
          merge S.tru (S.env.file (some ((Command.merge args pos).writes.getLast?.getD S.stdout)))) with
      | ok j => rw [h3.1 j hr] at h; cases h
      | error e' =>
        obtain ⟨e'', h4⟩ := h3.2 e' hr
        rw [h4]
        exact key _ hf rfl
    · rw [h3] at h; cases h
  | stats args pos =>
    rcases stats_run S m args pos w with ⟨_, _, _, keep, _, h3⟩ | ⟨h3, _⟩
    · rw [h3] at h ⊢
      generalize (load S (emptied S.empty w (Command.stats args pos).writes
        ((args.flatMap statsReads).getLast?.getD (pos[0]?.getD S.stdin))) >>= stats S.se keep) = r at h ⊢
      cases r with
      | ok j => cases h
      | error e' => exact key _ hf rfl
    · rw [h3] at h; cases h

lemma content_cases {S : Setup F C α φ ε V T γ} {old new : Option C} {e : Exit × Option C}
    (h : Content S.empty S.part old new e) :
    new = old ∨ new = some S.empty ∨ new = e.2 ∨
      ∃ j, e.1 = .success ∧ e.2 = some (S.encode j) ∧ ∃ c ∈ S.parts j, new = some c := by
  rcases h with h | h | h | ⟨c, full, h1, ⟨j, rfl, h2⟩, h3⟩
  · exact .inl h
  · exact .inr (.inl h)
  · exact .inr (.inr (.inl h))
  · exact .inr (.inr (.inr ⟨j, by rw [h3], by rw [h3], c, h2, h1⟩))

/-- A program after some of its steps. -/
def steps (p : Prog F C) (w : Files F C) : Nat → Prog F C × Files F C
  | 0 => (p, w)
  | n + 1 => steps (p.step w).1 (p.step w).2 n

/-- C110, what does hold: whenever a run is stopped, by an exception, by a refused command line or by a crash between two
steps, every file is as it was before, or empty, or as the run would leave it in the end, or has a part of the result of a
run that would succeed; it never has the result of another run. -/
theorem C110_partial (S : Setup F C α φ ε V T γ) (m : Machine V T) (cmd : Command F) (w : Files F C) (n : Nat) (f : F) :
    (steps (cmd.prog S m) w n).2 f = w f ∨ (steps (cmd.prog S m) w n).2 f = some S.empty ∨
      (steps (cmd.prog S m) w n).2 f = ((cmd.prog S m).run w).2 f ∨
      ∃ j, ((cmd.prog S m).run w).1 = .success ∧ ((cmd.prog S m).run w).2 f = some (S.encode j) ∧
        ∃ c ∈ S.parts j, (steps (cmd.prog S m) w n).2 f = some c := by
  have hc := prog_clean S m cmd
  have key : Content S.empty S.part (w f) ((steps (cmd.prog S m) w n).2 f)
      (((cmd.prog S m).run w).1, ((cmd.prog S m).run w).2 f) := by
    generalize cmd.prog S m = p at hc ⊢
    induction n generalizing p w with
    | zero => exact .inl rfl
    | succ n ih =>
      have b := ih (p.step w).2 (p.step w).1 (hc.step w)
      rw [run_step] at b
      simp only [steps]
      rcases b with b | b
      · rw [b]
        exact step_content hc w f
      · exact .inr b
  exact content_cases key

/-- C110: a run stopped while it writes leaves a part of the result, and nothing of the earlier one. -/
theorem C110_half_written (S : Setup F C α φ ε V T γ) (m : Machine V T) (f u : F) (hfu : f ≠ u) {j j' : J V}
    (hj : stats S.se true j = .ok j') (hdec : S.decode (S.encode j) = .ok j) {c : C} (hc : c ∈ S.parts j') (w : Files F C)
    (hf : w f = some (S.encode j)) :
    ∃ n, (steps ((Command.stats [.infile f, .outfile u, .keepdata] []).prog S m) w n).2 u = some c := by
  have hp : (Command.stats [.infile f, .outfile u, .keepdata] []).prog S m =
      openRead f (openWrite S.empty u (statsTask S f u true)) := rfl
  have e1 : (load S (some (S.encode j)) >>= stats S.se true) = .ok j' := by
    show (S.decode (S.encode j) >>= _) = _
    rw [hdec]
    exact hj
  have key : ∀ (cs : List C) (k : Prog F C) (w : Files F C), c ∈ cs → ∃ n, (steps (puts u cs k) w n).2 u = some c := by
    intro cs k
    induction cs with
    | nil => exact fun w h => by cases h
    | cons a as ih =>
      intro w h
      rcases List.mem_cons.1 h with rfl | h
      · exact ⟨1, by simp [steps, puts, Prog.step]⟩
      · obtain ⟨n, hn⟩ := ih (Function.update w u (some a)) h
        exact ⟨n + 1, hn⟩
  obtain ⟨n, hn⟩ := key (S.parts j') (.put u (S.encode j') (.done .success)) (Function.update w u (some S.empty)) hc
  refine ⟨n + 3, ?_⟩
  rw [hp]
  simp only [steps, Prog.step, openRead, openWrite, statsTask, hf, Function.update_of_ne hfu, e1, output]
  exact hn

/-! ### C111: runs at the same time -/

/-- The programs of commands numbered from 0; further numbers have nothing to do. -/
noncomputable def programs (S : Setup F C α φ ε V T γ) (cmds : List (Machine V T × Command F)) (i : Nat) : Prog F C :=
  match cmds[i]? with
  | some (m, cmd) => cmd.prog S m
  | none => .done .success

/-- No command writes a file that another one reads or writes. -/
def Independent (S : Setup F C α φ ε V T γ) (cmds : List (Machine V T × Command F)) : Prop :=
  cmds.Pairwise (fun a b =>
    (∀ f ∈ a.2.targets S.stdout, f ∉ b.2.reads ∧ f ≠ S.stdin ∧ f ∉ b.2.targets S.stdout) ∧
    (∀ f ∈ b.2.targets S.stdout, f ∉ a.2.reads ∧ f ≠ S.stdin))

lemma programs_within (S : Setup F C α φ ε V T γ) (cmds : List (Machine V T × Command F)) (i : Nat) :
    (programs S cmds i).Within (fun f => ∃ c, cmds[i]? = some c ∧ (f ∈ c.2.reads ∨ f = S.stdin))
      (fun f => ∃ c, cmds[i]? = some c ∧ f ∈ c.2.targets S.stdout) := by
  unfold programs
  cases h : cmds[i]? with
  | none => trivial
  | some c => exact (prog_within S c.1 c.2).mono (fun f hf => ⟨c, rfl, hf⟩) (fun f hf => ⟨c, rfl, hf⟩)

lemma programs_clean (S : Setup F C α φ ε V T γ) (cmds : List (Machine V T × Command F)) (i : Nat) :
    (programs S cmds i).Clean S.empty S.part := by
  unfold programs
  cases h : cmds[i]? with
  | none => trivial
  | some c => exact prog_clean S c.1 c.2

lemma independent_apart {S : Setup F C α φ ε V T γ} {cmds : List (Machine V T × Command F)} (h : Independent S cmds) (i j : Nat) (hij : i ≠ j)
    (f : F) (hf : ∃ c, cmds[i]? = some c ∧ f ∈ c.2.targets S.stdout) :
    ¬ (∃ c, cmds[j]? = some c ∧ (f ∈ c.2.reads ∨ f = S.stdin)) ∧ ¬ (∃ c, cmds[j]? = some c ∧ f ∈ c.2.targets S.stdout) := by
  obtain ⟨c, hc, hf⟩ := hf
  obtain ⟨hi, hc⟩ := List.getElem?_eq_some_iff.1 hc
  have hp := List.pairwise_iff_getElem.1 h
  have key : ∀ c', cmds[j]? = some c' → f ∉ c'.2.reads ∧ f ≠ S.stdin ∧ f ∉ c'.2.targets S.stdout := by
    intro c' hc'
    obtain ⟨hj, hc'⟩ := List.getElem?_eq_some_iff.1 hc'
    rcases Nat.lt_or_gt_of_ne hij with hlt | hlt
    · have := (hp i j hi hj hlt).1 f (hc ▸ hf)
      rw [hc'] at this
      exact this
    · have h1 := hp j i hj hi hlt
      rw [hc', hc] at h1
      exact ⟨(h1.2 f hf).1, (h1.2 f hf).2, fun h2 => (h1.1 f h2).2.2 hf⟩
  refine ⟨?_, ?_⟩
  · rintro ⟨c', hc', h1⟩
    exact h1.elim (key c' hc').1 (key c' hc').2.1
  · rintro ⟨c', hc', h1⟩
    exact (key c' hc').2.2 h1

/-- C111: commands none of which writes a file of another one can run at the same time: however their steps are mixed, when
all have ended each has ended as it does when run alone, each of its files is as it leaves it when run alone, and files no
command writes are as they were. -/
theorem C111_at_the_same_time (S : Setup F C α φ ε V T γ) {cmds : List (Machine V T × Command F)} (h : Independent S cmds)
    (w : Files F C) (schedule : List Nat) (hend : ∀ i < cmds.length, ∃ x, (together (programs S cmds) w schedule).1 i = .done x) :
    (∀ i (hi : i < cmds.length),
      (together (programs S cmds) w schedule).1 i = .done ((cmds[i].2.prog S cmds[i].1).run w).1 ∧
      ∀ f ∈ cmds[i].2.targets S.stdout, (together (programs S cmds) w schedule).2 f = ((cmds[i].2.prog S cmds[i].1).run w).2 f) ∧
    ∀ f, (∀ c ∈ cmds, f ∉ c.2.targets S.stdout) → (together (programs S cmds) w schedule).2 f = w f := by
  obtain ⟨_, b, c⟩ := together_inv (programs_within S cmds) (independent_apart h) w schedule
  refine ⟨fun i hi => ?_, fun f hf => c f ?_⟩
  · obtain ⟨x, hx⟩ := hend i hi
    obtain ⟨b1, b2⟩ := b i
    rw [hx] at b1 b2
    have hp : programs S cmds i = cmds[i].2.prog S cmds[i].1 := by
      unfold programs
      rw [List.getElem?_eq_getElem hi]
    rw [hp] at b1 b2
    simp only [Prog.run] at b1 b2
    refine ⟨by rw [hx, b1], fun f hf => b2 f (.inr ⟨cmds[i], List.getElem?_eq_getElem hi, hf⟩)⟩
  · rintro i ⟨c, hc, h1⟩
    exact hf c (List.mem_of_getElem? hc) h1

/-- C111: when such commands are stopped at any moment, every file one of them writes is as it was, empty, as the command
leaves it when run alone, or has a part of the result the command writes when run alone. -/
theorem C111_stopped (S : Setup F C α φ ε V T γ) {cmds : List (Machine V T × Command F)} (h : Independent S cmds)
    (w : Files F C) (schedule : List Nat) (i : Nat) (hi : i < cmds.length) (f : F) (hf : f ∈ cmds[i].2.targets S.stdout) :
    (together (programs S cmds) w schedule).2 f = w f ∨ (together (programs S cmds) w schedule).2 f = some S.empty ∨
      (together (programs S cmds) w schedule).2 f = ((cmds[i].2.prog S cmds[i].1).run w).2 f ∨
      ∃ j, ((cmds[i].2.prog S cmds[i].1).run w).1 = .success ∧
        ((cmds[i].2.prog S cmds[i].1).run w).2 f = some (S.encode j) ∧
        ∃ c ∈ S.parts j, (together (programs S cmds) w schedule).2 f = some c := by
  have hp : programs S cmds i = cmds[i].2.prog S cmds[i].1 := by
    unfold programs
    rw [List.getElem?_eq_getElem hi]
  rw [← hp]
  exact content_cases (together_content (programs_within S cmds) (programs_clean S cmds) (independent_apart h) w schedule i f
    ⟨cmds[i], List.getElem?_eq_getElem hi, hf⟩)

/-- C111: commands never wait for each other: whatever they have done so far, they can all be brought to an end. -/
theorem C111_no_deadlock (S : Setup F C α φ ε V T γ) (cmds : List (Machine V T × Command F)) (w : Files F C) (schedule : List Nat) :
    ∃ more, ∀ i < cmds.length, ∃ x, (together (programs S cmds) w (schedule ++ more)).1 i = .done x := by
  obtain ⟨s, hs⟩ := together_ends (together (programs S cmds) w schedule).1 (together (programs S cmds) w schedule).2 cmds.length
  exact ⟨s, fun i hi => by rw [together_append]; exact hs i hi⟩

/-- Two runs of the statistics script with the same output file. -/
def sameOutput (m : Machine V T) (f g u : F) : List (Machine V T × Command F) :=
  [(m, .stats [.infile f, .outfile u, .keepdata] []), (m, .stats [.infile g, .outfile u, .keepdata] [])]

/-- C111: the condition is needed: two runs with the same output file can leave the result of either. -/
theorem C111_same_output (S : Setup F C α φ ε V T γ) (m : Machine V T) (f g u : F) (hfu : f ≠ u) (hgu : g ≠ u) (hfg : f ≠ g)
    {j j' k k' : J V} (hj : stats S.se true j = .ok j') (hk : stats S.se true k = .ok k')
    (hjk : S.encode j' ≠ S.encode k') (hdj : S.decode (S.encode j) = .ok j) (hdk : S.decode (S.encode k) = .ok k) :
    ∃ (w : Files F C) (s s' : List Nat),
      (∀ i < 2, (together (programs S (sameOutput m f g u)) w s).1 i = .done .success) ∧
      (∀ i < 2, (together (programs S (sameOutput m f g u)) w s').1 i = .done .success) ∧
      (together (programs S (sameOutput m f g u)) w s).2 u ≠ (together (programs S (sameOutput m f g u)) w s').2 u := by
  let w : Files F C := fun x => if x = f then some (S.encode j) else if x = g then some (S.encode k) else none
  have h1 : w f = some (S.encode j) := by simp [w]
  have h2 : w g = some (S.encode k) := by simp [w, hfg.symm]
  have p0 : programs S (sameOutput m f g u) 0 = openRead f (openWrite S.empty u (statsTask S f u true)) := rfl
  have p1 : programs S (sameOutput m f g u) 1 = openRead g (openWrite S.empty u (statsTask S g u true)) := rfl
  generalize programs S (sameOutput m f g u) = ps at p0 p1 ⊢
  have e1 : (load S (some (S.encode j)) >>= stats S.se true) = .ok j' := by
    show (S.decode (S.encode j) >>= _) = _
    rw [hdj]
    exact hj
  have e2 : (load S (some (S.encode k)) >>= stats S.se true) = .ok k' := by
    show (S.decode (S.encode k) >>= _) = _
    rw [hdk]
    exact hk
  have run0 : ∀ (x y : F) (a a' : J V), (load S (some (S.encode a)) >>= stats S.se true) = .ok a' → x ≠ u → ∀ w : Files F C,
      w x = some (S.encode a) → (openRead x (openWrite S.empty u (statsTask S x u true))).run w =
        (.success, Function.update w u (some (S.encode a'))) := by
    intro x y a a' ha hx w hw
    simp only [openRead, openWrite, statsTask, Prog.run, hw, Function.update_of_ne hx, ha, output_run, finish, Function.update_idem]
  have order : ∀ (x y : F) (a a' b b' : J V) (i l : Nat), i ≠ l → x ≠ u → y ≠ u → w x = some (S.encode a) → w y = some (S.encode b) →
      (load S (some (S.encode a)) >>= stats S.se true) = .ok a' → (load S (some (S.encode b)) >>= stats S.se true) = .ok b' →
      ps i = openRead x (openWrite S.empty u (statsTask S x u true)) → ps l = openRead y (openWrite S.empty u (statsTask S y u true)) →
      ∃ s, (together ps w s).1 i = .done .success ∧ (together ps w s).1 l = .done .success ∧
        (together ps w s).2 u = some (S.encode b') := by
    intro x y a a' b b' i l hil hx hy hwx hwy ha hb hi hl
    obtain ⟨n, hn⟩ := together_alone _ ps w i hi
    rw [run0 x y a a' ha hx w hwx] at hn
    obtain ⟨n', hn'⟩ := together_alone _ (Function.update ps i (.done .success)) (Function.update w u (some (S.encode a'))) l
      ((Function.update_of_ne hil.symm _ _).trans hl)
    rw [run0 y x b b' hb hy _ (by rw [Function.update_of_ne hy]; exact hwy)] at hn'
    refine ⟨List.replicate n i ++ List.replicate n' l, ?_⟩
    rw [together_append, hn]
    simp only [hn']
    refine ⟨?_, ?_, ?_⟩
    · rw [Function.update_of_ne hil, Function.update_self]
    · rw [Function.update_self]
    · rw [Function.update_self]
  obtain ⟨s, s1, s2, s3⟩ := order f g j j' k k' 0 1 (by decide) hfu hgu h1 h2 e1 e2 p0 p1
  obtain ⟨s', t1, t2, t3⟩ := order g f k k' j j' 1 0 (by decide) hgu hfu h2 h1 e2 e1 p1 p0
  refine ⟨w, s, s', ?_, ?_, ?_⟩
  · intro i hi
    obtain rfl | rfl : i = 0 ∨ i = 1 := by omega
    exacts [s1, s2]
  · intro i hi
    obtain rfl | rfl : i = 0 ∨ i = 1 := by omega
    exacts [t2, t1]
  · rw [s3, t3]
    simpa using hjk.symm

end Kam.Shell
