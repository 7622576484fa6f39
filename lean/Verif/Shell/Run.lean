/-
What the scripts write.
-/
import Verif.Shell.Files

set_option linter.unusedSectionVars false

namespace Kam.Shell
open Scripts
open Exp (Arg Namespace Seen parseArg defaults Script Lib commandLine)

variable {F C : Type} [DecidableEq F]
variable {α φ ε V T γ : Type} [LinearOrder α]

/-! ### Files that are emptied -/

lemma emptied_nil (empty : C) (w : Files F C) : emptied empty w [] = w := by
  funext f; simp [emptied]

lemma emptied_cons (empty : C) (w : Files F C) (f : F) (fs : List F) :
    emptied empty (Function.update w f (some empty)) fs = emptied empty w (f :: fs) := by
  funext g
  unfold emptied
  by_cases h : g = f
  · subst h; simp
  · simp [h]

lemma emptied_append (empty : C) (w : Files F C) (fs gs : List F) :
    emptied empty (emptied empty w fs) gs = emptied empty w (fs ++ gs) := by
  funext g
  unfold emptied
  by_cases h : g ∈ fs <;> by_cases h' : g ∈ gs <;> simp [h, h']

lemma emptied_none {empty : C} {w : Files F C} {fs : List F} {f : F} : emptied empty w fs f = none ↔ w f = none ∧ f ∉ fs := by
  unfold emptied
  by_cases h : f ∈ fs <;> simp [h]

lemma openRead_run (f : F) (k : Prog F C) (w : Files F C) :
    (openRead f k).run w = if w f = none then (.usage, w) else k.run w := by
  unfold openRead
  rw [Prog.run]
  cases e : w f with
  | none => simp [Prog.run]
  | some c => simp

/-! ### The tables a task asks for -/

lemma doTask_load_congr {K M γ' : Type} [Field K] [LinearOrder K] [FloorRing K] {φ' : Type} {env : Env K α ε F V T γ'} {clock : Nat → T}
    {rec : Recommender K α φ' ε V γ' M} {l l' : Loader K α φ' ε F} {s : Setting K F V} {target : Option Int}
    (h1 : ∀ dom, l s.trainFile dom = l' s.trainFile dom) (h2 : ∀ t, s.testFile = some t → ∀ dom, l t dom = l' t dom) :
    doTask env clock rec l s target = doTask env clock rec l' s target := by
  have e1 : ∀ tgt sys, cvTest env clock rec l s tgt sys = cvTest env clock rec l' s tgt sys := by
    intro tgt sys
    unfold cvTest
    rw [h1]
  have e2 : ∀ sys, holdoutTest env clock rec l s sys = holdoutTest env clock rec l' s sys := by
    intro sys
    unfold holdoutTest
    rw [h1]
    cases e : s.testFile with
    | none => rfl
    | some t => simp only [h2 t e]
  unfold doTask
  simp only [e1, e2]

/-- A task asks for the training file and the test file only. -/
lemma task_read_congr {env : Env ℝ α ε F V T γ} {lib : Lib α φ ε V γ} {clock : Nat → T} {environment : Dict String (J V)}
    {read read' : Bool → F → Res (Table ℝ α ε)} {sc : Script} {o : Namespace F}
    (h1 : ∀ b, read b (o.infile.getD o.infilep) = read' b (o.infile.getD o.infilep))
    (h2 : ∀ t, o.testfile = some t → ∀ b, read b t = read' b t) :
    Exp.task env lib clock environment read sc o = Exp.task env lib clock environment read' sc o := by
  unfold Exp.task
  cases hi : Exp.initInfo sc o with
  | error e => rfl
  | ok info =>
    simp only [ok_bind]
    have ht : info.trainFile = o.infile.getD o.infilep ∧ info.testFile = o.testfile := by
      unfold Exp.initInfo at hi
      obtain ⟨⟨a, b, c⟩, _, hi⟩ := bind_ok hi
      simp only [pure, Except.pure, Except.ok.injEq] at hi
      subst hi
      exact ⟨rfl, rfl⟩
    cases Exp.seedOf info.options with
    | error e => rfl
    | ok seed =>
      simp only [ok_bind]
      have hl : ∀ (f : F), (∀ b, read b f = read' b f) → ∀ dom,
          (loadDataSP (read info.hasTimestamp) : Loader ℝ α φ ε F) f dom = loadDataSP (read' info.hasTimestamp) f dom := by
        intro f h dom
        simp only [loadDataSP, h]
      have hl' : ∀ (f : F), (∀ b, read b f = read' b f) → ∀ dom,
          (loadDataIF (read info.hasTimestamp) : Loader ℝ α φ ε F) f dom = loadDataIF (read' info.hasTimestamp) f dom := by
        intro f h dom
        simp only [loadDataIF, h]
      have h1' : ∀ b, read b info.trainFile = read' b info.trainFile := by rw [ht.1]; exact h1
      have h2' : ∀ t, info.testFile = some t → ∀ b, read b t = read' b t := by rw [ht.2]; exact h2
      cases sc with
      | sp =>
        cases info.cls <;>
          exact bind_congr fun x => doTask_load_congr (hl _ h1') (fun t e => hl t (h2' t e))
      | itemFinder =>
        cases info.cls <;>
          exact bind_congr fun x => doTask_load_congr (hl' _ h1') (fun t e => hl' t (h2' t e))

/-! ### exp_recsys_sp.py and exp_recsys_if.py -/

lemma parseArgs_run (empty : C) (sc : Script) : ∀ (args : List (Arg F)) (st : Namespace F × Seen) (k : Namespace F → Prog F C) (w : Files F C),
    (∃ st', args.foldlM (parseArg sc) st = some st' ∧
      (parseArgs empty sc args st k).run w = (k st'.1).run (emptied empty w (args.flatMap argWrites)) ∧
      ∀ f ∈ args.flatMap argReads, w f ≠ none ∨ f ∈ args.flatMap argWrites) ∨
    (((parseArgs empty sc args st k).run w).1 = .usage ∧
      (args.foldlM (parseArg sc) st = none ∨ ∃ f ∈ args.flatMap argReads, w f = none))
  | [], st, k, w => .inl ⟨st, rfl, by simp [parseArgs, emptied_nil], by simp⟩
  | a :: as, st, k, w => by
    have rest : ∀ w' : Files F C, w' = emptied empty w (argWrites a) → (∀ f ∈ argReads a, w f ≠ none) →
        (parseArgs empty sc (a :: as) st k).run w = (match parseArg sc st a with
          | none => .done .usage
          | some st => parseArgs empty sc as st k : Prog F C).run w' →
        (∃ st', (a :: as).foldlM (parseArg sc) st = some st' ∧
          (parseArgs empty sc (a :: as) st k).run w = (k st'.1).run (emptied empty w ((a :: as).flatMap argWrites)) ∧
          ∀ f ∈ (a :: as).flatMap argReads, w f ≠ none ∨ f ∈ (a :: as).flatMap argWrites) ∨
        (((parseArgs empty sc (a :: as) st k).run w).1 = .usage ∧
          ((a :: as).foldlM (parseArg sc) st = none ∨ ∃ f ∈ (a :: as).flatMap argReads, w f = none)) := by
      rintro w' hw' hr e
      rw [e, List.foldlM_cons]
      cases hp : parseArg sc st a with
      | none => right; exact ⟨rfl, .inl rfl⟩
      | some st1 =>
        simp only [Option.bind_eq_bind, Option.bind_some]
        subst hw'
        rcases parseArgs_run empty sc as st1 k (emptied empty w (argWrites a)) with ⟨st', h1, h2, h3⟩ | ⟨h1, h2⟩
        · left
          refine ⟨st', h1, by rw [h2, emptied_append, List.flatMap_cons], fun f hf => ?_⟩
          rw [List.flatMap_cons, List.mem_append] at hf
          rw [List.flatMap_cons, List.mem_append]
          rcases hf with hf | hf
          · exact .inl (hr f hf)
          · rcases h3 f hf with h | h
            · by_cases e : f ∈ argWrites a
              · exact .inr (.inl e)
              · left
                intro h0
                exact h (emptied_none.2 ⟨h0, e⟩)
            · exact .inr (.inr h)
        · right
          refine ⟨h1, h2.imp id (fun ⟨f, hf, h⟩ => ⟨f, ?_, (emptied_none.1 h).1⟩)⟩
          rw [List.flatMap_cons]
          exact List.mem_append_right _ hf
    have read : ∀ f, argReads a = [f] → argWrites a = [] →
        (parseArgs empty sc (a :: as) st k) = openRead f (match parseArg sc st a with
          | none => .done .usage
          | some st => parseArgs empty sc as st k : Prog F C) →
        (∃ st', (a :: as).foldlM (parseArg sc) st = some st' ∧
          (parseArgs empty sc (a :: as) st k).run w = (k st'.1).run (emptied empty w ((a :: as).flatMap argWrites)) ∧
          ∀ f ∈ (a :: as).flatMap argReads, w f ≠ none ∨ f ∈ (a :: as).flatMap argWrites) ∨
        (((parseArgs empty sc (a :: as) st k).run w).1 = .usage ∧
          ((a :: as).foldlM (parseArg sc) st = none ∨ ∃ f ∈ (a :: as).flatMap argReads, w f = none)) := by
      intro f h1 h2 h3
      by_cases hf : w f = none
      · right
        refine ⟨by rw [h3, openRead_run, if_pos hf], .inr ⟨f, ?_, hf⟩⟩
        rw [List.flatMap_cons, h1]
        simp
      · refine rest w (by rw [h2, emptied_nil]) (by rw [h1]; simpa using hf) ?_
        rw [h3, openRead_run, if_neg hf]
    cases a with
    | infile f => exact read f rfl rfl rfl
    | testfile f => exact read f rfl rfl rfl
    | outfile f => exact rest (Function.update w f (some empty)) (by rw [← emptied_nil empty (Function.update w f (some empty)), emptied_cons]; rfl) (by simp [argReads]) rfl
    | _ => exact rest w (by rw [show argWrites _ = [] from rfl, emptied_nil]) (by simp [argReads]) rfl

/-- How a run ends with a result or an exception. -/
def finish (S : Setup F C α φ ε V T γ) (w : Files F C) (out : F) (r : Res (J V)) : Exit × Files F C :=
  match r with
  | .ok j => (.success, Function.update w out (some (S.encode j)))
  | .error e => (.raised e, w)

lemma output_run (S : Setup F C α φ ε V T γ) (u : F) (r : Res (J V)) (w : Files F C) : (output S u r).run w = finish S w u r := by
  cases r with
  | error e => rfl
  | ok j =>
    have : ∀ (cs : List C) (w : Files F C), (puts u cs (.put u (S.encode j) (.done .success))).run w =
        (.success, Function.update w u (some (S.encode j))) := by
      intro cs
      induction cs with
      | nil => exact fun w => rfl
      | cons c cs ih =>
        intro w
        rw [puts, Prog.run, ih, Function.update_idem]
    exact this _ w

lemma expTask_run (S : Setup F C α φ ε V T γ) (m : Machine V T) (sc : Script) (o : Namespace F) (w : Files F C) :
    (expTask S m sc o).run w = finish S w (o.outfile.getD o.outfilep) (Exp.task S.env S.lib m.clock m.environment (reader S w) sc
      { o with infile := some (o.infile.getD o.infilep), outfile := some (o.outfile.getD o.outfilep) }) := by
  unfold expTask
  simp only [Prog.run]
  cases e : o.testfile with
  | none =>
    simp only []
    rw [output_run]
    congr 1
    refine task_read_congr (fun b => rfl) (fun t ht => ?_)
    simp at ht
  | some t =>
    simp only [Prog.run]
    rw [output_run]
    congr 1
    refine task_read_congr (fun b => ?_) (fun t' ht b => ?_)
    · simp only [Option.getD_some, if_true]
      rfl
    · simp only [Option.some.injEq] at ht
      subst ht
      split
      · rename_i h; rw [← h]; rfl
      · rfl

/-- What an experiment script does: either the command line is in order and the files to read are there, and the files to
write are emptied, then filled with the result; or it ends with a message about the usage. -/
lemma exp_run (S : Setup F C α φ ε V T γ) (m : Machine V T) (sc : Script) (args : List (Arg F)) (pos : List F) (w : Files F C) :
    (∃ o u, commandLine sc S.stdin S.stdout args pos = some o ∧ o.outfile = some u ∧
      ((Command.exp sc args pos).prog S m).run w =
        finish S (emptied S.empty w (Command.exp sc args pos).writes) u
          (Exp.task S.env S.lib m.clock m.environment (reader S (emptied S.empty w (Command.exp sc args pos).writes)) sc o) ∧
      ∀ f ∈ (Command.exp sc args pos).reads, w f ≠ none ∨ f ∈ (Command.exp sc args pos).writes) ∨
    ((((Command.exp sc args pos).prog S m).run w).1 = .usage ∧
      (commandLine sc S.stdin S.stdout args pos = none ∨ ∃ f ∈ (Command.exp sc args pos).reads, w f = none)) := by
  have hc : ∀ st, args.foldlM (parseArg sc) (defaults sc S.stdin S.stdout, ⟨false, false, false, false⟩) = some st →
      (pos = [] → commandLine sc S.stdin S.stdout args pos = some { st.1 with
        infile := some (st.1.infile.getD st.1.infilep), outfile := some (st.1.outfile.getD st.1.outfilep) }) ∧
      (∀ i, pos = [i] → commandLine sc S.stdin S.stdout args pos = some { st.1 with
        infilep := i, infile := some (st.1.infile.getD i), outfile := some (st.1.outfile.getD st.1.outfilep) }) ∧
      (∀ i u, pos = [i, u] → commandLine sc S.stdin S.stdout args pos = some { st.1 with
        infilep := i, outfilep := u, infile := some (st.1.infile.getD i), outfile := some (st.1.outfile.getD u) }) ∧
      (∀ i u x xs, pos = i :: u :: x :: xs → commandLine sc S.stdin S.stdout args pos = none) := by
    intro st h
    refine ⟨?_, ?_, ?_, ?_⟩
    · rintro rfl; unfold commandLine; simp only [h]; rfl
    · rintro i rfl; unfold commandLine; simp only [h]; rfl
    · rintro i u rfl; unfold commandLine; simp only [h]; rfl
    · rintro i u x xs rfl; unfold commandLine; simp only [h]; rfl
  have hr : (Command.exp sc args pos).reads = args.flatMap argReads ++ pos.take 1 := rfl
  have hw : (Command.exp sc args pos).writes = args.flatMap argWrites ++ (pos.drop 1).take 1 := rfl
  have hp : (Command.exp sc args pos).prog S m = parseArgs S.empty sc args (defaults sc S.stdin S.stdout, ⟨false, false, false, false⟩) (fun o =>
    parsePos S.empty pos o (expTask S m sc)) := rfl
  rw [hr, hw, hp]
  rcases parseArgs_run S.empty sc args (defaults sc S.stdin S.stdout, ⟨false, false, false, false⟩) (fun o =>
    parsePos S.empty pos o (expTask S m sc)) w with ⟨st', h1, h2, h3⟩ | ⟨h1, h2⟩
  · rw [h2]
    obtain ⟨c1, c2, c3, c4⟩ := hc _ h1
    match pos with
    | [] =>
      left
      refine ⟨_, _, c1 rfl, rfl, ?_, ?_⟩
      · simp only [parsePos, List.drop_nil, List.take_nil, List.append_nil]
        exact expTask_run S m sc _ _
      · simpa using h3
    | [i] =>
      simp only [parsePos, openRead_run]
      by_cases hi : emptied S.empty w (args.flatMap argWrites) i = none
      · right
        rw [if_pos hi]
        exact ⟨rfl, .inr ⟨i, by simp, (emptied_none.1 hi).1⟩⟩
      · left
        rw [if_neg hi]
        refine ⟨_, _, c2 _ rfl, rfl, ?_, ?_⟩
        · simp only [List.drop_succ_cons, List.drop_nil, List.take_nil, List.append_nil]
          exact expTask_run S m sc _ _
        · intro f hf
          simp only [List.drop_succ_cons, List.drop_nil, List.take_nil, List.append_nil]
          rw [List.mem_append] at hf
          rcases hf with hf | hf
          · exact h3 f hf
          · simp only [List.take_succ_cons, List.take_zero, List.mem_singleton] at hf
            subst hf
            by_contra hne
            push Not at hne
            exact hi (emptied_none.2 hne)
    | [i, u] =>
      simp only [parsePos, openRead_run]
      by_cases hi : emptied S.empty w (args.flatMap argWrites) i = none
      · right
        rw [if_pos hi]
        exact ⟨rfl, .inr ⟨i, by simp, (emptied_none.1 hi).1⟩⟩
      · left
        rw [if_neg hi]
        have he : emptied S.empty w (args.flatMap argWrites ++ ([i, u].drop 1).take 1) =
            Function.update (emptied S.empty w (args.flatMap argWrites)) u (some S.empty) := by
          rw [← emptied_append, ← emptied_nil S.empty (Function.update _ _ _), emptied_cons]
          rfl
        rw [he]
        refine ⟨_, _, c3 _ _ rfl, rfl, ?_, ?_⟩
        · exact expTask_run S m sc _ _
        · intro f hf
          rw [List.mem_append] at hf ⊢
          rcases hf with hf | hf
          · exact (h3 f hf).imp id .inl
          · simp only [List.take_succ_cons, List.take_zero, List.mem_singleton] at hf
            subst hf
            by_contra hne
            push Not at hne
            exact hi (emptied_none.2 ⟨hne.1, hne.2.1⟩)
    | i :: u :: x :: xs =>
      right
      simp only [parsePos, openRead_run]
      refine ⟨?_, .inl (c4 _ _ _ _ rfl)⟩
      split <;> rfl
  · right
    refine ⟨h1, h2.imp (fun h => by unfold commandLine; simp only [h]; rfl) (fun ⟨f, hf, h⟩ => ⟨f, List.mem_append_left _ hf, h⟩)⟩

end Kam.Shell
