/-
C126 for the scripts: result files are text, and a file that another run is still writing, or was stopped while writing, is
never taken for a result.

Simplified (Verif/Shell/Model): what a run writes replaces the content of the file, so this is about files that one run at a
time writes.
-/
import Verif.Shell.Pipeline
import Verif.Json.Read

set_option linter.unusedSectionVars false

namespace Kam.Shell
open Scripts Spec Json
open Kam.Convert (Str)
open Exp (Arg Namespace Seen parseArg defaults Script Lib commandLine)

variable {F : Type} [DecidableEq F]
variable {R α φ ε T γ : Type} [LinearOrder α]

/-- Result files are text: they are written with `json.dumps` and read with `json.load`, a file just opened for writing is
empty, and before all of the text is in the file there is the beginning of it. -/
structure Textual (fl : Floats R) (S : Setup F Str α φ ε (Atom R) T γ) : Prop where
  empty : S.empty = []
  encode : S.encode = dumps fl
  decode : S.decode = loads fl
  parts : ∀ j, ∀ c ∈ S.parts j, c <+: dumps fl j

/-- Nothing, or the beginning of the text of a result. -/
def Begun (fl : Floats R) (c : Str) : Prop := ∃ d : Dict String (J (Atom R)), AllKeys d ∧ c <+: dumps fl (.dict d)

/-- Everything the program writes satisfies `P`, whatever it finds in the files. -/
def Prog.Puts {C : Type} (P : C → Prop) : Prog F C → Prop
  | .done _ => True
  | .look _ k => ∀ c, (k c).Puts P
  | .put _ c k => P c ∧ k.Puts P

lemma Prog.Puts.step {C : Type} {P : C → Prop} {p : Prog F C} (h : p.Puts P) (w : Files F C) : (p.step w).1.Puts P := by
  cases p with
  | done x => trivial
  | look f k => exact h _
  | put f c k => exact h.2

lemma Prog.Puts.files {C : Type} {P : C → Prop} {p : Prog F C} (h : p.Puts P) (w : Files F C) (f : F) :
    (p.step w).2 f = w f ∨ ∃ c, (p.step w).2 f = some c ∧ P c := by
  cases p with
  | done x => exact .inl rfl
  | look f k => exact .inl rfl
  | put g c k =>
    by_cases e : f = g
    · subst e
      exact .inr ⟨c, by simp [Prog.step], h.1⟩
    · exact .inl (by simp [Prog.step, Function.update_of_ne e])

lemma together_puts {C : Type} {P : C → Prop} {ps : Nat → Prog F C} (h : ∀ i, (ps i).Puts P) (w : Files F C)
    (schedule : List Nat) (f : F) :
    (together ps w schedule).2 f = w f ∨ ∃ c, (together ps w schedule).2 f = some c ∧ P c := by
  induction schedule generalizing ps w with
  | nil => exact .inl rfl
  | cons i is ih =>
    simp only [together]
    have h' : ∀ j, (Function.update ps i ((ps i).step w).1 j).Puts P := by
      intro j
      by_cases e : j = i
      · subst e; rw [Function.update_self]; exact (h j).step w
      · rw [Function.update_of_ne e]; exact h j
    rcases ih h' ((ps i).step w).2 with b | b
    · rw [b]
      exact (h i).files w f
    · exact .inr b

section puts
variable {C V : Type} {P : C → Prop} {S : Setup F C α φ ε V T γ}

lemma openRead_puts {f : F} {k : Prog F C} (h : k.Puts P) : (openRead f k).Puts P := by
  intro c
  cases c with
  | none => trivial
  | some c => exact h

lemma openWrite_puts {e : C} {f : F} {k : Prog F C} (he : P e) (h : k.Puts P) : (openWrite e f k).Puts P := ⟨he, h⟩

lemma parseArgs_puts {e : C} (he : P e) {sc : Script} {k : Namespace F → Prog F C} (hk : ∀ o, (k o).Puts P) :
    ∀ (args : List (Arg F)) (st : Namespace F × Seen), (parseArgs e sc args st k).Puts P
  | [], st => hk _
  | a :: as, st => by
    have h : (match parseArg sc st a with
        | none => Prog.done .usage
        | some st => parseArgs e sc as st k : Prog F C).Puts P := by
      cases parseArg sc st a with
      | none => trivial
      | some st => exact parseArgs_puts he hk as st
    rw [parseArgs]
    cases a
    case infile => exact openRead_puts h
    case testfile f => exact openRead_puts h
    case outfile f => exact openWrite_puts he h
    all_goals exact h

lemma parseMergeArgs_puts {e : C} (he : P e) {k : F → Prog F C} (hk : ∀ u, (k u).Puts P) :
    ∀ (args : List (MergeArg F)) (st : Bool × Bool × F), (parseMergeArgs e args st k).Puts P
  | [], (_, _, u) => hk u
  | .verbose :: as, (v, q, u) => by
    rw [parseMergeArgs]
    split
    · trivial
    · exact parseMergeArgs_puts he hk as _
  | .quiet :: as, (v, q, u) => by
    rw [parseMergeArgs]
    split
    · trivial
    · exact parseMergeArgs_puts he hk as _
  | .outfile f :: as, (v, q, u) => by
    rw [parseMergeArgs]
    exact openWrite_puts he (parseMergeArgs_puts he hk as _)

lemma parseStatsArgs_puts {e : C} (he : P e) {k : StatsOpts F → Prog F C} (hk : ∀ o, (k o).Puts P) :
    ∀ (args : List (StatsArg F)) (o : StatsOpts F), (parseStatsArgs e args o k).Puts P
  | [], o => hk o
  | .rseed _ :: as, o => by rw [parseStatsArgs]; exact parseStatsArgs_puts he hk as _
  | .infile f :: as, o => by rw [parseStatsArgs]; exact openRead_puts (parseStatsArgs_puts he hk as _)
  | .outfile f :: as, o => by rw [parseStatsArgs]; exact openWrite_puts he (parseStatsArgs_puts he hk as _)
  | .noKeepdata :: as, o => by
    rw [parseStatsArgs]
    split
    · trivial
    · exact parseStatsArgs_puts he hk as _
  | .keepdata :: as, o => by
    rw [parseStatsArgs]
    split
    · trivial
    · exact parseStatsArgs_puts he hk as _

lemma openReads_puts : ∀ (fs : List F) {k : Prog F C}, k.Puts P → (openReads fs k).Puts P
  | [], _, h => h
  | f :: fs, _, h => openRead_puts (openReads_puts fs h)

lemma puts_puts {f : F} : ∀ (cs : List C) {k : Prog F C}, (∀ c ∈ cs, P c) → k.Puts P → (puts f cs k).Puts P
  | [], _, _, h => h
  | c :: cs, _, hc, h => ⟨hc c List.mem_cons_self, puts_puts cs (fun d hd => hc d (List.mem_cons_of_mem _ hd)) h⟩

lemma output_puts {u : F} {r : Res (J V)} (h : ∀ j, r = .ok j → P (S.encode j) ∧ ∀ c ∈ S.parts j, P c) : (output S u r).Puts P := by
  cases r with
  | error e => trivial
  | ok j => exact puts_puts _ (h j rfl).2 ⟨(h j rfl).1, trivial⟩

end puts

section text
variable {fl : Floats R} {S : Setup F Str α φ ε (Atom R) T γ}

lemma Textual.output (hS : Textual fl S) {u : F} {r : Res (J (Atom R))} (h : ∀ j, r = .ok j → J.Result j) :
    (output S u r).Puts (Begun fl) := by
  refine output_puts (fun j hj => ?_)
  obtain ⟨d, rfl, hd⟩ := h j hj
  rw [hS.encode]
  exact ⟨⟨d, hd, List.prefix_refl _⟩, fun c hc => ⟨d, hd, hS.parts _ c hc⟩⟩

lemma Textual.begun_empty (hS : Textual fl S) : Begun fl S.empty := by
  rw [hS.empty]
  exact ⟨[], .nil, List.nil_prefix⟩

lemma Textual.load (hS : Textual fl S) {c : Option Str} {j : J (Atom R)} (h : load S c = .ok j) : J.Keys j := by
  cases c with
  | none => cases h
  | some c =>
    rw [Shell.load, hS.decode] at h
    exact loads_keys h

lemma Textual.mergeRest (hS : Textual fl S) {u : F} : ∀ (fs : List F) {cv : J (Atom R)}, J.Keys cv →
    (mergeRest S u fs cv).Puts (Begun fl)
  | [], cv, h => hS.output (fun j hj => h.setItem2 (.leaf _) hj)
  | f :: fs, cv, h => by
    intro c
    dsimp only
    split
    · rename_i cv' hcv
      obtain ⟨j, h1, h2⟩ := bind_ok hcv
      exact Textual.mergeRest hS fs (restFold_keys (hS.load h1) h h2)
    · trivial

lemma Textual.mergeTask (hS : Textual fl S) {u : F} (fs : List F) : (mergeTask S u fs).Puts (Begun fl) := by
  cases fs with
  | nil => trivial
  | cons f fs =>
    intro c
    dsimp only
    split
    · rename_i cv' hcv
      obtain ⟨j, h1, h2⟩ := bind_ok hcv
      exact hS.mergeRest fs (firstFold_keys (hS.load h1) h2).keys
    · trivial

lemma Textual.expTask (hS : Textual fl S) (hn : S.env.names.Nodup) (hl : S.lib.Keys) {m : Machine (Atom R) T}
    (hm : AllKeys m.environment) {sc : Script} {o : Namespace F} : (expTask S m sc o).Puts (Begun fl) := by
  intro c
  dsimp only
  split
  · exact hS.output (fun j hj => Exp.task_keys hn hl hm hj)
  · intro d
    exact hS.output (fun j hj => Exp.task_keys hn hl hm hj)

lemma Textual.statsTask (hS : Textual fl S) {i u : F} {keep : Bool} : (statsTask S i u keep).Puts (Begun fl) := by
  intro c
  refine hS.output (fun j hj => ?_)
  obtain ⟨i, h1, h2⟩ := bind_ok hj
  exact stats_keys (hS.load h1) h2

/-- A command writes nothing but the beginnings of results. -/
lemma Textual.prog (hS : Textual fl S) (hn : S.env.names.Nodup) (hl : S.lib.Keys) {m : Machine (Atom R) T}
    (hm : AllKeys m.environment) (cmd : Command F) : (cmd.prog S m).Puts (Begun fl) := by
  have he := hS.begun_empty
  cases cmd with
  | exp sc args pos =>
    refine parseArgs_puts he (fun o => ?_) args _
    have task : ∀ o, (Shell.expTask S m sc o).Puts (Begun fl) := fun o => hS.expTask hn hl hm
    match pos with
    | [] => exact task _
    | [i] => exact openRead_puts (task _)
    | [i, u] => exact openRead_puts (openWrite_puts he (task _))
    | i :: u :: x :: xs => exact openRead_puts (openWrite_puts he trivial)
  | merge args pos =>
    refine parseMergeArgs_puts he (fun u => ?_) args _
    cases pos with
    | nil => trivial
    | cons f fs => exact openReads_puts _ (hS.mergeTask _)
  | stats args pos =>
    refine parseStatsArgs_puts he (fun o => ?_) args _
    match pos with
    | [] => exact hS.statsTask
    | [i] => exact openRead_puts hS.statsTask
    | [i, u] => exact openRead_puts (openWrite_puts he hS.statsTask)
    | i :: u :: x :: xs => exact openRead_puts (openWrite_puts he trivial)

/-- **C126**: commands run at the same time, mixed in any way, some of them perhaps stopped.  At every moment, a file that can
be read as a result is as it was in the beginning, or it has the complete text of the result: nobody reads half a result. -/
theorem C126_never_half (hf : fl.Faithful) (hS : Textual fl S) (hn : S.env.names.Nodup) (hl : S.lib.Keys)
    (cmds : List (Machine (Atom R) T × Command F)) (hm : ∀ c ∈ cmds, AllKeys c.1.environment) (w : Files F Str)
    (schedule : List Nat) (f : F) {j : J (Atom R)} (h : load S ((together (programs S cmds) w schedule).2 f) = .ok j) :
    (together (programs S cmds) w schedule).2 f = w f ∨ (together (programs S cmds) w schedule).2 f = some (dumps fl j) := by
  have hp : ∀ i, (programs S cmds i).Puts (Begun fl) := by
    intro i
    unfold programs
    cases hi : cmds[i]? with
    | none => trivial
    | some c => exact hS.prog hn hl (hm c (List.mem_of_getElem? hi)) c.2
  rcases together_puts hp w schedule f with e | ⟨c, e, d, hd, t, ht⟩
  · exact .inl e
  · right
    rw [e] at h ⊢
    rw [load, hS.decode] at h
    by_cases h0 : t = []
    · subst h0
      rw [List.append_nil] at ht
      subst ht
      rw [C125_roundtrip hf hd.dict] at h
      cases h
      rfl
    · rw [C126_cut_off hf hd.dict h0 ht.symm] at h
      cases h

/-- **C126**: every file a command has touched is, at every moment, as it was or the beginning of the text of a result; a merge
or statistics of it raises `ValueError` unless it is all of the text. -/
theorem C126_beginnings (hf : fl.Faithful) (hS : Textual fl S) (hn : S.env.names.Nodup) (hl : S.lib.Keys)
    (cmds : List (Machine (Atom R) T × Command F)) (hm : ∀ c ∈ cmds, AllKeys c.1.environment) (w : Files F Str)
    (schedule : List Nat) (f : F) :
    (together (programs S cmds) w schedule).2 f = w f ∨
      ∃ d t c, AllKeys d ∧ dumps fl (.dict d) = c ++ t ∧ (together (programs S cmds) w schedule).2 f = some c ∧
        (t ≠ [] → load S (some c) = .error .valueError) ∧ (t = [] → load S (some c) = .ok (.dict d)) := by
  have hp : ∀ i, (programs S cmds i).Puts (Begun fl) := by
    intro i
    unfold programs
    cases hi : cmds[i]? with
    | none => trivial
    | some c => exact hS.prog hn hl (hm c (List.mem_of_getElem? hi)) c.2
  rcases together_puts hp w schedule f with e | ⟨c, e, d, hd, t, ht⟩
  · exact .inl e
  · refine .inr ⟨d, t, c, hd, ht.symm, e, ?_, ?_⟩
    · intro h0
      rw [load, hS.decode]
      exact C126_cut_off hf hd.dict h0 ht.symm
    · rintro rfl
      rw [List.append_nil] at ht
      subst ht
      rw [load, hS.decode]
      exact C125_roundtrip hf hd.dict

/-- **C125**: every result of the scripts is read back as it was written: those of the experiment scripts, and those of the
merge and statistics scripts when their input was read from any text. -/
theorem C125_results (hf : fl.Faithful) :
    (∀ (env : Env ℝ α ε F (Atom R) T γ) (lib : Lib α φ ε (Atom R) γ) clock environment read sc o j, env.names.Nodup → lib.Keys →
      AllKeys environment → Exp.task env lib clock environment read sc o = .ok j → loads fl (dumps fl j) = .ok j) ∧
    (∀ tru out texts js j, List.Forall₂ (fun t i => loads fl t = .ok i) texts js → merge tru out js = .ok j →
      loads fl (dumps fl j) = .ok j) ∧
    ∀ (se : StatsEnv (Atom R)) keep text i j, loads fl text = .ok i → stats se keep i = .ok j → loads fl (dumps fl j) = .ok j := by
  refine ⟨fun env lib clock environment read sc o j hn hl he h => ?_, fun tru out texts js j ht h => ?_, fun se keep text i j ht h => ?_⟩
  · exact C125_roundtrip hf (Exp.task_keys hn hl he h).keys
  · refine C125_roundtrip hf (merge_keys ?_ h).keys
    clear h
    induction ht with
    | nil => simp
    | cons h1 _ ih =>
      intro f hf'
      rcases List.mem_cons.1 hf' with rfl | hf'
      · exact loads_keys h1
      · exact ih f hf'
  · exact C125_roundtrip hf (stats_keys (loads_keys ht) h).keys

/-- Text files meet the condition of C112. -/
theorem Textual.read_back (hf : fl.Faithful) (hS : Textual fl S) (j : J (Atom R)) (h : J.Result j) :
    S.decode (S.encode j) = .ok j := by
  rw [hS.encode, hS.decode]
  exact C125_roundtrip hf h.keys

end text

end Kam.Shell
