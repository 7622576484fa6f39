/-
Which files the scripts look at and write.
-/
import Verif.Shell.Lemmas

set_option linter.unusedSectionVars false

namespace Kam.Shell
open Scripts
open Exp (Arg Namespace Seen parseArg defaults Script Lib commandLine)

variable {F C : Type}

/-! ### Specification -/

/-- The files a command line names for reading. -/
def Command.reads : Command F → List F
  | .exp _ args pos => args.flatMap (fun a => match a with
      | .infile f => [f]
      | .testfile f => [f]
      | _ => []) ++ pos.take 1
  | .merge _ pos => pos
  | .stats args pos => args.flatMap (fun a => match a with
      | .infile f => [f]
      | _ => []) ++ pos.take 1

/-- The files a command line names for writing. -/
def Command.writes : Command F → List F
  | .exp _ args pos => args.flatMap (fun a => match a with
      | .outfile f => [f]
      | _ => []) ++ (pos.drop 1).take 1
  | .merge args _ => args.flatMap (fun a => match a with
      | .outfile f => [f]
      | _ => [])
  | .stats args pos => args.flatMap (fun a => match a with
      | .outfile f => [f]
      | _ => []) ++ (pos.drop 1).take 1

/-- The files a command writes: those named, or standard output. -/
def Command.targets (stdout : F) (cmd : Command F) : List F := if cmd.writes.isEmpty then [stdout] else cmd.writes

variable [DecidableEq F]

/-- The files after some of them were opened for writing. -/
def emptied (empty : C) (w : Files F C) (fs : List F) : Files F C := fun f => if f ∈ fs then some empty else w f

variable {α φ ε V T γ : Type} [LinearOrder α]

/-- The arrays of the files of a machine. -/
def reader (S : Setup F C α φ ε V T γ) (w : Files F C) (b : Bool) (f : F) : Res (Table ℝ α ε) :=
  match w f with
  | some c => S.table b c
  | none => .error .ioError

/-! ### Footprints and contents -/

/-- The content `c` can be found in a file while a result is written, with `full` in it in the end. -/
def Setup.part (S : Setup F C α φ ε V T γ) (c full : C) : Prop := ∃ j, full = S.encode j ∧ c ∈ S.parts j

section
variable {S : Setup F C α φ ε V T γ} {R W : F → Prop} {empty : C}

lemma openRead_within {f : F} {k : Prog F C} (hf : R f) (hk : k.Within R W) : (openRead f k).Within R W := by
  refine ⟨hf, fun c => ?_⟩
  cases c with
  | none => trivial
  | some c => exact hk

lemma openRead_clean {f : F} {k : Prog F C} (hk : k.Clean empty (S.part)) : (openRead f k).Clean empty (S.part) := by
  intro c
  cases c with
  | none => trivial
  | some c => exact hk

lemma openWrite_within {f : F} {k : Prog F C} (hf : W f) (hk : k.Within R W) : (openWrite empty f k).Within R W := ⟨hf, hk⟩

lemma openWrite_clean {f : F} {k : Prog F C} (hk : k.Clean empty (S.part)) : (openWrite empty f k).Clean empty (S.part) := .inl ⟨rfl, hk⟩

lemma output_within {u : F} (hu : W u) (r : Res (J V)) : (output S u r).Within R W := by
  cases r with
  | error e => trivial
  | ok j =>
    show (puts u (S.parts j) (.put u (S.encode j) (.done .success))).Within R W
    induction S.parts j with
    | nil => exact ⟨hu, trivial⟩
    | cons c cs ih => exact ⟨hu, ih⟩

lemma output_clean {u : F} (r : Res (J V)) : (output S u r).Clean empty (S.part) := by
  cases r with
  | error e => trivial
  | ok j =>
    have : ∀ cs : List C, (∀ c ∈ cs, c ∈ S.parts j) →
        (puts u cs (.put u (S.encode j) (.done .success))).Writing S.part u (S.encode j) := by
      intro cs
      induction cs with
      | nil => exact fun _ => ⟨rfl, .inl ⟨rfl, rfl⟩⟩
      | cons c cs ih =>
        exact fun h => ⟨rfl, .inr ⟨⟨j, rfl, h c (by simp)⟩, ih (fun c' hc => h c' (by simp [hc]))⟩⟩
    exact (this (S.parts j) (fun _ h => h)).clean

/-- The files of an option. -/
def argReads (a : Arg F) : List F := match a with
  | .infile f => [f]
  | .testfile f => [f]
  | _ => []

/-- See `argReads`. -/
def argWrites (a : Arg F) : List F := match a with
  | .outfile f => [f]
  | _ => []

/-- The files of the options are among those named, or standard ones. -/
def Fine (stdin stdout : F) (rs ws : List F) (o : Namespace F) : Prop :=
  (∀ f, o.infile = some f → f ∈ rs) ∧ (o.infilep ∈ rs ∨ o.infilep = stdin) ∧ (∀ f, o.testfile = some f → f ∈ rs) ∧
  (∀ f, o.outfile = some f → f ∈ ws) ∧ (o.outfilep ∈ ws ∨ o.outfilep = stdout)

lemma parseArg_fine {sc : Script} {stdin stdout : F} {rs ws : List F} {st st' : Namespace F × Seen} {a : Arg F}
    (h : parseArg sc st a = some st') (hf : Fine stdin stdout rs ws st.1) (hr : ∀ f ∈ argReads a, f ∈ rs) (hw : ∀ f ∈ argWrites a, f ∈ ws) :
    Fine stdin stdout rs ws st'.1 := by
  obtain ⟨o, s⟩ := st
  obtain ⟨h1, h2, h3, h4, h5⟩ := hf
  cases a <;> simp only [parseArg, Option.some.injEq] at h <;>
    first
    | (subst h; exact ⟨h1, h2, h3, h4, h5⟩)
    | (split at h
       · cases h
       · simp only [Option.some.injEq] at h; subst h; exact ⟨h1, h2, h3, h4, h5⟩)
    | (split at h
       · simp only [Option.some.injEq] at h; subst h; exact ⟨h1, h2, h3, h4, h5⟩
       · cases h)
    | (subst h
       simp only [argReads, argWrites, List.mem_singleton, forall_eq] at hr hw
       refine ⟨?_, h2, ?_, ?_, h5⟩ <;> simp_all)

lemma parseArg_outfile {sc : Script} {st st' : Namespace F × Seen} {a : Arg F} (h : parseArg sc st a = some st') (as : List (Arg F))
    (ho : st.1.outfile ≠ none ∨ (a :: as).flatMap argWrites ≠ []) : st'.1.outfile ≠ none ∨ as.flatMap argWrites ≠ [] := by
  obtain ⟨o, s⟩ := st
  rw [List.flatMap_cons] at ho
  cases a <;> simp only [parseArg, Option.some.injEq] at h <;>
    first
    | (subst h; exact ho)
    | (split at h
       · cases h
       · simp only [Option.some.injEq] at h; subst h; exact ho)
    | (split at h
       · simp only [Option.some.injEq] at h; subst h; exact ho
       · cases h)
    | (subst h
       left
       simp)

lemma parseArgs_within {sc : Script} {stdin stdout : F} {rs ws : List F} :
    ∀ (args : List (Arg F)) (st : Namespace F × Seen) (k : Namespace F → Prog F C),
    (∀ f ∈ args.flatMap argReads, f ∈ rs) → (∀ f ∈ args.flatMap argWrites, f ∈ ws) → Fine stdin stdout rs ws st.1 →
    (∀ f ∈ rs, R f) → (∀ f ∈ ws, W f) →
    (∀ o, Fine stdin stdout rs ws o → (st.1.outfile ≠ none ∨ args.flatMap argWrites ≠ [] → o.outfile ≠ none) → (k o).Within R W) →
    (parseArgs empty sc args st k).Within R W
  | [], st, k, _, _, hf, _, _, hk => hk _ hf (fun h => h.elim id (fun h => absurd rfl h))
  | a :: as, st, k, hr, hw, hf, hR, hW, hk => by
    have hr1 : ∀ f ∈ argReads a, f ∈ rs := fun f h => hr f (List.mem_flatMap.2 ⟨a, by simp, h⟩)
    have hw1 : ∀ f ∈ argWrites a, f ∈ ws := fun f h => hw f (List.mem_flatMap.2 ⟨a, by simp, h⟩)
    have rest : (match parseArg sc st a with
        | none => .done .usage
        | some st => parseArgs empty sc as st k : Prog F C).Within R W := by
      cases e : parseArg sc st a with
      | none => trivial
      | some st' =>
        exact parseArgs_within as st' k (fun f h => hr f (by rw [List.flatMap_cons]; exact List.mem_append_right _ h))
          (fun f h => hw f (by rw [List.flatMap_cons]; exact List.mem_append_right _ h)) (parseArg_fine e hf hr1 hw1) hR hW
          (fun o h1 h2 => hk o h1 (fun h3 => h2 (parseArg_outfile e as h3)))
    unfold parseArgs openArg
    cases a <;> first
      | exact rest
      | exact openRead_within (hR _ (hr1 _ (by simp [argReads]))) rest
      | exact openWrite_within (hW _ (hw1 _ (by simp [argWrites]))) rest

lemma parseArgs_clean {sc : Script} : ∀ (args : List (Arg F)) (st : Namespace F × Seen) (k : Namespace F → Prog F C),
    (∀ o, (k o).Clean empty (S.part)) → (parseArgs empty sc args st k).Clean empty (S.part)
  | [], st, k, hk => hk _
  | a :: as, st, k, hk => by
    have rest : (match parseArg sc st a with
        | none => .done .usage
        | some st => parseArgs empty sc as st k : Prog F C).Clean empty (S.part) := by
      cases e : parseArg sc st a with
      | none => trivial
      | some st' => exact parseArgs_clean as st' k hk
    unfold parseArgs openArg
    cases a <;> first
      | exact rest
      | exact openRead_clean rest
      | exact openWrite_clean rest

lemma expTask_within {m : Machine V T} {sc : Script} {rs ws : List F} (hR : ∀ f ∈ rs, R f) (hW : ∀ f ∈ ws, W f)
    (hR' : R S.stdin) {o : Namespace F} (hW' : o.outfile = none → W o.outfilep) (h : Fine S.stdin S.stdout rs ws o) :
    (expTask S m sc o).Within R W := by
  obtain ⟨h1, h2, h3, h4, h5⟩ := h
  have hi : R (o.infile.getD o.infilep) := by
    cases e : o.infile with
    | none => exact h2.elim (hR _) (fun e => e ▸ hR')
    | some f => exact hR _ (h1 f e)
  have hu : W (o.outfile.getD o.outfilep) := by
    cases e : o.outfile with
    | none => exact hW' e
    | some f => exact hW _ (h4 f e)
  refine ⟨hi, fun c => ?_⟩
  cases e : o.testfile with
  | none => exact output_within hu _
  | some t => exact ⟨hR _ (h3 t e), fun d => output_within hu _⟩

lemma expTask_clean {m : Machine V T} {sc : Script} {o : Namespace F} : (expTask S m sc o).Clean empty (S.part) := by
  intro c
  cases e : o.testfile with
  | none => exact output_clean _
  | some t => exact fun d => output_clean _

lemma openReads_within : ∀ (fs : List F) (k : Prog F C), (∀ f ∈ fs, R f) → k.Within R W → (openReads fs k).Within R W
  | [], _, _, hk => hk
  | f :: fs, k, h, hk => openRead_within (h f (by simp)) (openReads_within fs k (fun g hg => h g (by simp [hg])) hk)

lemma openReads_clean : ∀ (fs : List F) (k : Prog F C), k.Clean empty (S.part) → (openReads fs k).Clean empty (S.part)
  | [], _, hk => hk
  | _ :: fs, k, hk => openRead_clean (openReads_clean fs k hk)

lemma mergeRest_within {u : F} (hu : W u) : ∀ (fs : List F) (cv : J V), (∀ f ∈ fs, R f) → (mergeRest S u fs cv).Within R W
  | [], cv, _ => output_within hu _
  | f :: fs, cv, h => by
    refine ⟨h f (by simp), fun c => ?_⟩
    beta_reduce
    cases load S c >>= fun j => restFold j cv with
    | error e => trivial
    | ok cv => exact mergeRest_within hu fs cv (fun g hg => h g (by simp [hg]))

lemma mergeRest_clean {u : F} : ∀ (fs : List F) (cv : J V), (mergeRest S u fs cv).Clean empty (S.part)
  | [], cv => output_clean _
  | f :: fs, cv => by
    intro c
    beta_reduce
    cases load S c >>= fun j => restFold j cv with
    | error e => trivial
    | ok cv => exact mergeRest_clean fs cv

lemma mergeTask_within {u : F} (hu : W u) (fs : List F) (h : ∀ f ∈ fs, R f) : (mergeTask S u fs).Within R W := by
  cases fs with
  | nil => trivial
  | cons f fs =>
    refine ⟨h f (by simp), fun c => ?_⟩
    beta_reduce
    cases load S c >>= firstFold S.tru with
    | error e => trivial
    | ok cv => exact mergeRest_within hu fs cv (fun g hg => h g (by simp [hg]))

lemma mergeTask_clean {u : F} (fs : List F) : (mergeTask S u fs).Clean empty (S.part) := by
  cases fs with
  | nil => trivial
  | cons f fs =>
    intro c
    beta_reduce
    cases load S c >>= firstFold S.tru with
    | error e => trivial
    | ok cv => exact mergeRest_clean fs cv

/-- The files of an option of the merging script. -/
def mergeWrites (a : MergeArg F) : List F := match a with
  | .outfile f => [f]
  | _ => []

lemma parseMergeArgs_within : ∀ (args : List (MergeArg F)) (st : Bool × Bool × F) (k : F → Prog F C),
    (∀ f ∈ args.flatMap mergeWrites, W f) → (args.flatMap mergeWrites = [] → W st.2.2) → (∀ u, W u → (k u).Within R W) → (parseMergeArgs empty args st k).Within R W
  | [], (_, _, u), k, _, hu, hk => hk u (hu rfl)
  | a :: as, (v, q, u), k, hw, hu, hk => by
    have hw' : ∀ f ∈ as.flatMap mergeWrites, W f := fun f h => hw f (by rw [List.flatMap_cons]; exact List.mem_append_right _ h)
    cases a with
    | verbose =>
      unfold parseMergeArgs
      split
      · trivial
      · exact parseMergeArgs_within as _ k hw' hu hk
    | quiet =>
      unfold parseMergeArgs
      split
      · trivial
      · exact parseMergeArgs_within as _ k hw' hu hk
    | outfile f =>
      have hf : W f := hw f (by simp [mergeWrites])
      exact openWrite_within hf (parseMergeArgs_within as _ k hw' (fun _ => hf) hk)

lemma parseMergeArgs_clean : ∀ (args : List (MergeArg F)) (st : Bool × Bool × F) (k : F → Prog F C),
    (∀ u, (k u).Clean empty (S.part)) → (parseMergeArgs empty args st k).Clean empty (S.part)
  | [], (_, _, u), k, hk => hk u
  | a :: as, (v, q, u), k, hk => by
    cases a with
    | verbose =>
      unfold parseMergeArgs
      split
      · trivial
      · exact parseMergeArgs_clean as _ k hk
    | quiet =>
      unfold parseMergeArgs
      split
      · trivial
      · exact parseMergeArgs_clean as _ k hk
    | outfile f => exact openWrite_clean (parseMergeArgs_clean as _ k hk)

/-- The files of an option of the statistics script. -/
def statsReads (a : StatsArg F) : List F := match a with
  | .infile f => [f]
  | _ => []

/-- See `statsReads`. -/
def statsWrites (a : StatsArg F) : List F := match a with
  | .outfile f => [f]
  | _ => []

lemma parseStatsArgs_within : ∀ (args : List (StatsArg F)) (o : StatsOpts F) (k : StatsOpts F → Prog F C),
    (∀ f ∈ args.flatMap statsReads, R f) → (∀ f ∈ args.flatMap statsWrites, W f) →
    (∀ f, o.infile = some f → R f) → (∀ f, o.outfile = some f → W f) →
    (∀ o' : StatsOpts F, (∀ f, o'.infile = some f → R f) → (∀ f, o'.outfile = some f → W f) →
      (o.outfile ≠ none ∨ args.flatMap statsWrites ≠ [] → o'.outfile ≠ none) → (k o').Within R W) →
    (parseStatsArgs empty args o k).Within R W
  | [], o, k, _, _, hi, ho, hk => hk o hi ho (fun h => h.elim id (fun h => absurd rfl h))
  | a :: as, o, k, hr, hw, hi, ho, hk => by
    have hr' : ∀ f ∈ as.flatMap statsReads, R f := fun f h => hr f (by rw [List.flatMap_cons]; exact List.mem_append_right _ h)
    have hw' : ∀ f ∈ as.flatMap statsWrites, W f := fun f h => hw f (by rw [List.flatMap_cons]; exact List.mem_append_right _ h)
    cases a with
    | rseed n => exact parseStatsArgs_within as o k hr' hw' hi ho hk
    | infile f =>
      have hf : R f := hr f (by simp [statsReads])
      exact openRead_within hf (parseStatsArgs_within as _ k hr' hw' (by simpa using hf) ho hk)
    | outfile f =>
      have hf : W f := hw f (by simp [statsWrites])
      exact openWrite_within hf (parseStatsArgs_within as _ k hr' hw' hi (by simpa using hf) (fun o' h1 h2 h3 => hk o' h1 h2 (fun _ => h3 (.inl (by simp)))))
    | noKeepdata =>
      unfold parseStatsArgs
      split
      · trivial
      · exact parseStatsArgs_within as _ k hr' hw' hi ho hk
    | keepdata =>
      unfold parseStatsArgs
      split
      · trivial
      · exact parseStatsArgs_within as _ k hr' hw' hi ho hk

lemma parseStatsArgs_clean : ∀ (args : List (StatsArg F)) (o : StatsOpts F) (k : StatsOpts F → Prog F C),
    (∀ o, (k o).Clean empty (S.part)) → (parseStatsArgs empty args o k).Clean empty (S.part)
  | [], o, k, hk => hk o
  | a :: as, o, k, hk => by
    cases a with
    | rseed n => exact parseStatsArgs_clean as o k hk
    | infile f => exact openRead_clean (parseStatsArgs_clean as _ k hk)
    | outfile f => exact openWrite_clean (parseStatsArgs_clean as _ k hk)
    | noKeepdata =>
      unfold parseStatsArgs
      split
      · trivial
      · exact parseStatsArgs_clean as _ k hk
    | keepdata =>
      unfold parseStatsArgs
      split
      · trivial
      · exact parseStatsArgs_clean as _ k hk

end

/-- A command looks at the files named for reading and at standard input, and writes the files named for writing or, when
there are none, standard output. -/
lemma prog_within (S : Setup F C α φ ε V T γ) (m : Machine V T) (cmd : Command F) :
    (cmd.prog S m).Within (fun f => f ∈ cmd.reads ∨ f = S.stdin) (fun f => f ∈ cmd.targets S.stdout) := by
  have hT : ∀ f, f ∈ cmd.writes → f ∈ cmd.targets S.stdout := by
    intro f hf
    unfold Command.targets
    rw [if_neg (by simpa using List.ne_nil_of_mem hf)]
    exact hf
  have hS : cmd.writes = [] → S.stdout ∈ cmd.targets S.stdout := by
    intro h
    unfold Command.targets
    rw [h]
    simp
  generalize hTe : cmd.targets S.stdout = ts at hT hS
  clear hTe
  cases cmd with
  | exp sc args pos =>
    refine parseArgs_within (stdin := S.stdin) (stdout := S.stdout) (rs := (Command.exp sc args pos).reads) (ws := (Command.exp sc args pos).writes)
      args _ _ (fun f h => List.mem_append_left _ h) (fun f h => List.mem_append_left _ h)
      ⟨fun _ h => by simp [defaults] at h, .inr rfl, fun _ h => by simp [defaults] at h, fun _ h => by simp [defaults] at h, .inr rfl⟩
      (fun f h => .inl h) hT (fun o h hou => ?_)
    have task : ∀ o : Namespace F, (o.outfile = none → o.outfilep ∈ ts) →
        Fine S.stdin S.stdout (Command.exp sc args pos).reads (Command.exp sc args pos).writes o →
        (expTask S m sc o).Within (fun f => f ∈ (Command.exp sc args pos).reads ∨ f = S.stdin) (fun f => f ∈ ts) :=
      fun o ho h => expTask_within (fun f h => .inl h) hT (.inr rfl) ho h
    have hnone : o.outfile = none → args.flatMap argWrites = [] := by
      intro h
      by_contra hne
      exact hou (.inr hne) h
    obtain ⟨h1, h2, h3, h4, h5⟩ := h
    have hstd : (pos.drop 1).take 1 = [] → o.outfile = none → o.outfilep ∈ ts := by
      intro hp hn
      rcases h5 with h5 | h5
      · exact hT _ h5
      · rw [h5]
        exact hS (by
          show args.flatMap argWrites ++ (pos.drop 1).take 1 = []
          rw [hnone hn, hp]
          rfl)
    match pos with
    | [] => exact task o (hstd rfl) ⟨h1, h2, h3, h4, h5⟩
    | [i] =>
      have hi : i ∈ (Command.exp sc args [i]).reads := by simp [Command.reads]
      exact openRead_within (.inl hi) (task _ (hstd rfl) ⟨h1, .inl hi, h3, h4, h5⟩)
    | [i, u] =>
      have hi : i ∈ (Command.exp sc args [i, u]).reads := by simp [Command.reads]
      have hu : u ∈ (Command.exp sc args [i, u]).writes := by simp [Command.writes]
      exact openRead_within (.inl hi) (openWrite_within (hT _ hu) (task _ (fun _ => hT _ hu) ⟨h1, .inl hi, h3, h4, .inl hu⟩))
    | i :: u :: x :: xs =>
      have hi : i ∈ (Command.exp sc args (i :: u :: x :: xs)).reads := by simp [Command.reads]
      have hu : u ∈ (Command.exp sc args (i :: u :: x :: xs)).writes := by simp [Command.writes]
      exact openRead_within (.inl hi) (openWrite_within (hT _ hu) trivial)
  | merge args pos =>
    refine parseMergeArgs_within args _ _ hT hS (fun u hu => ?_)
    cases pos with
    | nil => trivial
    | cons f fs =>
      exact openReads_within _ _ (fun g hg => .inl hg)
        (mergeTask_within (W := fun f => f ∈ ts) hu _ (fun g hg => Or.inl hg))
  | stats args pos =>
    refine parseStatsArgs_within args _ _ (fun f h => .inl (List.mem_append_left _ h)) (fun f h => hT f (List.mem_append_left _ h))
      (fun _ h => by simp at h) (fun _ h => by simp at h) (fun o hi ho hou => ?_)
    have task : ∀ (i u : F), (i ∈ (Command.stats args pos).reads ∨ i = S.stdin) → (o.outfile = none → u ∈ ts) →
        (statsTask S (o.infile.getD i) (o.outfile.getD u) o.keep).Within (fun f => f ∈ (Command.stats args pos).reads ∨ f = S.stdin)
          (fun f => f ∈ ts) := by
      intro i u h1 h2
      refine ⟨?_, fun c => output_within (W := fun f => f ∈ ts) ?_ _⟩
      · cases e : o.infile with
        | none => exact h1
        | some f => exact hi f e
      · cases e : o.outfile with
        | none => exact h2 e
        | some f => exact ho f e
    have hstd : (pos.drop 1).take 1 = [] → o.outfile = none → S.stdout ∈ ts := by
      intro hp hn
      apply hS
      show args.flatMap statsWrites ++ (pos.drop 1).take 1 = []
      rw [hp, List.append_nil]
      by_contra hne
      exact hou (.inr hne) hn
    match pos with
    | [] => exact task _ _ (.inr rfl) (hstd rfl)
    | [i] =>
      have hi : i ∈ (Command.stats args [i]).reads := by simp [Command.reads]
      exact openRead_within (.inl hi) (task _ _ (.inl hi) (hstd rfl))
    | [i, u] =>
      have hi : i ∈ (Command.stats args [i, u]).reads := by simp [Command.reads]
      have hu : u ∈ (Command.stats args [i, u]).writes := by simp [Command.writes]
      exact openRead_within (.inl hi) (openWrite_within (hT _ hu) (task _ _ (.inl hi) (fun _ => hT _ hu)))
    | i :: u :: x :: xs =>
      have hi : i ∈ (Command.stats args (i :: u :: x :: xs)).reads := by simp [Command.reads]
      have hu : u ∈ (Command.stats args (i :: u :: x :: xs)).writes := by simp [Command.writes]
      exact openRead_within (.inl hi) (openWrite_within (hT _ hu) trivial)

/-- A command empties files until it writes its result. -/
lemma prog_clean (S : Setup F C α φ ε V T γ) (m : Machine V T) (cmd : Command F) : (cmd.prog S m).Clean S.empty S.part := by
  cases cmd with
  | exp sc args pos =>
    refine parseArgs_clean args _ _ (fun o => ?_)
    match pos with
    | [] => exact expTask_clean
    | [i] => exact openRead_clean expTask_clean
    | [i, u] => exact openRead_clean (openWrite_clean expTask_clean)
    | i :: u :: x :: xs => exact openRead_clean (openWrite_clean trivial)
  | merge args pos =>
    refine parseMergeArgs_clean args _ _ (fun u => ?_)
    cases pos with
    | nil => trivial
    | cons f fs => exact openReads_clean _ _ (mergeTask_clean _)
  | stats args pos =>
    refine parseStatsArgs_clean args _ _ (fun o => ?_)
    have task : ∀ (i u : F), (statsTask S i u o.keep).Clean S.empty S.part := fun i u c => output_clean _
    match pos with
    | [] => exact task _ _
    | [i] => exact openRead_clean (task _ _)
    | [i, u] => exact openRead_clean (openWrite_clean (task _ _))
    | i :: u :: x :: xs => exact openRead_clean (openWrite_clean trivial)

end Kam.Shell
