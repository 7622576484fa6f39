/-
What the merging script and the statistics script write.
-/
import Verif.Shell.Run

set_option linter.unusedSectionVars false

namespace Kam.Shell
open Scripts

variable {F C : Type} [DecidableEq F]
variable {α φ ε V T γ : Type} [LinearOrder α]

/-! ### exp_recsys_fold_merge.py -/

lemma getLast?_append_getD {β : Type} (xs : List β) (x : β) (d : β) : ((x :: xs).getLast?).getD d = (xs.getLast?).getD x := by
  rw [List.getLast?_cons]
  rfl

lemma parseMergeArgs_run (empty : C) : ∀ (args : List (MergeArg F)) (v q : Bool) (u : F) (k : F → Prog F C) (w : Files F C),
    (v && q) = false →
    (¬ ((v = true ∨ .verbose ∈ args) ∧ (q = true ∨ .quiet ∈ args)) ∧
      (parseMergeArgs empty args (v, q, u) k).run w =
        (k ((args.flatMap mergeWrites).getLast?.getD u)).run (emptied empty w (args.flatMap mergeWrites))) ∨
    (((parseMergeArgs empty args (v, q, u) k).run w).1 = .usage ∧ ((v = true ∨ .verbose ∈ args) ∧ (q = true ∨ .quiet ∈ args)))
  | [], v, q, u, k, w, h => by
    left
    refine ⟨?_, by simp [parseMergeArgs, emptied_nil]⟩
    cases v <;> cases q <;> simp_all
  | .verbose :: as, v, q, u, k, w, h => by
    unfold parseMergeArgs
    cases q with
    | true =>
      right
      exact ⟨rfl, .inr (by simp), .inl rfl⟩
    | false =>
      simp only [Bool.false_eq_true, if_false]
      rcases parseMergeArgs_run empty as true false u k w rfl with ⟨h1, h2⟩ | ⟨h1, h2⟩
      · left
        refine ⟨fun h => h1 ⟨.inl rfl, ?_⟩, ?_⟩
        · simpa using h.2
        · rw [h2]; rfl
      · right
        refine ⟨h1, .inr (by simp), ?_⟩
        simpa using h2.2
  | .quiet :: as, v, q, u, k, w, h => by
    unfold parseMergeArgs
    cases v with
    | true =>
      right
      exact ⟨rfl, .inl rfl, .inr (by simp)⟩
    | false =>
      simp only [Bool.false_eq_true, if_false]
      rcases parseMergeArgs_run empty as false true u k w rfl with ⟨h1, h2⟩ | ⟨h1, h2⟩
      · left
        refine ⟨fun h => h1 ⟨?_, .inl rfl⟩, ?_⟩
        · simpa using h.1
        · rw [h2]; rfl
      · right
        refine ⟨h1, ?_, .inr (by simp)⟩
        simpa using h2.1
  | .outfile f :: as, v, q, u, k, w, h => by
    have e : (parseMergeArgs empty (.outfile f :: as) (v, q, u) k).run w =
        (parseMergeArgs empty as (v, q, f) k).run (Function.update w f (some empty)) := rfl
    rw [e]
    rcases parseMergeArgs_run empty as v q f k (Function.update w f (some empty)) h with ⟨h1, h2⟩ | ⟨h1, h2⟩
    · left
      refine ⟨by simpa using h1, ?_⟩
      rw [h2, emptied_cons, List.flatMap_cons]
      simp only [mergeWrites, List.singleton_append]
      rw [getLast?_append_getD]
    · right
      exact ⟨h1, by simpa using h2⟩

lemma openReads_run (k : Prog F C) (w : Files F C) : ∀ (fs : List F),
    ((∀ f ∈ fs, w f ≠ none) ∧ (openReads fs k).run w = k.run w) ∨ ((∃ f ∈ fs, w f = none) ∧ (openReads fs k).run w = (.usage, w))
  | [] => .inl ⟨by simp, rfl⟩
  | f :: fs => by
    unfold openReads
    rw [openRead_run]
    by_cases hf : w f = none
    · right
      exact ⟨⟨f, by simp, hf⟩, by rw [if_pos hf]⟩
    · rw [if_neg hf]
      rcases openReads_run k w fs with ⟨h1, h2⟩ | ⟨⟨g, hg, h1⟩, h2⟩
      · left
        exact ⟨by simpa using ⟨hf, h1⟩, h2⟩
      · right
        exact ⟨⟨g, by simp [hg], h1⟩, h2⟩

/-- The result of a computation is written; after an exception, perhaps another one, nothing is. -/
def Finishes (S : Setup F C α φ ε V T γ) (w : Files F C) (out : F) (r : Res (J V)) (x : Exit × Files F C) : Prop :=
  (∀ j, r = .ok j → x = (.success, Function.update w out (some (S.encode j)))) ∧
  (∀ e, r = .error e → ∃ e', x = (.raised e', w))

lemma mergeRest_run (S : Setup F C α φ ε V T γ) (u : F) (w : Files F C) : ∀ (fs : List F) (cv : J V),
    Finishes S w u (fs.mapM (fun f => load S (w f)) >>= fun js => js.foldlM (fun cv info => restFold info cv) cv >>=
      fun cv => cv.setItem2 "condition" "out_file" (.leaf (S.env.file (some u)))) ((mergeRest S u fs cv).run w)
  | [], cv => by
    unfold mergeRest
    rw [output_run]
    simp only [List.mapM_nil, pure, Except.pure, ok_bind, List.foldlM_nil]
    constructor
    · intro j h; rw [h]; rfl
    · intro e h; rw [h]; exact ⟨e, rfl⟩
  | f :: fs, cv => by
    unfold mergeRest
    simp only [Prog.run]
    rw [List.mapM_cons]
    cases hl : load S (w f) with
    | error e => exact ⟨(by rintro j h; cases h), fun _ _ => ⟨e, rfl⟩⟩
    | ok j0 =>
      simp only [ok_bind]
      cases hr : restFold j0 cv with
      | error e =>
        refine ⟨fun j h => ?_, fun _ _ => ⟨e, rfl⟩⟩
        exfalso
        obtain ⟨js, h1, h2⟩ := bind_ok h
        obtain ⟨xs, _, h1⟩ := bind_ok h1
        simp only [pure, Except.pure, Except.ok.injEq] at h1
        subst h1
        rw [List.foldlM_cons, hr] at h2
        cases h2
      | ok cv' =>
        simp only []
        have ih := mergeRest_run S u w fs cv'
        have e : ((fs.mapM (fun f => load S (w f)) >>= fun js => (pure (j0 :: js) : Res _)) >>= fun js =>
            js.foldlM (fun cv info => restFold info cv) cv >>=
              fun cv => cv.setItem2 "condition" "out_file" (.leaf (S.env.file (some u)))) =
            (fs.mapM (fun f => load S (w f)) >>= fun js => js.foldlM (fun cv info => restFold info cv) cv' >>=
              fun cv => cv.setItem2 "condition" "out_file" (.leaf (S.env.file (some u)))) := by
          cases fs.mapM (fun f => load S (w f)) with
          | error e => rfl
          | ok js =>
            simp only [ok_bind, pure, Except.pure, List.foldlM_cons, hr]
        rw [e]
        exact ih

lemma mergeTask_run (S : Setup F C α φ ε V T γ) (u : F) (w : Files F C) (fs : List F) :
    Finishes S w u (fs.mapM (fun f => load S (w f)) >>= merge S.tru (S.env.file (some u))) ((mergeTask S u fs).run w) := by
  cases fs with
  | nil => exact ⟨(by rintro j h; cases h), fun _ _ => ⟨_, rfl⟩⟩
  | cons f fs =>
    unfold mergeTask
    simp only [Prog.run]
    rw [List.mapM_cons]
    cases hl : load S (w f) with
    | error e => exact ⟨(by rintro j h; cases h), fun _ _ => ⟨e, rfl⟩⟩
    | ok j0 =>
      simp only [ok_bind]
      cases hr : firstFold S.tru j0 with
      | error e =>
        refine ⟨fun j h => ?_, fun _ _ => ⟨e, rfl⟩⟩
        exfalso
        obtain ⟨js, h1, h2⟩ := bind_ok h
        obtain ⟨xs, _, h1⟩ := bind_ok h1
        simp only [pure, Except.pure, Except.ok.injEq] at h1
        subst h1
        simp only [merge, hr] at h2
        cases h2
      | ok cv' =>
        have ih := mergeRest_run S u w fs cv'
        have e : ((fs.mapM (fun f => load S (w f)) >>= fun js => (pure (j0 :: js) : Res _)) >>= merge S.tru (S.env.file (some u))) =
            (fs.mapM (fun f => load S (w f)) >>= fun js => js.foldlM (fun cv info => restFold info cv) cv' >>=
              fun cv => cv.setItem2 "condition" "out_file" (.leaf (S.env.file (some u)))) := by
          cases fs.mapM (fun f => load S (w f)) with
          | error e => rfl
          | ok js =>
            simp only [ok_bind, pure, Except.pure, merge, hr]
        rw [e]
        exact ih

/-- What the merging script does. -/
lemma merge_run (S : Setup F C α φ ε V T γ) (m : Machine V T) (args : List (MergeArg F)) (pos : List F) (w : Files F C) :
    (¬ (.verbose ∈ args ∧ .quiet ∈ args) ∧ pos ≠ [] ∧ (∀ f ∈ pos, w f ≠ none ∨ f ∈ (Command.merge args pos).writes) ∧
      Finishes S (emptied S.empty w (Command.merge args pos).writes) ((Command.merge args pos).writes.getLast?.getD S.stdout)
        (pos.mapM (fun f => load S (emptied S.empty w (Command.merge args pos).writes f)) >>=
          merge S.tru (S.env.file (some ((Command.merge args pos).writes.getLast?.getD S.stdout))))
        (((Command.merge args pos).prog S m).run w)) ∨
    ((((Command.merge args pos).prog S m).run w).1 = .usage ∧
      ((.verbose ∈ args ∧ .quiet ∈ args) ∨ pos = [] ∨ ∃ f ∈ pos, w f = none)) := by
  have key := parseMergeArgs_run S.empty args false false S.stdout (mergePos S pos) w rfl
  have hw : (Command.merge args pos).writes = args.flatMap mergeWrites := rfl
  have hp : (Command.merge args pos).prog S m = mergeProg S args pos := rfl
  rw [hw, hp]
  unfold mergeProg
  rcases key with ⟨h1, h2⟩ | ⟨h1, h2⟩
  · have h1' : ¬ (.verbose ∈ args ∧ .quiet ∈ args) := by simpa using h1
    rw [h2]
    cases pos with
    | nil => right; exact ⟨rfl, .inr (.inl rfl)⟩
    | cons f fs =>
      simp only [mergePos]
      rcases openReads_run (mergeTask S ((args.flatMap mergeWrites).getLast?.getD S.stdout) (f :: fs))
        (emptied S.empty w (args.flatMap mergeWrites)) (f :: fs) with ⟨k1, k2⟩ | ⟨⟨g, hg, k1⟩, k2⟩
      · left
        rw [k2]
        refine ⟨h1', by simp, fun g hg => ?_, mergeTask_run S _ _ _⟩
        by_contra hne
        push Not at hne
        exact k1 g hg (emptied_none.2 hne)
      · right
        rw [k2]
        exact ⟨rfl, .inr (.inr ⟨g, hg, (emptied_none.1 k1).1⟩)⟩
  · right
    exact ⟨h1, .inl (by simpa using h2)⟩

/-! ### stats_recsys.py -/

lemma parseStatsArgs_run (empty : C) : ∀ (args : List (StatsArg F)) (o : StatsOpts F) (k : StatsOpts F → Prog F C) (w : Files F C),
    o.keep = o.seenKeep → (o.seenKeep && o.seenNo) = false →
    (¬ ((o.seenKeep = true ∨ .keepdata ∈ args) ∧ (o.seenNo = true ∨ .noKeepdata ∈ args)) ∧
      (∀ f ∈ args.flatMap statsReads, w f ≠ none ∨ f ∈ args.flatMap statsWrites) ∧
      ∃ o' : StatsOpts F, o'.infile = (args.flatMap statsReads).getLast?.or o.infile ∧
        o'.outfile = (args.flatMap statsWrites).getLast?.or o.outfile ∧
        (o'.keep = true ↔ o.keep = true ∨ .keepdata ∈ args) ∧
        (parseStatsArgs empty args o k).run w = (k o').run (emptied empty w (args.flatMap statsWrites))) ∨
    (((parseStatsArgs empty args o k).run w).1 = .usage ∧
      (((o.seenKeep = true ∨ .keepdata ∈ args) ∧ (o.seenNo = true ∨ .noKeepdata ∈ args)) ∨
        ∃ f ∈ args.flatMap statsReads, w f = none))
  | [], o, k, w, hk, hs => by
    left
    refine ⟨?_, by simp, o, by simp, by simp, by simp, by simp [parseStatsArgs, emptied_nil]⟩
    cases h1 : o.seenKeep <;> cases h2 : o.seenNo <;> simp_all
  | .rseed n :: as, o, k, w, hk, hs => by
    have e : parseStatsArgs empty (.rseed n :: as) o k = parseStatsArgs empty as o k := rfl
    rw [e]
    simpa [statsReads, statsWrites] using parseStatsArgs_run empty as o k w hk hs
  | .infile f :: as, o, k, w, hk, hs => by
    have e : parseStatsArgs empty (.infile f :: as) o k = openRead f (parseStatsArgs empty as { o with infile := some f } k) := rfl
    rw [e, openRead_run]
    by_cases hf : w f = none
    · right
      rw [if_pos hf]
      exact ⟨rfl, .inr ⟨f, by simp [statsReads], hf⟩⟩
    · rw [if_neg hf]
      rcases parseStatsArgs_run empty as { o with infile := some f } k w hk hs with ⟨h1, h2, o', h3, h4, h5, h6⟩ | ⟨h1, h2⟩
      · left
        refine ⟨by simpa using h1, fun g hg => ?_, o', ?_, ?_, by simpa using h5, ?_⟩
        · rw [List.flatMap_cons, List.mem_append] at hg
          rcases hg with hg | hg
          · simp only [statsReads, List.mem_singleton] at hg
            subst hg
            exact .inl hf
          · simpa [statsWrites] using h2 g hg
        · rw [h3, List.flatMap_cons]
          simp only [statsReads, List.singleton_append, List.getLast?_cons]
          cases (as.flatMap statsReads).getLast? <;> rfl
        · rw [h4]; rfl
        · rw [h6]; rfl
      · right
        refine ⟨h1, h2.imp (by simp) (fun ⟨g, hg, h⟩ => ⟨g, ?_, h⟩)⟩
        rw [List.flatMap_cons]
        exact List.mem_append_right _ hg
  | .outfile f :: as, o, k, w, hk, hs => by
    have e : (parseStatsArgs empty (.outfile f :: as) o k).run w =
      (parseStatsArgs empty as { o with outfile := some f } k).run (Function.update w f (some empty)) := rfl
    have hn : ∀ g, Function.update w f (some empty) g = none ↔ w g = none ∧ g ≠ f := by
      intro g
      by_cases h : g = f
      · subst h; simp
      · simp [h]
    rw [e]
    rcases parseStatsArgs_run empty as { o with outfile := some f } k (Function.update w f (some empty)) hk hs with
      ⟨h1, h2, o', h3, h4, h5, h6⟩ | ⟨h1, h2⟩
    · left
      refine ⟨by simpa using h1, fun g hg => ?_, o', ?_, ?_, by simpa using h5, ?_⟩
      · rw [List.flatMap_cons, List.mem_append] at hg
        rw [List.flatMap_cons, List.mem_append]
        rcases hg with hg | hg
        · simp [statsReads] at hg
        · rcases h2 g hg with h | h
          · by_cases e : g = f
            · subst e; exact .inr (.inl (by simp [statsWrites]))
            · left; rw [Function.update_of_ne e] at h; exact h
          · exact .inr (.inr h)
      · rw [h3]; rfl
      · rw [h4, List.flatMap_cons]
        simp only [statsWrites, List.singleton_append, List.getLast?_cons]
        cases (as.flatMap statsWrites).getLast? <;> rfl
      · rw [h6, emptied_cons, List.flatMap_cons]
        rfl
    · right
      refine ⟨h1, h2.imp (by simp) (fun ⟨g, hg, h⟩ => ⟨g, ?_, ((hn g).1 h).1⟩)⟩
      rw [List.flatMap_cons]
      exact List.mem_append_right _ hg
  | .noKeepdata :: as, o, k, w, hk, hs => by
    unfold parseStatsArgs
    cases hsk : o.seenKeep with
    | true =>
      right
      exact ⟨rfl, .inl ⟨.inl rfl, .inr (by simp)⟩⟩
    | false =>
      simp only [Bool.false_eq_true, if_false]
      rcases parseStatsArgs_run empty as { o with keep := false, seenNo := true } k w (by simp [hsk]) (by simp [hsk]) with
        ⟨h1, h2, o', h3, h4, h5, h6⟩ | ⟨h1, h2⟩
      · left
        refine ⟨?_, ?_, o', ?_, ?_, ?_, ?_⟩
        · simpa [hsk] using h1
        · simpa [statsReads, statsWrites] using h2
        · simpa [statsReads] using h3
        · simpa [statsWrites] using h4
        · simpa [hk, hsk] using h5
        · rw [hsk] at h6
          rw [h6]; simp [statsWrites]
      · right
        rw [hsk] at h1
        refine ⟨h1, ?_⟩
        simpa [hsk, statsReads] using h2
  | .keepdata :: as, o, k, w, hk, hs => by
    unfold parseStatsArgs
    cases hsn : o.seenNo with
    | true =>
      right
      exact ⟨rfl, .inl ⟨.inr (by simp), .inl rfl⟩⟩
    | false =>
      simp only [Bool.false_eq_true, if_false]
      rcases parseStatsArgs_run empty as { o with keep := true, seenKeep := true } k w rfl (by simp [hsn]) with
        ⟨h1, h2, o', h3, h4, h5, h6⟩ | ⟨h1, h2⟩
      · left
        refine ⟨?_, ?_, o', ?_, ?_, ?_, ?_⟩
        · simpa [hsn] using h1
        · simpa [statsReads, statsWrites] using h2
        · simpa [statsReads] using h3
        · simpa [statsWrites] using h4
        · simpa using h5
        · rw [hsn] at h6
          rw [h6]; simp [statsWrites]
      · right
        rw [hsn] at h1
        refine ⟨h1, ?_⟩
        simpa [hsn, statsReads] using h2

/-- What the statistics script does. -/
lemma stats_run (S : Setup F C α φ ε V T γ) (m : Machine V T) (args : List (StatsArg F)) (pos : List F) (w : Files F C) :
    (¬ (.keepdata ∈ args ∧ .noKeepdata ∈ args) ∧ pos.length ≤ 2 ∧
      (∀ f ∈ (Command.stats args pos).reads, w f ≠ none ∨ f ∈ (Command.stats args pos).writes) ∧
      ∃ keep : Bool, (keep = true ↔ .keepdata ∈ args) ∧ ((Command.stats args pos).prog S m).run w =
        finish S (emptied S.empty w (Command.stats args pos).writes)
          ((args.flatMap statsWrites).getLast?.getD (pos[1]?.getD S.stdout))
          (load S (emptied S.empty w (Command.stats args pos).writes ((args.flatMap statsReads).getLast?.getD (pos[0]?.getD S.stdin))) >>=
            stats S.se keep)) ∨
    ((((Command.stats args pos).prog S m).run w).1 = .usage ∧
      ((.keepdata ∈ args ∧ .noKeepdata ∈ args) ∨ 2 < pos.length ∨ ∃ f ∈ (Command.stats args pos).reads, w f = none)) := by
  have key := parseStatsArgs_run S.empty args ⟨none, none, false, false, false⟩ (statsPos S pos) w rfl rfl
  have hr : (Command.stats args pos).reads = args.flatMap statsReads ++ pos.take 1 := rfl
  have hw : (Command.stats args pos).writes = args.flatMap statsWrites ++ (pos.drop 1).take 1 := rfl
  have hp : (Command.stats args pos).prog S m = statsProg S args pos := rfl
  rw [hr, hw, hp]
  unfold statsProg
  rcases key with ⟨h1, h2, o', h3, h4, h5, h6⟩ | ⟨h1, h2⟩
  · have h1' : ¬ (.keepdata ∈ args ∧ .noKeepdata ∈ args) := by simpa using h1
    have h5' : o'.keep = true ↔ .keepdata ∈ args := by simpa using h5
    simp only [Option.or_none] at h3 h4
    rw [h6]
    match pos with
    | [] =>
      left
      refine ⟨h1', by simp, by simpa using h2, o'.keep, h5', ?_⟩
      simp only [statsPos, statsTask, Prog.run, output_run, h3, h4]
      simp
    | [i] =>
      simp only [statsPos, openRead_run]
      by_cases hi : emptied S.empty w (args.flatMap statsWrites) i = none
      · right
        rw [if_pos hi]
        exact ⟨rfl, .inr (.inr ⟨i, by simp, (emptied_none.1 hi).1⟩)⟩
      · left
        rw [if_neg hi]
        refine ⟨h1', by simp, fun f hf => ?_, o'.keep, h5', ?_⟩
        · simp only [List.drop_succ_cons, List.drop_nil, List.take_nil, List.append_nil]
          rw [List.mem_append] at hf
          rcases hf with hf | hf
          · exact h2 f hf
          · simp only [List.take_succ_cons, List.take_zero, List.mem_singleton] at hf
            subst hf
            by_contra hne
            push Not at hne
            exact hi (emptied_none.2 hne)
        · simp only [statsTask, Prog.run, output_run, h3, h4]
          simp
    | [i, u] =>
      simp only [statsPos, openRead_run]
      by_cases hi : emptied S.empty w (args.flatMap statsWrites) i = none
      · right
        rw [if_pos hi]
        exact ⟨rfl, .inr (.inr ⟨i, by simp, (emptied_none.1 hi).1⟩)⟩
      · left
        rw [if_neg hi]
        have he : emptied S.empty w (args.flatMap statsWrites ++ ([i, u].drop 1).take 1) =
            Function.update (emptied S.empty w (args.flatMap statsWrites)) u (some S.empty) := by
          rw [← emptied_append, ← emptied_nil S.empty (Function.update _ _ _), emptied_cons]
          rfl
        rw [he]
        refine ⟨h1', by simp, fun f hf => ?_, o'.keep, h5', ?_⟩
        · rw [List.mem_append] at hf ⊢
          rcases hf with hf | hf
          · exact (h2 f hf).imp id .inl
          · simp only [List.take_succ_cons, List.take_zero, List.mem_singleton] at hf
            subst hf
            by_contra hne
            push Not at hne
            exact hi (emptied_none.2 ⟨hne.1, hne.2.1⟩)
        · simp only [openWrite, statsTask, Prog.run, output_run, h3, h4]
          simp
    | i :: u :: x :: xs =>
      right
      simp only [statsPos, openRead_run]
      refine ⟨?_, .inr (.inl (by simp))⟩
      split <;> rfl
  · right
    refine ⟨h1, h2.imp (by simp) (fun ⟨f, hf, h⟩ => .inr ⟨f, List.mem_append_left _ hf, h⟩)⟩

end Kam.Shell
