/-
What the options of a command line mean, and the theorems that carry the properties of commands over to command lines.
-/
import Verif.Args.Props
import Verif.Args.Scripts

set_option linter.unusedSectionVars false

namespace Kam.Args
open Kam.Convert (Str)
open Shell
open Exp (Arg Namespace Seen parseArg defaults Script)

variable {F C A σ : Type}

/-! ### The parsers of the scripts are well formed -/

/-- Option strings as they have to be. -/
def goodName : Str → Bool
  | ['-', c] => c != '-' && c != '=' && !c.isDigit
  | '-' :: '-' :: w => !w.isEmpty && !w.contains '='
  | _ => false

lemma wellFormed_of {p : Parser A} (hn : p.table.all (fun q => goodName q.1) = true) (hd : (p.table.map (·.1)).Nodup)
    (hp : p.positionals = .upTo 2 ∨ p.positionals = .oneOrMore) : WellFormed p := by
  refine ⟨?_, hd, hp⟩
  intro q hq
  have h := List.all_eq_true.mp hn q hq
  obtain ⟨n, a⟩ := q
  simp only [] at h ⊢
  rcases n with _ | ⟨c, _ | ⟨d, _ | ⟨e, w⟩⟩⟩
  · cases h
  · simp [goodName] at h
  · by_cases hc : c = '-'
    · subst hc
      simp only [goodName, Bool.and_eq_true, bne_iff_ne, Bool.not_eq_true'] at h
      exact Or.inl ⟨d, h.1.1, h.1.2, h.2, rfl⟩
    · unfold goodName at h
      split at h
      · rename_i h2; cases h2; exact absurd rfl hc
      · rename_i h2; cases h2; exact absurd rfl hc
      · cases h
  · unfold goodName at h
    split at h
    · rename_i h2; cases h2
    · rename_i w' h2
      cases h2
      refine Or.inr ⟨e :: w, by simp, ?_, rfl⟩
      simp only [Bool.and_eq_true, Bool.not_eq_true'] at h
      intro hm
      have := List.contains_iff_mem.mpr hm
      rw [h.2] at this
      cases this
    · cases h

theorem expParser_wellFormed : WellFormed expParser := wellFormed_of (by decide +kernel) (by decide +kernel) (Or.inl rfl)

theorem mergeParser_wellFormed : WellFormed mergeParser := wellFormed_of (by decide +kernel) (by decide +kernel) (Or.inr rfl)

theorem statsParser_wellFormed : WellFormed statsParser := wellFormed_of (by decide +kernel) (by decide +kernel) (Or.inl rfl)

/-! ### What options mean -/

/-- The options of the experiment scripts with their values. -/
inductive ExpMeans (rd : Reader F) : Act ExpOpt → Arg F → Prop
  | verbose : ExpMeans rd (.opt .verbose []) .verbose
  | quiet : ExpMeans rd (.opt .quiet []) .quiet
  | rseed {s n} : rd.int s = some n → ExpMeans rd (.opt .rseed [s]) (.rseed n)
  | infile {s} : s ≠ ['-'] → ExpMeans rd (.opt .infile [s]) (.infile (rd.file s))
  | outfile {s} : s ≠ ['-'] → ExpMeans rd (.opt .outfile [s]) (.outfile (rd.file s))
  | testfile {s} : s ≠ ['-'] → ExpMeans rd (.opt .testfile [s]) (.testfile (rd.file s))
  | method {s} : ExpMeans rd (.opt .method [s]) (.method (String.ofList s))
  | validation {s} : ExpMeans rd (.opt .validation [s]) (.validation (String.ofList s))
  | fold {s n} : rd.int s = some n → ExpMeans rd (.opt .fold [s]) (.fold n)
  | foldNo {s n} : rd.int s = some n → ExpMeans rd (.opt .foldNo [s]) (.foldNo n)
  | domain {r s t x y z} : rd.float r = some x → rd.float s = some y → rd.float t = some z →
      ExpMeans rd (.opt .domain [r, s, t]) (.domain x y z)
  | noTimestamp : ExpMeans rd (.opt .noTimestamp []) .noTimestamp
  | timestamp : ExpMeans rd (.opt .timestamp []) .timestamp
  | C {s x} : rd.float s = some x → ExpMeans rd (.opt .C [s]) (.C x)
  | dim {s n} : rd.int s = some n → ExpMeans rd (.opt .dim [s]) (.dim n)
  | alpha {s x} : rd.float s = some x → ExpMeans rd (.opt .alpha [s]) (.alpha x)
  | tol {s x} : rd.float s = some x → ExpMeans rd (.opt .tol [s]) (.tol x)
  | maxiter {s n} : rd.int s = some n → ExpMeans rd (.opt .maxiter [s]) (.maxiter n)

/-- The options of exp_recsys_fold_merge.py with their values. -/
inductive MergeMeans (rd : Reader F) : Act MergeOpt → MergeArg F → Prop
  | verbose : MergeMeans rd (.opt .verbose []) .verbose
  | quiet : MergeMeans rd (.opt .quiet []) .quiet
  | outfile {s} : s ≠ ['-'] → MergeMeans rd (.opt .outfile [s]) (.outfile (rd.file s))

/-- The options of stats_recsys.py with their values. -/
inductive StatsMeans (rd : Reader F) : Act StatsOpt → StatsArg F → Prop
  | rseed {s n} : rd.int s = some n → StatsMeans rd (.opt .rseed [s]) (.rseed n)
  | infile {s} : s ≠ ['-'] → StatsMeans rd (.opt .infile [s]) (.infile (rd.file s))
  | outfile {s} : s ≠ ['-'] → StatsMeans rd (.opt .outfile [s]) (.outfile (rd.file s))
  | noKeepdata : StatsMeans rd (.opt .noKeepdata []) .noKeepdata
  | keepdata : StatsMeans rd (.opt .keepdata []) .keepdata

variable [DecidableEq F] {α φ ε V T γ : Type} [LinearOrder α]

/-- One option: the files are opened as in Verif/Shell. -/
lemma exp_step (empty : C) (rd : Reader F) (i u : F) (sc : Script) {a : Act ExpOpt} {b : Arg F} (h : ExpMeans rd a b)
    (as : List (Act ExpOpt)) (st : Namespace F × Seen) (k : Namespace F × Seen → Prog F C) :
    perform empty (expAct rd i u sc) (a :: as) st k = openArg empty b (match parseArg sc st b with
      | none => .done .usage
      | some st => perform empty (expAct rd i u sc) as st k) := by
  have one : ∀ {s : Str}, s ≠ ['-'] → opens rd s = [rd.file s] ∧ ∀ x, fileOf rd x s = rd.file s := by
    intro s hs
    exact ⟨if_neg hs, fun _ => if_neg hs⟩
  cases h with
  | infile hs =>
    obtain ⟨h1, h2⟩ := one hs
    simp only [perform, expAct, expArg, h2, List.flatMap_cons, List.flatMap_nil, h1]
    rfl
  | outfile hs =>
    obtain ⟨h1, h2⟩ := one hs
    simp only [perform, expAct, expArg, h2, List.flatMap_cons, List.flatMap_nil, h1]
    rfl
  | testfile hs =>
    obtain ⟨h1, h2⟩ := one hs
    simp only [perform, expAct, expArg, h2, List.flatMap_cons, List.flatMap_nil, h1]
    rfl
  | verbose => simp [perform, expAct, expArg, openReads, openWrites, openArg]; cases parseArg sc st _ <;> rfl
  | quiet => simp [perform, expAct, expArg, openReads, openWrites, openArg]; cases parseArg sc st _ <;> rfl
  | method => simp [perform, expAct, expArg, openReads, openWrites, openArg]; cases parseArg sc st _ <;> rfl
  | validation => simp [perform, expAct, expArg, openReads, openWrites, openArg]; cases parseArg sc st _ <;> rfl
  | noTimestamp => simp [perform, expAct, expArg, openReads, openWrites, openArg]; cases parseArg sc st _ <;> rfl
  | timestamp => simp [perform, expAct, expArg, openReads, openWrites, openArg]; cases parseArg sc st _ <;> rfl
  | rseed hn => simp only [perform, expAct, expArg, hn]; rfl
  | fold hn => simp only [perform, expAct, expArg, hn]; rfl
  | foldNo hn => simp only [perform, expAct, expArg, hn]; rfl
  | domain h1 h2 h3 => simp only [perform, expAct, expArg, h1, h2, h3]; rfl
  | C hn => simp only [perform, expAct, expArg, hn]; rfl
  | dim hn => simp only [perform, expAct, expArg, hn]; rfl
  | alpha hn => simp only [perform, expAct, expArg, hn]; rfl
  | tol hn => simp only [perform, expAct, expArg, hn]; rfl
  | maxiter hn => simp only [perform, expAct, expArg, hn]; rfl

lemma exp_steps (empty : C) (rd : Reader F) (i u : F) (sc : Script) {as : List (Act ExpOpt)} {args : List (Arg F)}
    (h : List.Forall₂ (ExpMeans rd) as args) (bs : List (Act ExpOpt)) (k : Namespace F × Seen → Prog F C)
    (k' : Namespace F → Prog F C) (hk : ∀ st, perform empty (expAct rd i u sc) bs st k = k' st.1) :
    ∀ st, perform empty (expAct rd i u sc) (as ++ bs) st k = parseArgs empty sc args st k' := by
  induction h with
  | nil => exact hk
  | cons h1 _ ih =>
    intro st
    rw [List.cons_append, exp_step empty rd i u sc h1, parseArgs]
    congr 1
    cases parseArg sc st _ with
    | none => rfl
    | some st => exact ih st

/-- The strings of a block of positional arguments, none of which is a standard stream. -/
def Names (p : Parser A) (pos : List Str) : Prop := ∀ x ∈ pos, Plain p x ∧ x ≠ ['-']

lemma names_plain {p : Parser A} {pos : List Str} (h : Names p pos) : ∀ x ∈ pos, Plain p x := fun x hx => (h x hx).1

/-- The command line of options and at most two positional arguments after them. -/
lemma parse_last {p : Parser A} (hp : WellFormed p) (h2 : p.positionals = .upTo 2) {l pos : List Str} {as : List (Act A)}
    (hl : Options p l as) (hpos : ∀ x ∈ pos, Plain p x) (hlen : pos.length ≤ 2) :
    parse p (l ++ pos) = (as ++ (if pos = [] then [] else two pos), .ok) := by
  by_cases h0 : pos = []
  · subst h0
    rw [if_pos rfl, List.append_nil, List.append_nil]
    exact (C127_grammar hp _ _).mpr (.options h2 hl)
  · rw [if_neg h0]
    have := Line.two h2 hl h0 hlen hpos .nil
    rw [List.append_nil, List.append_nil] at this
    exact (C127_grammar hp _ _).mpr this

/-- C128: an experiment script called with options, spelled in any way, and with file names after them is the command with
these options and files. -/
theorem C128_experiment (S : Setup F C α φ ε V T γ) (m : Machine V T) (rd : Reader F) (sc : Script) {l pos : List Str}
    {as : List (Act ExpOpt)} {args : List (Arg F)} (hl : Options expParser l as) (ha : List.Forall₂ (ExpMeans rd) as args)
    (hpos : Names expParser pos) (hlen : pos.length ≤ 2) :
    expLine S m rd sc (l ++ pos) = (Command.exp sc args (pos.map rd.file)).prog S m := by
  unfold expLine Command.prog expProg
  rw [parse_last expParser_wellFormed rfl hl (names_plain hpos) hlen]
  refine exp_steps S.empty rd S.stdin S.stdout sc ha _ _ _ ?_ _
  intro st
  have hx : ∀ x ∈ pos, opens rd x = [rd.file x] ∧ ∀ std, fileOf rd std x = rd.file x := by
    intro x hx
    exact ⟨if_neg (hpos x hx).2, fun _ => if_neg (hpos x hx).2⟩
  rcases pos with _ | ⟨x, _ | ⟨y, _ | ⟨z, zs⟩⟩⟩
  · rfl
  · obtain ⟨h1, h2⟩ := hx x (by simp)
    simp only [List.cons_ne_nil, if_false, two, perform, expAct, h1, h2, List.map_cons, List.map_nil, parsePos]
    rfl
  · obtain ⟨h1, h2⟩ := hx x (by simp)
    obtain ⟨h3, h4⟩ := hx y (by simp)
    have hy : y ≠ ['-', '-'] := plain_ne (hpos y (by simp)).1
    simp only [List.cons_ne_nil, if_false, two, if_neg hy, perform, expAct, h1, h2, h3, h4, List.map_cons, List.map_nil, parsePos]
    rfl
  · simp at hlen

/-! ### exp_recsys_fold_merge.py -/

lemma merge_steps (empty : C) (rd : Reader F) (i o : F) {as : List (Act MergeOpt)} {args : List (MergeArg F)}
    (h : List.Forall₂ (MergeMeans rd) as args) (bs : List (Act MergeOpt)) (k : Bool × Bool × F × List F → Prog F C)
    (k' : F → Prog F C) (hk : ∀ v q u, perform empty (mergeAct rd i o) bs (v, q, u, []) k = k' u) :
    ∀ v q u, perform empty (mergeAct rd i o) (as ++ bs) (v, q, u, []) k = parseMergeArgs empty args (v, q, u) k' := by
  induction h with
  | nil => exact hk
  | cons h1 _ ih =>
    intro v q u
    cases h1 with
    | verbose =>
      simp only [List.cons_append, perform, mergeAct, parseMergeArgs]
      cases q with
      | true => rfl
      | false => exact ih true false u
    | quiet =>
      simp only [List.cons_append, perform, mergeAct, parseMergeArgs]
      cases v with
      | true => rfl
      | false => exact ih false true u
    | outfile hs =>
      rename_i s
      have h1 : opens rd s = [rd.file s] := if_neg hs
      have h2 : fileOf rd o s = rd.file s := if_neg hs
      simp only [List.cons_append, perform, mergeAct, parseMergeArgs, List.flatMap_cons, List.flatMap_nil, h1,
        List.head?_cons, Option.map_some, Option.getD_some, h2, openReads, openWrites, List.append_nil]
      rw [ih]

lemma opens_all (rd : Reader F) (i : F) {pos : List Str} (h : ∀ x ∈ pos, x ≠ ['-']) :
    pos.flatMap (opens rd) = pos.map rd.file ∧ pos.map (fileOf rd i) = pos.map rd.file := by
  induction pos with
  | nil => exact ⟨rfl, rfl⟩
  | cons x xs ih =>
    obtain ⟨h1, h2⟩ := ih (fun y hy => h y (by simp [hy]))
    have hx : x ≠ ['-'] := h x (by simp)
    simp only [List.flatMap_cons, List.map_cons, h1, h2]
    exact ⟨by rw [opens, if_neg hx]; rfl, by rw [fileOf, if_neg hx]⟩

/-- C128: exp_recsys_fold_merge.py called with options, spelled in any way, and with file names after them is the command with
these options and files. -/
theorem C128_merge (S : Setup F C α φ ε V T γ) (m : Machine V T) (rd : Reader F) {l pos : List Str} {as : List (Act MergeOpt)}
    {args : List (MergeArg F)} (hl : Options mergeParser l as) (ha : List.Forall₂ (MergeMeans rd) as args)
    (hpos : Names mergeParser pos) (h0 : pos ≠ []) :
    mergeLine S rd (l ++ pos) = (Command.merge args (pos.map rd.file)).prog S m := by
  have hpar : parse mergeParser (l ++ pos) = (as ++ [.pos 0 pos], .ok) := by
    have := Line.more (p := mergeParser) rfl hl h0 (names_plain hpos) .nil
    rw [List.append_nil, List.append_nil] at this
    exact (C127_grammar mergeParser_wellFormed _ _).mpr this
  unfold mergeLine Command.prog mergeProg
  rw [hpar]
  refine merge_steps S.empty rd S.stdin S.stdout ha _ _ _ ?_ _ _ _
  intro v q u
  obtain ⟨h1, h2⟩ := opens_all rd S.stdin (fun x hx => (hpos x hx).2)
  simp only [perform, mergeAct, h1, h2, openWrites, finish]
  rcases pos with _ | ⟨x, xs⟩
  · exact absurd rfl h0
  · rfl

/-! ### stats_recsys.py -/

lemma stats_steps (empty : C) (rd : Reader F) (i u : F) {as : List (Act StatsOpt)} {args : List (StatsArg F)}
    (h : List.Forall₂ (StatsMeans rd) as args) (bs : List (Act StatsOpt)) (k : StatsOpts F × F × F → Prog F C)
    (k' : StatsOpts F → Prog F C) (hk : ∀ o, perform empty (statsAct rd i u) bs (o, i, u) k = k' o) :
    ∀ o, perform empty (statsAct rd i u) (as ++ bs) (o, i, u) k = parseStatsArgs empty args o k' := by
  induction h with
  | nil => exact hk
  | cons h1 _ ih =>
    intro o
    cases h1 with
    | rseed hn =>
      simp only [List.cons_append, perform, statsAct, parseStatsArgs, List.head?_cons, Option.bind_some, hn]
      exact ih o
    | infile hs =>
      rename_i s
      have h1 : opens rd s = [rd.file s] := if_neg hs
      have h2 : fileOf rd i s = rd.file s := if_neg hs
      simp only [List.cons_append, perform, statsAct, parseStatsArgs, List.flatMap_cons, List.flatMap_nil, h1,
        List.head?_cons, Option.map_some, h2, openReads, openWrites, List.append_nil]
      rw [ih]
    | outfile hs =>
      rename_i s
      have h1 : opens rd s = [rd.file s] := if_neg hs
      have h2 : fileOf rd u s = rd.file s := if_neg hs
      simp only [List.cons_append, perform, statsAct, parseStatsArgs, List.flatMap_cons, List.flatMap_nil, h1,
        List.head?_cons, Option.map_some, h2, openReads, openWrites, List.append_nil]
      rw [ih]
    | noKeepdata =>
      simp only [List.cons_append, perform, statsAct, parseStatsArgs]
      cases o.seenKeep with
      | true => rfl
      | false => exact ih _
    | keepdata =>
      simp only [List.cons_append, perform, statsAct, parseStatsArgs]
      cases o.seenNo with
      | true => rfl
      | false => exact ih _

/-- C128: stats_recsys.py called with options, spelled in any way, and with file names after them is the command with these
options and files. -/
theorem C128_stats (S : Setup F C α φ ε V T γ) (m : Machine V T) (rd : Reader F) {l pos : List Str} {as : List (Act StatsOpt)}
    {args : List (StatsArg F)} (hl : Options statsParser l as) (ha : List.Forall₂ (StatsMeans rd) as args)
    (hpos : Names statsParser pos) (hlen : pos.length ≤ 2) :
    statsLine S rd (l ++ pos) = (Command.stats args (pos.map rd.file)).prog S m := by
  unfold statsLine Command.prog statsProg
  rw [parse_last statsParser_wellFormed rfl hl (names_plain hpos) hlen]
  refine stats_steps S.empty rd S.stdin S.stdout ha _ _ _ ?_ _
  intro o
  have hx : ∀ x ∈ pos, opens rd x = [rd.file x] ∧ ∀ std, fileOf rd std x = rd.file x := by
    intro x hx
    exact ⟨if_neg (hpos x hx).2, fun _ => if_neg (hpos x hx).2⟩
  rcases pos with _ | ⟨x, _ | ⟨y, _ | ⟨z, zs⟩⟩⟩
  · rfl
  · obtain ⟨h1, h2⟩ := hx x (by simp)
    simp only [List.cons_ne_nil, if_false, two, perform, statsAct, h1, h2, List.map_cons, List.map_nil, statsPos]
    rfl
  · obtain ⟨h1, h2⟩ := hx x (by simp)
    obtain ⟨h3, h4⟩ := hx y (by simp)
    have hy : y ≠ ['-', '-'] := plain_ne (hpos y (by simp)).1
    simp only [List.cons_ne_nil, if_false, two, if_neg hy, perform, statsAct, h1, h2, h3, h4, List.map_cons, List.map_nil, statsPos]
    rfl
  · simp at hlen

end Kam.Args
