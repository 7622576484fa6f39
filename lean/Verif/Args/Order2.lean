/-
C128: file names between the options are the same as after them, for the scripts that work on result files.
-/
import Verif.Args.Order

set_option linter.unusedSectionVars false

namespace Kam.Args
open Kam.Convert (Str)
open Shell

variable {F C A σ : Type} [DecidableEq F] {α φ ε V T γ : Type} [LinearOrder α]

lemma openRead_run {w : Files F C} {f : F} (k : Prog F C) (hf : w f ≠ none) : (openRead f k).run w = k.run w := by
  unfold openRead
  rw [Prog.run]
  cases hw : w f with
  | none => exact absurd hw hf
  | some c => rfl

lemma openReads_run {w : Files F C} : ∀ {fs : List F} (k : Prog F C), (∀ f ∈ fs, w f ≠ none) → (openReads fs k).run w = k.run w
  | [], _, _ => rfl
  | f :: fs, k, h => by
    show (openRead f (openReads fs k)).run w = _
    rw [openRead_run _ (h f (by simp)), openReads_run k (fun g hg => h g (by simp [hg]))]

lemma openWrite_run (empty : C) (w : Files F C) (f : F) (k : Prog F C) :
    (openWrite empty f k).run w = k.run (Function.update w f (some empty)) := rfl

lemma update_there {empty : C} {w : Files F C} {g : F} (h : w g ≠ none) (f : F) : Function.update w f (some empty) g ≠ none := by
  by_cases hg : g = f
  · subst hg; simp
  · rw [Function.update_of_ne hg]; exact h

/-! ### exp_recsys_fold_merge.py -/

lemma merge_pos_run (empty : C) (rd : Reader F) (i o : F) {pos : List Str} (hpos : ∀ x ∈ pos, x ≠ ['-']) (bs : List (Act MergeOpt))
    (v q : Bool) (u : F) (fs : List F) (k : Bool × Bool × F × List F → Prog F C) {w : Files F C} (hw : ∀ f ∈ pos.map rd.file, w f ≠ none) :
    (perform empty (mergeAct rd i o) (.pos 0 pos :: bs) (v, q, u, fs) k).run w =
      (perform empty (mergeAct rd i o) bs (v, q, u, pos.map rd.file) k).run w := by
  obtain ⟨h1, h2⟩ := opens_all rd i hpos
  simp only [perform, mergeAct, h1, h2, openWrites]
  exact openReads_run _ hw

lemma merge_pos_last (empty : C) (rd : Reader F) (i o : F) {pos : List Str} (hpos : ∀ x ∈ pos, x ≠ ['-']) {bs : List (Act MergeOpt)}
    {args : List (MergeArg F)} (h : List.Forall₂ (MergeMeans rd) bs args) (k : Bool × Bool × F × List F → Prog F C) :
    ∀ (v q : Bool) (u : F) (fs : List F) {w : Files F C}, (∀ f ∈ pos.map rd.file, w f ≠ none) →
    (perform empty (mergeAct rd i o) bs (v, q, u, pos.map rd.file) k).run w =
      (perform empty (mergeAct rd i o) (bs ++ [.pos 0 pos]) (v, q, u, fs) k).run w := by
  induction h with
  | nil =>
    intro v q u fs w hw
    rw [List.nil_append, merge_pos_run empty rd i o hpos [] v q u fs k hw]
  | cons h1 _ ih =>
    intro v q u fs w hw
    cases h1 with
    | verbose =>
      simp only [List.cons_append, perform, mergeAct, openReads, openWrites]
      cases q with
      | true => rfl
      | false => exact ih true false u fs hw
    | quiet =>
      simp only [List.cons_append, perform, mergeAct, openReads, openWrites]
      cases v with
      | true => rfl
      | false => exact ih false true u fs hw
    | outfile hs =>
      rename_i s
      have e1 : opens rd s = [rd.file s] := if_neg hs
      simp only [List.cons_append, perform, mergeAct, List.flatMap_cons, List.flatMap_nil, e1, openReads, openWrites, List.append_nil]
      rw [openWrite_run, openWrite_run]
      exact ih v q _ fs (fun f hf => update_there (hw f hf) _)

/-- C128: it does not matter whether the file names to be merged are before, between or after the options, if the files are there. -/
theorem C128_merge_any_order (S : Setup F C α φ ε V T γ) (m : Machine V T) (rd : Reader F) {l pos r : List Str}
    {as bs : List (Act MergeOpt)} {args args' : List (MergeArg F)} (hl : Options mergeParser l as) (hr : Options mergeParser r bs)
    (ha : List.Forall₂ (MergeMeans rd) as args) (hb : List.Forall₂ (MergeMeans rd) bs args')
    (hpos : Names mergeParser pos) (h0 : pos ≠ []) {w : Files F C}
    (hin : ∀ f ∈ (Command.merge (args ++ args') (pos.map rd.file)).reads, w f ≠ none) :
    (mergeLine S rd (l ++ pos ++ r)).run w = ((Command.merge (args ++ args') (pos.map rd.file)).prog S m).run w := by
  have hw : ∀ f ∈ pos.map rd.file, w f ≠ none := hin
  have hnd : ∀ x ∈ pos, x ≠ ['-'] := fun x hx => (hpos x hx).2
  have hpar : parse mergeParser (l ++ pos ++ r) = (as ++ .pos 0 pos :: bs, .ok) := by
    have := Line.more (p := mergeParser) rfl hl h0 (names_plain hpos) hr
    exact (C127_grammar mergeParser_wellFormed _ _).mpr (by simpa using this)
  have hpar2 : parse mergeParser (l ++ r ++ pos) = (as ++ bs ++ [.pos 0 pos], .ok) := by
    have := Line.more (p := mergeParser) rfl (hl.append hr) h0 (names_plain hpos) .nil
    rw [List.append_nil, List.append_nil] at this
    exact (C127_grammar mergeParser_wellFormed _ _).mpr this
  rw [← C128_merge S m rd (hl.append hr) (List.rel_append ha hb) hpos h0]
  unfold mergeLine
  rw [hpar, hpar2]
  simp only []
  have key : ∀ {as : List (Act MergeOpt)} {args : List (MergeArg F)}, List.Forall₂ (MergeMeans rd) as args →
      ∀ (k : Bool × Bool × F × List F → Prog F C) (v q : Bool) (u : F) (fs : List F) {w : Files F C}, (∀ f ∈ pos.map rd.file, w f ≠ none) →
      (perform S.empty (mergeAct rd S.stdin S.stdout) (as ++ .pos 0 pos :: bs) (v, q, u, fs) k).run w =
        (perform S.empty (mergeAct rd S.stdin S.stdout) (as ++ bs ++ [.pos 0 pos]) (v, q, u, fs) k).run w := by
    intro as args h k
    induction h with
    | nil =>
      intro v q u fs w hw
      rw [List.nil_append, List.nil_append, merge_pos_run S.empty rd _ _ hnd bs v q u fs k hw]
      exact merge_pos_last S.empty rd _ _ hnd hb k v q u fs hw
    | cons h1 _ ih =>
      intro v q u fs w hw
      cases h1 with
      | verbose =>
        simp only [List.cons_append, perform, mergeAct, openReads, openWrites]
        cases q with
        | true => rfl
        | false => exact ih true false u fs hw
      | quiet =>
        simp only [List.cons_append, perform, mergeAct, openReads, openWrites]
        cases v with
        | true => rfl
        | false => exact ih false true u fs hw
      | outfile hs =>
        rename_i s
        have e1 : opens rd s = [rd.file s] := if_neg hs
        simp only [List.cons_append, perform, mergeAct, List.flatMap_cons, List.flatMap_nil, e1, openReads, openWrites, List.append_nil]
        rw [openWrite_run, openWrite_run]
        exact ih v q _ fs (fun f hf => update_there (hw f hf) _)
  exact key ha _ _ _ _ _ hw

/-! ### stats_recsys.py -/

/-- One option of stats_recsys.py that is accepted and whose file is there. -/
def statsSet (o : StatsOpts F) : StatsArg F → StatsOpts F
  | .rseed _ => o
  | .infile f => { o with infile := some f }
  | .outfile f => { o with outfile := some f }
  | .noKeepdata => { o with keep := false, seenNo := true }
  | .keepdata => { o with keep := true, seenKeep := true }

/-- The options contain not both `--keepdata` and `--no-keepdata`. -/
def Accepted (args : List (StatsArg F)) : Prop := ¬ (.keepdata ∈ args ∧ .noKeepdata ∈ args)

/-- The files options name for reading and for writing. -/
def optReads (args : List (StatsArg F)) : List F := args.flatMap (fun a => match a with | .infile f => [f] | _ => [])
def optWrites (args : List (StatsArg F)) : List F := args.flatMap (fun a => match a with | .outfile f => [f] | _ => [])

lemma stats_perform_run (empty : C) (rd : Reader F) (i u : F) {as : List (Act StatsOpt)} {args : List (StatsArg F)}
    (h : List.Forall₂ (StatsMeans rd) as args) (bs : List (Act StatsOpt)) (k : StatsOpts F × F × F → Prog F C) :
    ∀ (o : StatsOpts F) (i' u' : F) {w : Files F C}, (∀ f ∈ optReads args, w f ≠ none) →
    (o.seenKeep = true → .noKeepdata ∉ args) → (o.seenNo = true → .keepdata ∉ args) → Accepted args →
    (perform empty (statsAct rd i u) (as ++ bs) (o, i', u') k).run w =
      (perform empty (statsAct rd i u) bs (args.foldl statsSet o, i', u') k).run (emptied empty w (optWrites args)) := by
  induction h with
  | nil =>
    intro o i' u' w _ _ _ _
    rw [List.nil_append]
    show _ = (perform empty (statsAct rd i u) bs (o, i', u') k).run (emptied empty w [])
    rw [emptied_nil]
  | @cons a b as args h1 _ ih =>
    intro o i' u' w hr hk hn hacc
    have hacc' : Accepted args := fun h => hacc ⟨by simp [h.1], by simp [h.2]⟩
    have hr' : ∀ f ∈ optReads args, w f ≠ none := fun f hf => hr f (by unfold optReads at *; rw [List.flatMap_cons]; exact List.mem_append_right _ hf)
    have hk' : o.seenKeep = true → .noKeepdata ∉ args := fun h hc => hk h (by simp [hc])
    have hn' : o.seenNo = true → .keepdata ∉ args := fun h hc => hn h (by simp [hc])
    rw [List.foldl_cons]
    cases h1 with
    | rseed hs =>
      simp only [List.cons_append, perform, statsAct, List.head?_cons, Option.bind_some, hs, openReads, openWrites]
      exact ih o i' u' hr' hk' hn' hacc'
    | infile hs =>
      rename_i s
      have e1 : opens rd s = [rd.file s] := if_neg hs
      have e2 : fileOf rd i s = rd.file s := if_neg hs
      simp only [List.cons_append, perform, statsAct, List.flatMap_cons, List.flatMap_nil, e1, e2, List.head?_cons, Option.map_some,
        openReads, openWrites, List.append_nil]
      rw [openRead_run _ (hr _ (by simp [optReads]))]
      exact ih _ i' u' hr' hk' hn' hacc'
    | outfile hs =>
      rename_i s
      have e1 : opens rd s = [rd.file s] := if_neg hs
      have e2 : fileOf rd u s = rd.file s := if_neg hs
      simp only [List.cons_append, perform, statsAct, List.flatMap_cons, List.flatMap_nil, e1, e2, List.head?_cons, Option.map_some,
        openReads, openWrites, List.append_nil]
      rw [openWrite_run]
      refine (ih { o with outfile := some (rd.file s) } i' u' (w := Function.update w (rd.file s) (some empty))
        (fun f hf => update_there (hr' f hf) _) hk' hn' hacc').trans ?_
      congr 1
      funext g
      show emptied empty (Function.update w (rd.file s) (some empty)) (optWrites args) g = emptied empty w (rd.file s :: optWrites args) g
      unfold emptied
      by_cases hg : g = rd.file s
      · subst hg; simp
      · simp [hg]
    | noKeepdata =>
      have hf : o.seenKeep = false := by
        cases hc : o.seenKeep with
        | false => rfl
        | true => exact absurd (by simp) (hk hc)
      obtain ⟨fi, fo, kp, sk, sn⟩ := o
      simp only [] at hf
      subst hf
      simp only [List.cons_append, perform, statsAct, openReads, openWrites, Bool.false_eq_true, if_false]
      refine ih _ i' u' hr' ?_ ?_ hacc'
      · intro hc; cases hc
      · exact fun _ hc => hacc ⟨by simp [hc], by simp⟩
    | keepdata =>
      have hf : o.seenNo = false := by
        cases hc : o.seenNo with
        | false => rfl
        | true => exact absurd (by simp) (hn hc)
      obtain ⟨fi, fo, kp, sk, sn⟩ := o
      simp only [] at hf
      subst hf
      simp only [List.cons_append, perform, statsAct, openReads, openWrites, Bool.false_eq_true, if_false]
      refine ih _ i' u' hr' ?_ ?_ hacc'
      · exact fun _ hc => hacc ⟨by simp, by simp [hc]⟩
      · intro hc; cases hc

/-- The files of the positional arguments. -/
def posFiles (pos : List F) (i u : F) : F × F :=
  match pos with
  | [] => (i, u)
  | [x] => (x, u)
  | x :: y :: _ => (x, y)

lemma stats_two_run (empty : C) (rd : Reader F) (i u : F) {pos : List Str} (hpos : Names statsParser pos) (hlen : pos.length ≤ 2)
    (bs : List (Act StatsOpt)) (k : StatsOpts F × F × F → Prog F C) (o : StatsOpts F) (i' u' : F) {w : Files F C}
    (hr : ∀ f ∈ (pos.map rd.file).take 1, w f ≠ none) :
    (perform empty (statsAct rd i u) ((if pos = [] then [] else two pos) ++ bs) (o, i', u') k).run w
      = (perform empty (statsAct rd i u) bs (o, posFiles (pos.map rd.file) i' u') k).run
        (emptied empty w (((pos.map rd.file).drop 1).take 1)) := by
  have hx : ∀ x ∈ pos, opens rd x = [rd.file x] ∧ ∀ std, fileOf rd std x = rd.file x := by
    intro x hx
    exact ⟨if_neg (hpos x hx).2, fun _ => if_neg (hpos x hx).2⟩
  rcases pos with _ | ⟨x, _ | ⟨y, _ | ⟨z, zs⟩⟩⟩
  · simp [posFiles, emptied_nil]
  · obtain ⟨h1, h2⟩ := hx x (by simp)
    simp only [List.cons_ne_nil, if_false, two, List.cons_append, List.nil_append, perform, statsAct, h1, h2, openReads, openWrites]
    rw [openRead_run _ (hr _ (by simp))]
    simp [posFiles, emptied_nil]
  · obtain ⟨h1, h2⟩ := hx x (by simp)
    obtain ⟨h3, h4⟩ := hx y (by simp)
    have hy : y ≠ ['-', '-'] := plain_ne (hpos y (by simp)).1
    simp only [List.cons_ne_nil, if_false, two, if_neg hy, List.cons_append, List.nil_append, perform, statsAct, h1, h2, h3, h4,
      openReads, openWrites]
    rw [openRead_run _ (hr _ (by simp))]
    show (perform empty (statsAct rd i u) bs _ k).run (Function.update w _ (some empty)) = _
    congr 1
    funext g
    unfold emptied
    by_cases hg : g = rd.file y
    · subst hg; simp
    · simp [hg]
  · simp at hlen

/-- C128: it does not matter whether the file names of stats_recsys.py are before, between or after the options, if the options are accepted
and the files to be read are there. -/
theorem C128_stats_any_order (S : Setup F C α φ ε V T γ) (m : Machine V T) (rd : Reader F) {l pos r : List Str}
    {as bs : List (Act StatsOpt)} {args args' : List (StatsArg F)} (hl : Options statsParser l as) (hr : Options statsParser r bs)
    (ha : List.Forall₂ (StatsMeans rd) as args) (hb : List.Forall₂ (StatsMeans rd) bs args')
    (hpos : Names statsParser pos) (hlen : pos.length ≤ 2) (hacc : ¬ (.keepdata ∈ args ++ args' ∧ .noKeepdata ∈ args ++ args'))
    {w : Files F C} (hin : ∀ f ∈ (Command.stats (args ++ args') (pos.map rd.file)).reads, w f ≠ none) :
    (statsLine S rd (l ++ pos ++ r)).run w = ((Command.stats (args ++ args') (pos.map rd.file)).prog S m).run w := by
  have hreads : ∀ f, f ∈ optReads args ∨ f ∈ optReads args' ∨ f ∈ (pos.map rd.file).take 1 → w f ≠ none := by
    intro f hf
    apply hin
    show f ∈ optReads (args ++ args') ++ _
    unfold optReads at *
    rw [List.flatMap_append]
    rcases hf with h | h | h <;> simp [h]
  have hpar : parse statsParser (l ++ pos ++ r) = (as ++ ((if pos = [] then [] else two pos) ++ bs), .ok) := by
    by_cases h0 : pos = []
    · subst h0
      rw [if_pos rfl, List.append_nil, List.nil_append]
      exact (C127_grammar statsParser_wellFormed _ _).mpr (.options rfl (hl.append hr))
    · rw [if_neg h0, ← List.append_assoc]
      exact (C127_grammar statsParser_wellFormed _ _).mpr (.two rfl hl h0 hlen (names_plain hpos) hr)
  have hpar2 : parse statsParser (l ++ r ++ pos) = (as ++ bs ++ ((if pos = [] then [] else two pos)), .ok) :=
    parse_last statsParser_wellFormed rfl (hl.append hr) (names_plain hpos) hlen
  rw [← C128_stats S m rd (hl.append hr) (List.rel_append ha hb) hpos hlen]
  unfold statsLine
  rw [hpar, hpar2]
  simp only []
  have acc1 : Accepted args := fun h => hacc ⟨by simp [h.1], by simp [h.2]⟩
  have acc2 : Accepted args' := fun h => hacc ⟨by simp [h.1], by simp [h.2]⟩
  -- the members of the group met before
  have seen : ∀ (l : List (StatsArg F)) (o : StatsOpts F), ((l.foldl statsSet o).seenKeep = true → o.seenKeep = true ∨ .keepdata ∈ l) ∧
      ((l.foldl statsSet o).seenNo = true → o.seenNo = true ∨ .noKeepdata ∈ l) := by
    intro l
    induction l with
    | nil => exact fun o => ⟨fun h => .inl h, fun h => .inl h⟩
    | cons a l ih =>
      intro o
      rw [List.foldl_cons]
      obtain ⟨i1, i2⟩ := ih (statsSet o a)
      constructor
      · intro h
        rcases i1 h with h | h
        · cases a <;> first | exact .inl h | exact .inr (by simp)
        · exact .inr (by simp [h])
      · intro h
        rcases i2 h with h | h
        · cases a <;> first | exact .inl h | exact .inr (by simp)
        · exact .inr (by simp [h])
  have mid1 : (args.foldl statsSet (⟨none, none, false, false, false⟩ : StatsOpts F)).seenKeep = true → .noKeepdata ∉ args' := by
    intro h hc
    rcases (seen args _).1 h with h | h
    · cases h
    · exact hacc ⟨by simp [h], by simp [hc]⟩
  have mid2 : (args.foldl statsSet (⟨none, none, false, false, false⟩ : StatsOpts F)).seenNo = true → .keepdata ∉ args' := by
    intro h hc
    rcases (seen args _).2 h with h | h
    · cases h
    · exact hacc ⟨by simp [hc], by simp [h]⟩
  rw [stats_perform_run S.empty rd S.stdin S.stdout ha _ _ _ _ _ (fun f hf => hreads f (Or.inl hf)) (fun h => by cases h)
      (fun h => by cases h) acc1,
    stats_two_run S.empty rd S.stdin S.stdout hpos hlen bs _ _ _ _ (fun f hf => emptied_there (hreads f (Or.inr (Or.inr hf))) _)]
  have e1 := stats_perform_run S.empty rd S.stdin S.stdout hb []
    (fun st => finish .ok (statsTask S (st.1.infile.getD st.2.1) (st.1.outfile.getD st.2.2) st.1.keep))
    (args.foldl statsSet ⟨none, none, false, false, false⟩) (posFiles (pos.map rd.file) S.stdin S.stdout).1
    (posFiles (pos.map rd.file) S.stdin S.stdout).2
    (w := emptied S.empty (emptied S.empty w (optWrites args)) (((pos.map rd.file).drop 1).take 1))
    (fun f hf => emptied_there (emptied_there (hreads f (Or.inr (Or.inl hf))) _) _) mid1 mid2 acc2
  rw [List.append_nil] at e1
  refine e1.trans ?_
  rw [List.append_assoc, stats_perform_run S.empty rd S.stdin S.stdout ha _ _ _ _ _ (fun f hf => hreads f (Or.inl hf)) (fun h => by cases h)
      (fun h => by cases h) acc1,
    stats_perform_run S.empty rd S.stdin S.stdout hb _ _ _ _ _ (fun f hf => emptied_there (hreads f (Or.inr (Or.inl hf))) _) mid1 mid2 acc2]
  have e2 := stats_two_run S.empty rd S.stdin S.stdout hpos hlen []
    (fun st => finish .ok (statsTask S (st.1.infile.getD st.2.1) (st.1.outfile.getD st.2.2) st.1.keep))
    (args'.foldl statsSet (args.foldl statsSet ⟨none, none, false, false, false⟩)) S.stdin S.stdout
    (w := emptied S.empty (emptied S.empty w (optWrites args)) (optWrites args'))
    (fun f hf => emptied_there (emptied_there (hreads f (Or.inr (Or.inr hf))) _) _)
  rw [List.append_nil] at e2
  rw [e2]
  congr 1
  simp only [emptied_append]
  funext f
  unfold emptied
  have : ∀ xs ys zs : List F, (f ∈ xs ++ ys ++ zs) ↔ (f ∈ xs ++ zs ++ ys) := by
    intro xs ys zs
    simp only [List.mem_append]
    tauto
  simp only [this]

end Kam.Args
