/-
C127: when argparse itself raises an exception.  C129: command lines that are refused before anything is done.
-/
import Verif.Args.Props
import Verif.Args.Files

set_option linter.unusedSectionVars false

namespace Kam.Args
open Kam.Convert (Str)
open Shell
open Exp (Script)

variable {A : Type}

/-- A string `--w` or `--w=v` where `--w` is no option string, but begins two of them. -/
def Ambiguous (p : Parser A) (s : Str) : Prop :=
  ['-', '-'] <+: s ∧ (∀ q ∈ p.table, q.1 ≠ s.takeWhile (· != '=')) ∧
    ∃ q ∈ p.table, ∃ q' ∈ p.table, q.1 ≠ q'.1 ∧ s.takeWhile (· != '=') <+: q.1 ∧ s.takeWhile (· != '=') <+: q'.1

/-! ### Ambiguous options -/

lemma takeWhile_noeq {s : Str} (h : '=' ∉ s) : s.takeWhile (· != '=') = s := by
  rw [List.takeWhile_eq_self_iff]
  intro c hc
  rw [bne_iff_ne]
  rintro rfl
  exact h hc

lemma splitEq_takeWhile {s n v : Str} (h : splitEq s = some (n, v)) : n = s.takeWhile (· != '=') := by
  unfold splitEq at h
  split at h
  · cases h
  · cases h; rfl

lemma splitEq_whole {s : Str} (h : splitEq s = none) : s.takeWhile (· != '=') = s := by
  unfold splitEq at h
  split at h
  · rename_i hd
    have := List.takeWhile_append_dropWhile (p := (· != '=')) (l := s)
    rw [hd, List.append_nil] at this
    exact this
  · cases h

lemma tuples_dashes {table : List (Str × A)} {s : Str} (h : ['-', '-'] <+: s) :
    ∃ e, tuples table s = table.filterMap (fun q =>
      if (s.takeWhile (· != '=')).isPrefixOf q.1 then some (q.2, q.1, e) else none) := by
  obtain ⟨r, rfl⟩ := h
  show ∃ e, tuples table ('-' :: '-' :: r) = _
  unfold tuples
  cases hs : splitEq ('-' :: '-' :: r) with
  | none =>
    refine ⟨none, ?_⟩
    show _ = table.filterMap (fun q => if (List.takeWhile (· != '=') ('-' :: '-' :: r)).isPrefixOf q.1 then _ else _)
    rw [splitEq_whole hs]
    rfl
  | some q =>
    refine ⟨some q.2, ?_⟩
    show _ = table.filterMap (fun q => if (List.takeWhile (· != '=') ('-' :: '-' :: r)).isPrefixOf q.1 then _ else _)
    rw [← splitEq_takeWhile (n := q.1) hs]
    rfl

/-- Two members of a list that are kept are kept. -/
lemma filterMap_two {β δ : Type} {f : β → Option δ} {l : List β} {x y : β} (hx : x ∈ l) (hy : y ∈ l) (hne : f x ≠ f y)
    (h1 : f x ≠ none) (h2 : f y ≠ none) : ∃ a b r, l.filterMap f = a :: b :: r := by
  obtain ⟨a, ha⟩ := Option.ne_none_iff_exists'.1 h1
  obtain ⟨b, hb⟩ := Option.ne_none_iff_exists'.1 h2
  have ma : a ∈ l.filterMap f := List.mem_filterMap.2 ⟨x, hx, ha⟩
  have mb : b ∈ l.filterMap f := List.mem_filterMap.2 ⟨y, hy, hb⟩
  rcases hl : l.filterMap f with _ | ⟨c, _ | ⟨d, r⟩⟩
  · rw [hl] at ma; cases ma
  · rw [hl] at ma mb
    rw [List.mem_singleton.1 ma, ← List.mem_singleton.1 mb, ← hb] at ha
    exact absurd ha hne
  · exact ⟨c, d, r, rfl⟩

lemma classify_ambiguous {p : Parser A} (hp : WellFormed p) {s : Str} (h : Ambiguous p s) : classify p.table s = none := by
  obtain ⟨hd, hno, q, hq, q', hq', hne, h1, h2⟩ := h
  have hl : lookup p.table s = none := by
    rw [lookup_none]
    intro a ha
    have : '=' ∉ s := by
      rcases hp.name _ ha with ⟨c, hc, hc', _, hs⟩ | ⟨w, hw, hw', hs⟩
      · simp only [] at hs
        rw [hs]
        simp only [List.mem_cons, List.not_mem_nil, or_false, not_or]
        exact ⟨by decide, fun h => hc' h.symm⟩
      · simp only [] at hs
        rw [hs]
        simp only [List.mem_cons, not_or]
        exact ⟨by decide, by decide, hw'⟩
    exact hno _ ha (takeWhile_noeq this).symm
  have hw : withEq p.table s = none := by
    unfold withEq
    cases hs : splitEq s with
    | none => rfl
    | some x =>
      have hn := splitEq_takeWhile (n := x.1) hs
      have : lookup p.table x.1 = none := by
        rw [lookup_none]
        intro a ha
        exact hno _ ha hn
      simp only [this, Option.map_none]
  obtain ⟨e, ht⟩ := tuples_dashes (table := p.table) hd
  obtain ⟨a, b, r, hab⟩ := filterMap_two (f := fun q : Str × A =>
    if (s.takeWhile (· != '=')).isPrefixOf q.1 then some (q.2, q.1, e) else none) hq hq'
    (by
      simp only [List.isPrefixOf_iff_prefix.2 h1, List.isPrefixOf_iff_prefix.2 h2, if_true]
      intro h
      injection h with h
      exact hne (congrArg (fun x : A × Str × Option Str => x.2.1) h))
    (by simp only [List.isPrefixOf_iff_prefix.2 h1, if_true]; simp)
    (by simp only [List.isPrefixOf_iff_prefix.2 h2, if_true]; simp)
  rw [hab] at ht
  obtain ⟨t, rfl⟩ := hd
  show classify p.table ('-' :: '-' :: t) = none
  unfold classify
  rw [show lookup p.table ('-' :: '-' :: t) = none from hl]
  simp only [List.isEmpty_cons, Bool.false_eq_true, if_false]
  rw [show withEq p.table ('-' :: '-' :: t) = none from hw]
  simp only []
  rw [show tuples p.table ('-' :: '-' :: t) = a :: b :: r from ht]

lemma scan_ambiguous {table : List (Str × A)} {s : Str} (hs : s ≠ ['-', '-']) (hc : classify table s = none) (r : List Str) :
    ∀ (l : List Str), ['-', '-'] ∉ l → scan table (l ++ s :: r) = none
  | [], _ => by
    rw [List.nil_append, scan, if_neg hs, hc]
  | x :: l, h => by
    simp only [List.mem_cons, not_or] at h
    rw [List.cons_append, scan, if_neg (fun hx => h.1 hx.symm), scan_ambiguous hs hc r l h.2]
    cases classify table x <;> rfl

variable {F C : Type} [DecidableEq F] {α φ ε V T γ : Type} [LinearOrder α]

/-- C129: a string that abbreviates several options, before any `--`, and the script does nothing at all: no file is opened. -/
theorem C129_ambiguous (S : Setup F C α φ ε V T γ) (m : Machine V T) (rd : Reader F) (c : Call) {l r : List Str}
    {s : Str} (hl : ['-', '-'] ∉ l) (hs : s ≠ ['-', '-']) (hc : c.argv = l ++ s :: r)
    (h : match c with
      | .exp _ _ => Ambiguous expParser s
      | .merge _ => Ambiguous mergeParser s
      | .stats _ => Ambiguous statsParser s) : c.prog S m rd = .done .usage := by
  cases c with
  | exp sc argv =>
    simp only [Call.argv] at hc
    subst hc
    show expLine S m rd sc _ = _
    unfold expLine parse
    rw [scan_ambiguous hs (classify_ambiguous expParser_wellFormed h) r l hl]
    rfl
  | merge argv =>
    simp only [Call.argv] at hc
    subst hc
    show mergeLine S rd _ = _
    unfold mergeLine parse
    rw [scan_ambiguous hs (classify_ambiguous mergeParser_wellFormed h) r l hl]
    rfl
  | stats argv =>
    simp only [Call.argv] at hc
    subst hc
    show statsLine S rd _ = _
    unfold statsLine parse
    rw [scan_ambiguous hs (classify_ambiguous statsParser_wellFormed h) r l hl]
    rfl

/-! ### Exceptions of argparse -/

lemma attached_raises (p : Parser A) (ts : List (Str × Tok A)) : ∀ (e : Str) (a : A) (name : Str),
    attached p ts e a name = .error .indexError → e = [] ∧ p.arity a = 0 ∧ name.tail.head? ≠ some '-'
  | [], a, name, h => by
    rw [attached] at h
    split at h
    · cases h
    · split at h
      · rename_i h0
        exact ⟨rfl, h0⟩
      · cases h
  | c :: e, a, name, h => by
    exfalso
    rw [attached] at h
    split at h
    · cases h
    · split at h
      · cases hl : lookup p.table ['-', c] with
        | none => rw [hl] at h; cases h
        | some b =>
          rw [hl] at h
          simp only [] at h
          split at h
          · cases ht : takeArgs (p.arity b) ts with
            | none => rw [ht] at h; cases h
            | some r => rw [ht] at h; cases h
          · rename_i he
            cases ha : attached p ts e b ['-', c] with
            | error x =>
              rw [ha] at h
              have hx : x = .indexError := by
                injection h
              rw [hx] at ha
              have := (attached_raises p ts e b ['-', c] ha).1
              rw [this] at he
              exact he rfl
            | ok r => rw [ha] at h; cases h
      · cases h

/-- Token `t` makes argparse raise. -/
def Raises (p : Parser A) (t : Str × Tok A) : Prop :=
  ∃ a n, t.2 = .opt a n (some []) ∧ p.arity a = 0 ∧ n.tail.head? ≠ some '-'

lemma optional_raises {p : Parser A} {a : A} {name : Str} {e : Option Str} {ts : List (Str × Tok A)}
    (h : optional p a name e ts = .error .indexError) : e = some [] ∧ p.arity a = 0 ∧ name.tail.head? ≠ some '-' := by
  unfold optional at h
  cases e with
  | some e =>
    obtain ⟨rfl, h1⟩ := attached_raises p ts e a name h
    exact ⟨rfl, h1⟩
  | none =>
    simp only [] at h
    cases ht : takeArgs (p.arity a) ts with
    | none => rw [ht] at h; cases h
    | some r => rw [ht] at h; cases h

lemma takeArgs_sub : ∀ {n : Nat} {ts ts' : List (Str × Tok A)} {args : List Str}, takeArgs n ts = some (args, ts') →
    ∀ x ∈ ts', x ∈ ts
  | 0, ts, ts', args, h => by cases h; exact fun _ h => h
  | n + 1, [], ts', args, h => by cases h
  | n + 1, (s, t) :: ts, ts', args, h => by
    cases t with
    | arg =>
      rw [takeArgs] at h
      cases h2 : takeArgs n ts with
      | none => rw [h2] at h; cases h
      | some q =>
        rw [h2] at h
        cases h
        exact fun x hx => List.mem_cons_of_mem _ (takeArgs_sub (ts' := q.2) (args := q.1) h2 x hx)
    | dashes => cases h
    | opt a n e => cases h
    | unknown => cases h

lemma attached_sub (p : Parser A) (ts : List (Str × Tok A)) : ∀ (e : Str) (a : A) (name : Str)
    {q : List (Act A) × List (Str × Tok A)}, attached p ts e a name = .ok q → ∀ x ∈ q.2, x ∈ ts
  | [], a, name, q, h => by
    rw [attached] at h
    split at h
    · cases h; exact fun _ h => h
    · split at h <;> cases h
  | c :: e, a, name, q, h => by
    rw [attached] at h
    split at h
    · cases h; exact fun _ h => h
    · split at h
      · cases hl : lookup p.table ['-', c] with
        | none => rw [hl] at h; cases h
        | some b =>
          rw [hl] at h
          simp only [] at h
          split at h
          · cases ht : takeArgs (p.arity b) ts with
            | none => rw [ht] at h; cases h
            | some r =>
              rw [ht] at h
              cases h
              exact takeArgs_sub (args := r.1) (ts' := r.2) ht
          · cases ha : attached p ts e b ['-', c] with
            | error x => rw [ha] at h; cases h
            | ok r =>
              rw [ha] at h
              cases h
              exact attached_sub p ts e b ['-', c] (q := r) ha
      · cases h

lemma optional_sub {p : Parser A} {a : A} {name : Str} {e : Option Str} {ts : List (Str × Tok A)}
    {q : List (Act A) × List (Str × Tok A)} (h : optional p a name e ts = .ok q) : ∀ x ∈ q.2, x ∈ ts := by
  unfold optional at h
  cases e with
  | some e => exact attached_sub p ts e a name h
  | none =>
    simp only [] at h
    cases ht : takeArgs (p.arity a) ts with
    | none => rw [ht] at h; cases h
    | some r =>
      rw [ht] at h
      cases h
      exact takeArgs_sub (args := r.1) (ts' := r.2) ht

lemma takeOne_sub (ts : List (Str × Tok A)) : ∀ x ∈ (takeOne ts).2, x ∈ ts := by
  unfold takeOne
  simp only []
  split
  · rename_i s ts' h
    intro x hx
    exact (List.dropWhile_sublist _).subset (h ▸ List.mem_cons_of_mem _ ((List.dropWhile_sublist _).subset hx))
  · exact fun x hx => (List.dropWhile_sublist _).subset hx

lemma takeUpTo_sub : ∀ (n i : Nat) (ts : List (Str × Tok A)), ∀ x ∈ (takeUpTo n i ts).2, x ∈ ts
  | 0, _, _ => fun _ h => h
  | n + 1, i, ts => fun x hx => takeOne_sub ts x (takeUpTo_sub n (i + 1) _ x hx)

lemma positional_sub (ps : Positionals) (ts : List (Str × Tok A)) : ∀ x ∈ (positional ps ts).2.1, x ∈ ts := by
  unfold positional
  cases ps with
  | upTo n => exact takeUpTo_sub n 0 ts
  | oneOrMore =>
    simp only []
    split
    · exact fun _ h => h
    · exact fun x hx => (List.dropWhile_sublist _).subset hx

lemma loop_plain_snd (p : Parser A) (left extra : Bool) (w : Str) {t : Tok A} (ts : List (Str × Tok A)) (ht : t.plain = true) :
    ∃ (l e : Bool) (ts' : List (Str × Tok A)), (∀ x ∈ ts', x ∈ (w, t) :: ts) ∧ ts'.length ≤ ts.length ∧
      (loop p left extra ((w, t) :: ts)).2 = (loop p l e ts').2 := by
  have hsub : ∀ x ∈ ts, x ∈ (w, t) :: ts := fun x hx => List.mem_cons_of_mem _ hx
  have h3 := positional_length p.positionals ((w, t) :: ts)
  simp only [List.length_cons] at h3
  have key : ∃ (l e : Bool) (ts' : List (Str × Tok A)), (∀ x ∈ ts', x ∈ (w, t) :: ts) ∧ ts'.length ≤ ts.length ∧
      (if left then
        if (positional p.positionals ((w, t) :: ts)).2.1.length = ts.length + 1 then
          (loop p (positional p.positionals ((w, t) :: ts)).2.2 true ts).2
        else (loop p (positional p.positionals ((w, t) :: ts)).2.2 extra (positional p.positionals ((w, t) :: ts)).2.1).2
      else (loop p false true ts).2) = (loop p l e ts').2 := by
    split
    · split
      · exact ⟨_, _, ts, hsub, le_rfl, rfl⟩
      · exact ⟨_, _, _, positional_sub _ _, by omega, rfl⟩
    · exact ⟨_, _, ts, hsub, le_rfl, rfl⟩
  obtain ⟨l, e, ts', h1, h2, h4⟩ := key
  refine ⟨l, e, ts', h1, h2, ?_⟩
  rw [← h4]
  cases t with
  | arg =>
    rw [loop]
    · split
      · simp only []
        split <;> rfl
      · rfl
    all_goals simp
  | dashes =>
    rw [loop]
    · split
      · simp only []
        split <;> rfl
      · rfl
    all_goals simp
  | opt a n e => cases ht
  | unknown => cases ht

lemma loop_raises (p : Parser A) : ∀ (n : Nat) (left extra : Bool) {ts : List (Str × Tok A)}, ts.length ≤ n →
    (loop p left extra ts).2 = .indexError → ∃ t ∈ ts, Raises p t
  | n, left, extra, [], _, h => by
    rw [loop] at h
    simp only [] at h
    split at h <;> cases h
  | 0, _, _, _ :: _, hn, _ => by simp at hn
  | n + 1, left, extra, (w, t) :: ts, hn, h => by
    have hn' : ts.length ≤ n := by simpa using hn
    have plain : t.plain = true → ∃ x ∈ (w, t) :: ts, Raises p x := by
      intro ht
      obtain ⟨l, e, ts', h1, h2, h3⟩ := loop_plain_snd p left extra w ts ht
      rw [h3] at h
      obtain ⟨x, hx, hr⟩ := loop_raises p n l e (h2.trans hn') h
      exact ⟨x, h1 x hx, hr⟩
    cases t with
    | arg => exact plain rfl
    | dashes => exact plain rfl
    | unknown =>
      rw [loop] at h
      obtain ⟨x, hx, hr⟩ := loop_raises p n _ _ hn' h
      exact ⟨x, List.mem_cons_of_mem _ hx, hr⟩
    | opt a name e =>
      rw [loop] at h
      split at h
      · rename_i x ho
        simp only [] at h
        subst h
        obtain ⟨rfl, h1, h2⟩ := optional_raises ho
        exact ⟨_, List.mem_cons_self .., a, name, rfl, h1, h2⟩
      · rename_i acts ts' ho
        obtain ⟨x, hx, hr⟩ := loop_raises p n _ _ ((optional_length ho).trans hn') h
        exact ⟨x, List.mem_cons_of_mem _ (optional_sub ho x hx), hr⟩

lemma scan_tok {table : List (Str × A)} : ∀ {argv : List Str} {ts : List (Str × Tok A)}, scan table argv = some ts →
    ∀ s a n e, (s, Tok.opt a n e) ∈ ts → s ∈ argv ∧ classify table s = some (.opt a n e)
  | [], ts, h, s, a, n, e, hx => by
    cases h
    cases hx
  | x :: xs, ts, h, s, a, n, e, hx => by
    rw [scan] at h
    split at h
    · cases h
      rcases List.mem_cons.1 hx with h | hx
      · cases h
      · obtain ⟨y, _, hy⟩ := List.mem_map.1 hx
        cases hy
    · cases hc : classify table x with
      | none => rw [hc] at h; cases h
      | some t =>
        rw [hc] at h
        cases hr : scan table xs with
        | none => simp only [hr] at h; cases h
        | some ts' =>
          simp only [hr] at h
          cases h
          rcases List.mem_cons.1 hx with h | hx
          · cases h
            exact ⟨List.mem_cons_self .., hc⟩
          · obtain ⟨h1, h2⟩ := scan_tok hr s a n e hx
            exact ⟨List.mem_cons_of_mem _ h1, h2⟩

/-- C127: argparse raises an exception, instead of printing a message, for a string `-c=` only, where `-c` takes no argument. -/
theorem C127_raises {p : Parser A} (hp : WellFormed p) {argv : List Str} (h : (parse p argv).2 = .indexError) :
    ∃ c a, (['-', c], a) ∈ p.table ∧ p.arity a = 0 ∧ ['-', c, '='] ∈ argv := by
  unfold parse at h
  cases hs : scan p.table argv with
  | none => rw [hs] at h; cases h
  | some ts =>
    rw [hs] at h
    obtain ⟨⟨s, t⟩, ht, a, n, rfl, h0, hn⟩ := loop_raises p ts.length true false le_rfl h
    obtain ⟨hin, hc⟩ := scan_tok hs s a n _ ht
    have fin : ∀ {b : A}, (n, b) ∈ p.table → b = a → s = n ++ ['='] → ∃ c a, (['-', c], a) ∈ p.table ∧ p.arity a = 0 ∧ ['-', c, '='] ∈ argv := by
      rintro b hb rfl he
      rcases hp.name _ hb with ⟨c, _, _, _, hc⟩ | ⟨w, _, _, hw⟩
      · simp only [] at hc
        subst hc
        subst he
        exact ⟨c, b, hb, h0, hin⟩
      · simp only [] at hw
        rw [hw] at hn
        exact absurd rfl hn
    unfold classify at hc
    split at hc
    · rename_i r
      split at hc
      · cases hc
      · rename_i hl
        split at hc
        · cases hc
        · split at hc
          · rename_i hw
            cases hc
            unfold withEq at hw
            split at hw
            · rename_i n' v hq
              cases hl' : lookup p.table n' with
              | none => rw [hl'] at hw; cases hw
              | some b =>
                rw [hl'] at hw
                cases hw
                refine fin (lookup_mem hl') rfl ?_
                unfold splitEq at hq
                split at hq
                · cases hq
                · rename_i c v hd
                  have hap := List.takeWhile_append_dropWhile (p := (· != '=')) (l := '-' :: r)
                  have hce : c = '=' := by
                    have := List.head_dropWhile_not (l := '-' :: r) (· != '=') (by rw [hd]; simp)
                    simp only [hd, List.head_cons, bne_eq_false_iff_eq] at this
                    exact this
                  rw [hd] at hap
                  cases hq
                  rw [hce] at hap
                  exact hap.symm
            · cases hw
          · split at hc
            · rename_i ht
              cases hc
              have hm : (a, n, some ([] : Str)) ∈ tuples p.table ('-' :: r) := by rw [ht]; exact List.mem_singleton.2 rfl
              exfalso
              by_cases hdd : ['-', '-'] <+: '-' :: r
              · obtain ⟨e, he⟩ := tuples_dashes (table := p.table) hdd
                rw [he] at hm
                obtain ⟨q, hq, hp'⟩ := List.mem_filterMap.1 hm
                split at hp'
                · rename_i hpre
                  injection hp' with hp'
                  have hqn : q.1 = n := congrArg (fun x : A × Str × Option Str => x.2.1) hp'
                  obtain ⟨r', hr⟩ := hdd
                  obtain ⟨z, hz⟩ := List.isPrefixOf_iff_prefix.1 hpre
                  rw [← hr, hqn] at hz
                  rw [← hz] at hn
                  exact hn rfl
                · cases hp'
              · have hm' : (a, n, some ([] : Str)) ∈ p.table.filterMap (fun q =>
                    if q.1 == ('-' :: r).take 2 then some (q.2, q.1, some (('-' :: r).drop 2))
                    else if ('-' :: r).isPrefixOf q.1 then some (q.2, q.1, none) else none) := by
                  unfold tuples at hm
                  split at hm
                  · rename_i r' hr'
                    exact absurd ⟨r', hr'.symm⟩ hdd
                  · exact hm
                obtain ⟨q, hq, hp'⟩ := List.mem_filterMap.1 hm'
                split at hp'
                · rename_i hpre
                  injection hp' with hp'
                  have h2 : ('-' :: r).drop 2 = [] := Option.some.inj (congrArg (fun x : A × Str × Option Str => x.2.2) hp')
                  have h3 := List.take_append_drop 2 ('-' :: r)
                  rw [h2, List.append_nil, ← beq_iff_eq.1 hpre] at h3
                  rw [lookup_none] at hl
                  exact hl q.2 (h3 ▸ hq)
                · split at hp' <;> cases hp'
            · split at hc <;> cases hc
            · cases hc
    · cases hc

end Kam.Args
