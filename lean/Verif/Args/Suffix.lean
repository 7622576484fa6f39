/-
The strings of the actions argparse takes are ends of strings of the command line.
-/
import Verif.Args.Model
import Mathlib.Data.List.TakeWhile
import Mathlib.Data.List.Infix

set_option linter.unusedSectionVars false

namespace Kam.Args
open Kam.Convert (Str)

variable {A : Type}

/-- The strings of an action. -/
def Act.strs : Act A → List Str
  | .opt _ args => args
  | .pos _ args => args

/-- A predicate on strings that goes over to their ends. -/
def Closed (P : Str → Prop) : Prop := ∀ s t : Str, t <:+ s → P s → P t

/-- The strings of a token. -/
def Good (P : Str → Prop) (ts : List (Str × Tok A)) : Prop :=
  ∀ x ∈ ts, P x.1 ∧ ∀ a n e, x.2 = .opt a n (some e) → P e

lemma Good.tail {P : Str → Prop} {x : Str × Tok A} {ts : List (Str × Tok A)} (h : Good P (x :: ts)) : Good P ts :=
  fun y hy => h y (List.mem_cons_of_mem _ hy)

lemma Good.sub {P : Str → Prop} {ts ts' : List (Str × Tok A)} (h : Good P ts) (hs : ts'.Sublist ts) : Good P ts' :=
  fun y hy => h y (hs.subset hy)

lemma splitEq_suffix {s n v : Str} (h : splitEq s = some (n, v)) : v <:+ s := by
  unfold splitEq at h
  split at h
  · cases h
  · rename_i hd
    cases h
    exact (List.suffix_cons _ _).trans (hd ▸ List.dropWhile_suffix _)

lemma tuples_suffix {table : List (Str × A)} {s : Str} {a : A} {n e : Str} (h : (a, n, some e) ∈ tuples table s) : e <:+ s := by
  unfold tuples at h
  split at h
  · rename_i r
    cases hq : splitEq ('-' :: '-' :: r) with
    | none =>
      rw [hq] at h
      simp only [List.mem_filterMap] at h
      obtain ⟨p, _, hp⟩ := h
      split at hp <;> cases hp
    | some q =>
      rw [hq] at h
      simp only [List.mem_filterMap] at h
      obtain ⟨p, _, hp⟩ := h
      split at hp
      · cases hp
        exact splitEq_suffix (n := q.1) hq
      · cases hp
  · simp only [List.mem_filterMap] at h
    obtain ⟨p, _, hp⟩ := h
    split at hp
    · cases hp
      exact List.drop_suffix _ _
    · split at hp <;> cases hp

lemma classify_suffix {table : List (Str × A)} {s : Str} {a : A} {n e : Str} (h : classify table s = some (.opt a n (some e))) : e <:+ s := by
  unfold classify at h
  split at h
  · split at h
    · cases h
    · split at h
      · cases h
      · split at h
        · rename_i hw
          cases h
          unfold withEq at hw
          split at hw
          · rename_i hq
            cases hl : lookup table _ with
            | none => rw [hl] at hw; cases hw
            | some b =>
              rw [hl] at hw
              cases hw
              exact splitEq_suffix hq
          · cases hw
        · split at h
          · rename_i ht
            cases h
            exact tuples_suffix (table := table) (by rw [ht]; exact List.mem_singleton.2 rfl)
          · split at h <;> cases h
          · cases h
  · cases h

lemma scan_good {P : Str → Prop} (hP : Closed P) {table : List (Str × A)} : ∀ {argv : List Str} {ts : List (Str × Tok A)},
    (∀ s ∈ argv, P s) → scan table argv = some ts → Good P ts
  | [], ts, _, h => by
    cases h
    intro x hx
    cases hx
  | s :: ss, ts, hs, h => by
    rw [scan] at h
    split at h
    · cases h
      intro x hx
      rcases List.mem_cons.1 hx with rfl | hx
      · exact ⟨hs _ (by simp), fun a n e h => by cases h⟩
      · obtain ⟨y, hy, rfl⟩ := List.mem_map.1 hx
        exact ⟨hs _ (by simp [hy]), fun a n e h => by cases h⟩
    · cases hc : classify table s with
      | none => rw [hc] at h; cases h
      | some t =>
        rw [hc] at h
        cases hr : scan table ss with
        | none => simp only [hr] at h; cases h
        | some ts' =>
          simp only [hr] at h
          cases h
          intro x hx
          rcases List.mem_cons.1 hx with rfl | hx
          · refine ⟨hs _ (by simp), fun a n e h => ?_⟩
            simp only [] at h
            subst h
            exact hP _ _ (classify_suffix hc) (hs _ (by simp))
          · exact scan_good hP (fun y hy => hs y (by simp [hy])) hr x hx

lemma takeArgs_good {P : Str → Prop} : ∀ {n : Nat} {ts ts' : List (Str × Tok A)} {args : List Str}, takeArgs n ts = some (args, ts') →
    Good P ts → (∀ s ∈ args, P s) ∧ Good P ts'
  | 0, ts, ts', args, h, hg => by
    cases h
    exact ⟨fun s hs => (List.not_mem_nil hs).elim, hg⟩
  | n + 1, [], ts', args, h, hg => by cases h
  | n + 1, (s, t) :: ts, ts', args, h, hg => by
    cases t with
    | arg =>
      rw [takeArgs] at h
      cases h2 : takeArgs n ts with
      | none => rw [h2] at h; cases h
      | some q =>
        rw [h2] at h
        cases h
        obtain ⟨h3, h4⟩ := takeArgs_good (ts' := q.2) (args := q.1) h2 hg.tail
        refine ⟨fun x hx => ?_, h4⟩
        rcases List.mem_cons.1 hx with rfl | hx
        · exact (hg _ (List.mem_cons_self ..)).1
        · exact h3 x hx
    | dashes => cases h
    | opt a n e => cases h
    | unknown => cases h

lemma attached_good {P : Str → Prop} (hP : Closed P) (p : Parser A) {ts : List (Str × Tok A)} (hg : Good P ts) :
    ∀ (e : Str) (a : A) (name : Str) {q : List (Act A) × List (Str × Tok A)}, P e → attached p ts e a name = .ok q →
    (∀ x ∈ q.1, ∀ s ∈ x.strs, P s) ∧ Good P q.2
  | [], a, name, q, he, h => by
    rw [attached] at h
    split at h
    · cases h
      refine ⟨fun x hx s hs => ?_, hg⟩
      rw [List.mem_singleton.1 hx] at hs
      rw [List.mem_singleton.1 hs]
      exact he
    · split at h <;> cases h
  | c :: e, a, name, q, he, h => by
    rw [attached] at h
    split at h
    · cases h
      refine ⟨fun x hx s hs => ?_, hg⟩
      rw [List.mem_singleton.1 hx] at hs
      rw [List.mem_singleton.1 hs]
      exact he
    · split at h
      · cases hl : lookup p.table ['-', c] with
        | none => rw [hl] at h; cases h
        | some b =>
          rw [hl] at h
          simp only [] at h
          split at h
          · cases ht : takeArgs (p.arity b) ts with
            | none => rw [ht] at h; cases h
            | some r =>
              rw [ht] at h
              cases h
              obtain ⟨h1, h2⟩ := takeArgs_good (args := r.1) (ts' := r.2) ht hg
              refine ⟨fun x hx s hs => ?_, h2⟩
              rcases List.mem_cons.1 hx with rfl | hx
              · cases hs
              · rw [List.mem_singleton.1 hx] at hs
                exact h1 s hs
          · cases ha : attached p ts e b ['-', c] with
            | error x => rw [ha] at h; cases h
            | ok r =>
              rw [ha] at h
              cases h
              obtain ⟨h1, h2⟩ := attached_good hP p hg e b ['-', c] (q := r) (hP _ _ (List.suffix_cons _ _) he) ha
              refine ⟨fun x hx s hs => ?_, h2⟩
              rcases List.mem_cons.1 hx with rfl | hx
              · cases hs
              · exact h1 x hx s hs
      · cases h

lemma optional_good {P : Str → Prop} (hP : Closed P) {p : Parser A} {a : A} {name : Str} {e : Option Str} {ts : List (Str × Tok A)}
    {q : List (Act A) × List (Str × Tok A)} (he : ∀ x, e = some x → P x) (hg : Good P ts) (h : optional p a name e ts = .ok q) :
    (∀ x ∈ q.1, ∀ s ∈ x.strs, P s) ∧ Good P q.2 := by
  unfold optional at h
  cases e with
  | some e => exact attached_good hP p hg e a name (he e rfl) h
  | none =>
    simp only [] at h
    cases ht : takeArgs (p.arity a) ts with
    | none => rw [ht] at h; cases h
    | some r =>
      rw [ht] at h
      cases h
      obtain ⟨h1, h2⟩ := takeArgs_good (args := r.1) (ts' := r.2) ht hg
      refine ⟨fun x hx s hs => ?_, h2⟩
      rw [List.mem_singleton.1 hx] at hs
      exact h1 s hs

lemma takeOne_good {P : Str → Prop} {ts : List (Str × Tok A)} (hg : Good P ts) :
    (∀ s ∈ (takeOne ts).1, P s) ∧ Good P (takeOne ts).2 := by
  unfold takeOne
  have h1 : Good P (ts.takeWhile (fun t => t.2.isDashes)) := hg.sub (List.takeWhile_sublist _)
  have h2 : Good P (ts.dropWhile (fun t => t.2.isDashes)) := hg.sub (List.dropWhile_sublist _)
  have fst : ∀ {us : List (Str × Tok A)}, Good P us → ∀ s ∈ us.map (·.1), P s := by
    intro us hu s hs
    obtain ⟨x, hx, rfl⟩ := List.mem_map.1 hs
    exact (hu x hx).1
  simp only []
  split
  · rename_i s ts' h
    rw [h] at h2
    refine ⟨fun x hx => ?_, h2.tail.sub (List.dropWhile_sublist _)⟩
    rcases List.mem_append.1 hx with hx | hx
    · exact fst h1 x hx
    · rcases List.mem_cons.1 hx with rfl | hx
      · exact (h2 _ (List.mem_cons_self ..)).1
      · exact fst (h2.tail.sub (List.takeWhile_sublist _)) x hx
  · exact ⟨fst h1, h2⟩

lemma takeUpTo_good {P : Str → Prop} : ∀ (n i : Nat) {ts : List (Str × Tok A)}, Good P ts →
    (∀ x ∈ (takeUpTo n i ts).1, ∀ s ∈ x.strs, P s) ∧ Good P (takeUpTo n i ts).2
  | 0, _, ts, hg => ⟨fun x hx => (List.not_mem_nil hx).elim, hg⟩
  | n + 1, i, ts, hg => by
    obtain ⟨h1, h2⟩ := takeOne_good hg
    obtain ⟨h3, h4⟩ := takeUpTo_good n (i + 1) h2
    rw [takeUpTo]
    refine ⟨fun x hx s hs => ?_, h4⟩
    rcases List.mem_cons.1 hx with rfl | hx
    · exact h1 s (List.mem_of_mem_erase hs)
    · exact h3 x hx s hs

lemma positional_good {P : Str → Prop} (ps : Positionals) {ts : List (Str × Tok A)} (hg : Good P ts) :
    (∀ x ∈ (positional ps ts).1, ∀ s ∈ x.strs, P s) ∧ Good P (positional ps ts).2.1 := by
  unfold positional
  cases ps with
  | upTo n => exact takeUpTo_good n 0 hg
  | oneOrMore =>
    simp only []
    split
    · exact ⟨fun x hx => (List.not_mem_nil hx).elim, hg⟩
    · refine ⟨fun x hx s hs => ?_, hg.sub (List.dropWhile_sublist _)⟩
      rw [List.mem_singleton.1 hx] at hs
      obtain ⟨y, hy, rfl⟩ := List.mem_map.1 (List.mem_of_mem_erase hs)
      exact (hg y ((List.takeWhile_sublist _).subset hy)).1

lemma loop_good {P : Str → Prop} (hP : Closed P) (p : Parser A) : ∀ (n : Nat) (left extra : Bool) {ts : List (Str × Tok A)},
    ts.length ≤ n → Good P ts → ∀ x ∈ (loop p left extra ts).1, ∀ s ∈ x.strs, P s
  | n, left, extra, [], _, _, x, hx, s, hs => by
    rw [loop] at hx
    cases hx
  | 0, _, _, _ :: _, hn, _, _, _, _, _ => by simp at hn
  | n + 1, left, extra, (w, t) :: ts, hn, hg, x, hx, s, hs => by
    have hn' : ts.length ≤ n := by simpa using hn
    have pos : ∀ x ∈ (if left then
        if (positional p.positionals ((w, t) :: ts)).2.1.length = ts.length + 1 then
          ((positional p.positionals ((w, t) :: ts)).1 ++ (loop p (positional p.positionals ((w, t) :: ts)).2.2 true ts).1)
        else ((positional p.positionals ((w, t) :: ts)).1 ++
          (loop p (positional p.positionals ((w, t) :: ts)).2.2 extra (positional p.positionals ((w, t) :: ts)).2.1).1)
      else (loop p false true ts).1), ∀ s ∈ x.strs, P s := by
      intro x hx s hs
      obtain ⟨h1, h2⟩ := positional_good p.positionals hg
      have h3 := positional_length p.positionals ((w, t) :: ts)
      split at hx
      · split at hx
        · rcases List.mem_append.1 hx with hx | hx
          · exact h1 x hx s hs
          · exact loop_good hP p n _ _ hn' hg.tail x hx s hs
        · rename_i hne
          rcases List.mem_append.1 hx with hx | hx
          · exact h1 x hx s hs
          · refine loop_good hP p n _ _ ?_ h2 x hx s hs
            simp only [List.length_cons] at h3
            omega
      · exact loop_good hP p n _ _ hn' hg.tail x hx s hs
    cases t with
    | arg =>
      refine pos x ?_ s hs
      rw [loop] at hx
      · split at hx
        · rename_i hl
          rw [if_pos hl]
          simp only [] at hx
          split at hx
          · rename_i he; rw [if_pos he]; exact hx
          · rename_i he; rw [if_neg he]; exact hx
        · rename_i hl
          rw [if_neg hl]; exact hx
      all_goals simp
    | dashes =>
      refine pos x ?_ s hs
      rw [loop] at hx
      · split at hx
        · rename_i hl
          rw [if_pos hl]
          simp only [] at hx
          split at hx
          · rename_i he; rw [if_pos he]; exact hx
          · rename_i he; rw [if_neg he]; exact hx
        · rename_i hl
          rw [if_neg hl]; exact hx
      all_goals simp
    | unknown =>
      rw [loop] at hx
      exact loop_good hP p n _ _ hn' hg.tail x hx s hs
    | opt a name e =>
      rw [loop] at hx
      split at hx
      · cases hx
      · rename_i acts ts' ho
        have hl := optional_length ho
        obtain ⟨h1, h2⟩ := optional_good hP (fun y hy => (hg _ (List.mem_cons_self ..)).2 a name y (by rw [hy])) hg.tail ho
        rcases List.mem_append.1 hx with hx | hx
        · exact h1 x hx s hs
        · exact loop_good hP p n _ _ (le_trans hl hn') h2 x hx s hs

/-- The strings of an action are ends of strings of the command line. -/
lemma parse_suffix (p : Parser A) (argv : List Str) : ∀ x ∈ (parse p argv).1, ∀ s ∈ x.strs, ∃ t ∈ argv, s <:+ t := by
  unfold parse
  split
  · intro x hx; cases hx
  · rename_i ts hs
    have hP : Closed (fun s => ∃ t ∈ argv, s <:+ t) := fun s t hst ⟨u, hu, hsu⟩ => ⟨u, hu, hst.trans hsu⟩
    exact loop_good hP p ts.length true false le_rfl (scan_good hP (fun s hs => ⟨s, hs, List.suffix_refl _⟩) hs)

end Kam.Args
