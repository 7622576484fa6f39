/-
Argparse reads the command lines of the grammar, as the grammar says, and no others.
-/
import Verif.Args.Items

namespace Kam.Args
open Kam.Convert (Str)

variable {A : Type}

lemma plain_ne {p : Parser A} {s : Str} (h : Plain p s) : s ≠ ['-', '-'] := by
  rintro rfl
  rcases h with h | h | ⟨_, ⟨ds, hds, ⟨_, h⟩ | ⟨es, _, _, h⟩⟩ | h⟩
  · simp at h
  · cases h
  · simp only [List.cons.injEq, true_and] at h
    have := hds '-' (by rw [← h]; simp)
    exact absurd this (by decide)
  · simp only [List.cons_append, List.cons.injEq, true_and] at h
    have hm : '.' ∈ (['-'] : Str) := by rw [h]; simp
    exact absurd hm (by decide)
  · exact absurd h (by decide)

lemma classify_dashes {table : List (Str × A)} {s : Str} : classify table s ≠ some .dashes := by
  intro h
  unfold classify at h
  split at h
  · split at h
    · cases h
    · split at h
      · cases h
      · split at h
        · cases h
        · split at h
          · cases h
          · split at h <;> cases h
          · cases h
  · cases h

lemma scan_cons {p : Parser A} {argv : List Str} {s : Str} {t : Tok A} {ts : List (Str × Tok A)}
    (h : scan p.table argv = some ((s, t) :: ts)) : ∃ argv', argv = s :: argv' ∧
      ((s = ['-', '-'] ∧ t = .dashes ∧ ts = marked argv') ∨
       (s ≠ ['-', '-'] ∧ classify p.table s = some t ∧ scan p.table argv' = some ts)) := by
  cases argv with
  | nil => cases h
  | cons x xs =>
    rw [scan] at h
    split at h
    · rename_i hx
      cases h
      exact ⟨xs, rfl, Or.inl ⟨hx, rfl, rfl⟩⟩
    · rename_i hx
      cases hc : classify p.table x with
      | none => rw [hc] at h; cases h
      | some t' =>
        rw [hc] at h
        simp only [] at h
        cases hs : scan p.table xs with
        | none => rw [hs] at h; cases h
        | some ts' =>
          rw [hs] at h
          cases h
          exact ⟨xs, rfl, Or.inr ⟨hx, hc, hs⟩⟩

lemma scan_plain {p : Parser A} (hp : WellFormed p) {args : List Str} (hargs : ∀ x ∈ args, Plain p x) (argv : List Str) :
    scan p.table (args ++ argv) = (scan p.table argv).map (marked args ++ ·) := by
  induction args with
  | nil =>
    cases h : scan p.table argv <;> simp [marked, h]
  | cons x xs ih =>
    have hx := hargs x (by simp)
    rw [List.cons_append, scan, if_neg (plain_ne hx), (classify_arg hp x).mpr hx]
    simp only []
    rw [ih (fun y hy => hargs y (by simp [hy]))]
    cases scan p.table argv <;> rfl

/-- What was scanned as arguments before any `--` are plain strings. -/
lemma scan_marked {p : Parser A} (hp : WellFormed p) : ∀ {args : List Str} {argv : List Str} {ts : List (Str × Tok A)},
    scan p.table argv = some (marked args ++ ts) → ∃ argv', argv = args ++ argv' ∧ scan p.table argv' = some ts ∧
      ∀ x ∈ args, Plain p x
  | [], argv, ts, h => ⟨argv, rfl, h, by simp⟩
  | x :: xs, argv, ts, h => by
    obtain ⟨argv1, rfl, ⟨_, h2, _⟩ | ⟨_, h2, h3⟩⟩ := scan_cons (s := x) (t := .arg) (ts := marked xs ++ ts) h
    · cases h2
    · obtain ⟨argv', rfl, h4, h5⟩ := scan_marked hp h3
      refine ⟨argv', rfl, h4, ?_⟩
      intro y hy
      rcases List.mem_cons.mp hy with rfl | hy
      · exact (classify_arg hp _).mp h2
      · exact h5 y hy

lemma loop_nil (p : Parser A) (left ext : Bool) :
    loop p left ext [] = ([], if ext || (left && p.positionals == .oneOrMore) then .usage else .ok) := by
  rw [loop]

lemma loop_unknown (p : Parser A) (left ext : Bool) (s : Str) (ts : List (Str × Tok A)) :
    loop p left ext ((s, .unknown) :: ts) = loop p left true ts := by
  rw [loop]

lemma loop_opt {p : Parser A} {left ext : Bool} {s n : Str} {a : A} {e : Option Str} {ts ts' : List (Str × Tok A)}
    {acts : List (Act A)} (h : optional p a n e ts = .ok (acts, ts')) :
    loop p left ext ((s, .opt a n e) :: ts) = (acts ++ (loop p left ext ts').1, (loop p left ext ts').2) := by
  rw [loop]
  split
  · rename_i x hx
    rw [h] at hx
    cases hx
  · rename_i hx
    rw [h] at hx
    cases hx
    rfl

lemma loop_opt_error {p : Parser A} {left ext : Bool} {s n : Str} {a : A} {e : Option Str} {ts : List (Str × Tok A)} {x : End}
    (h : optional p a n e ts = .error x) : loop p left ext ((s, .opt a n e) :: ts) = ([], x) := by
  rw [loop]
  split
  · rename_i y hy
    rw [h] at hy
    cases hy
    rfl
  · rename_i hx
    rw [h] at hx
    cases hx

lemma loop_plain {p : Parser A} {ext : Bool} {s : Str} {t : Tok A} (ht : t.plain = true) (ts : List (Str × Tok A)) :
    loop p false ext ((s, t) :: ts) = loop p false true ts := by
  cases t with
  | arg => rw [loop] <;> simp
  | dashes => rw [loop] <;> simp
  | opt a n e => cases ht
  | unknown => cases ht

lemma loop_left {p : Parser A} {ext : Bool} {s : Str} {t : Tok A} (ht : t.plain = true) (ts : List (Str × Tok A)) :
    ∀ q, positional p.positionals ((s, t) :: ts) = q → loop p true ext ((s, t) :: ts) =
      if q.2.1.length = ts.length + 1 then (q.1 ++ (loop p q.2.2 true ts).1, (loop p q.2.2 true ts).2)
      else (q.1 ++ (loop p q.2.2 ext q.2.1).1, (loop p q.2.2 ext q.2.1).2) := by
  rintro q rfl
  cases t with
  | arg => rw [loop] <;> simp
  | dashes => rw [loop] <;> simp
  | opt a n e => cases ht
  | unknown => cases ht

lemma loop_take {p : Parser A} {ext : Bool} {s : Str} {t : Tok A} (ht : t.plain = true) {ts ts' : List (Str × Tok A)}
    {acts : List (Act A)} (h : positional p.positionals ((s, t) :: ts) = (acts, ts', false)) (hl : ts'.length ≤ ts.length) :
    loop p true ext ((s, t) :: ts) = (acts ++ (loop p false ext ts').1, (loop p false ext ts').2) := by
  rw [loop_left ht ts _ h, if_neg (by simp only []; omega)]

lemma attached_error {p : Parser A} {ts : List (Str × Tok A)} : ∀ (e : Str) (a : A) (n : Str), attached p ts e a n ≠ .error .ok
  | [], a, n => by
    rw [attached]
    split
    · simp
    · split <;> simp
  | c :: e, a, n => by
    rw [attached]
    split
    · simp
    · split
      · cases lookup p.table ['-', c] with
        | none => simp
        | some b =>
          simp only []
          split
          · cases takeArgs (p.arity b) ts with
            | none => simp [Except.map]
            | some q => simp [Except.map]
          · have := attached_error (p := p) (ts := ts) e b ['-', c]
            cases h : attached p ts e b ['-', c] with
            | ok q => simp [Except.map]
            | error x =>
              rw [h] at this
              simpa [Except.map] using this
      · simp

lemma optional_error {p : Parser A} {ts : List (Str × Tok A)} (a : A) (n : Str) (e : Option Str) :
    optional p a n e ts ≠ .error .ok := by
  unfold optional
  cases e with
  | some e => exact attached_error e a n
  | none => cases takeArgs (p.arity a) ts <;> simp

/-- A string that is left over is never forgotten. -/
lemma loop_extra (p : Parser A) : ∀ (k : Nat) (ts : List (Str × Tok A)) (left : Bool), ts.length ≤ k → (loop p left true ts).2 ≠ .ok := by
  intro k
  induction k with
  | zero =>
    intro ts left hk
    have : ts = [] := List.length_eq_zero_iff.mp (by omega)
    subst this
    rw [loop_nil]
    simp
  | succ k ih =>
    intro ts left hk
    rcases ts with _ | ⟨⟨s, t⟩, ts⟩
    · rw [loop_nil]
      simp
    simp only [List.length_cons] at hk
    cases t with
    | opt a n e =>
      cases h : optional p a n e ts with
      | error x =>
        rw [loop_opt_error h]
        rintro rfl
        exact optional_error a n e h
      | ok q =>
        rw [loop_opt (acts := q.1) (ts' := q.2) h]
        have := optional_length h
        exact ih _ _ (by omega)
    | unknown =>
      rw [loop_unknown]
      exact ih _ _ (by omega)
    | arg =>
      cases left with
      | false => rw [loop_plain rfl]; exact ih _ _ (by omega)
      | true =>
        rw [loop_left rfl ts _ rfl]
        split
        · exact ih _ _ (by omega)
        · have := positional_length p.positionals ((s, .arg) :: ts)
          simp only [List.length_cons] at this
          exact ih _ _ (by omega)
    | dashes =>
      cases left with
      | false => rw [loop_plain rfl]; exact ih _ _ (by omega)
      | true =>
        rw [loop_left rfl ts _ rfl]
        split
        · exact ih _ _ (by omega)
        · have := positional_length p.positionals ((s, .dashes) :: ts)
          simp only [List.length_cons] at this
          exact ih _ _ (by omega)

/-- Where a block of positional arguments ends. -/
def Stops (ts : List (Str × Tok A)) : Prop := ∀ t ∈ ts.head?, t.2.plain = false

lemma takeOne_arg (x : Str) (ts : List (Str × Tok A)) : takeOne ((x, .arg) :: ts)
    = (x :: (ts.takeWhile (fun t => t.2.isDashes)).map (·.1), ts.dropWhile (fun t => t.2.isDashes)) := rfl

lemma positional_two (xs : List Str) (hx : xs ≠ []) (hd : xs.length ≤ 2) (hn : ['-', '-'] ∉ xs) {ts : List (Str × Tok A)}
    (hs : Stops ts) : positional (.upTo 2) (marked xs ++ ts) = (two xs, ts, false) := by
  have htw : ts.takeWhile (fun t => t.2.isDashes) = [] ∧ ts.dropWhile (fun t => t.2.isDashes) = ts ∧
      takeOne ts = ([], ts) := by
    rcases ts with _ | ⟨⟨s, t⟩, ts⟩
    · exact ⟨rfl, rfl, rfl⟩
    · have := hs (s, t) (by simp)
      cases t with
      | arg => cases this
      | dashes => cases this
      | opt a n e => exact ⟨rfl, rfl, rfl⟩
      | unknown => exact ⟨rfl, rfl, rfl⟩
  rcases xs with _ | ⟨x, _ | ⟨y, _ | ⟨z, zs⟩⟩⟩
  · exact absurd rfl hx
  · have hx : ¬ x = ['-', '-'] := fun h => hn (by simp [h])
    have h1 : takeOne (marked [x] ++ ts) = ([x], ts) := by
      show takeOne ((x, .arg) :: ts) = _
      rw [takeOne_arg, htw.1, htw.2.1]
      rfl
    simp only [positional, takeUpTo, h1, htw, two]
    simp [values, hx]
  · have hx : ¬ x = ['-', '-'] := fun h => hn (by simp [h])
    have hy : ¬ y = ['-', '-'] := fun h => hn (by simp [h])
    have h1 : takeOne (marked [x, y] ++ ts) = ([x], marked [y] ++ ts) := rfl
    have h2 : takeOne (marked [y] ++ ts) = ([y], ts) := by
      show takeOne ((y, .arg) :: ts) = _
      rw [takeOne_arg, htw.1, htw.2.1]
      rfl
    simp only [positional, takeUpTo, h1, h2, two]
    simp [values, hx, hy]
  · simp at hd

lemma positional_three (x y z : Str) (ts : List (Str × Tok A)) :
    positional (.upTo 2) (marked [x, y, z] ++ ts) = ([.pos 0 (values [x]), .pos 1 (values [y])], marked [z] ++ ts, false) := rfl

lemma positional_dashes {pos pos' : List Str} (hl : (pos ++ pos').length ≤ 2) (hn : ['-', '-'] ∉ pos) :
    positional (.upTo 2) (marked pos ++ (['-', '-'], (.dashes : Tok A)) :: marked pos') = (two (pos ++ pos'), [], false) := by
  rcases pos with _ | ⟨x, _ | ⟨y, _ | ⟨z, zs⟩⟩⟩
  · rcases pos' with _ | ⟨x, _ | ⟨y, _ | ⟨z, zs⟩⟩⟩
    · rfl
    · rfl
    · have : positional (.upTo 2) (marked [] ++ (['-', '-'], (.dashes : Tok A)) :: marked [x, y])
          = ([.pos 0 (values [['-', '-'], x]), .pos 1 (values [y])], [], false) := rfl
      rw [this]
      by_cases hy : y = ['-', '-']
      · subst hy; rfl
      · simp [values, two, hy]
    · simp at hl
  · have hx : ¬ x = ['-', '-'] := fun h => hn (by simp [h])
    rcases pos' with _ | ⟨y, _ | ⟨z, zs⟩⟩
    · have : positional (.upTo 2) (marked [x] ++ (['-', '-'], (.dashes : Tok A)) :: marked [])
          = ([.pos 0 (values [x, ['-', '-']]), .pos 1 (values [])], [], false) := rfl
      rw [this]
      simp [values, two, hx]
    · have : positional (.upTo 2) (marked [x] ++ (['-', '-'], (.dashes : Tok A)) :: marked [y])
          = ([.pos 0 (values [x, ['-', '-']]), .pos 1 (values [y])], [], false) := rfl
      rw [this]
      by_cases hy : y = ['-', '-']
      · subst hy
        simp [values, two, hx]
      · simp [values, two, hx, hy]
    · simp at hl
  · have hx : ¬ x = ['-', '-'] := fun h => hn (by simp [h])
    have hy : ¬ y = ['-', '-'] := fun h => hn (by simp [h])
    rcases pos' with _ | ⟨z, zs⟩
    · have : positional (.upTo 2) (marked [x, y] ++ (['-', '-'], (.dashes : Tok A)) :: marked [])
          = ([.pos 0 (values [x]), .pos 1 (values [y, ['-', '-']])], [], false) := rfl
      rw [this]
      simp [values, two, hx, hy]
    · simp at hl
  · simp at hl

/-- More than two strings: one is left. -/
lemma positional_dashes_more {pos pos' : List Str} (hl : 2 < (pos ++ pos').length) : ∃ acts s t ts,
    positional (.upTo 2) (marked pos ++ (['-', '-'], (.dashes : Tok A)) :: marked pos') = (acts, (s, t) :: ts, false) ∧
      t.plain = true ∧ ((s, t) :: ts).length ≤ (pos ++ pos').length := by
  rcases pos with _ | ⟨x, _ | ⟨y, _ | ⟨z, zs⟩⟩⟩
  · rcases pos' with _ | ⟨x, _ | ⟨y, _ | ⟨z, zs⟩⟩⟩
    · simp at hl
    · simp at hl
    · simp at hl
    · exact ⟨_, z, .arg, marked zs, rfl, rfl, by simp [marked]⟩
  · rcases pos' with _ | ⟨y, _ | ⟨z, zs⟩⟩
    · simp at hl
    · simp at hl
    · exact ⟨_, z, .arg, marked zs, rfl, rfl, by simp [marked]⟩
  · rcases pos' with _ | ⟨z, zs⟩
    · simp at hl
    · exact ⟨_, z, .arg, marked zs, rfl, rfl, by simp [marked]⟩
  · exact ⟨_, z, .arg, marked zs ++ (['-', '-'], .dashes) :: marked pos', rfl, rfl, by simp [marked]; omega⟩

lemma takeWhile_plain (pos : List Str) {ts : List (Str × Tok A)} (hs : Stops ts) :
    (marked pos ++ ts).takeWhile (fun t => t.2.plain) = marked pos ∧ (marked pos ++ ts).dropWhile (fun t => t.2.plain) = ts := by
  have h1 : ∀ t ∈ (marked pos : List (Str × Tok A)), t.2.plain = true := by
    intro t ht
    simp only [marked, List.mem_map] at ht
    obtain ⟨x, _, rfl⟩ := ht
    rfl
  have h2 : ts.takeWhile (fun t => t.2.plain) = [] ∧ ts.dropWhile (fun t => t.2.plain) = ts := by
    rcases ts with _ | ⟨t, ts⟩
    · exact ⟨rfl, rfl⟩
    · have := hs t (by simp)
      rw [List.takeWhile_cons, List.dropWhile_cons, this]
      exact ⟨rfl, rfl⟩
  rw [List.takeWhile_append_of_pos h1, List.dropWhile_append_of_pos h1, h2.1, h2.2]
  exact ⟨List.append_nil _, rfl⟩

lemma marked_fst (pos : List Str) : (marked pos : List (Str × Tok A)).map (·.1) = pos := by
  induction pos with
  | nil => rfl
  | cons x xs ih => exact congrArg (x :: ·) ih

lemma positional_more {pos : List Str} (h0 : pos ≠ []) (hn : ['-', '-'] ∉ pos) {ts : List (Str × Tok A)} (hs : Stops ts) :
    positional .oneOrMore (marked pos ++ ts) = ([.pos 0 pos], ts, false) := by
  obtain ⟨h1, h2⟩ := takeWhile_plain pos hs
  unfold positional
  simp only [h1, h2, marked_fst]
  have : (marked pos : List (Str × Tok A)).all (fun t => t.2.isDashes) = false := by
    cases pos with
    | nil => exact absurd rfl h0
    | cons x xs => rfl
  rw [this]
  simp [values, List.erase_of_not_mem hn]

lemma positional_more_dashes {pos pos' : List Str} (h0 : pos ++ pos' ≠ []) (hn : ['-', '-'] ∉ pos) :
    positional .oneOrMore (marked pos ++ (['-', '-'], (.dashes : Tok A)) :: marked pos') = ([.pos 0 (pos ++ pos')], [], false) := by
  have hall : ∀ t ∈ marked pos ++ (['-', '-'], (.dashes : Tok A)) :: marked pos', t.2.plain = true := by
    intro t ht
    simp only [marked, List.mem_append, List.mem_cons, List.mem_map] at ht
    rcases ht with ⟨x, _, rfl⟩ | rfl | ⟨x, _, rfl⟩ <;> rfl
  unfold positional
  simp only [List.takeWhile_eq_self_iff.mpr hall, List.dropWhile_eq_nil_iff.mpr hall]
  have : (marked pos ++ (['-', '-'], (.dashes : Tok A)) :: marked pos').all (fun t => t.2.isDashes) = false := by
    cases pos with
    | cons x xs => rfl
    | nil => cases pos' with
      | nil => exact absurd rfl h0
      | cons x xs => rfl
  rw [this]
  simp only [Bool.false_eq_true, if_false, List.map_append, List.map_cons, marked_fst]
  rw [values, List.erase_append_right _ hn, List.erase_cons_head]

/-- A scanned command line begins with plain strings, after which there is an option, or a `--`, or nothing. -/
lemma scan_block {p : Parser A} (hp : WellFormed p) : ∀ {argv : List Str} {ts : List (Str × Tok A)}, scan p.table argv = some ts →
    ∃ pos, (∀ x ∈ pos, Plain p x) ∧
      ((∃ r tsr, argv = pos ++ r ∧ ts = marked pos ++ tsr ∧ scan p.table r = some tsr ∧ Stops tsr) ∨
       (∃ pos', argv = pos ++ ['-', '-'] :: pos' ∧ ts = marked pos ++ (['-', '-'], .dashes) :: marked pos'))
  | [], ts, h => by
    cases h
    exact ⟨[], by simp, Or.inl ⟨[], [], rfl, rfl, rfl, by simp [Stops]⟩⟩
  | s :: argv, [], h => by
    rw [scan] at h
    split at h
    · cases h
    · cases hc : classify p.table s with
      | none => rw [hc] at h; cases h
      | some t =>
        rw [hc] at h
        cases hs : scan p.table argv <;> rw [hs] at h <;> cases h
  | s :: argv, (s', t) :: ts, h => by
    obtain ⟨argv', heq, ⟨h1, h2, h3⟩ | ⟨h1, h2, h3⟩⟩ := scan_cons h
    · cases heq
      subst h1 h2 h3
      exact ⟨[], by simp, Or.inr ⟨argv, rfl, rfl⟩⟩
    · cases heq
      cases t with
      | arg =>
        have hpl := (classify_arg hp s).mp h2
        obtain ⟨pos, hpos, ⟨r, tsr, rfl, rfl, h4, h5⟩ | ⟨pos', rfl, rfl⟩⟩ := scan_block hp h3
        · refine ⟨s :: pos, ?_, Or.inl ⟨r, tsr, rfl, rfl, h4, h5⟩⟩
          intro x hx
          rcases List.mem_cons.mp hx with rfl | hx
          · exact hpl
          · exact hpos x hx
        · refine ⟨s :: pos, ?_, Or.inr ⟨pos', rfl, rfl⟩⟩
          intro x hx
          rcases List.mem_cons.mp hx with rfl | hx
          · exact hpl
          · exact hpos x hx
      | dashes => exact absurd h2 classify_dashes
      | opt a n e => exact ⟨[], by simp, Or.inl ⟨_, _, rfl, rfl, h, by simp [Stops, Tok.plain]⟩⟩
      | unknown => exact ⟨[], by simp, Or.inl ⟨_, _, rfl, rfl, h, by simp [Stops, Tok.plain]⟩⟩

/-! ### The command lines of the grammar are read -/

lemma options_loop {p : Parser A} (hp : WellFormed p) {l : List Str} {as : List (Act A)} (h : Options p l as) :
    ∀ {argv : List Str} {ts : List (Str × Tok A)}, scan p.table argv = some ts → ∃ ts', scan p.table (l ++ argv) = some ts' ∧
      (Stops ts → Stops ts') ∧
      ∀ left ext, loop p left ext ts' = (as ++ (loop p left ext ts).1, (loop p left ext ts).2) := by
  induction h with
  | nil => exact fun {argv ts} h => ⟨ts, h, id, fun _ _ => rfl⟩
  | cons hi ho ih =>
    intro argv ts h
    obtain ⟨ts1, h1, _, h2⟩ := ih h
    obtain ⟨s, args, a, n, e, rfl, hs, hpl, hc, hopt⟩ := item_parse hp hi
    refine ⟨(s, .opt a n e) :: (marked args ++ ts1), ?_, fun _ => by simp [Stops, Tok.plain], fun left ext => ?_⟩
    · rw [List.cons_append, List.cons_append, scan, if_neg hs, hc]
      simp only []
      rw [List.append_assoc, scan_plain hp hpl, h1]
      rfl
    · rw [loop_opt (hopt ts1), h2, List.append_assoc]

lemma options_parse {p : Parser A} (hp : WellFormed p) {l : List Str} {as : List (Act A)} (h : Options p l as) :
    ∃ ts, scan p.table l = some ts ∧ Stops ts ∧ loop p false false ts = (as, .ok) := by
  obtain ⟨ts, h1, h2, h3⟩ := options_loop hp h (argv := []) (ts := []) rfl
  rw [List.append_nil] at h1
  refine ⟨ts, h1, h2 (by simp [Stops]), ?_⟩
  rw [h3, loop_nil]
  simp

lemma not_mem_plain {p : Parser A} {pos : List Str} (h : ∀ x ∈ pos, Plain p x) : ['-', '-'] ∉ pos :=
  fun hm => plain_ne (h _ hm) rfl

lemma parse_of_line {p : Parser A} (hp : WellFormed p) {argv : List Str} {acts : List (Act A)} (h : Line p argv acts) :
    parse p argv = (acts, .ok) := by
  have finish : ∀ {l mid : List Str} {as bs : List (Act A)} {ts : List (Str × Tok A)}, Options p l as →
      scan p.table mid = some ts → loop p true false ts = (bs, .ok) → parse p (l ++ mid) = (as ++ bs, .ok) := by
    intro l mid as bs ts hl hs hloop
    obtain ⟨ts', h1, _, h2⟩ := options_loop hp hl hs
    unfold parse
    rw [h1]
    simp only [h2, hloop]
  have dashed : ∀ pos pos', (∀ x ∈ pos, Plain p x) → scan p.table (pos ++ ['-', '-'] :: pos')
      = some (marked pos ++ (['-', '-'], .dashes) :: marked pos') := by
    intro pos pos' hpos
    rw [scan_plain hp hpos, scan, if_pos rfl]
    rfl
  cases h with
  | options hpos ho =>
    obtain ⟨ts, h1, h2, h3⟩ := options_loop hp ho (argv := []) (ts := []) rfl
    rw [List.append_nil] at h1
    unfold parse
    rw [h1]
    simp only [h3, loop_nil, hpos]
    simp
  | two hpos hl h0 hlen hpl hr =>
    rename_i l r pos as bs
    obtain ⟨tsr, h1, h2, h3⟩ := options_parse hp hr
    rw [List.append_assoc, List.append_assoc]
    refine finish hl (ts := marked pos ++ tsr) (by rw [scan_plain hp hpl, h1]; rfl) ?_
    have hpp := positional_two pos h0 hlen (not_mem_plain hpl) h2
    rcases pos with _ | ⟨x, xs⟩
    · exact absurd rfl h0
    · show loop p true false ((x, .arg) :: (marked xs ++ tsr)) = _
      rw [loop_take rfl (by rw [hpos]; exact hpp) (by simp [marked]), h3]
  | twoDashes hpos hl hpl hlen =>
    rename_i l pos pos' as
    rw [List.append_assoc]
    refine finish hl (dashed pos pos' hpl) ?_
    have hpp := positional_dashes (A := A) hlen (not_mem_plain hpl)
    rcases pos with _ | ⟨x, xs⟩
    · show loop p true false ((['-', '-'], .dashes) :: marked pos') = _
      rw [loop_take rfl (by rw [hpos]; exact hpp) (by simp), loop_nil]
      simp
    · show loop p true false ((x, .arg) :: (marked xs ++ (['-', '-'], .dashes) :: marked pos')) = _
      rw [loop_take rfl (by rw [hpos]; exact hpp) (by simp), loop_nil]
      simp
  | more hpos hl h0 hpl hr =>
    rename_i l r pos as bs
    obtain ⟨tsr, h1, h2, h3⟩ := options_parse hp hr
    rw [List.append_assoc, List.append_assoc]
    refine finish hl (ts := marked pos ++ tsr) (by rw [scan_plain hp hpl, h1]; rfl) ?_
    have hpp := positional_more h0 (not_mem_plain hpl) h2
    rcases pos with _ | ⟨x, xs⟩
    · exact absurd rfl h0
    · show loop p true false ((x, .arg) :: (marked xs ++ tsr)) = _
      rw [loop_take rfl (by rw [hpos]; exact hpp) (by simp [marked]), h3]
  | moreDashes hpos hl hpl h0 =>
    rename_i l pos pos' as
    rw [List.append_assoc]
    refine finish hl (dashed pos pos' hpl) ?_
    have hpp := positional_more_dashes (A := A) h0 (not_mem_plain hpl)
    rcases pos with _ | ⟨x, xs⟩
    · show loop p true false ((['-', '-'], .dashes) :: marked pos') = _
      rw [loop_take rfl (by rw [hpos]; exact hpp) (by simp), loop_nil]
      simp
    · show loop p true false ((x, .arg) :: (marked xs ++ (['-', '-'], .dashes) :: marked pos')) = _
      rw [loop_take rfl (by rw [hpos]; exact hpp) (by simp), loop_nil]
      simp

/-! ### What is read is in the grammar -/

lemma scan_nil {p : Parser A} {argv : List Str} (h : scan p.table argv = some []) : argv = [] := by
  cases argv with
  | nil => rfl
  | cons s argv =>
    rw [scan] at h
    split at h
    · cases h
    · cases hc : classify p.table s with
      | none => rw [hc] at h; cases h
      | some t =>
        rw [hc] at h
        cases hs : scan p.table argv <;> rw [hs] at h <;> cases h

lemma options_of_loop {p : Parser A} (hp : WellFormed p) : ∀ (k : Nat) {argv : List Str} {ts : List (Str × Tok A)}
    {acts : List (Act A)}, ts.length ≤ k → scan p.table argv = some ts → loop p false false ts = (acts, .ok) →
    Options p argv acts := by
  intro k
  induction k with
  | zero =>
    intro argv ts acts hk hs hl
    have : ts = [] := List.length_eq_zero_iff.mp (by omega)
    subst this
    rw [loop_nil] at hl
    cases hl
    rw [scan_nil hs]
    exact .nil
  | succ k ih =>
    intro argv ts acts hk hs hl
    rcases ts with _ | ⟨⟨s, t⟩, ts⟩
    · rw [loop_nil] at hl
      cases hl
      rw [scan_nil hs]
      exact .nil
    simp only [List.length_cons] at hk
    have never : ∀ {ts : List (Str × Tok A)}, loop p false true ts ≠ (acts, .ok) := by
      intro ts h
      exact loop_extra p _ ts false (le_refl _) (by rw [h])
    cases t with
    | arg => rw [loop_plain rfl] at hl; exact absurd hl never
    | dashes => rw [loop_plain rfl] at hl; exact absurd hl never
    | unknown => rw [loop_unknown] at hl; exact absurd hl never
    | opt a n e =>
      obtain ⟨argv1, rfl, ⟨_, h2, _⟩ | ⟨h1, h2, h3⟩⟩ := scan_cons hs
      · cases h2
      cases h : optional p a n e ts with
      | error x =>
        rw [loop_opt_error h] at hl
        cases hl
        exact absurd h (optional_error a n e)
      | ok q =>
        obtain ⟨acts1, ts1⟩ := q
        rw [loop_opt h] at hl
        cases hl2 : loop p false false ts1 with
        | mk acts2 x =>
          rw [hl2] at hl
          cases hl
          obtain ⟨args, rfl, hitem⟩ := item_of hp h1 h2 h
          obtain ⟨argv2, rfl, h5, h6⟩ := scan_marked hp h3
          have := optional_length h
          exact .cons (xs := s :: args) (hitem h6) (ih (by simp only [] at this; omega) h5 hl2)

lemma Line.cons {p : Parser A} {xs l : List Str} {as bs : List (Act A)} (hi : Item p xs as) (h : Line p l bs) :
    Line p (xs ++ l) (as ++ bs) := by
  cases h with
  | options hpos ho => exact .options hpos (.cons hi ho)
  | two hpos hl h0 hlen hpl hr =>
    have := Line.two hpos (.cons hi hl) h0 hlen hpl hr
    simpa only [List.append_assoc] using this
  | twoDashes hpos hl hpl hlen =>
    have := Line.twoDashes hpos (.cons hi hl) hpl hlen
    simpa only [List.append_assoc] using this
  | more hpos hl h0 hpl hr =>
    have := Line.more hpos (.cons hi hl) h0 hpl hr
    simpa only [List.append_assoc] using this
  | moreDashes hpos hl hpl h0 =>
    have := Line.moreDashes hpos (.cons hi hl) hpl h0
    simpa only [List.append_assoc] using this

lemma line_of_loop {p : Parser A} (hp : WellFormed p) : ∀ (k : Nat) {argv : List Str} {ts : List (Str × Tok A)}
    {acts : List (Act A)}, ts.length ≤ k → scan p.table argv = some ts → loop p true false ts = (acts, .ok) →
    Line p argv acts := by
  intro k
  have base : ∀ {argv : List Str} {acts : List (Act A)}, scan p.table argv = some [] → loop p true false [] = (acts, .ok) →
      Line p argv acts := by
    intro argv acts hs hl
    rw [loop_nil] at hl
    rw [scan_nil hs]
    rcases hp.positionals with h | h
    · rw [h] at hl
      cases hl
      exact .options h .nil
    · rw [h] at hl
      cases hl
  induction k with
  | zero =>
    intro argv ts acts hk hs hl
    have : ts = [] := List.length_eq_zero_iff.mp (by omega)
    subst this
    exact base hs hl
  | succ k ih =>
    intro argv ts acts hk hs hl
    have never : ∀ {left : Bool} {ts : List (Str × Tok A)} {acts : List (Act A)}, loop p left true ts ≠ (acts, .ok) := by
      intro left ts acts h
      exact loop_extra p _ ts left (le_refl _) (by rw [h])
    obtain ⟨pos, hpl, ⟨r, tsr, rfl, rfl, h1, h2⟩ | ⟨pos', rfl, rfl⟩⟩ := scan_block hp hs
    · rcases pos with _ | ⟨x, xs⟩
      · rcases tsr with _ | ⟨⟨s, t⟩, ts⟩
        · exact base hs hl
        have ht := h2 (s, t) (by simp)
        cases t with
        | arg => cases ht
        | dashes => cases ht
        | unknown =>
          change loop p true false ((s, .unknown) :: ts) = _ at hl
          rw [loop_unknown] at hl
          exact absurd hl never
        | opt a n e =>
          change loop p true false ((s, .opt a n e) :: ts) = _ at hl
          obtain ⟨argv1, rfl, ⟨_, h5, _⟩ | ⟨h4, h5, h6⟩⟩ := scan_cons h1
          · cases h5
          cases h : optional p a n e ts with
          | error x =>
            rw [loop_opt_error h] at hl
            cases hl
            exact absurd h (optional_error a n e)
          | ok q =>
            obtain ⟨acts1, ts1⟩ := q
            rw [loop_opt h] at hl
            cases hl2 : loop p true false ts1 with
            | mk acts2 x =>
              rw [hl2] at hl
              cases hl
              obtain ⟨args, rfl, hitem⟩ := item_of hp h4 h5 h
              obtain ⟨argv2, rfl, h7, h8⟩ := scan_marked hp h6
              have := optional_length h
              exact Line.cons (xs := s :: args) (hitem h8)
                (ih (by simp only [marked, List.length_append, List.length_map, List.length_nil, List.length_cons,
                  List.map_nil] at this hk; omega) h7 hl2)
      · change loop p true false ((x, .arg) :: (marked xs ++ tsr)) = _ at hl
        rcases hp.positionals with hpos | hpos
        · by_cases hlen : (x :: xs).length ≤ 2
          · have hpp := positional_two (x :: xs) (by simp) hlen (not_mem_plain hpl) h2
            rw [loop_take rfl (by rw [hpos]; exact hpp) (by simp [marked])] at hl
            cases hl2 : loop p false false tsr with
            | mk acts2 y =>
              rw [hl2] at hl
              cases hl
              have := Line.two (l := []) hpos .nil (by simp) hlen hpl (options_of_loop hp _ (le_refl _) h1 hl2)
              simpa using this
          · rcases xs with _ | ⟨y, _ | ⟨z, zs⟩⟩
            · simp at hlen
            · simp at hlen
            · rw [loop_take (acts := [.pos 0 (values [x]), .pos 1 (values [y])]) (ts' := (z, .arg) :: (marked zs ++ tsr)) rfl
                (by rw [hpos]; rfl) (by simp [marked]), loop_plain rfl] at hl
              cases hl2 : loop p false true (marked zs ++ tsr) with
              | mk acts2 y =>
                rw [hl2] at hl
                cases hl
                exact absurd hl2 never
        · have hpp := positional_more (pos := x :: xs) (by simp) (not_mem_plain hpl) h2
          rw [loop_take rfl (by rw [hpos]; exact hpp) (by simp [marked])] at hl
          cases hl2 : loop p false false tsr with
          | mk acts2 y =>
            rw [hl2] at hl
            cases hl
            have := Line.more (l := []) hpos .nil (by simp) hpl (options_of_loop hp _ (le_refl _) h1 hl2)
            simpa using this
    · have hfirst : ∃ s t ts, marked pos ++ (['-', '-'], (.dashes : Tok A)) :: marked pos' = (s, t) :: ts ∧ t.plain = true ∧
          ts.length = (pos ++ pos').length := by
        cases pos with
        | nil => exact ⟨_, _, _, rfl, rfl, by simp [marked]⟩
        | cons x xs => exact ⟨_, _, _, rfl, rfl, by simp [marked]; omega⟩
      obtain ⟨s, t, ts, hts, ht, hlen⟩ := hfirst
      rcases hp.positionals with hpos | hpos
      · by_cases hle : (pos ++ pos').length ≤ 2
        · have hpp := positional_dashes (A := A) hle (not_mem_plain hpl)
          rw [hts] at hpp hl
          rw [loop_take ht (by rw [hpos]; exact hpp) (by simp), loop_nil] at hl
          cases hl
          have := Line.twoDashes (l := []) hpos .nil hpl hle
          simpa using this
        · obtain ⟨acts1, s1, t1, ts1, hpp, ht1, hlen1⟩ := positional_dashes_more (A := A) (not_le.mp hle)
          rw [hts] at hpp hl
          rw [loop_take ht (by rw [hpos]; exact hpp) (by rw [hlen]; exact hlen1), loop_plain ht1] at hl
          cases hl2 : loop p false true ts1 with
          | mk acts2 y =>
            rw [hl2] at hl
            cases hl
            exact absurd hl2 never
      · by_cases h0 : pos ++ pos' = []
        · obtain ⟨rfl, rfl⟩ := List.append_eq_nil_iff.mp h0
          change loop p true false [(['-', '-'], .dashes)] = _ at hl
          have hpp : positional p.positionals [(['-', '-'], (.dashes : Tok A))] = ([], [(['-', '-'], .dashes)], true) := by
            rw [hpos]; rfl
          rw [loop_left rfl [] _ hpp] at hl
          simp only [List.length_cons, List.length_nil, if_true] at hl
          cases hl2 : loop p true true ([] : List (Str × Tok A)) with
          | mk acts2 y =>
            rw [hl2] at hl
            cases hl
            exact absurd hl2 never
        · have hpp := positional_more_dashes (A := A) h0 (not_mem_plain hpl)
          rw [hts] at hpp hl
          rw [loop_take ht (by rw [hpos]; exact hpp) (by simp), loop_nil] at hl
          cases hl
          have := Line.moreDashes (l := []) hpos .nil hpl h0
          simpa using this

/-- C127: argparse accepts the command lines of the grammar, takes the actions the grammar says, and accepts no others. -/
theorem C127_grammar {p : Parser A} (hp : WellFormed p) (argv : List Str) (acts : List (Act A)) :
    parse p argv = (acts, .ok) ↔ Line p argv acts := by
  constructor
  · intro h
    unfold parse at h
    cases hs : scan p.table argv with
    | none => rw [hs] at h; cases h
    | some ts =>
      rw [hs] at h
      exact line_of_loop hp _ (le_refl _) hs h
  · exact parse_of_line hp

/-- C127: a command line has one reading. -/
theorem C127_one_reading {p : Parser A} (hp : WellFormed p) {argv : List Str} {acts acts' : List (Act A)}
    (h : Line p argv acts) (h' : Line p argv acts') : acts = acts' := by
  have := (C127_grammar hp argv acts).mpr h
  rw [(C127_grammar hp argv acts').mpr h'] at this
  exact (Prod.mk.inj this).1.symm

end Kam.Args
