import Verif.Convert.Spec
import Mathlib.Tactic.Ring
import Mathlib.Tactic.FieldSimp
import Mathlib.Tactic.Linarith
import Mathlib.Tactic.NormNum

set_option linter.unusedSectionVars false

namespace Kam.Convert
open Spec

/-! ### Lines -/

lemma universal_cons {c : Char} (h : c ≠ '\r') (s : Str) : universal (c :: s) = c :: universal s := by
  conv_lhs => unfold universal
  split
  · rename_i heq; simp at heq; exact absurd heq.1 h
  · rename_i heq; simp at heq; exact absurd heq.1 h
  · rename_i heq; simp at heq; rw [heq.1, heq.2]
  · rename_i heq; simp at heq

lemma universal_append {l : Str} (h : '\r' ∉ l) (s : Str) : universal (l ++ s) = l ++ universal s := by
  induction l with
  | nil => rfl
  | cons c l ih =>
    simp only [List.mem_cons, not_or] at h
    rw [List.cons_append, universal_cons (Ne.symm h.1), ih h.2]; rfl

lemma splitLines_append {l : Str} (h : '\n' ∉ l) (s : Str) :
    splitLines (l ++ '\n' :: s) = (l ++ ['\n']) :: splitLines s := by
  induction l with
  | nil => simp [splitLines]
  | cons c l ih =>
    simp only [List.mem_cons, not_or] at h
    rw [List.cons_append, splitLines, ih h.2, if_neg (Ne.symm h.1)]
    simp

lemma splitLines_last {l : Str} (h : '\n' ∉ l) (hne : l ≠ []) : splitLines l = [l] := by
  induction l with
  | nil => exact absurd rfl hne
  | cons c l ih =>
    simp only [List.mem_cons, not_or] at h
    rw [splitLines, if_neg (Ne.symm h.1)]
    cases l with
    | nil => simp [splitLines]
    | cons d l => rw [ih h.2 (by simp)]

/-- Raw lines (as `readlines` returns them) and their contents. -/
inductive Lines : List Str → List Str → Prop
  | nil : Lines [] []
  | last {l : Str} : l ≠ [] → Lines [l] [l]
  | cons {l : Str} {rs ls : List Str} : Lines rs ls → Lines ((l ++ ['\n']) :: rs) (l :: ls)

lemma readlines_text {ls : List Str} {t : Str} (h : Text ls t) (hp : ∀ l ∈ ls, Plain l) : Lines (readlines t) ls := by
  unfold readlines
  induction h with
  | nil => exact .nil
  | last hne =>
    have := hp _ (List.mem_singleton.2 rfl)
    have e := universal_append this.2 []
    simp only [List.append_nil, universal] at e
    rw [e, splitLines_last this.1 hne]
    exact .last hne
  | lf _ ih =>
    have := hp _ (List.mem_cons_self)
    rw [universal_append this.2, universal_cons (by decide), splitLines_append this.1]
    exact .cons (ih (fun l hl => hp l (List.mem_cons_of_mem _ hl)))
  | crlf _ ih =>
    have := hp _ (List.mem_cons_self)
    rw [universal_append this.2]
    rw [universal, splitLines_append this.1]
    exact .cons (ih (fun l hl => hp l (List.mem_cons_of_mem _ hl)))

/-- A function of lines that does not see the line end. -/
lemma Lines.map_eq {β : Type} {f g : Str → β} {rs ls : List Str} (h : Lines rs ls)
    (hf : ∀ l ∈ ls, f (l ++ ['\n']) = g l ∧ f l = g l) : rs.map f = ls.map g := by
  induction h with
  | nil => rfl
  | last hne => simp [(hf _ (List.mem_singleton.2 rfl)).2]
  | cons _ ih =>
    simp only [List.map_cons, (hf _ List.mem_cons_self).1, ih (fun l hl => hf l (List.mem_cons_of_mem _ hl))]

lemma Lines.length_eq {rs ls : List Str} (h : Lines rs ls) : rs.length = ls.length := by
  induction h <;> simp_all

/-! ### Stripping -/

lemma rstrip_snoc {p : Char → Bool} {c : Char} (hc : p c = true) (l : Str) : rstrip p (l ++ [c]) = rstrip p l := by
  simp [rstrip, hc]

lemma dropWhile_head {p : Char → Bool} {l : Str} (h : ∀ c, l.head? = some c → p c = false) : l.dropWhile p = l := by
  cases l with
  | nil => rfl
  | cons a l => simp [h a rfl]

lemma rstrip_id {p : Char → Bool} {l : Str} (h : ∀ c, l.getLast? = some c → p c = false) : rstrip p l = l := by
  unfold rstrip
  rw [dropWhile_head (by simpa using h), List.reverse_reverse]

lemma chomp_plain {l : Str} (h : Plain l) : chomp l = l := by
  apply rstrip_id
  intro c hc
  have := List.mem_of_getLast? hc
  unfold isNewline
  have h1 : c ≠ '\r' := fun e => h.2 (e ▸ this)
  have h2 : c ≠ '\n' := fun e => h.1 (e ▸ this)
  simp [h1, h2]

lemma chomp_line {l : Str} (h : Plain l) : chomp (l ++ ['\n']) = l := by
  unfold chomp
  rw [rstrip_snoc (by decide)]
  exact chomp_plain h

lemma Lines.chomp {rs ls : List Str} (h : Lines rs ls) (hp : ∀ l ∈ ls, Plain l) : rs.map chomp = ls := by
  have := h.map_eq (f := Convert.chomp) (g := _root_.id) (fun l hl => ⟨chomp_line (hp l hl), chomp_plain (hp l hl)⟩)
  rw [this]; simp

lemma strip_id {p : Char → Bool} {l : Str} (h1 : ∀ c, l.head? = some c → p c = false)
    (h2 : ∀ c, l.getLast? = some c → p c = false) : strip p l = l := by
  unfold strip
  rw [dropWhile_head h1, rstrip_id h2]

/-! ### Splitting and joining -/

lemma split_ne_nil (c : Char) (s : Str) : split c s ≠ [] := by
  cases s with
  | nil => simp [split]
  | cons x s =>
    rw [split]
    split
    · simp
    · cases split c s <;> simp [consHead]

lemma split_append {c : Char} {f : Str} (h : c ∉ f) (s : Str) : split c (f ++ c :: s) = f :: split c s := by
  induction f with
  | nil => simp [split]
  | cons x f ih =>
    simp only [List.mem_cons, not_or] at h
    rw [List.cons_append, split, if_neg (Ne.symm h.1), ih h.2]; rfl

lemma split_self {c : Char} {f : Str} (h : c ∉ f) : split c f = [f] := by
  induction f with
  | nil => rfl
  | cons x f ih =>
    simp only [List.mem_cons, not_or] at h
    rw [split, if_neg (Ne.symm h.1), ih h.2]; rfl

lemma split_join {c : Char} {fs : List Str} (hne : fs ≠ []) (h : ∀ f ∈ fs, c ∉ f) : split c (join c fs) = fs := by
  induction fs with
  | nil => exact absurd rfl hne
  | cons f fs ih =>
    cases fs with
    | nil => exact split_self (h f (by simp))
    | cons g fs =>
      rw [join, split_append (h f (by simp)), ih (by simp) (fun x hx => h x (List.mem_cons_of_mem _ hx))]
      simp

lemma join_split (c : Char) (s : Str) : join c (split c s) = s := by
  induction s with
  | nil => rfl
  | cons x s ih =>
    rw [split]
    split
    · rename_i hx
      cases hs : split c s with
      | nil => exact absurd hs (split_ne_nil c s)
      | cons p ps => rw [join, ← hs, ih]; simp [hx]; simp
    · cases hs : split c s with
      | nil => exact absurd hs (split_ne_nil c s)
      | cons p ps =>
        rw [hs] at ih
        cases ps with
        | nil => simp [consHead, join] at ih ⊢; exact ih
        | cons q ps => simp [consHead, join] at ih ⊢; exact ih

lemma mem_join {c x : Char} {fs : List Str} (h : x ∈ join c fs) : x = c ∨ ∃ f ∈ fs, x ∈ f := by
  induction fs with
  | nil => simp [join] at h
  | cons f fs ih =>
    cases fs with
    | nil => simp [join] at h; exact .inr ⟨f, by simp, h⟩
    | cons g fs =>
      simp only [join, List.mem_append, List.mem_cons] at h
      rcases h with h | rfl | h
      · exact .inr ⟨f, by simp, h⟩
      · exact .inl rfl
      · rcases ih h with rfl | ⟨f', hf, hx⟩
        · exact .inl rfl
        · exact .inr ⟨f', List.mem_cons_of_mem _ hf, hx⟩

lemma Spec.Tidy.plain {fs : List Str} (h : Tidy fs) : Plain (join '\t' fs) := by
  constructor <;> intro hm <;> rcases mem_join hm with h' | ⟨f, hf, hx⟩
  · exact absurd h' (by decide)
  · exact (h.clean f hf).2.1 hx
  · exact absurd h' (by decide)
  · exact (h.clean f hf).2.2.1 hx

lemma Spec.Tidy.hash {fs : List Str} (h : Tidy fs) : '#' ∉ join '\t' fs := by
  intro hm
  rcases mem_join hm with h' | ⟨f, hf, hx⟩
  · exact absurd h' (by decide)
  · exact (h.clean f hf).2.2.2 hx

lemma Spec.Tidy.ne_nil {fs : List Str} (h : Tidy fs) : fs ≠ [] := by
  rintro rfl
  exact h.ne rfl

/-! ### Fields of a line -/

lemma takeWhile_hash {l : Str} (h : '#' ∉ l) (s : Str) :
    (l ++ s).takeWhile (fun c => decide (c ≠ '#')) = l ++ s.takeWhile (fun c => decide (c ≠ '#')) := by
  rw [List.takeWhile_append_of_pos]
  intro a ha
  have : a ≠ '#' := fun e => h (e ▸ ha)
  simp [this]

lemma dropWhile_all_iff {p : Char → Bool} {l : Str} : l.dropWhile p = [] ↔ ∀ x ∈ l, p x = true := by
  induction l with
  | nil => simp
  | cons a l ih =>
    by_cases h : p a = true
    · simp [h, ih]
    · simp [h]

lemma strip_blanks (n : Nat) : strip (fun c => decide (c = ' ') || isNewline c) (List.replicate n ' ') = [] := by
  unfold strip rstrip
  have : (List.replicate n ' ').dropWhile (fun c => decide (c = ' ') || isNewline c) = [] := by
    rw [dropWhile_all_iff]
    intro x hx
    rw [List.eq_of_mem_replicate hx]; decide
  rw [this]; rfl

lemma strip_blanks' (n : Nat) :
    strip (fun c => decide (c = ' ') || isNewline c) (List.replicate n ' ' ++ ['\n']) = [] := by
  unfold strip rstrip
  have : (List.replicate n ' ' ++ ['\n']).dropWhile (fun c => decide (c = ' ') || isNewline c) = [] := by
    rw [dropWhile_all_iff]
    intro x hx
    rcases List.mem_append.1 hx with hx | hx
    · rw [List.eq_of_mem_replicate hx]; decide
    · rw [List.mem_singleton.1 hx]; decide
  rw [this]; rfl

lemma hash_blanks (n : Nat) : '#' ∉ List.replicate n ' ' := by
  intro h
  exact absurd (List.eq_of_mem_replicate h) (by decide)

lemma takeWhile_newline : ['\n'].takeWhile (fun c => decide (c ≠ '#')) = ['\n'] := by decide

lemma takeWhile_comment (c : Str) : ('#' :: c).takeWhile (fun c => decide (c ≠ '#')) = [] := by
  rw [List.takeWhile_cons_of_neg (by decide)]

lemma fieldsOf_eq {line s : Str}
    (h : strip (fun c => decide (c = ' ') || isNewline c) (line.takeWhile (fun c => decide (c ≠ '#'))) = s) :
    fieldsOf line = if s = [] then [] else split '\t' s := by
  subst h; rfl

lemma fieldsOf_blank (n : Nat) :
    fieldsOf (List.replicate n ' ' ++ ['\n']) = [] ∧ fieldsOf (List.replicate n ' ') = [] := by
  constructor
  · rw [fieldsOf_eq (s := [])]; · rfl
    rw [takeWhile_hash (hash_blanks n), takeWhile_newline, strip_blanks']
  · rw [fieldsOf_eq (s := [])]; · rfl
    have := takeWhile_hash (hash_blanks n) []
    simp only [List.append_nil, List.takeWhile_nil] at this
    rw [this, strip_blanks]

lemma fieldsOf_comment (n : Nat) (c : Str) : fieldsOf (List.replicate n ' ' ++ '#' :: c) = [] := by
  rw [fieldsOf_eq (s := [])]; · rfl
  rw [takeWhile_hash (hash_blanks n), takeWhile_comment, List.append_nil, strip_blanks]

/-- Fields with blanks around them. -/
lemma strip_pad {fs : List Str} (h : Tidy fs) {a b : Str} (ha : ∀ c ∈ a, (decide (c = ' ') || isNewline c) = true)
    (hb : ∀ c ∈ b, (decide (c = ' ') || isNewline c) = true) :
    strip (fun c => decide (c = ' ') || isNewline c) (a ++ join '\t' fs ++ b) = join '\t' fs := by
  have key : ∀ c ∈ join '\t' fs, c ≠ ' ' → (decide (c = ' ') || isNewline c) = false := by
    intro c hc hs
    have h1 : c ≠ '\r' := fun e => h.plain.2 (e ▸ hc)
    have h2 : c ≠ '\n' := fun e => h.plain.1 (e ▸ hc)
    simp [isNewline, h1, h2, hs]
  unfold strip
  rw [List.append_assoc, List.dropWhile_append_of_pos ha, dropWhile_head]
  · unfold rstrip
    rw [List.reverse_append, List.dropWhile_append_of_pos (by simpa using hb), dropWhile_head, List.reverse_reverse]
    intro c hc
    rw [List.head?_reverse] at hc
    refine key c (List.mem_of_getLast? hc) ?_
    rintro rfl; exact h.last hc
  · intro c hc
    have hne := h.ne
    rw [List.head?_append_of_ne_nil _ hne] at hc
    refine key c (List.mem_of_head? hc) ?_
    rintro rfl; exact h.first hc

lemma blank_pad {n : Nat} : ∀ c ∈ List.replicate n ' ', (decide (c = ' ') || isNewline c) = true := by
  intro c hc
  rw [List.eq_of_mem_replicate hc]; decide

lemma fieldsOf_pad {fs : List Str} (h : Tidy fs) {a b : Str} {c : Str}
    (ha : ∀ c ∈ a, (decide (c = ' ') || isNewline c) = true) (hb : ∀ c ∈ b, (decide (c = ' ') || isNewline c) = true)
    (hc : c = [] ∨ ∃ c', c = '#' :: c') : fieldsOf (a ++ join '\t' fs ++ b ++ c) = fs := by
  have hs : split '\t' (join '\t' fs) = fs := split_join h.ne_nil (fun f hf => (h.clean f hf).1)
  have hash : ∀ l : Str, (∀ c ∈ l, (decide (c = ' ') || isNewline c) = true) → '#' ∉ l :=
    fun l hl hm => absurd (hl _ hm) (by decide)
  have hh : '#' ∉ a ++ join '\t' fs ++ b := by
    simp only [List.mem_append, not_or]
    exact ⟨⟨hash a ha, h.hash⟩, hash b hb⟩
  rw [fieldsOf_eq (s := join '\t' fs), if_neg h.ne, hs]
  rw [takeWhile_hash hh]
  have : c.takeWhile (fun c => decide (c ≠ '#')) = [] := by
    rcases hc with rfl | ⟨c', rfl⟩
    · rfl
    · exact takeWhile_comment c'
  rw [this, List.append_nil, strip_pad h ha hb]

lemma fieldsOf_row {fs : List Str} (h : Tidy fs) :
    fieldsOf (join '\t' fs ++ ['\n']) = fs ∧ fieldsOf (join '\t' fs) = fs := by
  constructor
  · have := fieldsOf_pad (a := []) (b := ['\n']) (c := []) h (by simp) (by simp [isNewline]) (.inl rfl)
    simpa using this
  · have := fieldsOf_pad (a := []) (b := []) (c := []) h (by simp) (by simp) (.inl rfl)
    simpa using this

lemma rows_fields {rs ls : List Str} {rows : List (List Str)} (h : Lines rs ls) (hr : Rows ls rows) :
    (rs.map fieldsOf).filter (fun r => r ≠ []) = rows := by
  induction h generalizing rows with
  | nil => cases hr; rfl
  | last hne =>
    cases hr with
    | blank hr => cases hr; simp [(fieldsOf_blank _).2]
    | comment hr => cases hr; simp [fieldsOf_comment]
    | row ht hr => cases hr; simp [(fieldsOf_row ht).2, ht.ne_nil]
    | padded ht hr =>
      rename_i a b fs rows
      cases hr
      have := fieldsOf_pad (c := []) ht (a := List.replicate a ' ') (b := List.replicate b ' ') blank_pad blank_pad (.inl rfl)
      rw [List.append_nil] at this
      rw [List.map_cons, this, List.filter_cons_of_pos (by simpa using ht.ne_nil)]; rfl
    | remark ht hr =>
      rename_i a b fs c rows
      cases hr
      have := fieldsOf_pad (c := '#' :: c) ht (a := List.replicate a ' ') (b := List.replicate b ' ') blank_pad blank_pad (.inr ⟨_, rfl⟩)
      rw [List.map_cons, this, List.filter_cons_of_pos (by simpa using ht.ne_nil)]; rfl
  | cons _ ih =>
    cases hr with
    | blank hr => rw [List.map_cons, (fieldsOf_blank _).1, List.filter_cons_of_neg (by simp)]; exact ih hr
    | comment hr =>
      rw [List.map_cons, List.append_assoc, List.cons_append, fieldsOf_comment, List.filter_cons_of_neg (by simp)]
      exact ih hr
    | row ht hr => rw [List.map_cons, (fieldsOf_row ht).1, List.filter_cons_of_pos (by simpa using ht.ne_nil), ih hr]
    | padded ht hr =>
      rename_i a b fs rows
      have := fieldsOf_pad (c := []) ht (a := List.replicate a ' ') (b := List.replicate b ' ' ++ ['\n']) blank_pad
        (by
          intro c hc
          rcases List.mem_append.1 hc with hc | hc
          · exact blank_pad c hc
          · rw [List.mem_singleton.1 hc]; decide) (.inl rfl)
      rw [List.append_nil, ← List.append_assoc] at this
      rw [List.map_cons, this, List.filter_cons_of_pos (by simpa using ht.ne_nil), ih hr]
    | remark ht hr =>
      rename_i a b fs c rows
      have := fieldsOf_pad (c := '#' :: (c ++ ['\n'])) ht (a := List.replicate a ' ') (b := List.replicate b ' ') blank_pad blank_pad
        (.inr ⟨_, rfl⟩)
      rw [List.map_cons, List.append_assoc _ ('#' :: c), List.cons_append, this,
        List.filter_cons_of_pos (by simpa using ht.ne_nil), ih hr]

/-! ### Numerals -/

lemma isDigit_not_space {c : Char} (h : c.isDigit = true) : isSpace c = false := by
  unfold isSpace
  have e : ∀ d : Char, d.isDigit = false → c ≠ d := by
    rintro d hd rfl
    rw [h] at hd
    exact absurd hd (by decide)
  simp [e ' ' (by decide), e '\t' (by decide), e '\n' (by decide), e '\r' (by decide),
    e (Char.ofNat 11) (by decide), e (Char.ofNat 12) (by decide)]

lemma toDigits_digit {n : Nat} {c : Char} (h : c ∈ Nat.toDigits 10 n) : c.isDigit = true :=
  Nat.isDigit_of_mem_toDigits (by decide) (by decide) h

lemma natOf_toDigits (n : Nat) : natOf (Nat.toDigits 10 n) = some n := by
  unfold natOf
  rw [if_pos ⟨Nat.toDigits_ne_nil, by simpa [List.all_eq_true] using fun c hc => toDigits_digit hc⟩,
    Nat.ofDigitChars_ten_toDigits]

lemma signed_digits {β : Type} [Neg β] (f : Str → Option β) {s : Str} (h : ∀ c, s.head? = some c → c ≠ '-' ∧ c ≠ '+') :
    signed f s = f s := by
  unfold signed
  split
  · exact absurd rfl (h '-' rfl).1
  · exact absurd rfl (h '+' rfl).2
  · rfl

lemma isDigit_not_sign {c : Char} (h : c.isDigit = true) : c ≠ '-' ∧ c ≠ '+' := by
  constructor <;> rintro rfl <;> exact absurd h (by decide)

lemma showInt_mem {n : Int} {c : Char} (h : c ∈ showInt n) : c = '-' ∨ c.isDigit = true := by
  unfold showInt at h
  split at h
  · rcases List.mem_cons.1 h with h | h
    · exact .inl h
    · exact .inr (toDigits_digit h)
  · exact .inr (toDigits_digit h)

lemma showInt_ne_nil (n : Int) : showInt n ≠ [] := by
  unfold showInt
  split
  · simp
  · exact Nat.toDigits_ne_nil

lemma strip_showInt (n : Int) : strip isSpace (showInt n) = showInt n := by
  have : ∀ c ∈ showInt n, isSpace c = false := by
    intro c hc
    rcases showInt_mem hc with rfl | h
    · decide
    · exact isDigit_not_space h
  exact strip_id (fun c hc => this c (List.mem_of_head? hc)) (fun c hc => this c (List.mem_of_getLast? hc))

/-- `int(str(n))` is `n`. -/
lemma intOf_showInt (n : Int) : intOf (showInt n) = some n := by
  unfold intOf
  rw [strip_showInt]
  unfold showInt
  split
  · rename_i h
    show ((natOf (Nat.toDigits 10 n.natAbs)).map (fun n => (n : Int))).map (fun x => -x) = some n
    rw [natOf_toDigits]
    show some (-((n.natAbs : Nat) : Int)) = some n
    congr 1; omega
  · rename_i h
    rw [signed_digits]
    · rw [natOf_toDigits]; simp; omega
    · intro c hc
      exact isDigit_not_sign (toDigits_digit (List.mem_of_head? hc))

/-- The digits of a numeral, with the point inside. -/
lemma decimal_digits {K : Type} [Field K] {ip fp : Str} (h1 : ∀ c ∈ ip, c.isDigit = true) (h2 : ∀ c ∈ fp, c.isDigit = true)
    (hne : ip ≠ []) :
    (decimal (ip ++ '.' :: fp) : Option K) = some ((Nat.ofDigitChars 10 (ip ++ fp) 0 : K) / 10 ^ fp.length) ∧
    (decimal ip : Option K) = some (Nat.ofDigitChars 10 ip 0 : K) := by
  have t1 : (ip ++ '.' :: fp).takeWhile Char.isDigit = ip := by
    rw [List.takeWhile_append_of_pos h1, List.takeWhile_cons_of_neg (by decide), List.append_nil]
  have t2 : (ip ++ '.' :: fp).dropWhile Char.isDigit = '.' :: fp := by
    rw [List.dropWhile_append_of_pos h1, List.dropWhile_cons_of_neg (by decide)]
  have t3 : fp.takeWhile Char.isDigit = fp := by
    have := List.takeWhile_append_of_pos (l₂ := []) h2
    simpa using this
  have t4 : fp.dropWhile Char.isDigit = [] := by
    have := List.dropWhile_append_of_pos (l₂ := []) h2
    simpa using this
  have t5 : ip.takeWhile Char.isDigit = ip := by
    have := List.takeWhile_append_of_pos (l₂ := []) h1
    simpa using this
  have t6 : ip.dropWhile Char.isDigit = [] := by
    have := List.dropWhile_append_of_pos (l₂ := []) h1
    simpa using this
  constructor
  · unfold decimal
    simp only [t1, t2, t3, t4]
    rw [if_neg (fun h => hne h.1)]
    simp [exponent]
  · unfold decimal
    simp only [t5, t6]
    rw [if_neg (fun h => hne h.1)]
    simp [exponent]

end Kam.Convert
