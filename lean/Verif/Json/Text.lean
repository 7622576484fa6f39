/-
Lemmas about the tokens of result files: strings, numbers and constants are read back, and reading a token does not
depend on what follows it.
-/
import Verif.Json.Model
import Verif.Convert.Lemmas

namespace Kam.Json
open Scripts Kam.Convert

/-! ### Strings -/

lemma hexVal_hexChar {n : Nat} (h : n < 16) : hexVal (hexChar n) = some n := by
  have : ∀ n : Fin 16, hexVal (hexChar n) = some n.1 := by decide
  exact this ⟨n, h⟩

lemma uXXXX_hex (n : Nat) (h : n < 65536) (r : Str) :
    uXXXX (hexChar (n / 4096 % 16) :: hexChar (n / 256 % 16) :: hexChar (n / 16 % 16) :: hexChar (n % 16) :: r) = some (n, r) := by
  simp only [uXXXX, hexVal_hexChar (Nat.mod_lt _ (by decide : 16 > 0)), Option.bind_eq_bind, Option.bind_some, Option.pure_def,
    Option.some.injEq, Prod.mk.injEq, and_true]
  omega

lemma charOf_toNat (c : Char) : charOf c.toNat = some c := by
  unfold charOf
  rw [if_pos (show c.toNat.isValidChar from c.valid), Char.ofNat_toNat]

lemma not_surrogate (c : Char) : ¬ (55296 ≤ c.toNat ∧ c.toNat ≤ 57343) := by
  have := c.valid
  simp only [UInt32.isValidChar, Nat.isValidChar] at this
  have e : c.val.toNat = c.toNat := rfl
  rw [e] at this
  omega

lemma toNat_lt (c : Char) : c.toNat < 1114112 := by
  have := c.valid
  simp only [UInt32.isValidChar, Nat.isValidChar] at this
  have e : c.val.toNat = c.toNat := rfl
  rw [e] at this
  omega

lemma unicode_small (c : Char) (h : c.toNat < 65536) (r : Str) :
    unicode (hexChar (c.toNat / 4096 % 16) :: hexChar (c.toNat / 256 % 16) :: hexChar (c.toNat / 16 % 16) ::
      hexChar (c.toNat % 16) :: r) = some (c, r) := by
  unfold unicode
  rw [uXXXX_hex _ h]
  have := not_surrogate c
  simp only [Option.bind_eq_bind, Option.bind_some]
  rw [if_neg (by omega), charOf_toNat]
  rfl

lemma unicode_pair (u v : Nat) (hu : 55296 ≤ u ∧ u ≤ 56319) (hv : 56320 ≤ v ∧ v ≤ 57343) (c : Char)
    (hc : 65536 + ((u - 55296) * 1024 + (v - 56320)) = c.toNat) (r : Str) :
    unicode (hexChar (u / 4096 % 16) :: hexChar (u / 256 % 16) :: hexChar (u / 16 % 16) :: hexChar (u % 16) :: '\\' :: 'u' ::
      hexChar (v / 4096 % 16) :: hexChar (v / 256 % 16) :: hexChar (v / 16 % 16) :: hexChar (v % 16) :: r) = some (c, r) := by
  unfold unicode
  rw [uXXXX_hex u (by omega)]
  simp only [Option.bind_eq_bind, Option.bind_some]
  rw [if_pos hu, uXXXX_hex v (by omega)]
  simp only [Option.bind_some]
  rw [if_pos hv, hc, charOf_toNat]
  rfl

lemma unicode_large (c : Char) (h : 65536 ≤ c.toNat) (r : Str) :
    scanChar (hex4 (55296 + (c.toNat - 65536) / 1024) ++ hex4 (56320 + (c.toNat - 65536) % 1024) ++ r) = some (c, r) := by
  have hlt := toNat_lt c
  have h1 : 55296 ≤ 55296 + (c.toNat - 65536) / 1024 ∧ 55296 + (c.toNat - 65536) / 1024 ≤ 56319 := by omega
  have h2 : 56320 ≤ 56320 + (c.toNat - 65536) % 1024 ∧ 56320 + (c.toNat - 65536) % 1024 ≤ 57343 := by omega
  have h3 : 65536 + ((55296 + (c.toNat - 65536) / 1024 - 55296) * 1024 +
      (56320 + (c.toNat - 65536) % 1024 - 56320)) = c.toNat := by omega
  generalize 55296 + (c.toNat - 65536) / 1024 = u at *
  generalize 56320 + (c.toNat - 65536) % 1024 = v at *
  simpa [hex4, scanChar] using unicode_pair u v h1 h2 c h3 r

lemma scanChar_escape (c : Char) (r : Str) : scanChar (escape c ++ r) = some (c, r) := by
  unfold escape
  split_ifs with h1 h2 h3 h4 h5 h6 h7 h8 h9
  · subst h1; rfl
  · subst h2; rfl
  · subst h3; rfl
  · subst h4; rfl
  · subst h5; rfl
  · subst h6; rfl
  · subst h7; rfl
  · simp only [List.cons_append, List.nil_append, scanChar, if_neg h2]
    rw [if_neg (by omega)]
  · simpa [hex4, scanChar] using unicode_small c h9 r
  · exact unicode_large c (by omega) r

lemma escape_cons (c : Char) : ∃ h t, escape c = h :: t ∧ h ≠ '"' := by
  unfold escape
  split_ifs with h1
  all_goals first
    | exact ⟨_, _, rfl, by decide⟩
    | exact ⟨_, _, rfl, h1⟩

lemma scanChars_escape (s : Str) (r : Str) (n : Nat) (h : s.length < n) :
    scanChars n (s.flatMap escape ++ '"' :: r) = some (s, r) := by
  induction s generalizing n with
  | nil =>
    obtain ⟨n, rfl⟩ : ∃ m, n = m + 1 := ⟨n - 1, by simp at h; omega⟩
    simp [scanChars]
  | cons c s ih =>
    obtain ⟨n, rfl⟩ : ∃ m, n = m + 1 := ⟨n - 1, by simp at h; omega⟩
    obtain ⟨a, t, ha, hq⟩ := escape_cons c
    have h1 := scanChar_escape c (s.flatMap escape ++ '"' :: r)
    rw [List.flatMap_cons, List.append_assoc]
    rw [ha, List.cons_append] at h1 ⊢
    simp only [scanChars, if_neg hq]
    rw [h1]
    simp only [Option.bind_eq_bind, Option.bind_some]
    rw [ih n (by simpa using h)]
    rfl

lemma length_escape (s : Str) : s.length ≤ (s.flatMap escape).length := by
  induction s with
  | nil => simp
  | cons c s ih =>
    obtain ⟨a, t, ha, _⟩ := escape_cons c
    rw [List.flatMap_cons, List.length_append, ha]
    simp only [List.length_cons]
    omega

lemma scanStr_escape (k : String) (r : Str) : scanStr (k.toList.flatMap escape ++ '"' :: r) = some (k, r) := by
  unfold scanStr
  rw [scanChars_escape]
  · simp
  · have := length_escape k.toList
    simp only [List.length_append, List.length_cons]
    omega

/-! ### Strings with something behind them -/

lemma uXXXX_append {s r : Str} {n : Nat} (h : uXXXX s = some (n, r)) (t : Str) : uXXXX (s ++ t) = some (n, r ++ t) := by
  match s, h with
  | a :: b :: c :: d :: s, h =>
    simp only [uXXXX, List.cons_append] at h ⊢
    cases ha : hexVal a <;> rw [ha] at h <;> simp only [Option.bind_eq_bind, Option.bind_none, Option.bind_some] at h ⊢ <;> try cases h
    cases hb : hexVal b <;> rw [hb] at h <;> simp only [Option.bind_none, Option.bind_some] at h ⊢ <;> try cases h
    cases hc : hexVal c <;> rw [hc] at h <;> simp only [Option.bind_none, Option.bind_some] at h ⊢ <;> try cases h
    cases hd : hexVal d <;> rw [hd] at h <;> simp only [Option.bind_none, Option.bind_some] at h ⊢ <;> cases h
    rfl
  | [], h => cases h
  | [_], h => cases h
  | [_, _], h => cases h
  | [_, _, _], h => cases h

lemma unicode_append {s r : Str} {c : Char} (h : unicode s = some (c, r)) (t : Str) : unicode (s ++ t) = some (c, r ++ t) := by
  unfold unicode at h ⊢
  cases hu : uXXXX s with
  | none => rw [hu] at h; cases h
  | some p =>
    obtain ⟨u, s1⟩ := p
    rw [hu] at h
    rw [uXXXX_append hu t]
    simp only [Option.bind_eq_bind, Option.bind_some] at h ⊢
    split_ifs at h ⊢ with hs
    · split at h
      · rename_i s2
        cases hv : uXXXX s2 with
        | none => rw [hv] at h; cases h
        | some q =>
          obtain ⟨v, s3⟩ := q
          rw [hv] at h
          simp only [Option.bind_some] at h
          simp only [List.cons_append]
          rw [uXXXX_append hv t]
          simp only [Option.bind_some]
          split_ifs at h ⊢ with hv2
          obtain ⟨x, h1, h2⟩ := Option.map_eq_some_iff.1 h
          cases h2
          rw [h1]
          rfl
      · cases h
    · obtain ⟨x, h1, h2⟩ := Option.map_eq_some_iff.1 h
      cases h2
      rw [h1]
      rfl

lemma scanChar_append {s r : Str} {c : Char} (h : scanChar s = some (c, r)) (t : Str) : scanChar (s ++ t) = some (c, r ++ t) := by
  match s, h with
  | [], h => cases h
  | a :: s, h =>
    simp only [scanChar, List.cons_append] at h ⊢
    split_ifs at h ⊢ with h1 h2
    · match s, h with
      | [], h => cases h
      | e :: s, h =>
        simp only [List.cons_append] at h ⊢
        split_ifs at h ⊢ with h3
        · exact unicode_append h t
        · obtain ⟨x, h1, h2⟩ := Option.map_eq_some_iff.1 h
          cases h2
          rw [h1]
          rfl
    · cases h
      rfl

lemma scanChars_append {n m : Nat} (hm : n ≤ m) {s r x : Str} (h : scanChars n s = some (x, r)) (t : Str) :
    scanChars m (s ++ t) = some (x, r ++ t) := by
  induction n generalizing m s x r with
  | zero => cases h
  | succ n ih =>
    obtain ⟨m, rfl⟩ : ∃ k, m = k + 1 := ⟨m - 1, by omega⟩
    match s, h with
    | [], h => cases h
    | c :: s, h =>
      simp only [scanChars, List.cons_append] at h ⊢
      split_ifs at h ⊢ with h1
      · cases h; rfl
      · cases hc : scanChar (c :: s) with
        | none => rw [hc] at h; cases h
        | some p =>
          obtain ⟨y, s1⟩ := p
          rw [hc] at h
          have h2 := scanChar_append hc t
          rw [List.cons_append] at h2
          rw [h2]
          simp only [Option.bind_eq_bind, Option.bind_some] at h ⊢
          cases hs : scanChars n s1 with
          | none => rw [hs] at h; cases h
          | some q =>
            obtain ⟨ys, s2⟩ := q
            rw [hs] at h
            rw [ih (by omega) hs]
            simp only [Option.bind_some, Option.pure_def] at h ⊢
            cases h
            rfl

lemma scanStr_append {s r : Str} {k : String} (h : scanStr s = some (k, r)) (t : Str) : scanStr (s ++ t) = some (k, r ++ t) := by
  unfold scanStr at h ⊢
  obtain ⟨⟨x, r'⟩, h1, h2⟩ := Option.map_eq_some_iff.1 h
  cases h2
  rw [scanChars_append (by simp) h1 t]
  rfl

/-! ### White space -/

lemma skip_cons {c : Char} (h : isWs c = false) (s : Str) : skip (c :: s) = c :: s := by
  simp [skip, h]

lemma skip_append {s r : Str} {c : Char} (h : skip s = c :: r) (t : Str) : skip (s ++ t) = c :: (r ++ t) := by
  unfold skip at h ⊢
  rw [List.dropWhile_append, h]
  rfl

lemma skip_head {s r : Str} {c : Char} (h : skip s = c :: r) : isWs c = false := by
  unfold skip at h
  have := List.head_dropWhile_not (p := isWs) (l := s) (by rw [h]; simp)
  simpa [h] using this

lemma skip_skip (s : Str) : skip (skip s) = skip s := by
  cases h : skip s with
  | nil => rfl
  | cons c r => exact skip_cons (skip_head h) r

end Kam.Json
