/-
The bounds on the number of calls in the decoder are never reached: with a larger bound it computes the same.
-/
import Verif.Json.Prefix

namespace Kam.Json
open Scripts Kam.Convert

variable {R : Type} {fl : Floats R}

lemma uXXXX_length {s r : Str} {n : Nat} (h : uXXXX s = some (n, r)) : r.length < s.length := by
  match s with
  | [] => cases h
  | [_] => cases h
  | [_, _] => cases h
  | [_, _, _] => cases h
  | a :: b :: c :: d :: s =>
    simp only [uXXXX, Option.bind_eq_bind, Option.bind_eq_some_iff] at h
    obtain ⟨_, _, _, _, _, _, _, _, h⟩ := h
    cases h
    simp only [List.length_cons]
    omega

lemma unicode_length {s r : Str} {c : Char} (h : unicode s = some (c, r)) : r.length < s.length := by
  unfold unicode at h
  simp only [Option.bind_eq_bind, Option.bind_eq_some_iff] at h
  obtain ⟨⟨u, s1⟩, h1, h⟩ := h
  have l1 := uXXXX_length h1
  dsimp only at h
  split_ifs at h
  · split at h
    · simp only [Option.bind_eq_some_iff] at h
      obtain ⟨⟨v, s3⟩, h3, h⟩ := h
      have l3 := uXXXX_length h3
      dsimp only at h
      split_ifs at h
      obtain ⟨x, _, e⟩ := Option.map_eq_some_iff.1 h
      cases e
      simp only [List.length_cons] at l1
      omega
    · cases h
  · obtain ⟨x, _, e⟩ := Option.map_eq_some_iff.1 h
    cases e
    exact l1

lemma scanChar_length {s r : Str} {c : Char} (h : scanChar s = some (c, r)) : r.length < s.length := by
  unfold scanChar at h
  cases s with
  | nil => cases h
  | cons d s =>
    dsimp only at h
    split_ifs at h with h1 h2
    · cases s with
      | nil => cases h
      | cons e s =>
        dsimp only at h
        split_ifs at h with h3
        · have := unicode_length h
          simp only [List.length_cons]
          omega
        · obtain ⟨x, _, e⟩ := Option.map_eq_some_iff.1 h
          cases e
          simp only [List.length_cons]
          omega
    · cases h
      simp

lemma scanChars_length (n : Nat) : ∀ {s r x : Str}, scanChars n s = some (x, r) → r.length < s.length := by
  induction n with
  | zero => intro s r x h; cases h
  | succ n ih =>
    intro s r x h
    cases s with
    | nil => cases h
    | cons c s =>
      rw [scanChars] at h
      split_ifs at h
      · cases h; simp
      · simp only [Option.bind_eq_bind, Option.bind_eq_some_iff] at h
        obtain ⟨⟨x1, s1⟩, h1, ⟨x2, s2⟩, h2, h⟩ := h
        cases h
        have := scanChar_length h1
        have := ih h2
        simp only at *
        omega

/-- Strings: the bound on the number of characters is never reached. -/
lemma scanChars_fuel (n : Nat) : ∀ s : Str, s.length < n → scanChars (n + 1) s = scanChars n s := by
  induction n with
  | zero => intro s h; omega
  | succ n ih =>
    intro s h
    cases s with
    | nil => rfl
    | cons c s =>
      rw [scanChars, scanChars]
      by_cases hc : c = '"'
      · rw [if_pos hc, if_pos hc]
      · rw [if_neg hc, if_neg hc]
        cases h1 : scanChar (c :: s) with
        | none => rfl
        | some p =>
          have := scanChar_length (c := p.1) (r := p.2) h1
          simp only [Option.bind_eq_bind, Option.bind_some]
          simp only [List.length_cons] at this h
          rw [ih p.2 (by omega)]

lemma scanStr_length {s r : Str} {k : String} (h : scanStr s = some (k, r)) : r.length < s.length := by
  obtain ⟨⟨x, r'⟩, e1, e2⟩ := Option.map_eq_some_iff.1 h
  cases e2
  exact scanChars_length _ e1

lemma skip_length (s : Str) : (skip s).length ≤ s.length := (List.dropWhile_sublist _).length_le

lemma skip_cons_length {s r : Str} {c : Char} (h : skip s = c :: r) : r.length < s.length := by
  have := skip_length s
  rw [h, List.length_cons] at this
  omega

lemma constant_length {s r : Str} {a : Atom R} (h : constant s = some (a, r)) : r.length < s.length := by
  unfold constant at h
  split at h <;> cases h <;> simp only [List.length_cons] <;> omega

lemma scanAtom_length {s r : Str} {a : Atom R} (h : scanAtom fl s = some (a, r)) : r.length < s.length := by
  unfold scanAtom at h
  cases hc : constant (R := R) s with
  | some p =>
    rw [hc] at h
    cases h
    exact constant_length hc
  | none =>
    rw [hc] at h
    obtain ⟨u, rfl, ⟨d, t, hu, _⟩, _⟩ := number_spec h
    rcases hu with rfl | rfl <;> simp only [List.cons_append, List.length_cons, List.length_append] <;> omega

lemma scan_length (n : Nat) :
    (∀ s r (j : J (Atom R)), scan fl n s = some (j, r) → r.length < s.length) ∧
    (∀ s r (d : List (String × J (Atom R))), members fl n s = some (d, r) → r.length < s.length) ∧
    (∀ s r (l : List (J (Atom R))), elements fl n s = some (l, r) → r.length < s.length) := by
  induction n with
  | zero =>
    refine ⟨?_, ?_, ?_⟩
    · intro s r j h; rw [scan] at h; cases h
    · intro s r j h; rw [members] at h; cases h
    · intro s r j h; rw [elements] at h; cases h
  | succ n ih =>
    obtain ⟨ih1, ih2, ih3⟩ := ih
    refine ⟨?_, ?_, ?_⟩
    · intro s r j h
      cases s with
      | nil => rw [scan] at h; cases h
      | cons c s =>
        rw [scan] at h
        rw [List.length_cons]
        split_ifs at h with h1 h2 h3
        · obtain ⟨⟨k, r'⟩, e1, e2⟩ := Option.map_eq_some_iff.1 h
          cases e2
          have := scanStr_length e1
          simp only; omega
        · cases hk : skip s with
          | nil => rw [hk] at h; cases h
          | cons e s' =>
            rw [hk] at h
            have := skip_cons_length hk
            dsimp only at h
            split_ifs at h
            · cases h; omega
            · obtain ⟨⟨d, r'⟩, e1, e2⟩ := Option.map_eq_some_iff.1 h
              cases e2
              have := ih2 _ _ _ e1
              simp only; omega
        · cases hk : skip s with
          | nil => rw [hk] at h; cases h
          | cons e s' =>
            rw [hk] at h
            have := skip_cons_length hk
            dsimp only at h
            split_ifs at h
            · cases h; omega
            · obtain ⟨⟨d, r'⟩, e1, e2⟩ := Option.map_eq_some_iff.1 h
              cases e2
              have := ih3 _ _ _ e1
              simp only [List.length_cons] at *; omega
        · obtain ⟨⟨a, r'⟩, e1, e2⟩ := Option.map_eq_some_iff.1 h
          cases e2
          exact scanAtom_length e1
    · intro s r d h
      rw [members] at h
      simp only [Option.bind_eq_bind, Option.bind_eq_some_iff] at h
      obtain ⟨⟨k, s1⟩, e1, h⟩ := h
      have l1 := scanStr_length e1
      dsimp only at h
      cases h1 : skip s1 with
      | nil => rw [h1] at h; cases h
      | cons e s2 =>
        have l2 := skip_cons_length h1
        rw [h1] at h
        dsimp only at h
        split_ifs at h
        simp only [Option.bind_eq_some_iff] at h
        obtain ⟨⟨j, s3⟩, e3, h⟩ := h
        have l3 := ih1 _ _ _ e3
        have l3' := skip_length s2
        dsimp only at h
        cases h4 : skip s3 with
        | nil => rw [h4] at h; cases h
        | cons e s4 =>
          have l4 := skip_cons_length h4
          rw [h4] at h
          dsimp only at h
          split_ifs at h
          · cases h; omega
          · cases h5 : skip s4 with
            | nil => rw [h5] at h; cases h
            | cons e s5 =>
              have l5 := skip_cons_length h5
              rw [h5] at h
              dsimp only at h
              split_ifs at h
              obtain ⟨⟨d, r'⟩, e1, e2⟩ := Option.map_eq_some_iff.1 h
              cases e2
              have := ih2 _ _ _ e1
              simp only; omega
    · intro s r l h
      rw [elements] at h
      simp only [Option.bind_eq_bind, Option.bind_eq_some_iff] at h
      obtain ⟨⟨j, s3⟩, e3, h⟩ := h
      have l3 := ih1 _ _ _ e3
      dsimp only at h
      cases h4 : skip s3 with
      | nil => rw [h4] at h; cases h
      | cons e s4 =>
        have l4 := skip_cons_length h4
        rw [h4] at h
        dsimp only at h
        split_ifs at h
        · cases h; omega
        · obtain ⟨⟨d, r'⟩, e1, e2⟩ := Option.map_eq_some_iff.1 h
          cases e2
          have := ih3 _ _ _ e1
          have := skip_length s4
          simp only; omega

lemma scan_fuel_aux (n : Nat) :
    (∀ s : Str, 2 * s.length + 1 ≤ n → scan fl (n + 1) s = scan fl n s) ∧
    (∀ s : Str, 2 * s.length + 2 ≤ n → members fl (n + 1) s = members fl n s) ∧
    (∀ s : Str, 2 * s.length + 2 ≤ n → elements fl (n + 1) s = elements fl n s) := by
  induction n with
  | zero => exact ⟨fun s h => by omega, fun s h => by omega, fun s h => by omega⟩
  | succ n ih =>
    obtain ⟨ih1, ih2, ih3⟩ := ih
    refine ⟨?_, ?_, ?_⟩
    · intro s h
      cases s with
      | nil => rw [scan, scan]
      | cons c s =>
        rw [List.length_cons] at h
        rw [scan, scan]
        cases hk : skip s with
        | nil => rfl
        | cons e s' =>
          have l1 := skip_cons_length hk
          dsimp only
          rw [ih2 s' (by omega), ih3 (e :: s') (by rw [List.length_cons]; omega)]
    · intro s h
      rw [members, members]
      cases h1 : scanStr s with
      | none => rfl
      | some p =>
        obtain ⟨k, s1⟩ := p
        have l1 := scanStr_length h1
        simp only [Option.bind_eq_bind, Option.bind_some]
        cases h2 : skip s1 with
        | nil => rfl
        | cons e s2 =>
          have l2 := skip_cons_length h2
          have l2' := skip_length s2
          dsimp only
          rw [ih1 (skip s2) (by omega)]
          cases h3 : scan fl n (skip s2) with
          | none => rfl
          | some p =>
            obtain ⟨j, s3⟩ := p
            have l3 := (scan_length _).1 _ _ _ h3
            simp only [Option.bind_some]
            cases h4 : skip s3 with
            | nil => rfl
            | cons e s4 =>
              have l4 := skip_cons_length h4
              dsimp only
              cases h5 : skip s4 with
              | nil => rfl
              | cons e s5 =>
                have l5 := skip_cons_length h5
                dsimp only
                rw [ih2 s5 (by omega)]
    · intro s h
      rw [elements, elements, ih1 s (by omega)]
      cases h3 : scan fl n s with
      | none => rfl
      | some p =>
        obtain ⟨j, s3⟩ := p
        have l3 := (scan_length _).1 _ _ _ h3
        simp only [Option.bind_eq_bind, Option.bind_some]
        cases h4 : skip s3 with
        | nil => rfl
        | cons e s4 =>
          have l4 := skip_cons_length h4
          have := skip_length s4
          dsimp only
          rw [ih3 (skip s4) (by omega)]

/-- The bound on the number of calls in `loads` is never reached: any larger bound gives the same. -/
theorem scan_fuel (s : Str) (m : Nat) (h : 2 * s.length + 2 ≤ m) : scan fl m (skip s) = scan fl (2 * s.length + 2) (skip s) := by
  have hk := skip_length s
  obtain ⟨k, rfl⟩ := Nat.exists_eq_add_of_le h
  clear h
  induction k with
  | zero => rfl
  | succ k ih => rw [← ih, ← Nat.add_assoc]; exact (scan_fuel_aux _).1 _ (by omega)

end Kam.Json
