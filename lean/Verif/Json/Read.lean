/-
What the decoder returns has no key twice.
-/
import Verif.Json.Fuel
import Verif.Scripts.Keys

namespace Kam.Json
open Scripts Kam.Convert

variable {R : Type} {fl : Floats R}

lemma ofPairs_keys {V : Type} {ps : List (String × J V)} (h : ∀ p ∈ ps, J.Keys p.2) : AllKeys (Dict.ofPairs ps) := by
  have := AllKeys.update (d := ([] : Dict String (J V))) .nil h
  exact this

lemma scan_keys_aux (n : Nat) :
    (∀ s r (j : J (Atom R)), scan fl n s = some (j, r) → J.Keys j) ∧
    (∀ s r (d : List (String × J (Atom R))), members fl n s = some (d, r) → ∀ p ∈ d, J.Keys p.2) ∧
    (∀ s r (l : List (J (Atom R))), elements fl n s = some (l, r) → ∀ j ∈ l, J.Keys j) := by
  induction n with
  | zero =>
    refine ⟨?_, ?_, ?_⟩
    · intro s r j h; rw [scan] at h; cases h
    · intro s r j h; rw [members] at h; cases h
    · intro s r j h; rw [elements] at h; cases h
  | succ n ih =>
    obtain ⟨ih1, ih2, ih3⟩ := ih
    refine ⟨?_, ?_, ?_⟩
    · intro s r j h
      cases s with
      | nil => rw [scan] at h; cases h
      | cons c s =>
        rw [scan] at h
        split_ifs at h with h1 h2 h3
        · obtain ⟨⟨k, r'⟩, e1, e2⟩ := Option.map_eq_some_iff.1 h
          cases e2
          exact .leaf _
        · cases hk : skip s with
          | nil => rw [hk] at h; cases h
          | cons e s' =>
            rw [hk] at h
            dsimp only at h
            split_ifs at h
            · cases h; exact .dict List.nodup_nil (by simp)
            · obtain ⟨⟨d, r'⟩, e1, e2⟩ := Option.map_eq_some_iff.1 h
              cases e2
              exact (ofPairs_keys (ih2 _ _ _ e1)).dict
        · cases hk : skip s with
          | nil => rw [hk] at h; cases h
          | cons e s' =>
            rw [hk] at h
            dsimp only at h
            split_ifs at h
            · cases h; exact .list (by simp)
            · obtain ⟨⟨d, r'⟩, e1, e2⟩ := Option.map_eq_some_iff.1 h
              cases e2
              exact .list (ih3 _ _ _ e1)
        · obtain ⟨⟨a, r'⟩, e1, e2⟩ := Option.map_eq_some_iff.1 h
          cases e2
          exact .leaf _
    · intro s r d h
      rw [members] at h
      simp only [Option.bind_eq_bind, Option.bind_eq_some_iff] at h
      obtain ⟨⟨k, s1⟩, e1, h⟩ := h
      dsimp only at h
      cases h1 : skip s1 with
      | nil => rw [h1] at h; cases h
      | cons e s2 =>
        rw [h1] at h
        dsimp only at h
        split_ifs at h
        simp only [Option.bind_eq_some_iff] at h
        obtain ⟨⟨j, s3⟩, e3, h⟩ := h
        have l3 := ih1 _ _ _ e3
        dsimp only at h
        cases h4 : skip s3 with
        | nil => rw [h4] at h; cases h
        | cons e s4 =>
          rw [h4] at h
          dsimp only at h
          split_ifs at h
          · cases h
            intro p hp
            rw [List.mem_singleton] at hp
            subst hp
            exact l3
          · cases h5 : skip s4 with
            | nil => rw [h5] at h; cases h
            | cons e s5 =>
              rw [h5] at h
              dsimp only at h
              split_ifs at h
              obtain ⟨⟨d, r'⟩, e1, e2⟩ := Option.map_eq_some_iff.1 h
              cases e2
              intro p hp
              rcases List.mem_cons.1 hp with rfl | hp
              · exact l3
              · exact ih2 _ _ _ e1 p hp
    · intro s r l h
      rw [elements] at h
      simp only [Option.bind_eq_bind, Option.bind_eq_some_iff] at h
      obtain ⟨⟨j, s3⟩, e3, h⟩ := h
      have l3 := ih1 _ _ _ e3
      dsimp only at h
      cases h4 : skip s3 with
      | nil => rw [h4] at h; cases h
      | cons e s4 =>
        rw [h4] at h
        dsimp only at h
        split_ifs at h
        · cases h
          intro p hp
          rw [List.mem_singleton] at hp
          subst hp
          exact l3
        · obtain ⟨⟨d, r'⟩, e1, e2⟩ := Option.map_eq_some_iff.1 h
          cases e2
          intro p hp
          rcases List.mem_cons.1 hp with rfl | hp
          · exact l3
          · exact ih3 _ _ _ e1 p hp

/-- What is read has no key twice: of entries with the same key the last one counts. -/
theorem loads_keys {s : Str} {j : J (Atom R)} (h : loads fl s = .ok j) : J.Keys j := by
  unfold loads at h
  cases hs : scan fl (2 * s.length + 2) (skip s) with
  | none => rw [hs] at h; cases h
  | some p =>
    obtain ⟨i, r⟩ := p
    rw [hs] at h
    dsimp only at h
    split_ifs at h
    cases h
    exact (scan_keys_aux _).1 _ _ _ hs

/-- **C125**: what is read from any text, also one written by hand, can be written and read again without a change. -/
theorem C125_reread (hf : fl.Faithful) {s : Str} {j : J (Atom R)} (h : loads fl s = .ok j) :
    loads fl (dumps fl j) = .ok j := C125_roundtrip hf (loads_keys h)

end Kam.Json
