/-
Concrete cases that meet the hypotheses of C125 and C126.
-/
import Verif.Json.Fuel
import Verif.Json.Plain

namespace Kam.Json.Examples
open Scripts Kam.Convert Kam.Json

/-- Floats that are whole numbers: `-7.0`. -/
def whole : Floats Int where
  repr n := showInt n ++ ['.', '0']
  read s := (intOf (s.take (s.length - 2))).getD 0

lemma whole_faithful : whole.Faithful where
  text n := by
    obtain ⟨sg, hs, e⟩ := showInt_split n
    refine ⟨sg, Nat.toDigits 10 n.natAbs, ['.', '0'], [], ?_, hs, digits_toDigits _, toDigits_zero_or _,
      Or.inr ⟨['0'], rfl, by simp, by simp⟩, Or.inl rfl, by simp⟩
    simp [whole, e]
  back n := by
    simp [whole, intOf_showInt]

/-- A result with a float, characters beyond ASCII, control characters and nested lists and dictionaries. -/
def result : Dict String (J (Atom Int)) :=
  [("condition", .dict [("out_file", .leaf (.str "a\"b\\\n/é😀")), ("seed", .leaf .null), ("keep", .leaf (.bool true))]),
   ("prediction", .dict [("predicted", .list [.leaf (.float (-7)), .leaf .nan, .leaf (.int 12)]), ("event", .list []), ("x", .dict [])])]

lemma result_keys : J.Keys (.dict result) := by
  refine .dict (by decide) ?_
  intro p hp
  simp only [result, List.mem_cons, List.not_mem_nil, or_false] at hp
  rcases hp with rfl | rfl
  · refine .dict (by decide) ?_
    intro p hp
    simp only [List.mem_cons, List.not_mem_nil, or_false] at hp
    rcases hp with rfl | rfl | rfl <;> exact .leaf _
  · refine .dict (by decide) ?_
    intro p hp
    simp only [List.mem_cons, List.not_mem_nil, or_false] at hp
    rcases hp with rfl | rfl | rfl
    · refine .list ?_
      intro j hj
      simp only [List.mem_cons, List.not_mem_nil, or_false] at hj
      rcases hj with rfl | rfl | rfl <;> exact .leaf _
    · exact .list (by simp)
    · exact .dict (by simp) (by simp)

/-- The text of the example. -/
example : String.ofList (dumps whole (.dict result)) =
    "{\"condition\": {\"out_file\": \"a\\\"b\\\\\\n/\\u00e9\\ud83d\\ude00\", \"seed\": null, \"keep\": true}, " ++
    "\"prediction\": {\"predicted\": [-7.0, NaN, 12], \"event\": [], \"x\": {}}}" := by decide +kernel

/-- C125 applies to it. -/
example : loads whole (dumps whole (.dict result)) = .ok (.dict result) := C125_roundtrip whole_faithful result_keys

/-- C125_printable applies to it, although there are other characters in it. -/
example : (∀ c ∈ dumps whole (.dict result), 32 ≤ c.toNat ∧ c.toNat ≤ 126) ∧ ∃ c ∈ "a\"b\\\n/é😀".toList, 126 < c.toNat :=
  ⟨C125_printable whole_faithful _, 'é', by decide +kernel, by decide +kernel⟩

/-- C126 applies to it: the text without its last brace. -/
example : loads whole (dumps whole (.dict result)).dropLast = .error .valueError :=
  C126_cut_off whole_faithful result_keys (t := ['}']) (by simp) (by decide +kernel)

/-- C126 applies to it: the text twice. -/
example : loads whole (dumps whole (.dict result) ++ dumps whole (.dict result)) = .error .valueError :=
  (C126_trailing whole_faithful result_keys _).2 (by
    intro h
    have := h '{' (by simp [result, dumps])
    revert this
    decide)

/-- A dictionary is needed in `C126_cut_off`: the number 12 cut off is the number 1. -/
example : loads whole (dumps whole (.leaf (.int 12))).dropLast = .ok (.leaf (.int 1)) := by rfl

/-- Unique keys are needed in `C125_roundtrip`. -/
example : loads whole (dumps whole (.dict [("a", .leaf (.int 1)), ("a", .leaf (.int 2))])) = .ok (.dict [("a", .leaf (.int 2))]) := by
  rfl

end Kam.Json.Examples
