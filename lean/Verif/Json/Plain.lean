/-
C125: result files are printable ASCII on a single line, whatever strings are in them.
-/
import Verif.Json.Props

set_option linter.unusedSectionVars false

namespace Kam.Json
open Scripts Kam.Convert

variable {R : Type} {fl : Floats R}

/-- A printable character of ASCII. -/
def Printable (c : Char) : Prop := 32 ≤ c.toNat ∧ c.toNat ≤ 126

lemma hexChar_printable (n : Nat) : Printable (hexChar (n % 16)) := by
  have : ∀ m < 16, 32 ≤ (hexChar m).toNat ∧ (hexChar m).toNat ≤ 126 := by decide +kernel
  exact this _ (Nat.mod_lt _ (by omega))

lemma hex4_printable (n : Nat) : ∀ c ∈ hex4 n, Printable c := by
  intro c hc
  simp only [hex4, List.mem_cons, List.not_mem_nil, or_false] at hc
  rcases hc with rfl | rfl | rfl | rfl | rfl | rfl
  · unfold Printable; decide +kernel
  · unfold Printable; decide +kernel
  all_goals exact hexChar_printable _

lemma printable_list {l : List Char} (h : l.all (fun c => 32 ≤ c.toNat && c.toNat ≤ 126) = true) : ∀ c ∈ l, Printable c := by
  intro c hc
  have := List.all_eq_true.1 h c hc
  simpa [Printable] using this

lemma escape_printable (c : Char) : ∀ d ∈ escape c, Printable d := by
  unfold escape
  split_ifs with h1 h2 h3 h4 h5 h6 h7 h8 h9
  iterate 7 exact printable_list (by decide +kernel)
  · intro d hd; rw [List.mem_singleton.1 hd]; exact h8
  · exact hex4_printable _
  · intro d hd
    rcases List.mem_append.1 hd with h | h
    exacts [hex4_printable _ d h, hex4_printable _ d h]

lemma dumpStr_printable (s : String) : ∀ c ∈ dumpStr s, Printable c := by
  intro c hc
  simp only [dumpStr, List.mem_cons, List.mem_append, List.mem_flatMap, List.not_mem_nil, or_false] at hc
  rcases hc with rfl | ⟨d, -, h⟩ | rfl
  · unfold Printable; decide +kernel
  · exact escape_printable d c h
  · unfold Printable; decide +kernel

lemma digit_printable {c : Char} (h : c.isDigit = true) : Printable c := by
  simp only [Char.isDigit, Bool.and_eq_true, decide_eq_true_eq] at h
  have h1 : (48 : Nat) ≤ c.toNat := h.1
  have h2 : c.toNat ≤ 57 := h.2
  exact ⟨by omega, by omega⟩

lemma digits_printable {s : Str} (h : Digits s) : ∀ c ∈ s, Printable c := fun c hc => digit_printable (h.2 c hc)

lemma floatText_printable {u : Str} (h : FloatText u) : ∀ c ∈ u, Printable c := by
  obtain ⟨sg, ip, fp, ep, rfl, h1, h2, -, h3, h4, -⟩ := h
  intro c hc
  simp only [List.mem_append] at hc
  rcases hc with hc | hc | hc | hc
  · rcases h1 with rfl | rfl
    · cases hc
    · exact printable_list (by decide +kernel) c hc
  · exact digits_printable h2 c hc
  · rcases h3 with rfl | ⟨ds, rfl, h3⟩
    · cases hc
    · rcases List.mem_cons.1 hc with rfl | hc
      · unfold Printable; decide +kernel
      · exact digits_printable h3 c hc
  · rcases h4 with rfl | ⟨e, s, ds, rfl, he, hs, h4⟩
    · cases hc
    · rcases List.mem_cons.1 hc with rfl | hc
      · rcases he with rfl | rfl <;> (unfold Printable; decide +kernel)
      · rcases List.mem_append.1 hc with hc | hc
        · rcases hs with rfl | rfl | rfl
          · cases hc
          · exact printable_list (by decide +kernel) c hc
          · exact printable_list (by decide +kernel) c hc
        · exact digits_printable h4 c hc

lemma showInt_printable (n : Int) : ∀ c ∈ showInt n, Printable c := by
  intro c hc
  rcases showInt_mem hc with rfl | h
  · unfold Printable; decide +kernel
  · exact digit_printable h

lemma dumpAtom_printable (hf : fl.Faithful) (a : Atom R) : ∀ c ∈ dumpAtom fl a, Printable c := by
  cases a with
  | null => exact printable_list (l := "null".toList) (by decide +kernel)
  | bool b =>
    cases b
    · exact printable_list (l := "false".toList) (by decide +kernel)
    · exact printable_list (l := "true".toList) (by decide +kernel)
  | int n => exact showInt_printable n
  | float x => exact floatText_printable (hf.text x)
  | nan => exact printable_list (l := "NaN".toList) (by decide +kernel)
  | inf => exact printable_list (l := "Infinity".toList) (by decide +kernel)
  | ninf => exact printable_list (l := "-Infinity".toList) (by decide +kernel)
  | str s => exact dumpStr_printable s

lemma printable_cons {c : Char} {l : Str} (h : Printable c) (hl : ∀ c ∈ l, Printable c) : ∀ d ∈ c :: l, Printable d :=
  List.forall_mem_cons.2 ⟨h, hl⟩

lemma printable_append {k l : Str} (h : ∀ c ∈ k, Printable c) (hl : ∀ c ∈ l, Printable c) : ∀ d ∈ k ++ l, Printable d :=
  List.forall_mem_append.2 ⟨h, hl⟩

mutual
theorem dumps_printable (hf : fl.Faithful) : ∀ j : J (Atom R), ∀ c ∈ dumps fl j, Printable c
  | .leaf v => by rw [dumps]; exact dumpAtom_printable hf v
  | .list [] => by rw [dumps]; exact printable_list (by decide +kernel)
  | .list (j :: l) => by
    rw [dumps]
    exact printable_cons (by unfold Printable; decide +kernel) (printable_append (dumps_printable hf j) (dumpItems_printable hf l))
  | .dict [] => by rw [dumps]; exact printable_list (by decide +kernel)
  | .dict ((k, j) :: d) => by
    rw [dumps]
    exact printable_cons (by unfold Printable; decide +kernel) (printable_append (dumpStr_printable k) (printable_cons
      (by unfold Printable; decide +kernel) (printable_cons (by unfold Printable; decide +kernel) (printable_append
      (dumps_printable hf j) (dumpPairs_printable hf d)))))
theorem dumpItems_printable (hf : fl.Faithful) : ∀ l : List (J (Atom R)), ∀ c ∈ dumpItems fl l, Printable c
  | [] => by rw [dumpItems]; exact printable_list (by decide +kernel)
  | j :: l => by
    rw [dumpItems]
    exact printable_cons (by unfold Printable; decide +kernel) (printable_cons (by unfold Printable; decide +kernel)
      (printable_append (dumps_printable hf j) (dumpItems_printable hf l)))
theorem dumpPairs_printable (hf : fl.Faithful) : ∀ d : List (String × J (Atom R)), ∀ c ∈ dumpPairs fl d, Printable c
  | [] => by rw [dumpPairs]; exact printable_list (by decide +kernel)
  | (k, j) :: d => by
    rw [dumpPairs]
    exact printable_cons (by unfold Printable; decide +kernel) (printable_cons (by unfold Printable; decide +kernel)
      (printable_append (dumpStr_printable k) (printable_cons (by unfold Printable; decide +kernel) (printable_cons
      (by unfold Printable; decide +kernel) (printable_append (dumps_printable hf j) (dumpPairs_printable hf d))))))
end

/-- C125: a result file has only printable characters of ASCII, whatever strings are in the result; in particular it is a single line. -/
theorem C125_printable (hf : fl.Faithful) (j : J (Atom R)) : ∀ c ∈ dumps fl j, 32 ≤ c.toNat ∧ c.toNat ≤ 126 := dumps_printable hf j

end Kam.Json
