/-
C125: what is written into a result file is read back from it.
C126: a result file that is not complete is refused.
-/
import Verif.Json.Number
import Verif.Json.Spec
import Verif.Py.Lemmas

namespace Kam.Json
open Scripts Kam.Convert

variable {R : Type} {fl : Floats R}

/-! ### Numbers that were written -/

lemma Digits.all {s : Str} (h : Digits s) : s.all Char.isDigit = true := by
  rw [List.all_eq_true]; exact h.2

lemma Digits.head {s : Str} (h : Digits s) : ∃ d t, s = d :: t ∧ d.isDigit = true := by
  obtain ⟨d, t, rfl⟩ := List.exists_cons_of_ne_nil h.1
  exact ⟨d, t, rfl, h.2 d List.mem_cons_self⟩

lemma intPart_digits {ip r : Str} (h : Digits ip) (h0 : ip = ['0'] ∨ ip.head? ≠ some '0') (hr : NoDigit r) :
    intPart (ip ++ r) = some (ip, r) := by
  rcases h0 with rfl | h0
  · simp [intPart]
  · obtain ⟨d, t, rfl, hd⟩ := h.head
    have := digits_append h.all hr
    simp only [List.head?_cons, ne_eq, Option.some.injEq] at h0
    simp only [List.cons_append, intPart, if_neg h0, if_pos hd] at this ⊢
    rw [this]

lemma signPart_digit {sg r : Str} (h : sg = [] ∨ sg = ['-']) (hr : ∃ d t, r = d :: t ∧ d.isDigit = true) :
    signPart (sg ++ r) = (sg, r) := by
  rcases h with rfl | rfl
  · exact (signPart_spec []).2.2 r hr
  · rfl

lemma fracPart_digits {fp r : Str} (h : fp = [] ∨ ∃ ds, fp = '.' :: ds ∧ Digits ds) (hr : NoDigit r)
    (hd : ∀ c t, r = c :: t → c ≠ '.') : fracPart (fp ++ r) = (fp, r) := by
  rcases h with rfl | ⟨ds, rfl, hds⟩
  · exact (fracPart_spec []).2 r hr hd
  · have := digits_append hds.all hr
    simp only [List.cons_append, fracPart, this]
    simp [hds.1]

lemma expPart_digits {ep r : Str}
    (h : ep = [] ∨ ∃ e s ds, ep = e :: (s ++ ds) ∧ (e = 'e' ∨ e = 'E') ∧ (s = [] ∨ s = ['-'] ∨ s = ['+']) ∧ Digits ds)
    (hr : Stop r) : expPart (ep ++ r) = (ep, r) := by
  rcases h with rfl | ⟨e, s, ds, rfl, he, hs, hds⟩
  · exact (expPart_spec []).2.2 r hr.noDigit (fun c t e => (hr c t e).2.2)
  · have h1 := digits_append hds.all hr.noDigit
    have h2 : expSign (s ++ (ds ++ r)) = (s, ds ++ r) := by
      obtain ⟨d, t, rfl, hd⟩ := hds.head
      rcases hs with rfl | rfl | rfl
      · exact (expSign_spec []).2 _ ⟨d, t ++ r, rfl, hd⟩
      · simp [expSign]
      · simp [expSign]
    simp only [List.cons_append, List.append_assoc, expPart, h2, h1]
    rw [if_pos ⟨he, hds.1⟩]

lemma FloatText.head {u : Str} (h : FloatText u) : NumHead u := by
  obtain ⟨sg, ip, fp, ep, rfl, hs, hi, _⟩ := h
  obtain ⟨d, t, rfl, hd⟩ := hi.head
  rcases hs with rfl | rfl
  · exact ⟨d, t ++ (fp ++ ep), Or.inl rfl, hd⟩
  · exact ⟨d, t ++ (fp ++ ep), Or.inr rfl, hd⟩

lemma number_float (hf : fl.Faithful) (x : R) {r : Str} (hr : Stop r) :
    number fl (fl.repr x ++ r) = some (.float x, r) := by
  obtain ⟨sg, ip, fp, ep, e, hs, hi, h0, hfp, hep, hne⟩ := hf.text x
  have he := expPart_digits hep hr
  have hdot : NoDigit (ep ++ r) ∧ ∀ c t, ep ++ r = c :: t → c ≠ '.' := by
    rcases hep with rfl | ⟨c, s, ds, rfl, hc, _⟩
    · exact ⟨hr.noDigit, fun c t e => (hr c t e).2.1⟩
    · constructor
      · intro c' t' e
        cases e
        rcases hc with rfl | rfl <;> decide
      · intro c' t' e
        cases e
        rcases hc with rfl | rfl <;> decide
  have hfr := fracPart_digits hfp hdot.1 hdot.2
  have hnd : NoDigit (fp ++ (ep ++ r)) := by
    rcases hfp with rfl | ⟨ds, rfl, _⟩
    · exact hdot.1
    · intro c t e
      cases e
      decide
  have hip := intPart_digits hi h0 hnd
  have hsg : signPart (sg ++ (ip ++ (fp ++ (ep ++ r)))) = (sg, ip ++ (fp ++ (ep ++ r))) :=
    signPart_digit hs (by
      obtain ⟨d, t, rfl, hd⟩ := hi.head
      exact ⟨d, t ++ (fp ++ (ep ++ r)), rfl, hd⟩)
  have hx := hf.back x
  rw [e] at hx ⊢
  unfold number
  simp only [List.append_assoc, hsg, hip, Option.bind_eq_bind, Option.bind_some, hfr, he]
  rw [if_neg hne, hx]

lemma toDigits_head {n : Nat} (h : 0 < n) : (Nat.toDigits 10 n).head? ≠ some '0' := by
  induction n using Nat.strongRecOn with
  | ind n ih =>
    by_cases hn : n < 10
    · rw [Nat.toDigits_of_lt_base hn]
      have : ∀ m : Fin 10, 0 < m.1 → [m.1.digitChar].head? ≠ some '0' := by decide
      exact this ⟨n, hn⟩ h
    · rw [Nat.toDigits_of_base_le (by decide) (by omega)]
      have := ih (n / 10) (by omega) (by omega)
      obtain ⟨c, t, hct⟩ := List.exists_cons_of_ne_nil (Nat.toDigits_ne_nil (n := n / 10) (b := 10))
      rw [hct] at this ⊢
      simpa using this

lemma digits_toDigits (n : Nat) : Digits (Nat.toDigits 10 n) :=
  ⟨Nat.toDigits_ne_nil, fun _ h => toDigits_digit h⟩

lemma toDigits_zero_or (n : Nat) : Nat.toDigits 10 n = ['0'] ∨ (Nat.toDigits 10 n).head? ≠ some '0' := by
  rcases Nat.eq_zero_or_pos n with rfl | h
  · exact Or.inl (Nat.toDigits_zero 10)
  · exact Or.inr (toDigits_head h)

lemma showInt_split (n : Int) : ∃ sg : Str, (sg = [] ∨ sg = ['-']) ∧ showInt n = sg ++ Nat.toDigits 10 n.natAbs := by
  unfold showInt
  split_ifs
  · exact ⟨['-'], Or.inr rfl, rfl⟩
  · exact ⟨[], Or.inl rfl, rfl⟩

lemma showInt_head (n : Int) : NumHead (showInt n) := by
  obtain ⟨sg, hs, e⟩ := showInt_split n
  obtain ⟨d, t, hdt, hd⟩ := (digits_toDigits n.natAbs).head
  rw [e, hdt]
  rcases hs with rfl | rfl
  · exact ⟨d, t, Or.inl rfl, hd⟩
  · exact ⟨d, t, Or.inr rfl, hd⟩

lemma number_int (n : Int) {r : Str} (hr : Stop r) : number fl (showInt n ++ r) = some (.int n, r) := by
  obtain ⟨sg, hs, e⟩ := showInt_split n
  have hi := digits_toDigits n.natAbs
  have hn := intOf_showInt n
  rw [e] at hn ⊢
  have hip := intPart_digits hi (toDigits_zero_or _) hr.noDigit
  have hsg : signPart (sg ++ (Nat.toDigits 10 n.natAbs ++ r)) = (sg, Nat.toDigits 10 n.natAbs ++ r) :=
    signPart_digit hs (by
      obtain ⟨d, t, h, hd⟩ := hi.head
      exact ⟨d, t ++ r, by rw [h]; rfl, hd⟩)
  have hfr : fracPart r = ([], r) := fracPart_digits (fp := []) (Or.inl rfl) hr.noDigit (fun c t e => (hr c t e).2.1)
  have he : expPart r = ([], r) := expPart_digits (ep := []) (Or.inl rfl) hr
  unfold number
  simp only [List.append_assoc, hsg, hip, Option.bind_eq_bind, Option.bind_some, hfr, he, and_self, if_true]
  rw [hn]
  rfl

lemma numHead_first {u : Str} (h : NumHead u) : ∃ c t, u = c :: t ∧ isWs c = false ∧ c ≠ ']' ∧ c ≠ '"' ∧ c ≠ '{' ∧ c ≠ '[' := by
  obtain ⟨d, t, rfl | rfl, hd⟩ := h
  · refine ⟨d, t, rfl, ?_⟩
    have aux : ∀ c : Char, c.isDigit = false → d ≠ c := by
      rintro c hc rfl
      rw [hd] at hc; cases hc
    refine ⟨?_, aux _ (by decide), aux _ (by decide), aux _ (by decide), aux _ (by decide)⟩
    simp [isWs, aux ' ' (by decide), aux '\t' (by decide), aux '\n' (by decide), aux '\r' (by decide)]
  · exact ⟨'-', d :: t, rfl, by decide⟩

/-- An atom other than a string that was written is read back. -/
lemma scanAtom_dump (hf : fl.Faithful) (a : Atom R) (ha : ∀ s, a ≠ .str s) {r : Str} (hr : Stop r) :
    scanAtom fl (dumpAtom fl a ++ r) = some (a, r) ∧
      ∃ c t, dumpAtom fl a = c :: t ∧ isWs c = false ∧ c ≠ ']' ∧ c ≠ '"' ∧ c ≠ '{' ∧ c ≠ '[' := by
  cases a with
  | null => exact ⟨rfl, 'n', _, rfl, by decide⟩
  | bool b => cases b <;> exact ⟨rfl, _, _, rfl, by decide⟩
  | int n =>
    refine ⟨?_, numHead_first (showInt_head n)⟩
    unfold scanAtom dumpAtom
    rw [constant_none ((showInt_head n).append r)]
    exact number_int n hr
  | float x =>
    refine ⟨?_, numHead_first (hf.text x).head⟩
    unfold scanAtom dumpAtom
    rw [constant_none ((hf.text x).head.append r)]
    exact number_float hf x hr
  | nan => exact ⟨rfl, _, _, rfl, by decide⟩
  | inf => exact ⟨rfl, _, _, rfl, by decide⟩
  | ninf => exact ⟨rfl, _, _, rfl, by decide⟩
  | str s => exact absurd rfl (ha s)

lemma dumps_str (s : String) : dumps fl (.leaf (.str s)) = '"' :: (s.toList.flatMap escape ++ ['"']) := by
  have h : dumps fl (.leaf (.str s)) = dumpAtom fl (.str s) := by rw [dumps]
  exact h.trans rfl

lemma dumps_head (hf : fl.Faithful) (j : J (Atom R)) : ∃ c t, dumps fl j = c :: t ∧ isWs c = false ∧ c ≠ ']' := by
  match j with
  | .leaf a =>
    by_cases ha : ∃ s, a = .str s
    · obtain ⟨s, rfl⟩ := ha
      exact ⟨'"', s.toList.flatMap escape ++ ['"'], dumps_str s, by decide⟩
    · obtain ⟨c, t, h, h1, h2, _⟩ := (scanAtom_dump hf a (fun s h => ha ⟨s, h⟩) Stop.nil).2
      exact ⟨c, t, by rw [dumps]; exact h, h1, h2⟩
  | .list [] => exact ⟨'[', _, by rw [dumps], by decide⟩
  | .list (_ :: _) => exact ⟨'[', _, by rw [dumps], by decide⟩
  | .dict [] => exact ⟨'{', _, by rw [dumps], by decide⟩
  | .dict ((_, _) :: _) => exact ⟨'{', _, by rw [dumps], by decide⟩

/-! ### Trees -/

/-- `j` is read back from its text, whatever follows that cannot continue a number. -/
def Back (fl : Floats R) (j : J (Atom R)) : Prop :=
  ∀ n r, 2 * (dumps fl j).length ≤ n + 1 → Stop r → scan fl n (dumps fl j ++ r) = some (j, r)

lemma skip_dumps (hf : fl.Faithful) (j : J (Atom R)) (r : Str) : skip (dumps fl j ++ r) = dumps fl j ++ r := by
  obtain ⟨c, t, h, hc, _⟩ := dumps_head hf j
  rw [h]
  exact skip_cons hc _

lemma skip_space (s : Str) : skip (' ' :: s) = skip s := by
  simp [skip, isWs]

lemma stop_items (l : List (J (Atom R))) (r : Str) : Stop (dumpItems fl l ++ r) := by
  cases l with
  | nil => rw [dumpItems]; exact stop_cons (by simp)
  | cons j l => rw [dumpItems]; exact stop_cons (by simp)

lemma stop_pairs (d : List (String × J (Atom R))) (r : Str) : Stop (dumpPairs fl d ++ r) := by
  match d with
  | [] => rw [dumpPairs]; exact stop_cons (by simp)
  | (k, j) :: d => rw [dumpPairs]; exact stop_cons (by simp)

lemma dumps_pos (hf : fl.Faithful) (j : J (Atom R)) : 0 < (dumps fl j).length := by
  obtain ⟨c, t, h, _⟩ := dumps_head hf j
  rw [h]; simp

lemma elements_dump (hf : fl.Faithful) (l : List (J (Atom R))) (j : J (Atom R)) (hj : Back fl j) (hl : ∀ i ∈ l, Back fl i)
    (n : Nat) (r : Str) (hn : 2 * ((dumps fl j).length + (dumpItems fl l).length) ≤ n + 1) :
    elements fl n (dumps fl j ++ (dumpItems fl l ++ r)) = some (j :: l, r) := by
  have hp := dumps_pos hf j
  induction l generalizing j n with
  | nil =>
    have hlen : (dumpItems fl []).length = 1 := by rw [dumpItems]; rfl
    obtain ⟨n, rfl⟩ : ∃ m, n = m + 1 := ⟨n - 1, by omega⟩
    rw [elements, hj n _ (by omega) (stop_items [] r)]
    simp only [dumpItems, Option.bind_eq_bind, Option.bind_some, List.cons_append, List.nil_append]
    rw [skip_cons (by decide)]
    rfl
  | cons i l ih =>
    have hlen : (dumpItems fl (i :: l)).length = (dumps fl i).length + (dumpItems fl l).length + 2 := by
      rw [dumpItems]; simp only [List.length_cons, List.length_append]
    obtain ⟨n, rfl⟩ : ∃ m, n = m + 1 := ⟨n - 1, by omega⟩
    rw [elements, hj n _ (by omega) (stop_items _ r)]
    simp only [dumpItems, Option.bind_eq_bind, Option.bind_some, List.cons_append]
    rw [skip_cons (by decide)]
    simp only [List.append_assoc, skip_space]
    rw [if_neg (by decide), if_true, skip_dumps hf,
      ih i (hl i List.mem_cons_self) (fun x hx => hl x (List.mem_cons_of_mem _ hx)) n (by omega) (dumps_pos hf i)]
    rfl

lemma length_dumpStr (k : String) : (dumpStr k).length = (k.toList.flatMap escape).length + 2 := by
  simp [dumpStr]

lemma members_dump (hf : fl.Faithful) (d : List (String × J (Atom R))) (k : String) (j : J (Atom R)) (hj : Back fl j)
    (hd : ∀ p ∈ d, Back fl p.2) (n : Nat) (r : Str)
    (hn : 2 * ((k.toList.flatMap escape).length + 2 + (dumps fl j).length + (dumpPairs fl d).length) ≤ n + 1) :
    members fl n (k.toList.flatMap escape ++ '"' :: (':' :: ' ' :: (dumps fl j ++ (dumpPairs fl d ++ r)))) =
      some ((k, j) :: d, r) := by
  induction d generalizing j k n with
  | nil =>
    obtain ⟨n, rfl⟩ : ∃ m, n = m + 1 := ⟨n - 1, by omega⟩
    rw [members, scanStr_escape]
    simp only [Option.bind_eq_bind, Option.bind_some]
    rw [skip_cons (by decide)]
    simp only [if_true, skip_space]
    rw [skip_dumps hf, hj n _ (by omega) (stop_pairs [] r)]
    simp only [dumpPairs, Option.bind_some, List.cons_append, List.nil_append]
    rw [skip_cons (by decide)]
    rfl
  | cons p d ih =>
    obtain ⟨k', i⟩ := p
    have hlen : (dumpPairs fl ((k', i) :: d)).length =
        (k'.toList.flatMap escape).length + 2 + (dumps fl i).length + (dumpPairs fl d).length + 4 := by
      rw [dumpPairs]; simp only [List.length_cons, List.length_append, length_dumpStr]; omega
    obtain ⟨n, rfl⟩ : ∃ m, n = m + 1 := ⟨n - 1, by omega⟩
    rw [members, scanStr_escape]
    simp only [Option.bind_eq_bind, Option.bind_some]
    rw [skip_cons (by decide)]
    simp only [if_true, skip_space]
    rw [skip_dumps hf, hj n _ (by omega) (stop_pairs _ r)]
    simp only [dumpPairs, Option.bind_some, List.cons_append]
    rw [skip_cons (by decide)]
    simp only [skip_space, dumpStr, List.cons_append, List.append_assoc, List.nil_append]
    rw [if_neg (by decide), if_true, skip_cons (by decide)]
    simp only [if_true]
    rw [ih k' i (hd _ List.mem_cons_self) (fun q hq => hd q (List.mem_cons_of_mem _ hq)) n (by omega)]
    rfl

lemma keys_back (hf : fl.Faithful) {j : J (Atom R)} (h : J.Keys j) : Back fl j := by
  induction h with
  | leaf a =>
    intro n r hn hr
    have hp := dumps_pos hf (.leaf a)
    obtain ⟨n, rfl⟩ : ∃ m, n = m + 1 := ⟨n - 1, by omega⟩
    by_cases ha : ∃ s, a = .str s
    · obtain ⟨s, rfl⟩ := ha
      rw [dumps_str, List.cons_append, scan, if_pos rfl, List.append_assoc]
      have := scanStr_escape s r
      rw [List.singleton_append, this]
      rfl
    · obtain ⟨h1, c, t, h2, _, _, h3, h4, h5⟩ := scanAtom_dump hf a (fun s h => ha ⟨s, h⟩) hr
      rw [dumps]
      rw [h2] at h1 ⊢
      rw [List.cons_append] at h1 ⊢
      rw [scan, if_neg h3, if_neg h4, if_neg h5, h1]
      rfl
  | @list l h ih =>
    intro n r hn hr
    cases l with
    | nil =>
      simp only [dumps, List.length_cons, List.length_nil] at hn
      obtain ⟨n, rfl⟩ : ∃ m, n = m + 1 := ⟨n - 1, by omega⟩
      simp only [dumps, List.cons_append, List.nil_append, scan]
      rw [skip_cons (by decide)]
      rfl
    | cons j l =>
      simp only [dumps, List.length_cons, List.length_append] at hn
      obtain ⟨n, rfl⟩ : ∃ m, n = m + 1 := ⟨n - 1, by omega⟩
      obtain ⟨c, t, hc, hw, hb⟩ := dumps_head hf j
      have he := elements_dump hf l j (ih j List.mem_cons_self) (fun i hi => ih i (List.mem_cons_of_mem _ hi)) n r (by omega)
      rw [hc, List.cons_append] at he
      simp only [dumps, List.cons_append, List.append_assoc, hc, scan]
      rw [skip_cons hw]
      simp only [if_neg hb, he]
      rfl
  | @dict d hnd h ih =>
    intro n r hn hr
    match d with
    | [] =>
      simp only [dumps, List.length_cons, List.length_nil] at hn
      obtain ⟨n, rfl⟩ : ∃ m, n = m + 1 := ⟨n - 1, by omega⟩
      simp only [dumps, List.cons_append, List.nil_append, scan]
      rw [skip_cons (by decide)]
      rfl
    | (k, j) :: d =>
      simp only [dumps, List.length_cons, List.length_append, length_dumpStr] at hn
      obtain ⟨n, rfl⟩ : ∃ m, n = m + 1 := ⟨n - 1, by omega⟩
      have he := members_dump hf d k j (ih _ List.mem_cons_self) (fun i hi => ih i (List.mem_cons_of_mem _ hi)) n r (by omega)
      simp only [dumps, dumpStr, List.cons_append, List.append_assoc, List.nil_append, scan]
      rw [skip_cons (by decide)]
      simp only [he]
      rw [if_neg (by decide), if_true, if_neg (by decide), if_true, Option.map_some]
      rw [Dict.ofPairs_eq_self _ hnd]

/-- **C125**: a tree in which no dictionary has a key twice is read back from the text it was written as: the same numbers,
truth values and strings, whatever characters are in them, and the keys of every dictionary in the same order. -/
theorem C125_roundtrip (hf : fl.Faithful) {j : J (Atom R)} (h : J.Keys j) : loads fl (dumps fl j) = .ok j := by
  have := keys_back hf h (2 * (dumps fl j).length + 2) [] (by omega) Stop.nil
  rw [List.append_nil] at this
  unfold loads
  have hs := skip_dumps hf j []
  rw [List.append_nil] at hs
  rw [hs, this]
  rfl

/-- **C125**: two trees with the same text are the same tree. -/
theorem C125_injective (hf : fl.Faithful) {i j : J (Atom R)} (hi : J.Keys i) (hj : J.Keys j) (h : dumps fl i = dumps fl j) :
    i = j := by
  have := C125_roundtrip hf hi
  rw [h, C125_roundtrip hf hj] at this
  cases this
  rfl

end Kam.Json
