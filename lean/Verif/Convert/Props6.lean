/-
C74 and C80: rejected files.
-/
import Verif.Convert.Props5

set_option linter.unusedSectionVars false

namespace Kam.Convert
open Convert.Spec Kam.Spec

variable {K φ ε : Type} [Field K] [LinearOrder K] [IsStrictOrderedRing K] [FloorRing K]

/-! ### C74 -/

/-- C74, what holds: lines with different numbers of fields, or with too few fields, are rejected with `ValueError`,
whatever else is in the file. -/
theorem C74_malformed_partial (nan : K) {text : Str} {n : Int} {arg : OtypesArg} {dom : Option (List K)}
    {ft : Option (List FType)} {rows : List (List Str)} (h : File text rows)
    (hbad : (∃ r ∈ rows, ∃ r' ∈ rows, r.length ≠ r'.length) ∨
      (∃ r ∈ rows, r.length < sEvents n arg + 1 + (ft.getD []).length)) :
    (loadEventWithScore nan text n arg dom ft : Res (ScoreData K Int φ (List (Cell K)))) = .error .valueError := by
  have hg : genfromtxt nan (List.replicate (sEvents n arg) .int ++ .float :: ft.getD []) text = .error .valueError := by
    rcases hbad with ⟨r, hr, r', hr', hne⟩ | ⟨r, hr, hlt⟩
    · exact genfromtxt_ragged nan _ h hr hr' hne
    · exact genfromtxt_narrow nan _ h hr (by simp; omega)
  unfold loadEventWithScore
  simp only [hg]
  rfl

/-- The same for files of features. -/
theorem C74_features (nan : K) {text : Str} {types : List FType} {d : ScoreData K Int (List (Cell K)) ε} {t : Nat}
    {rows : List (List Str)} (h : File text rows)
    (hbad : (∃ r ∈ rows, ∃ r' ∈ rows, r.length ≠ r'.length) ∨ (∃ r ∈ rows, r.length < 1 + types.length)) :
    loadFeature nan text types d t = .error .valueError := by
  have hg : genfromtxt nan (.int :: types) text = .error .valueError := by
    rcases hbad with ⟨r, hr, r', hr', hne⟩ | ⟨r, hr, hlt⟩
    · exact genfromtxt_ragged nan _ h hr hr' hne
    · exact genfromtxt_narrow nan _ h hr (by simp; omega)
  unfold loadFeature
  simp only [hg]
  rfl

lemma exBad_file : File "1\t2\t3\nx\t2\t3\n".toList [["1", "2", "3"].map String.toList, ["x", "2", "3"].map String.toList] :=
  ⟨["1\t2\t3".toList, "x\t2\t3".toList], .lf (.lf .nil), by unfold Plain; decide,
    rows_row ⟨by unfold Clean; decide, by decide, by decide, by decide⟩ (by decide)
      (rows_row ⟨by unfold Clean; decide, by decide, by decide, by decide⟩ (by decide) .nil)⟩

/-- C74 fails: a field that is not a number is not rejected: the user `x` is loaded as the user `-1`. -/
theorem C74_refuted : ∃ d : ScoreData ℚ Int Unit (List (Cell ℚ)),
    loadEventWithScore 0 "1\t2\t3\nx\t2\t3\n".toList 2 .none (some [1, 5, 1]) none = .ok d ∧
      Reads d.toEventData [[1, 2], [-1, 2]] := by
  have hx : genfromtxt (0 : ℚ) (List.replicate 2 .int ++ .float :: []) "1\t2\t3\nx\t2\t3\n".toList =
      .ok (recs ([⟨[1, 2], 3, []⟩, ⟨[-1, 2], 3, []⟩].map Entry.cells)) := by decide +kernel
  obtain ⟨d, h1, h2, _⟩ := loadScore_ok (φ := Unit) (0 : ℚ) (n := 2) (arg := .none) (dom := some [1, 5, 1]) (ft := none) (lv := 5)
    rfl (show (2 : Nat) ≠ 1 by decide) hx (by decide) (by decide) rfl (by decide +kernel)
  exact ⟨d, h1, reads_built h2.inv.1⟩

example : (loadEventWithScore 0 "1\t2\t3\n4\t2\n".toList 2 .none (some [1, 5, 1]) none :
    Res (ScoreData ℚ Int Unit (List (Cell ℚ)))) = .error .valueError :=
  C74_malformed_partial 0 (rows := [["1", "2", "3"].map String.toList, ["4", "2"].map String.toList])
    ⟨["1\t2\t3".toList, "4\t2".toList], .lf (.lf .nil), by unfold Plain; decide,
      rows_row ⟨by unfold Clean; decide, by decide, by decide, by decide⟩ (by decide)
        (rows_row ⟨by unfold Clean; decide, by decide, by decide, by decide⟩ (by decide) .nil)⟩
    (.inl ⟨_, .head _, _, .tail _ (.head _), by decide⟩)

/-! ### C80 -/

/-- A script succeeds exactly when it does so on every line. -/
lemma conv_iff {lines : List Str} {text : Str} {f g : Str → Res Str} {hd : List String} (ht : Text lines text)
    (hp : ∀ l ∈ lines, Plain l) (hf : ∀ l, f l = g (chomp l)) :
    (∃ out, (do return head hd ++ (← (readlines text).mapM f).flatten : Res Str) = .ok out) ↔
      ∀ l ∈ lines, ∃ s, g l = .ok s := by
  rw [(readlines_text ht hp).mapM_chomp hp hf]
  constructor
  · rintro ⟨out, h⟩ l hl
    cases hm : lines.mapM g with
    | error e => rw [hm] at h; cases h
    | ok ss =>
      have := mapM_ok_iff.1 hm
      obtain ⟨i, hi, rfl⟩ := List.getElem_of_mem hl
      exact ⟨_, this.get hi (by rw [← this.length_eq]; exact hi)⟩
  · intro h
    choose! s hs using h
    have : lines.mapM g = .ok (lines.map s) := mapM_ok _ hs
    rw [this]
    exact ⟨_, rfl⟩

lemma item_iff (f : List Str) (i : Nat) (s : Str) : item f i = .ok s ↔ f[i]? = some s := by
  unfold item
  cases f[i]? with
  | none => simp
  | some x => simp

lemma bind_ok_iff {α β : Type} {x : Res α} {f : α → Res β} {b : β} : (x >>= f) = .ok b ↔ ∃ a, x = .ok a ∧ f a = .ok b := by
  cases x with
  | error e =>
    constructor
    · intro h; cases h
    · rintro ⟨a, h, _⟩; cases h
  | ok a =>
    constructor
    · intro h; exact ⟨a, rfl, h⟩
    · rintro ⟨a', h, h'⟩; cases h; exact h'

lemma pure_ok {α : Type} (a : α) : ∃ s, (pure a : Res α) = .ok s := ⟨a, rfl⟩

lemma exists_bind {α β : Type} {x : Res α} {f : α → Res β} : (∃ b, (x >>= f) = .ok b) ↔ ∃ a, x = .ok a ∧ ∃ b, f a = .ok b := by
  simp only [bind_ok_iff]
  constructor
  · rintro ⟨b, a, h1, h2⟩; exact ⟨a, h1, b, h2⟩
  · rintro ⟨a, h1, b, h2⟩; exact ⟨b, a, h1, h2⟩

lemma gender_iff (s : Str) : (∃ g, gender s = .ok g) ↔ s = "M".toList ∨ s = "F".toList := by
  unfold gender
  split
  · rename_i h; simp [h]
  · rename_i h
    split
    · rename_i h'; simp [h']
    · rename_i h'
      constructor
      · rintro ⟨g, hg⟩; cases hg
      · rintro (h1 | h1)
        · exact absurd h1 h
        · exact absurd h1 h'

lemma getItem_iff {ν : Type} (d : Dict String ν) (k : String) : (∃ v, d.getItem k = .ok v) ↔ k ∈ d.map Prod.fst := by
  unfold Dict.getItem
  induction d with
  | nil => simp [Dict.get?]
  | cons p d ih =>
    obtain ⟨k', v⟩ := p
    unfold Dict.get?
    by_cases h : k' = k
    · simp [h]
    · rw [if_neg h, ih]
      simp [Ne.symm h]

lemma ofList_mem {s : Str} {n : Nat} {l : List String} (hl : l.length = n) :
    String.ofList s ∈ l ↔ ∃ k : Fin n, s = (l.getD k "").toList := by
  subst hl
  rw [List.mem_iff_getElem]
  constructor
  · rintro ⟨i, hi, h⟩
    refine ⟨⟨i, hi⟩, ?_⟩
    simp [List.getD_eq_getElem?_getD, hi, h]
  · rintro ⟨k, h⟩
    refine ⟨k.1, k.2, ?_⟩
    simp [List.getD_eq_getElem?_getD] at h
    rw [h]; simp

/-- Lines of fields with a separator. -/
def Fields (c : Char) (fss : List (List Str)) : Prop := ∀ fs ∈ fss, fs ≠ [] ∧ ∀ f ∈ fs, c ∉ f ∧ Plain f

lemma fields_plain {c : Char} {fss : List (List Str)} (hc : c ≠ '\n' ∧ c ≠ '\r') (hfs : Fields c fss) :
    ∀ l ∈ fss.map (join c), Plain l := by
  intro l hl
  obtain ⟨fs, hm, rfl⟩ := List.mem_map.1 hl
  exact plain_join hc (fun f hf => ((hfs fs hm).2 f hf).2)

/-- C80: the user file of MovieLens 100k is converted exactly when every line has at least five fields, a known gender
and a known occupation. -/
theorem C80_ml100k_user {fss : List (List Str)} {text : Str} (hfs : Fields '|' fss) (ht : Text (fss.map (join '|')) text) :
    (∃ out, convMl100kUser text = .ok out) ↔
      ∀ fs ∈ fss, ∃ id age g o z rest, fs = id :: age :: g :: o :: z :: rest ∧ (g = "M".toList ∨ g = "F".toList) ∧
        ∃ k : Fin 21, o = (occupations.getD k "").toList := by
  unfold convMl100kUser
  rw [conv_iff (f := ml100kUserLine) ht (fields_plain (by decide) hfs) (g := fun l => do
    let f := split '|' l
    let id ← item f 0
    let age ← item f 1
    let g ← gender (← item f 2)
    let occ ← occupation.getItem (String.ofList (← item f 3))
    let zip ← item f 4
    return printTab [id, age, g, showInt occ, zip]) (fun l => rfl)]
  rw [List.forall_mem_map]
  refine forall₂_congr (fun fs hm => ?_)
  simp only [split_join (hfs fs hm).1 (fun f hf => ((hfs fs hm).2 f hf).1)]
  have hocc : ∀ o : Str, (∃ v, occupation.getItem (String.ofList o) = .ok v) ↔ ∃ k : Fin 21, o = (occupations.getD k "").toList := by
    intro o
    rw [getItem_iff, ← ofList_mem (l := occupations) (n := 21) rfl]
    exact Iff.rfl
  constructor
  · intro h
    simp only [exists_bind, item_iff] at h
    obtain ⟨id, h0, age, h1, g, h2, g', h3, o, h4, o', h5, z, h6, _⟩ := h
    match fs, h6 with
    | a :: b :: c :: d :: e :: rest, _ =>
      cases h0; cases h1; cases h2; cases h4
      exact ⟨_, _, _, _, _, _, rfl, (gender_iff _).1 ⟨_, h3⟩, (hocc _).1 ⟨_, h5⟩⟩
  · rintro ⟨id, age, g, o, z, rest, rfl, hg, ho⟩
    obtain ⟨g', hg'⟩ := (gender_iff g).2 hg
    obtain ⟨o', ho'⟩ := (hocc o).2 ho
    simp only [item_zero, item_succ, ok_bind, hg', ho']
    exact ⟨_, rfl⟩

lemma colons_plain {fss : List (List Str)} (hfs : ∀ fs ∈ fss, fs ≠ [] ∧ ∀ f ∈ fs, ColonField f ∧ Plain f) :
    ∀ l ∈ fss.map (List.intercalate "::".toList), Plain l := by
  intro l hl
  obtain ⟨fs, hm, rfl⟩ := List.mem_map.1 hl
  exact plain_colons (fun f hf => ((hfs fs hm).2 f hf).2)

/-- C80: the user file of MovieLens 1m is converted exactly when every line has at least five fields, a known gender
and a known age group. -/
theorem C80_ml1m_user {fss : List (List Str)} {text : Str} (hfs : ∀ fs ∈ fss, fs ≠ [] ∧ ∀ f ∈ fs, ColonField f ∧ Plain f)
    (ht : Text (fss.map (List.intercalate "::".toList)) text) :
    (∃ out, convMl1mUser text = .ok out) ↔
      ∀ fs ∈ fss, ∃ id g a o z rest, fs = id :: g :: a :: o :: z :: rest ∧ (g = "M".toList ∨ g = "F".toList) ∧
        ∃ k : Fin 7, a = showInt (ages.getD k 0) := by
  unfold convMl1mUser
  rw [conv_iff (f := ml1mUserLine) ht (colons_plain hfs) (g := fun l => do
    let f := splitColons l
    let id ← item f 0
    let g ← gender (← item f 1)
    let a ← age.getItem (String.ofList (← item f 2))
    let occ ← item f 3
    let zip ← item f 4
    return printTab [id, g, showInt a, occ, zip.take 5]) (fun l => rfl)]
  rw [List.forall_mem_map]
  refine forall₂_congr (fun fs hm => ?_)
  simp only [splitColons_join (hfs fs hm).1 (fun f hf => ((hfs fs hm).2 f hf).1)]
  have hage : ∀ a : Str, (∃ v, age.getItem (String.ofList a) = .ok v) ↔ ∃ k : Fin 7, a = showInt (ages.getD k 0) := by
    intro a
    rw [getItem_iff]
    have : age.map Prod.fst = ["1", "18", "25", "35", "45", "50", "56"] := rfl
    rw [this, ofList_mem (n := 7) rfl]
    have key : ∀ k : Fin 7, (["1", "18", "25", "35", "45", "50", "56"].getD k "").toList = showInt (ages.getD k 0) := by decide
    simp only [key]
  constructor
  · intro h
    simp only [exists_bind, item_iff] at h
    obtain ⟨id, h0, g, h1, g', h2, a, h3, a', h4, o, h5, z, h6, _⟩ := h
    match fs, h6 with
    | _ :: _ :: _ :: _ :: _ :: rest, _ =>
      cases h0; cases h1; cases h3; cases h5
      exact ⟨_, _, _, _, _, _, rfl, (gender_iff _).1 ⟨_, h2⟩, (hage _).1 ⟨_, h4⟩⟩
  · rintro ⟨id, g, a, o, z, rest, rfl, hg, ha⟩
    obtain ⟨g', hg'⟩ := (gender_iff g).2 hg
    obtain ⟨a', ha'⟩ := (hage a).2 ha
    simp only [item_zero, item_succ, ok_bind, hg', ha']
    exact ⟨_, rfl⟩

/-- A title that ends in a year of four digits in parentheses. -/
def HasYear (t : Str) : Prop := ∃ p ds : Str, t = p ++ '(' :: ds ++ [')'] ∧ ds.length = 4 ∧ ∀ c ∈ ds, c.isDigit = true

lemma year_iff (t : Str) : (∃ y, year t = .ok y) ↔ HasYear t := by
  constructor
  · rintro ⟨y, h⟩
    unfold year at h
    split at h
    · rename_i a b c d r heq
      split at h
      · rename_i hd
        have e : t = r.reverse ++ '(' :: [d, c, b, a] ++ [')'] := by
          have := congrArg List.reverse heq
          rw [List.reverse_reverse] at this
          rw [this]; simp
        refine ⟨r.reverse, [d, c, b, a], e, rfl, ?_⟩
        rw [List.all_eq_true] at hd
        intro c' hc'
        apply hd
        simp only [List.mem_cons, List.not_mem_nil, or_false] at hc' ⊢
        tauto
      · cases h
    · cases h
  · rintro ⟨p, ds, rfl, hl, hd⟩
    match ds, hl with
    | [a, b, c, d], _ =>
      have e : (p ++ '(' :: [a, b, c, d] ++ [')']).reverse = ')' :: d :: c :: b :: a :: '(' :: p.reverse := by simp
      unfold year
      rw [e]
      simp only []
      rw [if_pos]
      · exact ⟨_, rfl⟩
      · have h1 := hd a (by simp)
        have h2 := hd b (by simp)
        have h3 := hd c (by simp)
        have h4 := hd d (by simp)
        simp [h1, h2, h3, h4]

lemma genres_iff (l : List Str) : (∃ o, genres l = .ok o) ↔ ∃ gs : List (Fin 18), l = gs.map (fun g : Fin 18 => (genreNames.getD g "").toList) := by
  constructor
  · unfold genres
    generalize List.replicate 18 "0".toList = o0
    rintro ⟨o, h⟩
    induction l generalizing o0 with
    | nil => exact ⟨[], rfl⟩
    | cons s l ih =>
      rw [List.foldlM_cons, bind_ok_iff] at h
      obtain ⟨o1, h1, h2⟩ := h
      rw [bind_ok_iff] at h1
      obtain ⟨k, h3, _⟩ := h1
      obtain ⟨gs, rfl⟩ := ih _ h2
      obtain ⟨g, hg⟩ := (ofList_mem (l := genreNames) (n := 18) rfl).1 (show String.ofList s ∈ genreNames from (getItem_iff genre _).1 ⟨k, h3⟩)
      exact ⟨g :: gs, by rw [hg]; rfl⟩
  · rintro ⟨gs, rfl⟩
    exact ⟨_, genres_ok gs⟩

/-- C80: the item file of MovieLens 1m is converted exactly when every line has at least three fields, a title that ends
in a year, and a list of known genres. -/
theorem C80_ml1m_item {fss : List (List Str)} {text : Str} (hfs : ∀ fs ∈ fss, fs ≠ [] ∧ ∀ f ∈ fs, ColonField f ∧ Plain f)
    (ht : Text (fss.map (List.intercalate "::".toList)) text) :
    (∃ out, convMl1mItem text = .ok out) ↔
      ∀ fs ∈ fss, ∃ id t g rest, fs = id :: t :: g :: rest ∧
        HasYear (if id = "3845".toList then ellipsis t else t) ∧
        ∃ gs : List (Fin 18), gs ≠ [] ∧ g = join '|' (gs.map (fun g : Fin 18 => (genreNames.getD g "").toList)) := by
  unfold convMl1mItem
  rw [conv_iff (f := ml1mItemLine) ht (colons_plain hfs) (g := fun l => do
    let f := splitColons l
    let id ← item f 0
    let name ← item f 1
    let name := if id = "3845".toList then ellipsis name else name
    let y ← year name
    let o ← genres (split '|' (← item f 2))
    return printTab ([id, name, y] ++ o)) (fun l => rfl)]
  rw [List.forall_mem_map]
  refine forall₂_congr (fun fs hm => ?_)
  simp only [splitColons_join (hfs fs hm).1 (fun f hf => ((hfs fs hm).2 f hf).1)]
  constructor
  · intro h
    simp only [exists_bind, item_iff] at h
    obtain ⟨id, h0, t, h1, y, h2, g, h3, o, h4, _⟩ := h
    match fs, h0, h1, h3 with
    | _ :: _ :: _ :: rest, h0, h1, h3' =>
      cases h0; cases h1; cases h3'
      obtain ⟨gs, hgs⟩ := (genres_iff _).1 ⟨o, h4⟩
      refine ⟨_, _, _, _, rfl, (year_iff _).1 ⟨_, h2⟩, gs, ?_, ?_⟩
      · rintro rfl
        exact split_ne_nil _ _ hgs
      · rw [← hgs, join_split]
  · rintro ⟨id, t, g, rest, rfl, hy, gs, hne, rfl⟩
    obtain ⟨y, hy'⟩ := (year_iff _).2 hy
    have hg : split '|' (join '|' (gs.map (fun g : Fin 18 => (genreNames.getD g "").toList))) =
        gs.map (fun g : Fin 18 => (genreNames.getD g "").toList) := by
      refine split_join (by simpa using hne) ?_
      intro f hf
      obtain ⟨g, _, rfl⟩ := List.mem_map.1 hf
      exact (genre_clean g).2.2
    simp only [item_zero, item_succ, ok_bind, hy', hg, genres_ok]
    exact ⟨_, rfl⟩

/-- The text of an integer as Python reads it: blanks, a sign and digits. -/
def IsInt (s : Str) : Prop :=
  ∃ a sg ds b : Str, s = a ++ sg ++ ds ++ b ∧ (∀ c ∈ a, isSpace c = true) ∧ (∀ c ∈ b, isSpace c = true) ∧
    (sg = [] ∨ sg = ['+'] ∨ sg = ['-']) ∧ ds ≠ [] ∧ ∀ c ∈ ds, c.isDigit = true

lemma mem_takeWhile_imp {p : Char → Bool} {l : Str} {c : Char} (h : c ∈ l.takeWhile p) : p c = true := by
  induction l with
  | nil => cases h
  | cons a l ih =>
    by_cases ha : p a = true
    · rw [List.takeWhile_cons_of_pos ha] at h
      rcases List.mem_cons.1 h with rfl | h
      · exact ha
      · exact ih h
    · rw [List.takeWhile_cons_of_neg ha] at h; cases h

lemma rstrip_split (p : Char → Bool) (s : Str) : ∃ b, s = rstrip p s ++ b ∧ (∀ c ∈ b, p c = true) := by
  refine ⟨(s.reverse.takeWhile p).reverse, ?_, ?_⟩
  · unfold rstrip
    rw [← List.reverse_append, List.takeWhile_append_dropWhile, List.reverse_reverse]
  · intro c hc
    exact mem_takeWhile_imp (List.mem_reverse.1 hc)

lemma strip_split (p : Char → Bool) (s : Str) : ∃ a b, s = a ++ strip p s ++ b ∧ (∀ c ∈ a, p c = true) ∧ (∀ c ∈ b, p c = true) := by
  obtain ⟨b, h1, h2⟩ := rstrip_split p (s.dropWhile p)
  refine ⟨s.takeWhile p, b, ?_, fun c hc => mem_takeWhile_imp hc, h2⟩
  unfold strip
  rw [List.append_assoc, ← h1, List.takeWhile_append_dropWhile]

lemma strip_pad' {p : Char → Bool} {a m b : Str} (ha : ∀ c ∈ a, p c = true) (hb : ∀ c ∈ b, p c = true) (hne : m ≠ [])
    (hh : ∀ c, m.head? = some c → p c = false) (hl : ∀ c, m.getLast? = some c → p c = false) : strip p (a ++ m ++ b) = m := by
  unfold strip
  have h1 : (a ++ m ++ b).dropWhile p = m ++ b := by
    rw [List.append_assoc, List.dropWhile_append_of_pos ha]
    apply dropWhile_head
    intro c hc
    rw [List.head?_append_of_ne_nil _ hne] at hc
    exact hh c hc
  rw [h1]
  unfold rstrip
  rw [List.reverse_append, List.dropWhile_append_of_pos (by simpa using hb)]
  rw [dropWhile_head, List.reverse_reverse]
  intro c hc
  rw [List.head?_reverse] at hc
  exact hl c hc

lemma natOf_isSome (s : Str) : (natOf s).isSome ↔ s ≠ [] ∧ ∀ c ∈ s, c.isDigit = true := by
  unfold natOf
  split
  · rename_i h
    simpa [List.all_eq_true] using h
  · rename_i h
    simpa [List.all_eq_true] using h

lemma intOf_iff (s : Str) : (∃ n, intOf s = some n) ↔ IsInt s := by
  constructor
  · rintro ⟨n, h⟩
    obtain ⟨a, b, h1, h2, h3⟩ := strip_split isSpace s
    unfold intOf at h
    generalize strip isSpace s = t at h h1
    unfold signed at h
    split at h
    · rename_i ds
      have hd := (natOf_isSome ds).1 (by cases hn : natOf ds <;> simp [hn] at h ⊢)
      exact ⟨a, ['-'], ds, b, by simpa using h1, h2, h3, by simp, hd.1, hd.2⟩
    · rename_i ds
      have hd := (natOf_isSome ds).1 (by cases hn : natOf ds <;> simp [hn] at h ⊢)
      exact ⟨a, ['+'], ds, b, by simpa using h1, h2, h3, by simp, hd.1, hd.2⟩
    · have hd := (natOf_isSome t).1 (by cases hn : natOf t <;> simp [hn] at h ⊢)
      exact ⟨a, [], t, b, by simpa using h1, h2, h3, by simp, hd.1, hd.2⟩
  · rintro ⟨a, sg, ds, b, rfl, ha, hb, hsg, hne, hd⟩
    have hsome := (natOf_isSome ds).2 ⟨hne, hd⟩
    obtain ⟨n, hn⟩ := Option.isSome_iff_exists.1 hsome
    have hst : strip isSpace (a ++ (sg ++ ds) ++ b) = sg ++ ds := by
      refine strip_pad' ha hb (by simp [hne]) ?_ ?_
      · intro c hc
        rcases hsg with rfl | rfl | rfl
        · exact isDigit_not_space (hd c (List.mem_of_head? hc))
        · cases hc; decide
        · cases hc; decide
      · intro c hc
        rw [List.getLast?_append_of_ne_nil _ hne] at hc
        exact isDigit_not_space (hd c (List.mem_of_getLast? hc))
    unfold intOf
    rw [List.append_assoc a sg ds, hst]
    rcases hsg with rfl | rfl | rfl
    · rw [List.nil_append, signed_digits _ (fun c hc => isDigit_not_sign (hd c (List.mem_of_head? hc))), hn]
      exact ⟨_, rfl⟩
    · refine ⟨n, ?_⟩
      simp [signed, hn]
    · refine ⟨-n, ?_⟩
      simp [signed, hn]

/-- A text with exactly two `-` is to be a day, the name of a month and a year. -/
def GoodDate (t : Str) : Prop :=
  t.count '-' = 2 → ∃ (d y : Str) (m : Fin 12), t = join '-' [d, (months.getD m "").toList, y] ∧ IsInt d ∧ IsInt y

lemma pyInt_iff (s : Str) : (∃ n, pyInt s = .ok n) ↔ IsInt s := by
  rw [← intOf_iff]
  unfold pyInt
  cases intOf s <;> simp

lemma date_iff (t : Str) : (∃ r, date t = .ok r) ↔ GoodDate t := by
  unfold date GoodDate
  have hl := split_length '-' t
  have hj := join_split '-' t
  split
  · rename_i d m y h
    rw [h] at hl hj
    have hc : t.count '-' = 2 := by simp at hl; omega
    simp only [exists_bind, hc, true_imp_iff]
    constructor
    · rintro ⟨n, h1, k, h2, n', h3, _⟩
      obtain ⟨g, hg⟩ := (ofList_mem (l := months) (n := 12) rfl).1 (show String.ofList m ∈ months from (getItem_iff month _).1 ⟨k, h2⟩)
      exact ⟨d, y, g, by rw [← hj, hg], (pyInt_iff d).1 ⟨n, h1⟩, (pyInt_iff y).1 ⟨n', h3⟩⟩
    · rintro ⟨d', y', g, h1, h2, h3⟩
      rw [h1] at hc
      simp [join] at hc
      have hd : '-' ∉ d' := List.count_eq_zero.1 (by omega)
      have hm : '-' ∉ (months.getD g "").toList := List.count_eq_zero.1 (by simp only [List.getD_eq_getElem?_getD]; omega)
      have hy : '-' ∉ y' := List.count_eq_zero.1 (by omega)
      rw [h1, split_join (by simp) (by simp only [List.mem_cons, List.not_mem_nil, or_false]; rintro f (rfl | rfl | rfl) <;> assumption)] at h
      cases h
      obtain ⟨n, hn⟩ := (pyInt_iff d).2 h2
      obtain ⟨n', hn'⟩ := (pyInt_iff y).2 h3
      obtain ⟨k, hk⟩ := (getItem_iff month _).2 (show String.ofList (months.getD g "").toList ∈ months from
        (ofList_mem (l := months) (n := 12) rfl).2 ⟨g, rfl⟩)
      exact ⟨n, hn, k, hk, n', hn', _, rfl⟩
  · rename_i h
    constructor
    · intro _ hc
      exfalso
      match hs : split '-' t, hl with
      | [a, b, c], _ => exact h a b c hs
      | [], hl => simp at hl
      | [a], hl => simp at hl; omega
      | [a, b], hl => simp at hl; omega
      | a :: b :: c :: d :: r, hl => simp at hl; omega
    · intro _; exact ⟨_, rfl⟩

/-- C80: the item file of MovieLens 100k is converted exactly when every line has at least five fields and a release
date that either has not exactly two `-`, or is a day, a month and a year. -/
theorem C80_ml100k_item {fss : List (List Str)} {text : Str} (hfs : Fields '|' fss) (ht : Text (fss.map (join '|')) text) :
    (∃ out, convMl100kItem text = .ok out) ↔
      ∀ fs ∈ fss, ∃ id t r v u rest, fs = id :: t :: r :: v :: u :: rest ∧ GoodDate r := by
  unfold convMl100kItem
  rw [conv_iff (f := ml100kItemLine) ht (fields_plain (by decide) hfs) (g := fun l => do
    let f := split '|' l
    let id ← item f 0
    let name ← item f 1
    let d ← date (← item f 2)
    let url ← item f 4
    return printTab ([id, name] ++ d ++ [join '\t' ((f.take 24).drop 6), url])) (fun l => rfl)]
  rw [List.forall_mem_map]
  refine forall₂_congr (fun fs hm => ?_)
  simp only [split_join (hfs fs hm).1 (fun f hf => ((hfs fs hm).2 f hf).1)]
  constructor
  · intro h
    simp only [exists_bind, item_iff] at h
    obtain ⟨id, h0, t, h1, r, h2, r', h3, u, h4, _⟩ := h
    match fs, h0, h1, h2, h4 with
    | _ :: _ :: _ :: _ :: _ :: rest, h0, h1, h2, h4 =>
      cases h0; cases h1; cases h2; cases h4
      exact ⟨_, _, _, _, _, _, rfl, (date_iff _).1 ⟨_, h3⟩⟩
  · rintro ⟨id, t, r, v, u, rest, rfl, hr⟩
    obtain ⟨r', hr'⟩ := (date_iff _).2 hr
    simp only [item_zero, item_succ, ok_bind, hr']
    exact ⟨_, rfl⟩

/-! Lines that are converted and lines that are not. -/

example : ∃ out, convMl100kUser "1|24|M|technician|85711\n".toList = .ok out := ⟨_, rfl⟩

example : ∃ e, convMl100kUser "1|24|M|pilot|85711\n".toList = .error e := ⟨_, rfl⟩

example : Fields '|' [["1".toList, "24".toList, "M".toList, "technician".toList, "85711".toList]] := by
  unfold Fields Plain; decide

example : GoodDate "unknown".toList ∧ GoodDate "01-Jan-1995".toList ∧ ¬ GoodDate "01-Foo-1995".toList := by
  refine ⟨fun h => absurd h (by decide), (date_iff _).1 ⟨_, rfl⟩, fun h => ?_⟩
  obtain ⟨r, hr⟩ := (date_iff _).2 h
  have : date "01-Foo-1995".toList = .error .keyError := by decide +kernel
  rw [this] at hr
  cases hr

example : HasYear "Toy Story (1995)".toList := ⟨"Toy Story ".toList, "1995".toList, by decide, by decide, by decide⟩

end Kam.Convert
