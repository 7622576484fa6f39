/-
Files written by the conversion scripts.
-/
import Verif.Convert.Load
import Verif.Convert.Headed

set_option linter.unusedSectionVars false

namespace Kam.Convert
open Convert.Spec Kam.Spec

variable {K φ ε : Type} [Field K] [LinearOrder K] [IsStrictOrderedRing K] [FloorRing K]

lemma text_head (hd : List String) {ls : List Str} {t : Str} (h : Text ls t) :
    Text (hd.map String.toList ++ ls) (head hd ++ t) := by
  induction hd with
  | nil => exact h
  | cons l hd ih =>
    have : head (l :: hd) ++ t = l.toList ++ '\n' :: (head hd ++ t) := by simp [head]
    rw [this]
    exact .lf ih

lemma rows_head {hd : List String} (hh : Headed hd) {ls : List Str} {rows : List (List Str)} (h : Rows ls rows) :
    Rows (hd.map String.toList ++ ls) rows := by
  induction hd with
  | nil => exact h
  | cons l hd ih =>
    have := (hh l List.mem_cons_self).2
    have hr := ih (fun l hl => hh l (List.mem_cons_of_mem _ hl))
    rw [List.map_cons, List.cons_append]
    cases hl : l.toList with
    | nil => rw [hl] at this; cases this
    | cons a c =>
      rw [hl] at this
      cases this
      exact .comment (n := 0) hr

/-- The comment block in front of a file does not change its rows. -/
lemma file_head {hd : List String} (hh : Headed hd) {t : Str} {rows : List (List Str)} (h : File t rows) :
    File (head hd ++ t) rows := by
  obtain ⟨ls, h1, h2, h3⟩ := h
  refine ⟨_, text_head hd h1, ?_, rows_head hh h3⟩
  intro l hl
  rcases List.mem_append.1 hl with hl | hl
  · obtain ⟨l', hl', rfl⟩ := List.mem_map.1 hl
    exact (hh l' hl').1
  · exact h2 l hl

lemma text_printTab (rows : List (List Str)) : Text (rows.map (join '\t')) (rows.flatMap printTab) := by
  induction rows with
  | nil => exact .nil
  | cons r rows ih =>
    have : (r :: rows).flatMap printTab = join '\t' r ++ '\n' :: rows.flatMap printTab := by
      simp [printTab]
    rw [this]
    exact .lf ih

lemma rows_printTab {rows : List (List Str)} (h : ∀ r ∈ rows, Tidy r) : Rows (rows.map (join '\t')) rows := by
  induction rows with
  | nil => exact .nil
  | cons r rows ih => exact .row (h r List.mem_cons_self) (ih fun r hr => h r (List.mem_cons_of_mem _ hr))

/-- Printed rows. -/
lemma file_printTab {rows : List (List Str)} (h : ∀ r ∈ rows, Tidy r) : File (rows.flatMap printTab) rows := by
  refine ⟨_, text_printTab rows, ?_, rows_printTab h⟩
  intro l hl
  obtain ⟨r, hr, rfl⟩ := List.mem_map.1 hl
  exact (h r hr).plain

/-- Scripts that look at a line without its end. -/
lemma Lines.mapM_chomp {β : Type} {f g : Str → Res β} {rs ls : List Str} (h : Lines rs ls) (hp : ∀ l ∈ ls, Plain l)
    (hf : ∀ l, f l = g (Convert.chomp l)) : rs.mapM f = ls.mapM g := by
  have : f = fun l => g (Convert.chomp l) := funext hf
  rw [this, ← mapM_map, h.chomp hp]

lemma Lines.zipIdx_chomp {rs ls : List Str} (h : Lines rs ls) (hp : ∀ l ∈ ls, Plain l) :
    rs.zipIdx.map (fun p => (Convert.chomp p.1, p.2)) = ls.zipIdx := by
  conv_rhs => rw [← h.chomp hp]
  rw [List.zipIdx_map]
  rfl

/-! ### Fields -/

lemma clean_showInt (n : Int) : Clean (showInt n) := by
  have key : ∀ d : Char, d ≠ '-' → d.isDigit = false → d ∉ showInt n := by
    intro d h1 h2 hm
    rcases showInt_mem hm with h | h
    · exact h1 h
    · rw [h2] at h; cases h
  exact ⟨key _ (by decide) (by decide), key _ (by decide) (by decide), key _ (by decide) (by decide),
    key _ (by decide) (by decide)⟩

lemma join_ne_nil {c : Char} {f : Str} {fs : List Str} (h : f ≠ []) : join c (f :: fs) ≠ [] := by
  cases fs with
  | nil => exact h
  | cons g fs => intro e; rw [join] at e; simp [h] at e; simp

lemma head_join {c : Char} {f : Str} {fs : List Str} (h : f ≠ []) : (join c (f :: fs)).head? = f.head? := by
  cases fs with
  | nil => rfl
  | cons g fs => rw [join, List.head?_append_of_ne_nil _ h]; simp

lemma join_snoc {c : Char} {fs : List Str} (hne : fs ≠ []) (f : Str) : join c (fs ++ [f]) = join c fs ++ c :: f := by
  induction fs with
  | nil => exact absurd rfl hne
  | cons g fs ih =>
    cases fs with
    | nil => rfl
    | cons k fs =>
      have e : join c (g :: k :: fs) = g ++ c :: join c (k :: fs) := rfl
      have e' : join c (g :: (k :: fs ++ [f])) = g ++ c :: join c (k :: fs ++ [f]) := rfl
      rw [List.cons_append, e', ih (by simp), e]; simp

lemma last_join {c : Char} {f : Str} {fs : List Str} (h : f ≠ []) : (join c (fs ++ [f])).getLast? = f.getLast? := by
  by_cases hfs : fs = []
  · subst hfs; rfl
  · rw [join_snoc hfs]
    have : join c fs ++ c :: f = (join c fs ++ [c]) ++ f := by simp
    rw [this, List.getLast?_append_of_ne_nil _ h]

/-- Rows that start and end in texts without blanks. -/
lemma tidy_of {f g : Str} {fs gs : List Str} {rows : List Str} (h1 : rows = f :: fs) (h2 : rows = gs ++ [g])
    (hc : ∀ r ∈ rows, Clean r) (hf : f ≠ []) (hf' : f.head? ≠ some ' ') (hg : g ≠ []) (hg' : g.getLast? ≠ some ' ') :
    Tidy rows := by
  refine ⟨hc, ?_, ?_, ?_⟩
  · rw [h1]; exact join_ne_nil hf
  · rw [h1, head_join hf]; exact hf'
  · rw [h2, last_join hg]; exact hg'

lemma showInt_no {n : Int} {d : Char} (h1 : d ≠ '-') (h2 : d.isDigit = false) : d ∉ showInt n := by
  intro hm
  rcases showInt_mem hm with h | h
  · exact h1 h
  · rw [h2] at h; cases h

lemma showInt_head (n : Int) : (showInt n).head? ≠ some ' ' :=
  fun h => showInt_no (by decide) (by decide) (List.mem_of_head? h)

lemma showInt_last (n : Int) : (showInt n).getLast? ≠ some ' ' :=
  fun h => showInt_no (by decide) (by decide) (List.mem_of_getLast? h)

lemma pyInt_showInt (n : Int) : pyInt (showInt n) = .ok n := by
  unfold pyInt
  rw [intOf_showInt]

/-- Rows of integers. -/
lemma tidy_ints {ns : List Int} (h : ns ≠ []) : Tidy (ns.map showInt) := by
  obtain ⟨a, as, rfl⟩ := List.exists_cons_of_ne_nil h
  obtain ⟨bs, b, hb⟩ := (List.eq_nil_or_concat (a :: as)).resolve_left h
  refine tidy_of (f := showInt a) (fs := as.map showInt) (g := showInt b) (gs := bs.map showInt) rfl ?_ ?_
    (showInt_ne_nil a) (showInt_head a) (showInt_ne_nil b) (showInt_last b)
  · rw [hb]; simp
  · intro r hr
    obtain ⟨n, _, rfl⟩ := List.mem_map.1 hr
    exact clean_showInt n

end Kam.Convert
