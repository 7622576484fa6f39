/-
Files that were not written to their end.
-/
import Verif.Convert.Pipe

set_option linter.unusedSectionVars false

namespace Kam.Convert
open Convert.Spec Kam.Spec

variable {K φ ε : Type} [Field K] [LinearOrder K] [IsStrictOrderedRing K] [FloorRing K]

/-- Beginnings of two texts, one after the other. -/
lemma prefix_append_cases {β : Type} {u a b : List β} (h : u <+: a ++ b) : u <+: a ∨ ∃ v, u = a ++ v ∧ v <+: b := by
  rcases le_total u.length a.length with hl | hl
  · exact .inl (List.prefix_of_prefix_length_le h (List.prefix_append a b) hl)
  · obtain ⟨v, rfl⟩ := List.prefix_of_prefix_length_le (List.prefix_append a b) h hl
    exact .inr ⟨v, rfl, (List.prefix_append_right_inj a).1 h⟩

/-- Beginnings of lines. -/
lemma prefix_line_cases {u l t : Str} (h : u <+: l ++ '\n' :: t) : u <+: l ∨ ∃ v, u = l ++ '\n' :: v ∧ v <+: t := by
  rcases prefix_append_cases h with h | ⟨v, rfl, hv⟩
  · exact .inl h
  · rcases List.prefix_cons_iff.1 hv with rfl | ⟨v', rfl, hv'⟩
    · exact .inl (by simp)
    · exact .inr ⟨v', rfl, hv'⟩

/-- A part of the comment block has no rows. -/
lemma file_cut_head {hd : List String} (hh : Headed hd) {u : Str} (hu : u <+: head hd) : File u [] := by
  induction hd generalizing u with
  | nil =>
    obtain rfl := List.prefix_nil.1 hu
    exact ⟨[], .nil, by simp, .nil⟩
  | cons l hd ih =>
    have e : head (l :: hd) = l.toList ++ '\n' :: head hd := by simp [head]
    rw [e] at hu
    obtain ⟨h1, h2⟩ := hh l List.mem_cons_self
    rcases prefix_line_cases hu with hu | ⟨v, rfl, hv⟩
    · cases u with
      | nil => exact ⟨[], .nil, by simp, .nil⟩
      | cons a c =>
        obtain ⟨t, ht⟩ := hu
        rw [← ht] at h1 h2
        obtain rfl : a = '#' := by simpa using h2
        refine ⟨['#' :: c], .last (by simp), ?_, .comment (n := 0) .nil⟩
        intro l hl
        rw [List.mem_singleton.1 hl]
        exact ⟨fun hm => h1.1 (List.mem_append_left _ hm), fun hm => h1.2 (List.mem_append_left _ hm)⟩
    · have := file_head (hd := [l]) (fun l' hl' => by rw [List.mem_singleton.1 hl']; exact ⟨h1, h2⟩)
        (ih (fun l hl => hh l (List.mem_cons_of_mem _ hl)) hv)
      simpa [head] using this

/-- Where the rows are cut. -/
lemma rows_cut {rows : List (List Str)} {u : Str} (hu : u <+: rows.flatMap printTab) :
    ∃ n, u = (rows.take n).flatMap printTab ∨
      ∃ r p, rows[n]? = some r ∧ p ≠ [] ∧ p <+: join '\t' r ∧ u = (rows.take n).flatMap printTab ++ p := by
  induction rows generalizing u with
  | nil => exact ⟨0, .inl (List.prefix_nil.1 hu)⟩
  | cons r rows ih =>
    have e : (r :: rows).flatMap printTab = join '\t' r ++ '\n' :: rows.flatMap printTab := by simp [printTab]
    rw [e] at hu
    rcases prefix_line_cases hu with hu | ⟨v, rfl, hv⟩
    · by_cases h0 : u = []
      · exact ⟨0, .inl h0⟩
      · exact ⟨0, .inr ⟨r, u, rfl, h0, hu, rfl⟩⟩
    · obtain ⟨n, h | ⟨r', p, h1, h2, h3, h4⟩⟩ := ih hv
      · exact ⟨n + 1, .inl (by simp [printTab, h])⟩
      · exact ⟨n + 1, .inr ⟨r', p, by simpa using h1, h2, h3, by simp [printTab, h4]⟩⟩

/-- The fields of a row that is cut. -/
lemma join_cut {c : Char} {fs : List Str} (hne : fs ≠ []) {p : Str} (hp : p <+: join c fs) :
    ∃ j q f, fs[j]? = some f ∧ q <+: f ∧ p = join c (fs.take j ++ [q]) := by
  induction fs generalizing p with
  | nil => exact absurd rfl hne
  | cons f fs ih =>
    cases fs with
    | nil => exact ⟨0, p, f, rfl, hp, rfl⟩
    | cons g fs =>
      have e : join c (f :: g :: fs) = f ++ c :: join c (g :: fs) := rfl
      rw [e] at hp
      rcases prefix_append_cases hp with hp | ⟨v, rfl, hv⟩
      · exact ⟨0, p, f, rfl, hp, rfl⟩
      · rcases List.prefix_cons_iff.1 hv with rfl | ⟨v', rfl, hv'⟩
        · exact ⟨0, f, f, rfl, List.prefix_rfl, by simp [join]⟩
        · obtain ⟨j, q, f', h1, h2, h3⟩ := ih (by simp) hv'
          refine ⟨j + 1, q, f', h1, h2, ?_⟩
          cases j with
          | zero => rw [h3]; rfl
          | succ j => rw [h3]; rfl

/-- A row that is cut is a row. -/
lemma tidy_cut {fs : List Str} (ht : Tidy fs) (hb : ' ' ∉ join '\t' fs) {j : Nat} {q f : Str} (hj : fs[j]? = some f)
    (hq : q <+: f) (hp : join '\t' (fs.take j ++ [q]) <+: join '\t' fs) (hne : join '\t' (fs.take j ++ [q]) ≠ []) :
    Tidy (fs.take j ++ [q]) := by
  refine ⟨?_, hne, ?_, ?_⟩
  · intro g hg
    rcases List.mem_append.1 hg with hg | hg
    · exact ht.clean g (List.mem_of_mem_take hg)
    · rw [List.mem_singleton.1 hg]
      obtain ⟨h1, h2, h3, h4⟩ := ht.clean f (List.mem_of_getElem? hj)
      exact ⟨fun h => h1 (hq.subset h), fun h => h2 (hq.subset h), fun h => h3 (hq.subset h), fun h => h4 (hq.subset h)⟩
  · exact fun h => hb (hp.subset (List.mem_of_head? h))
  · exact fun h => hb (hp.subset (List.mem_of_getLast? h))

lemma text_printTab_last (rows : List (List Str)) {p : Str} (hp : p ≠ []) :
    Text (rows.map (join '\t') ++ [p]) (rows.flatMap printTab ++ p) := by
  induction rows with
  | nil => exact .last hp
  | cons r rows ih =>
    have : (r :: rows).flatMap printTab ++ p = join '\t' r ++ '\n' :: (rows.flatMap printTab ++ p) := by
      simp [printTab]
    rw [this]
    exact .lf ih

lemma rows_append {ls ls' : List Str} {rows rows' : List (List Str)} (h : Rows ls rows) (h' : Rows ls' rows') :
    Rows (ls ++ ls') (rows ++ rows') := by
  induction h with
  | nil => exact h'
  | blank _ ih => exact .blank ih
  | comment _ ih => exact .comment ih
  | row ht _ ih => exact .row ht ih
  | padded ht _ ih => exact .padded ht ih
  | remark ht _ ih => exact .remark ht ih

/-- What is left of a file with a comment block and rows without blanks: the rows before some place, and perhaps a part of the
next one, which is cut inside one of its fields. -/
lemma file_cut {hd : List String} (hh : Headed hd) {rows : List (List Str)} (ht : ∀ r ∈ rows, Tidy r)
    (hb : ∀ r ∈ rows, ' ' ∉ join '\t' r) {u : Str} (hu : u <+: head hd ++ rows.flatMap printTab) :
    ∃ n, File u (rows.take n) ∨ ∃ r j q f, rows[n]? = some r ∧ r[j]? = some f ∧ q <+: f ∧ File u (rows.take n ++ [r.take j ++ [q]]) := by
  rcases prefix_append_cases hu with hu | ⟨v, rfl, hv⟩
  · exact ⟨0, .inl (file_cut_head hh hu)⟩
  · obtain ⟨n, rfl | ⟨r, p, h1, h2, h3, rfl⟩⟩ := rows_cut hv
    · exact ⟨n, .inl (file_head hh (file_printTab (fun r hr => ht r (List.mem_of_mem_take hr))))⟩
    · have hr : r ∈ rows := List.mem_of_getElem? h1
      have hne : r ≠ [] := by
        rintro rfl
        exact (ht _ hr).ne rfl
      obtain ⟨j, q, f, k1, k2, rfl⟩ := join_cut hne h3
      have htq := tidy_cut (ht r hr) (hb r hr) k1 k2 h3 h2
      refine ⟨n, .inr ⟨r, j, q, f, h1, k1, k2, file_head hh ⟨_, text_printTab_last (rows.take n) h2, ?_, ?_⟩⟩⟩
      · intro l hl
        rcases List.mem_append.1 hl with hl | hl
        · obtain ⟨r', hr', rfl⟩ := List.mem_map.1 hl
          exact (ht r' (List.mem_of_mem_take hr')).plain
        · rw [List.mem_singleton.1 hl]
          exact htq.plain
      · exact rows_append (rows_printTab (fun r hr => ht r (List.mem_of_mem_take hr))) (.row htq .nil)

/-- `genfromtxt` on a file of rows with one number of fields. -/
lemma genfromtxt_cells (nan : K) {types : List FType} {text : Str} {rows : List (List Str)} (h : File text rows) {w : Nat}
    (hw : ∀ r ∈ rows, r.length = w) (hle : types.length ≤ w) :
    genfromtxt nan types text = .ok (recs (rows.map (List.zipWith (convert nan) types))) := by
  unfold genfromtxt
  simp only [file_rows h]
  cases rows with
  | nil => rfl
  | cons r rows =>
    simp only []
    rw [if_neg, if_neg]
    · cases rows <;> rfl
    · rw [hw r (by simp)]; omega
    · rw [List.any_eq_true]
      rintro ⟨x, hx, h1⟩
      rw [hw x hx, hw r (by simp)] at h1
      simp at h1

/-- A row that is shorter than the others. -/
lemma genfromtxt_short (nan : K) {types : List FType} {text : Str} {rows : List (List Str)} {r : List Str}
    (h : File text (rows ++ [r])) {w : Nat} (hw : ∀ r ∈ rows, r.length = w) (hlt : r.length < w) :
    genfromtxt nan types text = .error .valueError ∨
      rows = [] ∧ ∃ c, genfromtxt nan types text = .ok (.one c) := by
  cases rows with
  | nil =>
    by_cases hl : r.length < types.length
    · exact .inl (genfromtxt_narrow nan types h (List.mem_singleton.2 rfl) hl)
    · refine .inr ⟨rfl, _, genfromtxt_cells nan h (w := r.length) ?_ (by omega)⟩
      intro r' hr'
      rw [List.mem_singleton.1 hr']
  | cons r' rows =>
    refine .inl (genfromtxt_ragged nan types h (r := r) (r' := r') (by simp) (by simp) ?_)
    rw [hw r' (by simp)]
    omega

/-- A single record cannot be loaded. -/
lemma loadScore_one (nan : K) {text : Str} {dom : Option (List K)} {ft : Option (List FType)} {c : List (Cell K)}
    (hx : genfromtxt nan ([.int, .int] ++ .float :: ft.getD []) text = .ok (.one c)) :
    (loadEventWithScore nan text 2 (.arr 1 [0, 1]) dom ft : Res (ScoreData K Int φ (List (Cell K)))) = .error .indexError := by
  unfold loadEventWithScore
  have hs : sEvents 2 (.arr 1 [0, 1]) = 2 := rfl
  simp only [hs]
  rw [show List.replicate 2 FType.int = [.int, .int] from rfl, hx]
  rfl

lemma loadScore_error (nan : K) {text : Str} {dom : Option (List K)} {ft : Option (List FType)} {e : Exc}
    (hx : genfromtxt nan ([.int, .int] ++ .float :: ft.getD []) text = .error e) :
    (loadEventWithScore nan text 2 (.arr 1 [0, 1]) dom ft : Res (ScoreData K Int φ (List (Cell K)))) = .error e := by
  unfold loadEventWithScore
  have hs : sEvents 2 (.arr 1 [0, 1]) = 2 := rfl
  simp only [hs]
  rw [show List.replicate 2 FType.int = [.int, .int] from rfl, hx]
  rfl

lemma loadScore_congr (nan : K) {text text' : Str} {dom : Option (List K)} {ft : Option (List FType)}
    (hx : genfromtxt nan ([.int, .int] ++ .float :: ft.getD []) text = genfromtxt nan ([.int, .int] ++ .float :: ft.getD []) text') :
    (loadEventWithScore nan text 2 (.arr 1 [0, 1]) dom ft : Res (ScoreData K Int φ (List (Cell K)))) =
      loadEventWithScore nan text' 2 (.arr 1 [0, 1]) dom ft := by
  unfold loadEventWithScore
  have hs : sEvents 2 (.arr 1 [0, 1]) = 2 := rfl
  simp only [hs]
  rw [show List.replicate 2 FType.int = [.int, .int] from rfl, hx]

end Kam.Convert
