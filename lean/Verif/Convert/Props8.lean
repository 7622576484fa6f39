/-
What C76, C77 and C79 leave out: a file with a single record.
-/
import Verif.Convert.Props7

set_option linter.unusedSectionVars false

namespace Kam.Convert
open Convert.Spec Kam.Spec

variable {K φ ε : Type} [Field K] [LinearOrder K] [IsStrictOrderedRing K] [FloorRing K]

/-- C76, what is missing: if exactly one rating has both ids up to 10, the small data set is written and cannot be
loaded, whatever the other files hold. -/
theorem C76_one_rating (nan : K) {rs : List Rating} {tr : Str} (hr : Text (rs.map Rating.line) tr)
    (h1 : (rs.filter (fun r => r.user ≤ 10 && r.item ≤ 10)).length = 1) (user item : Str) (times : Bool) :
    ∃ event, convMini (convMl100kEvent tr) = .ok event ∧
      loadMovielens100k nan event user item (if times then some timestamp else none) = .error .indexError := by
  obtain ⟨r, hrs⟩ := List.length_eq_one_iff.1 h1
  obtain ⟨event, e1, ls, e2, e3, e4⟩ := mini_file hr
  rw [hrs] at e4
  have := C66_one_line (φ := List (Cell K)) nan (n := 2) (arg := .arr 1 [0, 1]) (dom := some [1, 5, 1])
    (ft := if times then some timestamp else none) (c := (r.entry (K := K) times).cells) rfl e2 e3 e4
    (by
      have h := (rating_written (K := K) times r).2.2
      cases times <;> exact h)
  refine ⟨event, e1, ?_⟩
  unfold loadMovielens100k
  rw [this]
  rfl

/-- C77, what is missing: a single rating cannot be loaded. -/
theorem C77_one_rating (nan : K) {r : Rating} {tr : Str} (hr : Text [r.line1m] tr) (user item : Str) (times : Bool) :
    loadMovielens1m nan (convMl1mEvent tr) user item (if times then some timestamp else none) = .error .indexError := by
  obtain ⟨ls, e2, e3, e4⟩ := ratings1m_file (rs := [r]) hr
  have := C66_one_line (φ := List (Cell K)) nan (n := 2) (arg := .arr 1 [0, 1]) (dom := some [1, 5, 1])
    (ft := if times then some timestamp else none) (c := (r.entry (K := K) times).cells) rfl e2 e3 e4
    (by
      have h := (rating_written (K := K) times r).2.2
      cases times <;> exact h)
  unfold loadMovielens1m
  rw [this]
  rfl

/-- C79, what is missing: a matrix with exactly one rating is converted and cannot be loaded. -/
theorem C79_one_rating (nan : K) {m : List (List Int)} {tm : Str}
    (hm : Text (m.map (fun row => join ' ' (row.map showInt))) tm) (hmne : ∀ row ∈ m, row ≠ [])
    (h1 : ∃ u i, (∃ row r, m[u]? = some row ∧ row[i]? = some r ∧ 0 ≤ r) ∧
      ∀ (u' i' : Nat) row r, m[u']? = some row → row[i']? = some r → 0 ≤ r → u' = u ∧ i' = i) (user item : Str) :
    ∃ event, convSushiEvent tm = .ok event ∧ loadSushi3bScore nan event user item none = .error .indexError := by
  obtain ⟨event, e1, es, ⟨ls, e2, e3, e4⟩, h5, h6⟩ := C67_sushi hmne hm
  obtain ⟨u, i, ⟨row, r, g1, g2, g3⟩, huniq⟩ := h1
  have hes : es = [(u, i, r)] := by
    have hall : ∀ e ∈ es, e = (u, i, r) := by
      rintro ⟨u', i', r'⟩ he
      obtain ⟨⟨row', k1, k2⟩, k3⟩ := (h5 u' i' r').1 he
      obtain ⟨rfl, rfl⟩ := huniq _ _ _ _ k1 k2 k3
      rw [g1] at k1
      cases k1
      rw [g2] at k2
      cases k2
      rfl
    have hnd : es.Nodup := by
      refine h6.imp ?_
      rintro a b h rfl
      rcases h with h | h <;> omega
    have hmem : (u, i, r) ∈ es := (h5 u i r).2 ⟨⟨row, g1, g2⟩, g3⟩
    rw [List.eq_replicate_of_mem hall] at hnd hmem ⊢
    have hle : es.length ≤ 1 := List.nodup_replicate.1 hnd
    have hpos : es.length ≠ 0 := (List.mem_replicate.1 hmem).1
    rw [show es.length = 1 by omega]
    rfl
  rw [hes] at e4
  have := C66_one_line (φ := List (Cell K)) nan (n := 2) (arg := .arr 1 [0, 1]) (dom := some [0, 4, 1])
    (ft := none) (c := Entry.cells ⟨[(u : Int), (i : Int)], (r : K), []⟩) rfl e2 e3 e4
    (.cons (.int _) (.cons (.int _) (.cons (shows_num_int _) (.nil _))))
  refine ⟨event, e1, ?_⟩
  unfold loadSushi3bScore
  rw [this]
  rfl

/-- One of two ratings is in the small data set. -/
example : ([⟨7, 3, 5, 9⟩, ⟨12, 3, 2, 1⟩] : List Rating).map Rating.line = ["7\t3\t5\t9".toList, "12\t3\t2\t1".toList] ∧
    (([⟨7, 3, 5, 9⟩, ⟨12, 3, 2, 1⟩] : List Rating).filter (fun r => r.user ≤ 10 && r.item ≤ 10)).length = 1 := by decide

/-- One rating in a matrix of two users and three items. -/
example : ∃ u i, (∃ (row : List Int) (r : Int), [[-1, -1, -1], [-1, 4, -1]][u]? = some row ∧ row[i]? = some r ∧ 0 ≤ r) ∧
      ∀ (u' i' : Nat) row r, [[-1, -1, -1], [-1, 4, -1]][u']? = some row → row[i']? = some r → 0 ≤ r → u' = u ∧ i' = i := by
  refine ⟨1, 1, ⟨[-1, 4, -1], 4, rfl, rfl, by decide⟩, ?_⟩
  intro u' i' row r h1 h2 h3
  match u' with
  | 0 =>
    cases h1
    match i' with
    | 0 | 1 | 2 => cases h2; exact absurd h3 (by decide)
    | _ + 3 => cases h2
  | 1 =>
    cases h1
    match i' with
    | 1 => exact ⟨rfl, rfl⟩
    | 0 | 2 => cases h2; exact absurd h3 (by decide)
    | _ + 3 => cases h2
  | _ + 2 => cases h1

end Kam.Convert
