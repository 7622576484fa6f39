/-
C57, C73: exactly which trees `json_decodable` makes plain, and which it makes serializable.
-/
import Verif.Util.Props

namespace Kam.Util
variable {F C : Type}

/-- Trees of dictionaries without repeated keys (a Python dictionary never has them). -/
inductive DistinctKeys : Val F C → Prop
  | leaf {v} (h : ∀ s : List (Key F × Val F C), v ≠ .dict s) (h2 : ∀ l, v ≠ .list l)
      (h3 : ∀ t, v ≠ .ndarray t) (h4 : ∀ t, v ≠ .sparse t) : DistinctKeys v
  | dict (d) (hk : (d.map (·.1)).Nodup) (h : ∀ kv ∈ d, DistinctKeys kv.2) : DistinctKeys (.dict d)
  | list (l) (h : ∀ v ∈ l, DistinctKeys v) : DistinctKeys (.list l)
  | ndarray (t) (h : DistinctKeys t) : DistinctKeys (.ndarray t)
  | sparse (t) (h : DistinctKeys t) : DistinctKeys (.sparse t)

theorem get?_of_mem [DecidableEq F] {d : List (Key F × Val F C)} (h : (d.map (·.1)).Nodup) {kv : Key F × Val F C}
    (hm : kv ∈ d) : Dict.get? d kv.1 = some kv.2 := by
  induction d with
  | nil => cases hm
  | cons a d ih =>
    obtain ⟨k, v⟩ := a
    simp only [List.map_cons, List.nodup_cons] at h
    rcases List.mem_cons.1 hm with rfl | hm
    · simp [Dict.get?]
    · have : kv.1 ≠ k := fun e => h.1 (e ▸ List.mem_map_of_mem hm)
      simp only [Dict.get?]
      rw [if_neg (by first | exact this | exact this.symm)]
      exact ih h.2 hm

theorem regular_of_plain_nodes [DecidableEq F] {v : Val F C} (hd : DistinctKeys v)
    (h : ∀ p w, follow (convChild v) p = some w → Plain w ∨ w.isContainer = true) : Regular v := by
  induction hd with
  | @leaf v h1 h2 h3 h4 =>
    cases v with
    | dict d => exact absurd rfl (h1 d)
    | list l => exact absurd rfl (h2 l)
    | ndarray t => exact absurd rfl (h3 t)
    | sparse t => exact absurd rfl (h4 t)
    | bool b => exact .plain (.bool b)
    | int i => exact .plain (.int i)
    | float x => exact .plain (.float x)
    | complex z => exact .plain (.complex z)
    | str s => exact .plain (.str s)
    | none => exact .none
    | npBool b => exact .npBool b
    | npInt i => exact .npInt i
    | npFloat x => exact .npFloat x
    | npComplex z => exact .npComplex z
    | obj s => exact .obj s
  | dict d hk _ ih =>
    refine .dict d (fun kv hkv => ih kv hkv (fun p w hw => h (.key kv.1 :: p) w ?_))
    simp only [convChild, follow, child, convItems_eq, get?_map_values, get?_of_mem hk hkv, Option.map_some,
      Option.bind_some, hw]
  | list l _ ih =>
    refine .list l (fun v hv => ?_)
    obtain ⟨i, hi⟩ := List.mem_iff_getElem?.1 hv
    refine ih v hv (fun p w hw => h (.idx i :: p) w ?_)
    simp only [convChild, follow, child, convList_eq, List.getElem?_map, hi, Option.map_some, Option.bind_some, hw]
  | ndarray t _ ih =>
    by_cases hc : t.isContainer = true
    · simp only [convChild, hc, if_true] at h
      exact .ndarray t hc (ih h)
    · simp only [convChild, hc] at h
      exact .ndarray0 t ((h [] t rfl).resolve_right hc)
  | sparse t _ ih =>
    by_cases hc : t.isContainer = true
    · simp only [convChild, hc, if_true] at h
      exact .sparse t hc (ih h)
    · simp only [convChild, hc] at h
      exact .sparse0 t ((h [] t rfl).resolve_right hc)

/-- **C57**, exactly: `json_decodable` does what it promises on a dictionary or list if and only if every
array of zero dimensions in it holds a plain scalar. -/
theorem C57_iff [DecidableEq F] (x : Val F C) (hx : x.isContainer = true) (hd : DistinctKeys x) :
    C57_full F C x ↔ Regular x := by
  refine ⟨fun h => regular_of_plain_nodes hd ?_, C57_plain_tree_partial x hx⟩
  intro p w hw
  exact h.1 p w (by rw [jsonDecodable_eq hx]; exact hw)

theorem real_of_serializable : ∀ v : Val F C, Serializable (convChild v) → Real v
  | .bool b, _ => .ready rfl (.bool b)
  | .int i, _ => .ready rfl (.int i)
  | .float x, _ => .ready rfl (.float x)
  | .complex z, h => by cases h
  | .str s, _ => .ready rfl (.str s)
  | .none, _ => .ready rfl .none
  | .npBool b, _ => .npBool b
  | .npInt i, _ => .npInt i
  | .npFloat x, _ => .npFloat x
  | .npComplex z, h => by cases h
  | .obj s, _ => .obj s
  | .dict d, h => by
    rw [convChild, convItems_eq] at h
    cases h with
    | dict _ hk h =>
      refine .dict d (fun kv hkv => hk (kv.1, convChild kv.2) (List.mem_map_of_mem (f := fun kv => (kv.1, convChild kv.2)) hkv))
        (fun kv hkv => ?_)
      have := List.sizeOf_lt_of_mem hkv
      obtain ⟨k, v⟩ := kv
      exact real_of_serializable v (h (k, convChild v) (List.mem_map_of_mem (f := fun kv => (kv.1, convChild kv.2)) hkv))
  | .list l, h => by
    rw [convChild, convList_eq] at h
    cases h with
    | list _ h =>
      refine .list l (fun v hv => ?_)
      have := List.sizeOf_lt_of_mem hv
      exact real_of_serializable v (h _ (List.mem_map_of_mem hv))
  | .ndarray t, h => by
    by_cases hc : t.isContainer = true
    · simp only [convChild, hc, if_true] at h
      exact .ndarray t hc (real_of_serializable t h)
    · simp only [convChild, hc] at h
      exact .ndarray0 t (by simpa using hc) h
  | .sparse t, h => by
    by_cases hc : t.isContainer = true
    · simp only [convChild, hc, if_true] at h
      exact .sparse t hc (real_of_serializable t h)
    · simp only [convChild, hc] at h
      exact .sparse0 t (by simpa using hc) h
termination_by v => sizeOf v
decreasing_by all_goals (simp_all; try omega)

/-- **C73**, exactly: what `json_decodable` leaves can be serialized if and only if the tree has no complex
number, no key that `json.dumps` refuses, and no array of zero dimensions with an item that it refuses. -/
theorem C73_iff (x : Val F C) (hx : x.isContainer = true) : Serializable (jsonDecodable x) ↔ Real x := by
  rw [jsonDecodable_eq hx]
  exact ⟨real_of_serializable x, conv_serializable⟩

/-- A list with an array of zero dimensions. -/
example : ∃ x : Val Int Int, x = .list [.ndarray (.int 3)] ∧ x.isContainer = true ∧ DistinctKeys x := by
  refine ⟨_, rfl, rfl, .list _ (fun v hv => ?_)⟩
  rw [List.mem_singleton] at hv
  subst hv
  exact .ndarray _ (.leaf (by simp) (by simp) (by simp) (by simp))

end Kam.Util
