/-
C57, C58, C73: `json_decodable`.
-/
import Verif.Util.Model
import Verif.Py.Lemmas

namespace Kam.Util
variable {F C : Type} [DecidableEq F]

/-! ### specification -/

/-- A step into a tree: a key of a dictionary, or a position of a list or array. -/
inductive Step (F : Type) where
  | key (k : Key F)
  | idx (i : Nat)

/-- `x[k]`; an array is entered like the list of its rows. -/
def child : Val F C → Step F → Option (Val F C)
  | .dict d, .key k => Dict.get? d k
  | .list l, .idx i => l[i]?
  | .ndarray t, s => child t s
  | .sparse t, s => child t s
  | _, _ => none

/-- `x[k1][k2]...[kn]`. -/
def follow : Val F C → List (Step F) → Option (Val F C)
  | x, [] => some x
  | x, s :: p => (child x s).bind (fun y => follow y p)

/-- Plain Python scalars. -/
inductive Plain : Val F C → Prop
  | bool (b) : Plain (.bool b)
  | int (i) : Plain (.int i)
  | float (x) : Plain (.float x)
  | complex (z) : Plain (.complex z)
  | str (s) : Plain (.str s)

/-- Trees in which every array of zero dimensions holds a plain scalar. -/
inductive Regular : Val F C → Prop
  | plain {v} (h : Plain v) : Regular v
  | none : Regular .none
  | npBool (b) : Regular (.npBool b)
  | npInt (i) : Regular (.npInt i)
  | npFloat (x) : Regular (.npFloat x)
  | npComplex (z) : Regular (.npComplex z)
  | obj (s) : Regular (.obj s)
  | dict (d) (h : ∀ kv ∈ d, Regular kv.2) : Regular (.dict d)
  | list (l) (h : ∀ v ∈ l, Regular v) : Regular (.list l)
  | ndarray (t) (hc : t.isContainer = true) (h : Regular t) : Regular (.ndarray t)
  | ndarray0 (t) (h : Plain t) : Regular (.ndarray t)
  | sparse (t) (hc : t.isContainer = true) (h : Regular t) : Regular (.sparse t)
  | sparse0 (t) (h : Plain t) : Regular (.sparse t)

/-- What becomes of a node: containers keep keys and lengths, plain scalars stay, numpy scalars become
the Python scalars of the same value, arrays what becomes of their lists, anything else a string. -/
inductive Kept : Val F C → Val F C → Prop
  | dict (d d') (h : d'.map (·.1) = d.map (·.1)) : Kept (.dict d) (.dict d')
  | list (l l') (h : l'.length = l.length) : Kept (.list l) (.list l')
  | plain {v} (h : Plain v) : Kept v v
  | npInt (i) : Kept (.npInt i) (.int i)
  | npFloat (x) : Kept (.npFloat x) (.float x)
  | npComplex (z) : Kept (.npComplex z) (.complex z)
  | ndarray {t w} (h : Kept t w) : Kept (.ndarray t) w
  | sparse {t w} (h : Kept t w) : Kept (.sparse t) w
  | none : Kept .none (.str "None")
  | npBool (b) : Kept (.npBool b) (.str (if b then "True" else "False"))
  | obj (s) : Kept (.obj s) (.str s)

/-- What `json.dumps` accepts: no complex numbers, and keys that are strings, Python numbers, booleans or
`None`. -/
inductive Serializable : Val F C → Prop
  | bool (b) : Serializable (.bool b)
  | int (i) : Serializable (.int i)
  | float (x) : Serializable (.float x)
  | str (s) : Serializable (.str s)
  | none : Serializable .none
  | dict (d) (hk : ∀ kv ∈ d, (∀ i, kv.1 ≠ .npInt i) ∧ ∀ s, kv.1 ≠ .obj s)
      (h : ∀ kv ∈ d, Serializable kv.2) : Serializable (.dict d)
  | list (l) (h : ∀ v ∈ l, Serializable v) : Serializable (.list l)

/-- Trees without complex numbers, with keys accepted by `json.dumps` and arrays of at least one
dimension or holding a serializable item. -/
inductive Real : Val F C → Prop
  | ready {v} (hc : v.isContainer = false) (h : Serializable v) : Real v
  | npBool (b) : Real (.npBool b)
  | npInt (i) : Real (.npInt i)
  | npFloat (x) : Real (.npFloat x)
  | obj (s) : Real (.obj s)
  | dict (d) (hk : ∀ kv ∈ d, (∀ i, kv.1 ≠ .npInt i) ∧ ∀ s, kv.1 ≠ .obj s)
      (h : ∀ kv ∈ d, Real kv.2) : Real (.dict d)
  | list (l) (h : ∀ v ∈ l, Real v) : Real (.list l)
  | ndarray (t) (hc : t.isContainer = true) (h : Real t) : Real (.ndarray t)
  | ndarray0 (t) (hc : t.isContainer = false) (h : Serializable t) : Real (.ndarray t)
  | sparse (t) (hc : t.isContainer = true) (h : Real t) : Real (.sparse t)
  | sparse0 (t) (hc : t.isContainer = false) (h : Serializable t) : Real (.sparse t)

/-! ### lemmas -/

omit [DecidableEq F] in
theorem convItems_eq (d : List (Key F × Val F C)) :
    convItems d = d.map (fun kv => (kv.1, convChild kv.2)) := by
  induction d with
  | nil => rfl
  | cons kv d ih =>
    obtain ⟨k, v⟩ := kv
    simp [convItems, ih]

omit [DecidableEq F] in
theorem convList_eq (l : List (Val F C)) : convList l = l.map convChild := by
  induction l with
  | nil => rfl
  | cons v l ih => simp [convList, ih]

theorem get?_map_values (d : List (Key F × Val F C)) (f : Val F C → Val F C) (k : Key F) :
    Dict.get? (d.map (fun kv => (kv.1, f kv.2))) k = (Dict.get? d k).map f := by
  induction d with
  | nil => rfl
  | cons kv d ih =>
    obtain ⟨k', v⟩ := kv
    simp only [List.map_cons, Dict.get?]
    split
    · rfl
    · exact ih

theorem mem_of_get? {d : List (Key F × Val F C)} {k : Key F} {v : Val F C}
    (h : Dict.get? d k = some v) : (k, v) ∈ d := by
  induction d with
  | nil => cases h
  | cons kv d ih =>
    obtain ⟨k', v'⟩ := kv
    simp only [Dict.get?] at h
    split at h
    · rename_i hk
      injection h with h
      subst h; subst hk
      simp
    · exact List.mem_cons_of_mem _ (ih h)

theorem child_plain {v : Val F C} (h : Plain v) (s : Step F) : child v s = none := by
  cases h <;> rfl

omit [DecidableEq F] in
theorem conv_plain {v : Val F C} (h : Plain v) : convChild v = v := by
  cases h <;> rfl

omit [DecidableEq F] in
theorem plain_not_container {v : Val F C} (h : Plain v) : v.isContainer = false := by
  cases h <;> rfl

theorem child_conv {v : Val F C} (h : Regular v) (s : Step F) :
    child (convChild v) s = (child v s).map convChild := by
  induction h with
  | plain h => rw [conv_plain h, child_plain h]; rfl
  | none | npBool | npInt | npFloat | npComplex | obj => rfl
  | dict d h _ =>
    cases s with
    | key k => simp only [convChild, child, convItems_eq, get?_map_values]
    | idx i => rfl
  | list l h _ =>
    cases s with
    | key k => rfl
    | idx i => simp only [convChild, child, convList_eq, List.getElem?_map]
  | ndarray t hc h ih => simp only [convChild, hc, if_true, child, ih]
  | ndarray0 t h =>
    simp only [convChild, plain_not_container h, child, Bool.false_eq_true, if_false, child_plain h,
      Option.map_none]
  | sparse t hc h ih => simp only [convChild, hc, if_true, child, ih]
  | sparse0 t h =>
    simp only [convChild, plain_not_container h, child, Bool.false_eq_true, if_false, child_plain h,
      Option.map_none]

theorem child_regular {v w : Val F C} (h : Regular v) {s : Step F} (hw : child v s = some w) :
    Regular w := by
  induction h with
  | plain h => rw [child_plain h] at hw; cases hw
  | none | npBool | npInt | npFloat | npComplex | obj => cases hw
  | dict d h _ =>
    cases s with
    | key k => exact h (k, w) (mem_of_get? hw)
    | idx i => cases hw
  | list l h _ =>
    cases s with
    | key k => cases hw
    | idx i => exact h w (List.mem_of_getElem? hw)
  | ndarray t hc h ih => exact ih hw
  | ndarray0 t h =>
    have := child_plain h s
    simp only [child, this] at hw
    cases hw
  | sparse t hc h ih => exact ih hw
  | sparse0 t h =>
    have := child_plain h s
    simp only [child, this] at hw
    cases hw

theorem follow_conv (p : List (Step F)) {v : Val F C} (h : Regular v) :
    follow (convChild v) p = (follow v p).map convChild := by
  induction p generalizing v with
  | nil => rfl
  | cons s p ih =>
    simp only [follow, child_conv h]
    cases hc : child v s with
    | none => rfl
    | some w => simpa using ih (child_regular h hc)

theorem follow_regular (p : List (Step F)) {v w : Val F C} (h : Regular v)
    (hw : follow v p = some w) : Regular w := by
  induction p generalizing v with
  | nil => simp only [follow, Option.some.injEq] at hw; rw [← hw]; exact h
  | cons s p ih =>
    simp only [follow] at hw
    cases hc : child v s with
    | none => rw [hc] at hw; cases hw
    | some u =>
      rw [hc] at hw
      exact ih (child_regular h hc) hw

omit [DecidableEq F] in
theorem conv_kept {v : Val F C} (h : Regular v) : Kept v (convChild v) := by
  induction h with
  | plain h => rw [conv_plain h]; exact .plain h
  | none => exact .none
  | npBool b => exact .npBool b
  | npInt i => exact .npInt i
  | npFloat x => exact .npFloat x
  | npComplex z => exact .npComplex z
  | obj s => exact .obj s
  | dict d h _ =>
    refine .dict d _ ?_
    rw [convItems_eq, List.map_map]
    rfl
  | list l h _ =>
    refine .list l _ ?_
    rw [convList_eq, List.length_map]
  | ndarray t hc h ih => simp only [convChild, hc, if_true]; exact .ndarray ih
  | ndarray0 t h =>
    simp only [convChild, plain_not_container h, Bool.false_eq_true, if_false]
    exact .ndarray (.plain h)
  | sparse t hc h ih => simp only [convChild, hc, if_true]; exact .sparse ih
  | sparse0 t h =>
    simp only [convChild, plain_not_container h, Bool.false_eq_true, if_false]
    exact .sparse (.plain h)

omit [DecidableEq F] in
theorem conv_node {v : Val F C} (h : Regular v) :
    Plain (convChild v) ∨ (convChild v).isContainer = true := by
  induction h with
  | plain h => rw [conv_plain h]; exact .inl h
  | none => exact .inl (.str _)
  | npBool b => exact .inl (.str _)
  | npInt i => exact .inl (.int i)
  | npFloat x => exact .inl (.float x)
  | npComplex z => exact .inl (.complex z)
  | obj s => exact .inl (.str s)
  | dict d h _ => exact .inr rfl
  | list l h _ => exact .inr rfl
  | ndarray t hc h ih => simp only [convChild, hc, if_true]; exact ih
  | ndarray0 t h =>
    simp only [convChild, plain_not_container h, Bool.false_eq_true, if_false]
    exact .inl h
  | sparse t hc h ih => simp only [convChild, hc, if_true]; exact ih
  | sparse0 t h =>
    simp only [convChild, plain_not_container h, Bool.false_eq_true, if_false]
    exact .inl h

omit [DecidableEq F] in
theorem conv_idem {v : Val F C} (h : Regular v) : convChild (convChild v) = convChild v := by
  induction h with
  | plain h => rw [conv_plain h, conv_plain h]
  | none | npBool | npInt | npFloat | npComplex | obj => rfl
  | dict d h ih =>
    simp only [convChild, convItems_eq, List.map_map]
    congr 1
    apply List.map_congr_left
    intro kv hkv
    simp only [Function.comp, ih kv hkv]
  | list l h ih =>
    simp only [convChild, convList_eq, List.map_map]
    congr 1
    apply List.map_congr_left
    intro v hv
    simp only [Function.comp, ih v hv]
  | ndarray t hc h ih => simp only [convChild, hc, if_true, ih]
  | ndarray0 t h =>
    simp only [convChild, plain_not_container h, Bool.false_eq_true, if_false, conv_plain h]
  | sparse t hc h ih => simp only [convChild, hc, if_true, ih]
  | sparse0 t h =>
    simp only [convChild, plain_not_container h, Bool.false_eq_true, if_false, conv_plain h]

omit [DecidableEq F] in
theorem jsonDecodable_eq {x : Val F C} (hx : x.isContainer = true) : jsonDecodable x = convChild x := by
  cases x <;> first | rfl | cases hx

/-! ### C57 -/

/-- What C57 asks for. -/
def C57_full (F C : Type) [DecidableEq F] (x : Val F C) : Prop :=
  (∀ p v, follow (jsonDecodable x) p = some v → Plain v ∨ v.isContainer = true) ∧
  (∀ p v, follow x p = some v → ∃ w, follow (jsonDecodable x) p = some w ∧ Kept v w) ∧
  (∀ p, follow x p = none → follow (jsonDecodable x) p = none) ∧
  jsonDecodable (jsonDecodable x) = jsonDecodable x

/-- **C57.** For a dictionary or list in which arrays of zero dimensions hold plain scalars (what is
missing: other arrays of zero dimensions, see `C57_refuted`), after `json_decodable` every node is a
plain scalar, a dictionary or a list; every path of the tree leads to what its node is converted to,
with keys and lengths kept; there are no other paths; and converting again changes nothing. -/
theorem C57_plain_tree_partial (x : Val F C) (hx : x.isContainer = true) (h : Regular x) :
    C57_full F C x := by
  have hj := jsonDecodable_eq hx
  have hjc : (jsonDecodable x).isContainer = true := by
    cases x <;> first | rfl | cases hx
  refine ⟨?_, ?_, ?_, ?_⟩
  · intro p v hv
    rw [hj, follow_conv p h, Option.map_eq_some_iff] at hv
    obtain ⟨u, hu, rfl⟩ := hv
    exact conv_node (follow_regular p h hu)
  · intro p v hv
    rw [hj, follow_conv p h, hv]
    exact ⟨_, rfl, conv_kept (follow_regular p h hv)⟩
  · intro p hp
    rw [hj, follow_conv p h, hp]
    rfl
  · rw [jsonDecodable_eq hjc, hj, conv_idem h]

/-- **C57** is false of arrays of zero dimensions that hold `None` (or a date): the item is stored as it
is, and only the next call turns it into a string. -/
theorem C57_refuted : ∃ x : Val Int Int, x.isContainer = true ∧ ¬ C57_full Int Int x ∧
    jsonDecodable (jsonDecodable x) ≠ jsonDecodable x := by
  refine ⟨.list [.ndarray .none], rfl, ?_, ?_⟩
  · rintro ⟨h, -⟩
    rcases h [.idx 0] .none rfl with h | h <;> cases h
  · intro h
    simp [jsonDecodable, convList, convChild, Val.isContainer] at h

/-- The hypotheses of `C57_plain_tree_partial` are met by a nested tree with arrays. -/
example : ∃ x : Val Int Int,
    x = .dict [(.str "a", .list [.npInt 3, .none]), (.int 1, .ndarray (.list [.float 2]))] ∧
    x.isContainer = true ∧ Regular x := by
  refine ⟨_, rfl, rfl, .dict _ ?_⟩
  intro kv hkv
  simp only [List.mem_cons, List.not_mem_nil, or_false] at hkv
  rcases hkv with rfl | rfl
  · refine .list _ ?_
    intro v hv
    simp only [List.mem_cons, List.not_mem_nil, or_false] at hv
    rcases hv with rfl | rfl
    · exact .npInt 3
    · exact .none
  · refine .ndarray _ rfl (.list _ ?_)
    intro v hv
    simp only [List.mem_cons, List.not_mem_nil, or_false] at hv
    subst hv
    exact .plain (.float 2)

/-! ### C58 -/

/-- What C58 asks for: truth values stay truth values. -/
def C58_full (F C : Type) [DecidableEq F] : Prop :=
  ∀ (x : Val F C) (b : Bool) (p : List (Step F)), x.isContainer = true → Regular x →
    (follow x p = some (.bool b) ∨ follow x p = some (.npBool b)) →
    follow (jsonDecodable x) p = some (.bool b)

/-- **C58** is false of the code: every numpy truth value becomes a string. -/
theorem C58_refuted : ¬ C58_full Int Int ∧
    ∀ (F C : Type) [DecidableEq F] (x : Val F C) (b : Bool) (p : List (Step F)),
      x.isContainer = true → Regular x → follow x p = some (.npBool b) →
      follow (jsonDecodable x) p = some (.str (if b then "True" else "False")) := by
  have key : ∀ (F C : Type) [DecidableEq F] (x : Val F C) (b : Bool) (p : List (Step F)),
      x.isContainer = true → Regular x → follow x p = some (.npBool b) →
      follow (jsonDecodable x) p = some (.str (if b then "True" else "False")) := by
    intro F C _ x b p hx h hp
    rw [jsonDecodable_eq hx, follow_conv p h, hp]
    rfl
  refine ⟨fun hf => ?_, key⟩
  have hreg : Regular (.list [.npBool true] : Val Int Int) := by
    refine .list _ ?_
    intro v hv
    simp only [List.mem_cons, List.not_mem_nil, or_false] at hv
    subst hv
    exact .npBool true
  have h1 := hf (.list [.npBool true]) true [.idx 0] rfl hreg (Or.inr rfl)
  have h2 := key Int Int (.list [.npBool true]) true [.idx 0] rfl hreg rfl
  rw [h1] at h2
  cases h2

/-- **C58** for Python truth values, also as entries of arrays (what is missing: numpy scalars, see
`C58_refuted`). -/
theorem C58_bool_partial (x : Val F C) (b : Bool) (p : List (Step F)) (hx : x.isContainer = true)
    (h : Regular x) (hp : follow x p = some (.bool b)) :
    follow (jsonDecodable x) p = some (.bool b) := by
  rw [jsonDecodable_eq hx, follow_conv p h, hp]
  rfl

/-! ### C73 -/

omit [DecidableEq F] in
theorem conv_serializable {v : Val F C} (h : Real v) : Serializable (convChild v) := by
  induction h with
  | ready hc h =>
    cases h with
    | bool b => exact .bool b
    | int i => exact .int i
    | float x => exact .float x
    | str s => exact .str s
    | none => exact .str _
    | dict d _ _ => cases hc
    | list l _ => cases hc
  | npBool b => exact .str _
  | npInt i => exact .int i
  | npFloat x => exact .float x
  | obj s => exact .str s
  | dict d hk h ih =>
    refine .dict _ ?_ ?_
    · intro kv hkv
      rw [convItems_eq, List.mem_map] at hkv
      obtain ⟨kv', h', rfl⟩ := hkv
      exact hk kv' h'
    · intro kv hkv
      rw [convItems_eq, List.mem_map] at hkv
      obtain ⟨kv', h', rfl⟩ := hkv
      exact ih kv' h'
  | list l h ih =>
    refine .list _ ?_
    intro v hv
    rw [convList_eq, List.mem_map] at hv
    obtain ⟨w, hw, rfl⟩ := hv
    exact ih w hw
  | ndarray t hc h ih => simp only [convChild, hc, if_true]; exact ih
  | ndarray0 t hc h => simp only [convChild, hc, Bool.false_eq_true, if_false]; exact h
  | sparse t hc h ih => simp only [convChild, hc, if_true]; exact ih
  | sparse0 t hc h => simp only [convChild, hc, Bool.false_eq_true, if_false]; exact h

omit [DecidableEq F] in
/-- **C73.** Trees without complex numbers and with keys that `json.dumps` accepts are serializable after
`json_decodable` (what is missing: complex numbers and other keys, see `C73_refuted`). -/
theorem C73_serializable_partial (x : Val F C) (hx : x.isContainer = true) (h : Real x) :
    Serializable (jsonDecodable x) := by
  rw [jsonDecodable_eq hx]
  exact conv_serializable h

/-- **C73** is false of the code: complex numbers stay complex numbers, and keys are not converted. -/
theorem C73_refuted :
    (∃ x : Val Int Int, x.isContainer = true ∧ Regular x ∧ ¬ Serializable (jsonDecodable x)) ∧
    ∀ (i : Int) (d : List (Key Int × Val Int Int)),
      ¬ Serializable (jsonDecodable (.dict ((.npInt i, .int 0) :: d))) := by
  constructor
  · refine ⟨.list [.npComplex 1], rfl, ?_, ?_⟩
    · refine .list _ ?_
      intro v hv
      simp only [List.mem_cons, List.not_mem_nil, or_false] at hv
      subst hv
      exact .npComplex 1
    · intro h
      cases h with
      | list l h =>
        have := h (.complex 1) (List.mem_cons_self ..)
        cases this
  · intro i d h
    cases h with
    | dict d' hk h =>
      exact (hk (.npInt i, .int 0) (List.mem_cons_self ..)).1 i rfl

/-- The hypotheses of `C73_serializable_partial` are met by a dictionary with a numpy truth value, `None` and
an array. -/
example : ∃ x : Val Int Int,
    x = .dict [(.str "a", .npBool true), (.none, .none), (.int 1, .ndarray (.list [.float 2]))] ∧
    x.isContainer = true ∧ Real x := by
  refine ⟨_, rfl, rfl, .dict _ ?_ ?_⟩
  · intro kv hkv
    simp only [List.mem_cons, List.not_mem_nil, or_false] at hkv
    rcases hkv with rfl | rfl | rfl <;> exact ⟨fun _ h => (by cases h), fun _ h => (by cases h)⟩
  · intro kv hkv
    simp only [List.mem_cons, List.not_mem_nil, or_false] at hkv
    rcases hkv with rfl | rfl | rfl
    · exact .npBool true
    · exact .ready rfl .none
    · refine .ndarray _ rfl (.list _ ?_)
      intro v hv
      simp only [List.mem_cons, List.not_mem_nil, or_false] at hv
      subst hv
      exact .ready rfl (.float 2)

end Kam.Util
