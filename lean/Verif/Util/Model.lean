/-
Model of kamrecsys/utils/kamexputils.py: `json_decodable`, on trees of Python and numpy values.
The function works in place; a container shared between two places of the tree is converted once and
found converted the second time, which gives the same tree.  Containers that contain themselves are
not trees (Python exceeds its recursion limit on them) and are not modelled.
-/
import Verif.Py.Basic

namespace Kam.Util

/-- Dictionary keys. -/
inductive Key (F : Type) where
  | str (s : String)
  | int (i : Int)
  | float (x : F)
  | bool (b : Bool)
  | none
  | npInt (i : Int)
  | obj (repr : String)
deriving DecidableEq

/-- Python and numpy values; `F` are the floating-point and `C` the complex numbers.  `ndarray t` is an
array of which `tolist()` is `t`: a list, or a single item for an array of zero dimensions.
`sparse t` is a sparse matrix of which `toarray().tolist()` is `t`.  `obj s` is any other object, with
`str(object) = s` (tuples, dates, functions, ...). -/
inductive Val (F C : Type) where
  | bool (b : Bool)
  | int (i : Int)
  | float (x : F)
  | complex (z : C)
  | str (s : String)
  | none
  | npBool (b : Bool)
  | npInt (i : Int)
  | npFloat (x : F)
  | npComplex (z : C)
  | obj (repr : String)
  | dict (items : List (Key F × Val F C))
  | list (items : List (Val F C))
  | ndarray (tolist : Val F C)
  | sparse (tolist : Val F C)

variable {F C : Type}

/-- `isinstance(v, (dict, list))`. -/
def Val.isContainer : Val F C → Bool
  | .dict _ => true
  | .list _ => true
  | _ => false

/-- `str(True)` and `str(False)`. -/
def boolStr (b : Bool) : String := if b then "True" else "False"

mutual
/-- What is stored for the child `v` of a container (kamexputils.py:67-82, 85-100; the branches for
dictionaries and lists are the same). -/
def convChild : Val F C → Val F C
  | .dict d => .dict (convItems d)
  | .list l => .list (convList l)
  -- kamexputils.py:69-71, 72-74: `json_decodable(x[k])` does nothing unless `x[k]` is a dict or a list
  | .ndarray t => if t.isContainer then convChild t else t
  | .sparse t => if t.isContainer then convChild t else t
  | .npInt i => .int i
  | .npFloat x => .float x
  | .npComplex z => .complex z
  | .bool b => .bool b
  | .int i => .int i
  | .float x => .float x
  | .complex z => .complex z
  | .str s => .str s
  | .none => .str "None"
  | .npBool b => .str (boolStr b)
  | .obj s => .str s
/-- The loop over the items of a dictionary (kamexputils.py:66). -/
def convItems : List (Key F × Val F C) → List (Key F × Val F C)
  | [] => []
  | (k, v) :: d => (k, convChild v) :: convItems d
/-- The loop over the entries of a list (kamexputils.py:84). -/
def convList : List (Val F C) → List (Val F C)
  | [] => []
  | v :: l => convChild v :: convList l
end

/-- The value of `x` after `json_decodable(x)` (kamexputils.py:49-100): nothing happens to values that
are neither dictionaries nor lists. -/
def jsonDecodable (x : Val F C) : Val F C :=
  match x with
  | .dict d => .dict (convItems d)
  | .list l => .list (convList l)
  | v => v

end Kam.Util
