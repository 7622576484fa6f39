/-
What C125 and C126 speak about, independent of the encoder and the decoder.
-/
import Verif.Json.Model

namespace Kam.Scripts

/-- No dictionary in a tree has a key twice. -/
inductive J.Keys {V : Type} : J V → Prop
  | leaf (v : V) : J.Keys (.leaf v)
  | list {l : List (J V)} (h : ∀ j ∈ l, J.Keys j) : J.Keys (.list l)
  | dict {d : List (String × J V)} (hn : (d.map (·.1)).Nodup) (h : ∀ p ∈ d, J.Keys p.2) : J.Keys (.dict d)

end Kam.Scripts

namespace Kam.Json
open Scripts Kam.Convert

/-- White space. -/
def White (t : Str) : Prop := ∀ c ∈ t, c = ' ' ∨ c = '\t' ∨ c = '\n' ∨ c = '\r'

/-- At least one digit and nothing else. -/
def Digits (s : Str) : Prop := s ≠ [] ∧ ∀ c ∈ s, c.isDigit = true

/-- The texts of finite floats: `-0.25`, `1e-05`, `3.0`; a fraction or an exponent is there. -/
def FloatText (u : Str) : Prop :=
  ∃ sg ip fp ep : Str, u = sg ++ (ip ++ (fp ++ ep)) ∧
    (sg = [] ∨ sg = ['-']) ∧
    Digits ip ∧ (ip = ['0'] ∨ ip.head? ≠ some '0') ∧
    (fp = [] ∨ ∃ ds, fp = '.' :: ds ∧ Digits ds) ∧
    (ep = [] ∨ ∃ e s ds, ep = e :: (s ++ ds) ∧ (e = 'e' ∨ e = 'E') ∧ (s = [] ∨ s = ['-'] ∨ s = ['+']) ∧ Digits ds) ∧
    ¬ (fp = [] ∧ ep = [])

/-- What is assumed about `float.__repr__` and `float`: finite floats are written as floats and read back (Python promises
the shortest text that is read back). -/
structure Floats.Faithful {R : Type} (fl : Floats R) : Prop where
  text : ∀ x, FloatText (fl.repr x)
  back : ∀ x, fl.read (fl.repr x) = x

end Kam.Json
