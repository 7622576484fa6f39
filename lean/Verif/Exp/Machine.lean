/-
Model of the environment section of a result file: `get_system_info` and `get_version_info`
(kamrecsys/utils/kamexputils.py:103-179) and the part of `do_task` that stores them
(scripts/exp_recsys_util.py:312-316).
-/
import Verif.Exp.Model
import Verif.Convert.Text

set_option linter.unusedSectionVars false

namespace Kam.Exp
open Scripts Kam.Convert

variable {α φ ε F V T γ : Type} [LinearOrder α]

/-- What the scripts take from the machine they run on: the answers of `platform`, the version numbers of the
packages, the name of the program, whether `/dev/null` can be opened for writing, and the output of a command:
`none` when it cannot be started, `some none` when the output is not UTF-8. -/
structure Machine where
  system : String
  release : String
  version : String
  machine : String
  processor : String
  node : String
  devNull : Bool
  output : List String → Option (Option Str)
  sklearn : String
  numpy : String
  scipy : String
  compiler : String
  implementation : String
  python : String
  kamrecsys : String
  argv0 : Str

/-- The bytes a command writes, decoded (utils/kamexputils.py:132-137, 140-144, 146-150): `OSError` when it cannot be
started, `UnicodeDecodeError`, a `ValueError`, when they are not UTF-8. -/
def Machine.run (m : Machine) (command : List String) : Res Str :=
  match m.output command with
  | none => .error .ioError
  | some none => .error .valueError
  | some (some s) => .ok s

/-- `hard_info` (utils/kamexputils.py:129-152). -/
def Machine.hardware (m : Machine) : Res (List Str) :=
  -- utils/kamexputils.py:130
  if ¬ m.devNull then .error .ioError
  else if m.system = "Darwin" then do
    -- utils/kamexputils.py:132-138
    let s ← m.run ["/usr/sbin/system_profiler", "-detailLevel", "mini", "SPHardwareDataType"]
    let l := split '\n' s
    return ((l.take (l.length - 2)).drop 4).map (fun i => i.dropWhile (fun c => decide (c = ' ')))
  else if m.system = "FreeBSD" then do
    -- utils/kamexputils.py:140-144
    let s ← m.run ["/sbin/sysctl", "hw"]
    return split '\n' s
  else if m.system = "Linux" then do
    -- utils/kamexputils.py:146-150
    let s ← m.run ["/bin/cat", "/proc/cpuinfo"]
    return split '\n' s
  else
    -- utils/kamexputils.py:152
    .ok []

/-- `get_system_info(output_node_info)` (utils/kamexputils.py:103-155); `str` writes a string. -/
def Machine.systemInfo (m : Machine) (str : String → V) (node : Bool) : Res (Dict String (J V)) := do
  -- utils/kamexputils.py:121-125
  let info : Dict String (J V) := [("system", .leaf (str m.system)), ("release", .leaf (str m.release)),
    ("version", .leaf (str m.version)), ("machine", .leaf (str m.machine)), ("processor", .leaf (str m.processor))]
  -- utils/kamexputils.py:126-127
  let info := if node then info.set "node" (.leaf (str m.node)) else info
  let hard ← m.hardware
  -- utils/kamexputils.py:153
  return info.set "hardware" (.list (hard.map (fun l => .leaf (str (String.ofList l)))))

/-- `get_version_info` (utils/kamexputils.py:158-179). -/
def Machine.versionInfo (m : Machine) (str : String → V) : Dict String (J V) :=
  [("sklearn", .leaf (str m.sklearn)), ("numpy", .leaf (str m.numpy)), ("scipy", .leaf (str m.scipy)),
    ("python_compiler", .leaf (str m.compiler)), ("python_implementation", .leaf (str m.implementation)),
    ("python", .leaf (str m.python))]

/-- `__version__` of the scripts, as `--version` prints it (exp_recsys_sp.py:109, exp_recsys_if.py:111). -/
def Script.version : Script → String
  | .sp => "5.0.0"
  | .itemFinder => "3.0.0"

/-- `__version__` in exp_recsys_util.py:35. -/
def utilVersion : String := "2.0.0"

/-- `os.path.basename` (exp_recsys_util.py:313). -/
def basename (s : Str) : Str := ((split '/' s).getLast?).getD []

/-- `info['environment']` (exp_recsys_util.py:312-316). -/
def Machine.environment (m : Machine) (str : String → V) : Res (Dict String (J V)) := do
  let sys ← m.systemInfo str false
  return [("script", .dict [("name", .leaf (str (String.ofList (basename m.argv0)))), ("version", .leaf (str utilVersion))]),
    ("system", .dict sys), ("version", .dict ((m.versionInfo str).set "kamrecsys" (.leaf (str m.kamrecsys))))]

/-- What happens before the environment is looked up: `init_info` and the first lines of `do_task`
(exp_recsys_util.py:296-303). -/
noncomputable def before (env : Env ℝ α ε F V T γ) (sc : Script) (o : Namespace F) : Res Unit := do
  let info ← initInfo sc o
  let seed ← seedOf info.options
  let _ ← (match seed with
    | some n => env.ofSeed n
    | none => .ok env.entropy)
  if o.foldNo.any (fun t => t < 0 ∨ info.nFolds ≤ t) then .error .typeError else .ok ()

/-- `init_info` and `do_task` on a machine (exp_recsys_sp.py:324-334, exp_recsys_if.py:311-321,
exp_recsys_util.py:278-332). -/
noncomputable def taskOn (env : Env ℝ α ε F V T γ) (lib : Lib α φ ε V γ) (clock : Nat → T) (m : Machine)
    (read : Bool → F → Res (Table ℝ α ε)) (sc : Script) (o : Namespace F) : Res (J V) := do
  before env sc o
  let e ← m.environment (fun s => lib.leaf (.str s))
  task env lib clock e read sc o

/-- The script on a machine; `none` when argparse ends it. -/
noncomputable def mainOn (env : Env ℝ α ε F V T γ) (lib : Lib α φ ε V γ) (clock : Nat → T) (m : Machine)
    (read : Bool → F → Res (Table ℝ α ε)) (sc : Script) (stdin stdout : F) (args : List (Arg F)) (pos : List F) :
    Option (Res (J V)) :=
  (commandLine sc stdin stdout args pos).map (taskOn env lib clock m read sc)

end Kam.Exp
