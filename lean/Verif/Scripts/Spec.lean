/-
Specification vocabulary for the experiment scripts: reading result files, comparing folds, and the
histories a result file can have.
-/
import Verif.Scripts.Model
import Verif.Score.Spec

set_option linter.unusedSectionVars false

namespace Kam.Scripts

section read
variable {V : Type}

/-- `j[k₁][k₂]...`. -/
def J.path (j : J V) (ks : List String) : Res (J V) := ks.foldlM (fun j k => j.item k) j

/-- The fold numbers of a result file, as `training` has them. -/
def J.HasFold (j : J V) (key : String) : Prop :=
  ∃ d : Dict String (J V), j.path ["training", "results"] = .ok (.dict d) ∧ key ∈ d.keys

/-- The entries that depend on the clock. -/
def timing : List String := ["start_time", "end_time", "elapsed_time", "elapsed_utime"]

/-- Two result files agree on a fold: both have it, with the same training and test results up to times,
the same events, true scores, predictions and test positions, and the same event features (or none). -/
structure SameFold (a b : J V) (key : String) : Prop where
  results : ∀ sec ∈ ["training", "test"], ∃ x y : Dict String (J V),
    a.path [sec, "results", key] = .ok (.dict x) ∧ b.path [sec, "results", key] = .ok (.dict y) ∧
    ∀ k, (k ∈ x.keys ↔ k ∈ y.keys) ∧ (k ∉ timing → x.get? k = y.get? k)
  prediction : ∀ sub ∈ ["event", "true", "predicted", "mask"], ∃ v : J V,
    a.path ["prediction", sub, key] = .ok v ∧ b.path ["prediction", sub, key] = .ok v
  feature : ∀ k, a.path ["prediction", "event_feature", k, key] = b.path ["prediction", "event_feature", k, key]

/-- Two result files agree on the description of the data. -/
def SameData (a b : J V) : Prop := ∀ sec ∈ ["training", "test"], ∀ k ∈ ["file", "n_events", "n_users", "n_items"],
  ∃ v : J V, a.path [sec, k] = .ok v ∧ b.path [sec, k] = .ok v

/-- A list as it stands, or the values of a dictionary of lists one after another. -/
inductive Flat : J V → List (J V) → Prop
  | list (l : List (J V)) : Flat (.list l) l
  | dict (d : Dict String (J V)) (parts : List (List (J V))) : d.map (·.2) = parts.map J.list → Flat (.dict d) parts.flatten

/-- A hold-out file with a single test event, or a file with a fold that has a single test event. -/
def J.OneTest (j : J V) : Prop := (∃ x, j.path ["prediction", "event"] = .ok (.list [x])) ∨
  ∃ key x, j.path ["prediction", "event", key] = .ok (.list [x])

end read

variable {K α φ ε F V T γ M : Type} [Field K] [LinearOrder K] [IsStrictOrderedRing K] [FloorRing K] [LinearOrder α]

/-- The number of events of a user among those at the positions `ix`. -/
def eventsOf (rows : List (List α)) (u : α) (ix : List Nat) : Nat :=
  (ix.filter (fun i => decide ((rows[i]?).bind List.head? = some u))).length

/-- A loader that returns containers filled by the API. -/
def Loads (load : Loader K α φ ε F) : Prop := ∀ f dom d dm, load f dom = .ok (d, dm) →
  ∃ rows sc, Spec.ScoreBuilt d rows sc

/-- What `np.genfromtxt` returns for a file of events: two columns of ids, and one score and at most one
feature per event. -/
structure TableOk (t : Table K α ε) : Prop where
  regular : t.event.Regular
  cols : t.event.ncols = 2
  score : t.score.length = t.event.rows.length
  feature : ∀ f, t.feature = some f → f.length = t.event.rows.length

/-- One score per requested event, an array except for a single event, as `predict` of every recommender
returns (property C23). -/
def ScoresEach (rec : Recommender K α φ ε V γ M) : Prop := ∀ m evs esc, rec.predict m evs = .ok esc →
  ∃ ys : List K, esc = squeeze ys ∧ ys.length = evs.length

/-- An event of a loaded file, the score the file gives to it, and the score a fitted recommender predicted
for it. -/
def Genuine (rec : Recommender K α φ ε V γ M) (load : Loader K α φ ε F) (x : List α × K × K) : Prop :=
  ∃ f dom d dm rows sc, load f dom = .ok (d, dm) ∧ Spec.ScoreBuilt d rows sc ∧
    (∃ i : Nat, rows[i]? = some x.1 ∧ sc[i]? = some x.2.1) ∧
    ∃ (g g' : γ) (d' : ScoreData K α φ ε) (m : M) (res : Dict String (J V)) (evs : List (List α)) (esc : List K) (i : Nat),
      rec.fit g d' = .ok (m, res, g') ∧ rec.predict m evs = .ok (squeeze esc) ∧ evs[i]? = some x.1 ∧ esc[i]? = some x.2.2

/-- The result files that can come about: written by a run of the experiment script, or by the merge script
from such files. -/
inductive Made (env : Env K α ε F V T γ) (rec : Recommender K α φ ε V γ M) (load : Loader K α φ ε F) (tru : V) : J V → Prop
  | run {clock : Nat → T} {s : Setting K F V} {target : Option Int} {j : J V} :
      doTask env clock rec load s target = .ok j → Made env rec load tru j
  | merge {out : V} {files : List (J V)} {j : J V} : (∀ f ∈ files, Made env rec load tru f) →
      merge tru out files = .ok j → Made env rec load tru j

end Kam.Scripts
