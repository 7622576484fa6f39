# Formal model of kamrecsys: design

`/verif/properties.jsonl` lists the properties (C01 ...).  `/verif/lean` is the
Lean 4 model, its theorems and the non-vacuity examples.  `/verif/MANIFEST.json`
maps each property to theorem names.  `/verif/seeded/LOG.jsonl` records the wrong
programs the theorems were tried against.

## Trusted base

* Lean 4.33.0's kernel; axioms `propext`, `Classical.choice`, `Quot.sound` only
  (checked with `tools/axioms.sh`, which prints the axioms of every theorem named
  in the manifest).  No axioms of our own, no `sorry`, `native_decide`, `bv_decide`.
* Mathlib (imported one module at a time) as a library of definitions and lemmas.
* The reading of `/repo`: the model is hand written, function by function, each
  definition citing the file and lines it models.  The code is never run here.
* The behaviour of Python / numpy / scikit-learn / scipy primitives as modelled in
  `Verif/Py/*.lean` (and, for scikit-learn's splitters, `Verif/Split/Model.lean`).

## Modelling conventions

* Exceptions are values: `Res a = Except Exc a` with `Exc` naming the Python class.
* External ids range over an arbitrary linearly ordered type (numpy integers or
  strings; `np.unique` needs the order).  Internal ids stored in event arrays are
  `Int` (the substitution table really contains `-1`), and array indexing has numpy's
  negative wrap-around.
* 1-d arrays are lists; 2-d arrays are lists of rows together with a column count.
* Python dicts are insertion ordered association lists.
* Floating point is modelled in exact arithmetic: a linear ordered field with floor
  where only field operations are used, the reals where `exp`, `log`, `sqrt` occur.
  NaN and infinities are explicit values where the code tests for them.  Rounding is
  modelled in `Verif/Float` only (score domains and levels, the logistic losses, error
  metrics, sizes of splits, predictions); the other statements about numbers are about exact arithmetic.
* Random generators, the scipy optimizer and the clock are parameters (arbitrary
  functions or states), so theorems hold for every outcome of them.
* Mutable aliasing is modelled separately by a store with references
  (`Verif/Heap`), related to the value-level model by an abstraction function.

## Layout

| directory | models |
|---|---|
| `Verif/Py` | exceptions, dict, numpy indexing, unique, bincount, digitize, arange, linspace |
| `Verif/Data` | `data/base.py`, `data/event.py` |
| `Verif/Score` | `data/event_with_score.py`, `metrics/base.py:generate_score_bins`, `utils/base.py:is_binary_score` |
| `Verif/Heap` | the same containers with shared mutable arrays, and fitted recommenders pointing into them |
| `Verif/Rec` | `base/base.py`, `score_predictor/base.py`, `item_finder/base.py` |
| `Verif/MF` | `score_predictor/matrix_factorization.py`, `item_finder/matrix_factorization.py`, `utils/kammath.py` |
| `Verif/PLSA` | `score_predictor/topic_model.py` |
| `Verif/Float` | binary64 rounding; the arithmetic of `event_with_score.py`, `generate_score_bins`, `safe_sigmoid` and the logistic loss with rounded operations (C114, C115); error metrics, gamma variance, split sizes and predictions as relations, sums in any order (C130-C134) |
| `Verif/Fit` | theorems about `fit` as a whole (C70, C113), no new model |
| `Verif/Split` | `model_selection/split.py` |
| `Verif/Metrics` | `metrics/*.py` |
| `Verif/Util` | `utils/kamexputils.py`, `utils/base.py` |
| `Verif/Est` | the recommenders as scikit-learn estimators: parameters, `set_params`, `clone` |
| `Verif/Opt` | the optimizer settings (`optimizer_kwargs`, `options`) as dictionaries in a store |
| `Verif/Scripts` | `scripts/exp_recsys_util.py`, `exp_recsys_fold_merge.py`, `stats_recsys.py`, `exp_recsys_if.py`, `exp_recsys_sp.py` |
| `Verif/Exp` | the command lines of `exp_recsys_sp.py` and `exp_recsys_if.py`, `init_info`, and runs with the models of the recommenders |
| `Verif/Relabel` | renamings of external ids through all of the above (C107, C108), no new model |
| `Verif/Shell` | the four scripts as programs on files: what argparse opens, what is read and written, runs alone, stopped and at the same time |
| `Verif/Args` | the command lines of the four scripts as strings: how argparse divides them, the conversions and actions |
| `Verif/Convert` | `kamrecsys/datasets/*.py`, `data/*.py` conversion scripts |

In each directory `Model.lean` is the model, `Spec.lean` the independent
specification vocabulary, `Lemmas.lean` helper lemmas and `Props.lean` the property
theorems with their non-vacuity examples.

## Plan per property

| id | what is modelled | how it is proved |
|---|---|---|
| C01 | set_event, to_eid_event | round trip by induction over columns and rows |
| C02 | _gen_id (unique, dict comprehension), set_event | spec: rank = number of distinct smaller ids; sorted list lemma |
| C03 | to_iid, to_eid | from C02; negation for negative internal ids (numpy wrap-around), so `_partial` |
| C04 | to_iid_event | dict lookup vs. membership in the training column |
| C05 | to_iid_event with scalar | refuted: negation for every non-empty input; nothing positive to keep except the vector case (C04) |
| C06 | filter_event (unique, substitution table, renumbering) | commuting square; strictly sorted lists with equal members are equal |
| C07 | filter_event | invariant "valid and no orphans" |
| C08 | filter_event with features and scores | pointwise |
| C09 | filter_event twice | via C06 plus feature alignment |
| C10 | constructors | decision logic |
| C11 | set_feature | last-write-wins loop invariant |
| C12 | set_event history | refuted for features (they are left stale); `_partial` for the rest; exact condition |
| C13 | heap model | separation invariant over all op sequences |
| C14 | set_event error branch | direct |
| C15 | digitize_score, n_score_levels | refuted for irregular domains; `_partial` for regular ones |
| C16 | digitize_score, get_score_levels | counting mid-points below s |
| C17 | set_event with score_domain=None | min/max/min-gap; refuted range part, with its exact condition |
| C18 | binarize_score | pointwise |
| C19 | BaseExplicitItemFinder.fit, is_binary_score | decision logic |
| C20 | BaseEventRecommender.fit, get_event | indexing |
| C21 | BaseEventRecommender.predict | refinement to "score of the spec ids" |
| C22 | predict, other layouts | refuted with a witness; `_partial` = C21's range; `C22_predict_exact` says what is computed for every layout and index, `C22_exact` when that is right |
| C23 | predict, raw_predict of each model | map lemma |
| C24 | heap model with recommenders | refuted by set_event after fit; `_partial` for histories without set_event on the training container; for every history predictions are the fitted parameters with the container's current id tables |
| C25 | remove_data | state after fit, independence |
| C26 | fit as a state transformer | result does not depend on the old state |
| C27 | option dictionaries in a store | refuted when a shared dictionary comes with a maxiter; `_partial` for all other histories; what fit passes to the optimizer |
| C28 | coefficient layout | explicit bijection with Fin n |
| C29 | PMF.loss, grad_loss | Frechet derivative over Fin n -> R |
| C30 | _init_coef | sums over fibres |
| C31 | loss | algebra, List.Perm |
| C32 | fit's appended rows, raw_predict | evaluation |
| C33 | grad_loss | the mu component is the residual sum |
| C34 | safe_sigmoid | exp monotone; numeric bound on the literal |
| C35 | LogisticPMF | refuted in the clipped region; `_partial` where no event is clipped; exact error and exact condition (`Verif/MF/Clip`) |
| C36 | ImplicitLogisticPMF | as C35 |
| C37 | both | sum over all pairs |
| C38 | get_event_array | refuted (repeated events, non-default index); `_partial`; exactly when binary; for every layout and index of two columns when the matrix exists and what it counts (`Verif/Rec/Matrix.lean`) |
| C39 | losses, predictions | log of a number in (0,1) |
| C40 | maximization_step, E-step | invariant over iterations |
| C41 | EM | Jensen / Gibbs inequality with a Dirichlet prior |
| C42 | EM loss | refuted for alpha > 0, `_partial` for alpha = 0; exact condition on alpha |
| C43 | raw_predict | convex combination, argmax |
| C44 | raw_predict with appended ones | marginal of the joint distribution |
| C45 | the EM loop control | refuted at maxiter = 0 and last-iteration convergence; `_partial` |
| C46 | InterlacedKFold, PredefinedSplit | mod arithmetic |
| C47, C48 | KFoldWithinGroups, KFold | block arithmetic per group |
| C49, C50 | ShuffleSplitWithinGroups, train_test_split | per group; C50 refuted |
| C51-C54 | metrics/real.py | real algebra |
| C55 | statistics_mean | list case refuted (TypeError); `_partial` for dicts |
| C56 | is_binary_score | decision logic |
| C57, C58 | json_decodable over a value tree | structural induction; C58 refuted for numpy booleans |
| C59 | item_finder_statistics | decision logic |
| C60-C65 | scripts as functions of an abstract rng, model and clock | folds over fold numbers; C63, C64 refuted |
| C66 | genfromtxt-like line parser | parse o print = id; refuted for one line |
| C67, C68 | converters as list functions | induction |
| C69 | `fit` as a state transformer that returns the mutated state with the exception | refuted for explicit item finders (id tables already replaced); parameters and results unchanged is proved; what predict does afterwards is stated exactly |
| C70 | fit of all four models | total correctness from C20 and the training code; refuted for one user or item (`allocate` raises) |
| C71 | variance_with_gamma_prior | refuted for arrays; `_partial` for lists |
| C72 | score_predictor_report / _statistics | evaluation |
| C73 | json_decodable, `json.dumps` domain | structural induction; refuted for complex numbers and numpy keys; exact condition |
| C74-C79, C81 | text loaders after conversion scripts | parse o print = id per line, then lists; refuted for single records, comment signs, long names |
| C80 | conversion scripts | equivalence per line, then lists |
| C82 | PMF with an optimizer that commutes with translations | algebra on `total`/`grad`, then through `fit` and `predict` |
| C83-C85, C89 | loss, gradient and prediction of the three models | invariance of the shared functions `est`, `reg`, `gradTerms` |
| C86 | loss of the three models | coercivity after removing the global bias, compactness |
| C87, C88 | minima of the losses | comparison with perturbed coefficient vectors |
| C90 | `train` for all `maxiter` | bounded objective; gain bounds the squared change of square roots, entries bounded below |
| C91, C92 | EM steps and prediction | equivariance of both steps, induction |
| C93, C94 | splitters | position of a sample in its group; a generator with prescribed permutations |
| C95 | splitters | induction over groups and folds |
| C96 | metrics | permutation invariance of sums, sorted arrays and the failure cases |
| C97 | `stats` on files reachable by runs and merges | shape invariant of C62, C96 on the pairs of all folds; success refuted for folds with a single test event, `_partial` for the others |
| C98 | `doTask` of two runs | relation of two executions, induction over the folds |
| C99 | `commandLine` | induction over the options with the state of the excluding groups |
| C100 | `task`: `init_info`, constructors, `do_task` with the models of the recommenders | computation of the options dictionary through `Verif/Opt`; paths in the result file |
| C101 | `task` of two command lines | equality of the two executions |
| C102 | `task` of one command line and of its `--fold-no` variants, `merge`, `stats` | composition of C60, C97 and C100 through `task_run`; what loading succeeds with (`Verif/Scripts/Load2`) |
| C103 | `task` of `commandLine` | totality of loading, splitting, filtering, fitting and predicting composed (`Verif/Scripts/Total`), necessity from `doTask_cv_needs`, `doTask_holdout_needs`; a generator that tests a whole class in every fold from C93 (`Verif/Exp/Robust`) |
| C104 | `stats` of `task` | every test part holds a fifth of the events of each user, rounded up (`Verif/Scripts/OneTest`) |
| C105 | `task`, predictions in the file | C43, C16 and C34 for the recommender of every fold (`predicted_by`) |
| C106 | `task` with `readText`, the text loader of `Verif/Convert` | the two models of the loader agree (`loadEventWithScore_text`); C61, C64, C66, C67 and C103 composed; `Exp/Runs` for the runs that succeed |
| C107 | renaming functions in `Verif/Relabel/Data`, `Rec` | every function of the container, the recommenders and the splitters commutes with an order-preserving renaming |
| C108 | `Verif/Relabel/Scripts` | the same for the scripts, whose environment writes renamed ids |
| C109 | `Prog.run` of `Command.prog` | footprints (`Within`) by induction over programs, and what parsing, reading and writing do to the files in order |
| C110 | `steps`, `C110_refuted` | false as hoped: argparse empties output files while parsing.  Partial: whatever the moment, a file is as it was, empty, final or has a part of the result |
| C111 | `together` (interleaving semantics) | an invariant: what is left of each program leads to the end it has alone |
| C112 | C102, C109, C111 composed | concurrent folds, merging and statistics equal those of the full run |
| C113 | `trainExplicit`, `implicit`, `PLSA.train` with `Built` data | the start in terms of means, counts and draws; every entry of `fit_results_` |
| C114 | `Fl.setEvent`, `Fl.digitizeScore`, `Fl.binarizeScore`, `Fl.getScoreLevels` over the rounding `Fl.fl` | equal to the exact functions on domains that are multiples of a power of two; refuted for `(0, 0.3, 0.1)` |
| C115 | `Fl.safeSigmoid`, `Fl.logLik`, `Fl.residual`, any rounded sum | strict bounds from the relative error of one operation |
| C116 | leaves of the trees of `Scripts.doTask`, `merge`, `stats`; `jsonDecodable` of `Verif/Util` | every function keeps a predicate on leaves (`J.Leaves`); induction over trees |
| C117 | heap model with arrays of the caller (`Verif/Heap/Caller`) | simulation up to addresses of number arrays; refuted for `score_domain` and `event_index`, which `np.asanyarray` keeps; `_partial` for programs that do not write into them afterwards |
| C118 | splitters as generators stepped by `next` in a world with shared `RandomState` objects (`Verif/Split/Lazy`) | invariant of one generator inside any history: it answers as on its own, from the states it finds; then C46-C50 apply |
| C119 | the same world, with label arrays the caller can overwrite | refuted twice (labels read for every fold; shared `RandomState`); `_partial` without writes and with a seed or no shuffling |
| C123 | the same world; specification by positions inside groups (`Spec.Nth`, `Spec.Parts`) | where a generator stands after any history; one round with whatever labels (`Verif/Split/LazyMore`) |
| C124 | the same world; `Spec.advance`, the state after shuffles of given lengths | the draws of one round; generators keep their `RandomState` through any history |
| C120 | machine record, `get_system_info`, `get_version_info`, `do_task` on a machine (`Verif/Exp/Machine`) | the machine enters a run only through the environment section (the checks before it fail alike); case analysis on the system; lines of a text specified by joining |
| C121 | the same | refuted by a run; `_partial`: both scripts record the version of the shared module |
| C125 | `dumps`, `loads` over any float type (`Verif/Json`); `Floats.Faithful` | induction over trees with the text that follows as a parameter; every script keeps keys unique (`Verif/Scripts/Keys`) |
| C126 | the same; the programs of `Verif/Shell` with text as contents | what is scanned in a text is scanned in every longer text; everything a program puts is the beginning of a result |
| C127 | `Verif/Args/Model`: `classify`, `scan`, `consume_optional`, `consume_positionals` as total functions; grammar `Line` in `Verif/Args/Spec` | both directions by induction over the tokens; every token characterised by the grammar (`Classify`, `Items`) |
| C128 | `Verif/Args/Scripts` on top of the programs of `Verif/Shell` | the actions open files in the order of the options; opened output files commute (`Verif/Args/Order` for the experiment scripts, `Verif/Args/Order2` for merge and statistics); the documentation of the options is written down apart from the tables of the parsers (`Verif/Args/Spellings`) |
| C129 | the same | the strings of all actions are ends of strings of the line; invariants of the loop over the actions |
| C130 | `MeanOf`, `StdOf`, `MeanAbsoluteError`, `MeanSquaredError` as relations over `RoundedSum` (`Verif/Float/Metrics`) | `Near n`: n relative errors; `Dev n`: n errors measured by the sizes of terms (`Near`, `Dev`); deviations by Minkowski's inequality |
| C131 | `GammaVariance` (`Verif/Float/Gamma`) | refuted by cancellation; `_partial` when the numerator exceeds the errors of its parts; positivity for all data |
| C132 | the splitter with rounded products (`Verif/Float/Split`) | refuted for 0.07; equality of the whole splitter with the exact one for well represented fractions; at most one off otherwise |
| C133 | `RawScore` (`Verif/Float/Score`) | `Dev` through the sum of products; Lipschitz constant 1/4 of the link |
| C134 | `ScoreDist`, `PredictRow` (`Verif/Float/Topic`) | `Near` for the probabilities and for their sum |
| C135 | `textReader` (`Verif/Args/Numbers`) with `intOf` and `floatOf` of `Verif/Convert/Text` | the texts `showInt n` and `showDec m k`; `IsInt` |
| C136 | `Converter.prog` (`Verif/Convert/Script`): the statements that print, and the scripts as programs on files | `plan`: the conversions of C75 to C80 and the names of files; `Broken`: what is left at a line that cannot be converted |
| C137 | the conversions and loaders of C66, C75 to C79 | beginnings of a file are the rows before some place and a row cut inside a field (`Verif/Convert/Cut`); a short row is refused by `genfromtxt`; `Cut`, `CutScores` |
| C138 | the constructors with their parameters, `get_params`, `set_params` and `clone` of scikit-learn | programs on a world of dictionaries, generators and recommenders; all addresses exist (`WorldOk`); a clone only adds to the world (`Ext`) |
| C139 | `Weights`, `Normalize`, `Marginal`, `MStep`, `EStep`, `Trained` (`Verif/Float/EM`) | `Near` through both steps; normalised arrays forget the errors of earlier passes, so the bound on sums does not grow; ranges of all results by induction over the passes |
| C140 | `roc_auc_score` of scikit-learn 0.21 (`Verif/Metrics/Auc`) in place of the parameter of `item_finder_statistics` | induction over the sorted samples: the area left is the sum over the negatives at or below the score; dropped points lie on lines |
| C141 | calls and copies (`Verif/Heap/Copy`): `copy.copy` shares the addresses, `copy.deepcopy` and pickles allocate new arrays | the invariant of C13 is kept by deep copies; with shallow copies, containers of different roots share nothing; a copied recommender holds no array of a container |
| C142 | losses and gradients of `Verif/MF/Model` (`Verif/MF/Factors`) | exact expansion of the loss around a stationary point, for any number of factors on both sides; one small factor as a perturbation; orthonormal coordinates of the span of the user factors; Cauchy-Schwarz |
| C143 | `Verif/Float/Loss`: losses and gradients as relations between the coefficients and any result of rounded operations, sums in any order | calculus of `Dev` (error relative to the sizes of the terms) through estimates, squares and filtered sums; Lipschitz constant of the logistic function |
| C144 | `task` of `Verif/Exp` with the readings of an arbitrary clock | invariant `Marked` over the folds (number, first reading, results of the fit); no entry of a fit is called as a time; false for the end of tests |
| C145 | `ScoreData`, `PLSA.fit`, `Metrics` of the earlier parts, run twice: on `x` and on `p * x + q` | every function on scores commutes with a strictly monotone affine map (`npMin`, `npDigitize`, bin edges, …); `pred` is an average of levels with weights that add up to one |
| C146 | `task` of `Verif/Exp` on the files in two units | simulation: containers, recommenders and loaders that follow a change of scores (`Change`, `Follows`, `LoadFollows`), then C145 and C82 |
| C147 | `task` of `Verif/Exp` | distinct ids are the tables of the container (`Holds`); the test part of a fold is counted user by user |
| C148 | `pmf`, `logistic`, `implicit` of `Verif/MF`, `safeSigmoid` | `Favours` reads item biases and factors by rank; `concordance` of C140 |
| C149 | `emStep`, `train` of `Verif/PLSA` | `smoothed` and `Stationary` are stated with the joint probability of the documentation; compactness of the distributions bounded below (`emStep_floor`) |
| C150 | `loss`, `train` of `Verif/PLSA` | `entropy` counts equal events; Gibbs' inequality |
| C151 | `emStep`, `loss` of `Verif/PLSA` | copies are a map with fibres of size c |
| C152 | `PMF.gradLoss`, `Logistic.gradLoss`, `Implicit.gradLoss`, `pmf`, `logistic` of `Verif/MF`, `Verif/Fit` | sums of gradient entries; the optimizer is a parameter described by `Stops` and `Honest` |
| C153 | `toEidEvent`, `toIidEvent`, `toEid`, `toIid` of `Verif/Data/Model.lean` | exact characterisation of results and exceptions, loaded and new containers |
| C154 | `Rec.predict`, `fitAs` of `Verif/Rec` | induction over refused calls of `fit` (`Spec.Untrained`) |
| C155 | `Verif/Fit/Steps`: `fit` of the matrix factorizations statement by statement; attributes are views of `_coef` or arrays of their own | relations `Leaves`, `Completes`, `Raises` over lists of statements; complete runs agree with `Verif/MF/Model` (`C155_completed`) |
| C156 | `Verif/PLSA/Steps`: `fit` of the topic model from the first M-step on, statement by statement | `run` of every prefix of the list of statements; complete runs agree with `Verif/PLSA/Model` (`C156_completed`) |
| C157 | `Verif/Rec/Streams`: programs of draws and fits over several generators and recommenders; `Verif/Fit/Streams`: the state in which the classes leave a generator | induction over programs (`C157_seeded`, `C157_stream`); the number of distinct ids of a column equals the number of rows drawn (`card_withEvents`) |
| C158 | `Verif/Data/Steps`: `set_event` as a list of assignments and its first `n` steps; `Verif/Data/Interrupt`: the container after `n` steps | invariant indexed by the number of steps (`At`, `at_succ`, `run_at`), compared with the completed call part by part |
| C159 | `Verif/Data/Threads`: the assignments of `Verif/Data/Steps` made by several threads on one container, in the order of a schedule; `Verif/Data/ThreadsProps` | invariants over schedules: `Joint` (same events: which parts are new, and which thread allocated the array), `Mixed` (any events: each table is of one call); `alone_steps` reduces a call without others in between to C158 |
| C160 | `Verif/Score/Steps`: `binarize_score` as five steps with local variables, alone and in several threads; `Verif/Score/Binarize` | the container after `n` steps in closed form; for threads the invariant that every version of the scores is made by distinct calls one after another (`Joint`, `chain`) |
| C161 | `Verif/Fit/Threads`: the programs of `Verif/Fit/Steps`, one per thread, with a table of generators and a schedule; `Verif/Fit/ThreadsProps` | what a thread can see (`seen`) changes by its own turns only, so that a schedule acts as the iteration of one function (`seen_interleave`); with shared generators a simulation of a fit alone whose generator replays recorded states (`Verif/Fit/ThreadsShared`: `Twins`, `follow`) |
| C162 | `Verif/Fit/Torn`: the recommender as `raw_predict` sees it when its attributes are read at different moments of a fit; `Verif/Fit/TornProps` | at every moment after the allocation all attributes show the coefficients (`Shows`, `moment`), so that reads at several moments see a mixture (`torn_shows`) and the lemmas of C155 apply |
| C163 | `Verif/PLSA/Torn`: the topic model as `raw_predict` sees it when its four arrays are read at different moments of a fit; `Verif/PLSA/TornProps` | every array is positive at every moment after its first assignment (`ready_take` of C156), and predictions from positive arrays lie within the levels whether or not they are distributions (`predictRow_positive`) |
| C164 | `Verif/PLSA/Threads`: worlds of topic models and generators, the draws of `_init_params` as statements, one statement per turn; `Verif/PLSA/ThreadsProps` | an invariant of all schedules (`Inv`): the requests served by a generator so far, its states between them, the weights drawn, and the statements of `Verif/PLSA/Steps` each thread has executed on them; `C156_completed` for calls that have come to their end; `Verif/PLSA/ThreadsSerial` compares with `train`, the model of a fit alone |
| C165 | `Verif/Fit/Same`: `fit` of the matrix factorizations with the attributes shared between threads, arrays `_coef` on a heap and views of them; `Verif/Fit/SameProps`, `Verif/Fit/SameResults`, `Verif/Fit/SameAlone` | an invariant of all schedules (`Inv`) with a ghost variable for the call that has stored its result last: once no call is between allocation and storing, the array `_coef` holds that result, and an attribute does once no call is between allocation and its extension |
| C122 | `setEvent`, `setFeature`, `filterEvent` | closed forms of both orders; equality of containers |

## Shared objects

`Verif/Heap` repeats the containers of `Verif/Data` and `Verif/Score` with addresses for
the arrays numpy shares: `set_event` overwrites `eid[otype]`, `iid[otype]` and
`n_objects[otype]` in lists that a fitted recommender also points to, while `filter_event`
copies them.  The abstraction `val` reads an object as a value of the value-level model,
and every call is proved to act on values as the value-level function does.
`Verif/Heap/Caller` adds arrays of the caller: `set_event` keeps the array it is given as
`score_domain`, `fit` the one it is given as `event_index` (only an integer array is kept;
other types are converted, which is the case of a list).  A recommender's hold on an index
array is recorded beside the heap (`CWorld.held`) and an assignment is passed on to all holders.
`Verif/Est` models `BaseEstimator.get_params`, `BaseEstimator.set_params` and `sklearn.base.clone` of scikit-learn 0.20 and 0.21;
`is` is equality of kind and value, and no parameter is itself an estimator.  Findings: the settings of the optimizer
(`maxiter`, `tol`, `method`, `options`) are no estimator parameters, so `set_params` refuses them and `clone` loses them
(`C138_same_training_refuted`); after `set_params(C=1)` with an int, `clone` raises `RuntimeError` (`C138_clone_refused`).

In `Verif/Opt` nested dictionaries are compared one level deep: an option whose value is
itself a dictionary is compared by identity.  `scipy.optimize.minimize` is trusted not to
assign into the dictionaries it receives.

## Simplifications of the topic model

`nan` results of empty event lists and of columns without weight are 0 in the model
(the theorems require at least one event and either alpha > 0 or positive
responsibilities, where neither occurs).  Dirichlet draws are an arbitrary function
of the generator state; theorems that need it assume they are non-negative.

## The splitters and scikit-learn

`split.py` imports the private helper `_validate_shuffle_split_init` and passes the
arguments of `KFold` by position, so it runs with scikit-learn releases up to 0.21.
`KFold`, `PredefinedSplit`, `train_test_split`, `_validate_shuffle_split_init`,
`_validate_shuffle_split` and `BaseCrossValidator.split` are modelled after 0.21 and are
part of the trusted base.  In `Model.lean` generators are lists of everything they yield;
in `Lazy.lean` they are objects advanced by `next`, with shared `RandomState` objects and label
arrays that may change in between (C118, C119).  Findings: `KFoldWithinGroups` and
`ShuffleSplitWithinGroups` check their arguments at the first `next` only, and both read the label
array again for every fold.

## Metrics

Values are real numbers, `nan` or infinities (`Fl`).  `np.histogram`, `np.mean`, `np.std`,
`assert_all_finite`, `as_float_array`, `check_consistent_length` and scikit-learn's mean
errors are modelled by their documented formulas; `roc_auc_score` is a parameter, for which C140 puts a model of
scikit-learn's own function.
Printing the report is not modelled.

## Scripts

The scripts are functions of the command line settings, a clock (the n-th reading), the
recommender (any pair of fit and predict functions of a generator state), the generators
and the function that reads a file into a table.  Result files are trees of insertion-ordered
dictionaries, lists and leaves.  `Verif/Json` models their text: the encoder and the decoder of Python's module `json`
with their default arguments, over Unicode characters; that a result is read back, keys in the same order, is proved
(C125) from the assumption `Floats.Faithful` that `float.__repr__` gives a decimal fraction that `float` reads back.
Trusted: that `dumps` and `loads` follow Python's module (`json.load(..., encoding=)` needs a Python before 3.9; dictionaries
keep their order since 3.7), and `structured_array[name]` reads one column.  Logging is not modelled.  In `Verif/Scripts`
the `environment` section is an arbitrary tree; `Verif/Exp/Machine` models how it is made from the answers of
`platform`, the version strings and the output of the hardware command, which are parameters; the exit status of
that command is ignored, as in the code.  `Verif/Exp` models the command
line of the experiment scripts from the list of options with converted arguments on (splitting strings
is in `Verif/Args`, which files are opened in `Verif/Shell`), and puts the
models of the recommenders in place of the arbitrary one; a negative `maxiter` of the topic model
counts as zero.
With an integer seed every fit starts from a fresh generator, which is why C60 holds; without
a seed the global generator is threaded through all the folds, and nothing is claimed.

Findings: `rest_fold` reads only the first key of `training.results`, so merging a file with
several folds loses the others (C63); `holdout_test` writes the training file name into
`test.file`, and `testing` records its start time as end time (C64, and C144 for every file with a fold).  When the first merged
file has no event features those of the other files are dropped.  `predict` squeezes its result,
so the prediction of a fold with a single test event is written as a number, and stats_recsys
raises on such a file (C97); a file with one user and at most five events gives such folds.

## Scripts and files

`Verif/Shell` models a run of a script as a program whose steps look at one file or write one file, so
that runs can be stopped after any step or mixed in any order.  Simplified:

* positional arguments come after the options (`Verif/Args` has the strings of a command line in any order);
* every file can be written.  While a result is written, the file passes through the contents `parts`
  of the result (any list, chosen per result: how Python and the system flush buffers), then has the
  complete result; a run can be stopped, or another run can look at the file, between any two of them;
  In C126 contents are text and `parts` are beginnings of the text;
* what a run writes replaces the content of the file.  Two runs that write the same file at the same time have offsets of
  their own, so their texts could be mixed; this is not modelled;
* a test file is read right after the training file, not after training;
* standard input and output are files with names of their own, and `stdin` is looked at like them;
* a file opened for reading during parsing is looked at again when it is read; a file that another
  process replaces in between is read with its new contents.

## Command lines

`Verif/Args` models `ArgumentParser.parse_args` of argparse.py as in Python 3.6 to 3.8 (the scripts need a Python before
3.9) for parsers whose options take a fixed number of strings and whose positional arguments are declared with
`nargs='?'` or `nargs='+'`: `_parse_optional`, `_get_option_tuples`, `consume_optional`, `consume_positionals`, the
removal of `--`, and the message about arguments left over.  This algorithm is part of the trusted base, as it is not in
/repo; the tables of options are those of the scripts.  `int(s)`, `float(s)` and the file of a name are parameters; C135 takes
the two of `Verif/Convert/Text` for them.
Simplified: digits of negative numbers are ASCII, a string does not end with a newline (the pattern of argparse would
allow one), `--out=--` names a file `--`, and the texts printed by `--help` and `--version` are not part of standard
output.  Mutually exclusive groups are checked when the second member is met, as in argparse.

Findings: `-q=` ends with an `IndexError` from inside argparse (C127); a file name after options that follow another file
name is refused, because both positional arguments are taken at the first block; `-d -1e0 1 1` is refused, because
`-1e0` is not taken for a number.

## Text files

`Verif/Convert` models the loaders (`kamrecsys/datasets/*.py`) and the conversion scripts (`data/*.py`) as functions on
the content of files.

- `Text.lean` records how the Python text primitives are read: universal newlines, `readlines`, `rstrip`, `split`,
  `join`, `int`, `float`, `str`, `print`. Encodings, digits outside ASCII, underscores in numerals and the texts `nan`
  and `inf` are not modelled.
- `np.genfromtxt` is modelled after numpy 1.16: comments are cut at `#`, lines without fields are skipped, every line
  must have as many fields as the first one, fields beyond the dtype are ignored, a text that is no number becomes `-1`
  or `nan`, and one record gives a 0-dimensional array. Integers do not overflow.
- `Spec2.lean` describes users, movies and ratings and the lines of the original files that stand for them. C75 to
  C79 run a conversion script and a loader one after the other.
- `Script.lean` has the scripts as programs on files, statement by statement, as a script that raises leaves a partial
  output file (C136).
- The specification (`Spec.lean`) describes files from the writer's side: lines with either line end, comments, blank
  lines, rows of fields with blanks around and remarks behind, numerals of integers and of decimal fractions.

Findings:

- A file with one event cannot be loaded: `squeeze()` in `genfromtxt` drops the dimension and `set_event` raises
  `IndexError` (`C66_one_line`, `C66_refuted`).
- A field that is no number does not stop a loader: it becomes `-1` or `nan` (`C74_refuted`).
- A comment sign in a title survives conversion and makes the converted file unloadable (`C75_refuted`).
- `load_pci_sample` cuts names at 18 characters, so two items may become one (`C81_refuted`). Its docstring gives the
  score domain with stride 1, the code sets stride 0.5.
- The docstring of `load_movielens100k` gives the date as year, month, day; the files and arrays hold day, month, year.
- An interrupted conversion leaves a file that may load without an error, with fewer events; the last score of a Flixster
  or sushi3 file may then be wrong (`C137_refuted`, `C137_wrong_score`).
- Events of one column can never be loaded: `('event', int, 1)` is the scalar type (`C66_one_column`).

- Score domains with a decimal stride can have a level too few: `int(0.3 / 0.1) + 1` is 3, while the score 0.3 is
  digitized to 3 (`C114_refuted`, `C114_out_of_range`).
- `copy.copy(data)` is not a copy of the id tables: `set_event` on the copy overwrites those of the source in place
  (`C141_shallow_refuted`); `copy.deepcopy` and pickles are independent.
- Matrix factorization cannot be fitted to data with a single user or a single item: `_init_coef` makes fields of type
  `(float, n_users)` and `(float, n_items)`, numpy takes `(float, 1)` for `float`, and the assignment to `bu_[:]` or
  `bu_[i]` raises `TypeError` (`C70_one_object`, `C70_implicit_one_object`, `C70_refuted`). So a cross validation may fail
  because a test part has all events with all items but one (C103).
- A `fit` of a matrix factorization that is interrupted while the optimizer runs leaves a recommender that predicts with
  the random initial parameters instead of raising; for unknown users or items it raises `IndexError`
  (`C155_optimizer`, `C155_training`, `C155_refuted`).
- A `set_event` on a loaded container that is interrupted while the tables of ids are replaced leaves the old event array
  with some new tables: the old events then read as other objects and nothing raises (`C158_refuted`, `C158_mixture`).
  The object features stay those of the old objects. A repeated call that comes to its end repairs the rest.
- Two threads that load different events into one container can both finish without an exception and leave the external ids
  of one call with the internal ids of the other: `to_eid(to_iid(x))` is then another object (`C159_refuted_round_trip`).
- A `binarize_score` that is interrupted after the scores are replaced must not be repeated: with a threshold of at least 1 all scores
  become 0 (`C160_refuted`, `C160_retry_iff`). The same happens when two threads binarize with the default threshold
  (`C160_threads_refuted`).
- Fits in threads that share a random generator, as all do whose `random_state` is `None`, can learn what no order of these
  fits gives, because the draws of one thread come between those of another (`C161_refuted`). With integers it cannot happen
  (`C161_alone`). All that sharing changes is the state at the second of the two draws (`C161_pmf`).
- A call of `predict` while `fit` of the same recommender runs in another thread can mix initial and learned parameters and so
  give a prediction of no moment of the fit (`C162_refuted`).
- Two topic models that are fitted in threads and share a generator can learn what they learn in no order of the fits (`C164_refuted`).
- Calls of `fit` of the same matrix factorization in two threads: the one that ends first sets `_coef` to `None`, so the other
  raises an exception (`C165_refuted`), possibly after it has written initial values into the parameters of the first
  (`C165_kept_refuted`).  If all calls come to their ends, `final_loss` in `fit_results_` can be that of another call than the
  parameters (`C165_report_refuted`).  Calls that do not overlap behave as in sequence (`C165_serial`, with at least two users and items).

## Not modelled

Logging, docstring doctests, the setup files,
tests, sphinx documentation, the downloader code paths, the format of pickles (C141 takes what
is read back as a deep copy), performance,
floating-point rounding outside `Verif/Float`, overflow to infinity and subnormal numbers, dtype overflow, threads outside C159 to C165 (the package starts none itself).
scipy's optimizer is a parameter: nothing is claimed about convergence.
