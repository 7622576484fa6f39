# property -> (status, theorem names without the Kam. prefix, note)
CLAIMS = {
 'C01': ('proved', ['C01_roundtrip'], ''),
 'C02': ('proved', ['C02_dense_ranks'], ''),
 'C03': ('partial', ['C03_inverse_partial', 'C03_negative_wraps', 'C03_refuted'],
   'False of the code for negative internal ids: -n <= i < 0 wraps around instead of raising. '
   'Proved: inverse laws and rejection of all other foreign ids; exact behaviour of the wrapping ids; negation with witness.'),
 'C04': ('proved', ['C04_unknown_ids', 'C04_unknown_ids_vector', 'C04_shape_error'], ''),
 'C05': ('partial', ['C05_repeated_scalar_partial', 'C05_scalar_raises', 'C05_refuted'],
   'False of the code: a scalar always raises TypeError on a non-empty array. Proved: the workaround with a repeated vector.'),
 'C06': ('proved', ['C06_filter_commutes_with_load', 'C06_filter_total'], ''),
 'C07': ('proved', ['C07_no_dangling_no_orphans'], ''),
 'C08': ('proved', ['C08_filter_keeps_attachments', 'C08_filter_keeps_scores'], ''),
 'C09': ('proved', ['C09_filters_compose', 'C09_filter_all'],
   'For containers whose object features have one row per object (what set_feature produces).'),
 'C10': ('proved', ['C10_constructor'], ''),
 'C11': ('proved', ['C11_set_feature', 'C11_order_irrelevant'], ''),
 'C12': ('partial', ['C12_reload_partial', 'C12_iff', 'C12_refuted'],
   'False of the code: object features of the previous load survive. Proved: everything else is as after a fresh load, and everything if and only if the container has no object features (C12_iff).'),
 'C14': ('proved', ['C14_failing_set_event'], ''),
 'C15': ('partial', ['C15_digitized_in_range_partial', 'C15_in_range_iff_regular', 'C15_refuted'],
   'False of the code when the range is not a multiple of the stride. Proved: exactly the regular domains satisfy it.'),
 'C16': ('proved', ['C16_nearest_level'], ''),
 'C17': ('partial', ['C17_estimated_domain_partial', 'C17_iff', 'C17_refuted'],
   'The estimate and the ValueError are proved in full; the last clause (observed scores digitize into range) only for regular domains, and refuted for scores 0, 2, 5. It holds if and only if the range of the scores exceeds a multiple of the stride by less than half a stride (C17_iff).'),
 'C18': ('proved', ['C18_binarize', 'C18_default_threshold'], ''),
 'C56': ('proved', ['C56_is_binary', 'C56_is_binary_strict'], ''),
 'C19': ('proved', ['C19_accepts_exactly_binary'], ''),
 'C20': ('proved', ['C20_fit_alignment'], ''),
 'C21': ('proved', ['C21_predict_scores_internal_ids'], ''),
 'C22': ('partial', ['C22_predict_any_layout_partial', 'C22_exact', 'C22_predict_exact', 'C22_refuted_event_index', 'C22_refuted_layout', 'C22_refuted_width'],
   'False of the code: event_index=(1,0) mixes up the id tables, layout (1,0) uses the wrong unknown id, an index that selects fewer columns makes predict raise. Proved for the identity index and layouts in which the type of a column is the type of the column with that number. C22_predict_exact says what predict computes for every layout and index, C22_exact gives the exact condition under which it is right.'),
 'C23': ('proved', ['C23_batch_row_wise', 'C23_empty_and_single', 'MF.C23_mf', 'PLSA.C23_plsa'], 'For every row-wise raw_predict, instantiated for all four models.'),
 'C25': ('proved', ['C25_training_data_dropped'], ''),
 'C26': ('proved', ['C26_refit_forgets', 'MF.C26_mf', 'PLSA.C26_plsa'], 'For every class that assigns a fixed set of result keys, instantiated for all four models.'),
 'C38': ('partial', ['C38_counts_partial', 'C38_binary_partial', 'C38_binary_iff', 'C38_exact', 'C38_exchanged', 'C38_items_first', 'C38_refuted_repeated', 'C38_refuted_index'],
   'False of the code for repeated events (entries above 1) and for event_index other than the identity. Proved: entries are occurrence counts, and the matrix is binary exactly when no pair is repeated. C38_exact says for every layout and index of two columns whether the matrix exists and what it holds: the index is applied twice, so (1, 0) gives the matrix of (0, 1), and with items in front the matrix exists only if there are as many users as items.'),
 'C69': ('partial', ['C69_failing_fit_partial', 'C69_exact', 'C69_bad_index', 'C69_refuted'],
   'False of the code: the id tables of the refused data replace the old ones. Proved: learned parameters and fit results are kept when fit is refused before training; C69_exact and C69_bad_index say what predict does from then on.'),
 'C28': ('proved', ['MF.C28_coefficient_layout', 'MF.C28_n_parameters'], ''),
 'C29': ('proved', ['MF.C29_pmf_gradient'], ''),
 'C30': ('proved', ['MF.C30_initial_coefficients', 'MF.C30_initial_factors', 'MF.C30_pmf_factors', 'MF.C30_logistic_factors', 'MF.C30_implicit_start'], 'Also for LogisticPMF and ImplicitLogisticPMF.'),
 'C31': ('proved', ['MF.C31_pmf_loss'], ''),
 'C32': ('proved', ['MF.C32_unknown_objects'],
   'End to end from fit to predict, for user-item events with the default layout (see C22 for other layouts).'),
 'C33': ('proved', ['MF.C33_stationary_mean'], ''),
 'C34': ('proved', ['MF.C34_safe_sigmoid'], ''),
 'C35': ('partial', ['MF.C35_logistic_gradient_partial', 'MF.C35_clipped_gradient', 'MF.C35_gradient_error', 'MF.C35_gradient_iff', 'MF.C35_small_error', 'MF.C35_refuted'],
   'False of the code where safe_sigmoid clips an estimate. Proved: correct where nothing is clipped; the true gradient elsewhere; negation with witness.'),
 'C36': ('partial', ['MF.C36_implicit_gradient_partial', 'MF.C36_gradient_iff', 'MF.C36_small_error', 'MF.C36_refuted'], 'As C35.'),
 'C37': ('proved', ['MF.C37_implicit_is_explicit'], ''),
 'C39': ('proved', ['MF.C39_logistic_loss_and_range'], ''),
 'C40': ('proved', ['PLSA.C40_distributions'], ''),
 'C41': ('proved', ['PLSA.C41_em_monotone', 'PLSA.C41_any_parameters', 'PLSA.C41_strict'], ''),
 'C42': ('partial', ['PLSA.C42_loss_monotone_partial', 'PLSA.C42_loss_bound', 'PLSA.C42_iff', 'PLSA.C42_grows', 'PLSA.C42_refuted'],
   'False of the code for alpha > 0 (the default is 1): witness with one event and two latent classes. Proved for alpha = 0 and, with C42_iff, for no other; C42_grows has data for which every iteration of every positive alpha makes it worse; a bound for alpha > 0.'),
 'C43': ('proved', ['PLSA.C43_prediction'], 'End to end from fit to predict for user-item events with the default layout, alpha > 0 and a generator whose Dirichlet draws are non-negative.'),
 'C44': ('proved', ['PLSA.C44_marginalization', 'PLSA.C44_is_distribution', 'PLSA.C43_prediction'], ''),
 'C45': ('partial', ['PLSA.C45_iterations_partial', 'PLSA.C45_no_iterations', 'PLSA.C45_refuted', 'PLSA.C45_last_iteration_refuted'],
   'False of the code for maxiter = 0 (n_iterations is 1) and when the test holds in the last allowed iteration (reported as failure). Proved otherwise; C45_no_iterations says what is reported for maxiter = 0.'),
 'C70': ('partial', ['MF.C70_pmf_fit_partial', 'MF.C70_logistic_fit_partial', 'MF.C70_implicit_fit_partial', 'PLSA.C70_plsa_fit', 'MF.C70_one_object', 'MF.C70_implicit_one_object', 'MF.C70_implicit_exact', 'MF.C70_refuted'],
   'False of the code: with a single user or a single item the fit of all three matrix factorizations raises TypeError (numpy reads the field type (float, 1) as a plain float, which cannot be indexed). Proved for at least two users and two items, and that one user or item always raises. ImplicitLogisticPMF for event_index (0, 1) and columns of types 0 and 1; C70_implicit_exact says for every layout and index of two columns when fit succeeds and what it trains on.'),
 'C46': ('proved', ['Split.C46_interlaced', 'Split.C46_rejects'], ''),
 'C47': ('proved', ['Split.C47_kfold_within_groups'], ''),
 'C48': ('proved', ['Split.C48_rejects', 'Split.C48_rejects_no_groups'], ''),
 'C49': ('proved', ['Split.C49_shuffle_split', 'Split.C49_rejects', 'Split.C49_rejects_sizes'],
   'Exact arithmetic for the products with a float size.'),
 'C50': ('partial', ['Split.C50_train_size_partial', 'Split.C50_refuted'],
   'False of the code: everything that is not tested is trained on. Proved: at least train_size samples, and exactly as many if and only if test and training sizes exhaust the group.'),
 'C51': ('proved', ['Metrics.C51_errors', 'Metrics.C51_symmetric', 'Metrics.C51_rejects'], 'Exact real arithmetic; nan and infinities explicit.'),
 'C52': ('proved', ['Metrics.C52_histogram', 'Metrics.C52_levels'], 'Related to the digitizing of a container with the same domain (C16).'),
 'C53': ('partial', ['Metrics.C53_equal_bins_partial', 'Metrics.C53_numpy_integers', 'Metrics.C53_counts_all', 'Metrics.C53_no_bins', 'Metrics.C53_refuted'],
   'False of the code for Python integers (TypeError, every n). Proved for numpy integers and all samples; numbers below one are refused.'),
 'C54': ('proved', ['Metrics.C54_variance', 'Metrics.C54_shift', 'Metrics.C54_rejects'], ''),
 'C55': ('partial', ['Metrics.C55_scalar_partial', 'Metrics.C55_vector_partial', 'Metrics.C55_refuted'],
   'False of the code for lists (TypeError always). Proved for dictionaries, scalar and vector statistics.'),
 'C59': ('proved', ['Metrics.C59_auc', 'Metrics.C59_rejects'], 'The AUC itself is a parameter here; C140 models the code of scikit-learn.'),
 'C71': ('partial', ['Metrics.C71_force_finite_partial', 'Metrics.C71_finite_same', 'Metrics.C71_refuted'],
   'False of the code for numpy arrays (nan is returned). Proved for lists.'),
 'C72': ('proved', ['Metrics.C72_report_agrees'], 'scikit-learn errors are modelled by their formulas.'),
 'C57': ('partial', ['Util.C57_plain_tree_partial', 'Util.C57_iff', 'Util.C57_refuted'],
   'False of the code for numpy arrays of zero dimensions that hold a non-plain item (None, a date). Proved for all other trees, by paths; C57_iff: for no others.'),
 'C58': ('partial', ['Util.C58_bool_partial', 'Util.C58_refuted'],
   'False of the code for numpy.bool_ (always a string). Proved for Python booleans, also inside arrays.'),
 'C73': ('partial', ['Util.C73_serializable_partial', 'Util.C73_iff', 'Util.C73_refuted'],
   'False of the code for complex numbers and for keys that are not str, int, float, bool or None. C73_iff has the exact condition.'),
 'C13': ('proved', ['Heap.C13_values', 'Heap.C13_independent'], ''),
 'C24': ('partial', ['Heap.C24_independent_partial', 'Heap.C24_new_recommender', 'Heap.C24_tables', 'Heap.C24_refuted'],
   'False of the code: set_event on the training container replaces the id tables the recommender reads. Proved for histories that do not set events of the training container; for every history predictions use the fitted parameters and the current tables.'),
 'C27': ('partial', ['Opt.C27_independent_partial', 'Opt.C27_fit', 'Opt.C27_passed', 'Opt.C27_plsa', 'Opt.C27_rejects', 'Opt.C27_refuted'],
   'False of the code when a maxiter comes with an options dictionary another recommender uses. Proved for all other histories; that fit consumes nothing is proved without restriction.'),
 'C60': ('proved', ['Scripts.C60_folds_merge_to_full_run'],
   'The output tree is compared by paths. The JSON round trip between the scripts is the subject of C125.'),
 'C61': ('proved', ['Scripts.C61_test_disjoint_from_training', 'Scripts.C61_folds'], ''),
 'C62': ('proved', ['Scripts.C62_pairs_belong_together', 'Scripts.C62_defined_iff', 'Scripts.C62_defined_refuted'], 'For recommenders that return one prediction per event, squeezed. C62_defined_iff says which files the script can evaluate: those without a fold of a single test event.'),
 'C63': ('partial', ['Scripts.C63_merge_keeps_partial', 'Scripts.C63_exact', 'Scripts.C63_iff', 'Scripts.C63_last_counts', 'Scripts.C63_dropped', 'Scripts.C63_refuted'],
   'False of the code: only the first fold of every file after the first is merged. Proved: all folds of the first file and of every file with one fold are kept; C63_exact says which folds the merged file has, C63_iff when none is lost, C63_last_counts which file a fold is taken from.'),
 'C64': ('partial', ['Scripts.C64_holdout_partial', 'Scripts.C64_recorded', 'Scripts.C64_refuted'],
   'False of the code: the training file is recorded as test file and the start time as end time. Proved: the training file is recorded, and the test events and predictions are those of the test file.'),
 'C65': ('proved', ['Scripts.C65_one_threshold'], ''),
 'C66': ('partial', ['Convert.C66_score_partial', 'Convert.C66_event_partial', 'Convert.C66_one_line', 'Convert.C66_one_column', 'Convert.C66_refuted'],
   'False of the code for a file with one event and for events of one column: both raise IndexError. Proved for every other number of events and columns, with any comments, blank lines, line ends and further columns.'),
 'C67': ('proved', ['Convert.C67_sushi', 'Convert.C67_rebuild'], 'The way back needs a number of ratings other than one (C66).'),
 'C68': ('proved', ['Convert.C68_mini'], ''),
 'C74': ('partial', ['Convert.C74_malformed_partial', 'Convert.C74_features', 'Convert.C74_refuted'],
   'False of the code: a text in an integer column is loaded as -1. Proved: lines with different or too small numbers of fields are rejected.'),
 'C75': ('partial', ['Convert.C75_movielens100k_partial', 'Convert.C75_refuted'],
   'False of the code for titles with a comment sign, and for files with one record (C66). Proved for all other data within the column widths; texts contain no separators.'),
 'C76': ('partial', ['Convert.C76_mini_partial', 'Convert.C76_mini_is_selection', 'Convert.C76_one_rating'], 'False of the code when exactly one rating is selected: then loading always fails. Proved otherwise.'),
 'C77': ('partial', ['Convert.C77_movielens1m_partial', 'Convert.C77_one_rating'], 'Proved for data within the column widths, texts without separators and comment signs (C75 shows why), and files with a number of records other than one. A single rating always fails to load.'),
 'C78': ('partial', ['Convert.C78_flixster_partial', 'Convert.C78_refuted'], 'False of the code for a single rating. Proved for every other number of ratings.'),
 'C79': ('partial', ['Convert.C79_sushi3_partial', 'Convert.C79_one_rating'], 'Proved for numbers of ratings, users and sushi other than one; names without separators and comment signs, within the column width. A matrix with a single rating always fails to load.'),
 'C80': ('proved', ['Convert.C80_ml100k_user', 'Convert.C80_ml100k_item', 'Convert.C80_ml1m_user', 'Convert.C80_ml1m_item'], ''),
 'C81': ('partial', ['Convert.C81_pci_partial', 'Convert.C81_names', 'Convert.C81_refuted'],
   'False of the code for names longer than 18 characters, which are cut, and for one rating. Proved otherwise.'),
 'C82': ('proved', ['MF.C82_shifted_scores', 'MF.C82_shifted_optimum'], 'The optimizer is a parameter required to commute with translations; gradient descent is shown to do so.'),
 'C83': ('proved', ['MF.C83_rotated_factors'], ''),
 'C84': ('proved', ['MF.C84_renamed_objects', 'MF.C84_swapped_roles'], ''),
 'C85': ('proved', ['MF.C85_repeated_events'], ''),
 'C86': ('proved', ['MF.C86_optimum_exists'], ''),
 'C87': ('proved', ['MF.C87_optimum'], ''),
 'C88': ('proved', ['MF.C88_regularization'], ''),
 'C89': ('proved', ['MF.C89_more_factors'], ''),
 'C90': ('proved', ['PLSA.C90_stops'], 'Dirichlet draws are nonnegative, for alpha = 0 positive.'),
 'C91': ('proved', ['PLSA.C91_latent_classes', 'PLSA.C91_events', 'PLSA.C91_objects', 'PLSA.C91_swapped_roles'], ''),
 'C92': ('proved', ['PLSA.C92_one_class'], 'For alpha = 0 every user and item has an event.'),
 'C93': ('proved', ['Split.C93_ordered', 'Split.C93_every_split'], ''),
 'C94': ('proved', ['Split.C94_blocks', 'Split.C94_every_partition'], ''),
 'C95': ('proved', ['Split.C95_renamed_groups'], ''),
 'C96': ('proved', ['Metrics.C96_mean_absolute_error', 'Metrics.C96_mean_squared_error', 'Metrics.C96_histogram', 'Metrics.C96_variance', 'Metrics.C96_score_predictor', 'Metrics.C96_score_predictor_report', 'Metrics.C96_item_finder'], 'The AUC of scikit-learn is a parameter, assumed not to depend on the order; C140_perm shows this of its code.'),
 'C97': ('partial', ['Scripts.C97_output', 'Scripts.C97_score_predictor_partial', 'Scripts.C97_item_finder_partial', 'Scripts.C97_single', 'Scripts.C97_refuted', 'Scripts.C97_same_folds', 'Scripts.C97_merged'], 'The script raises an exception whenever a fold has a single test event (C97_single, C97_refuted). Score predictors: the recorded score domain has a positive stride. The AUC of scikit-learn is a parameter, for the comparison of files assumed not to depend on the order (C140_perm shows this of its code).'),
 'C98': ('proved', ['Scripts.C98_reproducible', 'Scripts.C98_number_of_folds', 'Scripts.C98_recorded_domain'], 'The recommender is a function of data, options and its random generator.'),
 'C99': ('proved', ['Exp.C99_accepted', 'Exp.C99_options'], 'The command line is a list of options with converted arguments: how argparse splits strings is the subject of C127 and C128.'),
 'C100': ('proved', ['Exp.C100_methods', 'Exp.C100_pmf', 'Exp.C100_plsa', 'Exp.C100_lpmf', 'Exp.C100_recorded', 'Exp.C100_labels'], ''),
 'C101': ('proved', ['Exp.C101_other_methods', 'Exp.C101_verbosity', 'Exp.C101_test_file', 'Exp.C101_folds_holdout'], 'The number of folds matters to a hold-out test only when a fold is asked for with --fold-no.'),
 'C102': ('proved', ['Exp.C102_distributed', 'Exp.C102_predictor_statistics', 'Exp.C102_finder_statistics'], 'The AUC of scikit-learn is a parameter, for the comparison of files assumed not to depend on the order (C140_perm shows this of its code).'),
 'C103': ('proved', ['Exp.C103_pmf_cross_validation', 'Exp.C103_pmf_cross_validation_needs', 'Exp.C103_pmf_every_generator', 'Exp.C103_pmf_holdout', 'Exp.C103_plsa_cross_validation', 'Exp.C103_plsa_holdout', 'Exp.C103_lpmf_cross_validation', 'Exp.C103_lpmf_cross_validation_needs', 'Exp.C103_lpmf_every_generator', 'Exp.C103_lpmf_holdout'], 'Exact arithmetic. The hold-out tests of score predictors are characterised for training files with events. The conditions for a cross validation of matrix factorization are exact for runs that are to succeed whatever the random numbers are.'),
 'C104': ('proved', ['Exp.C104_predictor_statistics_defined', 'Exp.C104_finder_statistics_defined'], 'A given score domain of a score predictor does not have a negative stride.'),
 'C105': ('proved', ['Exp.C105_topic_model_range', 'Exp.C105_logistic_range'], 'Topic models: positive smoothing, a score domain whose largest score is some strides above the smallest, and a training file with events. Exact arithmetic.'),
 'C106': ('proved', ['Exp.C106_cross_validation', 'Exp.C106_holdout', 'Exp.C106_pmf_runs', 'Exp.C106_pmf_runs_always', 'Exp.C106_pmf_holdout_runs', 'Exp.C106_plsa_runs', 'Exp.C106_plsa_holdout_runs', 'Exp.C106_lpmf_runs', 'Exp.C106_lpmf_holdout_runs', 'Exp.C106_refused', 'Exp.C106_movielens100k', 'Exp.C106_movielens1m', 'Exp.C106_mini', 'Exp.C106_flixster', 'Exp.C106_sushi', 'Exp.loadEventWithScore_text'], 'Composes the model of text files with the model of the scripts; loadEventWithScore_text shows that the two models of the loader agree.'),
 'C107': ('proved', ['Relabel.C107_set_event', 'Relabel.C107_filter_event', 'Relabel.C107_events', 'Relabel.C107_features', 'Relabel.C107_fit', 'Relabel.C107_predict', 'Relabel.C107_predict_uniform', 'Relabel.C107_splits', 'Relabel.C107_session', 'Relabel.C107_order_matters'], 'Predictions of a recommender trained on a selection of the columns are covered when all types are renamed alike.'),
 'C108': ('proved', ['Relabel.C108_scripts', 'Relabel.C108_uniform', 'Relabel.C108_blank'], 'The state of the random generator after a fit is a parameter, assumed not to depend on the names.'),
 'C109': ('proved', ['Shell.C109_only_targets', 'Shell.C109_experiment', 'Shell.C109_merge', 'Shell.C109_statistics'], 'Positional arguments come after the options (C128_any_order has them anywhere); all files can be written.'),
 'C110': ('partial', ['Shell.C110_partial', 'Shell.C110_refuted', 'Shell.C110_own_input', 'Shell.C110_raised_empties', 'Shell.C110_half_written'], 'False of the code: argparse empties the output files while it parses the command line, also when the run is refused afterwards or raises an exception (C110_refuted, C110_raised_empties), and a result that is its own output is lost (C110_own_input). What holds (C110_partial): at every moment a file is as it was, empty, complete, or has a part of the result of a run that would succeed. A run stopped while it writes leaves such a part (C110_half_written).'),
 'C111': ('proved', ['Shell.C111_at_the_same_time', 'Shell.C111_stopped', 'Shell.C111_no_deadlock', 'Shell.C111_same_output'], ''),
 'C112': ('proved', ['Shell.C112_pipeline', 'Shell.Textual.read_back'], 'The AUC of scikit-learn is a parameter, assumed not to depend on the order of the events; result files are read back as they were written, which Shell.Textual.read_back derives for text from C125. Numbers may be rounded in the files.'),
 'C113': ('proved', ['MF.C113_pmf_start', 'MF.C113_logistic_start', 'MF.C113_implicit_start', 'PLSA.C113_plsa_start', 'MF.C113_never_fitted', 'PLSA.C113_never_fitted'], 'The matrix factorizations for at least two users and two items (see C70), LogisticPMF on two-class binary data, ImplicitLogisticPMF with event_index=(0, 1), MultinomialPLSA with alpha > 0, maxiter >= 1 and nonnegative Dirichlet draws.'),
 'C114': ('partial', ['Fl.C114_machine_levels_partial', 'Fl.C114_set_event_given', 'Fl.C114_set_event_estimated', 'Fl.C114_digitize', 'Fl.C114_refuted', 'Fl.C114_out_of_range'], 'False of the code for decimal strides: with the domain (0, 0.3, 0.1) there are 3 levels and the score 0.3 is digitized to 3 (C114_refuted, C114_out_of_range). Proved for domains whose bounds and stride are multiples of one power of two, at most 2^50 of them: whole stars, half stars. Overflow and subnormal numbers are not modelled.'),
 'C115': ('proved', ['Fl.C115_prediction_range', 'Fl.C115_loss_term', 'Fl.C115_residual', 'Fl.C115_loss_finite'], 'The accuracy of scipy expit and numpy log is an assumption. Overflow of the latent estimate itself is covered by infinite estimates, nan is not.'),
 'C116': ('proved', ['Exp.C116_experiment', 'Exp.C116_merge', 'Exp.C116_stats', 'Exp.C116_found', 'Exp.C116_no_seed'], 'Assumed: the values put into the environment section, the ids and the event features are scalars other than complex numbers. nan is written as NaN, which json.dumps accepts by default.'),
 'C117': ('partial', ['Heap.C117_not_written', 'Heap.C117_partial', 'Heap.C117_scope', 'Heap.C117_scope_index', 'Heap.C117_copied', 'Heap.C117_refuted_domain', 'Heap.C117_refuted_index'], 'The library never writes into arrays of the caller (C117_not_written). False of the code for later writes by the caller: np.asanyarray keeps the array passed as score_domain (C117_refuted_domain) and the one passed as event_index (C117_refuted_index). Proved for programs that do not write into such an array after passing it (C117_partial); nothing else can be reached (C117_scope, C117_scope_index, C117_copied).'),
 'C118': ('proved', ['Split.C118_kfold', 'Split.C118_kfold_partition', 'Split.C118_shuffle', 'Split.C118_shuffle_seed', 'Split.C118_interlaced', 'Split.C118_late_errors', 'Split.C118_n_splits', 'Split.C118_ended'], 'The generators are state machines stepped by next; sklearn 0.21 stands for the helpers.'),
 'C119': ('partial', ['Split.C119_partial', 'Split.C119_refuted_labels', 'Split.C119_refuted_random_state'], 'False of the code: the labels are read again for every fold (C119_refuted_labels), and a RandomState that is handed over is used when the folds are asked for (C119_refuted_random_state). Proved when the labels are not overwritten and random_state is an integer or nothing is shuffled (C119_partial).'),
 'C120': ('proved', ['Exp.C120_iff_describable', 'Exp.C120_not_describable', 'Exp.C120_describable', 'Exp.C120_recorded', 'Exp.C120_host', 'Exp.C120_host_asked', 'Exp.C120_system_info', 'Exp.C120_written'], 'The answers of platform, the version strings and the output of the commands are parameters.'),
 'C121': ('partial', ['Exp.C121_script_version_partial', 'Exp.C121_script_version_refuted'], 'False of the code: do_task is in exp_recsys_util.py and records the version of that module, 2.0.0, for both scripts (5.0.0 and 3.0.0).'),
 'C122': ('proved', ['EventData.C122_filter_is_part', 'EventData.C122_features_commute_with_filter', 'ScoreData.C122_filter_is_part_scores'], 'With scores: for a declared score domain (an estimated one is that of the loaded scores, see C17).'),
 'C123': ('proved', ['Split.C123_kfold', 'Split.C123_shuffle', 'Split.C118_ended'], 'For label arrays; with groups=None there is nothing to overwrite (C118).'),
 'C124': ('proved', ['Split.C124_others', 'Split.C124_kfold', 'Split.C124_shuffle'], 'The draws are calls of a shuffle of given length; for KFoldWithinGroups whose groups are large enough, otherwise next raises.'),
 'C125': ('proved', ['Json.C125_roundtrip', 'Json.C125_injective', 'Json.C125_printable', 'Json.C125_reread', 'Shell.C125_results'], 'Assumed: float.__repr__ writes a decimal fraction that float reads back. The model of json follows the Python module; no limit on the depth of a tree.'),
 'C126': ('proved', ['Json.C126_cut_off', 'Json.C126_trailing', 'Shell.C126_never_half', 'Shell.C126_beginnings'], 'What a run writes replaces the content of the file: two runs writing one file at the same time are not modelled at the level of characters.'),
 'C127': ('proved', ['Args.C127_grammar', 'Args.C127_one_reading', 'Args.C127_raises'], 'argparse of Python before 3.9, which the scripts need, is part of the trusted base as a model. Digits of negative numbers are ASCII; no string ends with a newline.'),
 'C128': ('proved', ['Args.C128_experiment', 'Args.C128_merge', 'Args.C128_stats', 'Args.C128_any_order', 'Args.C128_merge_any_order', 'Args.C128_stats_any_order', 'Args.C128_documented_experiment', 'Args.C128_documented_merge', 'Args.C128_documented_stats', 'Args.C128_help', 'Args.C128_only_documented'], 'int and float applied to strings are parameters; - as a file name (a standard stream) is left to C129.'),
 'C129': ('proved', ['Args.C129_touched', 'Args.C129_one_result', 'Args.C129_stopped', 'Args.C129_ambiguous'], 'All files can be opened for writing. Help and version texts are not part of standard output. --out=-- is read as a file named --.'),
 'C130': ('proved', ['Fl.C130_absolute_error', 'Fl.C130_squared_error', 'Fl.C130_sample', 'Fl.C130_symmetric'], 'Finite numbers; no overflow and no subnormal numbers. At most 2^50 pairs.'),
 'C131': ('partial', ['Fl.C131_positive', 'Fl.C131_accurate_partial', 'Fl.C131_accurate_refuted'], 'Positivity is proved for all data. Accuracy is false in general: for the data 2^30, 2^30 + 1 the sum of squares and the square of the sum cancel and the result is b/a. Proved when the exact numerator exceeds the rounding errors of its parts.'),
 'C132': ('partial', ['Fl.C132_splits_partial', 'Fl.C132_two_tenths', 'Fl.C132_exact_partial', 'Fl.C132_within_one', 'Fl.C132_exact_refuted'], 'False for some fractions: 0.07 of 100 events are 8 events. Proved for the sizes the library and the scripts use (0.1 and 0.2) and for all fractions represented that well; for all other fractions the count is at most one off, and only if the exact count is a whole number.'),
 'C133': ('proved', ['Fl.C133_score', 'Fl.C133_unknown', 'Fl.C133_logistic'], 'No overflow and no subnormal numbers; expit accurate to four units in the last place (an assumption, as in C115).'),
 'C134': ('proved', ['Fl.C134_expectation', 'Fl.C134_mode', 'Fl.C134_fitted'], 'No overflow and no subnormal numbers. The scalar product rounds every product (no fused operations).'),
 'C135': ('proved', ['Args.C135_numbers', 'Args.C135_stats', 'Args.C135_not_an_integer', 'Args.C135_negative_exponent'], 'int(s) and float(s) as in Verif/Convert/Text: no underscores between digits, ASCII digits, exact values of decimals, no nan and inf.'),
 'C136': ('proved', ['Convert.C136_converted', 'Convert.C136_missing', 'Convert.C136_bad_line', 'Convert.C136_help', 'Convert.C136_stopped', 'Convert.C136_again'], 'Every file can be written, and what has been printed before an exception is in the file in the end. Encodings are not modelled.'),
 'C137': ('proved', ['Convert.C137_movielens100k', 'Convert.C137_movielens1m', 'Convert.C137_flixster', 'Convert.C137_sushi3', 'Convert.C137_stopped', 'Convert.C137_refuted', 'Convert.C137_wrong_score'], 'Ratings with integer ids, times and scores (decimal scores for Flixster). C137_refuted and C137_wrong_score show that a truncated file may load without an error and that the last score may be wrong.'),
 'C138': ('partial', ['Est.C138_get_params_names', 'Est.C138_get_params_mf', 'Est.C138_get_params_plsa', 'Est.C138_set_params', 'Est.C138_set_params_unknown', 'Est.C138_settings_refused', 'Est.C138_clone_iff', 'Est.C138_clone_refused', 'Est.C138_clone', 'Est.C138_clone_always', 'Est.C138_default_settings', 'Est.C138_same_training_partial', 'Est.C138_same_training_refuted'], 'That a clone learns what the original learns is false when the original has settings of the optimizer, which clone does not see; proved for the default settings. scikit-learn up to 0.21 is part of the trusted base as a model.'),
 'C139': ('proved', ['Fl.C139_mstep', 'Fl.C139_estep', 'Fl.C139_pass', 'Fl.C139_training', 'Fl.C139_bounded', 'Fl.C139_normal', 'Fl.C139_predicts'], 'At most 2^52 for the sizes in the bounds. Rounding without a range of exponents; C139_normal shows that products and quotients stay in the range of normal numbers for alpha from 2^-100 and up to 2^48 events, users, items, levels and topics. The loss and the stopping test are not part of it: the number of passes is arbitrary.'),
 'C140': ('proved', ['Metrics.C140_meaning', 'Metrics.C140_one_class', 'Metrics.C140_range', 'Metrics.C140_perfect', 'Metrics.C140_order', 'Metrics.C140_reverse', 'Metrics.C140_constant', 'Metrics.C140_perm', 'Metrics.C140_statistics'], 'roc_auc_score, roc_curve, _binary_clf_curve and auc of scikit-learn 0.21 are modelled and part of the trusted base. Exact arithmetic.'),
 'C141': ('proved', ['Heap.C141_deepcopy', 'Heap.C141_spared', 'Heap.C141_shallow_refuted', 'Heap.C141_frozen'], 'The classes define no hooks for copying and pickling, so both copy the attributes; that pickle restores arrays and dictionaries is trusted. C141_shallow_refuted shows that set_event on a shallow copy changes its source.'),
 'C142': ('proved', ['MF.C142_certificate', 'MF.C142_agree', 'MF.C142_enough_factors', 'MF.C142_factors_help', 'MF.C142_biases_only'], 'Exact arithmetic. Nothing is said about whether the optimizer finds such coefficients. C142_biases_only allows repeated pairs: the sum is multiplied by the largest number of repetitions; its bound is sharp (example beside it).'),
 'C143': ('proved', ['Fl.C143_loss', 'Fl.C143_loss_nonneg', 'Fl.C143_gradient', 'Fl.C143_gradient_logistic', 'Fl.C143_gradient_implicit', 'Fl.C143_stopped', 'Fl.C143_unused', 'Fl.C143_exists'], 'No overflow and no subnormal numbers; expit accurate to four units in the last place (an assumption, as in C115). The losses of the logistic models are not part of it: near saturation the logarithm of 1 - expit is not accurate. C143_exists shows that the relations hold of some result for every input.'),
 'C144': ('partial', ['Exp.C144_times_partial', 'Exp.C144_never', 'Exp.C144_refuted'], 'Everything but the end_time of tests holds. That entry repeats the start_time of the test (exp_recsys_util.py:137): C144_never shows it for every file of the scripts with a fold whenever clock readings are written differently, C144_refuted for a run with every method.'),
 'C145': ('proved', ['Rescale.C145_set_event', 'Rescale.C145_levels', 'Rescale.C145_digitize', 'Rescale.C145_binarize', 'Rescale.C145_filter', 'Rescale.C145_plsa_fit', 'Rescale.C145_plsa_predict', 'Rescale.C145_mae', 'Rescale.C145_mse', 'Rescale.C145_histogram', 'Rescale.C145_statistics', 'Rescale.C145_report'], 'Exact arithmetic. C145_plsa_predict needs positive pseudo-counts, admissible random weights and non-empty training data for predictions by expectation only.'),
 'C146': ('proved', ['Rescale.C146_plsa', 'Rescale.C146_item_finder', 'Rescale.C146_pmf'], 'Exact arithmetic. The state of a generator after a fit must not depend on the scores (hafter), as is so for numpy generators. For matrix factorization only shifts: its penalty does not scale with the scores.'),
 'C147': ('proved', ['Exp.C147_cross_validation', 'Exp.C147_holdout'], 'Exact arithmetic for the size of the test parts: np.ceil of a fifth of the number of events of a user (see C132 for the arithmetic of the machine).'),
 'C148': ('proved', ['MF.C148_ranking', 'MF.C148_auc', 'MF.C148_auc_inside', 'MF.C148_auc_tie'], 'Exact arithmetic. C148_auc_tie: two linear scores beyond the domain become a tie.'),
 'C149': ('proved', ['PLSA.C149_best_exists', 'PLSA.C149_best_stays', 'PLSA.C149_stationary', 'PLSA.C149_limit', 'PLSA.C149_fit'], 'Exact arithmetic. Nothing is said about which stationary point is approached, nor that the parameters themselves converge.'),
 'C150': ('proved', ['PLSA.C150_bound', 'PLSA.C150_reached', 'PLSA.C150_fit', 'PLSA.C150_more_classes'], 'Exact arithmetic. C150_reached uses parameters with zeros, the limit of what training with small alpha can reach.'),
 'C151': ('proved', ['PLSA.C151_repeated', 'PLSA.C151_repeated_plain'], 'Exact arithmetic. The initial weights of the copies must be those of the original event; fit draws them at random.'),
 'C152': ('proved', ['MF.C152_small_gradient', 'MF.C152_stationary', 'MF.C152_pmf_success', 'MF.C152_logistic_success', 'MF.C152_pmf_loss', 'MF.C152_logistic_loss', 'MF.C152_implicit_success'], 'Exact arithmetic. Stops says that success means a gradient within the tolerance, Honest that the reported loss is that of the returned point; both describe the optimizer of scipy, which is a parameter of the model. At the level of fit for data with the columns user, item.'),
 'C153': ('proved', ['C153_to_eid', 'C153_to_eid_refused', 'C153_back', 'C153_missing_values', 'C153_never_loaded'], 'Arrays of integers; other entry types are outside the model. The 2-d loops of the code go by columns, the model by rows; both raise the same exceptions.'),
 'C154': ('proved', ['C154_untrained_predict', 'C154_trained_stays'], 'Which exception predict raises is not part of the claim.'),
 'C155': ('partial', ['MF.Steps.C155_training', 'MF.Steps.C155_optimizer', 'MF.Steps.C155_stored_partial', 'MF.Steps.C155_completed', 'MF.Steps.C155_runs', 'MF.Steps.C155_one_object', 'MF.Steps.C155_points', 'MF.Steps.C155_new', 'MF.Steps.C155_again', 'MF.Steps.C155_success', 'MF.Steps.C155_refuted'],
  'False in full: a call interrupted while the optimizer runs leaves untrained parameters with which predict works (C155_refuted). Interruptions are between statements. C155_again is for a second call with the same number of factors k. Layout (0, 1), event_index None or (0, 1).'),
 'C156': ('proved', ['PLSA.Steps.C156_interrupted', 'PLSA.Steps.C156_early', 'PLSA.Steps.C156_between', 'PLSA.Steps.C156_success', 'PLSA.Steps.C156_completed'],
  'Interruptions are between statements. In C156_early the recommender is new; what an earlier call left is overwritten by the first seven statements. Layout (0, 1), event_index None or (0, 1).'),
 'C157': ('proved', ['Streams.C157_seeded', 'Streams.C157_seeded_draws_nothing', 'Streams.C157_only_its_own', 'Streams.C157_stream', 'MF.C157_pmf', 'MF.C157_logistic', 'MF.C157_implicit', 'MF.C157_pmf_one', 'PLSA.C157_plsa'],
  'A generator is an arbitrary state with arbitrary draws. C157_implicit is for event_index (0, 1) and columns of types 0 and 1; C157_plsa for regular score domains and k > 0. How many bits of the generator a draw of n numbers consumes is left to numpy.'),
 'C158': ('partial', ['Load.C158_points', 'Load.C158_completed', 'Load.C158_first', 'Load.C158_retry', 'Load.C158_retry_score', 'Load.C158_mixture', 'Load.C158_score', 'Load.C158_refuted'],
  'False in full: while the tables of ids are replaced, old events read as a mixture of old and new objects (C158_refuted, C158_mixture). Interruptions are between assignments to attributes and array columns; a column that is written in part counts as not written.'),
 'C159': ('partial', ['Threads.C159_same', 'Threads.C159_readers', 'Threads.C159_parts', 'Threads.C159_alone', 'Threads.C159_refuted', 'Threads.C159_refuted_round_trip'],
  'False in full: with different events the tables of one direction can be of one call and those of the other direction of another, so that an id comes back as another one although no call raised (C159_refuted, C159_refuted_round_trip). Threads change between assignments to attributes and array columns, with the evaluation of the right-hand side as part of the assignment.'),
 'C160': ('partial', ['Bin.C160_points', 'Bin.C160_points_default', 'Bin.C160_completed', 'Bin.C160_retry_iff', 'Bin.C160_retry_default_iff', 'Bin.C160_twice', 'Bin.C160_threads', 'Bin.C160_threads_same', 'Bin.C160_refuted', 'Bin.C160_threads_refuted'],
  'False in full: a repeated call with a threshold of 1 or more, as for ratings from 1 to 5, turns all scores into 0 (C160_refuted); two threads that both read the domain before one of them replaces it do the same (C160_threads_refuted). Exact conditions are proved. Interruptions and thread switches are between steps; the evaluation of the new scores and their assignment are two steps.'),
 'C161': ('partial', ['MF.Steps.C161_alone', 'MF.Steps.C161_fitted', 'MF.Steps.C161_generators', 'MF.Steps.C161_pmf', 'MF.Steps.C161_logistic', 'MF.Steps.C161_implicit', 'MF.Steps.C161_undisturbed', 'MF.Steps.C161_serial', 'MF.Steps.C161_refuted'],
  'False in full: if two threads share a generator (random_state None, or the same RandomState), the draws of one come between those of the other, and a recommender learns what it learns in no order of the fits (C161_refuted). Threads change between statements, with a call of the optimizer or of normal as one; the matrix factorizations only. C161_fitted, C161_pmf, C161_logistic and C161_implicit ask for numbers of users and items other than 1, where fit raises an exception (C155_one_object).'),
 'C162': ('partial', ['MF.Steps.C162_mixture', 'MF.Steps.C162_training', 'MF.Steps.C162_stored', 'MF.Steps.C162_one_moment', 'MF.Steps.C162_refuted'],
  'False in full: if the mean is read before and the biases after the result is stored, the prediction is that of no moment (C162_refuted). Reading an attribute with the requested entries of its array is one step, as is each statement of fit; the tables of ids are those of the new data, so reads before the allocation of a later fit are not covered (C155_again has them for one moment). Layout (0, 1), event_index None or (0, 1).'),
 'C163': ('proved', ['PLSA.Steps.C163_domain', 'PLSA.Steps.C163_early', 'PLSA.Steps.C163_known'],
  'Reading an attribute and using its entries is one step, as is each statement of fit, so a division in place is not seen half done. Reads of arrays an earlier fit has left are not covered. Layout (0, 1), event_index None or (0, 1), exact arithmetic.'),
 'C164': ('partial', ['PLSA.Steps.C164_drawn', 'PLSA.Steps.C164_undisturbed', 'PLSA.Steps.C164_serial', 'PLSA.Steps.C164_generators', 'PLSA.Steps.C164_refuted'],
  'False in full: if two threads share a generator, the draws of one come between those of the other (C164_refuted). Threads change between statements, with one draw of dirichlet as a statement; the events have been prepared and digitized before.'),
 'C165': ('partial', ['MF.Same.C165_one_result', 'MF.Same.C165_refuted', 'MF.Same.C165_kept_refuted', 'MF.Same.C165_report_refuted', 'MF.Same.C165_alone', 'MF.Same.C165_serial'], 'False in full: a call that is still searching when another one ends raises an exception, because the other has set _coef to None (C165_refuted), and a call that goes on to initialize writes its initial values into the finished parameters before it raises one (C165_kept_refuted). Even if all calls come to their ends, fit_results_ can be that of another call than the parameters (C165_report_refuted). Proved when all calls come to their ends (C165_one_result), and that calls which do not overlap, with at least two users and items, come to their ends and leave parameters and fit_results_ of the last (C165_alone, C165_serial). random_state is an integer, all calls have data with the same numbers of users and items, and have read their events before the first modelled statement; the call of the optimizer is one statement.'),
}
