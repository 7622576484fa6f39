{
 "claims": [
  {
   "property": "C01",
   "status": "proved",
   "theorems": [
    "Kam.C01_roundtrip"
   ],
   "note": ""
  },
  {
   "property": "C02",
   "status": "proved",
   "theorems": [
    "Kam.C02_dense_ranks"
   ],
   "note": ""
  },
  {
   "property": "C03",
   "status": "partial",
   "theorems": [
    "Kam.C03_inverse_partial",
    "Kam.C03_negative_wraps",
    "Kam.C03_refuted"
   ],
   "note": "False of the code for negative internal ids: -n <= i < 0 wraps around instead of raising. Proved: inverse laws and rejection of all other foreign ids; exact behaviour of the wrapping ids; negation with witness."
  },
  {
   "property": "C04",
   "status": "proved",
   "theorems": [
    "Kam.C04_unknown_ids",
    "Kam.C04_unknown_ids_vector",
    "Kam.C04_shape_error"
   ],
   "note": ""
  },
  {
   "property": "C05",
   "status": "partial",
   "theorems": [
    "Kam.C05_repeated_scalar_partial",
    "Kam.C05_scalar_raises",
    "Kam.C05_refuted"
   ],
   "note": "False of the code: a scalar always raises TypeError on a non-empty array. Proved: the workaround with a repeated vector."
  },
  {
   "property": "C06",
   "status": "proved",
   "theorems": [
    "Kam.C06_filter_commutes_with_load",
    "Kam.C06_filter_total"
   ],
   "note": ""
  },
  {
   "property": "C07",
   "status": "proved",
   "theorems": [
    "Kam.C07_no_dangling_no_orphans"
   ],
   "note": ""
  },
  {
   "property": "C08",
   "status": "proved",
   "theorems": [
    "Kam.C08_filter_keeps_attachments",
    "Kam.C08_filter_keeps_scores"
   ],
   "note": ""
  },
  {
   "property": "C09",
   "status": "proved",
   "theorems": [
    "Kam.C09_filters_compose",
    "Kam.C09_filter_all"
   ],
   "note": "For containers whose object features have one row per object (what set_feature produces)."
  },
  {
   "property": "C10",
   "status": "proved",
   "theorems": [
    "Kam.C10_constructor"
   ],
   "note": ""
  },
  {
   "property": "C11",
   "status": "proved",
   "theorems": [
    "Kam.C11_set_feature",
    "Kam.C11_order_irrelevant"
   ],
   "note": ""
  },
  {
   "property": "C12",
   "status": "partial",
   "theorems": [
    "Kam.C12_reload_partial",
    "Kam.C12_iff",
    "Kam.C12_refuted"
   ],
   "note": "False of the code: object features of the previous load survive. Proved: everything else is as after a fresh load, and everything if and only if the container has no object features (C12_iff)."
  },
  {
   "property": "C13",
   "status": "proved",
   "theorems": [
    "Kam.Heap.C13_values",
    "Kam.Heap.C13_independent"
   ],
   "note": ""
  },
  {
   "property": "C14",
   "status": "proved",
   "theorems": [
    "Kam.C14_failing_set_event"
   ],
   "note": ""
  },
  {
   "property": "C15",
   "status": "partial",
   "theorems": [
    "Kam.C15_digitized_in_range_partial",
    "Kam.C15_in_range_iff_regular",
    "Kam.C15_refuted"
   ],
   "note": "False of the code when the range is not a multiple of the stride. Proved: exactly the regular domains satisfy it."
  },
  {
   "property": "C16",
   "status": "proved",
   "theorems": [
    "Kam.C16_nearest_level"
   ],
   "note": ""
  },
  {
   "property": "C17",
   "status": "partial",
   "theorems": [
    "Kam.C17_estimated_domain_partial",
    "Kam.C17_iff",
    "Kam.C17_refuted"
   ],
   "note": "The estimate and the ValueError are proved in full; the last clause (observed scores digitize into range) only for regular domains, and refuted for scores 0, 2, 5. It holds if and only if the range of the scores exceeds a multiple of the stride by less than half a stride (C17_iff)."
  },
  {
   "property": "C18",
   "status": "proved",
   "theorems": [
    "Kam.C18_binarize",
    "Kam.C18_default_threshold"
   ],
   "note": ""
  },
  {
   "property": "C19",
   "status": "proved",
   "theorems": [
    "Kam.C19_accepts_exactly_binary"
   ],
   "note": ""
  },
  {
   "property": "C20",
   "status": "proved",
   "theorems": [
    "Kam.C20_fit_alignment"
   ],
   "note": ""
  },
  {
   "property": "C21",
   "status": "proved",
   "theorems": [
    "Kam.C21_predict_scores_internal_ids"
   ],
   "note": ""
  },
  {
   "property": "C22",
   "status": "partial",
   "theorems": [
    "Kam.C22_predict_any_layout_partial",
    "Kam.C22_exact",
    "Kam.C22_predict_exact",
    "Kam.C22_refuted_event_index",
    "Kam.C22_refuted_layout",
    "Kam.C22_refuted_width"
   ],
   "note": "False of the code: event_index=(1,0) mixes up the id tables, layout (1,0) uses the wrong unknown id, an index that selects fewer columns makes predict raise. Proved for the identity index and layouts in which the type of a column is the type of the column with that number. C22_predict_exact says what predict computes for every layout and index, C22_exact gives the exact condition under which it is right."
  },
  {
   "property": "C23",
   "status": "proved",
   "theorems": [
    "Kam.C23_batch_row_wise",
    "Kam.C23_empty_and_single",
    "Kam.MF.C23_mf",
    "Kam.PLSA.C23_plsa"
   ],
   "note": "For every row-wise raw_predict, instantiated for all four models."
  },
  {
   "property": "C24",
   "status": "partial",
   "theorems": [
    "Kam.Heap.C24_independent_partial",
    "Kam.Heap.C24_new_recommender",
    "Kam.Heap.C24_tables",
    "Kam.Heap.C24_refuted"
   ],
   "note": "False of the code: set_event on the training container replaces the id tables the recommender reads. Proved for histories that do not set events of the training container; for every history predictions use the fitted parameters and the current tables."
  },
  {
   "property": "C25",
   "status": "proved",
   "theorems": [
    "Kam.C25_training_data_dropped"
   ],
   "note": ""
  },
  {
   "property": "C26",
   "status": "proved",
   "theorems": [
    "Kam.C26_refit_forgets",
    "Kam.MF.C26_mf",
    "Kam.PLSA.C26_plsa"
   ],
   "note": "For every class that assigns a fixed set of result keys, instantiated for all four models."
  },
  {
   "property": "C27",
   "status": "partial",
   "theorems": [
    "Kam.Opt.C27_independent_partial",
    "Kam.Opt.C27_fit",
    "Kam.Opt.C27_passed",
    "Kam.Opt.C27_plsa",
    "Kam.Opt.C27_rejects",
    "Kam.Opt.C27_refuted"
   ],
   "note": "False of the code when a maxiter comes with an options dictionary another recommender uses. Proved for all other histories; that fit consumes nothing is proved without restriction."
  },
  {
   "property": "C28",
   "status": "proved",
   "theorems": [
    "Kam.MF.C28_coefficient_layout",
    "Kam.MF.C28_n_parameters"
   ],
   "note": ""
  },
  {
   "property": "C29",
   "status": "proved",
   "theorems": [
    "Kam.MF.C29_pmf_gradient"
   ],
   "note": ""
  },
  {
   "property": "C30",
   "status": "proved",
   "theorems": [
    "Kam.MF.C30_initial_coefficients",
    "Kam.MF.C30_initial_factors",
    "Kam.MF.C30_pmf_factors",
    "Kam.MF.C30_logistic_factors",
    "Kam.MF.C30_implicit_start"
   ],
   "note": "Also for LogisticPMF and ImplicitLogisticPMF."
  },
  {
   "property": "C31",
   "status": "proved",
   "theorems": [
    "Kam.MF.C31_pmf_loss"
   ],
   "note": ""
  },
  {
   "property": "C32",
   "status": "proved",
   "theorems": [
    "Kam.MF.C32_unknown_objects"
   ],
   "note": "End to end from fit to predict, for user-item events with the default layout (see C22 for other layouts)."
  },
  {
   "property": "C33",
   "status": "proved",
   "theorems": [
    "Kam.MF.C33_stationary_mean"
   ],
   "note": ""
  },
  {
   "property": "C34",
   "status": "proved",
   "theorems": [
    "Kam.MF.C34_safe_sigmoid"
   ],
   "note": ""
  },
  {
   "property": "C35",
   "status": "partial",
   "theorems": [
    "Kam.MF.C35_logistic_gradient_partial",
    "Kam.MF.C35_clipped_gradient",
    "Kam.MF.C35_gradient_error",
    "Kam.MF.C35_gradient_iff",
    "Kam.MF.C35_small_error",
    "Kam.MF.C35_refuted"
   ],
   "note": "False of the code where safe_sigmoid clips an estimate. Proved: correct where nothing is clipped; the true gradient elsewhere; negation with witness."
  },
  {
   "property": "C36",
   "status": "partial",
   "theorems": [
    "Kam.MF.C36_implicit_gradient_partial",
    "Kam.MF.C36_gradient_iff",
    "Kam.MF.C36_small_error",
    "Kam.MF.C36_refuted"
   ],
   "note": "As C35."
  },
  {
   "property": "C37",
   "status": "proved",
   "theorems": [
    "Kam.MF.C37_implicit_is_explicit"
   ],
   "note": ""
  },
  {
   "property": "C38",
   "status": "partial",
   "theorems": [
    "Kam.C38_counts_partial",
    "Kam.C38_binary_partial",
    "Kam.C38_binary_iff",
    "Kam.C38_exact",
    "Kam.C38_exchanged",
    "Kam.C38_items_first",
    "Kam.C38_refuted_repeated",
    "Kam.C38_refuted_index"
   ],
   "note": "False of the code for repeated events (entries above 1) and for event_index other than the identity. Proved: entries are occurrence counts, and the matrix is binary exactly when no pair is repeated. C38_exact says for every layout and index of two columns whether the matrix exists and what it holds: the index is applied twice, so (1, 0) gives the matrix of (0, 1), and with items in front the matrix exists only if there are as many users as items."
  },
  {
   "property": "C39",
   "status": "proved",
   "theorems": [
    "Kam.MF.C39_logistic_loss_and_range"
   ],
   "note": ""
  },
  {
   "property": "C40",
   "status": "proved",
   "theorems": [
    "Kam.PLSA.C40_distributions"
   ],
   "note": ""
  },
  {
   "property": "C41",
   "status": "proved",
   "theorems": [
    "Kam.PLSA.C41_em_monotone",
    "Kam.PLSA.C41_any_parameters",
    "Kam.PLSA.C41_strict"
   ],
   "note": ""
  },
  {
   "property": "C42",
   "status": "partial",
   "theorems": [
    "Kam.PLSA.C42_loss_monotone_partial",
    "Kam.PLSA.C42_loss_bound",
    "Kam.PLSA.C42_iff",
    "Kam.PLSA.C42_grows",
    "Kam.PLSA.C42_refuted"
   ],
   "note": "False of the code for alpha > 0 (the default is 1): witness with one event and two latent classes. Proved for alpha = 0 and, with C42_iff, for no other; C42_grows has data for which every iteration of every positive alpha makes it worse; a bound for alpha > 0."
  },
  {
   "property": "C43",
   "status": "proved",
   "theorems": [
    "Kam.PLSA.C43_prediction"
   ],
   "note": "End to end from fit to predict for user-item events with the default layout, alpha > 0 and a generator whose Dirichlet draws are non-negative."
  },
  {
   "property": "C44",
   "status": "proved",
   "theorems": [
    "Kam.PLSA.C44_marginalization",
    "Kam.PLSA.C44_is_distribution",
    "Kam.PLSA.C43_prediction"
   ],
   "note": ""
  },
  {
   "property": "C45",
   "status": "partial",
   "theorems": [
    "Kam.PLSA.C45_iterations_partial",
    "Kam.PLSA.C45_no_iterations",
    "Kam.PLSA.C45_refuted",
    "Kam.PLSA.C45_last_iteration_refuted"
   ],
   "note": "False of the code for maxiter = 0 (n_iterations is 1) and when the test holds in the last allowed iteration (reported as failure). Proved otherwise; C45_no_iterations says what is reported for maxiter = 0."
  },
  {
   "property": "C46",
   "status": "proved",
   "theorems": [
    "Kam.Split.C46_interlaced",
    "Kam.Split.C46_rejects"
   ],
   "note": ""
  },
  {
   "property": "C47",
   "status": "proved",
   "theorems": [
    "Kam.Split.C47_kfold_within_groups"
   ],
   "note": ""
  },
  {
   "property": "C48",
   "status": "proved",
   "theorems": [
    "Kam.Split.C48_rejects",
    "Kam.Split.C48_rejects_no_groups"
   ],
   "note": ""
  },
  {
   "property": "C49",
   "status": "proved",
   "theorems": [
    "Kam.Split.C49_shuffle_split",
    "Kam.Split.C49_rejects",
    "Kam.Split.C49_rejects_sizes"
   ],
   "note": "Exact arithmetic for the products with a float size."
  },
  {
   "property": "C50",
   "status": "partial",
   "theorems": [
    "Kam.Split.C50_train_size_partial",
    "Kam.Split.C50_refuted"
   ],
   "note": "False of the code: everything that is not tested is trained on. Proved: at least train_size samples, and exactly as many if and only if test and training sizes exhaust the group."
  },
  {
   "property": "C51",
   "status": "proved",
   "theorems": [
    "Kam.Metrics.C51_errors",
    "Kam.Metrics.C51_symmetric",
    "Kam.Metrics.C51_rejects"
   ],
   "note": "Exact real arithmetic; nan and infinities explicit."
  },
  {
   "property": "C52",
   "status": "proved",
   "theorems": [
    "Kam.Metrics.C52_histogram",
    "Kam.Metrics.C52_levels"
   ],
   "note": "Related to the digitizing of a container with the same domain (C16)."
  },
  {
   "property": "C53",
   "status": "partial",
   "theorems": [
    "Kam.Metrics.C53_equal_bins_partial",
    "Kam.Metrics.C53_numpy_integers",
    "Kam.Metrics.C53_counts_all",
    "Kam.Metrics.C53_no_bins",
    "Kam.Metrics.C53_refuted"
   ],
   "note": "False of the code for Python integers (TypeError, every n). Proved for numpy integers and all samples; numbers below one are refused."
  },
  {
   "property": "C54",
   "status": "proved",
   "theorems": [
    "Kam.Metrics.C54_variance",
    "Kam.Metrics.C54_shift",
    "Kam.Metrics.C54_rejects"
   ],
   "note": ""
  },
  {
   "property": "C55",
   "status": "partial",
   "theorems": [
    "Kam.Metrics.C55_scalar_partial",
    "Kam.Metrics.C55_vector_partial",
    "Kam.Metrics.C55_refuted"
   ],
   "note": "False of the code for lists (TypeError always). Proved for dictionaries, scalar and vector statistics."
  },
  {
   "property": "C56",
   "status": "proved",
   "theorems": [
    "Kam.C56_is_binary",
    "Kam.C56_is_binary_strict"
   ],
   "note": ""
  },
  {
   "property": "C57",
   "status": "partial",
   "theorems": [
    "Kam.Util.C57_plain_tree_partial",
    "Kam.Util.C57_iff",
    "Kam.Util.C57_refuted"
   ],
   "note": "False of the code for numpy arrays of zero dimensions that hold a non-plain item (None, a date). Proved for all other trees, by paths; C57_iff: for no others."
  },
  {
   "property": "C58",
   "status": "partial",
   "theorems": [
    "Kam.Util.C58_bool_partial",
    "Kam.Util.C58_refuted"
   ],
   "note": "False of the code for numpy.bool_ (always a string). Proved for Python booleans, also inside arrays."
  },
  {
   "property": "C59",
   "status": "proved",
   "theorems": [
    "Kam.Metrics.C59_auc",
    "Kam.Metrics.C59_rejects"
   ],
   "note": "The AUC itself is a parameter here; C140 models the code of scikit-learn."
  },
  {
   "property": "C60",
   "status": "proved",
   "theorems": [
    "Kam.Scripts.C60_folds_merge_to_full_run"
   ],
   "note": "The output tree is compared by paths. The JSON round trip between the scripts is the subject of C125."
  },
  {
   "property": "C61",
   "status": "proved",
   "theorems": [
    "Kam.Scripts.C61_test_disjoint_from_training",
    "Kam.Scripts.C61_folds"
   ],
   "note": ""
  },
  {
   "property": "C62",
   "status": "proved",
   "theorems": [
    "Kam.Scripts.C62_pairs_belong_together",
    "Kam.Scripts.C62_defined_iff",
    "Kam.Scripts.C62_defined_refuted"
   ],
   "note": "For recommenders that return one prediction per event, squeezed. C62_defined_iff says which files the script can evaluate: those without a fold of a single test event."
  },
  {
   "property": "C63",
   "status": "partial",
   "theorems": [
    "Kam.Scripts.C63_merge_keeps_partial",
    "Kam.Scripts.C63_exact",
    "Kam.Scripts.C63_iff",
    "Kam.Scripts.C63_last_counts",
    "Kam.Scripts.C63_dropped",
    "Kam.Scripts.C63_refuted"
   ],
   "note": "False of the code: only the first fold of every file after the first is merged. Proved: all folds of the first file and of every file with one fold are kept; C63_exact says which folds the merged file has, C63_iff when none is lost, C63_last_counts which file a fold is taken from."
  },
  {
   "property": "C64",
   "status": "partial",
   "theorems": [
    "Kam.Scripts.C64_holdout_partial",
    "Kam.Scripts.C64_recorded",
    "Kam.Scripts.C64_refuted"
   ],
   "note": "False of the code: the training file is recorded as test file and the start time as end time. Proved: the training file is recorded, and the test events and predictions are those of the test file."
  },
  {
   "property": "C65",
   "status": "proved",
   "theorems": [
    "Kam.Scripts.C65_one_threshold"
   ],
   "note": ""
  },
  {
   "property": "C66",
   "status": "partial",
   "theorems": [
    "Kam.Convert.C66_score_partial",
    "Kam.Convert.C66_event_partial",
    "Kam.Convert.C66_one_line",
    "Kam.Convert.C66_one_column",
    "Kam.Convert.C66_refuted"
   ],
   "note": "False of the code for a file with one event and for events of one column: both raise IndexError. Proved for every other number of events and columns, with any comments, blank lines, line ends and further columns."
  },
  {
   "property": "C67",
   "status": "proved",
   "theorems": [
    "Kam.Convert.C67_sushi",
    "Kam.Convert.C67_rebuild"
   ],
   "note": "The way back needs a number of ratings other than one (C66)."
  },
  {
   "property": "C68",
   "status": "proved",
   "theorems": [
    "Kam.Convert.C68_mini"
   ],
   "note": ""
  },
  {
   "property": "C69",
   "status": "partial",
   "theorems": [
    "Kam.C69_failing_fit_partial",
    "Kam.C69_exact",
    "Kam.C69_bad_index",
    "Kam.C69_refuted"
   ],
   "note": "False of the code: the id tables of the refused data replace the old ones. Proved: learned parameters and fit results are kept when fit is refused before training; C69_exact and C69_bad_index say what predict does from then on."
  },
  {
   "property": "C70",
   "status": "partial",
   "theorems": [
    "Kam.MF.C70_pmf_fit_partial",
    "Kam.MF.C70_logistic_fit_partial",
    "Kam.MF.C70_implicit_fit_partial",
    "Kam.PLSA.C70_plsa_fit",
    "Kam.MF.C70_one_object",
    "Kam.MF.C70_implicit_one_object",
    "Kam.MF.C70_implicit_exact",
    "Kam.MF.C70_refuted"
   ],
   "note": "False of the code: with a single user or a single item the fit of all three matrix factorizations raises TypeError (numpy reads the field type (float, 1) as a plain float, which cannot be indexed). Proved for at least two users and two items, and that one user or item always raises. ImplicitLogisticPMF for event_index (0, 1) and columns of types 0 and 1; C70_implicit_exact says for every layout and index of two columns when fit succeeds and what it trains on."
  },
  {
   "property": "C71",
   "status": "partial",
   "theorems": [
    "Kam.Metrics.C71_force_finite_partial",
    "Kam.Metrics.C71_finite_same",
    "Kam.Metrics.C71_refuted"
   ],
   "note": "False of the code for numpy arrays (nan is returned). Proved for lists."
  },
  {
   "property": "C72",
   "status": "proved",
   "theorems": [
    "Kam.Metrics.C72_report_agrees"
   ],
   "note": "scikit-learn errors are modelled by their formulas."
  },
  {
   "property": "C73",
   "status": "partial",
   "theorems": [
    "Kam.Util.C73_serializable_partial",
    "Kam.Util.C73_iff",
    "Kam.Util.C73_refuted"
   ],
   "note": "False of the code for complex numbers and for keys that are not str, int, float, bool or None. C73_iff has the exact condition."
  },
  {
   "property": "C74",
   "status": "partial",
   "theorems": [
    "Kam.Convert.C74_malformed_partial",
    "Kam.Convert.C74_features",
    "Kam.Convert.C74_refuted"
   ],
   "note": "False of the code: a text in an integer column is loaded as -1. Proved: lines with different or too small numbers of fields are rejected."
  },
  {
   "property": "C75",
   "status": "partial",
   "theorems": [
    "Kam.Convert.C75_movielens100k_partial",
    "Kam.Convert.C75_refuted"
   ],
   "note": "False of the code for titles with a comment sign, and for files with one record (C66). Proved for all other data within the column widths; texts contain no separators."
  },
  {
   "property": "C76",
   "status": "partial",
   "theorems": [
    "Kam.Convert.C76_mini_partial",
    "Kam.Convert.C76_mini_is_selection",
    "Kam.Convert.C76_one_rating"
   ],
   "note": "False of the code when exactly one rating is selected: then loading always fails. Proved otherwise."
  },
  {
   "property": "C77",
   "status": "partial",
   "theorems": [
    "Kam.Convert.C77_movielens1m_partial",
    "Kam.Convert.C77_one_rating"
   ],
   "note": "Proved for data within the column widths, texts without separators and comment signs (C75 shows why), and files with a number of records other than one. A single rating always fails to load."
  },
  {
   "property": "C78",
   "status": "partial",
   "theorems": [
    "Kam.Convert.C78_flixster_partial",
    "Kam.Convert.C78_refuted"
   ],
   "note": "False of the code for a single rating. Proved for every other number of ratings."
  },
  {
   "property": "C79",
   "status": "partial",
   "theorems": [
    "Kam.Convert.C79_sushi3_partial",
    "Kam.Convert.C79_one_rating"
   ],
   "note": "Proved for numbers of ratings, users and sushi other than one; names without separators and comment signs, within the column width. A matrix with a single rating always fails to load."
  },
  {
   "property": "C80",
   "status": "proved",
   "theorems": [
    "Kam.Convert.C80_ml100k_user",
    "Kam.Convert.C80_ml100k_item",
    "Kam.Convert.C80_ml1m_user",
    "Kam.Convert.C80_ml1m_item"
   ],
   "note": ""
  },
  {
   "property": "C81",
   "status": "partial",
   "theorems": [
    "Kam.Convert.C81_pci_partial",
    "Kam.Convert.C81_names",
    "Kam.Convert.C81_refuted"
   ],
   "note": "False of the code for names longer than 18 characters, which are cut, and for one rating. Proved otherwise."
  },
  {
   "property": "C82",
   "status": "proved",
   "theorems": [
    "Kam.MF.C82_shifted_scores",
    "Kam.MF.C82_shifted_optimum"
   ],
   "note": "The optimizer is a parameter required to commute with translations; gradient descent is shown to do so."
  },
  {
   "property": "C83",
   "status": "proved",
   "theorems": [
    "Kam.MF.C83_rotated_factors"
   ],
   "note": ""
  },
  {
   "property": "C84",
   "status": "proved",
   "theorems": [
    "Kam.MF.C84_renamed_objects",
    "Kam.MF.C84_swapped_roles"
   ],
   "note": ""
  },
  {
   "property": "C85",
   "status": "proved",
   "theorems": [
    "Kam.MF.C85_repeated_events"
   ],
   "note": ""
  },
  {
   "property": "C86",
   "status": "proved",
   "theorems": [
    "Kam.MF.C86_optimum_exists"
   ],
   "note": ""
  },
  {
   "property": "C87",
   "status": "proved",
   "theorems": [
    "Kam.MF.C87_optimum"
   ],
   "note": ""
  },
  {
   "property": "C88",
   "status": "proved",
   "theorems": [
    "Kam.MF.C88_regularization"
   ],
   "note": ""
  },
  {
   "property": "C89",
   "status": "proved",
   "theorems": [
    "Kam.MF.C89_more_factors"
   ],
   "note": ""
  },
  {
   "property": "C90",
   "status": "proved",
   "theorems": [
    "Kam.PLSA.C90_stops"
   ],
   "note": "Dirichlet draws are nonnegative, for alpha = 0 positive."
  },
  {
   "property": "C91",
   "status": "proved",
   "theorems": [
    "Kam.PLSA.C91_latent_classes",
    "Kam.PLSA.C91_events",
    "Kam.PLSA.C91_objects",
    "Kam.PLSA.C91_swapped_roles"
   ],
   "note": ""
  },
  {
   "property": "C92",
   "status": "proved",
   "theorems": [
    "Kam.PLSA.C92_one_class"
   ],
   "note": "For alpha = 0 every user and item has an event."
  },
  {
   "property": "C93",
   "status": "proved",
   "theorems": [
    "Kam.Split.C93_ordered",
    "Kam.Split.C93_every_split"
   ],
   "note": ""
  },
  {
   "property": "C94",
   "status": "proved",
   "theorems": [
    "Kam.Split.C94_blocks",
    "Kam.Split.C94_every_partition"
   ],
   "note": ""
  },
  {
   "property": "C95",
   "status": "proved",
   "theorems": [
    "Kam.Split.C95_renamed_groups"
   ],
   "note": ""
  },
  {
   "property": "C96",
   "status": "proved",
   "theorems": [
    "Kam.Metrics.C96_mean_absolute_error",
    "Kam.Metrics.C96_mean_squared_error",
    "Kam.Metrics.C96_histogram",
    "Kam.Metrics.C96_variance",
    "Kam.Metrics.C96_score_predictor",
    "Kam.Metrics.C96_score_predictor_report",
    "Kam.Metrics.C96_item_finder"
   ],
   "note": "The AUC of scikit-learn is a parameter, assumed not to depend on the order; C140_perm shows this of its code."
  },
  {
   "property": "C97",
   "status": "partial",
   "theorems": [
    "Kam.Scripts.C97_output",
    "Kam.Scripts.C97_score_predictor_partial",
    "Kam.Scripts.C97_item_finder_partial",
    "Kam.Scripts.C97_single",
    "Kam.Scripts.C97_refuted",
    "Kam.Scripts.C97_same_folds",
    "Kam.Scripts.C97_merged"
   ],
   "note": "The script raises an exception whenever a fold has a single test event (C97_single, C97_refuted). Score predictors: the recorded score domain has a positive stride. The AUC of scikit-learn is a parameter, for the comparison of files assumed not to depend on the order (C140_perm shows this of its code)."
  },
  {
   "property": "C98",
   "status": "proved",
   "theorems": [
    "Kam.Scripts.C98_reproducible",
    "Kam.Scripts.C98_number_of_folds",
    "Kam.Scripts.C98_recorded_domain"
   ],
   "note": "The recommender is a function of data, options and its random generator."
  },
  {
   "property": "C99",
   "status": "proved",
   "theorems": [
    "Kam.Exp.C99_accepted",
    "Kam.Exp.C99_options"
   ],
   "note": "The command line is a list of options with converted arguments: how argparse splits strings is the subject of C127 and C128."
  },
  {
   "property": "C100",
   "status": "proved",
   "theorems": [
    "Kam.Exp.C100_methods",
    "Kam.Exp.C100_pmf",
    "Kam.Exp.C100_plsa",
    "Kam.Exp.C100_lpmf",
    "Kam.Exp.C100_recorded",
    "Kam.Exp.C100_labels"
   ],
   "note": ""
  },
  {
   "property": "C101",
   "status": "proved",
   "theorems": [
    "Kam.Exp.C101_other_methods",
    "Kam.Exp.C101_verbosity",
    "Kam.Exp.C101_test_file",
    "Kam.Exp.C101_folds_holdout"
   ],
   "note": "The number of folds matters to a hold-out test only when a fold is asked for with --fold-no."
  },
  {
   "property": "C102",
   "status": "proved",
   "theorems": [
    "Kam.Exp.C102_distributed",
    "Kam.Exp.C102_predictor_statistics",
    "Kam.Exp.C102_finder_statistics"
   ],
   "note": "The AUC of scikit-learn is a parameter, for the comparison of files assumed not to depend on the order (C140_perm shows this of its code)."
  },
  {
   "property": "C103",
   "status": "proved",
   "theorems": [
    "Kam.Exp.C103_pmf_cross_validation",
    "Kam.Exp.C103_pmf_cross_validation_needs",
    "Kam.Exp.C103_pmf_every_generator",
    "Kam.Exp.C103_pmf_holdout",
    "Kam.Exp.C103_plsa_cross_validation",
    "Kam.Exp.C103_plsa_holdout",
    "Kam.Exp.C103_lpmf_cross_validation",
    "Kam.Exp.C103_lpmf_cross_validation_needs",
    "Kam.Exp.C103_lpmf_every_generator",
    "Kam.Exp.C103_lpmf_holdout"
   ],
   "note": "Exact arithmetic. The hold-out tests of score predictors are characterised for training files with events. The conditions for a cross validation of matrix factorization are exact for runs that are to succeed whatever the random numbers are."
  },
  {
   "property": "C104",
   "status": "proved",
   "theorems": [
    "Kam.Exp.C104_predictor_statistics_defined",
    "Kam.Exp.C104_finder_statistics_defined"
   ],
   "note": "A given score domain of a score predictor does not have a negative stride."
  },
  {
   "property": "C105",
   "status": "proved",
   "theorems": [
    "Kam.Exp.C105_topic_model_range",
    "Kam.Exp.C105_logistic_range"
   ],
   "note": "Topic models: positive smoothing, a score domain whose largest score is some strides above the smallest, and a training file with events. Exact arithmetic."
  },
  {
   "property": "C106",
   "status": "proved",
   "theorems": [
    "Kam.Exp.C106_cross_validation",
    "Kam.Exp.C106_holdout",
    "Kam.Exp.C106_pmf_runs",
    "Kam.Exp.C106_pmf_runs_always",
    "Kam.Exp.C106_pmf_holdout_runs",
    "Kam.Exp.C106_plsa_runs",
    "Kam.Exp.C106_plsa_holdout_runs",
    "Kam.Exp.C106_lpmf_runs",
    "Kam.Exp.C106_lpmf_holdout_runs",
    "Kam.Exp.C106_refused",
    "Kam.Exp.C106_movielens100k",
    "Kam.Exp.C106_movielens1m",
    "Kam.Exp.C106_mini",
    "Kam.Exp.C106_flixster",
    "Kam.Exp.C106_sushi",
    "Kam.Exp.loadEventWithScore_text"
   ],
   "note": "Composes the model of text files with the model of the scripts; loadEventWithScore_text shows that the two models of the loader agree."
  },
  {
   "property": "C107",
   "status": "proved",
   "theorems": [
    "Kam.Relabel.C107_set_event",
    "Kam.Relabel.C107_filter_event",
    "Kam.Relabel.C107_events",
    "Kam.Relabel.C107_features",
    "Kam.Relabel.C107_fit",
    "Kam.Relabel.C107_predict",
    "Kam.Relabel.C107_predict_uniform",
    "Kam.Relabel.C107_splits",
    "Kam.Relabel.C107_session",
    "Kam.Relabel.C107_order_matters"
   ],
   "note": "Predictions of a recommender trained on a selection of the columns are covered when all types are renamed alike."
  },
  {
   "property": "C108",
   "status": "proved",
   "theorems": [
    "Kam.Relabel.C108_scripts",
    "Kam.Relabel.C108_uniform",
    "Kam.Relabel.C108_blank"
   ],
   "note": "The state of the random generator after a fit is a parameter, assumed not to depend on the names."
  },
  {
   "property": "C109",
   "status": "proved",
   "theorems": [
    "Kam.Shell.C109_only_targets",
    "Kam.Shell.C109_experiment",
    "Kam.Shell.C109_merge",
    "Kam.Shell.C109_statistics"
   ],
   "note": "Positional arguments come after the options (C128_any_order has them anywhere); all files can be written."
  },
  {
   "property": "C110",
   "status": "partial",
   "theorems": [
    "Kam.Shell.C110_partial",
    "Kam.Shell.C110_refuted",
    "Kam.Shell.C110_own_input",
    "Kam.Shell.C110_raised_empties",
    "Kam.Shell.C110_half_written"
   ],
   "note": "False of the code: argparse empties the output files while it parses the command line, also when the run is refused afterwards or raises an exception (C110_refuted, C110_raised_empties), and a result that is its own output is lost (C110_own_input). What holds (C110_partial): at every moment a file is as it was, empty, complete, or has a part of the result of a run that would succeed. A run stopped while it writes leaves such a part (C110_half_written)."
  },
  {
   "property": "C111",
   "status": "proved",
   "theorems": [
    "Kam.Shell.C111_at_the_same_time",
    "Kam.Shell.C111_stopped",
    "Kam.Shell.C111_no_deadlock",
    "Kam.Shell.C111_same_output"
   ],
   "note": ""
  },
  {
   "property": "C112",
   "status": "proved",
   "theorems": [
    "Kam.Shell.C112_pipeline",
    "Kam.Shell.Textual.read_back"
   ],
   "note": "The AUC of scikit-learn is a parameter, assumed not to depend on the order of the events; result files are read back as they were written, which Shell.Textual.read_back derives for text from C125. Numbers may be rounded in the files."
  },
  {
   "property": "C113",
   "status": "proved",
   "theorems": [
    "Kam.MF.C113_pmf_start",
    "Kam.MF.C113_logistic_start",
    "Kam.MF.C113_implicit_start",
    "Kam.PLSA.C113_plsa_start",
    "Kam.MF.C113_never_fitted",
    "Kam.PLSA.C113_never_fitted"
   ],
   "note": "The matrix factorizations for at least two users and two items (see C70), LogisticPMF on two-class binary data, ImplicitLogisticPMF with event_index=(0, 1), MultinomialPLSA with alpha > 0, maxiter >= 1 and nonnegative Dirichlet draws."
  },
  {
   "property": "C114",
   "status": "partial",
   "theorems": [
    "Kam.Fl.C114_machine_levels_partial",
    "Kam.Fl.C114_set_event_given",
    "Kam.Fl.C114_set_event_estimated",
    "Kam.Fl.C114_digitize",
    "Kam.Fl.C114_refuted",
    "Kam.Fl.C114_out_of_range"
   ],
   "note": "False of the code for decimal strides: with the domain (0, 0.3, 0.1) there are 3 levels and the score 0.3 is digitized to 3 (C114_refuted, C114_out_of_range). Proved for domains whose bounds and stride are multiples of one power of two, at most 2^50 of them: whole stars, half stars. Overflow and subnormal numbers are not modelled."
  },
  {
   "property": "C115",
   "status": "proved",
   "theorems": [
    "Kam.Fl.C115_prediction_range",
    "Kam.Fl.C115_loss_term",
    "Kam.Fl.C115_residual",
    "Kam.Fl.C115_loss_finite"
   ],
   "note": "The accuracy of scipy expit and numpy log is an assumption. Overflow of the latent estimate itself is covered by infinite estimates, nan is not."
  },
  {
   "property": "C116",
   "status": "proved",
   "theorems": [
    "Kam.Exp.C116_experiment",
    "Kam.Exp.C116_merge",
    "Kam.Exp.C116_stats",
    "Kam.Exp.C116_found",
    "Kam.Exp.C116_no_seed"
   ],
   "note": "Assumed: the values put into the environment section, the ids and the event features are scalars other than complex numbers. nan is written as NaN, which json.dumps accepts by default."
  },
  {
   "property": "C117",
   "status": "partial",
   "theorems": [
    "Kam.Heap.C117_not_written",
    "Kam.Heap.C117_partial",
    "Kam.Heap.C117_scope",
    "Kam.Heap.C117_scope_index",
    "Kam.Heap.C117_copied",
    "Kam.Heap.C117_refuted_domain",
    "Kam.Heap.C117_refuted_index"
   ],
   "note": "The library never writes into arrays of the caller (C117_not_written). False of the code for later writes by the caller: np.asanyarray keeps the array passed as score_domain (C117_refuted_domain) and the one passed as event_index (C117_refuted_index). Proved for programs that do not write into such an array after passing it (C117_partial); nothing else can be reached (C117_scope, C117_scope_index, C117_copied)."
  },
  {
   "property": "C118",
   "status": "proved",
   "theorems": [
    "Kam.Split.C118_kfold",
    "Kam.Split.C118_kfold_partition",
    "Kam.Split.C118_shuffle",
    "Kam.Split.C118_shuffle_seed",
    "Kam.Split.C118_interlaced",
    "Kam.Split.C118_late_errors",
    "Kam.Split.C118_n_splits",
    "Kam.Split.C118_ended"
   ],
   "note": "The generators are state machines stepped by next; sklearn 0.21 stands for the helpers."
  },
  {
   "property": "C119",
   "status": "partial",
   "theorems": [
    "Kam.Split.C119_partial",
    "Kam.Split.C119_refuted_labels",
    "Kam.Split.C119_refuted_random_state"
   ],
   "note": "False of the code: the labels are read again for every fold (C119_refuted_labels), and a RandomState that is handed over is used when the folds are asked for (C119_refuted_random_state). Proved when the labels are not overwritten and random_state is an integer or nothing is shuffled (C119_partial)."
  },
  {
   "property": "C120",
   "status": "proved",
   "theorems": [
    "Kam.Exp.C120_iff_describable",
    "Kam.Exp.C120_not_describable",
    "Kam.Exp.C120_describable",
    "Kam.Exp.C120_recorded",
    "Kam.Exp.C120_host",
    "Kam.Exp.C120_host_asked",
    "Kam.Exp.C120_system_info",
    "Kam.Exp.C120_written"
   ],
   "note": "The answers of platform, the version strings and the output of the commands are parameters."
  },
  {
   "property": "C121",
   "status": "partial",
   "theorems": [
    "Kam.Exp.C121_script_version_partial",
    "Kam.Exp.C121_script_version_refuted"
   ],
   "note": "False of the code: do_task is in exp_recsys_util.py and records the version of that module, 2.0.0, for both scripts (5.0.0 and 3.0.0)."
  },
  {
   "property": "C122",
   "status": "proved",
   "theorems": [
    "Kam.EventData.C122_filter_is_part",
    "Kam.EventData.C122_features_commute_with_filter",
    "Kam.ScoreData.C122_filter_is_part_scores"
   ],
   "note": "With scores: for a declared score domain (an estimated one is that of the loaded scores, see C17)."
  },
  {
   "property": "C123",
   "status": "proved",
   "theorems": [
    "Kam.Split.C123_kfold",
    "Kam.Split.C123_shuffle",
    "Kam.Split.C118_ended"
   ],
   "note": "For label arrays; with groups=None there is nothing to overwrite (C118)."
  },
  {
   "property": "C124",
   "status": "proved",
   "theorems": [
    "Kam.Split.C124_others",
    "Kam.Split.C124_kfold",
    "Kam.Split.C124_shuffle"
   ],
   "note": "The draws are calls of a shuffle of given length; for KFoldWithinGroups whose groups are large enough, otherwise next raises."
  },
  {
   "property": "C125",
   "status": "proved",
   "theorems": [
    "Kam.Json.C125_roundtrip",
    "Kam.Json.C125_injective",
    "Kam.Json.C125_printable",
    "Kam.Json.C125_reread",
    "Kam.Shell.C125_results"
   ],
   "note": "Assumed: float.__repr__ writes a decimal fraction that float reads back. The model of json follows the Python module; no limit on the depth of a tree."
  },
  {
   "property": "C126",
   "status": "proved",
   "theorems": [
    "Kam.Json.C126_cut_off",
    "Kam.Json.C126_trailing",
    "Kam.Shell.C126_never_half",
    "Kam.Shell.C126_beginnings"
   ],
   "note": "What a run writes replaces the content of the file: two runs writing one file at the same time are not modelled at the level of characters."
  },
  {
   "property": "C127",
   "status": "proved",
   "theorems": [
    "Kam.Args.C127_grammar",
    "Kam.Args.C127_one_reading",
    "Kam.Args.C127_raises"
   ],
   "note": "argparse of Python before 3.9, which the scripts need, is part of the trusted base as a model. Digits of negative numbers are ASCII; no string ends with a newline."
  },
  {
   "property": "C128",
   "status": "proved",
   "theorems": [
    "Kam.Args.C128_experiment",
    "Kam.Args.C128_merge",
    "Kam.Args.C128_stats",
    "Kam.Args.C128_any_order",
    "Kam.Args.C128_merge_any_order",
    "Kam.Args.C128_stats_any_order",
    "Kam.Args.C128_documented_experiment",
    "Kam.Args.C128_documented_merge",
    "Kam.Args.C128_documented_stats",
    "Kam.Args.C128_help",
    "Kam.Args.C128_only_documented"
   ],
   "note": "int and float applied to strings are parameters; - as a file name (a standard stream) is left to C129."
  },
  {
   "property": "C129",
   "status": "proved",
   "theorems": [
    "Kam.Args.C129_touched",
    "Kam.Args.C129_one_result",
    "Kam.Args.C129_stopped",
    "Kam.Args.C129_ambiguous"
   ],
   "note": "All files can be opened for writing. Help and version texts are not part of standard output. --out=-- is read as a file named --."
  },
  {
   "property": "C130",
   "status": "proved",
   "theorems": [
    "Kam.Fl.C130_absolute_error",
    "Kam.Fl.C130_squared_error",
    "Kam.Fl.C130_sample",
    "Kam.Fl.C130_symmetric"
   ],
   "note": "Finite numbers; no overflow and no subnormal numbers. At most 2^50 pairs."
  },
  {
   "property": "C131",
   "status": "partial",
   "theorems": [
    "Kam.Fl.C131_positive",
    "Kam.Fl.C131_accurate_partial",
    "Kam.Fl.C131_accurate_refuted"
   ],
   "note": "Positivity is proved for all data. Accuracy is false in general: for the data 2^30, 2^30 + 1 the sum of squares and the square of the sum cancel and the result is b/a. Proved when the exact numerator exceeds the rounding errors of its parts."
  },
  {
   "property": "C132",
   "status": "partial",
   "theorems": [
    "Kam.Fl.C132_splits_partial",
    "Kam.Fl.C132_two_tenths",
    "Kam.Fl.C132_exact_partial",
    "Kam.Fl.C132_within_one",
    "Kam.Fl.C132_exact_refuted"
   ],
   "note": "False for some fractions: 0.07 of 100 events are 8 events. Proved for the sizes the library and the scripts use (0.1 and 0.2) and for all fractions represented that well; for all other fractions the count is at most one off, and only if the exact count is a whole number."
  },
  {
   "property": "C133",
   "status": "proved",
   "theorems": [
    "Kam.Fl.C133_score",
    "Kam.Fl.C133_unknown",
    "Kam.Fl.C133_logistic"
   ],
   "note": "No overflow and no subnormal numbers; expit accurate to four units in the last place (an assumption, as in C115)."
  },
  {
   "property": "C134",
   "status": "proved",
   "theorems": [
    "Kam.Fl.C134_expectation",
    "Kam.Fl.C134_mode",
    "Kam.Fl.C134_fitted"
   ],
   "note": "No overflow and no subnormal numbers. The scalar product rounds every product (no fused operations)."
  },
  {
   "property": "C135",
   "status": "proved",
   "theorems": [
    "Kam.Args.C135_numbers",
    "Kam.Args.C135_stats",
    "Kam.Args.C135_not_an_integer",
    "Kam.Args.C135_negative_exponent"
   ],
   "note": "int(s) and float(s) as in Verif/Convert/Text: no underscores between digits, ASCII digits, exact values of decimals, no nan and inf."
  },
  {
   "property": "C136",
   "status": "proved",
   "theorems": [
    "Kam.Convert.C136_converted",
    "Kam.Convert.C136_missing",
    "Kam.Convert.C136_bad_line",
    "Kam.Convert.C136_help",
    "Kam.Convert.C136_stopped",
    "Kam.Convert.C136_again"
   ],
   "note": "Every file can be written, and what has been printed before an exception is in the file in the end. Encodings are not modelled."
  },
  {
   "property": "C137",
   "status": "proved",
   "theorems": [
    "Kam.Convert.C137_movielens100k",
    "Kam.Convert.C137_movielens1m",
    "Kam.Convert.C137_flixster",
    "Kam.Convert.C137_sushi3",
    "Kam.Convert.C137_stopped",
    "Kam.Convert.C137_refuted",
    "Kam.Convert.C137_wrong_score"
   ],
   "note": "Ratings with integer ids, times and scores (decimal scores for Flixster). C137_refuted and C137_wrong_score show that a truncated file may load without an error and that the last score may be wrong."
  },
  {
   "property": "C138",
   "status": "partial",
   "theorems": [
    "Kam.Est.C138_get_params_names",
    "Kam.Est.C138_get_params_mf",
    "Kam.Est.C138_get_params_plsa",
    "Kam.Est.C138_set_params",
    "Kam.Est.C138_set_params_unknown",
    "Kam.Est.C138_settings_refused",
    "Kam.Est.C138_clone_iff",
    "Kam.Est.C138_clone_refused",
    "Kam.Est.C138_clone",
    "Kam.Est.C138_clone_always",
    "Kam.Est.C138_default_settings",
    "Kam.Est.C138_same_training_partial",
    "Kam.Est.C138_same_training_refuted"
   ],
   "note": "That a clone learns what the original learns is false when the original has settings of the optimizer, which clone does not see; proved for the default settings. scikit-learn up to 0.21 is part of the trusted base as a model."
  },
  {
   "property": "C139",
   "status": "proved",
   "theorems": [
    "Kam.Fl.C139_mstep",
    "Kam.Fl.C139_estep",
    "Kam.Fl.C139_pass",
    "Kam.Fl.C139_training",
    "Kam.Fl.C139_bounded",
    "Kam.Fl.C139_normal",
    "Kam.Fl.C139_predicts"
   ],
   "note": "At most 2^52 for the sizes in the bounds. Rounding without a range of exponents; C139_normal shows that products and quotients stay in the range of normal numbers for alpha from 2^-100 and up to 2^48 events, users, items, levels and topics. The loss and the stopping test are not part of it: the number of passes is arbitrary."
  },
  {
   "property": "C140",
   "status": "proved",
   "theorems": [
    "Kam.Metrics.C140_meaning",
    "Kam.Metrics.C140_one_class",
    "Kam.Metrics.C140_range",
    "Kam.Metrics.C140_perfect",
    "Kam.Metrics.C140_order",
    "Kam.Metrics.C140_reverse",
    "Kam.Metrics.C140_constant",
    "Kam.Metrics.C140_perm",
    "Kam.Metrics.C140_statistics"
   ],
   "note": "roc_auc_score, roc_curve, _binary_clf_curve and auc of scikit-learn 0.21 are modelled and part of the trusted base. Exact arithmetic."
  },
  {
   "property": "C141",
   "status": "proved",
   "theorems": [
    "Kam.Heap.C141_deepcopy",
    "Kam.Heap.C141_spared",
    "Kam.Heap.C141_shallow_refuted",
    "Kam.Heap.C141_frozen"
   ],
   "note": "The classes define no hooks for copying and pickling, so both copy the attributes; that pickle restores arrays and dictionaries is trusted. C141_shallow_refuted shows that set_event on a shallow copy changes its source."
  },
  {
   "property": "C142",
   "status": "proved",
   "theorems": [
    "Kam.MF.C142_certificate",
    "Kam.MF.C142_agree",
    "Kam.MF.C142_enough_factors",
    "Kam.MF.C142_factors_help",
    "Kam.MF.C142_biases_only"
   ],
   "note": "Exact arithmetic. Nothing is said about whether the optimizer finds such coefficients. C142_biases_only allows repeated pairs: the sum is multiplied by the largest number of repetitions; its bound is sharp (example beside it)."
  },
  {
   "property": "C143",
   "status": "proved",
   "theorems": [
    "Kam.Fl.C143_loss",
    "Kam.Fl.C143_loss_nonneg",
    "Kam.Fl.C143_gradient",
    "Kam.Fl.C143_gradient_logistic",
    "Kam.Fl.C143_gradient_implicit",
    "Kam.Fl.C143_stopped",
    "Kam.Fl.C143_unused",
    "Kam.Fl.C143_exists"
   ],
   "note": "No overflow and no subnormal numbers; expit accurate to four units in the last place (an assumption, as in C115). The losses of the logistic models are not part of it: near saturation the logarithm of 1 - expit is not accurate. C143_exists shows that the relations hold of some result for every input."
  },
  {
   "property": "C144",
   "status": "partial",
   "theorems": [
    "Kam.Exp.C144_times_partial",
    "Kam.Exp.C144_never",
    "Kam.Exp.C144_refuted"
   ],
   "note": "Everything but the end_time of tests holds. That entry repeats the start_time of the test (exp_recsys_util.py:137): C144_never shows it for every file of the scripts with a fold whenever clock readings are written differently, C144_refuted for a run with every method."
  },
  {
   "property": "C145",
   "status": "proved",
   "theorems": [
    "Kam.Rescale.C145_set_event",
    "Kam.Rescale.C145_levels",
    "Kam.Rescale.C145_digitize",
    "Kam.Rescale.C145_binarize",
    "Kam.Rescale.C145_filter",
    "Kam.Rescale.C145_plsa_fit",
    "Kam.Rescale.C145_plsa_predict",
    "Kam.Rescale.C145_mae",
    "Kam.Rescale.C145_mse",
    "Kam.Rescale.C145_histogram",
    "Kam.Rescale.C145_statistics",
    "Kam.Rescale.C145_report"
   ],
   "note": "Exact arithmetic. C145_plsa_predict needs positive pseudo-counts, admissible random weights and non-empty training data for predictions by expectation only."
  },
  {
   "property": "C146",
   "status": "proved",
   "theorems": [
    "Kam.Rescale.C146_plsa",
    "Kam.Rescale.C146_item_finder",
    "Kam.Rescale.C146_pmf"
   ],
   "note": "Exact arithmetic. The state of a generator after a fit must not depend on the scores (hafter), as is so for numpy generators. For matrix factorization only shifts: its penalty does not scale with the scores."
  },
  {
   "property": "C147",
   "status": "proved",
   "theorems": [
    "Kam.Exp.C147_cross_validation",
    "Kam.Exp.C147_holdout"
   ],
   "note": "Exact arithmetic for the size of the test parts: np.ceil of a fifth of the number of events of a user (see C132 for the arithmetic of the machine)."
  },
  {
   "property": "C148",
   "status": "proved",
   "theorems": [
    "Kam.MF.C148_ranking",
    "Kam.MF.C148_auc",
    "Kam.MF.C148_auc_inside",
    "Kam.MF.C148_auc_tie"
   ],
   "note": "Exact arithmetic. C148_auc_tie: two linear scores beyond the domain become a tie."
  },
  {
   "property": "C149",
   "status": "proved",
   "theorems": [
    "Kam.PLSA.C149_best_exists",
    "Kam.PLSA.C149_best_stays",
    "Kam.PLSA.C149_stationary",
    "Kam.PLSA.C149_limit",
    "Kam.PLSA.C149_fit"
   ],
   "note": "Exact arithmetic. Nothing is said about which stationary point is approached, nor that the parameters themselves converge."
  },
  {
   "property": "C150",
   "status": "proved",
   "theorems": [
    "Kam.PLSA.C150_bound",
    "Kam.PLSA.C150_reached",
    "Kam.PLSA.C150_fit",
    "Kam.PLSA.C150_more_classes"
   ],
   "note": "Exact arithmetic. C150_reached uses parameters with zeros, the limit of what training with small alpha can reach."
  },
  {
   "property": "C151",
   "status": "proved",
   "theorems": [
    "Kam.PLSA.C151_repeated",
    "Kam.PLSA.C151_repeated_plain"
   ],
   "note": "Exact arithmetic. The initial weights of the copies must be those of the original event; fit draws them at random."
  },
  {
   "property": "C152",
   "status": "proved",
   "theorems": [
    "Kam.MF.C152_small_gradient",
    "Kam.MF.C152_stationary",
    "Kam.MF.C152_pmf_success",
    "Kam.MF.C152_logistic_success",
    "Kam.MF.C152_pmf_loss",
    "Kam.MF.C152_logistic_loss",
    "Kam.MF.C152_implicit_success"
   ],
   "note": "Exact arithmetic. Stops says that success means a gradient within the tolerance, Honest that the reported loss is that of the returned point; both describe the optimizer of scipy, which is a parameter of the model. At the level of fit for data with the columns user, item."
  },
  {
   "property": "C153",
   "status": "proved",
   "theorems": [
    "Kam.C153_to_eid",
    "Kam.C153_to_eid_refused",
    "Kam.C153_back",
    "Kam.C153_missing_values",
    "Kam.C153_never_loaded"
   ],
   "note": "Arrays of integers; other entry types are outside the model. The 2-d loops of the code go by columns, the model by rows; both raise the same exceptions."
  },
  {
   "property": "C154",
   "status": "proved",
   "theorems": [
    "Kam.C154_untrained_predict",
    "Kam.C154_trained_stays"
   ],
   "note": "Which exception predict raises is not part of the claim."
  },
  {
   "property": "C155",
   "status": "partial",
   "theorems": [
    "Kam.MF.Steps.C155_training",
    "Kam.MF.Steps.C155_optimizer",
    "Kam.MF.Steps.C155_stored_partial",
    "Kam.MF.Steps.C155_completed",
    "Kam.MF.Steps.C155_runs",
    "Kam.MF.Steps.C155_one_object",
    "Kam.MF.Steps.C155_points",
    "Kam.MF.Steps.C155_new",
    "Kam.MF.Steps.C155_again",
    "Kam.MF.Steps.C155_success",
    "Kam.MF.Steps.C155_refuted"
   ],
   "note": "False in full: a call interrupted while the optimizer runs leaves untrained parameters with which predict works (C155_refuted). Interruptions are between statements. C155_again is for a second call with the same number of factors k. Layout (0, 1), event_index None or (0, 1)."
  },
  {
   "property": "C156",
   "status": "proved",
   "theorems": [
    "Kam.PLSA.Steps.C156_interrupted",
    "Kam.PLSA.Steps.C156_early",
    "Kam.PLSA.Steps.C156_between",
    "Kam.PLSA.Steps.C156_success",
    "Kam.PLSA.Steps.C156_completed"
   ],
   "note": "Interruptions are between statements. In C156_early the recommender is new; what an earlier call left is overwritten by the first seven statements. Layout (0, 1), event_index None or (0, 1)."
  },
  {
   "property": "C157",
   "status": "proved",
   "theorems": [
    "Kam.Streams.C157_seeded",
    "Kam.Streams.C157_seeded_draws_nothing",
    "Kam.Streams.C157_only_its_own",
    "Kam.Streams.C157_stream",
    "Kam.MF.C157_pmf",
    "Kam.MF.C157_logistic",
    "Kam.MF.C157_implicit",
    "Kam.MF.C157_pmf_one",
    "Kam.PLSA.C157_plsa"
   ],
   "note": "A generator is an arbitrary state with arbitrary draws. C157_implicit is for event_index (0, 1) and columns of types 0 and 1; C157_plsa for regular score domains and k > 0. How many bits of the generator a draw of n numbers consumes is left to numpy."
  },
  {
   "property": "C158",
   "status": "partial",
   "theorems": [
    "Kam.Load.C158_points",
    "Kam.Load.C158_completed",
    "Kam.Load.C158_first",
    "Kam.Load.C158_retry",
    "Kam.Load.C158_retry_score",
    "Kam.Load.C158_mixture",
    "Kam.Load.C158_score",
    "Kam.Load.C158_refuted"
   ],
   "note": "False in full: while the tables of ids are replaced, old events read as a mixture of old and new objects (C158_refuted, C158_mixture). Interruptions are between assignments to attributes and array columns; a column that is written in part counts as not written."
  },
  {
   "property": "C159",
   "status": "partial",
   "theorems": [
    "Kam.Threads.C159_same",
    "Kam.Threads.C159_readers",
    "Kam.Threads.C159_parts",
    "Kam.Threads.C159_alone",
    "Kam.Threads.C159_refuted",
    "Kam.Threads.C159_refuted_round_trip"
   ],
   "note": "False in full: with different events the tables of one direction can be of one call and those of the other direction of another, so that an id comes back as another one although no call raised (C159_refuted, C159_refuted_round_trip). Threads change between assignments to attributes and array columns, with the evaluation of the right-hand side as part of the assignment."
  },
  {
   "property": "C160",
   "status": "partial",
   "theorems": [
    "Kam.Bin.C160_points",
    "Kam.Bin.C160_points_default",
    "Kam.Bin.C160_completed",
    "Kam.Bin.C160_retry_iff",
    "Kam.Bin.C160_retry_default_iff",
    "Kam.Bin.C160_twice",
    "Kam.Bin.C160_threads",
    "Kam.Bin.C160_threads_same",
    "Kam.Bin.C160_refuted",
    "Kam.Bin.C160_threads_refuted"
   ],
   "note": "False in full: a repeated call with a threshold of 1 or more, as for ratings from 1 to 5, turns all scores into 0 (C160_refuted); two threads that both read the domain before one of them replaces it do the same (C160_threads_refuted). Exact conditions are proved. Interruptions and thread switches are between steps; the evaluation of the new scores and their assignment are two steps."
  },
  {
   "property": "C161",
   "status": "partial",
   "theorems": [
    "Kam.MF.Steps.C161_alone",
    "Kam.MF.Steps.C161_fitted",
    "Kam.MF.Steps.C161_generators",
    "Kam.MF.Steps.C161_pmf",
    "Kam.MF.Steps.C161_logistic",
    "Kam.MF.Steps.C161_implicit",
    "Kam.MF.Steps.C161_undisturbed",
    "Kam.MF.Steps.C161_serial",
    "Kam.MF.Steps.C161_refuted"
   ],
   "note": "False in full: if two threads share a generator (random_state None, or the same RandomState), the draws of one come between those of the other, and a recommender learns what it learns in no order of the fits (C161_refuted). Threads change between statements, with a call of the optimizer or of normal as one; the matrix factorizations only. C161_fitted, C161_pmf, C161_logistic and C161_implicit ask for numbers of users and items other than 1, where fit raises an exception (C155_one_object)."
  },
  {
   "property": "C162",
   "status": "partial",
   "theorems": [
    "Kam.MF.Steps.C162_mixture",
    "Kam.MF.Steps.C162_training",
    "Kam.MF.Steps.C162_stored",
    "Kam.MF.Steps.C162_one_moment",
    "Kam.MF.Steps.C162_refuted"
   ],
   "note": "False in full: if the mean is read before and the biases after the result is stored, the prediction is that of no moment (C162_refuted). Reading an attribute with the requested entries of its array is one step, as is each statement of fit; the tables of ids are those of the new data, so reads before the allocation of a later fit are not covered (C155_again has them for one moment). Layout (0, 1), event_index None or (0, 1)."
  },
  {
   "property": "C163",
   "status": "proved",
   "theorems": [
    "Kam.PLSA.Steps.C163_domain",
    "Kam.PLSA.Steps.C163_early",
    "Kam.PLSA.Steps.C163_known"
   ],
   "note": "Reading an attribute and using its entries is one step, as is each statement of fit, so a division in place is not seen half done. Reads of arrays an earlier fit has left are not covered. Layout (0, 1), event_index None or (0, 1), exact arithmetic."
  },
  {
   "property": "C164",
   "status": "partial",
   "theorems": [
    "Kam.PLSA.Steps.C164_drawn",
    "Kam.PLSA.Steps.C164_undisturbed",
    "Kam.PLSA.Steps.C164_serial",
    "Kam.PLSA.Steps.C164_generators",
    "Kam.PLSA.Steps.C164_refuted"
   ],
   "note": "False in full: if two threads share a generator, the draws of one come between those of the other (C164_refuted). Threads change between statements, with one draw of dirichlet as a statement; the events have been prepared and digitized before."
  },
  {
   "property": "C165",
   "status": "partial",
   "theorems": [
    "Kam.MF.Same.C165_one_result",
    "Kam.MF.Same.C165_refuted",
    "Kam.MF.Same.C165_kept_refuted",
    "Kam.MF.Same.C165_report_refuted",
    "Kam.MF.Same.C165_alone",
    "Kam.MF.Same.C165_serial"
   ],
   "note": "False in full: a call that is still searching when another one ends raises an exception, because the other has set _coef to None (C165_refuted), and a call that goes on to initialize writes its initial values into the finished parameters before it raises one (C165_kept_refuted). Even if all calls come to their ends, fit_results_ can be that of another call than the parameters (C165_report_refuted). Proved when all calls come to their ends (C165_one_result), and that calls which do not overlap, with at least two users and items, come to their ends and leave parameters and fit_results_ of the last (C165_alone, C165_serial). random_state is an integer, all calls have data with the same numbers of users and items, and have read their events before the first modelled statement; the call of the optimizer is one statement."
  }
 ]
}