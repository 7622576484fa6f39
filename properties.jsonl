{"id": "C01", "title": "External-id round trip of a loaded event set", "statement": "After data.set_event(event) succeeds, data.to_eid_event(data.event) returns exactly the event array that was passed in, row for row and column for column; converting one row at a time gives the same answer as converting the whole array.", "quantifier": "every number of object types, every legal event_otypes (including types shared by columns and types no column uses), every event array of matching width over any totally ordered id type, every row", "why_tests_cant": "The event array, the id type and the type layout are unbounded; a test fixes one file and the default layout.", "anchors": ["kamrecsys/data/event.py:EventData.set_event", "kamrecsys/data/event.py:EventUtilMixin.to_eid_event", "kamrecsys/data/base.py:ObjectUtilMixin._gen_id"]}
{"id": "C02", "title": "Internal ids are the dense ranks of external ids", "statement": "After set_event, for every object type the internal id of an external id x is the number of distinct external ids of that type that are smaller than x; internal ids are exactly 0..n_objects[t]-1, n_objects[t] is the number of distinct ids of the type in the events, and eid[t] is strictly increasing.", "quantifier": "every layout, every event array, every object type and external id", "why_tests_cant": "Needs all id multisets and orders; tests only look at two small files.", "anchors": ["kamrecsys/data/event.py:EventData.set_event", "kamrecsys/data/base.py:ObjectUtilMixin._gen_id"]}
{"id": "C03", "title": "to_iid and to_eid are mutually inverse and reject foreign ids", "statement": "After set_event, to_iid(t, to_eid(t, i)) = i for 0 <= i < n_objects[t], to_eid(t, to_iid(t, x)) = x for every x occurring with type t, and both raise ValueError on every other argument (an id that never occurred, an internal id outside 0..n-1).", "quantifier": "every layout, event array, object type, internal and external id", "why_tests_cant": "Ranges over all ids, in particular all the absent ones.", "anchors": ["kamrecsys/data/base.py:ObjectUtilMixin.to_eid", "kamrecsys/data/base.py:ObjectUtilMixin.to_iid"]}
{"id": "C04", "title": "Unknown external ids become the per-column missing value", "statement": "to_iid_event maps each entry that occurred in training to its internal id and every other entry of column e to n_objects[event_otypes[e]] (or to missing_values[e] when the caller passes a vector); it never raises on an array of matching width and raises TypeError on any other shape.", "quantifier": "every loaded container, every input array, every missing_values vector", "why_tests_cant": "The set of unknown ids is infinite and the array is unbounded.", "anchors": ["kamrecsys/data/event.py:EventUtilMixin.to_iid_event"]}
{"id": "C05", "title": "A scalar missing_values is accepted", "statement": "to_iid_event(ev, missing_values=m) with one integer m converts every unknown id to m (the docstring allows \"int or array_like\").", "quantifier": "every loaded container, every input array, every integer m", "why_tests_cant": "Holds or fails for all arrays at once; no test passes the argument.", "anchors": ["kamrecsys/data/event.py:EventUtilMixin.to_iid_event"]}
{"id": "C06", "title": "Filtering commutes with loading", "statement": "Filtering a loaded container gives the same events, eid tables, iid tables, object counts and event count as loading a fresh container with just the selected events.", "quantifier": "every layout, every event array, every boolean mask and every index array", "why_tests_cant": "The commuting square has unboundedly many masks; a test shows one mask of one file.", "anchors": ["kamrecsys/data/event.py:EventData.filter_event", "kamrecsys/data/event.py:EventData.set_event", "kamrecsys/data/base.py:ObjectUtilMixin._gen_id_substitution_table"]}
{"id": "C07", "title": "A filtered container has neither dangling nor orphan objects", "statement": "After filter_event every internal id in the events is in 0..n_objects-1 for its type, and every object kept in the eid/iid/feature tables occurs in some kept event; in particular the placeholder -1 of the substitution table never reaches the events.", "quantifier": "every layout, event array, mask; every object type and event entry", "why_tests_cant": "Universal over masks, including the empty selection.", "anchors": ["kamrecsys/data/event.py:EventData.filter_event", "kamrecsys/data/base.py:ObjectUtilMixin._gen_id_substitution_table"]}
{"id": "C08", "title": "Filtering keeps objects, scores and features attached", "statement": "In a filtered container the k-th kept event has the external ids, the event feature and the score that the same event had before filtering, and each kept object has the object feature it had before.", "quantifier": "every loaded container with or without features and scores, every mask or index array, every kept event and object", "why_tests_cant": "Alignment must hold at every position for every selection.", "anchors": ["kamrecsys/data/event.py:EventData.filter_event", "kamrecsys/data/event_with_score.py:EventWithScoreData.filter_event"]}
{"id": "C09", "title": "Filters compose", "statement": "Filtering by c1 and then by c2 gives the same container as filtering once by the composed selection, and filtering by the all-true mask changes nothing.", "quantifier": "every loaded container, every pair of selections", "why_tests_cant": "Universal over pairs of selections and histories of filters of any length.", "anchors": ["kamrecsys/data/event.py:EventData.filter_event"]}
{"id": "C10", "title": "Constructor validation of the type layout", "statement": "EventData(n_otypes, event_otypes) raises ValueError exactly when n_otypes < 1, or event_otypes is given and is not one-dimensional, is empty, or mentions a type outside 0..n_otypes-1; otherwise s_event equals the number of columns of the layout.", "quantifier": "every integer n_otypes, every nested event_otypes", "why_tests_cant": "All integer layouts; the boundary is one value wide.", "anchors": ["kamrecsys/data/base.py:BaseData.__init__", "kamrecsys/data/event.py:EventData.__init__"]}
{"id": "C11", "title": "Object features are aligned with internal ids", "statement": "set_feature(t, eid, feature) succeeds exactly when every loaded object of type t is listed in eid (and lists are consistent); then row j of feature[t] is the feature of the last listed entry whose external id is that of internal id j. Entries for unknown objects are ignored and, without duplicates, the order of the list does not matter.", "quantifier": "every loaded container, object type, list of external ids and features", "why_tests_cant": "Universal over permutations, duplicates and superfluous ids.", "anchors": ["kamrecsys/data/base.py:BaseData.set_feature"]}
{"id": "C12", "title": "Reloading a container forgets the previous load", "statement": "Calling set_event twice leaves the container exactly as if only the second call had been made on a fresh container, including that no object feature of the first load is left behind.", "quantifier": "every pair (indeed every history) of loads, features set in between", "why_tests_cant": "A statement about all call histories.", "anchors": ["kamrecsys/data/event.py:EventData.set_event", "kamrecsys/data/base.py:BaseData.set_feature"]}
{"id": "C13", "title": "Containers do not interfere through shared arrays", "statement": "After filter_event the source and the filtered container are independent: no later sequence of set_event, set_feature, binarize_score or filter_event calls on one container changes what any other container reports.", "quantifier": "every history of container operations over any number of containers", "why_tests_cant": "Aliasing bugs need particular interleavings of calls on several objects.", "anchors": ["kamrecsys/data/event.py:EventData.filter_event", "kamrecsys/data/event.py:EventData.set_event", "kamrecsys/data/base.py:BaseData.set_feature"]}
{"id": "C14", "title": "A failing set_event leaves the container unchanged", "statement": "If set_event raises because the width of the event array differs from s_event, the container still holds its previous load.", "quantifier": "every container state, every event array of the wrong width", "why_tests_cant": "Universal over states and shapes.", "anchors": ["kamrecsys/data/event.py:EventData.set_event"]}
{"id": "C15", "title": "Digitized scores index the score levels", "statement": "For a score container with min < max and stride > 0, digitize_score maps every finite score to an integer in 0..n_score_levels-1.", "quantifier": "every score domain (in exact arithmetic), every finite score", "why_tests_cant": "Continuum of domains and scores.", "anchors": ["kamrecsys/data/event_with_score.py:EventWithScoreData.digitize_score", "kamrecsys/data/event_with_score.py:EventWithScoreData.set_event", "kamrecsys/metrics/base.py:generate_score_bins"]}
{"id": "C16", "title": "Digitizing picks the nearest score level", "statement": "digitize_score(s) is the index of the score level nearest to s (ties upward) and digitize_score(get_score_levels()) is 0,1,2,...; digitizing is monotone.", "quantifier": "every regular score domain (range a multiple of the stride), every finite score", "why_tests_cant": "Continuum of scores.", "anchors": ["kamrecsys/data/event_with_score.py:EventWithScoreData.digitize_score", "kamrecsys/data/event_with_score.py:ScoreUtilMixin.get_score_levels", "kamrecsys/metrics/base.py:generate_score_bins"]}
{"id": "C17", "title": "Estimated score domain", "statement": "With score_domain=None, set_event takes the minimum, the maximum and the smallest gap between distinct scores; the call raises ValueError when fewer than two distinct scores occur; every observed score is then digitized into the range 0..n_score_levels-1.", "quantifier": "every non-empty list of scores", "why_tests_cant": "Universal over score multisets; the failure needs an irregular gap structure.", "anchors": ["kamrecsys/data/event_with_score.py:EventWithScoreData.set_event"]}
{"id": "C18", "title": "Binarization", "statement": "binarize_score(t) replaces each score s by 0 if s <= t and by 1 otherwise, keeps order and number of scores, sets the domain to (0,1,1) and two levels; the default threshold is the mid-point of the domain; binarizing again with the default threshold changes nothing.", "quantifier": "every score container, every threshold", "why_tests_cant": "Continuum of scores and thresholds.", "anchors": ["kamrecsys/data/event_with_score.py:EventWithScoreData.binarize_score"]}
{"id": "C19", "title": "Item finders accept exactly two-class binary data", "statement": "An explicit item finder accepts a score container for fitting exactly when its domain is (0,1,1), it has 2 levels and its scores consist of 0 and 1 with both present; any other container is rejected with ValueError.", "quantifier": "every score container", "why_tests_cant": "Universal over score arrays and domains.", "anchors": ["kamrecsys/item_finder/base.py:BaseExplicitItemFinder.fit", "kamrecsys/utils/base.py:is_binary_score"]}
{"id": "C20", "title": "fit hands the model aligned events and object counts", "statement": "After fit(data, event_index) the model sees, for each selected column c of the events, the internal ids of that column and the number of objects of that column's type, so every id is below its count.", "quantifier": "every loaded container, every in-range event_index (any order, repetitions)", "why_tests_cant": "Universal over layouts and index vectors.", "anchors": ["kamrecsys/base/base.py:BaseEventRecommender.fit", "kamrecsys/base/base.py:BaseEventRecommender.get_event"]}
{"id": "C21", "title": "predict scores the internal ids of the requested objects", "statement": "predict(eev) returns the model score of the internal ids of the requested external ids; an id that was not in the training data is scored as the unknown object of its column.", "quantifier": "every training container with one type per column in order, event_index covering the columns in order, every batch of requests", "why_tests_cant": "All batches, all unknown ids.", "anchors": ["kamrecsys/base/base.py:BaseEventRecommender.predict", "kamrecsys/data/event.py:EventUtilMixin.to_iid_event"]}
{"id": "C22", "title": "predict works for every event_index and every type layout", "statement": "The statement of C21 for an arbitrary event_index accepted by fit and an arbitrary legal event_otypes.", "quantifier": "every legal layout, every event_index accepted by fit, every batch", "why_tests_cant": "Tests call predict with the default index only.", "anchors": ["kamrecsys/base/base.py:BaseEventRecommender.predict", "kamrecsys/base/base.py:BaseEventRecommender.fit", "kamrecsys/data/event.py:EventUtilMixin.to_iid_event"]}
{"id": "C23", "title": "Batch prediction is row-wise", "statement": "predict on a batch of n >= 2 rows is the vector of the predictions of the single rows; prediction of one row is a scalar and does not depend on the other rows or on their order.", "quantifier": "every fitted matrix-factorization or pLSA model, every batch", "why_tests_cant": "Universal over batches.", "anchors": ["kamrecsys/base/base.py:BaseEventRecommender.predict", "kamrecsys/score_predictor/matrix_factorization.py:PMF.raw_predict", "kamrecsys/score_predictor/topic_model.py:MultinomialPLSA.raw_predict", "kamrecsys/item_finder/matrix_factorization.py:LogisticPMF.raw_predict"]}
{"id": "C24", "title": "A fitted recommender is independent of its training container", "statement": "Once fit has returned, no later call on the training container changes what the recommender predicts.", "quantifier": "every history of calls on containers after fit", "why_tests_cant": "Needs particular interleavings of calls on aliased objects.", "anchors": ["kamrecsys/base/base.py:BaseRecommender.fit", "kamrecsys/data/base.py:ObjectUtilMixin._set_object_info", "kamrecsys/data/event.py:EventData.set_event"]}
{"id": "C25", "title": "Training data is dropped after fit", "statement": "After a successful fit the recommender holds no events, event features, scores or random generator, and predict still works and does not depend on them.", "quantifier": "every training container, every recommender of the package", "why_tests_cant": "Universal over fits and requests.", "anchors": ["kamrecsys/base/base.py:BaseEventRecommender.remove_data", "kamrecsys/score_predictor/base.py:BaseScorePredictor.remove_data", "kamrecsys/score_predictor/matrix_factorization.py:PMF.fit"]}
{"id": "C26", "title": "Refitting forgets the previous fit", "statement": "With an integer seed, fitting the same recommender again gives the same learned parameters, predictions and fit results as fitting a fresh recommender with the same settings.", "quantifier": "every history of fits before the last one", "why_tests_cant": "A statement about all histories.", "anchors": ["kamrecsys/score_predictor/matrix_factorization.py:PMF.fit", "kamrecsys/item_finder/matrix_factorization.py:LogisticPMF.fit", "kamrecsys/score_predictor/topic_model.py:MultinomialPLSA.fit", "kamrecsys/base/base.py:BaseRecommender.fit"]}
{"id": "C27", "title": "Optimizer settings of two recommenders are independent", "statement": "Constructing another recommender never changes the optimizer settings of an existing one, and fit does not consume its settings.", "quantifier": "every history of constructions and fits, with option dictionaries shared or not", "why_tests_cant": "Needs two constructions sharing one options dictionary.", "anchors": ["kamrecsys/score_predictor/matrix_factorization.py:PMF.__init__", "kamrecsys/item_finder/matrix_factorization.py:LogisticPMF.__init__", "kamrecsys/item_finder/matrix_factorization.py:ImplicitLogisticPMF.__init__"]}
{"id": "C28", "title": "The flat coefficient vector has exactly one slot per parameter", "statement": "The views mu, bu, bi, p, q of the coefficient vector are pairwise disjoint and together cover it exactly, and its size (reported as n_parameters) is 1 + n_users + n_items + k*(n_users+n_items).", "quantifier": "every number of users, items and factors", "why_tests_cant": "Universal over sizes; an offset error shows only for some sizes.", "anchors": ["kamrecsys/score_predictor/matrix_factorization.py:PMF._init_coef", "kamrecsys/item_finder/matrix_factorization.py:LogisticPMF._init_coef", "kamrecsys/item_finder/matrix_factorization.py:ImplicitLogisticPMF._init_coef"]}
{"id": "C29", "title": "PMF.grad_loss is the gradient of PMF.loss", "statement": "In exact arithmetic, at every coefficient vector grad_loss is the derivative of loss: the total (Frechet) derivative of loss at coef in direction v is the inner product of grad_loss(coef) with v.", "quantifier": "every coefficient vector, every event list with any repetitions, scores, C, k, sizes", "why_tests_cant": "A derivative is a limit statement over a continuum; tests compare a few numbers.", "anchors": ["kamrecsys/score_predictor/matrix_factorization.py:PMF.loss", "kamrecsys/score_predictor/matrix_factorization.py:PMF.grad_loss"]}
{"id": "C30", "title": "PMF initial parameters", "statement": "Initially mu is the mean score, the bias of a user with events is that user's mean deviation from mu, the residuals of every item with events sum to zero, and users or items without events start at zero in bias and factors; the other factors are the rows of two normal draws in the order of the internal ids. For implicit feedback mu is the part of the user-item pairs with an event and the biases are the mean counts of events per item and per user.", "quantifier": "every non-empty event list and score list or matrix of counts, every rng output", "why_tests_cant": "Universal over data.", "anchors": ["kamrecsys/score_predictor/matrix_factorization.py:PMF._init_coef", "kamrecsys/item_finder/matrix_factorization.py:LogisticPMF._init_coef", "kamrecsys/item_finder/matrix_factorization.py:ImplicitLogisticPMF._init_coef"]}
{"id": "C31", "title": "PMF loss is a regularized sum over events, order-independent and bounded below", "statement": "loss is half the sum of squared training errors of raw_predict plus C/2 times the squared norm of all parameters except mu; it is nonnegative for C >= 0; loss and gradient do not change when the events are reordered.", "quantifier": "every coefficient vector, event list, permutation of the events", "why_tests_cant": "Universal over permutations.", "anchors": ["kamrecsys/score_predictor/matrix_factorization.py:PMF.loss", "kamrecsys/score_predictor/matrix_factorization.py:PMF.grad_loss", "kamrecsys/score_predictor/matrix_factorization.py:PMF.raw_predict"]}
{"id": "C32", "title": "Unknown objects fall back to the known biases", "statement": "For PMF and both logistic models the score of an unknown user and a known item is (the link of) mu plus the item bias, of a known user and an unknown item mu plus the user bias, and of two unknown objects mu.", "quantifier": "every optimizer result, every known user/item, every unknown external id", "why_tests_cant": "Universal over models and ids.", "anchors": ["kamrecsys/score_predictor/matrix_factorization.py:PMF.fit", "kamrecsys/score_predictor/matrix_factorization.py:PMF.raw_predict", "kamrecsys/item_finder/matrix_factorization.py:LogisticPMF.fit", "kamrecsys/item_finder/matrix_factorization.py:ImplicitLogisticPMF.fit"]}
{"id": "C33", "title": "At a stationary point the training mean is reproduced", "statement": "If the optimizer returns a point where grad_loss vanishes, the mean PMF prediction over the training events equals the mean training score; for the logistic model the mean predicted probability equals the fraction of positive events.", "quantifier": "every stationary coefficient vector, every event list", "why_tests_cant": "Universal over optimizer results.", "anchors": ["kamrecsys/score_predictor/matrix_factorization.py:PMF.grad_loss", "kamrecsys/item_finder/matrix_factorization.py:LogisticPMF.grad_loss"]}
{"id": "C34", "title": "safe_sigmoid range, monotonicity and symmetry", "statement": "In exact arithmetic safe_sigmoid is monotone, satisfies safe_sigmoid(-x) = 1 - safe_sigmoid(x), and stays within [1e-15, 1-1e-15] for every real x, so log(s) and log(1-s) are always defined.", "quantifier": "every real x", "why_tests_cant": "Continuum.", "anchors": ["kamrecsys/utils/kammath.py:safe_sigmoid"]}
{"id": "C35", "title": "LogisticPMF.grad_loss is the gradient of LogisticPMF.loss", "statement": "In exact arithmetic grad_loss is the derivative of loss at every coefficient vector.", "quantifier": "every coefficient vector, event list, binary score list, C, k, sizes", "why_tests_cant": "Limit statement over a continuum; the failing region (some event beyond the clipping bound) is far from the tested points.", "anchors": ["kamrecsys/item_finder/matrix_factorization.py:LogisticPMF.loss", "kamrecsys/item_finder/matrix_factorization.py:LogisticPMF.grad_loss"]}
{"id": "C36", "title": "ImplicitLogisticPMF.grad_loss is the gradient of its loss", "statement": "As C35 for the implicit model and any nonnegative integer event matrix.", "quantifier": "every coefficient vector, event matrix, C, k, sizes", "why_tests_cant": "Limit statement over a continuum.", "anchors": ["kamrecsys/item_finder/matrix_factorization.py:ImplicitLogisticPMF.loss", "kamrecsys/item_finder/matrix_factorization.py:ImplicitLogisticPMF.grad_loss"]}
{"id": "C37", "title": "The implicit model is the explicit model on the completed matrix", "statement": "On a 0/1 event matrix the loss and the gradient of ImplicitLogisticPMF equal those of LogisticPMF on the list of all user-item pairs scored by the matrix.", "quantifier": "every coefficient vector, every 0/1 matrix of every size", "why_tests_cant": "Universal over matrices.", "anchors": ["kamrecsys/item_finder/matrix_factorization.py:ImplicitLogisticPMF.loss", "kamrecsys/item_finder/matrix_factorization.py:LogisticPMF.loss"]}
{"id": "C38", "title": "The implicit event matrix is binary", "statement": "get_event_array returns a users x items matrix whose entry is 1 if the pair occurs in the training events and 0 otherwise.", "quantifier": "every loaded container (repeated events included), every event_index accepted by fit", "why_tests_cant": "Needs a repeated event or a non-default index.", "anchors": ["kamrecsys/item_finder/base.py:BaseImplicitItemFinder.get_event_array"]}
{"id": "C39", "title": "Logistic losses are nonnegative and predictions are probabilities", "statement": "For binary scores and C >= 0 the LogisticPMF loss is nonnegative (also for the implicit model on 0/1 matrices), and every prediction is a probability strictly between 0 and 1.", "quantifier": "every coefficient vector, event list, request", "why_tests_cant": "Continuum.", "anchors": ["kamrecsys/item_finder/matrix_factorization.py:LogisticPMF.loss", "kamrecsys/item_finder/matrix_factorization.py:LogisticPMF.raw_predict", "kamrecsys/item_finder/matrix_factorization.py:ImplicitLogisticPMF.loss"]}
{"id": "C40", "title": "pLSA parameters are probability distributions", "statement": "For alpha > 0 and k >= 1, after every number of EM steps Pr[Z], Pr[X|Z], Pr[Y|Z], Pr[R|Z] are positive and sum to one, and each E-step posterior over Z is a positive distribution.", "quantifier": "every non-empty event list, every initial responsibilities, every number of EM iterations", "why_tests_cant": "Invariant over all iterations and data.", "anchors": ["kamrecsys/score_predictor/topic_model.py:MultinomialPLSA.maximization_step", "kamrecsys/score_predictor/topic_model.py:MultinomialPLSA.fit"]}
{"id": "C41", "title": "EM never decreases the smoothed likelihood", "statement": "Each EM iteration of pLSA does not decrease the log-likelihood of the training events plus alpha times the sum of the logarithms of all parameters (the Laplace prior).", "quantifier": "every non-empty event list, alpha > 0, k >= 1, every parameter value reached, every iteration", "why_tests_cant": "An inequality over a continuum and all iterations.", "anchors": ["kamrecsys/score_predictor/topic_model.py:MultinomialPLSA.fit", "kamrecsys/score_predictor/topic_model.py:MultinomialPLSA.maximization_step", "kamrecsys/score_predictor/topic_model.py:MultinomialPLSA.loss"]}
{"id": "C42", "title": "The reported pLSA loss never increases", "statement": "The loss reported by pLSA (negative mean log-likelihood) does not increase from one EM iteration to the next.", "quantifier": "every non-empty event list, alpha >= 0, k >= 1, every iteration", "why_tests_cant": "An inequality over a continuum and all iterations.", "anchors": ["kamrecsys/score_predictor/topic_model.py:MultinomialPLSA.fit", "kamrecsys/score_predictor/topic_model.py:MultinomialPLSA.loss"]}
{"id": "C43", "title": "pLSA predictions stay inside the score domain", "statement": "With use_expectation, the prediction lies between the smallest and the largest score level; without it, it is one of the score levels, the first of maximal posterior probability. Both hold also for unknown users and items.", "quantifier": "every fitted model, every request including unknown objects", "why_tests_cant": "Continuum of models.", "anchors": ["kamrecsys/score_predictor/topic_model.py:MultinomialPLSA.raw_predict"]}
{"id": "C44", "title": "pLSA treats unknown objects by marginalization", "statement": "The score distribution used for an unknown user and a known item is the conditional Pr[R|Y] of the fitted joint distribution, i.e. the user is summed out; likewise for unknown items, and for two unknown objects it is Pr[R].", "quantifier": "every fitted model, every item and score level", "why_tests_cant": "Universal over models.", "anchors": ["kamrecsys/score_predictor/topic_model.py:MultinomialPLSA.fit", "kamrecsys/score_predictor/topic_model.py:MultinomialPLSA.raw_predict"]}
{"id": "C45", "title": "pLSA iteration count and status", "statement": "n_iterations is the number of EM steps performed and is at most maxiter; success is reported exactly when the tolerance test stopped the loop.", "quantifier": "every maxiter, tolerance and loss sequence", "why_tests_cant": "Boundary cases of a loop over all loss sequences.", "anchors": ["kamrecsys/score_predictor/topic_model.py:MultinomialPLSA.fit", "kamrecsys/utils/base.py:get_fit_status_message"]}
{"id": "C46", "title": "InterlacedKFold partitions the samples", "statement": "For 2 <= n_splits <= n_samples there are exactly n_splits folds; fold f tests exactly the indices i with i mod n_splits = f and trains on the others; test-set sizes differ by at most one; other arguments raise ValueError.", "quantifier": "every n_samples and n_splits", "why_tests_cant": "Universal over sizes.", "anchors": ["kamrecsys/model_selection/split.py:InterlacedKFold"]}
{"id": "C47", "title": "KFoldWithinGroups partitions the samples within groups", "statement": "When every group has at least n_splits members, there are n_splits folds, every sample is tested in exactly one fold and trained on in all others, and within each group the test counts of any two folds differ by at most one (with or without shuffling).", "quantifier": "every group labelling, n_splits, shuffle outcome", "why_tests_cant": "Universal over labellings and permutations.", "anchors": ["kamrecsys/model_selection/split.py:KFoldWithinGroups"]}
{"id": "C48", "title": "KFoldWithinGroups rejects exactly the impossible requests", "statement": "ValueError is raised for n_splits <= 1, for n_splits > n_samples and when some group has fewer than n_splits members, and otherwise never.", "quantifier": "every labelling and n_splits", "why_tests_cant": "Universal over labellings.", "anchors": ["kamrecsys/model_selection/split.py:KFoldWithinGroups"]}
{"id": "C49", "title": "ShuffleSplitWithinGroups tests the requested share of each group", "statement": "In every fold train and test are disjoint and cover all samples, and each group contributes exactly the number of test samples that test_size prescribes for its size; n_splits folds are produced.", "quantifier": "every labelling, test size (count or fraction), rng behaviour, fold", "why_tests_cant": "Universal over rng outcomes.", "anchors": ["kamrecsys/model_selection/split.py:ShuffleSplitWithinGroups"]}
{"id": "C50", "title": "ShuffleSplitWithinGroups honours train_size", "statement": "When train_size and test_size are both given, each group contributes exactly train_size samples to the training set.", "quantifier": "every labelling, train_size, test_size, rng behaviour", "why_tests_cant": "No test uses both arguments; holds or fails for all of them.", "anchors": ["kamrecsys/model_selection/split.py:ShuffleSplitWithinGroups"]}
{"id": "C51", "title": "Error metrics are consistent", "statement": "mean absolute error and mean squared error are nonnegative, vanish exactly when prediction equals truth, are symmetric; rmse squared is the mean squared error; MAE <= RMSE; the squared standard deviation is the mean of squares minus the square of the mean; unequal lengths raise ValueError.", "quantifier": "every pair of non-empty finite score lists (exact arithmetic); symmetry and errors for all lists", "why_tests_cant": "Continuum.", "anchors": ["kamrecsys/metrics/real.py:mean_absolute_error", "kamrecsys/metrics/real.py:mean_squared_error"]}
{"id": "C52", "title": "Score histograms count every score once", "statement": "The histogram has one bin per reported score level, its counts sum to the number of samples, bin i counts exactly the samples digitized to i, and the density of a non-empty sample sums to one.", "quantifier": "every score domain with positive stride, every finite sample list", "why_tests_cant": "Continuum of samples and domains.", "anchors": ["kamrecsys/metrics/real.py:score_histogram", "kamrecsys/metrics/base.py:generate_score_bins", "kamrecsys/metrics/score_predictor.py:score_predictor_statistics"]}
{"id": "C53", "title": "score_histogram accepts an integer number of bins", "statement": "score_histogram(x, score_domain=n) with an integer n divides the range of x into n bins, as documented.", "quantifier": "every integer n >= 1, every sample list", "why_tests_cant": "Holds or fails for all integers; no test passes one.", "anchors": ["kamrecsys/metrics/real.py:score_histogram"]}
{"id": "C54", "title": "Gamma-prior variance is positive", "statement": "For a, b > 0 variance_with_gamma_prior is strictly positive, equals (n*var + 2b)/(n + 2a) over the finite data, ignores non-finite data, is invariant under shifts, and raises ValueError when no finite datum exists.", "quantifier": "every data list containing finite and non-finite values, a, b > 0 (exact arithmetic)", "why_tests_cant": "Continuum; the fallback branch must be unreachable.", "anchors": ["kamrecsys/metrics/real.py:variance_with_gamma_prior"]}
{"id": "C55", "title": "statistics_mean averages over folds", "statement": "statistics_mean(fun, d1, ..., dm) on dictionaries with the same keys returns the mean over the keys k of fun(d1[k], ..., dm[k]), independent of insertion order; on lists it averages over positions.", "quantifier": "every function, every list of dictionaries or lists", "why_tests_cant": "Universal over inputs; the list case is not tested.", "anchors": ["kamrecsys/metrics/base.py:statistics_mean"]}
{"id": "C56", "title": "is_binary_score decides binarity", "statement": "is_binary_score(s) is true exactly when s is non-empty and contains only 0 and 1; with allow_uniform=False exactly when it contains only 0 and 1 and both occur.", "quantifier": "every score array", "why_tests_cant": "Universal over arrays.", "anchors": ["kamrecsys/utils/base.py:is_binary_score"]}
{"id": "C57", "title": "json_decodable produces plain trees", "statement": "After json_decodable(x) on a dict or list every leaf is a plain bool, int, float, complex or string and every inner node a dict or list; keys, lengths and nesting of dicts and lists are kept; plain values are unchanged; calling it again changes nothing.", "quantifier": "every nested container of Python, numpy and other values", "why_tests_cant": "Unbounded nesting.", "anchors": ["kamrecsys/utils/kamexputils.py:json_decodable"]}
{"id": "C58", "title": "json_decodable keeps booleans booleans", "statement": "A truth value stored in the results, whether Python bool or numpy bool_, is a JSON boolean after json_decodable.", "quantifier": "every nested container with boolean leaves", "why_tests_cant": "Depends on the leaf type at any depth.", "anchors": ["kamrecsys/utils/kamexputils.py:json_decodable"]}
{"id": "C59", "title": "Item-finder statistics report AUC exactly when it is defined", "statement": "item_finder_statistics raises ValueError when the true scores are not binary, and otherwise reports an AUC exactly when both classes occur.", "quantifier": "every pair of score lists", "why_tests_cant": "Universal over inputs.", "anchors": ["kamrecsys/metrics/item_finder.py:item_finder_statistics", "kamrecsys/metrics/item_finder.py:item_finder_report"]}
{"id": "C60", "title": "Running folds separately and merging equals one full run", "statement": "With a fixed integer seed, running cross validation once per fold (--fold-no) and merging the outputs with the merge script gives the same per-fold training results, test results and predictions as one full cross validation run, whatever the order in which the files are merged.", "quantifier": "every data set, number of folds, recommender (as a function of data and seed), merge order, rng", "why_tests_cant": "Universal over rng streams, merge orders and models.", "anchors": ["scripts/exp_recsys_util.py:cv_test", "scripts/exp_recsys_fold_merge.py:first_fold", "scripts/exp_recsys_fold_merge.py:rest_fold", "scripts/exp_recsys_fold_merge.py:do_task"]}
{"id": "C61", "title": "Cross validation never tests on training events", "statement": "In every fold of cv_test the training container is made of exactly the events outside the test mask, the events, true scores, predictions and event features stored for the fold are those of the test mask in the same order, and every prediction is made by a model fitted on the training part of that fold only.", "quantifier": "every data set, rng, fold, recommender", "why_tests_cant": "Universal over folds and rng.", "anchors": ["scripts/exp_recsys_util.py:cv_test"]}
{"id": "C62", "title": "Statistics pair every prediction with its own true score", "statement": "stats_recsys computes its statistics on y_true and y_pred arrays whose i-th entries belong to the same event, for hold-out results, full cross-validation results and results merged from any sequence of fold files.", "quantifier": "every merge history", "why_tests_cant": "Ordering bugs depend on the merge history.", "anchors": ["scripts/stats_recsys.py:do_task", "scripts/exp_recsys_fold_merge.py:rest_fold"]}
{"id": "C63", "title": "Merging keeps every fold of every input file", "statement": "The merged file contains, for every input file, every fold stored in it.", "quantifier": "every sequence of result files with any number of folds each", "why_tests_cant": "Only multi-fold inputs show it.", "anchors": ["scripts/exp_recsys_fold_merge.py:rest_fold"]}
{"id": "C64", "title": "Hold-out output records the test file it used", "statement": "After a hold-out run the output names the training file and the test file that were read, and the test section's end_time is the time at which the test ended.", "quantifier": "every pair of files and clock readings", "why_tests_cant": "Holds or fails for all inputs; scripts are untested.", "anchors": ["scripts/exp_recsys_util.py:holdout_test", "scripts/exp_recsys_util.py:testing"]}
{"id": "C65", "title": "Hold-out test scores are binarized with the training threshold", "statement": "In the item-finder script the test file is binarized with the same threshold as the training file, also when the domain is estimated automatically.", "quantifier": "every pair of training and test files", "why_tests_cant": "Universal over files.", "anchors": ["scripts/exp_recsys_if.py:load_data", "scripts/exp_recsys_util.py:holdout_test"]}
{"id": "C66", "title": "Event files load losslessly", "statement": "Writing integer events (and scores) as tab separated lines and loading the file gives a container whose external events (and scores) are the written ones, in order; comment lines are skipped.", "quantifier": "every list of events of any length, every layout", "why_tests_cant": "Universal over files; boundary at one line.", "anchors": ["kamrecsys/datasets/base.py:load_event", "kamrecsys/datasets/base.py:load_event_with_score"]}
{"id": "C67", "title": "Sushi converter", "statement": "The sushi score converter emits exactly one line (user, item, rating) for each nonnegative entry of the rating matrix, in row-major order, so the matrix can be rebuilt from the emitted events.", "quantifier": "every rating matrix with non-empty rows", "why_tests_cant": "Universal over matrices.", "anchors": ["data/sushi3.py"]}
{"id": "C68", "title": "Mini-dataset converter", "statement": "The mini converter keeps exactly the non-comment lines whose user and item ids are both at most 10, in order and unchanged.", "quantifier": "every input file", "why_tests_cant": "Universal over files.", "anchors": ["data/movielens_mini.py"]}
{"id": "C69", "title": "A failing fit is harmless", "statement": "If fit raises an exception, the predictions of a previously fitted recommender are the same as before the call.", "quantifier": "every recommender family, every history of fits, every training container, every event_index", "why_tests_cant": "Needs a failing refit after a successful fit, followed by arbitrary requests.", "anchors": ["kamrecsys/base/base.py:BaseEventRecommender.fit", "kamrecsys/item_finder/base.py:BaseExplicitItemFinder.fit"]}
{"id": "C70", "title": "Fitting succeeds and trains on exactly the given events", "statement": "fit of PMF, of LogisticPMF on two-class binary scores, and of MultinomialPLSA on scores over a regular domain, does not raise on loaded data and an event_index of two legal columns, nor does fit of ImplicitLogisticPMF on user-item events with event_index (0, 1); the parameters are what the optimizer returns for the loss and gradient of exactly the loaded events and scores.", "quantifier": "every loaded container, event_index of two columns, setting, optimizer and random generator", "why_tests_cant": "Needs every container history (loads, filters, binarizations) and every choice of columns.", "anchors": ["kamrecsys/score_predictor/matrix_factorization.py:PMF.fit", "kamrecsys/item_finder/matrix_factorization.py:LogisticPMF.fit", "kamrecsys/item_finder/matrix_factorization.py:ImplicitLogisticPMF.fit", "kamrecsys/score_predictor/topic_model.py:MultinomialPLSA.fit"]}
{"id": "C71", "title": "force_all_finite rejects values that are not finite", "statement": "variance_with_gamma_prior(x, force_all_finite=True) raises ValueError whenever x contains NaN or an infinity; for finite data the flag makes no difference.", "quantifier": "every data sequence, passed as a list or as a numpy array, a, b > 0", "why_tests_cant": "The outcome depends on the container type and on any single entry.", "anchors": ["kamrecsys/metrics/real.py:variance_with_gamma_prior"]}
{"id": "C72", "title": "Brief report and full statistics of a score predictor agree", "statement": "For non-empty samples of equal length score_predictor_report and score_predictor_statistics report the same number of samples, mean absolute error, root mean squared error, means and standard deviations, and the histograms are those of score_histogram over the reported levels.", "quantifier": "every pair of non-empty finite samples of equal length, every score domain with positive stride", "why_tests_cant": "The two functions compute the errors by different libraries; agreement is universal over samples.", "anchors": ["kamrecsys/metrics/score_predictor.py:score_predictor_report", "kamrecsys/metrics/score_predictor.py:score_predictor_statistics"]}
{"id": "C73", "title": "json_decodable output can be serialized", "statement": "After json_decodable(x) on a dict or list, json.dumps(x) does not raise.", "quantifier": "every nested container of Python, numpy and other values with any hashable keys", "why_tests_cant": "Unbounded nesting, every leaf and key type.", "anchors": ["kamrecsys/utils/kamexputils.py:json_decodable"]}
{"id": "C74", "title": "Malformed data files are rejected", "statement": "A loader raises an exception when a line of its file has another number of fields than the others, has too few fields, or has a field that is not a value of its column.", "quantifier": "every text of an event or feature file with any comments, blank lines and line ends", "why_tests_cant": "Any line may be malformed in any way.", "anchors": ["kamrecsys/datasets/base.py:load_event", "kamrecsys/datasets/base.py:load_event_with_score", "kamrecsys/datasets/movielens.py:load_movielens100k"]}
{"id": "C75", "title": "Converting and loading MovieLens 100k loses nothing", "statement": "For the original files of any ratings, users and movies the conversion scripts succeed, and load_movielens100k of the converted files gives exactly these ratings (with their times, if asked for), the score domain 1 to 5, and the features of every user and movie that is rated; a rating of a user or movie without a record is an IndexError.", "quantifier": "every list of ratings, users and movies, every ending of lines", "why_tests_cant": "Two programs and three files; every date, title, genre vector and occupation.", "anchors": ["data/movielens100k.py", "kamrecsys/datasets/movielens.py:load_movielens100k"]}
{"id": "C76", "title": "The mini data set is the part of MovieLens 100k with ids at most 10", "statement": "Converting MovieLens 100k, running the mini script and loading gives exactly the ratings whose user and item ids are at most 10, in the original order and with the same features.", "quantifier": "every list of ratings, users and movies", "why_tests_cant": "Selection over arbitrary ids after text conversion.", "anchors": ["data/movielens_mini.py", "kamrecsys/datasets/movielens.py:load_movielens_mini"]}
{"id": "C77", "title": "Converting and loading MovieLens 1m loses nothing", "statement": "For the original files of any ratings, users and movies the conversion scripts succeed, and load_movielens1m gives exactly the ratings, the age groups, occupations and zip codes of the users, and the titles, years and genre sets of the movies.", "quantifier": "every list of ratings, users and movies, every ending of lines", "why_tests_cant": "Multi-character separators, dictionaries of codes and a repair of one title.", "anchors": ["data/movielens1m.py", "kamrecsys/datasets/movielens.py:load_movielens1m"]}
{"id": "C78", "title": "Converting and loading Flixster ratings loses nothing", "statement": "For a file of any ratings the conversion script succeeds and load_flixster_rating gives exactly the users, items and scores.", "quantifier": "every list of ratings with decimal scores of any length", "why_tests_cant": "All decimals, line ends and further fields.", "anchors": ["data/flixster.py", "kamrecsys/datasets/flixster.py:load_flixster_rating"]}
{"id": "C79", "title": "Converting and loading the sushi ratings keeps users, items and scores together", "statement": "For every rating matrix, user file and item file, conversion and load_sushi3b_score give exactly the nonnegative entries as events, each with the features of the user in the same line of the user file and of the sushi whose id is the column.", "quantifier": "every matrix, every user and item file", "why_tests_cant": "User ids are line numbers in two different files; item ids are columns in one file and fields in another.", "anchors": ["data/sushi3.py", "kamrecsys/datasets/sushi3.py:load_sushi3b_score"]}
{"id": "C80", "title": "The conversion scripts accept exactly the lines in their format", "statement": "Conversion of a user or item file of MovieLens succeeds if and only if every line has all the fields it needs, with a known gender, occupation, age group and genres, a title that ends in a year (1m), and a date that is a day, a month and a year whenever it has two hyphens (100k).", "quantifier": "every text made of lines of fields", "why_tests_cant": "Equivalence over all texts.", "anchors": ["data/movielens100k.py", "data/movielens1m.py"]}
{"id": "C81", "title": "The sample with named users and items is loaded without loss", "statement": "load_pci_sample gives exactly the names of users and items and the scores in the file.", "quantifier": "every file of ratings by names", "why_tests_cant": "Arbitrary names and scores.", "anchors": ["kamrecsys/datasets/others.py:load_pci_sample"]}
{"id": "C82", "title": "Adding a constant to all scores adds it to all predictions", "statement": "If t is added to every training score, fitting the matrix factorization predictor stores the same parameters with the global bias raised by t, reports the same results, and predict answers every request with t added; shifted minima of the loss are exactly minima of the shifted loss.", "quantifier": "every data set, every t, every optimizer that moves with the starting point when the loss does, every request", "why_tests_cant": "Translation of an optimization over all data and all requests.", "anchors": ["kamrecsys/score_predictor/matrix_factorization.py:PMF.fit", "kamrecsys/score_predictor/matrix_factorization.py:PMF.loss", "kamrecsys/score_predictor/matrix_factorization.py:PMF.grad_loss", "kamrecsys/score_predictor/matrix_factorization.py:PMF.raw_predict"]}
{"id": "C83", "title": "Rotating the latent factors changes nothing a user can see", "statement": "Rotating all user and item factors by one orthogonal matrix leaves the losses of all three models and all predictions unchanged, and rotates the gradient.", "quantifier": "every orthogonal matrix, coefficient vector and data set", "why_tests_cant": "Ranges over all orthogonal matrices.", "anchors": ["kamrecsys/score_predictor/matrix_factorization.py:PMF", "kamrecsys/item_finder/matrix_factorization.py:LogisticPMF", "kamrecsys/item_finder/matrix_factorization.py:ImplicitLogisticPMF"]}
{"id": "C84", "title": "Matrix factorization does not depend on the numbering of users and items, nor on which is which", "statement": "Renumbering users and items in the events and coefficients leaves loss and predictions (also for unknown users and items) unchanged and renumbers the gradient; so does exchanging users and items.", "quantifier": "every permutation of users and items, every coefficient vector and data set", "why_tests_cant": "All permutations.", "anchors": ["kamrecsys/score_predictor/matrix_factorization.py:PMF", "kamrecsys/item_finder/matrix_factorization.py:LogisticPMF", "kamrecsys/item_finder/matrix_factorization.py:ImplicitLogisticPMF"]}
{"id": "C85", "title": "Repeating all events scales the loss", "statement": "n copies of the events with the regularization parameter multiplied by n give n times the loss and n times the gradient.", "quantifier": "every event list, n, regularization parameter and coefficient vector", "why_tests_cant": "All numbers of copies.", "anchors": ["kamrecsys/score_predictor/matrix_factorization.py:PMF.loss", "kamrecsys/score_predictor/matrix_factorization.py:PMF.grad_loss", "kamrecsys/item_finder/matrix_factorization.py:LogisticPMF"]}
{"id": "C86", "title": "A best coefficient vector exists", "statement": "For a positive regularization parameter the loss of each of the three models attains its minimum, so the optimization has a target.", "quantifier": "every event list (scores 0 or 1 for the logistic models) and positive regularization parameter", "why_tests_cant": "Existence of a minimum of a nonconvex function.", "anchors": ["kamrecsys/score_predictor/matrix_factorization.py:PMF.loss", "kamrecsys/item_finder/matrix_factorization.py:LogisticPMF", "kamrecsys/item_finder/matrix_factorization.py:ImplicitLogisticPMF"]}
{"id": "C87", "title": "Users and items without events are treated as unknown ones, and the mean is reproduced", "statement": "At a best coefficient vector every known user or item without training events gets the predictions of an unknown one; predictions of training events have the mean of the scores, the reported gradient is zero and the loss is at most that of any constant.", "quantifier": "every event list, positive regularization parameter, best coefficient vector", "why_tests_cant": "All minima of all data.", "anchors": ["kamrecsys/score_predictor/matrix_factorization.py:PMF.loss", "kamrecsys/score_predictor/matrix_factorization.py:PMF.raw_predict", "kamrecsys/item_finder/matrix_factorization.py:LogisticPMF"]}
{"id": "C88", "title": "A larger regularization parameter gives smaller coefficients and a worse fit", "statement": "Between best coefficient vectors for two regularization parameters, the larger parameter has the smaller or equal sum of squares and the larger or equal unregularized loss.", "quantifier": "every data set and pair of parameters", "why_tests_cant": "Compares optimizations over all data.", "anchors": ["kamrecsys/score_predictor/matrix_factorization.py:PMF.loss", "kamrecsys/item_finder/matrix_factorization.py:LogisticPMF", "kamrecsys/item_finder/matrix_factorization.py:ImplicitLogisticPMF"]}
{"id": "C89", "title": "More latent factors never fit worse", "statement": "Every coefficient vector has one with more factors and the same losses and predictions, hence the best loss does not increase with k.", "quantifier": "every k, number of further factors, coefficient vector and data set", "why_tests_cant": "All dimensions.", "anchors": ["kamrecsys/score_predictor/matrix_factorization.py:PMF", "kamrecsys/item_finder/matrix_factorization.py:LogisticPMF", "kamrecsys/item_finder/matrix_factorization.py:ImplicitLogisticPMF"]}
{"id": "C90", "title": "Training of the topic model stops by itself", "statement": "For a positive tolerance, fit stops by the tolerance test and reports success whenever maxiter is large enough, and then parameters and number of iterations do not depend on maxiter. The only exception are data that are constant (one kind of event, with alpha = 0 or only one user, item and level): for these fit never reports success.", "quantifier": "every data set with an event, every initialization, alpha >= 0, tol > 0 and maxiter", "why_tests_cant": "Liveness of an iteration with no bound on the number of steps.", "anchors": ["kamrecsys/score_predictor/topic_model.py:MultinomialPLSA.fit", "kamrecsys/score_predictor/topic_model.py:MultinomialPLSA.maximization_step", "kamrecsys/score_predictor/topic_model.py:MultinomialPLSA.loss"]}
{"id": "C91", "title": "The topic model does not depend on the numbering of latent classes, events, users and items", "statement": "Renumbering the latent classes, the events (with their initial responsibilities), the users and items, or exchanging users and items renumbers the parameters after every number of EM steps and leaves the loss and the answers about the same objects unchanged.", "quantifier": "every permutation, data set, initialization, alpha and number of steps", "why_tests_cant": "All permutations and numbers of steps.", "anchors": ["kamrecsys/score_predictor/topic_model.py:MultinomialPLSA.fit", "kamrecsys/score_predictor/topic_model.py:MultinomialPLSA.raw_predict"]}
{"id": "C92", "title": "One latent class gives the same answer to everyone", "statement": "With k = 1 EM steps change nothing, and every request gets the same answer, with use_expectation the mean level under the smoothed frequencies of the levels.", "quantifier": "every data set, alpha >= 0, number of steps and request", "why_tests_cant": "All data and requests.", "anchors": ["kamrecsys/score_predictor/topic_model.py:MultinomialPLSA.fit", "kamrecsys/score_predictor/topic_model.py:MultinomialPLSA.raw_predict"]}
{"id": "C93", "title": "ShuffleSplitWithinGroups: fixed without shuffling, unrestricted with it", "statement": "Without shuffling all folds are equal and test in each group the samples right behind the training samples in data order, whatever random_state. With shuffling, every sequence of test sets having the prescribed number of samples of each group is the result for some random numbers: folds are drawn independently and no admissible split is excluded.", "quantifier": "every group labelling, size arguments that fit, number of folds, generator and admissible sequence of test sets", "why_tests_cant": "All random sequences and data.", "anchors": ["kamrecsys/model_selection/split.py:ShuffleSplitWithinGroups"]}
{"id": "C94", "title": "KFoldWithinGroups: consecutive blocks without shuffling, every balanced partition with it", "statement": "Without shuffling fold f tests in each group the f-th block of consecutive samples, the first blocks being one larger if the sizes differ. With shuffling every partition with these sizes is the result for some random numbers.", "quantifier": "every group labelling, number of folds, generator and admissible partition", "why_tests_cant": "All random sequences and data.", "anchors": ["kamrecsys/model_selection/split.py:KFoldWithinGroups"]}
{"id": "C95", "title": "Names of groups do not matter to the splitters", "statement": "Renaming the groups without changing their order leaves every fold of KFoldWithinGroups and ShuffleSplitWithinGroups unchanged, for the same random numbers.", "quantifier": "every group labelling, order-preserving renaming, size arguments, number of folds and generator", "why_tests_cant": "All labellings and renamings.", "anchors": ["kamrecsys/model_selection/split.py:KFoldWithinGroups", "kamrecsys/model_selection/split.py:ShuffleSplitWithinGroups"]}
{"id": "C96", "title": "Statistics do not depend on the order of the predictions", "statement": "Every statistic of the metrics modules and both statistics functions give the same result, or fail alike, when the pairs of true and predicted values come in another order.", "quantifier": "every list of pairs, also with non-finite values, every permutation of it and every score domain", "why_tests_cant": "All permutations of all inputs.", "anchors": ["kamrecsys/metrics/real.py:mean_absolute_error", "kamrecsys/metrics/real.py:mean_squared_error", "kamrecsys/metrics/real.py:score_histogram", "kamrecsys/metrics/real.py:variance_with_gamma_prior", "kamrecsys/metrics/score_predictor.py:score_predictor_statistics", "kamrecsys/metrics/item_finder.py:item_finder_statistics"]}
{"id": "C97", "title": "The statistics script reports the statistics of the stored events, however the file came about", "statement": "stats_recsys succeeds on every result file with a fold (item finders: with a test event) and reports number, mean absolute error and root mean squared error, means, standard deviations and histograms (counts and densities per score level) over the stored events, each with its true score in the data and the score a fitted recommender predicted for it; AUC is reported exactly when both classes occur. It adds only the entry statistics and removes only the predictions, unless --keepdata. Running the folds one by one and merging them in any order gives the same statistics as the full cross validation.", "quantifier": "every result file made by runs and merges, every recommender, seed and order of merging", "why_tests_cant": "All histories of files, all data and recommenders.", "anchors": ["scripts/stats_recsys.py:do_task", "scripts/exp_recsys_fold_merge.py:do_task", "scripts/exp_recsys_util.py:do_task"]}
{"id": "C98", "title": "Experiments with a seed can be repeated", "statement": "Two runs of an experiment script with equal arguments, files and --rseed fail with the same exception or write files equal up to the times. With a seed, a fold of a cross validation is the same whatever the number of folds and whether the other folds run. The recorded score domain, given as --domain, reproduces the file of a run that estimated it.", "quantifier": "every data file, recommender, seed, number of folds, clock and entropy", "why_tests_cant": "All data, recommenders and states of the generators.", "anchors": ["scripts/exp_recsys_util.py:do_task", "scripts/exp_recsys_util.py:cv_test", "scripts/exp_recsys_sp.py:load_data", "scripts/exp_recsys_if.py:load_data"]}
{"id": "C99", "title": "The command line means what its documentation says", "statement": "The experiment scripts accept a command line exactly when no two excluding options occur, method and validation are among the choices and at most two files are given by position. Every option then has the value of its last occurrence, or its documented default; -i and -o prevail over positional files, these over the standard streams.", "quantifier": "every list of options and positional arguments", "why_tests_cant": "All combinations and orders of options.", "anchors": ["scripts/exp_recsys_sp.py:command_line_parser", "scripts/exp_recsys_sp.py:init_info", "scripts/exp_recsys_if.py:command_line_parser", "scripts/exp_recsys_if.py:init_info"]}
{"id": "C100", "title": "Options reach the recommender that is trained, and the result file records them", "statement": "A run trains a recommender of the class of the method with exactly the regularization, number of factors, smoothing, tolerance, iteration limit and seed of the command line, on data read with the given timestamp and domain settings. The result file records these options, and no others, under model/options, and class, scheme and timestamps.", "quantifier": "every accepted command line, data file and seed", "why_tests_cant": "All command lines.", "anchors": ["scripts/exp_recsys_sp.py:command_line_parser", "scripts/exp_recsys_sp.py:init_info", "scripts/exp_recsys_if.py:command_line_parser", "scripts/exp_recsys_if.py:init_info", "scripts/exp_recsys_util.py:do_task", "kamrecsys/score_predictor/matrix_factorization.py:PMF.__init__", "kamrecsys/item_finder/matrix_factorization.py:LogisticPMF.__init__", "kamrecsys/score_predictor/topic_model.py:MultinomialPLSA.__init__"]}
{"id": "C101", "title": "Options that do not concern a run do not change it", "statement": "Verbosity, alpha for matrix factorization, C for the topic model, the test file of a cross validation and the number of folds of a hold-out test leave the written result unchanged.", "quantifier": "every command line and data file", "why_tests_cant": "All command lines and executions.", "anchors": ["scripts/exp_recsys_sp.py:command_line_parser", "scripts/exp_recsys_sp.py:init_info", "scripts/exp_recsys_if.py:command_line_parser", "scripts/exp_recsys_if.py:init_info", "scripts/exp_recsys_util.py:do_task"]}
{"id": "C102", "title": "One command line can be distributed over machines, and its statistics are those of its predictions", "statement": "A cross validation with --rseed that succeeds can instead be run by calling the same command line once for every fold with --fold-no, at any time, on any machine, in any order and with any output file; merging the files gives the same folds, data, settings and statistics. Unless a fold has a single test event or the given domain has a negative stride, stats_recsys reports the number, errors, means, standard deviations and, for the levels of the recorded score domain, histograms of the predictions that a recommender with the settings of the command line made.", "quantifier": "every command line, data file, seed, clock, order of merging and score domain", "why_tests_cant": "All command lines, data, schedules of the folds and machines.", "anchors": ["scripts/exp_recsys_sp.py:command_line_parser", "scripts/exp_recsys_sp.py:init_info", "scripts/exp_recsys_if.py:command_line_parser", "scripts/exp_recsys_if.py:init_info", "scripts/exp_recsys_fold_merge.py:do_task", "scripts/stats_recsys.py:do_task", "scripts/exp_recsys_util.py:do_task"]}
{"id": "C103", "title": "Which runs of the experiment scripts succeed is known from the command line and the data files", "statement": "A cross validation of the topic models succeeds exactly when --rseed and --fold-no are valid, the file can be read, the given domain is regular or is 0 0 0 and the file has two different scores, and, if there are folds, -k and -a are positive and the file has events and no user with a single event. A hold-out test needs a test file with events instead. Matrix factorization needs, with -k not negative and any domain of nonzero stride, two users and two items to train on; logistic matrix factorization, in addition, scores on both sides of the middle of the domain. A cross validation that is to succeed whatever the random numbers are needs, besides two users, for each item so many events of one user with other items (and of each side so many scores of one user) that no test part can hold them all.", "quantifier": "every command line, data file, seed, generator and optimizer", "why_tests_cant": "All data and command lines, all splits that can be drawn.", "anchors": ["scripts/exp_recsys_sp.py:command_line_parser", "scripts/exp_recsys_sp.py:init_info", "scripts/exp_recsys_if.py:command_line_parser", "scripts/exp_recsys_if.py:init_info", "scripts/exp_recsys_util.py:do_task", "scripts/exp_recsys_util.py:cv_test", "scripts/exp_recsys_util.py:holdout_test", "kamrecsys/score_predictor/matrix_factorization.py:PMF.fit", "kamrecsys/item_finder/matrix_factorization.py:LogisticPMF.fit", "kamrecsys/score_predictor/topic_model.py:MultinomialPLSA.fit"]}
{"id": "C104", "title": "Which result files have statistics is known from the command line and the data files", "statement": "stats_recsys computes statistics from the file of a successful run exactly when, in a cross validation, the number of folds is positive and the data is more than five events or of more than one user, and, in a hold-out test, the test file has more than one event.", "quantifier": "every command line and data file", "why_tests_cant": "All data and command lines, all splits that can be drawn.", "anchors": ["scripts/exp_recsys_sp.py:command_line_parser", "scripts/exp_recsys_sp.py:init_info", "scripts/exp_recsys_if.py:command_line_parser", "scripts/exp_recsys_if.py:init_info", "scripts/stats_recsys.py:do_task", "scripts/exp_recsys_util.py:cv_test", "scripts/exp_recsys_util.py:holdout_test"]}
{"id": "C105", "title": "Predictions in a result file are scores", "statement": "The predictions of a topic model that an experiment script writes lie in the score domain it records, and with plsamm each is one of the score levels; those of logistic matrix factorization are probabilities strictly between 0 and 1.", "quantifier": "every command line, data file, seed, generator, optimizer, fold and test event, known or unknown objects", "why_tests_cant": "All data, fitted models and requests.", "anchors": ["scripts/exp_recsys_sp.py:main", "scripts/exp_recsys_if.py:main", "scripts/exp_recsys_util.py:do_task", "kamrecsys/score_predictor/topic_model.py:MultinomialPLSA.raw_predict", "kamrecsys/item_finder/matrix_factorization.py:LogisticPMF.raw_predict"]}
{"id": "C106", "title": "From text files to result files", "statement": "An experiment script run on a text file of events (comments, blank lines, either line end; in particular the output of the conversion scripts for MovieLens, the small data set, Flixster and sushi) trains on and predicts for exactly the lines of the file: every fold splits the lines, and the result file holds line numbers, ids, scores and times of the test lines in order, with the predictions made for them. A cross validation of matrix factorization succeeds, whatever the random numbers are, exactly when the options are valid, the score domain can be determined, the file has two users, every user has two events and, for each item, some user has so many events with other items that no test part can hold them all; for the topic models, logistic matrix factorization and hold-out tests there are such conditions as well; missing files, files of one event and files without the column of times asked for are refused.", "quantifier": "every text file of events, every original data file, all command lines, seeds, generators and optimizers", "why_tests_cant": "All texts and data sets, composed with all runs.", "anchors": ["scripts/exp_recsys_sp.py:load_data", "scripts/exp_recsys_if.py:load_data", "kamrecsys/datasets/base.py:load_event_with_score", "scripts/exp_recsys_util.py:do_task", "data/movielens100k.py", "data/movielens1m.py", "data/movielens_mini.py", "data/flixster.py", "data/sushi3.py"]}
{"id": "C107", "title": "External ids matter only through their order", "statement": "When the objects of every type are renamed so that their order is kept (users and items possibly by different functions), loading, filtering and attaching features give the same internal ids, counts and arrays, converted events are the same up to the names, training gives the same parameters and results, predictions for renamed events are the same, and so are the splits within groups. A renaming that does not keep the order may change internal ids.", "quantifier": "all strictly increasing renamings per object type, all containers, events, scores, learners, generators, requests, groups; exceptions included", "why_tests_cant": "All renamings and all inputs.", "anchors": ["kamrecsys/data/base.py:BaseData._gen_id", "kamrecsys/data/event.py:EventData.set_event", "kamrecsys/data/event.py:EventData.filter_event", "kamrecsys/base/base.py:BaseEventRecommender.fit", "kamrecsys/base/base.py:BaseEventRecommender.predict", "kamrecsys/model_selection/split.py:ShuffleSplitWithinGroups", "kamrecsys/model_selection/split.py:KFoldWithinGroups"]}
{"id": "C108", "title": "Result files do not depend on the names of users and items", "statement": "An experiment script run on files in which users and items are renamed in an order-preserving way ends the same way and writes the same result file: scores, predictions, masks, statistics of training, counts and score domain are equal, and ids appear with their new names.", "quantifier": "all command lines, files, seeds, generators, optimizers and strictly increasing renamings of users and of items", "why_tests_cant": "All renamings of all data sets, for whole runs.", "anchors": ["scripts/exp_recsys_sp.py:command_line_parser", "scripts/exp_recsys_sp.py:init_info", "scripts/exp_recsys_if.py:command_line_parser", "scripts/exp_recsys_if.py:init_info", "scripts/exp_recsys_util.py:do_task", "scripts/exp_recsys_util.py:cv_test", "scripts/exp_recsys_util.py:holdout_test"]}
{"id": "C109", "title": "A script changes only the files it is told to write", "statement": "However a run of a script ends, files other than those named for writing (or standard output if none is named) are as before. A run in order ends successfully exactly when its task can be done, and then the output file has exactly the result; options win over positional arguments and later options over earlier ones; further files named for writing are left empty.", "quantifier": "every command line of the four scripts, every state of the files, seed, clock and environment", "why_tests_cant": "All file systems and command lines.", "anchors": ["scripts/exp_recsys_sp.py:main", "scripts/exp_recsys_if.py:main", "scripts/exp_recsys_fold_merge.py:main", "scripts/stats_recsys.py:main", "scripts/exp_recsys_sp.py:command_line_parser", "scripts/exp_recsys_fold_merge.py:do_task", "scripts/stats_recsys.py:do_task"]}
{"id": "C110", "title": "A run that fails or is stopped does not destroy earlier results", "statement": "Whenever a run of a script is refused, raises an exception or is stopped, the output file has its earlier contents or the complete new result.", "quantifier": "every command line, state of the files and moment at which a run is stopped", "why_tests_cant": "All crash points.", "anchors": ["scripts/exp_recsys_sp.py:main", "scripts/exp_recsys_if.py:main", "scripts/exp_recsys_fold_merge.py:main", "scripts/stats_recsys.py:main", "scripts/exp_recsys_sp.py:command_line_parser", "scripts/stats_recsys.py:command_line_parser"]}
{"id": "C111", "title": "Runs with different output files can be made at the same time", "statement": "When no command writes a file that another one reads or writes, the commands can be run at the same time: however their steps are mixed, each ends as it does alone and leaves the files it leaves alone; they cannot block each other; stopped at any moment, each file is as before, empty, complete, or has a part of the result. Two runs with the same output file can leave the result of either.", "quantifier": "any number of commands, all schedules, all states of the files", "why_tests_cant": "All interleavings.", "anchors": ["scripts/exp_recsys_sp.py:main", "scripts/exp_recsys_if.py:main", "scripts/exp_recsys_fold_merge.py:main", "scripts/stats_recsys.py:main"]}
{"id": "C112", "title": "Folds run at the same time, merged, have the statistics of the full run", "statement": "Take a seeded cross validation that succeeds. Running its folds with --fold-no at the same time, each with its own output file, merging the files in any order and computing the statistics succeeds and gives the data, predictions and statistics of the full run; the input files are not changed.", "quantifier": "every command line of both experiment scripts, data file, seed, number of folds, schedule, order of merging, clock and machine", "why_tests_cant": "All interleavings of all distributed runs.", "anchors": ["scripts/exp_recsys_sp.py:main", "scripts/exp_recsys_if.py:main", "scripts/exp_recsys_fold_merge.py:main", "scripts/stats_recsys.py:main", "scripts/exp_recsys_util.py:do_task", "scripts/exp_recsys_util.py:cv_test", "scripts/exp_recsys_fold_merge.py:do_task", "scripts/stats_recsys.py:do_task"]}
{"id": "C113", "title": "Training starts at the documented point and fit_results_ reports it", "statement": "After fit on loaded data (for matrix factorization: of at least two users and two items): the coefficients given to the optimizer have the mean score (for implicit feedback the part of the user-item pairs with an event) as mu, mean deviations (mean event counts) as biases, and factors that are the rows of two successive normal draws in the order of the internal ids, with the deviation of the residuals for PMF and 1 for the logistic models; the topic model starts at the smoothed counts of responsibilities drawn event by event, each draw preferring the classes of the level of its event. All draws come from the generator made from random_state. fit_results_ has the loss at this point, the figures the optimizer returned (for the topic model: the loss of the returned parameters and the number of steps), and the true numbers of users, items, events and parameters. As long as no fit got to its training, nothing is learned, both losses in fit_results_ are infinite and the topic model reports 0 iterations.", "quantifier": "every loaded container, event_index of two columns, setting, optimizer and random generator", "why_tests_cant": "Universal over data and generators.", "anchors": ["kamrecsys/score_predictor/matrix_factorization.py:PMF._init_coef", "kamrecsys/score_predictor/matrix_factorization.py:PMF.fit", "kamrecsys/item_finder/matrix_factorization.py:LogisticPMF._init_coef", "kamrecsys/item_finder/matrix_factorization.py:ImplicitLogisticPMF._init_coef", "kamrecsys/item_finder/matrix_factorization.py:ImplicitLogisticPMF.fit", "kamrecsys/score_predictor/topic_model.py:MultinomialPLSA._init_params", "kamrecsys/score_predictor/topic_model.py:MultinomialPLSA.maximization_step", "kamrecsys/score_predictor/topic_model.py:MultinomialPLSA.fit"]}
{"id": "C114", "title": "Rounding of machine numbers does not disturb score levels", "statement": "With binary64 arithmetic a container whose score domain is regular (bounds l and l + m*s, stride s) has m + 1 levels lo, lo + st, ..., hi; each score is digitized to the index of a nearest level, in range; the estimated domain, the number of levels, the bin edges, the levels and the default threshold of binarize_score are what exact arithmetic gives.", "quantifier": "every container, event array, score array and regular domain of machine numbers", "why_tests_cant": "Rounding depends on every bit of the numbers.", "anchors": ["kamrecsys/data/event_with_score.py:EventWithScoreData.set_event", "kamrecsys/data/event_with_score.py:EventWithScoreData.digitize_score", "kamrecsys/data/event_with_score.py:EventWithScoreData.binarize_score", "kamrecsys/data/event_with_score.py:ScoreUtilMixin.get_score_levels", "kamrecsys/metrics/base.py:generate_score_bins"]}
{"id": "C115", "title": "Logistic models never take the logarithm of 0", "statement": "With binary64 arithmetic, predictions of the logistic models are strictly between 0 and 1 for every latent estimate, infinite ones included, and so is the rounded 1 - prediction; the term of each event in the loss is positive and at most 37, so the loss part of the objective is positive and finite however numpy adds it up; the weight of an event in the gradient has the sign of its error and is less than 1 in size.", "quantifier": "every latent estimate, binary score, number of events, order of summation, and expit and log that are accurate to four units in the last place", "why_tests_cant": "Universal over machine numbers and orders of summation.", "anchors": ["kamrecsys/utils/kammath.py:safe_sigmoid", "kamrecsys/item_finder/matrix_factorization.py:LogisticPMF.loss", "kamrecsys/item_finder/matrix_factorization.py:LogisticPMF.grad_loss", "kamrecsys/item_finder/matrix_factorization.py:ImplicitLogisticPMF.loss"]}
{"id": "C116", "title": "A run that has computed its result can write it", "statement": "The results of the experiment scripts, of merging and of the statistics script are always accepted by json.dumps after json_decodable, so no run is lost when it comes to writing: all leaves are truth values, numbers or strings, found at the same places with the same values; missing values become the string None. What was read from result files is written back unchanged.", "quantifier": "every command line, data set, method, outcome of training, set of result files and environment section made of scalars", "why_tests_cant": "The tree depends on the data, the options and the results of the optimizer.", "anchors": ["kamrecsys/utils/kamexputils.py:json_decodable", "scripts/exp_recsys_util.py:do_task", "scripts/exp_recsys_fold_merge.py:do_task", "scripts/stats_recsys.py:do_task"]}
{"id": "C117", "title": "Arrays passed to the library stay the caller's", "statement": "The library never writes into an array the caller passed. Passing an array is the same as passing the list of its values: what the caller writes into the array later does not reach containers, recommenders or predictions.", "quantifier": "every program of calls on containers and recommenders, array creations and assignments, in any order", "why_tests_cant": "All histories of calls and assignments over shared arrays.", "anchors": ["kamrecsys/data/event_with_score.py:EventWithScoreData.set_event", "kamrecsys/data/event.py:EventData.set_event", "kamrecsys/base/base.py:BaseEventRecommender.fit", "kamrecsys/data/event_with_score.py:ScoreUtilMixin._set_score_info"]}
{"id": "C118", "title": "Folds are right however they are asked for", "statement": "Generators made by split may be advanced in any order, mixed with other generators and with other users of the same RandomState. As long as the group labels are not overwritten: KFoldWithinGroups yields n_splits folds that test every sample once with every group spread evenly, all determined by the state of the RandomState at its first next; ShuffleSplitWithinGroups yields n_splits proper folds with the prescribed number of test samples per group; InterlacedKFold yields what the call determined; no generator yields more than get_n_splits() folds, and one that ends without an exception has yielded exactly that many. InterlacedKFold raises at the call of split, the other two at the first next, and a generator that has raised is finished.", "quantifier": "every history of making splitters, calls of split and next, draws from RandomState objects, every data size, label array, seed and generator", "why_tests_cant": "All interleavings of generators that share a mutable random generator.", "anchors": ["kamrecsys/model_selection/split.py:ShuffleSplitWithinGroups.split", "kamrecsys/model_selection/split.py:ShuffleSplitWithinGroups._iter_test_masks", "kamrecsys/model_selection/split.py:KFoldWithinGroups.split", "kamrecsys/model_selection/split.py:KFoldWithinGroups._iter_test_masks", "kamrecsys/model_selection/split.py:InterlacedKFold.split", "kamrecsys/model_selection/split.py:KFoldWithinGroups.get_n_splits"]}
{"id": "C119", "title": "The folds of a call of split are fixed by the call", "statement": "The folds a generator yields are those of the group labels and of the state of the RandomState when split was called, whatever happens before they are asked for.", "quantifier": "every history of calls of split and next, draws from RandomState objects and assignments to label arrays", "why_tests_cant": "All histories of calls and assignments.", "anchors": ["kamrecsys/model_selection/split.py:ShuffleSplitWithinGroups._iter_test_masks", "kamrecsys/model_selection/split.py:KFoldWithinGroups._iter_test_masks", "kamrecsys/model_selection/split.py:InterlacedKFold.split"]}
{"id": "C120", "title": "Result files tell about the machine, and only describable machines have runs", "statement": "The environment section of every result has the system, release, version, machine and processor of the platform, the versions of python, numpy, scipy, sklearn and kamrecsys, the file name of the script without its directory, and the lines the hardware command of the operating system printed (under Darwin without heading and indentation, elsewhere none); never the name of the host. A run on a machine with an unwritable null device, or on Darwin, FreeBSD or Linux where the command cannot be started or prints something that is not UTF-8, ends with an exception whatever the command line and data. Apart from that the machine influences neither outcome nor the rest of the result, and what is recorded can always be written as JSON.", "quantifier": "every machine, output of its commands, command line, data set, method and outcome of training", "why_tests_cant": "Test machines are a few of all machines; the influence on the result is over all runs.", "anchors": ["kamrecsys/utils/kamexputils.py:get_system_info", "kamrecsys/utils/kamexputils.py:get_version_info", "scripts/exp_recsys_util.py:do_task"]}
{"id": "C121", "title": "The recorded version is the version of the script", "statement": "The version in the environment section of a result is the one the script that made it prints with --version.", "quantifier": "every machine, script, command line and data set", "why_tests_cant": "Universal over runs.", "anchors": ["scripts/exp_recsys_util.py:do_task", "scripts/exp_recsys_sp.py:command_line_parser", "scripts/exp_recsys_if.py:command_line_parser"]}
{"id": "C122", "title": "Selecting events after loading is loading the selected events", "statement": "A container is loaded with events, with or without scores and event features, and then with any number of tables of object features. Selecting events from it with filter_event gives exactly the container, attribute by attribute, that is obtained by loading only the selected events (with their scores and event features, and the same declared score domain) and the same tables of object features. In one step: set_feature and filter_event commute.", "quantifier": "all reachable containers without object features, all regular event arrays, all score lists and event features of matching length, all lists of feature tables for which loading succeeds, all boolean masks and index lists", "why_tests_cant": "the two orders go through different code (renumbering of a loaded table, building a new table), and agreement is needed for every event set, every selection (also repeated and negative indices) and every order of feature records", "anchors": ["kamrecsys/data/event.py:EventData.filter_event", "kamrecsys/data/event_with_score.py:EventWithScoreData.filter_event", "kamrecsys/data/base.py:BaseData.set_feature", "kamrecsys/data/event.py:EventData.set_event"]}
{"id": "C123", "title": "What overwriting the group labels does to folds not yet asked for", "statement": "The array of group labels may be overwritten while a generator of a splitter is in use. KFoldWithinGroups settles at its first next, evenly and from the labels of that moment, which positions inside each group are tested in which fold; every fold then tests exactly the samples that have these positions among the labels of the moment it is asked for, and raises IndexError if a group has become too short for one of its positions. ShuffleSplitWithinGroups keeps the groups of its first next; every fold tests the prescribed number of the present members of each of these groups and no other sample, and raises ValueError if the sizes can no longer be met. Every fold that is yielded is a division of all samples.", "quantifier": "every history of calls of split and next, draws from RandomState objects and assignments to label arrays, every data size, splitter and generator", "why_tests_cant": "All interleavings of assignments and calls; tests leave the labels alone.", "anchors": ["kamrecsys/model_selection/split.py:ShuffleSplitWithinGroups._iter_test_masks", "kamrecsys/model_selection/split.py:KFoldWithinGroups._iter_test_masks"]}
{"id": "C124", "title": "What a splitter draws from the RandomState it was given", "statement": "A call of split draws nothing. The first next of a generator of KFoldWithinGroups shuffles one array per group, of the size of the group, in increasing order of the labels, and later calls of next draw nothing; every fold of ShuffleSplitWithinGroups does the same for its groups; without shuffling nothing is drawn. No call touches any other RandomState; with an integer seed, and for InterlacedKFold, none at all, numpy's global one included.", "quantifier": "every history of calls of split and next, draws from RandomState objects and assignments to label arrays, every data size, splitter and generator", "why_tests_cant": "All interleavings of users of shared random generators.", "anchors": ["kamrecsys/model_selection/split.py:ShuffleSplitWithinGroups._iter_test_masks", "kamrecsys/model_selection/split.py:KFoldWithinGroups._iter_test_masks", "kamrecsys/model_selection/split.py:InterlacedKFold.split"]}
{"id": "C125", "title": "Results are read back as they were written", "statement": "The text of a result file is read back as the same tree: the same nesting, keys in the same order, the same strings (quotes, control characters and characters beyond ASCII included), integers, floats, booleans, null, nan and infinities. Different trees have different texts. The text is one line of printable ASCII whatever strings are in the tree. This holds for every result of the experiment scripts and of the merge and statistics scripts, and writing what was read from any text and reading it again changes nothing.", "quantifier": "every tree whose dictionaries have no key twice, every command line, data set, machine and history of merges and statistics", "why_tests_cant": "Escapes, nesting and numbers combine in infinitely many ways.", "anchors": ["scripts/exp_recsys_util.py:do_task", "scripts/exp_recsys_fold_merge.py:do_task", "scripts/exp_recsys_fold_merge.py:first_fold", "scripts/exp_recsys_fold_merge.py:rest_fold", "scripts/stats_recsys.py:do_task"]}
{"id": "C126", "title": "Half a result is never taken for a result", "statement": "Reading a result file of which only a beginning was written raises ValueError, as does one followed by anything but white space. Hence however many runs of the scripts are mixed and wherever they are stopped, a file that a merge or statistics script can read is as it was before the runs or has the complete text of a result.", "quantifier": "every result, every place to cut its text, every set of commands, every schedule and stopping point", "why_tests_cant": "All cut positions and all interleavings.", "anchors": ["scripts/exp_recsys_util.py:do_task", "scripts/exp_recsys_fold_merge.py:do_task", "scripts/exp_recsys_fold_merge.py:first_fold", "scripts/exp_recsys_fold_merge.py:rest_fold", "scripts/stats_recsys.py:do_task"]}
{"id": "C127", "title": "Which command lines the scripts accept, and how they are read", "statement": "The strings of a command line are accepted and divided among the declared arguments exactly if they follow a grammar: options, one block of file names, and options again, or options and file names with one -- before further file names. An option is -c with its arguments in the following strings, several flags in one string with the last option's argument attached or following, -c=value, a long option or an abbreviation that only one option begins with, or such a one with =value. Strings that begin with a dash are arguments only if they are a negative number without exponent or contain a space, and do not look like an option. Every accepted line has one reading only. argparse raises an exception of its own, without a message, only for a string -c= where -c takes no argument.", "quantifier": "every list of strings, every script", "why_tests_cant": "Infinitely many command lines; abbreviations and attached arguments interact.", "anchors": ["scripts/exp_recsys_sp.py:command_line_parser", "scripts/exp_recsys_if.py:command_line_parser", "scripts/exp_recsys_fold_merge.py:command_line_parser", "scripts/stats_recsys.py:command_line_parser"]}
{"id": "C128", "title": "However an option is spelled, it is the same command", "statement": "A script called with options in any of their spellings followed by file names does exactly what the command with these options and files does; nor does it matter whether the file names stand before, between or after the options, when the options are accepted and the files to be read exist. The documented options, short and long, do what the documentation says; --help and --version end a script before any file is opened; and a script that leaves a result anywhere was called with strings that are arguments or belong to one of the documented options (or --verbose, or --rseed of stats_recsys.py).", "quantifier": "every sequence of options in every spelling, every list of file names, every content of the files", "why_tests_cant": "Universal over spellings and orders.", "anchors": ["scripts/exp_recsys_sp.py:command_line_parser", "scripts/exp_recsys_if.py:command_line_parser", "scripts/exp_recsys_fold_merge.py:command_line_parser", "scripts/stats_recsys.py:command_line_parser", "scripts/exp_recsys_util.py:do_task"]}
{"id": "C129", "title": "Whatever is typed, only files that were named are touched, and one result at most is written", "statement": "Whatever strings a script is called with, the only files it changes are standard output and files whose names are ends of these strings. In the end every file is as before or empty, except for one that has a complete result if the script ended normally; whenever the script is stopped every file is as before, empty, as it would be in the end, or has a part of that result. A string that abbreviates several options makes the script end before any file is opened.", "quantifier": "every list of strings, every script, every content of the files, every stopping point", "why_tests_cant": "All inputs a user can type, and all crash points.", "anchors": ["scripts/exp_recsys_sp.py:command_line_parser", "scripts/exp_recsys_if.py:command_line_parser", "scripts/exp_recsys_fold_merge.py:command_line_parser", "scripts/stats_recsys.py:command_line_parser", "scripts/exp_recsys_util.py:do_task", "scripts/exp_recsys_fold_merge.py:do_task", "scripts/stats_recsys.py:do_task"]}
{"id": "C130", "title": "Error metrics are accurate however numpy adds", "statement": "With binary64 arithmetic and sums formed in any order, the mean absolute error, the mean squared error and its root differ from the exact values by relative errors of at most (n + 4) / 2^52; they are never negative and vanish exactly if prediction and truth are equal; the standard deviations are accurate in comparison with the root mean square of the errors; exchanging truth and prediction, or another order of the events, changes nothing that can be computed.", "quantifier": "every sample of at most 2^50 pairs of numbers, every order and grouping of the additions", "why_tests_cant": "Rounding errors depend on all data and on the order in which a numpy version adds.", "anchors": ["kamrecsys/metrics/real.py:mean_absolute_error", "kamrecsys/metrics/real.py:mean_squared_error"]}
{"id": "C131", "title": "The gamma-prior variance survives rounding", "statement": "With binary64 arithmetic variance_with_gamma_prior is positive for all data when a and b are positive, and it equals the exact value (n*var + 2b)/(n + 2a) up to rounding errors of its terms.", "quantifier": "every sample, every a, b > 0, every order and grouping of the additions", "why_tests_cant": "Cancellation happens for data no test happens to contain.", "anchors": ["kamrecsys/metrics/real.py:variance_with_gamma_prior"]}
{"id": "C132", "title": "A fraction of the events is the fraction that was asked for", "statement": "With binary64 arithmetic ShuffleSplitWithinGroups makes the same splits as in exact arithmetic: a test size a/b selects ceil(a*m/b) of the m events of every group.", "quantifier": "every number of events below 2^51, every fraction, every grouping, every state of the random numbers", "why_tests_cant": "Whether a rounded product exceeds an integer depends on the exact numbers of events.", "anchors": ["kamrecsys/model_selection/split.py:ShuffleSplitWithinGroups", "scripts/exp_recsys_util.py:cv_test"]}
{"id": "C133", "title": "Predictions of the factorization models are accurate", "statement": "With binary64 arithmetic and sums formed in any order, the latent estimate of the matrix factorization models differs from the exact one by at most (k + 4) / 2^52 times the sum of the sizes of its terms; for an unknown user and an unknown item it is exactly the learned mean; the predictions of the logistic models differ by at most a quarter of that plus 1e-14.", "quantifier": "every set of learned parameters, every request, every order of additions", "why_tests_cant": "Universal over real parameters and orders of summation.", "anchors": ["kamrecsys/score_predictor/matrix_factorization.py:raw_predict", "kamrecsys/item_finder/matrix_factorization.py:raw_predict"]}
{"id": "C134", "title": "Predictions of the topic model stay with the levels", "statement": "With binary64 arithmetic and sums formed in any order, a fitted topic model predicts in expectation mode a value that differs from the exact expectation by a relative error of at most (3k + 3m + 11) / 2^52 (k topics, m levels, none negative) and that leaves the range of the levels by at most (3m + 1) / 2^52 of its ends; in the other mode it predicts a level, and no level is more probable than this one by more than rounding errors.", "quantifier": "every set of probabilities, every request for known or unknown users and items, every order of additions", "why_tests_cant": "Universal over real parameters and orders of summation.", "anchors": ["kamrecsys/score_predictor/topic_model.py:raw_predict"]}
{"id": "C135", "title": "Numbers on the command line", "statement": "Every integer and every decimal fraction, negative ones included, may be written after an option that takes a number, and the script works with exactly that number. A value of an integer option that is no integer ends the script with a message about the usage, wherever it stands among documented options. A negative number with an exponent, such as -1e-3, is not taken for a value: no result is written.", "quantifier": "every integer, every decimal fraction, every other option, every file system", "why_tests_cant": "There are infinitely many numbers and command lines.", "anchors": ["scripts/exp_recsys_sp.py:command_line_parser", "scripts/exp_recsys_if.py:command_line_parser", "scripts/stats_recsys.py:command_line_parser"]}
{"id": "C136", "title": "Conversion scripts and files", "statement": "A conversion script in data/ changes no file but those it is to make; the original files are never changed. When all the originals are there and have their format, it makes every file completely. When one is missing, or a line cannot be converted, it raises; the files made before are complete, the file it is at has the records of the lines before and at most the beginning of one more (sushi3: the records of the entries before), and the files after it are as they were. Stopped at any point it leaves beginnings of what it would write, and running it again gives what an undisturbed run gives. -h and --help do nothing, wherever they stand.", "quantifier": "every content of the original files, every directory, every point at which a script is stopped, every way in which output is buffered", "why_tests_cant": "Files, bad lines and crash points are unbounded.", "anchors": ["data/movielens100k.py", "data/movielens1m.py", "data/movielens_mini.py", "data/flixster.py", "data/sushi3.py"]}
{"id": "C137", "title": "Loading what an interrupted conversion left", "statement": "When the conversion of event data is interrupted at any point, loading the event file it left raises, or gives the events of the original file that come first, in their order, each with its user and its item. For MovieLens 100k and 1m their scores are right too, and at most the time of the last event is not; for Flixster and sushi3 at most the score of the last event is not. (That the file is not complete is not noticed, and a wrong last score is possible.)", "quantifier": "every list of ratings, every point at which writing the file ended, every content of the feature files", "why_tests_cant": "Files and crash points are unbounded.", "anchors": ["data/movielens100k.py", "data/movielens1m.py", "data/flixster.py", "data/sushi3.py", "kamrecsys/datasets/base.py:load_event_with_score", "kamrecsys/datasets/movielens.py:load_movielens100k", "kamrecsys/datasets/movielens.py:load_movielens1m", "kamrecsys/datasets/flixster.py:load_flixster_rating", "kamrecsys/datasets/sushi3.py:load_sushi3b_score"]}
{"id": "C138", "title": "Parameters and clones of recommenders", "statement": "Every recommender lists with get_params exactly the documented parameters of its constructor (C, k, random_state; for the topic model alpha, k, random_state, use_expectation), not the settings of the optimizer. set_params assigns exactly the named parameters and changes nothing else; an unknown name, in particular a setting of the optimizer, raises ValueError after the names before it have been assigned. sklearn.base.clone gives an untrained recommender with the same parameters, its generator a copy in the same state, and changes no other recommender; it always works unless set_params was used with a C that is no float or a k that is no int, when it raises RuntimeError. The clone has the default settings of the optimizer; a recommender with these learns what its clone learns. (False for other settings: clone loses maxiter, tol, method and options.)", "quantifier": "every sequence of constructions, set_params, clones and fits, all values of parameters, every learner", "why_tests_cant": "Histories and values are unbounded.", "anchors": ["kamrecsys/base/base.py:BaseRecommender", "kamrecsys/score_predictor/matrix_factorization.py:PMF.__init__", "kamrecsys/item_finder/matrix_factorization.py:LogisticPMF.__init__", "kamrecsys/item_finder/matrix_factorization.py:ImplicitLogisticPMF.__init__", "kamrecsys/score_predictor/topic_model.py:MultinomialPLSA.__init__"]}
{"id": "C139", "title": "Training of the topic model with machine arithmetic", "statement": "Trained with numbers of 53 bits instead of exact ones, for any number of passes and from any initial draw, the topic model always holds positive parameters whose distributions over users, items, levels and topics sum to 1 up to a small relative error that does not grow with the number of passes. Each pass of EM gives what the exact pass gives from the same parameters, up to a relative error of (3 n + 8 k + 2 (users + items + levels) + 30) / 2^52. No parameter gets below alpha / (4 n + 2 (k + users + items + levels) alpha), so that for realistic sizes no multiplication or division underflows, nothing is divided by zero, and predictions of the trained model are accurate (C134).", "quantifier": "all data, initial draws, positive alpha, numbers of topics and passes, every order in which numpy may add", "why_tests_cant": "The roundings depend on all the data and on the order of summation, and accumulate over unboundedly many passes.", "anchors": ["kamrecsys/score_predictor/topic_model.py:MultinomialPLSA.fit", "kamrecsys/score_predictor/topic_model.py:MultinomialPLSA._init_params", "kamrecsys/score_predictor/topic_model.py:MultinomialPLSA.maximization_step"]}
{"id": "C140", "title": "What the area under the curve means", "statement": "The entry 'area under the curve' in the statistics of an item finder is, whenever both classes occur, the share of all pairs of a relevant and an irrelevant event in which the relevant one got the higher prediction, ties counting one half. It lies between 0 and 1, is 1 exactly when every relevant event is predicted higher than every irrelevant one, is 1/2 when all predictions are equal, depends only on the order of the predictions (not on their scale nor on the order of the events), and becomes its complement when the order is reversed. Neither function raises for binary true scores with both classes.", "quantifier": "all binary true scores and predictions of equal length, with any ties", "why_tests_cant": "Points of the curve with equal scores are joined and points on a line are dropped; whether the area stays right depends on all ties of the data.", "anchors": ["kamrecsys/metrics/item_finder.py:item_finder_report", "kamrecsys/metrics/item_finder.py:item_finder_statistics", "kamrecsys/utils/base.py:is_binary_score"]}
{"id": "C141", "title": "Copies and pickles of containers and recommenders", "statement": "A container copied with copy.deepcopy or through a pickle reports what its source reports, and in every program neither changes when a call is made on the other. A container copied with copy.copy, and its source, change each other only by set_event and set_feature (which do reach through: they overwrite the id tables the other one uses). A recommender copied deeply or through a pickle predicts forever what the original predicted at that moment unless it is fitted itself, even if the training container is loaded with other events, which changes the predictions of the original.", "quantifier": "all programs of library calls, copies and pickles, any number of containers and recommenders", "why_tests_cant": "Which arrays two objects share depends on the whole history of the program.", "anchors": ["kamrecsys/data/base.py:BaseData", "kamrecsys/data/event.py:EventData.set_event", "kamrecsys/data/event_with_score.py:EventWithScoreData.set_event", "kamrecsys/data/base.py:BaseData.set_feature", "kamrecsys/base/base.py:BaseRecommender", "kamrecsys/base/base.py:BaseEventRecommender.fit"]}
{"id": "C142", "title": "How many latent factors a factorization needs", "statement": "For the score predictor PMF, learned coefficients are the best ones among models with any number k of latent factors if and only if the gradient given to the optimizer vanishes and no singular value of the matrix of residuals on the training events exceeds the regularization parameter C; comparing with k + 1 factors is enough. All such coefficients, whatever their k, give the same predictions for the training events and have the same biases. As many factors as users or as items are enough (for all three factorization models). Factors lower the loss below that of the best model of biases exactly when the residuals of that model have a singular value above C. If C squared is larger than the sum of squared deviations of the scores from some number, times the largest number of events of one pair of a user and an item, the factors of the best coefficients are all zero.", "quantifier": "all training events with repetitions, numbers of users, items and factors, all C > 0, all coefficient vectors", "why_tests_cant": "The comparison is with all coefficient vectors of all sizes; a run of the optimizer says nothing about them.", "anchors": ["kamrecsys/score_predictor/matrix_factorization.py:PMF.loss", "kamrecsys/score_predictor/matrix_factorization.py:PMF.grad_loss", "kamrecsys/score_predictor/matrix_factorization.py:PMF.raw_predict", "kamrecsys/item_finder/matrix_factorization.py:LogisticPMF.loss", "kamrecsys/item_finder/matrix_factorization.py:ImplicitLogisticPMF.loss"]}
{"id": "C143", "title": "The loss and the gradient given to the optimizer are accurate", "statement": "With the machine's arithmetic, the loss of PMF that the optimizer is given differs from the exact loss by at most (number of events + number of coefficients + 2 k + 20) units of 2^-52, times the size of its terms, and is never negative. Every entry of the gradients of PMF, LogisticPMF and ImplicitLogisticPMF differs from the exact entry by at most (number of events + k + 7, or + 98 with the logistic function) units of 2^-52 times the sum of the sizes of its terms; the entries of objects without events are the rounded ones of the penalty. So when the optimizer stops at a point where the entry of the global bias is at most eps, the mean of the predictions for the training events differs from the mean of their scores by at most eps divided by the number of events plus this error.", "quantifier": "all training events and coefficient vectors, all orders in which numpy adds, all C (C >= 0 for the loss), up to 2^52 operations", "why_tests_cant": "Rounding errors depend on all the numbers and on the order of the additions; a test sees a few of them.", "anchors": ["kamrecsys/score_predictor/matrix_factorization.py:PMF.loss", "kamrecsys/score_predictor/matrix_factorization.py:PMF.grad_loss", "kamrecsys/item_finder/matrix_factorization.py:LogisticPMF.grad_loss", "kamrecsys/item_finder/matrix_factorization.py:ImplicitLogisticPMF.grad_loss"]}
{"id": "C144", "title": "The times in result files are those of the run", "statement": "In the file an experiment script writes, the training of every fold has as start_time and end_time the clock readings before and after that fit, and as elapsed_time and elapsed_utime the times between them; its test likewise has the readings before and after that prediction. The readings follow each other: training before test, and each fold after the fold with the smaller number. This holds for every method, for hold-out, for complete and for single-fold cross-validation, whatever else the recommender reports about its fit.", "quantifier": "all command lines, data files, seeds, environments and clocks; every fold of every result", "why_tests_cant": "The entries of the fit are merged into the same dictionary as the times, and readings depend on the clock; a test sees one clock and would have to compare times that are almost equal.", "anchors": ["scripts/exp_recsys_util.py:training", "scripts/exp_recsys_util.py:testing", "scripts/exp_recsys_util.py:cv_test", "scripts/exp_recsys_util.py:holdout_test"]}
{"id": "C145", "title": "The unit of scores does not matter", "statement": "When every score x is replaced by p * x + q with positive p, and the minimum, maximum and stride of the declared domain accordingly, nothing but the unit changes. set_event keeps the same events and ids and ends with the changed scores and domain; it fails exactly when it failed before. get_score_levels returns the changed levels, digitize_score the same digits, binarize_score gives the very same container, and filtering and changing the unit commute. Fitting pLSA gives the same distributions, whose levels are changed, and its predictions, by mode and by expectation, are the changed predictions. MAE is multiplied by p, MSE by its square, histograms count the same, and descriptive statistics change as means, extremes and deviations do.", "quantifier": "all data, events, scores, domains with three numbers, positive factors, offsets, random numbers, and fitted models; for predictions by expectation positive pseudo-counts and non-empty training data. Matrix factorization is not included: its penalty does not scale with the scores, and for shifts see C82.", "why_tests_cant": "A statement about two runs on different numbers; tests check few units, and a bin edge computed without the offset passes all tests with ratings 1 to 5.", "anchors": ["kamrecsys/data/event_with_score.py:EventWithScoreData.set_event", "kamrecsys/data/event_with_score.py:EventWithScoreData.binarize_score", "kamrecsys/data/event_with_score.py:EventWithScoreData.digitize_score", "kamrecsys/metrics/base.py:generate_score_bins", "kamrecsys/score_predictor/topic_model.py:MultinomialPLSA.fit", "kamrecsys/score_predictor/topic_model.py:MultinomialPLSA.raw_predict", "kamrecsys/metrics/real.py:mean_absolute_error", "kamrecsys/metrics/real.py:score_histogram"]}
{"id": "C146", "title": "Experiments do not depend on the unit of scores", "statement": "Take the files of an experiment, replace every score x by p * x + q with positive p, and the declared score domain accordingly (0 0 0 stays). A script then writes the same result file, except that true and predicted scores and the score domain are in the new unit, or fails with the same exception. This holds for the topic models, by mode and by expectation, and for item finders, whose files differ in the score domain only; for matrix factorization when a number is added (p = 1) and the optimizer commutes with translations. Hold-out, complete and single-fold cross-validation alike.", "quantifier": "all well-formed data files, command lines with domain 0 0 0 or with a stride that is not zero, seeds, clocks and environments, factors and offsets; for predictions by expectation positive pseudo-counts and a non-empty training file; for matrix factorization a non-empty training file", "why_tests_cant": "Relates two runs on different files; whether a fold, a bin or a threshold depends on the unit shows for few data only.", "anchors": ["scripts/exp_recsys_sp.py:load_data", "scripts/exp_recsys_if.py:load_data", "scripts/exp_recsys_util.py:cv_test", "scripts/exp_recsys_util.py:holdout_test", "kamrecsys/score_predictor/topic_model.py:MultinomialPLSA.fit"]}
{"id": "C147", "title": "Result files count the events, users and items of the data", "statement": "In the file an experiment script writes, training has as n_events, n_users and n_items the number of events of the training file and the numbers of different ids in its first and second column. test has the same numbers for cross validation and those of the test file for hold-out. The test of every fold has as n_events the number of its test events: in cross validation a fifth, rounded up, of the events of every user, added over the users, which is also the number of the fold's events, true scores and mask entries in the file; in hold-out all events of the test file.", "quantifier": "all well-formed data files, command lines with a domain of three numbers, methods, seeds, clocks and environments; every successful run and every fold", "why_tests_cant": "Counts of distinct ids and of rounded fifths depend on the whole file; tests compare a few files with recorded numbers.", "anchors": ["scripts/exp_recsys_util.py:cv_test", "scripts/exp_recsys_util.py:holdout_test", "scripts/exp_recsys_util.py:testing", "kamrecsys/data/event.py:EventData.set_event"]}
{"id": "C148", "title": "What the ranking of items depends on", "statement": "A fitted matrix-factorization model gives one user at least as high a prediction for item j as for item i whenever its parameters favour j: item bias plus the product of the factors of user and item (the item bias alone for a user not seen in training, nothing for an item not seen in training). Neither the global mean nor the bias of the user matters. All users not seen in training get the same predictions, and all items not seen in training the same prediction of a user. For score prediction by PMF a strict preference is a strictly higher prediction; for the logistic models it is, unless both predictions are the lowest or both the highest value of the sigmoid. The area under the ROC curve of logistic predictions is that of the linear scores behind them, cut off at the ends of the domain of the sigmoid.", "quantifier": "all user-item training data, models, settings, random numbers, optimizers, batches of requests, users and items; all samples for the area", "why_tests_cant": "A statement about every pair of requests for every set of learned parameters; tests see the predictions of one trained model.", "anchors": ["kamrecsys/score_predictor/matrix_factorization.py:PMF.raw_predict", "kamrecsys/item_finder/matrix_factorization.py:LogisticPMF.raw_predict", "kamrecsys/item_finder/matrix_factorization.py:ImplicitLogisticPMF.raw_predict", "kamrecsys/utils/kammath.py:safe_sigmoid"]}
{"id": "C149", "title": "What training of the topic model tends to", "statement": "For positive alpha there are parameters with the highest smoothed likelihood, and EM steps do not change them. EM steps leave parameters alone exactly when the smoothed likelihood is stationary there: its derivative is zero in every direction in which the parameters stay distributions. When fit is run with tol = 0 and larger and larger maxiter, the smoothed likelihood converges, the change of every parameter from one maxiter to the next tends to zero, every sequence of maxiter values has a part along which all parameters converge, and every such limit is a stationary point, with positive entries.", "quantifier": "every data set with an event, number of latent classes, alpha > 0, all random initial weights, all sequences of numbers of steps", "why_tests_cant": "A statement about the limit of unboundedly many iterations.", "anchors": ["kamrecsys/score_predictor/topic_model.py:MultinomialPLSA.fit", "kamrecsys/score_predictor/topic_model.py:MultinomialPLSA.maximization_step"]}
{"id": "C150", "title": "How well a topic model can fit its training data", "statement": "Whatever the number of latent classes, the mean loss is at least the entropy of the relative frequencies of the training events (user, item and score level), so the final_loss that fit reports is never below it. As many latent classes as there are different events suffice to reach it. Whatever can be expressed with some number of latent classes can be expressed with one more: the same probabilities, loss and predictions.", "quantifier": "every data set with an event, number of latent classes, all parameters that are distributions; for fit all settings with alpha > 0 and all random numbers", "why_tests_cant": "A bound over all parameters and all training runs.", "anchors": ["kamrecsys/score_predictor/topic_model.py:MultinomialPLSA.loss", "kamrecsys/score_predictor/topic_model.py:MultinomialPLSA.fit"]}
{"id": "C151", "title": "Repeated data and smoothing of the topic model", "statement": "If every training event occurs c times instead of once, with the same initial weights, and alpha is multiplied by c, the parameters after every number of EM steps and the loss are the same. Without smoothing (alpha = 0) repeating all events changes nothing.", "quantifier": "every data set, arrangement of the copies, positive c, alpha, initial weights, number of latent classes and of steps", "why_tests_cant": "Relates two training runs for every number of steps.", "anchors": ["kamrecsys/score_predictor/topic_model.py:MultinomialPLSA.maximization_step", "kamrecsys/score_predictor/topic_model.py:MultinomialPLSA.loss"]}
{"id": "C152", "title": "What the stopping rule and the reported loss guarantee", "statement": "If the optimizer reports success (fit_results_['success'] is True) and its rule for success bounds every entry of the gradient by a tolerance, then up to that tolerance: the errors of the predictions of PMF for the training events sum up to zero, so the mean prediction is the mean score (for LogisticPMF: the share of positive events); the errors for the events of one user sum up to C times what the user adds to the prediction for a new user, and the errors for the events of one item to C times what the item adds to that for a new item. For ImplicitLogisticPMF the probabilities of all pairs of a known user and a known item sum up to the number of events, and those of one user or item to its number of events less C times what it adds to the linear score. In coefficients, for all three models: the biases of the users sum up to zero, so do those of the items, and the factors of users and items have the same products of columns. Whether the optimizer succeeded or not, the final_loss l that PMF reports bounds the sum of the squared errors for the training events by 2 l and keeps every prediction within 2 sqrt(l / C) + l / C of the prediction for a new user and a new item. For LogisticPMF the probability given to what happened in every training event is at least exp(-l), and linear scores stay within the same distance.", "quantifier": "every data set, regularization, number of factors, start, random numbers, tolerance, and every optimizer that stops with success only at small gradients (for the loss: one that reports the loss of the point it returns)", "why_tests_cant": "Holds for every optimizer and data set; a test sees one run.", "anchors": ["kamrecsys/score_predictor/matrix_factorization.py:PMF.fit", "kamrecsys/item_finder/matrix_factorization.py:LogisticPMF.fit", "kamrecsys/item_finder/matrix_factorization.py:ImplicitLogisticPMF.fit", "kamrecsys/score_predictor/matrix_factorization.py:PMF.grad_loss"]}
{"id": "C153", "title": "Which events can be converted, to what, and what the others raise", "statement": "to_eid_event of a loaded container returns, for one event or an array of events of the right width, exactly the external ids that the entries stand for (an internal id from -n to -1 counts from the end, n being the number of objects of the type of the column). It raises IndexError if some entry is outside -n..n-1 and succeeds otherwise; every other shape raises TypeError. Converting internal ids 0..n-1 to external ids and back changes nothing. A vector of missing_values that is too long is used up to the number of columns; one that is too short makes to_iid_event raise IndexError, even if all ids are known, unless there is no event. A container that was never loaded converts nothing: to_eid_event raises TypeError for one event and AttributeError for an array, to_iid_event AttributeError, to_eid and to_iid TypeError.", "quantifier": "every container that was loaded (and filtered), layout, array and vector of missing values; for the last part every new container", "why_tests_cant": "All shapes, layouts and internal ids, in and out of range.", "anchors": ["kamrecsys/data/event.py:EventUtilMixin.to_eid_event", "kamrecsys/data/event.py:EventUtilMixin.to_iid_event", "kamrecsys/data/base.py:ObjectUtilMixin.to_eid", "kamrecsys/data/base.py:ObjectUtilMixin.to_iid"]}
{"id": "C154", "title": "Only trained recommenders predict", "statement": "A recommender that was never fitted, or whose calls of fit all raised before training started, raises in predict for every array; it never returns a number. Once a call of fit has succeeded, the learned parameters and fit_results_ stay as they are through any number of later calls of fit that raise before their training starts.", "quantifier": "every kind of recommender, training procedure, data, event index, sequence of refused calls of fit, and array passed to predict", "why_tests_cant": "All histories of refused calls of fit and all inputs.", "anchors": ["kamrecsys/base/base.py:BaseEventRecommender.predict", "kamrecsys/base/base.py:BaseEventRecommender.fit"]}
{"id": "C155", "title": "What a fit of a matrix factorization leaves when it does not come to its end", "statement": "If fit of PMF, LogisticPMF or ImplicitLogisticPMF stops before its end (an exception in the optimizer, KeyboardInterrupt), the recommender afterwards raises in predict, predicts as with the parameters it had before, or predicts as after the whole call. (False: see the note.) What holds: once the parameters have been allocated and until the result of the optimizer is stored, predict gives for known users and items the estimate from the coefficients of that moment, which are the random initial ones while the optimizer runs, and raises IndexError as soon as a requested user or item is unknown; after the result has been stored, known users and items get the predictions of the completed fit and requests with unknown ones those or IndexError. A new recommender whose first call stops before all parameters are allocated raises in predict. A trained one whose later call stops there predicts with a mixture, in which the mean, user biases, item biases, user factors and item factors are replaced by zeros in this order, and raises IndexError exactly if one of the arrays has no entry for a requested object. fit_results_['success'] is set or changed only when what is used for predictions is final. With one user or one item the call raises TypeError and every prediction after it raises IndexError. A later call that comes to its end leaves the same parameters and results whatever the interrupted one left.", "quantifier": "every data set of user-item events, hyperparameters, optimizer, random numbers, state before the call and every point between two statements at which the call stops, and all requests", "why_tests_cant": "All points at which a call can be interrupted.", "anchors": ["kamrecsys/score_predictor/matrix_factorization.py:PMF.fit", "kamrecsys/score_predictor/matrix_factorization.py:PMF._init_coef", "kamrecsys/score_predictor/matrix_factorization.py:PMF.raw_predict", "kamrecsys/item_finder/matrix_factorization.py:LogisticPMF.fit", "kamrecsys/item_finder/matrix_factorization.py:ImplicitLogisticPMF.fit"]}
{"id": "C156", "title": "What a fit of the topic model leaves when it does not come to its end", "statement": "If fit of MultinomialPLSA stops before its end (KeyboardInterrupt), predict of the recommender afterwards depends on the point only in this way: until the first M-step has assigned the four arrays, that of a new recommender raises TypeError; from then on known users and known items get scores between the smallest and the largest score level, and a request with a user (item) that did not occur in the data raises IndexError until the entry for unknown users (items) has been appended. After j passes of the loop the arrays are those of a whole call with maxiter = j. fit_results_['success'] is set or changed only when the arrays are final. A call that comes to its end leaves the same arrays, predictions and results whatever an interrupted one left.", "quantifier": "every data set of user-item events, positive alpha, number of latent classes, tolerance, maxiter, nonnegative initial weights, every point between two statements at which the call stops, and all requests", "why_tests_cant": "All points at which a call can be interrupted.", "anchors": ["kamrecsys/score_predictor/topic_model.py:MultinomialPLSA.fit", "kamrecsys/score_predictor/topic_model.py:MultinomialPLSA.maximization_step", "kamrecsys/score_predictor/topic_model.py:MultinomialPLSA.raw_predict"]}
{"id": "C157", "title": "Which random numbers a recommender uses and what it leaves to others", "statement": "A recommender constructed with an integer random_state is, after any program, what its own calls of fit make of it: other recommenders, draws from numpy's generator or from RandomState objects before, between and after these calls change nothing, and its calls of fit draw from no generator of the program. A recommender constructed with random_state=None uses numpy's global generator, one constructed with a RandomState that object. A call of its fit advances this generator and no other. If fit refuses the data before training, nothing is drawn; PMF draws nothing either when there is one user or one item. Otherwise PMF, LogisticPMF and ImplicitLogisticPMF draw k numbers for each user and then k for each item with events, with standard deviation 1 (PMF: that of the residuals of the initial biases), and MultinomialPLSA draws one Dirichlet vector per event in the order of the events; the values of the regularization, the optimizer and its options do not matter. The state of a generator after a program, and the recommenders that use it, depend only on the operations that use it.", "quantifier": "all programs of draws and fits, all numbers of recommenders and generators, all data", "why_tests_cant": "A test fits one recommender once or twice in a fixed order; interference between recommenders shows only in particular interleavings.", "anchors": ["kamrecsys/base/base.py:BaseRecommender.fit", "kamrecsys/score_predictor/matrix_factorization.py:PMF._init_coef", "kamrecsys/item_finder/matrix_factorization.py:LogisticPMF._init_coef", "kamrecsys/item_finder/matrix_factorization.py:ImplicitLogisticPMF._init_coef", "kamrecsys/score_predictor/topic_model.py:MultinomialPLSA._init_params"]}
{"id": "C158", "title": "What an interrupted set_event leaves in a container", "statement": "If set_event of a container stops before its end (KeyboardInterrupt, MemoryError), the events that are read from the container afterwards are the old ones or the new ones, or reading fails. (False: see the note.) What holds: after any number of its assignments each part of the container (number of objects, conversion to external and to internal ids of each type, event array, number of events, event features, scores, score domain, number of score levels) is the old part or that of the completed call, and the number says which; only the columns of the event array that are not yet assigned hold arbitrary numbers. Before the event array is replaced, an old event reads as the old objects for the types whose ids are not yet replaced and as the new objects of the same rank for the others, or raises if there is no such object. In a container without events an interrupted first call leaves no event array, so that filter_event returns None and fit raises AttributeError, or it leaves the tables of the new events; once n_events is not 0 only the event features can be missing. A later call of set_event that comes to its end leaves what it would have left without the interrupted ones.", "quantifier": "every container reached by any calls, event array of its width, scores, domain and event features, and every number of assignments after which the call stops; for the last part every sequence of interrupted calls", "why_tests_cant": "All points at which a call can be interrupted, and all data before and after.", "anchors": ["kamrecsys/data/event.py:EventData.set_event", "kamrecsys/data/base.py:BaseData._gen_id", "kamrecsys/data/event_with_score.py:EventWithScoreData.set_event"]}
{"id": "C159", "title": "Calls of set_event of one container in several threads", "statement": "When several threads call set_event of one container and all calls are finished, the container is the one that one of the calls leaves. (False: see the note.) What holds for every schedule: if all load the same events, no call raises, each makes progress at each of its turns, the container at the end is the one a single call leaves, and meanwhile readers of n_objects, to_eid, to_iid, n_events and event_feature get the old or the new answer. If they load different events, the layout stays, at every moment n_objects and each of the conversions of one type in one direction are the old ones or those of one call, and the only exceptions are KeyError and ValueError. A call that runs without another in between leaves the container as if it had been the only one, whatever other threads have done before, finished or not.", "quantifier": "every container reached by any calls, number of threads, event arrays of its width, event features, and every schedule of the assignments", "why_tests_cant": "All interleavings of the assignments of any number of threads.", "anchors": ["kamrecsys/data/event.py:EventData.set_event", "kamrecsys/data/base.py:BaseData._gen_id", "kamrecsys/data/base.py:ObjectUtilMixin.to_eid", "kamrecsys/data/base.py:ObjectUtilMixin.to_iid"]}
{"id": "C160", "title": "binarize_score interrupted, repeated and in several threads", "statement": "Repeating an interrupted binarize_score gives what an uninterrupted call gives, and calls in several threads leave what some order of these calls leaves. (False: see the note.) What holds: after any number of the steps of a call, scores, domain and number of levels are the old ones or those of the completed call, and the number says which; nothing else changes. Repeating the call with the same threshold t gives the completed result if and only if the scores had not been replaced yet, or t >= 0 whenever some score was at most t and t < 1 whenever some score was above; with the default threshold only an interruption between the assignments of the scores and of the domain can do harm, under the same condition on the mid-point. A second call with a threshold u leaves a binarized container as it is for 0 <= u < 1, makes all scores 0 for u >= 1 and all 1 for u < 0. Calls with thresholds in several threads never raise and end with what some of the calls leave, made one after another; if all have the same threshold, with the condition above, with what one call leaves.", "quantifier": "every loaded container (features, filters and binarizations included), threshold, number of steps after which the call stops, number of threads and schedule of the steps", "why_tests_cant": "All points at which a call can be interrupted and all interleavings of any number of threads.", "anchors": ["kamrecsys/data/event_with_score.py:EventWithScoreData.binarize_score"]}
{"id": "C161", "title": "Several recommenders are fitted in threads", "statement": "Recommenders that are fitted at the same time in several threads learn what they learn when they are fitted one after the other. (False for recommenders that share a random generator: see the note.) What holds, whatever the schedule: a recommender whose generator no other thread uses, as is so for every integer random_state, is at every moment in the state in which it would be if it were fitted alone, with the same exception if there is one; after enough turns its mu_, bu_, bi_, p_, q_ and fit_results_ are those of a fit alone; and a generator that no thread uses is not advanced. If generators are shared, every fit with enough turns still ends without an exception, and it has learned what a fit alone learns from a generator whose states at its two draws are those the shared one had at two turns of its thread; if these follow each other, that is a fit alone from the first of the two states. Fits that share a generator and do not overlap each learn what a fit alone learns from the state in which the generator was left, whatever other threads do.", "quantifier": "every number of PMF, LogisticPMF and ImplicitLogisticPMF recommenders with any hyper-parameters and data, assignment of generators to recommenders, optimizer, generator and schedule of the statements", "why_tests_cant": "All interleavings of the statements of any number of threads.", "anchors": ["kamrecsys/score_predictor/matrix_factorization.py:PMF.fit", "kamrecsys/item_finder/matrix_factorization.py:LogisticPMF.fit", "kamrecsys/item_finder/matrix_factorization.py:ImplicitLogisticPMF.fit", "kamrecsys/base/base.py:BaseRecommender.fit"]}
{"id": "C162", "title": "predict in one thread while fit of the same recommender runs in another", "statement": "A call of predict while fit of the same recommender runs in another thread gives what predict would give at one moment of the fit. (False: see the note.) What holds, from the moment on when the parameters have been allocated and whatever statements of fit are executed during the call: for users and items of the training data predict never raises and computes with the mean, the biases and the factors as each of them is when it is read; after the initialization each of the five is either the initial one or that of the result of the optimizer, depending on whether the result had been stored when it was read; once it is stored known pairs get the predictions of the completed fit, and a request with unknown users or items gets these or IndexError.", "quantifier": "every PMF, LogisticPMF and ImplicitLogisticPMF recommender, data set with several users and items, optimizer, generator, request and choice of the five moments of reading", "why_tests_cant": "All pairs of schedules of the statements of fit and the reads of predict.", "anchors": ["kamrecsys/score_predictor/matrix_factorization.py:PMF.raw_predict", "kamrecsys/score_predictor/matrix_factorization.py:PMF.fit", "kamrecsys/item_finder/matrix_factorization.py:LogisticPMF.raw_predict", "kamrecsys/item_finder/matrix_factorization.py:ImplicitLogisticPMF.raw_predict"]}
{"id": "C163", "title": "predict of MultinomialPLSA in one thread while its fit runs in another", "statement": "A call of predict of a MultinomialPLSA recommender while its fit runs in another thread gives no score outside the score domain, although the four arrays it reads may belong to different M-steps, normalized or not, of this call of fit. If every array has been assigned by this call of fit when it is read, requests for users and items of the training data never raise; a request with an unknown user (item) raises IndexError exactly as long as the entry for unknown users (items) had not been appended when the array of the users (items) was read. If the recommender is new and the array of the topics has not been assigned when it is read, predict raises TypeError. Once the loop has ended known pairs get the predictions of the completed fit.", "quantifier": "every configuration with positive alpha and at least one topic, data set, nonnegative initial weights, request and choice of the four moments of reading", "why_tests_cant": "All pairs of schedules of the statements of fit and the reads of predict.", "anchors": ["kamrecsys/score_predictor/topic_model.py:MultinomialPLSA.raw_predict", "kamrecsys/score_predictor/topic_model.py:MultinomialPLSA.maximization_step", "kamrecsys/score_predictor/topic_model.py:MultinomialPLSA.fit"]}
{"id": "C164", "title": "Several topic models are fitted in threads", "statement": "If MultinomialPLSA recommenders are fitted in threads at the same time, each learns what it learns when the fits run one after the other in some order. (False: see the note.) What holds for every schedule: the recommenders that use one generator draw their initial weights from a single sequence of draws, each for its events in order and each draw used once, and a fit that has come to its end stores the parameters, predicts and reports as a fit with the weights it has drawn; a fit whose draws no other fit with the same generator interrupts, in particular one with its own generator, predicts and reports what it does after a fit alone that begins with the state in which the others have left the generator, and leaves the generator as after a fit alone; generators that no thread uses are not moved.", "quantifier": "every number of threads, configurations, data sets, generators, assignment of generators to recommenders and schedule", "why_tests_cant": "All schedules of the statements of several fits.", "anchors": ["kamrecsys/score_predictor/topic_model.py:MultinomialPLSA._init_params", "kamrecsys/score_predictor/topic_model.py:MultinomialPLSA.fit", "kamrecsys/base/base.py:BaseRecommender.fit"]}
{"id": "C165", "title": "One matrix factorization is fitted in several threads", "statement": "If fit of the same matrix factorization is called in several threads at the same time, all calls come to their ends and the recommender predicts with what one of them has learned. (False: see the note.) What holds for every schedule: if all calls come to their ends, the mean, the biases and the factors the recommender predicts with all are from the same coefficient vector, one that the optimizer has returned in one of these calls for the loss of that call, however the calls have overwritten each other's initial values and arrays. Calls that do not overlap, on data with at least two users and two items, all come to their ends and leave what the last one has learned and the losses it reports.", "quantifier": "every number of threads, data sets with the same numbers of users and items, initialization, optimizer and schedule", "why_tests_cant": "All schedules of the statements of several calls that share arrays, views and temporary attributes.", "anchors": ["kamrecsys/score_predictor/matrix_factorization.py:PMF.fit", "kamrecsys/score_predictor/matrix_factorization.py:PMF._init_coef", "kamrecsys/item_finder/matrix_factorization.py:LogisticPMF.fit", "kamrecsys/item_finder/matrix_factorization.py:ImplicitLogisticPMF.fit", "kamrecsys/base/base.py:BaseRecommender.remove_data"]}
