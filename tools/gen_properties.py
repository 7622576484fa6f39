"""Writes /verif/properties.jsonl (kept as a script so the list stays easy to edit)."""
import json, os
P = []
def p(id, title, statement, quantifier, why, anchors):
    P.append(dict(id=id, title=title, statement=statement, quantifier=quantifier,
                  why_tests_cant=why, anchors=anchors))

DB='kamrecsys/data/base.py'; DE='kamrecsys/data/event.py'; DS='kamrecsys/data/event_with_score.py'
BB='kamrecsys/base/base.py'; SP='kamrecsys/score_predictor/matrix_factorization.py'
PL='kamrecsys/score_predictor/topic_model.py'; IF='kamrecsys/item_finder/matrix_factorization.py'
IB='kamrecsys/item_finder/base.py'; SB='kamrecsys/score_predictor/base.py'
MS='kamrecsys/model_selection/split.py'; MB='kamrecsys/metrics/base.py'; MR='kamrecsys/metrics/real.py'
MP='kamrecsys/metrics/score_predictor.py'; MI='kamrecsys/metrics/item_finder.py'
UB='kamrecsys/utils/base.py'; UM='kamrecsys/utils/kammath.py'; UE='kamrecsys/utils/kamexputils.py'
XU='scripts/exp_recsys_util.py'; XM='scripts/exp_recsys_fold_merge.py'; XS='scripts/stats_recsys.py'
XF='scripts/exp_recsys_if.py'; XP='scripts/exp_recsys_sp.py'
LB='kamrecsys/datasets/base.py'

# ---------------------------------------------------------------- containers
p('C01','External-id round trip of a loaded event set',
  'After data.set_event(event) succeeds, data.to_eid_event(data.event) returns exactly the event array that was passed in, row for row and column for column; converting one row at a time gives the same answer as converting the whole array.',
  'every number of object types, every legal event_otypes (including types shared by columns and types no column uses), every event array of matching width over any totally ordered id type, every row',
  'The event array, the id type and the type layout are unbounded; a test fixes one file and the default layout.',
  [DE+':EventData.set_event',DE+':EventUtilMixin.to_eid_event',DB+':ObjectUtilMixin._gen_id'])
p('C02','Internal ids are the dense ranks of external ids',
  'After set_event, for every object type the internal id of an external id x is the number of distinct external ids of that type that are smaller than x; internal ids are exactly 0..n_objects[t]-1, n_objects[t] is the number of distinct ids of the type in the events, and eid[t] is strictly increasing.',
  'every layout, every event array, every object type and external id',
  'Needs all id multisets and orders; tests only look at two small files.',
  [DE+':EventData.set_event',DB+':ObjectUtilMixin._gen_id'])
p('C03','to_iid and to_eid are mutually inverse and reject foreign ids',
  'After set_event, to_iid(t, to_eid(t, i)) = i for 0 <= i < n_objects[t], to_eid(t, to_iid(t, x)) = x for every x occurring with type t, and both raise ValueError on every other argument (an id that never occurred, an internal id outside 0..n-1).',
  'every layout, event array, object type, internal and external id',
  'Ranges over all ids, in particular all the absent ones.',
  [DB+':ObjectUtilMixin.to_eid',DB+':ObjectUtilMixin.to_iid'])
p('C04','Unknown external ids become the per-column missing value',
  'to_iid_event maps each entry that occurred in training to its internal id and every other entry of column e to n_objects[event_otypes[e]] (or to missing_values[e] when the caller passes a vector); it never raises on an array of matching width and raises TypeError on any other shape.',
  'every loaded container, every input array, every missing_values vector',
  'The set of unknown ids is infinite and the array is unbounded.',
  [DE+':EventUtilMixin.to_iid_event'])
p('C05','A scalar missing_values is accepted',
  'to_iid_event(ev, missing_values=m) with one integer m converts every unknown id to m (the docstring allows "int or array_like").',
  'every loaded container, every input array, every integer m',
  'Holds or fails for all arrays at once; no test passes the argument.',
  [DE+':EventUtilMixin.to_iid_event'])
p('C06','Filtering commutes with loading',
  'Filtering a loaded container gives the same events, eid tables, iid tables, object counts and event count as loading a fresh container with just the selected events.',
  'every layout, every event array, every boolean mask and every index array',
  'The commuting square has unboundedly many masks; a test shows one mask of one file.',
  [DE+':EventData.filter_event',DE+':EventData.set_event',DB+':ObjectUtilMixin._gen_id_substitution_table'])
p('C07','A filtered container has neither dangling nor orphan objects',
  'After filter_event every internal id in the events is in 0..n_objects-1 for its type, and every object kept in the eid/iid/feature tables occurs in some kept event; in particular the placeholder -1 of the substitution table never reaches the events.',
  'every layout, event array, mask; every object type and event entry',
  'Universal over masks, including the empty selection.',
  [DE+':EventData.filter_event',DB+':ObjectUtilMixin._gen_id_substitution_table'])
p('C08','Filtering keeps objects, scores and features attached',
  'In a filtered container the k-th kept event has the external ids, the event feature and the score that the same event had before filtering, and each kept object has the object feature it had before.',
  'every loaded container with or without features and scores, every mask or index array, every kept event and object',
  'Alignment must hold at every position for every selection.',
  [DE+':EventData.filter_event',DS+':EventWithScoreData.filter_event'])
p('C09','Filters compose',
  'Filtering by c1 and then by c2 gives the same container as filtering once by the composed selection, and filtering by the all-true mask changes nothing.',
  'every loaded container, every pair of selections',
  'Universal over pairs of selections and histories of filters of any length.',
  [DE+':EventData.filter_event'])
p('C10','Constructor validation of the type layout',
  'EventData(n_otypes, event_otypes) raises ValueError exactly when n_otypes < 1, or event_otypes is given and is not one-dimensional, is empty, or mentions a type outside 0..n_otypes-1; otherwise s_event equals the number of columns of the layout.',
  'every integer n_otypes, every nested event_otypes',
  'All integer layouts; the boundary is one value wide.',
  [DB+':BaseData.__init__',DE+':EventData.__init__'])
p('C11','Object features are aligned with internal ids',
  'set_feature(t, eid, feature) succeeds exactly when every loaded object of type t is listed in eid (and lists are consistent); then row j of feature[t] is the feature of the last listed entry whose external id is that of internal id j. Entries for unknown objects are ignored and, without duplicates, the order of the list does not matter.',
  'every loaded container, object type, list of external ids and features',
  'Universal over permutations, duplicates and superfluous ids.',
  [DB+':BaseData.set_feature'])
p('C12','Reloading a container forgets the previous load',
  'Calling set_event twice leaves the container exactly as if only the second call had been made on a fresh container, including that no object feature of the first load is left behind.',
  'every pair (indeed every history) of loads, features set in between',
  'A statement about all call histories.',
  [DE+':EventData.set_event',DB+':BaseData.set_feature'])
p('C13','Containers do not interfere through shared arrays',
  'After filter_event the source and the filtered container are independent: no later sequence of set_event, set_feature, binarize_score or filter_event calls on one container changes what any other container reports.',
  'every history of container operations over any number of containers',
  'Aliasing bugs need particular interleavings of calls on several objects.',
  [DE+':EventData.filter_event',DE+':EventData.set_event',DB+':BaseData.set_feature'])
p('C14','A failing set_event leaves the container unchanged',
  'If set_event raises because the width of the event array differs from s_event, the container still holds its previous load.',
  'every container state, every event array of the wrong width',
  'Universal over states and shapes.',
  [DE+':EventData.set_event'])
# ---------------------------------------------------------------- scores
p('C15','Digitized scores index the score levels',
  'For a score container with min < max and stride > 0, digitize_score maps every finite score to an integer in 0..n_score_levels-1.',
  'every score domain (in exact arithmetic), every finite score',
  'Continuum of domains and scores.',
  [DS+':EventWithScoreData.digitize_score',DS+':EventWithScoreData.set_event',MB+':generate_score_bins'])
p('C16','Digitizing picks the nearest score level',
  'digitize_score(s) is the index of the score level nearest to s (ties upward) and digitize_score(get_score_levels()) is 0,1,2,...; digitizing is monotone.',
  'every regular score domain (range a multiple of the stride), every finite score',
  'Continuum of scores.',
  [DS+':EventWithScoreData.digitize_score',DS+':ScoreUtilMixin.get_score_levels',MB+':generate_score_bins'])
p('C17','Estimated score domain',
  'With score_domain=None, set_event takes the minimum, the maximum and the smallest gap between distinct scores; the call raises ValueError when fewer than two distinct scores occur; every observed score is then digitized into the range 0..n_score_levels-1.',
  'every non-empty list of scores',
  'Universal over score multisets; the failure needs an irregular gap structure.',
  [DS+':EventWithScoreData.set_event'])
p('C18','Binarization',
  'binarize_score(t) replaces each score s by 0 if s <= t and by 1 otherwise, keeps order and number of scores, sets the domain to (0,1,1) and two levels; the default threshold is the mid-point of the domain; binarizing again with the default threshold changes nothing.',
  'every score container, every threshold',
  'Continuum of scores and thresholds.',
  [DS+':EventWithScoreData.binarize_score'])
p('C19','Item finders accept exactly two-class binary data',
  'An explicit item finder accepts a score container for fitting exactly when its domain is (0,1,1), it has 2 levels and its scores consist of 0 and 1 with both present; any other container is rejected with ValueError.',
  'every score container',
  'Universal over score arrays and domains.',
  [IB+':BaseExplicitItemFinder.fit',UB+':is_binary_score'])
# ---------------------------------------------------------------- recommenders
p('C20','fit hands the model aligned events and object counts',
  'After fit(data, event_index) the model sees, for each selected column c of the events, the internal ids of that column and the number of objects of that column\'s type, so every id is below its count.',
  'every loaded container, every in-range event_index (any order, repetitions)',
  'Universal over layouts and index vectors.',
  [BB+':BaseEventRecommender.fit',BB+':BaseEventRecommender.get_event'])
p('C21','predict scores the internal ids of the requested objects',
  'predict(eev) returns the model score of the internal ids of the requested external ids; an id that was not in the training data is scored as the unknown object of its column.',
  'every training container with one type per column in order, event_index covering the columns in order, every batch of requests',
  'All batches, all unknown ids.',
  [BB+':BaseEventRecommender.predict',DE+':EventUtilMixin.to_iid_event'])
p('C22','predict works for every event_index and every type layout',
  'The statement of C21 for an arbitrary event_index accepted by fit and an arbitrary legal event_otypes.',
  'every legal layout, every event_index accepted by fit, every batch',
  'Tests call predict with the default index only.',
  [BB+':BaseEventRecommender.predict',BB+':BaseEventRecommender.fit',DE+':EventUtilMixin.to_iid_event'])
p('C23','Batch prediction is row-wise',
  'predict on a batch of n >= 2 rows is the vector of the predictions of the single rows; prediction of one row is a scalar and does not depend on the other rows or on their order.',
  'every fitted matrix-factorization or pLSA model, every batch',
  'Universal over batches.',
  [BB+':BaseEventRecommender.predict',SP+':PMF.raw_predict',PL+':MultinomialPLSA.raw_predict',IF+':LogisticPMF.raw_predict'])
p('C24','A fitted recommender is independent of its training container',
  'Once fit has returned, no later call on the training container changes what the recommender predicts.',
  'every history of calls on containers after fit',
  'Needs particular interleavings of calls on aliased objects.',
  [BB+':BaseRecommender.fit',DB+':ObjectUtilMixin._set_object_info',DE+':EventData.set_event'])
p('C25','Training data is dropped after fit',
  'After a successful fit the recommender holds no events, event features, scores or random generator, and predict still works and does not depend on them.',
  'every training container, every recommender of the package',
  'Universal over fits and requests.',
  [BB+':BaseEventRecommender.remove_data',SB+':BaseScorePredictor.remove_data',SP+':PMF.fit'])
p('C26','Refitting forgets the previous fit',
  'With an integer seed, fitting the same recommender again gives the same learned parameters, predictions and fit results as fitting a fresh recommender with the same settings.',
  'every history of fits before the last one',
  'A statement about all histories.',
  [SP+':PMF.fit',IF+':LogisticPMF.fit',PL+':MultinomialPLSA.fit',BB+':BaseRecommender.fit'])
p('C27','Optimizer settings of two recommenders are independent',
  'Constructing another recommender never changes the optimizer settings of an existing one, and fit does not consume its settings.',
  'every history of constructions and fits, with option dictionaries shared or not',
  'Needs two constructions sharing one options dictionary.',
  [SP+':PMF.__init__',IF+':LogisticPMF.__init__',IF+':ImplicitLogisticPMF.__init__'])
# ---------------------------------------------------------------- PMF
p('C28','The flat coefficient vector has exactly one slot per parameter',
  'The views mu, bu, bi, p, q of the coefficient vector are pairwise disjoint and together cover it exactly, and its size (reported as n_parameters) is 1 + n_users + n_items + k*(n_users+n_items).',
  'every number of users, items and factors',
  'Universal over sizes; an offset error shows only for some sizes.',
  [SP+':PMF._init_coef',IF+':LogisticPMF._init_coef',IF+':ImplicitLogisticPMF._init_coef'])
p('C29','PMF.grad_loss is the gradient of PMF.loss',
  'In exact arithmetic, at every coefficient vector grad_loss is the derivative of loss: the total (Frechet) derivative of loss at coef in direction v is the inner product of grad_loss(coef) with v.',
  'every coefficient vector, every event list with any repetitions, scores, C, k, sizes',
  'A derivative is a limit statement over a continuum; tests compare a few numbers.',
  [SP+':PMF.loss',SP+':PMF.grad_loss'])
p('C30','PMF initial parameters',
  'Initially mu is the mean score, the bias of a user with events is that user\'s mean deviation from mu, the residuals of every item with events sum to zero, and users or items without events start at zero in bias and factors; the other factors are the rows of two normal draws in the order of the internal ids. For implicit feedback mu is the part of the user-item pairs with an event and the biases are the mean counts of events per item and per user.',
  'every non-empty event list and score list or matrix of counts, every rng output',
  'Universal over data.',
  [SP+':PMF._init_coef',IF+':LogisticPMF._init_coef',IF+':ImplicitLogisticPMF._init_coef'])
p('C31','PMF loss is a regularized sum over events, order-independent and bounded below',
  'loss is half the sum of squared training errors of raw_predict plus C/2 times the squared norm of all parameters except mu; it is nonnegative for C >= 0; loss and gradient do not change when the events are reordered.',
  'every coefficient vector, event list, permutation of the events',
  'Universal over permutations.',
  [SP+':PMF.loss',SP+':PMF.grad_loss',SP+':PMF.raw_predict'])
p('C32','Unknown objects fall back to the known biases',
  'For PMF and both logistic models the score of an unknown user and a known item is (the link of) mu plus the item bias, of a known user and an unknown item mu plus the user bias, and of two unknown objects mu.',
  'every optimizer result, every known user/item, every unknown external id',
  'Universal over models and ids.',
  [SP+':PMF.fit',SP+':PMF.raw_predict',IF+':LogisticPMF.fit',IF+':ImplicitLogisticPMF.fit'])
p('C33','At a stationary point the training mean is reproduced',
  'If the optimizer returns a point where grad_loss vanishes, the mean PMF prediction over the training events equals the mean training score; for the logistic model the mean predicted probability equals the fraction of positive events.',
  'every stationary coefficient vector, every event list',
  'Universal over optimizer results.',
  [SP+':PMF.grad_loss',IF+':LogisticPMF.grad_loss'])
# ---------------------------------------------------------------- logistic
p('C34','safe_sigmoid range, monotonicity and symmetry',
  'In exact arithmetic safe_sigmoid is monotone, satisfies safe_sigmoid(-x) = 1 - safe_sigmoid(x), and stays within [1e-15, 1-1e-15] for every real x, so log(s) and log(1-s) are always defined.',
  'every real x',
  'Continuum.',
  [UM+':safe_sigmoid'])
p('C35','LogisticPMF.grad_loss is the gradient of LogisticPMF.loss',
  'In exact arithmetic grad_loss is the derivative of loss at every coefficient vector.',
  'every coefficient vector, event list, binary score list, C, k, sizes',
  'Limit statement over a continuum; the failing region (some event beyond the clipping bound) is far from the tested points.',
  [IF+':LogisticPMF.loss',IF+':LogisticPMF.grad_loss'])
p('C36','ImplicitLogisticPMF.grad_loss is the gradient of its loss',
  'As C35 for the implicit model and any nonnegative integer event matrix.',
  'every coefficient vector, event matrix, C, k, sizes',
  'Limit statement over a continuum.',
  [IF+':ImplicitLogisticPMF.loss',IF+':ImplicitLogisticPMF.grad_loss'])
p('C37','The implicit model is the explicit model on the completed matrix',
  'On a 0/1 event matrix the loss and the gradient of ImplicitLogisticPMF equal those of LogisticPMF on the list of all user-item pairs scored by the matrix.',
  'every coefficient vector, every 0/1 matrix of every size',
  'Universal over matrices.',
  [IF+':ImplicitLogisticPMF.loss',IF+':LogisticPMF.loss'])
p('C38','The implicit event matrix is binary',
  'get_event_array returns a users x items matrix whose entry is 1 if the pair occurs in the training events and 0 otherwise.',
  'every loaded container (repeated events included), every event_index accepted by fit',
  'Needs a repeated event or a non-default index.',
  [IB+':BaseImplicitItemFinder.get_event_array'])
p('C39','Logistic losses are nonnegative and predictions are probabilities',
  'For binary scores and C >= 0 the LogisticPMF loss is nonnegative (also for the implicit model on 0/1 matrices), and every prediction is a probability strictly between 0 and 1.',
  'every coefficient vector, event list, request',
  'Continuum.',
  [IF+':LogisticPMF.loss',IF+':LogisticPMF.raw_predict',IF+':ImplicitLogisticPMF.loss'])
# ---------------------------------------------------------------- pLSA
p('C40','pLSA parameters are probability distributions',
  'For alpha > 0 and k >= 1, after every number of EM steps Pr[Z], Pr[X|Z], Pr[Y|Z], Pr[R|Z] are positive and sum to one, and each E-step posterior over Z is a positive distribution.',
  'every non-empty event list, every initial responsibilities, every number of EM iterations',
  'Invariant over all iterations and data.',
  [PL+':MultinomialPLSA.maximization_step',PL+':MultinomialPLSA.fit'])
p('C41','EM never decreases the smoothed likelihood',
  'Each EM iteration of pLSA does not decrease the log-likelihood of the training events plus alpha times the sum of the logarithms of all parameters (the Laplace prior).',
  'every non-empty event list, alpha > 0, k >= 1, every parameter value reached, every iteration',
  'An inequality over a continuum and all iterations.',
  [PL+':MultinomialPLSA.fit',PL+':MultinomialPLSA.maximization_step',PL+':MultinomialPLSA.loss'])
p('C42','The reported pLSA loss never increases',
  'The loss reported by pLSA (negative mean log-likelihood) does not increase from one EM iteration to the next.',
  'every non-empty event list, alpha >= 0, k >= 1, every iteration',
  'An inequality over a continuum and all iterations.',
  [PL+':MultinomialPLSA.fit',PL+':MultinomialPLSA.loss'])
p('C43','pLSA predictions stay inside the score domain',
  'With use_expectation, the prediction lies between the smallest and the largest score level; without it, it is one of the score levels, the first of maximal posterior probability. Both hold also for unknown users and items.',
  'every fitted model, every request including unknown objects',
  'Continuum of models.',
  [PL+':MultinomialPLSA.raw_predict'])
p('C44','pLSA treats unknown objects by marginalization',
  'The score distribution used for an unknown user and a known item is the conditional Pr[R|Y] of the fitted joint distribution, i.e. the user is summed out; likewise for unknown items, and for two unknown objects it is Pr[R].',
  'every fitted model, every item and score level',
  'Universal over models.',
  [PL+':MultinomialPLSA.fit',PL+':MultinomialPLSA.raw_predict'])
p('C45','pLSA iteration count and status',
  'n_iterations is the number of EM steps performed and is at most maxiter; success is reported exactly when the tolerance test stopped the loop.',
  'every maxiter, tolerance and loss sequence',
  'Boundary cases of a loop over all loss sequences.',
  [PL+':MultinomialPLSA.fit',UB+':get_fit_status_message'])
# ---------------------------------------------------------------- splitters
p('C46','InterlacedKFold partitions the samples',
  'For 2 <= n_splits <= n_samples there are exactly n_splits folds; fold f tests exactly the indices i with i mod n_splits = f and trains on the others; test-set sizes differ by at most one; other arguments raise ValueError.',
  'every n_samples and n_splits',
  'Universal over sizes.',
  [MS+':InterlacedKFold'])
p('C47','KFoldWithinGroups partitions the samples within groups',
  'When every group has at least n_splits members, there are n_splits folds, every sample is tested in exactly one fold and trained on in all others, and within each group the test counts of any two folds differ by at most one (with or without shuffling).',
  'every group labelling, n_splits, shuffle outcome',
  'Universal over labellings and permutations.',
  [MS+':KFoldWithinGroups'])
p('C48','KFoldWithinGroups rejects exactly the impossible requests',
  'ValueError is raised for n_splits <= 1, for n_splits > n_samples and when some group has fewer than n_splits members, and otherwise never.',
  'every labelling and n_splits',
  'Universal over labellings.',
  [MS+':KFoldWithinGroups'])
p('C49','ShuffleSplitWithinGroups tests the requested share of each group',
  'In every fold train and test are disjoint and cover all samples, and each group contributes exactly the number of test samples that test_size prescribes for its size; n_splits folds are produced.',
  'every labelling, test size (count or fraction), rng behaviour, fold',
  'Universal over rng outcomes.',
  [MS+':ShuffleSplitWithinGroups'])
p('C50','ShuffleSplitWithinGroups honours train_size',
  'When train_size and test_size are both given, each group contributes exactly train_size samples to the training set.',
  'every labelling, train_size, test_size, rng behaviour',
  'No test uses both arguments; holds or fails for all of them.',
  [MS+':ShuffleSplitWithinGroups'])
# ---------------------------------------------------------------- metrics
p('C51','Error metrics are consistent',
  'mean absolute error and mean squared error are nonnegative, vanish exactly when prediction equals truth, are symmetric; rmse squared is the mean squared error; MAE <= RMSE; the squared standard deviation is the mean of squares minus the square of the mean; unequal lengths raise ValueError.',
  'every pair of non-empty finite score lists (exact arithmetic); symmetry and errors for all lists',
  'Continuum.',
  [MR+':mean_absolute_error',MR+':mean_squared_error'])
p('C52','Score histograms count every score once',
  'The histogram has one bin per reported score level, its counts sum to the number of samples, bin i counts exactly the samples digitized to i, and the density of a non-empty sample sums to one.',
  'every score domain with positive stride, every finite sample list',
  'Continuum of samples and domains.',
  [MR+':score_histogram',MB+':generate_score_bins',MP+':score_predictor_statistics'])
p('C53','score_histogram accepts an integer number of bins',
  'score_histogram(x, score_domain=n) with an integer n divides the range of x into n bins, as documented.',
  'every integer n >= 1, every sample list',
  'Holds or fails for all integers; no test passes one.',
  [MR+':score_histogram'])
p('C54','Gamma-prior variance is positive',
  'For a, b > 0 variance_with_gamma_prior is strictly positive, equals (n*var + 2b)/(n + 2a) over the finite data, ignores non-finite data, is invariant under shifts, and raises ValueError when no finite datum exists.',
  'every data list containing finite and non-finite values, a, b > 0 (exact arithmetic)',
  'Continuum; the fallback branch must be unreachable.',
  [MR+':variance_with_gamma_prior'])
p('C55','statistics_mean averages over folds',
  'statistics_mean(fun, d1, ..., dm) on dictionaries with the same keys returns the mean over the keys k of fun(d1[k], ..., dm[k]), independent of insertion order; on lists it averages over positions.',
  'every function, every list of dictionaries or lists',
  'Universal over inputs; the list case is not tested.',
  [MB+':statistics_mean'])
p('C56','is_binary_score decides binarity',
  'is_binary_score(s) is true exactly when s is non-empty and contains only 0 and 1; with allow_uniform=False exactly when it contains only 0 and 1 and both occur.',
  'every score array',
  'Universal over arrays.',
  [UB+':is_binary_score'])
p('C57','json_decodable produces plain trees',
  'After json_decodable(x) on a dict or list every leaf is a plain bool, int, float, complex or string and every inner node a dict or list; keys, lengths and nesting of dicts and lists are kept; plain values are unchanged; calling it again changes nothing.',
  'every nested container of Python, numpy and other values',
  'Unbounded nesting.',
  [UE+':json_decodable'])
p('C58','json_decodable keeps booleans booleans',
  'A truth value stored in the results, whether Python bool or numpy bool_, is a JSON boolean after json_decodable.',
  'every nested container with boolean leaves',
  'Depends on the leaf type at any depth.',
  [UE+':json_decodable'])
p('C59','Item-finder statistics report AUC exactly when it is defined',
  'item_finder_statistics raises ValueError when the true scores are not binary, and otherwise reports an AUC exactly when both classes occur.',
  'every pair of score lists',
  'Universal over inputs.',
  [MI+':item_finder_statistics',MI+':item_finder_report'])
# ---------------------------------------------------------------- scripts
p('C60','Running folds separately and merging equals one full run',
  'With a fixed integer seed, running cross validation once per fold (--fold-no) and merging the outputs with the merge script gives the same per-fold training results, test results and predictions as one full cross validation run, whatever the order in which the files are merged.',
  'every data set, number of folds, recommender (as a function of data and seed), merge order, rng',
  'Universal over rng streams, merge orders and models.',
  [XU+':cv_test',XM+':first_fold',XM+':rest_fold',XM+':do_task'])
p('C61','Cross validation never tests on training events',
  'In every fold of cv_test the training container is made of exactly the events outside the test mask, the events, true scores, predictions and event features stored for the fold are those of the test mask in the same order, and every prediction is made by a model fitted on the training part of that fold only.',
  'every data set, rng, fold, recommender',
  'Universal over folds and rng.',
  [XU+':cv_test'])
p('C62','Statistics pair every prediction with its own true score',
  'stats_recsys computes its statistics on y_true and y_pred arrays whose i-th entries belong to the same event, for hold-out results, full cross-validation results and results merged from any sequence of fold files.',
  'every merge history',
  'Ordering bugs depend on the merge history.',
  [XS+':do_task',XM+':rest_fold'])
p('C63','Merging keeps every fold of every input file',
  'The merged file contains, for every input file, every fold stored in it.',
  'every sequence of result files with any number of folds each',
  'Only multi-fold inputs show it.',
  [XM+':rest_fold'])
p('C64','Hold-out output records the test file it used',
  'After a hold-out run the output names the training file and the test file that were read, and the test section\'s end_time is the time at which the test ended.',
  'every pair of files and clock readings',
  'Holds or fails for all inputs; scripts are untested.',
  [XU+':holdout_test',XU+':testing'])
p('C65','Hold-out test scores are binarized with the training threshold',
  'In the item-finder script the test file is binarized with the same threshold as the training file, also when the domain is estimated automatically.',
  'every pair of training and test files',
  'Universal over files.',
  [XF+':load_data',XU+':holdout_test'])
# ---------------------------------------------------------------- loading
p('C66','Event files load losslessly',
  'Writing integer events (and scores) as tab separated lines and loading the file gives a container whose external events (and scores) are the written ones, in order; comment lines are skipped.',
  'every list of events of any length, every layout',
  'Universal over files; boundary at one line.',
  [LB+':load_event',LB+':load_event_with_score'])
p('C67','Sushi converter',
  'The sushi score converter emits exactly one line (user, item, rating) for each nonnegative entry of the rating matrix, in row-major order, so the matrix can be rebuilt from the emitted events.',
  'every rating matrix with non-empty rows',
  'Universal over matrices.',
  ['data/sushi3.py'])
p('C68','Mini-dataset converter',
  'The mini converter keeps exactly the non-comment lines whose user and item ids are both at most 10, in order and unchanged.',
  'every input file',
  'Universal over files.',
  ['data/movielens_mini.py'])
exec(open(os.path.join(os.path.dirname(__file__), 'more_properties.py')).read()) if os.path.exists(os.path.join(os.path.dirname(__file__), 'more_properties.py')) else None
with open('/verif/properties.jsonl','w') as f:
    for q in P:
        f.write(json.dumps(q)+'\n')
print(len(P))
