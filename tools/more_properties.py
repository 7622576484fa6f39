p('C69','A failing fit is harmless',
  'If fit raises an exception, the predictions of a previously fitted recommender are the same as before the call.',
  'every recommender family, every history of fits, every training container, every event_index',
  'Needs a failing refit after a successful fit, followed by arbitrary requests.',
  [BB+':BaseEventRecommender.fit', IB+':BaseExplicitItemFinder.fit'])
p('C70','Fitting succeeds and trains on exactly the given events',
  'fit of PMF, of LogisticPMF on two-class binary scores, and of MultinomialPLSA on scores over a regular domain, does not raise on loaded data and an event_index of two legal columns, nor does fit of ImplicitLogisticPMF on user-item events with event_index (0, 1); the parameters are what the optimizer returns for the loss and gradient of exactly the loaded events and scores.',
  'every loaded container, event_index of two columns, setting, optimizer and random generator',
  'Needs every container history (loads, filters, binarizations) and every choice of columns.',
  [SP+':PMF.fit', IF+':LogisticPMF.fit', IF+':ImplicitLogisticPMF.fit', PL+':MultinomialPLSA.fit'])
p('C71','force_all_finite rejects values that are not finite',
  'variance_with_gamma_prior(x, force_all_finite=True) raises ValueError whenever x contains NaN or an infinity; for finite data the flag makes no difference.',
  'every data sequence, passed as a list or as a numpy array, a, b > 0',
  'The outcome depends on the container type and on any single entry.',
  [MR+':variance_with_gamma_prior'])
p('C72','Brief report and full statistics of a score predictor agree',
  'For non-empty samples of equal length score_predictor_report and score_predictor_statistics report the same number of samples, mean absolute error, root mean squared error, means and standard deviations, and the histograms are those of score_histogram over the reported levels.',
  'every pair of non-empty finite samples of equal length, every score domain with positive stride',
  'The two functions compute the errors by different libraries; agreement is universal over samples.',
  [MP+':score_predictor_report', MP+':score_predictor_statistics'])
p('C73','json_decodable output can be serialized',
  'After json_decodable(x) on a dict or list, json.dumps(x) does not raise.',
  'every nested container of Python, numpy and other values with any hashable keys',
  'Unbounded nesting, every leaf and key type.',
  ['kamrecsys/utils/kamexputils.py:json_decodable'])
DB='kamrecsys/datasets/base.py'; DM='kamrecsys/datasets/movielens.py'
p('C74','Malformed data files are rejected',
  'A loader raises an exception when a line of its file has another number of fields than the others, has too few fields, or has a field that is not a value of its column.',
  'every text of an event or feature file with any comments, blank lines and line ends',
  'Any line may be malformed in any way.',
  [DB+':load_event', DB+':load_event_with_score', DM+':load_movielens100k'])
p('C75','Converting and loading MovieLens 100k loses nothing',
  'For the original files of any ratings, users and movies the conversion scripts succeed, and load_movielens100k of the converted files gives exactly these ratings (with their times, if asked for), the score domain 1 to 5, and the features of every user and movie that is rated; a rating of a user or movie without a record is an IndexError.',
  'every list of ratings, users and movies, every ending of lines',
  'Two programs and three files; every date, title, genre vector and occupation.',
  ['data/movielens100k.py', DM+':load_movielens100k'])
p('C76','The mini data set is the part of MovieLens 100k with ids at most 10',
  'Converting MovieLens 100k, running the mini script and loading gives exactly the ratings whose user and item ids are at most 10, in the original order and with the same features.',
  'every list of ratings, users and movies',
  'Selection over arbitrary ids after text conversion.',
  ['data/movielens_mini.py', DM+':load_movielens_mini'])
p('C77','Converting and loading MovieLens 1m loses nothing',
  'For the original files of any ratings, users and movies the conversion scripts succeed, and load_movielens1m gives exactly the ratings, the age groups, occupations and zip codes of the users, and the titles, years and genre sets of the movies.',
  'every list of ratings, users and movies, every ending of lines',
  'Multi-character separators, dictionaries of codes and a repair of one title.',
  ['data/movielens1m.py', DM+':load_movielens1m'])
p('C78','Converting and loading Flixster ratings loses nothing',
  'For a file of any ratings the conversion script succeeds and load_flixster_rating gives exactly the users, items and scores.',
  'every list of ratings with decimal scores of any length',
  'All decimals, line ends and further fields.',
  ['data/flixster.py', 'kamrecsys/datasets/flixster.py:load_flixster_rating'])
p('C79','Converting and loading the sushi ratings keeps users, items and scores together',
  'For every rating matrix, user file and item file, conversion and load_sushi3b_score give exactly the nonnegative entries as events, each with the features of the user in the same line of the user file and of the sushi whose id is the column.',
  'every matrix, every user and item file',
  'User ids are line numbers in two different files; item ids are columns in one file and fields in another.',
  ['data/sushi3.py', 'kamrecsys/datasets/sushi3.py:load_sushi3b_score'])
p('C80','The conversion scripts accept exactly the lines in their format',
  'Conversion of a user or item file of MovieLens succeeds if and only if every line has all the fields it needs, with a known gender, occupation, age group and genres, a title that ends in a year (1m), and a date that is a day, a month and a year whenever it has two hyphens (100k).',
  'every text made of lines of fields',
  'Equivalence over all texts.',
  ['data/movielens100k.py', 'data/movielens1m.py'])
p('C81','The sample with named users and items is loaded without loss',
  'load_pci_sample gives exactly the names of users and items and the scores in the file.',
  'every file of ratings by names',
  'Arbitrary names and scores.',
  ['kamrecsys/datasets/others.py:load_pci_sample'])
PMFF = 'kamrecsys/score_predictor/matrix_factorization.py'
IMFF = 'kamrecsys/item_finder/matrix_factorization.py'
p('C82','Adding a constant to all scores adds it to all predictions',
  'If t is added to every training score, fitting the matrix factorization predictor stores the same parameters with the global bias raised by t, reports the same results, and predict answers every request with t added; shifted minima of the loss are exactly minima of the shifted loss.',
  'every data set, every t, every optimizer that moves with the starting point when the loss does, every request',
  'Translation of an optimization over all data and all requests.',
  [PMFF+':PMF.fit', PMFF+':PMF.loss', PMFF+':PMF.grad_loss', PMFF+':PMF.raw_predict'])
p('C83','Rotating the latent factors changes nothing a user can see',
  'Rotating all user and item factors by one orthogonal matrix leaves the losses of all three models and all predictions unchanged, and rotates the gradient.',
  'every orthogonal matrix, coefficient vector and data set',
  'Ranges over all orthogonal matrices.',
  [PMFF+':PMF', IMFF+':LogisticPMF', IMFF+':ImplicitLogisticPMF'])
p('C84','Matrix factorization does not depend on the numbering of users and items, nor on which is which',
  'Renumbering users and items in the events and coefficients leaves loss and predictions (also for unknown users and items) unchanged and renumbers the gradient; so does exchanging users and items.',
  'every permutation of users and items, every coefficient vector and data set',
  'All permutations.',
  [PMFF+':PMF', IMFF+':LogisticPMF', IMFF+':ImplicitLogisticPMF'])
p('C85','Repeating all events scales the loss',
  'n copies of the events with the regularization parameter multiplied by n give n times the loss and n times the gradient.',
  'every event list, n, regularization parameter and coefficient vector',
  'All numbers of copies.',
  [PMFF+':PMF.loss', PMFF+':PMF.grad_loss', IMFF+':LogisticPMF'])
p('C86','A best coefficient vector exists',
  'For a positive regularization parameter the loss of each of the three models attains its minimum, so the optimization has a target.',
  'every event list (scores 0 or 1 for the logistic models) and positive regularization parameter',
  'Existence of a minimum of a nonconvex function.',
  [PMFF+':PMF.loss', IMFF+':LogisticPMF', IMFF+':ImplicitLogisticPMF'])
p('C87','Users and items without events are treated as unknown ones, and the mean is reproduced',
  'At a best coefficient vector every known user or item without training events gets the predictions of an unknown one; predictions of training events have the mean of the scores, the reported gradient is zero and the loss is at most that of any constant.',
  'every event list, positive regularization parameter, best coefficient vector',
  'All minima of all data.',
  [PMFF+':PMF.loss', PMFF+':PMF.raw_predict', IMFF+':LogisticPMF'])
p('C88','A larger regularization parameter gives smaller coefficients and a worse fit',
  'Between best coefficient vectors for two regularization parameters, the larger parameter has the smaller or equal sum of squares and the larger or equal unregularized loss.',
  'every data set and pair of parameters',
  'Compares optimizations over all data.',
  [PMFF+':PMF.loss', IMFF+':LogisticPMF', IMFF+':ImplicitLogisticPMF'])
p('C89','More latent factors never fit worse',
  'Every coefficient vector has one with more factors and the same losses and predictions, hence the best loss does not increase with k.',
  'every k, number of further factors, coefficient vector and data set',
  'All dimensions.',
  [PMFF+':PMF', IMFF+':LogisticPMF', IMFF+':ImplicitLogisticPMF'])
TM = 'kamrecsys/score_predictor/topic_model.py'
p('C90','Training of the topic model stops by itself',
  'For a positive tolerance, fit stops by the tolerance test and reports success whenever maxiter is large enough, and then parameters and number of iterations do not depend on maxiter. The only exception are data that are constant (one kind of event, with alpha = 0 or only one user, item and level): for these fit never reports success.',
  'every data set with an event, every initialization, alpha >= 0, tol > 0 and maxiter',
  'Liveness of an iteration with no bound on the number of steps.',
  [TM+':MultinomialPLSA.fit', TM+':MultinomialPLSA.maximization_step', TM+':MultinomialPLSA.loss'])
p('C91','The topic model does not depend on the numbering of latent classes, events, users and items',
  'Renumbering the latent classes, the events (with their initial responsibilities), the users and items, or exchanging users and items renumbers the parameters after every number of EM steps and leaves the loss and the answers about the same objects unchanged.',
  'every permutation, data set, initialization, alpha and number of steps',
  'All permutations and numbers of steps.',
  [TM+':MultinomialPLSA.fit', TM+':MultinomialPLSA.raw_predict'])
p('C92','One latent class gives the same answer to everyone',
  'With k = 1 EM steps change nothing, and every request gets the same answer, with use_expectation the mean level under the smoothed frequencies of the levels.',
  'every data set, alpha >= 0, number of steps and request',
  'All data and requests.',
  [TM+':MultinomialPLSA.fit', TM+':MultinomialPLSA.raw_predict'])
SPL = 'kamrecsys/model_selection/split.py'
p('C93','ShuffleSplitWithinGroups: fixed without shuffling, unrestricted with it',
  'Without shuffling all folds are equal and test in each group the samples right behind the training samples in data order, whatever random_state. With shuffling, every sequence of test sets having the prescribed number of samples of each group is the result for some random numbers: folds are drawn independently and no admissible split is excluded.',
  'every group labelling, size arguments that fit, number of folds, generator and admissible sequence of test sets',
  'All random sequences and data.',
  [SPL+':ShuffleSplitWithinGroups'])
p('C94','KFoldWithinGroups: consecutive blocks without shuffling, every balanced partition with it',
  'Without shuffling fold f tests in each group the f-th block of consecutive samples, the first blocks being one larger if the sizes differ. With shuffling every partition with these sizes is the result for some random numbers.',
  'every group labelling, number of folds, generator and admissible partition',
  'All random sequences and data.',
  [SPL+':KFoldWithinGroups'])
p('C95','Names of groups do not matter to the splitters',
  'Renaming the groups without changing their order leaves every fold of KFoldWithinGroups and ShuffleSplitWithinGroups unchanged, for the same random numbers.',
  'every group labelling, order-preserving renaming, size arguments, number of folds and generator',
  'All labellings and renamings.',
  [SPL+':KFoldWithinGroups', SPL+':ShuffleSplitWithinGroups'])
MET = 'kamrecsys/metrics'
p('C96','Statistics do not depend on the order of the predictions',
  'Every statistic of the metrics modules and both statistics functions give the same result, or fail alike, when the pairs of true and predicted values come in another order.',
  'every list of pairs, also with non-finite values, every permutation of it and every score domain',
  'All permutations of all inputs.',
  [MET+'/real.py:mean_absolute_error', MET+'/real.py:mean_squared_error', MET+'/real.py:score_histogram', MET+'/real.py:variance_with_gamma_prior', MET+'/score_predictor.py:score_predictor_statistics', MET+'/item_finder.py:item_finder_statistics'])
p('C97','The statistics script reports the statistics of the stored events, however the file came about',
  'stats_recsys succeeds on every result file with a fold (item finders: with a test event) and reports number, mean absolute error and root mean squared error, means, standard deviations and histograms (counts and densities per score level) over the stored events, each with its true score in the data and the score a fitted recommender predicted for it; AUC is reported exactly when both classes occur. It adds only the entry statistics and removes only the predictions, unless --keepdata. Running the folds one by one and merging them in any order gives the same statistics as the full cross validation.',
  'every result file made by runs and merges, every recommender, seed and order of merging',
  'All histories of files, all data and recommenders.',
  ['scripts/stats_recsys.py:do_task', 'scripts/exp_recsys_fold_merge.py:do_task', 'scripts/exp_recsys_util.py:do_task'])
p('C98','Experiments with a seed can be repeated',
  'Two runs of an experiment script with equal arguments, files and --rseed fail with the same exception or write files equal up to the times. With a seed, a fold of a cross validation is the same whatever the number of folds and whether the other folds run. The recorded score domain, given as --domain, reproduces the file of a run that estimated it.',
  'every data file, recommender, seed, number of folds, clock and entropy',
  'All data, recommenders and states of the generators.',
  ['scripts/exp_recsys_util.py:do_task', 'scripts/exp_recsys_util.py:cv_test', 'scripts/exp_recsys_sp.py:load_data', 'scripts/exp_recsys_if.py:load_data'])
EXP = ['scripts/exp_recsys_sp.py:command_line_parser', 'scripts/exp_recsys_sp.py:init_info', 'scripts/exp_recsys_if.py:command_line_parser', 'scripts/exp_recsys_if.py:init_info']
p('C99','The command line means what its documentation says',
  'The experiment scripts accept a command line exactly when no two excluding options occur, method and validation are among the choices and at most two files are given by position. Every option then has the value of its last occurrence, or its documented default; -i and -o prevail over positional files, these over the standard streams.',
  'every list of options and positional arguments',
  'All combinations and orders of options.',
  EXP)
p('C100','Options reach the recommender that is trained, and the result file records them',
  'A run trains a recommender of the class of the method with exactly the regularization, number of factors, smoothing, tolerance, iteration limit and seed of the command line, on data read with the given timestamp and domain settings. The result file records these options, and no others, under model/options, and class, scheme and timestamps.',
  'every accepted command line, data file and seed',
  'All command lines.',
  EXP+['scripts/exp_recsys_util.py:do_task', PMFF+':PMF.__init__', IMFF+':LogisticPMF.__init__', TM+':MultinomialPLSA.__init__'])
p('C101','Options that do not concern a run do not change it',
  'Verbosity, alpha for matrix factorization, C for the topic model, the test file of a cross validation and the number of folds of a hold-out test leave the written result unchanged.',
  'every command line and data file',
  'All command lines and executions.',
  EXP+['scripts/exp_recsys_util.py:do_task'])
p('C102','One command line can be distributed over machines, and its statistics are those of its predictions',
  'A cross validation with --rseed that succeeds can instead be run by calling the same command line once for every fold with --fold-no, at any time, on any machine, in any order and with any output file; merging the files gives the same folds, data, settings and statistics. Unless a fold has a single test event or the given domain has a negative stride, stats_recsys reports the number, errors, means, standard deviations and, for the levels of the recorded score domain, histograms of the predictions that a recommender with the settings of the command line made.',
  'every command line, data file, seed, clock, order of merging and score domain',
  'All command lines, data, schedules of the folds and machines.',
  EXP+['scripts/exp_recsys_fold_merge.py:do_task', 'scripts/stats_recsys.py:do_task', 'scripts/exp_recsys_util.py:do_task'])
p('C103','Which runs of the experiment scripts succeed is known from the command line and the data files',
  'A cross validation of the topic models succeeds exactly when --rseed and --fold-no are valid, the file can be read, the given domain is regular or is 0 0 0 and the file has two different scores, and, if there are folds, -k and -a are positive and the file has events and no user with a single event. A hold-out test needs a test file with events instead. Matrix factorization needs, with -k not negative and any domain of nonzero stride, two users and two items to train on; logistic matrix factorization, in addition, scores on both sides of the middle of the domain. A cross validation that is to succeed whatever the random numbers are needs, besides two users, for each item so many events of one user with other items (and of each side so many scores of one user) that no test part can hold them all.',
  'every command line, data file, seed, generator and optimizer',
  'All data and command lines, all splits that can be drawn.',
  EXP+['scripts/exp_recsys_util.py:do_task', 'scripts/exp_recsys_util.py:cv_test', 'scripts/exp_recsys_util.py:holdout_test', PMFF+':PMF.fit', IMFF+':LogisticPMF.fit', TM+':MultinomialPLSA.fit'])
p('C104','Which result files have statistics is known from the command line and the data files',
  'stats_recsys computes statistics from the file of a successful run exactly when, in a cross validation, the number of folds is positive and the data is more than five events or of more than one user, and, in a hold-out test, the test file has more than one event.',
  'every command line and data file',
  'All data and command lines, all splits that can be drawn.',
  EXP+['scripts/stats_recsys.py:do_task', 'scripts/exp_recsys_util.py:cv_test', 'scripts/exp_recsys_util.py:holdout_test'])
p('C105','Predictions in a result file are scores',
  'The predictions of a topic model that an experiment script writes lie in the score domain it records, and with plsamm each is one of the score levels; those of logistic matrix factorization are probabilities strictly between 0 and 1.',
  'every command line, data file, seed, generator, optimizer, fold and test event, known or unknown objects',
  'All data, fitted models and requests.',
  ['scripts/exp_recsys_sp.py:main', 'scripts/exp_recsys_if.py:main', 'scripts/exp_recsys_util.py:do_task', TM+':MultinomialPLSA.raw_predict', IMFF+':LogisticPMF.raw_predict'])
p('C106','From text files to result files',
  'An experiment script run on a text file of events (comments, blank lines, either line end; in particular the output of the conversion scripts for MovieLens, the small data set, Flixster and sushi) trains on and predicts for exactly the lines of the file: every fold splits the lines, and the result file holds line numbers, ids, scores and times of the test lines in order, with the predictions made for them. A cross validation of matrix factorization succeeds, whatever the random numbers are, exactly when the options are valid, the score domain can be determined, the file has two users, every user has two events and, for each item, some user has so many events with other items that no test part can hold them all; for the topic models, logistic matrix factorization and hold-out tests there are such conditions as well; missing files, files of one event and files without the column of times asked for are refused.',
  'every text file of events, every original data file, all command lines, seeds, generators and optimizers',
  'All texts and data sets, composed with all runs.',
  ['scripts/exp_recsys_sp.py:load_data', 'scripts/exp_recsys_if.py:load_data', 'kamrecsys/datasets/base.py:load_event_with_score', 'scripts/exp_recsys_util.py:do_task', 'data/movielens100k.py', 'data/movielens1m.py', 'data/movielens_mini.py', 'data/flixster.py', 'data/sushi3.py'])
p('C107','External ids matter only through their order',
  'When the objects of every type are renamed so that their order is kept (users and items possibly by different functions), loading, filtering and attaching features give the same internal ids, counts and arrays, converted events are the same up to the names, training gives the same parameters and results, predictions for renamed events are the same, and so are the splits within groups. A renaming that does not keep the order may change internal ids.',
  'all strictly increasing renamings per object type, all containers, events, scores, learners, generators, requests, groups; exceptions included',
  'All renamings and all inputs.',
  ['kamrecsys/data/base.py:BaseData._gen_id', 'kamrecsys/data/event.py:EventData.set_event', 'kamrecsys/data/event.py:EventData.filter_event', 'kamrecsys/base/base.py:BaseEventRecommender.fit', 'kamrecsys/base/base.py:BaseEventRecommender.predict', SPL+':ShuffleSplitWithinGroups', SPL+':KFoldWithinGroups'])
p('C108','Result files do not depend on the names of users and items',
  'An experiment script run on files in which users and items are renamed in an order-preserving way ends the same way and writes the same result file: scores, predictions, masks, statistics of training, counts and score domain are equal, and ids appear with their new names.',
  'all command lines, files, seeds, generators, optimizers and strictly increasing renamings of users and of items',
  'All renamings of all data sets, for whole runs.',
  EXP+['scripts/exp_recsys_util.py:do_task', 'scripts/exp_recsys_util.py:cv_test', 'scripts/exp_recsys_util.py:holdout_test'])
MAINS = ['scripts/exp_recsys_sp.py:main', 'scripts/exp_recsys_if.py:main', 'scripts/exp_recsys_fold_merge.py:main', 'scripts/stats_recsys.py:main']
p('C109','A script changes only the files it is told to write',
  'However a run of a script ends, files other than those named for writing (or standard output if none is named) are as before. A run in order ends successfully exactly when its task can be done, and then the output file has exactly the result; options win over positional arguments and later options over earlier ones; further files named for writing are left empty.',
  'every command line of the four scripts, every state of the files, seed, clock and environment',
  'All file systems and command lines.',
  MAINS+['scripts/exp_recsys_sp.py:command_line_parser', 'scripts/exp_recsys_fold_merge.py:do_task', 'scripts/stats_recsys.py:do_task'])
p('C110','A run that fails or is stopped does not destroy earlier results',
  'Whenever a run of a script is refused, raises an exception or is stopped, the output file has its earlier contents or the complete new result.',
  'every command line, state of the files and moment at which a run is stopped',
  'All crash points.',
  MAINS+['scripts/exp_recsys_sp.py:command_line_parser', 'scripts/stats_recsys.py:command_line_parser'])
p('C111','Runs with different output files can be made at the same time',
  'When no command writes a file that another one reads or writes, the commands can be run at the same time: however their steps are mixed, each ends as it does alone and leaves the files it leaves alone; they cannot block each other; stopped at any moment, each file is as before, empty, complete, or has a part of the result. Two runs with the same output file can leave the result of either.',
  'any number of commands, all schedules, all states of the files',
  'All interleavings.',
  MAINS)
p('C112','Folds run at the same time, merged, have the statistics of the full run',
  'Take a seeded cross validation that succeeds. Running its folds with --fold-no at the same time, each with its own output file, merging the files in any order and computing the statistics succeeds and gives the data, predictions and statistics of the full run; the input files are not changed.',
  'every command line of both experiment scripts, data file, seed, number of folds, schedule, order of merging, clock and machine',
  'All interleavings of all distributed runs.',
  MAINS+['scripts/exp_recsys_util.py:do_task', 'scripts/exp_recsys_util.py:cv_test', 'scripts/exp_recsys_fold_merge.py:do_task', 'scripts/stats_recsys.py:do_task'])
p('C113','Training starts at the documented point and fit_results_ reports it',
  'After fit on loaded data (for matrix factorization: of at least two users and two items): the coefficients given to the optimizer have the mean score (for implicit feedback the part of the user-item pairs with an event) as mu, mean deviations (mean event counts) as biases, and factors that are the rows of two successive normal draws in the order of the internal ids, with the deviation of the residuals for PMF and 1 for the logistic models; the topic model starts at the smoothed counts of responsibilities drawn event by event, each draw preferring the classes of the level of its event. All draws come from the generator made from random_state. fit_results_ has the loss at this point, the figures the optimizer returned (for the topic model: the loss of the returned parameters and the number of steps), and the true numbers of users, items, events and parameters. As long as no fit got to its training, nothing is learned, both losses in fit_results_ are infinite and the topic model reports 0 iterations.',
  'every loaded container, event_index of two columns, setting, optimizer and random generator',
  'Universal over data and generators.',
  [PMFF+':PMF._init_coef', PMFF+':PMF.fit', IMFF+':LogisticPMF._init_coef', IMFF+':ImplicitLogisticPMF._init_coef', IMFF+':ImplicitLogisticPMF.fit', TM+':MultinomialPLSA._init_params', TM+':MultinomialPLSA.maximization_step', TM+':MultinomialPLSA.fit'])
p('C114','Rounding of machine numbers does not disturb score levels',
  'With binary64 arithmetic a container whose score domain is regular (bounds l and l + m*s, stride s) has m + 1 levels lo, lo + st, ..., hi; each score is digitized to the index of a nearest level, in range; the estimated domain, the number of levels, the bin edges, the levels and the default threshold of binarize_score are what exact arithmetic gives.',
  'every container, event array, score array and regular domain of machine numbers',
  'Rounding depends on every bit of the numbers.',
  ['kamrecsys/data/event_with_score.py:EventWithScoreData.set_event', 'kamrecsys/data/event_with_score.py:EventWithScoreData.digitize_score', 'kamrecsys/data/event_with_score.py:EventWithScoreData.binarize_score', 'kamrecsys/data/event_with_score.py:ScoreUtilMixin.get_score_levels', 'kamrecsys/metrics/base.py:generate_score_bins'])
p('C115','Logistic models never take the logarithm of 0',
  'With binary64 arithmetic, predictions of the logistic models are strictly between 0 and 1 for every latent estimate, infinite ones included, and so is the rounded 1 - prediction; the term of each event in the loss is positive and at most 37, so the loss part of the objective is positive and finite however numpy adds it up; the weight of an event in the gradient has the sign of its error and is less than 1 in size.',
  'every latent estimate, binary score, number of events, order of summation, and expit and log that are accurate to four units in the last place',
  'Universal over machine numbers and orders of summation.',
  ['kamrecsys/utils/kammath.py:safe_sigmoid', IMFF+':LogisticPMF.loss', IMFF+':LogisticPMF.grad_loss', IMFF+':ImplicitLogisticPMF.loss'])
p('C116','A run that has computed its result can write it',
  'The results of the experiment scripts, of merging and of the statistics script are always accepted by json.dumps after json_decodable, so no run is lost when it comes to writing: all leaves are truth values, numbers or strings, found at the same places with the same values; missing values become the string None. What was read from result files is written back unchanged.',
  'every command line, data set, method, outcome of training, set of result files and environment section made of scalars',
  'The tree depends on the data, the options and the results of the optimizer.',
  ['kamrecsys/utils/kamexputils.py:json_decodable', 'scripts/exp_recsys_util.py:do_task', 'scripts/exp_recsys_fold_merge.py:do_task', 'scripts/stats_recsys.py:do_task'])
p('C117','Arrays passed to the library stay the caller\'s',
  'The library never writes into an array the caller passed. Passing an array is the same as passing the list of its values: what the caller writes into the array later does not reach containers, recommenders or predictions.',
  'every program of calls on containers and recommenders, array creations and assignments, in any order',
  'All histories of calls and assignments over shared arrays.',
  ['kamrecsys/data/event_with_score.py:EventWithScoreData.set_event', 'kamrecsys/data/event.py:EventData.set_event', 'kamrecsys/base/base.py:BaseEventRecommender.fit', 'kamrecsys/data/event_with_score.py:ScoreUtilMixin._set_score_info'])
p('C118','Folds are right however they are asked for',
  'Generators made by split may be advanced in any order, mixed with other generators and with other users of the same RandomState. As long as the group labels are not overwritten: KFoldWithinGroups yields n_splits folds that test every sample once with every group spread evenly, all determined by the state of the RandomState at its first next; ShuffleSplitWithinGroups yields n_splits proper folds with the prescribed number of test samples per group; InterlacedKFold yields what the call determined; no generator yields more than get_n_splits() folds, and one that ends without an exception has yielded exactly that many. InterlacedKFold raises at the call of split, the other two at the first next, and a generator that has raised is finished.',
  'every history of making splitters, calls of split and next, draws from RandomState objects, every data size, label array, seed and generator',
  'All interleavings of generators that share a mutable random generator.',
  [SPL+':ShuffleSplitWithinGroups.split', SPL+':ShuffleSplitWithinGroups._iter_test_masks', SPL+':KFoldWithinGroups.split', SPL+':KFoldWithinGroups._iter_test_masks', SPL+':InterlacedKFold.split', SPL+':KFoldWithinGroups.get_n_splits'])
p('C119','The folds of a call of split are fixed by the call',
  'The folds a generator yields are those of the group labels and of the state of the RandomState when split was called, whatever happens before they are asked for.',
  'every history of calls of split and next, draws from RandomState objects and assignments to label arrays',
  'All histories of calls and assignments.',
  [SPL+':ShuffleSplitWithinGroups._iter_test_masks', SPL+':KFoldWithinGroups._iter_test_masks', SPL+':InterlacedKFold.split'])
p('C120','Result files tell about the machine, and only describable machines have runs',
  'The environment section of every result has the system, release, version, machine and processor of the platform, the versions of python, numpy, scipy, sklearn and kamrecsys, the file name of the script without its directory, and the lines the hardware command of the operating system printed (under Darwin without heading and indentation, elsewhere none); never the name of the host. A run on a machine with an unwritable null device, or on Darwin, FreeBSD or Linux where the command cannot be started or prints something that is not UTF-8, ends with an exception whatever the command line and data. Apart from that the machine influences neither outcome nor the rest of the result, and what is recorded can always be written as JSON.',
  'every machine, output of its commands, command line, data set, method and outcome of training',
  'Test machines are a few of all machines; the influence on the result is over all runs.',
  ['kamrecsys/utils/kamexputils.py:get_system_info', 'kamrecsys/utils/kamexputils.py:get_version_info', 'scripts/exp_recsys_util.py:do_task'])
p('C121','The recorded version is the version of the script',
  'The version in the environment section of a result is the one the script that made it prints with --version.',
  'every machine, script, command line and data set',
  'Universal over runs.',
  ['scripts/exp_recsys_util.py:do_task', 'scripts/exp_recsys_sp.py:command_line_parser', 'scripts/exp_recsys_if.py:command_line_parser'])

p("C122", "Selecting events after loading is loading the selected events",
  "A container is loaded with events, with or without scores and event features, and then with any number of tables of object features. Selecting events from it with filter_event gives exactly the container, attribute by attribute, that is obtained by loading only the selected events (with their scores and event features, and the same declared score domain) and the same tables of object features. In one step: set_feature and filter_event commute.",
  "all reachable containers without object features, all regular event arrays, all score lists and event features of matching length, all lists of feature tables for which loading succeeds, all boolean masks and index lists",
  "the two orders go through different code (renumbering of a loaded table, building a new table), and agreement is needed for every event set, every selection (also repeated and negative indices) and every order of feature records",
  ["kamrecsys/data/event.py:EventData.filter_event", "kamrecsys/data/event_with_score.py:EventWithScoreData.filter_event", "kamrecsys/data/base.py:BaseData.set_feature", "kamrecsys/data/event.py:EventData.set_event"])

p("C123", "What overwriting the group labels does to folds not yet asked for",
  "The array of group labels may be overwritten while a generator of a splitter is in use. KFoldWithinGroups settles at its first next, evenly and from the labels of that moment, which positions inside each group are tested in which fold; every fold then tests exactly the samples that have these positions among the labels of the moment it is asked for, and raises IndexError if a group has become too short for one of its positions. ShuffleSplitWithinGroups keeps the groups of its first next; every fold tests the prescribed number of the present members of each of these groups and no other sample, and raises ValueError if the sizes can no longer be met. Every fold that is yielded is a division of all samples.",
  "every history of calls of split and next, draws from RandomState objects and assignments to label arrays, every data size, splitter and generator",
  "All interleavings of assignments and calls; tests leave the labels alone.",
  [SPL+':ShuffleSplitWithinGroups._iter_test_masks', SPL+':KFoldWithinGroups._iter_test_masks'])
p("C124", "What a splitter draws from the RandomState it was given",
  "A call of split draws nothing. The first next of a generator of KFoldWithinGroups shuffles one array per group, of the size of the group, in increasing order of the labels, and later calls of next draw nothing; every fold of ShuffleSplitWithinGroups does the same for its groups; without shuffling nothing is drawn. No call touches any other RandomState; with an integer seed, and for InterlacedKFold, none at all, numpy's global one included.",
  "every history of calls of split and next, draws from RandomState objects and assignments to label arrays, every data size, splitter and generator",
  "All interleavings of users of shared random generators.",
  [SPL+':ShuffleSplitWithinGroups._iter_test_masks', SPL+':KFoldWithinGroups._iter_test_masks', SPL+':InterlacedKFold.split'])

p("C125", "Results are read back as they were written",
  "The text of a result file is read back as the same tree: the same nesting, keys in the same order, the same strings (quotes, control characters and characters beyond ASCII included), integers, floats, booleans, null, nan and infinities. Different trees have different texts. The text is one line of printable ASCII whatever strings are in the tree. This holds for every result of the experiment scripts and of the merge and statistics scripts, and writing what was read from any text and reading it again changes nothing.",
  "every tree whose dictionaries have no key twice, every command line, data set, machine and history of merges and statistics",
  "Escapes, nesting and numbers combine in infinitely many ways.",
  ['scripts/exp_recsys_util.py:do_task', 'scripts/exp_recsys_fold_merge.py:do_task', 'scripts/exp_recsys_fold_merge.py:first_fold', 'scripts/exp_recsys_fold_merge.py:rest_fold', 'scripts/stats_recsys.py:do_task'])
p("C126", "Half a result is never taken for a result",
  "Reading a result file of which only a beginning was written raises ValueError, as does one followed by anything but white space. Hence however many runs of the scripts are mixed and wherever they are stopped, a file that a merge or statistics script can read is as it was before the runs or has the complete text of a result.",
  "every result, every place to cut its text, every set of commands, every schedule and stopping point",
  "All cut positions and all interleavings.",
  ['scripts/exp_recsys_util.py:do_task', 'scripts/exp_recsys_fold_merge.py:do_task', 'scripts/exp_recsys_fold_merge.py:first_fold', 'scripts/exp_recsys_fold_merge.py:rest_fold', 'scripts/stats_recsys.py:do_task'])

SPP, IFP, MGP, STP = ('scripts/exp_recsys_sp.py:command_line_parser', 'scripts/exp_recsys_if.py:command_line_parser', 'scripts/exp_recsys_fold_merge.py:command_line_parser', 'scripts/stats_recsys.py:command_line_parser')
p("C127", "Which command lines the scripts accept, and how they are read",
  "The strings of a command line are accepted and divided among the declared arguments exactly if they follow a grammar: options, one block of file names, and options again, or options and file names with one -- before further file names. An option is -c with its arguments in the following strings, several flags in one string with the last option's argument attached or following, -c=value, a long option or an abbreviation that only one option begins with, or such a one with =value. Strings that begin with a dash are arguments only if they are a negative number without exponent or contain a space, and do not look like an option. Every accepted line has one reading only. argparse raises an exception of its own, without a message, only for a string -c= where -c takes no argument.",
  "every list of strings, every script",
  "Infinitely many command lines; abbreviations and attached arguments interact.",
  [SPP, IFP, MGP, STP])
p("C128", "However an option is spelled, it is the same command",
  "A script called with options in any of their spellings followed by file names does exactly what the command with these options and files does; nor does it matter whether the file names stand before, between or after the options, when the options are accepted and the files to be read exist. The documented options, short and long, do what the documentation says; --help and --version end a script before any file is opened; and a script that leaves a result anywhere was called with strings that are arguments or belong to one of the documented options (or --verbose, or --rseed of stats_recsys.py).",
  "every sequence of options in every spelling, every list of file names, every content of the files",
  "Universal over spellings and orders.",
  [SPP, IFP, MGP, STP, 'scripts/exp_recsys_util.py:do_task'])
p("C129", "Whatever is typed, only files that were named are touched, and one result at most is written",
  "Whatever strings a script is called with, the only files it changes are standard output and files whose names are ends of these strings. In the end every file is as before or empty, except for one that has a complete result if the script ended normally; whenever the script is stopped every file is as before, empty, as it would be in the end, or has a part of that result. A string that abbreviates several options makes the script end before any file is opened.",
  "every list of strings, every script, every content of the files, every stopping point",
  "All inputs a user can type, and all crash points.",
  [SPP, IFP, MGP, STP, 'scripts/exp_recsys_util.py:do_task', 'scripts/exp_recsys_fold_merge.py:do_task', 'scripts/stats_recsys.py:do_task'])
p("C130", "Error metrics are accurate however numpy adds",
  "With binary64 arithmetic and sums formed in any order, the mean absolute error, the mean squared error and its root differ from the exact values by relative errors of at most (n + 4) / 2^52; they are never negative and vanish exactly if prediction and truth are equal; the standard deviations are accurate in comparison with the root mean square of the errors; exchanging truth and prediction, or another order of the events, changes nothing that can be computed.",
  "every sample of at most 2^50 pairs of numbers, every order and grouping of the additions",
  "Rounding errors depend on all data and on the order in which a numpy version adds.",
  ['kamrecsys/metrics/real.py:mean_absolute_error', 'kamrecsys/metrics/real.py:mean_squared_error'])
p("C131", "The gamma-prior variance survives rounding",
  "With binary64 arithmetic variance_with_gamma_prior is positive for all data when a and b are positive, and it equals the exact value (n*var + 2b)/(n + 2a) up to rounding errors of its terms.",
  "every sample, every a, b > 0, every order and grouping of the additions",
  "Cancellation happens for data no test happens to contain.",
  ['kamrecsys/metrics/real.py:variance_with_gamma_prior'])
p("C132", "A fraction of the events is the fraction that was asked for",
  "With binary64 arithmetic ShuffleSplitWithinGroups makes the same splits as in exact arithmetic: a test size a/b selects ceil(a*m/b) of the m events of every group.",
  "every number of events below 2^51, every fraction, every grouping, every state of the random numbers",
  "Whether a rounded product exceeds an integer depends on the exact numbers of events.",
  ['kamrecsys/model_selection/split.py:ShuffleSplitWithinGroups', 'scripts/exp_recsys_util.py:cv_test'])
p("C133", "Predictions of the factorization models are accurate",
  "With binary64 arithmetic and sums formed in any order, the latent estimate of the matrix factorization models differs from the exact one by at most (k + 4) / 2^52 times the sum of the sizes of its terms; for an unknown user and an unknown item it is exactly the learned mean; the predictions of the logistic models differ by at most a quarter of that plus 1e-14.",
  "every set of learned parameters, every request, every order of additions",
  "Universal over real parameters and orders of summation.",
  ['kamrecsys/score_predictor/matrix_factorization.py:raw_predict', 'kamrecsys/item_finder/matrix_factorization.py:raw_predict'])
p("C134", "Predictions of the topic model stay with the levels",
  "With binary64 arithmetic and sums formed in any order, a fitted topic model predicts in expectation mode a value that differs from the exact expectation by a relative error of at most (3k + 3m + 11) / 2^52 (k topics, m levels, none negative) and that leaves the range of the levels by at most (3m + 1) / 2^52 of its ends; in the other mode it predicts a level, and no level is more probable than this one by more than rounding errors.",
  "every set of probabilities, every request for known or unknown users and items, every order of additions",
  "Universal over real parameters and orders of summation.",
  ['kamrecsys/score_predictor/topic_model.py:raw_predict'])
p("C135", "Numbers on the command line",
  "Every integer and every decimal fraction, negative ones included, may be written after an option that takes a number, and the script works with exactly that number. A value of an integer option that is no integer ends the script with a message about the usage, wherever it stands among documented options. A negative number with an exponent, such as -1e-3, is not taken for a value: no result is written.",
  "every integer, every decimal fraction, every other option, every file system",
  "There are infinitely many numbers and command lines.",
  [SPP, IFP, STP])
p("C136", "Conversion scripts and files",
  "A conversion script in data/ changes no file but those it is to make; the original files are never changed. When all the originals are there and have their format, it makes every file completely. When one is missing, or a line cannot be converted, it raises; the files made before are complete, the file it is at has the records of the lines before and at most the beginning of one more (sushi3: the records of the entries before), and the files after it are as they were. Stopped at any point it leaves beginnings of what it would write, and running it again gives what an undisturbed run gives. -h and --help do nothing, wherever they stand.",
  "every content of the original files, every directory, every point at which a script is stopped, every way in which output is buffered",
  "Files, bad lines and crash points are unbounded.",
  ['data/movielens100k.py', 'data/movielens1m.py', 'data/movielens_mini.py', 'data/flixster.py', 'data/sushi3.py'])
p("C137", "Loading what an interrupted conversion left",
  "When the conversion of event data is interrupted at any point, loading the event file it left raises, or gives the events of the original file that come first, in their order, each with its user and its item. For MovieLens 100k and 1m their scores are right too, and at most the time of the last event is not; for Flixster and sushi3 at most the score of the last event is not. (That the file is not complete is not noticed, and a wrong last score is possible.)",
  "every list of ratings, every point at which writing the file ended, every content of the feature files",
  "Files and crash points are unbounded.",
  ['data/movielens100k.py', 'data/movielens1m.py', 'data/flixster.py', 'data/sushi3.py',
   'kamrecsys/datasets/base.py:load_event_with_score', 'kamrecsys/datasets/movielens.py:load_movielens100k',
   'kamrecsys/datasets/movielens.py:load_movielens1m', 'kamrecsys/datasets/flixster.py:load_flixster_rating',
   'kamrecsys/datasets/sushi3.py:load_sushi3b_score'])
p("C138", "Parameters and clones of recommenders",
  "Every recommender lists with get_params exactly the documented parameters of its constructor (C, k, random_state; for the topic model alpha, k, random_state, use_expectation), not the settings of the optimizer. set_params assigns exactly the named parameters and changes nothing else; an unknown name, in particular a setting of the optimizer, raises ValueError after the names before it have been assigned. sklearn.base.clone gives an untrained recommender with the same parameters, its generator a copy in the same state, and changes no other recommender; it always works unless set_params was used with a C that is no float or a k that is no int, when it raises RuntimeError. The clone has the default settings of the optimizer; a recommender with these learns what its clone learns. (False for other settings: clone loses maxiter, tol, method and options.)",
  "every sequence of constructions, set_params, clones and fits, all values of parameters, every learner",
  "Histories and values are unbounded.",
  ['kamrecsys/base/base.py:BaseRecommender', 'kamrecsys/score_predictor/matrix_factorization.py:PMF.__init__',
   'kamrecsys/item_finder/matrix_factorization.py:LogisticPMF.__init__',
   'kamrecsys/item_finder/matrix_factorization.py:ImplicitLogisticPMF.__init__',
   'kamrecsys/score_predictor/topic_model.py:MultinomialPLSA.__init__'])
p("C139", "Training of the topic model with machine arithmetic",
  "Trained with numbers of 53 bits instead of exact ones, for any number of passes and from any initial draw, the topic model always holds positive parameters whose distributions over users, items, levels and topics sum to 1 up to a small relative error that does not grow with the number of passes. Each pass of EM gives what the exact pass gives from the same parameters, up to a relative error of (3 n + 8 k + 2 (users + items + levels) + 30) / 2^52. No parameter gets below alpha / (4 n + 2 (k + users + items + levels) alpha), so that for realistic sizes no multiplication or division underflows, nothing is divided by zero, and predictions of the trained model are accurate (C134).",
  "all data, initial draws, positive alpha, numbers of topics and passes, every order in which numpy may add",
  "The roundings depend on all the data and on the order of summation, and accumulate over unboundedly many passes.",
  ['kamrecsys/score_predictor/topic_model.py:MultinomialPLSA.fit', 'kamrecsys/score_predictor/topic_model.py:MultinomialPLSA._init_params',
   'kamrecsys/score_predictor/topic_model.py:MultinomialPLSA.maximization_step'])
p("C140", "What the area under the curve means",
  "The entry 'area under the curve' in the statistics of an item finder is, whenever both classes occur, the share of all pairs of a relevant and an irrelevant event in which the relevant one got the higher prediction, ties counting one half. It lies between 0 and 1, is 1 exactly when every relevant event is predicted higher than every irrelevant one, is 1/2 when all predictions are equal, depends only on the order of the predictions (not on their scale nor on the order of the events), and becomes its complement when the order is reversed. Neither function raises for binary true scores with both classes.",
  "all binary true scores and predictions of equal length, with any ties",
  "Points of the curve with equal scores are joined and points on a line are dropped; whether the area stays right depends on all ties of the data.",
  ['kamrecsys/metrics/item_finder.py:item_finder_report', 'kamrecsys/metrics/item_finder.py:item_finder_statistics',
   'kamrecsys/utils/base.py:is_binary_score'])
p("C141", "Copies and pickles of containers and recommenders",
  "A container copied with copy.deepcopy or through a pickle reports what its source reports, and in every program neither changes when a call is made on the other. A container copied with copy.copy, and its source, change each other only by set_event and set_feature (which do reach through: they overwrite the id tables the other one uses). A recommender copied deeply or through a pickle predicts forever what the original predicted at that moment unless it is fitted itself, even if the training container is loaded with other events, which changes the predictions of the original.",
  "all programs of library calls, copies and pickles, any number of containers and recommenders",
  "Which arrays two objects share depends on the whole history of the program.",
  ['kamrecsys/data/base.py:BaseData', 'kamrecsys/data/event.py:EventData.set_event', 'kamrecsys/data/event_with_score.py:EventWithScoreData.set_event',
   'kamrecsys/data/base.py:BaseData.set_feature', 'kamrecsys/base/base.py:BaseRecommender', 'kamrecsys/base/base.py:BaseEventRecommender.fit'])
p("C142", "How many latent factors a factorization needs",
  "For the score predictor PMF, learned coefficients are the best ones among models with any number k of latent factors if and only if the gradient given to the optimizer vanishes and no singular value of the matrix of residuals on the training events exceeds the regularization parameter C; comparing with k + 1 factors is enough. All such coefficients, whatever their k, give the same predictions for the training events and have the same biases. As many factors as users or as items are enough (for all three factorization models). Factors lower the loss below that of the best model of biases exactly when the residuals of that model have a singular value above C. If C squared is larger than the sum of squared deviations of the scores from some number, times the largest number of events of one pair of a user and an item, the factors of the best coefficients are all zero.",
  "all training events with repetitions, numbers of users, items and factors, all C > 0, all coefficient vectors",
  "The comparison is with all coefficient vectors of all sizes; a run of the optimizer says nothing about them.",
  ['kamrecsys/score_predictor/matrix_factorization.py:PMF.loss', 'kamrecsys/score_predictor/matrix_factorization.py:PMF.grad_loss',
   'kamrecsys/score_predictor/matrix_factorization.py:PMF.raw_predict', 'kamrecsys/item_finder/matrix_factorization.py:LogisticPMF.loss',
   'kamrecsys/item_finder/matrix_factorization.py:ImplicitLogisticPMF.loss'])
p("C143", "The loss and the gradient given to the optimizer are accurate",
  "With the machine's arithmetic, the loss of PMF that the optimizer is given differs from the exact loss by at most (number of events + number of coefficients + 2 k + 20) units of 2^-52, times the size of its terms, and is never negative. Every entry of the gradients of PMF, LogisticPMF and ImplicitLogisticPMF differs from the exact entry by at most (number of events + k + 7, or + 98 with the logistic function) units of 2^-52 times the sum of the sizes of its terms; the entries of objects without events are the rounded ones of the penalty. So when the optimizer stops at a point where the entry of the global bias is at most eps, the mean of the predictions for the training events differs from the mean of their scores by at most eps divided by the number of events plus this error.",
  "all training events and coefficient vectors, all orders in which numpy adds, all C (C >= 0 for the loss), up to 2^52 operations",
  "Rounding errors depend on all the numbers and on the order of the additions; a test sees a few of them.",
  ['kamrecsys/score_predictor/matrix_factorization.py:PMF.loss', 'kamrecsys/score_predictor/matrix_factorization.py:PMF.grad_loss',
   'kamrecsys/item_finder/matrix_factorization.py:LogisticPMF.grad_loss', 'kamrecsys/item_finder/matrix_factorization.py:ImplicitLogisticPMF.grad_loss'])
p("C144", "The times in result files are those of the run",
  "In the file an experiment script writes, the training of every fold has as start_time and end_time the clock readings before and after that fit, and as elapsed_time and elapsed_utime the times between them; its test likewise has the readings before and after that prediction. The readings follow each other: training before test, and each fold after the fold with the smaller number. This holds for every method, for hold-out, for complete and for single-fold cross-validation, whatever else the recommender reports about its fit.",
  "all command lines, data files, seeds, environments and clocks; every fold of every result",
  "The entries of the fit are merged into the same dictionary as the times, and readings depend on the clock; a test sees one clock and would have to compare times that are almost equal.",
  ['scripts/exp_recsys_util.py:training', 'scripts/exp_recsys_util.py:testing', 'scripts/exp_recsys_util.py:cv_test', 'scripts/exp_recsys_util.py:holdout_test'])
p("C145", "The unit of scores does not matter",
  "When every score x is replaced by p * x + q with positive p, and the minimum, maximum and stride of the declared domain accordingly, nothing but the unit changes. set_event keeps the same events and ids and ends with the changed scores and domain; it fails exactly when it failed before. get_score_levels returns the changed levels, digitize_score the same digits, binarize_score gives the very same container, and filtering and changing the unit commute. Fitting pLSA gives the same distributions, whose levels are changed, and its predictions, by mode and by expectation, are the changed predictions. MAE is multiplied by p, MSE by its square, histograms count the same, and descriptive statistics change as means, extremes and deviations do.",
  "all data, events, scores, domains with three numbers, positive factors, offsets, random numbers, and fitted models; for predictions by expectation positive pseudo-counts and non-empty training data. Matrix factorization is not included: its penalty does not scale with the scores, and for shifts see C82.",
  "A statement about two runs on different numbers; tests check few units, and a bin edge computed without the offset passes all tests with ratings 1 to 5.",
  ['kamrecsys/data/event_with_score.py:EventWithScoreData.set_event', 'kamrecsys/data/event_with_score.py:EventWithScoreData.binarize_score', 'kamrecsys/data/event_with_score.py:EventWithScoreData.digitize_score', 'kamrecsys/metrics/base.py:generate_score_bins', 'kamrecsys/score_predictor/topic_model.py:MultinomialPLSA.fit', 'kamrecsys/score_predictor/topic_model.py:MultinomialPLSA.raw_predict', 'kamrecsys/metrics/real.py:mean_absolute_error', 'kamrecsys/metrics/real.py:score_histogram'])
p("C146", "Experiments do not depend on the unit of scores",
  "Take the files of an experiment, replace every score x by p * x + q with positive p, and the declared score domain accordingly (0 0 0 stays). A script then writes the same result file, except that true and predicted scores and the score domain are in the new unit, or fails with the same exception. This holds for the topic models, by mode and by expectation, and for item finders, whose files differ in the score domain only; for matrix factorization when a number is added (p = 1) and the optimizer commutes with translations. Hold-out, complete and single-fold cross-validation alike.",
  "all well-formed data files, command lines with domain 0 0 0 or with a stride that is not zero, seeds, clocks and environments, factors and offsets; for predictions by expectation positive pseudo-counts and a non-empty training file; for matrix factorization a non-empty training file",
  "Relates two runs on different files; whether a fold, a bin or a threshold depends on the unit shows for few data only.",
  ['scripts/exp_recsys_sp.py:load_data', 'scripts/exp_recsys_if.py:load_data', 'scripts/exp_recsys_util.py:cv_test', 'scripts/exp_recsys_util.py:holdout_test', 'kamrecsys/score_predictor/topic_model.py:MultinomialPLSA.fit'])
p("C147", "Result files count the events, users and items of the data",
  "In the file an experiment script writes, training has as n_events, n_users and n_items the number of events of the training file and the numbers of different ids in its first and second column. test has the same numbers for cross validation and those of the test file for hold-out. The test of every fold has as n_events the number of its test events: in cross validation a fifth, rounded up, of the events of every user, added over the users, which is also the number of the fold's events, true scores and mask entries in the file; in hold-out all events of the test file.",
  "all well-formed data files, command lines with a domain of three numbers, methods, seeds, clocks and environments; every successful run and every fold",
  "Counts of distinct ids and of rounded fifths depend on the whole file; tests compare a few files with recorded numbers.",
  ['scripts/exp_recsys_util.py:cv_test', 'scripts/exp_recsys_util.py:holdout_test', 'scripts/exp_recsys_util.py:testing', 'kamrecsys/data/event.py:EventData.set_event'])
p("C148", "What the ranking of items depends on",
  "A fitted matrix-factorization model gives one user at least as high a prediction for item j as for item i whenever its parameters favour j: item bias plus the product of the factors of user and item (the item bias alone for a user not seen in training, nothing for an item not seen in training). Neither the global mean nor the bias of the user matters. All users not seen in training get the same predictions, and all items not seen in training the same prediction of a user. For score prediction by PMF a strict preference is a strictly higher prediction; for the logistic models it is, unless both predictions are the lowest or both the highest value of the sigmoid. The area under the ROC curve of logistic predictions is that of the linear scores behind them, cut off at the ends of the domain of the sigmoid.",
  "all user-item training data, models, settings, random numbers, optimizers, batches of requests, users and items; all samples for the area",
  "A statement about every pair of requests for every set of learned parameters; tests see the predictions of one trained model.",
  ['kamrecsys/score_predictor/matrix_factorization.py:PMF.raw_predict', 'kamrecsys/item_finder/matrix_factorization.py:LogisticPMF.raw_predict', 'kamrecsys/item_finder/matrix_factorization.py:ImplicitLogisticPMF.raw_predict', 'kamrecsys/utils/kammath.py:safe_sigmoid'])
p("C149", "What training of the topic model tends to",
  "For positive alpha there are parameters with the highest smoothed likelihood, and EM steps do not change them. EM steps leave parameters alone exactly when the smoothed likelihood is stationary there: its derivative is zero in every direction in which the parameters stay distributions. When fit is run with tol = 0 and larger and larger maxiter, the smoothed likelihood converges, the change of every parameter from one maxiter to the next tends to zero, every sequence of maxiter values has a part along which all parameters converge, and every such limit is a stationary point, with positive entries.",
  "every data set with an event, number of latent classes, alpha > 0, all random initial weights, all sequences of numbers of steps",
  "A statement about the limit of unboundedly many iterations.",
  ['kamrecsys/score_predictor/topic_model.py:MultinomialPLSA.fit', 'kamrecsys/score_predictor/topic_model.py:MultinomialPLSA.maximization_step'])
p("C150", "How well a topic model can fit its training data",
  "Whatever the number of latent classes, the mean loss is at least the entropy of the relative frequencies of the training events (user, item and score level), so the final_loss that fit reports is never below it. As many latent classes as there are different events suffice to reach it. Whatever can be expressed with some number of latent classes can be expressed with one more: the same probabilities, loss and predictions.",
  "every data set with an event, number of latent classes, all parameters that are distributions; for fit all settings with alpha > 0 and all random numbers",
  "A bound over all parameters and all training runs.",
  ['kamrecsys/score_predictor/topic_model.py:MultinomialPLSA.loss', 'kamrecsys/score_predictor/topic_model.py:MultinomialPLSA.fit'])
p("C151", "Repeated data and smoothing of the topic model",
  "If every training event occurs c times instead of once, with the same initial weights, and alpha is multiplied by c, the parameters after every number of EM steps and the loss are the same. Without smoothing (alpha = 0) repeating all events changes nothing.",
  "every data set, arrangement of the copies, positive c, alpha, initial weights, number of latent classes and of steps",
  "Relates two training runs for every number of steps.",
  ['kamrecsys/score_predictor/topic_model.py:MultinomialPLSA.maximization_step', 'kamrecsys/score_predictor/topic_model.py:MultinomialPLSA.loss'])
p("C152", "What the stopping rule and the reported loss guarantee",
  "If the optimizer reports success (fit_results_['success'] is True) and its rule for success bounds every entry of the gradient by a tolerance, then up to that tolerance: the errors of the predictions of PMF for the training events sum up to zero, so the mean prediction is the mean score (for LogisticPMF: the share of positive events); the errors for the events of one user sum up to C times what the user adds to the prediction for a new user, and the errors for the events of one item to C times what the item adds to that for a new item. For ImplicitLogisticPMF the probabilities of all pairs of a known user and a known item sum up to the number of events, and those of one user or item to its number of events less C times what it adds to the linear score. In coefficients, for all three models: the biases of the users sum up to zero, so do those of the items, and the factors of users and items have the same products of columns. Whether the optimizer succeeded or not, the final_loss l that PMF reports bounds the sum of the squared errors for the training events by 2 l and keeps every prediction within 2 sqrt(l / C) + l / C of the prediction for a new user and a new item. For LogisticPMF the probability given to what happened in every training event is at least exp(-l), and linear scores stay within the same distance.",
  "every data set, regularization, number of factors, start, random numbers, tolerance, and every optimizer that stops with success only at small gradients (for the loss: one that reports the loss of the point it returns)",
  "Holds for every optimizer and data set; a test sees one run.",
  ['kamrecsys/score_predictor/matrix_factorization.py:PMF.fit', 'kamrecsys/item_finder/matrix_factorization.py:LogisticPMF.fit', 'kamrecsys/item_finder/matrix_factorization.py:ImplicitLogisticPMF.fit', 'kamrecsys/score_predictor/matrix_factorization.py:PMF.grad_loss'])
p("C153", "Which events can be converted, to what, and what the others raise",
  "to_eid_event of a loaded container returns, for one event or an array of events of the right width, exactly the external ids that the entries stand for (an internal id from -n to -1 counts from the end, n being the number of objects of the type of the column). It raises IndexError if some entry is outside -n..n-1 and succeeds otherwise; every other shape raises TypeError. Converting internal ids 0..n-1 to external ids and back changes nothing. A vector of missing_values that is too long is used up to the number of columns; one that is too short makes to_iid_event raise IndexError, even if all ids are known, unless there is no event. A container that was never loaded converts nothing: to_eid_event raises TypeError for one event and AttributeError for an array, to_iid_event AttributeError, to_eid and to_iid TypeError.",
  "every container that was loaded (and filtered), layout, array and vector of missing values; for the last part every new container",
  "All shapes, layouts and internal ids, in and out of range.",
  ['kamrecsys/data/event.py:EventUtilMixin.to_eid_event', 'kamrecsys/data/event.py:EventUtilMixin.to_iid_event', 'kamrecsys/data/base.py:ObjectUtilMixin.to_eid', 'kamrecsys/data/base.py:ObjectUtilMixin.to_iid'])
p("C154", "Only trained recommenders predict",
  "A recommender that was never fitted, or whose calls of fit all raised before training started, raises in predict for every array; it never returns a number. Once a call of fit has succeeded, the learned parameters and fit_results_ stay as they are through any number of later calls of fit that raise before their training starts.",
  "every kind of recommender, training procedure, data, event index, sequence of refused calls of fit, and array passed to predict",
  "All histories of refused calls of fit and all inputs.",
  ['kamrecsys/base/base.py:BaseEventRecommender.predict', 'kamrecsys/base/base.py:BaseEventRecommender.fit'])
p("C155", "What a fit of a matrix factorization leaves when it does not come to its end",
  "If fit of PMF, LogisticPMF or ImplicitLogisticPMF stops before its end (an exception in the optimizer, KeyboardInterrupt), the recommender afterwards raises in predict, predicts as with the parameters it had before, or predicts as after the whole call. (False: see the note.) What holds: once the parameters have been allocated and until the result of the optimizer is stored, predict gives for known users and items the estimate from the coefficients of that moment, which are the random initial ones while the optimizer runs, and raises IndexError as soon as a requested user or item is unknown; after the result has been stored, known users and items get the predictions of the completed fit and requests with unknown ones those or IndexError. A new recommender whose first call stops before all parameters are allocated raises in predict. A trained one whose later call stops there predicts with a mixture, in which the mean, user biases, item biases, user factors and item factors are replaced by zeros in this order, and raises IndexError exactly if one of the arrays has no entry for a requested object. fit_results_['success'] is set or changed only when what is used for predictions is final. With one user or one item the call raises TypeError and every prediction after it raises IndexError. A later call that comes to its end leaves the same parameters and results whatever the interrupted one left.",
  "every data set of user-item events, hyperparameters, optimizer, random numbers, state before the call and every point between two statements at which the call stops, and all requests",
  "All points at which a call can be interrupted.",
  ['kamrecsys/score_predictor/matrix_factorization.py:PMF.fit', 'kamrecsys/score_predictor/matrix_factorization.py:PMF._init_coef', 'kamrecsys/score_predictor/matrix_factorization.py:PMF.raw_predict', 'kamrecsys/item_finder/matrix_factorization.py:LogisticPMF.fit', 'kamrecsys/item_finder/matrix_factorization.py:ImplicitLogisticPMF.fit'])
p("C156", "What a fit of the topic model leaves when it does not come to its end",
  "If fit of MultinomialPLSA stops before its end (KeyboardInterrupt), predict of the recommender afterwards depends on the point only in this way: until the first M-step has assigned the four arrays, that of a new recommender raises TypeError; from then on known users and known items get scores between the smallest and the largest score level, and a request with a user (item) that did not occur in the data raises IndexError until the entry for unknown users (items) has been appended. After j passes of the loop the arrays are those of a whole call with maxiter = j. fit_results_['success'] is set or changed only when the arrays are final. A call that comes to its end leaves the same arrays, predictions and results whatever an interrupted one left.",
  "every data set of user-item events, positive alpha, number of latent classes, tolerance, maxiter, nonnegative initial weights, every point between two statements at which the call stops, and all requests",
  "All points at which a call can be interrupted.",
  ['kamrecsys/score_predictor/topic_model.py:MultinomialPLSA.fit', 'kamrecsys/score_predictor/topic_model.py:MultinomialPLSA.maximization_step', 'kamrecsys/score_predictor/topic_model.py:MultinomialPLSA.raw_predict'])

p("C157", "Which random numbers a recommender uses and what it leaves to others",
  "A recommender constructed with an integer random_state is, after any program, what its own calls of fit make of it: other recommenders, draws from numpy's generator or from RandomState objects before, between and after these calls change nothing, and its calls of fit draw from no generator of the program. A recommender constructed with random_state=None uses numpy's global generator, one constructed with a RandomState that object. A call of its fit advances this generator and no other. If fit refuses the data before training, nothing is drawn; PMF draws nothing either when there is one user or one item. Otherwise PMF, LogisticPMF and ImplicitLogisticPMF draw k numbers for each user and then k for each item with events, with standard deviation 1 (PMF: that of the residuals of the initial biases), and MultinomialPLSA draws one Dirichlet vector per event in the order of the events; the values of the regularization, the optimizer and its options do not matter. The state of a generator after a program, and the recommenders that use it, depend only on the operations that use it.",
  "all programs of draws and fits, all numbers of recommenders and generators, all data",
  "A test fits one recommender once or twice in a fixed order; interference between recommenders shows only in particular interleavings.",
  ["kamrecsys/base/base.py:BaseRecommender.fit", "kamrecsys/score_predictor/matrix_factorization.py:PMF._init_coef", "kamrecsys/item_finder/matrix_factorization.py:LogisticPMF._init_coef", "kamrecsys/item_finder/matrix_factorization.py:ImplicitLogisticPMF._init_coef", "kamrecsys/score_predictor/topic_model.py:MultinomialPLSA._init_params"])

p("C158", "What an interrupted set_event leaves in a container",
  "If set_event of a container stops before its end (KeyboardInterrupt, MemoryError), the events that are read from the container afterwards are the old ones or the new ones, or reading fails. (False: see the note.) What holds: after any number of its assignments each part of the container (number of objects, conversion to external and to internal ids of each type, event array, number of events, event features, scores, score domain, number of score levels) is the old part or that of the completed call, and the number says which; only the columns of the event array that are not yet assigned hold arbitrary numbers. Before the event array is replaced, an old event reads as the old objects for the types whose ids are not yet replaced and as the new objects of the same rank for the others, or raises if there is no such object. In a container without events an interrupted first call leaves no event array, so that filter_event returns None and fit raises AttributeError, or it leaves the tables of the new events; once n_events is not 0 only the event features can be missing. A later call of set_event that comes to its end leaves what it would have left without the interrupted ones.",
  "every container reached by any calls, event array of its width, scores, domain and event features, and every number of assignments after which the call stops; for the last part every sequence of interrupted calls",
  "All points at which a call can be interrupted, and all data before and after.",
  ["kamrecsys/data/event.py:EventData.set_event", "kamrecsys/data/base.py:BaseData._gen_id", "kamrecsys/data/event_with_score.py:EventWithScoreData.set_event"])

p("C159", "Calls of set_event of one container in several threads",
  "When several threads call set_event of one container and all calls are finished, the container is the one that one of the calls leaves. (False: see the note.) What holds for every schedule: if all load the same events, no call raises, each makes progress at each of its turns, the container at the end is the one a single call leaves, and meanwhile readers of n_objects, to_eid, to_iid, n_events and event_feature get the old or the new answer. If they load different events, the layout stays, at every moment n_objects and each of the conversions of one type in one direction are the old ones or those of one call, and the only exceptions are KeyError and ValueError. A call that runs without another in between leaves the container as if it had been the only one, whatever other threads have done before, finished or not.",
  "every container reached by any calls, number of threads, event arrays of its width, event features, and every schedule of the assignments",
  "All interleavings of the assignments of any number of threads.",
  ["kamrecsys/data/event.py:EventData.set_event", "kamrecsys/data/base.py:BaseData._gen_id", "kamrecsys/data/base.py:ObjectUtilMixin.to_eid", "kamrecsys/data/base.py:ObjectUtilMixin.to_iid"])

p("C160", "binarize_score interrupted, repeated and in several threads",
  "Repeating an interrupted binarize_score gives what an uninterrupted call gives, and calls in several threads leave what some order of these calls leaves. (False: see the note.) What holds: after any number of the steps of a call, scores, domain and number of levels are the old ones or those of the completed call, and the number says which; nothing else changes. Repeating the call with the same threshold t gives the completed result if and only if the scores had not been replaced yet, or t >= 0 whenever some score was at most t and t < 1 whenever some score was above; with the default threshold only an interruption between the assignments of the scores and of the domain can do harm, under the same condition on the mid-point. A second call with a threshold u leaves a binarized container as it is for 0 <= u < 1, makes all scores 0 for u >= 1 and all 1 for u < 0. Calls with thresholds in several threads never raise and end with what some of the calls leave, made one after another; if all have the same threshold, with the condition above, with what one call leaves.",
  "every loaded container (features, filters and binarizations included), threshold, number of steps after which the call stops, number of threads and schedule of the steps",
  "All points at which a call can be interrupted and all interleavings of any number of threads.",
  ["kamrecsys/data/event_with_score.py:EventWithScoreData.binarize_score"])

p("C161", "Several recommenders are fitted in threads",
  "Recommenders that are fitted at the same time in several threads learn what they learn when they are fitted one after the other. (False for recommenders that share a random generator: see the note.) What holds, whatever the schedule: a recommender whose generator no other thread uses, as is so for every integer random_state, is at every moment in the state in which it would be if it were fitted alone, with the same exception if there is one; after enough turns its mu_, bu_, bi_, p_, q_ and fit_results_ are those of a fit alone; and a generator that no thread uses is not advanced. If generators are shared, every fit with enough turns still ends without an exception, and it has learned what a fit alone learns from a generator whose states at its two draws are those the shared one had at two turns of its thread; if these follow each other, that is a fit alone from the first of the two states. Fits that share a generator and do not overlap each learn what a fit alone learns from the state in which the generator was left, whatever other threads do.",
  "every number of PMF, LogisticPMF and ImplicitLogisticPMF recommenders with any hyper-parameters and data, assignment of generators to recommenders, optimizer, generator and schedule of the statements",
  "All interleavings of the statements of any number of threads.",
  ["kamrecsys/score_predictor/matrix_factorization.py:PMF.fit", "kamrecsys/item_finder/matrix_factorization.py:LogisticPMF.fit", "kamrecsys/item_finder/matrix_factorization.py:ImplicitLogisticPMF.fit", "kamrecsys/base/base.py:BaseRecommender.fit"])

p("C162", "predict in one thread while fit of the same recommender runs in another",
  "A call of predict while fit of the same recommender runs in another thread gives what predict would give at one moment of the fit. (False: see the note.) What holds, from the moment on when the parameters have been allocated and whatever statements of fit are executed during the call: for users and items of the training data predict never raises and computes with the mean, the biases and the factors as each of them is when it is read; after the initialization each of the five is either the initial one or that of the result of the optimizer, depending on whether the result had been stored when it was read; once it is stored known pairs get the predictions of the completed fit, and a request with unknown users or items gets these or IndexError.",
  "every PMF, LogisticPMF and ImplicitLogisticPMF recommender, data set with several users and items, optimizer, generator, request and choice of the five moments of reading",
  "All pairs of schedules of the statements of fit and the reads of predict.",
  ["kamrecsys/score_predictor/matrix_factorization.py:PMF.raw_predict", "kamrecsys/score_predictor/matrix_factorization.py:PMF.fit", "kamrecsys/item_finder/matrix_factorization.py:LogisticPMF.raw_predict", "kamrecsys/item_finder/matrix_factorization.py:ImplicitLogisticPMF.raw_predict"])

p("C163", "predict of MultinomialPLSA in one thread while its fit runs in another",
  "A call of predict of a MultinomialPLSA recommender while its fit runs in another thread gives no score outside the score domain, although the four arrays it reads may belong to different M-steps, normalized or not, of this call of fit. If every array has been assigned by this call of fit when it is read, requests for users and items of the training data never raise; a request with an unknown user (item) raises IndexError exactly as long as the entry for unknown users (items) had not been appended when the array of the users (items) was read. If the recommender is new and the array of the topics has not been assigned when it is read, predict raises TypeError. Once the loop has ended known pairs get the predictions of the completed fit.",
  "every configuration with positive alpha and at least one topic, data set, nonnegative initial weights, request and choice of the four moments of reading",
  "All pairs of schedules of the statements of fit and the reads of predict.",
  ["kamrecsys/score_predictor/topic_model.py:MultinomialPLSA.raw_predict", "kamrecsys/score_predictor/topic_model.py:MultinomialPLSA.maximization_step", "kamrecsys/score_predictor/topic_model.py:MultinomialPLSA.fit"])

p("C164", "Several topic models are fitted in threads",
  "If MultinomialPLSA recommenders are fitted in threads at the same time, each learns what it learns when the fits run one after the other in some order. (False: see the note.) What holds for every schedule: the recommenders that use one generator draw their initial weights from a single sequence of draws, each for its events in order and each draw used once, and a fit that has come to its end stores the parameters, predicts and reports as a fit with the weights it has drawn; a fit whose draws no other fit with the same generator interrupts, in particular one with its own generator, predicts and reports what it does after a fit alone that begins with the state in which the others have left the generator, and leaves the generator as after a fit alone; generators that no thread uses are not moved.",
  "every number of threads, configurations, data sets, generators, assignment of generators to recommenders and schedule",
  "All schedules of the statements of several fits.",
  ["kamrecsys/score_predictor/topic_model.py:MultinomialPLSA._init_params", "kamrecsys/score_predictor/topic_model.py:MultinomialPLSA.fit", "kamrecsys/base/base.py:BaseRecommender.fit"])

p("C165", "One matrix factorization is fitted in several threads",
  "If fit of the same matrix factorization is called in several threads at the same time, all calls come to their ends and the recommender predicts with what one of them has learned. (False: see the note.) What holds for every schedule: if all calls come to their ends, the mean, the biases and the factors the recommender predicts with all are from the same coefficient vector, one that the optimizer has returned in one of these calls for the loss of that call, however the calls have overwritten each other's initial values and arrays. Calls that do not overlap, on data with at least two users and two items, all come to their ends and leave what the last one has learned and the losses it reports.",
  "every number of threads, data sets with the same numbers of users and items, initialization, optimizer and schedule",
  "All schedules of the statements of several calls that share arrays, views and temporary attributes.",
  ["kamrecsys/score_predictor/matrix_factorization.py:PMF.fit", "kamrecsys/score_predictor/matrix_factorization.py:PMF._init_coef", "kamrecsys/item_finder/matrix_factorization.py:LogisticPMF.fit", "kamrecsys/item_finder/matrix_factorization.py:ImplicitLogisticPMF.fit", "kamrecsys/base/base.py:BaseRecommender.remove_data"])
