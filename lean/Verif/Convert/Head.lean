/-
The comment blocks the conversion scripts write at the head of their files.
-/

namespace Kam.Convert

/-- data/movielens100k.py:73-94, line by line. -/
def ml100kHeadEvent : List String :=
  ["# Movielens 100k data set",
   "#",
   "# Original files are distributed by the Grouplens Research Project at the site:",
   "# http://www.grouplens.org/node/73",
   "# To use this data, follow the license permitted by the original distributor.",
   "#",
   "# This data set consists of:",
   "# * 100,000 ratings (1-5) from 943 users on 1682 movies.",
   "# * Each user has rated at least 20 movies.",
   "#",
   "# Format",
   "# ------",
   "# user : int",
   "#     user id of the user who rated the movie",
   "# item : int",
   "#     item id of the movie rated by the user",
   "# score : int",
   "#     rating score whose range is {1, 2, 3, 4, 5}",
   "# timestamp : int",
   "#     UNIX seconds since 1/1/1970 UTC"]

/-- data/movielens100k.py:110-131, line by line. -/
def ml100kHeadUser : List String :=
  ["# User feature file for ``movielens100k.event``.",
   "#",
   "# The number of users is 943.",
   "#",
   "# Format",
   "# ------",
   "# user : int",
   "#     user id of the users which is compatible with the event file.",
   "# age : int",
   "#     age of the user",
   "# gender : int",
   "#     gender of the user, {0:male, 1:female}",
   "# occupation : int {0,1,...,20}",
   "#     the number indicates the occupation of the user.",
   "#     none:0, other:1, administrator:2, artist:3, doctor:4, educator:5,",
   "#     engineer:6, entertainment:7, executive:8, healthcare:9, homemaker:10,",
   "#     lawyer:11, librarian:12, marketing:13, programmer:14, retired:15,",
   "#     salesman:16,  scientist:17, student:18, technician:19, writer:20",
   "# zip : str, length=5",
   "#     zip code of 5 digits, which represents the residential area of the user"]

/-- data/movielens100k.py:161-184, line by line. -/
def ml100kHeadItem : List String :=
  ["# Item feature file for ``movielens100k.event``.",
   "#",
   "# The number of movies is 1682.",
   "#",
   "# Format",
   "# ------",
   "# item : int",
   "#     item id of the movie which is compatible with the event file.",
   "# name : str, length=[7, 81]",
   "#     title of the movie with release year",
   "# date : int * 3, (day, month, year)",
   "#     released date",
   "# genre : binary_int * 18",
   "#     18 binary numbers represents a genre of the movie. 1 if the movie belongs",
   "#     to the genre; 0 other wise. All 0 implies unknown. Each column",
   "#     corresponds to the following genres:",
   "#     Action, Adventure, Animation, Children's, Comedy, Crime, Documentary,",
   "#     Drama, Fantasy, Film-Noir, Horror, Musical, Mystery, Romance, Sci-Fi,",
   "#     Thriller, War, Western",
   "# imdb : str, length=[0, 134]",
   "#      URL for the movie at IMDb http://www.imdb.com"]

/-- data/movielens1m.py:74-101, line by line. -/
def ml1mHeadEvent : List String :=
  ["# Movielens 1M data set",
   "#",
   "# Original files are distributed by the Grouplens Research Project at the site:",
   "# http://www.grouplens.org/node/73",
   "# To use this data, follow the license permitted by the original distributor.",
   "#",
   "# This data set consists of:",
   "# * 1,000,209 ratings (1-5) from 6040 users on 3706 movies.",
   "# * Each user has rated at least 20 movies.",
   "#",
   "# Notes",
   "# -----",
   "# There are 3883 movies in an original file, but 3706 movies are actually",
   "# rated.",
   "#",
   "# Format",
   "# ------",
   "# user : int",
   "#     user id of the user who rated the movie",
   "# item : int",
   "#     item id of the movie rated by the user",
   "# score : int",
   "#     rating score whose range is {1, 2, 3, 4, 5}",
   "# timestamp : int",
   "#     represented in seconds since the epoch as returned by time(2)"]

/-- data/movielens1m.py:117-145, line by line. -/
def ml1mHeadUser : List String :=
  ["# User feature file for ``movielens1m.event``.",
   "#",
   "# The number of users is 6040.",
   "#",
   "# Format",
   "# ------",
   "# user : int",
   "#     user id of the users which is compatible with the event file.",
   "# gender : int",
   "#     gender of the user, {0:male, 1:female}",
   "# age : int, {0, 1,..., 6}",
   "#     age of the user, where",
   "#     1:\"Under 18\", 18:\"18-24\", 25:\"25-34\", 35:\"35-44\", 45:\"45-49\",",
   "#     50:\"50-55\", 56:\"56+\"",
   "# occupation : int, {0,1,...,20}",
   "#     the number indicates the occupation of the user as follows:",
   "#     0:\"other\" or not specified, 1:\"academic/educator\",",
   "#     2:\"artist\", 3:\"clerical/admin\", 4:\"college/grad student\"",
   "#     5:\"customer service\", 6:\"doctor/health care\", 7:\"executive/managerial\"",
   "#     8:\"farmer\", 9:\"homemaker\", 10:\"K-12 student\", 11:\"lawyer\",",
   "#     12:\"programmer\", 13:\"retired\", 14:\"sales/marketing\", 15:\"scientist\",",
   "#     16:\"self-employed\", 17:\"technician/engineer\", 18:\"tradesman/craftsman\",",
   "#     19:\"unemployed\", 20:\"writer\"",
   "# zip : str, length=5",
   "#     zip code of 5 digits, which represents the residential area of the user"]

/-- data/movielens1m.py:169-191, line by line. -/
def ml1mHeadItem : List String :=
  ["# Item feature file for ``movielens1m.event``.",
   "#",
   "# The number of movies is 3883.",
   "#",
   "# Format",
   "# ------",
   "# item : int",
   "#     item id of the movie which is compatible with the event file.",
   "# name : str, length=[7, 81]",
   "#     title of the movie with release year",
   "# year : int",
   "#     released year",
   "# genre : binary_int * 18",
   "#     18 binary numbers represents a genre of the movie. 1 if the movie belongs",
   "#     to the genre; 0 other wise. All 0 implies unknown. Each column",
   "#     corresponds to the following genres:",
   "#     0:Action, 1:Adventure, 2:Animation, 3:Children's, 4:Comedy, 5:Crime,",
   "#     6:Documentary, 7:Drama, 8:Fantasy, 9:Film-Noir, 10:Horror, 11:Musical,",
   "#     12:Mystery, 13:Romance, 14:Sci-Fi, 15:Thriller, 16:War, 17:Western"]

/-- data/movielens_mini.py:69-76, line by line. -/
def miniHeadEvent : List String :=
  ["# Movielens mini data set",
   "#",
   "# This data set is the subset of the data in the `movielens100k` data set.",
   "# Users and items whose external ids are less or equal than 10 are collected.",
   "#",
   "# 30 events in total. 8 users rate 10 items."]

/-- data/flixster.py:75-94, line by line. -/
def flixsterHeadEvent : List String :=
  ["# Flixster data set",
   "#",
   "# Original files are distributed by Mohsen Jamali at the site:",
   "# http://www.cs.ubc.ca/~jamalim/datasets/",
   "# To use this data, follow the license permitted by the original distributor.",
   "#",
   "# This data set consists of:",
   "#",
   "# * 8,196,077 ratings from 147,612 users on 48,794 movies.",
   "#",
   "# Format",
   "# ------",
   "# user : int",
   "#     user id of the user who rated the movie",
   "# item : int",
   "#     item id of the movie rated by the user",
   "# score : int",
   "#     rating score whose range is:",
   "#     {0.5, 1.0, 1.5, 2.0, 2.5, 3.0, 3.5, 4.0, 4.5, 5.0}"]

/-- data/sushi3.py:76-96, line by line. -/
def sushiHeadEvent : List String :=
  ["# Sushi3b score data set",
   "#",
   "# Original files are distributed by the Grouplens Research Project at the site:",
   "# http://www.kamishima.net/sushi/",
   "# To use this data, follow the license permitted by the original distributor.",
   "#",
   "# This data set consists of:",
   "#",
   "# * 50,000 ratings (0-4) from 5000 users on 100 sushis.",
   "# * Each user has rated exactly 10 sushis selected at random.",
   "#",
   "# Format",
   "# ------",
   "# user : int",
   "#     user id of the user who rated the sushi",
   "# item : int",
   "#     item id of the sushi rated by the user",
   "# score : int",
   "#     rating score whose range is {0, 1, 2, 3, 4}"]

/-- data/sushi3.py:116-148, line by line. -/
def sushiHeadUser : List String :=
  ["# User feature file for sushi3 data sets",
   "#",
   "# The number of users is 5000.",
   "#",
   "# Format",
   "# ------",
   "# user : int",
   "#     user id of the users which is compatible with the event file.",
   "# original_uid : int",
   "#     uid in the original data",
   "# gender : int {0:male, 1:female}",
   "#     gender of the user",
   "# age : int {0:15-19, 1:20-29, 2:30-39, 3:40-49, 4:50-59, 5:60-}",
   "#     age of the user",
   "# answer_time : int",
   "#     the total time need to fill questionnaire form",
   "# child_prefecture : int {0, 1, ..., 47}",
   "#     prefecture ID at which you have been the most long lived",
   "#     until 15 years old",
   "# child_region : int {0, 1, ..., 11}",
   "#     region ID at which you have been the most long lived",
   "#     until 15 years old",
   "# child_ew : int {0: Eastern, 1: Western}",
   "#     east/west ID at which you have been the most long lived",
   "#     until 15 years old",
   "# current_prefecture : int {0, 1, ..., 47}",
   "#     prefecture ID at which you currently live",
   "# current_region : int {0, 1, ..., 11}",
   "#     regional ID at which you currently live",
   "# current_ew : int {0: Eastern, 1: Western}",
   "#     east/west ID at which you currently live",
   "# moved : int {0: don't move, 1: move}",
   "#     whether child_prefecture and current_prefecture are equal or not"]

/-- data/sushi3.py:165-200, line by line. -/
def sushiHeadItem : List String :=
  ["# Item feature file for sushi3 data sets.",
   "#",
   "# The number of movies is 100.",
   "#",
   "# Format",
   "# ------",
   "# item : int",
   "#     item id of the movie which is compatible with the event file.",
   "# name : str, encoding=utf-8",
   "#     title of the movie with release year",
   "# maki : int {0:maki, 1:otherwise}",
   "#     whether a style of the sushi is *maki* or not",
   "# seafood : int {0:seafood, 1:otherwise}",
   "#     whether seafood or not",
   "# genre : int {0, ..., 8}",
   "#     the genre of the sushi *neta*",
   "#     0:aomono (blue-skinned fish)",
   "#     1:akami (red meat fish)",
   "#     2:shiromi (white-meat fish)",
   "#     3:tare (something like baste; for eel or sea eel)",
   "#     4:clam or shell",
   "#     5:squid or octopus",
   "#     6:shrimp or crab",
   "#     7:roe",
   "#     8:other seafood",
   "#     9:egg",
   "#    10:meat other than fish",
   "#    11:vegetables",
   "# heaviness : float, range=[0-4], 0:heavy/oily",
   "#     mean of the heaviness/oiliness/*kotteri* in taste,",
   "# frequency : float, range=[0-3], 3:frequently eat",
   "#     how frequently the user eats the SUSHI,",
   "# price : float, range=[1-5], 5:expensive",
   "#     maki and other style sushis are normalized separately",
   "# supply : float, range=[0-1]",
   "#    the ratio of shops that supplies the sushi"]

end Kam.Convert
