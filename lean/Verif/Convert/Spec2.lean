/-
Vocabulary of the properties of the data sets: the records in the original files and what is to be loaded.
-/
import Verif.Convert.Spec
import Verif.Score.Spec

namespace Kam.Convert.Spec

variable {K : Type} [Field K] [LinearOrder K] [FloorRing K]

/-- A text that can stand inside of a row: without tabulator, line end, comment sign and `c`. -/
def FieldOf (c : Char) (s : Str) : Prop := Clean s ∧ c ∉ s

/-- A rating: user, item, score and time. -/
structure Rating where
  user : Int
  item : Int
  score : Int
  time : Int

/-- The line of `u.data`. -/
def Rating.line (r : Rating) : Str := join '\t' [showInt r.user, showInt r.item, showInt r.score, showInt r.time]

/-- The line of `ratings.dat`. -/
def Rating.line1m (r : Rating) : Str :=
  List.intercalate "::".toList [showInt r.user, showInt r.item, showInt r.score, showInt r.time]

/-- The event as it is to be loaded, with or without the time. -/
def Rating.entry (times : Bool) (r : Rating) : Entry K :=
  ⟨[r.user, r.item], (r.score : K), if times then [.int r.time] else []⟩

/-- The occupations of MovieLens 100k in the order of their codes. -/
def occupations : List String :=
  ["none", "other", "administrator", "artist", "doctor", "educator", "engineer", "entertainment", "executive",
   "healthcare", "homemaker", "lawyer", "librarian", "marketing", "programmer", "retired", "salesman", "scientist",
   "student", "technician", "writer"]

/-- A user of MovieLens 100k. -/
structure Person where
  id : Int
  age : Int
  female : Bool
  occupation : Fin 21
  zip : Str

/-- The letter. -/
def letter (female : Bool) : Str := if female then "F".toList else "M".toList

/-- The line of `u.user`. -/
def Person.line (p : Person) : Str :=
  join '|' [showInt p.id, showInt p.age, letter p.female, (occupations.getD p.occupation "").toList, p.zip]

/-- A zip code of at most five characters. -/
def Person.Ok (p : Person) : Prop := FieldOf '|' p.zip ∧ p.zip.length ≤ 5 ∧ p.zip.getLast? ≠ some ' '

/-- The features to be loaded. -/
def Person.feature (p : Person) : List (Cell K) :=
  [.int p.age, .int (if p.female then 1 else 0), .int p.occupation, .str p.zip]

/-- The names of the months. -/
def months : List String := ["Jan", "Feb", "Mar", "Apr", "May", "Jun", "Jul", "Aug", "Sep", "Oct", "Nov", "Dec"]

/-- The release date in `u.item`: a text that is no date, or a day with zeros in front, a month and a year. -/
inductive Release
  | none (s : Str)
  | date (zeros day : Nat) (month : Fin 12) (year : Nat)

/-- The text. -/
def Release.text : Release → Str
  | .none s => s
  | .date z d m y => join '-' [List.replicate z '0' ++ showInt d, (months.getD m "").toList, showInt y]

/-- A text that is no date has not exactly two `-`. -/
def Release.Ok : Release → Prop
  | .none s => s.count '-' ≠ 2 ∧ FieldOf '|' s
  | .date .. => True

/-- Day, month and year. -/
def Release.numbers : Release → List Int
  | .none _ => [0, 0, 0]
  | .date _ d m y => [(d : Int), (m.1 : Int) + 1, (y : Int)]

/-- A movie of MovieLens 100k. -/
structure Movie where
  id : Int
  title : Str
  release : Release
  video : Str
  url : Str
  unknown : Str
  genres : Fin 18 → Bool

/-- `0` or `1`. -/
def bit (b : Bool) : Int := if b then 1 else 0

/-- The line of `u.item`. -/
def Movie.line (m : Movie) : Str :=
  join '|' ([showInt m.id, m.title, m.release.text, m.video, m.url, m.unknown] ++
    (List.ofFn m.genres).map (fun b => showInt (bit b)))

/-- The fields do not contain separators and comment signs, and fit into their columns. -/
structure Movie.Ok (m : Movie) : Prop where
  title : FieldOf '|' m.title
  fits : m.title.length ≤ 81
  release : m.release.Ok
  video : '|' ∉ m.video ∧ Plain m.video
  url : FieldOf '|' m.url
  short : m.url.length ≤ 134
  last : m.url.getLast? ≠ some ' '
  unknown : '|' ∉ m.unknown ∧ Plain m.unknown

/-- The features to be loaded. -/
def Movie.feature (m : Movie) : List (Cell K) :=
  .str m.title :: (m.release.numbers.map Cell.int ++ (List.ofFn m.genres).map (fun b => .int (bit b)) ++ [.str m.url])

/-- The codes of the ages in MovieLens 1m. -/
def ages : List Int := [1, 18, 25, 35, 45, 50, 56]

/-- A user of MovieLens 1m. -/
structure Person1m where
  id : Int
  female : Bool
  age : Fin 7
  occupation : Int
  zip : Str

/-- The line of `users.dat`. -/
def Person1m.line (p : Person1m) : Str :=
  List.intercalate "::".toList [showInt p.id, letter p.female, showInt (ages.getD p.age 0), showInt p.occupation, p.zip]

/-- No colon: the separator is two of them. -/
def Person1m.Ok (p : Person1m) : Prop := FieldOf ':' p.zip ∧ (p.zip.take 5).getLast? ≠ some ' '

/-- The features to be loaded: the first five characters of the zip code. -/
def Person1m.feature (p : Person1m) : List (Cell K) :=
  [.int (if p.female then 1 else 0), .int p.age, .int p.occupation, .str (p.zip.take 5)]

/-- The genres in the order of their columns. -/
def genreNames : List String :=
  ["Action", "Adventure", "Animation", "Children's", "Comedy", "Crime", "Documentary", "Drama", "Fantasy", "Film-Noir",
   "Horror", "Musical", "Mystery", "Romance", "Sci-Fi", "Thriller", "War", "Western"]

/-- A movie of MovieLens 1m: the title is followed by the year. -/
structure Movie1m where
  id : Int
  name : Str
  year : Nat
  genres : List (Fin 18)

/-- The title with the year. -/
def Movie1m.title (m : Movie1m) : Str := m.name ++ " (".toList ++ showInt m.year ++ ")".toList

/-- The entity that stands for an ellipsis in the movie 3845. -/
def escape : Str → Str
  | [] => []
  | c :: s => if c = Char.ofNat 0x2026 then "&#8230;".toList ++ escape s else c :: escape s

/-- The line of `movies.dat`. -/
def Movie1m.line (m : Movie1m) : Str :=
  List.intercalate "::".toList [showInt m.id, if m.id = 3845 then escape m.title else m.title,
    join '|' (m.genres.map (fun g : Fin 18 => (genreNames.getD g "").toList))]

/-- No two colons in a row. -/
def NoColons : Str → Prop
  | ':' :: ':' :: _ => False
  | _ :: s => NoColons s
  | [] => True

/-- A title without separators and comment signs that fits into its column, a year of four digits, and genres. -/
structure Movie1m.Ok (m : Movie1m) : Prop where
  clean : Clean m.name
  colons : NoColons m.name
  year : (showInt m.year).length = 4
  fits : m.title.length ≤ 82
  genres : m.genres ≠ []

/-- The features to be loaded. -/
def Movie1m.feature (m : Movie1m) : List (Cell K) :=
  [.str m.title, .int m.year] ++ List.ofFn (fun g => .int (bit (decide (g ∈ m.genres))))

/-- A rating with a decimal score and further fields (Flixster). -/
structure DecRating where
  user : Int
  item : Int
  m : Int
  k : Nat
  rest : List Str

/-- The line. -/
def DecRating.line (r : DecRating) : Str := join '\t' ([showInt r.user, showInt r.item, showDec r.m r.k] ++ r.rest)

/-- The event to be loaded. -/
def DecRating.entry (r : DecRating) : Entry K := ⟨[r.user, r.item], (r.m : K) / 10 ^ r.k, []⟩

/-- The further fields are without tabulators and line ends. -/
def DecRating.Ok (r : DecRating) : Prop := ∀ f ∈ r.rest, '\t' ∉ f ∧ Plain f

/-- A kind of sushi: names, classes and decimal numbers `m / 10 ^ k`. -/
structure Sushi where
  id : Int
  name : Str
  maki : Int
  seafood : Int
  genre : Int
  heaviness : Int × Nat
  frequency : Int × Nat
  price : Int × Nat
  supply : Int × Nat

/-- The text of a decimal number. -/
def decText (p : Int × Nat) : Str := showDec p.1 p.2

/-- The value of a decimal number. -/
def decValue (p : Int × Nat) : K := (p.1 : K) / 10 ^ p.2

/-- The line of `sushi3.idata`. -/
def Sushi.line (s : Sushi) : Str :=
  join '\t' [showInt s.id, s.name, showInt s.maki, showInt s.seafood, showInt s.genre, decText s.heaviness,
    decText s.frequency, decText s.price, decText s.supply]

/-- A name that fits into its column. -/
def Sushi.Ok (s : Sushi) : Prop := Clean s.name ∧ s.name.length ≤ 20

/-- The features to be loaded. -/
def Sushi.feature (s : Sushi) : List (Cell K) :=
  [.str s.name, .int s.maki, .int s.seafood, .int s.genre, .num (decValue s.heaviness), .num (decValue s.frequency),
    .num (decValue s.price), .num (decValue s.supply)]

/-- The features of an object of a type are `f`. -/
def HasFeature {ε : Type} (d : ScoreData K Int (List (Cell K)) ε) (t : Nat) (x : Int) (f : List (Cell K)) : Prop :=
  ∃ g i, d.feature[t]? = some (some g) ∧ d.toEventData.toIid t x = .ok i ∧ g[i]? = some f

/-- The objects of column `t` of the events. -/
def InColumn (es : List (Entry K)) (t : Nat) (x : Int) : Prop := ∃ e ∈ es, e.ids[t]? = some x

/-- Every object of column `t` has a record. -/
def Covered (es : List (Entry K)) (t : Nat) (recs : List (Int × List (Cell K))) : Prop :=
  ∀ x, InColumn es t x → x ∈ recs.map Prod.fst

/-- A data set of users and items: the events with their scores and features, the score domain, and the features of
the users and items that occur in events. -/
structure DataSet (d : ScoreData K Int (List (Cell K)) (List (Cell K))) (dm : List K) (feats : Bool) (es : List (Entry K))
    (users items : List (Int × List (Cell K))) : Prop where
  events : Reads d.toEventData (es.map Entry.ids)
  score : d.score = some (es.map Entry.score)
  domain : d.scoreDomain = some dm
  features : d.eventFeature = if feats then some (es.map Entry.feats) else none
  user : ∀ p ∈ users, InColumn es 0 p.1 → HasFeature d 0 p.1 p.2
  item : ∀ p ∈ items, InColumn es 1 p.1 → HasFeature d 1 p.1 p.2
  built : Kam.Spec.ScoreBuilt d (es.map Entry.ids) (es.map Entry.score)

end Kam.Convert.Spec
