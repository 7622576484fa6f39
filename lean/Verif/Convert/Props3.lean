/-
C75: MovieLens 100k from the original files to the loaded data.
-/
import Verif.Convert.Pipe

set_option linter.unusedSectionVars false

namespace Kam.Convert
open Convert.Spec Kam.Spec

variable {K φ ε : Type} [Field K] [LinearOrder K] [IsStrictOrderedRing K] [FloorRing K]

/-! ### Events -/

lemma rating_fields (r : Rating) : ∀ f ∈ [showInt r.user, showInt r.item, showInt r.score, showInt r.time],
    ∃ n : Int, f = showInt n := by
  intro f hf
  simp only [List.mem_cons, List.not_mem_nil, or_false] at hf
  rcases hf with rfl | rfl | rfl | rfl <;> exact ⟨_, rfl⟩

lemma ratings_file {rs : List Rating} {text : Str} (ht : Text (rs.map Rating.line) text) :
    File (convMl100kEvent text) (rs.map (fun r => [showInt r.user, showInt r.item, showInt r.score, showInt r.time])) := by
  refine conv_file_flat headed_ml100kEvent ht ?_ ?_ ?_
  · intro r _
    refine plain_join (by decide) ?_
    intro f hf
    obtain ⟨n, rfl⟩ := rating_fields r f hf
    exact (clean_showInt n).plain
  · intro r _
    exact tidy_ints (ns := [r.user, r.item, r.score, r.time]) (by simp)
  · intro r _ line hl
    unfold ml100kEventLine
    rw [hl, Rating.line, split_join (by simp)]
    intro f hf
    obtain ⟨n, rfl⟩ := rating_fields r f hf
    exact showInt_no (by decide) (by decide)

lemma rating_written (times : Bool) (r : Rating) :
    [showInt r.user, showInt r.item, showInt r.score, showInt r.time].length = 4 ∧ (r.entry (K := K) times).ids.length = 2 ∧
    Written ([.int, .int, .float] ++ if times then timestamp else []) [showInt r.user, showInt r.item, showInt r.score, showInt r.time]
      (r.entry (K := K) times).cells := by
  refine ⟨rfl, rfl, ?_⟩
  cases times
  · exact .cons (.int _) (.cons (.int _) (.cons (shows_num_int _) (.nil _)))
  · exact .cons (.int _) (.cons (.int _) (.cons (shows_num_int _) (.cons (.int _) (.nil _))))

/-! ### Users -/

/-- The row of a user. -/
def personRow (p : Person) : List Str :=
  [showInt p.id, showInt p.age, showInt (if p.female then 1 else 0), showInt p.occupation, p.zip]

lemma item_zero (a : Str) (l : List Str) : item (a :: l) 0 = .ok a := rfl
lemma item_succ (a : Str) (l : List Str) (n : Nat) : item (a :: l) (n + 1) = item l n := rfl

lemma gender_letter (b : Bool) : gender (letter b) = .ok (showInt (if b then 1 else 0)) := by
  cases b <;> decide

lemma occupation_get (k : Fin 21) : occupation.getItem (occupations.getD k "") = .ok k.1 := by
  revert k; decide +kernel

lemma occupation_clean (k : Fin 21) : Plain (occupations.getD k "").toList ∧ '|' ∉ (occupations.getD k "").toList := by
  unfold Plain
  revert k; decide +kernel

lemma letter_clean (b : Bool) : Plain (letter b) ∧ '|' ∉ letter b := by
  unfold Plain
  cases b <;> decide

lemma person_fields {p : Person} (hp : p.Ok) : ∀ f ∈ [showInt p.id, showInt p.age, letter p.female,
    (occupations.getD p.occupation "").toList, p.zip], Plain f ∧ '|' ∉ f := by
  intro f hf
  simp only [List.mem_cons, List.not_mem_nil, or_false] at hf
  rcases hf with rfl | rfl | rfl | rfl | rfl
  · exact ⟨(clean_showInt _).plain, showInt_no (by decide) (by decide)⟩
  · exact ⟨(clean_showInt _).plain, showInt_no (by decide) (by decide)⟩
  · exact letter_clean _
  · exact occupation_clean _
  · exact ⟨hp.1.1.plain, hp.1.2⟩

lemma person_line {p : Person} (hp : p.Ok) {line : Str} (hl : chomp line = p.line) :
    ml100kUserLine line = .ok (printTab (personRow p)) := by
  unfold ml100kUserLine
  rw [hl, Person.line, split_join (by simp) (fun f hf => (person_fields hp f hf).2)]
  simp only [item_zero, item_succ, ok_bind, gender_letter, String.ofList_toList, occupation_get]
  rfl

lemma person_tidy {p : Person} (hp : p.Ok) : Tidy (personRow p) := by
  refine tidy_open (f := showInt p.id) (g := p.zip)
    (gs := [showInt p.id, showInt p.age, showInt (if p.female then 1 else 0), showInt p.occupation]) rfl rfl (by simp) ?_
    (showInt_ne_nil _) (showInt_head _) hp.2.2
  intro f hf
  simp only [personRow, List.mem_cons, List.not_mem_nil, or_false] at hf
  rcases hf with rfl | rfl | rfl | rfl | rfl
  · exact clean_showInt _
  · exact clean_showInt _
  · exact clean_showInt _
  · exact clean_showInt _
  · exact hp.1.1

lemma persons_file {ps : List Person} (hok : ∀ p ∈ ps, p.Ok) {text : Str} (ht : Text (ps.map Person.line) text) :
    ∃ out, convMl100kUser text = .ok out ∧ File out (ps.map personRow) :=
  conv_file headed_ml100kUser ht
    (fun p hp => plain_join (by decide) (fun f hf => (person_fields (hok p hp) f hf).1))
    (fun p hp => person_tidy (hok p hp)) (fun p hp _ hl => person_line (hok p hp) hl)

lemma person_written {p : Person} (hp : p.Ok) : (personRow p).length = 5 ∧
    Written (K := K) (.int :: ml100kUser) (personRow p) (.int p.id :: p.feature) :=
  ⟨rfl, .cons (.int _) (.cons (.int _) (.cons (.int _) (.cons (.int _) (.cons (.str hp.2.1) (.nil _)))))⟩

/-! ### Items -/

/-- The row of a movie. -/
def movieRow (m : Movie) : List Str :=
  [showInt m.id, m.title] ++ m.release.numbers.map showInt ++ (List.ofFn m.genres).map (fun b => showInt (bit b)) ++ [m.url]

lemma intOf_zeros (z d : Nat) : intOf (List.replicate z '0' ++ showInt d) = some (d : Int) := by
  have hs : showInt (d : Int) = Nat.toDigits 10 d := by
    unfold showInt
    rw [if_neg (by omega)]; rfl
  have hd : ∀ c ∈ List.replicate z '0' ++ showInt d, c.isDigit = true := by
    intro c hc
    rcases List.mem_append.1 hc with h | h
    · rw [List.eq_of_mem_replicate h]; decide
    · rw [hs] at h; exact toDigits_digit h
  have hne : List.replicate z '0' ++ showInt d ≠ [] := by
    intro h
    exact showInt_ne_nil d (List.append_eq_nil_iff.1 h).2
  unfold intOf
  rw [strip_id (fun c hc => isDigit_not_space (hd c (List.mem_of_head? hc)))
    (fun c hc => isDigit_not_space (hd c (List.mem_of_getLast? hc))),
    signed_digits _ (fun c hc => isDigit_not_sign (hd c (List.mem_of_head? hc)))]
  unfold natOf
  rw [if_pos ⟨hne, List.all_eq_true.2 hd⟩, Nat.ofDigitChars_append, Nat.ofDigitChars_replicate_zero, mul_zero,
    hs, Nat.ofDigitChars_ten_toDigits]
  rfl

lemma split_length (c : Char) (s : Str) : (split c s).length = s.count c + 1 := by
  induction s with
  | nil => rfl
  | cons x s ih =>
    rw [split]
    by_cases h : x = c
    · subst h; simp [ih]
    · rw [if_neg h, List.count_cons_of_ne h, ← ih]
      have := split_ne_nil c s
      cases hs : split c s with
      | nil => exact absurd hs this
      | cons a l => rfl

lemma month_get (k : Fin 12) : month.getItem (months.getD k "") = .ok (k.1 + 1) := by
  revert k; decide +kernel

lemma month_clean (k : Fin 12) : Clean (months.getD k "").toList ∧ '|' ∉ (months.getD k "").toList ∧
    '-' ∉ (months.getD k "").toList := by
  unfold Clean
  revert k; decide +kernel

lemma zeros_no {z d : Nat} {c : Char} (h1 : c ≠ '-') (h2 : c.isDigit = false) : c ∉ List.replicate z '0' ++ showInt d := by
  intro hm
  rcases List.mem_append.1 hm with h | h
  · have := List.eq_of_mem_replicate h
    subst this
    exact absurd h2 (by decide)
  · exact showInt_no h1 h2 h

lemma showNat_no_minus (d : Nat) : '-' ∉ showInt (d : Int) := by
  intro hm
  unfold showInt at hm
  rw [if_neg (by omega)] at hm
  exact absurd (toDigits_digit hm) (by decide)

lemma date_ok {r : Release} (hr : r.Ok) : date r.text = .ok (r.numbers.map showInt) := by
  cases r with
  | none s =>
    have h2 : s.count '-' ≠ 2 := hr.1
    unfold date Release.text
    split
    · rename_i d m y h
      have := split_length '-' s
      simp only at h
      rw [h] at this
      simp at this
      omega
    · show (Except.ok _ : Res (List Str)) = .ok ([0, 0, 0].map showInt)
      decide
  | date z d m y =>
    unfold date Release.text
    have hz : '-' ∉ List.replicate z '0' ++ showInt (d : Int) := by
      intro hm
      rcases List.mem_append.1 hm with h | h
      · exact absurd (List.eq_of_mem_replicate h) (by decide)
      · exact showNat_no_minus d h
    have hsp : split '-' (join '-' [List.replicate z '0' ++ showInt (d : Int), (months.getD m "").toList, showInt (y : Int)]) =
        [List.replicate z '0' ++ showInt (d : Int), (months.getD m "").toList, showInt (y : Int)] := by
      refine split_join (by simp) ?_
      intro f hf
      simp only [List.mem_cons, List.not_mem_nil, or_false] at hf
      rcases hf with rfl | rfl | rfl
      · exact hz
      · exact (month_clean m).2.2
      · exact showNat_no_minus y
    simp only [hsp, pyInt, intOf_zeros, intOf_showInt, ok_bind, String.ofList_toList, month_get]
    rfl

lemma release_clean {r : Release} (hr : r.Ok) : Plain r.text ∧ '|' ∉ r.text := by
  cases r with
  | none s => exact ⟨hr.2.1.plain, hr.2.2⟩
  | date z d m y =>
    have hf : ∀ f ∈ [List.replicate z '0' ++ showInt (d : Int), (months.getD m "").toList, showInt (y : Int)],
        '\n' ∉ f ∧ '\r' ∉ f ∧ '|' ∉ f := by
      intro f hf
      simp only [List.mem_cons, List.not_mem_nil, or_false] at hf
      rcases hf with rfl | rfl | rfl
      · exact ⟨zeros_no (by decide) (by decide), zeros_no (by decide) (by decide), zeros_no (by decide) (by decide)⟩
      · exact ⟨(month_clean m).1.2.1, (month_clean m).1.2.2.1, (month_clean m).2.1⟩
      · exact ⟨showInt_no (by decide) (by decide), showInt_no (by decide) (by decide), showInt_no (by decide) (by decide)⟩
    refine ⟨plain_join (by decide) (fun f h => ⟨(hf f h).1, (hf f h).2.1⟩), ?_⟩
    intro hm
    rcases mem_join hm with h | ⟨f, h1, h2⟩
    · exact absurd h (by decide)
    · exact (hf f h1).2.2 h2

lemma movie_fields {m : Movie} (hm : m.Ok) : ∀ f ∈ [showInt m.id, m.title, m.release.text, m.video, m.url, m.unknown] ++
    (List.ofFn m.genres).map (fun b => showInt (bit b)), Plain f ∧ '|' ∉ f := by
  intro f hf
  rcases List.mem_append.1 hf with hf | hf
  · simp only [List.mem_cons, List.not_mem_nil, or_false] at hf
    rcases hf with rfl | rfl | rfl | rfl | rfl | rfl
    · exact ⟨(clean_showInt _).plain, showInt_no (by decide) (by decide)⟩
    · exact ⟨hm.title.1.plain, hm.title.2⟩
    · exact release_clean hm.release
    · exact ⟨hm.video.2, hm.video.1⟩
    · exact ⟨hm.url.1.plain, hm.url.2⟩
    · exact ⟨hm.unknown.2, hm.unknown.1⟩
  · obtain ⟨b, _, rfl⟩ := List.mem_map.1 hf
    exact ⟨(clean_showInt _).plain, showInt_no (by decide) (by decide)⟩

lemma movie_line {m : Movie} (hm : m.Ok) {line : Str} (hl : chomp line = m.line) :
    ml100kItemLine line = .ok (printTab (movieRow m)) := by
  unfold ml100kItemLine
  rw [hl, Movie.line, split_join (by simp) (fun f hf => (movie_fields hm f hf).2)]
  have hlen : ((List.ofFn m.genres).map (fun b => showInt (bit b))).length = 18 := by simp
  have hd : ((([showInt m.id, m.title, m.release.text, m.video, m.url, m.unknown] ++
      (List.ofFn m.genres).map (fun b => showInt (bit b)))).take 24).drop 6 = (List.ofFn m.genres).map (fun b => showInt (bit b)) := by
    rw [List.take_of_length_le (by simp)]; rfl
  simp only [hd]
  simp only [List.cons_append, item_zero, item_succ, ok_bind, date_ok hm.release, List.nil_append]
  show Except.ok _ = _
  congr 1
  unfold printTab movieRow
  have := join_join (c := '\t') ([showInt m.id, m.title] ++ m.release.numbers.map showInt)
    ((List.ofFn m.genres).map (fun b => showInt (bit b))) [m.url] (by intro h; rw [h] at hlen; cases hlen)
  simpa using this

lemma numbers_length (r : Release) : r.numbers.length = 3 := by cases r <;> rfl

lemma movie_tidy {m : Movie} (hm : m.Ok) : Tidy (movieRow m) := by
  refine tidy_open (f := showInt m.id) (g := m.url)
    (gs := [showInt m.id, m.title] ++ m.release.numbers.map showInt ++ (List.ofFn m.genres).map (fun b => showInt (bit b)))
    rfl rfl (by simp) ?_ (showInt_ne_nil _) (showInt_head _) hm.last
  intro f hf
  simp only [movieRow, List.mem_append, List.mem_cons, List.mem_map, List.not_mem_nil, or_false] at hf
  rcases hf with (((rfl | rfl) | ⟨n, _, rfl⟩) | ⟨b, _, rfl⟩) | rfl
  · exact clean_showInt _
  · exact hm.title.1
  · exact clean_showInt _
  · exact clean_showInt _
  · exact hm.url.1

lemma movies_file {ms : List Movie} (hok : ∀ m ∈ ms, m.Ok) {text : Str} (ht : Text (ms.map Movie.line) text) :
    ∃ out, convMl100kItem text = .ok out ∧ File out (ms.map movieRow) :=
  conv_file headed_ml100kItem ht
    (fun m hm => plain_join (by decide) (fun f hf => (movie_fields (hok m hm) f hf).1))
    (fun m hm => movie_tidy (hok m hm)) (fun m hm _ hl => movie_line (hok m hm) hl)

lemma movie_written {m : Movie} (hm : m.Ok) : (movieRow m).length = 24 ∧
    Written (K := K) (.int :: ml100kItem) (movieRow m) (.int m.id :: m.feature) := by
  refine ⟨by simp [movieRow, numbers_length], ?_⟩
  have h1 : Written (K := K) [.str 134] [m.url] [.str m.url] := .cons (.str hm.short) (.nil _)
  have h2 := written_ints (K := K) (m.release.numbers ++ (List.ofFn m.genres).map bit) h1
  have h3 : Written (K := K) (.int :: .str 81 :: _) (showInt m.id :: m.title :: _) (.int m.id :: .str m.title :: _) :=
    .cons (.int m.id) (.cons (.str hm.fits) h2)
  have e1 : (m.release.numbers ++ (List.ofFn m.genres).map bit).length = 21 := by simp [numbers_length]
  rw [e1] at h3
  have e2 : movieRow m = showInt m.id :: m.title :: ((m.release.numbers ++ (List.ofFn m.genres).map bit).map showInt ++ [m.url]) := by
    simp [movieRow]
  have e3 : (m.feature : List (Cell K)) = .str m.title :: ((m.release.numbers ++ (List.ofFn m.genres).map bit).map Cell.int ++ [.str m.url]) := by
    simp [Movie.feature]
  rw [e2, e3]
  exact h3

/-! ### C75 -/

lemma covered_iff (times : Bool) (rs : List Rating) (us is : List (Int × List (Cell K))) :
    (Covered (rs.map (Rating.entry times)) 0 us ∧ Covered (rs.map (Rating.entry times)) 1 is) ↔
      ∀ r ∈ rs, (∃ p ∈ us, p.1 = r.user) ∧ ∃ m ∈ is, m.1 = r.item := by
  unfold Covered InColumn
  constructor
  · rintro ⟨h1, h2⟩ r hr
    exact ⟨List.mem_map.1 (h1 _ ⟨_, List.mem_map_of_mem hr, rfl⟩), List.mem_map.1 (h2 _ ⟨_, List.mem_map_of_mem hr, rfl⟩)⟩
  · intro h
    constructor
    · rintro x ⟨e, he, hx⟩
      obtain ⟨r, hr, rfl⟩ := List.mem_map.1 he
      cases hx
      exact List.mem_map.2 (h r hr).1
    · rintro x ⟨e, he, hx⟩
      obtain ⟨r, hr, rfl⟩ := List.mem_map.1 he
      cases hx
      exact List.mem_map.2 (h r hr).2

/-- Any event file with the ratings. -/
lemma ml100k_of_file (nan : K) {rs : List Rating} {ps : List Person} {ms : List Movie} {event tp tm : Str}
    (times : Bool) (hps : ∀ p ∈ ps, p.Ok) (hms : ∀ m ∈ ms, m.Ok)
    (hr : File event (rs.map (fun r => [showInt r.user, showInt r.item, showInt r.score, showInt r.time]))) (hp : Text (ps.map Person.line) tp) (hm : Text (ms.map Movie.line) tm)
    (hr1 : rs.length ≠ 1) (hp1 : ps.length ≠ 1) (hm1 : ms.length ≠ 1)
    (hpn : (ps.map Person.id).Nodup) (hmn : (ms.map Movie.id).Nodup) :
    ∃ user item, convMl100kUser tp = .ok user ∧ convMl100kItem tm = .ok item ∧
      ((∀ r ∈ rs, (∃ p ∈ ps, p.id = r.user) ∧ ∃ m ∈ ms, m.id = r.item) →
        ∃ d, loadMovielens100k nan event user item (if times then some timestamp else none) = .ok d ∧
          DataSet d [1, 5, 1] times (rs.map (Rating.entry times)) (ps.map (fun p => (p.id, p.feature)))
            (ms.map (fun m => (m.id, m.feature)))) ∧
      ((∃ r ∈ rs, (∀ p ∈ ps, p.id ≠ r.user) ∨ ∀ m ∈ ms, m.id ≠ r.item) →
        loadMovielens100k nan event user item (if times then some timestamp else none) = .error .indexError) := by
  obtain ⟨user, u1, u2⟩ := persons_file hps hp
  obtain ⟨item, i1, i2⟩ := movies_file hms hm
  obtain ⟨lv, hlv⟩ := levels_ok (1 : K) 5 (one_ne_zero)
  have key := load_three nan (feats := times) (fty := timestamp) (uty := ml100kUser) (ity := ml100kItem) (we := 4) (wu := 5) (wi := 24)
    (es := rs.map (Rating.entry times)) (users := ps.map (fun p => (p.id, p.feature))) (items := ms.map (fun m => (m.id, m.feature)))
    hlv hr u2 i2
    (by
      rw [List.forall₂_map_left_iff, List.forall₂_map_right_iff, List.forall₂_same]
      exact fun r _ => rating_written times r)
    (by
      rw [List.forall₂_map_left_iff, List.forall₂_map_right_iff, List.forall₂_same]
      exact fun p hp => person_written (hps p hp))
    (by
      rw [List.forall₂_map_left_iff, List.forall₂_map_right_iff, List.forall₂_same]
      exact fun m hm => movie_written (hms m hm))
    (by simpa using hr1) (by simpa using hp1) (by simpa using hm1)
    (by simpa [Function.comp_def] using hpn) (by simpa [Function.comp_def] using hmn)
  have hcov := covered_iff (K := K) times rs (ps.map (fun p => (p.id, p.feature))) (ms.map (fun m => (m.id, m.feature)))
  simp only [List.mem_map, exists_exists_and_eq_and] at hcov
  refine ⟨user, item, u1, i1, fun h => key.1 (hcov.2 h), fun h => key.2 ?_⟩
  rw [hcov]
  obtain ⟨r, hr, h⟩ := h
  intro hall
  rcases h with h | h
  · obtain ⟨p, hp, e⟩ := (hall r hr).1
    exact h p hp e
  · obtain ⟨m, hm, e⟩ := (hall r hr).2
    exact h m hm e

/-- C75: for all ratings, users and movies within the column widths and without separators and comment signs, written
in the format of the original files, the conversion scripts succeed, and loading the converted files gives exactly
these ratings with their times, and the features of every user and movie that occurs in a rating.  If a user or a
movie of a rating has no record, loading raises `IndexError`. -/
theorem C75_movielens100k_partial (nan : K) {rs : List Rating} {ps : List Person} {ms : List Movie} {tr tp tm : Str}
    (times : Bool) (hps : ∀ p ∈ ps, p.Ok) (hms : ∀ m ∈ ms, m.Ok)
    (hr : Text (rs.map Rating.line) tr) (hp : Text (ps.map Person.line) tp) (hm : Text (ms.map Movie.line) tm)
    (hr1 : rs.length ≠ 1) (hp1 : ps.length ≠ 1) (hm1 : ms.length ≠ 1)
    (hpn : (ps.map Person.id).Nodup) (hmn : (ms.map Movie.id).Nodup) :
    ∃ user item, convMl100kUser tp = .ok user ∧ convMl100kItem tm = .ok item ∧
      ((∀ r ∈ rs, (∃ p ∈ ps, p.id = r.user) ∧ ∃ m ∈ ms, m.id = r.item) →
        ∃ d, loadMovielens100k nan (convMl100kEvent tr) user item (if times then some timestamp else none) = .ok d ∧
          DataSet d [1, 5, 1] times (rs.map (Rating.entry times)) (ps.map (fun p => (p.id, p.feature)))
            (ms.map (fun m => (m.id, m.feature)))) ∧
      ((∃ r ∈ rs, (∀ p ∈ ps, p.id ≠ r.user) ∨ ∀ m ∈ ms, m.id ≠ r.item) →
        loadMovielens100k nan (convMl100kEvent tr) user item (if times then some timestamp else none) = .error .indexError) :=
  ml100k_of_file nan times hps hms (ratings_file hr) hp hm hr1 hp1 hm1 hpn hmn

/-- Two users. -/
def exPersons : List Person := [⟨7, 24, false, 19, "85711".toList⟩, ⟨12, 53, true, 1, "T8H1N".toList⟩]

/-- Two movies, one without date and url. -/
def exMovies : List Movie :=
  [⟨3, "Toy Story (1995)".toList, .date 1 1 0 1995, [], "http://x/?a".toList, "0".toList, fun g => g.1 == 2 || g.1 == 3⟩,
   ⟨-4, "unknown".toList, .none [], [], [], "1".toList, fun _ => false⟩]

/-- Three ratings. -/
def exRatings : List Rating := [⟨7, 3, 5, 881250949⟩, ⟨12, 3, 2, 1⟩, ⟨7, -4, 1, 0⟩]

lemma exPersons_text : Text (exPersons.map Person.line) "7|24|M|technician|85711\n12|53|F|other|T8H1N\n".toList := by
  have : exPersons.map Person.line = ["7|24|M|technician|85711".toList, "12|53|F|other|T8H1N".toList] := by decide
  rw [this]
  exact .lf (.lf .nil)

set_option maxRecDepth 4000 in
lemma exMovies_text : Text (exMovies.map Movie.line)
    "3|Toy Story (1995)|01-Jan-1995||http://x/?a|0|0|0|1|1|0|0|0|0|0|0|0|0|0|0|0|0|0|0\n-4|unknown||||1|0|0|0|0|0|0|0|0|0|0|0|0|0|0|0|0|0|0".toList := by
  have : exMovies.map Movie.line = ["3|Toy Story (1995)|01-Jan-1995||http://x/?a|0|0|0|1|1|0|0|0|0|0|0|0|0|0|0|0|0|0|0".toList,
    "-4|unknown||||1|0|0|0|0|0|0|0|0|0|0|0|0|0|0|0|0|0|0".toList] := by decide
  rw [this]
  exact .lf (.last (by decide))

lemma exRatings_text : Text (exRatings.map Rating.line) "7\t3\t5\t881250949\n12\t3\t2\t1\r\n7\t-4\t1\t0\n".toList := by
  have : exRatings.map Rating.line = ["7\t3\t5\t881250949".toList, "12\t3\t2\t1".toList, "7\t-4\t1\t0".toList] := by decide
  rw [this]
  exact .lf (.crlf (.lf .nil))

lemma exPersons_ok : ∀ p ∈ exPersons, p.Ok := by
  intro p hp
  simp only [exPersons, List.mem_cons, List.not_mem_nil, or_false] at hp
  rcases hp with rfl | rfl <;> unfold Person.Ok FieldOf Clean <;> decide

lemma exMovies_ok : ∀ m ∈ exMovies, m.Ok := by
  intro m hm
  simp only [exMovies, List.mem_cons, List.not_mem_nil, or_false] at hm
  rcases hm with rfl | rfl
  · exact ⟨by unfold FieldOf Clean; decide, by decide, trivial, by unfold Plain; decide, by unfold FieldOf Clean; decide,
      by decide, by decide, by unfold Plain; decide⟩
  · exact ⟨by unfold FieldOf Clean; decide, by decide, by unfold Release.Ok FieldOf Clean; decide, by unfold Plain; decide,
      by unfold FieldOf Clean; decide, by decide, by decide, by unfold Plain; decide⟩

example : ∃ user item d, convMl100kUser "7|24|M|technician|85711\n12|53|F|other|T8H1N\n".toList = .ok user ∧
    convMl100kItem "3|Toy Story (1995)|01-Jan-1995||http://x/?a|0|0|0|1|1|0|0|0|0|0|0|0|0|0|0|0|0|0|0\n-4|unknown||||1|0|0|0|0|0|0|0|0|0|0|0|0|0|0|0|0|0|0".toList = .ok item ∧
    loadMovielens100k (0 : ℚ) (convMl100kEvent "7\t3\t5\t881250949\n12\t3\t2\t1\r\n7\t-4\t1\t0\n".toList) user item (some timestamp) = .ok d ∧
    Reads d.toEventData [[7, 3], [12, 3], [7, -4]] ∧ d.score = some [5, 2, 1] ∧
    HasFeature d 0 12 [.int 53, .int 1, .int 1, .str "T8H1N".toList] := by
  obtain ⟨user, item, h1, h2, h3, _⟩ := C75_movielens100k_partial (0 : ℚ) true exPersons_ok exMovies_ok exRatings_text exPersons_text
    exMovies_text (by decide) (by decide) (by decide) (by decide) (by decide)
  obtain ⟨d, h4, h5⟩ := h3 (by decide)
  refine ⟨user, item, d, h1, h2, h4, h5.events, ?_, ?_⟩
  · rw [h5.score]; rfl
  · exact h5.user (12, [.int 53, .int 1, .int 1, .str "T8H1N".toList]) (.tail _ (.head _)) ⟨_, .tail _ (.head _), rfl⟩

set_option maxRecDepth 4000 in
/-- C75 fails in general: with a comment sign in one title, the conversion succeeds and the converted files cannot be
loaded. -/
theorem C75_refuted : ¬ ∀ (ms : List Movie) (tm : Str), Text (ms.map Movie.line) tm →
    (∀ m ∈ ms, Plain m.title ∧ '|' ∉ m.title ∧ '\t' ∉ m.title ∧ m.title.length ≤ 81 ∧
      ({ m with title := [] } : Movie).Ok) → ms.length ≠ 1 → (ms.map Movie.id).Nodup → 
    ∃ item d, convMl100kItem tm = .ok item ∧ loadMovielens100k (0 : ℚ) (convMl100kEvent [])
      (head ml100kHeadUser) item none = .ok d := by
  intro h
  let m1 : Movie := ⟨1, "Go #1".toList, .none [], [], [], "1".toList, fun _ => false⟩
  let m2 : Movie := ⟨2, "Go".toList, .none [], [], [], "1".toList, fun _ => false⟩
  have hl : [m1, m2].map Movie.line = ["1|Go #1||||1|0|0|0|0|0|0|0|0|0|0|0|0|0|0|0|0|0|0".toList,
    "2|Go||||1|0|0|0|0|0|0|0|0|0|0|0|0|0|0|0|0|0|0".toList] := by decide
  obtain ⟨item, d, h1, h2⟩ := h [m1, m2] "1|Go #1||||1|0|0|0|0|0|0|0|0|0|0|0|0|0|0|0|0|0|0\n2|Go||||1|0|0|0|0|0|0|0|0|0|0|0|0|0|0|0|0|0|0".toList
    (by rw [hl]; exact .lf (.last (by decide)))
    (by
      intro m hm
      have hk : ∀ m : Movie, m = m1 ∨ m = m2 → ({ m with title := [] } : Movie).Ok := by
        rintro m (rfl | rfl) <;>
          exact ⟨by unfold FieldOf Clean; decide, by decide, by unfold Release.Ok FieldOf Clean; decide, by unfold Plain; decide,
            by unfold FieldOf Clean; decide, by decide, by decide, by unfold Plain; decide⟩
      have hm' : m = m1 ∨ m = m2 := by simpa using hm
      refine ⟨?_, ?_, ?_, ?_, hk m hm'⟩ <;> rcases hm' with rfl | rfl <;> first | (unfold Plain; decide) | decide)
    (by decide) (by decide)
  have hconv : convMl100kItem "1|Go #1||||1|0|0|0|0|0|0|0|0|0|0|0|0|0|0|0|0|0|0\n2|Go||||1|0|0|0|0|0|0|0|0|0|0|0|0|0|0|0|0|0|0".toList =
      .ok (head ml100kHeadItem ++ "1\tGo #1\t0\t0\t0\t0\t0\t0\t0\t0\t0\t0\t0\t0\t0\t0\t0\t0\t0\t0\t0\t0\t0\t\n2\tGo\t0\t0\t0\t0\t0\t0\t0\t0\t0\t0\t0\t0\t0\t0\t0\t0\t0\t0\t0\t0\t0\t\n".toList) := by
    unfold convMl100kItem
    have : (readlines "1|Go #1||||1|0|0|0|0|0|0|0|0|0|0|0|0|0|0|0|0|0|0\n2|Go||||1|0|0|0|0|0|0|0|0|0|0|0|0|0|0|0|0|0|0".toList).mapM ml100kItemLine =
        .ok ["1\tGo #1\t0\t0\t0\t0\t0\t0\t0\t0\t0\t0\t0\t0\t0\t0\t0\t0\t0\t0\t0\t0\t0\t\n".toList,
          "2\tGo\t0\t0\t0\t0\t0\t0\t0\t0\t0\t0\t0\t0\t0\t0\t0\t0\t0\t0\t0\t0\t0\t\n".toList] := by decide +kernel
    rw [this]
    rfl
  rw [hconv] at h1
  have hit := Except.ok.inj h1
  have hfile : File item [["1".toList, "Go".toList],
      ["2", "Go", "0", "0", "0", "0", "0", "0", "0", "0", "0", "0", "0", "0", "0", "0", "0", "0", "0", "0", "0", "0", "0", ""].map String.toList] := by
    rw [← hit]
    refine file_head headed_ml100kItem ⟨["1\tGo #1\t0\t0\t0\t0\t0\t0\t0\t0\t0\t0\t0\t0\t0\t0\t0\t0\t0\t0\t0\t0\t0\t".toList,
      "2\tGo\t0\t0\t0\t0\t0\t0\t0\t0\t0\t0\t0\t0\t0\t0\t0\t0\t0\t0\t0\t0\t0\t".toList], .lf (.lf .nil), by unfold Plain; decide, ?_⟩
    exact rows_remark 0 1 "1\t0\t0\t0\t0\t0\t0\t0\t0\t0\t0\t0\t0\t0\t0\t0\t0\t0\t0\t0\t0\t0\t".toList
      ⟨by unfold Clean; decide, by decide, by decide, by decide⟩ (by decide)
      (rows_row ⟨by unfold Clean; decide, by decide, by decide, by decide⟩ (by decide) .nil)
  have hg := genfromtxt_ragged (0 : ℚ) (.int :: ml100kItem) hfile (.head _) (.tail _ (.head _)) (by decide)
  unfold loadMovielens100k at h2
  cases ha : (loadEventWithScore (0 : ℚ) (convMl100kEvent []) 2 (.arr 1 [0, 1]) (some [1, 5, 1]) none :
      Res (ScoreData ℚ Int (List (Cell ℚ)) (List (Cell ℚ)))) with
  | error e => rw [ha] at h2; cases h2
  | ok d1 =>
    rw [ha] at h2
    simp only [ok_bind] at h2
    cases hb : loadFeature (0 : ℚ) (head ml100kHeadUser) ml100kUser d1 0 with
    | error e => rw [hb] at h2; cases h2
    | ok d2 =>
      rw [hb] at h2
      simp only [ok_bind] at h2
      unfold loadFeature at h2
      rw [hg] at h2
      cases h2

end Kam.Convert
