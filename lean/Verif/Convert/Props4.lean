/-
C77: MovieLens 1m from the original files to the loaded data.
-/
import Verif.Convert.Props3

set_option linter.unusedSectionVars false

namespace Kam.Convert
open Convert.Spec Kam.Spec

variable {K φ ε : Type} [Field K] [LinearOrder K] [IsStrictOrderedRing K] [FloorRing K]

/-! ### The separator `::` -/

lemma noColons_of {f : Str} (h : ':' ∉ f) : NoColons f := by
  induction f with
  | nil => trivial
  | cons c f ih =>
    simp only [List.mem_cons, not_or] at h
    have := ih h.2
    cases f with
    | nil =>
      unfold NoColons
      split
      · rename_i heq; simp at heq
      · rename_i heq; simp at heq; rw [heq.2]; trivial
      · trivial
    | cons d f =>
      unfold NoColons
      split
      · rename_i heq; simp at heq; exact absurd heq.1.symm h.1
      · rename_i heq; simp at heq; rw [← heq.2]; exact this
      · trivial

lemma NoColons_cons {c : Char} {s : Str} : NoColons (c :: s) ↔ ¬ (c = ':' ∧ s.head? = some ':') ∧ NoColons s := by
  conv_lhs => unfold NoColons
  split
  · rename_i heq; simp at heq; simp [heq]
  · rename_i x s' hx heq
    simp at heq
    obtain ⟨rfl, rfl⟩ := heq
    refine ⟨fun h => ⟨?_, h⟩, fun h => h.2⟩
    rintro ⟨h1, h2⟩
    cases s with
    | nil => cases h2
    | cons d s =>
      cases h2
      exact hx s h1 rfl
  · rename_i heq; cases heq

lemma splitColons_cons {c : Char} {s : Str} (h : ¬ (c = ':' ∧ s.head? = some ':')) :
    splitColons (c :: s) = consHead c (splitColons s) := by
  conv_lhs => unfold splitColons
  split
  · rename_i heq; cases heq
  · rename_i heq; simp at heq; exact absurd ⟨heq.1, by rw [heq.2]; rfl⟩ h
  · rename_i heq; simp at heq; rw [heq.1, heq.2]

lemma splitColons_self {f : Str} (h : NoColons f) : splitColons f = [f] := by
  induction f with
  | nil => rfl
  | cons c f ih =>
    rw [NoColons_cons] at h
    rw [splitColons_cons h.1, ih h.2]; rfl

lemma splitColons_append {f : Str} (h : NoColons f) (hl : f.getLast? ≠ some ':') (s : Str) :
    splitColons (f ++ ':' :: ':' :: s) = f :: splitColons s := by
  induction f with
  | nil => simp [splitColons]
  | cons c f ih =>
    rw [NoColons_cons] at h
    have hl' : f.getLast? ≠ some ':' := by
      cases f with
      | nil => simp
      | cons d f => simpa [List.getLast?_cons_cons] using hl
    rw [List.cons_append, splitColons_cons, ih h.2 hl']
    · rfl
    · rintro ⟨h1, h2⟩
      cases f with
      | nil => subst h1; simp at hl
      | cons d f => exact h.1 ⟨h1, by simpa using h2⟩

/-- Fields that can stand between colons. -/
def ColonField (f : Str) : Prop := NoColons f ∧ f.getLast? ≠ some ':'

lemma splitColons_join {fs : List Str} (hne : fs ≠ []) (h : ∀ f ∈ fs, ColonField f) :
    splitColons (List.intercalate "::".toList fs) = fs := by
  induction fs with
  | nil => exact absurd rfl hne
  | cons f fs ih =>
    cases fs with
    | nil =>
      have : List.intercalate "::".toList [f] = f := by simp [List.intercalate]
      rw [this]
      exact splitColons_self (h f (by simp)).1
    | cons g fs =>
      have e : List.intercalate "::".toList (f :: g :: fs) = f ++ ':' :: ':' :: List.intercalate "::".toList (g :: fs) := by
        simp [List.intercalate]
      rw [e, splitColons_append (h f (by simp)).1 (h f (by simp)).2, ih (by simp) (fun f hf => h f (List.mem_cons_of_mem _ hf))]

lemma colonField_of {f : Str} (h : ':' ∉ f) : ColonField f :=
  ⟨noColons_of h, fun e => h (List.mem_of_getLast? e)⟩

lemma plain_colons {fs : List Str} (h : ∀ f ∈ fs, Plain f) : Plain (List.intercalate "::".toList fs) := by
  have key : ∀ c : Char, c ≠ ':' → (∀ f ∈ fs, c ∉ f) → c ∉ List.intercalate "::".toList fs := by
    intro c hc hf hm
    clear h
    induction fs with
    | nil => simp [List.intercalate] at hm
    | cons f fs ih =>
      cases fs with
      | nil =>
        have : List.intercalate "::".toList [f] = f := by simp [List.intercalate]
        rw [this] at hm
        exact hf f (by simp) hm
      | cons g fs =>
        have e : List.intercalate "::".toList (f :: g :: fs) = f ++ ':' :: ':' :: List.intercalate "::".toList (g :: fs) := by
          simp [List.intercalate]
        rw [e] at hm
        rcases List.mem_append.1 hm with h1 | h1
        · exact hf f (by simp) h1
        · simp only [List.mem_cons] at h1
          rcases h1 with h1 | h1 | h1
          · exact hc h1
          · exact hc h1
          · exact ih (fun f hf' => hf f (List.mem_cons_of_mem _ hf')) h1
  exact ⟨key _ (by decide) (fun f hf => (h f hf).1), key _ (by decide) (fun f hf => (h f hf).2)⟩

/-! ### Events -/

lemma ratings1m_file {rs : List Rating} {text : Str} (ht : Text (rs.map Rating.line1m) text) :
    File (convMl1mEvent text) (rs.map (fun r => [showInt r.user, showInt r.item, showInt r.score, showInt r.time])) := by
  refine conv_file_flat headed_ml1mEvent ht ?_ ?_ ?_
  · intro r _
    refine plain_colons ?_
    intro f hf
    obtain ⟨n, rfl⟩ := rating_fields r f hf
    exact (clean_showInt n).plain
  · intro r _
    exact tidy_ints (ns := [r.user, r.item, r.score, r.time]) (by simp)
  · intro r _ line hl
    unfold ml1mEventLine
    rw [hl, Rating.line1m, splitColons_join (by simp)]
    intro f hf
    obtain ⟨n, rfl⟩ := rating_fields r f hf
    exact colonField_of (showInt_no (by decide) (by decide))

/-! ### Users -/

/-- The row of a user. -/
def person1mRow (p : Person1m) : List Str :=
  [showInt p.id, showInt (if p.female then 1 else 0), showInt p.age, showInt p.occupation, p.zip.take 5]

lemma age_get (k : Fin 7) : age.getItem (String.ofList (showInt (ages.getD k 0))) = .ok k.1 := by
  revert k; decide +kernel

lemma person1m_fields {p : Person1m} (hp : p.Ok) : ∀ f ∈ [showInt p.id, letter p.female, showInt (ages.getD p.age 0),
    showInt p.occupation, p.zip], Plain f ∧ ':' ∉ f := by
  intro f hf
  simp only [List.mem_cons, List.not_mem_nil, or_false] at hf
  rcases hf with rfl | rfl | rfl | rfl | rfl
  · exact ⟨(clean_showInt _).plain, showInt_no (by decide) (by decide)⟩
  · exact ⟨(letter_clean _).1, by cases p.female <;> decide⟩
  · exact ⟨(clean_showInt _).plain, showInt_no (by decide) (by decide)⟩
  · exact ⟨(clean_showInt _).plain, showInt_no (by decide) (by decide)⟩
  · exact ⟨hp.1.1.plain, hp.1.2⟩

lemma person1m_line {p : Person1m} (hp : p.Ok) {line : Str} (hl : chomp line = p.line) :
    ml1mUserLine line = .ok (printTab (person1mRow p)) := by
  unfold ml1mUserLine
  rw [hl, Person1m.line, splitColons_join (by simp) (fun f hf => colonField_of (person1m_fields hp f hf).2)]
  simp only [item_zero, item_succ, ok_bind, gender_letter, age_get]
  rfl

lemma person1m_tidy {p : Person1m} (hp : p.Ok) : Tidy (person1mRow p) := by
  refine tidy_open (f := showInt p.id) (g := p.zip.take 5)
    (gs := [showInt p.id, showInt (if p.female then 1 else 0), showInt p.age, showInt p.occupation]) rfl rfl (by simp) ?_
    (showInt_ne_nil _) (showInt_head _) hp.2
  intro f hf
  simp only [person1mRow, List.mem_cons, List.not_mem_nil, or_false] at hf
  rcases hf with rfl | rfl | rfl | rfl | rfl
  · exact clean_showInt _
  · exact clean_showInt _
  · exact clean_showInt _
  · exact clean_showInt _
  · have := hp.1.1
    exact ⟨fun h => this.1 (List.mem_of_mem_take h), fun h => this.2.1 (List.mem_of_mem_take h),
      fun h => this.2.2.1 (List.mem_of_mem_take h), fun h => this.2.2.2 (List.mem_of_mem_take h)⟩

lemma persons1m_file {ps : List Person1m} (hok : ∀ p ∈ ps, p.Ok) {text : Str} (ht : Text (ps.map Person1m.line) text) :
    ∃ out, convMl1mUser text = .ok out ∧ File out (ps.map person1mRow) :=
  conv_file headed_ml1mUser ht
    (fun p hp => plain_colons (fun f hf => (person1m_fields (hok p hp) f hf).1))
    (fun p hp => person1m_tidy (hok p hp)) (fun p hp _ hl => person1m_line (hok p hp) hl)

lemma person1m_written (p : Person1m) : (person1mRow p).length = 5 ∧
    Written (K := K) (.int :: ml1mUser) (person1mRow p) (.int p.id :: p.feature) :=
  ⟨rfl, .cons (.int _) (.cons (.int _) (.cons (.int _) (.cons (.int _) (.cons (.str (by simp)) (.nil _)))))⟩

/-! ### Items -/

/-- The row of a movie. -/
def movie1mRow (m : Movie1m) : List Str :=
  [showInt m.id, m.title, showInt m.year] ++ List.ofFn (fun g => showInt (bit (decide (g ∈ m.genres))))

lemma escape_head {s : Str} (h : '#' ∉ s) : (escape s).head? ≠ some '#' := by
  cases s with
  | nil => simp [escape]
  | cons c s =>
    rw [escape]
    split
    · simp
    · intro e
      simp at e
      exact h (by rw [e]; simp)

lemma ellipsis_cons {c : Char} {s : Str} (h : ¬ (c = '&' ∧ s.head? = some '#')) : ellipsis (c :: s) = c :: ellipsis s := by
  conv_lhs => unfold ellipsis
  split
  · rename_i heq; simp at heq; exact absurd ⟨heq.1, by rw [heq.2]; rfl⟩ h
  · rename_i heq; simp at heq; rw [heq.1, heq.2]
  · rename_i heq; cases heq

lemma ellipsis_escape {s : Str} (h : '#' ∉ s) : ellipsis (escape s) = s := by
  induction s with
  | nil => rfl
  | cons c s ih =>
    simp only [List.mem_cons, not_or] at h
    rw [escape]
    split
    · rename_i hc
      have : "&#8230;".toList ++ escape s = '&' :: '#' :: '8' :: '2' :: '3' :: '0' :: ';' :: escape s := rfl
      rw [this]
      show Char.ofNat 0x2026 :: ellipsis (escape s) = _
      rw [ih h.2, hc]
    · rw [ellipsis_cons (fun e => escape_head h.2 e.2), ih h.2]

lemma escape_mem {s : Str} {c : Char} (h : c ∈ escape s) : c ∈ s ∨ c ∈ "&#8230;".toList := by
  induction s with
  | nil => cases h
  | cons d s ih =>
    rw [escape] at h
    split at h
    · rcases List.mem_append.1 h with h | h
      · exact .inr h
      · exact (ih h).imp (List.mem_cons_of_mem _) id
    · rcases List.mem_cons.1 h with rfl | h
      · exact .inl List.mem_cons_self
      · exact (ih h).imp (List.mem_cons_of_mem _) id

lemma escape_colons {s : Str} (h : NoColons s) : NoColons (escape s) := by
  induction s with
  | nil => trivial
  | cons c s ih =>
    rw [NoColons_cons] at h
    have h2 := ih h.2
    rw [escape]
    split
    · have : "&#8230;".toList ++ escape s = '&' :: '#' :: '8' :: '2' :: '3' :: '0' :: ';' :: escape s := rfl
      rw [this]
      simp only [NoColons_cons]
      exact ⟨by simp, by simp, by simp, by simp, by simp, by simp, by simp, h2⟩
    · rw [NoColons_cons]
      refine ⟨?_, h2⟩
      rintro ⟨h3, h4⟩
      refine h.1 ⟨h3, ?_⟩
      cases s with
      | nil => cases h4
      | cons d s =>
        rw [escape] at h4
        split at h4
        · simp at h4
        · simpa using h4

lemma showNat (y : Nat) : showInt (y : Int) = Nat.toDigits 10 y := by
  unfold showInt
  rw [if_neg (by omega)]; rfl

lemma noColons_append {a b : Str} (ha : NoColons a) (hb : NoColons b) (h : ¬ (a.getLast? = some ':' ∧ b.head? = some ':')) :
    NoColons (a ++ b) := by
  induction a with
  | nil => exact hb
  | cons c a ih =>
    rw [NoColons_cons] at ha
    rw [List.cons_append, NoColons_cons]
    cases a with
    | nil =>
      refine ⟨?_, hb⟩
      rintro ⟨rfl, h2⟩
      exact h ⟨rfl, by simpa using h2⟩
    | cons d a =>
      refine ⟨fun e => ha.1 ⟨e.1, by simpa using e.2⟩, ih ha.2 ?_⟩
      rintro ⟨h1, h2⟩
      exact h ⟨by simpa [List.getLast?_cons_cons] using h1, h2⟩

lemma title_colons {m : Movie1m} (hm : m.Ok) : NoColons m.title := by
  have e : m.title = m.name ++ (" (".toList ++ showInt m.year ++ ")".toList) := by simp [Movie1m.title]
  rw [e]
  refine noColons_append hm.colons (noColons_of ?_) ?_
  · intro h
    rcases List.mem_append.1 h with h | h
    · rcases List.mem_append.1 h with h | h
      · exact absurd h (by decide)
      · exact showInt_no (by decide) (by decide) h
    · exact absurd h (by decide)
  · rintro ⟨_, h⟩; simp at h

lemma title_clean {m : Movie1m} (hm : m.Ok) : Clean m.title := by
  have key : ∀ c : Char, c ∉ m.name → c ∉ " (".toList → c ∉ showInt (m.year : Int) → c ∉ ")".toList → c ∉ m.title := by
    intro c h1 h2 h3 h4 h
    unfold Movie1m.title at h
    simp only [List.mem_append] at h
    rcases h with ((h | h) | h) | h
    · exact h1 h
    · exact h2 h
    · exact h3 h
    · exact h4 h
  have hc := hm.clean
  have hy := clean_showInt (m.year : Int)
  exact ⟨key _ hc.1 (by decide) hy.1 (by decide), key _ hc.2.1 (by decide) hy.2.1 (by decide),
    key _ hc.2.2.1 (by decide) hy.2.2.1 (by decide), key _ hc.2.2.2 (by decide) hy.2.2.2 (by decide)⟩

lemma title_year {m : Movie1m} (hm : m.Ok) : year m.title = .ok (showInt m.year) := by
  have hl := hm.year
  have hd : ∀ c ∈ showInt (m.year : Int), c.isDigit = true := by
    rw [showNat]; exact fun c hc => toDigits_digit hc
  unfold Movie1m.title
  generalize showInt (m.year : Int) = y at hl hd
  match y, hl with
  | [a, b, c, d], _ =>
    unfold year
    have : (m.name ++ " (".toList ++ [a, b, c, d] ++ ")".toList).reverse = ')' :: d :: c :: b :: a :: '(' :: ' ' :: m.name.reverse := by
      simp
    rw [this]
    simp only []
    rw [if_pos]
    have h1 := hd a (by simp)
    have h2 := hd b (by simp)
    have h3 := hd c (by simp)
    have h4 := hd d (by simp)
    simp [h1, h2, h3, h4]

lemma showInt_3845 (n : Int) : showInt n = "3845".toList ↔ n = 3845 := by
  constructor
  · intro h
    have := intOf_showInt n
    rw [h] at this
    have e : intOf "3845".toList = some 3845 := by decide
    rw [e] at this
    exact (Option.some.inj this).symm
  · rintro rfl; decide

lemma title_back {m : Movie1m} (hm : m.Ok) :
    (if showInt m.id = "3845".toList then ellipsis (if m.id = 3845 then escape m.title else m.title)
      else (if m.id = 3845 then escape m.title else m.title)) = m.title := by
  by_cases h : m.id = 3845
  · rw [if_pos ((showInt_3845 _).2 h), if_pos h, ellipsis_escape (title_clean hm).2.2.2]
  · rw [if_neg (fun e => h ((showInt_3845 _).1 e)), if_neg h]

lemma genre_get (k : Fin 18) : genre.getItem (String.ofList (genreNames.getD k "").toList) = .ok k.1 := by
  revert k; decide +kernel

lemma genre_clean (k : Fin 18) : Plain (genreNames.getD k "").toList ∧ ':' ∉ (genreNames.getD k "").toList ∧
    '|' ∉ (genreNames.getD k "").toList := by
  unfold Plain
  revert k; decide +kernel

lemma genres_fold (gs : List (Fin 18)) (S : Fin 18 → Bool) :
    (gs.map (fun g : Fin 18 => (genreNames.getD g "").toList)).foldlM (fun o i => do
      let k ← genre.getItem (String.ofList i)
      return o.set k "1".toList) (List.ofFn (fun g => showInt (bit (S g)))) =
    (.ok (List.ofFn (fun g => showInt (bit (S g || decide (g ∈ gs))))) : Res (List Str)) := by
  induction gs generalizing S with
  | nil => simp; rfl
  | cons g gs ih =>
    rw [List.map_cons, List.foldlM_cons]
    simp only [genre_get, ok_bind]
    have e : (List.ofFn (fun h => showInt (bit (S h)))).set g.1 "1".toList =
        List.ofFn (fun h => showInt (bit (S h || decide (h = g)))) := by
      apply List.ext_getElem
      · simp
      · intro i h1 h2
        rw [List.getElem_set]
        simp only [List.getElem_ofFn]
        by_cases hi : g.1 = i
        · subst hi
          simp [bit]; decide
        · rw [if_neg hi]
          have : ¬ ((⟨i, by simpa using h2⟩ : Fin 18) = g) := fun e => hi (by rw [← e])
          simp [this]
    show ((pure _ : Res (List Str)) >>= _) = _
    rw [pure_bind, e, ih]
    simp [List.mem_cons, Bool.or_assoc]

lemma genres_ok (gs : List (Fin 18)) : genres (gs.map (fun g : Fin 18 => (genreNames.getD g "").toList)) =
    .ok (List.ofFn (fun g => showInt (bit (decide (g ∈ gs))))) := by
  unfold genres
  have e : (List.replicate 18 "0".toList : List Str) = List.ofFn (fun _ : Fin 18 => showInt (bit false)) := by decide
  rw [e, genres_fold gs (fun _ => false)]
  simp

lemma movie1m_fields {m : Movie1m} (hm : m.Ok) : ∀ f ∈ [showInt m.id, if m.id = 3845 then escape m.title else m.title,
    join '|' (m.genres.map (fun g : Fin 18 => (genreNames.getD g "").toList))], Plain f ∧ ColonField f := by
  have ht := title_clean hm
  have hlast : m.title.getLast? = some ')' := by
    unfold Movie1m.title
    rw [List.getLast?_append_of_ne_nil _ (by decide)]; rfl
  intro f hf
  simp only [List.mem_cons, List.not_mem_nil, or_false] at hf
  rcases hf with rfl | rfl | rfl
  · exact ⟨(clean_showInt _).plain, colonField_of (showInt_no (by decide) (by decide))⟩
  · split
    · refine ⟨⟨?_, ?_⟩, escape_colons (title_colons hm), ?_⟩
      · intro h
        rcases escape_mem h with h | h
        · exact ht.plain.1 h
        · exact absurd h (by decide)
      · intro h
        rcases escape_mem h with h | h
        · exact ht.plain.2 h
        · exact absurd h (by decide)
      · have key : ∀ s : Str, s.getLast? = some ')' → (escape s).getLast? = some ')' := by
          intro s hs
          induction s with
          | nil => cases hs
          | cons c s ih =>
            cases s with
            | nil =>
              simp at hs
              subst hs
              decide
            | cons d s =>
              have h1 := ih (by simpa [List.getLast?_cons_cons] using hs)
              have hne : escape (d :: s) ≠ [] := by intro e; rw [e] at h1; cases h1
              rw [escape]
              split
              · rw [List.getLast?_append_of_ne_nil _ hne, h1]
              · obtain ⟨x, l, hl⟩ := List.exists_cons_of_ne_nil hne
                rw [hl, List.getLast?_cons_cons, ← hl, h1]
        rw [key _ hlast]; decide
    · exact ⟨ht.plain, title_colons hm, by rw [hlast]; decide⟩
  · have hf : ∀ f ∈ m.genres.map (fun g : Fin 18 => (genreNames.getD g "").toList), Plain f ∧ ':' ∉ f := by
      intro f hf
      obtain ⟨g, _, rfl⟩ := List.mem_map.1 hf
      exact ⟨(genre_clean g).1, (genre_clean g).2.1⟩
    refine ⟨plain_join (by decide) (fun f h => (hf f h).1), colonField_of ?_⟩
    intro h
    rcases mem_join h with h | ⟨f, h1, h2⟩
    · exact absurd h (by decide)
    · exact (hf f h1).2 h2

lemma movie1m_line {m : Movie1m} (hm : m.Ok) {line : Str} (hl : chomp line = m.line) :
    ml1mItemLine line = .ok (printTab (movie1mRow m)) := by
  unfold ml1mItemLine
  rw [hl, Movie1m.line, splitColons_join (by simp) (fun f hf => (movie1m_fields hm f hf).2)]
  have hg : split '|' (join '|' (m.genres.map (fun g : Fin 18 => (genreNames.getD g "").toList))) =
      m.genres.map (fun g : Fin 18 => (genreNames.getD g "").toList) := by
    refine split_join (by simpa using hm.genres) ?_
    intro f hf
    obtain ⟨g, _, rfl⟩ := List.mem_map.1 hf
    exact (genre_clean g).2.2
  simp only [item_zero, item_succ, ok_bind, title_back hm, title_year hm, hg, genres_ok]
  rfl

lemma bit_last (b : Bool) : showInt (bit b) ≠ [] ∧ (showInt (bit b)).getLast? ≠ some ' ' :=
  ⟨showInt_ne_nil _, showInt_last _⟩

lemma movie1m_tidy {m : Movie1m} (hm : m.Ok) : Tidy (movie1mRow m) := by
  have hsnoc : movie1mRow m = ([showInt m.id, m.title, showInt m.year] ++
      List.ofFn (fun g : Fin 17 => showInt (bit (decide (g.castSucc ∈ m.genres))))) ++
      [showInt (bit (decide (Fin.last 17 ∈ m.genres)))] := by
    unfold movie1mRow
    rw [List.ofFn_succ', List.concat_eq_append, List.append_assoc]
  refine tidy_of (f := showInt m.id) rfl hsnoc ?_ (showInt_ne_nil _) (showInt_head _) (showInt_ne_nil _) (showInt_last _)
  intro f hf
  simp only [movie1mRow, List.mem_append, List.mem_cons, List.mem_ofFn, List.not_mem_nil, or_false] at hf
  rcases hf with (rfl | rfl | rfl) | ⟨g, rfl⟩
  · exact clean_showInt _
  · exact title_clean hm
  · exact clean_showInt _
  · exact clean_showInt _

lemma movies1m_file {ms : List Movie1m} (hok : ∀ m ∈ ms, m.Ok) {text : Str} (ht : Text (ms.map Movie1m.line) text) :
    ∃ out, convMl1mItem text = .ok out ∧ File out (ms.map movie1mRow) :=
  conv_file headed_ml1mItem ht
    (fun m hm => plain_colons (fun f hf => (movie1m_fields (hok m hm) f hf).1))
    (fun m hm => movie1m_tidy (hok m hm)) (fun m hm _ hl => movie1m_line (hok m hm) hl)

lemma movie1m_written {m : Movie1m} (hm : m.Ok) : (movie1mRow m).length = 21 ∧
    Written (K := K) (.int :: ml1mItem) (movie1mRow m) (.int m.id :: m.feature) := by
  refine ⟨by simp [movie1mRow], ?_⟩
  have h2 := written_ints (K := K) ((m.year : Int) :: List.ofFn (fun g => bit (decide (g ∈ m.genres)))) (.nil [])
  have h3 : Written (K := K) (.int :: .str 82 :: _) (showInt m.id :: m.title :: _) (.int m.id :: .str m.title :: _) :=
    .cons (.int m.id) (.cons (.str hm.fits) h2)
  have e1 : ((m.year : Int) :: List.ofFn (fun g => bit (decide (g ∈ m.genres)))).length = 19 := by simp
  rw [e1] at h3
  have e2 : movie1mRow m = showInt m.id :: m.title ::
      (((m.year : Int) :: List.ofFn (fun g => bit (decide (g ∈ m.genres)))).map showInt ++ []) := by
    simp [movie1mRow]
  have e3 : (m.feature : List (Cell K)) = .str m.title ::
      (((m.year : Int) :: List.ofFn (fun g => bit (decide (g ∈ m.genres)))).map Cell.int ++ []) := by
    simp [Movie1m.feature]
  rw [e2, e3]
  exact h3

/-! ### C77 -/

/-- C77: the same for MovieLens 1m: ratings with their times, users with the age group, and movies with their year and
the set of their genres. -/
theorem C77_movielens1m_partial (nan : K) {rs : List Rating} {ps : List Person1m} {ms : List Movie1m} {tr tp tm : Str}
    (times : Bool) (hps : ∀ p ∈ ps, p.Ok) (hms : ∀ m ∈ ms, m.Ok)
    (hr : Text (rs.map Rating.line1m) tr) (hp : Text (ps.map Person1m.line) tp) (hm : Text (ms.map Movie1m.line) tm)
    (hr1 : rs.length ≠ 1) (hp1 : ps.length ≠ 1) (hm1 : ms.length ≠ 1)
    (hpn : (ps.map Person1m.id).Nodup) (hmn : (ms.map Movie1m.id).Nodup) :
    ∃ user item, convMl1mUser tp = .ok user ∧ convMl1mItem tm = .ok item ∧
      ((∀ r ∈ rs, (∃ p ∈ ps, p.id = r.user) ∧ ∃ m ∈ ms, m.id = r.item) →
        ∃ d, loadMovielens1m nan (convMl1mEvent tr) user item (if times then some timestamp else none) = .ok d ∧
          DataSet d [1, 5, 1] times (rs.map (Rating.entry times)) (ps.map (fun p => (p.id, p.feature)))
            (ms.map (fun m => (m.id, m.feature)))) ∧
      ((∃ r ∈ rs, (∀ p ∈ ps, p.id ≠ r.user) ∨ ∀ m ∈ ms, m.id ≠ r.item) →
        loadMovielens1m nan (convMl1mEvent tr) user item (if times then some timestamp else none) = .error .indexError) := by
  obtain ⟨user, u1, u2⟩ := persons1m_file hps hp
  obtain ⟨item, i1, i2⟩ := movies1m_file hms hm
  obtain ⟨lv, hlv⟩ := levels_ok (1 : K) 5 (one_ne_zero)
  have key := load_three nan (feats := times) (fty := timestamp) (uty := ml1mUser) (ity := ml1mItem) (we := 4) (wu := 5) (wi := 21)
    (es := rs.map (Rating.entry times)) (users := ps.map (fun p => (p.id, p.feature))) (items := ms.map (fun m => (m.id, m.feature)))
    hlv (ratings1m_file hr) u2 i2
    (by
      rw [List.forall₂_map_left_iff, List.forall₂_map_right_iff, List.forall₂_same]
      exact fun r _ => rating_written times r)
    (by
      rw [List.forall₂_map_left_iff, List.forall₂_map_right_iff, List.forall₂_same]
      exact fun p _ => person1m_written p)
    (by
      rw [List.forall₂_map_left_iff, List.forall₂_map_right_iff, List.forall₂_same]
      exact fun m hm => movie1m_written (hms m hm))
    (by simpa using hr1) (by simpa using hp1) (by simpa using hm1)
    (by simpa [Function.comp_def] using hpn) (by simpa [Function.comp_def] using hmn)
  have hcov := covered_iff (K := K) times rs (ps.map (fun p => (p.id, p.feature))) (ms.map (fun m => (m.id, m.feature)))
  simp only [List.mem_map, exists_exists_and_eq_and] at hcov
  refine ⟨user, item, u1, i1, fun h => key.1 (hcov.2 h), fun h => key.2 ?_⟩
  rw [hcov]
  obtain ⟨r, hr, h⟩ := h
  intro hall
  rcases h with h | h
  · obtain ⟨p, hp, e⟩ := (hall r hr).1
    exact h p hp e
  · obtain ⟨m, hm, e⟩ := (hall r hr).2
    exact h m hm e

/-- Two users. -/
def exPersons1m : List Person1m := [⟨1, true, 0, 10, "48067".toList⟩, ⟨2, false, 6, 16, "70072-1234".toList⟩]

/-- Two movies, one with a single colon and one with an ellipsis. -/
def exMovies1m : List Movie1m :=
  [⟨260, "Star Wars: Episode IV".toList, 1977, [0, 1, 8, 14]⟩,
   ⟨3845, "And God Created Woman (Et Dieu".toList ++ [Char.ofNat 0x2026] ++ "Créa la Femme)".toList, 1956, [7]⟩]

/-- Two ratings. -/
def exRatings1m : List Rating := [⟨1, 260, 4, 978300760⟩, ⟨2, 3845, 3, 978298413⟩]

lemma exMovies1m_ok : ∀ m ∈ exMovies1m, m.Ok := by
  intro m hm
  simp only [exMovies1m, List.mem_cons, List.not_mem_nil, or_false] at hm
  rcases hm with rfl | rfl
  · exact ⟨by unfold Clean; decide, by simp [NoColons], by decide, by decide, by decide⟩
  · exact ⟨by unfold Clean; decide, by simp [NoColons], by decide, by decide, by decide⟩

lemma text_two {a b t : Str} (h : t = a ++ '\n' :: (b ++ ['\n'])) : Text [a, b] t := h ▸ .lf (.lf .nil)

set_option maxRecDepth 4000 in
example : ∃ user item d, convMl1mUser "1::F::1::10::48067\n2::M::56::16::70072-1234\n".toList = .ok user ∧
    convMl1mItem "260::Star Wars: Episode IV (1977)::Action|Adventure|Fantasy|Sci-Fi\n3845::And God Created Woman (Et Dieu&#8230;Créa la Femme) (1956)::Drama\n".toList = .ok item ∧
    loadMovielens1m (0 : ℚ) (convMl1mEvent "1::260::4::978300760\n2::3845::3::978298413\n".toList) user item none = .ok d ∧
    Reads d.toEventData [[1, 260], [2, 3845]] ∧
    HasFeature d 0 2 [.int 0, .int 6, .int 16, .str "70072".toList] := by
  have t1 : exRatings1m.map Rating.line1m = ["1::260::4::978300760".toList, "2::3845::3::978298413".toList] := by decide +kernel
  have t2 : exPersons1m.map Person1m.line = ["1::F::1::10::48067".toList, "2::M::56::16::70072-1234".toList] := by decide +kernel
  have t3 : exMovies1m.map Movie1m.line = ["260::Star Wars: Episode IV (1977)::Action|Adventure|Fantasy|Sci-Fi".toList,
      "3845::And God Created Woman (Et Dieu&#8230;Créa la Femme) (1956)::Drama".toList] := by decide +kernel
  obtain ⟨user, item, h1, h2, h3, _⟩ := C77_movielens1m_partial (0 : ℚ) (rs := exRatings1m) (ps := exPersons1m) (ms := exMovies1m) (tr := "1::260::4::978300760\n2::3845::3::978298413\n".toList)
    (tp := "1::F::1::10::48067\n2::M::56::16::70072-1234\n".toList) (tm := "260::Star Wars: Episode IV (1977)::Action|Adventure|Fantasy|Sci-Fi\n3845::And God Created Woman (Et Dieu&#8230;Créa la Femme) (1956)::Drama\n".toList) false
    (by
      intro p hp
      simp only [exPersons1m, List.mem_cons, List.not_mem_nil, or_false] at hp
      rcases hp with rfl | rfl <;> unfold Person1m.Ok FieldOf Clean <;> decide)
    exMovies1m_ok (by rw [t1]; exact text_two (by decide +kernel)) (by rw [t2]; exact text_two (by decide +kernel)) (by rw [t3]; exact text_two (by decide +kernel))
    (by decide) (by decide) (by decide) (by decide) (by decide)
  obtain ⟨d, h4, h5⟩ := h3 (by decide)
  exact ⟨user, item, d, h1, h2, h4, h5.events,
    h5.user (2, [.int 0, .int 6, .int 16, .str "70072".toList]) (.tail _ (.head _)) ⟨_, .tail _ (.head _), rfl⟩⟩

end Kam.Convert
