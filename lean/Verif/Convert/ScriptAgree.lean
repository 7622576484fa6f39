/-
What the loops of the conversion scripts print, line by line: the records of Verif/Convert/Model, or the beginning of one.
-/
import Verif.Convert.ScriptLemmas
import Verif.Convert.Props6

set_option linter.unusedSectionVars false

namespace Kam.Convert
open Shell (Prog Files Exit steps)
open Convert.Spec

/-- A line of a file that is read. -/
def Tail (l : Str) : Prop := '\n' ∉ chomp l ∧ '\r' ∉ l

/-- What is printed for a line. -/
def LineAt (g : Str → Out Unit) (c : Str → Res Str) (l : Str) : Prop :=
  (∃ t, c l = .ok t ∧ g l = ⟨t, .ok ()⟩) ∨ ∃ e v, c l = .error e ∧ g l = ⟨v, .error e⟩ ∧ (Tail l → Unfinished l v)

lemma splitLines_tail : ∀ {s l : Str}, l ∈ splitLines s → '\r' ∉ s → ∃ a, (l = a ∨ l = a ++ ['\n']) ∧ '\n' ∉ a ∧ '\r' ∉ a
  | [], l, h, _ => by cases h
  | c :: s, l, h, hr => by
    have hc : c ≠ '\r' := fun e => hr (by simp [e])
    have hs : '\r' ∉ s := fun e => hr (by simp [e])
    rw [splitLines] at h
    split at h
    · rcases List.mem_cons.1 h with rfl | h
      · exact ⟨[], by simp⟩
      · exact splitLines_tail h hs
    · rename_i hn
      cases hsp : splitLines s with
      | nil =>
        rw [hsp] at h
        rw [List.mem_singleton.1 h]
        exact ⟨[c], .inl rfl, by simpa using Ne.symm hn, by simpa using Ne.symm hc⟩
      | cons m ms =>
        rw [hsp] at h
        rcases List.mem_cons.1 h with rfl | h
        · obtain ⟨a, ha, h1, h2⟩ := splitLines_tail (l := m) (by rw [hsp]; simp) hs
          refine ⟨c :: a, by rcases ha with rfl | rfl <;> simp, ?_, ?_⟩
          · simp only [List.mem_cons, not_or]; exact ⟨Ne.symm hn, h1⟩
          · simp only [List.mem_cons, not_or]; exact ⟨Ne.symm hc, h2⟩
        · exact splitLines_tail (by rw [hsp]; simp [h]) hs

lemma tail_of_mem {text l : Str} (h : l ∈ readlines text) : Tail l := by
  obtain ⟨a, ha, h1, h2⟩ := splitLines_tail h (universal_noCR text)
  rcases ha with rfl | rfl
  · exact ⟨by rw [chomp_plain ⟨h1, h2⟩]; exact h1, h2⟩
  · exact ⟨by rw [chomp_line ⟨h1, h2⟩]; exact h1, by simp [h2]⟩

/-! ### Fields of a line -/

lemma item_ok {l : List Str} {i : Nat} {s : Str} (h : item l i = .ok s) : s ∈ l := by
  unfold item at h
  cases hl : l[i]? with
  | none => rw [hl] at h; cases h
  | some x => rw [hl] at h; cases h; exact List.mem_of_getElem? hl

lemma split_mem {c x : Char} {s f : Str} (hf : f ∈ split c s) (hx : x ∈ f) : x ∈ s := by
  rw [← join_split c s]
  generalize split c s = l at hf
  induction l with
  | nil => cases hf
  | cons a l ih =>
    cases l with
    | nil => rw [List.mem_singleton.1 hf] at hx; exact hx
    | cons b l =>
      show x ∈ a ++ c :: join c (b :: l)
      rcases List.mem_cons.1 hf with rfl | hf
      · simp [hx]
      · have := ih hf
        simp only [List.mem_append, List.mem_cons]
        exact .inr (.inr this)

lemma mem_consHead {x c : Char} {l : List Str} {f : Str} (hf : f ∈ consHead c l) (hx : x ∈ f) : x = c ∨ ∃ g ∈ l, x ∈ g := by
  cases l with
  | nil =>
    rw [consHead, List.mem_singleton] at hf
    subst hf
    exact .inl (by simpa using hx)
  | cons g l =>
    rcases List.mem_cons.1 hf with rfl | hf
    · rcases List.mem_cons.1 hx with h | h
      · exact .inl h
      · exact .inr ⟨g, by simp, h⟩
    · exact .inr ⟨f, by simp [hf], hx⟩

lemma splitColons_mem {x : Char} : ∀ {s f : Str}, f ∈ splitColons s → x ∈ f → x ∈ s
  | [], f, hf, hx => by
    rw [splitColons, List.mem_singleton] at hf
    subst hf
    exact hx
  | c :: s, f, hf, hx => by
    rw [splitColons.eq_def] at hf
    split at hf
    · cases ‹_ = _›
    · rename_i t ht
      cases ht
      rcases List.mem_cons.1 hf with rfl | hf
      · cases hx
      · have := splitColons_mem hf hx
        simp [this]
    · rename_i d t _ ht
      cases ht
      rcases mem_consHead hf hx with rfl | ⟨g, hg, hx⟩
      · simp
      · have := splitColons_mem hg hx
        simp [this]

/-- The first field is the beginning of the line, up to a separator or the end. -/
lemma split_first {c : Char} {s id : Str} (h : item (split c s) 0 = .ok id) : ∃ r, s = id ++ r ∧ r.head? ∈ [none, some c] := by
  cases hs : split c s with
  | nil => exact absurd hs (split_ne_nil c s)
  | cons a l =>
    rw [hs] at h
    have ha : a = id := by simpa [item] using h
    subst ha
    have hj := join_split c s
    rw [hs] at hj
    cases l with
    | nil => exact ⟨[], by simpa [join] using hj.symm, by simp⟩
    | cons b l => exact ⟨c :: join c (b :: l), hj.symm, by simp⟩

lemma splitColons_first : ∀ {s id : Str}, item (splitColons s) 0 = .ok id → ∃ r, s = id ++ r ∧ r.head? ∈ [none, some ':']
  | [], id, h => by
    have : id = [] := by simpa [item, splitColons] using h.symm
    subst this
    exact ⟨[], rfl, by simp⟩
  | c :: s, id, h => by
    rw [splitColons.eq_def] at h
    split at h
    · rename_i ht
      cases ht
    · rename_i t ht
      cases ht
      have : id = [] := by simpa [item] using h.symm
      subst this
      exact ⟨_, rfl, by simp⟩
    · rename_i d t _ ht
      cases ht
      cases hs : splitColons s with
      | nil =>
        rw [hs] at h
        exfalso
        have hne : ∀ (x : Char) (l : List Str), consHead x l ≠ [] := by
          intro x l
          cases l <;> simp [consHead]
        have : splitColons s ≠ [] := by
          rw [splitColons.eq_def]
          split
          · simp
          · simp
          · exact hne _ _
        exact this hs
      | cons a l =>
        rw [hs] at h
        have ha : c :: a = id := by simpa [item, consHead] using h
        subst ha
        obtain ⟨r, hr, h'⟩ := splitColons_first (s := s) (id := a) (by rw [hs]; rfl)
        exact ⟨r, by rw [hr]; rfl, h'⟩

lemma chomp_first {l id r : Str} {c : Char} (ht : Tail l) (h : chomp l = id ++ r) (hr : r.head? ∈ [none, some c]) :
    ∃ r', l = id ++ r' ∧ r'.head? ∈ [none, some c, some '\n'] := by
  obtain ⟨b, hb, hn⟩ := rstrip_split isNewline l
  have hb' : l = id ++ (r ++ b) := by
    rw [← List.append_assoc, ← h]
    exact hb
  refine ⟨r ++ b, hb', ?_⟩
  cases r with
  | cons x r =>
    simp only [List.cons_append, List.head?_cons, List.mem_cons, List.not_mem_nil, or_false] at hr ⊢
    rcases hr with hr | hr
    · cases hr
    · exact .inr (.inl hr)
  | nil =>
    cases b with
    | nil => simp
    | cons x b =>
      have hx := hn x (by simp)
      have hxr : x ≠ '\r' := by
        rintro rfl
        exact ht.2 (by rw [hb']; simp)
      have : x = '\n' := by
        unfold isNewline at hx
        simpa [hxr] using hx
      simp [this]

/-- The beginning of a record: the identifier, a tabulator and more. -/
lemma unfinished {l id r v : Str} {c : Char} (hc : c = '|' ∨ c = ':') (ht : Tail l) (h : chomp l = id ++ r) (hr : r.head? ∈ [none, some c])
    (hv : '\n' ∉ v) : Unfinished l (id ++ '\t' :: v) := by
  obtain ⟨r', h1, h2⟩ := chomp_first ht h hr
  refine ⟨?_, .inr ⟨id, r', h1, ⟨v, by simp⟩, ?_⟩⟩
  · have hid : '\n' ∉ id := by
      intro hm
      apply ht.1
      rw [h]
      simp [hm]
    simp [hid, hv]
  · simp only [List.mem_cons, List.not_mem_nil, or_false] at h2 ⊢
    rcases hc with rfl | rfl
    · rcases h2 with h2 | h2 | h2 <;> simp [h2]
    · rcases h2 with h2 | h2 | h2 <;> simp [h2]

lemma unfinished_nil (l : Str) : Unfinished l [] := ⟨by simp, .inl rfl⟩

lemma showInt_line (n : Int) : '\n' ∉ showInt n := (clean_showInt n).2.1

/-! ### The lines -/

lemma gender_cases (g : Str) : (∃ b, gender g = .ok b ∧ genderOut g = ⟨b ++ ['\t'], .ok ()⟩ ∧ '\n' ∉ b) ∨
    gender g = .error .valueError ∧ genderOut g = ⟨[], .error .valueError⟩ := by
  unfold gender genderOut
  split
  · exact .inl ⟨_, rfl, rfl, by decide⟩
  · split
    · exact .inl ⟨_, rfl, rfl, by decide⟩
    · exact .inr ⟨rfl, rfl⟩

lemma lineAt_ml100kUser (l : Str) : LineAt ml100kUserOut ml100kUserLine l := by
  rcases h0 : item (split '|' (chomp l)) 0 with e | id
  · exact .inr ⟨e, [], by simp [ml100kUserLine, h0, bind, Except.bind], by simp [ml100kUserOut, h0], fun _ => unfinished_nil l⟩
  rcases h1 : item (split '|' (chomp l)) 1 with e | age
  · exact .inr ⟨e, [], by simp [ml100kUserLine, h0, h1, bind, Except.bind], by simp [ml100kUserOut, h0, h1], fun _ => unfinished_nil l⟩
  obtain ⟨r, hr, hr'⟩ := split_first h0
  have hage : Tail l → '\n' ∉ age := fun ht hm => ht.1 (split_mem (item_ok h1) hm)
  rcases h2 : item (split '|' (chomp l)) 2 with e | g
  · refine .inr ⟨e, id ++ '\t' :: (age ++ ['\t']), by simp [ml100kUserLine, h0, h1, h2, bind, Except.bind],
      by simp [ml100kUserOut, h0, h1, h2, join], fun ht => unfinished (.inl rfl) ht hr hr' (by simp [hage ht])⟩
  rcases gender_cases g with ⟨b, hg1, hg2, hb⟩ | ⟨hg1, hg2⟩
  swap
  · refine .inr ⟨.valueError, id ++ '\t' :: (age ++ ['\t']), by simp [ml100kUserLine, h0, h1, h2, hg1, bind, Except.bind], ?_,
      fun ht => unfinished (.inl rfl) ht hr hr' (by simp [hage ht])⟩
    simp [ml100kUserOut, h0, h1, h2, hg2, join]
  rcases h3 : item (split '|' (chomp l)) 3 with e | o
  · refine .inr ⟨e, id ++ '\t' :: (age ++ '\t' :: (b ++ ['\t'])), by simp [ml100kUserLine, h0, h1, h2, hg1, h3, bind, Except.bind], ?_,
      fun ht => unfinished (.inl rfl) ht hr hr' (by simp [hage ht, hb])⟩
    simp [ml100kUserOut, h0, h1, h2, hg2, h3, join]
  rcases h4 : occupation.getItem (String.ofList o) with e | occ
  · refine .inr ⟨e, id ++ '\t' :: (age ++ '\t' :: (b ++ ['\t'])), by simp [ml100kUserLine, h0, h1, h2, hg1, h3, h4, bind, Except.bind], ?_,
      fun ht => unfinished (.inl rfl) ht hr hr' (by simp [hage ht, hb])⟩
    simp [ml100kUserOut, h0, h1, h2, hg2, h3, h4, join]
  rcases h5 : item (split '|' (chomp l)) 4 with e | z
  · refine .inr ⟨e, id ++ '\t' :: (age ++ '\t' :: (b ++ '\t' :: (showInt occ ++ ['\t']))),
      by simp [ml100kUserLine, h0, h1, h2, hg1, h3, h4, h5, bind, Except.bind], ?_,
      fun ht => unfinished (.inl rfl) ht hr hr' (by simp [hage ht, hb, showInt_line])⟩
    simp [ml100kUserOut, h0, h1, h2, hg2, h3, h4, h5, join]
  · refine .inl ⟨_, by simp only [ml100kUserLine, h0, h1, h2, hg1, h3, h4, h5, bind, Except.bind, pure, Except.pure]; rfl, ?_⟩
    simp [ml100kUserOut, h0, h1, h2, hg2, h3, h4, h5, join, printTab, printEnd]

lemma date_cases (s : Str) : (∃ x y z, date s = .ok [x, y, z] ∧ dateOut s = ⟨join '\t' [x, y, z] ++ ['\t'], .ok ()⟩ ∧
      '\n' ∉ join '\t' [x, y, z]) ∨ ∃ e, date s = .error e ∧ dateOut s = ⟨[], .error e⟩ := by
  unfold date dateOut
  generalize split '-' s = l
  rcases l with _ | ⟨d, _ | ⟨m, _ | ⟨y, _ | ⟨x, l⟩⟩⟩⟩
  · exact .inl ⟨_, _, _, rfl, rfl, by decide⟩
  · exact .inl ⟨_, _, _, rfl, rfl, by decide⟩
  · exact .inl ⟨_, _, _, rfl, rfl, by decide⟩
  · rcases h1 : pyInt d with e | d'
    · exact .inr ⟨e, by simp [h1, bind, Except.bind], by simp [h1]⟩
    rcases h2 : month.getItem (String.ofList m) with e | m'
    · exact .inr ⟨e, by simp [h1, h2, bind, Except.bind], by simp [h1, h2]⟩
    rcases h3 : pyInt y with e | y'
    · exact .inr ⟨e, by simp [h1, h2, h3, bind, Except.bind], by simp [h1, h2, h3]⟩
    · exact .inl ⟨showInt d', showInt m', showInt y', by simp [h1, h2, h3, bind, Except.bind, pure, Except.pure],
        by simp [h1, h2, h3, printEnd], by simp [join, showInt_line]⟩
  · exact .inl ⟨_, _, _, rfl, rfl, by decide⟩

lemma lineAt_ml100kItem (l : Str) : LineAt ml100kItemOut ml100kItemLine l := by
  rcases h0 : item (split '|' (chomp l)) 0 with e | id
  · exact .inr ⟨e, [], by simp [ml100kItemLine, h0, bind, Except.bind], by simp [ml100kItemOut, h0], fun _ => unfinished_nil l⟩
  rcases h1 : item (split '|' (chomp l)) 1 with e | name
  · exact .inr ⟨e, [], by simp [ml100kItemLine, h0, h1, bind, Except.bind], by simp [ml100kItemOut, h0, h1], fun _ => unfinished_nil l⟩
  obtain ⟨r, hr, hr'⟩ := split_first h0
  have hname : Tail l → '\n' ∉ name := fun ht hm => ht.1 (split_mem (item_ok h1) hm)
  rcases h2 : item (split '|' (chomp l)) 2 with e | d
  · exact .inr ⟨e, id ++ '\t' :: (name ++ ['\t']), by simp [ml100kItemLine, h0, h1, h2, bind, Except.bind],
      by simp [ml100kItemOut, h0, h1, h2, join], fun ht => unfinished (.inl rfl) ht hr hr' (by simp [hname ht])⟩
  rcases date_cases d with ⟨x, y, z, hd1, hd2, hn⟩ | ⟨e, hd1, hd2⟩
  swap
  · exact .inr ⟨e, id ++ '\t' :: (name ++ ['\t']), by simp [ml100kItemLine, h0, h1, h2, hd1, bind, Except.bind],
      by simp [ml100kItemOut, h0, h1, h2, hd2, join], fun ht => unfinished (.inl rfl) ht hr hr' (by simp [hname ht])⟩
  rcases h3 : item (split '|' (chomp l)) 4 with e | u
  · exact .inr ⟨e, id ++ '\t' :: (name ++ '\t' :: (join '\t' [x, y, z] ++ ['\t'])),
      by simp [ml100kItemLine, h0, h1, h2, hd1, h3, bind, Except.bind],
      by simp [ml100kItemOut, h0, h1, h2, hd2, h3, join], fun ht => unfinished (.inl rfl) ht hr hr' (by simp [hname ht, hn])⟩
  · refine .inl ⟨_, by simp only [ml100kItemLine, h0, h1, h2, hd1, h3, bind, Except.bind, pure, Except.pure]; rfl, ?_⟩
    simp [ml100kItemOut, h0, h1, h2, hd2, h3, join, printTab, printEnd]

lemma lineAt_ml1mUser (l : Str) : LineAt ml1mUserOut ml1mUserLine l := by
  rcases h0 : item (splitColons (chomp l)) 0 with e | id
  · exact .inr ⟨e, [], by simp [ml1mUserLine, h0, bind, Except.bind], by simp [ml1mUserOut, h0], fun _ => unfinished_nil l⟩
  obtain ⟨r, hr, hr'⟩ := splitColons_first h0
  rcases h1 : item (splitColons (chomp l)) 1 with e | g
  · exact .inr ⟨e, id ++ '\t' :: [], by simp [ml1mUserLine, h0, h1, bind, Except.bind], by simp [ml1mUserOut, h0, h1, join],
      fun ht => unfinished (.inr rfl) ht hr hr' (by simp)⟩
  rcases gender_cases g with ⟨b, hg1, hg2, hb⟩ | ⟨hg1, hg2⟩
  swap
  · exact .inr ⟨.valueError, id ++ '\t' :: [], by simp [ml1mUserLine, h0, h1, hg1, bind, Except.bind],
      by simp [ml1mUserOut, h0, h1, hg2, join], fun ht => unfinished (.inr rfl) ht hr hr' (by simp)⟩
  have hu : Tail l → Unfinished l (id ++ '\t' :: (b ++ ['\t'])) := fun ht => unfinished (.inr rfl) ht hr hr' (by simp [hb])
  rcases h2 : item (splitColons (chomp l)) 2 with e | a
  · exact .inr ⟨e, _, by simp [ml1mUserLine, h0, h1, hg1, h2, bind, Except.bind], by simp [ml1mUserOut, h0, h1, hg2, h2, join], hu⟩
  rcases h3 : age.getItem (String.ofList a) with e | k
  · exact .inr ⟨e, _, by simp [ml1mUserLine, h0, h1, hg1, h2, h3, bind, Except.bind],
      by simp [ml1mUserOut, h0, h1, hg2, h2, h3, join], hu⟩
  rcases h4 : item (splitColons (chomp l)) 3 with e | o
  · exact .inr ⟨e, _, by simp [ml1mUserLine, h0, h1, hg1, h2, h3, h4, bind, Except.bind],
      by simp [ml1mUserOut, h0, h1, hg2, h2, h3, h4, join], hu⟩
  rcases h5 : item (splitColons (chomp l)) 4 with e | z
  · exact .inr ⟨e, _, by simp [ml1mUserLine, h0, h1, hg1, h2, h3, h4, h5, bind, Except.bind],
      by simp [ml1mUserOut, h0, h1, hg2, h2, h3, h4, h5, join], hu⟩
  · refine .inl ⟨_, by simp only [ml1mUserLine, h0, h1, hg1, h2, h3, h4, h5, bind, Except.bind, pure, Except.pure]; rfl, ?_⟩
    simp [ml1mUserOut, h0, h1, hg2, h2, h3, h4, h5, join, printTab, printEnd]

lemma ellipsis_line : ∀ {s : Str}, '\n' ∉ s → '\n' ∉ ellipsis s
  | [], _ => by simp [ellipsis]
  | c :: s, h => by
    have hs : '\n' ∉ s := fun hm => h (by simp [hm])
    have hc : '\n' ≠ c := fun e => h (e ▸ List.mem_cons_self)
    rw [ellipsis.eq_def]
    split
    · rename_i t ht
      cases ht
      have : '\n' ∉ t := fun hm => hs (by simp [hm])
      have ih := ellipsis_line this
      simp only [List.mem_cons, not_or]
      exact ⟨by decide, ih⟩
    · rename_i d t _ ht
      cases ht
      simp only [List.mem_cons, not_or]
      exact ⟨hc, ellipsis_line hs⟩
    · simp

lemma year_line {s y : Str} (h : year s = .ok y) : '\n' ∉ y := by
  unfold year at h
  split at h
  · rename_i a b c d _ _
    split at h
    · rename_i hd
      cases h
      simp only [List.all_cons, List.all_nil, Bool.and_true, Bool.and_eq_true] at hd
      obtain ⟨ha, hb, hc, hd⟩ := hd
      have hn : ∀ c : Char, c.isDigit = true → '\n' ≠ c := by rintro c hc rfl; exact absurd hc (by decide)
      simp [hn a ha, hn b hb, hn c hc, hn d hd]
    · cases h
  · cases h

lemma genres_length {d o : List Str} (h : genres d = .ok o) : o.length = 18 := by
  have : ∀ (d o o' : List Str), d.foldlM (fun o i => do
      let k ← genre.getItem (String.ofList i)
      return o.set k "1".toList) o' = (.ok o : Res (List Str)) → o.length = o'.length := by
    intro d
    induction d with
    | nil => intro o o' h; cases h; rfl
    | cons i d ih =>
      intro o o' h
      rw [List.foldlM_cons] at h
      rcases hk : genre.getItem (String.ofList i) with e | k
      · rw [hk] at h; cases h
      · rw [hk] at h
        have := ih _ _ h
        rw [this, List.length_set]
  rw [this d o _ h]
  rfl

lemma lineAt_ml1mItem (l : Str) : LineAt ml1mItemOut ml1mItemLine l := by
  rcases h0 : item (splitColons (chomp l)) 0 with e | id
  · exact .inr ⟨e, [], by simp [ml1mItemLine, h0, bind, Except.bind], by simp [ml1mItemOut, h0], fun _ => unfinished_nil l⟩
  rcases h1 : item (splitColons (chomp l)) 1 with e | nm
  · exact .inr ⟨e, [], by simp [ml1mItemLine, h0, h1, bind, Except.bind], by simp [ml1mItemOut, h0, h1], fun _ => unfinished_nil l⟩
  obtain ⟨r, hr, hr'⟩ := splitColons_first h0
  obtain ⟨name, hnm⟩ : ∃ name, (if id = "3845".toList then ellipsis nm else nm) = name := ⟨_, rfl⟩
  have hname : Tail l → '\n' ∉ name := by
    intro ht
    have : '\n' ∉ nm := fun hm => ht.1 (splitColons_mem (item_ok h1) hm)
    rw [← hnm]
    split
    · exact ellipsis_line this
    · exact this
  rcases h2 : year name with e | y
  · exact .inr ⟨e, id ++ '\t' :: (name ++ ['\t']), by simp only [ml1mItemLine, h0, h1, hnm, h2, bind, Except.bind],
      by simp only [ml1mItemOut, h0, h1, hnm, h2, eval_bind_ok, eval_bind_error, print_bind]; simp [join],
      fun ht => unfinished (.inr rfl) ht hr hr' (by simp [hname ht])⟩
  have hy := year_line h2
  have hu : Tail l → Unfinished l (id ++ '\t' :: (name ++ '\t' :: (y ++ ['\t']))) :=
    fun ht => unfinished (.inr rfl) ht hr hr' (by simp [hname ht, hy])
  rcases h3 : item (splitColons (chomp l)) 2 with e | d
  · exact .inr ⟨e, _, by simp only [ml1mItemLine, h0, h1, hnm, h2, h3, bind, Except.bind],
      by simp only [ml1mItemOut, h0, h1, hnm, h2, h3, eval_bind_ok, eval_bind_error, print_bind]; simp [join], hu⟩
  rcases h4 : genres (split '|' d) with e | o
  · exact .inr ⟨e, _, by simp only [ml1mItemLine, h0, h1, hnm, h2, h3, h4, bind, Except.bind],
      by simp only [ml1mItemOut, h0, h1, hnm, h2, h3, h4, eval_bind_ok, eval_bind_error, print_bind]; simp [join], hu⟩
  · have hne : o ≠ [] := by
      intro ho
      have := genres_length h4
      rw [ho] at this
      cases this
    refine .inl ⟨_, by simp only [ml1mItemLine, h0, h1, hnm, h2, h3, h4, bind, Except.bind, pure, Except.pure]; rfl, ?_⟩
    simp only [ml1mItemOut, h0, h1, hnm, h2, h3, h4, eval_bind_ok, print_bind]
    cases o with
    | nil => exact absurd rfl hne
    | cons a o => simp [printEnd, printTab, join]

lemma lineAt_mini (l : Str) : LineAt miniOut miniLine l := by
  by_cases hh : l.head? = some '#'
  · exact .inl ⟨[], by simp [miniLine, hh], by simp [miniOut, hh, pure]⟩
  rcases h0 : item (split '\t' (chomp l)) 0 with e | u
  · exact .inr ⟨e, [], by simp [miniLine, hh, h0, bind, Except.bind], by simp [miniOut, hh, h0], fun _ => unfinished_nil l⟩
  rcases h1 : pyInt u with e | n
  · exact .inr ⟨e, [], by simp [miniLine, hh, h0, h1, bind, Except.bind], by simp [miniOut, hh, h0, h1], fun _ => unfinished_nil l⟩
  by_cases hn : n ≤ 10
  swap
  · exact .inl ⟨[], by simp [miniLine, hh, h0, h1, hn, bind, Except.bind], by simp [miniOut, hh, h0, h1, hn, pure]⟩
  rcases h2 : item (split '\t' (chomp l)) 1 with e | i
  · exact .inr ⟨e, [], by simp [miniLine, hh, h0, h1, h2, hn, bind, Except.bind], by simp [miniOut, hh, h0, h1, h2, hn], fun _ => unfinished_nil l⟩
  rcases h3 : pyInt i with e | m
  · exact .inr ⟨e, [], by simp [miniLine, hh, h0, h1, h2, h3, hn, bind, Except.bind], by simp [miniOut, hh, h0, h1, h2, h3, hn],
      fun _ => unfinished_nil l⟩
  by_cases hm : m ≤ 10
  · exact .inl ⟨l, by simp [miniLine, hh, h0, h1, h2, h3, hn, hm, bind, Except.bind], by simp [miniOut, hh, h0, h1, h2, h3, hn, hm]⟩
  · exact .inl ⟨[], by simp [miniLine, hh, h0, h1, h2, h3, hn, hm, bind, Except.bind], by simp [miniOut, hh, h0, h1, h2, h3, hm, pure]⟩

lemma lineAt_flixster (l : Str) : LineAt flixsterOut flixsterLine l := by
  rcases h0 : item (split '\t' (chomp l)) 0 with e | u
  · exact .inr ⟨e, [], by simp [flixsterLine, h0, bind, Except.bind], by simp [flixsterOut, h0], fun _ => unfinished_nil l⟩
  rcases h1 : item (split '\t' (chomp l)) 1 with e | i
  · exact .inr ⟨e, [], by simp [flixsterLine, h0, h1, bind, Except.bind], by simp [flixsterOut, h0, h1], fun _ => unfinished_nil l⟩
  rcases h2 : item (split '\t' (chomp l)) 2 with e | s
  · exact .inr ⟨e, [], by simp [flixsterLine, h0, h1, h2, bind, Except.bind], by simp [flixsterOut, h0, h1, h2], fun _ => unfinished_nil l⟩
  · exact .inl ⟨_, by simp only [flixsterLine, h0, h1, h2, bind, Except.bind, pure, Except.pure]; rfl,
      by simp [flixsterOut, h0, h1, h2, printEnd, printTab]⟩

end Kam.Convert
