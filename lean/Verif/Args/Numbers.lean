/-
C135: numbers on the command line, with `int(s)` and `float(s)` as they read text (Verif/Convert/Text).
-/
import Verif.Args.Spellings
import Verif.Convert.Lemmas2
import Verif.Convert.Props6

set_option linter.unusedSectionVars false

namespace Kam.Args
open Kam.Convert (Str intOf floatOf showInt IsInt)
open Kam.Convert.Spec (showDec)
open Shell
open Exp (Arg Namespace Seen parseArg defaults Script)

variable {F C A σ : Type}

/-- `type=int` and `type=float` (exp_recsys_sp.py:201, 220-233, exp_recsys_if.py:206, 225-238, stats_recsys.py:169): what Python
reads from text, see Verif/Convert/Text for the simplifications. -/
noncomputable def textReader (file : Str → F) : Reader F := ⟨intOf, floatOf, file⟩

/-- Options whose values are numbers, with the numbers written out. -/
inductive Typed : List Str → Arg F → Prop
  | fold {o} (n : Int) : o ∈ ["-f".toList, "--fold".toList] → Typed [o, showInt n] (.fold n)
  | foldNo {o} (n : Int) : o ∈ ["-n".toList, "--fold-no".toList] → Typed [o, showInt n] (.foldNo n)
  | dim {o} (n : Int) : o ∈ ["-k".toList, "--dim".toList] → Typed [o, showInt n] (.dim n)
  | maxiter (n : Int) : Typed ["--maxiter".toList, showInt n] (.maxiter n)
  | rseed (n : Int) : Typed ["--rseed".toList, showInt n] (.rseed n)
  | regularization {o} (m : Int) (k : Nat) : o ∈ ["-C".toList, "--lambda".toList] → Typed [o, showDec m k] (.C (m / 10 ^ k))
  | alpha (m : Int) (k : Nat) : Typed ["--alpha".toList, showDec m k] (.alpha (m / 10 ^ k))
  | tol (m : Int) (k : Nat) : Typed ["--tol".toList, showDec m k] (.tol (m / 10 ^ k))
  | domain {o} (a b c : Int) (k l m : Nat) : o ∈ ["-d".toList, "--domain".toList] →
      Typed [o, showDec a k, showDec b l, showDec c m] (.domain (a / 10 ^ k) (b / 10 ^ l) (c / 10 ^ m))

/-! ### Numerals are arguments -/

/-- A dash and a digit do not begin an option. -/
lemma not_optionLike_digit {p : Parser A} (hp : WellFormed p) {c : Char} {s : Str} (hc : c.isDigit = true) :
    ¬ OptionLike p ('-' :: c :: s) := by
  have hne : c ≠ '-' := by rintro rfl; exact absurd hc (by decide)
  rintro ⟨q, hq, ⟨⟨t, ht⟩, _⟩ | ⟨_, t, ht⟩⟩
  · simp only [List.cons_append, List.nil_append, List.cons.injEq] at ht
    exact hne ht.2.1.symm
  · rcases hp.name q hq with ⟨d, _, _, hd, h⟩ | ⟨w, _, _, h⟩
    · rw [h] at ht
      simp only [List.cons_append, List.nil_append, List.cons.injEq] at ht
      rw [ht.2.1, hc] at hd
      cases hd
    · rw [h] at ht
      simp only [List.cons_append, List.cons.injEq] at ht
      exact hne ht.2.1.symm

lemma plain_negative {p : Parser A} (hp : WellFormed p) {c : Char} {s : Str} (hc : c.isDigit = true)
    (hn : Negative ('-' :: c :: s)) : Plain p ('-' :: c :: s) :=
  .inr (.inr ⟨not_optionLike_digit hp hc, .inl hn⟩)

lemma digit_ne {c : Char} (hc : c.isDigit = true) : some c ≠ some '-' := by
  intro h
  cases h
  exact absurd hc (by decide)

lemma plain_showInt {p : Parser A} (hp : WellFormed p) (n : Int) : Plain p (showInt n) := by
  have hd : ∀ c ∈ Nat.toDigits 10 n.natAbs, c.isDigit = true := fun c hc => Convert.toDigits_digit hc
  have hne : Nat.toDigits 10 n.natAbs ≠ [] := Nat.toDigits_ne_nil
  unfold showInt
  rcases hs : Nat.toDigits 10 n.natAbs with _ | ⟨c, s⟩
  · exact absurd hs hne
  · rw [hs] at hd
    have hc := hd c (by simp)
    split
    · exact plain_negative hp hc ⟨c :: s, hd, .inl ⟨by simp, rfl⟩⟩
    · exact .inl (digit_ne hc)

lemma plain_showDec {p : Parser A} (hp : WellFormed p) (m : Int) (k : Nat) : Plain p (showDec m k) := by
  have hd : ∀ c ∈ Convert.padded m k, c.isDigit = true := fun c hc => Convert.padded_digit hc
  have hl := Convert.padded_length m k
  have hcut : ∃ ip fp, ip ≠ [] ∧ (∀ c ∈ ip, c.isDigit = true) ∧ (∀ c ∈ fp, c.isDigit = true) ∧
      ((k = 0 ∧ Convert.body m k = ip) ∨ (fp ≠ [] ∧ Convert.body m k = ip ++ '.' :: fp)) := by
    by_cases hk : k = 0
    · refine ⟨Convert.padded m k, [], ?_, hd, by simp, .inl ⟨hk, by rw [Convert.body, if_pos hk]⟩⟩
      intro h; rw [h] at hl; simp at hl
    · refine ⟨(Convert.padded m k).take ((Convert.padded m k).length - k), (Convert.padded m k).drop ((Convert.padded m k).length - k),
        ?_, fun c hc => hd c (List.mem_of_mem_take hc), fun c hc => hd c (List.mem_of_mem_drop hc),
        .inr ⟨?_, by rw [Convert.body, if_neg hk]⟩⟩
      · intro h
        have := congrArg List.length h
        rw [List.length_take, List.length_nil] at this
        omega
      · intro h
        have := congrArg List.length h
        rw [List.length_drop, List.length_nil] at this
        omega
  obtain ⟨ip, fp, hip, h1, h2, h⟩ := hcut
  rcases ip with _ | ⟨c, ip⟩
  · exact absurd rfl hip
  · have hc := h1 c (by simp)
    rw [Convert.showDec_eq]
    rcases h with ⟨_, h⟩ | ⟨hfp, h⟩ <;> rw [h] <;> split
    · exact plain_negative hp hc ⟨c :: ip, h1, .inl ⟨by simp, rfl⟩⟩
    · exact .inl (digit_ne hc)
    · exact plain_negative hp hc ⟨c :: ip, h1, .inr ⟨fp, hfp, h2, rfl⟩⟩
    · exact .inl (digit_ne hc)

lemma typed_doc {file : Str → F} {xs : List Str} {b : Arg F} (h : Typed xs b) : ExpDoc (textReader file) xs b := by
  have W := expParser_wellFormed
  have hi : ∀ n, (textReader file).int (showInt n) = some n := Convert.intOf_showInt
  have hf : ∀ m k, (textReader file).float (showDec m k) = some ((m : ℝ) / 10 ^ k) := Convert.floatOf_showDec
  cases h with
  | fold n ho => exact .fold ho (plain_showInt W n) (hi n)
  | foldNo n ho => exact .foldNo ho (plain_showInt W n) (hi n)
  | dim n ho => exact .dim ho (plain_showInt W n) (hi n)
  | maxiter n => exact .maxiter (plain_showInt W n) (hi n)
  | rseed n => exact .rseed (plain_showInt W n) (hi n)
  | regularization m k ho => exact .regularization ho (plain_showDec W m k) (hf m k)
  | alpha m k => exact .alpha (plain_showDec W m k) (hf m k)
  | tol m k => exact .tol (plain_showDec W m k) (hf m k)
  | domain a b c k l m ho =>
    exact .domain ho (plain_showDec W a k) (plain_showDec W b l) (plain_showDec W c m) (hf a k) (hf b l) (hf c m)

variable [DecidableEq F] {α φ ε V T γ : Type} [LinearOrder α]

/-- C135: every integer and every decimal fraction, negative ones included, can be written after the options that take numbers,
and is the number the command has. -/
theorem C135_numbers (S : Setup F C α φ ε V T γ) (m : Machine V T) (file : Str → F) (sc : Script) {l : List (List Str)}
    {pos : List Str} {args : List (Arg F)} (hl : List.Forall₂ (fun xs b => Typed xs b ∨ ExpDoc (textReader file) xs b) l args)
    (hpos : ∀ x ∈ pos, FileName expParser x) (hlen : pos.length ≤ 2) :
    expLine S m (textReader file) sc (l.flatten ++ pos) = (Command.exp sc args (pos.map file)).prog S m := by
  refine C128_documented_experiment S m (textReader file) sc (hl.imp ?_) hpos hlen
  rintro xs b (h | h)
  · exact typed_doc h
  · exact h

/-- C135: the same for the only number of the statistics script. -/
theorem C135_stats (S : Setup F C α φ ε V T γ) (m : Machine V T) (file : Str → F) {l : List (List Str)} {pos : List Str}
    {args : List (StatsArg F)}
    (hl : List.Forall₂ (fun xs b => (∃ n, xs = ["--rseed".toList, showInt n] ∧ b = .rseed n) ∨ StatsDoc (textReader file) xs b) l args)
    (hpos : ∀ x ∈ pos, FileName statsParser x) (hlen : pos.length ≤ 2) :
    statsLine S (textReader file) (l.flatten ++ pos) = (Command.stats args (pos.map file)).prog S m := by
  refine C128_documented_stats S m (textReader file) (hl.imp ?_) hpos hlen
  rintro xs b (⟨n, rfl, rfl⟩ | h)
  · exact .rseed (plain_showInt statsParser_wellFormed n) (Convert.intOf_showInt n)
  · exact h

/-! ### What is no number is refused -/

lemma openArg_usage (empty : C) (b : Arg F) {k : Prog F C} (hk : ∀ w, (k.run w).1 = .usage) (w : Files F C) :
    ((openArg empty b k).run w).1 = .usage := by
  have read : ∀ f, ((openRead f k).run w).1 = .usage := by
    intro f
    unfold openRead
    rw [Prog.run]
    cases w f with
    | none => rfl
    | some c => exact hk w
  cases b <;> first
    | exact hk w
    | exact read _
    | exact hk _

lemma exp_usage (empty : C) (rd : Reader F) (i u : F) (sc : Script) {as : List (Act ExpOpt)} {args : List (Arg F)}
    (h : List.Forall₂ (ExpMeans rd) as args) (bs : List (Act ExpOpt)) (k : Namespace F × Seen → Prog F C)
    (hb : ∀ st w, ((perform empty (expAct rd i u sc) bs st k).run w).1 = .usage) :
    ∀ st w, ((perform empty (expAct rd i u sc) (as ++ bs) st k).run w).1 = .usage := by
  induction h with
  | nil => exact hb
  | cons h1 _ ih =>
    intro st w
    rw [List.cons_append, exp_step empty rd i u sc h1]
    refine openArg_usage empty _ ?_ w
    intro w
    cases parseArg sc st _ with
    | none => rfl
    | some st => exact ih st w

/-- The options that take an integer. -/
def integerOptions : List String := ["-f", "--fold", "-n", "--fold-no", "-k", "--dim", "--maxiter", "--rseed"]

/-- C135: a value that is not an integer makes the script end with a message about the usage, whatever is before it and after it. -/
theorem C135_not_an_integer (S : Setup F C α φ ε V T γ) (m : Machine V T) (file : Str → F) (sc : Script) {l r : List (List Str)}
    {pos : List Str} {args args' : List (Arg F)} (hl : List.Forall₂ (ExpDoc (textReader file)) l args)
    (hr : List.Forall₂ (ExpDoc (textReader file)) r args')
    (hpos : ∀ x ∈ pos, FileName expParser x) (hlen : pos.length ≤ 2) {o s : Str} (ho : o ∈ integerOptions.map String.toList)
    (hs : Value expParser s) (hn : ¬ IsInt s) (w : Files F C) :
    ((expLine S m (textReader file) sc (l.flatten ++ [o, s] ++ r.flatten ++ pos)).run w).1 = .usage := by
  have W := expParser_wellFormed
  obtain ⟨as, h1, h2⟩ := pieces (fun h => expDoc_item h) hl
  obtain ⟨bs, h3, _⟩ := pieces (fun h => expDoc_item h) hr
  have hint : (textReader file).int s = none := by
    cases h : (textReader file).int s with
    | none => rfl
    | some n => exact absurd ((Convert.intOf_iff s).1 ⟨n, h⟩) hn
  have hone : ∃ a : ExpOpt, (o, a) ∈ expParser.table ∧ expParser.arity a = 1 ∧
      ∀ st, expAct (textReader file) S.stdin S.stdout sc (.opt a [s]) st = .stop .usage := by
    simp only [integerOptions, List.map_cons, List.map_nil, List.mem_cons, List.not_mem_nil, or_false] at ho
    rcases ho with rfl | rfl | rfl | rfl | rfl | rfl | rfl | rfl
    · exact ⟨.fold, by decide +kernel, rfl, fun st => by simp [expAct, expArg, hint]⟩
    · exact ⟨.fold, by decide +kernel, rfl, fun st => by simp [expAct, expArg, hint]⟩
    · exact ⟨.foldNo, by decide +kernel, rfl, fun st => by simp [expAct, expArg, hint]⟩
    · exact ⟨.foldNo, by decide +kernel, rfl, fun st => by simp [expAct, expArg, hint]⟩
    · exact ⟨.dim, by decide +kernel, rfl, fun st => by simp [expAct, expArg, hint]⟩
    · exact ⟨.dim, by decide +kernel, rfl, fun st => by simp [expAct, expArg, hint]⟩
    · exact ⟨.maxiter, by decide +kernel, rfl, fun st => by simp [expAct, expArg, hint]⟩
    · exact ⟨.rseed, by decide +kernel, rfl, fun st => by simp [expAct, expArg, hint]⟩
  obtain ⟨a, ha, har, hact⟩ := hone
  have hitem : Item expParser [o, s] [.opt a [s]] := spelled_item W ha (by rw [har]; rfl) (by
    intro x hx
    rw [List.mem_singleton.1 hx]
    exact hs)
  have hopts : Options expParser (l.flatten ++ [o, s] ++ r.flatten) (as ++ ([.opt a [s]] ++ bs)) := by
    rw [List.append_assoc]
    exact h1.append (.cons hitem h3)
  have hpar := parse_last W rfl hopts (fun x hx => (hpos x hx).1) hlen
  unfold expLine
  rw [hpar]
  simp only [List.append_assoc]
  refine exp_usage S.empty (textReader file) S.stdin S.stdout sc h2 _ _ ?_ _ w
  intro st w
  rw [List.singleton_append, perform, hact]
  rfl

/-- C135: a negative number with an exponent, such as `-1e-3`, is not taken for a value: whatever else is typed, no result is
written. -/
theorem C135_negative_exponent (S : Setup F C α φ ε V T γ) (m : Machine V T) (rd : Reader F) (c : Call) (w : Files F C) (f : F)
    {l r : List Str} {d : Char} {s : Str} (hc : c.argv = l ++ ('-' :: d :: s) :: r) (hl : ['-', '-'] ∉ l) (hd : d.isDigit = true)
    (hn : ¬ Negative ('-' :: d :: s)) (hb : ' ' ∉ s) :
    ((c.prog S m rd).run w).2 f = w f ∨ ((c.prog S m rd).run w).2 f = some S.empty := by
  by_contra h
  rw [not_or] at h
  have hne : d ≠ '-' := by rintro rfl; exact absurd hd (by decide)
  have hk := C128_only_documented S m rd c w f h.1 h.2 hc hl (by
    intro he
    simp only [List.cons.injEq] at he
    exact hne he.2.1)
  rcases hk with hk | hk | hk | hk | ⟨n, hn', hk⟩
  · exact hk rfl
  · cases hk
  · exact hn hk
  · rcases List.mem_cons.1 hk with hk | hk
    · cases hk
    · rcases List.mem_cons.1 hk with hk | hk
      · rw [← hk] at hd
        exact absurd hd (by decide)
      · exact hb hk
  · have names : ∀ n ∈ c.names, ∃ e t, n.toList = '-' :: e :: t ∧ e.isDigit = false := by
      have h1 : ∀ n ∈ expNames ++ mergeNames ++ statsNames, (match n.toList with
          | '-' :: e :: _ => !e.isDigit
          | _ => false) = true := by decide +kernel
      intro n hn
      have hm : n ∈ expNames ++ mergeNames ++ statsNames := by
        cases c <;> simp only [Call.names] at hn <;> simp [hn]
      have := h1 n hm
      split at this
      · rename_i e t he
        exact ⟨e, t, he, by simpa using this⟩
      · cases this
    obtain ⟨e, t, he, hdig⟩ := names n hn'
    rw [he] at hk
    rcases hk with ⟨⟨u, hu⟩, _⟩ | ⟨_, u, hu⟩
    · simp only [List.cons_append, List.nil_append, List.cons.injEq] at hu
      exact hne hu.2.1.symm
    · simp only [List.cons_append, List.cons.injEq] at hu
      rw [hu.2.1, hd] at hdig
      cases hdig

end Kam.Args
