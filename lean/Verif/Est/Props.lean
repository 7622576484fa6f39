/-
The recommenders as estimators: C138.
-/
import Verif.Est.Lemmas
import Mathlib.Data.Rat.Floor

set_option linter.unusedSectionVars false
set_option linter.unusedSimpArgs false

namespace Kam.Est
open Opt (Kw Store Consts cell)

/-! ### Specification -/

namespace Spec

/-- The documented parameters of the constructors, without the settings of the optimizer. -/
def parameters : Cls → List String
  | .plsa => ["alpha", "k", "random_state", "use_expectation"]
  | _ => ["C", "k", "random_state"]

section
variable {K : Type} [Field K] [LinearOrder K] [FloorRing K]

/-- The number an object stands for. -/
inductive Number : Obj K → K → Prop
  | float (x : K) : Number (.val (.float x)) x
  | int (n : Int) : Number (.val (.int n)) n
  | bool (b : Bool) : Number (.val (.bool b)) (if b then 1 else 0)
  | str (s : Convert.Str) (x : K) (h : Convert.floatOf s = some x) : Number (.val (.str s)) x

/-- The settings of the optimizer of a recommender that was constructed without any. -/
def defaults {γ : Type} : Cls → List (String × Seen K γ)
  | .plsa => [("maxiter", .val (.int 100)), ("tol", .val (.float (1 / 10 ^ 10)))]
  | _ => [("options", .dict [("disp", .val (.bool false))])]

variable {γ θ D : Type}

/-- A call that names existing dictionaries and generators only. -/
def OpOk (w : World K γ θ) : Op K γ D → Prop
  | .newDict d => ∀ p ∈ d, ObjOk w p.2
  | .make _ args => ∀ p ∈ args, ObjOk w p.2
  | .setParams _ ps => ∀ p ∈ ps, ObjOk w p.2
  | _ => True

/-- A program all of whose calls name existing dictionaries and generators only. -/
def ProgOk (F : Reads K γ → D → Option (θ × γ)) : World K γ θ → List (Op K γ D) → Prop
  | _, [] => True
  | w, op :: ops => OpOk w op ∧ ProgOk F (step F w op) ops

/-- What recommender number `j` has learned. -/
def learnedOf (w : World K γ θ) (j : Nat) : Option θ := (w.recs[j]?).bind Rec.learned

/-- The attribute `n` of a recommender. -/
def attr (r : Rec K θ) (n : String) : Option (Obj K) := r.attrs.get? n

end

end Spec

open Est.Spec

variable {K : Type} [Field K] [LinearOrder K] [IsStrictOrderedRing K] [FloorRing K] {γ θ D : Type}

/-! ### Parameters -/

lemma paramNames_eq (cls : Cls) : paramNames cls = parameters cls := by cases cls <;> rfl

/-- `get_params` lists exactly the documented parameters of the constructor, each once, in alphabetical order, whatever else the
recommender was given. -/
theorem C138_get_params_names (r : Rec K θ) :
    (getParams r).keys = parameters r.cls ∧ (getParams r).keys.Nodup ∧ (getParams r).keys.Pairwise (· < ·) := by
  have e : (getParams r).keys = parameters r.cls := by
    simp only [getParams, Dict.keys, List.map_map]
    rw [← paramNames_eq]
    simp [Function.comp_def]
  rw [e]
  refine ⟨rfl, ?_, ?_⟩
  · cases r.cls <;> decide
  · cases r.cls <;> decide

lemma getD_cons (n m : String) (v d : Obj K) (l : Dict String (Obj K)) :
    Dict.getD ((n, v) :: l) m d = if n = m then v else Dict.getD l m d := by
  have e2 : Dict.get? ((n, v) :: l) m = if n = m then some v else Dict.get? l m := rfl
  unfold Dict.getD
  rw [e2]
  split <;> rfl

lemma pyFloat_spec (v : Obj K) (x : Obj K) : pyFloat v = .ok x ↔ ∃ y, Number v y ∧ x = .val (.float y) := by
  constructor
  · intro h
    unfold pyFloat at h
    split at h
    · cases h; exact ⟨_, .float _, rfl⟩
    · cases h; exact ⟨_, .int _, rfl⟩
    · cases h; exact ⟨_, .bool _, rfl⟩
    · split at h
      · next e => cases h; exact ⟨_, .str _ _ e, rfl⟩
      · cases h
    · cases h
  · rintro ⟨y, hy, rfl⟩
    cases hy with
    | float => rfl
    | int => rfl
    | bool => rfl
    | str s x h => simp [pyFloat, h]

/-- What `get_params` returns for a recommender of matrix factorization that has just been constructed: `C` is a float, the number that
was given (1 by default); `k` is an int, for an int that int and for a float its integral part; `random_state` is what was given. -/
theorem C138_get_params_mf (w w' : World K γ θ) (cls : Cls) (args : Dict String (Obj K)) (hc : cls ≠ .plsa)
    (h : make w cls args = .ok w') :
    ∃ r, w'.recs = w.recs ++ [r] ∧
      (∃ x, (getParams r).get? "C" = some (.val (.float x)) ∧ Number (args.getD "C" (.val (.float 1))) x) ∧
      (∃ n : Int, (getParams r).get? "k" = some (.val (.int n)) ∧
        (∀ m, args.getD "k" (.val (.int 1)) = .val (.int m) → n = m) ∧
        (∀ x : K, args.getD "k" (.val (.int 1)) = .val (.float x) →
          (0 ≤ x → (n : K) ≤ x ∧ x < n + 1) ∧ (x < 0 → x ≤ n ∧ (n : K) < x + 1))) ∧
      (getParams r).get? "random_state" = some (args.getD "random_state" .none) := by
  rw [make_mf _ _ _ hc] at h
  split at h
  · cases h
  · next x hx =>
    split at h
    · cases h
    · next k hk =>
      split at h
      · cases h
      · next y hy =>
        cases h
        obtain ⟨z, hz, rfl⟩ := (pyFloat_spec _ _).mp hx
        have hp : paramNames cls = ["C", "k", "random_state"] := by cases cls <;> first | rfl | exact absurd rfl hc
        refine ⟨_, rfl, ⟨z, ?_, hz⟩, ?_, ?_⟩
        · simp [getParams, hp, getD_cons, Dict.get?]
        · have hk2 : ∃ n, k = .val (.int n) := by
            unfold pyInt at hk
            split at hk
            · cases hk; exact ⟨_, rfl⟩
            · cases hk; exact ⟨_, rfl⟩
            · cases hk; exact ⟨_, rfl⟩
            · split at hk
              · cases hk; exact ⟨_, rfl⟩
              · cases hk
            · cases hk
          obtain ⟨n, rfl⟩ := hk2
          refine ⟨n, ?_, ?_, ?_⟩
          · simp [getParams, hp, getD_cons, Dict.get?]
          · intro m hm
            rw [hm] at hk
            cases hk; rfl
          · intro x hx'
            rw [hx'] at hk
            have : n = Kam.pyInt x := by
              have := hk; simp only [pyInt] at this; cases this; rfl
            subst this
            unfold Kam.pyInt
            constructor
            · intro h0
              rw [if_pos h0]
              exact ⟨Int.floor_le x, Int.lt_floor_add_one x⟩
            · intro h0
              rw [if_neg (not_le.mpr h0)]
              exact ⟨Int.le_ceil x, Int.ceil_lt_add_one x⟩
        · simp [getParams, hp, getD_cons, Dict.get?]

/-- The topic model stores its parameters as they are given. -/
theorem C138_get_params_plsa (w : World K γ θ) (args : Dict String (Obj K)) :
    ∃ w' r, make w .plsa args = .ok w' ∧ w'.recs = w.recs ++ [r] ∧
      (getParams r).get? "k" = some (args.getD "k" (.val (.int 1))) ∧
      (getParams r).get? "alpha" = some (args.getD "alpha" (.val (.float 1))) ∧
      (getParams r).get? "use_expectation" = some (args.getD "use_expectation" (.val (.bool true))) ∧
      (getParams r).get? "random_state" = some (args.getD "random_state" .none) := by
  rw [make_plsa]
  refine ⟨_, _, rfl, rfl, ?_, ?_, ?_, ?_⟩ <;> simp [getParams, paramNames, getD_cons, Dict.get?]

/-! ### set_params -/

lemma partition_spec (s : List Char) :
    ((partition s).2 = false → (partition s).1 = s) ∧ ((partition s).2 = true → (partition s).1 ++ ['_', '_'] <+: s) := by
  induction s using partition.induct with
  | case1 s => simp [partition]
  | case2 c s hn ih =>
    rw [partition]
    · refine ⟨fun h => by rw [ih.1 h], fun h => ?_⟩
      simpa using ih.2 h
    · exact hn
  | case3 => simp [partition]

lemma partition_name (cls : Cls) (n : String) (h : n ∈ parameters cls) : partition n.toList = (n.toList, false) := by
  cases cls <;> simp [parameters] at h
  all_goals
    rcases h with h | h | h <;> first
      | (subst h; decide +kernel)
      | (rcases h with h | h <;> subst h <;> decide +kernel)

/-- The effect of a list of assignments. -/
lemma assign_known (ps : List (String × Obj K)) (r : Rec K θ) (b : Bool) (post : List (String × Obj K))
    (h : ∀ p ∈ ps, p.1 ∈ parameters r.cls) :
    assign r b (ps ++ post) = assign { r with attrs := ps.foldl (fun d p => d.set p.1 p.2) r.attrs } b post := by
  induction ps generalizing r with
  | nil => rfl
  | cons p ps ih =>
    obtain ⟨k, v⟩ := p
    have hk := h (k, v) (by simp)
    simp only [List.cons_append]
    rw [assign]
    simp only [partition_name _ _ hk, String.ofList_toList, paramNames_eq, hk, not_true_eq_false, if_false]
    rw [if_neg (by simp)]
    exact ih { r with attrs := r.attrs.set k v } (fun p hp => h p (by simp [hp]))

lemma foldl_set_get? (ps : List (String × Obj K)) (d : Dict String (Obj K)) (n : String) (hn : (ps.map (·.1)).Nodup) :
    Dict.get? (ps.foldl (fun d p => d.set p.1 p.2) d) n = ((Dict.get? ps n).orElse fun _ => d.get? n) := by
  induction ps generalizing d with
  | nil => rfl
  | cons p ps ih =>
    obtain ⟨k, v⟩ := p
    simp only [List.map_cons, List.nodup_cons] at hn
    have e2 : Dict.get? ((k, v) :: ps) n = if k = n then some v else Dict.get? ps n := rfl
    rw [List.foldl_cons, ih _ hn.2, e2, Dict.get?_set]
    by_cases hk : k = n
    · subst hk
      have : Dict.get? ps k = none := by
        cases e : Dict.get? ps k with
        | none => rfl
        | some x => exact absurd (List.mem_map.mpr ⟨_, get?_mem e, rfl⟩) hn.1
      rw [this]; simp
    · simp [hk, Ne.symm hk]

/-- `set_params` with documented parameters assigns exactly the named ones, as they are given, and changes nothing else: class,
settings of the optimizer, what was learned, and all other parameters stay. -/
theorem C138_set_params (r : Rec K θ) (ps : List (String × Obj K)) (h : ∀ p ∈ ps, p.1 ∈ parameters r.cls)
    (hn : (ps.map (·.1)).Nodup) :
    ∃ r', setParams r ps = .ok r' ∧ r'.cls = r.cls ∧ r'.kw = r.kw ∧ r'.learned = r.learned ∧
      (∀ p ∈ ps, attr r' p.1 = some p.2) ∧ ∀ n, n ∉ ps.map (·.1) → attr r' n = attr r n := by
  have e := assign_known ps r false [] h
  rw [List.append_nil] at e
  refine ⟨{ r with attrs := ps.foldl (fun d p => d.set p.1 p.2) r.attrs }, ?_, rfl, rfl, rfl, ?_, ?_⟩
  · simp only [setParams, e, assign]
  · intro p hp
    simp only [attr]
    rw [foldl_set_get? _ _ _ hn]
    have : Dict.get? ps p.1 = some p.2 := by
      clear e h
      induction ps with
      | nil => simp at hp
      | cons q ps ih =>
        obtain ⟨k, v⟩ := q
        simp only [List.map_cons, List.nodup_cons] at hn
        have e2 : Dict.get? ((k, v) :: ps) p.1 = if k = p.1 then some v else Dict.get? ps p.1 := rfl
        rw [e2]
        simp only [List.mem_cons] at hp
        rcases hp with rfl | hp
        · simp
        · rw [if_neg, ih hn.2 hp]
          intro hk
          exact hn.1 (hk ▸ List.mem_map.mpr ⟨p, hp, rfl⟩)
    rw [this]; rfl
  · intro n hnn
    simp only [attr]
    rw [foldl_set_get? _ _ _ hn]
    cases e2 : Dict.get? ps n with
    | none => rfl
    | some x => exact absurd (List.mem_map.mpr ⟨_, get?_mem e2, rfl⟩) hnn

/-- An unknown name, in particular every setting of the optimizer, is refused with `ValueError`; the parameters named before it have
been assigned, those after it have not. -/
theorem C138_set_params_unknown (r : Rec K θ) (pre post : List (String × Obj K)) (k : String) (v : Obj K)
    (h : ∀ p ∈ pre, p.1 ∈ parameters r.cls)
    (hk : ∀ n ∈ parameters r.cls, k ≠ n ∧ ¬ n.toList ++ ['_', '_'] <+: k.toList) :
    ∃ r', setParams r (pre ++ (k, v) :: post) = .error (.valueError, r') ∧ setParams r pre = .ok r' := by
  refine ⟨{ r with attrs := pre.foldl (fun d p => d.set p.1 p.2) r.attrs }, ?_, ?_⟩
  · simp only [setParams]
    rw [assign_known pre r false _ h, assign]
    simp only
    rw [if_pos]
    intro hm
    rw [paramNames_eq] at hm
    obtain ⟨h1, h2⟩ := hk _ hm
    cases e : (partition k.toList).2 with
    | false =>
      have := (partition_spec k.toList).1 e
      rw [this, String.ofList_toList] at h1
      exact h1 rfl
    | true =>
      have := (partition_spec k.toList).2 e
      rw [String.toList_ofList] at h2
      exact h2 this
  · have e := assign_known pre r false [] h
    rw [List.append_nil] at e
    simp only [setParams, e, assign]

/-- The settings of the optimizer are no estimator parameters. -/
theorem C138_settings_refused (r : Rec K θ) (k : String) (v : Obj K) (hk : k ∈ ["maxiter", "tol", "method", "options", "disp"]) :
    setParams r [(k, v)] = .error (.valueError, r) := by
  obtain ⟨r', h1, h2⟩ := C138_set_params_unknown r [] [] k v (by simp) (by
    intro n hn
    simp only [List.mem_cons, List.not_mem_nil, or_false] at hk
    cases e : r.cls <;> rw [e] at hn <;> simp [parameters] at hn <;>
    rcases hk with rfl | rfl | rfl | rfl | rfl <;>
    rcases hn with rfl | rfl | hn <;> first
      | decide +kernel
      | (subst hn; decide +kernel)
      | (rcases hn with rfl | rfl <;> decide +kernel))
  have : setParams r [] = .ok r := rfl
  rw [this] at h2
  cases h2
  exact h1

/-! ### clone -/

lemma deepcopy_float (w : World K γ θ) (v : Obj K) (x : K) : (deepcopy w v).2 = .val (.float x) ↔ v = .val (.float x) := by
  unfold deepcopy
  split
  · split <;> simp
  · simp
  · rfl

lemma deepcopy_int (w : World K γ θ) (v : Obj K) (n : Int) : (deepcopy w v).2 = .val (.int n) ↔ v = .val (.int n) := by
  unfold deepcopy
  split
  · split <;> simp
  · simp
  · rfl

lemma pyFloat_self (v : Obj K) : pyFloat v = .ok v ↔ ∃ x, v = .val (.float x) := by
  constructor
  · intro h
    obtain ⟨y, -, hy⟩ := (pyFloat_spec v v).mp h
    exact ⟨y, hy⟩
  · rintro ⟨x, rfl⟩; rfl

lemma pyInt_kind {v x : Obj K} (h : pyInt v = .ok x) : ∃ n, x = .val (.int n) := by
  unfold pyInt at h
  split at h
  · cases h; exact ⟨_, rfl⟩
  · cases h; exact ⟨_, rfl⟩
  · cases h; exact ⟨_, rfl⟩
  · split at h
    · cases h; exact ⟨_, rfl⟩
    · cases h
  · cases h

lemma pyInt_self (v : Obj K) : pyInt v = .ok v ↔ ∃ n, v = .val (.int n) := by
  constructor
  · exact pyInt_kind
  · rintro ⟨x, rfl⟩; rfl

/-- The dictionaries a clone gets. -/
def freshCells (cls : Cls) (n : Nat) : Store (Value K) :=
  if cls = .plsa then [[("maxiter", .val (.int 100)), ("tol", .val (.float (1 / 10 ^ 10)))]]
  else [[("options", .dict (n + 1))], [("disp", .val (.bool false))]]

/-- `clone` of a matrix factorization recommender. -/
lemma clone_mf (w : World K γ θ) (r : Rec K θ) (hc : r.cls ≠ .plsa) :
    clone w r =
      (let x := copyParams w (getParams r)
       match pyFloat (x.2.getD "C" (.val (.float 1))), pyInt (x.2.getD "k" (.val (.int 1))) with
       | .error e, _ => .error (.constructor e)
       | .ok _, .error e => .error (.constructor e)
       | .ok a, .ok b =>
         if a = x.2.getD "C" (.val (.float 1)) ∧ b = x.2.getD "k" (.val (.int 1)) then
           .ok (⟨x.1.store ++ freshCells r.cls x.1.store.length, x.1.gens, x.1.recs ++ [⟨r.cls, x.2, x.1.store.length, none⟩]⟩,
             ⟨r.cls, x.2, x.1.store.length, none⟩)
         else .error .runtimeError) := by
  have hp : paramNames r.cls = ["C", "k", "random_state"] := by cases h : r.cls <;> first | rfl | exact absurd h hc
  have hg : getParams r = [("C", r.attrs.getD "C" .none), ("k", r.attrs.getD "k" .none), ("random_state", r.attrs.getD "random_state" .none)] := by
    simp [getParams, hp]
  obtain ⟨a, b, s, hx⟩ : ∃ a b s, (copyParams w (getParams r)).2 = [("C", a), ("k", b), ("random_state", s)] := by
    rw [hg]; exact ⟨_, _, _, rfl⟩
  unfold clone
  simp only [make_mf _ _ _ hc, hx]
  have hf : List.filter (fun p : String × Obj K => decide (p.1 ∉ paramNames r.cls)) [("C", a), ("k", b), ("random_state", s)] = [] := by
    simp [hp]
  rw [hf, construct_nil]
  have g1 : Dict.getD [("C", a), ("k", b), ("random_state", s)] "C" (.val (.float 1)) = a := by simp [getD_cons]
  have g2 : Dict.getD [("C", a), ("k", b), ("random_state", s)] "k" (.val (.int 1)) = b := by simp [getD_cons]
  have g3 : Dict.getD [("C", a), ("k", b), ("random_state", s)] "random_state" (.none : Obj K) = s := by simp [getD_cons]
  rw [g1, g2, g3]
  cases h1 : pyFloat a with
  | error e => rfl
  | ok x =>
    cases h2 : pyInt b with
    | error e => rfl
    | ok y =>
      simp only [List.getLast?_append, List.getLast?_singleton, Option.some_or]
      have hq : (∀ p ∈ [("C", a), ("k", b), ("random_state", s)],
          (getParams (⟨r.cls, [("C", x), ("k", y), ("random_state", s)], (copyParams w (getParams r)).1.store.length, none⟩ :
            Rec K θ)).get? p.1 = some p.2) ↔ x = a ∧ y = b := by
        simp [getParams, hp, getD_cons, Dict.get?]
      by_cases hxy : x = a ∧ y = b
      · rw [if_pos (hq.mpr hxy), if_pos hxy]
        obtain ⟨rfl, rfl⟩ := hxy
        simp [freshCells, hc, consts]
      · rw [if_neg (fun h => hxy (hq.mp h)), if_neg hxy]

/-- `clone` of a topic model. -/
lemma clone_plsa (w : World K γ θ) (r : Rec K θ) (hc : r.cls = .plsa) :
    ∃ r' : Rec K θ, getParams r' = (copyParams w (getParams r)).2 ∧ (∀ p, p ∈ r'.attrs ↔ p ∈ (copyParams w (getParams r)).2) ∧
      r'.cls = .plsa ∧ r'.learned = none ∧
      r'.kw = (copyParams w (getParams r)).1.store.length ∧
      clone w r = .ok (⟨(copyParams w (getParams r)).1.store ++ freshCells .plsa (copyParams w (getParams r)).1.store.length,
        (copyParams w (getParams r)).1.gens, (copyParams w (getParams r)).1.recs ++ [r']⟩, r') := by
  have hp : paramNames r.cls = ["alpha", "k", "random_state", "use_expectation"] := by rw [hc]; rfl
  have hg : getParams r = [("alpha", r.attrs.getD "alpha" .none), ("k", r.attrs.getD "k" .none),
      ("random_state", r.attrs.getD "random_state" .none), ("use_expectation", r.attrs.getD "use_expectation" .none)] := by
    simp [getParams, hp]
  obtain ⟨a, b, s, u, hx⟩ : ∃ a b s u, (copyParams w (getParams r)).2 =
      [("alpha", a), ("k", b), ("random_state", s), ("use_expectation", u)] := by
    rw [hg]; exact ⟨_, _, _, _, rfl⟩
  refine ⟨⟨.plsa, [("k", b), ("alpha", a), ("use_expectation", u), ("random_state", s)],
    (copyParams w (getParams r)).1.store.length, none⟩, ?_, ?_, rfl, rfl, rfl, ?_⟩
  · rw [hx]; simp [getParams, paramNames, getD_cons]
  · rw [hx]; intro p; simp only [List.mem_cons, List.not_mem_nil, or_false]; tauto
  · unfold clone
    simp only [hc, make_plsa, hx]
    have hf : List.filter (fun p : String × Obj K => decide (p.1 ∉ paramNames .plsa))
        [("alpha", a), ("k", b), ("random_state", s), ("use_expectation", u)] = [] := by
      simp [paramNames]
    rw [hf, constructPLSA_nil]
    simp only [List.getLast?_append, List.getLast?_singleton, Option.some_or]
    rw [if_pos]
    · simp [freshCells, consts, getD_cons]
    · simp [getParams, paramNames, getD_cons, Dict.get?]

/-- What a successful `clone` leaves. -/
lemma clone_ok {w w' : World K γ θ} {r r' : Rec K θ} (h : clone w r = .ok (w', r')) :
    getParams r' = (copyParams w (getParams r)).2 ∧ (∀ p, p ∈ r'.attrs ↔ p ∈ (copyParams w (getParams r)).2) ∧
      r'.cls = r.cls ∧ r'.learned = none ∧ r'.kw = (copyParams w (getParams r)).1.store.length ∧
      w'.store = (copyParams w (getParams r)).1.store ++ freshCells r.cls (copyParams w (getParams r)).1.store.length ∧
      w'.gens = (copyParams w (getParams r)).1.gens ∧ w'.recs = w.recs ++ [r'] := by
  by_cases hc : r.cls = .plsa
  · obtain ⟨r0, h1, h2, h3, h4, h5, h6⟩ := clone_plsa w r hc
    rw [h6] at h
    cases h
    exact ⟨h1, h2, h3.trans hc.symm, h4, h5, by rw [hc], rfl, by rw [copyParams_recs]⟩
  · rw [clone_mf _ _ hc] at h
    simp only at h
    split at h
    · cases h
    · cases h
    · split at h
      · cases h
        refine ⟨?_, fun p => Iff.rfl, rfl, rfl, rfl, rfl, rfl, by rw [copyParams_recs]⟩
        have hp : paramNames r.cls = ["C", "k", "random_state"] := by cases h : r.cls <;> first | rfl | exact absurd h hc
        have hg : getParams r = [("C", r.attrs.getD "C" .none), ("k", r.attrs.getD "k" .none), ("random_state", r.attrs.getD "random_state" .none)] := by
          simp [getParams, hp]
        obtain ⟨a, b, s, hx⟩ : ∃ a b s, (copyParams w (getParams r)).2 = [("C", a), ("k", b), ("random_state", s)] := by
          rw [hg]; exact ⟨_, _, _, rfl⟩
        rw [hx]
        simp [getParams, hp, getD_cons]
      · cases h

lemma clone_ext {w w' : World K γ θ} {r r' : Rec K θ} (h : clone w r = .ok (w', r')) : Ext w w' := by
  obtain ⟨-, -, -, -, -, e1, e2, -⟩ := clone_ok h
  exact (copyParams_ext (getParams r) w).trans ⟨⟨_, e1⟩, ⟨[], by rw [e2]; simp⟩⟩

/-- `clone` succeeds exactly for the topic models and for those matrix factorization recommenders whose `C` is a float and whose `k` is
an int. -/
theorem C138_clone_iff (w : World K γ θ) (r : Rec K θ) :
    (∃ x, clone w r = .ok x) ↔
      r.cls = .plsa ∨ ((∃ x, (getParams r).get? "C" = some (.val (.float x))) ∧ ∃ n, (getParams r).get? "k" = some (.val (.int n))) := by
  by_cases hc : r.cls = .plsa
  · obtain ⟨r0, -, -, -, -, -, h6⟩ := clone_plsa w r hc
    exact ⟨fun _ => Or.inl hc, fun _ => ⟨_, h6⟩⟩
  · have hp : paramNames r.cls = ["C", "k", "random_state"] := by cases h : r.cls <;> first | rfl | exact absurd h hc
    have hg : getParams r = [("C", r.attrs.getD "C" .none), ("k", r.attrs.getD "k" .none), ("random_state", r.attrs.getD "random_state" .none)] := by
      simp [getParams, hp]
    rw [clone_mf _ _ hc, hg]
    generalize r.attrs.getD "C" .none = a
    generalize r.attrs.getD "k" .none = b
    generalize r.attrs.getD "random_state" .none = s
    have g1 : Dict.getD (copyParams w [("C", a), ("k", b), ("random_state", s)]).2 "C" (.val (.float 1)) = (deepcopy w a).2 := by
      simp [copyParams, getD_cons]
    have g2 : Dict.getD (copyParams w [("C", a), ("k", b), ("random_state", s)]).2 "k" (.val (.int 1)) =
        (deepcopy (deepcopy w a).1 b).2 := by
      simp [copyParams, getD_cons]
    simp only [g1, g2]
    have t1 : Dict.get? [("C", a), ("k", b), ("random_state", s)] "C" = some a := by simp [Dict.get?]
    have t2 : Dict.get? [("C", a), ("k", b), ("random_state", s)] "k" = some b := by simp [Dict.get?]
    rw [t1, t2]
    constructor
    · rintro ⟨x, hx⟩
      right
      split at hx
      · cases hx
      · cases hx
      · next a' b' h1 h2 =>
        split at hx
        · next h =>
          obtain ⟨rfl, rfl⟩ := h
          obtain ⟨y, hy⟩ := (pyFloat_self _).mp h1
          obtain ⟨n, hn⟩ := (pyInt_self _).mp h2
          exact ⟨⟨y, by rw [(deepcopy_float _ _ _).mp hy]⟩, ⟨n, by rw [(deepcopy_int _ _ _).mp hn]⟩⟩
        · cases hx
    · rintro (h | ⟨⟨x, hx⟩, ⟨n, hn⟩⟩)
      · exact absurd h hc
      · cases hx; cases hn
        exact ⟨_, if_pos ⟨rfl, rfl⟩⟩

/-- If `C` or `k` of a matrix factorization recommender was replaced by a number of another kind, `clone` raises `RuntimeError`. -/
theorem C138_clone_refused (w : World K γ θ) (r : Rec K θ) (hc : r.cls ≠ .plsa) (a b : Obj K)
    (ha : (getParams r).get? "C" = some a) (hb : (getParams r).get? "k" = some b) (x : K) (hx : Number a x)
    (hb' : (∃ n, b = .val (.int n)) ∨ ∃ y, b = .val (.float y))
    (hn : (∀ y, a ≠ .val (.float y)) ∨ ∀ n, b ≠ .val (.int n)) : clone w r = .error .runtimeError := by
  have hp : paramNames r.cls = ["C", "k", "random_state"] := by cases h : r.cls <;> first | rfl | exact absurd h hc
  have hg : getParams r = [("C", r.attrs.getD "C" .none), ("k", r.attrs.getD "k" .none), ("random_state", r.attrs.getD "random_state" .none)] := by
    simp [getParams, hp]
  rw [clone_mf _ _ hc]
  rw [hg] at ha hb ⊢
  have ha : r.attrs.getD "C" .none = a := by simpa [Dict.get?] using ha
  have hb : r.attrs.getD "k" .none = b := by simpa [Dict.get?] using hb
  rw [ha, hb]
  generalize r.attrs.getD "random_state" .none = s
  have d1 : deepcopy w a = (w, a) := by cases hx <;> rfl
  have d2 : deepcopy w b = (w, b) := by rcases hb' with ⟨n, rfl⟩ | ⟨y, rfl⟩ <;> rfl
  have g1 : Dict.getD (copyParams w [("C", a), ("k", b), ("random_state", s)]).2 "C" (.val (.float 1)) = a := by
    simp [copyParams, getD_cons, d1]
  have g2 : Dict.getD (copyParams w [("C", a), ("k", b), ("random_state", s)]).2 "k" (.val (.int 1)) = b := by
    simp [copyParams, getD_cons, d1, d2]
  simp only [g1, g2]
  rw [(pyFloat_spec a _).mpr ⟨x, hx, rfl⟩]
  have hi : ∃ m, pyInt b = .ok (.val (.int m)) := by rcases hb' with ⟨n, rfl⟩ | ⟨y, rfl⟩ <;> exact ⟨_, rfl⟩
  obtain ⟨m, hm⟩ := hi
  rw [hm]
  simp only
  rw [if_neg]
  rintro ⟨h1, h2⟩
  rcases hn with hn | hn
  · exact hn x h1.symm
  · exact hn m h2.symm

lemma allVals_copyParams {P : Obj K → Prop} (ps : Dict String (Obj K)) (w : World K γ θ) (h : AllVals P w.store) :
    AllVals P (copyParams w ps).1.store := by
  induction ps generalizing w with
  | nil => exact h
  | cons p ps ih =>
    refine ih _ ?_
    unfold deepcopy
    split
    · split <;> exact h
    · exact h.append (h.cell _)
    · exact h

lemma WorldOk.clone {w w' : World K γ θ} {r r' : Rec K θ} (hw : WorldOk w) (hr : r ∈ w.recs)
    (h : clone w r = .ok (w', r')) : WorldOk w' := by
  have hx := clone_ext h
  obtain ⟨e1, e2, e3, e4, e5, e6, e7, e8⟩ := clone_ok h
  have hpo : ∀ p ∈ getParams r, ObjOk w p.2 := by
    intro p hp
    simp only [getParams, List.mem_map] at hp
    obtain ⟨n, -, rfl⟩ := hp
    exact getD_ok (hw.attrs r hr) n (show ObjOk w (.none : Obj K) from trivial)
  obtain ⟨s1, s2⟩ := copyParams_see (getParams r) w hpo
  have up : ∀ v, ObjOk w v → ObjOk w' v := fun v hv => hv.mono hx.le.1 hx.le.2
  have hlen : (copyParams w (getParams r)).1.store.length < w'.store.length := by
    rw [e6, List.length_append]
    have : 0 < (freshCells (K := K) r.cls (copyParams w (getParams r)).1.store.length).length := by
      unfold freshCells; split <;> simp
    omega
  refine ⟨?_, ?_, ?_⟩
  · have a1 := allVals_copyParams (P := ObjOk w') (getParams r) w (fun d hd p hp => up _ (hw.cells d hd p hp))
    intro d hd
    rw [e6, List.mem_append] at hd
    rcases hd with hd | hd
    · exact a1 d hd
    · by_cases hc : r.cls = .plsa
      · simp only [freshCells, if_pos hc, List.mem_singleton] at hd
        subst hd
        intro p hp
        simp only [List.mem_cons, List.not_mem_nil, or_false] at hp
        rcases hp with rfl | rfl <;> trivial
      · simp only [freshCells, if_neg hc, List.mem_cons, List.not_mem_nil, or_false] at hd
        rcases hd with rfl | rfl
        · intro p hp
          rw [List.mem_singleton] at hp
          subst hp
          show _ < w'.store.length
          rw [e6, freshCells, if_neg hc]; simp
        · intro p hp
          rw [List.mem_singleton] at hp
          subst hp
          trivial
  · intro q hq p hp
    rw [e8] at hq
    simp only [List.mem_append, List.mem_singleton] at hq
    rcases hq with hq | rfl
    · exact up _ (hw.attrs q hq p hp)
    · exact ((s2 p ((e2 p).mp hp)).1).mono hlen.le (by rw [e7])
  · intro q hq
    rw [e8] at hq
    simp only [List.mem_append, List.mem_singleton] at hq
    rcases hq with hq | rfl
    · exact lt_of_lt_of_le (hw.kw q hq) hx.le.1
    · rw [e5]; exact hlen

/-! ### Programs -/

/-- What `set_params` can change, whether or not it raises. -/
lemma assign_spec (P : Obj K → Prop) (ps : List (String × Obj K)) (r : Rec K θ) (b : Bool) (hr : ∀ p ∈ r.attrs, P p.2)
    (hp : ∀ p ∈ ps, P p.2) :
    match assign r b ps with
    | .ok (r', _) => (∀ p ∈ r'.attrs, P p.2) ∧ r'.kw = r.kw ∧ r'.cls = r.cls ∧ r'.learned = r.learned
    | .error (_, r') => (∀ p ∈ r'.attrs, P p.2) ∧ r'.kw = r.kw ∧ r'.cls = r.cls ∧ r'.learned = r.learned := by
  induction ps generalizing r b with
  | nil => exact ⟨hr, rfl, rfl, rfl⟩
  | cons p ps ih =>
    obtain ⟨k, v⟩ := p
    rw [assign]
    by_cases h1 : String.ofList (partition k.toList).1 ∉ paramNames r.cls
    · rw [if_pos h1]; exact ⟨hr, rfl, rfl, rfl⟩
    · rw [if_neg h1]
      by_cases h2 : (partition k.toList).2 = true
      · rw [if_pos h2]
        exact ih r true hr (fun p hq => hp p (by simp [hq]))
      · rw [if_neg h2]
        refine ih { r with attrs := r.attrs.set (String.ofList (partition k.toList).1) v } b ?_ (fun p hq => hp p (by simp [hq]))
        intro p hq
        rcases mem_set _ _ _ _ hq with hq | hq
        · exact hr p hq
        · rw [hq]; exact hp (k, v) (by simp)

/-- The recommender after `set_params`. -/
def afterSet (r : Rec K θ) (ps : List (String × Obj K)) : Rec K θ :=
  match setParams r ps with
  | .ok r' => r'
  | .error (_, r') => r'

lemma afterSet_spec (P : Obj K → Prop) (ps : List (String × Obj K)) (r : Rec K θ) (hr : ∀ p ∈ r.attrs, P p.2)
    (hp : ∀ p ∈ ps, P p.2) :
    (∀ p ∈ (afterSet r ps).attrs, P p.2) ∧ (afterSet r ps).kw = r.kw ∧ (afterSet r ps).cls = r.cls ∧
      (afterSet r ps).learned = r.learned := by
  have h := assign_spec P ps r false hr hp
  unfold afterSet setParams
  split at h
  · next r' b e => rw [e]; cases b <;> exact h
  · next e1 r' e => rw [e]; exact h

lemma step_setParams (F : Reads K γ → D → Option (θ × γ)) (w : World K γ θ) (j : Nat) (ps : List (String × Obj K)) (r : Rec K θ)
    (hr : w.recs[j]? = some r) : step F w (.setParams j ps) = { w with recs := w.recs.set j (afterSet r ps) } := by
  simp only [step, hr, afterSet]
  split <;> next e => rw [e]

lemma WorldOk.step (F : Reads K γ → D → Option (θ × γ)) {w : World K γ θ} (hw : WorldOk w) (op : Op K γ D) (h : OpOk w op) :
    WorldOk (step F w op) := by
  cases op with
  | newDict d =>
    have up : ∀ v, ObjOk w v → ObjOk (Est.step F w (.newDict d)) v := fun v hv => hv.mono (by simp [Est.step]) (by simp [Est.step])
    refine ⟨?_, fun r hr p hp => up _ (hw.attrs r hr p hp), fun r hr => ?_⟩
    · intro e he p hp
      simp only [Est.step, List.mem_append, List.mem_singleton] at he
      rcases he with he | rfl
      · exact up _ (hw.cells e he p hp)
      · exact up _ (h p hp)
    · have := hw.kw r hr
      simp only [Est.step, List.length_append, List.length_singleton]; omega
  | newGen g =>
    have up : ∀ v, ObjOk w v → ObjOk (Est.step F w (.newGen g)) v := fun v hv => hv.mono (by simp [Est.step]) (by simp [Est.step])
    exact ⟨fun e he p hp => up _ (hw.cells e he p hp), fun r hr p hp => up _ (hw.attrs r hr p hp), hw.kw⟩
  | make cls args =>
    simp only [Est.step]
    split
    · next w' e => exact hw.make h e
    · exact hw
  | setParams j ps =>
    cases e : w.recs[j]? with
    | none => simp only [Est.step, e]; exact hw
    | some r =>
      rw [step_setParams F w j ps r e]
      have hr := List.mem_of_getElem? e
      obtain ⟨a1, a2, -, -⟩ := afterSet_spec (ObjOk w) ps r (hw.attrs r hr) h
      refine ⟨hw.cells, ?_, ?_⟩
      · intro q hq
        rcases List.mem_or_eq_of_mem_set hq with hq | rfl
        · exact hw.attrs q hq
        · exact a1
      · intro q hq
        rcases List.mem_or_eq_of_mem_set hq with hq | rfl
        · exact hw.kw q hq
        · rw [a2]; exact hw.kw r hr
  | clone j =>
    simp only [Est.step]
    cases e : w.recs[j]? with
    | none => exact hw
    | some r =>
      simp only
      split
      · next w' r' hx => exact hw.clone (List.mem_of_getElem? e) hx
      · exact hw
  | fit j d =>
    simp only [Est.step, fit]
    cases e : w.recs[j]? with
    | none => exact hw
    | some r =>
      simp only
      split
      · exact hw
      · next t g ht =>
        have hr := List.mem_of_getElem? e
        have up : ∀ v, ObjOk w v → ObjOk (⟨w.store, (match r.attrs.getD "random_state" .none with
            | .val (.gen a) => w.gens.set a g
            | _ => w.gens), w.recs.set j { r with learned := some t }⟩ : World K γ θ) v := by
          intro v hv
          apply ObjOk.mono (w := w) _ _ hv
          · exact le_rfl
          · simp only
            split <;> simp
        refine ⟨?_, ?_, ?_⟩
        · intro e' he p hp
          exact up _ (hw.cells e' he p hp)
        · intro q hq p hp
          refine up _ ?_
          rcases List.mem_or_eq_of_mem_set hq with hq | rfl
          · exact hw.attrs q hq p hp
          · exact hw.attrs r hr p hp
        · intro q hq
          rcases List.mem_or_eq_of_mem_set hq with hq | rfl
          · exact hw.kw q hq
          · exact hw.kw r hr

lemma worldOk_run (F : Reads K γ → D → Option (θ × γ)) (ops : List (Op K γ D)) (w : World K γ θ) (hw : WorldOk w)
    (h : ProgOk F w ops) : WorldOk (run F w ops) := by
  induction ops generalizing w with
  | nil => exact hw
  | cons op ops ih => exact ih _ (hw.step F op h.1) h.2

lemma worldOk_empty : WorldOk (World.empty : World K γ θ) := ⟨by simp [World.empty], by simp [World.empty], by simp [World.empty]⟩

/-- After any program: a clone is a new recommender of the same class that has learned nothing; its parameters are seen as those of the
original are, a generator among them is a new one in the same state; the settings of its optimizer are the defaults, whatever the
original was given; nothing of the existing recommenders changes; and the clone can itself be cloned. -/
theorem C138_clone (F : Reads K γ → D → Option (θ × γ)) (ops : List (Op K γ D)) (hops : ProgOk F World.empty ops)
    (r : Rec K θ) (hr : r ∈ (run F World.empty ops).recs) (w' : World K γ θ) (r' : Rec K θ)
    (h : clone (run F World.empty ops) r = .ok (w', r')) :
    w'.recs = (run F World.empty ops).recs ++ [r'] ∧ r'.learned = none ∧
    (reads w' r').cls = r.cls ∧ (reads w' r').params = (reads (run F World.empty ops) r).params ∧
    (reads w' r').settings = defaults r.cls ∧
    (∀ n a, (getParams r').get? n = some (.val (.gen a)) → (run F World.empty ops).gens.length ≤ a) ∧
    (∀ q ∈ (run F World.empty ops).recs, reads w' q = reads (run F World.empty ops) q) ∧
    ∃ x, clone w' r' = .ok x := by
  have hw := worldOk_run F ops World.empty worldOk_empty hops
  generalize run F World.empty ops = w at *
  have hx := clone_ext h
  obtain ⟨e1, e2, e3, e4, e5, e6, e7, e8⟩ := clone_ok h
  have hpo : ∀ p ∈ getParams r, ObjOk w p.2 := by
    intro p hp
    simp only [getParams, List.mem_map] at hp
    obtain ⟨n, -, rfl⟩ := hp
    exact getD_ok (hw.attrs r hr) n (show ObjOk w (.none : Obj K) from trivial)
  obtain ⟨s1, s2⟩ := copyParams_see (getParams r) w hpo
  have hx2 : Ext (copyParams w (getParams r)).1 w' := ⟨⟨_, e6⟩, ⟨[], by rw [e7]; simp⟩⟩
  refine ⟨e8, e4, e3, ?_, ?_, ?_, fun q hq => reads_ext hx hw hq, ?_⟩
  · simp only [reads]
    rw [e1, ← s1]
    exact List.map_congr_left (fun p hp => by rw [hx2.see (s2 p hp).1])
  · simp only [reads]
    rw [e5, e6]
    by_cases hc : r.cls = .plsa
    · rw [hc]
      simp [freshCells, Opt.cell, defaults, Est.see]
    · have hd : (defaults r.cls : List (String × Seen K γ)) = [("options", .dict [("disp", .val (.bool false))])] := by
        cases h : r.cls <;> first | rfl | exact absurd h hc
      rw [hd]
      have : ∀ h : Store (Value K), Opt.cell (h ++ freshCells r.cls h.length) h.length = [("options", .dict (h.length + 1))] := by
        intro h
        simp [freshCells, hc, Opt.cell]
      rw [this]
      simp only [List.map_cons, List.map_nil, Est.see]
      rw [e6]
      simp [freshCells, hc, Opt.cell]
  · intro n a hn
    rw [e1] at hn
    exact (s2 _ (get?_mem hn)).2.1 a rfl
  · rw [C138_clone_iff]
    rcases (C138_clone_iff w r).mp ⟨_, h⟩ with hc | ⟨⟨x, hx'⟩, ⟨n, hn⟩⟩
    · exact Or.inl (e3.trans hc)
    · by_cases hc : r.cls = .plsa
      · exact Or.inl (e3.trans hc)
      right
      have hp : paramNames r.cls = ["C", "k", "random_state"] := by cases h : r.cls <;> first | rfl | exact absurd h hc
      have hg : getParams r = [("C", r.attrs.getD "C" .none), ("k", r.attrs.getD "k" .none), ("random_state", r.attrs.getD "random_state" .none)] := by
        simp [getParams, hp]
      rw [e1]
      rw [hg] at hx' hn ⊢
      have hx' : r.attrs.getD "C" .none = .val (.float x) := by simpa [Dict.get?] using hx'
      have hn : r.attrs.getD "k" .none = .val (.int n) := by simpa [Dict.get?] using hn
      rw [hx', hn]
      exact ⟨⟨x, by simp [copyParams, deepcopy, Dict.get?]⟩, ⟨n, by simp [copyParams, deepcopy, Dict.get?]⟩⟩

/-- A call that is no `set_params` of recommender `j` keeps its class and its parameters. -/
lemma step_keeps (F : Reads K γ → D → Option (θ × γ)) (w : World K γ θ) (op : Op K γ D) (j : Nat) (r : Rec K θ)
    (hj : w.recs[j]? = some r) (h : ∀ ps, op ≠ .setParams j ps) :
    ∃ r', (step F w op).recs[j]? = some r' ∧ r'.cls = r.cls ∧ r'.attrs = r.attrs ∧ r'.kw = r.kw := by
  have hlt : j < w.recs.length := (List.getElem?_eq_some_iff.mp hj).1
  cases op with
  | newDict d => exact ⟨r, hj, rfl, rfl, rfl⟩
  | newGen g => exact ⟨r, hj, rfl, rfl, rfl⟩
  | make cls args =>
    refine ⟨r, ?_, rfl, rfl, rfl⟩
    simp only [step]
    split
    · next w' e =>
      obtain ⟨q, hq, -⟩ := make_spec e
      rw [hq, List.getElem?_append_left hlt]; exact hj
    · exact hj
  | setParams i ps =>
    refine ⟨r, ?_, rfl, rfl, rfl⟩
    have hne : i ≠ j := fun e => h ps (e ▸ rfl)
    cases e : w.recs[i]? with
    | none => simp only [step, e]; exact hj
    | some q =>
      rw [step_setParams F w i ps q e]
      simp only
      rw [List.getElem?_set_ne hne]; exact hj
  | clone i =>
    refine ⟨r, ?_, rfl, rfl, rfl⟩
    simp only [step]
    cases e : w.recs[i]? with
    | none => exact hj
    | some q =>
      simp only
      split
      · next w' r' hx =>
        rw [(clone_ok hx).2.2.2.2.2.2.2, List.getElem?_append_left hlt]; exact hj
      · exact hj
  | fit i d =>
    simp only [step, fit]
    cases e : w.recs[i]? with
    | none => exact ⟨r, hj, rfl, rfl, rfl⟩
    | some q =>
      simp only
      split
      · exact ⟨r, hj, rfl, rfl, rfl⟩
      · next t g _ =>
        by_cases hij : i = j
        · subst hij
          rw [hj] at e
          cases e
          refine ⟨{ r with learned := some t }, ?_, rfl, rfl, rfl⟩
          simp only
          rw [List.getElem?_set_self hlt]
        · refine ⟨r, ?_, rfl, rfl, rfl⟩
          simp only
          rw [List.getElem?_set_ne hij]; exact hj

lemma run_keeps (F : Reads K γ → D → Option (θ × γ)) (ops : List (Op K γ D)) (w : World K γ θ) (j : Nat) (r : Rec K θ)
    (hj : w.recs[j]? = some r) (h : ∀ ps, Op.setParams j ps ∉ ops) :
    ∃ r', (run F w ops).recs[j]? = some r' ∧ r'.cls = r.cls ∧ r'.attrs = r.attrs ∧ r'.kw = r.kw := by
  induction ops generalizing w r with
  | nil => exact ⟨r, hj, rfl, rfl, rfl⟩
  | cons op ops ih =>
    obtain ⟨r1, a1, a2, a3, a4⟩ := step_keeps F w op j r hj (fun ps e => h ps (by simp [e]))
    obtain ⟨r2, b1, b2, b3, b4⟩ := ih (step F w op) r1 a1 (fun ps hm => h ps (by simp [hm]))
    exact ⟨r2, b1, b2.trans a2, b3.trans a3, b4.trans a4⟩

/-- A recommender on which `set_params` is never called can be cloned at any time, whatever else a program does: other recommenders,
fits, clones. -/
theorem C138_clone_always (F : Reads K γ → D → Option (θ × γ)) (w w1 : World K γ θ) (cls : Cls) (args : Dict String (Obj K))
    (h : make w cls args = .ok w1) (ops : List (Op K γ D)) (hops : ∀ ps, Op.setParams w.recs.length ps ∉ ops) :
    ∃ r, (run F w1 ops).recs[w.recs.length]? = some r ∧ ∃ x, clone (run F w1 ops) r = .ok x := by
  obtain ⟨r0, e1, e2, -⟩ := make_spec h
  have hj : w1.recs[w.recs.length]? = some r0 := by rw [e1]; simp
  obtain ⟨r, a1, a2, a3, -⟩ := run_keeps F ops w1 _ r0 hj hops
  refine ⟨r, a1, (C138_clone_iff _ _).mpr ?_⟩
  by_cases hc : cls = .plsa
  · exact Or.inl (a2.trans (e2.trans hc))
  right
  obtain ⟨q, q1, ⟨x, q2, -⟩, ⟨n, q3, -⟩, -⟩ := C138_get_params_mf w w1 cls args hc h
  rw [e1] at q1
  have hq := List.singleton_inj.mp (List.append_cancel_left q1)
  subst hq
  have hg : getParams r = getParams r0 := by simp only [getParams, a2, a3]
  rw [hg]
  exact ⟨⟨x, q2⟩, ⟨n, q3⟩⟩

/-- A recommender constructed without settings of the optimizer has the default ones. -/
theorem C138_default_settings (w w' : World K γ θ) (cls : Cls) (args : Dict String (Obj K))
    (ha : ∀ p ∈ args, p.1 ∈ parameters cls) (h : make w cls args = .ok w') :
    ∃ r, w'.recs = w.recs ++ [r] ∧ (reads w' r).settings = defaults cls := by
  have hf : args.filter (fun p => p.1 ∉ paramNames cls) = [] := by
    rw [List.filter_eq_nil_iff]
    intro p hp
    simp [paramNames_eq, ha p hp]
  by_cases hc : cls = .plsa
  · subst hc
    rw [make_plsa, hf, constructPLSA_nil] at h
    cases h
    exact ⟨_, rfl, by simp [reads, Opt.cell, defaults, Est.see, consts]⟩
  · rw [make_mf _ _ _ hc, hf, construct_nil] at h
    have hd : (defaults cls : List (String × Seen K γ)) = [("options", .dict [("disp", .val (.bool false))])] := by
      cases h : cls <;> first | rfl | exact absurd h hc
    split at h
    · cases h
    · split at h
      · cases h
      · cases h
        exact ⟨_, rfl, by simp [reads, Opt.cell, hd, Est.see, consts]⟩

/-- Training the clone.  The full claim would be that a clone, trained on the same data, learns what the original learns.  That holds,
for every learner that is a function of parameters, generator state, settings and data, when the original has the default settings of
the optimizer.  With other settings it is false (`C138_same_training_refuted`), since `clone` does not see them. -/
theorem C138_same_training_partial (F : Reads K γ → D → Option (θ × γ)) (ops : List (Op K γ D)) (hops : ProgOk F World.empty ops)
    (j : Nat) (r : Rec K θ) (hr : (run F World.empty ops).recs[j]? = some r)
    (hs : (reads (run F World.empty ops) r).settings = defaults r.cls) (w' : World K γ θ) (r' : Rec K θ)
    (h : clone (run F World.empty ops) r = .ok (w', r')) (d : D) (hF : F (reads (run F World.empty ops) r) d ≠ none) :
    learnedOf (fit F w' w'.recs.length.pred d) w'.recs.length.pred = learnedOf (fit F w' j d) j ∧
      learnedOf (fit F w' j d) j ≠ none := by
  obtain ⟨c1, c2, c3, c4, c5, -, c7, -⟩ := C138_clone F ops hops r (List.mem_of_getElem? hr) w' r' h
  have hlt : j < (run F World.empty ops).recs.length := (List.getElem?_eq_some_iff.mp hr).1
  have e : reads w' r' = reads (run F World.empty ops) r := by
    have := hs.symm
    cases e1 : reads w' r'
    cases e2 : reads (run F World.empty ops) r
    rw [e1] at c3 c4 c5
    rw [e2] at c4 hs
    simp only at c3 c4 c5 hs
    have hcls : (reads (run F World.empty ops) r).cls = r.cls := rfl
    rw [e2] at hcls
    simp only at hcls
    subst c4
    rw [c3, c5, hs, hcls]
  have ej : reads w' r = reads (run F World.empty ops) r := c7 r (List.mem_of_getElem? hr)
  have hp : w'.recs.length.pred = (run F World.empty ops).recs.length := by rw [c1]; simp
  rw [hp]
  have g1 : w'.recs[(run F World.empty ops).recs.length]? = some r' := by rw [c1]; simp
  have g2 : w'.recs[j]? = some r := by rw [c1, List.getElem?_append_left hlt]; exact hr
  cases eF : F (reads (run F World.empty ops) r) d with
  | none => exact absurd eF hF
  | some tg =>
    obtain ⟨t, g⟩ := tg
    have l1 : learnedOf (fit F w' (run F World.empty ops).recs.length d) (run F World.empty ops).recs.length = some t := by
      simp only [fit, g1, e, eF, learnedOf]
      rw [List.getElem?_set_self (List.getElem?_eq_some_iff.mp g1).1]
      rfl
    have l2 : learnedOf (fit F w' j d) j = some t := by
      simp only [fit, g2, ej, eF, learnedOf]
      rw [List.getElem?_set_self (List.getElem?_eq_some_iff.mp g2).1]
      rfl
    rw [l1, l2]
    exact ⟨rfl, by simp⟩

/-! ### Instances -/

/-- A learner for the instances: it counts the iterations it is allowed. -/
def exLearn : Reads ℚ Nat → Unit → Option (Int × Nat) := fun x _ =>
  some ((match x.settings with
    | [("options", .dict d)] => match Dict.get? d "maxiter" with
      | some (.val (.int n)) => n
      | _ => 100
    | _ => 0), 0)

/-- `PMF(C=10, k=2.9, random_state=rng, maxiter=5)`, fitted. -/
def exOps : List (Op ℚ Nat Unit) :=
  [.newGen 7, .make .pmf [("C", .val (.int 10)), ("k", .val (.float (29 / 10))), ("random_state", .val (.gen 0)), ("maxiter", .val (.int 5))],
   .fit 0 ()]

/-- A clone loses the settings of the optimizer and learns something else. -/
theorem C138_same_training_refuted :
    ¬ ∀ (F : Reads ℚ Nat → Unit → Option (Int × Nat)) (ops : List (Op ℚ Nat Unit)), ProgOk F World.empty ops →
      ∀ (j : Nat) (r : Rec ℚ Int), (run F World.empty ops).recs[j]? = some r →
      ∀ (w' : World ℚ Nat Int) (r' : Rec ℚ Int), clone (run F World.empty ops) r = .ok (w', r') →
      ∀ d, F (reads (run F World.empty ops) r) d ≠ none →
      learnedOf (fit F w' w'.recs.length.pred d) w'.recs.length.pred = learnedOf (fit F w' j d) j := by
  intro h
  have hok : ProgOk exLearn (World.empty : World ℚ Nat Int) exOps := by
    refine ⟨trivial, ?_, trivial, trivial⟩
    intro p hp
    simp only [List.mem_cons, List.not_mem_nil, or_false] at hp
    rcases hp with rfl | rfl | rfl | rfl
    · trivial
    · trivial
    · show (0 : Nat) < 1; decide
    · trivial
  have key : (((run exLearn World.empty exOps).recs[0]?).bind (fun r =>
      match clone (run exLearn World.empty exOps) r with
      | .ok (w', _) => some (learnedOf (fit exLearn w' w'.recs.length.pred ()) w'.recs.length.pred, learnedOf (fit exLearn w' 0 ()) 0)
      | .error _ => none)) = some (some 100, some 5) := by decide +kernel
  cases e1 : (run exLearn World.empty exOps).recs[0]? with
  | none => rw [e1] at key; simp at key
  | some r =>
    rw [e1] at key
    simp only [Option.bind_some] at key
    split at key
    · next w' r' e2 =>
      have := h exLearn exOps hok 0 r e1 w' r' e2 () (by simp [exLearn])
      rw [this] at key
      simp only [Option.some.injEq, Prod.mk.injEq] at key
      exact absurd (key.1.symm.trans key.2) (by decide)
    · simp at key

/-- The hypotheses of the theorems hold for a program: after `set_params(C=3)` a clone is refused, before it is made. -/
example : ∃ (r : Rec ℚ Int) (w' : World ℚ Nat Int) (r' : Rec ℚ Int), (run exLearn World.empty exOps).recs[0]? = some r ∧
    getParams r = [("C", .val (.float 10)), ("k", .val (.int 2)), ("random_state", .val (.gen 0))] ∧
    clone (run exLearn World.empty exOps) r = .ok (w', r') ∧
    getParams r' = [("C", .val (.float 10)), ("k", .val (.int 2)), ("random_state", .val (.gen 1))] ∧
    clone (run exLearn World.empty exOps) (afterSet r [("C", .val (.int 3))]) = .error .runtimeError := by
  have key : ((run exLearn World.empty exOps).recs[0]?).elim false (fun r =>
      decide (getParams r = [("C", .val (.float 10)), ("k", .val (.int 2)), ("random_state", .val (.gen 0))]) &&
      (match clone (run exLearn World.empty exOps) r with
      | .ok (_, r') => decide (getParams r' = [("C", .val (.float 10)), ("k", .val (.int 2)), ("random_state", .val (.gen 1))])
      | .error _ => false) &&
      (match clone (run exLearn World.empty exOps) (afterSet r [("C", .val (.int 3))]) with
      | .ok _ => false
      | .error e => decide (e = .runtimeError))) = true := by decide +kernel
  cases e1 : (run exLearn World.empty exOps).recs[0]? with
  | none => rw [e1] at key; simp at key
  | some r =>
    rw [e1] at key
    simp only [Option.elim_some, Bool.and_eq_true, decide_eq_true_eq] at key
    obtain ⟨⟨k1, k2⟩, k3⟩ := key
    split at k2
    · next w' r' e2 =>
      split at k3
      · simp at k3
      · next e e3 =>
        refine ⟨r, w', r', rfl, k1, e2, by simpa using k2, ?_⟩
        rw [e3]; simpa using k3
    · simp at k2

/-- A program for `C138_same_training_partial`: `MultinomialPLSA(k=3, random_state=rng)`, fitted, with the default settings. -/
example : let ops : List (Op ℚ Nat Unit) := [.newGen 7, .make .plsa [("k", .val (.int 3)), ("random_state", .val (.gen 0))], .fit 0 ()]
    ProgOk exLearn (World.empty : World ℚ Nat Int) ops ∧ (run exLearn World.empty ops).recs.length = 1 := by
  refine ⟨⟨trivial, ?_, trivial, trivial⟩, by decide +kernel⟩
  intro p hp
  simp only [List.mem_cons, List.not_mem_nil, or_false] at hp
  rcases hp with rfl | rfl
  · trivial
  · show (0 : Nat) < 1; decide

end Kam.Est
