/-
C116: a run that has computed its result can write it.  `json_decodable` (Verif/Util) makes every result
tree of the scripts one that `json.dumps` accepts, and leaves trees that were read from result files alone.
-/
import Verif.Scripts.Leaves
import Verif.Exp.Props2
import Verif.Util.Props

set_option linter.unusedSectionVars false

namespace Kam.Exp
open Scripts Util

variable {R C : Type}

/-! ### Specification -/

/-- Python and numpy scalars other than complex numbers, and any object with a `str`. -/
inductive Scalar : Val R C → Prop
  | bool (b) : Scalar (.bool b)
  | int (i) : Scalar (.int i)
  | float (x) : Scalar (.float x)
  | str (s) : Scalar (.str s)
  | none : Scalar .none
  | npBool (b) : Scalar (.npBool b)
  | npInt (i) : Scalar (.npInt i)
  | npFloat (x) : Scalar (.npFloat x)
  | obj (s) : Scalar (.obj s)

/-- The scalars of result files: truth values, numbers and strings. -/
inductive Stored : Val R C → Prop
  | bool (b) : Stored (.bool b)
  | int (i) : Stored (.int i)
  | float (x) : Stored (.float x)
  | str (s) : Stored (.str s)

mutual
/-- A tree as a Python value. -/
def value : J (Val R C) → Val R C
  | .leaf v => v
  | .list l => .list (values l)
  | .dict d => .dict (valueItems d)
/-- See `value`. -/
def values : List (J (Val R C)) → List (Val R C)
  | [] => []
  | j :: l => value j :: values l
/-- See `value`. -/
def valueItems : List (String × J (Val R C)) → List (Key R × Val R C)
  | [] => []
  | (k, j) :: d => (.str k, value j) :: valueItems d
end

/-- The tree `j'` is `j` with the scalars that `json_decodable` makes of its leaves. -/
inductive Becomes : J (Val R C) → J (Val R C) → Prop
  | leaf {v w : Val R C} (h : Kept v w) (hw : Stored w) : Becomes (.leaf v) (.leaf w)
  | list {l l' : List (J (Val R C))} (h : List.Forall₂ Becomes l l') : Becomes (.list l) (.list l')
  | dict {d d' : List (String × J (Val R C))} (hk : d.map (·.1) = d'.map (·.1))
      (h : List.Forall₂ Becomes (d.map (·.2)) (d'.map (·.2))) : Becomes (.dict d) (.dict d')

/-- What a run writes into its result file: the tree after `json_decodable`, which `json.dumps` accepts. -/
structure Writes (j j' : J (Val R C)) : Prop where
  decoded : jsonDecodable (value j) = value j'
  becomes : Becomes j j'
  dumps : Serializable (value j')

/-! ### Lemmas -/

lemma values_eq (l : List (J (Val R C))) : values l = l.map value := by
  induction l with
  | nil => rfl
  | cons j l ih => simp [values, ih]

lemma valueItems_eq (d : List (String × J (Val R C))) : valueItems d = d.map (fun p => (.str p.1, value p.2)) := by
  induction d with
  | nil => rfl
  | cons p d ih =>
    obtain ⟨k, j⟩ := p
    simp [valueItems, ih]

lemma Scalar.kept {v : Val R C} (h : Scalar v) : Kept v (convChild v) ∧ Stored (convChild v) := by
  cases h with
  | bool b => exact ⟨.plain (.bool b), .bool b⟩
  | int b => exact ⟨.plain (.int b), .int b⟩
  | float b => exact ⟨.plain (.float b), .float b⟩
  | str b => exact ⟨.plain (.str b), .str b⟩
  | none => exact ⟨.none, .str _⟩
  | npBool b => exact ⟨.npBool b, .str _⟩
  | npInt b => exact ⟨.npInt b, .int b⟩
  | npFloat b => exact ⟨.npFloat b, .float b⟩
  | obj b => exact ⟨.obj b, .str b⟩

lemma Stored.scalar {v : Val R C} (h : Stored v) : Scalar v := by
  cases h <;> constructor

lemma Stored.conv {v : Val R C} (h : Stored v) : convChild v = v := by
  cases h <;> rfl

lemma forall₂_of {β : Type} {P : β → β → Prop} {l : List β} (h : ∀ x ∈ l, ∃ y, P x y) : ∃ l', List.Forall₂ P l l' := by
  induction l with
  | nil => exact ⟨[], .nil⟩
  | cons x l ih =>
    obtain ⟨y, hy⟩ := h x List.mem_cons_self
    obtain ⟨l', hl'⟩ := ih (fun z hz => h z (List.mem_cons_of_mem _ hz))
    exact ⟨y :: l', .cons hy hl'⟩

lemma forall₂_map_eq {β δ : Type} {P : β → β → Prop} {l l' : List β} {f g : β → δ} (h : List.Forall₂ P l l')
    (hfg : ∀ x ∈ l, ∀ y ∈ l', P x y → f x = g y) : l.map f = l'.map g := by
  induction h with
  | nil => rfl
  | cons hxy _ ih =>
    simp only [List.map_cons, List.cons.injEq]
    exact ⟨hfg _ List.mem_cons_self _ List.mem_cons_self hxy,
      ih (fun x hx y hy => hfg x (List.mem_cons_of_mem _ hx) y (List.mem_cons_of_mem _ hy))⟩

lemma forall₂_right {β : Type} {P : β → β → Prop} {Q : β → Prop} {l l' : List β} (h : List.Forall₂ P l l')
    (hq : ∀ x y, P x y → Q y) : ∀ y ∈ l', Q y := by
  induction h with
  | nil => intro y hy; cases hy
  | cons hxy _ ih =>
    intro y hy
    rcases List.mem_cons.1 hy with rfl | hy
    · exact hq _ _ hxy
    · exact ih y hy

/-- A list of values with the keys of another list. -/
lemma zip_keys {β δ : Type} {d : List (String × β)} {l : List δ} (h : d.length = l.length) :
    ∃ d' : List (String × δ), d.map (·.1) = d'.map (·.1) ∧ d'.map (·.2) = l := by
  refine ⟨(d.map (·.1)).zip l, ?_, ?_⟩
  · rw [List.map_fst_zip (by simp [h])]
  · rw [List.map_snd_zip (by simp [h])]

lemma items_eq {β δ ρ : Type} {d : List (String × β)} {d' : List (String × δ)} {f : β → ρ} {g : δ → ρ}
    (hk : d.map (·.1) = d'.map (·.1)) (hv : (d.map (·.2)).map f = (d'.map (·.2)).map g) :
    d.map (fun p => ((.str p.1 : Key R), f p.2)) = d'.map (fun p => (.str p.1, g p.2)) := by
  induction d generalizing d' with
  | nil =>
    cases d' with
    | nil => rfl
    | cons p d' => simp at hk
  | cons q d ih =>
    cases d' with
    | nil => simp at hk
    | cons p d' =>
      simp only [List.map_cons, List.cons.injEq] at hk hv ⊢
      exact ⟨by rw [hk.1, hv.1], ih hk.2 hv.2⟩

/-- What `json_decodable` makes of a tree with scalar leaves. -/
lemma conv_value {j : J (Val R C)} (h : J.Leaves Scalar j) :
    ∃ j', convChild (value j) = value j' ∧ Becomes j j' ∧ J.Leaves Stored j' := by
  induction h with
  | @leaf v h => exact ⟨.leaf (convChild v), rfl, .leaf h.kept.1 h.kept.2, .leaf h.kept.2⟩
  | @list l h ih =>
    obtain ⟨l', hl'⟩ := forall₂_of ih
    refine ⟨.list l', ?_, .list (hl'.imp fun _ _ h => h.2.1), .list (forall₂_right hl' fun _ _ h => h.2.2)⟩
    simp only [value, convChild, values_eq, convList_eq, List.map_map]
    congr 1
    exact forall₂_map_eq hl' (fun x _ y _ h => h.1)
  | @dict d h ih =>
    obtain ⟨l', hl'⟩ := forall₂_of (l := d.map (·.2)) (P := fun j j' =>
        convChild (value j) = value j' ∧ Becomes j j' ∧ J.Leaves Stored j') (by
      intro x hx
      obtain ⟨p, hp, rfl⟩ := List.mem_map.1 hx
      exact ih p hp)
    obtain ⟨d', hk, rfl⟩ := zip_keys (d := d) (l := l') (by simpa using hl'.length_eq)
    refine ⟨.dict d', ?_, .dict hk (hl'.imp fun _ _ h => h.2.1), .dict ?_⟩
    · simp only [value, convChild, valueItems_eq, convItems_eq, List.map_map]
      congr 1
      exact items_eq hk (forall₂_map_eq hl' (f := fun j => convChild (value j)) (fun x _ y _ h => h.1))
    · intro p hp
      exact forall₂_right hl' (fun _ _ h => h.2.2) p.2 (List.mem_map_of_mem hp)

/-- Trees of result files are accepted by `json.dumps`, and `json_decodable` leaves them alone. -/
lemma stored_value {j : J (Val R C)} (h : J.Leaves Stored j) :
    convChild (value j) = value j ∧ Serializable (value j) := by
  induction h with
  | @leaf v h =>
    refine ⟨h.conv, ?_⟩
    cases h <;> constructor
  | @list l h ih =>
    simp only [value, convChild, values_eq, convList_eq, List.map_map]
    constructor
    · congr 1
      exact List.map_congr_left (fun x hx => (ih x hx).1)
    · refine .list _ ?_
      intro v hv
      obtain ⟨x, hx, rfl⟩ := List.mem_map.1 hv
      exact (ih x hx).2
  | @dict d h ih =>
    simp only [value, convChild, valueItems_eq, convItems_eq, List.map_map]
    constructor
    · congr 1
      refine List.map_congr_left (fun x hx => ?_)
      simp only [Function.comp_apply]
      rw [(ih x hx).1]
    · refine .dict _ ?_ ?_
      · intro v hv
        obtain ⟨x, hx, rfl⟩ := List.mem_map.1 hv
        exact ⟨fun _ h => (by cases h), fun _ h => (by cases h)⟩
      · intro v hv
        obtain ⟨x, hx, rfl⟩ := List.mem_map.1 hv
        exact (ih x hx).2

lemma stored_decoded {j : J (Val R C)} (h : J.Leaves Stored j) : jsonDecodable (value j) = value j := by
  cases h with
  | leaf h => cases h <;> rfl
  | list h => exact (jsonDecodable_eq rfl).trans (stored_value (.list h)).1
  | dict h => exact (jsonDecodable_eq rfl).trans (stored_value (.dict h)).1

lemma Becomes.item {j j' a : J (Val R C)} {k : String} (h : Becomes j j') (ha : j.item k = .ok a) :
    ∃ b, j'.item k = .ok b ∧ Becomes a b := by
  cases h with
  | leaf _ _ => cases ha
  | list _ => cases ha
  | @dict d d' hk h =>
    simp only [J.item] at ha ⊢
    induction d generalizing d' with
    | nil => simp [Dict.getItem, Dict.get?] at ha
    | cons q d ih =>
      cases d' with
      | nil => simp at hk
      | cons p d' =>
        obtain ⟨k1, v1⟩ := q
        obtain ⟨k2, v2⟩ := p
        simp only [List.map_cons, List.cons.injEq] at hk
        obtain ⟨rfl, hk⟩ := hk
        cases h with
        | cons h1 h2 =>
          simp only [Dict.getItem, Dict.get?] at ha ⊢ ih
          by_cases e : k1 = k
          · simp only [e, if_true] at ha ⊢
            cases ha
            exact ⟨v2, rfl, h1⟩
          · simp only [e, if_false] at ha ⊢
            exact ih hk h2 ha

variable {F α φ ε T γ : Type} [LinearOrder α]

/-- The values the library writes satisfy `P`. -/
structure Lib.Writes {V : Type} (P : V → Prop) (lib : Lib α φ ε V γ) : Prop where
  leaf : ∀ x, P (lib.leaf x)
  mf : ∀ x, J.Leaves P (lib.mf x)
  plsa : ∀ x, J.Leaves P (lib.plsa x)

lemma predictor_writes {V θ W : Type} {P : V → Prop} {L : Learner ℝ γ θ W} {fresh : Dict String W} {enc : W → J V}
    {after : γ → ScoreData ℝ α φ ε → γ} (he : ∀ w, J.Leaves P (enc w)) :
    (predictor L fresh enc after).Writes P := by
  intro g d m res g' h
  simp only [predictor] at h
  split at h
  · cases h
    intro p hp
    obtain ⟨q, _, rfl⟩ := List.mem_map.1 hp
    exact he _
  · cases h

lemma finder_writes {V θ W : Type} {P : V → Prop} {L : Learner ℝ γ θ W} {fresh : Dict String W} {enc : W → J V}
    {after : γ → ScoreData ℝ α φ ε → γ} (he : ∀ w, J.Leaves P (enc w)) :
    (finder L fresh enc after).Writes P := by
  intro g d m res g' h
  simp only [finder] at h
  split at h
  · cases h
    intro p hp
    obtain ⟨q, _, rfl⟩ := List.mem_map.1 hp
    exact he _
  · cases h

lemma guardK_writes {V M : Type} {P : V → Prop} {rec : Recommender ℝ α φ ε V γ M} (h : rec.Writes P) (k : Int) :
    (guardK k rec).Writes P := by
  unfold guardK
  split
  · intro g d m res g' h
    cases h
  · exact h

lemma setting_writes {V : Type} {P : V → Prop} {info : Info F} {leaf : OptVal → V} {file : F → V}
    {environment : Dict String (J V)} {seed : Option Int} (hl : ∀ x, P (leaf x)) (hf : ∀ f, P (file f))
    (he : AllLeaves P environment) : (info.setting leaf file environment seed).Writes P := by
  refine ⟨?_, he, ?_⟩
  · exact .cons (.leaf (hf _)) (.cons (leaves_map fun _ => .leaf (hl _)) (.cons (.leaf (hl _)) (.cons (.leaf (hl _))
      (.cons (.leaf (hl _)) (.cons (.leaf (hl _)) .nil)))))
  · refine .cons (.dict ?_) (.cons (.leaf (hl _)) (.cons (.leaf (hl _)) (.cons (.leaf (hl _)) (.cons (.leaf (hl _))
      (.cons (.leaf (hl _)) (.cons (.leaf (hl _)) .nil))))))
    intro p hp
    obtain ⟨q, _, rfl⟩ := List.mem_map.1 hp
    exact .leaf (hl _)

/-- The leaves of the results of the experiment scripts. -/
lemma task_leaves {V : Type} {P : V → Prop} {env : Env ℝ α ε F V T γ} (hv : env.Writes P) {lib : Lib α φ ε V γ}
    (hl : lib.Writes P) {clock : Nat → T} {environment : Dict String (J V)} (he : AllLeaves P environment)
    {read : Bool → F → Res (Table ℝ α ε)} {sc : Script} {o : Namespace F} {j : J V}
    (h : task env lib clock environment read sc o = .ok j) : J.Leaves P j := by
  unfold task at h
  obtain ⟨info, _, h⟩ := bind_ok h
  obtain ⟨seed, _, h⟩ := bind_ok h
  have hs := setting_writes (info := info) (seed := seed) hl.leaf (fun f => hv.file (some f)) he
  dsimp only at h
  split at h
  · obtain ⟨⟨k, cf⟩, _, h⟩ := bind_ok h
    exact doTask_leaves hv (guardK_writes (predictor_writes hl.mf) k) hs h
  · obtain ⟨⟨k, cf⟩, _, h⟩ := bind_ok h
    exact doTask_leaves hv (guardK_writes (finder_writes hl.mf) k) hs h
  · obtain ⟨⟨k, cf⟩, _, h⟩ := bind_ok h
    exact doTask_leaves hv (guardK_writes (predictor_writes hl.plsa) k) hs h

lemma doTask_dict {K M V : Type} [Field K] [LinearOrder K] [IsStrictOrderedRing K] [FloorRing K]
    {env : Env K α ε F V T γ} {clock : Nat → T} {rec : Recommender K α φ ε V γ M} {load : Loader K α φ ε F}
    {s : Setting K F V} {target : Option Int} {j : J V} (h : doTask env clock rec load s target = .ok j) :
    ∃ d, j = .dict d := by
  unfold doTask at h
  obtain ⟨glob, _, h⟩ := bind_ok h
  split at h
  · cases h
  · dsimp only at h
    split at h
    all_goals
      obtain ⟨r, _, h⟩ := bind_ok h
      cases h
      exact ⟨_, rfl⟩

lemma task_dict {V : Type} {env : Env ℝ α ε F V T γ} {lib : Lib α φ ε V γ} {clock : Nat → T}
    {environment : Dict String (J V)} {read : Bool → F → Res (Table ℝ α ε)} {sc : Script} {o : Namespace F} {j : J V}
    (h : task env lib clock environment read sc o = .ok j) : ∃ d, j = .dict d := by
  unfold task at h
  obtain ⟨info, _, h⟩ := bind_ok h
  obtain ⟨seed, _, h⟩ := bind_ok h
  dsimp only at h
  split at h
  all_goals
    obtain ⟨⟨k, cf⟩, _, h⟩ := bind_ok h
    exact doTask_dict h

lemma statsOf_dict {V : Type} {se : StatsEnv V} {j w : J V} (h : statsOf se j = .ok w) : ∃ d, w = .dict d := by
  unfold statsOf at h
  obtain ⟨⟨t, p⟩, _, h⟩ := bind_ok h
  obtain ⟨task, _, h⟩ := bind_ok h
  cases task
  all_goals
    dsimp only at h
    split at h
    · obtain ⟨_, _, h⟩ := bind_ok h
      obtain ⟨_, _, h⟩ := bind_ok h
      obtain ⟨_, _, h⟩ := bind_ok h
      obtain ⟨_, _, h⟩ := bind_ok h
      obtain ⟨_, _, h⟩ := bind_ok h
      cases h
      exact ⟨_, rfl⟩
    · split at h
      · obtain ⟨_, _, h⟩ := bind_ok h
        obtain ⟨_, _, h⟩ := bind_ok h
        obtain ⟨_, _, h⟩ := bind_ok h
        cases h
        exact ⟨_, rfl⟩
      · cases h

/-! ### Theorems -/

/-- **C116** for the experiment scripts: whatever the options, the data and the results, a run that got as far as
its result can write it. -/
theorem C116_experiment {env : Env ℝ α ε F (Val R C) T γ} (hv : env.Writes Scalar) {lib : Lib α φ ε (Val R C) γ}
    (hl : lib.Writes Scalar) {clock : Nat → T} {environment : Dict String (J (Val R C))} (he : AllLeaves Scalar environment)
    {read : Bool → F → Res (Table ℝ α ε)} {sc : Script} {stdin stdout : F} {args : List (Arg F)} {pos : List F}
    {j : J (Val R C)} (h : main env lib clock environment read sc stdin stdout args pos = some (.ok j)) :
    ∃ j', Writes j j' ∧ J.Leaves Stored j' := by
  unfold main at h
  obtain ⟨o, _, h⟩ := Option.map_eq_some_iff.1 h
  have hj := task_leaves hv hl he h
  obtain ⟨d, rfl⟩ := task_dict h
  obtain ⟨j', h1, h2, h3⟩ := conv_value hj
  exact ⟨j', ⟨(jsonDecodable_eq rfl).trans h1, h2, (stored_value h3).2⟩, h3⟩

/-- **C116** for merging: result files are merged into a tree that can be written as it is. -/
theorem C116_merge {files : List (J (Val R C))} (hf : ∀ j ∈ files, J.Leaves Stored j) {out : String} {w : J (Val R C)}
    (h : merge (.bool true) (.str out) files = .ok w) :
    jsonDecodable (value w) = value w ∧ Serializable (value w) ∧ J.Leaves Stored w := by
  have hw := merge_leaves (.bool true) (.str out) hf h
  exact ⟨stored_decoded hw, (stored_value hw).2, hw⟩

/-- **C116** for statistics: those of a result file can be written into it, with and without the predictions. -/
theorem C116_stats {se : StatsEnv (Val R C)} (hs : se.Writes Scalar) {j st : J (Val R C)} (hj : J.Leaves Stored j)
    (h : statsOf se j = .ok st) :
    ∃ st', Writes st st' ∧ J.Leaves Stored st' ∧
      ∀ w, j.setItem "statistics" st' = .ok w → Serializable (value w) ∧
        ∀ w', w.delItem "prediction" = .ok w' → Serializable (value w') := by
  have hst := statsOf_leaves hs h
  obtain ⟨d, rfl⟩ := statsOf_dict h
  obtain ⟨st', h1, h2, h3⟩ := conv_value hst
  refine ⟨st', ⟨(jsonDecodable_eq rfl).trans h1, h2, (stored_value h3).2⟩, h3, ?_⟩
  intro w hw
  have hl := hj.setItem h3 hw
  refine ⟨(stored_value hl).2, fun w' hw' => (stored_value (hl.delItem hw')).2⟩

/-- What can be found in the result of a run can be found in its file, a scalar as the scalar of the same value. -/
theorem C116_found {j j' : J (Val R C)} (h : Becomes j j') (p : List String) {a : J (Val R C)} (ha : j.path p = .ok a) :
    ∃ b, j'.path p = .ok b ∧ Becomes a b := by
  induction p generalizing j j' with
  | nil => cases ha; exact ⟨j', rfl, h⟩
  | cons k p ih =>
    simp only [J.path, List.foldlM_cons] at ha ⊢
    obtain ⟨c, h1, h2⟩ := bind_ok ha
    obtain ⟨c', h3, h4⟩ := h.item h1
    rw [h3]
    exact ih h4 h2

/-- The seed of a run made without one is not stored as `null`: the file has the string `None`. -/
theorem C116_no_seed {env : Env ℝ α ε F (Val R C) T γ} {lib : Lib α φ ε (Val R C) γ}
    (hn : lib.leaf .none = .none) {clock : Nat → T} {environment : Dict String (J (Val R C))}
    {read : Bool → F → Res (Table ℝ α ε)} {sc : Script} {o : Namespace F} (ho : o.rseed = none)
    {j j' : J (Val R C)} (h : task env lib clock environment read sc o = .ok j) (hw : Writes j j') :
    j'.path ["model", "options", "random_state"] = .ok (.leaf (.str "None")) := by
  obtain ⟨options, cls, hr, hc⟩ := C100_recorded env lib clock environment read h
  have hg : options.get? "random_state" = some .none := by
    rcases hc with ⟨_, _, _, h⟩ | ⟨_, _, _, h⟩ | ⟨_, _, _, h⟩ | ⟨_, _, _, h⟩ <;>
      simpa [ho] using h "random_state"
  have hp := (hr.options "random_state" (.leaf .none)).2 ⟨.none, hg, by rw [hn]⟩
  obtain ⟨b, h1, h2⟩ := C116_found hw.becomes _ hp
  cases h2 with
  | leaf hk hs =>
    cases hk with
    | none => exact h1
    | plain h => cases h

end Kam.Exp
