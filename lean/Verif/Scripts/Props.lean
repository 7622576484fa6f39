/-
C60, C61: cross validation fold by fold and merged, and what every fold is computed from.
-/
import Verif.Scripts.Load

set_option linter.unusedSectionVars false

namespace Kam.Scripts
open Spec

variable {K α φ ε F V T γ M : Type} [Field K] [LinearOrder K] [IsStrictOrderedRing K] [FloorRing K] [LinearOrder α]

section paths

variable {V : Type}

lemma path_training (h : Head V) (l : List (Rec V)) (hnd : (l.map (·.key)).Nodup) {r : Rec V} (hr : r ∈ l) :
    (tree h l).path ["training", "results", r.key] = .ok r.training := by
  have e := get?_perFold l (·.training) hnd hr
  simp [J.path, tree, J.item, Dict.getItem, Dict.get?, ok_bind, e]

lemma path_test (h : Head V) (l : List (Rec V)) (hnd : (l.map (·.key)).Nodup) {r : Rec V} (hr : r ∈ l) :
    (tree h l).path ["test", "results", r.key] = .ok r.test := by
  have e := get?_perFold l (·.test) hnd hr
  simp [J.path, tree, J.item, Dict.getItem, Dict.get?, ok_bind, e]

lemma path_event (h : Head V) (l : List (Rec V)) (hnd : (l.map (·.key)).Nodup) {r : Rec V} (hr : r ∈ l) :
    (tree h l).path ["prediction", "event", r.key] = .ok r.event := by
  have e := get?_perFold l (·.event) hnd hr
  simp [J.path, tree, J.item, Dict.getItem, Dict.get?, ok_bind, e, predictionOf]

lemma path_true (h : Head V) (l : List (Rec V)) (hnd : (l.map (·.key)).Nodup) {r : Rec V} (hr : r ∈ l) :
    (tree h l).path ["prediction", "true", r.key] = .ok r.trues := by
  have e := get?_perFold l (·.trues) hnd hr
  simp [J.path, tree, J.item, Dict.getItem, Dict.get?, ok_bind, e, predictionOf]

lemma path_predicted (h : Head V) (l : List (Rec V)) (hnd : (l.map (·.key)).Nodup) {r : Rec V} (hr : r ∈ l) :
    (tree h l).path ["prediction", "predicted", r.key] = .ok r.predicted := by
  have e := get?_perFold l (·.predicted) hnd hr
  simp [J.path, tree, J.item, Dict.getItem, Dict.get?, ok_bind, e, predictionOf]

lemma path_mask (h : Head V) (l : List (Rec V)) (hnd : (l.map (·.key)).Nodup) {r : Rec V} (hr : r ∈ l) :
    (tree h l).path ["prediction", "mask", r.key] = .ok r.mask := by
  have e := get?_perFold l (·.mask) hnd hr
  simp [J.path, tree, J.item, Dict.getItem, Dict.get?, ok_bind, e, predictionOf]

lemma path_feature (h : Head V) (l : List (Rec V)) (hnd : (l.map (·.key)).Nodup) {r : Rec V} (hr : r ∈ l) (k : String) :
    (tree h l).path ["prediction", "event_feature", k, r.key] =
      (match h.names with
       | none => .error .keyError
       | some ns => if k ∈ ns then .ok (r.feature k) else .error .keyError) := by
  have e := get?_perFold l (fun r => r.feature k) hnd hr
  cases hn : h.names with
  | none => simp [J.path, tree, J.item, Dict.getItem, Dict.get?, predictionOf, hn, bind, Except.bind]
  | some ns =>
    by_cases hk : k ∈ ns
    · have e2 := getItem_map_mem ns (fun k => J.dict (perFold l (fun r => r.feature k))) k hk
      simp [J.path, tree, J.item, Dict.getItem, Dict.get?, ok_bind, predictionOf, hn, hk]
      unfold Dict.getItem at e2
      rw [e2, ok_bind]
      simp [e]
    · have e2 : Dict.get? (ns.map (fun k => (k, J.dict (perFold l (fun r => r.feature k))))) k = none := by
        rw [Option.eq_none_iff_forall_ne_some]
        intro v hv
        have := (Dict.mem_keys_iff _ _).2 ⟨v, hv⟩
        rw [show (fun k : String => (k, J.dict (perFold l (fun r => r.feature k)))) = (fun k => (id k, J.dict (perFold l (fun r => r.feature k)))) from rfl, keys_map] at this
        simp at this
        exact hk this
      simp [J.path, tree, J.item, Dict.getItem, Dict.get?, predictionOf, hn, hk, e2, bind, Except.bind]

lemma hasFold_tree (h : Head V) (l : List (Rec V)) (key : String) :
    (tree h l).HasFold key ↔ key ∈ l.map (·.key) := by
  have e : (tree h l).path ["training", "results"] = .ok (.dict (perFold l (·.training))) := by
    simp [J.path, tree, J.item, Dict.getItem, Dict.get?, ok_bind]
  unfold J.HasFold
  rw [e]
  constructor
  · rintro ⟨d, hd, hk⟩
    simp only [Except.ok.injEq, J.dict.injEq] at hd
    subst hd
    rwa [keys_perFold] at hk
  · intro hk
    exact ⟨_, rfl, by rwa [keys_perFold]⟩

lemma sameData_tree {a b : Head V} (l l' : List (Rec V))
    (h : a.trainFile = b.trainFile ∧ a.trainEvents = b.trainEvents ∧ a.trainUsers = b.trainUsers ∧
      a.trainItems = b.trainItems ∧ a.testFile = b.testFile ∧ a.testEvents = b.testEvents ∧
      a.testUsers = b.testUsers ∧ a.testItems = b.testItems) : SameData (tree a l) (tree b l') := by
  obtain ⟨h1, h2, h3, h4, h5, h6, h7, h8⟩ := h
  intro sec hsec k hk
  simp only [List.mem_cons, List.not_mem_nil, or_false] at hsec hk
  rcases hsec with rfl | rfl <;> rcases hk with rfl | rfl | rfl | rfl <;>
    simp [J.path, tree, J.item, Dict.getItem, Dict.get?, ok_bind, h1, h2, h3, h4, h5, h6, h7, h8]

end paths

/-! ### C60 -/

lemma get?_update (d e : Dict String (J V)) (k : String) : (update d e).get? k =
    (match Dict.get? e.reverse k with | some v => some v | none => d.get? k) := by
  unfold update
  induction e generalizing d with
  | nil => rfl
  | cons p e ih =>
    rw [List.foldl_cons, ih]
    rw [List.reverse_cons]
    have app : ∀ (A : Dict String (J V)) (q : String × J V), Dict.get? (A ++ [q]) k =
        (match Dict.get? A k with | some v => some v | none => if q.1 = k then some q.2 else none) := by
      intro A q
      induction A with
      | nil => simp [Dict.get?]
      | cons x A ihA =>
        show Dict.get? (x :: (A ++ [q])) k = _
        unfold Dict.get?
        by_cases hx : x.1 = k
        · rw [if_pos hx, if_pos hx]
        · rw [if_neg hx, if_neg hx]; exact ihA
    rw [app]
    cases Dict.get? e.reverse k with
    | some v => rfl
    | none =>
      simp only []
      rw [Dict.get?_set]
      by_cases hk : p.1 = k
      · simp [hk]
      · simp [hk]

lemma get?_append {ν : Type} (A B : Dict String ν) (k : String) : Dict.get? (A ++ B) k =
    (match Dict.get? A k with | some v => some v | none => Dict.get? B k) := by
  induction A with
  | nil => rfl
  | cons x A ih =>
    show Dict.get? (x :: (A ++ B)) k = _
    obtain ⟨k0, v0⟩ := x
    have e : ∀ C : Dict String ν, Dict.get? ((k0, v0) :: C) k = if k0 = k then some v0 else Dict.get? C k := fun _ => rfl
    rw [e, e, ih]
    by_cases hx : k0 = k
    · rw [if_pos hx, if_pos hx]
    · rw [if_neg hx, if_neg hx]

lemma get?_reverse {ν : Type} {d : Dict String ν} (h : d.keys.Nodup) (k : String) : Dict.get? d.reverse k = d.get? k := by
  induction d with
  | nil => rfl
  | cons p d ih =>
    obtain ⟨k0, v0⟩ := p
    have h' : k0 ∉ Dict.keys d ∧ (Dict.keys d).Nodup := by simpa [Dict.keys] using h
    rw [List.reverse_cons, get?_append, ih h'.2]
    by_cases e : k0 = k
    · subst e
      have : Dict.get? d k0 = none := by
        by_contra hne
        obtain ⟨v, hv⟩ := Option.ne_none_iff_exists'.1 hne
        exact h'.1 ((Dict.mem_keys_iff _ _).2 ⟨v, hv⟩)
      simp [Dict.get?, this]
    · cases hd : Dict.get? d k <;> simp [Dict.get?, e, hd]

lemma mem_keys_get? {ν : Type} (d : Dict String ν) (k : String) : k ∈ d.keys ↔ d.get? k ≠ none := by
  rw [Dict.mem_keys_iff, Option.ne_none_iff_exists']

/-- Two training entries with the same fit results. -/
lemma training_same (env : Env K α ε F V T γ) (r r' : FD K V T) (h : r.res = r'.res) (k : String) :
    (k ∈ (r.training env).keys ↔ k ∈ (r'.training env).keys) ∧
      (k ∉ timing → (r.training env).get? k = (r'.training env).get? k) := by
  have key : ∀ x : FD K V T, k ∉ timing → (x.training env).get? k = Dict.get? x.res.reverse k := by
    intro x hk
    unfold FD.training
    rw [get?_update]
    simp only [timing, List.mem_cons, List.not_mem_nil, or_false, not_or] at hk
    obtain ⟨h1, h2, h3, h4⟩ := hk
    cases hx : Dict.get? x.res.reverse k with
    | some v => rfl
    | none => simp [Dict.get?, Ne.symm h1, Ne.symm h2, Ne.symm h3, Ne.symm h4]
  have keyT : ∀ x : FD K V T, k ∈ timing → k ∈ (x.training env).keys := by
    intro x hk
    rw [mem_keys_get?]
    unfold FD.training
    rw [get?_update]
    cases hx : Dict.get? x.res.reverse k with
    | some v => simp
    | none =>
      simp only [timing, List.mem_cons, List.not_mem_nil, or_false] at hk
      rcases hk with rfl | rfl | rfl | rfl <;> simp [Dict.get?]
  by_cases hk : k ∈ timing
  · exact ⟨⟨fun _ => keyT r' hk, fun _ => keyT r hk⟩, fun h => absurd hk h⟩
  · have e : (r.training env).get? k = (r'.training env).get? k := by rw [key r hk, key r' hk, h]
    exact ⟨by rw [mem_keys_get?, mem_keys_get?, e], fun _ => e⟩

lemma test_same (env : Env K α ε F V T γ) (ev : List (List α)) (r r' : FD K V T) (h : r.testI = r'.testI) (k : String) :
    (k ∈ (r.test env ev).keys ↔ k ∈ (r'.test env ev).keys) ∧
      (k ∉ timing → (r.test env ev).get? k = (r'.test env ev).get? k) := by
  constructor
  · simp [FD.test, Dict.keys]
  · intro hk
    simp only [timing, List.mem_cons, List.not_mem_nil, or_false, not_or] at hk
    obtain ⟨h1, h2, h3, h4⟩ := hk
    simp [FD.test, Dict.get?, Ne.symm h1, Ne.symm h2, Ne.symm h3, Ne.symm h4, h]

/-- Two files that hold the same fold up to its times agree on it. -/
lemma sameFold_tree {env : Env K α ε F V T γ} {ev : List (List α)} {sc : List K} {ef : Option (List ε)}
    {a b : Head V} {l l' : List (Rec V)} (hn : a.names = b.names) (hl : (l.map (·.key)).Nodup) (hl' : (l'.map (·.key)).Nodup)
    {r r' : FD K V T} (hr : recOf env ev sc ef r ∈ l) (hr' : recOf env ev sc ef r' ∈ l')
    (e1 : r.fold = r'.fold) (e2 : r.testI = r'.testI) (e3 : r.res = r'.res) (e4 : r.esc = r'.esc) :
    SameFold (tree a l) (tree b l') (Nat.repr r.fold) := by
  have k1 : (recOf env ev sc ef r).key = Nat.repr r.fold := rfl
  have k2 : (recOf env ev sc ef r').key = Nat.repr r.fold := by rw [e1]; rfl
  refine ⟨?_, ?_, ?_⟩
  · intro sec hsec
    simp only [List.mem_cons, List.not_mem_nil, or_false] at hsec
    rcases hsec with rfl | rfl
    · have p1 := path_training a l hl hr
      have p2 := path_training b l' hl' hr'
      rw [k1] at p1; rw [k2] at p2
      exact ⟨_, _, p1, p2, training_same env r r' e3⟩
    · have p1 := path_test a l hl hr
      have p2 := path_test b l' hl' hr'
      rw [k1] at p1; rw [k2] at p2
      exact ⟨_, _, p1, p2, test_same env ev r r' e2⟩
  · intro sub hsub
    simp only [List.mem_cons, List.not_mem_nil, or_false] at hsub
    rcases hsub with rfl | rfl | rfl | rfl
    · have p1 := path_event a l hl hr
      have p2 := path_event b l' hl' hr'
      rw [k1] at p1; rw [k2] at p2
      refine ⟨_, p1, p2.trans ?_⟩
      simp only [recOf, e2]
    · have p1 := path_true a l hl hr
      have p2 := path_true b l' hl' hr'
      rw [k1] at p1; rw [k2] at p2
      refine ⟨_, p1, p2.trans ?_⟩
      simp only [recOf, e2]
    · have p1 := path_predicted a l hl hr
      have p2 := path_predicted b l' hl' hr'
      rw [k1] at p1; rw [k2] at p2
      refine ⟨_, p1, p2.trans ?_⟩
      simp only [recOf, e4]
    · have p1 := path_mask a l hl hr
      have p2 := path_mask b l' hl' hr'
      rw [k1] at p1; rw [k2] at p2
      refine ⟨_, p1, p2.trans ?_⟩
      simp only [recOf, e2]
  · intro k
    have p1 := path_feature a l hl hr k
    have p2 := path_feature b l' hl' hr' k
    rw [k1] at p1; rw [k2] at p2
    rw [p1, p2, hn]
    cases b.names with
    | none => rfl
    | some ns => simp only [recOf, e2]

/-- C60: with an integer seed, whenever the full cross validation succeeds, so do the runs of its single
folds (each with its own clock, environment and further conditions), and merging their files, in any order,
gives a file with the same folds, the same description of the data and of the model, the same score domain and
number of folds and, fold by fold, the same results. -/
theorem C60_folds_merge_to_full_run {env : Env K α ε F V T γ} {clock : Nat → T} {rec : Recommender K α φ ε V γ M}
    {load : Loader K α φ ε F} {s : Setting K F V} {n : Int} {full : J V} (hload : Loads load)
    (hnames : env.names.Nodup) (hcv : s.cv = true) (hseed : s.seed = some n)
    (hfull : doTask env clock rec load s none = .ok full)
    (order : List Nat) (horder : order.Perm (List.range s.nFolds.toNat)) (hne : order ≠ [])
    (clocks : Nat → Nat → T) (conditions environments : Nat → Dict String (J V)) (tru out : V) :
    ∃ files merged,
      order.mapM (fun i => doTask env (clocks i) rec load
        { s with condition := conditions i, environment := environments i } (some (i : Int))) = .ok files ∧
      merge tru out files = .ok merged ∧ SameData full merged ∧
      (∀ key, full.HasFold key ↔ merged.HasFold key) ∧
      (∀ i : Nat, full.HasFold (Nat.repr i) ↔ (i : Int) < s.nFolds) ∧
      (∀ i : Nat, (i : Int) < s.nFolds → SameFold full merged (Nat.repr i)) ∧
      (∀ k ∈ ["score_domain", "n_folds"], ∃ v : J V, full.path ["condition", k] = .ok v ∧
        merged.path ["condition", k] = .ok v) ∧
      full.path ["model"] = .ok (.dict s.model) ∧ merged.path ["model"] = .ok (.dict s.model) := by
  obtain ⟨data, dom, ev, sc, users, items, l, hf, hl, hsingle⟩ := doTask_single hcv hseed hload.score hfull
  have hmem : ∀ i ∈ order, ∃ r ∈ l, r.fold = i := by
    intro i hi
    have : i ∈ l.map (·.fold) := by rw [hl]; exact horder.mem_iff.1 hi
    obtain ⟨r, hr, e⟩ := List.mem_map.1 this
    exact ⟨r, hr, e⟩
  -- the file of every single fold
  have hrun : ∀ i ∈ order, ∃ r : FD K V T, (∃ r0 ∈ l, r0.fold = r.fold ∧ r0.testI = r.testI ∧ r0.res = r.res ∧ r0.esc = r.esc) ∧ r.fold = i ∧
      doTask env (clocks i) rec load { s with condition := conditions i, environment := environments i } (some (i : Int)) =
        .ok (tree (headOf env { s with condition := conditions i, environment := environments i } dom data users items)
            [recOf env ev sc data.eventFeature r]) := by
    intro i hi
    obtain ⟨r, hr, rfl⟩ := hmem i hi
    obtain ⟨t₁, t₂, t₃, t₄, e⟩ := hsingle r hr (clocks r.fold) (conditions r.fold) (environments r.fold)
    exact ⟨r.at t₁ t₂ t₃ t₄, ⟨r, hr, rfl, rfl, rfl, rfl⟩, rfl, e⟩
  have hfiles : ∀ o : List Nat, (∀ i ∈ o, i ∈ order) → ∃ rs : List (FD K V T), rs.map (·.fold) = o ∧
      (∀ r ∈ rs, ∃ r0 ∈ l, r0.fold = r.fold ∧ r0.testI = r.testI ∧ r0.res = r.res ∧ r0.esc = r.esc) ∧
      o.mapM (fun i => doTask env (clocks i) rec load
        { s with condition := conditions i, environment := environments i } (some (i : Int))) =
        .ok ((rs.map (fun r => ((headOf env { s with condition := conditions r.fold, environment := environments r.fold } dom data users items,
            recOf env ev sc data.eventFeature r, []) : File V))).map File.tree) := by
    intro o
    induction o with
    | nil => intro _; exact ⟨[], rfl, by simp, rfl⟩
    | cons i o ih =>
      intro ho
      obtain ⟨rs, a1, a2, a3⟩ := ih (fun j hj => ho j (by simp [hj]))
      obtain ⟨r, b1, b2, b3⟩ := hrun i (ho i (by simp))
      refine ⟨r :: rs, by simp [b2, a1], ?_, ?_⟩
      · intro x hx
        rw [List.mem_cons] at hx
        rcases hx with rfl | hx
        · exact b1
        · exact a2 x hx
      · rw [List.mapM_cons, b3, a3]
        subst b2
        rfl
  obtain ⟨rs, hrs, hrs2, hrs3⟩ := hfiles order (fun _ h => h)
  obtain ⟨r0, rs', rfl⟩ : ∃ r0 rs', rs = r0 :: rs' := by
    cases rs with
    | nil => exact absurd (by simpa using hrs.symm) hne
    | cons r0 rs' => exact ⟨r0, rs', rfl⟩
  have hkeys : ∀ x : List (FD K V T), (x.map (recOf env ev sc data.eventFeature)).map (·.key) = (x.map (·.fold)).map Nat.repr := by
    intro x; simp [recOf]
  have hndo : order.Nodup := horder.nodup_iff.2 List.nodup_range
  have hnd : (((r0 :: rs').map (recOf env ev sc data.eventFeature)).map (·.key)).Nodup := by
    rw [hkeys, hrs]; exact hndo.map (fun a b h => Nat.repr_injective h)
  have hndl : ((l.map (recOf env ev sc data.eventFeature)).map (·.key)).Nodup := by
    rw [hkeys, hl]; exact List.nodup_range.map (fun a b h => Nat.repr_injective h)
  have hm := merge_tree tru out
    ((headOf env { s with condition := conditions r0.fold, environment := environments r0.fold } dom data users items,
      recOf env ev sc data.eventFeature r0, []) : File V)
    (rs'.map (fun r => ((headOf env { s with condition := conditions r.fold, environment := environments r.fold } dom data users items,
            recOf env ev sc data.eventFeature r, []) : File V)))
    (by
      intro ns hns
      have hh : data.eventFeature.map (fun _ => env.names) = some ns := hns
      constructor
      · cases he : data.eventFeature with
        | none => rw [he] at hh; simp at hh
        | some x => rw [he] at hh; simp at hh; rw [← hh]; exact hnames
      · intro g hg
        obtain ⟨r, _, rfl⟩ := List.mem_map.1 hg
        exact fun k hk => ⟨ns, hns, hk⟩)
  rw [List.map_map] at hm
  rw [foldl_upsert_new _ _ (by simpa [Function.comp_def] using hnd)] at hm
  have hrecs : (recOf env ev sc data.eventFeature r0 :: []) ++ List.map (fun r => recOf env ev sc data.eventFeature r) rs' =
      (r0 :: rs').map (recOf env ev sc data.eventFeature) := by simp
  simp only [Function.comp_def] at hm
  rw [hrecs] at hm
  refine ⟨_, _, hrs3, hm, ?_, ?_, ?_, ?_, ?_, ?_, ?_⟩
  · rw [hf]; exact sameData_tree _ _ ⟨rfl, rfl, rfl, rfl, rfl, rfl, rfl, rfl⟩
  · intro key
    rw [hf, hasFold_tree, hasFold_tree, hkeys, hkeys, hl, hrs]
    exact ((horder.map Nat.repr).mem_iff).symm
  · intro i
    rw [hf, hasFold_tree, hkeys, hl]
    constructor
    · intro h
      obtain ⟨j, hj, e⟩ := List.mem_map.1 h
      have := Nat.repr_injective e
      have := List.mem_range.1 hj
      omega
    · intro h
      exact List.mem_map.2 ⟨i, List.mem_range.2 (by omega), rfl⟩
  · intro i hi
    have hio : i ∈ order := horder.mem_iff.2 (List.mem_range.2 (by omega))
    rw [← hrs] at hio
    obtain ⟨r, hr, rfl⟩ := List.mem_map.1 hio
    obtain ⟨q, hq, q1, q2, q3, q4⟩ := hrs2 r hr
    rw [hf, ← q1]
    refine sameFold_tree ?_ hndl hnd (List.mem_map.2 ⟨q, hq, rfl⟩) (List.mem_map.2 ⟨r, hr, rfl⟩) q1 q2 q3 q4
    rfl
  · intro k hk
    rw [hf]
    simp only [List.mem_cons, List.not_mem_nil, or_false] at hk
    rcases hk with rfl | rfl
    · refine ⟨encScores env dom, ?_, ?_⟩ <;>
        simp [J.path, tree, J.item, Dict.getItem, ok_bind, headOf, Dict.get?, Dict.get?_set]
    · refine ⟨.leaf (env.int s.nFolds), ?_, ?_⟩ <;>
        simp [J.path, tree, J.item, Dict.getItem, ok_bind, headOf, Dict.get?, Dict.get?_set]
  · rw [hf]
    simp [J.path, tree, J.item, Dict.getItem, ok_bind, headOf, Dict.get?]
  · simp [J.path, tree, J.item, Dict.getItem, ok_bind, headOf, Dict.get?]

end Kam.Scripts
