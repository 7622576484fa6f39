/-
C63: exactly which folds merging keeps, and which file each of them is taken from.
-/
import Verif.Scripts.Examples

set_option linter.unusedSectionVars false

namespace Kam.Scripts
open Spec

variable {K α φ ε F V T γ M : Type} [Field K] [LinearOrder K] [IsStrictOrderedRing K] [FloorRing K] [LinearOrder α]

/-- The fold that comes first in a result file. -/
def J.FirstFold (j : J V) (key : String) : Prop :=
  ∃ d : Dict String (J V), j.path ["training", "results"] = .ok (.dict d) ∧ d.keys.head? = some key

/-- The merged file has the fold `key` of the file `f`: results, events, scores, predictions and mask. -/
def TakenFrom (merged f : J V) (key : String) : Prop :=
  merged.HasFold key ∧
  (∀ sec ∈ ["training", "test"], merged.path [sec, "results", key] = f.path [sec, "results", key]) ∧
  ∀ sub ∈ ["event", "true", "predicted", "mask"], merged.path ["prediction", sub, key] = f.path ["prediction", sub, key]

lemma firstFold_has {j : J V} {key : String} (h : J.FirstFold j key) : j.HasFold key := by
  obtain ⟨d, h1, h2⟩ := h
  exact ⟨d, h1, List.mem_of_mem_head? h2⟩

lemma firstFold_file (f : File V) (key : String) : J.FirstFold f.tree key ↔ key = f.2.1.key := by
  have e : (File.tree f).path ["training", "results"] = .ok (.dict (perFold (f.2.1 :: f.2.2) (·.training))) := by
    simp [J.path, File.tree, tree, J.item, Dict.getItem, Dict.get?, ok_bind]
  unfold J.FirstFold
  rw [e]
  constructor
  · rintro ⟨d, hd, hk⟩
    simp only [Except.ok.injEq, J.dict.injEq] at hd
    subst hd
    simpa [perFold, Dict.keys] using hk.symm
  · rintro rfl
    exact ⟨_, rfl, by simp [perFold, Dict.keys]⟩

lemma mem_upsert_self (l : List (Rec V)) (r : Rec V) : r ∈ upsert l r := by
  induction l with
  | nil => simp [upsert]
  | cons x l ih =>
    unfold upsert
    split
    · simp
    · exact List.mem_cons_of_mem _ ih

lemma mem_upsert_of_ne {l : List (Rec V)} {r x : Rec V} (hx : x ∈ l) (hne : r.key ≠ x.key) : x ∈ upsert l r := by
  induction l with
  | nil => cases hx
  | cons y l ih =>
    unfold upsert
    rcases List.mem_cons.1 hx with rfl | hx
    · rw [if_neg (fun e => hne e.symm)]; simp
    · split
      · exact List.mem_cons_of_mem _ hx
      · exact List.mem_cons_of_mem _ (ih hx)

lemma mem_foldl_upsert {rs : List (Rec V)} : ∀ {l : List (Rec V)} {x : Rec V}, x ∈ l → (∀ r ∈ rs, r.key ≠ x.key) →
    x ∈ rs.foldl upsert l := by
  induction rs with
  | nil => intro l x hx _; exact hx
  | cons r rs ih =>
    intro l x hx h
    exact ih (mem_upsert_of_ne hx (h r (by simp))) (fun s hs => h s (by simp [hs]))

lemma taken_tree {h h2 : Head V} {l l2 : List (Rec V)} {x : Rec V} (hl : (l.map (·.key)).Nodup) (hl2 : (l2.map (·.key)).Nodup)
    (hx : x ∈ l) (hx2 : x ∈ l2) : TakenFrom (tree h l) (tree h2 l2) x.key := by
  refine ⟨(hasFold_tree _ _ _).2 (List.mem_map_of_mem hx), ?_, ?_⟩
  · intro sec hsec
    simp only [List.mem_cons, List.not_mem_nil, or_false] at hsec
    rcases hsec with rfl | rfl
    · rw [path_training _ _ hl hx, path_training _ _ hl2 hx2]
    · rw [path_test _ _ hl hx, path_test _ _ hl2 hx2]
  · intro sub hsub
    simp only [List.mem_cons, List.not_mem_nil, or_false] at hsub
    rcases hsub with rfl | rfl | rfl | rfl
    · rw [path_event _ _ hl hx, path_event _ _ hl2 hx2]
    · rw [path_true _ _ hl hx, path_true _ _ hl2 hx2]
    · rw [path_predicted _ _ hl hx, path_predicted _ _ hl2 hx2]
    · rw [path_mask _ _ hl hx, path_mask _ _ hl2 hx2]

/-- C63, exactly: the merged file has the folds of the first file and the first fold of each file, and no others. -/
theorem C63_exact {env : Env K α ε F V T γ} {rec : Recommender K α φ ε V γ M} {load : Loader K α φ ε F} {tru out : V}
    (hload : Loads load) (hrec : ScoresEach rec) (hnames : env.names.Nodup) {files : List (J V)} {merged : J V}
    (h : ∀ f ∈ files, Made env rec load tru f) (hm : merge tru out files = .ok merged) (key : String) :
    merged.HasFold key ↔ (∃ f ∈ files.head?, f.HasFold key) ∨ ∃ f ∈ files, J.FirstFold f key := by
  have hs : ∀ f ∈ files, Shape (GoodRec env rec load) (Triples env rec load) f := fun f hf => (h f hf).shape hload hrec hnames
  rcases merge_elim hs hm with ⟨f, fs, rfl, hP, hK, hn⟩ | ⟨cond, env', cond', env'', tr, te, md, ev, tv, pv, feat, rfl, hq, rfl⟩
  · rw [merge_tree tru out f fs hn] at hm
    simp only [Except.ok.injEq] at hm
    subst hm
    obtain ⟨a, b, c⟩ := foldl_upsert (fs.map (fun g => g.2.1)) (f.2.1 :: f.2.2) (hK f (by simp))
    rw [hasFold_tree, c]
    constructor
    · rintro (hk | hk)
      · exact Or.inl ⟨f.tree, by simp, (hasFold_tree _ _ _).2 hk⟩
      · obtain ⟨x, hx, rfl⟩ := List.mem_map.1 hk
        obtain ⟨g, hg, rfl⟩ := List.mem_map.1 hx
        exact Or.inr ⟨g.tree, List.mem_map_of_mem (by simp [hg]), (firstFold_file g _).2 rfl⟩
    · rintro (⟨g, hg, hk⟩ | ⟨g, hg, hk⟩)
      · simp only [List.map_cons, List.head?_cons, Option.mem_def, Option.some.injEq] at hg
        subst hg
        exact Or.inl ((hasFold_tree _ _ _).1 hk)
      · obtain ⟨g, hg', rfl⟩ := List.mem_map.1 hg
        rw [(firstFold_file g key).1 hk]
        rcases List.mem_cons.1 hg' with rfl | hg
        · left; simp
        · right; exact List.mem_map.2 ⟨_, List.mem_map.2 ⟨g, hg, rfl⟩, rfl⟩
  · have e : (held cond' env'' tr te md ev tv pv feat).path ["training", "results"] =
        (held cond env' tr te md ev tv pv feat).path ["training", "results"] := by
      simp [held, J.path, J.item, Dict.getItem, Dict.get?, ok_bind]
    have e2 : (held cond' env'' tr te md ev tv pv feat).HasFold key ↔ (held cond env' tr te md ev tv pv feat).HasFold key := by
      unfold J.HasFold
      rw [e]
    rw [e2]
    constructor
    · exact fun hk => Or.inl ⟨_, by simp, hk⟩
    · rintro (⟨g, hg, hk⟩ | ⟨g, hg, hk⟩)
      · simp only [List.head?_cons, Option.mem_def, Option.some.injEq] at hg
        subst hg; exact hk
      · rw [List.mem_singleton] at hg
        subst hg; exact firstFold_has hk

/-- C63: nothing is lost if and only if every fold of a later file is in the first file or comes first in some file. -/
theorem C63_iff {env : Env K α ε F V T γ} {rec : Recommender K α φ ε V γ M} {load : Loader K α φ ε F} {tru out : V}
    (hload : Loads load) (hrec : ScoresEach rec) (hnames : env.names.Nodup) {files : List (J V)} {merged : J V}
    (h : ∀ f ∈ files, Made env rec load tru f) (hm : merge tru out files = .ok merged) :
    (∀ f ∈ files, ∀ key, f.HasFold key → merged.HasFold key) ↔
      ∀ f ∈ files.tail, ∀ key, f.HasFold key → (∃ g ∈ files.head?, g.HasFold key) ∨ ∃ g ∈ files, J.FirstFold g key := by
  simp only [C63_exact hload hrec hnames h hm]
  constructor
  · exact fun hall f hf => hall f (List.mem_of_mem_tail hf)
  · intro hall f hf key hk
    cases files with
    | nil => cases hf
    | cons g gs =>
      rcases List.mem_cons.1 hf with rfl | hf
      · exact Or.inl ⟨f, by simp, hk⟩
      · exact hall f hf key hk

/-- C63, of two files with the same fold the later one counts: a fold is taken from the last file after the first
that has it as its first fold, and from the first file if there is none. -/
theorem C63_last_counts {env : Env K α ε F V T γ} {rec : Recommender K α φ ε V γ M} {load : Loader K α φ ε F} {tru out : V}
    (hload : Loads load) (hrec : ScoresEach rec) (hnames : env.names.Nodup) {pre post : List (J V)} {f merged : J V}
    (h : ∀ g ∈ pre ++ f :: post, Made env rec load tru g) (hm : merge tru out (pre ++ f :: post) = .ok merged) (key : String)
    (hk : f.HasFold key) (hf : pre ≠ [] → J.FirstFold f key) (hpost : ∀ g ∈ post, ¬ J.FirstFold g key) :
    TakenFrom merged f key := by
  have hs : ∀ g ∈ pre ++ f :: post, Shape (GoodRec env rec load) (Triples env rec load) g :=
    fun g hg => (h g hg).shape hload hrec hnames
  rcases merge_elim hs hm with ⟨f0, fs, hfiles, hP, hK, hn⟩ | ⟨cond, env', cond', env'', tr, te, md, ev, tv, pv, feat, hfiles, hq, rfl⟩
  · rw [hfiles, merge_tree tru out f0 fs hn] at hm
    simp only [Except.ok.injEq] at hm
    subst hm
    have hN := (foldl_upsert (fs.map (fun g => g.2.1)) (f0.2.1 :: f0.2.2) (hK f0 (by simp))).1
    cases pre with
    | nil =>
      simp only [List.nil_append, List.map_cons, List.cons.injEq] at hfiles
      obtain ⟨rfl, rfl⟩ := hfiles
      rw [File.tree, hasFold_tree] at hk
      obtain ⟨x, hx, rfl⟩ := List.mem_map.1 hk
      refine taken_tree hN (hK f0 (by simp)) (mem_foldl_upsert hx ?_) hx
      intro r hr e
      obtain ⟨g, hg, rfl⟩ := List.mem_map.1 hr
      exact hpost g.tree (List.mem_map_of_mem hg) ((firstFold_file g _).2 e.symm)
    | cons p pre =>
      simp only [List.cons_append, List.map_cons, List.cons.injEq] at hfiles
      obtain ⟨rfl, hfs⟩ := hfiles
      obtain ⟨fa, fb, rfl, ha, hb⟩ := List.map_eq_append_iff.1 hfs.symm
      cases fb with
      | nil => cases hb
      | cons g fb =>
        simp only [List.map_cons, List.cons.injEq] at hb
        obtain ⟨rfl, rfl⟩ := hb
        have hkey := (firstFold_file g key).1 (hf (by simp))
        subst hkey
        have hg : g ∈ f0 :: (fa ++ g :: fb) := by simp
        refine taken_tree hN (hK g hg) ?_ (by simp)
        rw [List.map_append, List.map_cons, List.foldl_append, List.foldl_cons]
        refine mem_foldl_upsert (mem_upsert_self _ _) ?_
        intro r hr e
        obtain ⟨g', hg', rfl⟩ := List.mem_map.1 hr
        exact hpost g'.tree (List.mem_map_of_mem hg') ((firstFold_file g' _).2 e.symm)
  · have hpre : pre = [] ∧ f = held cond env' tr te md ev tv pv feat := by
      cases pre with
      | nil => simp only [List.nil_append, List.cons.injEq] at hfiles; exact ⟨rfl, hfiles.1⟩
      | cons p pre => simp at hfiles
    obtain ⟨rfl, rfl⟩ := hpre
    have e : ∀ p : List String, p.head? = some "training" ∨ p.head? = some "test" ∨ p.head? = some "prediction" →
        (held cond' env'' tr te md ev tv pv feat).path p = (held cond env' tr te md ev tv pv feat).path p := by
      intro p hp
      cases p with
      | nil => simp at hp
      | cons a p =>
        simp only [List.head?_cons, Option.some.injEq] at hp
        rcases hp with rfl | rfl | rfl <;>
          simp [held, J.path, J.item, Dict.getItem, Dict.get?, ok_bind]
    refine ⟨?_, ?_, fun sub _ => e _ (by simp)⟩
    · unfold J.HasFold at hk ⊢
      rw [e _ (by simp)]; exact hk
    · intro sec hsec
      simp only [List.mem_cons, List.not_mem_nil, or_false] at hsec
      rcases hsec with rfl | rfl <;> exact e _ (by simp)

/-- A run of fold 0 alone merged onto a full run: fold 0 of the merged file is the one of the later file. -/
example : ∃ full one merged, Made Ex.env Ex.mean (loadDataSP Ex.read) (.bool true) full ∧
    Made Ex.env Ex.mean (loadDataSP Ex.read) (.bool true) one ∧ merge (.bool true) (.str "out") ([full] ++ one :: []) = .ok merged ∧
    one.FirstFold "0" ∧ TakenFrom merged one "0" := by
  obtain ⟨full, h⟩ := Ex.run_cv
  have hx : (do
      let full ← doTask Ex.env _root_.id Ex.mean (loadDataSP Ex.read) (Ex.setting true) none
      let one ← doTask Ex.env (fun t => 100 + t) Ex.mean (loadDataSP Ex.read) (Ex.setting true) (some 0)
      let merged ← merge (Ex.Val.bool true) (Ex.Val.str "out") [full, one]
      match one.path ["training", "results"] with
      | .ok (.dict d) => if (Dict.keys d).head? = some "0" then pure merged else .error .valueError
      | _ => .error .valueError).isOk = true := by decide +kernel
  obtain ⟨m, hm⟩ := Ex.isOk_exists hx
  obtain ⟨full, h1, hm⟩ := bind_ok hm
  obtain ⟨one, h2, hm⟩ := bind_ok hm
  obtain ⟨merged, h3, hm⟩ := bind_ok hm
  have hf : one.FirstFold "0" := by
    split at hm
    · rename_i d hd
      split at hm
      · rename_i hk
        exact ⟨d, hd, hk⟩
      · cases hm
    · cases hm
  refine ⟨full, one, merged, .run h1, .run h2, h3, hf, ?_⟩
  refine C63_last_counts (loadDataSP_loads Ex.read_ok) Ex.mean_scores (env := Ex.env) (by decide) (pre := [full]) (post := []) ?_ h3 "0" (firstFold_has hf) (fun _ => hf)
    (by simp)
  intro g hg
  simp only [List.cons_append, List.nil_append, List.mem_cons, List.not_mem_nil, or_false] at hg
  rcases hg with rfl | rfl
  · exact .run h1
  · exact .run h2

end Kam.Scripts
