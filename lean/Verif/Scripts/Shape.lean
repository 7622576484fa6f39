/-
The form of every result file that runs and merges can bring about.
-/
import Verif.Scripts.Props3

set_option linter.unusedSectionVars false

namespace Kam.Scripts
open Spec

section tree
variable {V : Type}

lemma item_set_ne {j j' : J V} {x k : String} {v : J V} (h : j.setItem x v = .ok j') (hne : k ≠ x) : j'.item k = j.item k := by
  unfold J.setItem at h
  cases j with
  | leaf v => cases h
  | list l => cases h
  | dict d =>
    simp only [Except.ok.injEq] at h
    subst h
    unfold J.item Dict.getItem
    simp only []
    rw [Dict.get?_set, if_neg (Ne.symm hne)]

lemma item_set_eq {j j' : J V} {x : String} {v : J V} (h : j.setItem x v = .ok j') : j'.item x = .ok v := by
  unfold J.setItem at h
  cases j with
  | leaf v => cases h
  | list l => cases h
  | dict d =>
    simp only [Except.ok.injEq] at h
    subst h
    unfold J.item Dict.getItem
    simp only []
    rw [Dict.get?_set, if_pos rfl]

lemma item_setItem3_ne {j j' : J V} {x y z k : String} {v : J V} (h : j.setItem3 x y z v = .ok j') (hne : k ≠ x) :
    j'.item k = j.item k := by
  unfold J.setItem3 at h
  obtain ⟨s, _, h⟩ := bind_ok h
  obtain ⟨s', _, h⟩ := bind_ok h
  exact item_set_ne h hne

lemma item2_setItem3_ne {j j' : J V} {x y z k : String} {v : J V} (h : j.setItem3 x y z v = .ok j') (hne : k ≠ y) :
    j'.item2 x k = j.item2 x k := by
  unfold J.setItem3 at h
  obtain ⟨s, h1, h⟩ := bind_ok h
  obtain ⟨s', h2, h⟩ := bind_ok h
  unfold J.item2
  rw [h1, item_set_eq h, ok_bind, ok_bind]
  unfold J.setItem2 at h2
  obtain ⟨t, _, h2⟩ := bind_ok h2
  obtain ⟨t', _, h2⟩ := bind_ok h2
  exact item_set_ne h2 hne

lemma foldlM_each {σ β δ : Type} (P : β → Res δ) (f : σ → β → δ → Res σ) (l : List β) : ∀ (s s' : σ),
    l.foldlM (fun s b => do let v ← P b; f s b v) s = .ok s' → ∀ b ∈ l, ∃ v, P b = .ok v := by
  induction l with
  | nil => intro s s' _ b hb; simp at hb
  | cons a l ih =>
    intro s s' h b hb
    rw [List.foldlM_cons] at h
    obtain ⟨s1, h1, h⟩ := bind_ok h
    obtain ⟨v, h2, _⟩ := bind_ok h1
    rw [List.mem_cons] at hb
    rcases hb with rfl | hb
    · exact ⟨v, h2⟩
    · exact ih _ _ h b hb

/-- The hold-out form: arrays instead of dictionaries of arrays. -/
def held (cond env : Dict String (J V)) (tr te md : J V) (ev tv : List (J V)) (pv : J V) (feat : Dict String (J V)) : J V :=
  .dict [("condition", .dict cond), ("environment", .dict env), ("training", tr), ("test", te), ("model", md),
    ("prediction", .dict ([("event", .list ev), ("true", .list tv), ("predicted", pv)] ++ feat))]

lemma firstFold_held {tru : V} {cond env : Dict String (J V)} {tr te md : J V} {ev tv : List (J V)} {pv : J V}
    {feat : Dict String (J V)} {j : J V} (h : firstFold tru (held cond env tr te md ev tv pv feat) = .ok j) :
    ∃ cond' env', j = held cond' env' tr te md ev tv pv feat := by
  unfold firstFold held at h
  simp only [J.item, J.setItem, Dict.getItem, Dict.get?, Dict.set, ok_bind, if_true, String.reduceEq, if_false] at h
  obtain ⟨r, _, h⟩ := bind_ok h
  obtain ⟨k, _, h⟩ := bind_ok h
  simp only [Except.ok.injEq] at h
  exact ⟨_, _, h.symm⟩

/-- A file can be merged onto another only if both have the cross-validation form. -/
lemma restFold_event {info cv cv' : J V} (h : restFold info cv = .ok cv') {pred : Dict String (J V)} {e : J V}
    {rest : Dict String (J V)} (hp : cv.item "prediction" = .ok (.dict pred)) (hpred : pred = ("event", e) :: rest) :
    (∃ d, e = .dict d) ∧ ∃ d, info.item2 "prediction" "event" = .ok (.dict d) := by
  unfold restFold at h
  obtain ⟨fold, _, h⟩ := bind_ok h
  obtain ⟨en, _, h⟩ := bind_ok h
  obtain ⟨c1, h1, h⟩ := bind_ok h
  obtain ⟨_, _, h⟩ := bind_ok h
  obtain ⟨_, _, h⟩ := bind_ok h
  obtain ⟨c2, h2, h⟩ := bind_ok h
  obtain ⟨_, _, h⟩ := bind_ok h
  obtain ⟨_, _, h⟩ := bind_ok h
  obtain ⟨c3, h3, h⟩ := bind_ok h
  have hp3 : c3.item "prediction" = .ok (.dict pred) := by
    rw [item_setItem3_ne h3 (by decide), item_setItem3_ne h2 (by decide), item_setItem3_ne h1 (by decide), hp]
  rw [hp3, ok_bind] at h
  subst hpred
  simp only [J.iter, ok_bind, Dict.keys, List.map_cons, List.foldlM_cons] at h
  obtain ⟨c4, h4, _⟩ := bind_ok h
  unfold mergeSub at h4
  rw [if_neg (by decide)] at h4
  obtain ⟨x, h5, h4⟩ := bind_ok h4
  obtain ⟨v, h6, h4⟩ := bind_ok h4
  constructor
  · unfold J.setItem3 at h4
    rw [hp3, ok_bind] at h4
    obtain ⟨s, h7, _⟩ := bind_ok h4
    unfold J.setItem2 at h7
    have : (J.dict (("event", e) :: rest)).item "event" = .ok e := by simp [J.item, Dict.getItem, Dict.get?]
    rw [this, ok_bind] at h7
    obtain ⟨s2, h8, _⟩ := bind_ok h7
    unfold J.setItem at h8
    cases e with
    | dict d => exact ⟨d, rfl⟩
    | leaf _ => cases h8
    | list _ => cases h8
  · unfold J.item at h6
    cases x with
    | dict d => exact ⟨d, h5⟩
    | leaf _ => cases h6
    | list _ => cases h6

lemma prediction_tree (h : Head V) (l : List (Rec V)) : (tree h l).item "prediction" = .ok (.dict (predictionOf h.names l)) := by
  simp [tree, J.item, Dict.getItem, Dict.get?]

lemma mergeSub_item2 {info cv cv' : J V} {fold sub k : String} (h : mergeSub info fold cv sub = .ok cv')
    (hs : sub ≠ "event_feature") (hk : k ≠ sub) : cv'.item2 "prediction" k = cv.item2 "prediction" k := by
  unfold mergeSub at h
  rw [if_neg hs] at h
  obtain ⟨_, _, h⟩ := bind_ok h
  obtain ⟨_, _, h⟩ := bind_ok h
  exact item2_setItem3_ne h hk

/-- Merging demands of a file all event features of the first one. -/
lemma restFold_names {info cv' : J V} {h : Head V} {l : List (Rec V)} (hr : restFold info (tree h l) = .ok cv') (ns : List String)
    (hn : h.names = some ns) : ∀ k ∈ ns, ∃ f v, info.item2 "prediction" "event_feature" = .ok f ∧ f.item k = .ok v := by
  unfold restFold at hr
  obtain ⟨fold, _, hr⟩ := bind_ok hr
  obtain ⟨en, _, hr⟩ := bind_ok hr
  obtain ⟨c1, h1, hr⟩ := bind_ok hr
  obtain ⟨_, _, hr⟩ := bind_ok hr
  obtain ⟨_, _, hr⟩ := bind_ok hr
  obtain ⟨c2, h2, hr⟩ := bind_ok hr
  obtain ⟨_, _, hr⟩ := bind_ok hr
  obtain ⟨_, _, hr⟩ := bind_ok hr
  obtain ⟨c3, h3, hr⟩ := bind_ok hr
  have hp3 : c3.item "prediction" = .ok (.dict (predictionOf h.names l)) := by
    rw [item_setItem3_ne h3 (by decide), item_setItem3_ne h2 (by decide), item_setItem3_ne h1 (by decide), prediction_tree]
  rw [hp3, ok_bind] at hr
  have hit : (J.dict (predictionOf h.names l)).iter = .ok ["event", "true", "predicted", "mask", "event_feature"] := by
    simp [predictionOf, hn, J.iter, Dict.keys]
  rw [hit, ok_bind] at hr
  simp only [List.foldlM_cons] at hr
  obtain ⟨d1, e1, hr⟩ := bind_ok hr
  obtain ⟨d2, e2, hr⟩ := bind_ok hr
  obtain ⟨d3, e3, hr⟩ := bind_ok hr
  obtain ⟨d4, e4, hr⟩ := bind_ok hr
  obtain ⟨d5, e5, _⟩ := bind_ok hr
  have hf : d4.item2 "prediction" "event_feature" =
      .ok (J.dict (ns.map (fun k => (k, J.dict (perFold l (fun r => r.feature k)))))) := by
    rw [mergeSub_item2 e4 (by decide) (by decide), mergeSub_item2 e3 (by decide) (by decide),
      mergeSub_item2 e2 (by decide) (by decide), mergeSub_item2 e1 (by decide) (by decide)]
    unfold J.item2
    rw [hp3, ok_bind]
    simp [predictionOf, hn, J.item, Dict.getItem, Dict.get?]
  unfold mergeSub at e5
  rw [if_pos rfl, hf, ok_bind] at e5
  have hit2 : (J.dict (ns.map (fun k => (k, J.dict (perFold l (fun r => r.feature k)))))).iter = (.ok ns : Res _) := by
    show (Except.ok (Dict.keys (ns.map (fun k => (id k, J.dict (perFold l (fun r => r.feature k)))))) : Res _) = _
    rw [keys_map]; simp
  rw [hit2, ok_bind] at e5
  intro k hk
  have := foldlM_each (fun k => (do let f ← info.item2 "prediction" "event_feature"; f.item k : Res (J V)))
    (fun cv k x => do
      let v ← x.item fold
      let s ← cv.item "prediction"
      let s ← s.setItem3 "event_feature" k fold v
      cv.setItem "prediction" s) ns d4 d5 (by
      rw [← e5]
      congr 1
      funext cv k
      cases info.item2 "prediction" "event_feature" <;> rfl) k hk
  obtain ⟨v, hv⟩ := this
  obtain ⟨f, hf1, hf2⟩ := bind_ok hv
  exact ⟨f, v, hf1, hf2⟩

/-- The files that runs and merges produce: the cross-validation form with folds that satisfy `P`, or the
hold-out form with arrays that satisfy `Q`. -/
inductive Shape (P : Rec V → Prop) (Q : List (J V) → List (J V) → J V → Prop) : J V → Prop
  | cv (h : Head V) (l : List (Rec V)) : (∀ x ∈ l, P x) → (∀ ns, h.names = some ns → ns.Nodup) →
      (l.map (·.key)).Nodup → Shape P Q (tree h l)
  | held (cond env : Dict String (J V)) (tr te md : J V) (ev tv : List (J V)) (pv : J V) (feat : Dict String (J V)) :
      Q ev tv pv → Shape P Q (held cond env tr te md ev tv pv feat)

lemma restFold_elim {P : Rec V → Prop} {Q : List (J V) → List (J V) → J V → Prop} {info cv' : J V} {h : Head V}
    {l : List (Rec V)} (hi : Shape P Q info) (hr : restFold info (tree h l) = .ok cv') :
    ∃ f : File V, info = f.tree ∧ (∀ x ∈ f.2.1 :: f.2.2, P x) ∧ (∀ ns, f.1.names = some ns → ns.Nodup) ∧
      ((f.2.1 :: f.2.2).map (·.key)).Nodup ∧
      ∀ ns, h.names = some ns → ∀ k ∈ ns, ∃ ns2, f.1.names = some ns2 ∧ k ∈ ns2 := by
  cases hi with
  | held cond env tr te md ev tv pv feat hq =>
    obtain ⟨_, d, hd⟩ := restFold_event hr (prediction_tree h l) rfl
    simp [held, J.item2, J.item, Dict.getItem, Dict.get?, ok_bind] at hd
  | cv h2 l2 hP hN hK =>
    have hnm := restFold_names hr
    cases l2 with
    | nil =>
      unfold restFold at hr
      have p1 : (tree h2 ([] : List (Rec V))).item2 "training" "results" = .ok (.dict []) := by
        simp [tree, J.item2, J.item, Dict.getItem, Dict.get?, ok_bind, perFold]
      rw [p1, ok_bind] at hr
      simp only [J.iter, Dict.keys, List.map_nil, ok_bind] at hr
      cases hr
    | cons r l2 =>
      refine ⟨(h2, r, l2), rfl, hP, hN, hK, ?_⟩
      intro ns hns
      have hx := hnm ns hns
      intro k hk
      obtain ⟨f, v, e1, e2⟩ := hx k hk
      cases h2n : h2.names with
      | none =>
        simp [tree, J.item2, J.item, Dict.getItem, Dict.get?, ok_bind, predictionOf, h2n] at e1
      | some ns2 =>
        refine ⟨ns2, rfl, ?_⟩
        have e3 : (tree h2 (r :: l2)).item2 "prediction" "event_feature" =
            .ok (J.dict (ns2.map (fun k => (k, J.dict (perFold (r :: l2) (fun r => r.feature k)))))) := by
          simp [tree, J.item2, J.item, Dict.getItem, Dict.get?, ok_bind, predictionOf, h2n]
        rw [e3] at e1
        simp only [Except.ok.injEq] at e1
        subst e1
        have hk2 : k ∈ Dict.keys (ns2.map (fun k => (id k, J.dict (perFold (r :: l2) (fun r => r.feature k))))) := by
          rw [Dict.mem_keys_iff]
          unfold J.item Dict.getItem at e2
          simp only [] at e2
          split at e2
          · rename_i w hw
            exact ⟨w, hw⟩
          · cases e2
        rw [keys_map] at hk2
        simpa using hk2

lemma restLoop_elim {P : Rec V → Prop} {Q : List (J V) → List (J V) → J V → Prop} (fs : List (J V)) :
    ∀ (h : Head V) (l : List (Rec V)) (env0 ef : Dict String (J V)) (j : J V), (∀ f ∈ fs, Shape P Q f) →
    h.environment = env0.set "environment_fold" (.dict ef) → (∀ ns, h.names = some ns → ns.Nodup) →
    fs.foldlM (fun cv info => restFold info cv) (tree h l) = .ok j →
    ∃ gs : List (File V), fs = gs.map File.tree ∧ (∀ g ∈ gs, ∀ x ∈ g.2.1 :: g.2.2, P x) ∧
      (∀ g ∈ gs, ((g.2.1 :: g.2.2).map (·.key)).Nodup) ∧
      ∀ ns, h.names = some ns → ∀ g ∈ gs, ∀ k ∈ ns, ∃ ns2, g.1.names = some ns2 ∧ k ∈ ns2 := by
  induction fs with
  | nil => intro h l env0 ef j _ _ _ _; exact ⟨[], rfl, by simp, by simp, by simp⟩
  | cons f fs ih =>
    intro h l env0 ef j hs he hN hr
    rw [List.foldlM_cons] at hr
    obtain ⟨cv1, h1, hr⟩ := bind_ok hr
    obtain ⟨g, rfl, a1, a2, a3, a4⟩ := restFold_elim (hs f (by simp)) h1
    have e := restFold_tree h g.1 l g.2.2 g.2.1 ef (by rw [he]; exact get?_set_self _ _ _)
      (fun ns hns => ⟨hN ns hns, a4 ns hns⟩)
    rw [show tree g.1 (g.2.1 :: g.2.2) = g.tree from rfl] at e
    rw [e] at h1
    simp only [Except.ok.injEq] at h1
    subst h1
    obtain ⟨gs, b1, b2, b3, b4⟩ := ih { h with environment := h.environment.set "environment_fold" (.dict (ef.set g.2.1.key (.dict g.1.environment))) } (upsert l g.2.1) env0 (ef.set g.2.1.key (.dict g.1.environment)) j (fun x hx => hs x (by simp [hx]))
      (by simp only [he, set_set]) hN hr
    refine ⟨g :: gs, by rw [b1]; rfl, ?_, ?_, ?_⟩
    · intro x hx
      rw [List.mem_cons] at hx
      rcases hx with rfl | hx
      · exact a1
      · exact b2 x hx
    · intro x hx
      rw [List.mem_cons] at hx
      rcases hx with rfl | hx
      · exact a3
      · exact b3 x hx
    · intro ns hns x hx
      rw [List.mem_cons] at hx
      rcases hx with rfl | hx
      · exact a4 ns hns
      · exact b4 ns hns x hx

/-- Whatever merges has the cross-validation form, or is a single hold-out file. -/
lemma merge_elim {P : Rec V → Prop} {Q : List (J V) → List (J V) → J V → Prop} {tru out : V} {files : List (J V)} {j : J V}
    (hs : ∀ f ∈ files, Shape P Q f) (hm : merge tru out files = .ok j) :
    (∃ (f : File V) (fs : List (File V)), files = (f :: fs).map File.tree ∧
      (∀ g ∈ f :: fs, ∀ x ∈ g.2.1 :: g.2.2, P x) ∧ (∀ g ∈ f :: fs, ((g.2.1 :: g.2.2).map (·.key)).Nodup) ∧
      ∀ ns, f.1.names = some ns → ns.Nodup ∧ ∀ g ∈ fs, ∀ k ∈ ns, ∃ ns2, g.1.names = some ns2 ∧ k ∈ ns2) ∨
    ∃ cond env cond' env' tr te md ev tv pv feat, files = [held cond env tr te md ev tv pv feat] ∧ Q ev tv pv ∧
      j = held cond' env' tr te md ev tv pv feat := by
  cases files with
  | nil => cases hm
  | cons f fs =>
    unfold merge at hm
    simp only [] at hm
    obtain ⟨cv, h1, hm⟩ := bind_ok hm
    obtain ⟨cv1, h2, hm⟩ := bind_ok hm
    cases hs f (by simp) with
    | cv h l hP hN hK =>
      left
      cases l with
      | nil =>
        unfold firstFold at h1
        simp [tree, J.item, J.setItem, Dict.getItem, Dict.get?, Dict.set, J.iter, perFold, Dict.keys, bind, Except.bind] at h1
      | cons r l =>
        rw [firstFold_tree] at h1
        simp only [Except.ok.injEq] at h1
        subst h1
        obtain ⟨gs, b1, b2, b3, b4⟩ := restLoop_elim fs { h with
            condition := h.condition.set "merged" (.leaf tru)
            environment := h.environment.set "environment_fold" (.dict [(r.key, .dict h.environment)]) } (r :: l) h.environment [(r.key, .dict h.environment)] cv1
          (fun x hx => hs x (by simp [hx])) rfl hN h2
        refine ⟨(h, r, l), gs, by rw [b1]; rfl, ?_, ?_, fun ns hns => ⟨hN ns hns, b4 ns hns⟩⟩
        · intro x hx
          rw [List.mem_cons] at hx
          rcases hx with rfl | hx
          · exact hP
          · exact b2 x hx
        · intro x hx
          rw [List.mem_cons] at hx
          rcases hx with rfl | hx
          · exact hK
          · exact b3 x hx
    | held cond env tr te md ev tv pv feat hq =>
      right
      obtain ⟨cond', env', rfl⟩ := firstFold_held h1
      cases fs with
      | cons g fs =>
        rw [List.foldlM_cons] at h2
        obtain ⟨cv2, h3, _⟩ := bind_ok h2
        obtain ⟨⟨d, hd⟩, _⟩ := restFold_event h3 (pred := [("event", .list ev), ("true", .list tv), ("predicted", pv)] ++ feat)
          (by simp [held, J.item, Dict.getItem, Dict.get?]) rfl
        cases hd
      | nil =>
        simp only [List.foldlM_nil, pure, Except.pure, Except.ok.injEq] at h2
        subst h2
        simp [held, J.setItem2, J.item, J.setItem, Dict.getItem, Dict.get?, Dict.set, ok_bind] at hm
        exact ⟨cond, env, _, env', tr, te, md, ev, tv, pv, feat, rfl, hq, by rw [← hm]; rfl⟩

lemma mem_upsert (l : List (Rec V)) (r x : Rec V) (h : x ∈ upsert l r) : x ∈ l ∨ x = r := by
  induction l with
  | nil => right; simpa [upsert] using h
  | cons y l ih =>
    unfold upsert at h
    split at h
    · rw [List.mem_cons] at h
      rcases h with h | h
      · exact Or.inr h
      · exact Or.inl (by simp [h])
    · rw [List.mem_cons] at h
      rcases h with h | h
      · exact Or.inl (by simp [h])
      · rcases ih h with h | h
        · exact Or.inl (by simp [h])
        · exact Or.inr h

lemma keys_upsert (l : List (Rec V)) (r : Rec V) (k : String) : k ∈ (upsert l r).map (·.key) ↔ k ∈ l.map (·.key) ∨ k = r.key := by
  induction l with
  | nil => simp [upsert]
  | cons y l ih =>
    unfold upsert
    split
    · rename_i e
      rw [List.map_cons, List.map_cons, List.mem_cons, List.mem_cons, e]
      tauto
    · rw [List.map_cons, List.map_cons, List.mem_cons, List.mem_cons, ih]
      tauto

lemma nodup_upsert (l : List (Rec V)) (r : Rec V) (h : (l.map (·.key)).Nodup) : ((upsert l r).map (·.key)).Nodup := by
  induction l with
  | nil => simp [upsert]
  | cons y l ih =>
    rw [List.map_cons, List.nodup_cons] at h
    unfold upsert
    split
    · rename_i e
      rw [List.map_cons, List.nodup_cons, ← e]
      exact h
    · rename_i e
      rw [List.map_cons, List.nodup_cons]
      refine ⟨?_, ih h.2⟩
      rw [keys_upsert]
      rintro (hk | hk)
      · exact h.1 hk
      · exact e hk

lemma foldl_upsert (rs : List (Rec V)) : ∀ l : List (Rec V), (l.map (·.key)).Nodup →
    ((rs.foldl upsert l).map (·.key)).Nodup ∧ (∀ x ∈ rs.foldl upsert l, x ∈ l ∨ x ∈ rs) ∧
    ∀ k, k ∈ (rs.foldl upsert l).map (·.key) ↔ k ∈ l.map (·.key) ∨ k ∈ rs.map (·.key) := by
  induction rs with
  | nil => intro l h; exact ⟨h, by simp, by simp⟩
  | cons r rs ih =>
    intro l h
    obtain ⟨a, b, c⟩ := ih (upsert l r) (nodup_upsert l r h)
    rw [List.foldl_cons]
    refine ⟨a, ?_, ?_⟩
    · intro x hx
      rcases b x hx with hx | hx
      · rcases mem_upsert l r x hx with hx | hx
        · exact Or.inl hx
        · exact Or.inr (by simp [hx])
      · exact Or.inr (by simp [hx])
    · intro k
      rw [c, keys_upsert, List.map_cons, List.mem_cons]
      tauto

/-- Merging keeps the form. -/
lemma Shape.merge {P : Rec V → Prop} {Q : List (J V) → List (J V) → J V → Prop} {tru out : V} {files : List (J V)} {j : J V}
    (hs : ∀ f ∈ files, Shape P Q f) (hm : Scripts.merge tru out files = .ok j) : Shape P Q j := by
  rcases merge_elim hs hm with ⟨f, fs, rfl, hP, hK, hn⟩ | ⟨_, _, cond', env', tr, te, md, ev, tv, pv, feat, _, hq, rfl⟩
  · rw [merge_tree tru out f fs hn] at hm
    simp only [Except.ok.injEq] at hm
    rw [← hm]
    obtain ⟨a, b, _⟩ := foldl_upsert (fs.map (fun g => g.2.1)) (f.2.1 :: f.2.2) (hK f (by simp))
    refine .cv _ _ ?_ (fun ns hns => (hn ns hns).1) a
    intro x hx
    rcases b x hx with hx | hx
    · exact hP f (by simp) x hx
    · obtain ⟨g, hg, rfl⟩ := List.mem_map.1 hx
      exact hP g (by simp [hg]) _ (by simp)
  · exact .held _ _ _ _ _ _ _ _ _ hq

end tree
end Kam.Scripts
