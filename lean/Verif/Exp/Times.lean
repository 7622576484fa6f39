/-
C144: the times in result files.
-/
import Verif.Scripts.Keys
import Verif.Scripts.Props
import Verif.Exp.Examples

set_option linter.unusedSectionVars false

namespace Kam.Spec
open Scripts

variable {K α ε F V T γ : Type}

/-- A fold of a result file records the readings `a`, `b` of the clock for its training and `c`, `d` for its test; what `end_time` says for
the test is left open. -/
structure TimedBy (env : Env K α ε F V T γ) (clock : Nat → T) (j : J V) (key : String) (a b c d : Nat) : Prop where
  order : a < b ∧ b < c ∧ c < d
  trainStart : j.path ["training", "results", key, "start_time"] = .ok (.leaf (env.iso (clock a)))
  trainEnd : j.path ["training", "results", key, "end_time"] = .ok (.leaf (env.iso (clock b)))
  trainTime : j.path ["training", "results", key, "elapsed_time"] = .ok (.leaf (env.elapsed (clock b) (clock a)))
  trainUser : j.path ["training", "results", key, "elapsed_utime"] = .ok (.leaf (env.elapsedU (clock b) (clock a)))
  testStart : j.path ["test", "results", key, "start_time"] = .ok (.leaf (env.iso (clock c)))
  testTime : j.path ["test", "results", key, "elapsed_time"] = .ok (.leaf (env.elapsed (clock d) (clock c)))
  testUser : j.path ["test", "results", key, "elapsed_utime"] = .ok (.leaf (env.elapsedU (clock d) (clock c)))

end Kam.Spec

namespace Kam.Scripts
open Spec

variable {K α φ ε F V T γ M : Type} [Field K] [LinearOrder K] [IsStrictOrderedRing K] [FloorRing K] [LinearOrder α]

/-- The results of a fit have none of the entries for times. -/
def Recommender.Timeless (rec : Recommender K α φ ε V γ M) : Prop :=
  ∀ g d m res g', rec.fit g d = .ok (m, res, g') → ∀ k ∈ res.keys, k ∉ timing

/-- What the proof keeps of a fold: its number, the first reading of the clock, the results of the fit and the number of test events. -/
structure Mark (V : Type) where
  fold : Nat
  tick : Nat
  res : Dict String (J V)
  n : Nat

/-- The entries of the training of a fold (used in proofs only; the model is `training`, exp_recsys_util.py:78-100). -/
def Mark.train (env : Env K α ε F V T γ) (clock : Nat → T) (x : Mark V) : Dict String (J V) :=
  update [("start_time", .leaf (env.iso (clock x.tick))), ("end_time", .leaf (env.iso (clock (x.tick + 1)))),
     ("elapsed_time", .leaf (env.elapsed (clock (x.tick + 1)) (clock x.tick))),
     ("elapsed_utime", .leaf (env.elapsedU (clock (x.tick + 1)) (clock x.tick)))] x.res

/-- The entries of the test of a fold (used in proofs only; the model is `testing`, exp_recsys_util.py:123-148). -/
def Mark.test (env : Env K α ε F V T γ) (clock : Nat → T) (x : Mark V) : Dict String (J V) :=
  [("start_time", .leaf (env.iso (clock (x.tick + 2)))), ("end_time", .leaf (env.iso (clock (x.tick + 2)))),
     ("elapsed_time", .leaf (env.elapsed (clock (x.tick + 3)) (clock (x.tick + 2)))),
     ("elapsed_utime", .leaf (env.elapsedU (clock (x.tick + 3)) (clock (x.tick + 2)))),
     ("n_events", .leaf (env.nat x.n))]

/-- The dictionaries of the folds so far and the readings of the clock so far. -/
structure Marked (env : Env K α ε F V T γ) (clock : Nat → T) (fold tick : Nat) (train test : Dict String (J V)) (l : List (Mark V)) : Prop where
  train : train = l.map (fun x => (Nat.repr x.fold, .dict (x.train env clock)))
  test : test = l.map (fun x => (Nat.repr x.fold, .dict (x.test env clock)))
  past : ∀ x ∈ l, x.fold < fold ∧ x.tick + 4 ≤ tick ∧ ∀ k ∈ x.res.keys, k ∉ timing
  order : l.Pairwise (fun x y => x.fold < y.fold ∧ x.tick + 4 ≤ y.tick)

lemma training_marked {env : Env K α ε F V T γ} {clock : Nat → T} {rec : Recommender K α φ ε V γ M} (hr : rec.Timeless) {seed : Option Int}
    {sys sys' : Sys γ} {d : ScoreData K α φ ε} {m : M} {info : Dict String (J V)} (h : training env clock rec seed sys d = .ok (m, info, sys')) :
    ∃ res : Dict String (J V), (∀ k ∈ res.keys, k ∉ timing) ∧ info = Mark.train env clock ⟨0, sys.ticks, res, 0⟩ ∧ sys'.ticks = sys.ticks + 2 := by
  unfold training at h
  simp only at h
  obtain ⟨⟨m', res, g⟩, h1, h⟩ := bind_ok h
  injection h with h
  injection h with _ h
  injection h with h2 h3
  refine ⟨res, ?_, h2.symm, by rw [← h3]⟩
  unfold fitWith at h1
  split at h1
  · obtain ⟨g1, _, h1⟩ := bind_ok h1
    obtain ⟨⟨m2, res2, g2⟩, h4, h1⟩ := bind_ok h1
    injection h1 with h1
    injection h1 with _ h1
    injection h1 with h1 _
    subst h1
    exact hr _ _ _ _ _ h4
  · exact hr _ _ _ _ _ h1

lemma testing_marked {env : Env K α ε F V T γ} {clock : Nat → T} {rec : Recommender K α φ ε V γ M} {m : M} {sys sys' : Sys γ}
    {ev : List (List α)} {esc : Pred K} {info : Dict String (J V)} (h : testing env clock rec m sys ev = .ok (esc, info, sys')) :
    info = [("start_time", .leaf (env.iso (clock sys.ticks))), ("end_time", .leaf (env.iso (clock sys.ticks))),
     ("elapsed_time", .leaf (env.elapsed (clock (sys.ticks + 1)) (clock sys.ticks))),
     ("elapsed_utime", .leaf (env.elapsedU (clock (sys.ticks + 1)) (clock sys.ticks))),
     ("n_events", .leaf (env.nat ev.length))] ∧ sys'.ticks = sys.ticks + 2 := by
  unfold testing at h
  simp only at h
  obtain ⟨e, _, h⟩ := bind_ok h
  injection h with h
  injection h with _ h
  injection h with h2 h3
  exact ⟨h2.symm, by rw [← h3]⟩

lemma Marked.snoc {env : Env K α ε F V T γ} {clock : Nat → T} {fold tick : Nat} {train test : Dict String (J V)} {l : List (Mark V)}
    (h : Marked env clock fold tick train test l) (x : Mark V) (hf : x.fold = fold) (ht : x.tick = tick) (hx : ∀ k ∈ x.res.keys, k ∉ timing) :
    Marked env clock (fold + 1) (tick + 4) (train.set (Nat.repr fold) (.dict (x.train env clock)))
      (test.set (Nat.repr fold) (.dict (x.test env clock))) (l ++ [x]) := by
  have new : ∀ f : Mark V → J V, Nat.repr fold ∉ Dict.keys (l.map (fun x => (Nat.repr x.fold, f x))) := by
    intro f hm
    rw [keys_map] at hm
    obtain ⟨y, hy, e⟩ := List.mem_map.1 hm
    have := Nat.repr_injective e
    have := (h.past y hy).1
    omega
  constructor
  · rw [h.train, set_new _ _ _ (new _), List.map_append, List.map_cons, List.map_nil, hf]
  · rw [h.test, set_new _ _ _ (new _), List.map_append, List.map_cons, List.map_nil, hf]
  · intro y hy
    rw [List.mem_append, List.mem_singleton] at hy
    rcases hy with hy | rfl
    · have := h.past y hy
      exact ⟨by omega, by omega, this.2.2⟩
    · exact ⟨by omega, by omega, hx⟩
  · rw [List.pairwise_append]
    refine ⟨h.order, List.pairwise_singleton _ _, ?_⟩
    intro y hy z hz
    rw [List.mem_singleton] at hz
    subst hz
    have := h.past y hy
    omega

lemma cvFold_marked {env : Env K α ε F V T γ} {clock : Nat → T} {rec : Recommender K α φ ε V γ M} (hr : rec.Timeless) {seed : Option Int}
    {data : ScoreData K α φ ε} {ev : List (List α)} {fold : Nat} {trainI testI : List Nat} {sys sys' : Sys γ} {acc acc' : Acc V} {l : List (Mark V)}
    (hl : Marked env clock fold sys.ticks acc.training acc.test l)
    (h : cvFold env clock rec seed data ev fold trainI testI sys acc = .ok (acc', sys')) :
    ∃ l', Marked env clock (fold + 1) sys'.ticks acc'.training acc'.test l' := by
  unfold cvFold at h
  simp only [] at h
  obtain ⟨train, _, h⟩ := bind_ok h
  obtain ⟨⟨m, ti, s1⟩, h2, h⟩ := bind_ok h
  simp only [] at h
  obtain ⟨⟨esc, si, s2⟩, h3, h⟩ := bind_ok h
  simp only [] at h
  obtain ⟨score, _, h⟩ := bind_ok h
  injection h with h
  injection h with h4 h5
  obtain ⟨res, r1, r2, r3⟩ := training_marked hr h2
  obtain ⟨t1, t2⟩ := testing_marked h3
  have := hl.snoc ⟨fold, sys.ticks, res, (gather ev testI).length⟩ rfl rfl r1
  refine ⟨l ++ [⟨fold, sys.ticks, res, (gather ev testI).length⟩], ?_⟩
  rw [← h5, t2, r3, ← h4]
  rw [r2, t1, r3]
  exact this

lemma cvLoop_marked {env : Env K α ε F V T γ} {clock : Nat → T} {rec : Recommender K α φ ε V γ M} (hr : rec.Timeless) {seed : Option Int}
    {cfg : Split.ShuffleConfig K} {data : ScoreData K α φ ε} {ev : List (List α)} {users : List α} {target : Option Int} (n : Nat) :
    ∀ (fold : Nat) (sys : Sys γ) (acc acc' : Acc V) (l : List (Mark V)), Marked env clock fold sys.ticks acc.training acc.test l →
      cvLoop env clock rec seed cfg data ev users target n fold sys acc = .ok acc' →
      ∃ fold' tick' l', Marked env clock fold' tick' acc'.training acc'.test l' := by
  induction n with
  | zero =>
    intro fold sys acc acc' l hl h
    unfold cvLoop at h
    injection h with h
    subst h
    exact ⟨_, _, l, hl⟩
  | succ n ih =>
    intro fold sys acc acc' l hl h
    unfold cvLoop at h
    obtain ⟨⟨mask, g⟩, h1, h⟩ := bind_ok h
    simp only [] at h
    split at h
    · exact ih (fold + 1) _ acc acc' l ⟨hl.train, hl.test, fun x hx => by have := hl.past x hx; exact ⟨by omega, this.2⟩, hl.order⟩ h
    · obtain ⟨⟨acc1, sys1⟩, h2, h⟩ := bind_ok h
      obtain ⟨l', hl'⟩ := cvFold_marked (sys := ⟨g, sys.ticks⟩) hr hl h2
      exact ih (fold + 1) sys1 acc1 acc' l' hl' h

/-- The entries of the folds of any successful run. -/
lemma doTask_marked {env : Env K α ε F V T γ} {clock : Nat → T} {rec : Recommender K α φ ε V γ M} (hr : rec.Timeless)
    {load : Loader K α φ ε F} {s : Setting K F V} {target : Option Int} {j : J V} (h : doTask env clock rec load s target = .ok j) :
    ∃ fold tick train test l, Marked env clock fold tick train test l ∧ j.path ["training", "results"] = .ok (.dict train) ∧
      j.path ["test", "results"] = .ok (.dict test) := by
  have shown : ∀ r : Report F K V, (r.render env).path ["training", "results"] = .ok (.dict r.training.results) ∧
      (r.render env).path ["test", "results"] = .ok (.dict r.test.results) := fun r => ⟨rfl, rfl⟩
  unfold doTask at h
  obtain ⟨glob, h0, h⟩ := bind_ok h
  split at h
  · cases h
  · simp only [] at h
    have nil : Marked env clock 0 0 [] [] ([] : List (Mark V)) := ⟨rfl, rfl, by simp, List.Pairwise.nil⟩
    split at h
    · obtain ⟨rep, h1, h⟩ := bind_ok h
      injection h with h
      subst h
      have e := shown rep
      rw [e.1, e.2]
      unfold cvTest at h1
      obtain ⟨⟨data, dom⟩, _, h1⟩ := bind_ok h1
      simp only [] at h1
      obtain ⟨ev, _, h1⟩ := bind_ok h1
      obtain ⟨users, _, h1⟩ := bind_ok h1
      obtain ⟨items, _, h1⟩ := bind_ok h1
      obtain ⟨u, _, h1⟩ := bind_ok h1
      obtain ⟨groups, _, h1⟩ := bind_ok h1
      obtain ⟨acc, h7, h1⟩ := bind_ok h1
      injection h1 with h1
      obtain ⟨fold, tick, l, hl⟩ := cvLoop_marked hr _ 0 ⟨glob, 0⟩ _ acc [] nil h7
      refine ⟨fold, tick, _, _, l, hl, ?_, ?_⟩ <;> rw [← h1]
    · obtain ⟨rep, h1, h⟩ := bind_ok h
      injection h with h
      subst h
      have e := shown rep
      rw [e.1, e.2]
      unfold holdoutTest at h1
      obtain ⟨⟨train, dom⟩, _, h1⟩ := bind_ok h1
      simp only [] at h1
      obtain ⟨⟨test, dom⟩, _, h1⟩ := bind_ok h1
      simp only [] at h1
      obtain ⟨ev, _, h1⟩ := bind_ok h1
      obtain ⟨u1, _, h1⟩ := bind_ok h1
      obtain ⟨u2, _, h1⟩ := bind_ok h1
      obtain ⟨u3, _, h1⟩ := bind_ok h1
      obtain ⟨u4, _, h1⟩ := bind_ok h1
      obtain ⟨⟨m, ti, s1⟩, h2, h1⟩ := bind_ok h1
      simp only [] at h1
      obtain ⟨⟨esc, si, s2⟩, h3, h1⟩ := bind_ok h1
      simp only [] at h1
      obtain ⟨ev', _, h1⟩ := bind_ok h1
      obtain ⟨score, _, h1⟩ := bind_ok h1
      injection h1 with h1
      obtain ⟨res, r1, r2, r3⟩ := training_marked hr h2
      obtain ⟨t1, t2⟩ := testing_marked h3
      have := nil.snoc ⟨0, 0, res, ev.length⟩ rfl rfl r1
      refine ⟨_, _, _, _, _, this, ?_, ?_⟩ <;> rw [← h1]
      · rw [r2]; rfl
      · rw [t1, r3]; rfl

lemma Marked.timed {env : Env K α ε F V T γ} {clock : Nat → T} {fold tick : Nat} {train test : Dict String (J V)} {l : List (Mark V)}
    (h : Marked env clock fold tick train test l) {j : J V} (h1 : j.path ["training", "results"] = .ok (.dict train))
    (h2 : j.path ["test", "results"] = .ok (.dict test)) {x : Mark V} (hx : x ∈ l) :
    TimedBy env clock j (Nat.repr x.fold) x.tick (x.tick + 1) (x.tick + 2) (x.tick + 3) ∧
      j.path ["test", "results", Nat.repr x.fold, "end_time"] = .ok (.leaf (env.iso (clock (x.tick + 2)))) := by
  have nd : (l.map (fun x => Nat.repr x.fold)).Nodup := by
    rw [List.Nodup, List.pairwise_map]
    exact h.order.imp (fun {a b} hab e => by have := Nat.repr_injective e; omega)
  have get : ∀ f : Mark V → J V, Dict.get? (l.map (fun x => (Nat.repr x.fold, f x))) (Nat.repr x.fold) = some (f x) := by
    intro f
    clear h h1 h2
    induction l with
    | nil => cases hx
    | cons y l ih =>
      simp only [List.map_cons, List.nodup_cons] at nd
      simp only [List.map_cons, Dict.get?]
      rcases List.mem_cons.1 hx with rfl | hx
      · rw [if_pos rfl]
      · rw [if_neg (fun e => nd.1 (by rw [e]; exact List.mem_map.2 ⟨x, hx, rfl⟩)), ih hx nd.2]
  have p1 : ∀ k, j.path ["training", "results", Nat.repr x.fold, k] = Dict.getItem (x.train env clock) k := by
    intro k
    have : j.path ["training", "results", Nat.repr x.fold, k] = (j.path ["training", "results"] >>= fun y => y.path [Nat.repr x.fold, k]) := by
      simp [J.path]
    rw [this, h1, ok_bind, h.train]
    simp only [J.path, List.foldlM_cons, List.foldlM_nil, J.item, Dict.getItem, get, ok_bind]
    cases Dict.get? (x.train env clock) k <;> rfl
  have p2 : ∀ k, j.path ["test", "results", Nat.repr x.fold, k] = Dict.getItem (x.test env clock) k := by
    intro k
    have : j.path ["test", "results", Nat.repr x.fold, k] = (j.path ["test", "results"] >>= fun y => y.path [Nat.repr x.fold, k]) := by
      simp [J.path]
    rw [this, h2, ok_bind, h.test]
    simp only [J.path, List.foldlM_cons, List.foldlM_nil, J.item, Dict.getItem, get, ok_bind]
    cases Dict.get? (x.test env clock) k <;> rfl
  have p3 : ∀ k ∈ timing, Dict.get? x.res.reverse k = none := by
    intro k hk
    by_contra hne
    have : k ∈ Dict.keys x.res.reverse := (mem_keys_get? _ _).2 hne
    have : k ∈ x.res.keys := by simpa [Dict.keys] using this
    exact (h.past x hx).2.2 k this hk
  have q : ∀ k ∈ timing, ∀ v, Dict.get? (x.train env clock) k = some v → j.path ["training", "results", Nat.repr x.fold, k] = .ok v := by
    intro k _ v hv
    rw [p1, Dict.getItem, hv]
  refine ⟨⟨by omega, ?_, ?_, ?_, ?_, ?_, ?_, ?_⟩, ?_⟩
  · refine q _ (by simp [timing]) _ ?_
    unfold Mark.train
    rw [get?_update, p3 _ (by simp [timing])]
    rfl
  · refine q _ (by simp [timing]) _ ?_
    unfold Mark.train
    rw [get?_update, p3 _ (by simp [timing])]
    rfl
  · refine q _ (by simp [timing]) _ ?_
    unfold Mark.train
    rw [get?_update, p3 _ (by simp [timing])]
    rfl
  · refine q _ (by simp [timing]) _ ?_
    unfold Mark.train
    rw [get?_update, p3 _ (by simp [timing])]
    rfl
  · rw [p2]; rfl
  · rw [p2]; rfl
  · rw [p2]; rfl
  · rw [p2]; rfl

lemma Marked.hasFold {env : Env K α ε F V T γ} {clock : Nat → T} {fold tick : Nat} {train test : Dict String (J V)} {l : List (Mark V)}
    (h : Marked env clock fold tick train test l) {j : J V} (h1 : j.path ["training", "results"] = .ok (.dict train)) {key : String}
    (hk : j.HasFold key) : ∃ x ∈ l, Nat.repr x.fold = key := by
  obtain ⟨d, e, hd⟩ := hk
  rw [h1] at e
  injection e with e
  injection e with e
  subst e
  rw [h.train, keys_map] at hd
  obtain ⟨x, hx, e⟩ := List.mem_map.1 hd
  exact ⟨x, hx, e⟩

/-- C144 for `do_task` and any recommender. -/
theorem doTask_times {env : Env K α ε F V T γ} {clock : Nat → T} {rec : Recommender K α φ ε V γ M} (hr : rec.Timeless)
    {load : Loader K α φ ε F} {s : Setting K F V} {target : Option Int} {j : J V} (h : doTask env clock rec load s target = .ok j) :
    ∃ a b c d : String → Nat, (∀ key, j.HasFold key → TimedBy env clock j key (a key) (b key) (c key) (d key) ∧
        j.path ["test", "results", key, "end_time"] = .ok (.leaf (env.iso (clock (c key))))) ∧
      ∀ m n : Nat, m < n → j.HasFold (Nat.repr m) → j.HasFold (Nat.repr n) → d (Nat.repr m) < a (Nat.repr n) := by
  classical
  obtain ⟨fold, tick, train, test, l, hl, h1, h2⟩ := doTask_marked hr h
  have : Nonempty (Mark V) := ⟨⟨0, 0, [], 0⟩⟩
  choose! x hx using fun key (hk : j.HasFold key) => hl.hasFold h1 hk
  refine ⟨fun key => (x key).tick, fun key => (x key).tick + 1, fun key => (x key).tick + 2, fun key => (x key).tick + 3, ?_, ?_⟩
  · intro key hk
    obtain ⟨k1, k2⟩ := hx key hk
    have := hl.timed h1 h2 k1
    rwa [k2] at this
  · intro m n hmn hm hn
    obtain ⟨k1, k2⟩ := hx _ hm
    obtain ⟨k3, k4⟩ := hx _ hn
    have e1 := Nat.repr_injective k2
    have e2 := Nat.repr_injective k4
    have : ∀ y ∈ l, ∀ z ∈ l, y.fold < z.fold → y.tick + 4 ≤ z.tick := by
      intro y hy z hz hyz
      by_contra hc
      have tot : l.Pairwise (fun y z => y.fold < z.fold ∧ y.tick + 4 ≤ z.tick) := hl.order
      clear hl h1 h2 hx k1 k2 k3 k4
      induction tot with
      | nil => cases hy
      | cons hw _ ih =>
        rcases List.mem_cons.1 hy with rfl | hy' <;> rcases List.mem_cons.1 hz with rfl | hz'
        · omega
        · have := hw _ hz'; omega
        · have := hw _ hy'; omega
        · exact ih hy' hz'
    have := this _ k1 _ k3 (by omega)
    show (x m.repr).tick + 3 < (x n.repr).tick
    omega

end Kam.Scripts

namespace Kam.Exp
open Scripts Spec

variable {F α φ ε V T γ : Type} [LinearOrder α]

/-- The results that a learner gives have none of the entries for times. -/
def Plain {θ W : Type} (L : Learner ℝ γ θ W) : Prop := ∀ v p res, L.train v = .ok (p, res) → ∀ kv ∈ res, kv.1 ∉ timing

lemma finish_timeless {θ W : Type} {L : Learner ℝ γ θ W} (hL : Plain L) {r r' : Rec ℝ α φ ε γ θ W} (hr : ∀ k ∈ r.fitResults.keys, k ∉ timing)
    (h : Rec.finish L r = .ok r') : ∀ k ∈ r'.fitResults.keys, k ∉ timing := by
  obtain ⟨p, res, ht, rfl⟩ := finish_ok h
  show ∀ k ∈ (res.foldl (fun d kv => d.set kv.1 kv.2) r.fitResults).keys, k ∉ timing
  have hres := hL _ _ _ ht
  clear h ht
  generalize r.fitResults = d at hr
  induction res generalizing d with
  | nil => exact hr
  | cons kv res ih =>
    refine ih (fun q hq => hres q (List.mem_cons_of_mem _ hq)) _ ?_
    intro k hk
    rw [Dict.keys_set] at hk
    split at hk
    · exact hr k hk
    · rcases List.mem_append.1 hk with hk | hk
      · exact hr k hk
      · rw [List.mem_singleton.1 hk]
        exact hres kv List.mem_cons_self

lemma predictor_timeless {θ W : Type} {L : Learner ℝ γ θ W} {fresh : Dict String W} {enc : W → J V} {after : γ → ScoreData ℝ α φ ε → γ}
    (hf : ∀ k ∈ fresh.keys, k ∉ timing) (hL : Plain L) : (predictor L fresh enc after).Timeless := by
  intro g d m res g' h
  simp only [predictor] at h
  split at h
  · rename_i r hr
    injection h with h
    injection h with h h2
    injection h2 with h2 h3
    subst h2
    have hk : ∀ k ∈ r.fitResults.keys, k ∉ timing := by
      unfold Rec.fitPredictor Rec.predictorSuperFit at hr
      split at hr
      · cases hr
      · rename_i r1 h1
        split at h1
        · cases h1
        · rename_i r0 h0
          cases h1
          refine finish_timeless hL ?_ hr
          show ∀ k ∈ r0.fitResults.keys, k ∉ timing
          rw [eventFit_results h0]
          exact hf
    simpa [Dict.keys, List.map_map, Function.comp_def] using hk
  · cases h

lemma finder_timeless {θ W : Type} {L : Learner ℝ γ θ W} {fresh : Dict String W} {enc : W → J V} {after : γ → ScoreData ℝ α φ ε → γ}
    (hf : ∀ k ∈ fresh.keys, k ∉ timing) (hL : Plain L) : (finder L fresh enc after).Timeless := by
  intro g d m res g' h
  simp only [finder] at h
  split at h
  · rename_i r hr
    injection h with h
    injection h with h h2
    injection h2 with h2 h3
    subst h2
    have hk : ∀ k ∈ r.fitResults.keys, k ∉ timing := by
      unfold Rec.fitExplicit Rec.explicitSuperFit at hr
      split at hr
      · cases hr
      · rename_i r1 h1
        split at h1
        · cases h1
        · rename_i r0 h0
          split at h1
          · cases h1
            refine finish_timeless hL ?_ hr
            show ∀ k ∈ r0.fitResults.keys, k ∉ timing
            rw [eventFit_results h0]
            exact hf
          · cases h1
    simpa [Dict.keys, List.map_map, Function.comp_def] using hk
  · cases h

lemma guardK_timeless {M : Type} {rec : Recommender ℝ α φ ε V γ M} (h : rec.Timeless) (k : Int) : (guardK k rec).Timeless := by
  unfold guardK
  split
  · intro g d m res g' h
    cases h
  · exact h

lemma explicit_plain {cf : MF.Config γ} {a b c} {v : View ℝ γ} {p : MF.Params} {res : List (String × MF.Val)}
    (h : MF.trainExplicit cf a b c v = .ok (p, res)) : ∀ kv ∈ res, kv.1 ∉ timing := by
  unfold MF.trainExplicit at h
  obtain ⟨nu, _, h⟩ := bind_ok h
  obtain ⟨ni, _, h⟩ := bind_ok h
  split at h
  · obtain ⟨evs, _, h⟩ := bind_ok h
    obtain ⟨_, _, h⟩ := bind_ok h
    injection h with h
    injection h with _ h
    subst h
    intro kv hkv
    have : kv.1 ∈ (MF.results cf nu ni v.nEvents _ _).map (·.1) := List.mem_map_of_mem hkv
    simp only [MF.results, List.map_cons, List.map_nil] at this
    revert this
    generalize kv.1 = k
    revert k
    decide
  · cases h

lemma plsa_plain {cf : PLSA.Config γ} : Plain (PLSA.plsa cf) := by
  intro v p res h
  simp only [PLSA.plsa] at h
  unfold PLSA.train at h
  obtain ⟨nu, _, h⟩ := bind_ok h
  obtain ⟨ni, _, h⟩ := bind_ok h
  split at h
  · obtain ⟨lo, _, h⟩ := bind_ok h
    obtain ⟨hi, _, h⟩ := bind_ok h
    obtain ⟨levels, _, h⟩ := bind_ok h
    obtain ⟨ds, _, h⟩ := bind_ok h
    obtain ⟨evl, _, h⟩ := bind_ok h
    split at h
    · cases h
    · injection h with h
      injection h with _ h
      subst h
      intro kv hkv
      unfold PLSA.results at hkv
      simp only [List.mem_append, List.mem_cons, List.not_mem_nil, or_false] at hkv
      rcases hkv with ((hkv | hkv) | hkv) | hkv | hkv | hkv | hkv | hkv | hkv | hkv | hkv | hkv
      all_goals first
        | rw [hkv]; simp [timing]
        | split at hkv
          · rw [List.mem_singleton.1 hkv]; simp [timing]
          · cases hkv
  · cases h

/-- Every recommender that the scripts can train. -/
lemma Trained.timeless {lib : Lib α φ ε V γ} {o : Namespace F} {sc : Script} {M : Type} {rec : Recommender ℝ α φ ε V γ M}
    (h : Trained lib o sc M rec) : rec.Timeless := by
  cases h with
  | pmf cf _ _ => exact guardK_timeless (predictor_timeless (by simp [MF.initialResults, Dict.keys, timing]) fun _ _ _ h => explicit_plain h) _
  | plsa cf e _ _ => exact guardK_timeless (predictor_timeless (by simp [PLSA.initialResults, Dict.keys, timing]) plsa_plain) _
  | lpmf cf _ _ => exact guardK_timeless (finder_timeless (by simp [MF.initialResults, Dict.keys, timing]) fun _ _ _ h => explicit_plain h) _

/-- C144 (partial): in every file that the scripts write, the training of every fold has the readings of the clock at its begin and end and the
time between them, and the test has the reading at its begin and the time to its end.  These readings follow each other within a fold and from
fold to fold.  The end of a test is false: it is the reading at the begin of the test again. -/
theorem C144_times_partial (env : Env ℝ α ε F V T γ) (lib : Lib α φ ε V γ) (clock : Nat → T) (environment : Dict String (J V))
    (read : Bool → F → Res (Table ℝ α ε)) {sc : Script} {o : Namespace F} {j : J V} (h : task env lib clock environment read sc o = .ok j) :
    ∃ a b c d : String → Nat, (∀ key, j.HasFold key → TimedBy env clock j key (a key) (b key) (c key) (d key) ∧
        j.path ["test", "results", key, "end_time"] = .ok (.leaf (env.iso (clock (c key))))) ∧
      ∀ m n : Nat, m < n → j.HasFold (Nat.repr m) → j.HasFold (Nat.repr n) → d (Nat.repr m) < a (Nat.repr n) := by
  obtain ⟨M, rec, s, h1, _, _, h4⟩ := task_run env lib read sc o (task_method h)
  obtain ⟨⟨cond, h5⟩, _⟩ := h4 clock environment
  rw [h5] at h
  exact doTask_times h1.timeless h

/-- What C144 says in full: the entry for the end of the test is the reading at its end. -/
def C144_full (env : Env ℝ α ε F V T γ) (clock : Nat → T) (j : J V) : Prop :=
  ∃ a b c d : String → Nat, ∀ key, j.HasFold key → TimedBy env clock j key (a key) (b key) (c key) (d key) ∧
    j.path ["test", "results", key, "end_time"] = .ok (.leaf (env.iso (clock (d key))))

/-- Whenever the clock goes on and times are written in different ways, no file of the scripts with a fold has the end of a test right. -/
theorem C144_never (env : Env ℝ α ε F V T γ) (lib : Lib α φ ε V γ) (clock : Nat → T) (environment : Dict String (J V))
    (read : Bool → F → Res (Table ℝ α ε)) {sc : Script} {o : Namespace F} {j : J V} (h : task env lib clock environment read sc o = .ok j)
    (hc : Function.Injective (fun n => env.iso (clock n))) {key : String} (hk : j.HasFold key) : ¬ C144_full env clock j := by
  rintro ⟨a, b, c, d, hf⟩
  obtain ⟨a', b', c', d', hp, _⟩ := C144_times_partial env lib clock environment read h
  obtain ⟨p1, p2⟩ := hp key hk
  obtain ⟨f1, f2⟩ := hf key hk
  have e1 := f1.testStart.symm.trans p1.testStart
  have e2 := f2.symm.trans p2
  injection e1 with e1
  injection e1 with e1
  injection e2 with e2
  injection e2 with e2
  have e3 : c key = c' key := hc e1
  have e4 : d key = c' key := hc e2
  have := f1.order
  omega

/-- C144 is false: a run with every method, under a clock that goes on, with a false end of a test. -/
theorem C144_refuted (sc : Script) (m : String) (hm : m ∈ sc.choices) : ∃ o j, commandLine sc "stdin" "stdout" (Ex.args m) ["data"] = some o ∧
    task Ex.env Ex.lib _root_.id [] Ex.read sc o = .ok j ∧ ¬ C144_full Ex.env _root_.id j := by
  obtain ⟨o, h0, h1, h2, h3, h4, h5, h6, h7, h8⟩ := Ex.run sc m hm
  obtain ⟨j, hj⟩ := h8 _root_.id []
  obtain ⟨files, merged, _, _, _, _, k, _⟩ := C102_distributed Ex.env Ex.lib _root_.id [] Ex.read (se := Ex.senv) (fun _ => rfl)
    (fun _ _ => Metrics.pairsAuc_perm) Ex.read_ok (by decide) h2 h4 h5 hj [2, 0, 1] (by rw [h3]; decide) (by simp) (fun i t => 100 * i + t)
    (fun _ => []) (fun _ => "out") (fun _ => false) (.bool true) (.bool false)
  exact ⟨o, j, h0, hj, C144_never Ex.env Ex.lib _root_.id [] Ex.read hj (fun a b e => by simpa [Ex.env] using e) ((k 0).2 (by rw [h3]; decide))⟩

/-- C144 is not vacuous: the third fold of a run with every method has times. -/
example (sc : Script) (m : String) (hm : m ∈ sc.choices) : ∃ o j a b c d, commandLine sc "stdin" "stdout" (Ex.args m) ["data"] = some o ∧
    task Ex.env Ex.lib _root_.id [] Ex.read sc o = .ok j ∧ j.HasFold "2" ∧ TimedBy Ex.env _root_.id j "2" a b c d := by
  obtain ⟨o, h0, h1, h2, h3, h4, h5, h6, h7, h8⟩ := Ex.run sc m hm
  obtain ⟨j, hj⟩ := h8 _root_.id []
  obtain ⟨files, merged, _, _, _, _, k, _⟩ := C102_distributed Ex.env Ex.lib _root_.id [] Ex.read (se := Ex.senv) (fun _ => rfl)
    (fun _ _ => Metrics.pairsAuc_perm) Ex.read_ok (by decide) h2 h4 h5 hj [2, 0, 1] (by rw [h3]; decide) (by simp) (fun i t => 100 * i + t)
    (fun _ => []) (fun _ => "out") (fun _ => false) (.bool true) (.bool false)
  have hk : j.HasFold "2" := (k 2).2 (by rw [h3]; decide)
  obtain ⟨a, b, c, d, h9, _⟩ := C144_times_partial Ex.env Ex.lib _root_.id [] Ex.read hj
  exact ⟨o, j, _, _, _, _, h0, hj, hk, (h9 _ hk).1⟩

end Kam.Exp
