/-
C164, continued: topic models that are fitted one after the other, whatever happens with other generators in between.
-/
import Verif.PLSA.ThreadsProps

set_option linter.unusedSectionVars false

namespace Kam
open Spec
namespace PLSA
namespace Steps
open scoped BigOperators

variable {γ : Type} {nu ni nl : Nat → Nat}

/-- Draws in order are determined by the generator. -/
lemma drawn_unique {nu ni nl k : Nat} {R : Rng γ} {g : γ} {evl : List (Ev nu ni nl)} {q q' : Resp evl.length k}
    (h : DrawnInOrder R g evl q) (h' : DrawnInOrder R g evl q') : q = q' := by
  obtain ⟨st, h0, h1⟩ := h
  obtain ⟨st', h0', h1'⟩ := h'
  have hst : ∀ m, m ≤ evl.length → st m = st' m := by
    intro m
    induction m with
    | zero => intro _; rw [h0, h0']
    | succ m ih =>
      intro hm
      have a := h1 ⟨m, by omega⟩
      have b := h1' ⟨m, by omega⟩
      simp only [ih (by omega)] at a
      rw [a] at b
      exact (Prod.ext_iff.1 b).2
  funext e
  have a := h1 e
  have b := h1' e
  rw [hst e.1 (by omega), b] at a
  exact (Prod.ext_iff.1 a).1.symm

lemma before_other {n k : Nat → Nat} (handle : Nat → Nat) (prog : ∀ i, List (TStmt γ (n i) (nu i) (ni i) (nl i) (k i)))
    (w : World γ n nu ni nl k) (threads : List Nat) (i : Nat) (hi : i ∉ threads) :
    (interleave handle prog w threads).objs i = w.objs i ∧ (interleave handle prog w threads).done i = w.done i := by
  unfold interleave
  induction threads generalizing w with
  | nil => exact ⟨rfl, rfl⟩
  | cons j l ih =>
    simp only [List.mem_cons, not_or] at hi
    rw [List.foldl_cons]
    have key : (tstep handle prog w j).objs i = w.objs i ∧ (tstep handle prog w j).done i = w.done i := by
      unfold tstep
      split
      · exact ⟨Function.update_of_ne hi.1 _ _, Function.update_of_ne hi.1 _ _⟩
      · exact ⟨rfl, rfl⟩
    obtain ⟨a, b⟩ := ih (tstep handle prog w j) hi.2
    exact ⟨a.trans key.1, b.trans key.2⟩

/-- C164: calls that share a generator but do not draw at the same time.  If the other threads that use the generator of a recommender have
no turn while it draws, it predicts and reports what it does after a call of `fit` alone that begins with the state in which the others have
left the generator, whatever comes before, in between and after. -/
theorem C164_serial {cf : Nat → Config γ} (handle : Nat → Nat) (evl : ∀ i, List (Ev (nu i) (ni i) (nl i)))
    (w : World γ (fun i => (evl i).length) nu ni nl fun i => (cf i).k) (before drawing after : List Nat) (i : Nat) (hb : i ∉ before)
    (h0 : w.done i = 0) (hh : ∀ j ∈ drawing, j ≠ i → handle j ≠ handle i) (hn : (evl i).length ≤ drawing.count i)
    (hc : (tprogram (cf i) fun e => (evl i)[e]).length ≤ (drawing ++ after).count i)
    {v : View ℝ γ} {p : Params} {res : List (String × Val)} (htrain : train (cf i) v = .ok (p, res))
    (hg : v.rng = some ((interleave handle (fun i => tprogram (cf i) fun e => (evl i)[e]) w before).streams (handle i)))
    (hnu : npGet v.nObjects 0 = .ok (nu i)) (hni : npGet v.nObjects 1 = .ok (ni i)) (hnl : v.nScoreLevels = some (nl i : Int))
    (hev : ∀ dom sc, v.scoreDomain = some dom → v.score = some sc →
      (digitize dom sc >>= parseEvents (nu i) (ni i) (nl i) v.event) = .ok (evl i)) :
    ((∀ rows, rawPredict (cf i).useExpectation p.levels
        ((interleave handle (fun i => tprogram (cf i) fun e => (evl i)[e]) w (before ++ (drawing ++ after))).objs i) rows =
      rows.mapM (predictRow (cf i).useExpectation p)) ∧
    ((interleave handle (fun i => tprogram (cf i) fun e => (evl i)[e]) w (before ++ (drawing ++ after))).objs i).results =
      res.foldl (fun d kv => d.set kv.1 kv.2) (w.objs i).results) := by
  obtain ⟨b1, b2⟩ := before_other handle (fun i => tprogram (cf i) fun e => (evl i)[e]) w before i hb
  have happ : interleave handle (fun i => tprogram (cf i) fun e => (evl i)[e]) w (before ++ (drawing ++ after)) =
      interleave handle (fun i => tprogram (cf i) fun e => (evl i)[e])
        (interleave handle (fun i => tprogram (cf i) fun e => (evl i)[e]) w before) (drawing ++ after) := by
    unfold interleave
    rw [List.foldl_append]
  rw [happ]
  generalize interleave handle (fun i => tprogram (cf i) fun e => (evl i)[e]) w before = w1 at *
  obtain ⟨st, q, s0, s1, -, hl⟩ := C164_undisturbed (cf := cf) handle (fun i e => (evl i)[e]) w1 drawing after i (b2.trans h0) hh hn hc
  have hq : q = drawn (cf i).rng (cf i).k (w1.streams (handle i)) (evl i) :=
    drawn_unique ⟨st, s0, s1⟩ (drawn_inOrder _ _ _)
  subst hq
  obtain ⟨θ, it, cur, l1, -, l3, l4⟩ := hl
  generalize interleave handle (fun i => tprogram (cf i) fun e => (evl i)[e]) w1 (drawing ++ after) = w2 at *
  rw [b1] at l4
  unfold train at htrain
  rw [hnu, hni, hnl, hg] at htrain
  cases hs : v.score with
  | none => rw [hs] at htrain; simp only [bind, Except.bind] at htrain; cases htrain
  | some sc =>
    cases hd : v.scoreDomain with
    | none => rw [hs, hd] at htrain; simp only [bind, Except.bind] at htrain; cases htrain
    | some dom =>
      have he := hev dom sc hd hs
      rw [hs, hd] at htrain
      simp only [bind, Except.bind] at htrain he
      cases h1 : npGet dom 0 with
      | error e => rw [h1] at htrain; cases htrain
      | ok lo =>
      cases h2 : npGet dom 1 with
      | error e => rw [h1, h2] at htrain; cases htrain
      | ok hi =>
      rw [h1, h2] at htrain
      simp only [] at htrain
      cases h3 : npLinspace lo hi (nl i : Int) with
      | error e => rw [h3] at htrain; cases htrain
      | ok levels =>
      rw [h3] at htrain
      cases h4 : digitize dom sc with
      | error e => rw [h4] at htrain; cases htrain
      | ok ds =>
      rw [h4] at htrain he
      simp only [Int.toNat_natCast] at htrain he
      rw [he] at htrain
      simp only [] at htrain
      split at htrain
      · cases htrain
      · have l1' : loop (emStep (cf i).alpha fun e => (evl i)[e]) (loss fun e => (evl i)[e]) (cf i).tol (cf i).maxiter (cf i).maxiter 0 none
            (mStep (cf i).alpha (fun e => (evl i)[e]) (fun e => (initParams (cf i).rng (cf i).k (w1.streams (handle i)) (evl i)).getD e fun _ => 0))
            (loss (fun e => (evl i)[e]) (mStep (cf i).alpha (fun e => (evl i)[e]) (fun e => (initParams (cf i).rng (cf i).k (w1.streams (handle i)) (evl i)).getD e fun _ => 0))) = (θ, it, cur) := l1
        simp only [l1'] at htrain
        injection htrain with htrain
        obtain ⟨e1, e2⟩ := Prod.ext_iff.1 htrain
        simp only [] at e1 e2
        subst e1
        subst e2
        exact ⟨fun rows => l3 _ _ rows, l4⟩

/-! ### example -/

/-- The events of `exTwo`, as a call of `fit` gets them. -/
def exPairs (g : Nat) : View ℝ Nat where
  event := [[0, 0], [1, 1]]
  nObjects := [2, 2]
  eventOtypes := [0, 1]
  eventIndex := [0, 1]
  nEvents := 2
  score := some [1, 1]
  scoreDomain := some [1, 1, 1]
  nScoreLevels := some 1
  rng := some g

/-- The same events after they have been prepared. -/
def exList : List (Ev 2 2 1) := [⟨0, 0, 0⟩, ⟨1, 1, 0⟩]

/-- New recommenders and a generator in state 0. -/
noncomputable def exSerial : World Nat (fun _ => exList.length) (fun _ => 2) (fun _ => 2) (fun _ => 1) (fun _ => exShared.k) :=
  ⟨fun _ => 0, fun _ => ⟨fun _ _ => 0, none, none, none, none, false, false, initialResults, 0, none, 0, false⟩, fun _ => 0⟩

lemma exPairs_parsed (g : Nat) : ∀ dom sc, (exPairs g).scoreDomain = some dom → (exPairs g).score = some sc →
    (digitize dom sc >>= parseEvents 2 2 1 (exPairs g).event) = .ok exList := by
  intro dom sc hd hs
  cases hd
  cases hs
  rw [digitize_eq 1 1 1 one_pos]
  have : ⌈((1 : ℝ) - 1) / 1⌉.toNat = 0 := by norm_num
  simp only [this, Nat.zero_min, List.map_cons, List.map_nil]
  rfl

/-- C164_serial is not vacuous: recommender 1 is fitted after recommender 0 with the same generator. -/
example : ∃ p res, train exShared (exPairs ((interleave (fun _ => 0) (fun _ => tprogram exShared fun e => exList[e]) exSerial
      (List.replicate 25 0)).streams 0)) = .ok (p, res) ∧
    (∀ rows, rawPredict exShared.useExpectation p.levels ((interleave (fun _ => 0) (fun _ => tprogram exShared fun e => exList[e]) exSerial
        (List.replicate 25 0 ++ (List.replicate 2 1 ++ List.replicate 23 1))).objs 1) rows = rows.mapM (predictRow exShared.useExpectation p)) := by
  have hlen : (tprogram exShared fun e => exList[e]).length = 25 := by
    rw [tprogram_length, program, List.length_append, List.length_append, passes_length, List.length_range]
    rfl
  obtain ⟨p, res, h⟩ := train_total (cf := exShared) (v := exPairs ((interleave (fun _ => 0) (fun _ => tprogram exShared fun e => exList[e])
      exSerial (List.replicate 25 0)).streams 0)) (nu := 2) (ni := 2) (m := 0) (lo := 1) (hi := 1) (st := 1) (sc := [1, 1]) rfl rfl rfl rfl
    one_pos (by norm_num) rfl rfl rfl (by
      intro row hr
      have : row = [0, 0] ∨ row = [1, 1] := by simpa [exPairs] using hr
      rcases this with rfl | rfl
      · exact ⟨0, 0, rfl, rfl⟩
      · exact ⟨1, 1, rfl, rfl⟩) Nat.two_pos
  refine ⟨p, res, h, ?_⟩
  have key := (C164_serial (cf := fun _ => exShared) (fun _ => 0) (fun _ => exList) exSerial (List.replicate 25 0) (List.replicate 2 1)
    (List.replicate 23 1) 1 (by simp) rfl (by simp) (by simp [exList]) (by rw [hlen]; simp) h rfl rfl rfl rfl (exPairs_parsed _)).1
  generalize List.replicate 25 0 ++ (List.replicate 2 1 ++ List.replicate 23 1) = l at key ⊢
  exact key

end Steps
end PLSA
end Kam
