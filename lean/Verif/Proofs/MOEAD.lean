import Verif.Model.MOEAD
import Verif.Spec.MOEAD
import Verif.Proofs.Population
import Verif.Proofs.EA
import Verif.Proofs.NSGA3

/-! # Lemmas about the MOEA/D generation -/

namespace Verif
open _root_.Spec

variable {m : Nat} {K X O F C U V S Q R : Type}

/-! ## Counters -/

/-- Same counters and settings. -/
structure SameFrame (s t : EA X O F C U V S Q) : Prop where
  cfg : t.cfg = s.cfg
  iter : t.iter = s.iter
  gen : t.gen = s.gen
  genIter : t.genIter = s.genIter
  fe : t.fe = s.fe
  trueEvals : t.trueEvals = s.trueEvals
  archive : t.archive = s.archive
  vec : t.vec = s.vec

theorem updateND_frame (ops : Ops X O F C U V S Q R) (s t : EA X O F C U V S Q) (rows : List X)
    (res : Results O F C U) (h : s.updateND ops rows res = (.ok (), t)) :
    SameFrame s t ∧ t.pop = s.pop ∧ t.clock = s.clock := by
  unfold EA.updateND at h
  split at h
  · split at h
    · simp at h
    · simp only [Prod.mk.injEq, true_and] at h; subst h
      exact ⟨⟨rfl, rfl, rfl, rfl, rfl, rfl, rfl, rfl⟩, rfl, rfl⟩
  · simp only [Prod.mk.injEq, true_and] at h; subst h
    exact ⟨⟨rfl, rfl, rfl, rfl, rfl, rfl, rfl, rfl⟩, rfl, rfl⟩

section
variable [LT K] [DecidableRel (α := K) (· < ·)] [Zero K] [DecidableEq K]

theorem moeadFinish_ok (ops : Ops X O F C U (MoeadVec m K) S Q R) (mo : MoeadOps m K X O F C U) (i : Nat) (x : X)
    (res : Results O F C U) (s t : EA X O F C U (MoeadVec m K) S Q)
    (h : moeadFinish ops mo i x res s = (.ok (), t)) :
    SameFrame s t ∧ ∃ sel p, moeadSelect mo (mo.ideal s.clock) s.vec s.pop.fitness i = .ok sel ∧
      replaceWith s.pop sel x res = (.ok (), p) ∧ p.delete [-1] = (.ok (), t.pop) := by
  unfold moeadFinish at h
  split at h
  · simp at h
  · rename_i sel hsel
    split at h
    · simp at h
    · rename_i u p hp
      split at h
      · simp at h
      · rename_i u' p' hp'
        obtain ⟨hs, hpop, -⟩ := updateND_frame _ _ _ _ _ h
        exact ⟨⟨hs.cfg, hs.iter, hs.gen, hs.genIter, hs.fe, hs.trueEvals, hs.archive, hs.vec⟩,
          sel, p, hsel, hp, by rw [hpop]; exact hp'⟩

theorem moeadEvaluate_ok (ops : Ops X O F C U V S Q R) (x : X) (s t : EA X O F C U V S Q) (res : Results O F C U)
    (h : moeadEvaluate ops x s = (.ok res, t)) :
    t.cfg = s.cfg ∧ t.iter = s.iter ∧ t.gen = s.gen ∧ t.genIter = s.genIter ∧ t.archive = s.archive ∧
    t.vec = s.vec ∧ t.fe = s.fe + (if s.cfg.useSurr then 0 else 1) ∧
    t.trueEvals = s.trueEvals + (if s.cfg.useSurr then 0 else 1) ∧ t.clock = s.clock + 1 ∧
    s.pop.add ⟨s.pop.ndim - 1, [x]⟩ (ops.evaluate s.clock s.cfg.useSurr ⟨s.pop.ndim - 1, [x]⟩) = (.ok res, t.pop) := by
  unfold moeadEvaluate EA.popAdd at h
  dsimp only at h
  split at h
  · simp at h
  · rename_i res' s' heq
    simp only [Prod.mk.injEq, Except.ok.injEq] at h heq
    obtain ⟨rfl, h⟩ := h
    obtain ⟨h1, h2⟩ := heq
    subst h2
    cases hu : s.cfg.useSurr with
    | true =>
      simp only [hu, if_true] at h
      subst h
      simp [hu]
      rw [← hu]
      exact Prod.ext (by rw [hu]; exact hu ▸ h1) (by simp [hu])
    | false =>
      simp only [hu, Bool.false_eq_true, if_false] at h
      subst h
      simp
      exact Prod.ext (hu ▸ h1) (by simp)

/-- What a completed step consists of. -/
theorem moeadStep_ok (ops : Ops X O F C U (MoeadVec m K) S Q R) (mo : MoeadOps m K X O F C U) (useRepair : Bool)
    (i : Nat) (s t : EA X O F C U (MoeadVec m K) S Q) (h : moeadStep ops mo useRepair i s = (.ok (), t)) :
    t.cfg = s.cfg ∧ t.iter = s.iter ∧ t.gen = s.gen ∧ t.genIter = s.genIter ∧ t.archive = s.archive ∧
    t.vec = s.vec ∧ t.fe = s.fe + (if s.cfg.useSurr then 0 else 1) ∧
    t.trueEvals = s.trueEvals + (if s.cfg.useSurr then 0 else 1) ∧
    ∃ a b x0 xs res p sel q, chooseParents (mo.pick s.clock) s.vec.neigh i = .ok (a, b) ∧
      mo.mate (s.clock + 1) s.pop a b = .ok (x0 :: xs) ∧
      s.pop.add ⟨s.pop.ndim - 1, [if useRepair then mo.repair x0 else x0]⟩ (ops.evaluate (s.clock + 2) s.cfg.useSurr
        ⟨s.pop.ndim - 1, [if useRepair then mo.repair x0 else x0]⟩) = (.ok res, p) ∧
      moeadSelect mo (mo.ideal (s.clock + 3)) s.vec p.fitness i = .ok sel ∧
      replaceWith p sel (if useRepair then mo.repair x0 else x0) res = (.ok (), q) ∧
      q.delete [-1] = (.ok (), t.pop) := by
  unfold moeadStep at h
  split at h
  · simp at h
  · rename_i a b hab
    dsimp only at h
    split at h
    · simp at h
    · simp at h
    · rename_i x0 xs hm
      split at h
      · simp at h
      · rename_i res s2 hev
        obtain ⟨e1, e2, e3, e4, e5, e6, e7, e8, e9, e10⟩ := moeadEvaluate_ok _ _ _ _ _ hev
        obtain ⟨hs, sel, q, hsel, hrep, hdel⟩ := moeadFinish_ok _ _ _ _ _ _ _ h
        refine ⟨hs.cfg.trans e1, hs.iter.trans e2, hs.gen.trans e3, hs.genIter.trans e4, hs.archive.trans e5,
          hs.vec.trans e6, hs.fe.trans e7, hs.trueEvals.trans e8, a, b, x0, xs, res, s2.pop, sel, q, hab, hm, e10, ?_,
          hrep, hdel⟩
        rw [e9, e6] at hsel
        exact hsel

theorem moeadSteps_ok (ops : Ops X O F C U (MoeadVec m K) S Q R) (mo : MoeadOps m K X O F C U) (useRepair : Bool)
    (is : List Nat) (s t : EA X O F C U (MoeadVec m K) S Q) (h : moeadSteps ops mo useRepair is s = (.ok (), t)) :
    t.cfg = s.cfg ∧ t.iter = s.iter ∧ t.gen = s.gen ∧ t.genIter = s.genIter ∧ t.archive = s.archive ∧
    t.vec = s.vec ∧ t.fe = s.fe + (if s.cfg.useSurr then 0 else is.length) ∧
    t.trueEvals = s.trueEvals + (if s.cfg.useSurr then 0 else is.length) ∧
    ∀ i ∈ is, i < s.vec.neigh.length := by
  induction is generalizing s with
  | nil =>
    simp only [moeadSteps, Prod.mk.injEq, true_and] at h
    subst h; simp
  | cons i is ih =>
    simp only [moeadSteps] at h
    split at h
    · simp at h
    · rename_i u s1 hs1
      obtain ⟨f1, f2, f3, f4, f5, f6, f7, f8, a, b, -, -, -, -, -, -, hch, -⟩ := moeadStep_ok _ _ _ _ _ _ hs1
      obtain ⟨g1, g2, g3, g4, g5, g6, g7, g8, g9⟩ := ih s1 h
      have hi : i < s.vec.neigh.length := by
        unfold chooseParents at hch
        split at hch
        · simp at hch
        · rename_i nb hnb
          exact (List.getElem?_eq_some_iff.1 hnb).1
      refine ⟨g1.trans f1, g2.trans f2, g3.trans f3, g4.trans f4, g5.trans f5, g6.trans f6, ?_, ?_, ?_⟩
      · rw [g7, f7, f1]; cases s.cfg.useSurr <;> simp; omega
      · rw [g8, f8, f1]; cases s.cfg.useSurr <;> simp; omega
      · intro j hj
        rcases List.mem_cons.1 hj with rfl | hj
        · exact hi
        · rw [← f6]; exact g9 j hj

/-- MOEA/D's generation counts one generation and `pop_size` evaluations. -/
theorem moead_counts (ops : Ops X O F C U (MoeadVec m K) S Q R) (mo : MoeadOps m K X O F C U) (useRepair : Bool)
    (popSize : Nat) : CountsGeneration (moeadNextGen ops mo useRepair popSize) (fun _ => popSize) := by
  constructor
  intro s t h
  unfold moeadNextGen at h
  split at h
  · simp at h
  · rename_i u s1 hs1
    simp only [Prod.mk.injEq, true_and] at h
    subst h
    obtain ⟨g1, g2, g3, g4, g5, g6, g7, g8, -⟩ := moeadSteps_ok _ _ _ _ _ _ hs1
    rw [List.length_range] at g7 g8
    exact ⟨g1, g2, by simp [g3], by simp [g4], g7, g8, g5⟩

end

/-! ## The population -/

theorem rowsAt_append_last {α : Type} (g : Nat → Bool) (l : List α) (b : α)
    (h1 : ∀ k, k < l.length → g k = true) (h2 : g l.length = false) : rowsAt g (l ++ [b]) = l := by
  unfold rowsAt
  rw [List.zipIdx_append, List.filter_append]
  have e1 : (l.zipIdx).filter (fun p => g p.2) = l.zipIdx := by
    rw [List.filter_eq_self]
    rintro ⟨a, k⟩ hk
    have := List.snd_lt_of_mem_zipIdx hk
    exact h1 k (by simpa using this)
  have e2 : ([b].zipIdx (0 + l.length)).filter (fun p => g p.2) = [] := by
    simp [List.zipIdx, h2]
  rw [e1, e2]
  simp

theorem rowsSet_append {α : Type} (g : Nat → Bool) (a : α) (l : List α) (b : α) :
    rowsSet g a (l ++ [b]) = rowsSet g a l ++ [if g l.length then a else b] := by
  unfold rowsSet
  rw [List.zipIdx_append]
  simp [List.zipIdx]

theorem names_last (n k : Nat) (hk : k < n + 1) : names (n + 1) [-1] k = decide (k = n) := by
  unfold names
  simp only [List.any_cons, List.any_nil, Bool.or_false]
  by_cases h : k = n
  · subst h; simp
  · have h1 : ((-1 : Int) == (k : Int)) = false := by simp
    have h2 : ((-1 : Int) == (k : Int) - ((n + 1 : Nat) : Int)) = false := by simp; omega
    rw [h1, h2]; simp [h]

theorem names_nat (n : Nat) (sel : List Nat) (k : Nat) (hs : ∀ j ∈ sel, j < n) (hk : k < n) :
    names n (sel.map (fun (j : Nat) => (j : Int))) k = decide (k ∈ sel) := by
  unfold names
  rw [Bool.eq_iff_iff]
  simp only [List.any_eq_true, List.mem_map, Bool.or_eq_true, beq_iff_eq, decide_eq_true_eq]
  constructor
  · rintro ⟨_, ⟨j, hj, rfl⟩, h | h⟩
    · have : j = k := by omega
      exact this ▸ hj
    · have := hs j hj; omega
  · intro h; exact ⟨_, ⟨k, h, rfl⟩, Or.inl rfl⟩

theorem inRange_nat (n : Nat) (sel : List Nat) (hs : ∀ j ∈ sel, j < n) :
    inRange n (sel.map (fun (j : Nat) => (j : Int))) = true := by
  unfold inRange
  simp only [List.all_eq_true, List.mem_map, Bool.and_eq_true, decide_eq_true_eq]
  rintro _ ⟨j, hj, rfl⟩
  have := hs j hj
  omega

/-- A single successful `add` to a non-empty population: one record appended, the uncertainty columns agree. -/
theorem add_one {p q : Pop X O F C U} {rs : List (Rec X O F C U)} (h : Represents p rs) (hne : p.individuals ≠ none)
    (hd : 0 < p.ndim) (x : X) (r : Results O F C U) (hev : EvalOK p.nCons 1 r)
    (hadd : p.add ⟨p.ndim - 1, [x]⟩ (.ok r) = (.ok r, q)) :
    Represents q (rs ++ newRecs [x] r) ∧ q.nCons = p.nCons ∧ q.ndim = p.ndim ∧ q.individuals ≠ none ∧
      (q.uncertainity ≠ none → r.uncertainity ≠ none) := by
  have hs := add_spec (d := p.ndim) h ⟨p.ndim - 1, [x]⟩ r hev (fun _ => rfl)
    (Or.inr ⟨by show p.ndim - 1 + 1 = _; omega, rfl, hne⟩)
  rw [hadd] at hs
  refine ⟨hs.1, hs.2.1, hs.2.2.1, hs.2.2.2.1, ?_⟩
  by_cases hu : r.uncertainity = none
  · intro hq
    exact absurd (((hs.2.2.2.2 (Or.inr (Or.inl hu))).2).2 hu) hq
  · intro _; exact hu

/-- The record of one evaluated vector. -/
theorem newRecs_one (x : X) (r : Results O F C U) {nCons : Nat} (h : EvalOK nCons 1 r) :
    ∃ o f, r.objectives = [o] ∧ r.fitness = [f] ∧
      newRecs [x] r = [⟨x, o, f, r.constraints.bind List.head?, r.uncertainity.bind List.head?⟩] := by
  obtain ⟨o, ho⟩ := List.length_eq_one_iff.1 h.objs
  obtain ⟨f, hf⟩ := List.length_eq_one_iff.1 h.fits
  refine ⟨o, f, ho, hf, ?_⟩
  have hc : optCol 1 r.constraints = [r.constraints.bind List.head?] := by
    by_cases hn : nCons = 0
    · rw [h.nocons hn]; rfl
    · obtain ⟨cs, h1, h2⟩ := h.cons hn
      obtain ⟨c, rfl⟩ := List.length_eq_one_iff.1 h2
      rw [h1]; rfl
  have hu : optCol 1 r.uncertainity = [r.uncertainity.bind List.head?] := by
    cases hh : r.uncertainity with
    | none => rfl
    | some us =>
      obtain ⟨u, rfl⟩ := List.length_eq_one_iff.1 (h.unc us hh)
      rfl
  unfold newRecs
  rw [show ([x] : List X).length = 1 from rfl, ho, hf, hc, hu]
  rfl

theorem takeRows_spec {α : Type} (l : List α) (ks : List Nat) (as : List α) (h : takeRows l ks = some as) :
    as.length = ks.length ∧ (∀ k ∈ ks, k < l.length) ∧ ∀ (j k : Nat), ks[j]? = some k → as[j]? = l[k]? := by
  induction ks generalizing as with
  | nil => simp [takeRows] at h; subst h; simp
  | cons k ks ih =>
    simp only [takeRows] at h
    split at h
    · rename_i a as' ha has
      simp only [Option.some.injEq] at h
      subst h
      obtain ⟨h1, h2, h3⟩ := ih as' has
      refine ⟨by simp [h1], ?_, ?_⟩
      · intro k' hk'
        rcases List.mem_cons.1 hk' with rfl | hk'
        · exact (List.getElem?_eq_some_iff.1 ha).1
        · exact h2 _ hk'
      · intro j k' hj
        cases j with
        | zero => simp at hj; subst hj; simp [ha]
        | succ j => simp at hj; simp [h3 j k' hj]
    · simp at h

theorem takeRows_total {α : Type} (l : List α) (ks : List Nat) (h : ∀ k ∈ ks, k < l.length) :
    ∃ as, takeRows l ks = some as := by
  induction ks with
  | nil => exact ⟨[], rfl⟩
  | cons k ks ih =>
    obtain ⟨as, has⟩ := ih (fun j hj => h j (List.mem_cons_of_mem _ hj))
    have hk := h k List.mem_cons_self
    exact ⟨l[k] :: as, by simp [takeRows, has, hk]⟩

section
variable [LT K] [DecidableRel (α := K) (· < ·)] [Zero K] [DecidableEq K]

theorem mem_moeadSelect (mo : MoeadOps m K X O F C U) (ideal : F) (v : MoeadVec m K) (fits : List F) (off : F)
    (i : Nat) (sel : List Nat) (h : moeadSelect mo ideal v (fits ++ [off]) i = .ok sel) :
    ∃ nb, v.neigh[i]? = some nb ∧ (∀ k ∈ nb, k < v.planar.length ∧ k < fits.length + 1) ∧
      ∀ k, k ∈ sel ↔ k ∈ nb ∧ ∃ w f, v.planar[k]? = some w ∧ (fits ++ [off])[k]? = some f ∧
        beats mo ideal off f w = true := by
  unfold moeadSelect at h
  split at h
  · simp at h
  · rename_i nb hnb
    split at h
    · rename_i curs off' ws hc ho hw
      simp only [Except.ok.injEq] at h
      have ho' : off' = off := by simpa using ho.symm
      subst ho'
      obtain ⟨c1, c2, c3⟩ := takeRows_spec _ _ _ hc
      obtain ⟨w1, w2, w3⟩ := takeRows_spec _ _ _ hw
      refine ⟨nb, hnb, fun k hk => ⟨w2 k hk, by simpa using c2 k hk⟩, ?_⟩
      intro k
      rw [← h, mem_compress_get]
      simp only [List.getElem?_zipWith]
      constructor
      · rintro ⟨j, hm, hj⟩
        have ec := c3 j k hj
        have ew := w3 j k hj
        refine ⟨List.mem_of_getElem? hj, ?_⟩
        rw [ec, ew] at hm
        cases hf : (fits ++ [off'])[k]? with
        | none => simp [hf] at hm
        | some f =>
          cases hp : v.planar[k]? with
          | none => simp [hf, hp] at hm
          | some w =>
            simp only [hf, hp, Option.some.injEq] at hm
            exact ⟨w, f, rfl, rfl, hm⟩
      · rintro ⟨hk, w, f, hp, hf, hb⟩
        obtain ⟨j, hj⟩ := List.mem_iff_getElem?.1 hk
        refine ⟨j, ?_, hj⟩
        rw [c3 j k hj, w3 j k hj, hf, hp]
        simp [hb]
    · simp at h

theorem moeadSelect_total (mo : MoeadOps m K X O F C U) (ideal : F) (v : MoeadVec m K) (fits : List F) (off : F)
    (i : Nat) (nb : List Nat) (hnb : v.neigh[i]? = some nb)
    (h : ∀ k ∈ nb, k < v.planar.length ∧ k < fits.length + 1) :
    ∃ sel, moeadSelect mo ideal v (fits ++ [off]) i = .ok sel := by
  obtain ⟨cs, hc⟩ := takeRows_total (fits ++ [off]) nb (fun k hk => by simpa using (h k hk).2)
  obtain ⟨ws, hw⟩ := takeRows_total v.planar nb (fun k hk => (h k hk).1)
  unfold moeadSelect
  rw [hnb]
  simp [hc, hw]

end

end Verif
