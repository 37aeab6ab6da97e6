import Verif.Proofs.MOEAD
import Verif.Props.Loop
import Verif.Props.RefVectors

/-!
# Properties C37, C38, C39: MOEA/D

`moead_counts` (`Proofs/MOEAD.lean`) makes the loop theorems C10, C11, C12 and C18 apply to MOEA/D with `rows` the
constant `pop_size`.
-/

namespace Verif.Props
open Verif Verif.Spec
open _root_.Spec (Rec Represents EvalOK Gens names rowsSet rowsAt newRecs)

variable {m : Nat} {K X O F C U S Q R : Type}

/-- The value of individual `r` for subproblem `k`: the scalarization of its fitness with the planar reference vector
`k`, zeros replaced by the small constant, relative to `ideal`. -/
def subValue [Zero K] [DecidableEq K] (mo : MoeadOps m K X O F C U) (planar : List (Fin m → K)) (ideal : F) (k : Nat)
    (r : Rec X O F C U) : Option K :=
  (planar[k]?).bind (fun w => mo.sf r.f (fun j => if w j = 0 then mo.tiny else w j) ideal)

theorem nanLt_iff [LT K] [DecidableRel (α := K) (· < ·)] (a b : Option K) : nanLt a b = true ↔ Less a b := by
  unfold nanLt Less
  cases a <;> cases b <;> simp

section
variable [LT K] [DecidableRel (α := K) (· < ·)] [Zero K] [DecidableEq K]

/-- What one subproblem step does to the population. -/
theorem moeadStep_spec (ops : Ops X O F C U (MoeadVec m K) S Q R) (mo : MoeadOps m K X O F C U) (useRepair : Bool)
    (i : Nat) (s t : EA X O F C U (MoeadVec m K) S Q) (rs : List (Rec X O F C U)) (nCons : Nat)
    (hev : ∀ n sur b r, ops.evaluate n sur b = .ok r → EvalOK nCons b.rows.length r)
    (hrep : Represents s.pop rs) (hne : rs ≠ []) (hd : 0 < s.pop.ndim)
    (hn : s.pop.nCons = nCons) (h : moeadStep ops mo useRepair i s = (.ok (), t)) :
    ∃ (rs' : List (Rec X O F C U)) (a : Rec X O F C U) (nb : List Nat) (p1 p2 : Nat) (x0 : X) (xs : List X),
      Represents t.pop rs' ∧ rs'.length = rs.length ∧ 0 < t.pop.ndim ∧ t.pop.nCons = nCons ∧
      s.vec.neigh[i]? = some nb ∧
      chooseParents (mo.pick s.clock) s.vec.neigh i = .ok (p1, p2) ∧
      mo.mate (s.clock + 1) s.pop p1 p2 = .ok (x0 :: xs) ∧ a.x = (if useRepair then mo.repair x0 else x0) ∧
      (∃ res, ops.evaluate (s.clock + 2) s.cfg.useSurr ⟨s.pop.ndim - 1, [a.x]⟩ = .ok res ∧ newRecs [a.x] res = [a]) ∧
      ∀ (k : Nat) (r : Rec X O F C U), rs[k]? = some r →
        (k ∈ nb ∧ Less (subValue mo s.vec.planar (mo.ideal (s.clock + 3)) k a)
            (subValue mo s.vec.planar (mo.ideal (s.clock + 3)) k r) → rs'[k]? = some a) ∧
        (¬ (k ∈ nb ∧ Less (subValue mo s.vec.planar (mo.ideal (s.clock + 3)) k a)
            (subValue mo s.vec.planar (mo.ideal (s.clock + 3)) k r)) → rs'[k]? = some r) := by
  obtain ⟨-, -, -, -, -, -, -, -, p1, p2, x0, xs, res, p, sel, q, hch, hm, hadd, hsel, hrw, hdel⟩ :=
    moeadStep_ok ops mo useRepair i s t h
  have hind : s.pop.individuals ≠ none := by
    rcases hrep.inds with hh | ⟨-, hh⟩
    · simp [hh]
    · exact absurd hh hne
  generalize hx : (if useRepair then mo.repair x0 else x0) = x at *
  -- the evaluation succeeded
  cases hevr : ops.evaluate (s.clock + 2) s.cfg.useSurr ⟨s.pop.ndim - 1, [x]⟩ with
  | error e => rw [hevr] at hadd; simp [Pop.add] at hadd
  | ok r =>
    rw [hevr] at hadd
    have hr : r = res := by
      have h1 := congrArg Prod.fst hadd
      unfold Pop.add at h1
      simp only at h1
      split at h1
      · simpa using h1
      · split at h1
        · simp at h1
        · split at h1
          · simpa using h1
          · split at h1
            · simp at h1
            · simpa using h1
    subst hr
    have hok : EvalOK s.pop.nCons 1 r := by rw [hn]; exact hev _ _ _ _ hevr
    obtain ⟨a1, a2, a3, a4, a5⟩ := add_one hrep hind hd x r hok hadd
    obtain ⟨o, f, ho, hf, hrec⟩ := newRecs_one x r hok
    rw [hrec] at a1
    generalize haa : (⟨x, o, f, r.constraints.bind List.head?, r.uncertainity.bind List.head?⟩ : Rec X O F C U) = a at *
    have hfit : p.fitness = rs.map Rec.f ++ [a.f] := by rw [a1.fits]; simp
    rw [hfit] at hsel
    obtain ⟨nb, hnb, hval, hmem⟩ := mem_moeadSelect _ _ _ _ _ _ _ hsel
    have hselk : ∀ k ∈ sel, k < rs.length + 1 := fun k hk => by
      simpa using (hval k ((hmem k).1 hk).1).2
    have hlen : (rs ++ [a]).length = rs.length + 1 := by simp
    -- replace
    unfold replaceWith at hrw
    simp only [ho, hf] at hrw
    have hrp := replace_ok (p := p) a1 a4 (sel.map (fun (k : Nat) => (k : Int))) x o f (r.constraints.bind List.head?)
      (r.uncertainity.bind List.head?) (by rw [hlen]; exact inRange_nat _ _ hselk)
      (by
        intro hc
        rw [a2] at hc
        obtain ⟨cs, e1, e2⟩ := hok.cons hc
        obtain ⟨c, rfl⟩ := List.length_eq_one_iff.1 e2
        simp [e1])
      (by
        intro hu
        have := a5 hu
        cases hru : r.uncertainity with
        | none => exact absurd hru this
        | some us =>
          obtain ⟨u, rfl⟩ := List.length_eq_one_iff.1 (hok.unc us hru)
          simp)
    rw [hrw, haa, hlen] at hrp
    obtain ⟨-, r2, r3, r4, r5, -⟩ := hrp
    rw [rowsSet_append] at r2
    generalize hlast : (if names (rs.length + 1) (sel.map (fun (k : Nat) => (k : Int))) rs.length = true then a else a) = b at r2
    -- delete
    have hdl := delete_ok (p := q) r2 r5 [-1] (by
      rw [List.length_append, _root_.Verif.rowsSet_length]
      simp [_root_.Spec.inRange])
    rw [hdel] at hdl
    obtain ⟨-, d2, d3, d4, -, -⟩ := hdl
    have hl' : (rowsSet (fun k => names (rs.length + 1) (sel.map (fun (k : Nat) => (k : Int))) k) a rs ++ [b]).length
        = rs.length + 1 := by simp [_root_.Verif.rowsSet_length]
    rw [hl', rowsAt_append_last _ _ _
      (by
        intro k hk
        rw [_root_.Verif.rowsSet_length] at hk
        rw [names_last _ _ (by omega)]
        simp; omega)
      (by rw [_root_.Verif.rowsSet_length, names_last _ _ (by omega)]; simp)] at d2
    refine ⟨_, a, nb, p1, p2, x0, xs, d2, _root_.Verif.rowsSet_length _ _ _, ?_, ?_, hnb, hch, hm, ?_, ?_, ?_⟩
    · show 0 < t.pop.ndim
      rw [show t.pop.ndim = q.ndim from d4, r4, a3]; exact hd
    · show t.pop.nCons = nCons
      rw [show t.pop.nCons = q.nCons from d3, r3, a2, hn]
    · rw [← haa]
      exact hx.symm
    · have hax : a.x = x := by rw [← haa]
      rw [hax]
      exact ⟨r, hevr, hrec⟩
    · intro k r hk
      have hkl : k < rs.length := (List.getElem?_eq_some_iff.1 hk).1
      have hget : (rowsSet (fun k => names (rs.length + 1) (sel.map (fun (k : Nat) => (k : Int))) k) a rs)[k]? =
          some (if decide (k ∈ sel) then a else r) := by
        unfold rowsSet
        rw [List.getElem?_map, List.getElem?_zipIdx, hk]
        simp only [Option.map_some, Nat.zero_add]
        rw [names_nat _ _ _ hselk (by omega)]
      rw [hget]
      have hiff : k ∈ sel ↔ k ∈ nb ∧ Less (subValue mo s.vec.planar (mo.ideal (s.clock + 3)) k a)
            (subValue mo s.vec.planar (mo.ideal (s.clock + 3)) k r) := by
        rw [hmem k]
        constructor
        · rintro ⟨h1, w, f', hw, hf', hb⟩
          refine ⟨h1, ?_⟩
          rw [List.getElem?_append_left (by simpa using hkl), List.getElem?_map, hk] at hf'
          simp only [Option.map_some, Option.some.injEq] at hf'
          subst hf'
          unfold beats fixZeros at hb
          rw [nanLt_iff] at hb
          simpa [subValue, hw] using hb
        · rintro ⟨h1, h2⟩
          refine ⟨h1, ?_⟩
          have hw := (hval k h1).1
          refine ⟨s.vec.planar[k], r.f, by simp [hw], ?_, ?_⟩
          · rw [List.getElem?_append_left (by simpa using hkl), List.getElem?_map, hk]; rfl
          · unfold beats fixZeros
            rw [nanLt_iff]
            simpa [subValue, hw] using h2
      constructor
      · intro h1
        simp [hiff.2 h1]
      · intro h1
        have : k ∉ sel := fun h2 => h1 (hiff.1 h2)
        simp [this]

theorem chooseParents_mem (pick : Nat → Nat × Nat) (neigh : List (List Nat)) (i a b : Nat)
    (h : chooseParents pick neigh i = .ok (a, b)) :
    ∃ nb, neigh[i]? = some nb ∧ 2 ≤ nb.length ∧ nb[(pick nb.length).1]? = some a ∧ nb[(pick nb.length).2]? = some b := by
  unfold chooseParents at h
  split at h
  · simp at h
  · rename_i nb hnb
    split at h
    · simp at h
    · split at h
      · rename_i hl x y hx hy
        simp only [Except.ok.injEq, Prod.mk.injEq] at h
        obtain ⟨rfl, rfl⟩ := h
        exact ⟨nb, hnb, by omega, hx, hy⟩
      · simp at h

/-! ## C38 -/

/-- C38. One step for subproblem `i`: an offspring `a` bred from two neighbours of `i` and evaluated; afterwards every neighbour for
which `a` is strictly better holds `a`, and every other individual is untouched. -/
theorem c38_step_replaces_exactly_beaten_neighbours (ops : Ops X O F C U (MoeadVec m K) S Q R)
    (mo : MoeadOps m K X O F C U) (useRepair : Bool) (i : Nat) (s t : EA X O F C U (MoeadVec m K) S Q)
    (rs : List (Rec X O F C U))
    (hev : ∀ n sur b r, ops.evaluate n sur b = .ok r → EvalOK s.pop.nCons b.rows.length r)
    (hrep : Represents s.pop rs) (hne : rs ≠ []) (hd : 0 < s.pop.ndim)
    (h : moeadStep ops mo useRepair i s = (.ok (), t)) :
    ∃ (rs' : List (Rec X O F C U)) (a : Rec X O F C U) (nb : List Nat),
      Represents t.pop rs' ∧ rs'.length = rs.length ∧ s.vec.neigh[i]? = some nb ∧
      (∃ (p1 p2 : Nat) (x0 : X) (xs : List X), p1 ∈ nb ∧ p2 ∈ nb ∧ mo.mate (s.clock + 1) s.pop p1 p2 = .ok (x0 :: xs) ∧
        a.x = (if useRepair then mo.repair x0 else x0)) ∧
      (∃ res, ops.evaluate (s.clock + 2) s.cfg.useSurr ⟨s.pop.ndim - 1, [a.x]⟩ = .ok res ∧ newRecs [a.x] res = [a]) ∧
      ∀ (k : Nat) (r : Rec X O F C U), rs[k]? = some r →
        (k ∈ nb ∧ Less (subValue mo s.vec.planar (mo.ideal (s.clock + 3)) k a) (subValue mo s.vec.planar (mo.ideal (s.clock + 3)) k r) →
          rs'[k]? = some a) ∧
        (¬ (k ∈ nb ∧ Less (subValue mo s.vec.planar (mo.ideal (s.clock + 3)) k a) (subValue mo s.vec.planar (mo.ideal (s.clock + 3)) k r)) →
          rs'[k]? = some r) := by
  obtain ⟨rs', a, nb, p1, p2, x0, xs, h1, h2, -, -, h3, h4, h5, h6, h8, h7⟩ :=
    moeadStep_spec ops mo useRepair i s t rs _ hev hrep hne hd rfl h
  obtain ⟨nb', e1, -, e2, e3⟩ := chooseParents_mem _ _ _ _ _ h4
  rw [h3] at e1
  cases e1
  exact ⟨rs', a, nb, h1, h2, h3, ⟨p1, p2, x0, xs, List.mem_of_getElem? e2, List.mem_of_getElem? e3, h5, h6⟩, h8, h7⟩

theorem less_trans {L : Type} [Preorder L] {a b c : Option L} (h1 : Less a b) (h2 : Less b c) : Less a c := by
  obtain ⟨x, y, rfl, rfl, h⟩ := h1
  obtain ⟨y', z, e, rfl, h'⟩ := h2
  cases e
  exact ⟨x, z, rfl, rfl, h.trans h'⟩

end

theorem noneWorse_refl {A L : Type} [LT L] (value : Nat → A → Option L) (l : List A) : NoneWorse value l l :=
  ⟨rfl, fun k a b h1 h2 => Or.inl (by rw [h1] at h2; cases h2; rfl)⟩

theorem noneWorse_trans {A L : Type} [Preorder L] {value : Nat → A → Option L} {l1 l2 l3 : List A}
    (h1 : NoneWorse value l1 l2) (h2 : NoneWorse value l2 l3) : NoneWorse value l1 l3 := by
  refine ⟨h2.size.trans h1.size, ?_⟩
  intro k a c ha hc
  have hk : k < l2.length := by
    have := (List.getElem?_eq_some_iff.1 ha).1
    rw [h1.size]; exact this
  have hb : l2[k]? = some l2[k] := by simp [hk]
  rcases h1.better k a _ ha hb with e1 | e1
  · rcases h2.better k _ c hb hc with e2 | e2
    · left; rw [e2, e1]
    · right; rw [e1] at e2; exact e2
  · rcases h2.better k _ c hb hc with e2 | e2
    · right; rw [e2]; exact e1
    · right; exact less_trans e2 e1

section
variable [LinearOrder K] [Zero K]

/-- C38. No subproblem gets worse in a step, measured with the weights and the ideal point of the step. -/
theorem c38_step_never_worse (ops : Ops X O F C U (MoeadVec m K) S Q R)
    (mo : MoeadOps m K X O F C U) (useRepair : Bool) (i : Nat) (s t : EA X O F C U (MoeadVec m K) S Q)
    (rs : List (Rec X O F C U)) (nCons : Nat)
    (hev : ∀ n sur b r, ops.evaluate n sur b = .ok r → EvalOK nCons b.rows.length r)
    (hrep : Represents s.pop rs) (hne : rs ≠ []) (hd : 0 < s.pop.ndim) (hn : s.pop.nCons = nCons)
    (h : moeadStep ops mo useRepair i s = (.ok (), t)) :
    ∃ rs', Represents t.pop rs' ∧ 0 < t.pop.ndim ∧ t.pop.nCons = nCons ∧ t.vec = s.vec ∧
      NoneWorse (subValue mo s.vec.planar (mo.ideal (s.clock + 3))) rs rs' := by
  obtain ⟨rs', a, nb, p1, p2, x0, xs, h1, h2, h8, h9, h3, h4, h5, h6, -, h7⟩ :=
    moeadStep_spec ops mo useRepair i s t rs nCons hev hrep hne hd hn h
  have hv := (moeadStep_ok ops mo useRepair i s t h).2.2.2.2.2.1
  refine ⟨rs', h1, h8, h9, hv, h2, ?_⟩
  intro k r r' hk hk'
  by_cases hc : k ∈ nb ∧ Less (subValue mo s.vec.planar (mo.ideal (s.clock + 3)) k a)
      (subValue mo s.vec.planar (mo.ideal (s.clock + 3)) k r)
  · rw [(h7 k r hk).1 hc] at hk'
    cases hk'
    exact Or.inr hc.2
  · rw [(h7 k r hk).2 hc] at hk'
    cases hk'
    exact Or.inl rfl

theorem moeadSteps_never_worse (ops : Ops X O F C U (MoeadVec m K) S Q R)
    (mo : MoeadOps m K X O F C U) (useRepair : Bool) (ideal : F) (hid : ∀ n, mo.ideal n = ideal) (nCons : Nat)
    (hev : ∀ n sur b r, ops.evaluate n sur b = .ok r → EvalOK nCons b.rows.length r) (is : List Nat)
    (s t : EA X O F C U (MoeadVec m K) S Q) (rs : List (Rec X O F C U))
    (hrep : Represents s.pop rs) (hne : rs ≠ []) (hd : 0 < s.pop.ndim) (hn : s.pop.nCons = nCons)
    (h : moeadSteps ops mo useRepair is s = (.ok (), t)) :
    ∃ rs', Represents t.pop rs' ∧ 0 < t.pop.ndim ∧ t.pop.nCons = nCons ∧ t.vec = s.vec ∧
      NoneWorse (subValue mo s.vec.planar ideal) rs rs' := by
  induction is generalizing s rs with
  | nil =>
    simp only [moeadSteps, Prod.mk.injEq, true_and] at h
    subst h
    exact ⟨rs, hrep, hd, hn, rfl, noneWorse_refl _ _⟩
  | cons i is ih =>
    simp only [moeadSteps] at h
    split at h
    · simp at h
    · rename_i u s1 hs1
      obtain ⟨rs1, a1, a2, a3, a4, a5⟩ :=
        c38_step_never_worse ops mo useRepair i s s1 rs nCons hev hrep hne hd hn hs1
      have hne1 : rs1 ≠ [] := by
        intro h0; rw [h0] at a5
        have := a5.size
        exact hne (List.length_eq_zero_iff.1 this.symm)
      obtain ⟨rs2, b1, b2, b3, b4, b5⟩ := ih s1 rs1 a1 hne1 a2 a3 h
      rw [hid] at a5
      rw [a4] at b5
      exact ⟨rs2, b1, b2, b3, b4.trans a4, noneWorse_trans a5 b5⟩

/-- C38 over any number of generations of an iteration: while the ideal point stays the same, no subproblem is ever
worse off than at the start.  (`ops.evaluate` may answer anything of the right shape.) -/
theorem c38_generations_never_worse (ops : Ops X O F C U (MoeadVec m K) S Q R)
    (mo : MoeadOps m K X O F C U) (useRepair : Bool) (popSize : Nat) (ideal : F) (hid : ∀ n, mo.ideal n = ideal)
    (nCons : Nat) (hev : ∀ n sur b r, ops.evaluate n sur b = .ok r → EvalOK nCons b.rows.length r)
    {cond : EA X O F C U (MoeadVec m K) S Q → Prop} {k : Nat}
    {s t : EA X O F C U (MoeadVec m K) S Q} (hg : Gens (moeadNextGen ops mo useRepair popSize) cond k s t)
    (rs : List (Rec X O F C U)) (hrep : Represents s.pop rs) (hne : rs ≠ []) (hd : 0 < s.pop.ndim)
    (hn : s.pop.nCons = nCons) :
    ∃ rs', Represents t.pop rs' ∧ t.vec = s.vec ∧ NoneWorse (subValue mo s.vec.planar ideal) rs rs' := by
  induction hg generalizing rs with
  | zero s => exact ⟨rs, hrep, rfl, noneWorse_refl _ _⟩
  | @succ k s t u hc hb hg ih =>
    unfold moeadNextGen at hb
    split at hb
    · simp at hb
    · rename_i u1 s1 hs1
      simp only [Prod.mk.injEq, true_and] at hb
      obtain ⟨rs1, a1, a2, a3, a4, a5⟩ :=
        moeadSteps_never_worse ops mo useRepair ideal hid nCons hev _ s s1 rs hrep hne hd hn hs1
      have hne1 : rs1 ≠ [] := by
        intro h0; rw [h0] at a5
        exact hne (List.length_eq_zero_iff.1 a5.size.symm)
      subst hb
      obtain ⟨rs2, b1, b2, b3⟩ := ih rs1 a1 hne1 a2 a3
      have b3' : NoneWorse (subValue mo s1.vec.planar ideal) rs1 rs2 := b3
      rw [a4] at b3'
      exact ⟨rs2, b1, b2.trans a4, noneWorse_trans a5 b3'⟩

/-! ## C37 -/

/-- C37. A completed MOEA/D generation leaves the number of individuals as it was and has evaluated exactly
`pop_size` vectors (none counted with surrogates). -/
theorem c37_generation_keeps_size_and_evaluates_popSize (ops : Ops X O F C U (MoeadVec m K) S Q R)
    (mo : MoeadOps m K X O F C U) (useRepair : Bool) (popSize : Nat) (s t : EA X O F C U (MoeadVec m K) S Q)
    (hev : ∀ n sur b r, ops.evaluate n sur b = .ok r → EvalOK s.pop.nCons b.rows.length r)
    (rs : List (Rec X O F C U)) (hrep : Represents s.pop rs) (hne : rs ≠ []) (hd : 0 < s.pop.ndim)
    (h : moeadNextGen ops mo useRepair popSize s = (.ok (), t)) :
    (∃ rs', Represents t.pop rs' ∧ rs'.length = rs.length) ∧
    t.trueEvals = s.trueEvals + (if s.cfg.useSurr then 0 else popSize) ∧
    t.fe = s.fe + (if s.cfg.useSurr then 0 else popSize) ∧ t.gen = s.gen + 1 := by
  have hc := (moead_counts ops mo useRepair popSize).ok s t h
  refine ⟨?_, hc.2.2.2.2.2.1, hc.2.2.2.2.1, hc.2.2.1⟩
  unfold moeadNextGen at h
  split at h
  · simp at h
  · rename_i u1 s1 hs1
    simp only [Prod.mk.injEq, true_and] at h
    subst h
    -- size preservation does not need a constant ideal point
    have key : ∀ (is : List Nat) (s s1 : EA X O F C U (MoeadVec m K) S Q) (rs : List (Rec X O F C U)) (nCons : Nat),
        (∀ n sur b r, ops.evaluate n sur b = .ok r → EvalOK nCons b.rows.length r) →
        Represents s.pop rs → rs ≠ [] → 0 < s.pop.ndim → s.pop.nCons = nCons →
        moeadSteps ops mo useRepair is s = (.ok (), s1) →
        ∃ rs', Represents s1.pop rs' ∧ rs'.length = rs.length := by
      intro is
      induction is with
      | nil =>
        intro s s1 rs nCons _ h1 _ _ _ h
        simp only [moeadSteps, Prod.mk.injEq, true_and] at h
        subst h
        exact ⟨rs, h1, rfl⟩
      | cons i is ih =>
        intro s s2 rs nCons hev h1 h2 h3 h4 h
        simp only [moeadSteps] at h
        split at h
        · simp at h
        · rename_i u s1 hs1
          obtain ⟨rs1, a1, a2, a3, a4, a5⟩ :=
            c38_step_never_worse ops mo useRepair i s s1 rs nCons hev h1 h2 h3 h4 hs1
          have hne1 : rs1 ≠ [] := by
            intro h0; rw [h0] at a5
            exact h2 (List.length_eq_zero_iff.1 a5.size.symm)
          obtain ⟨rs2, b1, b2⟩ := ih s1 s2 rs1 nCons hev a1 hne1 a2 a3 h
          exact ⟨rs2, b1, b2.trans a5.size⟩
    exact key _ s s1 rs _ hev hrep hne hd rfl hs1

/-- C37. With more individuals than reference vectors (neighbourhoods), a generation raises. -/
theorem c37_raises_if_more_individuals_than_vectors (ops : Ops X O F C U (MoeadVec m K) S Q R)
    (mo : MoeadOps m K X O F C U) (useRepair : Bool) (popSize : Nat) (s : EA X O F C U (MoeadVec m K) S Q)
    (h : s.vec.neigh.length < popSize) : ∃ e t, moeadNextGen ops mo useRepair popSize s = (.error e, t) := by
  cases hr : moeadNextGen ops mo useRepair popSize s with
  | mk r t =>
    cases r with
    | error e => exact ⟨e, t, rfl⟩
    | ok u =>
      exfalso
      unfold moeadNextGen at hr
      split at hr
      · simp at hr
      · rename_i u1 s1 hs1
        have := (moeadSteps_ok _ _ _ _ _ _ hs1).2.2.2.2.2.2.2.2 s.vec.neigh.length (List.mem_range.2 h)
        omega

/-- Everything a generation needs: one neighbourhood of at least two valid members per subproblem, the choice without
replacement returns positions in range, variation of two members of the population returns a row, and evaluation, when it returns,
returns a result of the right shape, with uncertainties always (`unc`) or never. -/
structure MoeadReady (ops : Ops X O F C U (MoeadVec m K) S Q R) (mo : MoeadOps m K X O F C U) (popSize nCons rows : Nat) (unc : Bool)
    (v : MoeadVec m K) : Prop where
  enough : popSize ≤ v.neigh.length
  two : ∀ nb ∈ v.neigh, 2 ≤ nb.length
  valid : ∀ nb ∈ v.neigh, ∀ k ∈ nb, k < v.planar.length ∧ k < rows
  picks : ∀ t n, 2 ≤ n → (mo.pick t n).1 < n ∧ (mo.pick t n).2 < n
  mates : ∀ (t : Nat) (p : Pop X O F C U) (inds : List X) (a b : Nat), p.individuals = some inds → a < inds.length → b < inds.length →
    ∃ x xs, mo.mate t p a b = .ok (x :: xs)
  evaluates : ∀ n sur b r, ops.evaluate n sur b = .ok r → EvalOK nCons b.rows.length r ∧ (r.uncertainity = none ↔ unc = false)

/-- A population of `N` records, in a consistent state. -/
structure Kept (nCons d N : Nat) (unc : Bool) (p : Pop X O F C U) : Prop where
  rep : ∃ rs, Represents p rs ∧ rs.length = N
  pos : 0 < N
  dim : p.ndim = d
  dpos : 0 < d
  cons : p.nCons = nCons
  unc : p.uncertainity = none ↔ unc = false

/-- A step of an object in a consistent state returns, or evaluation raised and nothing has changed but that time has passed. -/
theorem moeadStep_kept_or (ops : Ops X O F C U (MoeadVec m K) S Q R) (mo : MoeadOps m K X O F C U) (useRepair : Bool)
    (popSize nCons d N : Nat) (unc : Bool) (i : Nat) (s : EA X O F C U (MoeadVec m K) S Q)
    (hready : MoeadReady ops mo popSize nCons N unc s.vec) (hi : i < popSize) (hk : Kept nCons d N unc s.pop) :
    Kept nCons d N unc (moeadStep ops mo useRepair i s).2.pop ∧ (moeadStep ops mo useRepair i s).2.vec = s.vec ∧
    (moeadStep ops mo useRepair i s).2.cfg = s.cfg ∧
    ((s.cfg.saveND = true → ∃ T, s.nd = some (archOf T)) →
      (s.cfg.saveND = true → ∃ T, (moeadStep ops mo useRepair i s).2.nd = some (archOf T)) ∧
      ((moeadStep ops mo useRepair i s).1 = .ok () ∨ ∃ e x, ops.evaluate (s.clock + 2) s.cfg.useSurr ⟨s.pop.ndim - 1, [x]⟩ = .error e ∧
        moeadStep ops mo useRepair i s =
          (.error e, { s with clock := s.clock + 3, trueEvals := s.trueEvals + (if s.cfg.useSurr then 0 else 1) }))) := by
  obtain ⟨⟨rs, hrep, hlenN⟩, hpos, hdim, hdpos, hn, hunc⟩ := id hk
  have hne : rs ≠ [] := by intro e; rw [e] at hlenN; simp at hlenN; omega
  have hd : 0 < s.pop.ndim := by omega
  have hinds : s.pop.individuals = some (rs.map Rec.x) := by
    rcases hrep.inds with hh | ⟨-, hh⟩
    · exact hh
    · exact absurd hh hne
  have hind : s.pop.individuals ≠ none := by simp [hinds]
  have hil : i < s.vec.neigh.length := lt_of_lt_of_le hi hready.enough
  have hnb : s.vec.neigh[i]? = some s.vec.neigh[i] := by simp [hil]
  generalize s.vec.neigh[i] = nb at hnb
  have hmem : nb ∈ s.vec.neigh := List.mem_of_getElem? hnb
  have h2 := hready.two nb hmem
  obtain ⟨pk1, pk2⟩ := hready.picks s.clock nb.length h2
  obtain ⟨a, ha⟩ : ∃ a, nb[(mo.pick s.clock nb.length).1]? = some a := ⟨nb[(mo.pick s.clock nb.length).1], by simp [pk1]⟩
  obtain ⟨b, hb⟩ : ∃ b, nb[(mo.pick s.clock nb.length).2]? = some b := ⟨nb[(mo.pick s.clock nb.length).2], by simp [pk2]⟩
  have hch : chooseParents (mo.pick s.clock) s.vec.neigh i = .ok (a, b) := by
    unfold chooseParents
    simp only [hnb, ha, hb]
    rw [if_neg (by omega)]
  obtain ⟨x0, xs, hm⟩ := hready.mates (s.clock + 1) s.pop _ a b hinds
    (by have := (hready.valid nb hmem a (List.mem_of_getElem? ha)).2; simp; omega)
    (by have := (hready.valid nb hmem b (List.mem_of_getElem? hb)).2; simp; omega)
  unfold moeadStep
  simp only [hch, hm]
  generalize (if useRepair = true then mo.repair x0 else x0) = x
  rw [show s.clock + 1 + 1 = s.clock + 2 from rfl]
  cases hr : ops.evaluate (s.clock + 2) s.cfg.useSurr ⟨s.pop.ndim - 1, [x]⟩ with
  | error e =>
    have he : moeadEvaluate ops x { s with clock := s.clock + 2 } =
        (.error e, { s with clock := s.clock + 3, trueEvals := s.trueEvals + (if s.cfg.useSurr then 0 else 1) }) := by
      unfold moeadEvaluate EA.popAdd
      simp only [hr, Pop.add, evLog, List.append_nil]
      rfl
    rw [he]
    refine ⟨hk, rfl, rfl, fun hnd => ⟨hnd, .inr ⟨e, x, hr, rfl⟩⟩⟩
  | ok r =>
    obtain ⟨hok, hru⟩ := hready.evaluates _ _ _ _ hr
    have hok' : EvalOK s.pop.nCons 1 r := by rw [hn]; exact hok
    -- evaluation
    have hcond : s.pop.individuals = none ∨ r.uncertainity = none ∨ s.pop.uncertainity ≠ none := by
      cases hb : unc with
      | false => exact .inr (.inl (hru.2 hb))
      | true => exact .inr (.inr (fun h => by have := hunc.1 h; rw [hb] at this; cases this))
    have hadd1 := (add_spec (d := s.pop.ndim) hrep ⟨s.pop.ndim - 1, [x]⟩ r hok' (fun _ => rfl)
      (Or.inr ⟨by show s.pop.ndim - 1 + 1 = _; omega, rfl, hind⟩)).2.2.2.2 hcond
    obtain ⟨p, hp⟩ : ∃ p, s.pop.add ⟨s.pop.ndim - 1, [x]⟩ (.ok r) = (.ok r, p) := ⟨_, Prod.ext hadd1.1 rfl⟩
    have hpu : p.uncertainity = none ↔ unc = false := by
      have := hadd1.2
      rw [hp] at this
      exact this.trans hru
    obtain ⟨s2, hs2, e1, e2, e3, e4, e5⟩ : ∃ s2 : EA X O F C U (MoeadVec m K) S Q,
        moeadEvaluate ops x { s with clock := s.clock + 2 } = (.ok r, s2) ∧ s2.pop = p ∧ s2.vec = s.vec ∧
        s2.cfg = s.cfg ∧ s2.nd = s.nd ∧ s2.clock = s.clock + 3 := by
      unfold moeadEvaluate EA.popAdd
      simp only [hr, hp]
      cases s.cfg.useSurr <;> exact ⟨_, rfl, rfl, rfl, rfl, rfl, rfl⟩
    rw [hs2]
    simp only
    obtain ⟨a1, a2, a3, a4, a5⟩ := add_one hrep hind hd x r hok' hp
    obtain ⟨o, f, ho, hf, hrec⟩ := newRecs_one x r hok'
    rw [hrec] at a1
    generalize haa : (⟨x, o, f, r.constraints.bind List.head?, r.uncertainity.bind List.head?⟩ : Rec X O F C U) = w at *
    have hfit : p.fitness = rs.map Rec.f ++ [w.f] := by rw [a1.fits]; simp
    obtain ⟨sel, hsel⟩ := moeadSelect_total mo (mo.ideal (s.clock + 3)) s.vec (rs.map Rec.f) w.f i nb hnb
      (fun k hk => ⟨(hready.valid nb hmem k hk).1, by have := (hready.valid nb hmem k hk).2; simp; omega⟩)
    have hselm := mem_moeadSelect _ _ _ _ _ _ _ hsel
    obtain ⟨nb', hnb', -, hmm⟩ := hselm
    rw [hnb] at hnb'
    cases hnb'
    have hselk : ∀ k ∈ sel, k < rs.length + 1 := fun k hk => by
      have := (hready.valid nb hmem k ((hmm k).1 hk).1).2
      omega
    have hlen : (rs ++ [w]).length = rs.length + 1 := by simp
    have hrp := replace_ok (p := p) a1 a4 (sel.map (fun (k : Nat) => (k : Int))) x o f (r.constraints.bind List.head?)
        (r.uncertainity.bind List.head?) (by rw [hlen]; exact inRange_nat _ _ hselk)
        (by
          intro hc
          rw [a2] at hc
          obtain ⟨cs, e1, e2⟩ := hok'.cons hc
          obtain ⟨c, rfl⟩ := List.length_eq_one_iff.1 e2
          simp [e1])
        (by
          intro hu
          cases hru : r.uncertainity with
          | none => exact absurd hru (a5 hu)
          | some us =>
            obtain ⟨u, rfl⟩ := List.length_eq_one_iff.1 (hok'.unc us hru)
            simp)
    have hrepl : replaceWith p sel x r = p.replace (sel.map (fun (k : Nat) => (k : Int))) x o f
        (r.constraints.bind List.head?) (r.uncertainity.bind List.head?) := by
      unfold replaceWith
      simp only [ho, hf]
    have hq : replaceWith p sel x r = (.ok (), (p.replace (sel.map (fun (k : Nat) => (k : Int))) x o f
        (r.constraints.bind List.head?) (r.uncertainity.bind List.head?)).2) := by
      rw [hrepl]; exact Prod.ext hrp.1 rfl
    have hdl := delete_ok hrp.2.1 hrp.2.2.2.2.1 [-1] (by
        rw [_root_.Verif.rowsSet_length, hlen]
        simp [_root_.Spec.inRange])
    obtain ⟨q', hq'⟩ : ∃ q', (p.replace (sel.map (fun (k : Nat) => (k : Int))) x o f
        (r.constraints.bind List.head?) (r.uncertainity.bind List.head?)).2.delete [-1] = (.ok (), q') :=
      ⟨_, Prod.ext hdl.1 rfl⟩
    have hkq : Kept nCons d N unc q' := by
      rw [hq'] at hdl
      obtain ⟨-, -, r3, r4, -, r6⟩ := hrp
      obtain ⟨-, d2, d3, d4, -, d6⟩ := hdl
      refine ⟨⟨_, d2, ?_⟩, hpos, by rw [d4, r4, a3, hdim], hdpos, by rw [d3, r3, a2, hn], d6.trans (r6.trans hpu)⟩
      rw [_root_.Verif.rowsSet_length, hlen, rowsSet_append, rowsAt_append_last _ _ _
        (by
          intro k hk
          rw [_root_.Verif.rowsSet_length] at hk
          rw [names_last _ _ (by omega)]
          simp; omega)
        (by rw [_root_.Verif.rowsSet_length, names_last _ _ (by omega)]; simp), _root_.Verif.rowsSet_length]
      exact hlenN
    unfold moeadFinish
    rw [e1, e2, e5, hfit, hsel]
    simp only [hq, hq']
    unfold EA.updateND
    cases hsv : s2.cfg.saveND with
    | false => exact ⟨hkq, rfl, e3, fun _ => ⟨fun h => (by rw [← e3, hsv] at h; cases h), .inl rfl⟩⟩
    | true =>
      simp only [if_true]
      cases hau : archiveUpdate ops.dom s2.nd [x] r.objectives r.fitness with
      | ok nd =>
        refine ⟨hkq, rfl, e3, fun hnd => ⟨fun h => ?_, .inl rfl⟩⟩
        obtain ⟨T, hT⟩ := hnd h
        have hb1 : r.objectives = [(x, o, f)].map (fun t => t.2.1) := by simp [ho]
        have hb2 : r.fitness = [(x, o, f)].map (fun t => t.2.2) := by simp [hf]
        have := archiveUpdate_eq (dom := ops.dom) T [(x, o, f)]
        rw [e4, hT, hb1, hb2, show [x] = [(x, o, f)].map (fun t => t.1) from rfl, this] at hau
        injection hau with hau
        exact ⟨_, by rw [← hau]⟩
      | error e =>
        refine ⟨hkq, rfl, e3, fun hnd => ?_⟩
        obtain ⟨T, hT⟩ := hnd (by rw [← e3]; exact hsv)
        have hb1 : r.objectives = [(x, o, f)].map (fun t => t.2.1) := by simp [ho]
        have hb2 : r.fitness = [(x, o, f)].map (fun t => t.2.2) := by simp [hf]
        have := archiveUpdate_eq (dom := ops.dom) T [(x, o, f)]
        rw [e4, hT, hb1, hb2, show [x] = [(x, o, f)].map (fun t => t.1) from rfl, this] at hau
        cases hau

theorem moeadStep_kept (ops : Ops X O F C U (MoeadVec m K) S Q R) (mo : MoeadOps m K X O F C U) (useRepair : Bool)
    (popSize nCons d N : Nat) (unc : Bool) (i : Nat) (s : EA X O F C U (MoeadVec m K) S Q)
    (hready : MoeadReady ops mo popSize nCons N unc s.vec) (hi : i < popSize) (hk : Kept nCons d N unc s.pop) :
    Kept nCons d N unc (moeadStep ops mo useRepair i s).2.pop ∧ (moeadStep ops mo useRepair i s).2.vec = s.vec ∧
    (moeadStep ops mo useRepair i s).2.cfg = s.cfg ∧
    ((s.cfg.saveND = true → ∃ T, s.nd = some (archOf T)) →
      (s.cfg.saveND = true → ∃ T, (moeadStep ops mo useRepair i s).2.nd = some (archOf T)) ∧
      ((∀ n sur b, ∃ r, ops.evaluate n sur b = .ok r) → (moeadStep ops mo useRepair i s).1 = .ok ())) := by
  obtain ⟨a1, a2, a3, a4⟩ := moeadStep_kept_or ops mo useRepair popSize nCons d N unc i s hready hi hk
  refine ⟨a1, a2, a3, fun hnd => ⟨(a4 hnd).1, fun hall => ?_⟩⟩
  rcases (a4 hnd).2 with h | ⟨e, x, h, -⟩
  · exact h
  · obtain ⟨r, hr⟩ := hall (s.clock + 2) s.cfg.useSurr ⟨s.pop.ndim - 1, [x]⟩
    rw [h] at hr
    cases hr

theorem moeadSteps_kept (ops : Ops X O F C U (MoeadVec m K) S Q R) (mo : MoeadOps m K X O F C U) (useRepair : Bool)
    (popSize nCons d N : Nat) (unc : Bool) (is : List Nat) : ∀ s : EA X O F C U (MoeadVec m K) S Q,
    MoeadReady ops mo popSize nCons N unc s.vec → (∀ i ∈ is, i < popSize) → Kept nCons d N unc s.pop →
    Kept nCons d N unc (moeadSteps ops mo useRepair is s).2.pop ∧ (moeadSteps ops mo useRepair is s).2.vec = s.vec ∧
    (moeadSteps ops mo useRepair is s).2.cfg = s.cfg ∧
    ((s.cfg.saveND = true → ∃ T, s.nd = some (archOf T)) →
      (s.cfg.saveND = true → ∃ T, (moeadSteps ops mo useRepair is s).2.nd = some (archOf T)) ∧
      ((∀ n sur b, ∃ r, ops.evaluate n sur b = .ok r) → (moeadSteps ops mo useRepair is s).1 = .ok ())) := by
  induction is with
  | nil => exact fun s _ _ hk => ⟨hk, rfl, rfl, fun h => ⟨h, fun _ => rfl⟩⟩
  | cons i is ih =>
    intro s h1 h2 hk
    obtain ⟨a1, a2, a3, a4⟩ := moeadStep_kept ops mo useRepair popSize nCons d N unc i s h1 (h2 i List.mem_cons_self) hk
    unfold moeadSteps
    generalize moeadStep ops mo useRepair i s = r at a1 a2 a3 a4
    obtain ⟨r, t⟩ := r
    dsimp only at a1 a2 a3 a4
    cases r with
    | error e => exact ⟨a1, a2, a3, fun hnd => ⟨(a4 hnd).1, fun hall => by have := (a4 hnd).2 hall; cases this⟩⟩
    | ok _ =>
      dsimp only
      obtain ⟨b1, b2, b3, b4⟩ := ih t (by rw [a2]; exact h1) (fun j hj => h2 j (List.mem_cons_of_mem _ hj)) a1
      refine ⟨b1, b2.trans a2, b3.trans a3, fun hnd => ?_⟩
      have := b4 (by rw [a3]; exact (a4 hnd).1)
      rw [a3] at this
      exact this

/-- C37. With a neighbourhood for every individual the generation does not raise as long as evaluation does not; and whatever
evaluation raises, the number of individuals stays the same. -/
theorem c37_generation_succeeds (ops : Ops X O F C U (MoeadVec m K) S Q R) (mo : MoeadOps m K X O F C U)
    (useRepair : Bool) (popSize nCons d N : Nat) (unc : Bool) (s : EA X O F C U (MoeadVec m K) S Q)
    (hready : MoeadReady ops mo popSize nCons N unc s.vec) (hk : Kept nCons d N unc s.pop) :
    Kept nCons d N unc (moeadNextGen ops mo useRepair popSize s).2.pop ∧
    (moeadNextGen ops mo useRepair popSize s).2.vec = s.vec ∧ (moeadNextGen ops mo useRepair popSize s).2.cfg = s.cfg ∧
    ((s.cfg.saveND = true → ∃ T, s.nd = some (archOf T)) →
      (s.cfg.saveND = true → ∃ T, (moeadNextGen ops mo useRepair popSize s).2.nd = some (archOf T)) ∧
      ((∀ n sur b, ∃ r, ops.evaluate n sur b = .ok r) → (moeadNextGen ops mo useRepair popSize s).1 = .ok ())) := by
  obtain ⟨b1, b2, b3, b4⟩ := moeadSteps_kept ops mo useRepair popSize nCons d N unc (List.range popSize) s hready
    (fun i hi => List.mem_range.1 hi) hk
  unfold moeadNextGen
  generalize moeadSteps ops mo useRepair (List.range popSize) s = r at b1 b2 b3 b4
  obtain ⟨r, t⟩ := r
  cases r with
  | error e => exact ⟨b1, b2, b3, fun hnd => ⟨(b4 hnd).1, fun hall => by have := (b4 hnd).2 hall; cases this⟩⟩
  | ok _ => exact ⟨b1, b2, b3, b4⟩

end

/-! ## C39 -/

/-- C39. Right after construction, and right after every adaptation whatever happened before, the neighbourhood of each
reference vector is a set of nearest vectors. -/
theorem neighborhoods_spec (argsort : List ℝ → List Nat) (hs : ∀ l, IsArgsort l (argsort l)) (n : Nat)
    (planar : List (Vec m)) : (neighborhoods argsort n planar).length = planar.length ∧
    ∀ (i : Nat) (v : Vec m), planar[i]? = some v →
      ∃ nb, (neighborhoods argsort n planar)[i]? = some nb ∧ IsNeighbourhood n planar v nb := by
  refine ⟨by simp [neighborhoods], ?_⟩
  intro i v hv
  refine ⟨_, by simp [neighborhoods, hv]; rfl, ?_⟩
  generalize hd : planar.map (fun w => norm2 (fun i => v i - w i)) = d
  have hl : d.length = planar.length := by rw [← hd]; simp
  have hsd := hs d
  have hnodup : (argsort d).Nodup := hsd.perm.nodup_iff.2 List.nodup_range
  have hlen : (argsort d).length = planar.length := by rw [hsd.perm.length_eq, List.length_range, hl]
  refine ⟨hnodup.sublist (List.take_sublist _ _), by rw [List.length_take, hlen], ?_, ?_⟩
  · intro k hk
    have := hsd.perm.mem_iff.1 (List.mem_of_mem_take hk)
    rw [List.mem_range, hl] at this
    exact this
  · intro j k w u hj hk hw hu
    obtain ⟨a, ha⟩ := List.mem_iff_getElem?.1 hj
    have hkl : k < d.length := by rw [hl]; exact (List.getElem?_eq_some_iff.1 hu).1
    have hk' : k ∈ argsort d := hsd.perm.mem_iff.2 (List.mem_range.2 hkl)
    obtain ⟨b, hb⟩ := List.mem_iff_getElem?.1 hk'
    rw [List.getElem?_take] at ha
    split at ha
    · rename_i han
      have hab : a < b := by
        by_contra hba
        apply hk
        apply List.mem_iff_getElem?.2
        exact ⟨b, by rw [List.getElem?_take, if_pos (by omega)]; exact hb⟩
      have := hsd.sorted a b j k (norm2 (fun i => v i - w i)) (norm2 (fun i => v i - u i)) hab ha hb
        (by rw [← hd, List.getElem?_map, hw]; rfl) (by rw [← hd, List.getElem?_map, hu]; rfl)
      rw [norm2_eq_len, norm2_eq_len] at this
      exact this
    · simp at ha

/-- C39. At construction every reference vector gets a neighbourhood of nearest vectors. -/
theorem c39_initial_neighbourhoods_nearest (argsort : List ℝ → List Nat) (hs : ∀ l, IsArgsort l (argsort l)) (n : Nat)
    (rv : RV m) (i : Nat) (v : Vec m) (hv : rv.planar[i]? = some v) :
    (moeadInit argsort n rv).neigh.length = rv.planar.length ∧
    ∃ nb, (moeadInit argsort n rv).neigh[i]? = some nb ∧ IsNeighbourhood n rv.planar v nb :=
  ⟨(neighborhoods_spec argsort hs n rv.planar).1, (neighborhoods_spec argsort hs n rv.planar).2 i v hv⟩

/-- C39. An adaptation, in whatever state, gives every vector a neighbourhood of nearest vectors. -/
theorem c39_adapt_recomputes_neighbourhoods (argsort : List ℝ → List Nat) (hs : ∀ l, IsArgsort l (argsort l)) (n : Nat)
    (s t : MoeadRV m) (fitness : List (Vec m)) (h : moeadVecCall argsort n s (.adapt fitness) = .ok t)
    (i : Nat) (v : Vec m) (hv : t.rv.planar[i]? = some v) :
    t.neigh.length = t.rv.planar.length ∧ ∃ nb, t.neigh[i]? = some nb ∧ IsNeighbourhood n t.rv.planar v nb := by
  unfold moeadVecCall at h
  split at h
  · simp at h
  · rename_i rv hrv
    simp only [Except.ok.injEq] at h
    subst h
    exact ⟨(neighborhoods_spec argsort hs n rv.planar).1, (neighborhoods_spec argsort hs n rv.planar).2 i v hv⟩

/-- C39 for the non-interactive EA: after any history of adaptations the neighbourhoods are those of the current
vectors. -/
theorem c39_neighbourhoods_nearest_without_interaction (argsort : List ℝ → List Nat)
    (hs : ∀ l, IsArgsort l (argsort l)) (n : Nat) (rv : RV m) (fs : List (List (Vec m))) (i : Nat) (v : Vec m)
    (hv : (moeadVecRun argsort n (moeadInit argsort n rv) (fs.map VecCall.adapt)).rv.planar[i]? = some v) :
    ∃ nb, (moeadVecRun argsort n (moeadInit argsort n rv) (fs.map VecCall.adapt)).neigh[i]? = some nb ∧
      IsNeighbourhood n (moeadVecRun argsort n (moeadInit argsort n rv) (fs.map VecCall.adapt)).rv.planar v nb := by
  have key : ∀ (fs : List (List (Vec m))) (s : MoeadRV m), s.neigh = neighborhoods argsort n s.rv.planar →
      (moeadVecRun argsort n s (fs.map VecCall.adapt)).neigh =
        neighborhoods argsort n (moeadVecRun argsort n s (fs.map VecCall.adapt)).rv.planar := by
    intro fs
    induction fs with
    | nil => intro s hs; exact hs
    | cons f fs ih =>
      intro s hs
      simp only [List.map_cons, moeadVecRun]
      split
      · rename_i t ht
        apply ih
        unfold moeadVecCall at ht
        split at ht
        · simp at ht
        · simp only [Except.ok.injEq] at ht
          subst ht; rfl
      · exact ih s hs
  rw [key fs (moeadInit argsort n rv) rfl]
  exact (neighborhoods_spec argsort hs n _).2 i v hv

/-- C39. With distinct vectors and `n_neighbors ≥ 1` a subproblem is in its own neighbourhood. -/
theorem c39_neighbourhood_contains_itself (n : Nat) (vectors : List (Vec m)) (i : Nat) (v : Vec m) (nb : List Nat)
    (hn : 0 < n) (hd : vectors.Nodup) (hv : vectors[i]? = some v) (h : IsNeighbourhood n vectors v nb) : i ∈ nb := by
  by_contra hi
  have hil := (List.getElem?_eq_some_iff.1 hv).1
  have hpos : 0 < nb.length := by rw [h.size]; omega
  have hj : nb[0] ∈ nb := List.getElem_mem hpos
  generalize nb[0] = j at hj
  have hjl := h.valid j hj
  have hne : j ≠ i := fun e => hi (e ▸ hj)
  have hw : vectors[j]? = some vectors[j] := by simp [hjl]
  have hle := h.nearest j i _ v hj hi hw hv
  have h0 : dist2 v v = 0 := by simp [dist2, len]
  rw [h0] at hle
  have hz : norm2 (fun k => v k - vectors[j] k) = 0 := by
    apply le_antisymm
    · rw [norm2_eq_len]; exact hle
    · exact Real.sqrt_nonneg _
  rw [norm2_eq_zero] at hz
  have : vectors[j] = v := by
    funext k
    have := congrFun hz k
    simp at this
    linarith
  have e : vectors[j] = vectors[i] := by
    rw [this]
    exact ((List.getElem?_eq_some_iff.1 hv).2).symm
  exact hne ((List.Nodup.getElem_inj_iff hd).1 e)

/-- C39. The parents are two different members of the neighbourhood. -/
theorem c39_parents_distinct_neighbours (pick : Nat → Nat × Nat)
    (hp : ∀ k, 2 ≤ k → (pick k).1 < k ∧ (pick k).2 < k ∧ (pick k).1 ≠ (pick k).2) (n : Nat) (vectors : List (Vec m))
    (neigh : List (List Nat)) (i : Nat) (v : Vec m) (nb : List Nat) (hnb : neigh[i]? = some nb)
    (h : IsNeighbourhood n vectors v nb) :
    (2 ≤ n ∧ 2 ≤ vectors.length → ∃ a b, chooseParents pick neigh i = .ok (a, b) ∧ a ∈ nb ∧ b ∈ nb ∧ a ≠ b) ∧
    (n < 2 ∨ vectors.length < 2 → chooseParents pick neigh i = .error .valueError) := by
  have hsz := h.size
  constructor
  · rintro ⟨h1, h2⟩
    obtain ⟨p1, p2, p3⟩ := hp nb.length (by omega)
    refine ⟨nb[(pick nb.length).1], nb[(pick nb.length).2], ?_, List.getElem_mem _, List.getElem_mem _, ?_⟩
    · unfold chooseParents
      rw [hnb]
      simp only [List.getElem?_eq_getElem p1, List.getElem?_eq_getElem p2]
      rw [if_neg (by omega)]
    · intro e
      exact p3 ((List.Nodup.getElem_inj_iff h.distinct).1 e)
  · intro h1
    unfold chooseParents
    rw [hnb]
    simp only
    rw [if_pos (by omega)]

/-- C39, where the code falls short: an accepted preference changes the vectors but never the neighbourhoods. -/
theorem c39_preference_leaves_neighbourhoods_stale (argsort : List ℝ → List Nat) (n : Nat) (s t : MoeadRV m)
    (c : VecCall m) (hc : ∀ f, c ≠ .adapt f) (h : moeadVecCall argsort n s c = .ok t) : t.neigh = s.neigh := by
  unfold moeadVecCall at h
  split at h
  · simp at h
  · split at h
    · exact absurd rfl (hc _)
    · simp only [Except.ok.injEq] at h
      subst h; rfl

/-- C39, the consequence: after an accepted reference point the `m` edge vectors appended to the set have no
neighbourhood and are in none, so the claim fails for the new set of vectors. -/
theorem c39_reference_point_breaks_neighbourhoods (argsort : List ℝ → List Nat) (hs : ∀ l, IsArgsort l (argsort l))
    (n : Nat) (rv : RV m) (hrv : rv.initP.length = rv.planar.length) (hm : 0 < m) (d : Vec m) (t : MoeadRV m)
    (h : moeadVecCall argsort n (moeadInit argsort n rv) (.refPoint d) = .ok t) :
    t.rv.planar.length = rv.planar.length + m ∧ t.neigh.length = rv.planar.length ∧
    ∀ k, rv.planar.length ≤ k → t.neigh[k]? = none ∧ ∀ nb ∈ t.neigh, k ∉ nb := by
  have hn := c39_preference_leaves_neighbourhoods_stale argsort n _ t _ (fun f => by simp) h
  have hpl : t.rv.planar.length = rv.planar.length + m := by
    unfold moeadVecCall at h
    split at h
    · simp at h
    · rename_i rv' hrv'
      simp only [Except.ok.injEq] at h
      subst h
      simp only [RV.call, Except.ok.injEq, moeadInit] at hrv'
      subst hrv'
      simp [RV.addEdges, RV.normalize, RV.adapt3, axes, hrv]
  have hl := (neighborhoods_spec argsort hs n rv.planar).1
  refine ⟨hpl, by rw [hn]; exact hl, ?_⟩
  intro k hk
  rw [hn]
  refine ⟨?_, ?_⟩
  · rw [List.getElem?_eq_none_iff]
    show (neighborhoods argsort n rv.planar).length ≤ k
    rw [hl]; exact hk
  · intro nb hnb hkn
    obtain ⟨i, hi⟩ := List.mem_iff_getElem?.1 hnb
    have hil : i < rv.planar.length := by
      have := (List.getElem?_eq_some_iff.1 hi).1
      have e : (moeadInit argsort n rv).neigh.length = rv.planar.length := hl
      omega
    obtain ⟨nb', e1, e2⟩ := (neighborhoods_spec argsort hs n rv.planar).2 i rv.planar[i] (by simp [hil])
    have e3 : (moeadInit argsort n rv).neigh[i]? = some nb' := e1
    rw [e3] at hi
    cases hi
    have := e2.valid k hkn
    omega

/-! ## Non-vacuity -/

/-- A small MOEA/D: fitness is the individual itself, value = fitness times weight; the offspring of `a`, `b` is one
less than the individual at `a`. -/
def demoMoead : MoeadOps 1 Nat Nat Nat Nat Nat Nat where
  pick _ _ := (0, 1)
  mate _ p a _ := .ok [((p.individuals.getD []).getD a 0) - 1, 77]
  repair x := min x 100
  sf f w _ := some (f * w 0)
  ideal _ := 0
  tiny := 1

/-- The surrounding components. -/
def demoMoeadOps : Ops Nat Nat Nat Nat Nat (MoeadVec 1 Nat) Nat Nat Nat where
  adapt v _ := v
  respond _ _ v _ _ := (.ok (), v)
  mate _ p := .ok ⟨2, p.individuals.getD []⟩
  evaluate _ _ b := .ok ⟨b.rows, b.rows, none, none⟩
  select _ v t _ := (.ok [], v, t)
  newId n := n
  probManage q _ _ := (.ok (), q)
  probReeval q o := (o, q)
  dom a b := decide (a < b)
  nonDom l := l.map (fun x => l.all (fun y => !decide (y < x)))

/-- Three vectors with neighbourhoods of two. -/
def demoVec : MoeadVec 1 Nat := ⟨[fun _ => 0, fun _ => 2, fun _ => 3], [[0, 1], [1, 0], [2, 1]]⟩

/-- A demo MOEA/D state. -/
def demoMoeadState : EA Nat Nat Nat Nat Nat (MoeadVec 1 Nat) Nat Nat where
  cfg := ⟨false, none, 2, 3, 0, false, false, true⟩
  clock := 0
  pop := ⟨0, 2, some [50, 60, 40], [50, 60, 40], [50, 60, 40], none, none⟩
  vec := demoVec
  sel := 0
  prob := 0
  iter := 0
  gen := 0
  genIter := 0
  fe := 3
  reqId := none
  itype := none
  typeSet := false
  allowRead := false
  archive := []
  nd := some ⟨[40], [40], [40]⟩
  trueEvals := 3
  log := []

/-- The hypotheses of C37 hold of it. -/
example : MoeadReady demoMoeadOps demoMoead 3 0 3 false demoVec where
  enough := by decide
  two := by decide
  valid := by decide
  picks := by intro t n h; simp [demoMoead]; omega
  mates := fun _ _ _ _ _ _ _ _ => ⟨_, _, rfl⟩
  evaluates := fun n sur b r h => by
    injection h with h
    subst h
    exact ⟨⟨rfl, rfl, fun _ => rfl, fun h => absurd rfl h, fun us h => by cases h⟩, by simp⟩

example : Kept 0 2 3 false demoMoeadState.pop :=
  ⟨⟨[⟨50, 50, 50, none, none⟩, ⟨60, 60, 60, none, none⟩, ⟨40, 40, 40, none, none⟩],
    ⟨Or.inl rfl, rfl, rfl, fun _ h => absurd rfl h, fun _ => rfl, fun us h => by cases h⟩, rfl⟩, by decide, rfl, by decide, rfl, by simp [demoMoeadState]⟩

example : Represents demoMoeadState.pop [⟨50, 50, 50, none, none⟩, ⟨60, 60, 60, none, none⟩, ⟨40, 40, 40, none, none⟩] :=
  ⟨Or.inl rfl, rfl, rfl, fun _ h => absurd rfl h, fun _ => rfl, fun us h => by cases h⟩

/-- One generation: both neighbours of 0 take the offspring 49 of 50; then 48 enters for 1 and 0; then 39 for 2 and 1;
three evaluations, the archive follows. -/
example :
    let t := (moeadNextGen demoMoeadOps demoMoead true 3 demoMoeadState).2
    (t.pop.individuals, t.pop.fitness, t.fe, t.trueEvals, t.gen, t.nd.map (fun a => a.fitness)) =
      (some [48, 39, 39], [48, 39, 39], 6, 6, 1, some [39]) := by decide +kernel

/-- Four individuals, three vectors: IndexError in the fourth step, after three evaluations. -/
example : ((moeadNextGen demoMoeadOps demoMoead true 4 demoMoeadState).1,
    (moeadNextGen demoMoeadOps demoMoead true 4 demoMoeadState).2.fe) = (.error .indexError, 6) := by decide +kernel

/-- An `argsort` with the required property exists (so the hypothesis of the C39 theorems can be met). -/
theorem exists_argsort : ∃ argsort : List ℝ → List Nat, ∀ l, IsArgsort l (argsort l) := by
  classical
  refine ⟨fun l => (List.range l.length).mergeSort (fun a b => decide (l.getD a 0 ≤ l.getD b 0)), ?_⟩
  intro l
  refine ⟨List.mergeSort_perm _ _, ?_⟩
  intro i j a b x y hij ha hb hx hy
  have hp := List.pairwise_mergeSort (le := fun a b => decide (l.getD a 0 ≤ l.getD b 0))
    (by intro a b c; simp only [decide_eq_true_eq]; exact le_trans)
    (by intro a b; simp only [Bool.or_eq_true, decide_eq_true_eq]; exact le_total _ _) (List.range l.length)
  rw [List.pairwise_iff_getElem] at hp
  obtain ⟨hi, ha'⟩ := List.getElem?_eq_some_iff.1 ha
  obtain ⟨hj, hb'⟩ := List.getElem?_eq_some_iff.1 hb
  have := hp i j hi hj hij
  rw [ha', hb'] at this
  simpa [List.getD, hx, hy] using this

end Verif.Props
