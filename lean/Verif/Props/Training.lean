import Verif.Model.Training
import Verif.Props.EvoNets
import Verif.Props.PPGA
import Verif.Spec.Training

/-!
# C85: whole trainings of EvoNN and EvoDN2
-/

open scoped BigOperators
open Classical

namespace Verif.Props
open Verif Verif.Spec
open _root_.Spec (Rec Represents EvalOK Gens names rowsSet rowsAt newRecs inRange)

section generic
variable {X O F C U : Type}

/-- The contract of a surrogate problem: objectives are the fitness, no constraints, no uncertainties. -/
structure SurrogateOps (d : Nat) (po : PPGAOps X O F C U) : Prop where
  mate : ∀ c p m b, po.mate c p m = .ok b → b.ndim = d
  evaluate : ∀ c b r, po.evaluate c b = .ok r → r.fitness.length = r.objectives.length ∧ r.constraints = none ∧ r.uncertainity = none

/-- The same algorithm with an evaluation that never fails. -/
noncomputable def patched [Inhabited O] [Inhabited F] (po : PPGAOps X O F C U) : PPGAOps X O F C U :=
  { po with
    evaluate := fun c b =>
      match po.evaluate c b with
      | .ok r =>
        if r.objectives.length = b.rows.length then .ok r
        else .ok ⟨List.replicate b.rows.length default, List.replicate b.rows.length default, none, none⟩
      | .error _ => .ok ⟨List.replicate b.rows.length default, List.replicate b.rows.length default, none, none⟩ }

theorem patched_contract [Inhabited O] [Inhabited F] (d : Nat) (po : PPGAOps X O F C U) (h : SurrogateOps d po) : PPGAContract d 0 (patched po) := by
  refine ⟨h.mate, ?_⟩
  intro c b
  cases he : po.evaluate c b with
  | error e =>
    refine ⟨⟨List.replicate b.rows.length default, List.replicate b.rows.length default, none, none⟩, ?_, ⟨by simp, by simp, fun _ => rfl, by simp, by simp⟩, rfl⟩
    simp only [patched, he]
  | ok r =>
    obtain ⟨h1, h2, h3⟩ := h.evaluate c b r he
    by_cases hl : r.objectives.length = b.rows.length
    · exact ⟨r, by simp only [patched, he, hl, if_true], ⟨hl, by omega, fun _ => h2, by simp, by simp [h3]⟩, h3⟩
    · refine ⟨⟨List.replicate b.rows.length default, List.replicate b.rows.length default, none, none⟩, ?_, ⟨by simp, by simp, fun _ => rfl, by simp, by simp⟩, rfl⟩
      simp only [patched, he, hl, if_false]

theorem delete_lengths (p p' : Pop X O F C U) (idx : List Int) (h : p.delete idx = (.ok (), p')) :
    ∃ inds, p.individuals = some inds ∧ p.objectives.length = inds.length := by
  unfold Pop.delete at h
  split at h
  · simp at h
  · rename_i inds hi
    refine ⟨inds, hi, ?_⟩
    split at h
    · simp at h
    · rename_i ks _
      dsimp only at h
      split at h
      · simp at h
      · unfold Pop.maskColumns at h
        dsimp only at h
        unfold boolIndex at h
        by_contra hne
        rw [if_neg (by rw [setMask_length, List.length_replicate]; exact fun e => hne e.symm)] at h
        simp at h

/-- A hunt or a killing that returns has found as many rows of objectives as individuals. -/
theorem hunt_lengths (po : PPGAOps X O F C U) (pc : PPGACfg) (s t : PPGA X O F C U) (h : ppgaHunt po pc s = (.ok (), t)) :
    ∃ inds, s.pop.individuals = some inds ∧ s.pop.objectives.length = inds.length := by
  unfold ppgaHunt at h
  split at h
  · simp at h
  · split at h
    · simp at h
    · dsimp only at h
      split at h
      · simp at h
      · rename_i p hp
        exact delete_lengths _ _ _ hp

theorem kill_lengths (po : PPGAOps X O F C U) (pc : PPGACfg) (s t : PPGA X O F C U) (h : ppgaKill po pc s = (.ok (), t)) :
    t = s ∨ ∃ inds, s.pop.individuals = some inds ∧ s.pop.objectives.length = inds.length := by
  unfold ppgaKill at h
  split at h
  · simp at h
  · split at h
    · right
      dsimp only at h
      split at h
      · simp at h
      · split at h
        · simp at h
        · rename_i p hp
          exact delete_lengths _ _ _ hp
    · left
      simpa using h.symm

/-- The placed offspring of an `add` that leaves lists of equal length were evaluated without failure, one row for each. -/
theorem add_patched [Inhabited O] [Inhabited F] (d : Nat) (po : PPGAOps X O F C U) (h : SurrogateOps d po) (pc : PPGACfg) (s a : PPGA X O F C U)
    (hlen : ∀ inds, s.pop.individuals = some inds → s.pop.objectives.length = inds.length)
    (hnd : s.pop.individuals ≠ none → s.pop.ndim = d) (hn : s.pop.nCons = 0) (off : Batch X) (hoff : off.ndim = d)
    (ha : ppgaAdd po pc s off = (.ok (), a)) (hl : ∃ inds, a.pop.individuals = some inds ∧ a.pop.objectives.length = inds.length) :
    ppgaAdd (patched po) pc s off = (.ok (), a) ∧
    ∃ (L : Lat) (placed : List Nat) (r : Results O F C U),
      s.sel.placeOffspring (po.placeY s.clock) (po.placeX s.clock) pc.attempts off.rows.length = .ok (L, placed) ∧
      po.evaluate (s.clock + 1) ⟨d, compress ((setMask (List.replicate off.rows.length true) placed false).map (fun b => !b)) off.rows⟩ = .ok r ∧
      r.objectives.length = (compress ((setMask (List.replicate off.rows.length true) placed false).map (fun b => !b)) off.rows).length := by
  subst hoff
  unfold ppgaAdd at ha ⊢
  change (match s.sel.placeOffspring (po.placeY s.clock) (po.placeX s.clock) pc.attempts off.rows.length with
    | .error e => _ | .ok (L, placed) => _) = _ ∧ _
  cases hp : s.sel.placeOffspring (po.placeY s.clock) (po.placeX s.clock) pc.attempts off.rows.length with
  | error e => rw [hp] at ha; simp at ha
  | ok q =>
    obtain ⟨L, placed⟩ := q
    rw [hp] at ha
    dsimp only at ha ⊢
    have key : ∃ r, po.evaluate (s.clock + 1) ⟨off.ndim, compress ((setMask (List.replicate off.rows.length true) placed false).map (fun b => !b)) off.rows⟩ = .ok r ∧
        r.objectives.length = (compress ((setMask (List.replicate off.rows.length true) placed false).map (fun b => !b)) off.rows).length := by
      generalize compress ((setMask (List.replicate off.rows.length true) placed false).map (fun b => !b)) off.rows = rows at ha ⊢
      cases he : po.evaluate (s.clock + 1) ⟨off.ndim, rows⟩ with
      | error e => rw [he] at ha; simp [Pop.add] at ha
      | ok r =>
        refine ⟨r, rfl, ?_⟩
        rw [he] at ha
        obtain ⟨h1, h2, h3⟩ := h.evaluate _ _ _ he
        obtain ⟨inds, e1, e2⟩ := hl
        have hpa : a.pop = (s.pop.add ⟨off.ndim, rows⟩ (.ok r)).2 := by
          generalize s.pop.add ⟨off.ndim, rows⟩ (.ok r) = w at ha
          obtain ⟨w1, w2⟩ := w
          cases w1 with
          | error e => simp at ha
          | ok v =>
            simp only [Prod.mk.injEq, true_and] at ha
            rw [← ha]
        rw [hpa] at e1 e2
        cases hi : s.pop.individuals with
        | none =>
          simp only [Pop.add, hi] at e1 e2
          simp only [Option.some.injEq] at e1
          rw [e2, ← e1]
        | some old =>
          have h5 := hlen old hi
          have h6 : s.pop.ndim = off.ndim := hnd (by simp [hi])
          simp only [Pop.add, hi, h6, hn, h3] at e1 e2
          simp at e1 e2
          subst e1
          simp at e2
          omega
    obtain ⟨r, r1, r2⟩ := key
    refine ⟨?_, L, placed, r, rfl, r1, r2⟩
    have : (patched po).evaluate (s.clock + 1) ⟨off.ndim, compress ((setMask (List.replicate off.rows.length true) placed false).map (fun b => !b)) off.rows⟩ = .ok r := by
      simp only [patched, r1, r2, if_true]
    rw [this]
    rw [r1] at ha
    exact ha

/-- One generation on the records: what a generation that returns has done. -/
structure GenStep (d : Nat) (pc : PPGACfg) (po : PPGAOps X O F C U) (s t : PPGA X O F C U) (rs rs' : List (Rec X O F C U)) : Prop where
  /-- the offspring come from mating existing individuals, and the survivors are old ones or offspring with their evaluation -/
  bred : ∃ (mating : List (Int × Int)) (off : Batch X) (placed : List Nat) (r : Results O F C U),
    po.mate (s.clock + 1) s.pop mating = .ok off ∧
    (∀ ab ∈ mating, ∃ a b : Nat, ab = ((a : Int), (b : Int)) ∧ a < rs.length ∧ b < rs.length) ∧
    po.evaluate (s.clock + 3) ⟨d, rowsAt (fun k => decide (k ∈ placed)) off.rows⟩ = .ok r ∧
    r.objectives.length = (rowsAt (fun k => decide (k ∈ placed)) off.rows).length ∧
    r.fitness.length = (rowsAt (fun k => decide (k ∈ placed)) off.rows).length ∧
    rs'.Sublist (rs ++ newRecs (rowsAt (fun k => decide (k ∈ placed)) off.rows) r) ∧
    (s.sel.movePrey (po.prey s.clock) pc.preyMaxMoves).1 = .ok mating ∧
    (∃ M, (s.sel.movePrey (po.prey s.clock) pc.preyMaxMoves).2.placeOffspring (po.placeY (s.clock + 2)) (po.placeX (s.clock + 2)) pc.attempts
      off.rows.length = .ok (M, placed)) ∧ (rowsAt (fun k => decide (k ∈ placed)) off.rows).length = placed.length
  repr : Represents t.pop rs'
  lat : Consistent t.sel pc.nPred rs'.length
  clock : t.clock = s.clock + 5
  cfg : t.cfg = s.cfg
  iter : t.iter = s.iter
  gen : t.gen = s.gen + 1
  genIter : t.genIter = s.genIter + 1
  synced : Synced pc.nPred d 0 t
  /-- in a generation without killing, hunting does not take the population below the target size -/
  floor : (s.gen + 1) % pc.killInterval ≠ 0 → min rs.length pc.targetPop ≤ rs'.length

theorem hunt_clock (po : PPGAOps X O F C U) (pc : PPGACfg) (s t : PPGA X O F C U) (h : ppgaHunt po pc s = (.ok (), t)) : t.clock = s.clock + 1 := by
  unfold ppgaHunt at h
  split at h
  · simp at h
  · split at h
    · simp at h
    · dsimp only at h
      split at h
      · simp at h
      · split at h
        · simp at h
        · simp only [Prod.mk.injEq, true_and] at h
          rw [← h]

theorem kill_clock (po : PPGAOps X O F C U) (pc : PPGACfg) (s t : PPGA X O F C U) (h : ppgaKill po pc s = (.ok (), t)) : t.clock = s.clock := by
  unfold ppgaKill at h
  split at h
  · simp at h
  · split at h
    · dsimp only at h
      split at h
      · simp at h
      · split at h
        · simp at h
        · simp only [Prod.mk.injEq, true_and] at h
          rw [← h]
    · simp only [Prod.mk.injEq, true_and] at h
      rw [← h]

theorem add_clock (po : PPGAOps X O F C U) (pc : PPGACfg) (s t : PPGA X O F C U) (off : Batch X) (h : ppgaAdd po pc s off = (.ok (), t)) :
    t.clock = s.clock + 2 := by
  unfold ppgaAdd at h
  split at h
  · simp at h
  · dsimp only at h
    split at h
    · simp at h
    · simp only [Prod.mk.injEq, true_and] at h
      rw [← h]

theorem rowsAt_sublist {α : Type} (g : Nat → Bool) (l : List α) : (rowsAt g l).Sublist l := by
  unfold rowsAt
  have := (List.filter_sublist (l := l.zipIdx) (p := fun p => g p.2)).map Prod.fst
  simpa using this

/-- What a generation that returns has done, whatever the evaluation may do. -/
theorem gen_step [Inhabited O] [Inhabited F] (po : PPGAOps X O F C U) (pc : PPGACfg) (d : Nat) (hc : SurrogateOps d po) (hr : 0 < pc.radius) (hn : 0 < pc.nPred)
    (s t : PPGA X O F C U) (rs : List (Rec X O F C U)) (h1 : Represents s.pop rs) (h2 : Consistent s.sel pc.nPred rs.length)
    (h : Synced pc.nPred d 0 s) (ht : ppgaNextGen po pc s = (.ok (), t)) : ∃ rs', GenStep d pc po s t rs rs' := by
  obtain ⟨-, hnd, hnc, hh, hw⟩ := h
  obtain ⟨p1, p2, p3, p4, -⟩ := c48_move_prey h2 (po.prey s.clock) pc.preyMaxMoves
  have hmates := fun m hm => (c49_mates h2 (po.prey s.clock) pc.preyMaxMoves m hm).2.1
  unfold ppgaNextGen at ht
  dsimp only at ht
  generalize hmv : s.sel.movePrey (po.prey s.clock) pc.preyMaxMoves = mv at *
  obtain ⟨mv1, mv2⟩ := mv
  dsimp only at p1 p2 p3 p4 hmates ht
  cases mv1 with
  | error e => simp at ht
  | ok mating =>
    dsimp only at ht
    cases hmate : po.mate (s.clock + 1) s.pop mating with
    | error e => rw [hmate] at ht; simp at ht
    | ok off =>
      rw [hmate] at ht
      dsimp only at ht
      have hoff := hc.mate _ _ _ _ hmate
      have hadd : ∃ a, ppgaAdd po pc { s with sel := mv2, clock := s.clock + 1 + 1 } off = (.ok (), a) ∧
          ∃ inds, a.pop.individuals = some inds ∧ a.pop.objectives.length = inds.length := by
        cases ha : ppgaAdd po pc { s with sel := mv2, clock := s.clock + 1 + 1 } off with
        | mk q1 q2 =>
          rw [ha] at ht
          cases q1 with
          | error e => simp at ht
          | ok v =>
            refine ⟨q2, rfl, ?_⟩
            dsimp only at ht
            cases hk : ppgaKill po pc q2 with
            | mk k1 k2 =>
              rw [hk] at ht
              cases k1 with
              | error e => simp at ht
              | ok v =>
                dsimp only at ht
                rcases kill_lengths po pc q2 k2 hk with e | e
                · rw [← e]
                  exact hunt_lengths po pc k2 t ht
                · exact e
      obtain ⟨a, ha1, ha2⟩ := hadd
      obtain ⟨ha3, L, pl, r0, hp1, hp2, hp3⟩ := add_patched d po hc pc { s with sel := mv2, clock := s.clock + 1 + 1 } a
        (fun inds hi => by rw [h1.objs, List.length_map]; exact (Represents_length h1 hi).symm ▸ rfl) hnd hnc off hoff ha1 ha2
      obtain ⟨b, placed, r, a1, bpl, b3, a4, a5, a6, a7, a8, a9, a10, a11, a12, a13, a14, a15, a16, a17, a18⟩ :=
        c48_add (patched po) pc d 0 (patched_contract d po hc) { s with sel := mv2, clock := s.clock + 1 + 1 } rs h1 p1 (show 0 < mv2.h by omega)
          (show 0 < mv2.w by omega) hnd hnc off hoff
      rw [ha3] at a1
      simp only [Prod.mk.injEq, true_and] at a1
      subst a1
      rw [ha1] at ht
      have clk := add_clock _ _ _ _ _ ha1
      change mv2.placeOffspring (po.placeY (s.clock + 1 + 1)) (po.placeX (s.clock + 1 + 1)) pc.attempts off.rows.length = _ at a18
      dsimp only at hp1 hp2
      rw [a18] at hp1
      simp only [Except.ok.injEq, Prod.mk.injEq] at hp1
      obtain ⟨-, hp1⟩ := hp1
      subst hp1
      rw [placed_mask off.rows.length placed b3 off.rows rfl] at hp2 hp3
      have hpe : (patched po).evaluate (s.clock + 1 + 1 + 1) ⟨d, rowsAt (fun k => decide (k ∈ placed)) off.rows⟩ = .ok r0 := by
        simp only [patched, hp2, hp3, if_true]
      dsimp only at a4 a10 a11 a12 a13 a14 a15 a16 a17 ht clk
      rw [hpe] at a4
      injection a4 with a4
      subst a4
      have hev := hc.evaluate _ _ _ hp2
      generalize hnew : rs ++ newRecs (rowsAt (fun k => decide (k ∈ placed)) off.rows) r0 = rs1 at a5 a6
      have hkill : ∃ (u : PPGA X O F C U) (rs2 : List (Rec X O F C U)), ppgaKill po pc a = (.ok (), u) ∧ rs2.Sublist rs1 ∧ (a.gen % pc.killInterval ≠ 0 → rs2 = rs1) ∧
          Represents u.pop rs2 ∧ Consistent u.sel pc.nPred rs2.length ∧ u.cfg = a.cfg ∧ u.iter = a.iter ∧ u.gen = a.gen ∧ u.genIter = a.genIter ∧
          u.pop.nCons = a.pop.nCons ∧ u.pop.ndim = a.pop.ndim ∧ u.sel.h = a.sel.h ∧ u.sel.w = a.sel.w := by
        by_cases hk0 : pc.killInterval = 0
        · simp [ppgaKill, hk0] at ht
        · obtain ⟨k1, k2⟩ := c56_kill po pc (by omega) a rs1 a5 a7 a6
          by_cases hg : a.gen % pc.killInterval = 0
          · obtain ⟨u, u1, u2, u3, u4, u5, u6, u7, u8, u9, u10, u11, u12, u13, u14, u15⟩ := k2 hg
            exact ⟨u, _, u1, rowsAt_sublist _ _, fun hg' => absurd hg hg', u2, u9, u10, u11, u12, u13, u3, u4, u6, u7⟩
          · exact ⟨a, rs1, k1 hg, .refl _, fun _ => rfl, a5, a6, rfl, rfl, rfl, rfl, rfl, rfl, rfl, rfl⟩
      obtain ⟨u, rs2, u1, usub, ueq, u2, u3, u8, u9, u10, u11, u12, u13, u14, u15⟩ := hkill
      rw [u1] at ht
      have clk2 := kill_clock _ _ _ _ u1
      dsimp only at ht
      by_cases hi : u.pop.individuals = none
      · rw [(c55_no_predators po pc u).1 hi] at ht
        simp at ht
      · obtain ⟨v, dead, v1, vd1, vd2, vd3, v5, v6, v7, v8, v9, v10, v11, v12, v13, v14, v15, v16, v17⟩ :=
          c48_hunt po pc hr hn u rs2 u2 hi u3
        have clk3 := hunt_clock _ _ _ _ ht
        rw [v1] at ht
        simp only [Prod.mk.injEq, true_and] at ht
        subst ht
        refine ⟨_, ⟨⟨mating, off, placed, r0, hmate, ?_, hp2, hp3, hev.1.trans hp3, ?_, ?_, ?_, ?_⟩, v5, v11, by omega, v12.trans (u8.trans a12), v13.trans (u9.trans a13), by omega, by omega,
          ⟨⟨_, v5, v11⟩, fun _ => v7.trans (u13.trans a8), v6.trans (u12.trans a9), by omega, by omega⟩, ?_⟩⟩
        · intro ab hab
          obtain ⟨x, y, p, q, e, b1, b2, -⟩ := hmates mating rfl ab hab
          exact ⟨x, y, e, b1, b2⟩
        · rw [hnew]
          exact (rowsAt_sublist _ _).trans usub
        · rw [hmv]
        · rw [hmv]
          exact ⟨_, a18⟩
        · exact rowsAt_keep_length _ _ (bpl.imp (fun h => Nat.ne_of_lt h)) b3
        · intro hg
          have hlen := rowsAt_drop_length rs2 dead vd1 vd2
          have h12 : rs.length ≤ rs2.length := by
            rw [ueq (by rw [a14]; exact hg), ← hnew, List.length_append]
            omega
          omega

/-- C85. A generation of a training with `target` as the size asked for, in which no killing is due (it is every seventh): whatever the predators do, the population
does not get smaller than it was, unless it was above the target size, and then not smaller than that. -/
theorem c85_generation_floor [Inhabited O] [Inhabited F] (target : Nat) (po : PPGAOps X O F C U) (d : Nat) (hc : SurrogateOps d po)
    (s t : PPGA X O F C U) (rs : List (Rec X O F C U)) (h1 : Represents s.pop rs) (h2 : Consistent s.sel 50 rs.length) (h : Synced 50 d 0 s)
    (hk : (s.gen + 1) % 7 ≠ 0) (ht : ppgaNextGen po (ppgaFor target) s = (.ok (), t)) :
    ∃ rs', Represents t.pop rs' ∧ min rs.length target ≤ rs'.length := by
  obtain ⟨rs', g⟩ := gen_step po (ppgaFor target) d hc (Nat.succ_pos _) (Nat.succ_pos _) s t rs h1 h2 h ht
  exact ⟨rs', g.repr, g.floor hk⟩

/-- The state of a training between two generations: rows aligned, clock in step, and the records satisfy `Inv`. -/
structure Training (d nPred : Nat) (Inv : List (Rec X O F C U) → Prop) (s : PPGA X O F C U) (rs : List (Rec X O F C U)) : Prop where
  repr : Represents s.pop rs
  lat : Consistent s.sel nPred rs.length
  synced : Synced nPred d 0 s
  clock : s.clock = 5 * s.gen
  total : s.cfg.total = 0
  inv : Inv rs

/-- `Inv` survives every generation. -/
def Preserved (d : Nat) (pc : PPGACfg) (po : PPGAOps X O F C U) (Inv : List (Rec X O F C U) → Prop) : Prop :=
  ∀ s t rs rs', Training d pc.nPred Inv s rs → GenStep d pc po s t rs rs' → Inv rs'

theorem train_loop [Inhabited O] [Inhabited F] (po : PPGAOps X O F C U) (pc : PPGACfg) (d : Nat) (hc : SurrogateOps d po) (hr : 0 < pc.radius)
    (hn : 0 < pc.nPred) (Inv : List (Rec X O F C U) → Prop) (hp : Preserved d pc po Inv) (fuel : Nat) :
    ∀ (s t : PPGA X O F C U) (rs : List (Rec X O F C U)), Training d pc.nPred Inv s rs → s.genIter + fuel = s.cfg.nGen →
      EA.loop (ppgaNextGen po pc) fuel s = (.ok (), t) →
      (∃ rs', Training d pc.nPred Inv t rs') ∧ t.cfg = s.cfg ∧ t.iter = s.iter ∧ t.gen = s.gen + fuel := by
  induction fuel with
  | zero =>
    intro s t rs h _ ht
    simp only [EA.loop, Prod.mk.injEq, true_and] at ht
    subst ht
    exact ⟨⟨rs, h⟩, rfl, rfl, rfl⟩
  | succ n ih =>
    intro s t rs h hf ht
    have hcont : s.continueIteration = true := by
      have : s.genIter < s.cfg.nGen := by omega
      simp [EA.continueIteration, EA.checkFE, h.total, this]
    simp only [EA.loop, hcont, if_true] at ht
    cases hq : ppgaNextGen po pc s with
    | mk q1 q2 =>
      rw [hq] at ht
      cases q1 with
      | error e => simp at ht
      | ok v =>
        dsimp only at ht
        obtain ⟨rs', g⟩ := gen_step po pc d hc hr hn s q2 rs h.repr h.lat h.synced hq
        have hg := g.gen
        have hgi := g.genIter
        have hcl := g.clock
        have hcl' := h.clock
        obtain ⟨b1, b2, b3, b4⟩ := ih q2 t rs' ⟨g.repr, g.lat, g.synced, by omega, by rw [g.cfg]; exact h.total, hp s q2 rs rs' h g⟩
          (by rw [g.cfg]; omega) ht
        exact ⟨b1, b2.trans g.cfg, b3.trans g.iter, by omega⟩

theorem train_iterate [Inhabited O] [Inhabited F] (po : PPGAOps X O F C U) (pc : PPGACfg) (d : Nat) (hc : SurrogateOps d po) (hr : 0 < pc.radius)
    (hn : 0 < pc.nPred) (Inv : List (Rec X O F C U) → Prop) (hp : Preserved d pc po Inv) (s t : PPGA X O F C U) (rs : List (Rec X O F C U))
    (h : Training d pc.nPred Inv s rs) (ht : ppgaIterate po pc s = (.ok (), t)) :
    (∃ rs', Training d pc.nPred Inv t rs') ∧ t.cfg = s.cfg ∧ t.iter = s.iter + 1 ∧ t.gen = s.gen + s.cfg.nGen := by
  unfold ppgaIterate at ht
  cases hq : EA.loop (ppgaNextGen po pc) s.cfg.nGen { s with genIter := 0 } with
  | mk q1 q2 =>
    rw [hq] at ht
    cases q1 with
    | error e => simp at ht
    | ok v =>
      dsimp only at ht
      simp only [Prod.mk.injEq, true_and] at ht
      subst ht
      obtain ⟨⟨rs', b1⟩, b2, b3, b4⟩ := train_loop po pc d hc hr hn Inv hp s.cfg.nGen { s with genIter := 0 } q2 rs
        ⟨h.repr, h.lat, ⟨h.synced.recs, h.synced.ndim, h.synced.ncons, h.synced.rows, h.synced.cols⟩, h.clock, h.total, h.inv⟩ (by simp) hq
      dsimp only at *
      exact ⟨⟨rs', b1.repr, b1.lat, ⟨b1.synced.recs, b1.synced.ndim, b1.synced.ncons, b1.synced.rows, b1.synced.cols⟩, b1.clock, b1.total, b1.inv⟩,
        b2, by omega, b4⟩

theorem train_drive [Inhabited O] [Inhabited F] (po : PPGAOps X O F C U) (pc : PPGACfg) (d : Nat) (hc : SurrogateOps d po) (hr : 0 < pc.radius)
    (hn : 0 < pc.nPred) (Inv : List (Rec X O F C U) → Prop) (hp : Preserved d pc po Inv) (fuel : Nat) :
    ∀ (s t : PPGA X O F C U) (rs : List (Rec X O F C U)), Training d pc.nPred Inv s rs → s.iter + fuel = s.cfg.nIter →
      ppgaDrive po pc fuel s = (.ok (), t) →
      (∃ rs', Training d pc.nPred Inv t rs') ∧ t.cfg = s.cfg ∧ t.iter = s.cfg.nIter ∧ t.gen = s.gen + fuel * s.cfg.nGen := by
  induction fuel with
  | zero =>
    intro s t rs h hf ht
    simp only [ppgaDrive, Prod.mk.injEq, true_and] at ht
    subst ht
    exact ⟨⟨rs, h⟩, rfl, by omega, by simp⟩
  | succ n ih =>
    intro s t rs h hf ht
    have hcont : s.continueEvolution = true := by
      have : s.iter < s.cfg.nIter := by omega
      simp [EA.continueEvolution, EA.checkFE, h.total, this]
    simp only [ppgaDrive, hcont, if_true] at ht
    cases hq : ppgaIterate po pc s with
    | mk q1 q2 =>
      rw [hq] at ht
      cases q1 with
      | error e => simp at ht
      | ok v =>
        dsimp only at ht
        obtain ⟨⟨rs', b1⟩, b2, b3, b4⟩ := train_iterate po pc d hc hr hn Inv hp s q2 rs h hq
        obtain ⟨c1, c2, c3, c4⟩ := ih q2 t rs' b1 (by rw [b2]; omega) ht
        refine ⟨c1, c2.trans b2, by rw [c3, b2], ?_⟩
        rw [c4, b2, b4]
        ring

/-- A training that returns has run 100 generations; whatever is true of the records at the start and survives every generation is true of
the final ones. -/
theorem evolveTo_spec [Inhabited O] [Inhabited F] (target : Nat) (po : PPGAOps X O F C U) (dPred dPrey : Nat → Nat) (p : Pop X O F C U) (hc : SurrogateOps p.ndim po)
    (Inv : List (Rec X O F C U) → Prop) (hp : Preserved p.ndim (ppgaFor target) po Inv) (rs : List (Rec X O F C U)) (h1 : Represents p rs) (hnc : p.nCons = 0)
    (hI : Inv rs) (t : PPGA X O F C U) (ht : evolveTo target po dPred dPrey p = .ok t) :
    (∃ rs', Training p.ndim 50 Inv t rs') ∧ t.iter = 10 ∧ t.gen = 100 := by
  unfold evolveTo at ht
  cases hs : ppgaConstruct (ppgaFor target) 10 10 dPred dPrey (some p) with
  | error e => rw [hs] at ht; simp at ht
  | ok s =>
    rw [hs] at ht
    dsimp only at ht
    have hne : p.individuals ≠ none := by
      intro e
      simp [ppgaConstruct, e] at hs
    have hfit : (ppgaFor target).nPred + rs.length ≤ 3600 := by
      by_contra hcon
      rw [(c48_construct_fails (ppgaFor target) 10 10 dPred dPrey).2 p rs h1 hne (by omega)] at hs
      cases hs
    obtain ⟨s', a1, a2, a3, a4, a5, a6, a7, a8, a9, a10⟩ := c48_construct (ppgaFor target) 10 10 dPred dPrey p rs h1 hne hfit
    rw [hs] at a1
    injection a1 with a1
    subst a1
    have hclk : s.clock = 0 := by
      unfold ppgaConstruct at hs
      split at hs
      · cases hs
      · split at hs
        · cases hs
        · split at hs
          · cases hs
          · injection hs with hs
            rw [← hs]
    obtain ⟨rs0, e1, e2⟩ := a2.recs
    have hlen : rs0.length = rs.length := by
      cases hi : p.individuals with
      | none => exact absurd hi hne
      | some inds =>
        rw [a3] at e1
        rw [← Represents_length e1 hi, ← Represents_length h1 hi]
    cases hd : ppgaDrive po (ppgaFor target) 10 s with
    | mk q1 q2 =>
      rw [hd] at ht
      cases q1 with
      | error e => simp at ht
      | ok v =>
        dsimp only at ht
        injection ht with ht
        subst ht
        rw [hnc] at a2
        obtain ⟨b1, b2, b3, b4⟩ := train_drive po (ppgaFor target) p.ndim hc (Nat.succ_pos _) (Nat.succ_pos _) Inv hp 10 s q2 rs
          ⟨by rw [a3]; exact h1, by rw [← hlen]; exact e2, a2, by omega, a10, hI⟩ (by omega) hd
        exact ⟨b1, by omega, by rw [b4, a8, a4]⟩

theorem evolve_spec [Inhabited O] [Inhabited F] (po : PPGAOps X O F C U) (dPred dPrey : Nat → Nat) (p : Pop X O F C U) (hc : SurrogateOps p.ndim po)
    (Inv : List (Rec X O F C U) → Prop) (hp : Preserved p.ndim ppgaDefaults po Inv) (rs : List (Rec X O F C U)) (h1 : Represents p rs) (hnc : p.nCons = 0)
    (hI : Inv rs) (t : PPGA X O F C U) (ht : evolve po dPred dPrey p = .ok t) :
    (∃ rs', Training p.ndim 50 Inv t rs') ∧ t.iter = 10 ∧ t.gen = 100 :=
  evolveTo_spec 100 po dPred dPrey p hc Inv hp rs h1 hnc hI t ht

/-- C85. Five steps of the clock per generation: when a generation of a training starts, the clock is five times the generation counter
(mating happens one step later, so it sees the counter as `clock / 5`). -/
theorem c85_clock [Inhabited O] [Inhabited F] (po : PPGAOps X O F C U) (pc : PPGACfg) (d : Nat) (hc : SurrogateOps d po) (hr : 0 < pc.radius)
    (hn : 0 < pc.nPred) (s t : PPGA X O F C U) (h : Synced pc.nPred d 0 s) (hs : s.clock = 5 * s.gen) (ht : ppgaNextGen po pc s = (.ok (), t)) :
    t.clock = 5 * t.gen ∧ t.gen = s.gen + 1 ∧ (s.clock + 1) / 5 = s.gen := by
  obtain ⟨rs, h1, h2⟩ := h.recs
  obtain ⟨rs', g⟩ := gen_step po pc d hc hr hn s t rs h1 h2 h ht
  have := g.clock
  have := g.gen
  omega

theorem newRecs_map (xs : List X) (g : X → O) (f : X → F) : newRecs xs (⟨xs.map g, xs.map f, none, none⟩ : Results O F C U) = xs.map (fun x => ⟨x, g x, f x, none, none⟩) := by
  unfold newRecs
  simp only [_root_.Spec.optCol]
  induction xs with
  | nil => rfl
  | cons x xs ih => simpa [List.replicate_succ] using ih

theorem Represents_map {p : Pop X O F C U} {rs : List (Rec X O F C U)} (h : Represents p rs) {inds : List X} (hi : p.individuals = some inds) :
    inds = rs.map Rec.x := by
  rcases h.inds with e | ⟨e, -⟩
  · rw [hi] at e
    injection e
  · rw [hi] at e; cases e

/-- Killing by rank spares somebody. -/
theorem select_spares (nds : List F → List (List Bool)) (fits : List F) (dom : Nat → Nat → Prop)
    (hs : IsFrontSort dom fits.length ((nds fits).map whereIdx)) (maxRank : Int) (h0 : 0 ≤ maxRank) (hne : fits ≠ []) :
    ∃ i : Nat, i < fits.length ∧ i ∉ ppgaSelect nds fits maxRank := by
  have hfirst : ∀ (k : Nat) (f : List Nat) (i : Nat), ((nds fits).map whereIdx)[k]? = some f → i ∈ f →
      ∃ (g : List Nat) (z : Nat), ((nds fits).map whereIdx)[0]? = some g ∧ z ∈ g := by
    intro k
    induction k with
    | zero => intro f i hf hi; exact ⟨f, i, hf, hi⟩
    | succ k ih =>
      intro f i hf hi
      have hk : k + 1 < ((nds fits).map whereIdx).length := (List.getElem?_eq_some_iff.1 hf).1
      obtain ⟨g, hg⟩ : ∃ g, ((nds fits).map whereIdx)[k]? = some g := ⟨_, List.getElem?_eq_getElem (by omega)⟩
      obtain ⟨z, hz, -⟩ := hs.witness k g f i hg hf hi
      exact ih g z hg hz
  have h0' : 0 ∈ ((nds fits).map whereIdx).flatten := hs.all.mem_iff.2 (List.mem_range.2 (List.length_pos_iff.2 hne))
  obtain ⟨f, hf, h0f⟩ := List.mem_flatten.1 h0'
  obtain ⟨k, hk⟩ := List.mem_iff_getElem?.1 hf
  obtain ⟨g, z, hg, hz⟩ := hfirst k f 0 hk h0f
  refine ⟨z, front_lt hs.all hg hz, ?_⟩
  intro hsel
  obtain ⟨k', f', hk', hz', hlt⟩ := ((c56_select nds fits dom hs maxRank).2 z).1 hsel
  have := front_unique hs.all z 0 k' g f' hg hk' hz hz'
  omega

/-- A generation of a training returns, with somebody left, or raises because no two prey are neighbours. -/
theorem gen_total [Inhabited O] [Inhabited F] (po : PPGAOps X O F C U) (pc : PPGACfg) (d : Nat) (hc : SurrogateOps d po) (hr : 0 < pc.radius) (hn : 0 < pc.nPred)
    (hk : 0 < pc.killInterval) (ht : 0 < pc.targetPop) (hm : 0 ≤ pc.maxRank)
    (hsort : ∀ fits : List F, ∃ dom, IsFrontSort dom fits.length ((po.nds fits).map whereIdx))
    (heval : ∀ cl rows, ∃ r, po.evaluate cl ⟨d, rows⟩ = .ok r ∧ r.objectives.length = rows.length)
    (s : PPGA X O F C U) (rs : List (Rec X O F C U)) (h1 : Represents s.pop rs) (h2 : Consistent s.sel pc.nPred rs.length)
    (h : Synced pc.nPred d 0 s) (hne : rs ≠ [])
    (hmate : ∀ mating : List (Int × Int), (∀ ab ∈ mating, ∃ a b : Nat, ab = ((a : Int), (b : Int)) ∧ a < rs.length ∧ b < rs.length) →
      ∃ off, po.mate (s.clock + 1) s.pop mating = .ok off) :
    (∃ t, ppgaNextGen po pc s = (.ok (), t) ∧ ∀ rs', Represents t.pop rs' → rs' ≠ []) ∨ (ppgaNextGen po pc s).1 = .error .eaError := by
  obtain ⟨-, hnd, hnc, hh, hw⟩ := h
  obtain ⟨p1, p2, p3, p4, p5⟩ := c48_move_prey h2 (po.prey s.clock) pc.preyMaxMoves
  have hmates := fun m hm => (c49_mates h2 (po.prey s.clock) pc.preyMaxMoves m hm).2.1
  unfold ppgaNextGen
  dsimp only
  generalize hmv : s.sel.movePrey (po.prey s.clock) pc.preyMaxMoves = mv at *
  obtain ⟨mv1, mv2⟩ := mv
  dsimp only at p1 p2 p3 p4 p5 hmates ⊢
  rcases p5 with e | ⟨mating, e, -⟩
  · right
    rw [e]
  · subst e
    left
    dsimp only
    obtain ⟨off, hmate⟩ := hmate mating (by
      intro ab hab
      obtain ⟨x, y, p, q, e, b1, b2, -⟩ := hmates mating rfl ab hab
      exact ⟨x, y, e, b1, b2⟩)
    rw [hmate]
    dsimp only
    have hoff := hc.mate _ _ _ _ hmate
    have hsame : ppgaAdd po pc { s with sel := mv2, clock := s.clock + 1 + 1 } off = ppgaAdd (patched po) pc { s with sel := mv2, clock := s.clock + 1 + 1 } off := by
      unfold ppgaAdd
      change _ = (match mv2.placeOffspring (po.placeY (s.clock + 1 + 1)) (po.placeX (s.clock + 1 + 1)) pc.attempts off.rows.length with
        | .error e => _ | .ok (L, placed) => _)
      cases mv2.placeOffspring (po.placeY (s.clock + 1 + 1)) (po.placeX (s.clock + 1 + 1)) pc.attempts off.rows.length with
      | error e => rfl
      | ok q =>
        obtain ⟨L, placed⟩ := q
        dsimp only
        generalize compress ((setMask (List.replicate off.rows.length true) placed false).map (fun b => !b)) off.rows = rows
        obtain ⟨r, r1, r2⟩ := heval (s.clock + 1 + 1 + 1) rows
        have : (patched po).evaluate (s.clock + 1 + 1 + 1) ⟨d, rows⟩ = .ok r := by simp only [patched, r1, r2, if_true]
        rw [hoff, this, r1]
    obtain ⟨a, placed, r, a1, -, b3, a4, a5, a6, a7, a8, a9, a10, a11, a12, a13, a14, a15, a16, a17, a18⟩ :=
      c48_add (patched po) pc d 0 (patched_contract d po hc) { s with sel := mv2, clock := s.clock + 1 + 1 } rs h1 p1 (show 0 < mv2.h by omega)
        (show 0 < mv2.w by omega) hnd hnc off hoff
    rw [hsame, a1]
    dsimp only
    generalize hnew : rs ++ newRecs (rowsAt (fun k => decide (k ∈ placed)) off.rows) r = rs1 at a5 a6
    have hne1 : rs1 ≠ [] := by rw [← hnew]; simp [hne]
    have hkill : ∃ (u : PPGA X O F C U) (rs2 : List (Rec X O F C U)), ppgaKill po pc a = (.ok (), u) ∧ rs2 ≠ [] ∧
        Represents u.pop rs2 ∧ Consistent u.sel pc.nPred rs2.length := by
      obtain ⟨k1, k2⟩ := c56_kill po pc hk a rs1 a5 a7 a6
      by_cases hg : a.gen % pc.killInterval = 0
      · obtain ⟨u, u1, u2, u3, u4, u5, u6, u7, u8, u9, u10, u11, u12, u13, u14, u15⟩ := k2 hg
        obtain ⟨dom, hd⟩ := hsort a.pop.fitness
        have hfl : a.pop.fitness.length = rs1.length := by rw [a5.fits, List.length_map]
        obtain ⟨i, hi, hni⟩ := select_spares po.nds a.pop.fitness dom hd pc.maxRank hm (by
          intro e
          rw [e] at hfl
          exact hne1 (List.length_eq_zero_iff.1 hfl.symm))
        refine ⟨u, _, u1, ?_, u2, u9⟩
        have : rs1[i]'(by omega) ∈ rowsAt (fun k => !decide (k ∈ ppgaSelect po.nds a.pop.fitness pc.maxRank)) rs1 :=
          List.mem_map.2 ⟨(rs1[i]'(by omega), i), List.mem_filter.2 ⟨List.mk_mem_zipIdx_iff_getElem?.2 (List.getElem?_eq_getElem _), by simp [hni]⟩, rfl⟩
        exact List.ne_nil_of_mem this
      · exact ⟨a, rs1, k1 hg, hne1, a5, a6⟩
    obtain ⟨u, rs2, u1, une, u2, u3⟩ := hkill
    rw [u1]
    dsimp only
    have hi : u.pop.individuals ≠ none := by
      rcases u2.inds with e | ⟨e, e'⟩
      · rw [e]; simp
      · exact absurd e' une
    obtain ⟨v, dead, v1, v2, v3, v4, v5, -⟩ := c48_hunt po pc hr hn u rs2 u2 hi u3
    refine ⟨v, v1, ?_⟩
    intro rs' hrs' e
    have hlen := rowsAt_drop_length rs2 dead v2 v3
    have e1 : v.pop.fitness.length = rs'.length := by rw [hrs'.fits, List.length_map]
    have e2 : v.pop.fitness.length = (rowsAt (fun k => !decide (k ∈ dead)) rs2).length := by rw [v5.fits, List.length_map]
    rw [e] at e1
    have : 0 < rs2.length := List.length_pos_iff.2 une
    simp only [List.length_nil] at e1
    omega

/-- Every generation of the training returns with somebody left or raises EAError. -/
def Steps (d nPred : Nat) (po : PPGAOps X O F C U) (pc : PPGACfg) (Inv : List (Rec X O F C U) → Prop) : Prop :=
  ∀ s rs, Training d nPred Inv s rs → rs ≠ [] → s.gen < 100 →
    (∃ t, ppgaNextGen po pc s = (.ok (), t) ∧ ∀ rs', Represents t.pop rs' → rs' ≠ []) ∨ (ppgaNextGen po pc s).1 = .error .eaError

theorem total_loop [Inhabited O] [Inhabited F] (po : PPGAOps X O F C U) (pc : PPGACfg) (d : Nat) (hc : SurrogateOps d po) (hr : 0 < pc.radius)
    (hn : 0 < pc.nPred) (Inv : List (Rec X O F C U) → Prop) (hp : Preserved d pc po Inv) (hs : Steps d pc.nPred po pc Inv) (fuel : Nat) :
    ∀ (s : PPGA X O F C U) (rs : List (Rec X O F C U)), Training d pc.nPred Inv s rs → rs ≠ [] → s.genIter + fuel = s.cfg.nGen → s.gen + fuel ≤ 100 →
      (∃ t rs', EA.loop (ppgaNextGen po pc) fuel s = (.ok (), t) ∧ Training d pc.nPred Inv t rs' ∧ rs' ≠ [] ∧ t.cfg = s.cfg ∧ t.iter = s.iter ∧ t.gen = s.gen + fuel) ∨
        (EA.loop (ppgaNextGen po pc) fuel s).1 = .error .eaError := by
  induction fuel with
  | zero => intro s rs h hne _ _; exact .inl ⟨s, rs, rfl, h, hne, rfl, rfl, rfl⟩
  | succ n ih =>
    intro s rs h hne hf hg
    have hcont : s.continueIteration = true := by
      have : s.genIter < s.cfg.nGen := by omega
      simp [EA.continueIteration, EA.checkFE, h.total, this]
    simp only [EA.loop, hcont, if_true]
    rcases hs s rs h hne (by omega) with ⟨t, ht, htne⟩ | he
    · rw [ht]
      dsimp only
      obtain ⟨rs', g⟩ := gen_step po pc d hc hr hn s t rs h.repr h.lat h.synced ht
      have hg1 := g.gen
      have hg2 := g.genIter
      have hg3 := g.clock
      have hg4 := h.clock
      rcases ih t rs' ⟨g.repr, g.lat, g.synced, by omega, by rw [g.cfg]; exact h.total, hp s t rs rs' h g⟩ (htne rs' g.repr)
        (by rw [g.cfg]; omega) (by omega) with ⟨v, rs2, b1, b2, b3, b4, b5, b6⟩ | he
      · exact .inl ⟨v, rs2, b1, b2, b3, b4.trans g.cfg, b5.trans g.iter, by omega⟩
      · exact .inr he
    · right
      generalize ppgaNextGen po pc s = q at he
      obtain ⟨q1, q2⟩ := q
      dsimp only at he
      subst he
      rfl

theorem total_iterate [Inhabited O] [Inhabited F] (po : PPGAOps X O F C U) (pc : PPGACfg) (d : Nat) (hc : SurrogateOps d po) (hr : 0 < pc.radius)
    (hn : 0 < pc.nPred) (Inv : List (Rec X O F C U) → Prop) (hp : Preserved d pc po Inv) (hs : Steps d pc.nPred po pc Inv)
    (s : PPGA X O F C U) (rs : List (Rec X O F C U)) (h : Training d pc.nPred Inv s rs) (hne : rs ≠ []) (hg : s.gen + s.cfg.nGen ≤ 100) :
    (∃ t rs', ppgaIterate po pc s = (.ok (), t) ∧ Training d pc.nPred Inv t rs' ∧ rs' ≠ [] ∧ t.cfg = s.cfg ∧ t.iter = s.iter + 1 ∧ t.gen = s.gen + s.cfg.nGen) ∨
      (ppgaIterate po pc s).1 = .error .eaError := by
  unfold ppgaIterate
  rcases total_loop po pc d hc hr hn Inv hp hs s.cfg.nGen { s with genIter := 0 } rs
    ⟨h.repr, h.lat, ⟨h.synced.recs, h.synced.ndim, h.synced.ncons, h.synced.rows, h.synced.cols⟩, h.clock, h.total, h.inv⟩ hne (by simp) hg with
    ⟨t, rs', b1, b2, b3, b4, b5, b6⟩ | he
  · left
    rw [b1]
    exact ⟨_, rs', rfl, ⟨b2.repr, b2.lat, ⟨b2.synced.recs, b2.synced.ndim, b2.synced.ncons, b2.synced.rows, b2.synced.cols⟩, b2.clock, b2.total, b2.inv⟩, b3, b4,
      by simpa using b5, b6⟩
  · right
    generalize EA.loop (ppgaNextGen po pc) s.cfg.nGen { s with genIter := 0 } = q at he
    obtain ⟨q1, q2⟩ := q
    dsimp only at he
    subst he
    rfl

theorem total_drive [Inhabited O] [Inhabited F] (po : PPGAOps X O F C U) (pc : PPGACfg) (d : Nat) (hc : SurrogateOps d po) (hr : 0 < pc.radius)
    (hn : 0 < pc.nPred) (Inv : List (Rec X O F C U) → Prop) (hp : Preserved d pc po Inv) (hs : Steps d pc.nPred po pc Inv) (fuel : Nat) :
    ∀ (s : PPGA X O F C U) (rs : List (Rec X O F C U)), Training d pc.nPred Inv s rs → rs ≠ [] → s.iter + fuel = s.cfg.nIter →
      s.gen + fuel * s.cfg.nGen ≤ 100 →
      (∃ t rs', ppgaDrive po pc fuel s = (.ok (), t) ∧ Training d pc.nPred Inv t rs' ∧ rs' ≠ []) ∨ (ppgaDrive po pc fuel s).1 = .error .eaError := by
  induction fuel with
  | zero => intro s rs h hne _ _; exact .inl ⟨s, rs, rfl, h, hne⟩
  | succ n ih =>
    intro s rs h hne hf hg
    have hcont : s.continueEvolution = true := by
      have : s.iter < s.cfg.nIter := by omega
      simp [EA.continueEvolution, EA.checkFE, h.total, this]
    have hmul : (n + 1) * s.cfg.nGen = n * s.cfg.nGen + s.cfg.nGen := by ring
    simp only [ppgaDrive, hcont, if_true]
    rcases total_iterate po pc d hc hr hn Inv hp hs s rs h hne (by omega) with ⟨t, rs', b1, b2, b3, b4, b5, b6⟩ | he
    · rw [b1]
      dsimp only
      exact ih t rs' b2 b3 (by rw [b4]; omega) (by rw [b4]; omega)
    · right
      generalize ppgaIterate po pc s = q at he
      obtain ⟨q1, q2⟩ := q
      dsimp only at he
      subst he
      rfl

/-- An evolution that starts with somebody, on a lattice with room for everybody, returns with somebody left or raises EAError. -/
theorem evolveTo_total [Inhabited O] [Inhabited F] (target : Nat) (po : PPGAOps X O F C U) (dPred dPrey : Nat → Nat) (p : Pop X O F C U) (hc : SurrogateOps p.ndim po)
    (Inv : List (Rec X O F C U) → Prop) (hp : Preserved p.ndim (ppgaFor target) po Inv) (hs : Steps p.ndim 50 po (ppgaFor target) Inv) (rs : List (Rec X O F C U))
    (h1 : Represents p rs) (hnc : p.nCons = 0) (hI : Inv rs) (hne : rs ≠ []) (hfit : rs.length ≤ 3550) :
    (∃ t rs', evolveTo target po dPred dPrey p = .ok t ∧ Represents t.pop rs' ∧ rs' ≠ []) ∨ evolveTo target po dPred dPrey p = .error .eaError := by
  have hne' : p.individuals ≠ none := by
    rcases h1.inds with e | ⟨-, e⟩
    · rw [e]; simp
    · exact absurd e hne
  obtain ⟨s, a1, a2, a3, a4, a5, a6, a7, a8, a9, a10⟩ := c48_construct (ppgaFor target) 10 10 dPred dPrey p rs h1 hne'
    (by have : (ppgaFor target).nPred = 50 := rfl
        omega)
  have hclk : s.clock = 0 := by
    have hs := a1
    unfold ppgaConstruct at hs
    split at hs
    · cases hs
    · split at hs
      · cases hs
      · split at hs
        · cases hs
        · injection hs with hs
          rw [← hs]
  obtain ⟨rs0, e1, e2⟩ := a2.recs
  have hlen : rs0.length = rs.length := by
    cases hi : p.individuals with
    | none => exact absurd hi hne'
    | some inds =>
      rw [a3] at e1
      rw [← Represents_length e1 hi, ← Represents_length h1 hi]
  rw [hnc] at a2
  unfold evolveTo
  rw [a1]
  dsimp only
  rcases total_drive po (ppgaFor target) p.ndim hc (Nat.succ_pos _) (Nat.succ_pos _) Inv hp hs 10 s rs
    ⟨by rw [a3]; exact h1, by rw [← hlen]; exact e2, a2, by omega, a10, hI⟩ hne (by omega) (by rw [a4, a8]) with ⟨t, rs', b1, b2, b3⟩ | he
  · left
    rw [b1]
    exact ⟨t, rs', rfl, b2.repr, b3⟩
  · right
    generalize ppgaDrive po (ppgaFor target) 10 s = q at he
    obtain ⟨q1, q2⟩ := q
    dsimp only at he
    subst he
    rfl

theorem evolve_total [Inhabited O] [Inhabited F] (po : PPGAOps X O F C U) (dPred dPrey : Nat → Nat) (p : Pop X O F C U) (hc : SurrogateOps p.ndim po)
    (Inv : List (Rec X O F C U) → Prop) (hp : Preserved p.ndim ppgaDefaults po Inv) (hs : Steps p.ndim 50 po ppgaDefaults Inv) (rs : List (Rec X O F C U))
    (h1 : Represents p rs) (hnc : p.nCons = 0) (hI : Inv rs) (hne : rs ≠ []) (hfit : rs.length ≤ 3550) :
    (∃ t rs', evolve po dPred dPrey p = .ok t ∧ Represents t.pop rs' ∧ rs' ≠ []) ∨ evolve po dPred dPrey p = .error .eaError :=
  evolveTo_total 100 po dPred dPrey p hc Inv hp hs rs h1 hnc hI hne hfit

end generic

/-! ## EvoNN -/

section nn
variable {r c : Nat}

theorem nnOps_surrogate (d : NNData r c) (mt : MutType) (draw : Nat → Nat → NNDraw (r + 1) c ℝ) (e : EvolveRand) : SurrogateOps 3 (nnOps d mt draw e) := by
  refine ⟨?_, ?_⟩
  · intro cl p m b h
    simp only [nnOps, nnMate] at h
    split at h
    · cases h
    · split at h
      · cases h
      · injection h with h
        rw [← h]
  · intro cl b res h
    simp only [nnOps, nnEvaluate] at h
    split at h
    · split at h
      · split at h
        · injection h with h
          rw [← h]
          exact ⟨rfl, rfl, rfl⟩
        · cases h
      · injection h with h
        rw [← h]
        simp
    · cases h

/-- The records of a population of EvoNN networks during a training: bred from the initial ones, each with its own objectives. -/
def NNInv (d : NNData r c) (act : ℝ → ℝ) (mt : MutType) (P0 : List (NNet (r + 1) c ℝ))
    (rs : List (Rec (NNet (r + 1) c ℝ) (ℝ × ℝ) (ℝ × ℝ) Unit Unit)) : Prop :=
  Bred (NNBreed (fun m => m = mt)) P0 (rs.map Rec.x) ∧ ∀ q ∈ rs, q.o = nnObjectives d act q.x ∧ q.f = nnObjectives d act q.x

theorem nn_preserved (d : NNData r c) (act : ℝ → ℝ) (ha : d.act = some act) (mt : MutType) (draw : Nat → Nat → NNDraw (r + 1) c ℝ) (e : EvolveRand)
    (P0 : List (NNet (r + 1) c ℝ)) : Preserved 3 ppgaDefaults (nnOps d mt draw e) (NNInv d act mt P0) := by
  intro s t rs rs' h g
  obtain ⟨mating, off, placed, res, g1, g2, g3, g4, g5, g6, -⟩ := g.bred
  have hsub : ∀ x ∈ rowsAt (fun k => decide (k ∈ placed)) off.rows, x ∈ off.rows := fun x hx => (rowsAt_sublist _ _).subset hx
  generalize rowsAt (fun k => decide (k ∈ placed)) off.rows = rows at g3 g4 g5 g6 hsub
  have hres : res = ⟨rows.map (nnObjectives d act), rows.map (nnObjectives d act), none, none⟩ := by
    simp only [nnOps, nnEvaluate, ha, true_or, if_true] at g3
    injection g3 with g3
    exact g3.symm
  rw [hres, newRecs_map] at g6
  have hbreed : NNBreed (fun m => m = mt) (rs.map Rec.x) off.rows := by
    simp only [nnOps, nnMate] at g1
    split at g1
    · cases g1
    · rename_i pop hpop
      split at g1
      · cases g1
      · rename_i o ho
        injection g1 with g1
        rw [← g1, ← Represents_map h.repr hpop]
        exact ⟨_, _, _, _, _, _, rfl, ho⟩
  obtain ⟨hb, ho⟩ := h.inv
  refine ⟨.next hb hbreed ?_, ?_⟩
  · intro x hx
    obtain ⟨q, hq, rfl⟩ := List.mem_map.1 hx
    rcases List.mem_append.1 (g6.subset hq) with hq | hq
    · exact .inl (List.mem_map.2 ⟨q, hq, rfl⟩)
    · obtain ⟨y, hy, rfl⟩ := List.mem_map.1 hq
      exact .inr (hsub y hy)
  · intro q hq
    rcases List.mem_append.1 (g6.subset hq) with hq | hq
    · exact ho q hq
    · obtain ⟨y, hy, rfl⟩ := List.mem_map.1 hq
      exact ⟨rfl, rfl⟩

/-- The population `fit` starts from. -/
theorem nn_initial (d : NNData r c) (act : ℝ → ℝ) (ha : d.act = some act) (mt : MutType) (nets : List (NNet (r + 1) c ℝ)) :
    ∃ p, (Pop.new 0).add ⟨3, nets⟩ (nnEvaluate d ⟨3, nets⟩) = (.ok ⟨nets.map (nnObjectives d act), nets.map (nnObjectives d act), none, none⟩, p) ∧
      p.ndim = 3 ∧ p.nCons = 0 ∧ p.individuals = some nets ∧
      ∃ rs, Represents p rs ∧ rs.length = nets.length ∧ NNInv d act mt nets rs := by
  have he : nnEvaluate d ⟨3, nets⟩ = .ok ⟨nets.map (nnObjectives d act), nets.map (nnObjectives d act), none, none⟩ := by
    simp [nnEvaluate, ha]
  rw [he]
  obtain ⟨b1, b2, b3, b4, b5⟩ := add_spec (d := 3) (represents_new 0) ⟨3, nets⟩
    (⟨nets.map (nnObjectives d act), nets.map (nnObjectives d act), none, none⟩ : Results (ℝ × ℝ) (ℝ × ℝ) Unit Unit)
    ⟨by simp, by simp, fun _ => rfl, by simp [Pop.new], by simp⟩ (by simp [Pop.new]) (Or.inl rfl)
  refine ⟨_, Prod.ext (b5 (Or.inr (Or.inl rfl))).1 rfl, b3, b2, rfl, _, b1, ?_, ?_⟩
  · rw [newRecs_map]; simp
  · rw [newRecs_map]
    refine ⟨?_, ?_⟩
    · simp only [List.nil_append, List.map_map]
      have : (Rec.x ∘ fun x => (⟨x, nnObjectives d act x, nnObjectives d act x, none, none⟩ : Rec (NNet (r + 1) c ℝ) (ℝ × ℝ) (ℝ × ℝ) Unit Unit)) = id := rfl
      rw [this, List.map_id]
      exact .start
    · intro q hq
      obtain ⟨y, hy, rfl⟩ := List.mem_map.1 (by simpa using hq)
      exact ⟨rfl, rfl⟩

/-- What `fit` has when the evolution returns. -/
theorem nn_evolved (d : NNData r c) (act : ℝ → ℝ) (ha : d.act = some act) (mt : MutType) (draw : Nat → Nat → NNDraw (r + 1) c ℝ) (e : EvolveRand)
    (nets : List (NNet (r + 1) c ℝ)) (p : Pop (NNet (r + 1) c ℝ) (ℝ × ℝ) (ℝ × ℝ) Unit Unit) (v)
    (hp : (Pop.new 0).add ⟨3, nets⟩ (nnEvaluate d ⟨3, nets⟩) = (v, p))
    (t : PPGA (NNet (r + 1) c ℝ) (ℝ × ℝ) (ℝ × ℝ) Unit Unit) (ht : evolve (nnOps d mt draw e) e.dPred e.dPrey p = .ok t) :
    t.gen = 100 ∧ t.iter = 10 ∧ Bred (NNBreed (fun m => m = mt)) nets (t.pop.individuals.getD []) ∧
      t.pop.objectives = (t.pop.individuals.getD []).map (nnObjectives d act) := by
  obtain ⟨p', a1, a2, a3, -, rs, a4, -, a5⟩ := nn_initial d act ha mt nets
  rw [hp] at a1
  simp only [Prod.mk.injEq] at a1
  obtain ⟨-, a1⟩ := a1
  subst a1
  obtain ⟨⟨rs', T⟩, h2, h3⟩ := evolve_spec (nnOps d mt draw e) e.dPred e.dPrey p (by rw [a2]; exact nnOps_surrogate d mt draw e) _
    (by rw [a2]; exact nn_preserved d act ha mt draw e nets) rs a4 a3 a5 t ht
  refine ⟨h3, h2, ?_⟩
  have hx : t.pop.individuals.getD [] = rs'.map Rec.x := by
    rcases T.repr.inds with h | ⟨h, h'⟩
    · rw [h]; rfl
    · rw [h, h']; rfl
  rw [hx]
  refine ⟨T.inv.1, ?_⟩
  rw [T.repr.objs, List.map_map]
  exact List.map_congr_left (fun q hq => (T.inv.2 q hq).1)

theorem nnFinish_cases (d : NNData r c) (act : ℝ → ℝ) (crit : Criterion) (p : Pop (NNet (r + 1) c ℝ) (ℝ × ℝ) (ℝ × ℝ) Unit Unit) (s : NNReg r c)
    (hl : p.objectives.length = (p.individuals.getD []).length) :
    (∃ n rest, crit = .akaike ∧ p.individuals = some (n :: rest) ∧ (∀ m ∈ n :: rest, d.y.length ≠ nnWeights d act m + 1) ∧
      nnFinish d act crit p s = (.ok (), ⟨some p, some n, some (nnLast d act n), some (nnAICc d act n), true⟩)) ∨
    (crit = .akaike ∧ p.individuals.getD [] ≠ [] ∧ (∃ m ∈ p.individuals.getD [], d.y.length = nnWeights d act m + 1) ∧
      nnFinish d act crit p s = (.error .zeroDivisionError, { s with population := some p })) ∨
    (crit = .akaike ∧ p.individuals.getD [] = [] ∧ nnFinish d act crit p s = (.error .unboundLocalError, { s with population := some p })) ∨
    (crit ≠ .akaike ∧ ∃ err s', nnFinish d act crit p s = (.error err, s') ∧ s'.trained = s.trained) := by
  generalize hpop : p.individuals.getD [] = pop at hl ⊢
  cases crit with
  | akaike =>
    have hsc : ∀ (pop : List (NNet (r + 1) c ℝ)) (os : List (ℝ × ℝ)), os.length = pop.length →
        (pop.zipWith (fun n o => (⟨nnWeights d act n, nnAICc d act n, o.1⟩ : NNScore ℝ)) os).map (fun q => (q.k, q.aicc)) =
          pop.map (fun n => (nnWeights d act n, nnAICc d act n)) := by
      intro pop
      induction pop with
      | nil => intro os _; simp
      | cons n ns ih =>
        intro os ho
        cases os with
        | nil => simp at ho
        | cons o os => simpa using ih os (by simpa using ho)
    have hm := hsc pop p.objectives hl
    generalize hs : pop.zipWith (fun n o => (⟨nnWeights d act n, nnAICc d act n, o.1⟩ : NNScore ℝ)) p.objectives = scores at hm
    cases pop with
    | nil =>
      right; right; left
      have : scores = [] := by simpa using hm
      subst this
      refine ⟨rfl, rfl, ?_⟩
      simp only [nnFinish, hpop, hs]
      rfl
    | cons n rest =>
      have hind : p.individuals = some (n :: rest) := by
        cases hi : p.individuals with
        | none => rw [hi] at hpop; simp at hpop
        | some l => rw [hi] at hpop; simpa using hpop
      by_cases hk : ∀ m ∈ n :: rest, d.y.length ≠ nnWeights d act m + 1
      · left
        refine ⟨n, rest, rfl, hind, hk, ?_⟩
        have hk' : ∀ q ∈ scores, d.y.length ≠ q.k + 1 := by
          intro q hq
          have : (q.k, q.aicc) ∈ (n :: rest).map (fun n => (nnWeights d act n, nnAICc d act n)) := by
            rw [← hm]; exact List.mem_map.2 ⟨q, hq, rfl⟩
          obtain ⟨m, hmm, he⟩ := List.mem_map.1 this
          simp only [Prod.mk.injEq] at he
          rw [← he.1]
          exact hk m hmm
        have hloop := aiccLoop_ok d.y.length scores hk'
        have hh : scores.map (fun q => q.aicc) = (n :: rest).map (nnAICc d act) := by
          have := congrArg (List.map Prod.snd) hm
          simpa [List.map_map, Function.comp_def] using this
        rw [hh] at hloop
        simp only [nnFinish, hpop, hs, nnFitEnd, nnSelect, hloop, List.map_cons]
        rfl
      · right; left
        push Not at hk
        refine ⟨rfl, by simp, hk, ?_⟩
        have herr : aiccLoop d.y.length scores = .error .zeroDivisionError := by
          obtain ⟨m, hmm, he⟩ := hk
          have : (nnWeights d act m, nnAICc d act m) ∈ scores.map (fun q => (q.k, q.aicc)) := by
            rw [hm]; exact List.mem_map.2 ⟨m, hmm, rfl⟩
          obtain ⟨q, hq, hqe⟩ := List.mem_map.1 this
          simp only [Prod.mk.injEq] at hqe
          have hq1 : d.y.length = q.k + 1 := by rw [hqe.1]; exact he
          clear hm hs
          induction scores with
          | nil => simp at hq
          | cons a as ih =>
            by_cases ha : d.y.length = a.k + 1
            · simp [aiccLoop, ha]
            · rcases List.mem_cons.1 hq with rfl | hq
              · exact absurd hq1 ha
              · simp [aiccLoop, ha, ih (by exact List.mem_map.2 ⟨q, hq, by simp [hqe]⟩) hq]
        simp only [nnFinish, hpop, hs, nnFitEnd, nnSelect, herr]
  | minError =>
    right; right; right
    refine ⟨by simp, ?_⟩
    simp only [nnFinish, nnFitEnd, nnSelect]
    cases argminL ((List.zipWith (fun n o => (⟨nnWeights d act n, nnAICc d act n, o.1⟩ : NNScore ℝ)) (p.individuals.getD []) p.objectives).map (fun p => p.error)) with
    | error err => exact ⟨_, _, rfl, rfl⟩
    | ok i => exact ⟨_, _, rfl, rfl⟩
  | other =>
    right; right; right
    exact ⟨by simp, _, _, rfl, rfl⟩

/-- How a `fit` proceeds: refused at once, failing in the evolution (nothing is written), or reaching the selection with a population bred from the
initial one over 100 generations, every network with its own objectives. -/
theorem nnFit_cases (d : NNData r c) (crit : Criterion) (mt : MutType) (popSize : Nat) (u : Nat → Fin r → Fin c → ℝ)
    (zero : Nat → Fin (r + 1) → Fin c → Bool) (draw : Nat → Nat → NNDraw (r + 1) c ℝ) (e : EvolveRand) (s : NNReg r c) :
    (∃ err, nnFit d crit mt popSize u zero draw e s = (.error err, s)) ∨
    ∃ (act : ℝ → ℝ) (p : Pop (NNet (r + 1) c ℝ) (ℝ × ℝ) (ℝ × ℝ) Unit Unit), d.act = some act ∧ d.X.length = d.y.length ∧
      Bred (NNBreed (fun m => m = mt)) (nnCreate u zero popSize) (p.individuals.getD []) ∧
      p.objectives = (p.individuals.getD []).map (nnObjectives d act) ∧
      nnFit d crit mt popSize u zero draw e s = nnFinish d act crit p s := by
  unfold nnFit
  split
  · exact .inl ⟨_, rfl⟩
  · rename_i hlen
    dsimp only
    cases hp : (Pop.new 0).add ⟨3, nnCreate u zero popSize⟩ (nnEvaluate d ⟨3, nnCreate u zero popSize⟩) with
    | mk v p =>
      cases v with
      | error err => exact .inl ⟨_, rfl⟩
      | ok v =>
        dsimp only
        cases hev : evolve (nnOps d mt draw e) e.dPred e.dPrey p with
        | error err => exact .inl ⟨_, rfl⟩
        | ok t =>
          cases ha : d.act with
          | none => exact .inl ⟨_, rfl⟩
          | some act =>
            right
            obtain ⟨-, -, b1, b2⟩ := nn_evolved d act ha mt draw e _ p _ hp t hev
            exact ⟨act, t.pop, rfl, by simpa using hlen, b1, b2, rfl⟩

/-- C85. A `fit` of EvoNN that returns: the criterion was "akaike_corrected" and the activation function is a known one; the model is trained;
the population kept was bred from the initial networks by the operator with the given mutation type; the layers kept are those of its
first network; the objectives recorded for it are the loss between the targets and what `predict` now returns for the training data, and its
number of non-zero weights. -/
theorem c85_evonn_fit (d : NNData r c) (crit : Criterion) (mt : MutType) (popSize : Nat) (u : Nat → Fin r → Fin c → ℝ)
    (zero : Nat → Fin (r + 1) → Fin c → Bool) (draw : Nat → Nat → NNDraw (r + 1) c ℝ) (e : EvolveRand) (s s' : NNReg r c)
    (h : nnFit d crit mt popSize u zero draw e s = (.ok (), s')) :
    crit = .akaike ∧ s'.trained = true ∧ d.X.length = d.y.length ∧ ∃ (act : ℝ → ℝ) (p : Pop (NNet (r + 1) c ℝ) (ℝ × ℝ) (ℝ × ℝ) Unit Unit)
      (n : NNet (r + 1) c ℝ) (rest : List (NNet (r + 1) c ℝ)) (predictions : List ℝ),
      d.act = some act ∧ s'.population = some p ∧ p.individuals = some (n :: rest) ∧ s'.first = some n ∧
      Bred (NNBreed (fun m => m = mt)) (nnCreate u zero popSize) (n :: rest) ∧
      d.X.mapM (nnPredictAt act s') = .ok predictions ∧
      p.objectives.head? = some (d.loss d.y predictions, (nnComplexity n : ℝ)) ∧ p.objectives.length = (n :: rest).length := by
  rcases nnFit_cases d crit mt popSize u zero draw e s with ⟨err, he⟩ | ⟨act, p, ha, hl, hb, ho, he⟩
  · rw [he] at h; simp at h
  · rw [he] at h
    rcases nnFinish_cases d act crit p s (by rw [ho]; simp) with ⟨n, rest, hcr, hi, hk, hf⟩ | ⟨-, -, -, hf⟩ | ⟨-, -, hf⟩ | ⟨-, err, s'', hf, -⟩
    · rw [hf] at h
      simp only [Prod.mk.injEq, true_and] at h
      subst h
      rw [hi] at hb ho
      refine ⟨hcr, rfl, hl, act, p, n, rest, nnTrainPred d act n, ha, rfl, hi, rfl, hb, ?_, ?_, ?_⟩
      · have key : ∀ xs : List (Fin r → ℝ), xs.mapM (nnPredictAt act (⟨some p, some n, some (nnLast d act n), some (nnAICc d act n), true⟩ : NNReg r c)) =
            .ok (xs.map (fun x => nnOutput (nnLast d act n) (nnHidden act n x))) := by
          intro xs
          induction xs with
          | nil => rfl
          | cons x xs ih =>
            rw [List.mapM_cons, ih]
            rfl
        exact key d.X
      · rw [ho]; rfl
      · rw [ho]; simp
    all_goals (rw [hf] at h; simp at h)

/-- C85. The AICc reported after a `fit` that returned is that of the network kept: with all its non-zero weights, both layers, as parameters, and the squared errors of what
`predict` returns for the training data (which are not all zero: numpy would report `-inf`).  The number of parameters is not one less than the number of samples. -/
theorem c85_evonn_aicc (d : NNData r c) (crit : Criterion) (mt : MutType) (popSize : Nat) (u : Nat → Fin r → Fin c → ℝ)
    (zero : Nat → Fin (r + 1) → Fin c → Bool) (draw : Nat → Nat → NNDraw (r + 1) c ℝ) (e : EvolveRand) (s s' : NNReg r c)
    (h : nnFit d crit mt popSize u zero draw e s = (.ok (), s')) :
    ∃ (act : ℝ → ℝ) (n : NNet (r + 1) c ℝ) (l : Fin (c + 1) → ℝ) (predictions : List ℝ), d.act = some act ∧ s'.first = some n ∧ s'.last = some l ∧
      d.X.mapM (nnPredictAt act s') = .ok predictions ∧
      d.y.length ≠ (nonzeros (fun ij : Fin (r + 1) × Fin c => n ij.1 ij.2) + nonzeros l) + 1 ∧
      (residuals predictions d.y ≠ 0 →
        s'.aicc = some (correctedAkaike (nonzeros (fun ij : Fin (r + 1) × Fin c => n ij.1 ij.2) + nonzeros l) d.y.length (residuals predictions d.y))) := by
  rcases nnFit_cases d crit mt popSize u zero draw e s with ⟨err, he⟩ | ⟨act, p, ha, hl, hb, ho, he⟩
  · rw [he] at h; simp at h
  · rw [he] at h
    rcases nnFinish_cases d act crit p s (by rw [ho]; simp) with ⟨n, rest, hcr, hi, hk, hf⟩ | ⟨-, -, -, hf⟩ | ⟨-, -, hf⟩ | ⟨-, err, s'', hf, -⟩
    · rw [hf] at h
      simp only [Prod.mk.injEq, true_and] at h
      subst h
      have hw : nonzeros (fun ij : Fin (r + 1) × Fin c => n ij.1 ij.2) + nonzeros (nnLast d act n) = nnWeights d act n := by
        have h2 : ∀ (m : Nat) (w : Fin m → ℝ), ((List.finRange m).filter (fun j => w j ≠ 0)).length = nonzeros w := by
          intro m w
          unfold nonzeros
          rw [← List.toFinset_card_of_nodup ((List.nodup_finRange m).filter _)]
          congr 1
          ext j
          simp
        have h1 : nonzeros (fun ij : Fin (r + 1) × Fin c => n ij.1 ij.2) = nnComplexity n := by
          unfold nonzeros nnComplexity
          rw [Finset.card_filter, Fintype.sum_prod_type, ← Fin.sum_univ_def]
          refine Finset.sum_congr rfl (fun i _ => ?_)
          rw [← Finset.card_filter, h2 c (n i)]
          rfl
        rw [h1, nnWeights, h2]
      refine ⟨act, n, nnLast d act n, nnTrainPred d act n, ha, rfl, rfl, ?_, ?_, ?_⟩
      · have key : ∀ xs : List (Fin r → ℝ), xs.mapM (nnPredictAt act (⟨some p, some n, some (nnLast d act n), some (nnAICc d act n), true⟩ : NNReg r c)) =
            .ok (xs.map (fun x => nnOutput (nnLast d act n) (nnHidden act n x))) := by
          intro xs
          induction xs with
          | nil => rfl
          | cons x xs ih =>
            rw [List.mapM_cons, ih]
            rfl
        exact key d.X
      · rw [hw]
        exact hk n (by simp)
      · intro _
        rw [hw]
        dsimp only
        congr 1
        unfold nnAICc correctedAkaike residuals
        rw [List.zip, List.map_zipWith]
    all_goals (rw [hf] at h; simp at h)

/-- C85. An input that no initial network is connected to has no influence on the predictions of the fitted model. -/
theorem c85_evonn_dead_input (d : NNData r c) (crit : Criterion) (mt : MutType) (popSize : Nat) (u : Nat → Fin r → Fin c → ℝ)
    (zero : Nat → Fin (r + 1) → Fin c → Bool) (draw : Nat → Nat → NNDraw (r + 1) c ℝ) (e : EvolveRand) (s s' : NNReg r c)
    (h : nnFit d crit mt popSize u zero draw e s = (.ok (), s')) (k : Fin r)
    (hk : ∀ m, m < popSize → ∀ j, zero m k.succ j = true) (act : ℝ → ℝ) (x x' : Fin r → ℝ) (hx : ∀ i, i ≠ k → x i = x' i) :
    nnPredictAt act s' x = nnPredictAt act s' x' := by
  obtain ⟨-, ht, -, -, p, n, rest, -, -, -, -, hn, hb, -⟩ := c85_evonn_fit d crit mt popSize u zero draw e s s' h
  have h0 : ∀ j, n k.succ j = 0 := by
    intro j
    have hb' : Bred (NNBreed (fun _ => True)) (nnCreate u zero popSize) (n :: rest) := by
      clear hn h
      generalize n :: rest = Q at hb
      induction hb with
      | start => exact .start
      | next _ hbr hkeep ih =>
        obtain ⟨m, cu, to', fa, dr, ma, -, hd⟩ := hbr
        exact .next ih ⟨m, cu, to', fa, dr, ma, trivial, hd⟩ hkeep
    refine c65_dead_connection_stays_dead _ _ k.succ j ?_ hb' n (by simp)
    intro m hm
    obtain ⟨i, hi, rfl⟩ := List.mem_map.1 hm
    simp [hk i (List.mem_range.1 hi) j]
  have hh : nnHidden act n x = nnHidden act n x' := by
    funext j
    unfold nnHidden
    congr 2
    apply Finset.sum_congr rfl
    intro i _
    by_cases hi : i = k
    · subst hi; rw [h0 j]; simp
    · rw [hx i hi]
  unfold nnPredictAt
  rw [hn]
  cases s'.last with
  | none => rfl
  | some l => dsimp only; rw [hh]

/-- C85. Without self-adapting mutation every hidden node of the fitted model uses only inputs that the same node of some initial network used. -/
theorem c85_evonn_node_lineage (d : NNData r c) (crit : Criterion) (mt : MutType) (hmt : mt ≠ .selfAdapting) (popSize : Nat) (u : Nat → Fin r → Fin c → ℝ)
    (zero : Nat → Fin (r + 1) → Fin c → Bool) (draw : Nat → Nat → NNDraw (r + 1) c ℝ) (e : EvolveRand) (s s' : NNReg r c)
    (h : nnFit d crit mt popSize u zero draw e s = (.ok (), s')) :
    ∃ n, s'.first = some n ∧ ∀ j : Fin c, ∃ m, m < popSize ∧ ∀ i, zero m i j = true → n i j = 0 := by
  obtain ⟨-, ht, -, -, p, n, rest, -, -, -, -, hn, hb, -⟩ := c85_evonn_fit d crit mt popSize u zero draw e s s' h
  refine ⟨n, hn, ?_⟩
  have hb' : Bred (NNBreed (fun m => m ≠ .selfAdapting)) (nnCreate u zero popSize) (n :: rest) := by
    clear hn h
    generalize n :: rest = Q at hb
    induction hb with
    | start => exact .start
    | next _ hbr hkeep ih =>
      obtain ⟨m, cu, to', fa, dr, ma, hm, hd⟩ := hbr
      exact .next ih ⟨m, cu, to', fa, dr, ma, by rw [hm]; exact hmt, hd⟩ hkeep
  intro j
  obtain ⟨a, ha, hz⟩ := c65_node_lineage _ _ hb' n (by simp) j
  obtain ⟨m, hm, rfl⟩ := List.mem_map.1 ha
  exact ⟨m, List.mem_range.1 hm, fun i hi => hz i (by simp [hi])⟩

/-- C85. A `fit` that raises leaves `trained` as it was: an untrained model stays unusable.  With the default criterion the layers stay too, so a
model trained before still predicts what it predicted. -/
theorem c85_evonn_failed_fit (d : NNData r c) (crit : Criterion) (mt : MutType) (popSize : Nat) (u : Nat → Fin r → Fin c → ℝ)
    (zero : Nat → Fin (r + 1) → Fin c → Bool) (draw : Nat → Nat → NNDraw (r + 1) c ℝ) (e : EvolveRand) (s s' : NNReg r c) (err : Err)
    (h : nnFit d crit mt popSize u zero draw e s = (.error err, s')) :
    s'.trained = s.trained ∧ (s.trained = false → ∀ act x, nnPredictAt act s' x = .error .modelError) ∧
    (crit = .akaike → ∀ act x, nnPredictAt act s' x = nnPredictAt act s x) := by
  have key : s'.trained = s.trained ∧ (crit = .akaike → s'.first = s.first ∧ s'.last = s.last) := by
    rcases nnFit_cases d crit mt popSize u zero draw e s with ⟨err', he⟩ | ⟨act, p, ha, hl, hb, ho, he⟩
    · rw [he] at h
      simp only [Prod.mk.injEq] at h
      rw [← h.2]
      exact ⟨rfl, fun _ => ⟨rfl, rfl⟩⟩
    · rw [he] at h
      rcases nnFinish_cases d act crit p s (by rw [ho]; simp) with ⟨n, rest, hcr, hi, hk, hf⟩ | ⟨-, -, -, hf⟩ | ⟨-, -, hf⟩ | ⟨hne, err, s'', hf, hs⟩
      · rw [hf] at h; simp at h
      · rw [hf] at h
        simp only [Prod.mk.injEq] at h
        rw [← h.2]
        exact ⟨rfl, fun _ => ⟨rfl, rfl⟩⟩
      · rw [hf] at h
        simp only [Prod.mk.injEq] at h
        rw [← h.2]
        exact ⟨rfl, fun _ => ⟨rfl, rfl⟩⟩
      · rw [hf] at h
        simp only [Prod.mk.injEq] at h
        rw [← h.2]
        exact ⟨hs, fun e => absurd e hne⟩
  refine ⟨key.1, ?_, ?_⟩
  · intro hs act x
    simp [nnPredictAt, key.1, hs]
  · intro hc act x
    simp only [nnPredictAt, key.1, (key.2 hc).1, (key.2 hc).2]

/-- C85. `fit` refuses data of unequal lengths and an unknown activation function with a ModelError and changes nothing; with any criterion but
"akaike_corrected" it always raises. -/
theorem c85_evonn_refusals (d : NNData r c) (crit : Criterion) (mt : MutType) (popSize : Nat) (u : Nat → Fin r → Fin c → ℝ)
    (zero : Nat → Fin (r + 1) → Fin c → Bool) (draw : Nat → Nat → NNDraw (r + 1) c ℝ) (e : EvolveRand) (s : NNReg r c) :
    (d.X.length ≠ d.y.length → nnFit d crit mt popSize u zero draw e s = (.error .modelError, s)) ∧
    (d.act = none → 0 < popSize → nnFit d crit mt popSize u zero draw e s = (.error .modelError, s)) ∧
    (crit ≠ .akaike → ∃ err s', nnFit d crit mt popSize u zero draw e s = (.error err, s') ∧ s'.trained = s.trained) := by
  refine ⟨?_, ?_, ?_⟩
  · intro hl
    simp [nnFit, hl]
  · intro ha hp
    unfold nnFit
    split
    · rfl
    · have : nnCreate u zero popSize ≠ [] := by
        intro h0
        have := congrArg List.length h0
        simp [nnCreate] at this
        omega
      simp [nnEvaluate, ha, this, Pop.add]
  · intro hc
    rcases hq : nnFit d crit mt popSize u zero draw e s with ⟨v, s'⟩
    cases v with
    | error err => exact ⟨err, s', rfl, (c85_evonn_failed_fit d crit mt popSize u zero draw e s s' err hq).1⟩
    | ok v => exact absurd (c85_evonn_fit d crit mt popSize u zero draw e s s' hq).1 hc

/-- C85. What can go wrong with a proper `fit` of EvoNN (equal lengths, known activation function, 1 to 3550 networks, the default criterion,
Gaussian or no mutation, proper non-dominated sorting): only that at some moment no two prey are neighbours, or that some final network has
exactly as many non-zero weights as makes the correction term divide by zero.  In particular Gaussian mutation never fails: the 100 generations of
the training are exactly those the mutation operator plans for. -/
theorem c85_evonn_outcomes (d : NNData r c) (mt : MutType) (hmt : mt ≠ .selfAdapting) (popSize : Nat) (hp0 : 0 < popSize) (hp1 : popSize ≤ 3550)
    (u : Nat → Fin r → Fin c → ℝ) (zero : Nat → Fin (r + 1) → Fin c → Bool) (draw : Nat → Nat → NNDraw (r + 1) c ℝ) (e : EvolveRand)
    (hsort : ∀ fits : List (ℝ × ℝ), ∃ dom, IsFrontSort dom fits.length ((e.nds fits).map whereIdx))
    (hl : d.X.length = d.y.length) (act : ℝ → ℝ) (ha : d.act = some act) (s : NNReg r c) :
    (nnFit d .akaike mt popSize u zero draw e s).1 = .ok () ∨ nnFit d .akaike mt popSize u zero draw e s = (.error .eaError, s) ∨
    ((nnFit d .akaike mt popSize u zero draw e s).1 = .error .zeroDivisionError ∧
      ∃ p, (nnFit d .akaike mt popSize u zero draw e s).2.population = some p ∧ ∃ m ∈ p.individuals.getD [], d.y.length = nnWeights d act m + 1) := by
  obtain ⟨p, a1, a2, a3, a4, rs, a5, a6, a7⟩ := nn_initial d act ha mt (nnCreate u zero popSize)
  have hlen : (nnCreate u zero popSize).length = popSize := by simp [nnCreate]
  have hsteps : Steps 3 50 (nnOps d mt draw e) ppgaDefaults (NNInv d act mt (nnCreate u zero popSize)) := by
    intro s rs T hne hg
    refine gen_total (nnOps d mt draw e) ppgaDefaults 3 (nnOps_surrogate d mt draw e) (by decide) (by decide) (by decide) (by decide) (by decide)
      hsort ?_ s rs T.repr T.lat T.synced hne ?_
    · intro cl rows
      exact ⟨⟨rows.map (nnObjectives d act), rows.map (nnObjectives d act), none, none⟩, by simp [nnOps, nnEvaluate, ha], by simp⟩
    · intro mating hmat
      cases hi : s.pop.individuals with
      | none =>
        rcases T.repr.inds with h | ⟨-, h⟩
        · rw [hi] at h; cases h
        · exact absurd h hne
      | some pop =>
        have hpl : pop.length = rs.length := Represents_length T.repr hi
        have hclk := T.clock
        obtain ⟨os, ho, -⟩ := c65_outcome mt ((s.clock + 1) / 5) 100 (1 - (((s.clock + 1) / 5 : ℕ) : ℝ) / 100) (draw (s.clock + 1)) pop
          (.pairs (mating.map (fun q => (q.1.toNat, q.2.toNat)))) (by decide) (by
            intro q hq
            obtain ⟨ab, hab, rfl⟩ := List.mem_map.1 hq
            obtain ⟨x, y, rfl, hx, hy⟩ := hmat ab hab
            simp only [Int.toNat_natCast]
            omega) (fun _ => by omega) (fun h => absurd h hmt)
        exact ⟨⟨3, os⟩, by simp only [nnOps, nnMate, hi, ho]⟩
  have hev := evolve_total (nnOps d mt draw e) e.dPred e.dPrey p (by rw [a2]; exact nnOps_surrogate d mt draw e) _
    (by rw [a2]; exact nn_preserved d act ha mt draw e (nnCreate u zero popSize)) (by rw [a2]; exact hsteps) rs a5 a3 a7
    (by intro h0; rw [h0] at a6; simp at a6; omega) (by omega)
  have hform : nnFit d .akaike mt popSize u zero draw e s =
      match evolve (nnOps d mt draw e) e.dPred e.dPrey p with
      | .error err => (.error err, s)
      | .ok t => nnFinish d act .akaike t.pop s := by
    unfold nnFit
    rw [if_neg (by simpa using hl)]
    simp only [a1, ha]
    cases evolve (nnOps d mt draw e) e.dPred e.dPrey p <;> rfl
  rcases hev with ⟨t, rs', ht, hr, hne⟩ | he
  · rw [ht] at hform
    dsimp only at hform
    rw [hform]
    obtain ⟨-, -, b1, b2⟩ := nn_evolved d act ha mt draw e _ p _ a1 t ht
    rcases nnFinish_cases d act .akaike t.pop s (by rw [b2]; simp) with ⟨n, rest, hcr, hi, hk, hf⟩ | ⟨-, -, hm, hf⟩ | ⟨-, h0, hf⟩ | ⟨hne', -⟩
    · left; rw [hf]
    · right; right
      rw [hf]
      exact ⟨rfl, _, rfl, hm⟩
    · exfalso
      rcases hr.inds with h | ⟨h, h'⟩
      · rw [h] at h0
        simp at h0
        exact hne h0
      · exact hne h'
    · exact absurd rfl hne'
  · right; left
    rw [hform, he]

end nn
/-! ## EvoDN2 -/

section dn

theorem mapM_ok_map {A B : Type} [Inhabited B] (f : A → Except Err B) : ∀ (l : List A) (os : List B), l.mapM f = .ok os →
    ∃ g : A → B, os = l.map g ∧ ∀ x ∈ l, f x = .ok (g x) := by
  intro l
  have key : ∀ (l : List A) (os : List B), l.mapM f = .ok os →
      os = l.map (fun x => match f x with | .ok o => o | .error _ => default) ∧
        ∀ x ∈ l, f x = .ok (match f x with | .ok o => o | .error _ => default) := by
    intro l
    induction l with
    | nil =>
      intro os h
      injection h with h
      subst h
      simp
    | cons x xs ih =>
      intro os h
      rw [List.mapM_cons] at h
      cases hf : f x with
      | error e => rw [hf] at h; cases h
      | ok o =>
        rw [hf] at h
        cases hm : xs.mapM f with
        | error e => rw [hm] at h; cases h
        | ok ys =>
          rw [hm] at h
          change Except.ok (o :: ys) = Except.ok os at h
          injection h with h
          obtain ⟨i1, i2⟩ := ih ys hm
          subst h
          refine ⟨by rw [List.map_cons, ← i1, hf], ?_⟩
          intro y hy
          rcases List.mem_cons.1 hy with rfl | hy
          · rw [hf]
          · exact i2 y hy
  exact fun os h => ⟨_, key l os h⟩

/-- A batch that is evaluated row by row has at least two networks. -/
theorem dnEvaluate_ok (d : DNData) (subsets : List (List Nat)) (b : Batch (DNet ℝ)) (res : Results (ℝ × ℝ) (ℝ × ℝ) Unit Unit)
    (h : dnEvaluate d subsets b = .ok res) :
    res.fitness = res.objectives ∧ res.constraints = none ∧ res.uncertainity = none ∧
    ((b.rows = [] ∧ res.objectives.length = 1) ∨
      (2 ≤ b.rows.length ∧ ∃ g : DNet ℝ → ℝ × ℝ, res = ⟨b.rows.map g, b.rows.map g, none, none⟩ ∧ ∀ n ∈ b.rows, dnObjectives d subsets n = .ok (g n))) := by
  obtain ⟨nd, rows⟩ := b
  match rows with
  | [] =>
    simp only [dnEvaluate] at h
    split at h
    · cases h
    · injection h with h
      subst h
      exact ⟨rfl, rfl, rfl, .inl ⟨rfl, rfl⟩⟩
  | [_] => simp [dnEvaluate] at h
  | x :: y :: rest =>
    simp only [dnEvaluate] at h
    split at h
    · cases h
    · rename_i l hl
      injection h with h
      subst h
      obtain ⟨g, g1, g2⟩ := mapM_ok_map _ _ _ hl
      exact ⟨rfl, rfl, rfl, .inr ⟨by simp, g, by rw [g1], g2⟩⟩

theorem dnOps_surrogate (d : DNData) (subsets : List (List Nat)) (draw : Nat → Nat → Nat → Nat → DNDraw ℝ) (e : EvolveRand) :
    SurrogateOps 2 (dnOps d subsets draw e) := by
  refine ⟨?_, ?_⟩
  · intro cl p m b h
    simp only [dnOps, dnMate] at h
    split at h
    · cases h
    · split at h
      · cases h
      · injection h with h
        rw [← h]
  · intro cl b res h
    obtain ⟨h1, h2, h3, -⟩ := dnEvaluate_ok d subsets b res h
    exact ⟨by rw [h1], h2, h3⟩

/-- The records of a population of EvoDN2 networks during a training. -/
def DNInv (d : DNData) (subsets : List (List Nat)) (P0 : List (DNet ℝ)) (rs : List (Rec (DNet ℝ) (ℝ × ℝ) (ℝ × ℝ) Unit Unit)) : Prop :=
  Bred DNBreed P0 (rs.map Rec.x) ∧ ∀ q ∈ rs, dnObjectives d subsets q.x = .ok q.o ∧ q.f = q.o

/-- A generation of an EvoDN2 training that returns has placed at least two offspring, and evaluated them. -/
theorem dn_gen (d : DNData) (subsets : List (List Nat)) (draw : Nat → Nat → Nat → Nat → DNDraw ℝ) (e : EvolveRand) (P0 : List (DNet ℝ))
    (pc : PPGACfg) (s t : PPGA (DNet ℝ) (ℝ × ℝ) (ℝ × ℝ) Unit Unit) (rs rs' : List (Rec (DNet ℝ) (ℝ × ℝ) (ℝ × ℝ) Unit Unit))
    (hr : Represents s.pop rs) (g : GenStep 2 pc (dnOps d subsets draw e) s t rs rs') :
    (DNInv d subsets P0 rs → DNInv d subsets P0 rs') ∧
    ∃ (mating : List (Int × Int)) (M : Lat) (off : Batch (DNet ℝ)) (placed : List Nat), dnMate draw (s.clock + 1) s.pop mating = .ok off ∧
      (s.sel.movePrey (e.prey s.clock) pc.preyMaxMoves).1 = .ok mating ∧
      (s.sel.movePrey (e.prey s.clock) pc.preyMaxMoves).2.placeOffspring (e.placeY (s.clock + 2)) (e.placeX (s.clock + 2)) pc.attempts
        off.rows.length = .ok (M, placed) ∧ 2 ≤ placed.length := by
  obtain ⟨mating, off, placed, res, g1, g2, g3, g4, g5, g6, g7, ⟨M, g8⟩, g9⟩ := g.bred
  have hsub : ∀ x ∈ rowsAt (fun k => decide (k ∈ placed)) off.rows, x ∈ off.rows := fun x hx => (rowsAt_sublist _ _).subset hx
  obtain ⟨-, -, -, ⟨k1, k2⟩ | ⟨k1, g, k2, k3⟩⟩ := dnEvaluate_ok d subsets _ res g3
  · rw [k2] at g4
    simp only at k1
    rw [k1] at g4
    simp at g4
  · dsimp only at k1 k2 k3
    refine ⟨?_, mating, M, off, placed, g1, g7, g8, by omega⟩
    rintro ⟨hb, ho⟩
    rw [k2, newRecs_map] at g6
    have hbreed : DNBreed (rs.map Rec.x) off.rows := by
      simp only [dnOps, dnMate] at g1
      split at g1
      · cases g1
      · rename_i pop hpop
        split at g1
        · cases g1
        · rename_i o ho
          injection g1 with g1
          rw [← g1, ← Represents_map hr hpop]
          exact ⟨_, _, _, ho⟩
    refine ⟨.next hb hbreed ?_, ?_⟩
    · intro x hx
      obtain ⟨q, hq, rfl⟩ := List.mem_map.1 hx
      rcases List.mem_append.1 (g6.subset hq) with hq | hq
      · exact .inl (List.mem_map.2 ⟨q, hq, rfl⟩)
      · obtain ⟨y, hy, rfl⟩ := List.mem_map.1 hq
        exact .inr (hsub y hy)
    · intro q hq
      rcases List.mem_append.1 (g6.subset hq) with hq | hq
      · exact ho q hq
      · obtain ⟨y, hy, rfl⟩ := List.mem_map.1 hq
        exact ⟨k3 y hy, rfl⟩

theorem dn_preserved (d : DNData) (subsets : List (List Nat)) (draw : Nat → Nat → Nat → Nat → DNDraw ℝ) (e : EvolveRand) (P0 : List (DNet ℝ)) :
    Preserved 2 ppgaDefaults (dnOps d subsets draw e) (DNInv d subsets P0) :=
  fun s t rs rs' h g => (dn_gen d subsets draw e P0 ppgaDefaults s t rs rs' h.repr g).1 h.inv

/-- With nobody in the population the first generation already raises. -/
theorem evolveTo_nobody {X O F C U : Type} (target : Nat) (po : PPGAOps X O F C U) (dPred dPrey : Nat → Nat) (p : Pop X O F C U) (hp : p.individuals = some []) :
    evolveTo target po dPred dPrey p = .error .eaError := by
  obtain ⟨L, a1, a2, a3, a4⟩ := (c48_init 60 60 ((List.range (ppgaFor target).nPred).map dPred) ((List.range 0).map dPrey)).1 (by simp [ppgaFor, ppgaDefaults])
  have hc : ∃ s, ppgaConstruct (ppgaFor target) 10 10 dPred dPrey (some p) = .ok s ∧ s.sel = L ∧ s.cfg = ⟨false, none, 10, 10, 0, false, false, false⟩ ∧ s.iter = 0 := by
    refine ⟨_, by simp only [ppgaConstruct, hp, List.length_nil, a1]; rfl, rfl, rfl, rfl⟩
  obtain ⟨s, hs, hL, hcfg, hit⟩ := hc
  have hmv : ∀ r k, (L.movePrey r k).1 = .error .eaError := by
    intro r k
    rcases (c48_move_prey a2 r k).2.2.2.2 with h | ⟨m, h, hne⟩
    · exact h
    · obtain ⟨ab, hab⟩ := List.exists_mem_of_ne_nil m hne
      obtain ⟨x, y, pp, q, -, hx, -⟩ := (c49_mates a2 r k m h).2.1 ab hab
      simp at hx
  have hgen : ∀ s' : PPGA X O F C U, s'.sel = L → (ppgaNextGen po (ppgaFor target) s').1 = .error .eaError := by
    intro s' hs'
    unfold ppgaNextGen
    dsimp only
    rw [hs', hmv]
  have hcont : s.continueEvolution = true := by simp [EA.continueEvolution, EA.checkFE, hcfg, hit]
  have hcont2 : ({ s with genIter := 0 } : PPGA X O F C U).continueIteration = true := by simp [EA.continueIteration, EA.checkFE, hcfg]
  have hng := hgen { s with genIter := 0 } hL
  have hloop : (EA.loop (ppgaNextGen po (ppgaFor target)) 10 { s with genIter := 0 }).1 = .error .eaError := by
    simp only [EA.loop, hcont2, if_true]
    generalize ppgaNextGen po (ppgaFor target) { s with genIter := 0 } = q at hng
    obtain ⟨q1, q2⟩ := q
    dsimp only at hng
    subst hng
    rfl
  have hiter : (ppgaIterate po (ppgaFor target) s).1 = .error .eaError := by
    unfold ppgaIterate
    rw [show s.cfg.nGen = 10 by rw [hcfg]]
    generalize EA.loop (ppgaNextGen po (ppgaFor target)) 10 { s with genIter := 0 } = q at hloop
    obtain ⟨q1, q2⟩ := q
    dsimp only at hloop
    subst hloop
    rfl
  unfold evolveTo
  rw [hs]
  dsimp only
  simp only [ppgaDrive, hcont, if_true]
  generalize ppgaIterate po (ppgaFor target) s = q at hiter
  obtain ⟨q1, q2⟩ := q
  dsimp only at hiter
  subst hiter
  rfl

theorem evolve_nobody {X O F C U : Type} (po : PPGAOps X O F C U) (dPred dPrey : Nat → Nat) (p : Pop X O F C U) (hp : p.individuals = some []) :
    evolve po dPred dPrey p = .error .eaError := evolveTo_nobody 100 po dPred dPrey p hp

/-- The population `fit` starts from, when the evaluation of the initial networks returns and the evolution does too. -/
theorem dn_initial (d : DNData) (subsets : List (List Nat)) (draw : Nat → Nat → Nat → Nat → DNDraw ℝ) (e : EvolveRand) (nets : List (DNet ℝ)) (v)
    (p : Pop (DNet ℝ) (ℝ × ℝ) (ℝ × ℝ) Unit Unit) (hp : (Pop.new 0).add ⟨2, nets⟩ (dnEvaluate d subsets ⟨2, nets⟩) = (.ok v, p))
    (t : PPGA (DNet ℝ) (ℝ × ℝ) (ℝ × ℝ) Unit Unit) (ht : evolve (dnOps d subsets draw e) e.dPred e.dPrey p = .ok t) :
    2 ≤ nets.length ∧ p.ndim = 2 ∧ p.nCons = 0 ∧ ∃ rs, Represents p rs ∧ rs.length = nets.length ∧ DNInv d subsets nets rs := by
  cases he : dnEvaluate d subsets ⟨2, nets⟩ with
  | error err => rw [he] at hp; simp [Pop.add] at hp
  | ok res =>
    rw [he] at hp
    obtain ⟨-, -, -, ⟨k1, k2⟩ | ⟨k1, g, k2, k3⟩⟩ := dnEvaluate_ok d subsets _ res he
    · dsimp only at k1
      subst k1
      have hi : p.individuals = some [] := by
        simp only [Pop.add, Pop.new, Prod.mk.injEq] at hp
        rw [← hp.2]
      rw [evolve_nobody _ _ _ _ hi] at ht
      cases ht
    · dsimp only at k1 k2 k3
      obtain ⟨b1, b2, b3, b4, b5⟩ := add_spec (d := 2) (represents_new 0) ⟨2, nets⟩ res
        (by rw [k2]; exact ⟨by simp, by simp, fun _ => rfl, by simp [Pop.new], by simp⟩) (by simp [Pop.new]) (Or.inl rfl)
      rw [hp] at b1 b2 b3
      dsimp only at b1 b2 b3
      refine ⟨k1, b3, b2, _, b1, ?_, ?_⟩
      · rw [k2, newRecs_map]; simp
      · rw [k2, newRecs_map]
        refine ⟨?_, ?_⟩
        · simp only [List.nil_append, List.map_map]
          have : (Rec.x ∘ fun x => (⟨x, g x, g x, none, none⟩ : Rec (DNet ℝ) (ℝ × ℝ) (ℝ × ℝ) Unit Unit)) = id := rfl
          rw [this, List.map_id]
          exact .start
        · intro q hq
          obtain ⟨y, hy, rfl⟩ := List.mem_map.1 (by simpa using hq)
          exact ⟨k3 y hy, rfl⟩

/-- How a `fit` of EvoDN2 proceeds. -/
theorem dnFit_cases (d : DNData) (minError : Bool) (popSize numSubnets maxLayers maxNodes : Nat) (sample : Nat → List Nat) (choose : Nat → Nat)
    (rnd : DNRand ℝ) (draw : Nat → Nat → Nat → Nat → DNDraw ℝ) (e : EvolveRand) (s : DNReg) :
    (∃ err, dnFit d minError popSize numSubnets maxLayers maxNodes sample choose rnd draw e s = (.error err, s)) ∨
    ∃ subsets, d.X.length = d.y.length ∧ fitSubsets d.nVars numSubnets sample choose s.subsets = .ok subsets ∧
      ((∃ err, dnFit d minError popSize numSubnets maxLayers maxNodes sample choose rnd draw e s = (.error err, { s with subsets := some subsets })) ∨
      ∃ (P0 : List (DNet ℝ)) (p : Pop (DNet ℝ) (ℝ × ℝ) (ℝ × ℝ) Unit Unit) (rs : List (Rec (DNet ℝ) (ℝ × ℝ) (ℝ × ℝ) Unit Unit)),
        dnCreate rnd popSize numSubnets maxLayers maxNodes subsets = .ok P0 ∧ 2 ≤ P0.length ∧ Represents p rs ∧ DNInv d subsets P0 rs ∧
        dnFit d minError popSize numSubnets maxLayers maxNodes sample choose rnd draw e s = dnFinish d subsets minError p { s with subsets := some subsets }) := by
  unfold dnFit
  split
  · exact .inl ⟨_, rfl⟩
  · rename_i hl
    cases hf : fitSubsets d.nVars numSubnets sample choose s.subsets with
    | error err => exact .inl ⟨_, rfl⟩
    | ok subsets =>
      right
      refine ⟨subsets, by simpa using hl, rfl, ?_⟩
      dsimp only
      cases hc : dnCreate rnd popSize numSubnets maxLayers maxNodes subsets with
      | error err => exact .inl ⟨_, rfl⟩
      | ok nets =>
        dsimp only
        cases hp : (Pop.new 0).add ⟨2, nets⟩ (dnEvaluate d subsets ⟨2, nets⟩) with
        | mk v p =>
          cases v with
          | error err => exact .inl ⟨_, rfl⟩
          | ok v =>
            dsimp only
            cases hev : evolve (dnOps d subsets draw e) e.dPred e.dPrey p with
            | error err => exact .inl ⟨_, rfl⟩
            | ok t =>
              right
              obtain ⟨k1, k2, k3, rs, k4, k5, k6⟩ := dn_initial d subsets draw e nets v p hp t hev
              obtain ⟨⟨rs', T⟩, -, -⟩ := evolve_spec (dnOps d subsets draw e) e.dPred e.dPrey p (by rw [k2]; exact dnOps_surrogate d subsets draw e) _
                (by rw [k2]; exact dn_preserved d subsets draw e nets) rs k4 k3 k6 t hev
              exact ⟨nets, t.pop, rs', rfl, k1, T.repr, T.inv, rfl⟩

theorem dnFinish_cases (d : DNData) (subsets : List (List Nat)) (minError : Bool) (p : Pop (DNet ℝ) (ℝ × ℝ) (ℝ × ℝ) Unit Unit) (s : DNReg)
    (P0 : List (DNet ℝ)) (rs : List (Rec (DNet ℝ) (ℝ × ℝ) (ℝ × ℝ) Unit Unit)) (hr : Represents p rs) (hI : DNInv d subsets P0 rs) :
    (∃ err, dnFinish d subsets minError p s = (.error err, { s with population := some p })) ∨
    (minError = true ∧ ∃ (i : Nat) (q : Rec (DNet ℝ) (ℝ × ℝ) (ℝ × ℝ) Unit Unit) (rows : List (List ℝ)), rs[i]? = some q ∧
      (∀ q' ∈ rs, q.o.1 ≤ q'.o.1) ∧ dnPenult d subsets q.x = .ok rows ∧
      dnFinish d subsets minError p s = (.ok (), ⟨s.subsets, some p, some q.x, some (dnLast d rows), some (dnComplexity subsets q.x), true⟩)) := by
  unfold dnFinish
  dsimp only
  cases hsel : dnSelect minError (p.objectives.map Prod.fst) with
  | error err => exact .inl ⟨err, rfl⟩
  | ok i =>
    right
    have hme : minError = true := by
      cases minError with
      | true => rfl
      | false => simp [dnSelect] at hsel
    subst hme
    simp only [dnSelect, if_true] at hsel
    obtain ⟨ev, he, hle, -⟩ := argminL_spec _ _ hsel
    rw [hr.objs, List.map_map] at he hle
    rw [List.getElem?_map, Option.map_eq_some_iff] at he
    obtain ⟨q, hq, hqe⟩ := he
    have hx : (p.individuals.getD [])[i]? = some q.x := by
      have : p.individuals.getD [] = rs.map Rec.x := by
        rcases hr.inds with h | ⟨h, h'⟩
        · rw [h]; rfl
        · rw [h, h']; rfl
      rw [this, List.getElem?_map, hq]
      rfl
    have ho := (hI.2 q (List.mem_of_getElem? hq)).1
    unfold dnObjectives at ho
    cases hpen : dnPenult d subsets q.x with
    | error err => rw [hpen] at ho; cases ho
    | ok rows =>
      refine ⟨rfl, i, q, rows, hq, ?_, hpen, ?_⟩
      · intro q' hq'
        obtain ⟨j, hj⟩ := List.mem_iff_getElem?.1 hq'
        have := hle j q'.o.1 (by rw [List.getElem?_map, hj]; rfl)
        rw [← hqe] at this
        exact this
      · simp only [hx, hpen]

/-- C85. A `fit` of EvoDN2 that returns: the criterion was "min_error", there were at least two networks; the model is trained; the population kept was
bred from the initial networks, the network kept is a member of it with the least recorded training error, and that error is the loss between the
targets and what `predict` now returns for the training data; its architecture is that of an initial network and fits the subsets of variables. -/
theorem c85_evodn2_fit (d : DNData) (minError : Bool) (popSize numSubnets maxLayers maxNodes : Nat) (sample : Nat → List Nat) (choose : Nat → Nat)
    (rnd : DNRand ℝ) (draw : Nat → Nat → Nat → Nat → DNDraw ℝ) (e : EvolveRand) (s s' : DNReg)
    (h : dnFit d minError popSize numSubnets maxLayers maxNodes sample choose rnd draw e s = (.ok (), s')) :
    minError = true ∧ s'.trained = true ∧ d.X.length = d.y.length ∧ 2 ≤ popSize ∧ ∃ (subsets : List (List Nat)) (P0 : List (DNet ℝ))
      (p : Pop (DNet ℝ) (ℝ × ℝ) (ℝ × ℝ) Unit Unit) (pop : List (DNet ℝ)) (i : Nat) (n : DNet ℝ) (predictions : List ℝ),
      fitSubsets d.nVars numSubnets sample choose s.subsets = .ok subsets ∧ s'.subsets = some subsets ∧
      dnCreate rnd popSize numSubnets maxLayers maxNodes subsets = .ok P0 ∧ s'.population = some p ∧ p.individuals = some pop ∧
      Bred DNBreed P0 pop ∧ p.objectives.length = pop.length ∧ pop[i]? = some n ∧ s'.subnets = some n ∧
      d.X.mapM (dnPredictAt d s') = .ok predictions ∧ p.objectives[i]? = some (d.loss d.y predictions, dnComplexity subsets n) ∧
      (∀ o ∈ p.objectives, d.loss d.y predictions ≤ o.1) ∧ s'.complexity = some (dnComplexity subsets n) ∧
      (∃ a ∈ P0, shape n = shape a) ∧ FitsSubsets subsets n ∧ n.length = numSubnets := by
  rcases dnFit_cases d minError popSize numSubnets maxLayers maxNodes sample choose rnd draw e s with ⟨err, he⟩ | ⟨subsets, hl, hf, ⟨err, he⟩ | ⟨P0, p, rs, hc, h2, hr, hI, he⟩⟩
  · rw [he] at h; simp at h
  · rw [he] at h; simp at h
  · rw [he] at h
    rcases dnFinish_cases d subsets minError p { s with subsets := some subsets } P0 rs hr hI with ⟨err, hfin⟩ | ⟨hme, i, q, rows, hq, hle, hpen, hfin⟩
    · rw [hfin] at h; simp at h
    · rw [hfin] at h
      simp only [Prod.mk.injEq, true_and] at h
      subst h
      obtain ⟨hlen, hP0⟩ := c67_initial_networks rnd popSize numSubnets maxLayers maxNodes subsets P0 hc
      have hmem : q ∈ rs := List.mem_of_getElem? hq
      have hxm : q.x ∈ rs.map Rec.x := List.mem_map.2 ⟨q, hmem, rfl⟩
      obtain ⟨a, ha, hsig⟩ := bred_sigs P0 _ hI.1 q.x hxm
      have hfit := fits_of_sigs hsig (hP0 a ha).2.1
      have hnl : q.x.length = numSubnets := by
        have := congrArg List.length hsig
        simp only [sigs, List.length_map] at this
        rw [this, (hP0 a ha).1]
      have ho := (hI.2 q hmem).1
      simp only [dnObjectives, hpen] at ho
      injection ho with ho
      have hind : p.individuals = some (rs.map Rec.x) := by
        rcases hr.inds with h | ⟨-, h'⟩
        · exact h
        · rw [h'] at hmem; simp at hmem
      have hpred : d.X.mapM (dnPredictAt d (⟨some subsets, some p, some q.x, some (dnLast d rows), some (dnComplexity subsets q.x), true⟩ : DNReg)) =
          .ok (dnTrainPred d rows) := by
        have key : ∀ (last : List ℝ) (xs : List (List ℝ)) (ro : List (List ℝ)), xs.mapM (fun x => feedForward d.act x subsets q.x) = .ok ro →
            xs.mapM (dnPredictAt d (⟨some subsets, some p, some q.x, some last, some (dnComplexity subsets q.x), true⟩ : DNReg)) = .ok (ro.map (dnOutput last)) := by
          intro last xs
          induction xs with
          | nil =>
            intro ro h
            injection h with h
            subst h
            rfl
          | cons x xs ih =>
            intro ro h
            rw [List.mapM_cons] at h ⊢
            cases hff : feedForward d.act x subsets q.x with
            | error err => rw [hff] at h; cases h
            | ok o =>
              rw [hff] at h
              cases hm : xs.mapM (fun x => feedForward d.act x subsets q.x) with
              | error err => rw [hm] at h; cases h
              | ok ys =>
                rw [hm] at h
                change Except.ok (o :: ys) = Except.ok ro at h
                injection h with h
                subst h
                rw [ih ys hm]
                simp only [dnPredictAt, hff]
                rfl
        exact key _ _ _ hpen
      refine ⟨hme, rfl, hl, by omega, subsets, P0, p, rs.map Rec.x, i, q.x, dnTrainPred d rows, hf, rfl, hc, rfl, hind, hI.1, ?_, ?_, rfl, hpred, ?_, ?_, rfl,
        ⟨a, ha, shape_of_sigs hsig⟩, hfit, hnl⟩
      · rw [hr.objs, List.length_map, List.length_map]
      · rw [List.getElem?_map, hq]; rfl
      · rw [hr.objs, List.getElem?_map, hq, Option.map_some, ← ho]
      · intro o hom
        rw [hr.objs] at hom
        obtain ⟨q', hq', rfl⟩ := List.mem_map.1 hom
        have := hle q' hq'
        rw [← ho] at this
        exact this

/-- C85. A `fit` of EvoDN2 that raises leaves `trained` and the fitted layers as they were; a model that was fitted before still predicts what it
predicted, one that was not still cannot predict. -/
theorem c85_evodn2_failed_fit (d : DNData) (minError : Bool) (popSize numSubnets maxLayers maxNodes : Nat) (sample : Nat → List Nat) (choose : Nat → Nat)
    (rnd : DNRand ℝ) (draw : Nat → Nat → Nat → Nat → DNDraw ℝ) (e : EvolveRand) (s s' : DNReg) (err : Err)
    (h : dnFit d minError popSize numSubnets maxLayers maxNodes sample choose rnd draw e s = (.error err, s')) :
    s'.trained = s.trained ∧ s'.subnets = s.subnets ∧ s'.last = s.last ∧
    (s.subsets ≠ none → ∀ x, dnPredictAt d s' x = dnPredictAt d s x) ∧
    (s.subnets = none → ∀ x, dnPredictAt d s' x = .error .attributeError) := by
  have key : s'.trained = s.trained ∧ s'.subnets = s.subnets ∧ s'.last = s.last ∧ (s.subsets ≠ none → s'.subsets = s.subsets) := by
    rcases dnFit_cases d minError popSize numSubnets maxLayers maxNodes sample choose rnd draw e s with ⟨err', he⟩ | ⟨subsets, hl, hf, ⟨err', he⟩ | ⟨P0, p, rs, hc, h2, hr, hI, he⟩⟩
    · rw [he] at h
      simp only [Prod.mk.injEq] at h
      rw [← h.2]
      exact ⟨rfl, rfl, rfl, fun _ => rfl⟩
    · have hsub : s.subsets ≠ none → some subsets = s.subsets := by
        intro hne
        cases hs : s.subsets with
        | none => exact absurd hs hne
        | some sub =>
          rw [hs] at hf
          simp only [fitSubsets, Except.ok.injEq] at hf
          rw [hf]
      rw [he] at h
      simp only [Prod.mk.injEq] at h
      rw [← h.2]
      exact ⟨rfl, rfl, rfl, hsub⟩
    · have hsub : s.subsets ≠ none → some subsets = s.subsets := by
        intro hne
        cases hs : s.subsets with
        | none => exact absurd hs hne
        | some sub =>
          rw [hs] at hf
          simp only [fitSubsets, Except.ok.injEq] at hf
          rw [hf]
      rw [he] at h
      rcases dnFinish_cases d subsets minError p { s with subsets := some subsets } P0 rs hr hI with ⟨err, hfin⟩ | ⟨hme, i, q, rows, hq, hle, hpen, hfin⟩
      · rw [hfin] at h
        simp only [Prod.mk.injEq] at h
        rw [← h.2]
        exact ⟨rfl, rfl, rfl, hsub⟩
      · rw [hfin] at h; simp at h
  obtain ⟨k1, k2, k3, k4⟩ := key
  refine ⟨k1, k2, k3, ?_, ?_⟩
  · intro hne x
    simp only [dnPredictAt, k2, k3, k4 hne]
  · intro hn x
    simp only [dnPredictAt, k2, hn]

/-- C85 fails for EvoDN2 when few offspring find a place: a generation in which fewer than two offspring are placed raises (one offspring is taken for
a network and its subnets for layers, none for a network without subnets). -/
theorem c85_evodn2_few_offspring_violated (d : DNData) (subsets : List (List Nat)) (draw : Nat → Nat → Nat → Nat → DNDraw ℝ) (e : EvolveRand)
    (pc : PPGACfg) (hr : 0 < pc.radius) (hn : 0 < pc.nPred) (s : PPGA (DNet ℝ) (ℝ × ℝ) (ℝ × ℝ) Unit Unit) (h : Synced pc.nPred 2 0 s)
    (mating : List (Int × Int)) (off : Batch (DNet ℝ)) (M : Lat) (placed : List Nat)
    (h1 : (s.sel.movePrey (e.prey s.clock) pc.preyMaxMoves).1 = .ok mating) (h2 : dnMate draw (s.clock + 1) s.pop mating = .ok off)
    (h3 : (s.sel.movePrey (e.prey s.clock) pc.preyMaxMoves).2.placeOffspring (e.placeY (s.clock + 2)) (e.placeX (s.clock + 2)) pc.attempts
      off.rows.length = .ok (M, placed)) (hp : placed.length < 2) :
    ∃ err t, ppgaNextGen (dnOps d subsets draw e) pc s = (.error err, t) := by
  obtain ⟨rs, r1, r2⟩ := h.recs
  rcases hq : ppgaNextGen (dnOps d subsets draw e) pc s with ⟨v, t⟩
  cases v with
  | error err => exact ⟨err, t, rfl⟩
  | ok v =>
    exfalso
    obtain ⟨rs', g⟩ := gen_step _ pc 2 (dnOps_surrogate d subsets draw e) hr hn s t rs r1 r2 h hq
    obtain ⟨-, mating', M', off', placed', k1, k2, k3, k4⟩ := dn_gen d subsets draw e [] pc s t rs rs' r1 g
    rw [h1] at k2
    injection k2 with k2
    subst k2
    rw [h2] at k1
    injection k1 with k1
    subst k1
    rw [h3] at k3
    simp only [Except.ok.injEq, Prod.mk.injEq] at k3
    rw [← k3.2] at k4
    omega

/-- A full lattice has no empty cell. -/
theorem full_lattice {L : Lat} {a n : Nat} (h : Consistent L a n) (hfull : a + n = L.h * L.w) (q : Cell) (hq : InGrid L q) : L.cell q.1 q.2 ≠ 0 := by
  have hpred : ∀ k : Fin a, ∃ p : Cell, L.preds[k.1]? = some p := fun k =>
    ⟨L.preds[k.1]'(by rw [h.preds]; exact k.2), List.getElem?_eq_getElem _⟩
  have hall : ∀ k : Fin (a + n), ∃ p : Cell, InGrid L p ∧ L.cell p.1 p.2 = if k.1 < a then -((k.1 : Int) + 1) else ((k.1 : Int) - a) + 1 := by
    intro k
    by_cases hk : k.1 < a
    · obtain ⟨p, hp⟩ := hpred ⟨k.1, hk⟩
      obtain ⟨h1, h2⟩ := h.pred k.1 p hp
      exact ⟨p, h1, by rw [if_pos hk]; exact h2⟩
    · obtain ⟨p, -, h1, h2⟩ := h.prey (k.1 - a) (by omega)
      refine ⟨p, h1, ?_⟩
      rw [if_neg hk, h2]
      omega
  choose f hf1 hf2 using hall
  have hf : ∀ k, (f k).1.toNat < L.h ∧ (f k).2.toNat < L.w := by
    intro k
    obtain ⟨⟨e1, e2⟩, e3, e4⟩ := hf1 k
    constructor <;> omega
  let g : Fin (a + n) → Fin L.h × Fin L.w := fun k => (⟨(f k).1.toNat, (hf k).1⟩, ⟨(f k).2.toNat, (hf k).2⟩)
  have hcell : ∀ k : Fin (a + n), L.cell (g k).1.1 (g k).2.1 = if k.1 < a then -((k.1 : Int) + 1) else ((k.1 : Int) - a) + 1 := by
    intro k
    obtain ⟨⟨e1, e2⟩, e3, e4⟩ := hf1 k
    rw [← hf2 k]
    simp only [g]
    rw [Int.toNat_of_nonneg e1, Int.toNat_of_nonneg e3]
  have hinj : Function.Injective g := by
    intro x y hxy
    have hx := hcell x
    rw [hxy, hcell y] at hx
    have := x.2
    have := y.2
    apply Fin.ext
    split at hx <;> split at hx <;> omega
  have hsur : Function.Surjective g := by
    have hbij : Function.Bijective g := by
      rw [Fintype.bijective_iff_injective_and_card]
      exact ⟨hinj, by simp [hfull]⟩
    exact hbij.2
  obtain ⟨⟨q1, q2⟩, q3, q4⟩ := hq
  obtain ⟨k, hk⟩ := hsur (⟨q.1.toNat, by omega⟩, ⟨q.2.toNat, by omega⟩)
  have := hcell k
  rw [hk] at this
  simp only [Int.toNat_of_nonneg q1, Int.toNat_of_nonneg q3] at this
  rw [this]
  have := k.2
  split <;> omega

/-- C85 fails for large populations: with 3550 networks or more EvoDN2 can never be trained, whatever the data and the random draws: the lattice is full from
the start, no offspring finds a place, and the first generation raises. -/
theorem c85_evodn2_full_lattice_violated (d : DNData) (minError : Bool) (popSize numSubnets maxLayers maxNodes : Nat) (hpop : 3550 ≤ popSize)
    (sample : Nat → List Nat) (choose : Nat → Nat) (rnd : DNRand ℝ) (draw : Nat → Nat → Nat → Nat → DNDraw ℝ) (e : EvolveRand) (s : DNReg) :
    ∃ err s', dnFit d minError popSize numSubnets maxLayers maxNodes sample choose rnd draw e s = (.error err, s') := by
  rcases hq : dnFit d minError popSize numSubnets maxLayers maxNodes sample choose rnd draw e s with ⟨v, s'⟩
  cases v with
  | error err => exact ⟨err, s', rfl⟩
  | ok v =>
    exfalso
    unfold dnFit at hq
    split at hq
    · simp at hq
    · cases hf : fitSubsets d.nVars numSubnets sample choose s.subsets with
      | error err => rw [hf] at hq; simp at hq
      | ok subsets =>
        rw [hf] at hq
        dsimp only at hq
        cases hc : dnCreate rnd popSize numSubnets maxLayers maxNodes subsets with
        | error err => rw [hc] at hq; simp at hq
        | ok nets =>
          rw [hc] at hq
          dsimp only at hq
          cases hp : (Pop.new 0).add ⟨2, nets⟩ (dnEvaluate d subsets ⟨2, nets⟩) with
          | mk v p =>
            rw [hp] at hq
            cases v with
            | error err => simp at hq
            | ok v =>
              dsimp only at hq
              cases hev : evolve (dnOps d subsets draw e) e.dPred e.dPrey p with
              | error err => rw [hev] at hq; simp at hq
              | ok t =>
                obtain ⟨k1, k2, k3, rs, k4, k5, k6⟩ := dn_initial d subsets draw e nets v p hp t hev
                have hlen := (c67_initial_networks rnd popSize numSubnets maxLayers maxNodes subsets nets hc).1
                have hne : p.individuals ≠ none := by
                  rcases k4.inds with h | ⟨-, h⟩
                  · rw [h]; simp
                  · rw [h] at k5; simp at k5; omega
                by_cases hbig : 3600 < ppgaDefaults.nPred + rs.length
                · rw [evolve, evolveTo, (c48_construct_fails (ppgaFor 100) 10 10 e.dPred e.dPrey).2 p rs k4 hne hbig] at hev
                  cases hev
                · have h50 : ppgaDefaults.nPred = 50 := rfl
                  have hrs : rs.length = 3550 := by omega
                  cases hi : p.individuals with
                  | none => exact hne hi
                  | some inds =>
                  have hil : inds.length = 3550 := by rw [Represents_length k4 hi, hrs]
                  obtain ⟨L, a1, a2, a3, a4⟩ := (c48_init 60 60 ((List.range ppgaDefaults.nPred).map e.dPred) ((List.range inds.length).map e.dPrey)).1 (by simp [hil, h50])
                  simp only [List.length_map, List.length_range, hil, h50] at a2
                  obtain ⟨σ, b1, b2, b3, b4, b5, -, -, b8, b9, b10⟩ := c48_construct ppgaDefaults 10 10 e.dPred e.dPrey p rs k4 hne (by omega)
                  have hsel : σ.sel = L := by
                    simp only [ppgaConstruct, hi, a1] at b1
                    injection b1 with b1
                    rw [← b1]
                  rw [k2, k3] at b2
                  have hgen : ∀ τ : PPGA (DNet ℝ) (ℝ × ℝ) (ℝ × ℝ) Unit Unit, τ.sel = L → Synced ppgaDefaults.nPred 2 0 τ →
                      ∀ t', ppgaNextGen (dnOps d subsets draw e) ppgaDefaults τ ≠ (.ok (), t') := by
                    intro τ hτ hsy t' ht'
                    obtain ⟨rs0, r1, r2⟩ := hsy.recs
                    obtain ⟨rs', g⟩ := gen_step _ ppgaDefaults 2 (dnOps_surrogate d subsets draw e) (by decide) (by decide) τ t' rs0 r1 r2 hsy ht'
                    obtain ⟨-, mating', M', off', placed', g1, g2, g3, g4⟩ := dn_gen d subsets draw e [] ppgaDefaults τ t' rs0 rs' r1 g
                    rw [hτ] at g3
                    obtain ⟨m1, m2, m3, m4, -⟩ := c48_move_prey a2 (e.prey τ.clock) ppgaDefaults.preyMaxMoves
                    generalize (L.movePrey (e.prey τ.clock) ppgaDefaults.preyMaxMoves).2 = N at g3 m1 m2 m3 m4
                    obtain ⟨M2, placed2, locs, c1, c2, c3, c4, c5, c6, c7, c8, c9, c10⟩ := c48_place_offspring m1 (by omega) (by omega)
                      (e.placeY (τ.clock + 2)) (e.placeX (τ.clock + 2)) ppgaDefaults.attempts off'.rows.length
                    rw [c1] at g3
                    simp only [Except.ok.injEq, Prod.mk.injEq] at g3
                    rw [← g3.2] at g4
                    cases hl : locs with
                    | nil => rw [hl] at c7; simp at c7; omega
                    | cons q qs =>
                      have hz := c10 q (by rw [hl]; simp)
                      have hgrid : InGrid N q := by
                        obtain ⟨pp, e1, e2, -⟩ := c2.prey N.preys.length (by rw [m1.preys]; omega)
                        rw [c6, hl, List.getElem?_append_right (by omega)] at e1
                        simp only [Nat.sub_self, List.map_cons, List.getElem?_cons_zero, Option.some.injEq] at e1
                        rw [e1]
                        unfold InGrid at e2 ⊢
                        rw [c3, c4] at e2
                        exact e2
                      exact full_lattice m1 (by rw [m3, m4, a3, a4]) q hgrid hz
                  have hcont : σ.continueEvolution = true := by simp [EA.continueEvolution, EA.checkFE, b9, b5, b10]
                  rw [evolve, evolveTo, show ppgaFor 100 = ppgaDefaults from rfl, b1] at hev
                  simp only [ppgaDrive, hcont, if_true] at hev
                  cases hit : ppgaIterate (dnOps d subsets draw e) ppgaDefaults σ with
                  | mk i1 i2 =>
                    rw [hit] at hev
                    cases i1 with
                    | error err => simp at hev
                    | ok v =>
                      unfold ppgaIterate at hit
                      rw [b8] at hit
                      have hcont2 : ({ σ with genIter := 0 } : PPGA (DNet ℝ) (ℝ × ℝ) (ℝ × ℝ) Unit Unit).continueIteration = true := by
                        simp [EA.continueIteration, EA.checkFE, b8, b10]
                      simp only [EA.loop, hcont2, if_true] at hit
                      have hng := hgen { σ with genIter := 0 } hsel ⟨b2.recs, b2.ndim, b2.ncons, b2.rows, b2.cols⟩
                      cases hn : ppgaNextGen (dnOps d subsets draw e) ppgaDefaults { σ with genIter := 0 } with
                      | mk n1 n2 =>
                        rw [hn] at hit
                        cases n1 with
                        | error err => simp at hit
                        | ok v => exact hng n2 hn

/-- C85 fails for small populations too: with fewer than two networks EvoDN2 can never be trained. -/
theorem c85_evodn2_small_population_violated (d : DNData) (minError : Bool) (popSize numSubnets maxLayers maxNodes : Nat) (hpop : popSize < 2)
    (sample : Nat → List Nat) (choose : Nat → Nat) (rnd : DNRand ℝ) (draw : Nat → Nat → Nat → Nat → DNDraw ℝ) (e : EvolveRand) (s : DNReg) :
    ∃ err s', dnFit d minError popSize numSubnets maxLayers maxNodes sample choose rnd draw e s = (.error err, s') := by
  rcases hq : dnFit d minError popSize numSubnets maxLayers maxNodes sample choose rnd draw e s with ⟨v, s'⟩
  cases v with
  | error err => exact ⟨err, s', rfl⟩
  | ok v =>
    have := (c85_evodn2_fit d minError popSize numSubnets maxLayers maxNodes sample choose rnd draw e s s' hq).2.2.2.1
    omega

end dn
end Verif.Props
