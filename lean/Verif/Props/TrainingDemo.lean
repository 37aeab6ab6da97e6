import Verif.Props.Training

/-!
# Concrete trainings

A choice of random outcomes for which a whole training of 100 generations returns: predators fill a part of the first row and never move, prey start next to
each other in row 10 and never move, every generation places two offspring on the next free cells.  It shows that the hypotheses of the theorems about
trainings that return are met.
-/

open scoped BigOperators
open Classical

namespace Verif.Props
open Verif Verif.Spec
open _root_.Spec (Rec Represents EvalOK Gens names rowsSet rowsAt newRecs inRange)

/-- The place of prey number `j`. -/
def spot (j : Nat) : Cell := (((10 + j / 60 : Nat) : Int), ((j % 60 : Nat) : Int))

/-- The random outcomes. -/
def stillRand : EvolveRand where
  dPred := fun _ => 0
  dPrey := fun _ => 550
  prey := fun _ => ⟨fun _ => false, fun _ _ => 0, fun _ _ => 0, fun _ => 0⟩
  placeY := fun clock i => if i < 2 then 10 + (2 + 2 * (clock / 5) + i) / 60 else 10
  placeX := fun clock i => if i < 2 then (2 + 2 * (clock / 5) + i) % 60 else 0
  pred := fun _ => ⟨fun _ _ => 1, fun _ _ => 1⟩
  nds := fun fits => [List.replicate fits.length true]

/-- The lattice of the demonstration with `n` prey. -/
structure StillLat (L : Lat) (n : Nat) : Prop where
  h : L.h = 60
  w : L.w = 60
  ok : Consistent L 50 n
  preys : L.preys = (List.range n).map (fun j => some (spot j))
  preds : L.preds = (List.range 50).map (fun (k : Nat) => ((0 : Int), (k : Int)))

theorem spot_inj {i j : Nat} (h : spot i = spot j) : i = j := by
  simp only [spot, Prod.mk.injEq, Nat.cast_inj] at h
  omega

theorem still_init_check : (match Lat.init 60 60 ((List.range 50).map (fun _ => 0)) ((List.range 2).map (fun _ => 550)) with
    | .ok L => decide (L.preys = [some (10, 0), some (10, 1)] ∧ L.preds = (List.range 50).map (fun (k : Nat) => ((0 : Int), (k : Int))))
    | .error _ => false) = true := by decide +kernel

theorem still_init : ∃ L, Lat.init 60 60 ((List.range 50).map stillRand.dPred) ((List.range 2).map stillRand.dPrey) = .ok L ∧ StillLat L 2 := by
  obtain ⟨L, a1, a2, a3, a4⟩ := (c48_init 60 60 ((List.range 50).map (fun _ => 0)) ((List.range 2).map (fun _ => 550))).1 (by simp)
  have := still_init_check
  rw [a1] at this
  simp only [decide_eq_true_eq] at this
  refine ⟨L, a1, a3, a4, by simpa using a2, ?_, this.2⟩
  rw [this.1]
  rfl

theorem preyLoop_still (r : PreyRand) (hr : ∀ k, r.go k = false) (maxMoves left : Nat) : ∀ (k : Nat) (L M : Lat) (m : List (Int × Int)),
    Lat.preyLoop r maxMoves left k L = .ok (M, m) → M = L := by
  induction left with
  | zero =>
    intro k L M m h
    simp only [Lat.preyLoop, Except.ok.injEq, Prod.mk.injEq] at h
    exact h.1.symm
  | succ n ih =>
    intro k L M m h
    simp only [Lat.preyLoop, Lat.preyTurn, hr, Bool.false_eq_true, if_false] at h
    cases hc : L.chooseMate r k with
    | error e => rw [hc] at h; simp at h
    | ok ms =>
      rw [hc] at h
      dsimp only at h
      cases hp : Lat.preyLoop r maxMoves n (k + 1) L with
      | error e => rw [hp] at h; simp at h
      | ok q =>
        obtain ⟨N, ms'⟩ := q
        rw [hp] at h
        simp only [Except.ok.injEq, Prod.mk.injEq] at h
        rw [← h.1]
        exact ih _ _ _ _ hp

theorem still_preys {L : Lat} {n : Nat} (h : StillLat L n) (j : Nat) (hj : j < n) : L.preys[j]? = some (some (spot j)) := by
  rw [h.preys]
  simp [hj]

/-- Nobody moves, and there is a pair to mate. -/
theorem still_movePrey {L : Lat} {n : Nat} (h : StillLat L n) (hn : 2 ≤ n) (clock maxMoves : Nat) :
    ∃ m, L.movePrey (stillRand.prey clock) maxMoves = (.ok m, L) ∧ m ≠ [] ∧
      ∀ ab ∈ m, ∃ a b : Nat, ab = ((a : Int), (b : Int)) ∧ a < n ∧ b < n := by
  obtain ⟨h1, h2, h3, h4⟩ := consistent_iff.1 h.ok
  obtain ⟨M, m, a1, a2, a3, a4, a5, a6, a7, a8, a9, a10, a11, a12⟩ := preyLoop_spec (stillRand.prey clock) maxMoves L.preys.length 0 L h1 (by omega) h4
  have hM := preyLoop_still _ (fun _ => rfl) _ _ _ _ _ _ a1
  subst hM
  have hne : m ≠ [] := by
    rintro rfl
    refine a12 0 1 (spot 0) (spot 1) (le_refl _) (by simp) (by decide) (still_preys h 0 (by omega)) ?_ ?_
    · simp only [show ¬ (1 < 0) by decide, if_false]
      exact still_preys h 1 (by omega)
    · rw [h.h, h.w]
      exact ⟨0, 1, by decide, by decide, by decide, by decide⟩
  have hmv : M.movePrey (stillRand.prey clock) maxMoves = (.ok m, M) := by
    unfold Lat.movePrey
    rw [a1]
    cases m with
    | nil => exact absurd rfl hne
    | cons x xs => rfl
  refine ⟨m, hmv, hne, ?_⟩
  intro ab hab
  obtain ⟨a, b, p, q, e, b1, b2, -⟩ := (c49_mates h.ok (stillRand.prey clock) maxMoves m (by rw [hmv])).2.1 ab hab
  exact ⟨a, b, e, b1, b2⟩

theorem still_occupied {L : Lat} {n : Nat} (h : StillLat L n) (hn : 0 < n) : InGrid L (10, 0) ∧ L.cell 10 0 ≠ 0 := by
  obtain ⟨p, hp, hg, hc⟩ := h.ok.prey 0 hn
  rw [still_preys h 0 hn] at hp
  injection hp with hp
  injection hp with hp
  subst hp
  exact ⟨hg, by rw [show L.cell 10 0 = _ from hc]; decide⟩

theorem still_free {L : Lat} {n : Nat} (h : StillLat L n) (j : Nat) (hj : n ≤ j) (hj' : j < 300) : InGrid L (spot j) ∧ L.cell (spot j).1 (spot j).2 = 0 := by
  have hg : InGrid L (spot j) := by
    unfold InGrid spot
    rw [h.h, h.w]
    simp only
    omega
  refine ⟨hg, h.ok.empty _ hg ?_ ?_⟩
  · intro k hk
    rw [h.preds] at hk
    by_cases hk' : k < 50
    · simp [hk', spot] at hk
      omega
    · simp [hk'] at hk
  · intro k hk
    rw [h.preys] at hk
    by_cases hk' : k < n
    · simp [hk'] at hk
      have := spot_inj hk
      omega
    · simp [hk'] at hk

/-- The first two offspring find their places, the others none. -/
theorem still_place {L : Lat} {n : Nat} (h : StillLat L n) (hn : 2 ≤ n) (hn' : n < 250) (y x : Nat → Nat) (attempts : Nat) (ha : 0 < attempts)
    (hy : ∀ i, y i = if i < 2 then 10 + (n + i) / 60 else 10) (hx : ∀ i, x i = if i < 2 then (n + i) % 60 else 0) (k : Nat) :
    ∃ M, L.placeOffspring y x attempts (k + 2) = .ok (M, [0, 1]) ∧ StillLat M (n + 2) := by
  have rest : ∀ (k i : Nat) (M : Lat) (pl : List Nat), 2 ≤ i → M.h = 60 → M.w = 60 → InGrid M (10, 0) → M.cell 10 0 ≠ 0 →
      Lat.placeLoop y x attempts k i (M, pl) = .ok (M, pl) := by
    intro k
    induction k with
    | zero => intros; rfl
    | succ k ih =>
      intro i M pl hi hh hw hg hc
      have e1 : (((y i % M.h : Nat) : Int), ((x i % M.w : Nat) : Int)) = ((10 : Int), (0 : Int)) := by
        rw [hy, hx, if_neg (by omega), if_neg (by omega), hh, hw]
        decide
      simp only [Lat.placeLoop]
      rw [if_neg (by omega), e1, placeTries_occupied i (10, 0) attempts pl hg hc]
      exact ih (i + 1) M pl (by omega) hh hw hg hc
  have one : ∀ (k i : Nat) (M : Lat) (pl : List Nat), i < 2 → StillLat M (n + i) →
      ∃ N, Lat.placeLoop y x attempts (k + 1) i (M, pl) = Lat.placeLoop y x attempts k (i + 1) (N, pl ++ [i]) ∧ StillLat N (n + i + 1) := by
    intro k i M pl hi hM
    have e1 : (((y i % M.h : Nat) : Int), ((x i % M.w : Nat) : Int)) = spot (n + i) := by
      rw [hy, hx, if_pos hi, if_pos hi, hM.h, hM.w]
      unfold spot
      rw [Nat.mod_eq_of_lt (by omega : 10 + (n + i) / 60 < 60), Nat.mod_mod]
    obtain ⟨f1, f2⟩ := still_free hM (n + i) (le_refl _) (by omega)
    obtain ⟨c1, c2, c3, c4⟩ := consistent_iff.1 hM.ok
    obtain ⟨t1, t2⟩ := placeTries_spec i (spot (n + i)) attempts c1 pl f1
    rw [if_pos ⟨ha, f2⟩] at t1 t2
    refine ⟨{ M with cell := upd M.cell (spot (n + i)) ((M.preys.length : Int) + 1), preys := M.preys ++ [some (spot (n + i))] }, ?_, hM.h, hM.w,
      consistent_iff.2 ⟨t2, c2, ?_, ?_⟩, ?_, hM.preds⟩
    · simp only [Lat.placeLoop]
      rw [if_neg (by rw [hM.h, hM.w]; decide), e1, t1]
    · simp [c3]
    · intro z hz
      rcases List.mem_append.1 hz with hz | hz
      · exact c4 z hz
      · simp only [List.mem_singleton] at hz; subst hz; simp
    · dsimp only
      rw [hM.preys, List.range_succ, List.map_append]
      rfl
  obtain ⟨M, m1, m2⟩ := one (k + 1) 0 L [] (by decide) h
  obtain ⟨N, n1, n2⟩ := one k 1 M [0] (by decide) m2
  refine ⟨N, ?_, n2⟩
  have ho := still_occupied n2 (by omega)
  unfold Lat.placeOffspring
  rw [m1]
  simp only [List.nil_append]
  rw [n1]
  exact rest k 2 N [0, 1] (le_refl _) n2.h n2.w ho.1 ho.2

/-- No prey is within the reach of a predator, so a predator whose draws point at itself stays. -/
theorem still_predTurn {F : Type} (obj : F → ℝ × ℝ) (fits : List F) (wt : ℝ) {L : Lat} {n : Nat} (h : StillLat L n) (hn : n < 300) (k : Nat) (hk : k < 50) :
    Lat.predTurn obj fits wt 3 L k 1 1 = .ok (L, []) := by
  have hp : L.preds[k]? = some ((0 : Int), (k : Int)) := by rw [h.preds, List.getElem?_map, List.getElem?_range hk]; rfl
  obtain ⟨hg, hc⟩ := h.ok.pred k _ hp
  obtain ⟨c1, c2, c3, c4⟩ := consistent_iff.1 h.ok
  have hnone : (neighbours L.h L.w L.cell 0 k 3).entries.filter (fun v => decide (0 < v)) = [] := by
    rw [List.filter_eq_nil_iff]
    intro v hv hpos
    simp only [decide_eq_true_eq] at hpos
    obtain ⟨i, j, hi, hj, rfl⟩ := mem_entries.1 hv
    simp only [neighbours] at hi hj
    rw [h.h] at hi
    rw [h.w] at hj
    rw [neighbours_at] at hpos
    have hin : InGrid L (((0 : Int) + (i : Int) - 1) % L.h, ((k : Int) + (j : Int) - 1) % L.w) := by
      unfold InGrid
      rw [h.h, h.w]
      simp only
      omega
    obtain ⟨m, hm⟩ := c1.prey_of_pos hin hpos
    rw [h.preys] at hm
    by_cases hmn : m < n
    · simp [hmn, spot] at hm
      rw [h.h] at hm
      omega
    · simp [hmn] at hm
  unfold Lat.predTurn
  rw [hp]
  dsimp only
  rw [hnone]
  dsimp only
  unfold Lat.predWalk
  have hr : (neighbours L.h L.w L.cell 0 k 3).rows = 3 := by simp [neighbours, h.h]
  have hcl : (neighbours L.h L.w L.cell 0 k 3).cols = 3 := by simp [neighbours, h.w]
  rw [hr, hcl, if_neg (by decide)]
  dsimp only
  rw [neighbours_at, h.h, h.w]
  rw [if_pos]
  simp only [show (1 % 3 : Nat) = 1 by decide, Nat.cast_one]
  have e1 : ((0 : Int) + 1 - 1) % ((60 : Nat) : Int) = 0 := by decide
  have e2 : ((k : Int) + 1 - 1) % ((60 : Nat) : Int) = k := by omega
  rw [e1, e2]
  dsimp only at hc
  rw [hc]
  omega

theorem still_predLoop {F : Type} (obj : F → ℝ × ℝ) (fits : List F) (m moves clock : Nat) {L : Lat} {n : Nat} (h : StillLat L n) (hn : n < 300)
    (left : Nat) : ∀ k, k + left ≤ 50 → Lat.predLoop obj fits m 3 moves (stillRand.pred clock) left k L = .ok (L, []) := by
  have mv : ∀ (wt : ℝ) (k : Nat), k < 50 → ∀ (l i : Nat), Lat.predMoves obj fits wt 3 (stillRand.pred clock) k l i L = .ok (L, []) := by
    intro wt k hk l
    induction l with
    | zero => intro i; rfl
    | succ l ih =>
      intro i
      simp only [Lat.predMoves]
      rw [show (stillRand.pred clock).dy k i = 1 from rfl, show (stillRand.pred clock).dx k i = 1 from rfl, still_predTurn obj fits wt h hn k hk]
      dsimp only
      rw [ih]
      rfl
  induction left with
  | zero => intro k _; rfl
  | succ l ih =>
    intro k hk
    simp only [Lat.predLoop]
    rw [mv _ k (by omega)]
    dsimp only
    rw [ih (k + 1) (by omega)]
    rfl

theorem still_sort {F : Type} (fits : List F) : ∃ dom, IsFrontSort dom fits.length (([List.replicate fits.length true] : List (List Bool)).map whereIdx) := by
  refine ⟨fun _ _ => False, ?_, fun _ _ _ _ _ _ _ h => h.elim, ?_⟩
  · simp only [List.map_cons, List.map_nil, List.flatten_cons, List.flatten_nil, List.append_nil]
    rw [List.perm_ext_iff_of_nodup ((whereIdx_pairwise _).imp (fun h => Nat.ne_of_lt h)) List.nodup_range]
    intro i
    rw [mem_whereIdx, List.mem_range, List.getElem?_replicate]
    simp
  · intro i f g x _ hg
    simp at hg

theorem rowsAt_all {α : Type} (l : List α) : rowsAt (fun k => !decide (k ∈ ([] : List Nat))) l = l := by
  unfold rowsAt
  simp

section generic
variable {X O F C U : Type}

/-- The algorithm draws what `stillRand` says. -/
structure StillOps (po : PPGAOps X O F C U) : Prop where
  prey : po.prey = stillRand.prey
  placeY : po.placeY = stillRand.placeY
  placeX : po.placeX = stillRand.placeX
  pred : po.pred = stillRand.pred
  nds : po.nds = fun fits => [List.replicate fits.length true]

/-- Mating works, with at least two offspring, and the first two can be evaluated. -/
def Fertile (d : Nat) (po : PPGAOps X O F C U) (Inv : List (Rec X O F C U) → Prop) : Prop :=
  ∀ s rs mating, Training d 50 Inv s rs → rs ≠ [] → s.gen < 100 → mating ≠ [] →
    (∀ ab ∈ mating, ∃ a b : Nat, ab = ((a : Int), (b : Int)) ∧ a < rs.length ∧ b < rs.length) →
    ∃ x y rest r, po.mate (s.clock + 1) s.pop mating = .ok ⟨d, x :: y :: rest⟩ ∧ po.evaluate (s.clock + 3) ⟨d, [x, y]⟩ = .ok r ∧ r.objectives.length = 2

theorem still_gen [Inhabited O] [Inhabited F] (target : Nat) (po : PPGAOps X O F C U) (d : Nat) (hc : SurrogateOps d po) (hs : StillOps po)
    (Inv : List (Rec X O F C U) → Prop) (hp : Preserved d (ppgaFor target) po Inv) (hf : Fertile d po Inv) (s : PPGA X O F C U)
    (rs : List (Rec X O F C U)) (h : Training d 50 Inv s rs) (hl : StillLat s.sel (2 + 2 * s.gen)) (hg : s.gen < 100) :
    ∃ t rs', ppgaNextGen po (ppgaFor target) s = (.ok (), t) ∧ Training d 50 Inv t rs' ∧ StillLat t.sel (2 + 2 * t.gen) ∧ t.cfg = s.cfg ∧ t.iter = s.iter ∧
      t.gen = s.gen + 1 ∧ t.genIter = s.genIter + 1 := by
  have hlen : rs.length = 2 + 2 * s.gen := by rw [← h.lat.preys, hl.ok.preys]
  suffices hsuf : ∃ t, ppgaNextGen po (ppgaFor target) s = (.ok (), t) ∧ StillLat t.sel (2 + 2 * s.gen + 2) by
    obtain ⟨t, ht, hlt⟩ := hsuf
    obtain ⟨rs', g⟩ := gen_step po (ppgaFor target) d hc (Nat.succ_pos _) (Nat.succ_pos _) s t rs h.repr h.lat h.synced ht
    have hg1 := g.gen
    have hg2 := g.clock
    have hg3 := h.clock
    refine ⟨t, rs', ht, ⟨g.repr, g.lat, g.synced, by omega, by rw [g.cfg]; exact h.total, hp s t rs rs' h g⟩, ?_, g.cfg, g.iter, g.gen, g.genIter⟩
    rw [hg1]
    exact hlt
  obtain ⟨mating, m1, m2, m3⟩ := still_movePrey hl (by omega) s.clock (ppgaFor target).preyMaxMoves
  obtain ⟨x, y, rest, r, f1, f2, f3⟩ := hf s rs mating h (by intro e; rw [e] at hlen; simp at hlen; omega) hg m2 (by rw [hlen]; exact m3)
  obtain ⟨M, p1, p2⟩ := still_place hl (by omega) (by omega) (po.placeY (s.clock + 2)) (po.placeX (s.clock + 2)) (ppgaFor target).attempts (Nat.succ_pos _)
    (by intro i
        rw [hs.placeY]
        have := h.clock
        simp only [stillRand, show (s.clock + 2) / 5 = s.gen by omega])
    (by intro i
        rw [hs.placeX]
        have := h.clock
        simp only [stillRand, show (s.clock + 2) / 5 = s.gen by omega]) rest.length
  have hrl : (x :: y :: rest).length = rest.length + 2 := rfl
  rw [← hrl] at p1
  have hsame : ppgaAdd po (ppgaFor target) { s with clock := s.clock + 1 + 1 } ⟨d, x :: y :: rest⟩ =
      ppgaAdd (patched po) (ppgaFor target) { s with clock := s.clock + 1 + 1 } ⟨d, x :: y :: rest⟩ := by
    have hm : compress ((setMask (List.replicate (x :: y :: rest).length true) [0, 1] false).map (fun b => !b)) (x :: y :: rest) = [x, y] := by
      rw [placed_mask _ [0, 1] (by intro j hj; simp at hj; simp; omega) _ rfl]
      unfold rowsAt
      have h0 : (rest.zipIdx 2).filter (fun q => decide (q.2 ∈ ([0, 1] : List Nat))) = [] := by
        rw [List.filter_eq_nil_iff]
        rintro ⟨z, i⟩ hz
        have := List.le_snd_of_mem_zipIdx hz
        simp at this ⊢
        omega
      simp only [List.zipIdx_cons, List.filter_cons, Nat.zero_add, Nat.reduceAdd]
      rw [h0]
      simp
    have he : (patched po).evaluate (s.clock + 3) ⟨d, [x, y]⟩ = .ok r := by simp only [patched, f2]; rw [if_pos]; simpa using f3
    unfold ppgaAdd
    change (match s.sel.placeOffspring (po.placeY (s.clock + 2)) (po.placeX (s.clock + 2)) (ppgaFor target).attempts (x :: y :: rest).length with
        | .error e => _ | .ok (L, placed) => _) = (match s.sel.placeOffspring (po.placeY (s.clock + 2)) (po.placeX (s.clock + 2)) (ppgaFor target).attempts (x :: y :: rest).length with
        | .error e => _ | .ok (L, placed) => _)
    rw [p1]
    dsimp only
    rw [hm]
    rw [show s.clock + 1 + 1 + 1 = s.clock + 3 from rfl, he, f2]
  obtain ⟨a, placed, r', a1, -, -, a4, a5, a6, a7, a8, a9, a10, a11, a12, a13, a14, a15, a16, a17, a18⟩ :=
    c48_add (patched po) (ppgaFor target) d 0 (patched_contract d po hc) { s with clock := s.clock + 1 + 1 } rs h.repr h.lat h.synced.rows h.synced.cols
      h.synced.ndim h.synced.ncons ⟨d, x :: y :: rest⟩ rfl
  have ha18 : s.sel.placeOffspring (po.placeY (s.clock + 2)) (po.placeX (s.clock + 2)) (ppgaFor target).attempts (x :: y :: rest).length = .ok (a.sel, placed) := a18
  rw [p1] at ha18
  simp only [Except.ok.injEq, Prod.mk.injEq] at ha18
  obtain ⟨hM, hpl⟩ := ha18
  subst hpl
  subst hM
  generalize hnew : rs ++ newRecs (rowsAt (fun k => decide (k ∈ ([0, 1] : List Nat))) (x :: y :: rest)) r' = rs1 at a5 a6
  have hlen1 : rs1.length = 2 + 2 * s.gen + 2 := by rw [← a6.preys, p2.ok.preys]
  have hkill : ∃ b : PPGA X O F C U, ppgaKill po (ppgaFor target) a = (.ok (), b) ∧ Represents b.pop rs1 ∧ StillLat b.sel (2 + 2 * s.gen + 2) := by
    obtain ⟨k1, k2⟩ := c56_kill po (ppgaFor target) (Nat.succ_pos _) a rs1 a5 a7 a6
    by_cases hgk : a.gen % (ppgaFor target).killInterval = 0
    · obtain ⟨b, b1, b2, b3, b4, b5, b6, b7, b8, b9, -⟩ := k2 hgk
      have hsel : ppgaSelect po.nds a.pop.fitness (ppgaFor target).maxRank = [] := by
        obtain ⟨dom, hd⟩ := still_sort a.pop.fitness
        have := (c56_select po.nds a.pop.fitness dom (by rw [hs.nds]; exact hd) (ppgaFor target).maxRank).2
        rw [List.eq_nil_iff_forall_not_mem]
        intro i hi
        obtain ⟨k, f, hk, -, hlt⟩ := (this i).1 hi
        rw [hs.nds] at hk
        have : k < 1 := by simpa using (List.getElem?_eq_some_iff.1 hk).1
        simp only [ppgaFor, ppgaDefaults] at hlt
        omega
      rw [hsel] at b2 b5 b9
      rw [rowsAt_all] at b2 b5 b9
      exact ⟨b, b1, b2, by rw [b6]; exact p2.h, by rw [b7]; exact p2.w, by rw [← hlen1]; exact b9, by rw [b5]; exact p2.preys, by rw [b8]; exact p2.preds⟩
    · exact ⟨a, k1 hgk, a5, p2⟩
  obtain ⟨b, b1, b2, b3⟩ := hkill
  have hbi : b.pop.individuals = some (rs1.map Rec.x) := by
    rcases b2.inds with e | ⟨-, e⟩
    · exact e
    · rw [e] at hlen1; simp at hlen1
  have hhunt : ∃ t, ppgaHunt po (ppgaFor target) b = (.ok (), t) ∧ StillLat t.sel (2 + 2 * s.gen + 2) := by
    obtain ⟨N, n1, n2, n3, n4, n5, n6⟩ := c48_update_lattice b3.ok [] List.nodup_nil (by simp)
    obtain ⟨t, dead, t1, -⟩ := c48_hunt po (ppgaFor target) (Nat.succ_pos _) (Nat.succ_pos _) b rs1 b2 (by rw [hbi]; simp) (by rw [hlen1]; exact b3.ok)
    refine ⟨t, t1, ?_⟩
    have hmoves : ∃ moves, predMaxMoves b.pop (ppgaFor target).targetPop (ppgaFor target).nPred = .ok moves := by
      rw [predMaxMoves, hbi]
      exact ⟨_, rfl⟩
    obtain ⟨moves, hmoves⟩ := hmoves
    have hloop := still_predLoop po.obj b.pop.fitness 50 moves b.clock b3 (by omega) 50 0 (by omega)
    unfold ppgaHunt at t1
    rw [hmoves] at t1
    dsimp only at t1
    rw [hs.pred, b3.ok.preds] at t1
    rw [show (ppgaFor target).radius = 3 from rfl, show (ppgaFor target).nPred = 50 from rfl, hloop] at t1
    dsimp only at t1
    split at t1
    · simp at t1
    · rw [n1] at t1
      simp only [Prod.mk.injEq, true_and] at t1
      rw [← t1]
      refine ⟨n3.trans b3.h, n4.trans b3.w, by simpa using n2, ?_, n5.trans b3.preds⟩
      dsimp only
      rw [n6, rowsAt_all]
      exact b3.preys
  obtain ⟨t, t1, t2⟩ := hhunt
  refine ⟨t, ?_, t2⟩
  unfold ppgaNextGen
  rw [hs.prey, m1]
  dsimp only
  rw [f1]
  dsimp only
  rw [show ({ s with sel := s.sel, clock := s.clock + 1 + 1 } : PPGA X O F C U) = { s with clock := s.clock + 1 + 1 } from rfl, hsame, a1]
  dsimp only
  rw [b1]
  exact t1

/-- The whole training returns. -/
theorem still_evolveTo [Inhabited O] [Inhabited F] (target : Nat) (po : PPGAOps X O F C U) (p : Pop X O F C U) (hc : SurrogateOps p.ndim po) (hs : StillOps po)
    (Inv : List (Rec X O F C U) → Prop) (hp : Preserved p.ndim (ppgaFor target) po Inv) (hf : Fertile p.ndim po Inv) (rs : List (Rec X O F C U))
    (h1 : Represents p rs) (hnc : p.nCons = 0) (hI : Inv rs) (hlen : rs.length = 2) :
    ∃ t rs', evolveTo target po stillRand.dPred stillRand.dPrey p = .ok t ∧ Training p.ndim 50 Inv t rs' ∧ rs'.length = 202 := by
  have loop : ∀ (fuel : Nat) (s : PPGA X O F C U) (rs : List (Rec X O F C U)), Training p.ndim 50 Inv s rs → StillLat s.sel (2 + 2 * s.gen) →
      s.genIter + fuel = s.cfg.nGen → s.gen + fuel ≤ 100 → ∃ t rs', EA.loop (ppgaNextGen po (ppgaFor target)) fuel s = (.ok (), t) ∧
      Training p.ndim 50 Inv t rs' ∧ StillLat t.sel (2 + 2 * t.gen) ∧ t.cfg = s.cfg ∧ t.iter = s.iter ∧ t.gen = s.gen + fuel := by
    intro fuel
    induction fuel with
    | zero => intro s rs h hl _ _; exact ⟨s, rs, rfl, h, hl, rfl, rfl, rfl⟩
    | succ n ih =>
      intro s rs h hl hf' hg
      have hcont : s.continueIteration = true := by
        have : s.genIter < s.cfg.nGen := by omega
        simp [EA.continueIteration, EA.checkFE, h.total, this]
      obtain ⟨t, rs', a1, a2, a3, a4, a5, a6, a7⟩ := still_gen target po p.ndim hc hs Inv hp hf s rs h hl (by omega)
      obtain ⟨v, rs2, b1, b2, b3, b4, b5, b6⟩ := ih t rs' a2 a3 (by rw [a4]; omega) (by omega)
      refine ⟨v, rs2, ?_, b2, b3, b4.trans a4, b5.trans a5, by omega⟩
      simp only [EA.loop, hcont, if_true, a1]
      exact b1
  have iterate : ∀ (s : PPGA X O F C U) (rs : List (Rec X O F C U)), Training p.ndim 50 Inv s rs → StillLat s.sel (2 + 2 * s.gen) →
      s.gen + s.cfg.nGen ≤ 100 → ∃ t rs', ppgaIterate po (ppgaFor target) s = (.ok (), t) ∧
      Training p.ndim 50 Inv t rs' ∧ StillLat t.sel (2 + 2 * t.gen) ∧ t.cfg = s.cfg ∧ t.iter = s.iter + 1 ∧ t.gen = s.gen + s.cfg.nGen := by
    intro s rs h hl hg
    obtain ⟨t, rs', b1, b2, b3, b4, b5, b6⟩ := loop s.cfg.nGen { s with genIter := 0 } rs
      ⟨h.repr, h.lat, ⟨h.synced.recs, h.synced.ndim, h.synced.ncons, h.synced.rows, h.synced.cols⟩, h.clock, h.total, h.inv⟩ hl (by simp) hg
    unfold ppgaIterate
    rw [b1]
    exact ⟨_, rs', rfl, ⟨b2.repr, b2.lat, ⟨b2.synced.recs, b2.synced.ndim, b2.synced.ncons, b2.synced.rows, b2.synced.cols⟩, b2.clock, b2.total, b2.inv⟩, b3, b4,
      by simpa using b5, b6⟩
  have drive : ∀ (fuel : Nat) (s : PPGA X O F C U) (rs : List (Rec X O F C U)), Training p.ndim 50 Inv s rs → StillLat s.sel (2 + 2 * s.gen) →
      s.iter + fuel = s.cfg.nIter → s.gen + fuel * s.cfg.nGen ≤ 100 → ∃ t rs', ppgaDrive po (ppgaFor target) fuel s = (.ok (), t) ∧
      Training p.ndim 50 Inv t rs' ∧ StillLat t.sel (2 + 2 * t.gen) ∧ t.gen = s.gen + fuel * s.cfg.nGen := by
    intro fuel
    induction fuel with
    | zero => intro s rs h hl _ _; exact ⟨s, rs, rfl, h, hl, by simp⟩
    | succ n ih =>
      intro s rs h hl hf' hg
      have hcont : s.continueEvolution = true := by
        have : s.iter < s.cfg.nIter := by omega
        simp [EA.continueEvolution, EA.checkFE, h.total, this]
      have hmul : (n + 1) * s.cfg.nGen = n * s.cfg.nGen + s.cfg.nGen := by ring
      obtain ⟨t, rs', a1, a2, a3, a4, a5, a6⟩ := iterate s rs h hl (by omega)
      obtain ⟨v, rs2, b1, b2, b3, b4⟩ := ih t rs' a2 a3 (by rw [a4]; omega) (by rw [a4]; omega)
      refine ⟨v, rs2, ?_, b2, b3, by rw [a4] at b4; omega⟩
      simp only [ppgaDrive, hcont, if_true, a1]
      exact b1
  have hne' : p.individuals = some (rs.map Rec.x) := by
    rcases h1.inds with e | ⟨-, e⟩
    · exact e
    · rw [e] at hlen; simp at hlen
  obtain ⟨L, l1, l2⟩ := still_init
  have hL : ∃ s, ppgaConstruct (ppgaFor target) 10 10 stillRand.dPred stillRand.dPrey (some p) = .ok s ∧ s.sel = L ∧ s.clock = 0 ∧ s.cfg.total = 0 ∧ s.cfg.nGen = 10 ∧ s.cfg.nIter = 10 ∧ s.gen = 0 ∧ s.iter = 0 ∧ s.pop = p := by
    refine ⟨_, by simp only [ppgaConstruct, hne', List.length_map, hlen, show (ppgaFor target).nPred = 50 from rfl, l1]; rfl, rfl, rfl, rfl, rfl, rfl, rfl, rfl, rfl⟩
  obtain ⟨s, s1, s2, s3, s4, s5, s6, s7, s8, s9⟩ := hL
  have hT : Training p.ndim 50 Inv s rs := by
    refine ⟨by rw [s9]; exact h1, by rw [s2, hlen]; exact l2.ok, ⟨⟨rs, by rw [s9]; exact h1, by rw [s2, hlen]; exact l2.ok⟩, fun _ => by rw [s9], by rw [s9]; exact hnc, ?_, ?_⟩, by omega, s4, hI⟩
    · rw [s2, l2.h]; decide
    · rw [s2, l2.w]; decide
  obtain ⟨t, rs', b1, b2, b3, b4⟩ := drive 10 s rs hT (by rw [s2, s7]; exact l2) (by omega) (by rw [s5, s7])
  refine ⟨t, rs', ?_, b2, ?_⟩
  · unfold evolveTo
    rw [s1]
    dsimp only
    rw [b1]
  · rw [← b2.lat.preys, b3.ok.preys, b4, s5, s7]

theorem still_evolve [Inhabited O] [Inhabited F] (po : PPGAOps X O F C U) (p : Pop X O F C U) (hc : SurrogateOps p.ndim po) (hs : StillOps po)
    (Inv : List (Rec X O F C U) → Prop) (hp : Preserved p.ndim ppgaDefaults po Inv) (hf : Fertile p.ndim po Inv) (rs : List (Rec X O F C U))
    (h1 : Represents p rs) (hnc : p.nCons = 0) (hI : Inv rs) (hlen : rs.length = 2) :
    ∃ t rs', evolve po stillRand.dPred stillRand.dPrey p = .ok t ∧ Training p.ndim 50 Inv t rs' ∧ rs'.length = 202 :=
  still_evolveTo 100 po p hc hs Inv hp hf rs h1 hnc hI hlen

end generic

theorem nnComplexity_le {a b : Nat} (n : NNet a b ℝ) : nnComplexity n ≤ a * b := by
  unfold nnComplexity
  have : ∀ l : List (Fin a), (l.map (fun i => ((List.finRange b).filter (fun j => n i j ≠ 0)).length)).sum ≤ l.length * b := by
    intro l
    induction l with
    | nil => simp
    | cons i l ih =>
      have h1 := List.length_filter_le (fun j => decide (n i j ≠ 0)) (List.finRange b)
      rw [List.length_finRange] at h1
      simp only [List.map_cons, List.sum_cons, List.length_cons, Nat.succ_mul]
      omega
  simpa using this (List.finRange a)

/-- C85. Trainings that return exist: two networks of any kind, any data with enough samples (more than there are weights), a known activation function,
Gaussian or no mutation, whatever the draws of creation and mating: with some draws of the lattice and a proper non-dominated sorting `fit` returns. -/
theorem c85_evonn_can_train {r c : Nat} (d : NNData r c) (mt : MutType) (hmt : mt ≠ .selfAdapting) (u : Nat → Fin r → Fin c → ℝ)
    (zero : Nat → Fin (r + 1) → Fin c → Bool) (draw : Nat → Nat → NNDraw (r + 1) c ℝ) (hl : d.X.length = d.y.length)
    (hn : (r + 1) * c + (c + 1) + 1 < d.y.length) (act : ℝ → ℝ) (ha : d.act = some act) (s : NNReg r c) :
    ∃ e : EvolveRand, (∀ fits : List (ℝ × ℝ), ∃ dom, IsFrontSort dom fits.length ((e.nds fits).map whereIdx)) ∧
      ∃ s', nnFit d .akaike mt 2 u zero draw e s = (.ok (), s') := by
  refine ⟨stillRand, still_sort, ?_⟩
  obtain ⟨p, a1, a2, a3, a4, rs, a5, a6, a7⟩ := nn_initial d act ha mt (nnCreate u zero 2)
  have hlen : (nnCreate u zero 2).length = 2 := by simp [nnCreate]
  have hf : Fertile 3 (nnOps d mt draw stillRand) (NNInv d act mt (nnCreate u zero 2)) := by
    intro s rs mating T hne hg hm hmat
    cases hi : s.pop.individuals with
    | none =>
      rcases T.repr.inds with h | ⟨-, h⟩
      · rw [hi] at h; cases h
      · exact absurd h hne
    | some pop =>
      have hpl : pop.length = rs.length := Represents_length T.repr hi
      have hclk := T.clock
      obtain ⟨os, ho, hol⟩ := c65_outcome mt ((s.clock + 1) / 5) 100 (1 - (((s.clock + 1) / 5 : ℕ) : ℝ) / 100) (draw (s.clock + 1)) pop
        (.pairs (mating.map (fun q => (q.1.toNat, q.2.toNat)))) (by decide) (by
          intro q hq
          obtain ⟨ab, hab, rfl⟩ := List.mem_map.1 hq
          obtain ⟨x, y, rfl, hx, hy⟩ := hmat ab hab
          simp only [Int.toNat_natCast]
          omega) (fun _ => by omega) (fun h => absurd h hmt)
      simp only [Mates.toPairs, List.length_map] at hol
      have : 0 < mating.length := List.length_pos_iff.2 hm
      match os, ho, hol with
      | [], _, hol => exact absurd hol (by simp only [List.length_nil]; omega)
      | [_], _, hol => exact absurd hol (by simp only [List.length_singleton]; omega)
      | x :: y :: rest, ho, _ =>
        refine ⟨x, y, rest, ⟨[x, y].map (nnObjectives d act), [x, y].map (nnObjectives d act), none, none⟩, ?_, ?_, rfl⟩
        · simp only [nnOps, nnMate, hi, ho]
        · simp [nnOps, nnEvaluate, ha]
  obtain ⟨t, rs', t1, T, tl⟩ := still_evolve (nnOps d mt draw stillRand) p (by rw [a2]; exact nnOps_surrogate d mt draw stillRand)
    ⟨rfl, rfl, rfl, rfl, rfl⟩ _ (by rw [a2]; exact nn_preserved d act ha mt draw stillRand (nnCreate u zero 2)) (by rw [a2]; exact hf) rs a5 a3 a7 (by omega)
  obtain ⟨-, -, b1, b2⟩ := nn_evolved d act ha mt draw stillRand _ p _ a1 t t1
  have hform : nnFit d .akaike mt 2 u zero draw stillRand s = nnFinish d act .akaike t.pop s := by
    unfold nnFit
    rw [if_neg (by simpa using hl)]
    simp only [a1, ha, t1]
  rw [hform]
  rcases nnFinish_cases d act .akaike t.pop s (by rw [b2]; simp) with ⟨n, rest, hcr, hi, hk, hf⟩ | ⟨-, -, ⟨m, -, hm⟩, hf⟩ | ⟨-, h0, hf⟩ | ⟨hne', -⟩
  · exact ⟨_, hf⟩
  · exfalso
    have h1 := nnComplexity_le m
    have h2 := List.length_filter_le (fun j => decide (nnLast d act m j ≠ 0)) (List.finRange (c + 1))
    rw [List.length_finRange] at h2
    have h3 : nnWeights d act m = nnComplexity m + ((List.finRange (c + 1)).filter (fun j => decide (nnLast d act m j ≠ 0))).length := rfl
    omega
  · exfalso
    rcases T.repr.inds with h | ⟨h, h'⟩
    · rw [h] at h0
      simp at h0
      rw [h0] at tl
      simp at tl
    · rw [h'] at tl; simp at tl
  · exact absurd rfl hne'

/-- C85. The same for EvoDN2 with two networks: any data of `nVars ≥ 1` columns, at least one subnet, at least one layer and two nodes allowed, a first `fit`:
with some draws of the lattice it returns, whatever the draws of creation and mating. -/
theorem c85_evodn2_can_train (d : DNData) (numSubnets maxLayers maxNodes : Nat) (hs : 0 < numSubnets) (hml : 2 ≤ maxLayers) (hmn : 2 ≤ maxNodes)
    (sample : Nat → List Nat) (choose : Nat → Nat) (hsam : ∀ i, (sample i).Nodup ∧ sample i ≠ [] ∧ ∀ v ∈ sample i, v < d.nVars) (rnd : DNRand ℝ)
    (draw : Nat → Nat → Nat → Nat → DNDraw ℝ) (hl : d.X.length = d.y.length) (hv : 0 < d.nVars) (hX : ∀ x ∈ d.X, x.length = d.nVars) (s : DNReg)
    (hns : s.subsets = none) :
    ∃ e : EvolveRand, (∀ fits : List (ℝ × ℝ), ∃ dom, IsFrontSort dom fits.length ((e.nds fits).map whereIdx)) ∧
      ∃ s', dnFit d true 2 numSubnets maxLayers maxNodes sample choose rnd draw e s = (.ok (), s') := by
  refine ⟨stillRand, still_sort, ?_⟩
  obtain ⟨subsets, hsub⟩ := (c68_outcome d.nVars numSubnets sample choose).2 (by omega)
  obtain ⟨u1, u2, u3, -⟩ := c68_every_variable_used d.nVars numSubnets sample choose subsets hsam hsub
  obtain ⟨nets, hnets⟩ : ∃ nets, dnCreate rnd 2 numSubnets maxLayers maxNodes subsets = .ok nets := by
    unfold dnCreate
    rw [if_neg (by omega), if_neg (by omega), if_neg (by intro e; rw [e] at u1; simp at u1; omega), if_neg (by omega), if_neg (by omega)]
    exact ⟨_, rfl⟩
  obtain ⟨hnl, -⟩ := c67_initial_networks rnd 2 numSubnets maxLayers maxNodes subsets nets hnets
  have hobj : ∀ Q, Bred DNBreed nets Q → ∀ n ∈ Q, ∃ o, dnObjectives d subsets n = .ok o := by
    intro Q hQ n hn
    have hev := (c67_always_evaluable rnd 2 numSubnets maxLayers maxNodes subsets nets Q hnets hQ).1 n hn d.act
    obtain ⟨rows, hrows⟩ : ∃ rows, dnPenult d subsets n = .ok rows := by
      unfold dnPenult
      apply mapM_except_total
      intro x hx
      exact hev x (fun sb hsb v hv => by rw [hX x hx]; exact (u3 sb hsb).2.2 v hv)
    exact ⟨_, by simp only [dnObjectives, hrows]; rfl⟩
  have hev2 : ∀ Q, Bred DNBreed nets Q → ∀ x ∈ Q, ∀ y ∈ Q, ∃ res, dnEvaluate d subsets ⟨2, [x, y]⟩ = .ok res ∧ res.objectives.length = 2 ∧
      res.fitness.length = 2 ∧ res.constraints = none ∧ res.uncertainity = none := by
    intro Q hQ x hx y hy
    obtain ⟨o1, h1⟩ := hobj Q hQ x hx
    obtain ⟨o2, h2⟩ := hobj Q hQ y hy
    refine ⟨⟨[o1, o2], [o1, o2], none, none⟩, ?_, rfl, rfl, rfl, rfl⟩
    have : [x, y].mapM (dnObjectives d subsets) = .ok [o1, o2] := by
      simp only [List.mapM_cons, List.mapM_nil, h1, h2]
      rfl
    simp only [dnEvaluate, this]
  have hf : Fertile 2 (dnOps d subsets draw stillRand) (DNInv d subsets nets) := by
    intro s rs mating T hne hg hm hmat
    cases hi : s.pop.individuals with
    | none =>
      rcases T.repr.inds with h | ⟨-, h⟩
      · rw [hi] at h; cases h
      · exact absurd h hne
    | some pop =>
      have hpl : pop.length = rs.length := Represents_length T.repr hi
      have hpx := Represents_map T.repr hi
      have hbred := T.inv.1
      rw [← hpx] at hbred
      obtain ⟨os, ho, hol⟩ := (c67_always_evaluable rnd 2 numSubnets maxLayers maxNodes subsets nets pop hnets hbred).2.1 100 (draw (s.clock + 1))
        (.pairs (mating.map (fun q => (q.1.toNat, q.2.toNat)))) (by decide) (by
          intro q hq
          obtain ⟨ab, hab, rfl⟩ := List.mem_map.1 hq
          obtain ⟨x, y, rfl, hx, hy⟩ := hmat ab hab
          simp only [Int.toNat_natCast]
          omega)
      simp only [Mates.toPairs, List.length_map] at hol
      have : 0 < mating.length := List.length_pos_iff.2 hm
      match os, ho, hol with
      | [], _, hol => exact absurd hol (by simp only [List.length_nil]; omega)
      | [_], _, hol => exact absurd hol (by simp only [List.length_singleton]; omega)
      | x :: y :: rest, ho, _ =>
        obtain ⟨res, e1, e2, -⟩ := hev2 (x :: y :: rest) (.next hbred ⟨_, _, _, ho⟩ (fun z hz => .inr hz)) x (by simp) y (by simp)
        exact ⟨x, y, rest, res, by simp only [dnOps, dnMate, hi, ho], e1, e2⟩
  have hpair : ∃ x y, nets = [x, y] := by
    match nets, hnl with
    | [x, y], _ => exact ⟨x, y, rfl⟩
  obtain ⟨x, y, hxy⟩ := hpair
  obtain ⟨res, e1, e2, e3, e4, e5⟩ := hev2 nets .start x (by rw [hxy]; simp) y (by rw [hxy]; simp)
  rw [← hxy] at e1
  obtain ⟨b1, b2, b3, b4, b5⟩ := add_spec (d := 2) (represents_new 0) ⟨2, nets⟩ res
    ⟨by rw [e2, hxy]; rfl, by rw [e3, hxy]; rfl, fun _ => e4, fun h => absurd rfl h, by simp [e5]⟩ (by simp [Pop.new]) (Or.inl rfl)
  obtain ⟨b6, b7⟩ := b5 (Or.inr (Or.inl e5))
  generalize hp : ((Pop.new 0).add ⟨2, nets⟩ (.ok res)).2 = p at b1 b2 b3 b4
  have hadd : (Pop.new 0).add ⟨2, nets⟩ (.ok res) = (.ok res, p) := Prod.ext b6 hp
  have hInv : DNInv d subsets nets ([] ++ newRecs nets res) ∧ ([] ++ newRecs nets res).length = 2 := by
    obtain ⟨q1, q2, q3, ⟨k1, k2⟩ | ⟨k1, g, k2, k3⟩⟩ := dnEvaluate_ok d subsets _ res e1
    · rw [hxy] at k1; simp at k1
    · dsimp only at k2 k3
      rw [k2, newRecs_map]
      refine ⟨⟨?_, ?_⟩, by rw [hxy]; rfl⟩
      · simp only [List.nil_append, List.map_map]
        have : (Rec.x ∘ fun x => (⟨x, g x, g x, none, none⟩ : Rec (DNet ℝ) (ℝ × ℝ) (ℝ × ℝ) Unit Unit)) = id := rfl
        rw [this, List.map_id]
        exact .start
      · intro q hq
        obtain ⟨y, hy, rfl⟩ := List.mem_map.1 (by simpa using hq)
        exact ⟨k3 y hy, rfl⟩
  obtain ⟨t, rs', t1, T, tl⟩ := still_evolve (dnOps d subsets draw stillRand) p (by rw [b3]; exact dnOps_surrogate d subsets draw stillRand)
    ⟨rfl, rfl, rfl, rfl, rfl⟩ _ (by rw [b3]; exact dn_preserved d subsets draw stillRand nets) (by rw [b3]; exact hf) _ b1 b2 hInv.1 hInv.2
  have hform : dnFit d true 2 numSubnets maxLayers maxNodes sample choose rnd draw stillRand s = dnFinish d subsets true t.pop { s with subsets := some subsets } := by
    unfold dnFit
    rw [if_neg (by simpa using hl), hns, hsub]
    dsimp only
    rw [hnets]
    dsimp only
    rw [e1, hadd]
    dsimp only
    rw [t1]
  rw [hform]
  rcases dnFinish_cases d subsets true t.pop { s with subsets := some subsets } nets rs' T.repr T.inv with ⟨err, hfin⟩ | ⟨-, i, q, rows, -, -, -, hfin⟩
  · exfalso
    obtain ⟨i, hi⟩ := argminL_total (t.pop.objectives.map Prod.fst) (by
      rw [T.repr.objs]
      intro e
      have := congrArg List.length e
      simp [tl] at this)
    obtain ⟨o, ho, -⟩ := argminL_spec _ _ hi
    rw [T.repr.objs, List.map_map, List.getElem?_map, Option.map_eq_some_iff] at ho
    obtain ⟨q, hq, -⟩ := ho
    have hx : (t.pop.individuals.getD [])[i]? = some q.x := by
      have : t.pop.individuals.getD [] = rs'.map Rec.x := by
        rcases T.repr.inds with h | ⟨h, h'⟩
        · rw [h]; rfl
        · rw [h, h']; rfl
      rw [this, List.getElem?_map, hq]
      rfl
    obtain ⟨o', ho'⟩ := hobj _ T.inv.1 q.x (List.mem_map.2 ⟨q, List.mem_of_getElem? hq, rfl⟩)
    unfold dnObjectives at ho'
    cases hpen : dnPenult d subsets q.x with
    | error err => rw [hpen] at ho'; cases ho'
    | ok rows =>
      unfold dnFinish at hfin
      simp only [dnSelect, if_true, hi, hx, hpen] at hfin
      simp at hfin
  · exact ⟨_, hfin⟩

/-- One input, one hidden node, six samples: the hypotheses of `c85_evonn_can_train` are met, hence those of `c85_evonn_fit` and the theorems about a `fit`
that returns. -/
example : ∃ (e : EvolveRand) (s' : NNReg 1 1), nnFit (⟨List.replicate 6 (fun _ => 1), [1, 2, 3, 4, 5, 6], some id, fun _ _ => 0, fun _ _ => 0⟩ : NNData 1 1) .akaike
    .gaussian 2 (fun _ _ _ => 1) (fun _ _ _ => false) (fun _ _ => ⟨fun _ => false, fun _ _ => false, fun _ _ => 0, fun _ _ => false, fun _ _ => 0, (0, 0), (0, 0)⟩)
    e ⟨none, none, none, none, false⟩ = (.ok (), s') := by
  obtain ⟨e, -, s', h⟩ := c85_evonn_can_train
    (⟨List.replicate 6 (fun _ => 1), [1, 2, 3, 4, 5, 6], some id, fun _ _ => 0, fun _ _ => 0⟩ : NNData 1 1)
    .gaussian (by decide) (fun _ _ _ => 1) (fun _ _ _ => false) (fun _ _ => ⟨fun _ => false, fun _ _ => false, fun _ _ => 0, fun _ _ => false, fun _ _ => 0, (0, 0), (0, 0)⟩)
    (by simp) (by simp) id rfl ⟨none, none, none, none, false⟩
  exact ⟨e, s', h⟩

/-- One variable, one subnet, two samples: likewise for EvoDN2. -/
example : ∃ (e : EvolveRand) (s' : DNReg), dnFit (⟨[[1], [2]], [1, 2], 1, id, fun _ _ => [0, 1, 1], fun _ _ => 0⟩ : DNData) true 2 1 2 2 (fun _ => [0]) (fun _ => 0)
    ⟨fun _ _ => 0, fun _ _ _ => 0, fun _ _ _ _ => 1, fun _ _ _ _ => false⟩ (fun _ _ _ _ => ⟨fun _ => false, fun _ => false, fun _ => 0, fun _ => false, fun _ => 0⟩)
    e ⟨none, none, none, none, none, false⟩ = (.ok (), s') := by
  obtain ⟨e, -, s', h⟩ := c85_evodn2_can_train (⟨[[1], [2]], [1, 2], 1, id, fun _ _ => [0, 1, 1], fun _ _ => 0⟩ : DNData) 1 2 2 (by decide) (by decide) (by decide)
    (fun _ => [0]) (fun _ => 0) (by simp) ⟨fun _ _ => 0, fun _ _ _ => 0, fun _ _ _ _ => 1, fun _ _ _ _ => false⟩
    (fun _ _ _ _ => ⟨fun _ => false, fun _ => false, fun _ => 0, fun _ => false, fun _ => 0⟩) rfl (by decide) (by simp) ⟨none, none, none, none, none, false⟩ rfl
  exact ⟨e, s', h⟩

end Verif.Props
