import Verif.Proofs.PPGA
import Verif.Proofs.MOEAD
import Verif.Proofs.EA
import Verif.Props.APD
import Verif.Spec.NSGA3

/-!
# C48, C49: the predator-prey lattice; C55, C56: hunting and killing; C10, C12 for PPGA
-/

namespace Verif.Props
open Verif Verif.Spec
open _root_.Spec (Rec Represents EvalOK Gens names rowsAt newRecs inRange)

variable {X O F C U : Type}

/-! ## C49: neighbourhoods -/

/-- C49: on a lattice of at least 3 by 3 the neighbourhood of `(x, y)` is a 3 by 3 block; its entry `(i, j)` is the cell
`(x + i - 1, y + j - 1)` with wrap-around at every border; its centre is the cell itself. -/
theorem c49_neighbours (h w : Nat) (hh : 3 ≤ h) (hw : 3 ≤ w) (arr : Int → Int → Int) (x y : Int) :
    (neighbours h w arr x y 3).rows = 3 ∧ (neighbours h w arr x y 3).cols = 3 ∧
    (∀ i j : Int, (neighbours h w arr x y 3).at' i j = arr ((x + i - 1) % h) ((y + j - 1) % w)) ∧
    (0 ≤ x → x < h → 0 ≤ y → y < w → (neighbours h w arr x y 3).at' 1 1 = arr x y) := by
  refine ⟨Nat.min_eq_left hh, Nat.min_eq_left hw, fun i j => neighbours_at h w arr x y 3 i j, ?_⟩
  intro h1 h2 h3 h4
  rw [neighbours_at, show x + 1 - 1 = x by omega, show y + 1 - 1 = y by omega, Int.emod_eq_of_lt h1 h2, Int.emod_eq_of_lt h3 h4]

/-- C49: on a lattice of any size, the values in the 3 by 3 neighbourhood are exactly the values of the adjacent cells. -/
theorem c49_neighbours_adjacent (L : Lat) (p : Cell) (hp : InGrid L p) (v : Int) :
    v ∈ (neighbours L.h L.w L.cell p.1 p.2 3).entries ↔
      ∃ q : Cell, InGrid L q ∧ Adjacent L.h L.w p q ∧ L.cell q.1 q.2 = v := by
  constructor
  · intro h
    obtain ⟨q, h1, h2, h3⟩ := entries_cell hp h
    exact ⟨q, h1, h3 le_rfl, h2.symm⟩
  · rintro ⟨q, -, h2, rfl⟩
    exact adjacent_entries hp h2

/-- C49: one attempt of a prey to move leaves everything as it was, or takes that prey (and nobody else) to an adjacent cell
that was empty; afterwards the lattice is consistent again. -/
theorem c49_prey_step {L : Lat} {a n : Nat} (h : Consistent L a n) (k : Nat) (hk : k < n) (dy dx : Nat) :
    ∃ (M : Lat) (p : Cell), L.preyTry k dy dx = .ok M ∧ Consistent M a n ∧ L.preys[k]? = some (some p) ∧
      (M = L ∨ ∃ q, Adjacent L.h L.w p q ∧ L.cell q.1 q.2 = 0 ∧ q ≠ p ∧ M.preys = L.preys.set k (some q) ∧ M.preds = L.preds) := by
  obtain ⟨h1, h2, h3, h4⟩ := consistent_iff.1 h
  obtain ⟨p, p1, -, p3⟩ := h.prey k hk
  obtain ⟨M, a1, a2, a3, a4, a5, a6⟩ := preyTry_spec h1 p1 dy dx
  rcases a6 with rfl | ⟨q, q1, q2, q3, q4⟩
  · exact ⟨M, p, a1, h, p1, Or.inl rfl⟩
  · refine ⟨M, p, a1, consistent_iff.2 ⟨a2, by rw [a5]; exact h2, by rw [q4, List.length_set]; exact h3, ?_⟩, p1,
      Or.inr ⟨q, q1, q3, ?_, q4, a5⟩⟩
    · rw [q4]
      intro x hx
      rcases List.mem_or_eq_of_mem_set hx with hx | rfl
      · exact h4 x hx
      · simp
    · rintro rfl
      omega

/-- C48 for `move_prey`: whatever the random outcomes, the lattice stays consistent, with the same predators and as many
prey; the only exception is the one raised when nobody found a mate. -/
theorem c48_move_prey {L : Lat} {a n : Nat} (h : Consistent L a n) (r : PreyRand) (maxMoves : Nat) :
    Consistent (L.movePrey r maxMoves).2 a n ∧ (L.movePrey r maxMoves).2.preds = L.preds ∧
      (L.movePrey r maxMoves).2.h = L.h ∧ (L.movePrey r maxMoves).2.w = L.w ∧
      ((L.movePrey r maxMoves).1 = .error .eaError ∨ ∃ m, (L.movePrey r maxMoves).1 = .ok m ∧ m ≠ []) := by
  obtain ⟨h1, h2, h3, h4⟩ := consistent_iff.1 h
  obtain ⟨M, m, a1, a2, a3, a4, a5, a6, a7, -⟩ := preyLoop_spec r maxMoves L.preys.length 0 L h1 (by omega) h4
  have hM : Consistent M a n := consistent_iff.2 ⟨a2, by rw [a5]; exact h2, a6.trans h3, a7⟩
  unfold Lat.movePrey
  rw [a1]
  cases m with
  | nil => exact ⟨hM, a5, a3, a4, Or.inl rfl⟩
  | cons x xs => exact ⟨hM, a5, a3, a4, Or.inr ⟨_, rfl, by simp⟩⟩

/-- C49 for `move_prey`: every prey walks at most `prey_max_moves` steps to adjacent cells. -/
theorem c49_prey_walk {L : Lat} {a n : Nat} (h : Consistent L a n) (r : PreyRand) (maxMoves k : Nat) (p q : Cell)
    (hp : L.preys[k]? = some (some p)) (hq : (L.movePrey r maxMoves).2.preys[k]? = some (some q)) :
    Walk L.h L.w maxMoves p q := by
  obtain ⟨h1, h2, h3, h4⟩ := consistent_iff.1 h
  obtain ⟨M, m, a1, a2, a3, a4, a5, a6, a7, a8, a9, -⟩ := preyLoop_spec r maxMoves L.preys.length 0 L h1 (by omega) h4
  have : (L.movePrey r maxMoves).2 = M := by
    unfold Lat.movePrey
    rw [a1]
    cases m <;> rfl
  rw [this] at hq
  exact a9 k p q hp hq

/-- C49 for `move_prey`: the mating list names each prey at most once as first parent, in order; the mate `b` of `a` is another
live prey on a cell adjacent to `a`'s new cell (where `b` is on its new cell if its turn came before, else on its old one).
A prey without a pair had no prey next to it. -/
theorem c49_mates {L : Lat} {na n : Nat} (h : Consistent L na n) (r : PreyRand) (maxMoves : Nat) (m : List (Int × Int))
    (hm : (L.movePrey r maxMoves).1 = .ok m) :
    (m.map Prod.fst).Pairwise (· < ·) ∧
    (∀ ab ∈ m, ∃ (a b : Nat) (p q : Cell), ab = ((a : Int), (b : Int)) ∧ a < n ∧ b < n ∧ b ≠ a ∧
      (L.movePrey r maxMoves).2.preys[a]? = some (some p) ∧
      (if b < a then (L.movePrey r maxMoves).2.preys else L.preys)[b]? = some (some q) ∧ Adjacent L.h L.w p q) ∧
    (∀ (a b : Nat) (p q : Cell), (∀ c : Int, ((a : Int), c) ∉ m) → b ≠ a →
      (L.movePrey r maxMoves).2.preys[a]? = some (some p) →
      (if b < a then (L.movePrey r maxMoves).2.preys else L.preys)[b]? = some (some q) → ¬ Adjacent L.h L.w p q) := by
  obtain ⟨h1, h2, h3, h4⟩ := consistent_iff.1 h
  obtain ⟨M, m', a1, a2, a3, a4, a5, a6, a7, a8, a9, a10, a11, a12⟩ := preyLoop_spec r maxMoves L.preys.length 0 L h1 (by omega) h4
  have hM : (L.movePrey r maxMoves).2 = M := by
    unfold Lat.movePrey
    rw [a1]
    cases m' <;> rfl
  have hm' : m = m' := by
    unfold Lat.movePrey at hm
    rw [a1] at hm
    cases m' with
    | nil => simp at hm
    | cons x xs => simpa using hm.symm
  subst hm'
  rw [hM]
  refine ⟨a10, ?_, fun a b p q => a12 a b p q (Nat.zero_le _)⟩
  intro ab hab
  obtain ⟨a, b, p, q, e, -, c2, c3, c4, c5, c6⟩ := a11 ab hab
  refine ⟨a, b, p, q, e, by omega, ?_, c3, c4, c5, c6⟩
  split at c5
  · have := (List.getElem?_eq_some_iff.1 c5).1
    omega
  · have := (List.getElem?_eq_some_iff.1 c5).1
    omega

/-! ## C48: the other operations of the lattice -/

/-- C48: in a consistent lattice no two animals share a cell, and a cell is empty exactly when nobody is there. -/
theorem c48_one_per_cell {L : Lat} {a n : Nat} (h : Consistent L a n) :
    (∀ (j k : Nat) (p : Cell), L.preys[j]? = some (some p) → L.preys[k]? = some (some p) → j = k) ∧
    (∀ (j k : Nat) (p : Cell), L.preds[j]? = some p → L.preds[k]? = some p → j = k) ∧
    (∀ (j k : Nat) (p : Cell), L.preds[j]? = some p → L.preys[k]? = some (some p) → False) ∧
    (∀ p : Cell, InGrid L p → (L.cell p.1 p.2 = 0 ↔ (∀ k : Nat, L.preds[k]? ≠ some p) ∧ ∀ k : Nat, L.preys[k]? ≠ some (some p))) := by
  have h1 := (consistent_iff.1 h).1
  refine ⟨?_, ?_, ?_, ?_⟩
  · intro j k p hj hk
    have := (h1.prey j p hj).2
    have := (h1.prey k p hk).2
    omega
  · intro j k p hj hk
    have := (h1.pred j p hj).2
    have := (h1.pred k p hk).2
    omega
  · intro j k p hj hk
    have := (h1.pred j p hj).2
    have := (h1.prey k p hk).2
    omega
  · intro p hp
    constructor
    · intro hz
      constructor
      · intro k hk
        have := (h1.pred k p hk).2
        omega
      · intro k hk
        have := (h1.prey k p hk).2
        omega
    · rintro ⟨a1, a2⟩
      exact h1.empty p hp a1 a2

/-- C48 for construction: for all random outcomes the new lattice is consistent, if the animals fit; otherwise ValueError. -/
theorem c48_init (h w : Nat) (dPred dPrey : List Nat) :
    (dPred.length + dPrey.length ≤ h * w →
      ∃ L, Lat.init h w dPred dPrey = .ok L ∧ Consistent L dPred.length dPrey.length ∧ L.h = h ∧ L.w = w) ∧
    (h * w < dPred.length + dPrey.length → Lat.init h w dPred dPrey = .error .valueError) := by
  have := init_spec h w dPred dPrey
  constructor
  · intro hle
    rw [if_pos hle] at this
    exact this
  · intro hlt
    rw [if_neg (by omega)] at this
    exact this

/-- C48 for `place_offspring`: it never raises; the lattice stays consistent, the new prey are appended, one for every placed
offspring, on cells that were empty; predators and old prey stay where they are. -/
theorem c48_place_offspring {L : Lat} {a n : Nat} (h : Consistent L a n) (hh : 0 < L.h) (hw : 0 < L.w) (y x : Nat → Nat)
    (attempts k : Nat) :
    ∃ (M : Lat) (placed : List Nat) (locs : List Cell), L.placeOffspring y x attempts k = .ok (M, placed) ∧
      Consistent M a (n + placed.length) ∧ M.h = L.h ∧ M.w = L.w ∧ M.preds = L.preds ∧ M.preys = L.preys ++ locs.map some ∧
      locs.length = placed.length ∧ placed.Pairwise (· < ·) ∧ (∀ j ∈ placed, j < k) ∧ (∀ q ∈ locs, L.cell q.1 q.2 = 0) := by
  obtain ⟨h1, h2, h3, h4⟩ := consistent_iff.1 h
  obtain ⟨M, more, locs, a1, a2, a3, a4, a5, a6, a7, a8, a9, a10⟩ := placeLoop_spec y x attempts k 0 L [] h1 hh hw
  refine ⟨M, more, locs, ?_, consistent_iff.2 ⟨a2, by rw [a5]; exact h2, ?_, ?_⟩, a3, a4, a5, a6, a7, a8, ?_, a10⟩
  · unfold Lat.placeOffspring
    rw [a1]
    simp
  · rw [a6, List.length_append, List.length_map, h3, a7]
  · rw [a6]
    intro v hv
    rcases List.mem_append.1 hv with hv | hv
    · exact h4 v hv
    · obtain ⟨q, -, rfl⟩ := List.mem_map.1 hv
      simp
  · intro j hj
    have := a9 j hj
    omega

/-- C48: an offspring is placed exactly when the one cell drawn for it is empty at its turn (and at least one attempt is
allowed); further attempts do not draw another cell. -/
theorem c48_place_one {L : Lat} {a n : Nat} (h : Consistent L a n) (i : Nat) (p : Cell) (hp : InGrid L p) (attempts : Nat)
    (placed : List Nat) :
    ∃ (M : Lat) (placed' : List Nat), Lat.placeTries i p attempts (L, placed) = .ok (M, placed') ∧
      ((0 < attempts ∧ L.cell p.1 p.2 = 0) → placed' = placed ++ [i] ∧ M.preys = L.preys ++ [some p] ∧ Consistent M a (n + 1)) ∧
      (¬ (0 < attempts ∧ L.cell p.1 p.2 = 0) → placed' = placed ∧ M = L) := by
  obtain ⟨h1, h2, h3, h4⟩ := consistent_iff.1 h
  obtain ⟨a1, a2⟩ := placeTries_spec i p attempts h1 placed hp
  by_cases hc : 0 < attempts ∧ L.cell p.1 p.2 = 0
  · rw [if_pos hc] at a1 a2
    refine ⟨_, _, a1, fun _ => ⟨rfl, rfl, consistent_iff.2 ⟨a2, h2, by simp [h3], ?_⟩⟩, fun h => absurd hc h⟩
    intro x hx
    rcases List.mem_append.1 hx with hx | hx
    · exact h4 x hx
    · rw [List.mem_singleton] at hx
      rw [hx]
      simp
  · rw [if_neg hc] at a1
    exact ⟨L, placed, a1, fun h => absurd h hc, fun _ => ⟨rfl, rfl⟩⟩

/-- the number of rows kept when distinct positions are dropped -/
theorem rowsAt_drop_length {α : Type} (l : List α) (d : List Nat) (hn : d.Nodup) (hd : ∀ j ∈ d, j < l.length) :
    (rowsAt (fun k => !decide (k ∈ d)) l).length + d.length = l.length := by
  have key : ∀ (l : List α) (k : Nat) (g : Nat → Bool),
      ((l.zipIdx k).filter (fun p => g p.2)).length = ((List.range' k l.length).filter g).length := by
    intro l
    induction l with
    | nil => simp
    | cons x xs ih =>
      intro k g
      rw [List.zipIdx_cons, List.length_cons, List.range'_succ, List.filter_cons, List.filter_cons]
      split <;> simp [ih]
  unfold rowsAt
  rw [List.length_map, key l 0 (fun k => !decide (k ∈ d))]
  have hperm : ((List.range' 0 l.length).filter (fun k => decide (k ∈ d))).Perm d := by
    rw [List.perm_ext_iff_of_nodup (List.Nodup.filter _ List.nodup_range') hn]
    intro k
    rw [List.mem_filter, List.mem_range'_1]
    simp only [decide_eq_true_eq]
    constructor
    · exact fun h => h.2
    · intro hk
      have := hd k hk
      exact ⟨by omega, hk⟩
  have h2 := List.length_eq_length_filter_add (l := List.range' 0 l.length) (fun k => decide (k ∈ d))
  rw [hperm.length_eq] at h2
  simp only [List.length_range'] at h2
  omega

/-- equally long lists keep equally many rows -/
theorem rowsAt_length_eq {α β : Type} (g : Nat → Bool) (l : List α) (m : List β) (h : l.length = m.length) :
    (rowsAt g l).length = (rowsAt g m).length := by
  have key : ∀ (l : List α) (m : List β) (k : Nat), l.length = m.length →
      ((l.zipIdx k).filter (fun p => g p.2)).length = ((m.zipIdx k).filter (fun p => g p.2)).length := by
    intro l
    induction l with
    | nil => intro m k h; rw [List.length_eq_zero_iff.1 h.symm]; simp
    | cons x xs ih =>
      intro m k h
      cases m with
      | nil => simp at h
      | cons y ys =>
        simp only [List.length_cons, Nat.add_right_cancel_iff] at h
        rw [List.zipIdx_cons, List.zipIdx_cons, List.filter_cons, List.filter_cons]
        split <;> simp [ih ys (k + 1) h]
  unfold rowsAt
  rw [List.length_map, List.length_map]
  exact key l m 0 h

theorem filterMap_id_all {α : Type} (l : List (Option α)) (h : ∀ x ∈ l, x ≠ none) : (l.filterMap id).map some = l := by
  induction l with
  | nil => rfl
  | cons a l ih =>
    cases a with
    | none => exact absurd rfl (h none (by simp))
    | some a =>
      have := ih (fun x hx => h x (by simp [hx]))
      show some a :: (l.filterMap id).map some = _
      rw [this]

theorem mem_rowsAt {α : Type} {g : Nat → Bool} {l : List α} {a : α} (h : a ∈ rowsAt g l) : a ∈ l := by
  unfold rowsAt at h
  obtain ⟨⟨b, i⟩, hp, rfl⟩ := List.mem_map.1 h
  exact List.fst_mem_of_mem_zipIdx (List.mem_of_mem_filter hp)

/-- C48 for `update_lattice(selected)`: the selected prey are gone, the others keep their cells and are renumbered in order. -/
theorem c48_update_lattice {L : Lat} {a n : Nat} (h : Consistent L a n) (sel : List Nat) (hn : sel.Nodup) (hs : ∀ i ∈ sel, i < n) :
    ∃ M, L.update sel = .ok M ∧ Consistent M a (n - sel.length) ∧ M.h = L.h ∧ M.w = L.w ∧ M.preds = L.preds ∧
      M.preys = rowsAt (fun k => !decide (k ∈ sel)) L.preys := by
  obtain ⟨h1, h2, h3, h4⟩ := consistent_iff.1 h
  obtain ⟨M, a1, a2, a3, a4, a5, a6⟩ := update_spec h1 sel hn (by
    intro i hi
    obtain ⟨p, hp, -⟩ := h.prey i (hs i hi)
    exact ⟨p, hp⟩)
  have hall : ∀ x ∈ rowsAt (fun k => !decide (k ∈ sel)) L.preys, x ≠ none := fun x hx => h4 x (mem_rowsAt hx)
  rw [filterMap_id_all _ hall] at a6
  refine ⟨M, a1, consistent_iff.2 ⟨a2, by rw [a5]; exact h2, ?_, by rw [a6]; exact hall⟩, a3, a4, a5, a6⟩
  have := rowsAt_drop_length L.preys sel hn (by rw [h3]; exact hs)
  rw [a6]
  omega

/-! ## C55: predators -/

/-- C55: a predator whose reach contains live prey kills exactly one of them, the one with the largest weighted sum of its two
objectives (ties: the highest number), and takes its cell; otherwise nobody dies and it stays or moves to an empty cell in reach.
Nobody else moves. -/
theorem c55_predator_turn (obj : F → ℝ × ℝ) (fits : List F) (wt : ℝ) (radius : Nat) (hr : 0 < radius) {L : Lat} {a n : Nat}
    (h : Consistent L a n) (hf : fits.length = n) {k : Nat} {p : Cell} (hp : L.preds[k]? = some p) (dy dx : Nat) :
    ∃ (M : Lat) (d : List Nat) (q : Cell), Lat.predTurn obj fits wt radius L k dy dx = .ok (M, d) ∧ LatOK M ∧ M.h = L.h ∧
      M.w = L.w ∧ M.preds = L.preds.set k q ∧
      ((∀ (i : Nat) (t : Cell), L.preys[i]? = some (some t) → ¬ InReach L.h L.w radius p t) →
        d = [] ∧ M.preys = L.preys ∧ (q = p ∨ (InReach L.h L.w radius p q ∧ L.cell q.1 q.2 = 0))) ∧
      ((∃ (i : Nat) (t : Cell), L.preys[i]? = some (some t) ∧ InReach L.h L.w radius p t) →
        ∃ (j : Nat) (f : F), d = [j] ∧ L.preys[j]? = some (some q) ∧ M.preys = L.preys.set j none ∧ InReach L.h L.w radius p q ∧
          fits[j]? = some f ∧ ∀ (i : Nat) (t : Cell) (g : F), L.preys[i]? = some (some t) → InReach L.h L.w radius p t →
            fits[i]? = some g →
              weighted wt (obj g) < weighted wt (obj f) ∨ (weighted wt (obj g) = weighted wt (obj f) ∧ i ≤ j)) := by
  obtain ⟨h1, h2, h3, h4⟩ := consistent_iff.1 h
  obtain ⟨M, d, q, a1, a2, a3, a4, a5, a6⟩ := predTurn_spec obj fits wt radius hr h1 (by rw [hf, h3]) hp dy dx
  refine ⟨M, d, q, a1, a2, a3, a4, a5, ?_, ?_⟩
  · intro hno
    rcases a6 with ⟨b1, b2, -, b4⟩ | ⟨j, f, b1, b2, b3, b4, -⟩
    · exact ⟨b1, b2, b4⟩
    · exact absurd b4 (hno j q b2)
  · rintro ⟨i, t, hi, hit⟩
    rcases a6 with ⟨-, -, b3, -⟩ | hb
    · exact absurd hit (b3 i t hi)
    · exact hb

/-- the moves each predator gets, in numbers -/
theorem moves_bound (n t p : Nat) : p * (Int.tdiv ((n : Int) - t) p).toNat ≤ n - t := by
  by_cases h : t ≤ n
  · have : ((n : Int) - t) = ((n - t : Nat) : Int) := by omega
    rw [this, ← Int.ofNat_tdiv, Int.toNat_natCast]
    exact Nat.mul_div_le _ _
  · have h0 : Int.tdiv ((n : Int) - t) p ≤ 0 := by
      have h1 : (n : Int) - t = -(((t - n : Nat)) : Int) := by omega
      rw [h1, Int.neg_tdiv, ← Int.ofNat_tdiv]
      have := Int.natCast_nonneg ((t - n) / p)
      exact Int.neg_nonpos_of_nonneg this
    rw [Int.toNat_eq_zero.2 h0, Nat.mul_zero]
    exact Nat.zero_le _

/-- deleting a list of row numbers -/
theorem delete_nats {p : Pop X O F C U} {rs : List (Rec X O F C U)} (h : Represents p rs) (hne : p.individuals ≠ none) (d : List Nat)
    (hd : ∀ j ∈ d, j < rs.length) :
    (p.delete (d.map (fun (i : Nat) => (i : Int)))).1 = .ok () ∧
      Represents (p.delete (d.map (fun (i : Nat) => (i : Int)))).2 (rowsAt (fun k => !decide (k ∈ d)) rs) ∧
      (p.delete (d.map (fun (i : Nat) => (i : Int)))).2.nCons = p.nCons ∧
      (p.delete (d.map (fun (i : Nat) => (i : Int)))).2.ndim = p.ndim := by
  have hr : inRange rs.length (d.map (fun (i : Nat) => (i : Int))) = true := inRange_nat _ _ hd
  obtain ⟨a1, a2, a3, a4, -⟩ := delete_ok h hne _ hr
  refine ⟨a1, ?_, a3, a4⟩
  have : rowsAt (fun k => !names rs.length (d.map (fun (i : Nat) => (i : Int))) k) rs = rowsAt (fun k => !decide (k ∈ d)) rs := by
    apply rowsAt_congr
    intro k hk
    rw [names_nat _ _ k hd hk]
  rw [← this]
  exact a2

/-- C48, C55 for `move_predator` on the EA: it succeeds for all random outcomes; the population loses exactly the records of the killed
prey, the lattice loses exactly their prey, and both stay aligned; never are more killed than the surplus over the target size. -/
theorem c48_hunt (po : PPGAOps X O F C U) (pc : PPGACfg) (hr : 0 < pc.radius) (hn : 0 < pc.nPred) (s : PPGA X O F C U)
    (rs : List (Rec X O F C U)) (h1 : Represents s.pop rs) (hne : s.pop.individuals ≠ none) (h2 : Consistent s.sel pc.nPred rs.length) :
    ∃ (t : PPGA X O F C U) (dead : List Nat), ppgaHunt po pc s = (.ok (), t) ∧ dead.Nodup ∧ (∀ j ∈ dead, j < rs.length) ∧
      dead.length ≤ rs.length - pc.targetPop ∧
      Represents t.pop (rowsAt (fun k => !decide (k ∈ dead)) rs) ∧ t.pop.nCons = s.pop.nCons ∧ t.pop.ndim = s.pop.ndim ∧
      t.sel.preys = rowsAt (fun k => !decide (k ∈ dead)) s.sel.preys ∧ t.sel.h = s.sel.h ∧ t.sel.w = s.sel.w ∧
      Consistent t.sel pc.nPred (rowsAt (fun k => !decide (k ∈ dead)) rs).length ∧
      t.cfg = s.cfg ∧ t.iter = s.iter ∧ t.gen = s.gen ∧ t.genIter = s.genIter ∧ t.fe = s.fe ∧ t.trueEvals = s.trueEvals := by
  obtain ⟨c1, c2, c3, c4⟩ := consistent_iff.1 h2
  cases hi : s.pop.individuals with
  | none => exact absurd hi hne
  | some inds =>
    have hlen : inds.length = rs.length := by
      rcases h1.inds with hh | ⟨hh, -⟩
      · rw [hi] at hh
        injection hh with hh
        rw [hh, List.length_map]
      · rw [hi] at hh; cases hh
    have hfl : s.pop.fitness.length = s.sel.preys.length := by rw [h1.fits, List.length_map, c3]
    have hm : predMaxMoves s.pop pc.targetPop pc.nPred = .ok (Int.tdiv ((rs.length : Int) - pc.targetPop) pc.nPred).toNat := by
      simp only [predMaxMoves, hi, hlen]
      rw [if_neg (by omega)]
    obtain ⟨M, dead, b1, b2, b3⟩ := predLoop_spec po.obj s.pop.fitness pc.nPred pc.radius
      (Int.tdiv ((rs.length : Int) - pc.targetPop) pc.nPred).toNat (po.pred s.clock) (fun _ => hr) s.sel.preds.length 0 s.sel c1 hfl
      (by omega)
    have hdlt : ∀ j ∈ dead, j < rs.length := by
      intro j hj
      obtain ⟨q, hq⟩ := b2.live j hj
      rw [← c3]
      exact (List.getElem?_eq_some_iff.1 hq).1
    obtain ⟨e1, e2, e3, e4⟩ := delete_nats h1 hne dead hdlt
    obtain ⟨N, u1, u2, u3, u4, u5, u6⟩ := update_spec b2.ok [] List.nodup_nil (by simp)
    have hup : N.preys = rowsAt (fun k => !decide (k ∈ dead)) s.sel.preys := by
      rw [u6, b2.preys]
      have hall : rowsAt (fun k => !decide (k ∈ ([] : List Nat))) (markDead s.sel.preys dead) = markDead s.sel.preys dead := by
        simp [rowsAt]
      rw [hall, markDead_alive, filterMap_id_all]
      intro x hx
      exact c4 x (mem_rowsAt hx)
    have hrun : ppgaHunt po pc s = (.ok (), { s with
        pop := (s.pop.delete (dead.map (fun (i : Nat) => (i : Int)))).2, sel := N, clock := s.clock + 1 }) := by
      unfold ppgaHunt
      rw [hm]
      dsimp only
      rw [b1]
      dsimp only
      generalize hq : s.pop.delete (dead.map (fun (i : Nat) => (i : Int))) = q at *
      obtain ⟨q1, q2⟩ := q
      dsimp only at e1
      rw [e1]
      dsimp only
      rw [u1]
    refine ⟨_, dead, hrun, b2.nodup, hdlt, ?_, e2, e3, e4, hup, u3.trans b2.h, u4.trans b2.w, ?_, rfl, rfl, rfl, rfl, rfl, rfl⟩
    · have := moves_bound rs.length pc.targetPop pc.nPred
      rw [c2] at b3
      omega
    · refine consistent_iff.2 ⟨u2, ?_, ?_, ?_⟩
      · show N.preds.length = _
        rw [u5, b2.npred, c2]
      · show N.preys.length = _
        rw [hup]
        exact rowsAt_length_eq _ _ _ c3
      · show ∀ x ∈ N.preys, x ≠ none
        rw [hup]
        intro x hx
        exact c4 x (mem_rowsAt hx)

theorem _root_.Verif.Spec.PredTurns.append {obj : F → ℝ × ℝ} {fits : List F} {radius : Nat} {ts us : List (Nat × ℝ)} {L M N : Lat}
    {d e : List Nat} (h : PredTurns obj fits radius ts L M d) (g : PredTurns obj fits radius us M N e) :
    PredTurns obj fits radius (ts ++ us) L N (d ++ e) := by
  induction h with
  | nil => exact g
  | cons t _ ih =>
    rw [List.append_assoc]
    exact .cons t (ih g)

theorem predMoves_turns (obj : F → ℝ × ℝ) (fits : List F) (wt : ℝ) (radius : Nat) (r : PredRand) (k left : Nat)
    (hr : 0 < left → 0 < radius) :
    ∀ (i : Nat) (L : Lat), LatOK L → fits.length = L.preys.length → k < L.preds.length → ∀ M d,
      Lat.predMoves obj fits wt radius r k left i L = .ok (M, d) → PredTurns obj fits radius (List.replicate left (k, wt)) L M d := by
  induction left with
  | zero =>
    intro i L _ _ _ M d h
    simp only [Lat.predMoves, Except.ok.injEq, Prod.mk.injEq] at h
    obtain ⟨rfl, rfl⟩ := h
    exact .nil _
  | succ n ih =>
    intro i L h hf hk N e hrun
    obtain ⟨M, d, q, a1, a2, a3, a4, a5, a6⟩ :=
      predTurn_spec obj fits wt radius (hr (by omega)) h hf (List.getElem?_eq_getElem hk) (r.dy k i) (r.dx k i)
    simp only [Lat.predMoves, a1] at hrun
    have hpl : M.preys.length = L.preys.length := by
      rcases a6 with ⟨-, e, -⟩ | ⟨j, f, -, -, e, -⟩ <;> rw [e]
      exact List.length_set
    have hkl : k < M.preds.length := by rw [a5, List.length_set]; exact hk
    split at hrun
    · cases hrun
    · rename_i N' ds hN
      injection hrun with hrun
      obtain ⟨rfl, rfl⟩ := Prod.mk.inj hrun
      rw [List.replicate_succ]
      refine .cons ⟨_, q, List.getElem?_eq_getElem hk, a3, a4, a5, ?_⟩ (ih (fun _ => hr (by omega)) (i + 1) M a2 (by rw [hpl]; exact hf) hkl _ _ hN)
      rcases a6 with h | ⟨j, f, e1, e2, e3, e4, e5, e6⟩
      · exact .inl h
      · refine .inr ⟨j, f, e1, e2, e3, e4, e5, fun i t g hi ht hg => ?_⟩
        rcases e6 i t g hi ht hg with h | h
        · exact h.le
        · exact h.1.le

theorem predLoop_turns (obj : F → ℝ × ℝ) (fits : List F) (n radius moves : Nat) (r : PredRand) (hr : 0 < moves → 0 < radius)
    (left : Nat) :
    ∀ (k : Nat) (L : Lat), LatOK L → fits.length = L.preys.length → L.preds.length = k + left → ∀ M d,
      Lat.predLoop obj fits n radius moves r left k L = .ok (M, d) →
      PredTurns obj fits radius ((List.range' k left).flatMap (fun i => List.replicate moves (i, (i : ℝ) / ((n : ℝ) - 1)))) L M d := by
  induction left with
  | zero =>
    intro k L _ _ _ M d h
    simp only [Lat.predLoop, Except.ok.injEq, Prod.mk.injEq] at h
    obtain ⟨rfl, rfl⟩ := h
    exact .nil _
  | succ m ih =>
    intro k L h hf hk N e hrun
    obtain ⟨M, d, a1, a2, a3⟩ := predMoves_spec obj fits (predWeight n k) radius r k moves hr 0 L h hf (by omega)
    have h1 := predMoves_turns obj fits (predWeight n k) radius r k moves hr 0 L h hf (by omega) M d a1
    simp only [Lat.predLoop, a1] at hrun
    split at hrun
    · cases hrun
    · rename_i N' ds hN
      injection hrun with hrun
      obtain ⟨rfl, rfl⟩ := Prod.mk.inj hrun
      rw [List.range'_succ, List.flatMap_cons]
      exact h1.append (ih (k + 1) M a2.ok (by rw [a2.preys, markDead_length]; exact hf) (by rw [a2.npred]; omega) _ _ hN)

/-- C55, the whole hunt: `move_predator` is a sequence of turns, predator by predator in order of their numbers, each predator
taking `⌊surplus / number of predators⌋` turns with its own weight; the weights are evenly spaced from 0 (first predator) to 1
(last one); the population loses exactly the records of those who died. -/
theorem c55_hunt_turns (po : PPGAOps X O F C U) (pc : PPGACfg) (hr : 0 < pc.radius) (hn : 0 < pc.nPred) (s : PPGA X O F C U)
    (rs : List (Rec X O F C U)) (h1 : Represents s.pop rs) (hne : s.pop.individuals ≠ none) (h2 : Consistent s.sel pc.nPred rs.length) :
    ∃ (t : PPGA X O F C U) (M : Lat) (dead : List Nat) (wt : Nat → ℝ), ppgaHunt po pc s = (.ok (), t) ∧
      PredTurns po.obj (rs.map Rec.f) pc.radius
        ((List.range pc.nPred).flatMap (fun k => List.replicate ((rs.length - pc.targetPop) / pc.nPred) (k, wt k))) s.sel M dead ∧
      wt 0 = 0 ∧ (1 < pc.nPred → wt (pc.nPred - 1) = 1) ∧
      (∀ k, k + 2 < pc.nPred → wt (k + 2) - wt (k + 1) = wt (k + 1) - wt k) ∧
      Represents t.pop (rowsAt (fun k => !decide (k ∈ dead)) rs) := by
  obtain ⟨c1, c2, c3, c4⟩ := consistent_iff.1 h2
  obtain ⟨t, dead, a1, a2, a3, a4, a5, -⟩ := c48_hunt po pc hr hn s rs h1 hne h2
  cases hi : s.pop.individuals with
  | none => exact absurd hi hne
  | some inds =>
    have hlen : inds.length = rs.length := by
      rcases h1.inds with hh | ⟨hh, -⟩
      · rw [hi] at hh
        injection hh with hh
        rw [hh, List.length_map]
      · rw [hi] at hh; cases hh
    have hfl : s.pop.fitness.length = s.sel.preys.length := by rw [h1.fits, List.length_map, c3]
    have hmv : (Int.tdiv ((rs.length : Int) - pc.targetPop) pc.nPred).toNat = (rs.length - pc.targetPop) / pc.nPred := by
      by_cases h : pc.targetPop ≤ rs.length
      · have : ((rs.length : Int) - pc.targetPop) = ((rs.length - pc.targetPop : Nat) : Int) := by omega
        rw [this, ← Int.ofNat_tdiv, Int.toNat_natCast]
      · have h0 : rs.length - pc.targetPop = 0 := by omega
        have := moves_bound rs.length pc.targetPop pc.nPred
        rw [h0] at this ⊢
        rw [Nat.zero_div]
        exact (Nat.mul_eq_zero.1 (Nat.le_zero.1 this)).resolve_left (by omega)
    have hm : predMaxMoves s.pop pc.targetPop pc.nPred = .ok ((rs.length - pc.targetPop) / pc.nPred) := by
      simp only [predMaxMoves, hi, hlen]
      rw [if_neg (by omega), hmv]
    obtain ⟨M, dd, b1, b2, b3⟩ := predLoop_spec po.obj s.pop.fitness pc.nPred pc.radius
      ((rs.length - pc.targetPop) / pc.nPred) (po.pred s.clock) (fun _ => hr) s.sel.preds.length 0 s.sel c1 hfl
      (by omega)
    have hturns := predLoop_turns po.obj s.pop.fitness pc.nPred pc.radius
      ((rs.length - pc.targetPop) / pc.nPred) (po.pred s.clock) (fun _ => hr) s.sel.preds.length 0 s.sel c1 hfl (by omega) M dd b1
    have hdlt : ∀ j ∈ dd, j < rs.length := by
      intro j hj
      obtain ⟨q, hq⟩ := b2.live j hj
      rw [← c3]
      exact (List.getElem?_eq_some_iff.1 hq).1
    obtain ⟨e1, e2, e3, e4⟩ := delete_nats h1 hne dd hdlt
    obtain ⟨N, u1, -⟩ := update_spec b2.ok [] List.nodup_nil (by simp)
    have hrun : ppgaHunt po pc s = (.ok (), { s with
        pop := (s.pop.delete (dd.map (fun (i : Nat) => (i : Int)))).2, sel := N, clock := s.clock + 1 }) := by
      unfold ppgaHunt
      rw [hm]
      dsimp only
      rw [b1]
      dsimp only
      generalize hq : s.pop.delete (dd.map (fun (i : Nat) => (i : Int))) = q at *
      obtain ⟨q1, q2⟩ := q
      dsimp only at e1
      rw [e1]
      dsimp only
      rw [u1]
    refine ⟨_, M, dd, fun i => (i : ℝ) / ((pc.nPred : ℝ) - 1), hrun, ?_, by simp, ?_, ?_, e2⟩
    · rw [c2] at hturns
      rw [List.range_eq_range', ← h1.fits]
      exact hturns
    · intro h
      have h' : (1 : ℝ) < pc.nPred := by exact_mod_cast h
      show ((pc.nPred - 1 : Nat) : ℝ) / _ = 1
      rw [Nat.cast_sub (by omega), Nat.cast_one, div_self (by linarith)]
    · intro k _
      push_cast
      ring

/-- C55: hunting never takes the population below the target size, nor makes it smaller if it is not above it. -/
theorem c55_floor (po : PPGAOps X O F C U) (pc : PPGACfg) (hr : 0 < pc.radius) (hn : 0 < pc.nPred) (s : PPGA X O F C U)
    (rs : List (Rec X O F C U)) (h1 : Represents s.pop rs) (hne : s.pop.individuals ≠ none) (h2 : Consistent s.sel pc.nPred rs.length) :
    min rs.length pc.targetPop ≤ (ppgaHunt po pc s).2.pop.fitness.length ∧
      (ppgaHunt po pc s).2.pop.fitness.length ≤ s.pop.fitness.length := by
  obtain ⟨t, dead, a1, a2, a3, a4, a5, -⟩ := c48_hunt po pc hr hn s rs h1 hne h2
  have := rowsAt_drop_length rs dead a2 a3
  rw [a1]
  simp only [a5.fits, h1.fits, List.length_map]
  omega

/-- C55: hunting with no predators, or with no individuals, raises and changes nothing. -/
theorem c55_no_predators (po : PPGAOps X O F C U) (pc : PPGACfg) (s : PPGA X O F C U) :
    (s.pop.individuals = none → ppgaHunt po pc s = (.error .typeError, s)) ∧
    (s.pop.individuals ≠ none → pc.nPred = 0 → ppgaHunt po pc s = (.error .zeroDivisionError, s)) := by
  constructor
  · intro h
    simp [ppgaHunt, predMaxMoves, h]
  · intro h hn
    cases hi : s.pop.individuals with
    | none => exact absurd hi h
    | some inds => simp [ppgaHunt, predMaxMoves, hi, hn]

/-! ## C56: killing the worst fronts -/

theorem ranks_aux (i k : Nat) (fs : List (List Bool × Nat)) : ∀ r : List Int, i < r.length →
    (∀ q ∈ fs, i ∈ whereIdx q.1 → q.2 = k) → (r[i]? = some (k : Int) ∨ ∃ q ∈ fs, i ∈ whereIdx q.1) →
    (fs.foldl (fun r f => (whereIdx f.1).foldl (fun r i => r.set i (f.2 : Int)) r) r)[i]? = some (k : Int) := by
  induction fs with
  | nil =>
    intro r _ _ h
    rcases h with h | ⟨q, hq, -⟩
    · exact h
    · simp at hq
  | cons f fs ih =>
    intro r hi hall h
    have hg := setRows_getElem? r (whereIdx f.1) ((f.2 : Nat) : Int) i
    have hlen : ((whereIdx f.1).foldl (fun r i => r.set i (f.2 : Int)) r).length = r.length := by
      generalize whereIdx f.1 = l
      clear hg ih hall h hi
      induction l generalizing r with
      | nil => rfl
      | cons a l ih => rw [List.foldl_cons, ih, List.length_set]
    refine ih _ (by rw [hlen]; exact hi) (fun q hq => hall q (List.mem_cons_of_mem _ hq)) ?_
    by_cases hf : i ∈ whereIdx f.1
    · left
      rw [if_pos ⟨hf, hi⟩] at hg
      rw [← hall f (by simp) hf]
      exact hg
    · rw [if_neg (by tauto)] at hg
      rcases h with h | ⟨q, hq, hiq⟩
      · left
        exact hg.trans h
      · right
        rcases List.mem_cons.1 hq with rfl | hq
        · exact absurd hiq hf
        · exact ⟨q, hq, hiq⟩

theorem ranks_length (fs : List (List Bool)) (n : Nat) : (ranks fs n).length = n := by
  unfold ranks
  have inner : ∀ (l : List Nat) (r : List Int) (v : Int), (l.foldl (fun r i => r.set i v) r).length = r.length := by
    intro l
    induction l with
    | nil => intros; rfl
    | cons a l ih => intro r v; rw [List.foldl_cons, ih, List.length_set]
  have outer : ∀ (gs : List (List Bool × Nat)) (r : List Int),
      (gs.foldl (fun r f => (whereIdx f.1).foldl (fun r i => r.set i (f.2 : Int)) r) r).length = r.length := by
    intro gs
    induction gs with
    | nil => intros; rfl
    | cons g gs ih => intro r; rw [List.foldl_cons, ih, inner]
  rw [outer, List.length_replicate]

/-- every individual in exactly one front -/
theorem front_unique {fronts : List (List Nat)} {n : Nat} (h : fronts.flatten.Perm (List.range n)) :
    ∀ (i a b : Nat) (f g : List Nat), fronts[a]? = some f → fronts[b]? = some g → i ∈ f → i ∈ g → a = b := by
  have hnd : fronts.flatten.Nodup := h.nodup_iff.2 List.nodup_range
  clear h
  intro i a b f g ha hb hf hg
  have hp := (List.nodup_flatten.1 hnd).2
  have key : ∀ (a b : Nat) (f g : List Nat), a < b → fronts[a]? = some f → fronts[b]? = some g → i ∈ f → i ∈ g → False := by
    intro a b f g hab ha hb hf hg
    obtain ⟨ha1, ha2⟩ := List.getElem?_eq_some_iff.1 ha
    obtain ⟨hb1, hb2⟩ := List.getElem?_eq_some_iff.1 hb
    have := List.pairwise_iff_getElem.1 hp a b ha1 hb1 hab
    rw [ha2, hb2] at this
    exact this hf hg
  rcases Nat.lt_trichotomy a b with hlt | heq | hgt
  · exact absurd (key a b f g hlt ha hb hf hg) id
  · exact heq
  · exact absurd (key b a g f hgt hb ha hg hf) id

/-- C56: `select` returns, without repetition and in ascending order, exactly the individuals in fronts with number above
`max_rank`. -/
theorem c56_select (nds : List F → List (List Bool)) (fits : List F) (dom : Nat → Nat → Prop)
    (hs : IsFrontSort dom fits.length ((nds fits).map whereIdx)) (maxRank : Int) :
    (ppgaSelect nds fits maxRank).Pairwise (· < ·) ∧
    ∀ i : Nat, i ∈ ppgaSelect nds fits maxRank ↔
      ∃ (k : Nat) (f : List Nat), ((nds fits).map whereIdx)[k]? = some f ∧ i ∈ f ∧ maxRank < (k : Int) := by
  refine ⟨whereIdx_pairwise _, ?_⟩
  have hrank : ∀ (i k : Nat) (f : List Nat), ((nds fits).map whereIdx)[k]? = some f → i ∈ f →
      (ranks (nds fits) fits.length)[i]? = some (k : Int) := by
    intro i k f hf hi
    rw [List.getElem?_map, Option.map_eq_some_iff] at hf
    obtain ⟨m, hm, rfl⟩ := hf
    have hmem : i ∈ ((nds fits).map whereIdx).flatten := by
      rw [List.mem_flatten]
      exact ⟨whereIdx m, List.mem_map_of_mem (List.mem_of_getElem? hm), hi⟩
    have hlt := List.mem_range.1 (hs.all.mem_iff.1 hmem)
    apply ranks_aux i k (nds fits).zipIdx
    · simpa using hlt
    · intro q hq hiq
      have hq' := List.mem_zipIdx_iff_getElem?.1 hq
      exact front_unique hs.all i q.2 k (whereIdx q.1) (whereIdx m) (by rw [List.getElem?_map, hq']; rfl)
        (by rw [List.getElem?_map, hm]; rfl) hiq hi
    · right
      exact ⟨(m, k), List.mem_zipIdx_iff_getElem?.2 hm, hi⟩
  intro i
  unfold ppgaSelect
  rw [mem_whereIdx, List.getElem?_map, Option.map_eq_some_iff]
  constructor
  · rintro ⟨r, hr, hd⟩
    rw [decide_eq_true_eq] at hd
    have hlt : i < fits.length := by
      have := (List.getElem?_eq_some_iff.1 hr).1
      rwa [ranks_length] at this
    have hmem := hs.all.mem_iff.2 (List.mem_range.2 hlt)
    obtain ⟨f, hf, hif⟩ := List.mem_flatten.1 hmem
    obtain ⟨k, hk⟩ := List.getElem?_of_mem hf
    have := hrank i k f hk hif
    rw [hr] at this
    injection this with this
    exact ⟨k, f, hk, hif, by omega⟩
  · rintro ⟨k, f, hf, hi, hlt⟩
    exact ⟨k, hrank i k f hf hi, by simpa using hlt⟩

theorem front_lt {fronts : List (List Nat)} {n : Nat} (h : fronts.flatten.Perm (List.range n)) {g : List Nat} {z k : Nat}
    (hg : fronts[k]? = some g) (hz : z ∈ g) : z < n :=
  List.mem_range.1 (h.mem_iff.1 (List.mem_flatten.2 ⟨g, List.mem_of_getElem? hg, hz⟩))

/-- C56: with a non-negative `max_rank` whoever is selected for killing is dominated: non-dominated individuals are never killed. -/
theorem c56_best_survive (nds : List F → List (List Bool)) (fits : List F) (dom : Nat → Nat → Prop)
    (hs : IsFrontSort dom fits.length ((nds fits).map whereIdx)) (maxRank : Int) (h0 : 0 ≤ maxRank) (i : Nat)
    (hi : i ∈ ppgaSelect nds fits maxRank) : ∃ z : Nat, z < fits.length ∧ dom z i := by
  obtain ⟨k, f, h1, h2, h3⟩ := ((c56_select nds fits dom hs maxRank).2 i).1 hi
  cases k with
  | zero => omega
  | succ k =>
    have hk : k + 1 < ((nds fits).map whereIdx).length := (List.getElem?_eq_some_iff.1 h1).1
    obtain ⟨g, hg⟩ : ∃ g, ((nds fits).map whereIdx)[k]? = some g := ⟨_, List.getElem?_eq_getElem (by omega)⟩
    obtain ⟨z, hz, hdz⟩ := hs.witness k g f i hg h1 h2
    exact ⟨z, front_lt hs.all hg hz, hdz⟩

/-- C56: a selected individual (with non-negative `max_rank`) is the last of a chain of at least `max_rank + 1` dominations. -/
theorem c56_chain (nds : List F → List (List Bool)) (fits : List F) (dom : Nat → Nat → Prop)
    (hs : IsFrontSort dom fits.length ((nds fits).map whereIdx)) (maxRank : Nat) (i : Nat)
    (hi : i ∈ ppgaSelect nds fits maxRank) : ∃ c : List Nat, c.length = maxRank + 1 ∧ (c ++ [i]).IsChain dom := by
  obtain ⟨k, f, h1, h2, h3⟩ := ((c56_select nds fits dom hs maxRank).2 i).1 hi
  have key : ∀ (n k : Nat) (f : List Nat) (i : Nat), n ≤ k → ((nds fits).map whereIdx)[k]? = some f → i ∈ f →
      ∃ c : List Nat, c.length = n ∧ (c ++ [i]).IsChain dom := by
    intro n
    induction n with
    | zero => intro k f i _ _ _; exact ⟨[], rfl, by simp⟩
    | succ n ih =>
      intro k f i hn h1 h2
      obtain ⟨k, rfl⟩ : ∃ k', k = k' + 1 := ⟨k - 1, by omega⟩
      have hk : k + 1 < ((nds fits).map whereIdx).length := (List.getElem?_eq_some_iff.1 h1).1
      obtain ⟨g, hg⟩ : ∃ g, ((nds fits).map whereIdx)[k]? = some g := ⟨_, List.getElem?_eq_getElem (by omega)⟩
      obtain ⟨z, hz, hdz⟩ := hs.witness k g f i hg h1 h2
      obtain ⟨c, c1, c2⟩ := ih k g z (by omega) hg hz
      refine ⟨c ++ [z], by simp [c1], ?_⟩
      rw [List.append_assoc]
      rw [List.isChain_append] at c2 ⊢
      refine ⟨c2.1, by simpa using hdz, ?_⟩
      intro a ha b hb
      exact c2.2.2 a ha b (by simpa using hb)
  exact key (maxRank + 1) k f i (by omega) h1 h2

/-- C56, C48: every `kill_interval` generations the individuals selected lose their record and their prey, everyone else stays; lattice
and population stay aligned.  In other generations nothing happens. -/
theorem c56_kill (po : PPGAOps X O F C U) (pc : PPGACfg) (hk : 0 < pc.killInterval) (s : PPGA X O F C U)
    (rs : List (Rec X O F C U)) (h1 : Represents s.pop rs) (hne : s.pop.individuals ≠ none) (h2 : Consistent s.sel pc.nPred rs.length) :
    (s.gen % pc.killInterval ≠ 0 → ppgaKill po pc s = (.ok (), s)) ∧
    (s.gen % pc.killInterval = 0 →
      ∃ t : PPGA X O F C U, ppgaKill po pc s = (.ok (), t) ∧
        Represents t.pop (rowsAt (fun k => !decide (k ∈ ppgaSelect po.nds s.pop.fitness pc.maxRank)) rs) ∧
        t.pop.nCons = s.pop.nCons ∧ t.pop.ndim = s.pop.ndim ∧
        t.sel.preys = rowsAt (fun k => !decide (k ∈ ppgaSelect po.nds s.pop.fitness pc.maxRank)) s.sel.preys ∧
        t.sel.h = s.sel.h ∧ t.sel.w = s.sel.w ∧ t.sel.preds = s.sel.preds ∧
        Consistent t.sel pc.nPred (rowsAt (fun k => !decide (k ∈ ppgaSelect po.nds s.pop.fitness pc.maxRank)) rs).length ∧
        t.cfg = s.cfg ∧ t.iter = s.iter ∧ t.gen = s.gen ∧ t.genIter = s.genIter ∧ t.fe = s.fe ∧ t.trueEvals = s.trueEvals) := by
  constructor
  · intro hg
    unfold ppgaKill
    rw [if_neg (by omega), if_neg hg]
  · intro hg
    generalize hsel : ppgaSelect po.nds s.pop.fitness pc.maxRank = sel
    have hnd : sel.Nodup := by
      rw [← hsel]
      exact (whereIdx_pairwise _).imp (fun h => Nat.ne_of_lt h)
    have hlt : ∀ i ∈ sel, i < rs.length := by
      intro i hi
      rw [← hsel] at hi
      unfold ppgaSelect at hi
      rw [mem_whereIdx] at hi
      have := (List.getElem?_eq_some_iff.1 hi).1
      rwa [List.length_map, ranks_length, h1.fits, List.length_map] at this
    obtain ⟨M, b1, b2, b3, b4, b5, b6⟩ := c48_update_lattice h2 sel hnd hlt
    obtain ⟨e1, e2, e3, e4⟩ := delete_nats h1 hne sel hlt
    have hrun : ppgaKill po pc s = (.ok (), { s with
        pop := (s.pop.delete (sel.map (fun (i : Nat) => (i : Int)))).2, sel := M }) := by
      unfold ppgaKill
      rw [if_neg (by omega), if_pos hg]
      dsimp only
      rw [hsel, b1]
      dsimp only
      generalize hq : s.pop.delete (sel.map (fun (i : Nat) => (i : Int))) = q at *
      obtain ⟨q1, q2⟩ := q
      dsimp only at e1
      rw [e1]
    refine ⟨_, hrun, e2, e3, e4, b6, b3, b4, b5, ?_, rfl, rfl, rfl, rfl, rfl, rfl⟩
    have := rowsAt_drop_length rs sel hnd hlt
    rw [show (rowsAt (fun k => !decide (k ∈ sel)) rs).length = rs.length - sel.length by omega]
    exact b2

/-! ## C48: the lattice and the population over generations -/

theorem placed_mask (n : Nat) (placed : List Nat) (h : ∀ j ∈ placed, j < n) {α : Type} (l : List α) (hl : l.length = n) :
    compress ((setMask (List.replicate n true) placed false).map (fun b => !b)) l = rowsAt (fun k => decide (k ∈ placed)) l := by
  apply compress_eq_rowsAt
  · rw [List.length_map, setMask_length, List.length_replicate, hl]
  · intro k hk
    rw [List.getElem?_map, setMask_eq_setRows, setRows_getElem?]
    by_cases hp : k ∈ placed
    · have := h k hp
      simp [hp, this]
    · have : k < n := by omega
      simp [hp, this]

theorem rowsAt_keep_length {α : Type} (l : List α) (d : List Nat) (hn : d.Nodup) (hd : ∀ j ∈ d, j < l.length) :
    (rowsAt (fun k => decide (k ∈ d)) l).length = d.length := by
  have h1 := rowsAt_drop_length l d hn hd
  have h2 : (rowsAt (fun k => decide (k ∈ d)) l).length + (rowsAt (fun k => !decide (k ∈ d)) l).length = l.length := by
    unfold rowsAt
    rw [List.length_map, List.length_map]
    have := List.length_eq_length_filter_add (l := l.zipIdx) (fun p => decide (p.2 ∈ d))
    simp only [List.length_zipIdx] at this
    exact this.symm
  omega

theorem newRecs_length (xs : List X) (r : Results O F C U) (nc : Nat) (h : EvalOK nc xs.length r) :
    (newRecs xs r).length = xs.length := by
  have := (newRecs_proj xs r h).1
  rw [← List.length_map (as := newRecs xs r) (f := Rec.x), this]

/-- C48 for adding offspring: exactly the placed offspring are evaluated and appended to the population, in order, each with its own
prey; they are counted as function evaluations. -/
theorem c48_add (po : PPGAOps X O F C U) (pc : PPGACfg) (d nc : Nat) (hc : PPGAContract d nc po) (s : PPGA X O F C U)
    (rs : List (Rec X O F C U)) (h1 : Represents s.pop rs) (h2 : Consistent s.sel pc.nPred rs.length) (hh : 0 < s.sel.h) (hw : 0 < s.sel.w)
    (hnd : s.pop.individuals ≠ none → s.pop.ndim = d) (hnc : s.pop.nCons = nc) (off : Batch X) (hoff : off.ndim = d) :
    ∃ (t : PPGA X O F C U) (placed : List Nat) (r : Results O F C U), ppgaAdd po pc s off = (.ok (), t) ∧
      placed.Pairwise (· < ·) ∧ (∀ j ∈ placed, j < off.rows.length) ∧
      po.evaluate (s.clock + 1) ⟨d, rowsAt (fun k => decide (k ∈ placed)) off.rows⟩ = .ok r ∧
      Represents t.pop (rs ++ newRecs (rowsAt (fun k => decide (k ∈ placed)) off.rows) r) ∧
      Consistent t.sel pc.nPred (rs ++ newRecs (rowsAt (fun k => decide (k ∈ placed)) off.rows) r).length ∧
      t.pop.individuals ≠ none ∧ t.pop.ndim = d ∧ t.pop.nCons = nc ∧ t.sel.h = s.sel.h ∧ t.sel.w = s.sel.w ∧
      t.cfg = s.cfg ∧ t.iter = s.iter ∧ t.gen = s.gen + 1 ∧ t.genIter = s.genIter + 1 ∧
      t.fe = s.fe + placed.length ∧ t.trueEvals = s.trueEvals + placed.length ∧
      s.sel.placeOffspring (po.placeY s.clock) (po.placeX s.clock) pc.attempts off.rows.length = .ok (t.sel, placed) := by
  obtain ⟨M, placed, locs, a1, a2, a3, a4, a5, a6, a7, a8, a9, a10⟩ :=
    c48_place_offspring h2 hh hw (po.placeY s.clock) (po.placeX s.clock) pc.attempts off.rows.length
  have hmask := placed_mask off.rows.length placed a9 off.rows rfl
  have hpn : placed.Nodup := a8.imp (fun h => Nat.ne_of_lt h)
  have hkl := rowsAt_keep_length off.rows placed hpn a9
  generalize hrows : rowsAt (fun k => decide (k ∈ placed)) off.rows = rows at *
  obtain ⟨r, r1, r2, r3⟩ := hc.evaluate (s.clock + 1) ⟨d, rows⟩
  obtain ⟨b1, b2, b3, b4, b5⟩ := add_spec (d := d) h1 ⟨d, rows⟩ r (by rw [hnc]; exact r2) hnd (Or.inl rfl)
  have b6 := (b5 (Or.inr (Or.inl r3))).1
  have hrun : ppgaAdd po pc s off = (.ok (), { s with
      pop := (s.pop.add ⟨d, rows⟩ (.ok r)).2, sel := M, clock := s.clock + 1 + 1, trueEvals := s.trueEvals + rows.length,
      gen := s.gen + 1, genIter := s.genIter + 1, fe := s.fe + rows.length }) := by
    unfold ppgaAdd
    rw [a1]
    dsimp only
    rw [hmask, hoff, r1, b6]
  rw [hrun]
  refine ⟨_, placed, r, rfl, a8, a9, by rw [hrows]; exact r1, by rw [hrows]; exact b1, ?_, b4, b3, b2.trans hnc, a3, a4, rfl, rfl, rfl, rfl, ?_, ?_, a1⟩
  · rw [hrows, List.length_append, newRecs_length rows r nc r2, hkl]
    exact a2
  · rw [← hkl]
  · rw [← hkl]

/-- C48: if the evaluation of the placed offspring raises, the lattice keeps their prey but the population does not grow: lattice and
population no longer agree (unless nothing was placed). -/
theorem c48_failed_evaluation_desyncs (po : PPGAOps X O F C U) (pc : PPGACfg) (s : PPGA X O F C U)
    (rs : List (Rec X O F C U)) (h2 : Consistent s.sel pc.nPred rs.length) (hh : 0 < s.sel.h) (hw : 0 < s.sel.w)
    (off : Batch X) (e : Err) (he : ∀ c b, po.evaluate c b = .error e) :
    ∃ (t : PPGA X O F C U) (placed : List Nat), ppgaAdd po pc s off = (.error e, t) ∧ t.pop = s.pop ∧
      t.sel.preys.length = rs.length + placed.length ∧
      (∃ M, s.sel.placeOffspring (po.placeY s.clock) (po.placeX s.clock) pc.attempts off.rows.length = .ok (M, placed)) := by
  obtain ⟨M, placed, locs, a1, a2, a3, a4, a5, a6, a7, a8, a9, a10⟩ :=
    c48_place_offspring h2 hh hw (po.placeY s.clock) (po.placeX s.clock) pc.attempts off.rows.length
  have hadd : ∀ b : Batch X, s.pop.add b (.error e) = (.error e, s.pop) := fun b => rfl
  refine ⟨(ppgaAdd po pc s off).2, placed, ?_, ?_, ?_, M, a1⟩
  · unfold ppgaAdd
    rw [a1]
    dsimp only
    rw [he, hadd]
  · unfold ppgaAdd
    rw [a1]
    dsimp only
    rw [he, hadd]
  · unfold ppgaAdd
    rw [a1]
    dsimp only
    rw [he, hadd]
    dsimp only
    rw [a6, List.length_append, List.length_map, a7, h2.preys]

/-- C48: the constructor, given an initial population of `d`-dimensional individuals that fits on the lattice with the predators, yields
aligned lattice and population. -/
theorem c48_construct (pc : PPGACfg) (nIter nGen : Nat) (dPred dPrey : Nat → Nat) (p : Pop X O F C U) (rs : List (Rec X O F C U))
    (h1 : Represents p rs) (hne : p.individuals ≠ none) (hfit : pc.nPred + rs.length ≤ 3600) :
    ∃ s, ppgaConstruct pc nIter nGen dPred dPrey (some p) = .ok s ∧ Synced pc.nPred p.ndim p.nCons s ∧ s.pop = p ∧
      s.gen = 0 ∧ s.iter = 0 ∧ s.fe = 0 ∧ s.trueEvals = 0 ∧ s.cfg.nGen = nGen ∧ s.cfg.nIter = nIter ∧ s.cfg.total = 0 := by
  cases hi : p.individuals with
  | none => exact absurd hi hne
  | some inds =>
    have hlen := Represents_length h1 hi
    obtain ⟨L, a1, a2, a3, a4⟩ := (c48_init 60 60 ((List.range pc.nPred).map dPred) ((List.range inds.length).map dPrey)).1 (by simpa [hlen] using hfit)
    simp only [List.length_map, List.length_range, hlen] at a2
    refine ⟨_, by simp only [ppgaConstruct, hi, a1]; rfl, ⟨⟨rs, h1, a2⟩, fun _ => rfl, rfl, ?_, ?_⟩, rfl, rfl, rfl, rfl, rfl, rfl, rfl, rfl⟩
    · show 0 < L.h
      omega
    · show 0 < L.w
      omega

/-- C48: the constructor raises without an initial population and when the animals do not fit on the 60 by 60 lattice. -/
theorem c48_construct_fails (pc : PPGACfg) (nIter nGen : Nat) (dPred dPrey : Nat → Nat) :
    (ppgaConstruct (X := X) (O := O) (F := F) (C := C) (U := U) pc nIter nGen dPred dPrey none = .error .eaError) ∧
    (∀ (p : Pop X O F C U) (rs : List (Rec X O F C U)), Represents p rs → p.individuals ≠ none → 3600 < pc.nPred + rs.length →
      ppgaConstruct pc nIter nGen dPred dPrey (some p) = .error .valueError) := by
  refine ⟨rfl, ?_⟩
  intro p rs h1 hne hlt
  cases hi : p.individuals with
  | none => exact absurd hi hne
  | some inds =>
    have hlen := Represents_length h1 hi
    have := (c48_init 60 60 ((List.range pc.nPred).map dPred) ((List.range inds.length).map dPrey)).2 (by simpa [hlen] using hlt)
    simp only [ppgaConstruct, hi, this]

/-- What one generation does to the counters and to the alignment, whether or not it raises. -/
theorem ppga_gen (po : PPGAOps X O F C U) (pc : PPGACfg) (d nc : Nat) (hc : PPGAContract d nc po) (hr : 0 < pc.radius)
    (s : PPGA X O F C U) (h : Synced pc.nPred d nc s) :
    Synced pc.nPred d nc (ppgaNextGen po pc s).2 ∧
    (ppgaNextGen po pc s).2.cfg = s.cfg ∧ (ppgaNextGen po pc s).2.iter = s.iter ∧
    ((ppgaNextGen po pc s).2.fe : Int) - s.fe = (ppgaNextGen po pc s).2.trueEvals - s.trueEvals ∧
    ((ppgaNextGen po pc s).1 = .ok () →
      (ppgaNextGen po pc s).2.gen = s.gen + 1 ∧ (ppgaNextGen po pc s).2.genIter = s.genIter + 1) := by
  obtain ⟨⟨rs, h1, h2⟩, hnd, hnc, hh, hw⟩ := h
  obtain ⟨p1, p2, p3, p4, -⟩ := c48_move_prey h2 (po.prey s.clock) pc.preyMaxMoves
  unfold ppgaNextGen
  dsimp only
  generalize hmv : s.sel.movePrey (po.prey s.clock) pc.preyMaxMoves = mv at *
  obtain ⟨mv1, mv2⟩ := mv
  dsimp only at p1 p2 p3 p4
  cases mv1 with
  | error e =>
    dsimp only
    refine ⟨⟨⟨rs, h1, p1⟩, hnd, hnc, ?_, ?_⟩, rfl, rfl, by simp, by simp⟩
    · show 0 < mv2.h
      omega
    · show 0 < mv2.w
      omega
  | ok mating =>
    dsimp only
    cases hmate : po.mate (s.clock + 1) s.pop mating with
    | error e =>
      dsimp only
      refine ⟨⟨⟨rs, h1, p1⟩, hnd, hnc, ?_, ?_⟩, rfl, rfl, by simp, by simp⟩
      · show 0 < mv2.h
        omega
      · show 0 < mv2.w
        omega
    | ok off =>
      dsimp only
      obtain ⟨t, placed, r, a1, -, -, -, a5, a6, a7, a8, a9, a10, a11, a12, a13, a14, a15, a16, a17, -⟩ :=
        c48_add po pc d nc hc { s with sel := mv2, clock := s.clock + 1 + 1 } rs h1 p1 (show 0 < mv2.h by omega)
          (show 0 < mv2.w by omega) hnd hnc off (hc.mate _ _ _ _ hmate)
      rw [a1]
      dsimp only at a10 a11 a12 a13 a14 a15 a16 a17 ⊢
      generalize rs ++ newRecs (rowsAt (fun k => decide (k ∈ placed)) off.rows) r = rs' at a5 a6
      -- after the killing
      have hkill : ∃ (k : Except Err Unit) (u : PPGA X O F C U) (rs2 : List (Rec X O F C U)), ppgaKill po pc t = (k, u) ∧
          Represents u.pop rs2 ∧ Consistent u.sel pc.nPred rs2.length ∧ u.pop.nCons = nc ∧ u.pop.ndim = d ∧
          u.sel.h = t.sel.h ∧ u.sel.w = t.sel.w ∧ u.cfg = t.cfg ∧ u.iter = t.iter ∧ u.gen = t.gen ∧ u.genIter = t.genIter ∧
          u.fe = t.fe ∧ u.trueEvals = t.trueEvals := by
        by_cases hk0 : pc.killInterval = 0
        · exact ⟨.error .zeroDivisionError, t, rs', by simp [ppgaKill, hk0], a5, a6, a9, a8, rfl, rfl, rfl, rfl, rfl, rfl, rfl, rfl⟩
        · obtain ⟨k1, k2⟩ := c56_kill po pc (by omega) t rs' a5 a7 a6
          by_cases hg : t.gen % pc.killInterval = 0
          · obtain ⟨u, u1, u2, u3, u4, u5, u6, u7, u8, u9, u10, u11, u12, u13, u14, u15⟩ := k2 hg
            exact ⟨.ok (), u, _, u1, u2, u9, u3.trans a9, u4.trans a8, u6, u7, u10, u11, u12, u13, u14, u15⟩
          · exact ⟨.ok (), t, rs', k1 hg, a5, a6, a9, a8, rfl, rfl, rfl, rfl, rfl, rfl, rfl, rfl⟩
      obtain ⟨k, u, rs2, u1, u2, u3, u4, u5, u6, u7, u8, u9, u10, u11, u12, u13⟩ := hkill
      rw [u1]
      have hu : Synced pc.nPred d nc u := ⟨⟨rs2, u2, u3⟩, fun _ => u5, u4, by omega, by omega⟩
      cases k with
      | error e =>
        dsimp only
        refine ⟨hu, u8.trans a12, u9.trans a13, ?_, by simp⟩
        rw [u12, u13, a16, a17]
        omega
      | ok _ =>
        dsimp only
        -- the hunt
        by_cases hi : u.pop.individuals = none
        · rw [(c55_no_predators po pc u).1 hi]
          refine ⟨hu, u8.trans a12, u9.trans a13, ?_, by simp⟩
          dsimp only
          rw [u12, u13, a16, a17]
          omega
        · by_cases hn : pc.nPred = 0
          · rw [(c55_no_predators po pc u).2 hi hn]
            refine ⟨hu, u8.trans a12, u9.trans a13, ?_, by simp⟩
            dsimp only
            rw [u12, u13, a16, a17]
            omega
          · obtain ⟨v, dead, v1, -, -, -, v5, v6, v7, v8, v9, v10, v11, v12, v13, v14, v15, v16, v17⟩ :=
              c48_hunt po pc hr (by omega) u rs2 u2 hi u3
            rw [v1]
            refine ⟨⟨⟨_, v5, v11⟩, fun _ => v7.trans u5, v6.trans u4, by dsimp only; omega, by dsimp only; omega⟩,
              v12.trans (u8.trans a12), v13.trans (u9.trans a13), ?_, ?_⟩
            · dsimp only
              rw [v16, v17, u12, u13, a16, a17]
              omega
            · intro _
              dsimp only
              rw [v14, v15, u10, u11, a14, a15]
              exact ⟨rfl, rfl⟩

/-- C48: whatever the random outcomes, and whether or not the generation raises, lattice and population stay aligned. -/
theorem c48_generation (po : PPGAOps X O F C U) (pc : PPGACfg) (d nc : Nat) (hc : PPGAContract d nc po) (hr : 0 < pc.radius)
    (s : PPGA X O F C U) (h : Synced pc.nPred d nc s) : Synced pc.nPred d nc (ppgaNextGen po pc s).2 :=
  (ppga_gen po pc d nc hc hr s h).1

theorem ppga_loop (po : PPGAOps X O F C U) (pc : PPGACfg) (d nc : Nat) (hc : PPGAContract d nc po) (hr : 0 < pc.radius) (fuel : Nat) :
    ∀ s : PPGA X O F C U, Synced pc.nPred d nc s →
      Synced pc.nPred d nc (EA.loop (ppgaNextGen po pc) fuel s).2 ∧
      (EA.loop (ppgaNextGen po pc) fuel s).2.cfg = s.cfg ∧ (EA.loop (ppgaNextGen po pc) fuel s).2.iter = s.iter ∧
      ((EA.loop (ppgaNextGen po pc) fuel s).2.fe : Int) - s.fe = (EA.loop (ppgaNextGen po pc) fuel s).2.trueEvals - s.trueEvals := by
  induction fuel with
  | zero => intro s h; exact ⟨h, rfl, rfl, by simp [EA.loop]⟩
  | succ n ih =>
    intro s h
    simp only [EA.loop]
    split
    · obtain ⟨a1, a2, a3, a4, a5⟩ := ppga_gen po pc d nc hc hr s h
      generalize ppgaNextGen po pc s = q at *
      obtain ⟨q1, q2⟩ := q
      cases q1 with
      | error e => exact ⟨a1, a2, a3, a4⟩
      | ok v =>
        obtain ⟨b1, b2, b3, b4⟩ := ih q2 a1
        dsimp only at *
        refine ⟨b1, b2.trans a2, b3.trans a3, ?_⟩
        omega
    · exact ⟨h, rfl, rfl, by simp⟩

/-- C48: from the constructor on, through any number of `iterate` calls (exceptions caught in between), lattice and population agree
and (C12) the evaluation counter equals the number of evaluations made after construction. -/
theorem c48_run (po : PPGAOps X O F C U) (pc : PPGACfg) (d nc : Nat) (hc : PPGAContract d nc po) (hr : 0 < pc.radius) (n : Nat) :
    ∀ s : PPGA X O F C U, Synced pc.nPred d nc s →
      Synced pc.nPred d nc (ppgaRun po pc n s) ∧
        ((ppgaRun po pc n s).fe : Int) - s.fe = (ppgaRun po pc n s).trueEvals - s.trueEvals := by
  induction n with
  | zero => intro s h; exact ⟨h, by simp [ppgaRun]⟩
  | succ n ih =>
    intro s h
    have h0 : Synced pc.nPred d nc { s with genIter := 0 } := ⟨h.recs, h.ndim, h.ncons, h.rows, h.cols⟩
    have key : Synced pc.nPred d nc (ppgaIterate po pc s).2 ∧
        ((ppgaIterate po pc s).2.fe : Int) - s.fe = (ppgaIterate po pc s).2.trueEvals - s.trueEvals := by
      obtain ⟨a1, -, -, a4⟩ := ppga_loop po pc d nc hc hr s.cfg.nGen { s with genIter := 0 } h0
      unfold ppgaIterate
      generalize EA.loop (ppgaNextGen po pc) s.cfg.nGen { s with genIter := 0 } = q at *
      obtain ⟨q1, q2⟩ := q
      cases q1 with
      | error e => exact ⟨a1, a4⟩
      | ok v => exact ⟨⟨a1.recs, a1.ndim, a1.ncons, a1.rows, a1.cols⟩, a4⟩
    obtain ⟨b1, b2⟩ := ih _ key.1
    refine ⟨b1, ?_⟩
    have := key.2
    show ((ppgaRun po pc n (ppgaIterate po pc s).2).fe : Int) - s.fe = (ppgaRun po pc n (ppgaIterate po pc s).2).trueEvals - s.trueEvals
    omega

/-- C12 for PPGA: from construction on, the counter is the number of offspring evaluated; the initial population is not counted. -/
theorem c12_ppga (po : PPGAOps X O F C U) (pc : PPGACfg) (nIter nGen : Nat) (dPred dPrey : Nat → Nat) (p : Pop X O F C U)
    (rs : List (Rec X O F C U)) (h1 : Represents p rs) (hne : p.individuals ≠ none) (hfit : pc.nPred + rs.length ≤ 3600)
    (hc : PPGAContract p.ndim p.nCons po) (hr : 0 < pc.radius) (n : Nat) (s : PPGA X O F C U)
    (hs : ppgaConstruct pc nIter nGen dPred dPrey (some p) = .ok s) : (ppgaRun po pc n s).fe = (ppgaRun po pc n s).trueEvals := by
  obtain ⟨s', a1, a2, -, -, -, a6, a7, -⟩ := c48_construct pc nIter nGen dPred dPrey p rs h1 hne hfit
  rw [hs] at a1
  injection a1 with a1
  subst a1
  have := (c48_run po pc _ _ hc hr n s a2).2
  omega

/-- C10 for PPGA: a successful `iterate` runs exactly `n_gen_per_iter` complete generations. -/
theorem c10_ppga (po : PPGAOps X O F C U) (pc : PPGACfg) (d nc : Nat) (hc : PPGAContract d nc po) (hr : 0 < pc.radius)
    (s t : PPGA X O F C U) (h : Synced pc.nPred d nc s) (h0 : s.cfg.total = 0) (ht : ppgaIterate po pc s = (.ok (), t)) :
    (∃ u, Gens (ppgaNextGen po pc) (fun _ => True) s.cfg.nGen { s with genIter := 0 } u ∧ t.pop = u.pop ∧ t.sel = u.sel) ∧
      t.gen = s.gen + s.cfg.nGen ∧ t.genIter = s.cfg.nGen ∧ t.iter = s.iter + 1 := by
  have key : ∀ (fuel : Nat) (a b : PPGA X O F C U), Synced pc.nPred d nc a → a.cfg.total = 0 → a.genIter + fuel = a.cfg.nGen →
      EA.loop (ppgaNextGen po pc) fuel a = (.ok (), b) →
      Gens (ppgaNextGen po pc) (fun _ => True) fuel a b ∧ b.gen = a.gen + fuel ∧ b.genIter = a.genIter + fuel ∧ b.iter = a.iter := by
    intro fuel
    induction fuel with
    | zero =>
      intro a b _ _ _ hb
      simp only [EA.loop, Prod.mk.injEq, true_and] at hb
      subst hb
      exact ⟨.zero _, by simp⟩
    | succ n ih =>
      intro a b ha h0 hf hb
      have hcont : a.continueIteration = true := by
        have : a.genIter < a.cfg.nGen := by omega
        simp [EA.continueIteration, EA.checkFE, h0, this]
      simp only [EA.loop, hcont, if_true] at hb
      obtain ⟨a1, a2, a3, a4, a5⟩ := ppga_gen po pc d nc hc hr a ha
      cases hq : ppgaNextGen po pc a with
      | mk q1 q2 =>
        rw [hq] at a1 a2 a3 a5 hb
        cases q1 with
        | error e => simp at hb
        | ok v =>
          dsimp only at *
          obtain ⟨a5, a6⟩ := a5 rfl
          obtain ⟨b1, b2, b3, b4⟩ := ih q2 b a1 (by rw [a2]; exact h0) (by rw [a2]; omega) hb
          exact ⟨.succ trivial hq b1, by omega, by omega, by omega⟩
  have h1 : Synced pc.nPred d nc { s with genIter := 0 } := ⟨h.recs, h.ndim, h.ncons, h.rows, h.cols⟩
  unfold ppgaIterate at ht
  cases hq : EA.loop (ppgaNextGen po pc) s.cfg.nGen { s with genIter := 0 } with
  | mk q1 q2 =>
    rw [hq] at ht
    cases q1 with
    | error e => simp at ht
    | ok v =>
      dsimp only at ht
      simp only [Prod.mk.injEq, true_and] at ht
      subst ht
      obtain ⟨b1, b2, b3, b4⟩ := key s.cfg.nGen { s with genIter := 0 } q2 h1 h0 (by simp) hq
      dsimp only at *
      exact ⟨⟨q2, b1, rfl, rfl⟩, by omega, by omega, by omega⟩

/-! ## Non-vacuity -/

/-- one predator on a 3 by 3 lattice, at its centre; three prey, at the first free cells -/
example : (match Lat.init 3 3 [4] [0, 0, 0] with | .ok L => (L.preds, L.preys) | .error _ => ([], [])) =
    ([((1 : Int), (1 : Int))], [some (0, 0), some (0, 1), some (0, 2)]) := by decide +kernel

/-- nine animals do not fit on two by four cells -/
example : (match Lat.init 2 4 [0] [0, 0, 0, 0, 0, 0, 0, 0] with | .ok _ => false | .error e => decide (e = .valueError)) = true := by
  decide +kernel

/-- A prey moves over the border, prey 2 does not move; both find a mate. -/
example : (match Lat.init 5 5 [12] [0, 0] with
    | .ok L =>
      let r := L.movePrey ⟨fun k => k == 0, fun _ _ => 0, fun _ _ => 1, fun _ => 0⟩ 1
      (match r.1 with | .ok m => m | .error _ => [], r.2.preys)
    | .error _ => ([], [])) = ([((0 : Int), (1 : Int)), (1, 0)], [some (4, 0), some (0, 1)]) := by decide +kernel

/-- An isolated prey has no mate: `move_prey` raises and the moves are kept. -/
example : (match Lat.init 5 5 [12] [0] with
    | .ok L =>
      let r := L.movePrey ⟨fun _ => true, fun _ _ => 0, fun _ _ => 1, fun _ => 0⟩ 1
      (match r.1 with | .ok _ => false | .error e => decide (e = .eaError), r.2.preys)
    | .error _ => (false, [])) = (true, [some (4, 0)]) := by decide +kernel

/-- Two offspring drawn to the same free cell: only the first is placed, ten attempts or not. -/
example : (match Lat.init 5 5 [12] [0, 0] with
    | .ok L =>
      (match L.placeOffspring (fun _ => 2) (fun _ => 3) 10 2 with | .ok (M, placed) => (M.preys, placed) | .error _ => ([], []))
    | .error _ => ([], [])) = ([some (0, 0), some (0, 1), some (2, 3)], [0]) := by decide +kernel

/-- removing the first prey renumbers the others -/
example : (match Lat.init 5 5 [12] [0, 0, 0] with
    | .ok L => (match L.update [0] with | .ok M => (M.preys, M.cell 0 0, M.cell 0 1, M.cell 0 2) | .error _ => ([], 0, 0, 0))
    | .error _ => ([], 0, 0, 0)) = ([some (0, 1), some (0, 2)], 0, 1, 2) := by decide +kernel

/-- External parts that keep their contract: offspring are the first parents, evaluation never fails. -/
def demoPPGA : PPGAOps Nat Nat Nat Nat Nat where
  prey _ := ⟨fun _ => true, fun _ _ => 0, fun _ _ => 1, fun _ => 0⟩
  placeY c i := c + i
  placeX c i := c * i
  pred _ := ⟨fun _ _ => 0, fun _ _ => 0⟩
  mate _ _ m := .ok ⟨2, m.map (fun p => p.1.toNat)⟩
  evaluate _ b := .ok ⟨b.rows, b.rows, none, none⟩
  nds f := [f.map (fun _ => true)]
  obj f := ((f : ℝ), -(f : ℝ))

example : PPGAContract 2 0 demoPPGA :=
  ⟨fun c p m b h => by injection h with h; rw [← h],
   fun c b => ⟨_, rfl, ⟨rfl, rfl, fun _ => rfl, fun h => absurd rfl h, by intro us h; cases h⟩, rfl⟩⟩

/-- The hypotheses of `c48_run`, `c12_ppga` and `c10_ppga` are met by a constructed object. -/
example : ∃ (p : Pop Nat Nat Nat Nat Nat) (rs : List (Rec Nat Nat Nat Nat Nat)) (s : PPGA Nat Nat Nat Nat Nat),
    rs.length = 2 ∧ Represents p rs ∧ ppgaConstruct ⟨10, 3, 10, 5, 4, 20, 5⟩ 10 5 id id (some p) = .ok s ∧ Synced 3 2 0 s := by
  let p : Pop Nat Nat Nat Nat Nat := ⟨0, 2, some [7, 8], [1, 2], [1, 2], none, none⟩
  have hp : Represents p [⟨7, 1, 1, none, none⟩, ⟨8, 2, 2, none, none⟩] :=
    ⟨Or.inl rfl, rfl, rfl, fun _ h => absurd rfl h, fun _ => rfl, by intro us h; cases h⟩
  obtain ⟨s, a1, a2, -⟩ := c48_construct ⟨10, 3, 10, 5, 4, 20, 5⟩ 10 5 id id p _ hp (by simp [p]) (by simp)
  exact ⟨p, _, s, rfl, hp, a1, a2⟩

/-- A front sort with two fronts: with `max_rank = 0` the second front is killed. -/
example : ppgaSelect (fun (_ : List Nat) => [[true, false, true], [false, true, false]]) [5, 9, 4] 0 = [1] ∧
    IsFrontSort (fun y x => y = 0 ∧ x = 1) 3 ([[true, false, true], [false, true, false]].map whereIdx) := by
  refine ⟨by decide, by decide, ?_, ?_⟩
  · intro i f x y hf hx _ ⟨h1, h2⟩
    subst h1 h2
    match i, hf with
    | 0, hf => simp [whereIdx] at hf; subst hf; simp at hx
    | 1, hf => exact ⟨0, _, by omega, rfl, by decide⟩
    | k + 2, hf => simp at hf
  · intro i f g x hf hg hx
    match i, hf, hg with
    | 0, hf, hg =>
      simp [whereIdx] at hf hg
      subst hf hg
      simp at hx
      exact ⟨0, by simp, rfl, hx⟩
    | k + 1, hf, hg => simp at hg

end Verif.Props
