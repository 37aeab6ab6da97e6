import Verif.Proofs.Bounds
import Verif.Props.Recombination

/-!
# C44: only decision vectors inside the bounds are evaluated

`lo`, `hi` are the variable bounds.  NaN is `none`; `InBox` says that every component that is a number lies between
its bounds (see `c44_offspring_can_be_nan` for the NaN case).
-/

namespace Verif.Props

open Verif.Spec

variable {O F C U V S Q R : Type} {n m : Nat} {K : Type}

theorem mateDefault_inBox (lo hi : Fin n → ℝ) (hb : ∀ i, lo i ≤ hi i) (draw : MateDraw n) (inds off : List (Row n))
    (ids : Option (List Nat)) (h : mateDefault lo hi draw inds ids = .ok off) : ∀ x ∈ off, InBox lo hi x := by
  unfold mateDefault at h
  split at h
  · exact absurd h (by simp)
  · injection h with h
    subst h
    exact (c41_result_within_bounds _ _ lo hi hb _ _ _).2

/-- C44. Whatever the individuals, the ids and the draws are, every offspring is inside the bounds. -/
theorem c44_offspring_within_bounds (lo hi : Fin n → ℝ) (hb : ∀ i, lo i ≤ hi i) (draw : Nat → MateDraw n) (clock : Nat)
    (p : Pop (Row n) O F C U) (off : Batch (Row n)) (h : mateAll lo hi draw clock p = .ok off) :
    ∀ x ∈ off.rows, InBox lo hi x := by
  unfold mateAll at h
  split at h
  · exact absurd h (by simp)
  · split at h
    · exact absurd h (by simp)
    · rename_i o hm
      injection h with h
      subst h
      exact mateDefault_inBox lo hi hb _ _ _ _ hm

theorem repairRow_inBox (lo hi : Fin n → ℝ) (hb : ∀ i, lo i ≤ hi i) (x : Row n) : InBox lo hi (repairRow lo hi x) := by
  intro i v hv
  have := hb i
  simp only [repairRow, repair1] at hv
  split at hv
  · exact absurd hv (by simp)
  · rename_i w hw
    split at hv
    · injection hv with hv; subst hv; exact ⟨le_refl _, this⟩
    · injection hv with hv
      subst hv
      split
      · exact ⟨this, le_refl _⟩
      · constructor <;> linarith

theorem mateTwo_inBox (lo hi : Fin n → ℝ) (hb : ∀ i, lo i ≤ hi i) (draw : Nat → MateDraw n) (useRepair : Bool)
    (clock : Nat) (p : Pop (Row n) O F C U) (a b : Nat) (off : List (Row n))
    (h : mateTwo lo hi draw clock p a b = .ok off) :
    ∀ x ∈ off, InBox lo hi (if useRepair then repairRow lo hi x else x) := by
  intro x hx
  unfold mateTwo at h
  split at h
  · exact absurd h (by simp)
  · split
    · exact repairRow_inBox lo hi hb x
    · exact mateDefault_inBox lo hi hb _ _ _ _ h x hx

/-- C44. The problem is never asked about a vector outside the bounds: two problems that agree on batches inside the
bounds, and differ in whatever way on all others, give exactly the same run, for every history of calls from every
state.  (RVEA, NSGA-III and the other EAs with the base `_next_gen`.) -/
theorem c44_problem_never_asked_outside (lo hi : Fin n → ℝ) (hb : ∀ i, lo i ≤ hi i) (draw : Nat → MateDraw n)
    (ops : Ops (Row n) O F C U V S Q R) (hm : ops.mate = mateAll lo hi draw)
    (ev : Nat → Bool → Batch (Row n) → Except Err (Results O F C U))
    (hev : ∀ clk surr b, (∀ x ∈ b.rows, InBox lo hi x) → ev clk surr b = ops.evaluate clk surr b)
    (s : EA (Row n) O F C U V S Q) (cs : List (Call R)) :
    s.calls { ops with evaluate := ev } cs = s.calls ops cs := by
  rw [calls_eq_callsWith, calls_eq_callsWith]
  refine callsWith_withEval ops ev _ _ ?_ cs s
  intro t
  refine nextGen_withEval (G := InBox lo hi) ops ev ?_ hev t
  intro clk p off h
  rw [hm] at h
  exact c44_offspring_within_bounds lo hi hb draw clk p off h

/-- C44. The same for MOEA/D, with and without repair. -/
theorem c44_moead_problem_never_asked_outside [LT K] [DecidableRel (α := K) (· < ·)] [Zero K] [DecidableEq K]
    (lo hi : Fin n → ℝ) (hb : ∀ i, lo i ≤ hi i) (draw : Nat → MateDraw n)
    (ops : Ops (Row n) O F C U (MoeadVec m K) S Q R) (mo : MoeadOps m K (Row n) O F C U)
    (hm : mo.mate = mateTwo lo hi draw) (hr : mo.repair = repairRow lo hi) (useRepair : Bool) (popSize : Nat)
    (ev : Nat → Bool → Batch (Row n) → Except Err (Results O F C U))
    (hev : ∀ clk surr b, (∀ x ∈ b.rows, InBox lo hi x) → ev clk surr b = ops.evaluate clk surr b)
    (s : EA (Row n) O F C U (MoeadVec m K) S Q) (cs : List (Call R)) :
    s.callsWith { ops with evaluate := ev } (moeadNextGen { ops with evaluate := ev } mo useRepair popSize) cs =
      s.callsWith ops (moeadNextGen ops mo useRepair popSize) cs := by
  refine callsWith_withEval ops ev _ _ ?_ cs s
  intro t
  refine moeadNextGen_withEval (G := InBox lo hi) ops mo useRepair ev ?_ hev popSize t
  intro clk p a b off h x hx
  rw [hm] at h
  rw [hr]
  exact mateTwo_inBox lo hi hb draw useRepair clk p a b off h x hx

theorem boxDesign_inBox (lo hi : Fin n → ℝ) (hb : ∀ i, lo i ≤ hi i) (unit : Nat → Nat → List (Fin n → ℝ))
    (hu : ∀ clk k, ∀ u ∈ unit clk k, ∀ i, 0 ≤ u i ∧ u i < 1) (clk k : Nat) (b : Batch (Row n))
    (h : boxDesign lo hi unit clk k = .ok b) : ∀ x ∈ b.rows, InBox lo hi x := by
  unfold boxDesign at h
  injection h with h
  subst h
  intro x hx
  obtain ⟨r, hr, rfl⟩ := List.mem_map.1 hx
  obtain ⟨u, hu', rfl⟩ := List.mem_map.1 hr
  intro i v hv
  simp only [Option.some.injEq] at hv
  subst hv
  obtain ⟨h0, h1⟩ := hu clk k u hu' i
  have := hb i
  constructor
  · have : 0 ≤ u i * (hi i - lo i) := mul_nonneg h0 (by linarith)
    linarith
  · have : u i * (hi i - lo i) ≤ 1 * (hi i - lo i) := mul_le_mul_of_nonneg_right h1.le (by linarith)
    linarith

/-- What the next two theorems conclude: no individual the EA object holds is outside the bounds. -/
def AllInside (lo hi : Fin n → ℝ) (s : EA (Row n) O F C U V S Q) : Prop :=
  (∀ inds, s.pop.individuals = some inds → ∀ x ∈ inds, InBox lo hi x) ∧
  (∀ a, s.nd = some a → ∀ x ∈ a.individuals, InBox lo hi x) ∧
  (∀ e ∈ s.archive, ∀ inds, e.2.individuals = some inds → ∀ x ∈ inds, InBox lo hi x)

theorem construct_inside (lo hi : Fin n → ℝ) (hb : ∀ i, lo i ≤ hi i)
    (unit : Nat → Nat → List (Fin n → ℝ)) (hu : ∀ clk k, ∀ u ∈ unit clk k, ∀ i, 0 ≤ u i ∧ u i < 1)
    (ops : Ops (Row n) O F C U V S Q R)
    (vec0 : Nat → V) (sel0 : Nat → S) (prob0 : Q) (interact useSurr keepArchive saveND : Bool) (nIter nGen total : Nat)
    (problem : ProblemType × Nat × Nat) (popSize res : Option Nat) (s : EA (Row n) O F C U V S Q)
    (hs : construct ops (boxDesign lo hi unit) vec0 sel0 prob0 interact useSurr keepArchive saveND nIter nGen total
      (some problem) none popSize res = .ok s) : GoodEA (InBox lo hi) s := by
  unfold construct at hs
  dsimp only at hs
  split at hs
  · exact absurd hs (by simp)
  · rename_i rows hd
    have hrows := boxDesign_inBox lo hi hb unit hu _ _ _ hd
    split at hs
    · exact absurd hs (by simp)
    · rename_i r ea hpa
      injection hs with hs
      have h0 : GoodEA (InBox lo hi) ea := by
        have := congrArg Prod.snd hpa
        dsimp only at this
        rw [← this]
        refine GoodEA.popAdd ?_ ops rows hrows
        exact ⟨fun inds hi => by simp [Pop.new] at hi, fun a ha => by simp at ha, fun e he => by simp at he⟩
      rw [← hs]
      exact ⟨h0.pop, h0.nd, h0.archive⟩

/-- C44. After constructing an EA from a problem with a random or LHS design and any history of calls, every decision
vector in the population, in the archive of non-dominated solutions and in the archive dict is inside the bounds. -/
theorem c44_every_individual_inside (lo hi : Fin n → ℝ) (hb : ∀ i, lo i ≤ hi i) (draw : Nat → MateDraw n)
    (unit : Nat → Nat → List (Fin n → ℝ)) (hu : ∀ clk k, ∀ u ∈ unit clk k, ∀ i, 0 ≤ u i ∧ u i < 1)
    (ops : Ops (Row n) O F C U V S Q R) (hm : ops.mate = mateAll lo hi draw)
    (vec0 : Nat → V) (sel0 : Nat → S) (prob0 : Q) (interact useSurr keepArchive saveND : Bool) (nIter nGen total : Nat)
    (problem : ProblemType × Nat × Nat) (popSize res : Option Nat) (s : EA (Row n) O F C U V S Q)
    (hs : construct ops (boxDesign lo hi unit) vec0 sel0 prob0 interact useSurr keepArchive saveND nIter nGen total
      (some problem) none popSize res = .ok s) (cs : List (Call R)) : AllInside lo hi (s.calls ops cs) := by
  have h0 := construct_inside lo hi hb unit hu ops vec0 sel0 prob0 interact useSurr keepArchive saveND nIter nGen total
    problem popSize res s hs
  rw [calls_eq_callsWith]
  have h1 := GoodEA.callsWith (body := EA.nextGen ops) ops (fun s h => h.nextGen ops (by
    intro clk p off h
    rw [hm] at h
    exact c44_offspring_within_bounds lo hi hb draw clk p off h)) cs s h0
  exact ⟨h1.pop, h1.nd, h1.archive⟩

/-- C44. The same for MOEA/D, with and without repair. -/
theorem c44_moead_every_individual_inside [LT K] [DecidableRel (α := K) (· < ·)] [Zero K] [DecidableEq K]
    (lo hi : Fin n → ℝ) (hb : ∀ i, lo i ≤ hi i) (draw : Nat → MateDraw n)
    (unit : Nat → Nat → List (Fin n → ℝ)) (hu : ∀ clk k, ∀ u ∈ unit clk k, ∀ i, 0 ≤ u i ∧ u i < 1)
    (ops : Ops (Row n) O F C U (MoeadVec m K) S Q R) (mo : MoeadOps m K (Row n) O F C U)
    (hm : mo.mate = mateTwo lo hi draw) (hr : mo.repair = repairRow lo hi) (useRepair : Bool) (bodySize : Nat)
    (vec0 : Nat → MoeadVec m K) (sel0 : Nat → S) (prob0 : Q) (interact useSurr keepArchive saveND : Bool)
    (nIter nGen total : Nat) (problem : ProblemType × Nat × Nat) (popSize res : Option Nat)
    (s : EA (Row n) O F C U (MoeadVec m K) S Q)
    (hs : construct ops (boxDesign lo hi unit) vec0 sel0 prob0 interact useSurr keepArchive saveND nIter nGen total
      (some problem) none popSize res = .ok s) (cs : List (Call R)) :
    AllInside lo hi (s.callsWith ops (moeadNextGen ops mo useRepair bodySize) cs) := by
  have h0 := construct_inside lo hi hb unit hu ops vec0 sel0 prob0 interact useSurr keepArchive saveND nIter nGen total
    problem popSize res s hs
  have h1 := GoodEA.callsWith (body := moeadNextGen ops mo useRepair bodySize) ops
    (fun s h => h.moeadNextGen ops mo useRepair (by
      intro clk p a b off h x hx
      rw [hm] at h
      rw [hr]
      exact mateTwo_inBox lo hi hb draw useRepair clk p a b off h x hx) bodySize) cs s h0
  exact ⟨h1.pop, h1.nd, h1.archive⟩

/-- C44. The initial design too is only evaluated inside the bounds: problems agreeing there construct the same EA. -/
theorem c44_construction_asks_inside (lo hi : Fin n → ℝ) (hb : ∀ i, lo i ≤ hi i)
    (unit : Nat → Nat → List (Fin n → ℝ)) (hu : ∀ clk k, ∀ u ∈ unit clk k, ∀ i, 0 ≤ u i ∧ u i < 1)
    (ops : Ops (Row n) O F C U V S Q R) (ev : Nat → Bool → Batch (Row n) → Except Err (Results O F C U))
    (hev : ∀ clk surr b, (∀ x ∈ b.rows, InBox lo hi x) → ev clk surr b = ops.evaluate clk surr b)
    (vec0 : Nat → V) (sel0 : Nat → S) (prob0 : Q) (interact useSurr keepArchive saveND : Bool) (nIter nGen total : Nat)
    (problem : ProblemType × Nat × Nat) (popSize res : Option Nat) :
    construct { ops with evaluate := ev } (boxDesign lo hi unit) vec0 sel0 prob0 interact useSurr keepArchive saveND
        nIter nGen total (some problem) none popSize res =
      construct ops (boxDesign lo hi unit) vec0 sel0 prob0 interact useSurr keepArchive saveND nIter nGen total
        (some problem) none popSize res := by
  unfold construct
  dsimp only
  split
  · rfl
  · rename_i rows hd
    have hrows := boxDesign_inBox lo hi hb unit hu _ _ _ hd
    have e : ∀ t : EA (Row n) O F C U V S Q, t.popAdd { ops with evaluate := ev } rows = t.popAdd ops rows := by
      intro t
      unfold EA.popAdd
      dsimp only
      rw [hev _ _ _ hrows]
    rw [e]

/-- C44, what falls short of the claim: with both parents inside the bounds and legal draws an offspring can be NaN,
and repairing does not help.  Box from 0 to 1, parents 1 and 0, spread factor 2 (the draw is `1 - 2⁻³²`), so the
child before mutation is 1.5; mutation draws 0 and 0. -/
theorem c44_offspring_can_be_nan : ∃ (draw : MateDraw 1) (inds off : List (Row 1)),
    (∀ l, (draw.shuffle l).Perm l) ∧
    (∀ k i, 0 ≤ (draw.pairs k).miu i ∧ (draw.pairs k).miu i < 1 ∧ 0 ≤ (draw.pairs k).u i ∧ (draw.pairs k).u i < 1) ∧
    (∀ k i, 0 ≤ draw.k k i ∧ draw.k k i < 1 ∧ 0 ≤ draw.miu k i ∧ draw.miu k i < 1) ∧
    (∀ x ∈ inds, InBox (fun _ => 0) (fun _ => 1) x ∧ AllNumbers x) ∧
    mateDefault (fun _ => 0) (fun _ => 1) draw inds none = .ok off ∧
    ∃ x ∈ off, ¬ AllNumbers x ∧ ¬ AllNumbers (repairRow (fun _ => 0) (fun _ => 1) x) := by
  let draw : MateDraw 1 :=
    { shuffle := id
      pairs := fun _ => { miu := fun _ => 1 - 1 / 2 ^ 32, flip := fun _ => false, u := fun _ => 0 }
      k := fun _ _ => 0
      miu := fun _ _ => 0 }
  have hbeta : sbxBeta 1 30 (1 - 1 / 2 ^ 32) false 0 = 2 := by
    unfold sbxBeta
    have h1 : ¬ ((1 : ℝ) - 1 / 2 ^ 32 ≤ 1 / 2) := by norm_num
    rw [if_neg h1]
    simp only [Bool.false_eq_true, if_false]
    rw [if_neg (by norm_num)]
    have e1 : (2 : ℝ) - 2 * (1 - 1 / 2 ^ 32) = (2 : ℝ) ^ (-31 : ℝ) := by
      rw [Real.rpow_neg (by norm_num)]
      have : (2 : ℝ) ^ (31 : ℝ) = 2 ^ 31 := by
        rw [show (31 : ℝ) = ((31 : Nat) : ℝ) by norm_num, Real.rpow_natCast]
      rw [this]
      norm_num
    rw [e1, ← Real.rpow_mul (by norm_num)]
    norm_num
  refine ⟨draw, [fun _ => some 1, fun _ => some 0], _, fun l => List.Perm.refl _, ?_, ?_, ?_, rfl, ?_⟩
  · intro k i
    refine ⟨?_, ?_, le_refl _, by norm_num [draw]⟩ <;> norm_num [draw]
  · intro k i
    norm_num [draw]
  · intro x hx
    simp only [List.mem_cons, List.not_mem_nil, or_false] at hx
    rcases hx with rfl | rfl
    · exact ⟨fun i v hv => by simp at hv; subst hv; norm_num, fun i => ⟨_, rfl⟩⟩
    · exact ⟨fun i v hv => by simp at hv; subst hv; norm_num, fun i => ⟨_, rfl⟩⟩
  · have hn : bpRaw (1 / ((1 : Nat) : ℝ)) 20 0 1 0 0 (some (3 / 2)) = none := by
      unfold bpRaw npRoot
      norm_num
    have key : ∃ x ∈ bpDo (1 / ((1 : Nat) : ℝ)) 20 (fun _ => 0) (fun _ => 1) draw.k draw.miu
        (sbxPairs 1 30 draw.pairs 0 [fun _ : Fin 1 => some (1 : ℝ), fun _ => some 0]), x 0 = none := by
      refine ⟨_, List.mem_of_getElem? (i := 0) (by rw [bpDo_get]; rfl), ?_⟩
      show clipGene 0 1 (bpRaw (1 / ((1 : Nat) : ℝ)) 20 0 1 0 0
        (sbxFirst (sbxBeta 1 30 (1 - 1 / 2 ^ 32) false 0) (some 1) (some 0))) = none
      rw [hbeta]
      have : sbxFirst 2 (some 1) (some 0) = some (3 / 2) := by
        unfold sbxFirst
        norm_num
      rw [this, hn]
      rfl
    obtain ⟨x, hx, h0⟩ := key
    refine ⟨x, hx, ?_, ?_⟩
    · intro h
      obtain ⟨v, hv⟩ := h 0
      rw [h0] at hv
      exact absurd hv (by simp)
    · intro h
      obtain ⟨v, hv⟩ := h 0
      simp only [repairRow, h0, repair1] at hv
      exact absurd hv (by simp)

/-- C44. NaN is the only way out: an offspring none of whose components is NaN is a vector of numbers inside the
bounds. -/
theorem c44_number_offspring_inside (lo hi : Fin n → ℝ) (hb : ∀ i, lo i ≤ hi i) (draw : Nat → MateDraw n) (clock : Nat)
    (p : Pop (Row n) O F C U) (off : Batch (Row n)) (h : mateAll lo hi draw clock p = .ok off) (x : Row n)
    (hx : x ∈ off.rows) (hn : AllNumbers x) : ∃ v : Fin n → ℝ, x = (fun i => some (v i)) ∧ ∀ i, lo i ≤ v i ∧ v i ≤ hi i := by
  choose v hv using hn
  exact ⟨v, funext hv, fun i => c44_offspring_within_bounds lo hi hb draw clock p off h x hx i (v i) (hv i)⟩

/-- Non-vacuity: a two-variable EA with the default operators and a one-point design, whose construction succeeds, and
two problems that differ (only) outside the box. -/
example : ∃ (ops : Ops (Row 2) Nat Nat Nat Nat Nat Nat Nat Nat) (draw : Nat → MateDraw 2)
    (unit : Nat → Nat → List (Fin 2 → ℝ)) (s : EA (Row 2) Nat Nat Nat Nat Nat Nat Nat)
    (ev : Nat → Bool → Batch (Row 2) → Except Err (Results Nat Nat Nat Nat)),
    ops.mate = mateAll (fun _ => 0) (fun _ => 1) draw ∧
    (∀ clk k, ∀ u ∈ unit clk k, ∀ i, 0 ≤ u i ∧ u i < 1) ∧
    construct ops (boxDesign (fun _ => 0) (fun _ => 1) unit) id id 0 false false false false 1 1 0
      (some (.mo, 2, 0)) none (some 2) none = .ok s ∧
    s.pop.individuals = some [fun _ => some (1 / 2), fun _ => some (1 / 2)] ∧
    (∀ clk surr b, (∀ x ∈ b.rows, InBox (fun _ => 0) (fun _ => 1) x) → ev clk surr b = ops.evaluate clk surr b) ∧
    ev 0 false ⟨2, [fun _ => some 5]⟩ ≠ ops.evaluate 0 false ⟨2, [fun _ => some 5]⟩ := by
  classical
  let draw : Nat → MateDraw 2 := fun _ =>
    { shuffle := id, pairs := fun _ => { miu := fun _ => 0, flip := fun _ => false, u := fun _ => 0 },
      k := fun _ _ => 0, miu := fun _ _ => 0 }
  let ev0 : Nat → Bool → Batch (Row 2) → Except Err (Results Nat Nat Nat Nat) := fun _ _ b =>
    .ok ⟨b.rows.map (fun _ => 0), b.rows.map (fun _ => 0), none, none⟩
  let ops : Ops (Row 2) Nat Nat Nat Nat Nat Nat Nat Nat :=
    { adapt := fun v _ => v, respond := fun _ _ v _ _ => (.ok (), v), mate := mateAll (fun _ => 0) (fun _ => 1) draw,
      evaluate := ev0, select := fun _ v s _ => (.ok [0], v, s), newId := fun _ => 0,
      probManage := fun q _ _ => (.ok (), q), probReeval := fun q o => (o, q), dom := fun _ _ => false,
      nonDom := fun l => l.map (fun _ => true) }
  let unit : Nat → Nat → List (Fin 2 → ℝ) := fun _ k => List.replicate k (fun _ => 1 / 2)
  refine ⟨ops, draw, unit, _, (fun clk surr b => if (∀ x ∈ b.rows, InBox (fun _ => 0) (fun _ => 1) x)
    then ev0 clk surr b else .error .evaluationError), rfl, ?_, rfl, ?_, ?_, ?_⟩
  · intro clk k u hu i
    have := List.eq_of_mem_replicate hu
    subst this
    norm_num
  · show some ((scaleDesign (fun _ => 0) (fun _ => 1) (unit 0 2)).map (fun r i => some (r i))) = _
    simp [scaleDesign, unit, List.replicate]
  · intro clk surr b h
    exact if_pos h
  · have : ¬ (∀ x ∈ (⟨2, [fun _ => some 5]⟩ : Batch (Row 2)).rows, InBox (fun _ => 0) (fun _ => 1) x) := by
      intro h
      have := (h (fun _ => some 5) (by simp) 0 5 rfl).2
      norm_num at this
    dsimp only
    rw [if_neg this]
    intro h
    exact absurd h (by simp [ops, ev0])

end Verif.Props
