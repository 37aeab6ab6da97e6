import Verif.Proofs.Image
import Verif.Spec.Invariance
import Verif.Spec.NSGA3
import Verif.Props.Interaction
import Verif.Props.NSGA3
import Verif.Props.Runs
import Verif.Props.InForce
import Mathlib.Tactic.FinCases
import Mathlib.Tactic.NormNum
import Mathlib.Tactic.FieldSimp

/-!
# C93: the unit, the origin and the direction in which the objectives are written do not matter (with reference points); with preferred
solutions they do
-/

open scoped BigOperators

namespace Verif.Props
open Verif Verif.Spec

variable {X C Q : Type} {m : Nat}

/-- `a ↦ lam * a + c`. -/
def aff (lam : ℝ) (c : Vec m) (a : Vec m) : Vec m := fun i => lam * a i + c i

theorem rescaledRows_iff (lam : ℝ) (c : Vec m) (l l' : List (Vec m)) : RescaledRows lam c l l' ↔ l' = l.map (aff lam c) := by
  unfold RescaledRows
  constructor
  · intro h
    induction h with
    | nil => rfl
    | cons h1 _ ih => rw [List.map_cons, ih]; congr 1; funext i; exact h1 i
  · rintro rfl
    induction l with
    | nil => exact .nil
    | cons a l ih => exact .cons (fun i => rfl) ih

/-! ## Extremes, norms, directions -/

theorem foldl_aff (op : ℝ → ℝ → ℝ) (lam : ℝ) (c : Vec m) (h : ∀ a b d, op (lam * a + d) (lam * b + d) = lam * op a b + d) :
    ∀ (l : List (Vec m)) (r : Vec m), (l.map (aff lam c)).foldl (fun a b i => op (a i) (b i)) (aff lam c r) =
      aff lam c (l.foldl (fun a b i => op (a i) (b i)) r)
  | [], r => rfl
  | a :: l, r => by
    rw [List.map_cons, List.foldl_cons, List.foldl_cons, ← foldl_aff op lam c h l]
    congr 1
    funext i
    exact h _ _ _

theorem min_aff {lam : ℝ} (hl : 0 < lam) (a b d : ℝ) : min (lam * a + d) (lam * b + d) = lam * min a b + d := by
  rcases le_total a b with h | h
  · rw [min_eq_left h, min_eq_left]; nlinarith
  · rw [min_eq_right h, min_eq_right]; nlinarith

theorem max_aff {lam : ℝ} (hl : 0 < lam) (a b d : ℝ) : max (lam * a + d) (lam * b + d) = lam * max a b + d := by
  rcases le_total a b with h | h
  · rw [max_eq_right h, max_eq_right]; nlinarith
  · rw [max_eq_left h, max_eq_left]; nlinarith

theorem colMin_aff {lam : ℝ} (hl : 0 < lam) (c : Vec m) (l : List (Vec m)) :
    colMin (l.map (aff lam c)) = (colMin l).map (aff lam c) := by
  cases l with
  | nil => rfl
  | cons r rs =>
    simp only [List.map_cons, colMin, Except.map, Except.ok.injEq]
    exact foldl_aff min lam c (min_aff hl) rs r

theorem colMax_aff {lam : ℝ} (hl : 0 < lam) (c : Vec m) (l : List (Vec m)) :
    colMax (l.map (aff lam c)) = (colMax l).map (aff lam c) := by
  cases l with
  | nil => rfl
  | cons r rs =>
    simp only [List.map_cons, colMax, Except.map, Except.ok.injEq]
    exact foldl_aff max lam c (max_aff hl) rs r

theorem norm2_scale {lam : ℝ} (hl : 0 < lam) (v : Vec m) : norm2 (fun i => lam * v i) = lam * norm2 v := by
  unfold norm2
  rw [show (∑ i, (lam * v i) ^ 2) = lam ^ 2 * ∑ i, v i ^ 2 by rw [Finset.mul_sum]; exact Finset.sum_congr rfl (fun i _ => by ring),
    Real.sqrt_mul (by positivity), Real.sqrt_sq hl.le]

theorem unitRow_scale {lam : ℝ} (hl : 0 < lam) (v : Vec m) : unitRow (fun i => lam * v i) = unitRow v := by
  unfold unitRow
  rw [norm2_scale hl]
  by_cases h : norm2 v = 0
  · have hv : v = 0 := (norm2_eq_zero v).1 h
    subst hv
    simp
  · have h' : lam * norm2 v ≠ 0 := mul_ne_zero hl.ne' h
    funext i
    simp only [if_neg h, if_neg h']
    rw [mul_div_mul_left _ _ hl.ne']

theorem cosineOf_scale {lam : ℝ} (hl : 0 < lam) (f v : Vec m) : cosineOf (fun i => lam * f i) v = cosineOf f v := by
  unfold cosineOf
  rw [unitRow_scale hl]

theorem assignAll_scale {lam : ℝ} (hl : 0 < lam) (values : List (Vec m)) : ∀ l : List (Vec m),
    assignAll values (l.map (fun f i => lam * f i)) = assignAll values l
  | [] => rfl
  | f :: l => by
    have : cosineOf (fun i => lam * f i) = cosineOf f := by funext v; exact cosineOf_scale hl f v
    simp only [List.map_cons, assignAll, assignAll_scale hl values l, this]

theorem apdValue_scale {lam : ℝ} (hl : 0 < lam) (pen gamma : ℝ) (f v : Vec m) :
    apdValue pen gamma (fun i => lam * f i) v = lam * apdValue pen gamma f v := by
  unfold apdValue
  rw [norm2_scale hl, cosineOf_scale hl]
  ring

theorem nanmin_map {K : Type} [LinearOrder K] {h : K → K} (hh : StrictMono h) : ∀ l : List (Option K),
    nanmin (l.map (Option.map h)) = (nanmin l).map h
  | [] => rfl
  | none :: l => by simp only [List.map_cons, Option.map_none, nanmin]; exact nanmin_map hh l
  | some x :: l => by
    simp only [List.map_cons, Option.map_some, nanmin, nanmin_map hh l]
    cases nanmin l with
    | none => rfl
    | some y => simp only [Option.map_some, hh.monotone.map_min]

theorem apdPick_map {K : Type} [LinearOrder K] {h : K → K} (hh : StrictMono h) (apd : Nat → Option K) (sub : List Nat) :
    apdPick (fun j => (apd j).map h) sub = apdPick apd sub := by
  unfold apdPick
  have : sub.map (fun j => (apd j).map h) = (sub.map apd).map (Option.map h) := by simp [List.map_map, Function.comp_def]
  rw [this, nanmin_map hh]
  cases nanmin (sub.map apd) with
  | none => rfl
  | some mn =>
    simp only [Option.map_some]
    congr 1
    refine List.filter_congr (fun j _ => ?_)
    rw [Bool.eq_iff_iff, decide_eq_true_iff, decide_eq_true_iff]
    constructor
    · intro e
      obtain ⟨x, hx, hy⟩ := Option.map_eq_some_iff.1 e
      rw [hx, hh.injective hy]
    · intro e
      rw [e, Option.map_some]

theorem apdLoop_map {h : ℝ → ℝ} (hh : StrictMono h) (cons : Option (List (List ℝ))) (apd : Nat → Nat → Option ℝ) (asg : List Nat) (n : Nat) :
    apdLoop cons (fun i j => (apd i j).map h) asg n = apdLoop cons apd asg n := by
  unfold apdLoop
  refine List.filterMap_congr (fun i _ => ?_)
  unfold apdOne
  split
  · rfl
  · rfl
  · exact apdPick_map hh (apd i) _

theorem apdDo_aff {lam : ℝ} (hl : 0 < lam) (c : Vec m) (values : List (Vec m)) (gammas : List ℝ) (pen : ℝ) (ideal pi : Vec m)
    (fit : List (Vec m)) (cons : Option (List (List ℝ))) :
    apdDo values gammas pen (aff lam c ideal) (aff lam c pi) (fit.map (aff lam c)) cons =
      (apdDo values gammas pen ideal pi fit cons).map (fun r => (r.1, aff lam c r.2)) := by
  unfold apdDo
  rw [colMin_aff hl]
  cases colMin fit with
  | error e => rfl
  | ok fmin =>
    simp only [Except.map]
    have hi : newIdeal (aff lam c ideal) (aff lam c fmin) (aff lam c pi) = aff lam c (newIdeal ideal fmin pi) := by
      funext i
      simp only [newIdeal, aff, min_aff hl]
    rw [hi]
    have ht : (fit.map (aff lam c)).map (fun f i => f i - aff lam c (newIdeal ideal fmin pi) i) =
        (fit.map (fun f i => f i - newIdeal ideal fmin pi i)).map (fun f i => lam * f i) := by
      simp only [List.map_map]
      refine List.map_congr_left (fun f _ => ?_)
      funext i
      simp only [Function.comp_apply, aff]
      ring
    rw [ht, assignAll_scale hl]
    generalize fit.map (fun f i => f i - newIdeal ideal fmin pi i) = tf
    cases assignAll values tf with
    | error e => rfl
    | ok asg =>
      simp only [Except.ok.injEq, Prod.mk.injEq, and_true]
      refine Eq.trans ?_ (apdLoop_map (h := fun x => lam * x) (fun a b hab => by exact mul_lt_mul_of_pos_left hab hl) cons
        (fun i j => some (apdValue pen (gammas.getD i 0) (tf.getD j 0) (values.getD i 0))) asg values.length)
      congr 1
      funext i j
      simp only [Option.map_some, Option.some.injEq]
      rw [← apdValue_scale hl pen _ (tf.getD j 0)]
      congr 1
      rw [List.getD_eq_getElem?_getD, List.getD_eq_getElem?_getD, List.getElem?_map]
      cases tf[j]? with
      | none => funext i; simp
      | some f => rfl

theorem calcFitness_aff (lam : ℝ) (c : Vec m) (ty : SelType) (fit : List (Vec m)) (unc : Option (List (Vec m))) :
    calcFitness ty (fit.map (aff lam c)) (unc.map (fun l => l.map (aff lam 0))) = (calcFitness ty fit unc).map (List.map (aff lam c)) := by
  cases ty with
  | mean => rfl
  | other => rfl
  | optimistic =>
    cases unc with
    | none => rfl
    | some u =>
      simp only [calcFitness, Option.map_some, Except.map, Except.ok.injEq]
      rw [List.zipWith_map, List.map_zipWith]
      congr 1
      funext a b i
      simp only [aff, Pi.zero_apply]
      ring
  | robust =>
    cases unc with
    | none => rfl
    | some u =>
      simp only [calcFitness, Option.map_some, Except.map, Except.ok.injEq]
      rw [List.zipWith_map, List.map_zipWith]
      congr 1
      funext a b i
      simp only [aff, Pi.zero_apply]
      ring

theorem rvAdapt_aff {lam : ℝ} (hl : 0 < lam) (c : Vec m) (v : RV m) (fit : List (Vec m)) :
    rvAdapt v (fit.map (aff lam c)) = rvAdapt v fit := by
  have : v.adapt (fit.map (aff lam c)) = v.adapt fit := by
    unfold RV.adapt
    rw [colMax_aff hl, colMin_aff hl]
    cases colMax fit with
    | error e => rfl
    | ok hi =>
      cases colMin fit with
      | error e => rfl
      | ok lo =>
        simp only [Except.map, Except.ok.injEq, RV.normalize, RV.mk.injEq, List.length_map, List.map_map, true_and, and_true]
        refine List.map_congr_left (fun w _ => ?_)
        simp only [Function.comp_apply]
        rw [← unitRow_scale hl (fun i => w i * (hi i - lo i))]
        congr 1
        funext i
        simp only [aff]
        ring
  unfold rvAdapt
  rw [this]

theorem call_refPoint_scale {lam : ℝ} (hl : 0 < lam) (v : RV m) (d : Vec m) :
    v.call (.refPoint (fun i => lam * d i)) = v.call (.refPoint d) := by
  simp only [RV.call]
  congr 3
  funext i
  rw [norm2_scale hl, mul_div_mul_left _ _ hl.ne']

/-! ## The two EAs -/

/-- What the two EAs have in common: how offspring are made of the individuals, the numbers of the requests, the sampling. -/
structure Shared93 (X : Type) (m : Nat) where
  vary : Nat → Option (List X) → Except Err (Batch X)
  ids : Nat → Int
  lhs : Nat → Nat → List (Vec m)
  dom : Vec m → Vec m → Bool

/-- Everything of an EA except its selection: `mult` is `_max_multiplier`, `ideal` the problem's ideal fitness. -/
structure BuiltFrom {S : Type} (sh : Shared93 X m) (mult : Vec m) (ideal : Nat → Vec m)
    (ops : Ops X (Vec m) (Vec m) (List ℝ) (Vec m) (RV m) S Q (Answer m)) : Prop where
  mate : ∀ clk p, ops.mate clk p = sh.vary clk p.individuals
  adapt : ops.adapt = rvAdapt
  respond : ops.respond = rvRespond (answerCall mult ideal sh.lhs)
  newId : ops.newId = sh.ids
  dom : ops.dom = sh.dom
  nonDom : ops.nonDom = nonDominated sh.dom

/-- The dominance test of `desdeo_tools` on fitness rows. -/
def IsRowDominance (dom : Vec m → Vec m → Bool) : Prop := ∀ a b, dom a b = true ↔ RowDominates a b

theorem ndInner_map {F F' : Type} (f : F → F') (d : F → F → Bool) (d' : F' → F' → Bool) (h : ∀ a b, d' (f a) (f b) = d a b) (x : F) :
    ∀ (l : List F) (ms : List Bool), ndInner d' (f x) (l.map f) ms = ndInner d x l ms
  | [], ms => by cases ms <;> rfl
  | a :: l, [] => rfl
  | a :: l, b :: ms => by simp only [List.map_cons, ndInner, h, ndInner_map f d d' h x l ms]

theorem ndOuter_map {F F' : Type} (f : F → F') (d : F → F → Bool) (d' : F' → F' → Bool) (h : ∀ a b, d' (f a) (f b) = d a b) :
    ∀ (l done : List F) (flags : List Bool), ndOuter d' (done.map f) flags (l.map f) = ndOuter d done flags l
  | [], done, flags => rfl
  | x :: l, done, flags => by
    simp only [List.map_cons, ndOuter, ndInner_map f d d' h]
    rw [← ndOuter_map f d d' h l, List.map_append]
    rfl

theorem rowDominates_aff {lam : ℝ} (hl : 0 < lam) (c a b : Vec m) : RowDominates (aff lam c a) (aff lam c b) ↔ RowDominates a b := by
  unfold RowDominates aff
  simp only [add_le_add_iff_right, add_lt_add_iff_right, mul_le_mul_iff_right₀ hl, mul_lt_mul_iff_right₀ hl]

theorem dom_aff {lam : ℝ} (hl : 0 < lam) (c : Vec m) (dom : Vec m → Vec m → Bool) (hd : IsRowDominance dom) (a b : Vec m) :
    dom (aff lam c a) (aff lam c b) = dom a b := by
  rw [Bool.eq_iff_iff, hd, hd, rowDominates_aff hl]

/-- Answers that mean the same: reference points. -/
def ansPoint (lam : ℝ) (c mult mult' : Vec m) : Answer m → Answer m → Prop
  | .point q, .point q' => SamePoint lam c mult mult' q q'
  | _, _ => False

theorem ansCall_iff (lam : ℝ) (c mult mult' : Vec m) (k k' : Call (Answer m)) (h : SameCall lam c mult mult' k k') :
    AnsCall (ansPoint lam c mult mult') k k' := by
  match k, k', h with
  | .start, .start, _ => trivial
  | .setType _, .setType _, h => exact h
  | .readAllowable, .readAllowable, _ => trivial
  | .iterate none, .iterate none, _ => trivial
  | .iterate (some p), .iterate (some p'), ⟨h1, h2, h3⟩ => exact ⟨h1, h2, h3⟩

theorem evaluate_im {lam : ℝ} {c : Vec m} {conv : Vec m → Vec m} {S S' : Type} (fs : S → S')
    (a b : Except Err (Results (Vec m) (Vec m) C (Vec m))) (h : SameEvaluation lam c conv a b) :
    b = a.map (fun r => r.im (⟨conv, aff lam c, id, aff lam 0, fs⟩ : Ren (Vec m) (Vec m) (Vec m) (Vec m) C C (Vec m) (Vec m) S S')) := by
  match a, b, h with
  | .error e, .error e', h => cases h; rfl
  | .ok ⟨ro, rf, rc, ru⟩, .ok ⟨ro', rf', rc', ru'⟩, h =>
    obtain ⟨h1, h2, h3, h4⟩ := h
    rw [rescaledRows_iff] at h2
    simp only at h1 h2 h3 h4
    subst h1; subst h2; subst h3
    match ru, ru', h4 with
    | none, none, _ => simp [Except.map, Results.im]
    | some u, some u', h4 =>
      have h5 := (rescaledRows_iff _ _ _ _).1 h4
      subst h5; simp [Except.map, Results.im]

/-- All components but the selection are images. -/
theorem imOps_of {S S' : Type} {lam : ℝ} (hl : 0 < lam) {c : Vec m} {conv : Vec m → Vec m} (fs : S → S') {sh : Shared93 X m}
    (hd : IsRowDominance sh.dom) {mult mult' : Vec m} {ideal ideal' : Nat → Vec m}
    (hi : ∀ clk, Rescaled lam c (ideal clk) (ideal' clk))
    {ops : Ops X (Vec m) (Vec m) (List ℝ) (Vec m) (RV m) S Q (Answer m)} {ops' : Ops X (Vec m) (Vec m) (List ℝ) (Vec m) (RV m) S' Q (Answer m)}
    (hb : BuiltFrom sh mult ideal ops) (hb' : BuiltFrom sh mult' ideal' ops')
    (hev : ∀ clk surr b, SameEvaluation lam c conv (ops.evaluate clk surr b) (ops'.evaluate clk surr b))
    (hsel : ∀ clk v t (p : Pop X (Vec m) (Vec m) (List ℝ) (Vec m)),
      ops'.select clk v (fs t) (p.im (⟨conv, aff lam c, id, aff lam 0, fs⟩ : Ren (Vec m) (Vec m) (Vec m) (Vec m) (List ℝ) (List ℝ) (Vec m) (Vec m) S S')) =
        ((ops.select clk v t p).1, (ops.select clk v t p).2.1, fs (ops.select clk v t p).2.2)) :
    ImOps (⟨conv, aff lam c, id, aff lam 0, fs⟩ : Ren (Vec m) (Vec m) (Vec m) (Vec m) (List ℝ) (List ℝ) (Vec m) (Vec m) S S') (ansPoint lam c mult mult') ops ops' where
  adapt v f := by rw [hb.adapt, hb'.adapt]; exact rvAdapt_aff hl c v f
  respond clk k v p r r' h := by
    match r, r', h with
    | .point q, .point q', h =>
      rw [hb.respond, hb'.respond]
      unfold rvRespond
      cases k with
      | refPoint =>
        simp only [answerCall]
        rw [← call_refPoint_scale hl v (fun i => q i * mult i - ideal clk i)]
        have : (fun i => q' i * mult' i - ideal' clk i) = fun i => lam * (q i * mult i - ideal clk i) := by
          funext i
          rw [h i, hi clk i]
          ring
        rw [this]
      | _ => rfl
  mate clk p := by rw [hb.mate, hb'.mate]; rfl
  evaluate clk b x := evaluate_im fs _ _ (hev clk b x)
  select := hsel
  newId := by rw [hb.newId, hb'.newId]
  dom a b := by rw [hb.dom, hb'.dom]; exact dom_aff hl c sh.dom hd a b
  nonDom l := by
    rw [hb.nonDom, hb'.nonDom]
    exact ndOuter_map (aff lam c) sh.dom sh.dom (dom_aff hl c sh.dom hd) l [] []

/-! ## Histories -/

theorem calls_im {O O' F F' C C' U U' V S S' R R' : Type} {g : Ren O O' F F' C C' U U' S S'} {ans : R → R' → Prop}
    {ops : Ops X O F C U V S Q R} {ops' : Ops X O' F' C' U' V S' Q R'} (h : ImOps g ans ops ops') :
    ∀ (cs : List (Call R)) (cs' : List (Call R')), List.Forall₂ (AnsCall ans) cs cs' → ∀ s : EA X O F C U V S Q,
      s.cfg.location ≠ some .problem → (s.im g).calls ops' cs' = (s.calls ops cs).im g
  | _, _, .nil, s, hl => rfl
  | _, _, .cons (a := c) (b := c') (l₁ := cs) (l₂ := cs') hc hcs, s, hl => by
    simp only [EA.calls]
    rw [call_im h s hl c c' hc]
    exact calls_im h cs cs' hcs _ (by rw [(calls_cfg_clock ops s c).1]; exact hl)

theorem construct_im {O O' F F' C C' U U' V S S' R R' : Type} {g : Ren O O' F F' C C' U U' S S'} {ans : R → R' → Prop}
    {ops : Ops X O F C U V S Q R} {ops' : Ops X O' F' C' U' V S' Q R'} (h : ImBase g ans ops ops')
    (design : Nat → Nat → Except Err (Batch X)) (vec0 : Nat → V) (sel0 : Nat → S) (prob0 : Q)
    (interact useSurr keepArchive saveND : Bool) (nIter nGen total : Nat) (problem : Option (ProblemType × Nat × Nat))
    (ps lr : Option Nat) :
    construct ops' design vec0 (fun n => g.s (sel0 n)) prob0 interact useSurr keepArchive saveND nIter nGen total problem none ps lr =
      (construct ops design vec0 sel0 prob0 interact useSurr keepArchive saveND nIter nGen total problem none ps lr).map (fun s => s.im g) := by
  unfold construct
  cases problem with
  | none => rfl
  | some t =>
    obtain ⟨ty, k, nc⟩ := t
    dsimp only
    cases design 0 (choosePopSize k ps lr) with
    | error e => rfl
    | ok rows =>
      dsimp only
      generalize hea : (EA.mk _ 1 (Pop.new nc) (vec0 (choosePopSize k ps lr)) (sel0 (choosePopSize k ps lr)) prob0 0 0 0 0 none none _ false
        [] none 0 [] : EA X O F C U V S Q) = ea
      have := popAdd_im h ea rows
      rw [← hea] at this
      simp only [EA.im, Pop.im, Pop.new, List.map_nil, Option.map_none] at this
      simp only [Pop.new]
      rw [this]
      rw [← hea]
      simp only [Pop.new]
      generalize EA.popAdd ops _ rows = r
      obtain ⟨r1, t⟩ := r
      cases r1 <;> rfl

theorem sameRun_im {S S' V : Type} (lam : ℝ) (c : Vec m) (conv : Vec m → Vec m) (fs : S → S') (s : EA X (Vec m) (Vec m) C (Vec m) V S Q) :
    SameRun lam c conv s (s.im (⟨conv, aff lam c, id, aff lam 0, fs⟩ : Ren (Vec m) (Vec m) (Vec m) (Vec m) C C (Vec m) (Vec m) S S')) where
  individuals := rfl
  objectives := rfl
  fitness := (rescaledRows_iff _ _ _ _).2 rfl
  constraints := by simp [EA.im, Pop.im]
  vectors := rfl
  generation := rfl
  generationInIteration := rfl
  iteration := rfl
  evaluations := rfl
  request := rfl
  interaction := rfl
  archive := by
    simp only [EA.im]
    induction s.archive with
    | nil => exact .nil
    | cons e l ih => exact .cons ⟨rfl, rfl, rfl, rfl, (rescaledRows_iff _ _ _ _).2 rfl⟩ ih
  nonDominated := by
    simp only [EA.im]
    cases s.nd with
    | none => trivial
    | some a => exact ⟨rfl, rfl, (rescaledRows_iff _ _ _ _).2 rfl⟩

theorem construct_location {O F U V S R : Type} (ops : Ops X O F C U V S Q R)
    (design : Nat → Nat → Except Err (Batch X)) (vec0 : Nat → V) (sel0 : Nat → S) (prob0 : Q)
    (interact useSurr keepArchive saveND : Bool) (nIter nGen total : Nat) (ty0 : ProblemType) (hty : ty0 ≠ .iopis) (k nc : Nat)
    (ps lr : Option Nat) (s : EA X O F C U V S Q)
    (hs : construct ops design vec0 sel0 prob0 interact useSurr keepArchive saveND nIter nGen total (some (ty0, k, nc)) none ps lr = .ok s) :
    s.cfg.location ≠ some .problem := by
  unfold construct at hs
  dsimp only at hs
  cases hd : design 0 (choosePopSize k ps lr) with
  | error e => rw [hd] at hs; cases hs
  | ok rows =>
    rw [hd] at hs
    dsimp only at hs
    have hc : ∀ (e : EA X O F C U V S Q), (e.popAdd ops rows).2.cfg = e.cfg := fun e => rfl
    split at hs
    · cases hs
    · rename_i u ea hea
      injection hs with hs
      have h1 := congrArg (fun r => r.2.cfg) hea
      dsimp only at h1
      rw [hc] at h1
      rw [← hs]
      dsimp only
      rw [← h1]
      dsimp only
      cases interact <;> cases ty0 <;> simp_all

theorem same_runs {S S' : Type} {lam : ℝ} {c : Vec m} {conv : Vec m → Vec m} {fs : S → S'} {mult mult' : Vec m}
    {ops : Ops X (Vec m) (Vec m) C (Vec m) (RV m) S Q (Answer m)} {ops' : Ops X (Vec m) (Vec m) C (Vec m) (RV m) S' Q (Answer m)}
    (h : ImOps (⟨conv, aff lam c, id, aff lam 0, fs⟩ : Ren (Vec m) (Vec m) (Vec m) (Vec m) C C (Vec m) (Vec m) S S') (ansPoint lam c mult mult') ops ops')
    (design : Nat → Nat → Except Err (Batch X)) (vec0 : Nat → RV m) (sel0 : Nat → S) (sel0' : Nat → S')
    (hs0 : ∀ n, sel0' n = fs (sel0 n)) (prob0 : Q)
    (interact useSurr keepArchive saveND : Bool) (nIter nGen total : Nat) (ty0 : ProblemType) (hty : ty0 ≠ .iopis) (k nc : Nat)
    (ps lr : Option Nat) (s : EA X (Vec m) (Vec m) C (Vec m) (RV m) S Q)
    (hs : construct ops design vec0 sel0 prob0 interact useSurr keepArchive saveND nIter nGen total (some (ty0, k, nc)) none ps lr = .ok s) :
    ∃ s', construct ops' design vec0 sel0' prob0 interact useSurr keepArchive saveND nIter nGen total (some (ty0, k, nc)) none ps lr = .ok s' ∧
      ∀ cs cs', List.Forall₂ (SameCall lam c mult mult') cs cs' →
        SameRun lam c conv (s.calls ops cs) (s'.calls ops' cs') ∧
        ∀ a a', SameCall lam c mult mult' a a' → ((s'.calls ops' cs').call ops' a').1 = ((s.calls ops cs).call ops a).1 := by
  have hsel0 : sel0' = fun n => fs (sel0 n) := funext hs0
  refine ⟨s.im (⟨conv, aff lam c, id, aff lam 0, fs⟩ : Ren (Vec m) (Vec m) (Vec m) (Vec m) C C (Vec m) (Vec m) S S'), ?_, ?_⟩
  · rw [hsel0, construct_im h.toImBase, hs]
    rfl
  · have hloc : s.cfg.location ≠ some .problem := by
      have := construct_location ops design vec0 sel0 prob0 interact useSurr keepArchive saveND nIter nGen total ty0 hty k nc ps lr s hs
      exact this
    intro cs cs' hcs
    have hcs2 : List.Forall₂ (AnsCall (ansPoint lam c mult mult')) cs cs' := hcs.imp (fun a b hab => ansCall_iff lam c mult mult' a b hab)
    rw [calls_im h cs cs' hcs2 s hloc]
    refine ⟨sameRun_im lam c conv fs _, fun a a' ha => ?_⟩
    rw [call_im h _ (by rw [(calls_cfg ops cs s).1]; exact hloc) a a' (ansCall_iff lam c mult mult' a a' ha)]

/-! ## RVEA -/

theorem rveaSelect_aff {lam : ℝ} (hl : 0 < lam) (c : Vec m) (conv : Vec m → Vec m) (ty : SelType) (pen : Nat → ℝ) (ideal ideal' : Nat → Vec m)
    (hi : ∀ clk, Rescaled lam c (ideal clk) (ideal' clk)) (clk : Nat) (v : RV m) (t : Vec m) (p : Pop X (Vec m) (Vec m) (List ℝ) (Vec m)) :
    rveaSelect ty pen ideal' clk v (aff lam c t) (p.im (⟨conv, aff lam c, id, aff lam 0, aff lam c⟩ :
        Ren (Vec m) (Vec m) (Vec m) (Vec m) (List ℝ) (List ℝ) (Vec m) (Vec m) (Vec m) (Vec m))) =
      ((rveaSelect ty pen ideal clk v t p).1, (rveaSelect ty pen ideal clk v t p).2.1, aff lam c (rveaSelect ty pen ideal clk v t p).2.2) := by
  have hid : ideal' clk = aff lam c (ideal clk) := by funext i; exact hi clk i
  unfold rveaSelect
  have e1 := calcFitness_aff lam c ty p.fitness p.uncertainity
  simp only [Pop.im]
  rw [e1]
  cases calcFitness ty p.fitness p.uncertainity with
  | error e => rfl
  | ok fit =>
    cases neighbouringAngles v.values with
    | error e => rfl
    | ok g =>
      simp only [Except.map]
      have hc : p.constraint.map (fun l => l.map id) = p.constraint := by simp
      rw [hc, hid, apdDo_aff hl]
      cases apdDo v.values g (pen clk) t (ideal clk) fit p.constraint with
      | error e => rfl
      | ok r => rfl

/-- C93. RVEA.  Two EAs with the same settings, variation and sampling, on two ways of writing down the same problem: the second one's fitness
is `lam` times the first one's plus a constant per objective (with `lam > 0`, the same for all objectives: another unit and other origins), and
its objectives are any conversion of the first one's (for instance negated, with the opposite `_max_multiplier`: maximise instead of
minimise).  Every history of calls with the same reference points (written in the respective way) runs identically: the same requests and
exceptions, the same individuals, reference vectors and counters, after every history. -/
theorem c93_rvea_same_runs {lam : ℝ} (hl : 0 < lam) (c : Vec m) (conv : Vec m → Vec m) (sh : Shared93 X m) (hd : IsRowDominance sh.dom)
    (mult mult' : Vec m) (ideal ideal' : Nat → Vec m) (hi : ∀ clk, Rescaled lam c (ideal clk) (ideal' clk)) (ty : SelType) (pen : Nat → ℝ)
    (ops ops' : Ops X (Vec m) (Vec m) (List ℝ) (Vec m) (RV m) (Vec m) Q (Answer m))
    (hb : BuiltFrom sh mult ideal ops) (hb' : BuiltFrom sh mult' ideal' ops')
    (hsel : ops.select = rveaSelect ty pen ideal) (hsel' : ops'.select = rveaSelect ty pen ideal')
    (hev : ∀ clk surr b, SameEvaluation lam c conv (ops.evaluate clk surr b) (ops'.evaluate clk surr b))
    (design : Nat → Nat → Except Err (Batch X)) (vec0 : Nat → RV m) (sel0 sel0' : Nat → Vec m)
    (hs0 : ∀ n, Rescaled lam c (sel0 n) (sel0' n)) (prob0 : Q)
    (interact useSurr keepArchive saveND : Bool) (nIter nGen total : Nat) (ty0 : ProblemType) (hty : ty0 ≠ .iopis) (k nc : Nat)
    (ps lr : Option Nat) (s : EA X (Vec m) (Vec m) (List ℝ) (Vec m) (RV m) (Vec m) Q)
    (hs : construct ops design vec0 sel0 prob0 interact useSurr keepArchive saveND nIter nGen total (some (ty0, k, nc)) none ps lr = .ok s) :
    ∃ s', construct ops' design vec0 sel0' prob0 interact useSurr keepArchive saveND nIter nGen total (some (ty0, k, nc)) none ps lr = .ok s' ∧
      ∀ cs cs', List.Forall₂ (SameCall lam c mult mult') cs cs' →
        SameRun lam c conv (s.calls ops cs) (s'.calls ops' cs') ∧
        ∀ a a', SameCall lam c mult mult' a a' → ((s'.calls ops' cs').call ops' a').1 = ((s.calls ops cs).call ops a).1 := by
  have h := imOps_of hl (aff lam c) hd hi hb hb' hev
    (fun clk v t p => by rw [hsel, hsel']; exact rveaSelect_aff hl c conv ty pen ideal ideal' hi clk v t p)
  exact same_runs h design vec0 sel0 sel0' (fun n => by funext i; exact hs0 n i) prob0 interact useSurr keepArchive saveND nIter nGen total
    ty0 hty k nc ps lr s hs

/-! ## NSGA-III -/

/-- The state of the operator, shifted. -/
def nsgaIm (c : Vec m) (st : Nsga m) : Nsga m :=
  ⟨aff 1 c st.ideal, st.worst.map (aff 1 c), st.extreme.map (fun l => l.map (aff 1 c))⟩

theorem aff_sub (c a b : Vec m) (i : Fin m) : aff 1 c a i - aff 1 c b i = a i - b i := by
  simp only [aff]; ring

theorem asf_aff (c ideal : Vec m) (k : Fin m) (f : Vec m) : asf (aff 1 c ideal) k (aff 1 c f) = asf ideal k f := by
  unfold asf
  simp only [aff_sub]

theorem extremeRow_aff (c : Vec m) (pool : List (Vec m)) (ideal : Vec m) (k : Fin m) :
    extremeRow (pool.map (aff 1 c)) (aff 1 c ideal) k = (extremeRow pool ideal k).map (aff 1 c) := by
  unfold extremeRow
  have : (pool.map (aff 1 c)).map (asf (aff 1 c ideal) k) = pool.map (asf ideal k) := by
    rw [List.map_map]
    exact List.map_congr_left (fun f _ => asf_aff c ideal k f)
  rw [this]
  cases argminL (pool.map (asf ideal k)) with
  | error e => rfl
  | ok j =>
    dsimp only
    rw [List.getElem?_map]
    cases pool[j]? <;> rfl

theorem mapM_map {α β γ : Type} (f : α → Except Err β) (h : β → γ) (g : α → Except Err γ) (hg : ∀ a, g a = (f a).map h) :
    ∀ l : List α, l.mapM g = (l.mapM f).map (List.map h)
  | [] => rfl
  | a :: l => by
    rw [List.mapM_cons, List.mapM_cons, hg a, mapM_map f h g hg l]
    cases f a with
    | error e => rfl
    | ok b => cases l.mapM f <;> rfl

theorem extremePoints_aff (c : Vec m) (front : List (Vec m)) (ideal : Vec m) (old : Option (List (Vec m))) :
    extremePoints (front.map (aff 1 c)) (aff 1 c ideal) (old.map (fun l => l.map (aff 1 c))) =
      (extremePoints front ideal old).map (List.map (aff 1 c)) := by
  unfold extremePoints
  refine mapM_map _ _ _ (fun k => ?_) _
  rw [← extremeRow_aff]
  congr 1
  cases old <;> simp [extremePool]

theorem nadirPoint_aff (c : Vec m) (solve : List (Vec m) → Option (Vec m)) (ext : List (Vec m)) (ideal worst wof wop : Vec m) :
    nadirPoint solve (ext.map (aff 1 c)) (aff 1 c ideal) (aff 1 c worst) (aff 1 c wof) (aff 1 c wop) =
      aff 1 c (nadirPoint solve ext ideal worst wof wop) := by
  have he : (ext.map (aff 1 c)).map (fun e i => e i - aff 1 c ideal i) = ext.map (fun e i => e i - ideal i) := by
    rw [List.map_map]
    refine List.map_congr_left (fun e _ => ?_)
    funext i
    exact aff_sub c e ideal i
  have hp : ∀ plane, planeClose (ext.map (aff 1 c)) (aff 1 c ideal) plane ↔ planeClose ext ideal plane := by
    intro plane
    unfold planeClose
    simp only [List.forall_mem_map, aff_sub]
  have hn : ∀ plane : Vec m, (∀ i, aff 1 c ideal i + 1 / plane i ≤ aff 1 c worst i) ↔ ∀ i, ideal i + 1 / plane i ≤ worst i := by
    intro plane
    refine forall_congr' (fun i => ?_)
    simp only [aff]
    constructor <;> intro h <;> linarith
  have hfin : ∀ (nad : Vec m), (fun i => if aff 1 c nad i - aff 1 c ideal i ≤ 1 / 10 ^ 6 then aff 1 c wop i else aff 1 c nad i) =
      aff 1 c (fun i => if nad i - ideal i ≤ 1 / 10 ^ 6 then wop i else nad i) := by
    intro nad
    funext i
    rw [aff_sub]
    simp only [aff]
    split <;> rfl
  unfold nadirPoint
  rw [he]
  cases solve (ext.map (fun e i => e i - ideal i)) with
  | none => exact hfin wof
  | some plane =>
    dsimp only
    by_cases hc : planeClose ext ideal plane ∧ (∀ i, ¬ 1 / plane i ≤ 1 / 10 ^ 6) ∧ ∀ i, ideal i + 1 / plane i ≤ worst i
    · have hc' : planeClose (ext.map (aff 1 c)) (aff 1 c ideal) plane ∧ (∀ i, ¬ 1 / plane i ≤ 1 / 10 ^ 6) ∧
          ∀ i, aff 1 c ideal i + 1 / plane i ≤ aff 1 c worst i := ⟨(hp plane).2 hc.1, hc.2.1, (hn plane).2 hc.2.2⟩
      rw [if_pos hc, if_pos hc']
      rw [← hfin]
      have : (fun i => aff 1 c ideal i + 1 / plane i) = aff 1 c (fun i => ideal i + 1 / plane i) := by
        funext i; simp only [aff]; ring
      rw [this]
    · have hc' : ¬ (planeClose (ext.map (aff 1 c)) (aff 1 c ideal) plane ∧ (∀ i, ¬ 1 / plane i ≤ 1 / 10 ^ 6) ∧
          ∀ i, aff 1 c ideal i + 1 / plane i ≤ aff 1 c worst i) := by
        rw [hp, hn]; exact hc
      rw [if_neg hc, if_neg hc']
      exact hfin wof

theorem associate_aff (c : Vec m) (dirs : List (Vec m)) (ideal nadir : Vec m) : ∀ l : List (Vec m),
    associate dirs (aff 1 c ideal) (aff 1 c nadir) (l.map (aff 1 c)) = associate dirs ideal nadir l
  | [] => rfl
  | f :: l => by
    have : nicheNormal (aff 1 c ideal) (aff 1 c nadir) (aff 1 c f) = nicheNormal ideal nadir f := by
      funext i
      simp only [nicheNormal, aff_sub]
    simp only [List.map_cons, associate, this, associate_aff c dirs ideal nadir l]

theorem rows_aff (c : Vec m) (fit : List (Vec m)) (js : List Nat) (h : ∀ j ∈ js, j < fit.length) :
    js.map (fun j => (fit.map (aff 1 c)).getD j 0) = (js.map (fun j => fit.getD j 0)).map (aff 1 c) := by
  rw [List.map_map]
  refine List.map_congr_left (fun j hj => ?_)
  have := h j hj
  simp [this]

theorem newWorst_aff (c : Vec m) (w : Option (Vec m)) (wp : Vec m) : newWorst (w.map (aff 1 c)) (aff 1 c wp) = aff 1 c (newWorst w wp) := by
  cases w with
  | none => rfl
  | some w =>
    funext i
    simp only [Option.map_some, newWorst, aff]
    exact max_aff one_pos _ _ _

theorem nsgaPoints_aff (c : Vec m) (solve : List (Vec m) → Option (Vec m)) (st : Nsga m) (fit : List (Vec m)) (f0 : List Nat)
    (h0 : ∀ j ∈ f0, j < fit.length) :
    nsgaPoints solve (nsgaIm c st) (fit.map (aff 1 c)) f0 =
      ((nsgaPoints solve st fit f0).1.map (aff 1 c), nsgaIm c (nsgaPoints solve st fit f0).2) := by
  unfold nsgaPoints
  rw [colMin_aff one_pos, colMax_aff one_pos]
  cases colMin fit with
  | error e => rfl
  | ok fmin =>
    cases colMax fit with
    | error e => rfl
    | ok fmax =>
      simp only [Except.map]
      have hst : nsgaExtremes (nsgaIm c st) (aff 1 c fmin) (aff 1 c fmax) = nsgaIm c (nsgaExtremes st fmin fmax) := by
        simp only [nsgaExtremes, nsgaIm, newWorst_aff, Nsga.mk.injEq, Option.map_some, and_true]
        funext i
        simp only [aff]
        exact min_aff one_pos _ _ _
      rw [rows_aff c fit f0 h0, colMax_aff one_pos, hst]
      cases colMax (f0.map (fun j => fit.getD j 0)) with
      | error e => rfl
      | ok wf =>
        simp only [Except.map]
        have hx := extremePoints_aff c (f0.map (fun j => fit.getD j 0)) (nsgaExtremes st fmin fmax).ideal (nsgaExtremes st fmin fmax).extreme
        rw [show (nsgaIm c (nsgaExtremes st fmin fmax)).ideal = aff 1 c (nsgaExtremes st fmin fmax).ideal from rfl,
          show (nsgaIm c (nsgaExtremes st fmin fmax)).extreme = (nsgaExtremes st fmin fmax).extreme.map (fun l => l.map (aff 1 c)) from rfl,
          hx]
        cases extremePoints (f0.map (fun j => fit.getD j 0)) (nsgaExtremes st fmin fmax).ideal (nsgaExtremes st fmin fmax).extreme with
        | error e => rfl
        | ok ext =>
          simp only [Except.map]
          rw [show (nsgaIm c st).worst = st.worst.map (aff 1 c) from rfl, newWorst_aff, nadirPoint_aff]
          rfl

theorem lastFrontChoice_aff (c : Vec m) (rnd : NicheRand) (dirs : List (Vec m)) (ideal nadir : Vec m) (n : Nat) (fit : List (Vec m))
    (fronts : List (List Nat)) (h : ∀ j ∈ fronts.flatten, j < fit.length) :
    lastFrontChoice rnd dirs (aff 1 c ideal) (aff 1 c nadir) n (fit.map (aff 1 c)) fronts = lastFrontChoice rnd dirs ideal nadir n fit fronts := by
  unfold lastFrontChoice
  dsimp only
  rw [rows_aff c fit _ h, associate_aff]

theorem acceptedFronts_sub (n : Nat) (fronts fs : List (List Nat)) (h : acceptedFronts n fronts = some fs) :
    ∀ j ∈ fs.flatten, j ∈ fronts.flatten := by
  unfold acceptedFronts at h
  obtain ⟨i, -, rfl⟩ := Option.map_eq_some_iff.1 h
  intro j hj
  obtain ⟨f, hf, hj⟩ := List.mem_flatten.1 hj
  exact List.mem_flatten.2 ⟨f, List.mem_of_mem_take hf, hj⟩

theorem nsgaDo_aff (c : Vec m) (sort : List (Vec m) → List (List Nat)) (solve : List (Vec m) → Option (Vec m)) (rnd : NicheRand)
    (dirs : List (Vec m)) (ns : Option Nat) (st : Nsga m) (fit : List (Vec m))
    (hsort : sort (fit.map (aff 1 c)) = sort fit) (hin : ∀ j ∈ (sort fit).flatten, j < fit.length) :
    nsgaDo sort solve rnd dirs ns (nsgaIm c st) (fit.map (aff 1 c)) =
      ((nsgaDo sort solve rnd dirs ns st fit).1, nsgaIm c (nsgaDo sort solve rnd dirs ns st fit).2) := by
  unfold nsgaDo
  rw [hsort]
  cases hf : sort fit with
  | nil => rfl
  | cons f0 rest =>
    rw [hf] at hin
    dsimp only
    rw [nsgaPoints_aff c solve st fit f0 (fun j hj => hin j (List.mem_flatten.2 ⟨f0, by simp, hj⟩))]
    generalize nsgaPoints solve st fit f0 = r
    obtain ⟨r1, st1⟩ := r
    cases r1 with
    | error e => rfl
    | ok nadir =>
      simp only [Except.map]
      cases ns with
      | none => rfl
      | some n =>
        dsimp only
        cases ha : acceptedFronts n (f0 :: rest) with
        | none => rfl
        | some fs =>
          dsimp only
          split
          · rw [show (nsgaIm c st1).ideal = aff 1 c st1.ideal from rfl,
              lastFrontChoice_aff c rnd dirs st1.ideal nadir n fit fs (fun j hj => hin j (acceptedFronts_sub n _ fs ha j hj))]
          · rfl

theorem nsgaSelect_aff (c : Vec m) (conv : Vec m → Vec m) (ty : SelType) (sort : List (Vec m) → List (List Nat))
    (solve : List (Vec m) → Option (Vec m)) (rnd : Nat → NicheRand) (ns : Option Nat)
    (hsort : ∀ fit, sort (fit.map (aff 1 c)) = sort fit) (hin : ∀ fit, IsFrontSort (IndDominates fit) fit.length (sort fit))
    (clk : Nat) (v : RV m) (t : Nsga m) (p : Pop X (Vec m) (Vec m) (List ℝ) (Vec m)) :
    nsgaSelect ty sort solve rnd ns clk v (nsgaIm c t) (p.im (⟨conv, aff 1 c, id, aff 1 0, nsgaIm c⟩ :
        Ren (Vec m) (Vec m) (Vec m) (Vec m) (List ℝ) (List ℝ) (Vec m) (Vec m) (Nsga m) (Nsga m))) =
      ((nsgaSelect ty sort solve rnd ns clk v t p).1, (nsgaSelect ty sort solve rnd ns clk v t p).2.1,
        nsgaIm c (nsgaSelect ty sort solve rnd ns clk v t p).2.2) := by
  unfold nsgaSelect
  have e1 := calcFitness_aff 1 c ty p.fitness p.uncertainity
  simp only [Pop.im]
  rw [e1]
  cases calcFitness ty p.fitness p.uncertainity with
  | error e => rfl
  | ok fit =>
    simp only [Except.map]
    rw [nsgaDo_aff c sort solve (rnd clk) v.planar ns t fit (hsort fit)
      (fun j hj => List.mem_range.1 ((hin fit).all.mem_iff.1 hj))]
    generalize nsgaDo sort solve (rnd clk) v.planar ns t fit = r
    obtain ⟨r1, st⟩ := r
    cases r1 <;> rfl

/-- The front sort looks only at who dominates whom. -/
def SortsByDominance (sort : List (Vec m) → List (List Nat)) : Prop :=
  ∀ fit fit' : List (Vec m), fit'.length = fit.length → (∀ y x, IndDominates fit' y x ↔ IndDominates fit y x) → sort fit' = sort fit

theorem indDominates_aff (c : Vec m) (fit : List (Vec m)) (y x : Nat) : IndDominates (fit.map (aff 1 c)) y x ↔ IndDominates fit y x := by
  unfold IndDominates
  constructor
  · rintro ⟨a, b, ha, hb, hab⟩
    rw [List.getElem?_map, Option.map_eq_some_iff] at ha hb
    obtain ⟨a, ha, rfl⟩ := ha
    obtain ⟨b, hb, rfl⟩ := hb
    exact ⟨a, b, ha, hb, (rowDominates_aff one_pos c a b).1 hab⟩
  · rintro ⟨a, b, ha, hb, hab⟩
    exact ⟨aff 1 c a, aff 1 c b, by simp [ha], by simp [hb], (rowDominates_aff one_pos c a b).2 hab⟩

/-- C93. NSGA-III: the same for other origins (a constant added to each fitness) and for converted objectives.  (Other units are not claimed: the
normalisation of NSGA-III compares with the absolute numbers 0.001 and 0.000001, `NSGAIII_select.py:141,171,179`.) -/
theorem c93_nsga_same_runs (c : Vec m) (conv : Vec m → Vec m) (sh : Shared93 X m) (hd : IsRowDominance sh.dom)
    (mult mult' : Vec m) (ideal ideal' : Nat → Vec m) (hi : ∀ clk, Rescaled 1 c (ideal clk) (ideal' clk)) (ty : SelType)
    (sort : List (Vec m) → List (List Nat)) (hsort : SortsByDominance sort) (hfs : ∀ fit, IsFrontSort (IndDominates fit) fit.length (sort fit))
    (solve : List (Vec m) → Option (Vec m)) (rnd : Nat → NicheRand) (ns : Option Nat)
    (ops ops' : Ops X (Vec m) (Vec m) (List ℝ) (Vec m) (RV m) (Nsga m) Q (Answer m))
    (hb : BuiltFrom sh mult ideal ops) (hb' : BuiltFrom sh mult' ideal' ops')
    (hsel : ops.select = nsgaSelect ty sort solve rnd ns) (hsel' : ops'.select = nsgaSelect ty sort solve rnd ns)
    (hev : ∀ clk surr b, SameEvaluation 1 c conv (ops.evaluate clk surr b) (ops'.evaluate clk surr b))
    (design : Nat → Nat → Except Err (Batch X)) (vec0 : Nat → RV m) (ideal0 : Nat → Vec m) (prob0 : Q)
    (interact useSurr keepArchive saveND : Bool) (nIter nGen total : Nat) (ty0 : ProblemType) (hty : ty0 ≠ .iopis) (k nc : Nat)
    (ps lr : Option Nat) (s : EA X (Vec m) (Vec m) (List ℝ) (Vec m) (RV m) (Nsga m) Q)
    (hs : construct ops design vec0 (fun n => ⟨ideal0 n, none, none⟩) prob0 interact useSurr keepArchive saveND nIter nGen total
      (some (ty0, k, nc)) none ps lr = .ok s) :
    ∃ s', construct ops' design vec0 (fun n => ⟨fun i => ideal0 n i + c i, none, none⟩) prob0 interact useSurr keepArchive saveND nIter nGen total
        (some (ty0, k, nc)) none ps lr = .ok s' ∧
      ∀ cs cs', List.Forall₂ (SameCall 1 c mult mult') cs cs' →
        SameRun 1 c conv (s.calls ops cs) (s'.calls ops' cs') ∧
        ∀ a a', SameCall 1 c mult mult' a a' → ((s'.calls ops' cs').call ops' a').1 = ((s.calls ops cs).call ops a).1 := by
  have h1 : ∀ fit, sort (fit.map (aff 1 c)) = sort fit := fun fit => hsort _ _ (by simp) (fun y x => indDominates_aff c fit y x)
  have h := imOps_of one_pos (nsgaIm c) hd hi hb hb' hev
    (fun clk v t p => by rw [hsel, hsel']; exact nsgaSelect_aff c conv ty sort solve rnd ns h1 hfs clk v t p)
  refine same_runs h design vec0 _ _ (fun n => ?_) prob0 interact useSurr keepArchive saveND nIter nGen total ty0 hty k nc ps lr s hs
  simp only [nsgaIm, Option.map_none, Nsga.mk.injEq, and_true]
  funext i
  simp only [aff, one_mul]

/-- Non-vacuity: the reference sort looks only at dominance. -/
example : SortsByDominance (m := m) (fun fitness => peelFronts (indDom fitness) fitness.length (List.range fitness.length)) := by
  intro fit fit' hl hd
  have : indDom fit' = indDom fit := by
    funext y x
    simp only [indDom, decide_eq_decide]
    exact hd y x
  simp only [this, hl]

/-- Non-vacuity: minimising `f` and maximising `-2 f - c`, with the point `q` and the point `-2 q - c`. -/
example (c q f : Vec m) : Rescaled 2 c f (fun i => (-2 * f i - c i) * (-1)) ∧
    SamePoint 2 c (fun _ => 1) (fun _ => -1) q (fun i => -2 * q i - c i) :=
  ⟨fun i => by ring, fun i => by ring⟩

/-! ## Preferred solutions -/

/-- Components on one variable and two objectives: `evaluate` is the problem, `mult` says which are maximised. -/
noncomputable def demo93 (evaluate : Row 1 → Vec 2) (mult ideal : Vec 2) : Ops (Row 1) (Vec 2) (Vec 2) (List ℝ) (Vec 2) (RV 2) (Vec 2) Unit (Answer 2) where
  adapt := rvAdapt
  respond := rvRespond (answerCall mult (fun _ => ideal) (fun _ _ => []))
  mate := mateAll (fun _ => 0) (fun _ => 1) (fun _ => ⟨id, fun _ => ⟨fun _ => 0, fun _ => false, fun _ => 0⟩, fun _ _ => 0, fun _ _ => 0⟩)
  evaluate := fun _ _ b => .ok ⟨b.rows.map evaluate, b.rows.map (fun x i => evaluate x i * mult i), none, none⟩
  select := rveaSelect .mean (fun _ => 0) (fun _ => ideal)
  newId := fun _ => 7
  probManage := fun q _ _ => (.ok (), q)
  probReeval := fun q _ => ([], q)
  dom := fun a b => by classical exact decide (RowDominates a b)
  nonDom := nonDominated (fun a b => by classical exact decide (RowDominates a b))

/-- What the demo EAs share. -/
noncomputable def demoShared : Shared93 (Row 1) 2 where
  vary := fun clk inds => mateAll (O := Unit) (F := Unit) (C := Unit) (U := Unit) (fun _ => 0) (fun _ => 1)
    (fun _ => ⟨id, fun _ => ⟨fun _ => 0, fun _ => false, fun _ => 0⟩, fun _ _ => 0, fun _ _ => 0⟩) clk ⟨0, 2, inds, [], [], none, none⟩
  ids := fun _ => 7
  lhs := fun _ _ => []
  dom := fun a b => by classical exact decide (RowDominates a b)

theorem demo93_built (ev : Row 1 → Vec 2) (mult ideal : Vec 2) : BuiltFrom demoShared mult (fun _ => ideal) (demo93 ev mult ideal) where
  mate clk p := by
    simp only [demo93, demoShared, mateAll]
  adapt := rfl
  respond := rfl
  newId := rfl
  dom := rfl
  nonDom := rfl

theorem demo93_dominance : IsRowDominance demoShared.dom := by
  intro a b
  simp [demoShared]

/-- Two individuals, both at 0. -/
def demo93Design (_ k : Nat) : Except Err (Batch (Row 1)) := .ok ⟨2, List.replicate k (fun _ => some 0)⟩

/-- The history: choose the interaction, start, answer the request by "I prefer the first solution". -/
def preferFirst : List (Call (Answer 2)) :=
  [.setType (some "Preferred solutions"), .start, .iterate (some ⟨7, .preferredSolution, .indices [0]⟩)]

theorem unitRow_parallel (a b : Vec 2) (h : unitRow a = unitRow b) : a 0 * b 1 = a 1 * b 0 := by
  have key : ∀ v : Vec 2, ∃ k : ℝ, ∀ i, v i = k * unitRow v i := by
    intro v
    by_cases h0 : norm2 v = 0
    · exact ⟨0, fun i => by rw [(norm2_eq_zero v).1 h0]; simp⟩
    · refine ⟨norm2 v, fun i => ?_⟩
      simp only [unitRow, if_neg h0]
      field_simp
  obtain ⟨k, hk⟩ := key a
  obtain ⟨l, hl⟩ := key b
  rw [hk 0, hk 1, hl 0, hl 1, h]
  ring

theorem create_two : ∃ (v0 : RV 2) (r : List (Vec 2)), RV.create 2 1 = .ok v0 ∧ v0.init = ![0, 1] :: r := by
  refine ⟨_, [unitRow (latticeRow 2 1 [1, 0])], rfl, ?_⟩
  have hw : weights 2 1 = [[0, 1], [1, 0]] := by decide
  simp only [RV.normalize, hw, List.map_cons, List.map_nil, List.cons.injEq, and_true]
  have : latticeRow 2 1 [0, 1] = ![0, 1] := by
    funext i
    fin_cases i <;> simp [latticeRow]
  rw [this]
  have hn : norm2 (![0, 1] : Vec 2) = 1 := by simp [norm2]
  funext i
  fin_cases i <;> simp [unitRow, hn]

theorem demo93_runs (ev : Row 1 → Vec 2) (mult ideal : Vec 2) (v0 : RV 2) (r : List (Vec 2)) (hv : v0.init = ![0, 1] :: r) :
    ∃ s, construct (demo93 ev mult ideal) demo93Design (fun _ => v0) (fun _ => ideal) () true false false false 10 10 0 (some (.mo, 2, 0)) none (some 2) none = .ok s ∧
      ∃ rest, (s.calls (demo93 ev mult ideal) preferFirst).vec.values =
        unitRow (unitRow (blend (1 / 5) (ev (fun _ => some 0)) ![0, 1])) :: rest := by
  generalize hops : demo93 ev mult ideal = ops
  have h1 : ∃ s t, construct ops demo93Design (fun _ => v0) (fun _ => ideal) () true false false false 10 10 0 (some (.mo, 2, 0)) none (some 2) none = .ok s ∧
      s.calls ops [.setType (some "Preferred solutions"), .start] = t ∧ t.cfg.location = some .selection ∧ t.cfg.interact = true ∧
      t.reqId = some 7 ∧ t.itype = some .preferred ∧ t.vec = v0 ∧ t.pop.objectives = [ev (fun _ => some 0), ev (fun _ => some 0)] := by
    rw [← hops]
    exact ⟨_, _, rfl, rfl, rfl, rfl, rfl, rfl, rfl, rfl⟩
  obtain ⟨s, t, hs, ht, t1, t2, t3, t4, t5, t6⟩ := h1
  refine ⟨s, hs, ?_⟩
  have hresp : ∀ clk, ops.respond clk .preferred t.vec t.pop (.indices [0]) =
      (.ok (), ({ v0 with values := v0.init.map (blend (1 / 5) (ev (fun _ => some 0))), planar := v0.initP.map (blend (1 / 5) (ev (fun _ => some 0))) } :
        RV 2).normalize.addEdges) := by
    intro clk
    have : ops.respond = rvRespond (answerCall mult (fun _ => ideal) (fun _ _ => [])) := by rw [← hops]; rfl
    rw [this, t5]
    unfold rvRespond answerCall
    dsimp only
    rw [t6]
    rfl
  have hf := c64_preference_in_force ops (c64_selection_reads ops .mean (fun _ => 0) (fun _ => ideal) (by rw [← hops]; rfl)) t t1 t2
    ⟨7, .preferredSolution, .indices [0]⟩ .preferred t3 t4 rfl (by rw [hresp])
  have hvec := hf.1
  rw [hresp] at hvec
  have hc : (s.calls ops preferFirst).vec = (t.iterate ops (some ⟨7, .preferredSolution, .indices [0]⟩)).2.vec := by
    rw [← ht]; rfl
  rw [hc, hvec, hv]
  exact ⟨_, rfl⟩

/-- C93. Preferred solutions: the answer "I prefer the first solution", given at the same point of the same run, moves the reference vectors
elsewhere when the same problem is written down with other units, with another origin, or maximised instead of minimised (the raw objective
values are mixed into the vectors, `SelectionBase.py:275-278`).  In all three pairs the hypotheses of `c93_rvea_same_runs` are met. -/
theorem c93_preferred_solution_violated :
    ∃ (v0 : RV 2) (ev : Row 1 → Vec 2), RV.create 2 1 = .ok v0 ∧
      ∀ (lam : ℝ) (c mult' : Vec 2), (lam, c, mult') ∈ [((2 : ℝ), (![0, 0] : Vec 2), (![1, 1] : Vec 2)), (1, ![1, 0], ![1, 1]), (1, ![0, 0], ![-1, -1])] →
        ∃ (conv : Vec 2 → Vec 2) (s s' : EA (Row 1) (Vec 2) (Vec 2) (List ℝ) (Vec 2) (RV 2) (Vec 2) Unit),
          (∀ clk surr b, SameEvaluation lam c conv ((demo93 ev ![1, 1] ![0, 0]).evaluate clk surr b)
            ((demo93 (fun x => conv (ev x)) mult' c).evaluate clk surr b)) ∧
          construct (demo93 ev ![1, 1] ![0, 0]) demo93Design (fun _ => v0) (fun _ => ![0, 0]) () true false false false 10 10 0
            (some (.mo, 2, 0)) none (some 2) none = .ok s ∧
          construct (demo93 (fun x => conv (ev x)) mult' c) demo93Design (fun _ => v0) (fun _ => c) () true false false false 10 10 0
            (some (.mo, 2, 0)) none (some 2) none = .ok s' ∧
          (s'.calls (demo93 (fun x => conv (ev x)) mult' c) preferFirst).vec ≠ (s.calls (demo93 ev ![1, 1] ![0, 0]) preferFirst).vec := by
  obtain ⟨v0, r, hv, hr⟩ := create_two
  refine ⟨v0, fun x => ![1 + (x 0).getD 0, 2 - (x 0).getD 0], hv, ?_⟩
  intro lam c mult' hmem
  suffices h : ∃ conv : Vec 2 → Vec 2, (∀ a i, conv a i * mult' i = lam * (a i * (![1, 1] : Vec 2) i) + c i) ∧
      (blend (1 / 5) (conv ![1 + 0, 2 - 0]) ![0, 1] 0 * blend (1 / 5) (![1 + 0, 2 - 0] : Vec 2) ![0, 1] 1 ≠
        blend (1 / 5) (conv ![1 + 0, 2 - 0]) ![0, 1] 1 * blend (1 / 5) (![1 + 0, 2 - 0] : Vec 2) ![0, 1] 0) by
    obtain ⟨conv, h1, h2⟩ := h
    obtain ⟨s, hs, rest, hvs⟩ := demo93_runs (fun x => ![1 + (x 0).getD 0, 2 - (x 0).getD 0]) ![1, 1] ![0, 0] v0 r hr
    obtain ⟨s', hs', rest', hvs'⟩ := demo93_runs (fun x => conv ![1 + (x 0).getD 0, 2 - (x 0).getD 0]) mult' c v0 r hr
    refine ⟨conv, s, s', ?_, hs, hs', ?_⟩
    · intro clk surr b
      refine ⟨by simp [demo93], ?_, rfl, trivial⟩
      rw [rescaledRows_iff]
      simp only [demo93, List.map_map]
      refine List.map_congr_left (fun x _ => ?_)
      funext i
      simp only [Function.comp_apply, aff]
      exact h1 _ i
    · intro e
      have e2 := congrArg RV.values e
      rw [hvs, hvs'] at e2
      have e3 := (List.cons.inj e2).1
      rw [unitRow_idem, unitRow_idem] at e3
      exact h2 (unitRow_parallel _ _ e3)
  simp only [List.mem_cons, Prod.mk.injEq, List.not_mem_nil, or_false] at hmem
  rcases hmem with ⟨rfl, rfl, rfl⟩ | ⟨rfl, rfl, rfl⟩ | ⟨rfl, rfl, rfl⟩
  · refine ⟨fun a i => 2 * a i, fun a i => by fin_cases i <;> simp, ?_⟩
    norm_num [blend]
  · refine ⟨fun a i => a i + ![1, 0] i, fun a i => by fin_cases i <;> simp, ?_⟩
    norm_num [blend]
  · refine ⟨fun a i => - a i, fun a i => by fin_cases i <;> simp, ?_⟩
    norm_num [blend]

/-- Non-vacuity of `c93_rvea_same_runs`: minimising `f` and maximising `-2 f`, an interactive run answered by a reference point. -/
example : ∃ (v0 : RV 2) (s s' : EA (Row 1) (Vec 2) (Vec 2) (List ℝ) (Vec 2) (RV 2) (Vec 2) Unit) (ev : Row 1 → Vec 2)
    (a a' : Pref (Answer 2)),
    construct (demo93 ev ![1, 1] ![0, 0]) demo93Design (fun _ => v0) (fun _ => ![0, 0]) () true false false false 10 10 0
      (some (.mo, 2, 0)) none (some 2) none = .ok s ∧
    SameRun 2 0 (fun a i => -2 * a i) (s.calls (demo93 ev ![1, 1] ![0, 0]) [.setType (some "Reference point"), .start, .iterate (some a)])
      (s'.calls (demo93 (fun x i => -2 * ev x i) ![-1, -1] ![0, 0]) [.setType (some "Reference point"), .start, .iterate (some a')]) := by
  obtain ⟨v0, r, hv, hr⟩ := create_two
  obtain ⟨s, hs, -⟩ := demo93_runs (fun x => ![1 + (x 0).getD 0, 2 - (x 0).getD 0]) ![1, 1] ![0, 0] v0 r hr
  obtain ⟨s', -, hall⟩ := c93_rvea_same_runs (lam := 2) two_pos (0 : Vec 2) (fun a i => -2 * a i) demoShared demo93_dominance ![1, 1] ![-1, -1]
    (fun _ => ![0, 0]) (fun _ => ![0, 0]) (fun _ i => by fin_cases i <;> simp) .mean (fun _ => 0)
    (demo93 (fun x => ![1 + (x 0).getD 0, 2 - (x 0).getD 0]) ![1, 1] ![0, 0])
    (demo93 (fun x i => -2 * (![1 + (x 0).getD 0, 2 - (x 0).getD 0] : Vec 2) i) ![-1, -1] ![0, 0])
    (demo93_built _ _ _) (demo93_built _ _ _) rfl rfl
    (fun clk surr b => by
      refine ⟨by simp [demo93], ?_, rfl, trivial⟩
      rw [rescaledRows_iff]
      simp only [demo93, List.map_map]
      refine List.map_congr_left (fun x _ => ?_)
      funext i
      simp only [Function.comp_apply, aff]
      fin_cases i <;> simp)
    demo93Design (fun _ => v0) (fun _ => ![0, 0]) (fun _ => ![0, 0]) (fun _ i => by fin_cases i <;> simp) () true false false false 10 10 0 .mo
    (by decide) 2 0 (some 2) none s hs
  refine ⟨v0, s, s', _, ⟨7, .referencePoint, .point ![3, 4]⟩, ⟨7, .referencePoint, .point ![-6, -8]⟩, hs, (hall _ _ ?_).1⟩
  refine .cons rfl (.cons trivial (.cons ⟨rfl, rfl, ?_⟩ .nil))
  intro i
  fin_cases i <;> norm_num

end Verif.Props
