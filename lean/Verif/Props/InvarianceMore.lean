import Verif.Spec.Scalarizing
import Verif.Props.Invariance
import Verif.Props.Constraints
import Verif.Props.IndicatorRun

/-!
# C93, second part: MOEA/D, IBEA and PBEA
-/

namespace Verif.Props
open Verif Verif.Spec

variable {X C U Q R : Type} {m : Nat}

/-! ## MOEA/D -/

theorem adapt_aff {lam : ℝ} (hl : 0 < lam) (c : Vec m) (v : RV m) (fit : List (Vec m)) : v.adapt (fit.map (aff lam c)) = v.adapt fit := by
  unfold RV.adapt
  rw [colMax_aff hl, colMin_aff hl]
  cases colMax fit with
  | error e => rfl
  | ok hi =>
    cases colMin fit with
    | error e => rfl
    | ok lo =>
      simp only [Except.map, Except.ok.injEq, RV.normalize, RV.mk.injEq, List.length_map, List.map_map, true_and, and_true]
      refine List.map_congr_left (fun w _ => ?_)
      simp only [Function.comp_apply]
      rw [← unitRow_scale hl (fun i => w i * (hi i - lo i))]
      congr 1
      funext i
      simp only [aff]
      ring

/-- Everything of a MOEA/D but its own components: `mult` is `_max_multiplier`, `ideal` the problem's ideal fitness. -/
structure BuiltMoead {S : Type} (sh : Shared93 X m) (mult : Vec m) (ideal : Nat → Vec m) (argsort : List ℝ → List Nat) (nNeighbors : Nat)
    (ops : Ops X (Vec m) (Vec m) C (Vec m) (MoeadRV m) S Q (Answer m)) : Prop where
  adapt : ops.adapt = moeadAdapt argsort nNeighbors
  respond : ops.respond = moeadRespond argsort nNeighbors (answerCall mult ideal sh.lhs)
  newId : ops.newId = sh.ids
  dom : ops.dom = sh.dom
  nonDom : ops.nonDom = nonDominated sh.dom

/-- MOEA/D's own components: the same draws, variation (of the individuals only), repair, scalarisation and small weight; the ideal point is
the problem's. -/
structure BuiltMoeadOps (pick : Nat → Nat → Nat × Nat) (vary : Nat → Option (List X) → Nat → Nat → Except Err (List X)) (repair : X → X)
    (sf : Vec m → Vec m → Vec m → Option ℝ) (tiny : ℝ) (ideal : Nat → Vec m) (mo : MoeadOps m ℝ X (Vec m) (Vec m) C (Vec m)) : Prop where
  pick : mo.pick = pick
  mate : ∀ clk p a b, mo.mate clk p a b = vary clk p.individuals a b
  repair : mo.repair = repair
  sf : mo.sf = sf
  tiny : mo.tiny = tiny
  ideal : mo.ideal = ideal

theorem takeRows_map {α β : Type} (h : α → β) (l : List α) : ∀ ks, takeRows (l.map h) ks = (takeRows l ks).map (fun r => r.map h)
  | [] => rfl
  | k :: ks => by
    simp only [takeRows, takeRows_map h l ks, List.getElem?_map]
    cases l[k]? with
    | none => rfl
    | some a => cases takeRows l ks <;> rfl

theorem nanLt_scale {lam : ℝ} (hl : 0 < lam) (a b : Option ℝ) : nanLt (a.map (fun v => lam * v)) (b.map (fun v => lam * v)) = nanLt a b := by
  cases a with
  | none => rfl
  | some a =>
    cases b with
    | none => rfl
    | some b =>
      simp only [Option.map_some, nanLt]
      rw [decide_eq_decide]
      exact mul_lt_mul_iff_right₀ hl

theorem moeadSelect_aff {lam : ℝ} (hl : 0 < lam) (c : Vec m) {mo mo' : MoeadOps m ℝ X (Vec m) (Vec m) C (Vec m)} (hu : UnitFree mo.sf)
    (hsf : mo'.sf = mo.sf) (ht : mo'.tiny = mo.tiny) (z z' : Vec m) (hz : Rescaled lam c z z') (v : MoeadVec m ℝ) (fit : List (Vec m)) (i : Nat) :
    moeadSelect mo' z' v (fit.map (aff lam c)) i = moeadSelect mo z v fit i := by
  unfold moeadSelect
  cases v.neigh[i]? with
  | none => rfl
  | some nb =>
    dsimp only
    rw [takeRows_map, List.getLast?_map]
    cases takeRows fit nb with
    | none => rfl
    | some curs =>
      cases fit.getLast? with
      | none => rfl
      | some off =>
        cases takeRows v.planar nb with
        | none => rfl
        | some ws =>
          simp only [Option.map_some]
          rw [List.zipWith_map_left]
          congr 3
          funext cur w
          unfold beats
          rw [hsf, ht, hu lam c off _ z (aff lam c off) z' hl (fun _ => rfl) hz, hu lam c cur _ z (aff lam c cur) z' hl (fun _ => rfl) hz]
          exact nanLt_scale hl _ _

theorem imBase_moead {S S' : Type} {lam : ℝ} (hl : 0 < lam) {c : Vec m} {conv : Vec m → Vec m} (fs : S → S') {sh : Shared93 X m}
    (hd : IsRowDominance sh.dom) {mult mult' : Vec m} {ideal ideal' : Nat → Vec m}
    (hi : ∀ clk, Rescaled lam c (ideal clk) (ideal' clk)) {argsort : List ℝ → List Nat} {nn : Nat}
    {ops : Ops X (Vec m) (Vec m) C (Vec m) (MoeadRV m) S Q (Answer m)} {ops' : Ops X (Vec m) (Vec m) C (Vec m) (MoeadRV m) S' Q (Answer m)}
    (hb : BuiltMoead sh mult ideal argsort nn ops) (hb' : BuiltMoead sh mult' ideal' argsort nn ops')
    (hev : ∀ clk surr b, SameEvaluation lam c conv (ops.evaluate clk surr b) (ops'.evaluate clk surr b)) :
    ImBase (⟨conv, aff lam c, id, aff lam 0, fs⟩ : Ren (Vec m) (Vec m) (Vec m) (Vec m) C C (Vec m) (Vec m) S S') (ansPoint lam c mult mult') ops ops' where
  adapt v f := by
    rw [hb.adapt, hb'.adapt]
    unfold moeadAdapt moeadVecCall
    simp only [RV.call]
    rw [adapt_aff hl c v.rv f]
  respond clk k v p r r' h := by
    match r, r', h with
    | .point q, .point q', h =>
      rw [hb.respond, hb'.respond]
      unfold moeadRespond
      cases k with
      | refPoint =>
        simp only [answerCall, moeadVecCall]
        rw [← call_refPoint_scale hl v.rv (fun i => q i * mult i - ideal clk i)]
        have : (fun i => q' i * mult' i - ideal' clk i) = fun i => lam * (q i * mult i - ideal clk i) := by
          funext i
          rw [h i, hi clk i]
          ring
        rw [this]
      | _ => rfl
  evaluate clk b x := evaluate_im fs _ _ (hev clk b x)
  newId := by rw [hb.newId, hb'.newId]
  dom a b := by rw [hb.dom, hb'.dom]; exact dom_aff hl c sh.dom hd a b
  nonDom l := by
    rw [hb.nonDom, hb'.nonDom]
    exact ndOuter_map (aff lam c) sh.dom sh.dom (dom_aff hl c sh.dom hd) l [] []

/-- C93. MOEA/D with any scalarisation that is in the unit of the fitness (Tchebycheff, PBI): the same problem in another unit (the same for all
objectives), with other origins and with converted objectives gives the same run. -/
theorem c93_moead_same_runs {lam : ℝ} (hl : 0 < lam) (c : Vec m) (conv : Vec m → Vec m) (sh : Shared93 X m) (hd : IsRowDominance sh.dom)
    (mult mult' : Vec m) (ideal ideal' : Nat → Vec m) (hi : ∀ clk, Rescaled lam c (ideal clk) (ideal' clk))
    (argsort : List ℝ → List Nat) (nNeighbors nParents : Nat)
    (pick : Nat → Nat → Nat × Nat) (vary : Nat → Option (List X) → Nat → Nat → Except Err (List X)) (repair : X → X)
    (sf : Vec m → Vec m → Vec m → Option ℝ) (hu : UnitFree sf) (tiny : ℝ)
    (mo mo' : MoeadOps m ℝ X (Vec m) (Vec m) C (Vec m)) (hm : BuiltMoeadOps pick vary repair sf tiny ideal mo)
    (hm' : BuiltMoeadOps pick vary repair sf tiny ideal' mo')
    {S : Type} (ops ops' : Ops X (Vec m) (Vec m) C (Vec m) (MoeadRV m) S Q (Answer m))
    (hb : BuiltMoead sh mult ideal argsort nNeighbors ops) (hb' : BuiltMoead sh mult' ideal' argsort nNeighbors ops')
    (hev : ∀ clk surr b, SameEvaluation lam c conv (ops.evaluate clk surr b) (ops'.evaluate clk surr b))
    (design : Nat → Nat → Except Err (Batch X)) (sel0 : S) (prob0 : Q)
    (interact useSurr keepArchive saveND useRepair : Bool) (nIter nGen total N : Nat) (pty : ProblemType) (hty : pty ≠ .iopis) (nc : Nat)
    (ps lr : Option Nat) (s : EA X (Vec m) (Vec m) C (Vec m) (MoeadRV m) S Q)
    (hs : moeadConstruct ops design argsort nNeighbors nParents sel0 prob0 interact useSurr keepArchive saveND nIter nGen total pty nc ps lr = .ok s) :
    ∃ s', moeadConstruct ops' design argsort nNeighbors nParents sel0 prob0 interact useSurr keepArchive saveND nIter nGen total pty nc ps lr = .ok s' ∧
      ∀ cs cs', List.Forall₂ (SameCall lam c mult mult') cs cs' →
        SameRun lam c conv (s.callsWith ops (moeadBody ops mo useRepair N) cs) (s'.callsWith ops' (moeadBody ops' mo' useRepair N) cs') ∧
        ∀ p p', SameCall lam c mult mult' (.iterate p) (.iterate p') →
          ((s'.callsWith ops' (moeadBody ops' mo' useRepair N) cs').iterateWith ops' (moeadBody ops' mo' useRepair N) p').1 =
            ((s.callsWith ops (moeadBody ops mo useRepair N) cs).iterateWith ops (moeadBody ops mo useRepair N) p).1 := by
  let g : Ren (Vec m) (Vec m) (Vec m) (Vec m) C C (Vec m) (Vec m) S S := ⟨conv, aff lam c, id, aff lam 0, id⟩
  have hbase : ImBase g (ansPoint lam c mult mult') ops ops' := imBase_moead hl id hd hi hb hb' hev
  have hmo : ImMo g mo mo' := by
    refine ⟨by rw [hm.pick, hm'.pick], ?_, by rw [hm.repair, hm'.repair], ?_⟩
    · intro clk p a b; rw [hm.mate, hm'.mate]; rfl
    · intro clk v fit i
      refine moeadSelect_aff hl c (by rw [hm.sf]; exact hu) (by rw [hm.sf, hm'.sf]) (by rw [hm.tiny, hm'.tiny]) _ _ ?_ v fit i
      rw [hm.ideal, hm'.ideal]; exact hi clk
  have hbody : ∀ s, moeadBody ops' mo' useRepair N (s.im g) = ((moeadBody ops mo useRepair N s).1, (moeadBody ops mo useRepair N s).2.im g) :=
    fun s => moeadBody_im hmo hbase.dom hbase.evaluate useRepair N s
  have hcon := construct_im hbase design (fun _ => (⟨⟨[], [], [], [], 0⟩, []⟩ : MoeadRV m)) (fun _ => sel0) prob0 interact
    useSurr keepArchive saveND nIter nGen total (some (pty, m, nc)) ps lr
  unfold moeadConstruct at hs
  generalize hc1 : construct ops design (fun _ => (⟨⟨[], [], [], [], 0⟩, []⟩ : MoeadRV m)) (fun _ => sel0) prob0 interact useSurr keepArchive saveND
    nIter nGen total (some (pty, m, nc)) none ps lr = c1 at hs hcon
  cases c1 with
  | error e => cases hs
  | ok t =>
    have hloc := construct_location ops design _ _ prob0 interact useSurr keepArchive saveND nIter nGen total pty hty m nc ps lr t hc1
    dsimp only at hs
    by_cases hp : nParents ≠ 2
    · rw [if_pos hp] at hs; cases hs
    · rw [if_neg hp] at hs
      generalize hr : chooseResolution m none (some (choosePopSize m ps lr)) = cr at hs
      match cr with
      | .error e => cases hs
      | .ok none => cases hs
      | .ok (some r) =>
        dsimp only at hs
        generalize hv : RV.create m r = cv at hs
        match cv with
        | .error e => cases hs
        | .ok v =>
          have hs : _ = s := Except.ok.inj hs
          have hls : s.cfg.location ≠ some .problem := by rw [← hs]; exact hloc
          refine ⟨s.im g, ?_, fun cs cs' hcs => ?_⟩
          · unfold moeadConstruct
            rw [show (fun _ : Nat => sel0) = (fun n => g.s ((fun _ : Nat => sel0) n)) from rfl, hcon]
            simp only [Except.map, if_neg hp, hr, hv]
            rw [← hs]
            rfl
          · have hcs2 : List.Forall₂ (AnsCall (ansPoint lam c mult mult')) cs cs' := hcs.imp (fun a b hab => ansCall_iff lam c mult mult' a b hab)
            have e1 := callsWith_im hbase hbody (moeadBody_interaction ops mo useRepair N) cs cs' hcs2 s hls
            rw [e1]
            refine ⟨sameRun_im lam c conv id _, fun p p' hpp => ?_⟩
            have hl2 : (s.callsWith ops (moeadBody ops mo useRepair N) cs).cfg.location ≠ some .problem := by
              rw [callsWith_cfg ops (moeadBody_interaction ops mo useRepair N) cs s]; exact hls
            have h3 : AnsCall (ansPoint lam c mult mult') (.iterate p) (.iterate p') := ansCall_iff lam c mult mult' _ _ hpp
            rw [iterateWith_im hbody hbase _ hl2 p p' h3]

/-- Tchebycheff is such a scalarisation. -/
theorem tchebycheff_unitFree : UnitFree (m := m) (fun f w z => some (tchebycheff f w z)) := by
  intro lam c f w z f' z' hl hf hz
  simp only [Option.map_some, Option.some.injEq]
  unfold tchebycheff
  have h1 : (fun i => w i * |f' i - z' i|) = fun i => lam * (w i * |f i - z i|) := by
    funext i
    rw [hf i, hz i, show lam * f i + c i - (lam * z i + c i) = lam * (f i - z i) by ring, abs_mul, abs_of_pos hl]
    ring
  rw [h1]
  have h2 : ∀ l : List ℝ, (l.map (fun x => lam * x)).foldr max 0 = lam * l.foldr max 0 := by
    intro l
    induction l with
    | nil => simp
    | cons a l ih => simp only [List.map_cons, List.foldr_cons, ih]; rw [mul_max_of_nonneg _ _ hl.le]
  rw [← h2, List.map_ofFn]
  rfl

/-- PBI is such a scalarisation. -/
theorem pbi_unitFree (theta : ℝ) : UnitFree (m := m) (fun f w z => some (pbi theta f w z)) := by
  intro lam c f w z f' z' hl hf hz
  simp only [Option.map_some, Option.some.injEq]
  have h0 : ∀ i, f' i - z' i = lam * (f i - z i) := fun i => by rw [hf i, hz i]; ring
  unfold pbi
  have h1 : |∑ i, (f' i - z' i) * w i| / Real.sqrt (∑ i, w i ^ 2) = lam * (|∑ i, (f i - z i) * w i| / Real.sqrt (∑ i, w i ^ 2)) := by
    rw [show ∑ i, (f' i - z' i) * w i = lam * ∑ i, (f i - z i) * w i by
      rw [Finset.mul_sum]; exact Finset.sum_congr rfl (fun i _ => by rw [h0]; ring), abs_mul, abs_of_pos hl]
    ring
  dsimp only
  rw [h1]
  generalize |∑ i, (f i - z i) * w i| / Real.sqrt (∑ i, w i ^ 2) = d1
  have h2 : ∑ i, (f' i - z' i - lam * d1 * w i / Real.sqrt (∑ i, w i ^ 2)) ^ 2 =
      lam ^ 2 * ∑ i, (f i - z i - d1 * w i / Real.sqrt (∑ i, w i ^ 2)) ^ 2 := by
    rw [Finset.mul_sum]
    exact Finset.sum_congr rfl (fun i _ => by rw [h0]; ring)
  rw [h2, Real.sqrt_mul (by positivity), Real.sqrt_sq hl.le]
  ring

/-! ## IBEA -/

theorem additiveEps_aff {lam : ℝ} (hl : 0 < lam) (c a b : Vec m) : additiveEps (aff lam c a) (aff lam c b) = lam * additiveEps a b := by
  unfold additiveEps
  have h1 : (fun i => aff lam c b i - aff lam c a i) = fun i => lam * (b i - a i) := by funext i; simp only [aff]; ring
  rw [h1]
  have h2 : ∀ l : List ℝ, (l.map (fun x => lam * x)).foldr max 0 = lam * l.foldr max 0 := by
    intro l
    induction l with
    | nil => simp
    | cons a l ih => simp only [List.map_cons, List.foldr_cons, ih]; rw [mul_max_of_nonneg _ _ hl.le]
  rw [← h2, List.map_ofFn]
  rfl

theorem ibeaTerm_aff {lam : ℝ} (hl : 0 < lam) (c a b : Vec m) (kappa : ℝ) :
    ibeaTerm additiveEps (lam * kappa) (aff lam c a) (aff lam c b) = ibeaTerm additiveEps kappa a b := by
  unfold ibeaTerm
  rw [additiveEps_aff hl, neg_mul_eq_mul_neg, mul_div_mul_left _ _ hl.ne']

/-- C93. IBEA with the additive epsilon indicator: the same problem in another unit (the same for all objectives), with other origins and converted
objectives gives the same run, provided `kappa` is converted to the new unit as well. -/
theorem c93_ibea_same_runs {P : Type} {lam : ℝ} (hl : 0 < lam) (c : Vec m) (conv : Vec m → Vec m) (kappa : ℝ)
    (vary : Nat → Option (List X) → List Nat → Except Err (Batch X)) (io io' : IndOps X (Vec m) (Vec m) C (Vec m) P R)
    (ht : io.term = fun _ _ => ibeaTerm additiveEps kappa) (ht' : io'.term = fun _ _ => ibeaTerm additiveEps (lam * kappa))
    (hdraw : io'.draw = io.draw) (hm : ∀ clk p ch, io.mate clk p ch = vary clk p.individuals ch)
    (hm' : ∀ clk p ch, io'.mate clk p ch = vary clk p.individuals ch)
    (hev : ∀ clk surr b, SameEvaluation lam c conv (io.evaluate clk surr b) (io'.evaluate clk surr b))
    (hid : io'.newId = io.newId) (href : io'.toRef = io.toRef)
    (design : Nat → Nat → Except Err (Batch X)) (ref0 : P) (prob0 : Q) (interact useSurr : Bool) (nIter nGen total nc n : Nat)
    (s : EA X (Vec m) (Vec m) C (Vec m) P (List ℝ) Q)
    (hs : indConstruct io design ref0 prob0 interact useSurr nIter nGen total nc n none = .ok s) :
    ∃ s', indConstruct io' design ref0 prob0 interact useSurr nIter nGen total nc n none = .ok s' ∧
      ∀ cs, SameRun lam c conv (indCalls io n s cs) (indCalls io' n s' cs) ∧ (indCalls io' n s' cs).sel = (indCalls io n s cs).sel ∧
        ∀ pref, (indIterate io' n (indCalls io' n s' cs) pref).1 = (indIterate io n (indCalls io n s cs) pref).1 := by
  let g : Ren (Vec m) (Vec m) (Vec m) (Vec m) C C (Vec m) (Vec m) (List ℝ) (List ℝ) := ⟨conv, aff lam c, id, aff lam 0, id⟩
  have hi : ImInd g io io' := by
    refine ⟨?_, hdraw, ?_, fun clk b x => evaluate_im id _ _ (hev clk b x), hid, href, rfl⟩
    · intro r os a b
      rw [ht, ht']
      exact ibeaTerm_aff hl c a b kappa
    · intro clk p ch; rw [hm, hm']; rfl
  refine ⟨s.im g, ?_, fun cs => ?_⟩
  · rw [indConstruct_im hi, hs]; rfl
  · rw [indCalls_im hi]
    refine ⟨sameRun_im lam c conv id _, rfl, fun pref => ?_⟩
    rw [indIterate_im hi]

/-! ## What does matter -/

open _root_.Spec (Rec)

/-- One individual too many: the one with the least fitness goes. -/
theorem reduce_one {P : Type} (io : IndOps X (Vec m) (Vec m) C U P R) (s : EA X (Vec m) (Vec m) C U P (List ℝ) Q) (d n : Nat) (hn : 0 < n)
    (rs : List (X × Vec m × Vec m)) (hrs : rs.length = n + 1)
    (hp : s.pop = ⟨0, d, some (rs.map (fun r => r.1)), rs.map (fun r => r.2.1), rs.map (fun r => r.2.2), none, none⟩) (w : Nat) (v : ℝ)
    (hv : (allFitness (io.term s.vec (rs.map (fun r => r.2.1))) (rs.map (fun r => r.2.2)))[w]? = some v)
    (hw : ∀ (j : Nat) (x : ℝ), j ≠ w → (allFitness (io.term s.vec (rs.map (fun r => r.2.1))) (rs.map (fun r => r.2.2)))[j]? = some x → v < x) :
    (indReduce io n s).1 = .ok () ∧ (indReduce io n s).2.pop.individuals = some ((rs.map (fun r => r.1)).eraseIdx w) := by
  let recs : List (Rec X (Vec m) (Vec m) C U) := rs.map (fun r => ⟨r.1, r.2.1, r.2.2, none, none⟩)
  have hx : recs.map Rec.x = rs.map (fun r => r.1) := by simp [recs]
  have ho : recs.map Rec.o = rs.map (fun r => r.2.1) := by simp [recs]
  have hf : recs.map Rec.f = rs.map (fun r => r.2.2) := by simp [recs]
  have hl : recs.length = n + 1 := by simp [recs, hrs]
  have hrep : _root_.Spec.Represents s.pop recs := by
    rw [hp]
    exact ⟨Or.inl (by rw [hx]), ho.symm, hf.symm, fun _ h => absurd rfl h, fun _ => rfl, fun us h => by cases h⟩
  obtain ⟨rs', h1, h2, h3, h4, -⟩ := c45_environmental_selection io n hn s recs hrep (by rw [hp]; simp)
  refine ⟨h1, ?_⟩
  rw [hl, show n + 1 - n = 1 by omega] at h3
  cases h3 with
  | @succ _ _ _ w' hlt hw' hrest =>
    cases hrest with
    | zero =>
      rw [ho, hf] at hw'
      obtain ⟨v', g1, g2, -⟩ := hw'
      have : w' = w := by
        by_contra hne
        have a := hw w' v' hne g1
        have b := g2 w v hv
        linarith
      subst this
      rcases h2.inds with h | ⟨-, h⟩
      · rw [h, ← hx]; simp [List.eraseIdx_map]
      · rw [h, List.length_nil, hl] at h4
        omega

theorem ibeaTerm_log {kappa : ℝ} (hk : 0 < kappa) (x y x' y' : ℝ) (k : Nat) (h : max (x' - x) (max (y' - y) 0) = (k : ℝ)) :
    ibeaTerm additiveEps kappa (pt (kappa * Real.log 2 * x) (kappa * Real.log 2 * y)) (pt (kappa * Real.log 2 * x') (kappa * Real.log 2 * y')) = (1 / 2) ^ k := by
  unfold ibeaTerm
  have hu : 0 < kappa * Real.log 2 := mul_pos hk (Real.log_pos (by norm_num))
  rw [additiveEps_pt, ← mul_sub, ← mul_sub, show (0 : ℝ) = kappa * Real.log 2 * 0 by ring, ← mul_max_of_nonneg _ _ hu.le, ← mul_max_of_nonneg _ _ hu.le, h,
    show -(kappa * Real.log 2 * (k : ℝ)) / kappa = (k : ℝ) * -Real.log 2 by field_simp, Real.exp_nat_mul, Real.exp_neg, Real.exp_log (by norm_num)]
  norm_num

/-- Four individuals in two objectives. -/
noncomputable def fourRows (u : ℝ) : List (Vec 2) := [pt (u * 0) (u * 2), pt (u * 0) (u * 3), pt (u * 3) (u * 1), pt (u * 4) (u * 0)]

theorem fourRows_one {kappa : ℝ} (hk : 0 < kappa) :
    allFitness (ibeaTerm additiveEps kappa) (fourRows (kappa * Real.log 2)) = [-(11 / 16), -(19 / 16), -(5 / 4), -(7 / 8)] := by
  have t := @ibeaTerm_log kappa hk
  simp only [allFitness, fourRows, indFitness, List.mapIdx_cons, List.mapIdx_nil, List.eraseIdx_zero, List.eraseIdx_cons_succ, List.tail_cons, List.map_cons,
    List.map_nil, List.sum_cons, List.sum_nil, zero_add]
  rw [t 0 2 0 3 1 (by norm_num), t 0 2 3 1 3 (by norm_num), t 0 2 4 0 4 (by norm_num), t 0 3 0 2 0 (by norm_num), t 0 3 3 1 3 (by norm_num),
    t 0 3 4 0 4 (by norm_num), t 3 1 0 2 1 (by norm_num), t 3 1 0 3 2 (by norm_num), t 3 1 4 0 1 (by norm_num), t 4 0 0 2 2 (by norm_num),
    t 4 0 0 3 3 (by norm_num), t 4 0 3 1 1 (by norm_num)]
  norm_num

/-- The same four in half the unit (twice the numbers). -/
noncomputable def fourRows2 (u : ℝ) : List (Vec 2) := [pt (u * 0) (u * 4), pt (u * 0) (u * 6), pt (u * 6) (u * 2), pt (u * 8) (u * 0)]

theorem fourRows_rescaled (u : ℝ) : RescaledRows 2 0 (fourRows u) (fourRows2 u) := by
  have h : ∀ x y x' y' : ℝ, x' = 2 * x → y' = 2 * y → Rescaled 2 0 (pt (u * x) (u * y)) (pt (u * x') (u * y')) := by
    intro x y x' y' h1 h2 i
    subst h1; subst h2
    unfold pt
    split <;> simp only [Pi.zero_apply] <;> ring
  exact .cons (h _ _ _ _ (by norm_num) (by norm_num)) (.cons (h _ _ _ _ (by norm_num) (by norm_num)) (.cons (h _ _ _ _ (by norm_num) (by norm_num))
    (.cons (h _ _ _ _ (by norm_num) (by norm_num)) .nil)))

theorem fourRows_two {kappa : ℝ} (hk : 0 < kappa) :
    allFitness (ibeaTerm additiveEps kappa) (fourRows2 (kappa * Real.log 2)) = [-(69 / 256), -(261 / 256), -(9 / 16), -(21 / 64)] := by
  have t := @ibeaTerm_log kappa hk
  simp only [allFitness, fourRows2, indFitness, List.mapIdx_cons, List.mapIdx_nil, List.eraseIdx_zero, List.eraseIdx_cons_succ, List.tail_cons, List.map_cons,
    List.map_nil, List.sum_cons, List.sum_nil, zero_add]
  rw [t 0 4 0 6 2 (by norm_num), t 0 4 6 2 6 (by norm_num), t 0 4 8 0 8 (by norm_num), t 0 6 0 4 0 (by norm_num), t 0 6 6 2 6 (by norm_num),
    t 0 6 8 0 8 (by norm_num), t 6 2 0 4 2 (by norm_num), t 6 2 0 6 4 (by norm_num), t 6 2 8 0 2 (by norm_num), t 8 0 0 4 4 (by norm_num),
    t 8 0 0 6 6 (by norm_num), t 8 0 6 2 2 (by norm_num)]
  norm_num

/-- C93. IBEA, other units, same `kappa`: violated.  Whatever `kappa`, there are four individuals of which IBEA throws away the third when their
fitness is written down in one unit, and the second (which the first dominates) when the numbers are twice as large. -/
theorem c93_ibea_units_violated {P : Type} (kappa : ℝ) (hk : 0 < kappa) (io : IndOps X (Vec 2) (Vec 2) C U P R)
    (ht : io.term = fun _ _ => ibeaTerm additiveEps kappa) (a b c d : X) :
    ∃ rows rows' : List (Vec 2), RescaledRows 2 0 rows rows' ∧
      ∀ s s' : EA X (Vec 2) (Vec 2) C U P (List ℝ) Q,
        s.pop = ⟨0, 2, some [a, b, c, d], rows, rows, none, none⟩ → s'.pop = ⟨0, 2, some [a, b, c, d], rows', rows', none, none⟩ →
        ((indReduce io 3 s).1 = .ok () ∧ (indReduce io 3 s).2.pop.individuals = some [a, b, d]) ∧
        ((indReduce io 3 s').1 = .ok () ∧ (indReduce io 3 s').2.pop.individuals = some [a, c, d]) := by
  refine ⟨_, _, fourRows_rescaled (kappa * Real.log 2), fun s s' hs hs' => ⟨?_, ?_⟩⟩
  · have h1 := fourRows_one hk
    have := reduce_one io s 2 3 (by norm_num)
      [(a, pt (kappa * Real.log 2 * 0) (kappa * Real.log 2 * 2), pt (kappa * Real.log 2 * 0) (kappa * Real.log 2 * 2)),
        (b, pt (kappa * Real.log 2 * 0) (kappa * Real.log 2 * 3), pt (kappa * Real.log 2 * 0) (kappa * Real.log 2 * 3)),
        (c, pt (kappa * Real.log 2 * 3) (kappa * Real.log 2 * 1), pt (kappa * Real.log 2 * 3) (kappa * Real.log 2 * 1)),
        (d, pt (kappa * Real.log 2 * 4) (kappa * Real.log 2 * 0), pt (kappa * Real.log 2 * 4) (kappa * Real.log 2 * 0))] rfl (by rw [hs]; rfl) 2 (-(5 / 4))
      (by rw [ht]; exact (congrArg (fun l => l[2]?) h1).trans rfl)
      (by
        intro j x hj hx
        rw [ht] at hx
        have hx := (congrArg (fun (l : List ℝ) => l[j]?) h1).symm.trans hx
        match j, hj, hx with
        | 0, _, hx => injection hx with hx; rw [← hx]; norm_num
        | 1, _, hx => injection hx with hx; rw [← hx]; norm_num
        | 3, _, hx => injection hx with hx; rw [← hx]; norm_num)
    exact this
  · have h1 := fourRows_two hk
    have := reduce_one io s' 2 3 (by norm_num)
      [(a, pt (kappa * Real.log 2 * 0) (kappa * Real.log 2 * 4), pt (kappa * Real.log 2 * 0) (kappa * Real.log 2 * 4)),
        (b, pt (kappa * Real.log 2 * 0) (kappa * Real.log 2 * 6), pt (kappa * Real.log 2 * 0) (kappa * Real.log 2 * 6)),
        (c, pt (kappa * Real.log 2 * 6) (kappa * Real.log 2 * 2), pt (kappa * Real.log 2 * 6) (kappa * Real.log 2 * 2)),
        (d, pt (kappa * Real.log 2 * 8) (kappa * Real.log 2 * 0), pt (kappa * Real.log 2 * 8) (kappa * Real.log 2 * 0))] rfl (by rw [hs']; rfl) 1 (-(261 / 256))
      (by rw [ht]; exact (congrArg (fun l => l[1]?) h1).trans rfl)
      (by
        intro j x hj hx
        rw [ht] at hx
        have hx := (congrArg (fun (l : List ℝ) => l[j]?) h1).symm.trans hx
        match j, hj, hx with
        | 0, _, hx => injection hx with hx; rw [← hx]; norm_num
        | 2, _, hx => injection hx with hx; rw [← hx]; norm_num
        | 3, _, hx => injection hx with hx; rw [← hx]; norm_num)
    exact this

theorem achievement_add (ref row : Fin (m + 1) → ℝ) (k : ℝ) (row' : Fin (m + 1) → ℝ) (h : ∀ i, row' i = row i + k) :
    achievement ref row' = achievement ref row + k := by
  unfold achievement
  have := Finset.comp_sup'_eq_sup'_comp (s := (Finset.univ : Finset (Fin (m + 1)))) Finset.univ_nonempty (f := fun i => row i - ref i) (fun x => x + k)
    (fun x y => (max_add_add_right x y k).symm)
  rw [this]
  congr 1
  funext i
  simp only [Function.comp_apply]
  rw [h]; ring

/-- C93. PBEA, maximise instead of minimise: violated.  Two individuals whose objectives, all to be maximised, are 3 and 2: the first dominates the
second.  Whatever the reference point and the scaling parameters, PBEA throws the first one away; on the same problem with the negatives to be
minimised it throws the second one away.  (`PBEA.py:100-102` computes the least achievement value from the objectives, everything else from
the fitness.) -/
theorem c93_pbea_maximise_violated (kappa delta : ℝ) (hk : 0 < kappa) (hd : 0 < delta) (hd4 : delta < 4)
    (io : IndOps X (Vec (m + 1)) (Vec (m + 1)) C U (Vec (m + 1)) R)
    (ht : io.term = fun ref objs => pbeaTerm preferenceIndicator kappa delta (leastAchievement ref objs) ref) (a b : X)
    (s s' : EA X (Vec (m + 1)) (Vec (m + 1)) C U (Vec (m + 1)) (List ℝ) Q)
    (hs : s.pop = ⟨0, 2, some [a, b], [fun _ => 3, fun _ => 2], [fun _ => -3, fun _ => -2], none, none⟩)
    (hs' : s'.pop = ⟨0, 2, some [a, b], [fun _ => -3, fun _ => -2], [fun _ => -3, fun _ => -2], none, none⟩) :
    ((indReduce io 1 s).1 = .ok () ∧ (indReduce io 1 s).2.pop.individuals = some [b]) ∧
    ((indReduce io 1 s').1 = .ok () ∧ (indReduce io 1 s').2.pop.individuals = some [a]) := by
  have e1 : additiveEps (m := m + 1) (fun _ => -3) (fun _ => -2) = 1 := by
    have h1 : additiveEps (m := m + 1) (fun _ => -3) (fun _ => -2) ≤ 1 := by
      unfold additiveEps; rw [foldr_max_le]; simp [List.mem_ofFn]; norm_num
    have h2 : 1 ≤ additiveEps (m := m + 1) (fun _ => -3) (fun _ => -2) := by
      unfold additiveEps; rw [List.ofFn_succ, List.foldr_cons]; exact le_max_of_le_left (by norm_num)
    exact le_antisymm h1 h2
  have e2 : additiveEps (m := m + 1) (fun _ => -2) (fun _ => -3) = 0 := by
    have h1 : additiveEps (m := m + 1) (fun _ => -2) (fun _ => -3) ≤ 0 := by
      unfold additiveEps; rw [foldr_max_le]; simp [List.mem_ofFn]; norm_num
    have h2 : 0 ≤ additiveEps (m := m + 1) (fun _ => -2) (fun _ => -3) := by
      unfold additiveEps
      generalize List.ofFn _ = l
      cases l with
      | nil => exact le_refl _
      | cons y l => 
        have : ∀ l : List ℝ, 0 ≤ l.foldr max 0 := by
          intro l
          induction l with
          | nil => exact le_refl _
          | cons y l ih => exact le_max_of_le_right ih
        exact this _
    exact le_antisymm h1 h2
  have fit : ∀ (ref : Vec (m + 1)) (least : ℝ),
      allFitness (pbeaTerm preferenceIndicator kappa delta least ref) [fun _ => -3, fun _ => -2] =
        [-Real.exp (-(1 / (achievement ref (fun _ => -2) + delta - least)) / kappa), -1] := by
    intro ref least
    simp only [allFitness, indFitness, List.mapIdx_cons, List.mapIdx_nil, List.eraseIdx_zero, List.eraseIdx_cons_succ, List.tail_cons, List.map_cons,
      List.map_nil, List.sum_cons, List.sum_nil, zero_add, pbeaTerm, preferenceIndicator, e1, e2]
    simp
  constructor
  · have hl : leastAchievement s.vec [fun _ => 3, fun _ => 2] = achievement s.vec (fun _ : Fin (m + 1) => -2) + 4 := by
      have h3 := achievement_add s.vec (fun _ => -2) 5 (fun _ => 3) (fun _ => by norm_num)
      have h2 := achievement_add s.vec (fun _ => -2) 4 (fun _ => 2) (fun _ => by norm_num)
      simp only [leastAchievement, List.map_cons, List.map_nil, h3, h2, List.min?_cons, List.min?_nil, Option.elim_none, Option.elim_some, Option.getD_some]
      exact min_eq_right (by linarith)
    have hf := fit s.vec (achievement s.vec (fun _ => -2) + 4)
    have hpos : 1 < Real.exp (-(1 / (achievement s.vec (fun _ : Fin (m + 1) => -2) + delta - (achievement s.vec (fun _ => -2) + 4))) / kappa) := by
      rw [Real.one_lt_exp_iff]
      apply div_pos _ hk
      rw [neg_pos, show achievement s.vec (fun _ : Fin (m + 1) => -2) + delta - (achievement s.vec (fun _ => -2) + 4) = delta - 4 by ring]
      exact div_neg_of_pos_of_neg one_pos (by linarith)
    refine reduce_one io s 2 1 (by norm_num) [(a, fun _ => 3, fun _ => -3), (b, fun _ => 2, fun _ => -2)] rfl (by rw [hs]; rfl) 0
      (-Real.exp (-(1 / (achievement s.vec (fun _ => -2) + delta - (achievement s.vec (fun _ => -2) + 4))) / kappa)) ?_ ?_
    · rw [ht]
      simp only [List.map_cons, List.map_nil, hl, hf]
      rfl
    · intro j x hj hx
      rw [ht] at hx
      simp only [List.map_cons, List.map_nil, hl, hf] at hx
      match j, hj, hx with
      | 1, _, hx => injection hx with hx; rw [← hx]; linarith
  · have hl : leastAchievement s'.vec [fun _ => -3, fun _ => -2] = achievement s'.vec (fun _ : Fin (m + 1) => -2) - 1 := by
      have h3 := achievement_add s'.vec (fun _ => -2) (-1) (fun _ => -3) (fun _ => by norm_num)
      simp only [leastAchievement, List.map_cons, List.map_nil, h3, List.min?_cons, List.min?_nil, Option.elim_none, Option.elim_some, Option.getD_some]
      rw [min_eq_left (by linarith)]; ring
    have hf := fit s'.vec (achievement s'.vec (fun _ => -2) - 1)
    have hpos : Real.exp (-(1 / (achievement s'.vec (fun _ : Fin (m + 1) => -2) + delta - (achievement s'.vec (fun _ => -2) - 1))) / kappa) < 1 := by
      rw [Real.exp_lt_one_iff]
      apply div_neg_of_neg_of_pos _ hk
      rw [neg_lt_zero, show achievement s'.vec (fun _ : Fin (m + 1) => -2) + delta - (achievement s'.vec (fun _ => -2) - 1) = delta + 1 by ring]
      positivity
    refine reduce_one io s' 2 1 (by norm_num) [(a, fun _ => -3, fun _ => -3), (b, fun _ => -2, fun _ => -2)] rfl (by rw [hs']; rfl) 1 (-1) ?_ ?_
    · rw [ht]
      simp only [List.map_cons, List.map_nil, hl, hf]
      rfl
    · intro j x hj hx
      rw [ht] at hx
      simp only [List.map_cons, List.map_nil, hl, hf] at hx
      match j, hj, hx with
      | 0, _, hx => injection hx with hx; rw [← hx]; linarith
      | 1, hj, _ => exact absurd rfl hj
      | j + 2, _, hx => cases hx

/-! ## The hypotheses are met -/

/-- MOEA/D on `ev`, in the numbers `lam * ev + c`. -/
noncomputable def demoMoead93 (ev : Row 1 → Vec 2) (lam : ℝ) (c : Vec 2) : Ops (Row 1) (Vec 2) (Vec 2) (List ℝ) (Vec 2) (MoeadRV 2) Unit Unit (Answer 2) where
  adapt := moeadAdapt (fun l => List.range l.length) 2
  respond := moeadRespond (fun l => List.range l.length) 2 (answerCall (fun _ => 1) (fun _ => c) demoShared.lhs)
  mate _ _ := .error .valueError
  evaluate _ _ b := .ok ⟨b.rows.map (fun x => aff lam c (ev x)), b.rows.map (fun x => aff lam c (ev x)), none, none⟩
  select _ v t _ := (.ok [], v, t)
  newId := demoShared.ids
  probManage q _ _ := (.ok (), q)
  probReeval q o := (o, q)
  dom := demoShared.dom
  nonDom := nonDominated demoShared.dom

/-- Non-vacuity of `c93_moead_same_runs`: MOEA/D with PBI on a problem and on the same one in another unit and with another origin. -/
example (ev : Row 1 → Vec 2) (lam : ℝ) (c : Vec 2) :
    BuiltMoead demoShared (fun _ => 1) (fun _ => 0) (fun l => List.range l.length) 2 (demoMoead93 ev 1 0) ∧
    BuiltMoead demoShared (fun _ => 1) (fun _ => c) (fun l => List.range l.length) 2 (demoMoead93 ev lam c) ∧ IsRowDominance demoShared.dom ∧
    (∀ clk : Nat, Rescaled lam c ((fun _ : Nat => (0 : Vec 2)) clk) c) ∧
    (∀ clk surr b, SameEvaluation lam c (aff lam c) ((demoMoead93 ev 1 0).evaluate clk surr b) ((demoMoead93 ev lam c).evaluate clk surr b)) ∧
    UnitFree (m := 2) (fun f w z => some (pbi 5 f w z)) ∧
    ∃ s, moeadConstruct (demoMoead93 ev 1 0) demo93Design (fun l => List.range l.length) 2 2 () () true false false false 10 10 0 .mo 0 (some 2) none = .ok s ∧
      s.pop.individuals = some (List.replicate 2 (fun _ => some 0)) := by
  have h10 : ∀ a : Vec 2, aff 1 0 a = a := fun a => by funext i; simp [aff]
  refine ⟨⟨rfl, rfl, rfl, rfl, rfl⟩, ⟨rfl, rfl, rfl, rfl, rfl⟩, demo93_dominance, fun _ i => by simp, ?_, pbi_unitFree 5, ?_⟩
  · intro clk surr b
    refine ⟨?_, (rescaledRows_iff _ _ _ _).2 ?_, rfl, trivial⟩ <;> simp [demoMoead93, List.map_map, Function.comp_def, h10]
  · obtain ⟨v0, r, hv, hr⟩ := create_two
    unfold moeadConstruct
    have h1 : choosePopSize 2 (some 2) none = 2 := rfl
    have h2 : chooseResolution 2 none (some 2) = .ok (some 1) := by decide +kernel
    rw [h1, h2]
    simp only [hv]
    exact ⟨_, rfl, rfl⟩

/-- Non-vacuity of `c93_ibea_same_runs`: IBEA with default variation, in another unit and with `kappa` in that unit. -/
example (ev : Row 1 → Vec 2) (lam : ℝ) (c : Vec 2) (kappa : ℝ) (lo hi : Fin 1 → ℝ) (draw : Nat → MateDraw 1) :
    ∃ (io io' : IndOps (Row 1) (Vec 2) (Vec 2) (List ℝ) (Vec 2) Unit Unit) (vary : Nat → Option (List (Row 1)) → List Nat → Except Err (Batch (Row 1))),
      io.term = (fun _ _ => ibeaTerm additiveEps kappa) ∧ io'.term = (fun _ _ => ibeaTerm additiveEps (lam * kappa)) ∧ io'.draw = io.draw ∧
      io.mate = mateChosen lo hi draw ∧
      (∀ clk p ch, io.mate clk p ch = vary clk p.individuals ch) ∧ (∀ clk p ch, io'.mate clk p ch = vary clk p.individuals ch) ∧
      (∀ clk surr b, SameEvaluation lam c (aff lam c) (io.evaluate clk surr b) (io'.evaluate clk surr b)) ∧ io'.newId = io.newId ∧ io'.toRef = io.toRef ∧
      ∃ s : EA (Row 1) (Vec 2) (Vec 2) (List ℝ) (Vec 2) Unit (List ℝ) Unit, indConstruct io demo93Design () () false false 10 10 0 0 4 none = .ok s ∧
        s.pop.individuals = some (List.replicate 4 (fun _ => some 0)) := by
  refine ⟨⟨fun _ _ => ibeaTerm additiveEps kappa, fun _ _ => [0, 1], mateChosen lo hi draw,
      fun _ _ b => .ok ⟨b.rows.map ev, b.rows.map ev, none, none⟩, fun n => n, fun _ => ()⟩,
    ⟨fun _ _ => ibeaTerm additiveEps (lam * kappa), fun _ _ => [0, 1], mateChosen lo hi draw,
      fun _ _ b => .ok ⟨b.rows.map (fun x => aff lam c (ev x)), b.rows.map (fun x => aff lam c (ev x)), none, none⟩, fun n => n, fun _ => ()⟩,
    fun clk inds ch => mateChosen (O := Unit) (F := Unit) (C := Unit) (U := Unit) lo hi draw clk ⟨0, 2, inds, [], [], none, none⟩ ch,
    rfl, rfl, rfl, rfl, fun _ _ _ => rfl, fun _ _ _ => rfl, ?_, rfl, rfl, _, rfl, rfl⟩
  intro clk surr b
  refine ⟨?_, (rescaledRows_iff _ _ _ _).2 ?_, rfl, trivial⟩ <;> simp [List.map_map, Function.comp_def]

end Verif.Props
