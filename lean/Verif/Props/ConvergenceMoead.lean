import Verif.Props.Convergence

/-!
# C104 for MOEA/D: its archive of non-dominated solutions closes in on the whole Pareto front
-/

namespace Verif.Props
open Verif Verif.Spec Verif.Proofs MeasureTheory

variable {n m k : Nat} {O C U V S Q R M : Type} [LinearOrder M] [Zero M]

/-- A MOEA/D run that saves non-dominated solutions, started when everything evaluated so far was in the population, no round of which has raised. -/
structure MRecording (φ : (Fin n → ℝ) → Fin m → ℝ) (ops : Ops (Row n) O (FRow m) C U (MoeadVec k M) S Q R) (init : List (Sol (Row n) O ℝ m))
    (L0 : List (List (Row n) × Results O (FRow m) C U)) (s : EA (Row n) O (FRow m) C U (MoeadVec k M) S Q) : Prop where
  on : s.cfg.saveND = true
  arch : MArchOK ops init L0 s
  right : LogRight φ s
  base : ∀ e ∈ L0, ∀ t ∈ solsOf e, t ∈ init

variable {φ : (Fin n → ℝ) → Fin m → ℝ} {nc : Nat} {unc : Bool} {ops : Ops (Row n) O (FRow m) C U (MoeadVec k M) S Q R} {init : List (Sol (Row n) O ℝ m)}
  {L0 : List (List (Row n) × Results O (FRow m) C U)}

theorem MRecording.of_eq {s t : EA (Row n) O (FRow m) C U (MoeadVec k M) S Q} (h : MRecording φ ops init L0 s) (hc : t.cfg = s.cfg)
    (hn : t.nd = s.nd) (hl : t.log = s.log) : MRecording φ ops init L0 t :=
  ⟨by rw [hc]; exact h.on, by unfold MArchOK; rw [hn, hl]; exact h.arch, by unfold LogRight; rw [hl]; exact h.right, h.base⟩

/-- What a round that returns normally has logged. -/
theorem moeadStep_log_ok (mo : MoeadOps k M (Row n) O (FRow m) C U) (useRepair : Bool) (i : Nat)
    (s t : EA (Row n) O (FRow m) C U (MoeadVec k M) S Q) (h : moeadStep ops mo useRepair i s = (.ok (), t)) :
    ∃ clk surr off r, ops.evaluate clk surr off = .ok r ∧ t.log = s.log ++ [(off.rows, r)] := by
  unfold moeadStep at h
  split at h
  · simp at h
  · dsimp only at h
    split at h
    · simp at h
    · simp at h
    · rename_i x0 xs hm
      generalize (if useRepair then mo.repair x0 else x0) = x at h
      unfold moeadEvaluate EA.popAdd at h
      dsimp only at h
      cases hevr : ops.evaluate (s.clock + 1 + 1) s.cfg.useSurr ⟨s.pop.ndim - 1, [x]⟩ with
      | error e => rw [hevr] at h; simp [Pop.add] at h
      | ok r =>
        refine ⟨_, _, _, r, hevr, ?_⟩
        rw [hevr] at h
        generalize s.pop.add ⟨s.pop.ndim - 1, [x]⟩ (.ok r) = z at h
        obtain ⟨z1, p⟩ := z
        cases z1 with
        | error e => simp at h
        | ok res =>
          dsimp only [evLog] at h
          have key : ∀ u : EA (Row n) O (FRow m) C U (MoeadVec k M) S Q, u.log = s.log ++ [([x], r)] →
              moeadFinish ops mo i x res u = (.ok (), t) → t.log = s.log ++ [([x], r)] := by
            intro u hu hf
            have := moeadFinish_log (ops := ops) mo i x res u
            rw [hf] at this
            exact this.trans hu
          split at h
          · exact key _ rfl h
          · exact key _ rfl h

/-- A round that returns normally goes on recording. -/
theorem MRecording.step {s t : EA (Row n) O (FRow m) C U (MoeadVec k M) S Q} (h : MRecording φ ops init L0 s) (hev : EvalContract ops nc unc)
    (hφ : Computes φ ops) (mo : MoeadOps k M (Row n) O (FRow m) C U) (useRepair : Bool) (i : Nat)
    (ht : moeadStep ops mo useRepair i s = (.ok (), t)) : MRecording φ ops init L0 t ∧ s.log <+: t.log := by
  obtain ⟨clk, surr, off, r, hr, hl⟩ := moeadStep_log_ok mo useRepair i s t ht
  refine ⟨⟨?_, moeadStep_arch ops mo useRepair hev init L0 i s t h.on h.arch ht, ?_, h.base⟩, by rw [hl]; exact List.prefix_append _ _⟩
  · rw [(moeadStep_ok ops mo useRepair i s t ht).1]; exact h.on
  · intro e he
    rw [hl] at he
    rcases List.mem_append.1 he with he | he
    · exact h.right e he
    · rw [List.mem_singleton] at he
      subst he
      obtain ⟨e1, -⟩ := hev clk surr off r hr
      exact ⟨e1.objs, e1.fits, hφ clk surr off r hr⟩

/-- A system that may fail: the failed state stays failed. -/
def orFail {σ : Type} {n : Nat} (round : (Fin n → ℝ) → (Fin n → ℝ) → (Fin n → ℝ) → σ → Option σ) (a b c : Fin n → ℝ) : Option σ → Option σ
  | none => none
  | some s => round a b c s

/-- The state after a round that returned normally. -/
def stepped (r : EARes Unit (Row n) O (FRow m) C U (MoeadVec k M) S Q) : Option (EA (Row n) O (FRow m) C U (MoeadVec k M) S Q) :=
  match r with
  | (.ok (), t) => some t
  | (.error _, _) => none

theorem chance_orFail_le {σ τ : Type} (round : (Fin n → ℝ) → (Fin n → ℝ) → (Fin n → ℝ) → σ → Option σ) (plain : (Fin n → ℝ) → (Fin n → ℝ) → (Fin n → ℝ) → τ → τ)
    (f : σ → τ) (hr : ∀ a b c s t, round a b c s = some t → f t = plain a b c (f s)) (P : σ → Prop) (P' : τ → Prop) (hP : ∀ s, P s → P' (f s)) (G : Nat) :
    ∀ s, chanceOfMissing (orFail round) (fun o => ∃ s, o = some s ∧ P s) G (some s) ≤ chanceOfMissing plain P' G (f s) := by
  induction G with
  | zero => intro s; exact le_rfl
  | succ G ih =>
    intro s
    rw [chanceOfMissing_succ, chanceOfMissing_succ]
    refine average_mono _ _ fun a => average_mono _ _ fun b => average_mono _ _ fun c => ?_
    by_cases h : ∃ t, orFail round a b c (some s) = some t ∧ P t
    · rw [masked_pos h]
      obtain ⟨t, h1, h2⟩ := h
      rw [h1, ← hr a b c s t h1, masked_pos (hP t h2)]
      exact ih t
    · rw [masked_neg h]
      exact zero_le

/-- C104 (MOEA/D). The same with a round of the loop over the subproblems in place of a generation: the chance that `G` rounds go by, all returning normally
and the population staying free of NaN, after each of which some decision vector between the bounds is not approximated by the archive. -/
theorem c104_moead_archive_converges (lo hi : Fin n → ℝ) (hn : 0 < n) (hlt : ∀ i, lo i < hi i) (φ : (Fin n → ℝ) → Fin m → ℝ) (hc : Continuous φ)
    (ε : ℝ) (hε : 0 < ε) :
    ∃ (N : Nat) (p : ℝ), 0 < p ∧ p ≤ 1 ∧ Filter.Tendsto (fun G => (N : ENNReal) * ENNReal.ofReal (1 - p) ^ G) Filter.atTop (nhds 0) ∧
      ∀ (ops : Ops (Row n) O (FRow m) C U (MoeadVec k M) S Q R) (mo : MoeadOps k M (Row n) O (FRow m) C U) (useRepair : Bool) (nc : Nat) (unc : Bool)
        (init : List (Sol (Row n) O ℝ m)) (L0 : List (List (Row n) × Results O (FRow m) C U)) (draw : Nat → MateDraw n)
        (sub : EA (Row n) O (FRow m) C U (MoeadVec k M) S Q → Nat)
        (between : EA (Row n) O (FRow m) C U (MoeadVec k M) S Q → EA (Row n) O (FRow m) C U (MoeadVec k M) S Q)
        (s : EA (Row n) O (FRow m) C U (MoeadVec k M) S Q),
        ops.dom = rowDom m → EvalContract ops nc unc → (∀ clk surr b, ∃ r, ops.evaluate clk surr b = .ok r) → Computes φ ops →
        mo.repair = repairRow lo hi → (∀ clk k, 2 ≤ k → (mo.pick clk k).1 < k ∧ (mo.pick clk k).2 < k) →
        (∀ s, (between s).cfg = s.cfg ∧ (between s).nd = s.nd ∧ (between s).log = s.log) →
        (∀ s, ReadyMoead lo hi s → ReadyMoead lo hi (between s) ∧ sub s < (between s).vec.neigh.length) →
        ReadyMoead lo hi s → MRecording φ ops init L0 s → ∀ G,
          chanceOfMissing (orFail fun a b c s => stepped
              (moeadStep ops { mo with mate := mateTwo lo hi (fun clk => steer (draw clk) a b c) } useRepair (sub s) (between s)))
            (fun o => ∃ s, o = some s ∧ ReadyMoead lo hi s ∧ ¬ Approximates φ lo hi ε (archiveFront s)) G (some s) ≤ N * ENNReal.ofReal (1 - p) ^ G := by
  classical
  obtain ⟨J, l, u, hJ0, hJ1, hJ2⟩ := finitely_many_boxes lo hi hlt φ hc ε hε
  have hpos := fun j (hj : j ∈ J) => hitChance_pos lo hi (l j) (u j) hn hlt (hJ1 j hj).1 (hJ1 j hj).2.1 (hJ1 j hj).2.2
  obtain ⟨j0, hj0, hmin⟩ := J.exists_min_image (fun j => hitChance lo hi (l j) (u j)) hJ0
  refine ⟨J.card, hitChance lo hi (l j0) (u j0), (hpos j0 hj0).1, (hpos j0 hj0).2.1, ?_, ?_⟩
  · have h1 : ENNReal.ofReal (1 - hitChance lo hi (l j0) (u j0)) < 1 := by
      rw [← ENNReal.ofReal_one]
      exact (ENNReal.ofReal_lt_ofReal_iff (by norm_num)).2 (by linarith [(hpos j0 hj0).1])
    have h2 := ENNReal.Tendsto.const_mul (a := ((J.card : Nat) : ENNReal)) (ENNReal.tendsto_pow_atTop_nhds_zero_of_lt_one h1) (.inr (ENNReal.natCast_ne_top _))
    simpa using h2
  intro ops mo useRepair nc unc init L0 draw sub between s hdom hev hok hφ hrep hpick hbt hbr hs hrec G
  let round := fun (a b c : Fin n → ℝ) (s : EA (Row n) O (FRow m) C U (MoeadVec k M) S Q) =>
    moeadStep ops { mo with mate := mateTwo lo hi (fun clk => steer (draw clk) a b c) } useRepair (sub s) (between s)
  let St := { t : EA (Row n) O (FRow m) C U (MoeadVec k M) S Q // MRecording φ ops init L0 t }
  have hrd : ∀ a b c (t : St) w, stepped (round a b c t.1) = some w → MRecording φ ops init L0 w ∧ t.1.log <+: w.log := by
    intro a b c t w hw
    obtain ⟨b1, b2, b3⟩ := hbt t.1
    have hw' : round a b c t.1 = (.ok (), w) := by
      unfold stepped at hw
      split at hw
      · rename_i e; injection hw with hw; rw [e, hw]
      · cases hw
    have := (t.2.of_eq b1 b2 b3).step hev hφ _ useRepair (sub t.1) hw'
    rw [b3] at this
    exact this
  let round' : (Fin n → ℝ) → (Fin n → ℝ) → (Fin n → ℝ) → St → Option St := fun a b c t =>
    match hw : stepped (round a b c t.1) with
    | none => none
    | some w => some ⟨w, (hrd a b c t w hw).1⟩
  have r1 : ∀ a b c t, (round' a b c t).map Subtype.val = stepped (round a b c t.1) := by
    intro a b c t
    show Option.map _ (match hw : stepped (round a b c t.1) with
      | none => none
      | some w => some (⟨w, (hrd a b c t w hw).1⟩ : St)) = _
    split
    · rename_i h; rw [h]; rfl
    · rename_i w h; exact h.symm
  have lift : ∀ (P : Option (EA (Row n) O (FRow m) C U (MoeadVec k M) S Q) → Prop) (G : Nat) (t : Option St),
      chanceOfMissing (orFail fun a b c s => stepped (round a b c s)) P G (t.map Subtype.val) =
        chanceOfMissing (orFail round') (fun t => P (t.map Subtype.val)) G t := by
    intro P G
    induction G with
    | zero => intro t; rfl
    | succ G ih =>
      intro t
      rw [chanceOfMissing_succ, chanceOfMissing_succ]
      congr 1; funext a; congr 1; funext b; congr 1; funext c
      rw [← ih (orFail round' a b c t)]
      have : orFail (fun a b c s => stepped (round a b c s)) a b c (t.map Subtype.val) = (orFail round' a b c t).map Subtype.val := by
        cases t with
        | none => rfl
        | some t => exact (r1 a b c t).symm
      rw [this]
  let E : (Fin n → ℝ) → Option St → Prop := fun j o => ∀ t, o = some t → ∃ x, Evaluated t.1 x ∧ Inside (l j) (u j) x
  have hst : ∀ j a b c o, E j o → E j (orFail round' a b c o) := by
    intro j a b c o h t ht
    cases o with
    | none => cases ht
    | some o =>
      obtain ⟨x, ⟨e, he, hx⟩, hin⟩ := h o rfl
      have h1 := r1 a b c o
      have ht' : round' a b c o = some t := ht
      rw [ht'] at h1
      exact ⟨x, ⟨e, (hrd a b c o t.1 h1.symm).2.subset he, hx⟩, hin⟩
  let Rdy : Option St → Prop := fun o => ∃ t, o = some t ∧ ReadyMoead lo hi t.1
  have himp : ∀ o : Option St, (∃ s, o.map Subtype.val = some s ∧ ReadyMoead lo hi s ∧ ¬ Approximates φ lo hi ε (archiveFront s)) → Rdy o ∧ ∃ j ∈ J, ¬ E j o := by
    rintro o ⟨w, h1, h2, h3⟩
    cases o with
    | none => cases h1
    | some t =>
      simp only [Option.map_some, Option.some.injEq] at h1
      subst h1
      refine ⟨⟨t, rfl, h2⟩, ?_⟩
      by_contra hcon
      push Not at hcon
      apply h3
      intro x hx
      obtain ⟨j, hj, hjx⟩ := hJ2 x hx
      obtain ⟨z, hz, hzin⟩ := hcon j hj t rfl
      choose v hv using hzin
      have hzv : z = fun i => some (v i) := funext fun i => (hv i).1
      rw [hzv] at hz
      obtain ⟨new, n1, n2, -⟩ := t.2.arch
      obtain ⟨a, ha, hle⟩ := covered_of_arch hdom ⟨new, n1, n2⟩ t.2.right t.2.base v hz
      exact ⟨a, ha, fun k => (hle k).trans (hjx v (fun i => (hv i).2) k)⟩
  have hl0 := lift (fun o => ∃ s, o = some s ∧ ReadyMoead lo hi s ∧ ¬ Approximates φ lo hi ε (archiveFront s)) G (some ⟨s, hrec⟩)
  refine (le_of_eq hl0).trans ?_
  refine (chanceOfMissing_mono (orFail round') _ _ himp G _).trans ?_
  refine (chanceOfMissing_union (orFail round') Rdy E hst J G (some ⟨s, hrec⟩) J hJ0 (fun j hj => .inl hj)).trans ?_
  have hone : ∀ j ∈ J, chanceOfMissing (orFail round') (fun o => Rdy o ∧ ¬ E j o) G (some ⟨s, hrec⟩) ≤ ENNReal.ofReal (1 - hitChance lo hi (l j0) (u j0)) ^ G := by
    intro j hj
    have h1 := (c100_moead_every_box_is_sampled lo hi hn hlt ops mo hrep hpick useRepair hok draw sub between hbr (l j) (u j) (hJ1 j hj).1 (hJ1 j hj).2.1 (hJ1 j hj).2.2
      s hs G).1
    have h2 := chance_orFail_le round' (fun a b c s => (round a b c s).2) Subtype.val (by
      intro a b c t w hw
      have := r1 a b c t
      rw [hw] at this
      unfold stepped at this
      simp only [Option.map_some] at this
      split at this
      · rename_i e; injection this with this; rw [e, this]
      · cases this) (fun t => ReadyMoead lo hi t.1 ∧ ¬ ∃ x, Evaluated t.1 x ∧ Inside (l j) (u j) x)
      (fun t => ReadyMoead lo hi t ∧ ¬ ∃ x, Evaluated t x ∧ Inside (l j) (u j) x) (fun _ h => h) G ⟨s, hrec⟩
    have h3 : chanceOfMissing (orFail round') (fun o => Rdy o ∧ ¬ E j o) G (some ⟨s, hrec⟩) ≤ _ :=
      chanceOfMissing_mono (orFail round') _ (fun o => ∃ t, o = some t ∧ (ReadyMoead lo hi t.1 ∧ ¬ ∃ x, Evaluated t.1 x ∧ Inside (l j) (u j) x)) (by
        rintro o ⟨⟨t, ho, hr⟩, hE⟩
        refine ⟨t, ho, hr, fun hx => hE ?_⟩
        intro t' ht'
        rw [ho] at ht'
        injection ht' with ht'
        subst ht'
        exact hx) G _
    refine h3.trans (h2.trans (h1.trans ?_))
    exact pow_le_pow_left' (ENNReal.ofReal_le_ofReal (by have := hmin j hj; linarith)) G
  refine (Finset.sum_le_sum hone).trans ?_
  rw [Finset.sum_const, nsmul_eq_mul]

theorem start_vec {X F : Type} (ops : Ops X O F C U V S Q R) (s t : EA X O F C U V S Q) (o : Option Request)
    (hs : s.start ops = (.ok o, t)) : t.vec = s.vec := by
  have hq : ∀ u : EA X O F C U V S Q, (u.requestPreferences ops).2.vec = u.vec := by
    intro u
    unfold EA.requestPreferences
    repeat' split
    all_goals rfl
  have h2 := congrArg Prod.snd hs
  dsimp only at h2
  rw [← h2]
  unfold EA.start
  repeat' split
  all_goals first | rfl | exact hq _

/-- C104 (MOEA/D). Constructed from a problem with saving on and started: ready, and the archive has recorded everything. -/
theorem c104_moead_recording_at_start (lo hi : Fin n → ℝ) (hb : ∀ i, lo i < hi i) (unit : Nat → Nat → List (Fin n → ℝ))
    (hu : ∀ clk k, ∀ u ∈ unit clk k, ∀ i, 0 ≤ u i ∧ u i < 1) (hlen : ∀ c k, (unit c k).length = k)
    (ops : Ops (Row n) O (FRow m) C U (MoeadVec k M) S Q R) (hdom : ops.dom = rowDom m) (hnd : NDContract m ops.nonDom) (hev : EvalContract ops nc unc)
    (hφ : Computes φ ops) (vec0 : Nat → MoeadVec k M) (sel0 : Nat → S) (prob0 : Q) (interact useSurr keepArchive : Bool) (nIter nGen total : Nat) (ty : ProblemType)
    (mm : Nat) (popSize res : Option Nat) (hpos : 1 ≤ choosePopSize mm popSize res)
    (hneigh : ∀ nb ∈ (vec0 (choosePopSize mm popSize res)).neigh, 2 ≤ nb.length ∧ ∀ k ∈ nb, k < choosePopSize mm popSize res)
    (s t : EA (Row n) O (FRow m) C U (MoeadVec k M) S Q) (o : Option Request)
    (hs : construct ops (boxDesign lo hi unit) vec0 sel0 prob0 interact useSurr keepArchive true nIter nGen total (some (ty, mm, nc)) none popSize res = .ok s)
    (ht : s.start ops = (.ok o, t)) :
    ReadyMoead lo hi t ∧ MRecording φ ops (popSols s.pop) s.log t := by
  obtain ⟨h1, h2, -⟩ := c104_recording_at_start (φ := φ) lo hi hb unit hu hlen ops hdom hnd hev hφ vec0 sel0 prob0 interact useSurr keepArchive nIter nGen total ty mm
    popSize res hpos s t o hs ht
  have hcon : s.vec = vec0 (choosePopSize mm popSize res) ∧ ∀ inds, s.pop.individuals = some inds → inds.length = choosePopSize mm popSize res := by
    unfold construct boxDesign at hs
    dsimp only at hs
    unfold EA.popAdd at hs
    dsimp only at hs
    generalize hrows : (⟨2, (scaleDesign lo hi (unit 0 (choosePopSize mm popSize res))).map (fun r i => some (r i))⟩ : Batch (Row n)) = b at hs
    have hbl : b.rows.length = choosePopSize mm popSize res := by rw [← hrows]; simp [scaleDesign, hlen]
    cases hevr : ops.evaluate 1 useSurr b with
    | error e => rw [hevr] at hs; simp [Pop.add] at hs
    | ok r =>
      rw [hevr] at hs
      simp only [Pop.add, Pop.new] at hs
      injection hs with hs
      subst hs
      refine ⟨rfl, fun inds hi => ?_⟩
      simp only [Option.some.injEq] at hi
      rw [← hi]; exact hbl
  refine ⟨⟨h1, ?_⟩, ⟨h2.saving.on, ?_, h2.right, h2.base⟩⟩
  · intro inds hi nb hnb
    rw [start_pop ops s t o ht] at hi
    rw [start_vec ops s t o ht, hcon.1] at hnb
    rw [hcon.2 inds hi]
    exact hneigh nb hnb
  · obtain ⟨new, n1, n2⟩ := h2.saving.arch
    have : new = [] := by
      rw [start_log ops s t o ht] at n1
      simpa using n1
    subst this
    exact ⟨[], n1, n2, by simp⟩

/-- Non-vacuity: the demo problem with ten individuals and two subproblems that are neighbours of each other meets the hypotheses of both theorems (`sub` is
always the first subproblem here). -/
example : ∃ (φ : (Fin 2 → ℝ) → Fin 2 → ℝ) (ops : Ops (Row 2) Unit (FRow 2) Unit Unit (MoeadVec 2 Int) Unit Unit Unit) (init : List (Sol (Row 2) Unit ℝ 2))
    (L0 : List (List (Row 2) × Results Unit (FRow 2) Unit Unit)) (t : EA (Row 2) Unit (FRow 2) Unit Unit (MoeadVec 2 Int) Unit Unit), Continuous φ ∧
    ops.dom = rowDom 2 ∧ EvalContract ops 0 false ∧ (∀ clk surr b, ∃ r, ops.evaluate clk surr b = .ok r) ∧ Computes φ ops ∧
    ReadyMoead (fun _ => 0) (fun _ => 1) t ∧ MRecording φ ops init L0 t ∧ 0 < t.vec.neigh.length := by
  let vec0 : Nat → MoeadVec 2 Int := fun _ => ⟨[fun _ => 0, fun _ => 1], [[0, 1], [1, 0]]⟩
  obtain ⟨φ, ops, s, t, h1, h2, h3, h4, h5, h6, h7, h8⟩ := demo104_meets vec0
  obtain ⟨r1, r2⟩ := c104_moead_recording_at_start (φ := φ) (fun _ => 0) (fun _ => 1) (fun _ => by norm_num) (fun _ k => List.replicate k (fun _ => 1 / 2))
    (fun clk k u hu i => by rw [List.eq_of_mem_replicate hu]; norm_num) (fun c k => by simp) ops h2 h3 h4 h6 vec0 (fun _ => ()) () false false false 10 100 0 .mo 2
    (some 10) none (by decide) (fun nb hnb => by
      have hnb : nb ∈ [[0, 1], [1, 0]] := hnb
      have h10 : choosePopSize 2 (some 10) none = 10 := rfl
      simp only [List.mem_cons, List.not_mem_nil, or_false] at hnb
      rw [h10]
      rcases hnb with rfl | rfl <;> refine ⟨by decide, by decide⟩) s t none h7 h8
  refine ⟨φ, ops, _, _, t, h1, h2, h4, h5, h6, r1, r2, ?_⟩
  have hv : s.vec = vec0 10 := by
    have h := h7
    unfold construct boxDesign EA.popAdd at h
    obtain ⟨r, hr⟩ := h5 1 false ⟨2, (scaleDesign (fun _ => 0) (fun _ => 1) (List.replicate (choosePopSize 2 (some 10) none) (fun _ => 1 / 2))).map (fun r i => some (r i))⟩
    dsimp only at h
    rw [hr] at h
    simp only [Pop.add, Pop.new] at h
    injection h with h
    rw [← h]
  rw [start_vec ops s t none h8, hv]
  decide

end Verif.Props
