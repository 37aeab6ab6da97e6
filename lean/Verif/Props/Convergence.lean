import Verif.Proofs.Convergence
import Verif.Spec.Convergence
import Verif.Props.Search
import Verif.Props.ArchiveRun
import Mathlib.Topology.MetricSpace.ProperSpace
import Mathlib.Topology.Order.Compact

/-!
# C104: the archive of non-dominated solutions closes in on the whole Pareto front
-/

namespace Verif.Props
open Verif Verif.Spec Verif.Proofs MeasureTheory
open scoped BigOperators

variable {n m : Nat} {O C U V S Q R : Type}

/-- Fitness rows of `m` numbers. -/
abbrev FRow (m : Nat) : Type := { l : List ℝ // l.length = m }

/-- The fitness of the solutions in the archive attribute of the EA. -/
def archiveFront {X : Type} (s : EA X O (FRow m) C U V S Q) : List (Fin m → ℝ) :=
  match s.nd with
  | none => []
  | some a => a.fitness.map fun l i => l.1[i]'(by rw [l.2]; exact i.2)

/-- Evaluation computes the fitness `φ y` of every vector of numbers `y`. -/
def Computes (φ : (Fin n → ℝ) → Fin m → ℝ) (ops : Ops (Row n) O (FRow m) C U V S Q R) : Prop :=
  ∀ clk surr b r, ops.evaluate clk surr b = .ok r → ∀ (j : Nat) (y : Fin n → ℝ) (f : FRow m),
    b.rows[j]? = some (fun i => some (y i)) → r.fitness[j]? = some f → ∀ i : Fin m, f.1[(i : Nat)]? = some (φ y i)

/-- What is logged was evaluated. -/
theorem nextGen_log_cases {X F : Type} (ops : Ops X O F C U V S Q R) (s : EA X O F C U V S Q) :
    (EA.nextGen ops s).2.log = s.log ∨
      ∃ clk surr off r, ops.evaluate clk surr off = .ok r ∧ (EA.nextGen ops s).2.log = s.log ++ [(off.rows, r)] := by
  rw [nextGen_eq]
  dsimp only
  cases ops.mate s.clock s.pop with
  | error e => exact .inl rfl
  | ok off =>
    dsimp only
    have hpa : (({ s with clock := s.clock + 1 } : EA X O F C U V S Q).popAdd ops off).2.log = s.log ∨
        ∃ clk surr off' r, ops.evaluate clk surr off' = .ok r ∧
          (({ s with clock := s.clock + 1 } : EA X O F C U V S Q).popAdd ops off).2.log = s.log ++ [(off'.rows, r)] := by
      unfold EA.popAdd
      dsimp only
      cases hev : ops.evaluate (s.clock + 1) s.cfg.useSurr off with
      | error e => left; simp [evLog]
      | ok r => right; exact ⟨_, _, off, r, hev, rfl⟩
    generalize ({ s with clock := s.clock + 1 } : EA X O F C U V S Q).popAdd ops off = z at hpa
    obtain ⟨z, t⟩ := z
    dsimp only at hpa
    cases z with
    | error e => exact hpa
    | ok res =>
      dsimp only
      have hu := updateND_log ops t off.rows res
      generalize t.updateND ops off.rows res = y at hu
      obtain ⟨y, w⟩ := y
      dsimp only at hu
      rw [← hu] at hpa
      cases y with
      | error e => exact hpa
      | ok _ =>
        dsimp only
        generalize ops.select w.clock w.vec w.sel w.pop = q
        obtain ⟨q, v', t'⟩ := q
        cases q with
        | error e => exact hpa
        | ok idx =>
          dsimp only
          generalize w.pop.keep idx = c
          obtain ⟨c, pp⟩ := c
          cases c with
          | error e => exact hpa
          | ok _ =>
            dsimp only
            cases w.cfg.useSurr <;> exact hpa

/-- Everything logged carries the fitness of the problem. -/
def LogRight (φ : (Fin n → ℝ) → Fin m → ℝ) (s : EA (Row n) O (FRow m) C U V S Q) : Prop :=
  ∀ e ∈ s.log, e.2.objectives.length = e.1.length ∧ e.2.fitness.length = e.1.length ∧ ∀ (j : Nat) (y : Fin n → ℝ) (f : FRow m),
    e.1[j]? = some (fun i => some (y i)) → e.2.fitness[j]? = some f → ∀ i : Fin m, f.1[(i : Nat)]? = some (φ y i)

/-- A run that saves non-dominated solutions, started when everything evaluated so far was in the population. -/
structure Recording (φ : (Fin n → ℝ) → Fin m → ℝ) (nc : Nat) (unc : Bool) (ops : Ops (Row n) O (FRow m) C U V S Q R) (init : List (Sol (Row n) O ℝ m))
    (L0 : List (List (Row n) × Results O (FRow m) C U)) (s : EA (Row n) O (FRow m) C U V S Q) : Prop where
  saving : Saving 2 nc unc ops init L0 s
  right : LogRight φ s
  base : ∀ e ∈ L0, ∀ t ∈ solsOf e, t ∈ init

variable {φ : (Fin n → ℝ) → Fin m → ℝ} {nc : Nat} {unc : Bool} {ops : Ops (Row n) O (FRow m) C U V S Q R} {init : List (Sol (Row n) O ℝ m)}
  {L0 : List (List (Row n) × Results O (FRow m) C U)}

theorem Recording.of_eq {s t : EA (Row n) O (FRow m) C U V S Q} (h : Recording φ nc unc ops init L0 s) (hp : t.pop = s.pop) (hc : t.cfg = s.cfg)
    (hn : t.nd = s.nd) (hl : t.log = s.log) : Recording φ nc unc ops init L0 t :=
  ⟨h.saving.of_eq hp hc hn hl, by unfold LogRight; rw [hl]; exact h.right, h.base⟩

/-- An evaluated vector of numbers is in the archive or dominated by a member: some member is nowhere worse. -/
theorem covered_of_arch (hdom : ops.dom = rowDom m) {s : EA (Row n) O (FRow m) C U V S Q} (harch : ArchOK ops init L0 s) (hright : LogRight φ s)
    (hbase : ∀ e ∈ L0, ∀ t ∈ solsOf e, t ∈ init) (y : Fin n → ℝ)
    (hy : Evaluated s (fun i => some (y i))) : ∃ a ∈ archiveFront s, ∀ i, a i ≤ φ y i := by
  obtain ⟨new, h1, ⟨T, h2, -, h3, -⟩⟩ := good_of_archOK hdom harch
  obtain ⟨e, he, hye⟩ := hy
  obtain ⟨l1, l2, l3⟩ := hright e he
  obtain ⟨j, hj⟩ := List.mem_iff_getElem?.1 hye
  have hjl : j < e.1.length := by
    by_contra hc
    rw [List.getElem?_eq_none (by omega)] at hj
    exact absurd hj (by simp)
  have ho := List.getElem?_eq_getElem (l := e.2.objectives) (i := j) (by omega)
  have hf := List.getElem?_eq_getElem (l := e.2.fitness) (i := j) (by omega)
  generalize e.2.objectives[j] = o at ho
  generalize e.2.fitness[j] = f at hf
  have hφ := l3 j y f hj hf
  have hsol : ((fun i => some (y i) : Row n), o, f) ∈ solsOf e := by
    unfold solsOf
    apply List.mem_of_getElem? (i := j)
    rw [List.getElem?_zip_eq_some]
    refine ⟨hj, ?_⟩
    rw [List.getElem?_zip_eq_some]
    exact ⟨ho, hf⟩
  have hin : ((fun i => some (y i) : Row n), o, f) ∈ init ++ (new.map solsOf).flatten := by
    rw [h1] at he
    rcases List.mem_append.1 he with he | he
    · exact List.mem_append.2 (.inl (hbase e he _ hsol))
    · refine List.mem_append.2 (.inr ?_)
      rw [List.mem_flatten]
      exact ⟨_, List.mem_map.2 ⟨e, he, rfl⟩, hsol⟩
  have hfront : ∀ t ∈ T, (fun i : Fin m => t.2.2.1[i]'(by rw [t.2.2.2]; exact i.2)) ∈ archiveFront s := by
    intro t ht
    unfold archiveFront
    rw [h2]
    simp only [columns, List.map_map, List.mem_map]
    exact ⟨t, ht, rfl⟩
  rcases h3 _ hin with hT | ⟨t, ht, hd⟩
  · refine ⟨_, hfront _ hT, ?_⟩
    intro i
    have := hφ i
    rw [List.getElem?_eq_getElem (by rw [f.2]; exact i.2)] at this
    injection this with this
    exact this.le
  · refine ⟨_, hfront _ ht, ?_⟩
    intro i
    exact hd.2.1 i _ _ (List.getElem?_eq_getElem (by rw [t.2.2.2]; exact i.2)) (hφ i)

theorem Recording.covered (hdom : ops.dom = rowDom m) {s : EA (Row n) O (FRow m) C U V S Q} (h : Recording φ nc unc ops init L0 s) (y : Fin n → ℝ)
    (hy : Evaluated s (fun i => some (y i))) : ∃ a ∈ archiveFront s, ∀ i, a i ≤ φ y i :=
  covered_of_arch hdom h.saving.arch h.right h.base y hy

theorem mateAll_ndim (lo hi : Fin n → ℝ) (draw : Nat → MateDraw n) {F : Type} (clk : Nat) (p : Pop (Row n) O F C U) (off : Batch (Row n))
    (h : mateAll lo hi draw clk p = .ok off) : off.ndim = 2 := by
  unfold mateAll at h
  split at h
  · exact absurd h (by simp)
  · split at h
    · exact absurd h (by simp)
    · injection h with h; rw [← h]

/-- A generation goes on recording. -/
theorem Recording.nextGen {s : EA (Row n) O (FRow m) C U V S Q} (h : Recording φ nc unc ops init L0 s) (hev : EvalContract ops nc unc)
    (hφ : Computes φ ops) (lo hi : Fin n → ℝ) (draw : Nat → MateDraw n) :
    Recording φ nc unc ops init L0 (EA.nextGen { ops with mate := mateAll lo hi draw } s).2 ∧
      s.log <+: (EA.nextGen { ops with mate := mateAll lo hi draw } s).2.log := by
  obtain ⟨a, b⟩ := nextGen_arch ({ ops with mate := mateAll lo hi draw } : Ops (Row n) O (FRow m) C U V S Q R)
    (fun clk p off => mateAll_ndim lo hi draw clk p off) hev init L0 s h.saving.sound h.saving.on h.saving.arch
  have c := (nextGen_interaction ({ ops with mate := mateAll lo hi draw } : Ops (Row n) O (FRow m) C U V S Q R) s).cfg
  have l := nextGen_log_cases ({ ops with mate := mateAll lo hi draw } : Ops (Row n) O (FRow m) C U V S Q R) s
  refine ⟨⟨⟨a, by rw [c]; exact h.saving.on, b⟩, ?_, h.base⟩, ?_⟩
  · rcases l with l | ⟨clk, surr, off, r, hr, l⟩
    · unfold LogRight; rw [l]; exact h.right
    · intro e he
      rw [l] at he
      rcases List.mem_append.1 he with he | he
      · exact h.right e he
      · rw [List.mem_singleton] at he
        subst he
        obtain ⟨e1, -⟩ := hev clk surr off r hr
        exact ⟨e1.objs, e1.fits, hφ clk surr off r hr⟩
  · rcases l with l | ⟨clk, surr, off, r, hr, l⟩
    · rw [l]
    · rw [l]; exact List.prefix_append _ _

/-- Finitely many boxes such that hitting all of them is enough. -/
theorem finitely_many_boxes (lo hi : Fin n → ℝ) (hlt : ∀ i, lo i < hi i) (φ : (Fin n → ℝ) → Fin m → ℝ) (hφ : Continuous φ) (ε : ℝ) (hε : 0 < ε) :
    ∃ (J : Finset (Fin n → ℝ)) (l u : (Fin n → ℝ) → Fin n → ℝ), J.Nonempty ∧
      (∀ j ∈ J, (∀ i, lo i ≤ l j i) ∧ (∀ i, l j i < u j i) ∧ ∀ i, u j i ≤ hi i) ∧
      ∀ x : Fin n → ℝ, (∀ i, lo i ≤ x i ∧ x i ≤ hi i) → ∃ j ∈ J, ∀ y : Fin n → ℝ, (∀ i, l j i ≤ y i ∧ y i ≤ u j i) → ∀ k, φ y k ≤ φ x k + ε := by
  classical
  let W : (Fin n → ℝ) → Set (Fin n → ℝ) := fun x => {y | ∀ k, |φ y k - φ x k| < ε / 2}
  have hWo : ∀ x, IsOpen (W x) := by
    intro x
    have : W x = ⋂ k, {y | |φ y k - φ x k| < ε / 2} := by
      ext y; simp [W]
    rw [this]
    refine isOpen_iInter_of_finite fun k => ?_
    have hc : Continuous fun y => φ y k := (continuous_apply k).comp hφ
    exact isOpen_lt ((hc.sub continuous_const).abs) continuous_const
  have hWx : ∀ x, x ∈ W x := by
    intro x k
    simp only [sub_self, abs_zero]
    linarith
  have hK : IsCompact (Set.Icc lo hi) := isCompact_Icc
  obtain ⟨J0, hJ1, hJ2⟩ := hK.elim_nhds_subcover' (fun x _ => W x) (fun x _ => (hWo x).mem_nhds (hWx x)) |> fun ⟨t, ht⟩ =>
    (⟨t.image Subtype.val, by
        intro x hx
        obtain ⟨z, -, rfl⟩ := Finset.mem_image.1 hx
        exact z.2, by
        intro x hx
        have := ht hx
        simp only [Set.mem_iUnion] at this ⊢
        obtain ⟨z, hz, hzx⟩ := this
        exact ⟨z.1, Finset.mem_image.2 ⟨z, hz, rfl⟩, hzx⟩⟩ :
      ∃ J0 : Finset (Fin n → ℝ), (∀ x ∈ J0, x ∈ Set.Icc lo hi) ∧ Set.Icc lo hi ⊆ ⋃ x ∈ J0, W x)
  have hbox : ∀ x, x ∈ Set.Icc lo hi → ∃ l u : Fin n → ℝ, (∀ i, lo i ≤ l i) ∧ (∀ i, l i < u i) ∧ (∀ i, u i ≤ hi i) ∧
      ∀ y : Fin n → ℝ, (∀ i, l i ≤ y i ∧ y i ≤ u i) → y ∈ W x :=
    fun x hx => exists_box lo hi hlt (W x) (hWo x) x (hWx x) (fun i => ⟨hx.1 i, hx.2 i⟩)
  choose! l u h1 h2 h3 h4 using hbox
  refine ⟨J0, l, u, ?_, fun j hj => ⟨h1 j (hJ1 j hj), h2 j (hJ1 j hj), h3 j (hJ1 j hj)⟩, ?_⟩
  · have := hJ2 (⟨le_rfl, fun i => (hlt i).le⟩ : lo ∈ Set.Icc lo hi)
    simp only [Set.mem_iUnion] at this
    obtain ⟨z, hz, -⟩ := this
    exact ⟨z, hz⟩
  · intro x hx
    have := hJ2 (⟨fun i => (hx i).1, fun i => (hx i).2⟩ : x ∈ Set.Icc lo hi)
    simp only [Set.mem_iUnion] at this
    obtain ⟨j, hj, hxj⟩ := this
    refine ⟨j, hj, ?_⟩
    intro y hy k
    have g1 := h4 j (hJ1 j hj) y hy k
    have g2 := hxj k
    rw [abs_lt] at g1 g2
    linarith [g1.2, g2.1]

/-- C104. The bound: `N` and `p` depend on the objectives, the bounds and the margin only. -/
theorem c104_archive_converges (lo hi : Fin n → ℝ) (hn : 0 < n) (hlt : ∀ i, lo i < hi i) (φ : (Fin n → ℝ) → Fin m → ℝ) (hc : Continuous φ)
    (ε : ℝ) (hε : 0 < ε) :
    ∃ (N : Nat) (p : ℝ), 0 < p ∧ p ≤ 1 ∧
      ∀ (ops : Ops (Row n) O (FRow m) C U V S Q R) (nc : Nat) (unc : Bool) (init : List (Sol (Row n) O ℝ m))
        (L0 : List (List (Row n) × Results O (FRow m) C U)) (draw : Nat → MateDraw n)
        (between : EA (Row n) O (FRow m) C U V S Q → EA (Row n) O (FRow m) C U V S Q) (s : EA (Row n) O (FRow m) C U V S Q),
        ops.dom = rowDom m → EvalContract ops nc unc → (∀ clk surr b, ∃ r, ops.evaluate clk surr b = .ok r) → Computes φ ops →
        (∀ clk l, ((draw clk).shuffle l).Perm l) →
        (∀ s, (between s).pop = s.pop ∧ (between s).cfg = s.cfg ∧ (between s).nd = s.nd ∧ (between s).log = s.log) →
        Ready lo hi s → Recording φ nc unc ops init L0 s → ∀ G,
          chanceOfMissing (fun a b c s => (EA.nextGen { ops with mate := mateAll lo hi (fun clk => steer (draw clk) a b c) } (between s)).2)
            (fun s => Ready lo hi s ∧ ¬ Approximates φ lo hi ε (archiveFront s)) G s ≤ N * ENNReal.ofReal (1 - p) ^ G := by
  classical
  obtain ⟨J, l, u, hJ0, hJ1, hJ2⟩ := finitely_many_boxes lo hi hlt φ hc ε hε
  have hpos := fun j (hj : j ∈ J) => hitChance_pos lo hi (l j) (u j) hn hlt (hJ1 j hj).1 (hJ1 j hj).2.1 (hJ1 j hj).2.2
  obtain ⟨j0, hj0, hmin⟩ := J.exists_min_image (fun j => hitChance lo hi (l j) (u j)) hJ0
  refine ⟨J.card, hitChance lo hi (l j0) (u j0), (hpos j0 hj0).1, (hpos j0 hj0).2.1, ?_⟩
  intro ops nc unc init L0 draw between s hdom hev hok hφ hsh hbt hs hrec G
  let round := fun (a b c : Fin n → ℝ) (s : EA (Row n) O (FRow m) C U V S Q) =>
    (EA.nextGen { ops with mate := mateAll lo hi (fun clk => steer (draw clk) a b c) } (between s)).2
  -- carry the invariant along by restricting the system to the states that have it
  let St := { t : EA (Row n) O (FRow m) C U V S Q // Recording φ nc unc ops init L0 t }
  have hrd : ∀ a b c (t : St), Recording φ nc unc ops init L0 (round a b c t.1) ∧ t.1.log <+: (round a b c t.1).log := by
    intro a b c t
    obtain ⟨b1, b2, b3, b4⟩ := hbt t.1
    have := (t.2.of_eq b1 b2 b3 b4).nextGen hev hφ lo hi (fun clk => steer (draw clk) a b c)
    rw [b4] at this
    exact this
  let round' : (Fin n → ℝ) → (Fin n → ℝ) → (Fin n → ℝ) → St → St := fun a b c t => ⟨round a b c t.1, (hrd a b c t).1⟩
  have lift : ∀ (P : EA (Row n) O (FRow m) C U V S Q → Prop) (G : Nat) (t : St),
      chanceOfMissing round P G t.1 = chanceOfMissing round' (fun t => P t.1) G t := by
    intro P G
    induction G with
    | zero => intro t; rfl
    | succ G ih =>
      intro t
      rw [chanceOfMissing_succ, chanceOfMissing_succ]
      congr 1; funext a; congr 1; funext b; congr 1; funext c
      rw [← ih (round' a b c t)]
  let E : (Fin n → ℝ) → St → Prop := fun j t => ∃ x, Evaluated t.1 x ∧ Inside (l j) (u j) x
  have hst : ∀ j a b c t, E j t → E j (round' a b c t) := by
    rintro j a b c t ⟨x, ⟨e, he, hx⟩, hin⟩
    exact ⟨x, ⟨e, (hrd a b c t).2.subset he, hx⟩, hin⟩
  have himp : ∀ t : St, Ready lo hi t.1 ∧ ¬ Approximates φ lo hi ε (archiveFront t.1) → Ready lo hi t.1 ∧ ∃ j ∈ J, ¬ E j t := by
    rintro t ⟨h1, h2⟩
    refine ⟨h1, ?_⟩
    by_contra hcon
    push Not at hcon
    apply h2
    intro x hx
    obtain ⟨j, hj, hjx⟩ := hJ2 x hx
    obtain ⟨z, hz, hzin⟩ := hcon j hj
    choose v hv using hzin
    have hzv : z = fun i => some (v i) := funext fun i => (hv i).1
    rw [hzv] at hz
    obtain ⟨a, ha, hle⟩ := t.2.covered hdom v hz
    exact ⟨a, ha, fun k => (hle k).trans (hjx v (fun i => (hv i).2) k)⟩
  show chanceOfMissing round _ G s ≤ _
  rw [lift _ G ⟨s, hrec⟩]
  refine (chanceOfMissing_mono round' _ _ himp G ⟨s, hrec⟩).trans ?_
  refine (chanceOfMissing_union round' (fun t => Ready lo hi t.1) E hst J G ⟨s, hrec⟩ J hJ0 (fun j hj => .inl hj)).trans ?_
  have hone : ∀ j ∈ J, chanceOfMissing round' (fun t => Ready lo hi t.1 ∧ ¬ E j t) G ⟨s, hrec⟩ ≤ ENNReal.ofReal (1 - hitChance lo hi (l j0) (u j0)) ^ G := by
    intro j hj
    have h1 := (c100_every_box_is_sampled lo hi hn hlt ops hok draw hsh between (fun t ht => by
      obtain ⟨inds, a1, a2⟩ := ht
      exact ⟨inds, by rw [(hbt t).1]; exact a1, a2⟩) (l j) (u j) (hJ1 j hj).1 (hJ1 j hj).2.1 (hJ1 j hj).2.2 s hs G).1
    have h2 := lift (Missing lo hi (l j) (u j)) G ⟨s, hrec⟩
    refine (h2 ▸ h1 : chanceOfMissing round' (fun t => Missing lo hi (l j) (u j) t.1) G ⟨s, hrec⟩ ≤ _).trans ?_
    exact pow_le_pow_left' (ENNReal.ofReal_le_ofReal (by have := hmin j hj; linarith)) G
  refine (Finset.sum_le_sum hone).trans ?_
  rw [Finset.sum_const, nsmul_eq_mul]

/-! ### From construction on -/

/-- Every solution carries the fitness of the problem. -/
def SolsRight (φ : (Fin n → ℝ) → Fin m → ℝ) (E : List (Sol (Row n) O ℝ m)) : Prop :=
  ∀ t ∈ E, ∀ y : Fin n → ℝ, t.1 = (fun i => some (y i)) → ∀ i : Fin m, t.2.2.1[(i : Nat)]? = some (φ y i)

theorem solsOf_right {e : List (Row n) × Results O (FRow m) C U}
    (h : ∀ (j : Nat) (y : Fin n → ℝ) (f : FRow m), e.1[j]? = some (fun i => some (y i)) → e.2.fitness[j]? = some f → ∀ i : Fin m, f.1[(i : Nat)]? = some (φ y i)) :
    SolsRight φ (solsOf e) := by
  intro t ht y hy
  obtain ⟨j, hj⟩ := List.mem_iff_getElem?.1 ht
  unfold solsOf at hj
  obtain ⟨h1, h2⟩ := List.getElem?_zip_eq_some.1 hj
  obtain ⟨-, h3⟩ := List.getElem?_zip_eq_some.1 h2
  exact h j y t.2.2 (by rw [h1, hy]) h3

/-- C104. The archive holds no fitness that is not attained: every archived vector of numbers carries the fitness of the problem. -/
theorem c104_archive_attained (hdom : ops.dom = rowDom m) {s : EA (Row n) O (FRow m) C U V S Q} (h : Recording φ nc unc ops init L0 s)
    (hi : SolsRight φ init) (ar : NDArchive (Row n) O (FRow m)) (har : s.nd = some ar) (j : Nat) (y : Fin n → ℝ) (f : FRow m)
    (hj : ar.individuals[j]? = some (fun i => some (y i))) (hf : ar.fitness[j]? = some f) (i : Fin m) : f.1[(i : Nat)]? = some (φ y i) := by
  obtain ⟨new, h1, ⟨T, h2, h3, -, -⟩⟩ := good_of_archOK hdom h.saving.arch
  rw [h2] at har
  injection har with har
  subst har
  simp only [columns, List.getElem?_map, Option.map_eq_some_iff] at hj hf
  obtain ⟨t, ht, e1⟩ := hj
  obtain ⟨t', ht', e2⟩ := hf
  rw [ht] at ht'
  injection ht' with ht'
  subst ht'
  subst e2
  have hmem := h3.subset (List.mem_of_getElem? ht)
  rcases List.mem_append.1 hmem with hm | hm
  · exact hi t hm y e1 i
  · obtain ⟨L, hL, hm⟩ := List.mem_flatten.1 hm
    obtain ⟨e, he, rfl⟩ := List.mem_map.1 hL
    obtain ⟨-, -, h4⟩ := h.right e (by rw [h1]; exact List.mem_append.2 (.inr he))
    exact solsOf_right h4 t hm y e1 i

theorem start_pop (ops : Ops (Row n) O (FRow m) C U V S Q R) (s t : EA (Row n) O (FRow m) C U V S Q) (o : Option Request)
    (hs : s.start ops = (.ok o, t)) : t.pop = s.pop := by
  have hq : ∀ u : EA (Row n) O (FRow m) C U V S Q, (u.requestPreferences ops).2.pop = u.pop := by
    intro u
    unfold EA.requestPreferences
    repeat' split
    all_goals rfl
  have h2 := congrArg Prod.snd hs
  dsimp only at h2
  rw [← h2]
  unfold EA.start
  repeat' split
  all_goals first | rfl | exact hq _

/-- C104. An EA constructed from a problem, with saving of the non-dominated solutions on, and started: it has individuals between the bounds, its archive
has recorded everything, with the fitness of the problem. -/
theorem c104_recording_at_start (lo hi : Fin n → ℝ) (hb : ∀ i, lo i < hi i) (unit : Nat → Nat → List (Fin n → ℝ))
    (hu : ∀ clk k, ∀ u ∈ unit clk k, ∀ i, 0 ≤ u i ∧ u i < 1) (hlen : ∀ c k, (unit c k).length = k)
    (ops : Ops (Row n) O (FRow m) C U V S Q R) (hdom : ops.dom = rowDom m) (hnd : NDContract m ops.nonDom) (hev : EvalContract ops nc unc)
    (hφ : Computes φ ops) (vec0 : Nat → V) (sel0 : Nat → S) (prob0 : Q) (interact useSurr keepArchive : Bool) (nIter nGen total : Nat) (ty : ProblemType)
    (mm : Nat) (popSize res : Option Nat) (hpos : 1 ≤ choosePopSize mm popSize res) (s t : EA (Row n) O (FRow m) C U V S Q) (o : Option Request)
    (hs : construct ops (boxDesign lo hi unit) vec0 sel0 prob0 interact useSurr keepArchive true nIter nGen total (some (ty, mm, nc)) none popSize res = .ok s)
    (ht : s.start ops = (.ok o, t)) :
    Ready lo hi t ∧ Recording φ nc unc ops (popSols s.pop) s.log t ∧ SolsRight φ (popSols s.pop) := by
  have hready := c100_ready_at_start lo hi hb unit hu hlen ops vec0 sel0 prob0 interact useSurr keepArchive true nIter nGen total (ty, mm, nc) popSize res hpos s hs
  obtain ⟨hsound, hsave⟩ := construct_sound (d := 2) ops hev (boxDesign lo hi unit) vec0 sel0 prob0 interact useSurr keepArchive true nIter nGen total ty mm popSize res s hs
    (fun b hbd => by unfold boxDesign at hbd; injection hbd with hbd; rw [← hbd])
  have hsv := start_saving (ops := ops) (by rw [hdom]; exact hnd) hsound hsave ht
  have hlog := start_log ops s t o ht
  have hpop := start_pop ops s t o ht
  -- what construction evaluated
  have key : ∃ e : List (Row n) × Results O (FRow m) C U, s.log = [e] ∧ popSols s.pop = solsOf e ∧ e.2.objectives.length = e.1.length ∧
      e.2.fitness.length = e.1.length ∧ ∀ (j : Nat) (y : Fin n → ℝ) (f : FRow m), e.1[j]? = some (fun i => some (y i)) → e.2.fitness[j]? = some f →
        ∀ i : Fin m, f.1[(i : Nat)]? = some (φ y i) := by
    unfold construct boxDesign at hs
    dsimp only at hs
    generalize hrows : (⟨2, (scaleDesign lo hi (unit 0 (choosePopSize mm popSize res))).map (fun r i => some (r i))⟩ : Batch (Row n)) = b at hs
    unfold EA.popAdd at hs
    dsimp only at hs
    cases hevr : ops.evaluate 1 useSurr b with
    | error e => rw [hevr] at hs; simp [Pop.add] at hs
    | ok r =>
      obtain ⟨ho, -⟩ := hev _ _ _ _ hevr
      rw [hevr] at hs
      simp only [Pop.add, Pop.new] at hs
      injection hs with hs
      subst hs
      exact ⟨(b.rows, r), rfl, rfl, ho.objs, ho.fits, hφ _ _ _ _ hevr⟩
  obtain ⟨e, k1, k2, k3, k4, k5⟩ := key
  refine ⟨?_, ⟨hsv, ?_, ?_⟩, ?_⟩
  · obtain ⟨inds, a1, a2⟩ := hready
    exact ⟨inds, by rw [hpop]; exact a1, a2⟩
  · intro e' he'
    rw [hlog, k1, List.mem_singleton] at he'
    subst he'
    exact ⟨k3, k4, k5⟩
  · intro e' he' x hx
    rw [k1, List.mem_singleton] at he'
    subst he'
    rw [k2]; exact hx
  · rw [k2]; exact solsOf_right k5

/-- C104. Construct from a problem with continuous objectives, with saving of the non-dominated solutions on, start, and let generations run: the probability
that after each of `G` generations (the population staying free of NaN) some decision vector between the bounds is not approximated by the archive up to the margin `ε`
goes to zero, at a rate that does not depend on the EA, the population or the selection. -/
theorem c104_run_converges (lo hi : Fin n → ℝ) (hn : 0 < n) (hb : ∀ i, lo i < hi i) (φ : (Fin n → ℝ) → Fin m → ℝ) (hc : Continuous φ) (ε : ℝ) (hε : 0 < ε) :
    ∃ (N : Nat) (p : ℝ), 0 < p ∧ p ≤ 1 ∧ Filter.Tendsto (fun G => (N : ENNReal) * ENNReal.ofReal (1 - p) ^ G) Filter.atTop (nhds 0) ∧
      ∀ (unit : Nat → Nat → List (Fin n → ℝ)) (ops : Ops (Row n) O (FRow m) C U V S Q R) (nc : Nat) (unc : Bool) (vec0 : Nat → V) (sel0 : Nat → S) (prob0 : Q)
        (interact useSurr keepArchive : Bool) (nIter nGen total : Nat) (ty : ProblemType) (mm : Nat) (popSize res : Option Nat)
        (s t : EA (Row n) O (FRow m) C U V S Q) (o : Option Request) (draw : Nat → MateDraw n)
        (between : EA (Row n) O (FRow m) C U V S Q → EA (Row n) O (FRow m) C U V S Q),
        (∀ clk k, ∀ u ∈ unit clk k, ∀ i, 0 ≤ u i ∧ u i < 1) → (∀ c k, (unit c k).length = k) →
        ops.dom = rowDom m → NDContract m ops.nonDom → EvalContract ops nc unc → (∀ clk surr b, ∃ r, ops.evaluate clk surr b = .ok r) → Computes φ ops →
        1 ≤ choosePopSize mm popSize res →
        construct ops (boxDesign lo hi unit) vec0 sel0 prob0 interact useSurr keepArchive true nIter nGen total (some (ty, mm, nc)) none popSize res = .ok s →
        s.start ops = (.ok o, t) → (∀ clk l, ((draw clk).shuffle l).Perm l) →
        (∀ s, (between s).pop = s.pop ∧ (between s).cfg = s.cfg ∧ (between s).nd = s.nd ∧ (between s).log = s.log) → ∀ G,
          chanceOfMissing (fun a b c s => (EA.nextGen { ops with mate := mateAll lo hi (fun clk => steer (draw clk) a b c) } (between s)).2)
            (fun s => Ready lo hi s ∧ ¬ Approximates φ lo hi ε (archiveFront s)) G t ≤ N * ENNReal.ofReal (1 - p) ^ G := by
  obtain ⟨N, p, hp0, hp1, H⟩ := c104_archive_converges (O := O) (C := C) (U := U) (V := V) (S := S) (Q := Q) (R := R) lo hi hn hb φ hc ε hε
  refine ⟨N, p, hp0, hp1, ?_, ?_⟩
  · have h1 : ENNReal.ofReal (1 - p) < 1 := by
      rw [← ENNReal.ofReal_one]
      exact (ENNReal.ofReal_lt_ofReal_iff (by norm_num)).2 (by linarith)
    have h2 := ENNReal.Tendsto.const_mul (a := (N : ENNReal)) (ENNReal.tendsto_pow_atTop_nhds_zero_of_lt_one h1) (.inr (ENNReal.natCast_ne_top N))
    simpa using h2
  · intro unit ops nc unc vec0 sel0 prob0 interact useSurr keepArchive nIter nGen total ty mm popSize res s t o draw between hu hlen hdom hnd hev hok hφ hpos hs ht
      hsh hbt
    obtain ⟨h1, h2, -⟩ := c104_recording_at_start (φ := φ) lo hi hb unit hu hlen ops hdom hnd hev hφ vec0 sel0 prob0 interact useSurr keepArchive nIter nGen total ty mm
      popSize res hpos s t o hs ht
    exact H ops nc unc _ _ draw between t hdom hev hok hφ hsh hbt h1 h2

/-- Fitness: the first variable and one minus it (every vector is Pareto-optimal). -/
noncomputable def demoFit104 : Row 2 → FRow 2 := fun x => ⟨[(x 0).getD 0, 1 - (x 0).getD 0], rfl⟩

/-- An EA for that problem on the unit square. -/
noncomputable def demo104 (V : Type) : Ops (Row 2) Unit (FRow 2) Unit Unit V Unit Unit Unit :=
  ⟨fun v _ => v, fun _ _ v _ _ => (.ok (), v), mateAll (fun _ => 0) (fun _ => 1) (fun _ => ⟨id, fun _ => ⟨fun _ => 0, fun _ => true, fun _ => 0⟩, fun _ _ => 0, fun _ _ => 0⟩),
    pointwise (fun _ => ()) demoFit104, fun _ v _ _ => (.ok [0], v, ()), fun _ => 0, fun _ _ _ => (.ok (), ()), fun _ _ => ([], ()), rowDom 2, nonDominated (rowDom 2)⟩

/-- Non-vacuity: the demo problem; ten individuals in the middle. -/
theorem demo104_meets {V : Type} (vec0 : Nat → V) : ∃ (φ : (Fin 2 → ℝ) → Fin 2 → ℝ) (ops : Ops (Row 2) Unit (FRow 2) Unit Unit V Unit Unit Unit)
    (s t : EA (Row 2) Unit (FRow 2) Unit Unit V Unit Unit), Continuous φ ∧
    ops.dom = rowDom 2 ∧ NDContract 2 ops.nonDom ∧ EvalContract ops 0 false ∧ (∀ clk surr b, ∃ r, ops.evaluate clk surr b = .ok r) ∧ Computes φ ops ∧
    construct ops (boxDesign (fun _ => 0) (fun _ => 1) (fun _ k => List.replicate k (fun _ => 1 / 2))) vec0 (fun _ => ()) () false false false true
      10 100 0 (some (.mo, 2, 0)) none (some 10) none = .ok s ∧ s.start ops = (.ok none, t) := by
  have hev : EvalContract (demo104 V) 0 false := by
    intro clk surr b r h
    simp only [demo104, pointwise, Except.ok.injEq] at h
    subst h
    exact ⟨⟨by simp, by simp, by simp, by simp, by simp⟩, by simp⟩
  obtain ⟨s, hs⟩ : ∃ s, construct (demo104 V) (boxDesign (fun _ => 0) (fun _ => 1) (fun _ k => List.replicate k (fun _ => 1 / 2))) vec0 (fun _ => ()) () false false false true
      10 100 0 (some (.mo, 2, 0)) none (some 10) none = .ok s := ⟨_, rfl⟩
  obtain ⟨hsound, hsave⟩ := construct_sound (d := 2) (demo104 V) hev _ _ _ _ _ _ _ _ _ _ _ _ _ _ _ s hs (fun b hbd => by unfold boxDesign at hbd; injection hbd with hbd; rw [← hbd])
  have hcfg : s.cfg.interact = false ∧ s.cfg.location = none := by
    have : s.cfg = ⟨false, none, 10, 100, 0, false, false, true⟩ := by
      have h := hs
      simp only [construct, boxDesign, EA.popAdd, demo104, pointwise, Pop.add, Pop.new] at h
      injection h with h
      rw [← h]
      rfl
    rw [this]; exact ⟨rfl, rfl⟩
  refine ⟨fun y => ![y 0, 1 - y 0], demo104 V, s, (s.start (demo104 V)).2, ?_, rfl, nonDominated_contract, hev, fun _ _ _ => ⟨_, rfl⟩, ?_, hs, ?_⟩
  · refine continuous_pi fun i => ?_
    fin_cases i
    · exact continuous_apply 0
    · exact continuous_const.sub (continuous_apply 0)
  · intro clk surr b r h j y f h1 h2 i
    simp only [demo104, pointwise, Except.ok.injEq] at h
    subst h
    simp only [List.getElem?_map, h1, Option.map_some, Option.some.injEq] at h2
    subst h2
    fin_cases i <;> simp [demoFit104]
  · obtain ⟨p1, p2, p3⟩ := popSols_cols hsound
    have ha := startArchive_eq (dom := (demo104 V).dom) (demo104 V).nonDom (fun l => nonDominated_contract l) (popSols s.pop)
    rw [← p2, ← p3] at ha
    rw [Prod.ext_iff]
    refine ⟨?_, rfl⟩
    unfold EA.start
    rw [hcfg.1, p1]
    simp only [hsave, ha, Bool.false_and, Bool.false_eq_true, if_false, if_true]
    unfold EA.requestPreferences
    simp [hcfg.2]

end Verif.Props
