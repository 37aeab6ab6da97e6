import Verif.Proofs.Search
import Verif.Props.Distribution
import Verif.Props.BlackBox
import Verif.Props.Bounds

/-!
# C100: sooner or later every region of the decision space is sampled
-/

namespace Verif.Props
open Verif Verif.Spec Verif.Proofs MeasureTheory
open scoped BigOperators

variable {n : Nat} {O F C U V S Q R : Type}

/-- The draws of a `mate` call in which the spread draws of the first pair are `a` and the draws of the mutation of the first child are `b` (whether a gene
is changed) and `c` (how far); all other draws are those of `d`. -/
def steer (d : MateDraw n) (a b c : Fin n → ℝ) : MateDraw n :=
  { d with pairs := fun j => if j = 0 then { d.pairs 0 with miu := a } else d.pairs j, k := withRow d.k 0 b, miu := withRow d.miu 0 c }

/-- The EA has individuals, all of them vectors of numbers inside the bounds. -/
def Ready (lo hi : Fin n → ℝ) (s : EA (Row n) O F C U V S Q) : Prop :=
  ∃ inds, s.pop.individuals = some inds ∧ inds ≠ [] ∧ ∀ x ∈ inds, InBox lo hi x ∧ AllNumbers x

/-- No vector of the box from `l` to `u` has been evaluated so far, and the EA can go on. -/
def Missing (lo hi l u : Fin n → ℝ) (s : EA (Row n) O F C U V S Q) : Prop := Ready lo hi s ∧ ¬ ∃ x, Evaluated s x ∧ Inside l u x

/-- The first child before its mutation, given spread draws of at most one half. -/
theorem first_child (lo hi : Fin n → ℝ) (shuffle : List Nat → List Nat) (rand : Nat → SbxDraw n) (pop : List (Row n)) (ids : Option (List Nat))
    (hids : ∀ k ∈ matingIds shuffle pop.length ids, k < pop.length) (hne : matingIds shuffle pop.length ids ≠ [])
    (hpop : ∀ x ∈ pop, InBox lo hi x ∧ AllNumbers x) (hm : ∀ i, 0 ≤ (rand 0).miu i ∧ (rand 0).miu i ≤ 1 / 2) :
    ∃ off r, sbxDo 1 30 shuffle rand pop ids = .ok off ∧ off[0]? = some r ∧ InBox lo hi r ∧ AllNumbers r := by
  obtain ⟨off, hoff⟩ := sbxDo_total 1 30 shuffle rand pop ids hids
  obtain ⟨-, h2⟩ := sbxDo_spec _ _ _ _ _ _ _ hoff
  obtain ⟨p, q, a, b, e1, e2, e3, e4, e5, -⟩ := h2 0 (by simpa using List.length_pos_iff.2 hne)
  obtain ⟨hai, han⟩ := hpop a (List.mem_of_getElem? e3)
  obtain ⟨hbi, hbn⟩ := hpop b (List.mem_of_getElem? e4)
  choose x hx using han
  choose y hy using hbn
  have hβ : ∀ i, |sbxBeta 1 30 ((rand 0).miu i) ((rand 0).flip i) ((rand 0).u i)| ≤ 1 := by
    intro i
    by_cases hu : (rand 0).u i ≤ 1
    · refine (abs_beta_le_iff 1 30 _ _ 1 _ (by norm_num) hu (hm i).1 (by have := (hm i).2; linarith) (by norm_num) le_rfl).2 ?_
      rw [Real.one_rpow]; exact (hm i).2
    · simp [sbxBeta, not_le.1 hu]
  refine ⟨off, _, hoff, e5, ?_, ?_⟩
  · intro i v hv
    simp only [hx, hy, sbxFirst, Option.some.injEq] at hv
    subst hv
    exact between_avg _ _ _ _ _ (hβ i) (hai i _ (hx i)).1 (hai i _ (hx i)).2 (hbi i _ (hy i)).1 (hbi i _ (hy i)).2
  · intro i
    simp only [hx, hy, sbxFirst]
    exact ⟨_, rfl⟩

/-- The chance of the first child landing in the box, in one `mate` call. -/
noncomputable def hitChance (lo hi l u : Fin n → ℝ) : ℝ :=
  (1 / 2) ^ n * ((1 / n) ^ n * ∏ i, ((u i - l i) / (2 * (hi i - lo i))) ^ 21 / 2)

theorem cube_volume (p : ℝ) (hp0 : 0 ≤ p) : volume (Set.pi Set.univ (fun _ : Fin n => Set.Ico 0 p)) = ENNReal.ofReal (p ^ n) := by
  rw [volume_pi_pi]
  simp only [Real.volume_Ico, sub_zero, Finset.prod_const, Finset.card_univ, Fintype.card_fin]
  rw [ENNReal.ofReal_pow hp0]

theorem cube_subset (p : ℝ) (hp1 : p ≤ 1) : (Set.pi Set.univ (fun _ : Fin n => Set.Ico 0 p)) ⊆ UnitDraws n :=
  fun _ h i hi => ⟨(h i hi).1, lt_of_lt_of_le (h i hi).2 hp1⟩

/-- What is needed of a round: for enough of the draws the first child is in the box. -/
theorem mate_hits (lo hi : Fin n → ℝ) (hn : 0 < n) (hlt : ∀ i, lo i < hi i) (d : MateDraw n) (pop : List (Row n)) (ids : Option (List Nat))
    (hids : ∀ k ∈ matingIds d.shuffle pop.length ids, k < pop.length) (hne : matingIds d.shuffle pop.length ids ≠ [])
    (hpop : ∀ x ∈ pop, InBox lo hi x ∧ AllNumbers x)
    (l u : Fin n → ℝ) (hl : ∀ i, lo i ≤ l i) (hlu : ∀ i, l i < u i) (hu : ∀ i, u i ≤ hi i) (hit : (Fin n → ℝ) → (Fin n → ℝ) → (Fin n → ℝ) → Prop)
    (hhit : ∀ a b c x rest, mateDefault lo hi (steer d a b c) pop ids = .ok (x :: rest) → Inside l u x → hit a b c) :
    ∃ A : Set (Fin n → ℝ), MeasurableSet A ∧ A ⊆ UnitDraws n ∧ ENNReal.ofReal ((1 / 2) ^ n) ≤ volume A ∧ ∀ a ∈ A,
      ∃ B : Set (Fin n → ℝ), MeasurableSet B ∧ B ⊆ UnitDraws n ∧ ENNReal.ofReal ((1 / n) ^ n) ≤ volume B ∧ ∀ b ∈ B,
      ∃ C : Set (Fin n → ℝ), MeasurableSet C ∧ C ⊆ UnitDraws n ∧ ENNReal.ofReal (∏ i, ((u i - l i) / (2 * (hi i - lo i))) ^ 21 / 2) ≤ volume C ∧
        ∀ c ∈ C, hit a b c := by
  have hn' : (1 : ℝ) ≤ n := by exact_mod_cast hn
  have h1n : 1 / (n : ℝ) ≤ 1 := by rw [div_le_one (by linarith)]; exact hn'
  refine ⟨Set.pi Set.univ (fun _ => Set.Ico 0 (1 / 2)), MeasurableSet.univ_pi (fun _ => measurableSet_Ico), cube_subset _ (by norm_num),
    (cube_volume _ (by norm_num)).ge, ?_⟩
  intro a ha
  refine ⟨Set.pi Set.univ (fun _ => Set.Ico 0 (1 / (n : ℝ))), MeasurableSet.univ_pi (fun _ => measurableSet_Ico), cube_subset _ h1n,
    (cube_volume _ (by positivity)).ge, ?_⟩
  intro b hb
  let rand : Nat → SbxDraw n := fun j => if j = 0 then { d.pairs 0 with miu := a } else d.pairs j
  obtain ⟨off, r, hoff, hr, hr1, hr2⟩ := first_child lo hi d.shuffle rand pop ids hids hne hpop
    (fun i => by simp only [rand, if_true]; exact ⟨(ha i trivial).1, (ha i trivial).2.le⟩)
  choose v hv using hr2
  have h := fun i => bp_interval (1 / (n : ℝ)) 20 (lo i) (hi i) (l i) (u i) (v i) (hlt i) (hr1 i _ (hv i)).1 (hr1 i _ (hv i)).2 (hl i) (hlu i) (hu i)
  choose α β hα hβ hαβ hin using h
  refine ⟨Set.pi Set.univ (fun i => Set.Ico (α i) (β i)), MeasurableSet.univ_pi (fun _ => measurableSet_Ico),
    fun w hw i hi' => ⟨(hα i).trans (hw i hi').1, lt_of_lt_of_le (hw i hi').2 (hβ i)⟩, ?_, ?_⟩
  · rw [volume_pi_pi, ENNReal.ofReal_prod_of_nonneg]
    · refine Finset.prod_le_prod' ?_
      intro i _
      rw [Real.volume_Ico]
      exact ENNReal.ofReal_le_ofReal (hαβ i)
    · intro i _
      have h1 := hlu i
      have h2 := hlt i
      have : 0 < (u i - l i) / (2 * (hi i - lo i)) := div_pos (by linarith) (by linarith)
      positivity
  · intro c hc
    obtain ⟨r', rest, rfl⟩ : ∃ r' rest, off = r' :: rest := by
      cases off with
      | nil => simp at hr
      | cons r' rest => exact ⟨_, _, rfl⟩
    simp only [List.getElem?_cons_zero, Option.some.injEq] at hr
    subst hr
    have e : mateDefault lo hi (steer d a b c) pop ids = .ok (bpDo (1 / (n : ℝ)) 20 lo hi (withRow d.k 0 b) (withRow d.miu 0 c) (r' :: rest)) := by
      have : sbxDo 1 30 (steer d a b c).shuffle (steer d a b c).pairs pop ids = .ok (r' :: rest) := hoff
      unfold mateDefault
      rw [this]; rfl
    unfold bpDo at e
    rw [List.mapIdx_cons] at e
    refine hhit a b c _ _ e ?_
    intro i
    obtain ⟨w, g1, g2⟩ := hin i (b i) (c i) (hb i trivial).2.le (hc i trivial).1 (hc i trivial).2
    refine ⟨w, ?_, g2⟩
    have e1 : withRow d.k 0 b 0 i = b i := by simp [withRow]
    have e2 : withRow d.miu 0 c 0 i = c i := by simp [withRow]
    show clipGene (lo i) (hi i) (bpRaw (1 / (n : ℝ)) 20 (lo i) (hi i) (withRow d.k 0 b 0 i) (withRow d.miu 0 c 0 i) (r' i)) = some w
    rw [e1, e2, hv i]; exact g1

theorem hitChance_pos (lo hi l u : Fin n → ℝ) (hn : 0 < n) (hlt : ∀ i, lo i < hi i) (hl : ∀ i, lo i ≤ l i) (hlu : ∀ i, l i < u i) (hu : ∀ i, u i ≤ hi i) :
    0 < hitChance lo hi l u ∧ hitChance lo hi l u ≤ 1 ∧ (1 / (n : ℝ)) ^ n * ∏ i, ((u i - l i) / (2 * (hi i - lo i))) ^ 21 / 2 ≤ 1 ∧
      (∏ i, ((u i - l i) / (2 * (hi i - lo i))) ^ 21 / 2) ≤ 1 ∧ 0 ≤ (∏ i, ((u i - l i) / (2 * (hi i - lo i))) ^ 21 / 2) := by
  have hn' : (1 : ℝ) ≤ n := by exact_mod_cast hn
  have h1n : 1 / (n : ℝ) ≤ 1 := by rw [div_le_one (by linarith)]; exact hn'
  have hpos : ∀ i, 0 < ((u i - l i) / (2 * (hi i - lo i))) ^ 21 / 2 := by
    intro i
    have h1 := hlu i
    have h2 := hlt i
    have : 0 < (u i - l i) / (2 * (hi i - lo i)) := div_pos (by linarith) (by linarith)
    positivity
  have hle : ∀ i, ((u i - l i) / (2 * (hi i - lo i))) ^ 21 / 2 ≤ 1 := by
    intro i
    have h1 := hlu i
    have h2 := hlt i
    have h3 := hl i
    have h4 := hu i
    have h0 : 0 ≤ (u i - l i) / (2 * (hi i - lo i)) := div_nonneg (by linarith) (by linarith)
    have h5 : (u i - l i) / (2 * (hi i - lo i)) ≤ 1 := by rw [div_le_one (by linarith)]; linarith
    have := pow_le_one₀ (n := 21) h0 h5
    linarith
  have p1 : 0 < (∏ i, ((u i - l i) / (2 * (hi i - lo i))) ^ 21 / 2) := Finset.prod_pos (fun i _ => hpos i)
  have p2 : (∏ i, ((u i - l i) / (2 * (hi i - lo i))) ^ 21 / 2) ≤ 1 := Finset.prod_le_one (fun i _ => (hpos i).le) (fun i _ => hle i)
  have p3 : (1 / (n : ℝ)) ^ n ≤ 1 := pow_le_one₀ (by positivity) h1n
  have p4 : 0 < (1 / (n : ℝ)) ^ n := by positivity
  have p5 : ((1 : ℝ) / 2) ^ n ≤ 1 := pow_le_one₀ (by norm_num) (by norm_num)
  have p6 : (1 / (n : ℝ)) ^ n * ∏ i, ((u i - l i) / (2 * (hi i - lo i))) ^ 21 / 2 ≤ 1 := mul_le_one₀ p3 p1.le p2
  refine ⟨?_, ?_, p6, p2, p1.le⟩
  · unfold hitChance; positivity
  · exact mul_le_one₀ p5 (by positivity) p6

theorem popAdd_logs (ops : Ops (Row n) O F C U V S Q R) (s : EA (Row n) O F C U V S Q) (off : Batch (Row n))
    (hok : ∀ clk surr b, ∃ r, ops.evaluate clk surr b = .ok r) : ∃ r, (off.rows, r) ∈ (s.popAdd ops off).2.log := by
  obtain ⟨r, hr⟩ := hok s.clock s.cfg.useSurr off
  exact ⟨r, by simp [EA.popAdd, evLog, hr]⟩

theorem nextGen_logs (ops : Ops (Row n) O F C U V S Q R) (s : EA (Row n) O F C U V S Q) (off : Batch (Row n)) (hm : ops.mate s.clock s.pop = .ok off)
    (hok : ∀ clk surr b, ∃ r, ops.evaluate clk surr b = .ok r) : ∃ r, (off.rows, r) ∈ (EA.nextGen ops s).2.log := by
  obtain ⟨r, hr⟩ := popAdd_logs ops { s with clock := s.clock + 1 } off hok
  refine ⟨r, ?_⟩
  unfold EA.nextGen
  rw [hm]
  dsimp only
  generalize hpa : EA.popAdd ops { s with clock := s.clock + 1 } off = pa at hr ⊢
  obtain ⟨_ | res, t⟩ := pa
  · exact hr
  · dsimp only at hr ⊢
    by_cases hnd : t.cfg.saveND
    · simp only [hnd, if_true]
      cases archiveUpdate ops.dom t.nd off.rows res.objectives res.fitness with
      | error e => exact hr
      | ok nd =>
        dsimp only
        generalize ops.select t.clock t.vec t.sel t.pop = z
        obtain ⟨_ | idx, v, t'⟩ := z
        · exact hr
        · dsimp only
          generalize t.pop.keep idx = y
          obtain ⟨_ | _, p⟩ := y
          · exact hr
          · dsimp only
            split <;> exact hr
    · simp only [hnd, if_false, Bool.false_eq_true]
      generalize ops.select t.clock t.vec t.sel t.pop = z
      obtain ⟨_ | idx, v, t'⟩ := z
      · exact hr
      · dsimp only
        generalize t.pop.keep idx = y
        obtain ⟨_ | _, p⟩ := y
        · exact hr
        · dsimp only
          split <;> exact hr

/-- C100 (RVEA, NSGA-III and every other EA with the generation of `BaseDecompositionEA`, whatever it selects). In each generation the draws considered are
the spread draws of the first pair and the draws of the mutation of the first child, uniform and independent; all other draws are arbitrary, and so is what
happens between the generations, as long as it leaves individuals that are numbers inside the bounds (preferences and
new iterations do not touch them).  The probability that `G` generations go by without a vector of the given box
inside the bounds being evaluated, the population staying free of NaN, is at most `(1 - p) ^ G` with a positive `p` that depends on the bounds and the box
only: neither on the population nor on the problem. -/
theorem c100_every_box_is_sampled (lo hi : Fin n → ℝ) (hn : 0 < n) (hlt : ∀ i, lo i < hi i) (ops : Ops (Row n) O F C U V S Q R)
    (hok : ∀ clk surr b, ∃ r, ops.evaluate clk surr b = .ok r) (draw : Nat → MateDraw n) (hsh : ∀ clk l, ((draw clk).shuffle l).Perm l)
    (between : EA (Row n) O F C U V S Q → EA (Row n) O F C U V S Q) (hbt : ∀ s, Ready lo hi s → Ready lo hi (between s))
    (l u : Fin n → ℝ) (hl : ∀ i, lo i ≤ l i) (hlu : ∀ i, l i < u i) (hu : ∀ i, u i ≤ hi i) (s : EA (Row n) O F C U V S Q) (hs : Ready lo hi s) (G : Nat) :
    chanceOfMissing (fun a b c s => (EA.nextGen { ops with mate := mateAll lo hi (fun clk => steer (draw clk) a b c) } (between s)).2)
      (Missing lo hi l u) G s ≤ ENNReal.ofReal (1 - hitChance lo hi l u) ^ G ∧ 0 < hitChance lo hi l u := by
  obtain ⟨h1, h2, h3, h4, h5⟩ := hitChance_pos lo hi l u hn hlt hl hlu hu
  refine ⟨chanceOfMissing_le _ _ (Ready lo hi) ((1 / 2) ^ n) ((1 / n) ^ n) (∏ i, ((u i - l i) / (2 * (hi i - lo i))) ^ 21 / 2)
    ⟨by positivity, by positivity, h5⟩ ⟨h3, h4⟩ (fun a b c s h => h.1) ?_ G s hs, h1⟩
  intro s hs
  obtain ⟨inds, hi1, hi2, hi3⟩ := hbt s hs
  have hpos : 0 < inds.length := List.length_pos_iff.2 hi2
  refine mate_hits lo hi hn hlt (draw (between s).clock) inds none ?_ ?_ hi3 l u hl hlu hu
    (fun a b c => ¬ Missing lo hi l u (EA.nextGen { ops with mate := mateAll lo hi (fun clk => steer (draw clk) a b c) } (between s)).2) ?_
  · intro k hk
    exact List.mem_range.1 ((hsh _ _).mem_iff.1 hk)
  · intro h
    have := (hsh (between s).clock (List.range inds.length)).length_eq
    have h' : (draw (between s).clock).shuffle (List.range inds.length) = [] := h
    rw [h'] at this
    simp at this
    omega
  · intro a b c x rest hm hx hmiss
    have hmate : ({ ops with mate := mateAll lo hi (fun clk => steer (draw clk) a b c) } : Ops (Row n) O F C U V S Q R).mate (between s).clock (between s).pop =
        .ok ⟨2, x :: rest⟩ := by
      show mateAll lo hi (fun clk => steer (draw clk) a b c) (between s).clock (between s).pop = _
      unfold mateAll
      rw [hi1]
      dsimp only
      rw [hm]
    obtain ⟨r, hr⟩ := nextGen_logs _ (between s) _ hmate hok
    exact hmiss.2 ⟨x, ⟨_, hr, by simp⟩, hx⟩


/-- C100. The probability of never evaluating a vector of the box goes to zero. -/
theorem c100_missing_tends_to_zero (lo hi : Fin n → ℝ) (hn : 0 < n) (hlt : ∀ i, lo i < hi i) (ops : Ops (Row n) O F C U V S Q R)
    (hok : ∀ clk surr b, ∃ r, ops.evaluate clk surr b = .ok r) (draw : Nat → MateDraw n) (hsh : ∀ clk l, ((draw clk).shuffle l).Perm l)
    (between : EA (Row n) O F C U V S Q → EA (Row n) O F C U V S Q) (hbt : ∀ s, Ready lo hi s → Ready lo hi (between s))
    (l u : Fin n → ℝ) (hl : ∀ i, lo i ≤ l i) (hlu : ∀ i, l i < u i) (hu : ∀ i, u i ≤ hi i) (s : EA (Row n) O F C U V S Q) (hs : Ready lo hi s) :
    Filter.Tendsto (fun G => chanceOfMissing
      (fun a b c s => (EA.nextGen { ops with mate := mateAll lo hi (fun clk => steer (draw clk) a b c) } (between s)).2) (Missing lo hi l u) G s)
      Filter.atTop (nhds 0) := by
  obtain ⟨h1, -⟩ := hitChance_pos lo hi l u hn hlt hl hlu hu
  refine tendsto_of_tendsto_of_tendsto_of_le_of_le tendsto_const_nhds
    (ENNReal.tendsto_pow_atTop_nhds_zero_of_lt_one (r := ENNReal.ofReal (1 - hitChance lo hi l u)) ?_) (fun _ => zero_le)
    (fun G => (c100_every_box_is_sampled lo hi hn hlt ops hok draw hsh between hbt l u hl hlu hu s hs G).1)
  rw [← ENNReal.ofReal_one]
  exact (ENNReal.ofReal_lt_ofReal_iff (by norm_num)).2 (by linarith)

/-- A box inside the bounds and inside an open set around a point of the bounds. -/
theorem exists_box (lo hi : Fin n → ℝ) (hlt : ∀ i, lo i < hi i) (W : Set (Fin n → ℝ)) (hW : IsOpen W) (x : Fin n → ℝ) (hx : x ∈ W)
    (hb : ∀ i, lo i ≤ x i ∧ x i ≤ hi i) :
    ∃ l u : Fin n → ℝ, (∀ i, lo i ≤ l i) ∧ (∀ i, l i < u i) ∧ (∀ i, u i ≤ hi i) ∧ ∀ y : Fin n → ℝ, (∀ i, l i ≤ y i ∧ y i ≤ u i) → y ∈ W := by
  obtain ⟨ε, hε, hball⟩ := Metric.isOpen_iff.1 hW x hx
  refine ⟨fun i => max (lo i) (x i - ε / 2), fun i => min (hi i) (x i + ε / 2), fun i => le_max_left _ _, ?_, fun i => min_le_left _ _, ?_⟩
  · intro i
    obtain ⟨h1, h2⟩ := hb i
    have h3 := hlt i
    simp only [max_lt_iff, lt_min_iff]
    refine ⟨⟨h3, ?_⟩, ?_, ?_⟩ <;> linarith
  · intro y hy
    refine hball ?_
    rw [Metric.mem_ball, dist_pi_lt_iff hε]
    intro i
    obtain ⟨h1, h2⟩ := hy i
    have h3 := (le_max_right (lo i) (x i - ε / 2)).trans h1
    have h4 := h2.trans (min_le_right (hi i) (x i + ε / 2))
    rw [Real.dist_eq, abs_lt]
    constructor <;> linarith

/-- C100. The search closes in on the best value of every continuous objective: for any point of the decision space and any margin, the probability that
within `G` generations no vector is evaluated whose value is less than the value of that point plus the margin goes to zero. -/
theorem c100_continuous_objective (lo hi : Fin n → ℝ) (hn : 0 < n) (hlt : ∀ i, lo i < hi i) (ops : Ops (Row n) O F C U V S Q R)
    (hok : ∀ clk surr b, ∃ r, ops.evaluate clk surr b = .ok r) (draw : Nat → MateDraw n) (hsh : ∀ clk l, ((draw clk).shuffle l).Perm l)
    (between : EA (Row n) O F C U V S Q → EA (Row n) O F C U V S Q) (hbt : ∀ s, Ready lo hi s → Ready lo hi (between s))
    (g : (Fin n → ℝ) → ℝ) (hg : Continuous g) (x : Fin n → ℝ) (hx : ∀ i, lo i ≤ x i ∧ x i ≤ hi i) (ε : ℝ) (hε : 0 < ε)
    (s : EA (Row n) O F C U V S Q) (hs : Ready lo hi s) :
    Filter.Tendsto (fun G => chanceOfMissing
      (fun a b c s => (EA.nextGen { ops with mate := mateAll lo hi (fun clk => steer (draw clk) a b c) } (between s)).2)
      (fun s => Ready lo hi s ∧ ¬ ∃ y : Fin n → ℝ, Evaluated s (fun i => some (y i)) ∧ g y < g x + ε) G s)
      Filter.atTop (nhds 0) := by
  obtain ⟨l, u, hl, hlu, hu, hW⟩ := exists_box lo hi hlt {y | g y < g x + ε} (isOpen_lt hg continuous_const) x (by simp [hε]) hx
  refine tendsto_of_tendsto_of_tendsto_of_le_of_le tendsto_const_nhds
    (c100_missing_tends_to_zero lo hi hn hlt ops hok draw hsh between hbt l u hl hlu hu s hs) (fun _ => zero_le) ?_
  intro G
  refine chanceOfMissing_mono _ _ _ ?_ G s
  rintro s ⟨h1, h2⟩
  refine ⟨h1, ?_⟩
  rintro ⟨y, h3, h4⟩
  choose v hv using h4
  refine h2 ⟨v, ?_, hW v (fun i => (hv i).2)⟩
  have : y = fun i => some (v i) := funext fun i => (hv i).1
  rw [← this]; exact h3

/-! ## The hypothesis on NaN -/

/-- C100. An EA constructed from a problem with a random or LHS design of at least one individual can start. -/
theorem c100_ready_at_start (lo hi : Fin n → ℝ) (hb : ∀ i, lo i < hi i)
    (unit : Nat → Nat → List (Fin n → ℝ)) (hu : ∀ clk k, ∀ u ∈ unit clk k, ∀ i, 0 ≤ u i ∧ u i < 1) (hlen : ∀ c k, (unit c k).length = k)
    (ops : Ops (Row n) O F C U V S Q R)
    (vec0 : Nat → V) (sel0 : Nat → S) (prob0 : Q) (interact useSurr keepArchive saveND : Bool) (nIter nGen total : Nat)
    (problem : ProblemType × Nat × Nat) (popSize res : Option Nat) (hpos : 1 ≤ choosePopSize problem.2.1 popSize res) (s : EA (Row n) O F C U V S Q)
    (hs : construct ops (boxDesign lo hi unit) vec0 sel0 prob0 interact useSurr keepArchive saveND nIter nGen total
      (some problem) none popSize res = .ok s) : Ready lo hi s := by
  have h0 := construct_inside lo hi (fun i => (hb i).le) unit hu ops vec0 sel0 prob0 interact useSurr keepArchive saveND nIter nGen total problem popSize res s hs
  have key : ∃ inds, s.pop.individuals = some inds ∧ inds ≠ [] ∧ ∀ x ∈ inds, AllNumbers x := by
    unfold construct at hs
    dsimp only at hs
    split at hs
    · exact absurd hs (by simp)
    · rename_i rows hd
      unfold boxDesign at hd
      injection hd with hd
      split at hs
      · exact absurd hs (by simp)
      · rename_i r ea hpa
        injection hs with hs
        subst hs
        refine ⟨rows.rows, ?_, ?_, ?_⟩
        · have h1 := congrArg Prod.fst hpa
          have h2 := congrArg Prod.snd hpa
          dsimp only at h1 h2
          show ea.pop.individuals = _
          rw [← h2]
          unfold EA.popAdd at h1 ⊢
          dsimp only at h1 ⊢
          unfold Pop.add at h1 ⊢
          split at h1
          · exact absurd h1 (by simp)
          · rfl
        · subst hd
          intro h
          have := congrArg List.length h
          simp only [scaleDesign, List.length_map, hlen, List.length_nil] at this
          exact absurd (congrArg id this) (by show ¬ (choosePopSize problem.2.1 popSize res = 0); omega)
        · subst hd
          intro x hx i
          obtain ⟨w, -, rfl⟩ := List.mem_map.1 hx
          exact ⟨_, rfl⟩
  obtain ⟨inds, h1, h2, h3⟩ := key
  exact ⟨inds, h1, h2, fun x hx => ⟨h0.pop inds h1 x hx, h3 x hx⟩⟩

/-- Non-vacuity: an EA on the unit square with ten individuals in the middle of it, every evaluation returning. -/
example : ∃ (ops : Ops (Row 2) Unit Unit Unit Unit Unit Unit Unit Unit) (s : EA (Row 2) Unit Unit Unit Unit Unit Unit Unit),
    (∀ clk surr b, ∃ r, ops.evaluate clk surr b = .ok r) ∧
    construct ops (boxDesign (fun _ => 0) (fun _ => 1) (fun _ k => List.replicate k (fun _ => 1 / 2))) (fun _ => ()) (fun _ => ()) () false false false false
      10 100 0 (some (.mo, 2, 0)) none (some 10) none = .ok s ∧ Ready (fun _ => 0) (fun _ => 1) s := by
  let ops : Ops (Row 2) Unit Unit Unit Unit Unit Unit Unit Unit :=
    ⟨fun _ _ => (), fun _ _ _ _ _ => (.ok (), ()), mateAll (fun _ => 0) (fun _ => 1) (fun _ => ⟨id, fun _ => ⟨fun _ => 0, fun _ => true, fun _ => 0⟩, fun _ _ => 0, fun _ _ => 0⟩),
      pointwise (fun _ => ()) (fun _ => ()), fun _ _ _ _ => (.ok [0], (), ()), fun _ => 0, fun _ _ _ => (.ok (), ()), fun _ _ => ([], ()), fun _ _ => false, fun _ => []⟩
  have h : ∃ s, construct ops (boxDesign (fun _ => 0) (fun _ => 1) (fun _ k => List.replicate k (fun _ => 1 / 2))) (fun _ => ()) (fun _ => ()) () false false false false
      10 100 0 (some (.mo, 2, 0)) none (some 10) none = .ok s := ⟨_, rfl⟩
  obtain ⟨s, hs⟩ := h
  refine ⟨ops, s, fun _ _ _ => ⟨_, rfl⟩, hs, ?_⟩
  refine c100_ready_at_start _ _ (fun _ => by norm_num) _ ?_ (fun _ k => by simp) ops _ _ _ _ _ _ _ _ _ _ _ _ _ (by decide) s hs
  intro clk k u hu i
  rw [List.eq_of_mem_replicate hu]
  norm_num

theorem sbx_nan (proC disC : ℝ) (rand : Nat → SbxDraw n) (i : Fin n) : ∀ (k : Nat) (rows : List (Row n)), (∀ x ∈ rows, x i = none) →
    ∀ y ∈ sbxPairs proC disC rand k rows, y i = none := by
  intro k rows
  induction k, rows using sbxPairs.induct with
  | case1 k a b rest ih =>
    intro h y hy
    simp only [sbxPairs, List.mem_cons] at hy
    have ha := h a (by simp)
    rcases hy with rfl | rfl | hy
    · simp only [ha, sbxFirst]
    · simp only [ha, sbxSecond]
    · exact ih (fun x hx => h x (by simp [hx])) y hy
  | case2 rows k h =>
    intro _ y hy
    match rows, h with
    | [], _ => simp [sbxPairs] at hy
    | [a], _ => simp [sbxPairs] at hy
    | a :: b :: rest, h => exact absurd rfl (h a b rest)

theorem mate_nan (lo hi : Fin n → ℝ) (d : MateDraw n) (pop off : List (Row n)) (ids : Option (List Nat)) (i : Fin n) (hp : ∀ x ∈ pop, x i = none)
    (h : mateDefault lo hi d pop ids = .ok off) : ∀ y ∈ off, y i = none := by
  unfold mateDefault at h
  split at h
  · exact absurd h (by simp)
  · rename_i o ho
    injection h with h
    subst h
    have h1 : ∀ y ∈ o, y i = none := by
      unfold sbxDo at ho
      split at ho
      · exact absurd ho (by simp)
      · rename_i rows hr
        injection ho with ho
        subst ho
        obtain ⟨t1, t2, t3⟩ := takeRows_spec _ _ _ hr
        have hrows : ∀ x ∈ rows, x i = none := by
          intro x hx
          obtain ⟨j, hj, rfl⟩ := List.getElem_of_mem hx
          have hj' : j < (matingIds d.shuffle pop.length ids).length := by omega
          have := t3 j _ (List.getElem?_eq_getElem hj')
          rw [List.getElem?_eq_getElem hj] at this
          exact hp _ (List.mem_of_getElem? this.symm)
        refine sbx_nan _ _ _ i _ _ ?_
        intro x hx
        unfold closePairs at hx
        split at hx
        · rcases List.mem_append.1 hx with hx | hx
          · exact hrows x hx
          · exact hrows x (List.mem_of_mem_take hx)
        · exact hrows x hx
    intro y hy
    unfold bpDo at hy
    obtain ⟨j, hj, rfl⟩ := List.mem_mapIdx.1 hy
    simp only [h1 _ (List.getElem_mem hj), bpRaw, clipGene]

/-- C100. Why the population has to stay free of NaN: once no individual has a number at some gene, no generation ever produces one again; nothing that is
evaluated from then on is in any box. -/
theorem c100_nan_stays (lo hi : Fin n → ℝ) (draw : Nat → MateDraw n) (ops : Ops (Row n) O F C U V S Q R) (hm : ops.mate = mateAll lo hi draw)
    (i : Fin n) (s : EA (Row n) O F C U V S Q) (hs : ∀ inds, s.pop.individuals = some inds → ∀ x ∈ inds, x i = none) (G : Nat) :
    (∀ inds, ((fun s => (EA.nextGen ops s).2)^[G] s).pop.individuals = some inds → ∀ x ∈ inds, x i = none) ∧
    ∀ clk off, ops.mate clk ((fun s => (EA.nextGen ops s).2)^[G] s).pop = .ok off → ∀ x ∈ off.rows, x i = none ∧ ∀ l u, ¬ Inside l u x := by
  have hmate : ∀ (p : Pop (Row n) O F C U), GoodPop (fun x => x i = none) p → ∀ clk off, ops.mate clk p = .ok off → ∀ x ∈ off.rows, x i = none := by
    intro p hp clk off h
    rw [hm] at h
    unfold mateAll at h
    split at h
    · exact absurd h (by simp)
    · rename_i inds hinds
      split at h
      · exact absurd h (by simp)
      · rename_i o ho
        injection h with h
        subst h
        exact mate_nan lo hi _ inds _ none i (hp inds hinds) ho
  have hstep : ∀ s : EA (Row n) O F C U V S Q, GoodPop (fun x => x i = none) s.pop → GoodPop (fun x => x i = none) (EA.nextGen ops s).2.pop :=
    fun s h => nextGen_goodPop ops s h (hmate s.pop h s.clock)
  have hall : GoodPop (fun x => x i = none) ((fun s => (EA.nextGen ops s).2)^[G] s).pop := by
    induction G with
    | zero => exact hs
    | succ G ih => rw [Function.iterate_succ_apply']; exact hstep _ ih
  refine ⟨hall, fun clk off h x hx => ⟨hmate _ hall clk off h x hx, fun l u hin => ?_⟩⟩
  obtain ⟨v, hv, -⟩ := hin i
  rw [hmate _ hall clk off h x hx] at hv
  exact absurd hv (by simp)

/-! ## MOEA/D -/

/-- The EA has individuals that are numbers inside the bounds, and every neighbourhood has at least two members, all of them in the population. -/
def ReadyMoead {m : Nat} {K : Type} (lo hi : Fin n → ℝ) (s : EA (Row n) O F C U (MoeadVec m K) S Q) : Prop :=
  Ready lo hi s ∧ ∀ inds, s.pop.individuals = some inds → ∀ nb ∈ s.vec.neigh, 2 ≤ nb.length ∧ ∀ k ∈ nb, k < inds.length

/-- Non-vacuity: the constructed EA of the last example with two subproblems that are neighbours of each other. -/
example (s : EA (Row 2) Unit Unit Unit Unit Unit Unit Unit) (hs : Ready (fun _ => 0) (fun _ => 1) s)
    (h2 : ∀ inds, s.pop.individuals = some inds → 2 ≤ inds.length) :
    ReadyMoead (fun _ => 0) (fun _ => 1) (s.withVec (⟨[fun _ => 0, fun _ => 1], [[0, 1], [1, 0]]⟩ : MoeadVec 2 Int)) := by
  refine ⟨hs, fun inds hi nb hnb => ?_⟩
  have := h2 inds hi
  have hnb : nb ∈ [[0, 1], [1, 0]] := hnb
  simp only [List.mem_cons, List.not_mem_nil, or_false] at hnb
  rcases hnb with rfl | rfl <;> refine ⟨by decide, fun k hk => ?_⟩ <;> simp only [List.mem_cons, List.not_mem_nil, or_false] at hk <;> omega

theorem repairRow_inside (lo hi : Fin n → ℝ) (x : Row n) (hx : InBox lo hi x) : repairRow lo hi x = x := by
  funext i
  unfold repairRow repair1
  cases h : x i with
  | none => rfl
  | some v =>
    obtain ⟨h1, h2⟩ := hx i v h
    simp only [not_lt.2 h1, not_lt.2 h2, if_false]

theorem moeadStep_logs {m : Nat} {K : Type} [LT K] [DecidableRel (α := K) (· < ·)] [Zero K] [DecidableEq K] (ops : Ops (Row n) O F C U (MoeadVec m K) S Q R)
    (mo : MoeadOps m K (Row n) O F C U) (useRepair : Bool) (i : Nat) (s : EA (Row n) O F C U (MoeadVec m K) S Q) (a b : Nat)
    (hc : chooseParents (mo.pick s.clock) s.vec.neigh i = .ok (a, b)) (x : Row n) (rest : List (Row n))
    (hm : mo.mate (s.clock + 1) s.pop a b = .ok (x :: rest)) (hok : ∀ clk surr b, ∃ r, ops.evaluate clk surr b = .ok r) :
    Evaluated (moeadStep ops mo useRepair i s).2 (if useRepair then mo.repair x else x) := by
  unfold moeadStep
  rw [hc]
  dsimp only
  rw [hm]
  dsimp only
  unfold moeadEvaluate
  generalize (if useRepair then mo.repair x else x) = y
  obtain ⟨r, hr⟩ := popAdd_logs ops ({ s with clock := s.clock + 1 + 1 } : EA (Row n) O F C U (MoeadVec m K) S Q) ⟨s.pop.ndim - 1, [y]⟩ hok
  dsimp only
  generalize ({ s with clock := s.clock + 1 + 1 } : EA (Row n) O F C U (MoeadVec m K) S Q).popAdd ops ⟨s.pop.ndim - 1, [y]⟩ = z at hr
  obtain ⟨z, t⟩ := z
  cases z with
  | error e => exact ⟨_, hr, by simp⟩
  | ok res =>
    dsimp only
    have hl := moeadFinish_log (ops := ops) mo i y res (if t.cfg.useSurr then t else { t with fe := t.fe + 1 })
    have ht : (if t.cfg.useSurr then t else { t with fe := t.fe + 1 }).log = t.log := by split <;> rfl
    rw [ht] at hl
    refine ⟨([y], r), ?_, List.mem_singleton_self y⟩
    rw [hl]; exact hr

/-- C100 (MOEA/D). The same with a round of the loop over the subproblems in place of a generation (`sub` says which subproblem is next): the chance of missing
the box shrinks with every subproblem. -/
theorem c100_moead_every_box_is_sampled {m : Nat} {K : Type} [LT K] [DecidableRel (α := K) (· < ·)] [Zero K] [DecidableEq K]
    (lo hi : Fin n → ℝ) (hn : 0 < n) (hlt : ∀ i, lo i < hi i) (ops : Ops (Row n) O F C U (MoeadVec m K) S Q R)
    (mo : MoeadOps m K (Row n) O F C U) (hrep : mo.repair = repairRow lo hi) (hpick : ∀ clk k, 2 ≤ k → (mo.pick clk k).1 < k ∧ (mo.pick clk k).2 < k)
    (useRepair : Bool) (hok : ∀ clk surr b, ∃ r, ops.evaluate clk surr b = .ok r) (draw : Nat → MateDraw n)
    (sub : EA (Row n) O F C U (MoeadVec m K) S Q → Nat) (between : EA (Row n) O F C U (MoeadVec m K) S Q → EA (Row n) O F C U (MoeadVec m K) S Q)
    (hbt : ∀ s, ReadyMoead lo hi s → ReadyMoead lo hi (between s) ∧ sub s < (between s).vec.neigh.length)
    (l u : Fin n → ℝ) (hl : ∀ i, lo i ≤ l i) (hlu : ∀ i, l i < u i) (hu : ∀ i, u i ≤ hi i)
    (s : EA (Row n) O F C U (MoeadVec m K) S Q) (hs : ReadyMoead lo hi s) (G : Nat) :
    chanceOfMissing (fun a b c s =>
        (moeadStep ops { mo with mate := mateTwo lo hi (fun clk => steer (draw clk) a b c) } useRepair (sub s) (between s)).2)
      (fun s => ReadyMoead lo hi s ∧ ¬ ∃ x, Evaluated s x ∧ Inside l u x) G s ≤ ENNReal.ofReal (1 - hitChance lo hi l u) ^ G ∧
    0 < hitChance lo hi l u := by
  obtain ⟨h1, h2, h3, h4, h5⟩ := hitChance_pos lo hi l u hn hlt hl hlu hu
  refine ⟨chanceOfMissing_le _ _ (ReadyMoead lo hi) ((1 / 2) ^ n) ((1 / n) ^ n) (∏ i, ((u i - l i) / (2 * (hi i - lo i))) ^ 21 / 2)
    ⟨by positivity, by positivity, h5⟩ ⟨h3, h4⟩ (fun a b c s h => h.1) ?_ G s hs, h1⟩
  intro s hs
  obtain ⟨⟨⟨inds, hi1, hi2, hi3⟩, hnb⟩, hsub⟩ := hbt s hs
  obtain ⟨hn1, hn2⟩ := hnb inds hi1 _ (List.getElem_mem hsub)
  obtain ⟨hp1, hp2⟩ := hpick (between s).clock _ hn1
  have hc : chooseParents (mo.pick (between s).clock) (between s).vec.neigh (sub s) =
      .ok ((between s).vec.neigh[sub s][(mo.pick (between s).clock (between s).vec.neigh[sub s].length).1],
        (between s).vec.neigh[sub s][(mo.pick (between s).clock (between s).vec.neigh[sub s].length).2]) := by
    unfold chooseParents
    rw [List.getElem?_eq_getElem hsub]
    dsimp only
    rw [if_neg (by omega), List.getElem?_eq_getElem hp1, List.getElem?_eq_getElem hp2]
  have g1 := hn2 _ (List.getElem_mem hp1)
  have g2 := hn2 _ (List.getElem_mem hp2)
  generalize (between s).vec.neigh[sub s][(mo.pick (between s).clock (between s).vec.neigh[sub s].length).1] = p at hc g1
  generalize (between s).vec.neigh[sub s][(mo.pick (between s).clock (between s).vec.neigh[sub s].length).2] = q at hc g2
  refine mate_hits lo hi hn hlt (draw ((between s).clock + 1)) inds (some [p, q]) ?_ (by simp [matingIds]) hi3 l u hl hlu hu
    (fun a b c => ¬ (ReadyMoead lo hi (moeadStep ops { mo with mate := mateTwo lo hi (fun clk => steer (draw clk) a b c) } useRepair (sub s) (between s)).2 ∧
      ¬ ∃ x, Evaluated (moeadStep ops { mo with mate := mateTwo lo hi (fun clk => steer (draw clk) a b c) } useRepair (sub s) (between s)).2 x ∧ Inside l u x)) ?_
  · intro k hk
    simp only [matingIds, List.mem_cons, List.not_mem_nil, or_false] at hk
    rcases hk with rfl | rfl
    · exact g1
    · exact g2
  · intro a b c x rest hm hx hmiss
    have hmate : ({ mo with mate := mateTwo lo hi (fun clk => steer (draw clk) a b c) } : MoeadOps m K (Row n) O F C U).mate ((between s).clock + 1)
        (between s).pop p q = .ok (x :: rest) := by
      show mateTwo lo hi (fun clk => steer (draw clk) a b c) ((between s).clock + 1) (between s).pop p q = _
      unfold mateTwo
      rw [hi1]
      exact hm
    have := moeadStep_logs ops { mo with mate := mateTwo lo hi (fun clk => steer (draw clk) a b c) } useRepair (sub s) (between s) p q hc x rest hmate hok
    refine hmiss.2 ⟨_, this, ?_⟩
    have hxb : InBox lo hi x := by
      intro i v hv
      obtain ⟨w, e, e1, e2⟩ := hx i
      rw [hv] at e
      injection e with e
      subst e
      exact ⟨(hl i).trans e1, e2.trans (hu i)⟩
    have e : ({ mo with mate := mateTwo lo hi (fun clk => steer (draw clk) a b c) } : MoeadOps m K (Row n) O F C U).repair x = x := by
      show mo.repair x = x
      rw [hrep]; exact repairRow_inside lo hi x hxb
    rw [e]
    split <;> exact hx

end Verif.Props
