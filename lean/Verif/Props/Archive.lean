import Mathlib.Algebra.Order.Ring.Defs
import Mathlib.Algebra.Order.Ring.Int
import Verif.Proofs.Dominance

/-!
# Properties C07, C08, C09, C19: the archive of non-dominated solutions and `end()`

A run evaluates the initial population and then one batch of offspring after another.  A solution is a
triple (individual, objectives, fitness); fitness rows have `m` components in a linear order `K`.
`Spec.Dominates` is Pareto dominance.  `rowDom m` is the reference implementation of the external
`dominates` on rows of width `m` (`rowDom_iff`: it decides `Spec.Dominates`).
-/

namespace Verif.Props
open Verif Spec

variable {X O K : Type} [LinearOrder K] {m : Nat}

/-- A solution with a fitness row of width `m`. -/
abbrev Sol (X O K : Type) (m : Nat) := X × O × { l : List K // l.length = m }

/-- `s` dominates `t` (by fitness). -/
def FitDom (s t : Sol X O K m) : Prop := Dominates s.2.2.1 t.2.2.1

/-- The archive dict as three columns of one list of solutions. -/
def columns (T : List (Sol X O K m)) : NDArchive X O { l : List K // l.length = m } :=
  ⟨T.map (fun t => t.1), T.map (fun t => t.2.1), T.map (fun t => t.2.2)⟩

/-- Contract of the external `non_dominated` on rows of width `m`. -/
def NDContract (m : Nat) (nd : List { l : List K // l.length = m } → List Bool) : Prop :=
  ∀ l, nd l = l.map (notDominatedIn (rowDom m) l)

/-- The reference implementation meets the contract. -/
theorem nonDominated_contract : NDContract m (nonDominated (rowDom (K := K) m)) :=
  fun l => nonDominated_eq (rowDom_isDominance m) l

theorem tdom_rowDom_iff (s t : Sol X O K m) : tdom (rowDom m) s t = true ↔ FitDom s t := rowDom_iff m _ _

theorem start_covers (init : List (Sol X O K m)) :
    ∀ y ∈ init, Covers (tdom (rowDom m)) (init.filter (notDominatedIn (tdom (rowDom m)) init)) y := by
  intro y hy
  have hd : IsDominance (tdom (X := X) (O := O) (rowDom (K := K) m)) := tdom_isDominance (rowDom_isDominance m)
  obtain ⟨b, hb, hb2, hb3⟩ := exists_minimal hd init y hy
  have hb' : b ∈ init.filter (notDominatedIn (tdom (rowDom m)) init) := by simp [hb, hb2]
  rcases hb3 with rfl | hb3
  · exact Or.inl hb'
  · exact Or.inr ⟨b, hb', hb3⟩

/-- C07. At any time after `start()`, whatever was evaluated, in whatever batches: the archive update
never fails, and every evaluated solution is in the archive or dominated by an archive member. -/
theorem c07_archive_covers_everything_evaluated
    (nd : List { l : List K // l.length = m } → List Bool) (hnd : NDContract m nd)
    (init : List (Sol X O K m)) (batches : List (List (Sol X O K m))) :
    ∃ T, archiveRun (rowDom m) nd init batches = .ok (columns T) ∧
      ∀ y ∈ init ++ batches.flatten, y ∈ T ∨ ∃ s ∈ T, FitDom s y := by
  refine ⟨_, archiveRun_eq nd hnd init batches, ?_⟩
  obtain ⟨-, h2, -⟩ := rowsRun_spec (rowDom_isDominance m) batches
    (init.filter (notDominatedIn (tdom (rowDom m)) init)) init List.filter_sublist (start_covers init)
  intro y hy
  rcases h2 y hy with h | ⟨s, hs, hd⟩
  · exact Or.inl h
  · exact Or.inr ⟨s, hs, (tdom_rowDom_iff s y).1 hd⟩

open Classical in
/-- C08. Every archive member is an evaluated solution carried with its own three values (and no solution
appears more often than it was evaluated), and the non-dominated ones among the archive are exactly the
non-dominated ones among everything evaluated, multiplicities included. -/
theorem c08_no_pareto_optimal_solution_lost
    (nd : List { l : List K // l.length = m } → List Bool) (hnd : NDContract m nd)
    (init : List (Sol X O K m)) (batches : List (List (Sol X O K m))) :
    ∃ T, archiveRun (rowDom m) nd init batches = .ok (columns T) ∧
      T.Sublist (init ++ batches.flatten) ∧
      T.filter (fun y => decide (∀ s ∈ init ++ batches.flatten, ¬ FitDom s y)) =
        (init ++ batches.flatten).filter (fun y => decide (∀ s ∈ init ++ batches.flatten, ¬ FitDom s y)) := by
  refine ⟨_, archiveRun_eq nd hnd init batches, ?_⟩
  obtain ⟨h1, -, h3⟩ := rowsRun_spec (rowDom_isDominance m) batches
    (init.filter (notDominatedIn (tdom (rowDom m)) init)) init List.filter_sublist (start_covers init)
  refine ⟨h1, h3 _ ?_ ?_⟩
  · intro y _ x hx hd
    simp only [decide_eq_false_iff_not]
    intro h
    exact h x hx ((tdom_rowDom_iff x y).1 hd)
  · rw [List.filter_filter]
    apply List.filter_congr
    intro y _
    by_cases h : ∀ s ∈ init ++ batches.flatten, ¬ FitDom s y
    · have : notDominatedIn (tdom (rowDom m)) init y = true := by
        rw [notDominatedIn_iff]
        intro e he
        cases hd : tdom (rowDom m) e y with
        | false => rfl
        | true => exact absurd ((tdom_rowDom_iff e y).1 hd) (h e (by simp [he]))
      rw [this]
      simp
    · rw [decide_eq_false h]; simp

/-- C08. In particular a Pareto-optimal evaluated solution is in the archive. -/
theorem c08_pareto_optimal_is_archived
    (nd : List { l : List K // l.length = m } → List Bool) (hnd : NDContract m nd)
    (init : List (Sol X O K m)) (batches : List (List (Sol X O K m)))
    (y : Sol X O K m) (hy : y ∈ init ++ batches.flatten)
    (hopt : ∀ s ∈ init ++ batches.flatten, ¬ FitDom s y) :
    ∃ T, archiveRun (rowDom m) nd init batches = .ok (columns T) ∧ y ∈ T := by
  obtain ⟨T, h1, h2⟩ := c07_archive_covers_everything_evaluated nd hnd init batches
  obtain ⟨T', h1', h3, -⟩ := c08_no_pareto_optimal_solution_lost nd hnd init batches
  have hT : archiveRun (rowDom m) nd init batches = _ := archiveRun_eq nd hnd init batches
  obtain ⟨-, hc, -⟩ := rowsRun_spec (rowDom_isDominance m) batches
    (init.filter (notDominatedIn (tdom (rowDom m)) init)) init List.filter_sublist (start_covers init)
  obtain ⟨hs, -, -⟩ := rowsRun_spec (rowDom_isDominance m) batches
    (init.filter (notDominatedIn (tdom (rowDom m)) init)) init List.filter_sublist (start_covers init)
  refine ⟨_, hT, ?_⟩
  rcases hc y hy with h | ⟨s, hs', hd⟩
  · exact h
  · exact absurd ((tdom_rowDom_iff s y).1 hd) (hopt s (hs.subset hs'))

/-- C08. Without `start()` there is no archive: the update raises AttributeError. -/
theorem c08_update_before_start_raises (inds : List X) (objs : List O) (fits : List { l : List K // l.length = m }) :
    archiveUpdate (rowDom m) none inds objs fits = .error .attributeError := rfl

open Classical in
/-- C09: when every batch of offspring is itself mutually non-dominated, the archive is mutually
non-dominated, and is exactly the list of non-dominated solutions among everything evaluated, in
evaluation order.  (For other batches see `c09_dominated_only_within_a_batch` and
`c09_mutual_nondominance_violated`.) -/
theorem c09_archive_exact
    (nd : List { l : List K // l.length = m } → List Bool) (hnd : NDContract m nd)
    (init : List (Sol X O K m)) (batches : List (List (Sol X O K m)))
    (hb : ∀ b ∈ batches, ∀ s ∈ b, ∀ t ∈ b, ¬ FitDom s t) :
    ∃ T, archiveRun (rowDom m) nd init batches = .ok (columns T) ∧
      (∀ s ∈ T, ∀ t ∈ T, ¬ FitDom s t) ∧
      T = (init ++ batches.flatten).filter (fun y => decide (∀ s ∈ init ++ batches.flatten, ¬ FitDom s y)) := by
  have hT : archiveRun (rowDom m) nd init batches = _ := archiveRun_eq nd hnd init batches
  have hd : IsDominance (tdom (X := X) (O := O) (rowDom (K := K) m)) := tdom_isDominance (rowDom_isDominance m)
  obtain ⟨h1, h2, -⟩ := rowsRun_spec (rowDom_isDominance m) batches
    (init.filter (notDominatedIn (tdom (rowDom m)) init)) init List.filter_sublist (start_covers init)
  have hm := rowsRun_mutual (rowDom_isDominance m) batches
    (init.filter (notDominatedIn (tdom (rowDom m)) init)) (by
      intro a ha b hb
      rw [List.mem_filter, notDominatedIn_iff] at hb
      exact hb.2 a (List.mem_filter.1 ha |>.1)) (by
      intro b hb' s hs t ht
      cases h : tdom (rowDom m) s t with
      | false => rfl
      | true => exact absurd ((tdom_rowDom_iff s t).1 h) (hb b hb' s hs t ht))
  obtain ⟨T', h1', -, h3⟩ := c08_no_pareto_optimal_solution_lost nd hnd init batches
  rw [hT] at h1'
  have hTT : T' = rowsRun (rowDom m) (init.filter (notDominatedIn (tdom (rowDom m)) init)) batches := by
    simp only [Except.ok.injEq] at h1'
    have hx := congrArg NDArchive.individuals h1'
    have ho := congrArg NDArchive.objectives h1'
    have hf := congrArg NDArchive.fitness h1'
    simp only [archOf, columns] at hx ho hf
    generalize rowsRun (rowDom m) (init.filter (notDominatedIn (tdom (rowDom m)) init)) batches = R at hx ho hf
    have hlen := congrArg List.length hx
    simp only [List.length_map] at hlen
    apply List.ext_getElem hlen.symm
    intro i hi hj
    have ex := List.getElem_of_eq hx (i := i) (by simpa using hj)
    have eo := List.getElem_of_eq ho (i := i) (by simpa using hj)
    have ef := List.getElem_of_eq hf (i := i) (by simpa using hj)
    simp only [List.getElem_map] at ex eo ef
    exact Prod.ext ex.symm (Prod.ext eo.symm ef.symm)
  rw [hTT] at h3
  refine ⟨_, hT, ?_, ?_⟩
  · intro s hs t ht h
    have := hm s hs t ht
    rw [(tdom_rowDom_iff s t).2 h] at this
    cases this
  · rw [← h3]
    symm
    rw [List.filter_eq_self]
    intro t ht
    simp only [decide_eq_true_eq]
    intro e he h
    rcases h2 e he with h' | ⟨s, hs, hse⟩
    · have := hm e h' t ht
      rw [(tdom_rowDom_iff e t).2 h] at this
      cases this
    · have := hm s hs t ht
      rw [hd.trans _ _ _ hse ((tdom_rowDom_iff e t).2 h)] at this
      cases this

/-- C09 for MOEA/D, which archives one offspring at a time (`MOEAD.py:143-144`): always exact. -/
theorem c09_archive_mutually_nondominated_moead
    (nd : List { l : List K // l.length = m } → List Bool) (hnd : NDContract m nd)
    (init : List (Sol X O K m)) (offspring : List (Sol X O K m)) :
    ∃ T, archiveRun (rowDom m) nd init (offspring.map (fun o => [o])) = .ok (columns T) ∧
      ∀ s ∈ T, ∀ t ∈ T, ¬ FitDom s t := by
  obtain ⟨T, h1, h2, -⟩ := c09_archive_exact nd hnd init (offspring.map (fun o => [o])) (by
    intro b hb s hs t ht
    obtain ⟨o, _, rfl⟩ := List.mem_map.1 hb
    simp only [List.mem_singleton] at hs ht
    subst hs; subst ht
    exact Dominates.irrefl _)
  exact ⟨T, h1, h2⟩

/-- C09, without any hypothesis on the batches: the only solutions in the archive that dominate one another were evaluated in the
same batch (such pairs exist: `c09_mutual_nondominance_violated`). -/
theorem c09_dominated_only_within_a_batch
    (nd : List { l : List K // l.length = m } → List Bool) (hnd : NDContract m nd)
    (init : List (Sol X O K m)) (batches : List (List (Sol X O K m))) :
    ∃ T, archiveRun (rowDom m) nd init batches = .ok (columns T) ∧
      ∀ s ∈ T, ∀ t ∈ T, FitDom s t → ∃ b ∈ batches, s ∈ b ∧ t ∈ b := by
  refine ⟨_, archiveRun_eq nd hnd init batches, ?_⟩
  have hd := tdom_isDominance (X := X) (O := O) (rowDom_isDominance (K := K) m)
  have key : ∀ (bs all : List (List (Sol X O K m))) (T : List (Sol X O K m)), (∀ b ∈ bs, b ∈ all) →
      (∀ s ∈ T, ∀ t ∈ T, tdom (rowDom m) s t = true → ∃ b ∈ all, s ∈ b ∧ t ∈ b) →
      ∀ s ∈ rowsRun (rowDom m) T bs, ∀ t ∈ rowsRun (rowDom m) T bs, tdom (rowDom m) s t = true → ∃ b ∈ all, s ∈ b ∧ t ∈ b := by
    intro bs all
    induction bs with
    | nil => exact fun T _ hT => hT
    | cons b bs ih =>
      intro T hall hT
      obtain ⟨c1, c2, c3, c4, c5⟩ := checkAll_spec hd T b (List.replicate T.length true) (by simp)
      refine ih _ (fun b' hb' => hall b' (by simp [hb'])) ?_
      have s1 := compress_sublist (checkAll (tdom (rowDom m)) T b (List.replicate T.length true)).2 T
      have s2 := compress_sublist (checkAll (tdom (rowDom m)) T b (List.replicate T.length true)).1 b
      intro a ha c hc hac
      rcases List.mem_append.1 ha with ha | ha <;> rcases List.mem_append.1 hc with hc | hc
      · exact hT a (s1.subset ha) c (s1.subset hc) hac
      · exact absurd hac (by rw [(c5 c hc a ha).1]; simp)
      · exact absurd hac (by rw [(c5 a ha c hc).2]; simp)
      · exact ⟨b, hall b (by simp), s2.subset ha, s2.subset hc⟩
  intro s hs t ht h
  refine key batches batches _ (fun _ h => h) ?_ s hs t ht ((tdom_rowDom_iff s t).2 h)
  intro a ha c hc hac
  rw [List.mem_filter, notDominatedIn_iff] at hc
  rw [hc.2 a (List.mem_filter.1 ha).1] at hac
  cases hac

/-- A solution with two fitness components. -/
def sol2 (x y : Int) : Sol Unit Unit Int 2 := ((), (), ⟨[x, y], rfl⟩)

/-- The archive for an initial population [(2,2)] and one batch [(1,1),(3,3)]. -/
theorem c09_counterexample_archive :
    archiveRun (rowDom 2) (nonDominated (rowDom 2)) [sol2 2 2] [[sol2 1 1, sol2 3 3]] =
      .ok (columns [sol2 1 1, sol2 3 3]) := by decide

/-- C09 is false of the code: after one ordinary batch, one archive member dominates another
((3,3) is only compared with (2,2), which (1,1) has evicted). -/
theorem c09_mutual_nondominance_violated :
    ∃ (init : List (Sol Unit Unit Int 2)) (batches : List (List (Sol Unit Unit Int 2))) (T : List (Sol Unit Unit Int 2)),
      archiveRun (rowDom 2) (nonDominated (rowDom 2)) init batches = .ok (columns T) ∧
      ∃ s ∈ T, ∃ t ∈ T, FitDom s t :=
  ⟨[sol2 2 2], [[sol2 1 1, sol2 3 3]], [sol2 1 1, sol2 3 3], c09_counterexample_archive,
    sol2 1 1, by simp, sol2 3 3, by simp, (rowDom_iff 2 _ _).1 (by decide)⟩

/-- Non-vacuity: a three-batch run with evictions, rejections, duplicates and equal fitness. -/
example : archiveRun (rowDom 2) (nonDominated (rowDom 2))
    [sol2 5 5, sol2 6 6, sol2 4 7] [[sol2 5 5], [sol2 3 3, sol2 9 1], [sol2 3 3, sol2 8 8]] =
      .ok (columns [sol2 3 3, sol2 9 1, sol2 3 3]) := by decide

/-! ## C19: `end()` -/

/-- `_max_multiplier` of a problem (external): 1 for minimised, -1 for maximised objectives. -/
def multOf {K : Type} [Ring K] (senses : List Sense) : List K :=
  senses.map (fun s => match s with | .min => 1 | .max => -1)

theorem scaleRow_getElem? {K : Type} [Ring K] (senses : List Sense) (r : List K) (i : Nat) :
    (scaleRow (multOf senses) r)[i]? = (match r[i]?, senses[i]? with
      | some x, some .min => some x
      | some x, some .max => some (-x)
      | _, _ => none) := by
  simp only [scaleRow, multOf, List.getElem?_zipWith, List.getElem?_map]
  cases r[i]? with
  | none => rfl
  | some x =>
    cases senses[i]? with
    | none => rfl
    | some s => cases s <;> simp

theorem dominates_scaleRow_iff {K : Type} [Ring K] [LinearOrder K] [IsOrderedRing K] (senses : List Sense)
    (a b : List K) (ha : a.length = senses.length) (hb : b.length = senses.length) :
    Dominates (scaleRow (multOf senses) a) (scaleRow (multOf senses) b) ↔ ObjDominates senses a b := by
  have hl : (scaleRow (multOf senses) a).length = (scaleRow (multOf senses) b).length := by
    simp [scaleRow, multOf, ha, hb]
  simp only [Dominates, ObjDominates, hl, true_and, scaleRow_getElem?]
  constructor
  · rintro ⟨h1, i, x, y, hx, hy, hlt⟩
    refine ⟨?_, ?_⟩
    · intro j s u v hs hu hv
      cases s with
      | min => exact h1 j u v (by simp [hs, hu]) (by simp [hs, hv])
      | max =>
        have := h1 j (-u) (-v) (by simp [hs, hu]) (by simp [hs, hv])
        simpa [Sense.atLeastAsGood] using this
    · cases hai : a[i]? with
      | none => simp [hai] at hx
      | some u =>
        cases hbi : b[i]? with
        | none => simp [hbi] at hy
        | some v =>
          cases hsi : senses[i]? with
          | none => simp [hai, hsi] at hx
          | some s =>
            refine ⟨i, s, u, v, hsi, hai, hbi, ?_⟩
            cases s with
            | min =>
              simp [hai, hbi, hsi] at hx hy
              subst hx; subst hy; exact hlt
            | max =>
              simp [hai, hbi, hsi] at hx hy
              subst hx; subst hy
              simpa [Sense.better] using hlt
  · rintro ⟨h1, i, s, u, v, hs, hu, hv, hlt⟩
    refine ⟨?_, ?_⟩
    · intro j x y hx hy
      cases haj : a[j]? with
      | none => simp [haj] at hx
      | some u =>
        cases hbj : b[j]? with
        | none => simp [hbj] at hy
        | some v =>
          cases hsj : senses[j]? with
          | none => simp [haj, hsj] at hx
          | some s =>
            have := h1 j s u v hsj haj hbj
            cases s with
            | min =>
              simp [haj, hbj, hsj] at hx hy
              subst hx; subst hy; exact this
            | max =>
              simp [haj, hbj, hsj] at hx hy
              subst hx; subst hy
              simpa [Sense.atLeastAsGood] using this
    · cases s with
      | min => exact ⟨i, u, v, by simp [hs, hu], by simp [hs, hv], hlt⟩
      | max => exact ⟨i, -u, -v, by simp [hs, hu], by simp [hs, hv], by simpa [Sense.better] using hlt⟩

theorem compress_eq_filter {α : Type} (p : α → Bool) (mask : List Bool) (l : List α) (hl : mask.length = l.length)
    (h : ∀ (i : Nat) (r : α), l[i]? = some r → mask[i]? = some (p r)) : compress mask l = l.filter p := by
  have : mask = l.map p := by
    apply List.ext_getElem (by simpa using hl)
    intro i h1 h2
    have hi : i < l.length := by simpa using h2
    have := h i l[i] (List.getElem?_eq_getElem hi)
    rw [List.getElem?_eq_getElem h1] at this
    simpa using this
  rw [this, compress_map_self]

open Classical in
/-- C19. `end()` of a population of (individual, objectives) rows returns exactly those rows, in order,
that no row dominates (minimised and maximised objectives respected), and at least one row if there is
any.  Nothing else of the population (constraints in particular) enters. -/
theorem c19_end_returns_nondominated {K : Type} [Ring K] [LinearOrder K] [IsOrderedRing K]
    (nd : List (List K) → List Bool) (hnd : IsNonDominatedFn nd) (senses : List Sense)
    (rows : List (X × List K)) (hw : ∀ r ∈ rows, r.2.length = senses.length) :
    ∃ out : List (X × List K),
      endResult nd (multOf senses) (rows.map (fun r => r.1)) (rows.map (fun r => r.2)) =
        .ok (out.map (fun r => r.1), out.map (fun r => r.2)) ∧
      out = rows.filter (fun r => decide (∀ e ∈ rows, ¬ ObjDominates senses e.2 r.2)) ∧
      (rows ≠ [] → out ≠ []) := by
  have hw' : ∀ r ∈ (rows.map (fun r => r.2)).map (scaleRow (multOf senses)), r.length = senses.length := by
    intro r hr
    simp only [List.map_map, List.mem_map] at hr
    obtain ⟨q, hq, rfl⟩ := hr
    simp [scaleRow, multOf, hw q hq]
  obtain ⟨hlen, hval⟩ := hnd senses.length _ hw'
  have hlen' : (nd ((rows.map (fun r => r.2)).map (scaleRow (multOf senses)))).length = rows.length := by
    simpa using hlen
  have hcomp : compress (nd ((rows.map (fun r => r.2)).map (scaleRow (multOf senses)))) rows =
      rows.filter (fun r => decide (∀ e ∈ rows, ¬ ObjDominates senses e.2 r.2)) := by
    apply compress_eq_filter _ _ _ hlen'
    intro i r hr
    have hm : r ∈ rows := List.mem_of_getElem? hr
    have hv := hval i (scaleRow (multOf senses) r.2) (by simp [hr])
    have hiff : (∀ e ∈ (rows.map (fun r => r.2)).map (scaleRow (multOf senses)),
        ¬ Dominates e (scaleRow (multOf senses) r.2)) ↔ ∀ e ∈ rows, ¬ ObjDominates senses e.2 r.2 := by
      constructor
      · intro h e he hd
        exact h (scaleRow (multOf senses) e.2) (by simp; exact ⟨e.1, e.2, he, rfl⟩)
          ((dominates_scaleRow_iff senses _ _ (hw e he) (hw r hm)).2 hd)
      · intro h e he hd
        simp only [List.map_map, List.mem_map] at he
        obtain ⟨q, hq, rfl⟩ := he
        exact h q hq ((dominates_scaleRow_iff senses _ _ (hw q hq) (hw r hm)).1 hd)
    rw [hiff] at hv
    have hlt : i < (nd ((rows.map (fun r => r.2)).map (scaleRow (multOf senses)))).length := by
      rw [hlen']; exact (List.getElem?_eq_some_iff.1 hr).1
    by_cases h : ∀ e ∈ rows, ¬ ObjDominates senses e.2 r.2
    · rw [decide_eq_true h]; exact hv.2 h
    · rw [decide_eq_false h]
      have hne : (nd ((rows.map (fun r => r.2)).map (scaleRow (multOf senses))))[i]? ≠ some true :=
        fun hh => h (hv.1 hh)
      rw [List.getElem?_eq_getElem hlt] at hne ⊢
      cases hb : (nd ((rows.map (fun r => r.2)).map (scaleRow (multOf senses))))[i] with
      | false => rfl
      | true => rw [hb] at hne; exact absurd rfl hne
  refine ⟨_, ?_, rfl, ?_⟩
  · rw [← hcomp]
    simp only [endResult, boolIndex, hlen', List.length_map, if_true, compress_map]
  · intro hne
    obtain ⟨r0, rest, rfl⟩ := List.exists_cons_of_ne_nil hne
    have hdom : IsDominance (fun a b : { r : X × List K // r.2.length = senses.length } =>
        decide (ObjDominates senses a.1.2 b.1.2)) := by
      constructor
      · intro a
        simp only [decide_eq_false_iff_not]
        rw [← dominates_scaleRow_iff senses _ _ a.2 a.2]
        exact Dominates.irrefl _
      · intro a b c h1 h2
        simp only [decide_eq_true_eq] at *
        rw [← dominates_scaleRow_iff senses _ _ a.2 b.2] at h1
        rw [← dominates_scaleRow_iff senses _ _ b.2 c.2] at h2
        rw [← dominates_scaleRow_iff senses _ _ a.2 c.2]
        exact Dominates.trans h1 h2
    obtain ⟨L, hL⟩ : ∃ L : List { r : X × List K // r.2.length = senses.length }, L.map (·.1) = r0 :: rest :=
      ⟨(r0 :: rest).pmap (fun r h => ⟨r, h⟩) hw, by simp [List.map_pmap]⟩
    have hmem : ∀ e : { r : X × List K // r.2.length = senses.length }, e.1 ∈ r0 :: rest → e ∈ L := by
      intro e he
      rw [← hL, List.mem_map] at he
      obtain ⟨e', h1, h2⟩ := he
      have : e' = e := Subtype.ext h2
      exact this ▸ h1
    obtain ⟨q, hq, hb2, -⟩ := exists_minimal hdom L ⟨r0, hw r0 (by simp)⟩ (hmem _ (by simp))
    rw [notDominatedIn_iff] at hb2
    have : q.1 ∈ (r0 :: rest).filter (fun r => decide (∀ e ∈ r0 :: rest, ¬ ObjDominates senses e.2 r.2)) := by
      rw [List.mem_filter]
      refine ⟨by rw [← hL]; exact List.mem_map_of_mem hq, ?_⟩
      simp only [decide_eq_true_eq]
      intro e he
      have := hb2 ⟨e, hw e he⟩ (hmem _ he)
      simpa using this
    exact List.ne_nil_of_mem this

/-- The contract assumed of `non_dominated` is met by the reference implementation. -/
theorem c19_contract_satisfiable {K : Type} [LinearOrder K] :
    IsNonDominatedFn (nonDominated (dominates (K := K))) := nonDominated_isNonDominatedFn

example : endResult (nonDominated (dominates (K := Int))) (multOf [.min, .max]) ["a", "b", "c", "d"]
    [[1, 5], [2, 5], [0, 1], [1, 5]] = .ok (["a", "c", "d"], [[1, 5], [0, 1], [1, 5]]) := by decide

end Verif.Props
