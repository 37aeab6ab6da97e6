import Verif.Model.NaNIndicator
import Verif.Proofs.NaNSelect
import Verif.Proofs.Indicator
import Verif.Proofs.EA

/-!
# C111: the indicator EAs when indicator values are NaN
-/

namespace Verif.Props

open Verif Verif.Spec Verif.Proofs
open _root_.Spec (Rec Represents EvalOK newRecs Gens)

variable {X O F C U P Q R : Type}

/-- Every individual has somebody else against whom its indicator value is NaN.  One individual whose indicator values, in both directions,
are NaN is enough (`spoiled_of_one`), and so is a NaN in PBEA's `min_asf_value`, which enters every value. -/
def Spoiled (t : F → F → Option ℝ) (fits : List F) : Prop :=
  ∀ (i : Nat) (a : F), fits[i]? = some a → ∃ (j : Nat) (b : F), j ≠ i ∧ fits[j]? = some b ∧ t a b = none

theorem spoiled_of_one (t : F → F → Option ℝ) (fits : List F) (j : Nat) (b : F) (hb : fits[j]? = some b) (h2 : 2 ≤ fits.length)
    (h : ∀ a, t a b = none ∧ t b a = none) : Spoiled t fits := by
  intro i a ha
  by_cases e : i = j
  · subst e
    rw [hb] at ha
    injection ha with ha
    subst ha
    obtain ⟨k, hk, hki⟩ : ∃ k, k < fits.length ∧ k ≠ i := by
      by_cases h0 : i = 0
      · exact ⟨1, by omega, by omega⟩
      · exact ⟨0, by omega, by omega⟩
    exact ⟨k, fits[k], hki, List.getElem?_eq_getElem hk, (h _).2⟩
  · exact ⟨j, b, fun e' => e e'.symm, hb, (h a).1⟩

theorem nanAdd_none_left (a : Option ℝ) : nanAdd none a = none := by cases a <;> rfl
theorem nanAdd_none_right (a : Option ℝ) : nanAdd a none = none := by cases a <;> rfl

theorem foldl_spoiled (g : F → Option ℝ) (i : Nat) (l : List F) : ∀ (k : Nat) (acc : Option ℝ),
    (acc = none ∨ ∃ (j : Nat) (b : F), k + j ≠ i ∧ l[j]? = some b ∧ g b = none) →
    (l.zipIdx k).foldl (fun acc p => if p.2 ≠ i then nanAdd acc ((g p.1).map (fun x => -x)) else acc) acc = none := by
  induction l with
  | nil =>
    intro k acc h
    rcases h with h | ⟨j, b, -, h, -⟩
    · simpa using h
    · simp at h
  | cons x xs ih =>
    intro k acc h
    rw [List.zipIdx_cons, List.foldl_cons]
    apply ih
    rcases h with h | ⟨j, b, h1, h2, h3⟩
    · left
      subst h
      dsimp only
      rw [nanAdd_none_left, ite_self]
    · cases j with
      | zero =>
        left
        simp only [List.getElem?_cons_zero, Option.some.injEq] at h2
        subst h2
        dsimp only
        rw [if_pos (by simpa using h1), h3]
        exact nanAdd_none_right _
      | succ j =>
        right
        exact ⟨j, b, by omega, by simpa using h2, h3⟩

/-- C111. Then every fitness value is NaN, not just those of the individuals concerned. -/
theorem c111_all_nan (t : F → F → Option ℝ) (fits : List F) (h : Spoiled t fits) :
    fitnessAssignN t fits = List.replicate fits.length none := by
  apply List.ext_getElem?
  intro i
  unfold fitnessAssignN
  rw [List.getElem?_mapIdx, List.getElem?_replicate]
  cases ha : fits[i]? with
  | none =>
    rw [if_neg (by have := List.getElem?_eq_none_iff.1 ha; omega)]
    rfl
  | some a =>
    rw [if_pos (List.getElem?_eq_some_iff.1 ha).1]
    rw [Option.map_some]
    congr 1
    obtain ⟨j, b, h1, h2, h3⟩ := h i a ha
    exact foldl_spoiled (t a) i fits 0 (some 0) (.inr ⟨j, b, by omega, h2, h3⟩)

theorem envUpdateN_none (t : F → F → Option ℝ) (fits : List F) (w n : Nat) :
    envUpdateN t fits w (List.replicate n none) = List.replicate n none := by
  apply List.ext_getElem?
  intro i
  unfold envUpdateN
  rw [List.getElem?_mapIdx, List.getElem?_replicate]
  by_cases hi : i < n
  · rw [if_pos hi, Option.map_some]
    congr 1
    split
    · split
      · exact nanAdd_none_left _
      · rfl
    · rfl
  · rw [if_neg hi]
    rfl

theorem argminN_none (n : Nat) : argminN (List.replicate (n + 1) (none : Option ℝ)) = .ok 0 := by
  unfold argminN
  rw [List.replicate_succ]
  rfl

theorem envLoopN_nan (t : F → F → Option ℝ) (popSize : Nat) (hp : 0 < popSize) (fuel : Nat) :
    ∀ (p : Pop X O F C U) (rs : List (Rec X O F C U)), Represents p rs → p.individuals ≠ none → rs.length - popSize < fuel →
    ∃ p', envLoopN t popSize fuel p (List.replicate rs.length none) = (.ok (), p', List.replicate (min rs.length popSize) none) ∧
      Represents p' (rs.drop (rs.length - popSize)) ∧ p'.individuals ≠ none ∧ p'.nCons = p.nCons ∧ p'.ndim = p.ndim := by
  induction fuel with
  | zero => intro p rs _ _ h; omega
  | succ fuel ih =>
    intro p rs h hne hf
    unfold envLoopN
    cases hi : p.individuals with
    | none => exact absurd hi hne
    | some inds =>
      have hl : inds.length = rs.length := by
        rcases h.inds with h1 | ⟨h1, -⟩
        · rw [hi] at h1
          injection h1 with h1
          rw [h1, List.length_map]
        · exact absurd h1 hne
      dsimp only
      by_cases hlt : popSize < inds.length
      · rw [if_pos hlt]
        obtain ⟨d1, d2, d3, d4, d5⟩ := delete_one h hne 0 (by omega)
        obtain ⟨n, hn⟩ : ∃ n, rs.length = n + 1 := ⟨rs.length - 1, by omega⟩
        have e1 : argminN (List.replicate rs.length (none : Option ℝ)) = .ok 0 := by rw [hn]; exact argminN_none n
        rw [e1]
        dsimp only
        rw [envUpdateN_none]
        generalize p.delete [((0 : Nat) : Int)] = r at d1 d2 d3 d4 d5
        obtain ⟨r1, q⟩ := r
        dsimp only at d1 d2 d3 d4 d5
        subst d1
        dsimp only
        have ee : rs.eraseIdx 0 = rs.drop 1 := by cases rs <;> rfl
        rw [ee] at d2 d3
        have hel : (rs.drop 1).length = n := by simp [hn]
        have hqne : q.individuals ≠ none := by
          intro e
          have := d3.1 e
          rw [this] at hel
          simp at hel
          omega
        obtain ⟨p', g1, g2, g3, g4, g5⟩ := ih q (rs.drop 1) d2 hqne (by omega)
        rw [hel] at g1 g2
        refine ⟨p', ?_, ?_, g3, g4.trans d4, g5.trans d5⟩
        · have : (List.replicate rs.length (none : Option ℝ)).eraseIdx 0 = List.replicate n none := by
            rw [hn, List.replicate_succ]; rfl
          rw [this, g1, hn, show min n popSize = min (n + 1) popSize by omega]
        · rw [List.drop_drop] at g2
          rw [hn, show n + 1 - popSize = 1 + (n - popSize) by omega]
          exact g2
      · rw [if_neg hlt, show rs.length - popSize = 0 by omega, show min rs.length popSize = rs.length by omega]
        exact ⟨p, rfl, h, hne, rfl, rfl⟩

/-- C111. Environmental selection then looks at nothing: it removes from the front, so the `pop_size` most recently added individuals
survive, whatever they are; and their stored fitness values are still all NaN. -/
theorem c111_newest_survive (io : NaNIndOps X O F C U P) (popSize : Nat) (hp : 0 < popSize) (s : EA X O F C U P (List (Option ℝ)) Q)
    (rs : List (Rec X O F C U)) (h : Represents s.pop rs) (hne : s.pop.individuals ≠ none)
    (hs : Spoiled (io.term s.vec (rs.map Rec.o)) (rs.map Rec.f)) :
    (indReduceN io popSize s).1 = .ok () ∧ Represents (indReduceN io popSize s).2.pop (rs.drop (rs.length - popSize)) ∧
      (indReduceN io popSize s).2.sel = List.replicate (min rs.length popSize) none := by
  have hl : s.pop.fitness.length = rs.length := by rw [h.fits, List.length_map]
  have e := c111_all_nan _ _ hs
  rw [← h.fits, ← h.objs, hl] at e
  obtain ⟨p', g1, g2, g3, -⟩ := envLoopN_nan (io.term s.vec s.pop.objectives) popSize hp (s.pop.fitness.length + 1) s.pop rs h hne (by omega)
  unfold indReduceN
  dsimp only
  rw [e, g1]
  exact ⟨rfl, g2, rfl⟩

/-- C111. In particular, when the last batch of offspring is at least `pop_size` long, every parent is thrown away, however good. -/
theorem c111_parents_lost (io : NaNIndOps X O F C U P) (popSize : Nat) (hp : 0 < popSize) (s : EA X O F C U P (List (Option ℝ)) Q)
    (parents offspring : List (Rec X O F C U)) (h : Represents s.pop (parents ++ offspring)) (hne : s.pop.individuals ≠ none)
    (hs : Spoiled (io.term s.vec ((parents ++ offspring).map Rec.o)) ((parents ++ offspring).map Rec.f))
    (ho : popSize ≤ offspring.length) :
    Represents (indReduceN io popSize s).2.pop (offspring.drop (offspring.length - popSize)) := by
  have := (c111_newest_survive io popSize hp s _ h hne hs).2.1
  rw [List.length_append, List.drop_append, List.drop_of_length_le (by omega), List.nil_append,
    show parents.length + offspring.length - popSize - parents.length = offspring.length - popSize by omega] at this
  exact this

/-- C111. Whenever the first aspirant's fitness is NaN, or the second's, the tournament is won by the one drawn first. -/
theorem c111_tournament_first_drawn (fitness : List (Option ℝ)) (h3 : 3 ≤ fitness.length) (a b : Nat) (x y : Option ℝ)
    (ha : fitness[a]? = some x) (hb : fitness[b]? = some y) (hn : x = none ∨ y = none) : tourSelectN fitness [a, b] = .ok a := by
  unfold tourSelectN
  rw [if_neg (by omega)]
  simp only [ha, hb]
  rcases hn with rfl | rfl
  · cases y <;> rfl
  · cases x <;> rfl

theorem tourParentsN_length (fitness : List (Option ℝ)) (draw : Nat → List Nat) : ∀ (is as : List Nat),
    tourParentsN fitness draw is = .ok as → as.length = is.length := by
  intro is
  induction is with
  | nil => intro as h; simp [tourParentsN] at h; subst h; rfl
  | cons i is ih =>
    intro as h
    unfold tourParentsN at h
    split at h
    · split at h
      · simp at h
      · rename_i as' has
        injection h with h
        subst h
        simp [ih as' has]
    · simp at h
    · simp at h

/-- C111. A generation that completes: the newest `pop_size` individuals followed by the records of the new offspring — nothing about
objective values decides who stays. -/
theorem c111_generation (io : NaNIndOps X O F C U P) (popSize : Nat) (hp : 0 < popSize) (s t : EA X O F C U P (List (Option ℝ)) Q)
    (hev : ∀ clk b r, io.evaluate clk false b = .ok r → EvalOK s.pop.nCons b.rows.length r) (rs : List (Rec X O F C U))
    (h : Represents s.pop rs) (hne : s.pop.individuals ≠ none)
    (hnd : ∀ clk p ids b, io.mate clk p ids = .ok b → b.ndim = s.pop.ndim)
    (hs : Spoiled (io.term s.vec (rs.map Rec.o)) (rs.map Rec.f)) (ht : indNextGenN io popSize s = (.ok (), t)) :
    ∃ (off : Batch X) (r : Results O F C U) (clk : Nat) (p : Pop X O F C U) (chosen : List Nat),
      Represents p (rs.drop (rs.length - popSize)) ∧ chosen.length = min rs.length popSize ∧ io.mate clk p chosen = .ok off ∧
      io.evaluate (clk + 1) false off = .ok r ∧ Represents t.pop (rs.drop (rs.length - popSize) ++ newRecs off.rows r) ∧
      t.fe = s.fe + off.rows.length := by
  have hl : s.pop.fitness.length = rs.length := by rw [h.fits, List.length_map]
  have e := c111_all_nan _ _ hs
  rw [← h.fits, ← h.objs, hl] at e
  obtain ⟨p', g1, g2, g3, g6, g7⟩ := envLoopN_nan (io.term s.vec s.pop.objectives) popSize hp (s.pop.fitness.length + 1) s.pop rs h hne (by omega)
  unfold indNextGenN indReduceN at ht
  dsimp only at ht
  rw [e, g1] at ht
  dsimp only [indVaryN] at ht
  split at ht
  · simp at ht
  · rename_i chosen hc
    split at ht
    · simp at ht
    · rename_i off hoff
      have hplen := tourParentsN_length _ _ _ _ hc
      rw [List.length_range, List.length_replicate] at hplen
      cases hr : io.evaluate (s.clock + 1 + 1) false off with
      | error e =>
        rw [hr] at ht
        simp [Pop.add] at ht
      | ok r =>
        rw [hr] at ht
        have hadd := add_spec (d := s.pop.ndim) g2 off r (by rw [g6]; exact hev _ _ _ hr) (fun _ => g7) (.inl (hnd _ _ _ _ hoff))
        split at ht
        · simp at ht
        · rename_i q hq
          simp only [Prod.mk.injEq, true_and] at ht
          subst ht
          refine ⟨off, r, s.clock + 1, p', chosen, g2, hplen, hoff, hr, ?_, rfl⟩
          have := hadd.1
          rw [hq] at this
          exact this

/-! ## Without NaN -/

theorem argminN_some {K : Type} [LinearOrder K] (l : List K) : argminN (l.map some) = argminL l := by
  unfold argminN
  have : (l.map some).findIdx? Option.isNone = none := by
    rw [List.findIdx?_eq_none_iff]
    intro x hx
    obtain ⟨a, -, rfl⟩ := List.mem_map.1 hx
    rfl
  rw [this]
  simp [List.filterMap_map]

theorem foldl_some (g : F → ℝ) (i : Nat) (l : List (F × Nat)) : ∀ acc : ℝ,
    l.foldl (fun acc p => if p.2 ≠ i then nanAdd acc (((some (g p.1) : Option ℝ)).map (fun x => -x)) else acc) (some acc) =
      some (l.foldl (fun acc p => if p.2 ≠ i then acc + -(g p.1) else acc) acc) := by
  induction l with
  | nil => intro acc; rfl
  | cons x xs ih =>
    intro acc
    rw [List.foldl_cons, List.foldl_cons, ← ih]
    congr 1
    split <;> rfl

theorem fitnessAssignN_some (t : F → F → ℝ) (fits : List F) :
    fitnessAssignN (fun a b => some (t a b)) fits = (fitnessAssign t fits).map some := by
  unfold fitnessAssignN fitnessAssign
  apply List.ext_getElem?
  intro i
  simp only [List.getElem?_mapIdx, List.getElem?_map, Option.map_map]
  congr 1
  funext a
  exact foldl_some (t a) i fits.zipIdx 0

theorem envUpdateN_some (t : F → F → ℝ) (fits : List F) (w : Nat) (vals : List ℝ) :
    envUpdateN (fun a b => some (t a b)) fits w (vals.map some) = (envUpdate t fits w vals).map some := by
  unfold envUpdateN envUpdate
  apply List.ext_getElem?
  intro i
  simp only [List.getElem?_mapIdx, List.getElem?_map, Option.map_map]
  cases vals[i]? with
  | none => rfl
  | some v =>
    simp only [Option.map_some, Function.comp]
    congr 1
    split
    · cases fits[i]? <;> cases fits[w]? <;> rfl
    · rfl

theorem envLoopN_some (t : F → F → ℝ) (popSize : Nat) (fuel : Nat) : ∀ (p : Pop X O F C U) (vals : List ℝ),
    envLoopN (fun a b => some (t a b)) popSize fuel p (vals.map some) =
      ((envLoop t popSize fuel p vals).1, (envLoop t popSize fuel p vals).2.1, (envLoop t popSize fuel p vals).2.2.map some) := by
  induction fuel with
  | zero => intro p vals; rfl
  | succ fuel ih =>
    intro p vals
    unfold envLoopN envLoop
    rw [argminN_some]
    cases p.individuals with
    | none => rfl
    | some inds =>
      dsimp only
      split
      · cases argminL vals with
        | error e => rfl
        | ok w =>
          dsimp only
          rw [envUpdateN_some]
          obtain ⟨r1, q⟩ := p.delete [(w : Int)]
          cases r1 with
          | error e => rfl
          | ok u =>
            dsimp only
            rw [List.eraseIdx_map, ih]
      · rfl

/-- C111. When every value is a number this is the environmental selection of C45: same outcome, same survivors, same stored fitness. -/
theorem c111_same_without_nan (io : IndOps X O F C U P R) (draw : Nat → Nat → List Nat) (popSize : Nat) (s : EA X O F C U P (List ℝ) Q)
    (s' : EA X O F C U P (List (Option ℝ)) Q) (hp : s'.pop = s.pop) (hv : s'.vec = s.vec) :
    let r := indReduceN ⟨fun v o a b => some (io.term v o a b), draw, io.mate, io.evaluate⟩ popSize s'
    let r0 := indReduce io popSize s
    r.1 = r0.1 ∧ r.2.pop = r0.2.pop ∧ r.2.sel = r0.2.sel.map some := by
  simp only [indReduceN, indReduce, hp, hv]
  rw [fitnessAssignN_some, envLoopN_some]
  exact ⟨rfl, rfl, rfl⟩

/-- C111. … and the tournament that of C46. -/
theorem c111_same_tournament (fitness : List ℝ) (a b : Nat) :
    tourSelectN (fitness.map some) [a, b] = tourSelect 2 fitness [a, b] := by
  unfold tourSelectN tourSelect
  rw [List.length_map]
  by_cases hn : fitness.length < 3
  · rw [if_pos hn, if_pos hn]
  · rw [if_neg hn, if_neg hn]
    simp only [List.getElem?_map]
    cases ha : fitness[a]? with
    | none => simp [takeRows, ha]
    | some x =>
      cases hb : fitness[b]? with
      | none => simp [takeRows, ha, hb]
      | some y =>
        simp only [takeRows, ha, hb, Option.map_some, nanLt]
        by_cases hxy : y < x
        · simp [List.mergeSort, hxy, not_le.2 hxy, List.MergeSort.Internal.splitInTwo]
        · simp [List.mergeSort, hxy, not_lt.1 hxy, List.MergeSort.Internal.splitInTwo]

/-- The same object with its fitness values seen as floats. -/
def liftSel (s : EA X O F C U P (List ℝ) Q) : EA X O F C U P (List (Option ℝ)) Q :=
  ⟨s.cfg, s.clock, s.pop, s.vec, s.sel.map some, s.prob, s.iter, s.gen, s.genIter, s.fe, s.reqId, s.itype, s.typeSet, s.allowRead, s.archive, s.nd, s.trueEvals, s.log⟩

theorem tourParentsN_some (fitness : List ℝ) (draw : Nat → List Nat) (hd : ∀ k, ∃ a b, draw k = [a, b]) (is : List Nat) :
    tourParentsN (fitness.map some) draw is = tourParents 2 fitness draw is := by
  have key : ∀ k, tourSelectN (fitness.map some) (draw k) = tourSelect 2 fitness (draw k) := by
    intro k
    obtain ⟨a, b, h⟩ := hd k
    rw [h]
    exact c111_same_tournament fitness a b
  induction is with
  | nil => rfl
  | cons i is ih =>
    unfold tourParentsN tourParents
    rw [key, key, ih]
    rfl

/-- C111. A whole generation without NaN, completed or not, is the one of C45. -/
theorem c111_same_generation (io : IndOps X O F C U P R) (hd : ∀ c k, ∃ a b, io.draw c k = [a, b]) (popSize : Nat)
    (s : EA X O F C U P (List ℝ) Q) :
    indNextGenN ⟨fun v o a b => some (io.term v o a b), io.draw, io.mate, io.evaluate⟩ popSize (liftSel s) =
      ((indNextGen io popSize s).1, liftSel (indNextGen io popSize s).2) := by
  have hr : indReduceN ⟨fun v o a b => some (io.term v o a b), io.draw, io.mate, io.evaluate⟩ popSize (liftSel s) =
      ((indReduce io popSize s).1, liftSel (indReduce io popSize s).2) := by
    simp only [indReduceN, indReduce, liftSel]
    rw [fitnessAssignN_some, envLoopN_some]
  have hv : ∀ s : EA X O F C U P (List ℝ) Q,
      indVaryN ⟨fun v o a b => some (io.term v o a b), io.draw, io.mate, io.evaluate⟩ (liftSel s) =
        ((indVary io s).1, liftSel (indVary io s).2) := by
    intro s
    simp only [indVaryN, indVary, tournament, liftSel, List.length_map]
    rw [tourParentsN_some _ _ (hd s.clock)]
    cases tourParents 2 s.sel (io.draw s.clock) (List.range s.sel.length) with
    | error e => rfl
    | ok chosen =>
      dsimp only
      cases io.mate (s.clock + 1) s.pop chosen with
      | error e => rfl
      | ok off =>
        dsimp only
        rcases s.pop.add off (io.evaluate (s.clock + 1 + 1) false off) with ⟨r, q⟩
        cases r <;> rfl
  unfold indNextGenN indNextGen
  rw [hr]
  rcases indReduce io popSize s with ⟨r, s1⟩
  cases r with
  | error e => rfl
  | ok u => exact hv s1

/-- The indicator of the example below. -/
noncomputable def nanDiff : Option ℝ → Option ℝ → Option ℝ
  | some a, some b => some (a - b)
  | _, _ => none

/-- Non-vacuity: of three individuals the second has NaN indicator values; with `pop_size` 2 the first goes and the NaN one stays. -/
example (s : EA Nat Nat (Option ℝ) Nat Nat Unit (List (Option ℝ)) Unit) :
    let p : Pop Nat Nat (Option ℝ) Nat Nat :=
      { (Pop.new 0 : Pop Nat Nat (Option ℝ) Nat Nat) with individuals := some [0, 1, 2], objectives := [0, 1, 2], fitness := [some 0, none, some 5] }
    let io : NaNIndOps Nat Nat (Option ℝ) Nat Nat Unit := ⟨fun _ _ => nanDiff, fun _ _ => [0, 1], fun _ _ _ => .error .valueError, fun _ _ _ => .error .valueError⟩
    Represents (indReduceN io 2 { s with pop := p }).2.pop [⟨1, 1, none, none, none⟩, ⟨2, 2, some 5, none, none⟩] := by
  intro p io
  have h : Represents p [⟨0, 0, some 0, none, none⟩, ⟨1, 1, none, none, none⟩, ⟨2, 2, some 5, none, none⟩] := by
    refine ⟨.inl rfl, rfl, rfl, fun _ h => absurd rfl h, fun _ => rfl, fun us h => ?_⟩
    exact absurd h (by simp [p, Pop.new])
  have hs := spoiled_of_one nanDiff [some 0, none, some 5] 1 none rfl (by simp) (by intro a; cases a <;> exact ⟨rfl, rfl⟩)
  exact (c111_newest_survive io 2 (by omega) { s with pop := p } _ h (by simp [p]) hs).2.1

end Verif.Props
