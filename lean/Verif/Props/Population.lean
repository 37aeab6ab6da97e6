import Mathlib.Order.Lattice
import Mathlib.Order.MinMax
import Verif.Proofs.Population

/-!
# Properties C01–C06: the population object

Specification: `Verif/Spec/Records.lean`, `Verif/Spec/Population.lean`.
-/

namespace Verif.Props
open Verif Spec

variable {X O F C U : Type}

/-! ## C01 alignment over any history -/

/-- C01. After any history of API-respecting calls (failed ones included: the caller may catch the
exception and go on), the population is exactly the list of records the history describes. -/
theorem c01_population_is_record_list (nCons d : Nat) (ops : List (PopOp X O F C U))
    (hok : RunOK d (Pop.new nCons) ops) :
    Represents ((Pop.new nCons).run ops) (recRun [] ops) :=
  run_refines ops (represents_new nCons) (fun h => absurd rfl h) hok

/-- C01, observable form: all columns have the same number of rows. -/
theorem c01_columns_same_length (nCons d : Nat) (ops : List (PopOp X O F C U))
    (hok : RunOK d (Pop.new nCons) ops) (inds : List X)
    (hi : ((Pop.new nCons).run ops).individuals = some inds) :
    ((Pop.new nCons).run ops).objectives.length = inds.length ∧
    ((Pop.new nCons).run ops).fitness.length = inds.length ∧
    (∀ us, ((Pop.new nCons).run ops).uncertainity = some us → us.length = inds.length) ∧
    (nCons = 0 → ((Pop.new nCons).run ops).constraint = none) ∧
    (nCons ≠ 0 → ∃ cs, ((Pop.new nCons).run ops).constraint = some cs ∧ cs.length = inds.length) := by
  have h := c01_population_is_record_list nCons d ops hok
  have hl := Represents_length h hi
  have hn : ((Pop.new nCons : Pop X O F C U).run ops).nCons = nCons := by
    have : ∀ (ops : List (PopOp X O F C U)) (p : Pop X O F C U) rs, Represents p rs →
        (p.individuals ≠ none → p.ndim = d) → RunOK d p ops → (p.run ops).nCons = p.nCons := by
      intro ops
      induction ops with
      | nil => intros; rfl
      | cons op ops ih =>
        intro p rs h hd hok
        have hs := step_refines h hd op hok.1
        rw [Pop.run, ih _ _ hs.1 hs.2.1 hok.2, hs.2.2]
    exact this ops _ _ (represents_new nCons) (fun h => absurd rfl h) hok
  refine ⟨by rw [h.objs]; simp [hl], by rw [h.fits]; simp [hl], ?_, ?_, ?_⟩
  · intro us hus
    have := congrArg List.length (h.unc us hus)
    simpa [hl] using this
  · intro h0; exact h.nocons (by omega)
  · intro h0
    obtain ⟨cs, h1, h2⟩ := h.cons (by rw [hi]; simp) (by omega)
    refine ⟨cs, h1, ?_⟩
    have := congrArg List.length h2
    simpa [hl] using this

/-- The evaluations in a history are those of fixed row functions `fo`, `ff` (a deterministic
problem). -/
def EvaluatesBy (fo : X → O) (ff : X → F) : PopOp X O F C U → Prop
  | .add off (.ok r) => r.objectives = off.rows.map fo ∧ r.fitness = off.rows.map ff
  | .replace _ x o f _ _ => o = fo x ∧ f = ff x
  | _ => True

/-- C01, what it is for: with a deterministic problem every row of `objectives` and `fitness` is the
evaluation of the individual in the same row, after any history. -/
theorem c01_rows_are_evaluations (nCons d : Nat) (ops : List (PopOp X O F C U))
    (hok : RunOK d (Pop.new nCons) ops) (fo : X → O) (ff : X → F)
    (hev : ∀ op ∈ ops, EvaluatesBy fo ff op) (inds : List X)
    (hi : ((Pop.new nCons).run ops).individuals = some inds) :
    ((Pop.new nCons).run ops).objectives = inds.map fo ∧
    ((Pop.new nCons).run ops).fitness = inds.map ff := by
  have h := c01_population_is_record_list nCons d ops hok
  have key : ∀ (ops : List (PopOp X O F C U)) (p : Pop X O F C U) rs, RunOK d p ops →
      (∀ op ∈ ops, EvaluatesBy fo ff op) →
      (∀ r ∈ rs, r.o = fo r.x ∧ r.f = ff r.x) →
      ∀ r ∈ recRun rs ops, r.o = fo r.x ∧ r.f = ff r.x := by
    intro ops
    induction ops with
    | nil => intro p rs _ _ h; exact h
    | cons op ops ih =>
      intro p rs hok hev hrs
      refine ih (p.step op).2 (recStep rs op) hok.2 (fun o ho => hev o (List.mem_cons_of_mem _ ho)) ?_
      have hop := hev op List.mem_cons_self
      cases op with
      | add off ev =>
        cases ev with
        | error e => exact hrs
        | ok r =>
          intro q hq
          rcases List.mem_append.1 hq with hq | hq
          · exact hrs q hq
          · have hp := newRecs_proj off.rows r hok.1.1
            have h1 : (newRecs off.rows r).map Rec.o = (newRecs off.rows r).map (fun q => fo q.x) := by
              rw [hp.2.1, hop.1]
              conv => lhs; rw [← hp.1, List.map_map]
              rfl
            have h2 : (newRecs off.rows r).map Rec.f = (newRecs off.rows r).map (fun q => ff q.x) := by
              rw [hp.2.2.1, hop.2]
              conv => lhs; rw [← hp.1, List.map_map]
              rfl
            exact ⟨List.map_inj_left.1 h1 q hq, List.map_inj_left.1 h2 q hq⟩
      | keep idx =>
        intro q hq
        simp only [recStep] at hq
        split at hq
        · simp only [rowsAt, List.mem_map, List.mem_filter] at hq
          obtain ⟨⟨a, k⟩, ⟨hm, _⟩, rfl⟩ := hq
          exact hrs _ (List.fst_mem_of_mem_zipIdx hm)
        · exact hrs q hq
      | delete idx =>
        intro q hq
        simp only [recStep] at hq
        split at hq
        · simp only [rowsAt, List.mem_map, List.mem_filter] at hq
          obtain ⟨⟨a, k⟩, ⟨hm, _⟩, rfl⟩ := hq
          exact hrs _ (List.fst_mem_of_mem_zipIdx hm)
        · exact hrs q hq
      | replace idx x o f c u =>
        intro q hq
        simp only [recStep] at hq
        split at hq
        · simp only [rowsSet, List.mem_map] at hq
          obtain ⟨⟨a, k⟩, hm, rfl⟩ := hq
          split
          · exact hop
          · exact hrs _ (List.fst_mem_of_mem_zipIdx hm)
        · exact hrs q hq
  have hall := key ops _ [] hok hev (by simp)
  have hx : inds = (recRun [] ops).map Rec.x := by
    rcases h.inds with hh | ⟨hh, _⟩
    · rw [hi] at hh; simpa using hh
    · rw [hi] at hh; cases hh
  rw [h.objs, h.fits, hx, List.map_map, List.map_map]
  exact ⟨List.map_congr_left fun r hr => (hall r hr).1, List.map_congr_left fun r hr => (hall r hr).2⟩

/-- Concrete history used for non-vacuity: constraints present, a matrix batch, a single vector, a
keep with a negative and a repeated index, an out-of-range delete (raises), a replace. -/
def demoOps : List (PopOp Nat Nat Nat Nat Nat) :=
  [ .add ⟨2, [10, 20, 30]⟩ (.ok ⟨[11, 21, 31], [12, 22, 32], some [1, 2, 3], some [5, 6, 7]⟩),
    .add ⟨1, [40]⟩ (.ok ⟨[41], [42], some [4], some [8]⟩),
    .keep [-1, 0, 3, 2],
    .delete [7],
    .replace [1] 50 51 52 (some 9) (some 9) ]

example : RunOK 2 (Pop.new 1) demoOps := by
  refine ⟨⟨⟨rfl, rfl, by simp [Pop.new], ?_, ?_⟩, Or.inl rfl⟩, ⟨⟨rfl, rfl, by simp [Pop.new, Pop.step, Pop.add], ?_, ?_⟩, Or.inr ⟨rfl, rfl, by simp [Pop.new, Pop.step, Pop.add]⟩⟩,
    trivial, trivial, ⟨by simp, by simp⟩, trivial⟩
  · intro _; exact ⟨_, rfl, rfl⟩
  · intro us h; cases h; rfl
  · intro _; exact ⟨_, rfl, rfl⟩
  · intro us h; cases h; rfl

example : ((Pop.new 1).run demoOps).individuals = some [10, 50, 40] ∧
    ((Pop.new 1).run demoOps).fitness = [12, 52, 42] ∧
    ((Pop.new 1).run demoOps).constraint = some [1, 9, 4] := by decide

/-- The hypothesis on `ndim` in C01 is needed: in the `pass` branch (`Population.py:163-164`) a batch
of incompatible dimension is evaluated and its objectives are added, but not its individuals. -/
theorem c01_dimension_mismatch_breaks_alignment :
    let p : Pop Nat Nat Nat Nat Nat := ((Pop.new 0).run
      [.add ⟨3, [1, 2]⟩ (.ok ⟨[1, 2], [1, 2], none, none⟩),
       .add ⟨1, [3]⟩ (.ok ⟨[3], [3], none, none⟩)])
    p.individuals = some [1, 2] ∧ p.objectives = [1, 2, 3] := by decide

/-- Mixing evaluations without and with uncertainty: `add` raises, yet the offspring have been added
(the population stays aligned, its uncertainty column stays `None`). -/
theorem c01_mixed_uncertainty_raises_after_adding (p : Pop X O F C U) (rs) (d : Nat)
    (h : Represents p rs) (hne : p.individuals ≠ none) (hd : p.ndim = d) (off : Batch X)
    (r : Results O F C U) (hev : EvalOK p.nCons off.rows.length r) (hnd : off.ndim = d)
    (hpu : p.uncertainity = none) (hru : r.uncertainity ≠ none) :
    (p.add off (.ok r)).1 = .error .valueError ∧
    Represents (p.add off (.ok r)).2 (rs ++ newRecs off.rows r) := by
  refine ⟨?_, (add_spec h off r hev (fun _ => hd) (Or.inl hnd)).1⟩
  cases hi : p.individuals with
  | none => exact absurd hi hne
  | some inds =>
    obtain ⟨us, hus⟩ := Option.ne_none_iff_exists'.1 hru
    unfold Pop.add
    simp only [hi, hpu, hus, vstackOpt]
    by_cases hn : p.nCons = 0
    · simp [hn]
    · obtain ⟨cs0, hc0, _⟩ := h.cons hne hn
      obtain ⟨cs, hc1, _⟩ := hev.cons hn
      simp [hn, hc0, hc1]

/-! ## C02 keep -/

/-- C02. In range: no exception, and exactly the named records remain, in order, once each. -/
theorem c02_keep (p : Pop X O F C U) (rs) (h : Represents p rs) (hne : p.individuals ≠ none)
    (idx : List Int) (hr : inRange rs.length idx = true) :
    (p.keep idx).1 = .ok () ∧
    Represents (p.keep idx).2 (rowsAt (fun k => names rs.length idx k) rs) :=
  ⟨(keep_ok h hne idx hr).1, (keep_ok h hne idx hr).2.1⟩

/-- C02. Out of range: IndexError and nothing changed. -/
theorem c02_keep_out_of_range (p : Pop X O F C U) (rs) (h : Represents p rs)
    (hne : p.individuals ≠ none) (idx : List Int) (hr : inRange rs.length idx = false) :
    p.keep idx = (.error .indexError, p) := by
  rw [keep_error h idx (Or.inr hr)]; simp [hne]

/-- C02. Order and repetition of the indices are irrelevant. -/
theorem c02_keep_only_set_matters (p : Pop X O F C U) (rs) (h : Represents p rs)
    (i j : List Int) (hi : inRange rs.length i = true) (hj : inRange rs.length j = true)
    (hij : ∀ k, k < rs.length → names rs.length i k = names rs.length j k) :
    p.keep i = p.keep j := by
  unfold Pop.keep
  cases hp : p.individuals with
  | none => rfl
  | some inds =>
    have hlen := Represents_length h hp
    obtain ⟨ks, hks⟩ := (resolve_ok_iff (n := rs.length) (idx := i)).2 hi
    obtain ⟨ls, hls⟩ := (resolve_ok_iff (n := rs.length) (idx := j)).2 hj
    have : setMask (List.replicate rs.length false) ks true
        = setMask (List.replicate rs.length false) ls true := by
      apply List.ext_getElem?
      intro k
      by_cases hk : k < rs.length
      · rw [keepMask_get hks k hk, keepMask_get hls k hk, hij k hk]
      · have h1 := setMask_length (List.replicate rs.length false) ks true
        have h2 := setMask_length (List.replicate rs.length false) ls true
        rw [List.getElem?_eq_none (by simp at h1; omega), List.getElem?_eq_none (by simp at h2; omega)]
    simp only [hlen, hks, hls, this]

/-- C02, on the visible columns of the demo population. -/
example : ∃ (p : Pop Nat Nat Nat Nat Nat) (rs : _), Represents p rs ∧ p.individuals ≠ none ∧
    rs.length = 3 ∧ inRange rs.length [-1, 0, 2] = true ∧ inRange rs.length [3] = false :=
  ⟨_, [⟨1, 1, 1, none, none⟩, ⟨2, 2, 2, none, none⟩, ⟨3, 3, 3, none, none⟩],
    ⟨Or.inl (show (⟨0, 2, some [1, 2, 3], [1, 2, 3], [1, 2, 3], none, none⟩ : Pop Nat Nat Nat Nat Nat).individuals = _ from rfl), rfl, rfl,
      fun _ h => absurd rfl h, fun _ => rfl, fun _ h => by cases h⟩, by simp, rfl, by decide, by decide⟩

/-! ## C03 delete -/

/-- C03. In range: exactly the records `keep` would drop remain. -/
theorem c03_delete (p : Pop X O F C U) (rs) (h : Represents p rs) (hne : p.individuals ≠ none)
    (idx : List Int) (hr : inRange rs.length idx = true) :
    (p.delete idx).1 = .ok () ∧
    Represents (p.delete idx).2 (rowsAt (fun k => !names rs.length idx k) rs) ∧
    ((p.delete idx).2.individuals = none ↔ rowsAt (fun k => !names rs.length idx k) rs = []) :=
  have := delete_ok h hne idx hr
  ⟨this.1, this.2.1, this.2.2.2.2.1⟩

/-- C03. Out of range: IndexError and nothing changed. -/
theorem c03_delete_out_of_range (p : Pop X O F C U) (rs) (h : Represents p rs)
    (hne : p.individuals ≠ none) (idx : List Int) (hr : inRange rs.length idx = false) :
    p.delete idx = (.error .indexError, p) := by
  rw [delete_error h idx (Or.inr hr)]; simp [hne]

/-- C03. `keep` and `delete` with the same list split the population: what they leave is, together, a
rearrangement of the original records. -/
theorem c03_keep_delete_partition (p : Pop X O F C U) (rs) (h : Represents p rs)
    (hne : p.individuals ≠ none) (idx : List Int) (hr : inRange rs.length idx = true) :
    ∃ a b, Represents (p.keep idx).2 a ∧ Represents (p.delete idx).2 b ∧ (a ++ b).Perm rs ∧
      a.Sublist rs ∧ b.Sublist rs := by
  refine ⟨_, _, (c02_keep p rs h hne idx hr).2, (c03_delete p rs h hne idx hr).2.1, ?_, ?_, ?_⟩
  · unfold rowsAt
    rw [← List.map_append]
    have := (List.filter_append_perm (fun q : Rec X O F C U × Nat => names rs.length idx q.2) rs.zipIdx).map
      (fun q : Rec X O F C U × Nat => q.1)
    have e : rs.zipIdx.map (fun q : Rec X O F C U × Nat => q.1) = rs := List.zipIdx_map_fst 0 rs
    rw [e] at this
    simpa using this
  · have := (List.filter_sublist (l := rs.zipIdx) (p := fun q => names rs.length idx q.2)).map (fun q => q.1)
    have e : rs.zipIdx.map (fun q : Rec X O F C U × Nat => q.1) = rs := List.zipIdx_map_fst 0 rs
    rwa [e] at this
  · have := (List.filter_sublist (l := rs.zipIdx) (p := fun q => !names rs.length idx q.2)).map (fun q => q.1)
    have e : rs.zipIdx.map (fun q : Rec X O F C U × Nat => q.1) = rs := List.zipIdx_map_fst 0 rs
    rwa [e] at this

/-- C03. Deleting everybody and adding a batch gives exactly the batch (nothing of the old population
survives, in any column). -/
theorem c03_delete_all_then_add (p : Pop X O F C U) (rs) (h : Represents p rs)
    (hne : p.individuals ≠ none) (idx : List Int) (hr : inRange rs.length idx = true)
    (hall : ∀ k, k < rs.length → names rs.length idx k = true)
    (off : Batch X) (r : Results O F C U) (hev : EvalOK p.nCons off.rows.length r) :
    ((p.delete idx).2.add off (.ok r)).1 = .ok r ∧
    Represents ((p.delete idx).2.add off (.ok r)).2 (newRecs off.rows r) := by
  have hd := delete_ok h hne idx hr
  have hempty : rowsAt (fun k => !names rs.length idx k) rs = [] := by
    rw [rowsAt_congr _ (fun _ => false) rs (by intro k hk; simp [hall k hk])]
    simp [rowsAt]
  have hnone := hd.2.2.2.2.1.2 hempty
  have := add_spec (d := off.ndim) hd.2.1 off r (by rw [hd.2.2.1]; exact hev)
    (fun hh => absurd hnone hh) (Or.inl rfl)
  rw [hempty] at this
  exact ⟨(this.2.2.2.2 (Or.inl hnone)).1, by simpa using this.1⟩

example : inRange 2 [1, -2] = true ∧ (∀ k, k < 2 → names 2 [1, -2] k = true) ∧
    EvalOK 0 1 (⟨[7], [8], none, none⟩ : Results Nat Nat Nat Nat) :=
  ⟨by decide, by decide, ⟨rfl, rfl, fun _ => rfl, fun h => absurd rfl h, fun _ h => by cases h⟩⟩

/-! ## C04 add -/

/-- C04. `add` appends: old records first and unchanged, then the offspring with the values returned by
the evaluation; it returns the evaluation results (when uncertainty is not mixed, see C01). -/
theorem c04_add_appends (d : Nat) (p : Pop X O F C U) (rs) (h : Represents p rs) (off : Batch X)
    (r : Results O F C U) (hev : EvalOK p.nCons off.rows.length r)
    (hd : p.individuals ≠ none → p.ndim = d)
    (hnd : off.ndim = d ∨ (off.ndim + 1 = d ∧ off.rows.length = 1 ∧ p.individuals ≠ none))
    (hu : p.individuals = none ∨ r.uncertainity = none ∨ p.uncertainity ≠ none) :
    (p.add off (.ok r)).1 = .ok r ∧
    Represents (p.add off (.ok r)).2 (rs ++ newRecs off.rows r) ∧
    (newRecs off.rows r).map Rec.x = off.rows ∧ (newRecs off.rows r).map Rec.o = r.objectives ∧
    (newRecs off.rows r).map Rec.f = r.fitness := by
  have := add_spec h off r hev hd hnd
  have hp := newRecs_proj off.rows r hev
  exact ⟨(this.2.2.2.2 hu).1, this.1, hp.1, hp.2.1, hp.2.2.1⟩

/-- C04. A failing evaluation leaves the population as it was. -/
theorem c04_add_failure (p : Pop X O F C U) (off : Batch X) (e : Err) :
    p.add off (.error e) = (.error e, p) := rfl

/-- Adding a batch evaluated without uncertainty forgets all uncertainties known before
(`Population.py:169-170`). -/
theorem c04_uncertainty_forgotten (d : Nat) (p : Pop X O F C U) (rs) (h : Represents p rs)
    (off : Batch X) (r : Results O F C U) (hev : EvalOK p.nCons off.rows.length r)
    (hd : p.individuals ≠ none → p.ndim = d) (hnd : off.ndim = d) (hr : r.uncertainity = none) :
    (p.add off (.ok r)).2.uncertainity = none :=
  ((add_spec h off r hev hd (Or.inl hnd)).2.2.2.2 (Or.inr (Or.inl hr))).2.2 hr

example : EvalOK 1 2 (⟨[1, 2], [1, 2], some [0, 0], none⟩ : Results Nat Nat Nat Nat) :=
  ⟨rfl, rfl, fun h => by simp at h, fun _ => ⟨_, rfl, rfl⟩, fun _ h => by cases h⟩

/-! ## C05 replace -/

/-- C05. The named positions hold the given record, all others are as before. -/
theorem c05_replace (p : Pop X O F C U) (rs) (h : Represents p rs) (hne : p.individuals ≠ none)
    (idx : List Int) (x : X) (o : O) (f : F) (c : Option C) (u : Option U)
    (hr : inRange rs.length idx = true)
    (hc : p.nCons ≠ 0 → c ≠ none) (hu : p.uncertainity ≠ none → u ≠ none) :
    ∃ rs', (p.replace idx x o f c u).1 = .ok () ∧ Represents (p.replace idx x o f c u).2 rs' ∧
      rs'.length = rs.length ∧
      ∀ k, k < rs.length →
        rs'[k]? = if names rs.length idx k then some ⟨x, o, f, c, u⟩ else rs[k]? := by
  have := replace_ok h hne idx x o f c u hr hc hu
  refine ⟨_, this.1, this.2.1, rowsSet_length _ _ _, ?_⟩
  intro k hk
  simp only [rowsSet, List.getElem?_map, List.getElem?_zipIdx, Nat.zero_add, List.getElem?_eq_getElem hk,
    Option.map_some]
  split <;> rfl

/-- C05. Out of range: IndexError and nothing changed. -/
theorem c05_replace_out_of_range (p : Pop X O F C U) (rs) (h : Represents p rs)
    (hne : p.individuals ≠ none) (idx : List Int) (x : X) (o : O) (f : F) (c : Option C) (u : Option U)
    (hr : inRange rs.length idx = false) :
    p.replace idx x o f c u = (.error .indexError, p) := by
  rw [replace_error h idx x o f c u (Or.inr hr)]; simp [hne]

example : ((⟨0, 2, some [1, 2, 3], [1, 2, 3], [1, 2, 3], none, none⟩ : Pop Nat Nat Nat Nat Nat).replace
    [-1, 0] 9 8 7 none none).2.individuals = some [9, 2, 9] := by decide

/-! ## C06 repair -/

section Repair
variable {K : Type} [LinearOrder K]

/-- C06. With `lo ≤ hi` a component is moved to the nearest point of `[lo, hi]`. -/
theorem c06_repair_component (lo hi x : K) (h : lo ≤ hi) :
    repair1 lo hi (some x) = some (max lo (min x hi)) := by
  unfold repair1
  by_cases h1 : hi < x
  · have : ¬ x < lo := not_lt.2 (h.trans h1.le)
    simp [h1, this, min_eq_right h1.le, max_eq_right h]
  · by_cases h2 : x < lo
    · simp [h2, min_eq_left (not_lt.1 h1), max_eq_left h2.le]
    · simp [h1, h2, min_eq_left (not_lt.1 h1), max_eq_right (not_lt.1 h2)]

/-- C06. NaN components are not repaired. -/
theorem c06_repair_nan (lo hi : K) : repair1 lo hi none = none := rfl

/-- C06, the whole vector: same length; every component is the clamped component. -/
theorem c06_repair (lo hi : List K) (xs : List (Option K)) (h1 : lo.length = xs.length)
    (h2 : hi.length = xs.length) (hb : ∀ (k : Nat) a b, lo[k]? = some a → hi[k]? = some b → a ≤ b) :
    (repair lo hi xs).length = xs.length ∧
    ∀ (k : Nat) a b (x : Option K), lo[k]? = some a → hi[k]? = some b → xs[k]? = some x →
      (repair lo hi xs)[k]? = some (x.map (fun v => max a (min v b))) := by
  induction xs generalizing lo hi with
  | nil =>
    cases lo <;> cases hi <;> simp_all [repair]
  | cons x xs ih =>
    match lo, hi, h1, h2, hb with
    | [], _, h1, _, _ => simp at h1
    | _ :: _, [], _, h2, _ => simp at h2
    | l :: lo, hh :: hi, h1, h2, hb =>
      have ih' := ih lo hi (by simpa using h1) (by simpa using h2)
        (fun k a b ha hb' => hb (k + 1) a b (by simpa using ha) (by simpa using hb'))
      refine ⟨by simp [repair, ih'.1], ?_⟩
      intro k a b y ha hb' hy
      cases k with
      | zero =>
        simp only [List.getElem?_cons_zero, Option.some.injEq] at ha hb' hy
        subst ha hb' hy
        simp only [repair, List.getElem?_cons_zero, Option.some.injEq]
        cases x with
        | none => rfl
        | some v => exact c06_repair_component _ _ _ (hb 0 l hh rfl rfl)
      | succ k =>
        simp only [List.getElem?_cons_succ] at ha hb' hy
        simpa [repair] using ih'.2 k a b y ha hb' hy

/-- C06. A repaired component lies in the bounds, one already inside is unchanged, repairing again
changes nothing. -/
theorem c06_repair_in_bounds (lo hi x : K) (h : lo ≤ hi) :
    ∃ y, repair1 lo hi (some x) = some y ∧ lo ≤ y ∧ y ≤ hi ∧ (lo ≤ x → x ≤ hi → y = x) ∧
      repair1 lo hi (some y) = some y := by
  refine ⟨max lo (min x hi), c06_repair_component lo hi x h, le_max_left _ _,
    max_le h (min_le_right _ _), ?_, ?_⟩
  · intro h1 h2; rw [min_eq_left h2, max_eq_right h1]
  · rw [c06_repair_component _ _ _ h, min_eq_left (max_le h (min_le_right _ _)),
      max_eq_right (le_max_left _ _)]

example : repair [0, 0, 0] [1, 1, 1] [some 5, none, some (-3 : Int)] = [some 1, none, some 0] := by
  decide

end Repair

end Verif.Props
