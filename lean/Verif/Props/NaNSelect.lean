import Verif.Proofs.NaNSelect
import Verif.Props.Runs
import Verif.Props.MOEAD

/-!
# C110: one NaN fitness value ends an RVEA run; MOEA/D never lets go of one

`APD_Select.do` takes column minima with `np.amin`, which a NaN anywhere in the column makes NaN, and remembers them.  From then on
every translated fitness value of that objective is NaN, nobody has an angle or a distance, and nobody is selected.
-/

open Verif Verif.Spec Verif.Proofs
open _root_.Spec (Rec Represents EvalOK newRecs rowsAt names inRange Gens)
namespace Verif.Props
variable {X O V Q R : Type} {m n : Nat}

/-- The individual at position `j` violates no constraint. -/
def NoViolation (c : List (List ℝ)) (j : Nat) : Prop := ∀ v ∈ c.getD j [], v ≤ 0

theorem noViolation_iff (c : List (List ℝ)) (j : Nat) :
    (((c.getD j []).map (fun v => max 0 v)).all (fun v => decide (v = 0))) = true ↔ NoViolation c j := by
  unfold NoViolation
  simp [List.all_eq_true]

theorem filter_of_feasible (c : List (List ℝ)) (N j : Nat) (hN : 2 ≤ N) (hj : j < N) (h : NoViolation c j) :
    constraintFilter (some c) (List.range N) =
      (List.range N).filter (fun k => ((c.getD k []).map (fun v => max 0 v)).all (fun v => decide (v = 0))) := by
  unfold constraintFilter
  dsimp only
  rw [if_pos (by simp; omega), if_neg]
  intro hall
  have := (List.all_eq_true.1 hall) j (List.mem_range.2 hj)
  rw [(noViolation_iff c j).2 h] at this
  cases this

/-- C110. If an entry of objective `i` is NaN among the fitness values, in the remembered ideal point or in the problem's, then
`APD_Select.do` returns, the ideal point it leaves has NaN there, and at most one individual is selected: nobody if there are no
constraints and at least two individuals, nobody if two individuals are feasible, the one feasible individual if there is exactly one. -/
theorem c110_selection (values : List (NVec m)) (gammas : List (Option ℝ)) (pen : ℝ) (ideal popIdeal : NVec m)
    (fitness : List (NVec m)) (cons : Option (List (List ℝ))) (hv : values ≠ []) (hf : fitness ≠ []) (i : Fin m)
    (h : ideal i = none ∨ popIdeal i = none ∨ ∃ f ∈ fitness, f i = none) :
    ∃ sel ideal', apdDoN values gammas pen ideal popIdeal fitness cons = .ok (sel, ideal') ∧ ideal' i = none ∧ sel.length ≤ 1 ∧
      (cons = none → 2 ≤ fitness.length → sel = []) ∧
      (∀ c j k, cons = some c → j < k → k < fitness.length → NoViolation c j → NoViolation c k → sel = []) ∧
      (∀ c j, cons = some c → j < fitness.length → NoViolation c j → (∀ k, k < fitness.length → NoViolation c k → k = j) → sel = [j]) := by
  obtain ⟨ideal', h1, h2⟩ := apdDoN_nan values gammas pen ideal popIdeal fitness cons hv hf i h
  refine ⟨_, ideal', h2, h1, ?_, ?_, ?_, ?_⟩
  · split <;> simp
  · intro hc hn
    subst hc
    obtain ⟨q, hq⟩ : ∃ q, fitness.length = q + 2 := ⟨fitness.length - 2, by omega⟩
    rw [hq]
    simp only [constraintFilter]
    split
    · rename_i j hj
      have := congrArg List.length hj
      simp at this
    · rfl
  · intro c j k hc hjk hk hj1 hk1
    subst hc
    rw [filter_of_feasible c _ j (by omega) (by omega) hj1]
    split
    · rename_i a ha
      have e1 : j ∈ [a] := by
        rw [← ha]; exact List.mem_filter.2 ⟨List.mem_range.2 (by omega), (noViolation_iff c j).2 hj1⟩
      have e2 : k ∈ [a] := by
        rw [← ha]; exact List.mem_filter.2 ⟨List.mem_range.2 (by omega), (noViolation_iff c k).2 hk1⟩
      simp at e1 e2
      omega
    · rfl
  · intro c j hc hj hj1 huniq
    subst hc
    by_cases hone : fitness.length = 1
    · have : j = 0 := by omega
      subst this
      rw [hone]
      rfl
    · rw [filter_of_feasible c _ j (by omega) hj hj1]
      have : (List.range fitness.length).filter (fun k => ((c.getD k []).map (fun v => max 0 v)).all (fun v => decide (v = 0))) = [j] := by
        apply List.perm_singleton.1
        rw [List.perm_ext_iff_of_nodup ((List.nodup_range).filter _) (by simp)]
        intro k
        rw [List.mem_filter, List.mem_range, List.mem_singleton]
        constructor
        · rintro ⟨hk, hk1⟩
          exact huniq k hk ((noViolation_iff c k).1 hk1)
        · rintro rfl
          exact ⟨hj, (noViolation_iff c k).2 hj1⟩
      rw [this]

/-- C110. Where no entry is NaN the selection is the one of C29, C62. -/
theorem c110_same_without_nan (values : List (Vec m)) (gammas : List ℝ) (pen : ℝ) (ideal popIdeal : Vec m) (fitness : List (Vec m))
    (cons : Option (List (List ℝ))) (hg : gammas.length = values.length) :
    apdDoN (values.map (fun v i => some (v i))) (gammas.map some) pen (fun i => some (ideal i)) (fun i => some (popIdeal i))
        (fitness.map (fun f i => some (f i))) cons =
      (apdDo values gammas pen ideal popIdeal fitness cons).map (fun r => (r.1, fun i => some (r.2 i))) :=
  apdDoN_asN values gammas pen ideal popIdeal fitness cons hg

/-- The population with its numbers read as floats. -/
def floats (p : Pop X O (Vec m) (List ℝ) (Vec m)) : Pop X O (NVec m) (List ℝ) (NVec m) :=
  ⟨p.nCons, p.ndim, p.individuals, p.objectives, p.fitness.map (fun f i => some (f i)), p.constraint,
    p.uncertainity.map (fun u => u.map (fun f i => some (f i)))⟩

theorem zipWith_asN (op : ℝ → ℝ → ℝ) (opN : Option ℝ → Option ℝ → Option ℝ) (h : ∀ a b, opN (some a) (some b) = some (op a b))
    (l k : List (Vec m)) : List.zipWith (fun a b i => opN (a i) (b i)) (l.map asN) (k.map asN) =
      (List.zipWith (fun a b i => op (a i) (b i)) l k).map asN := by
  induction l generalizing k with
  | nil => rfl
  | cons a l ih =>
    cases k with
    | nil => rfl
    | cons b k =>
      rw [List.map_cons, List.map_cons, List.zipWith_cons_cons, List.zipWith_cons_cons, List.map_cons, ih]
      congr 1
      funext i
      exact h _ _

/-- C110. On populations without NaN the operator is the one of C62, for every selection type. -/
theorem c110_same_selection_without_nan (ty : SelType) (pen : Nat → ℝ) (popIdeal : Nat → Vec m) (clock : Nat) (v : RV m) (ideal : Vec m)
    (p : Pop X O (Vec m) (List ℝ) (Vec m)) (g : List ℝ) (hg : neighbouringAngles v.values = .ok g) :
    rveaSelectN ty pen (fun c i => some (popIdeal c i)) (fun w : RV m => w.values.map (fun f i => some (f i))) (fun _ => g.map some)
        clock v (fun i => some (ideal i)) (floats p) =
      ((rveaSelect ty pen popIdeal clock v ideal p).1, (rveaSelect ty pen popIdeal clock v ideal p).2.1,
        fun i => some ((rveaSelect ty pen popIdeal clock v ideal p).2.2 i)) := by
  have hl : g.length = v.values.length := by
    unfold neighbouringAngles at hg
    split at hg
    · cases hg
    · injection hg with hg
      rw [← hg, List.length_map]
  have hc : calcFitnessN ty (floats p).fitness (floats p).uncertainity = (calcFitness ty p.fitness p.uncertainity).map (fun l => l.map asN) := by
    cases ty with
    | mean => rfl
    | other => rfl
    | optimistic =>
      simp only [calcFitnessN, calcFitness, floats]
      cases p.uncertainity with
      | none => rfl
      | some u => exact congrArg Except.ok (zipWith_asN (fun a b => a - b) nanSub (fun _ _ => rfl) p.fitness u)
    | robust =>
      simp only [calcFitnessN, calcFitness, floats]
      cases p.uncertainity with
      | none => rfl
      | some u => exact congrArg Except.ok (zipWith_asN (fun a b => a + b) nanAdd (fun _ _ => rfl) p.fitness u)
  unfold rveaSelectN rveaSelect
  rw [hc, hg]
  cases calcFitness ty p.fitness p.uncertainity with
  | error e => rfl
  | ok fit =>
    have h := apdDoN_asN v.values g (pen clock) ideal (popIdeal clock) fit p.constraint hl
    dsimp only [Except.map] at h ⊢
    have h' : apdDoN (v.values.map (fun f i => some (f i))) (g.map some) (pen clock) (fun i => some (ideal i)) (fun i => some (popIdeal clock i))
        (fit.map asN) (floats p).constraint = _ := h
    rw [h']
    cases apdDo v.values g (pen clock) ideal (popIdeal clock) fit p.constraint with
    | error e => rfl
    | ok r => rfl

/-- C110. The same when selection takes uncertainties into account: a NaN among the fitness values or the uncertainties (one row of each
per individual) has the effect of `c110_selection` -- here without constraints and with at least two individuals. -/
theorem c110_nan_uncertainty (ty : SelType) (hty : ty = .optimistic ∨ ty = .robust) (pen : Nat → ℝ) (popIdeal : Nat → NVec m)
    (vals : V → List (NVec m)) (gam : V → List (Option ℝ)) (clock : Nat) (v : V) (ideal : NVec m)
    (p : Pop X O (NVec m) (List ℝ) (NVec m)) (us : List (NVec m)) (hu : p.uncertainity = some us) (hl : us.length = p.fitness.length)
    (hc : p.constraint = none) (h2 : 2 ≤ p.fitness.length) (hv : vals v ≠ []) (i : Fin m)
    (hnan : (∃ f ∈ p.fitness, f i = none) ∨ ∃ f ∈ us, f i = none) :
    ∃ ideal', rveaSelectN ty pen popIdeal vals gam clock v ideal p = (.ok [], v, ideal') ∧ ideal' i = none := by
  obtain ⟨op, hop, hfit⟩ : ∃ op : Option ℝ → Option ℝ → Option ℝ, (∀ a, op none a = none ∧ op a none = none) ∧
      calcFitnessN ty p.fitness p.uncertainity = .ok (List.zipWith (fun a b i => op (a i) (b i)) p.fitness us) := by
    rcases hty with rfl | rfl
    · exact ⟨nanSub, fun a => ⟨nanSub_none_left a, nanSub_none_right a⟩, by rw [hu]; rfl⟩
    · exact ⟨nanAdd, fun a => ⟨by cases a <;> rfl, by cases a <;> rfl⟩, by rw [hu]; rfl⟩
  have hlen : (List.zipWith (fun a b i => op (a i) (b i)) p.fitness us).length = p.fitness.length := by
    rw [List.length_zipWith, hl, Nat.min_self]
  have key : ∃ f ∈ List.zipWith (fun (a b : NVec m) i => op (a i) (b i)) p.fitness us, f i = none := by
    rcases hnan with ⟨f, hf, h⟩ | ⟨f, hf, h⟩
    · obtain ⟨k, hk⟩ := List.getElem?_of_mem hf
      have hk' : k < us.length := by rw [hl]; exact (List.getElem?_eq_some_iff.1 hk).1
      refine ⟨fun j => op (f j) (us[k] j), List.mem_of_getElem? (i := k) ?_, by dsimp only; rw [h]; exact (hop _).1⟩
      rw [List.getElem?_zipWith, hk, List.getElem?_eq_getElem hk']
    · obtain ⟨k, hk⟩ := List.getElem?_of_mem hf
      have hk' : k < p.fitness.length := by rw [← hl]; exact (List.getElem?_eq_some_iff.1 hk).1
      refine ⟨fun j => op (p.fitness[k] j) (f j), List.mem_of_getElem? (i := k) ?_, by dsimp only; rw [h]; exact (hop _).2⟩
      rw [List.getElem?_zipWith, hk, List.getElem?_eq_getElem hk']
  obtain ⟨sel, id', e1, e2, -, e3, -⟩ := c110_selection (vals v) (gam v) (pen clock) ideal (popIdeal clock) _ none hv
    (by intro e; rw [e] at hlen; simp at hlen; omega) i (.inr (.inr key))
  refine ⟨id', ?_, e2⟩
  unfold rveaSelectN
  rw [hfit, hc]
  dsimp only
  rw [e1, e3 rfl (by rw [hlen]; exact h2)]
  rfl

/-- C110. An ideal point that has become NaN in an objective stays so, whatever is selected from afterwards, whether or not selection
returns: the next populations need not contain any NaN. -/
theorem c110_ideal_stays_nan (ty : SelType) (pen : Nat → ℝ) (popIdeal : Nat → NVec m) (vals : V → List (NVec m))
    (gam : V → List (Option ℝ)) (i : Fin m) (calls : List (Nat × V × Pop X O (NVec m) (List ℝ) (NVec m))) (ideal : NVec m)
    (h : ideal i = none) :
    calls.foldl (fun z c => (rveaSelectN ty pen popIdeal vals gam c.1 c.2.1 z c.2.2).2.2) ideal i = none := by
  induction calls generalizing ideal with
  | nil => exact h
  | cons c cs ih =>
    rw [List.foldl_cons]
    apply ih
    unfold rveaSelectN
    split
    · exact h
    · rename_i fit _
      split
      · exact h
      · rename_i sel id' hd
        unfold apdDoN at hd
        split at hd
        · cases hd
        · dsimp only at hd
          split at hd
          · cases hd
          · injection hd with hd
            have := congrArg Prod.snd hd
            dsimp only at this
            rw [← this]
            simp [newIdealN, h, nanMin2_none_left]

/-- A generation of RVEA with a NaN in objective `i` somewhere. -/
theorem nextGen_nan {d : Nat} (ops : Ops X O (NVec m) (List ℝ) (NVec m) V (NVec m) Q R) (pen : Nat → ℝ) (popIdeal : Nat → NVec m)
    (vals : V → List (NVec m)) (gam : V → List (Option ℝ)) (hsel : ops.select = rveaSelectN .mean pen popIdeal vals gam)
    (s : EA X O (NVec m) (List ℝ) (NVec m) V (NVec m) Q) (rs : List (Rec X O (NVec m) (List ℝ) (NVec m))) (hr : Represents s.pop rs)
    (hdim : s.pop.ndim = d) (hnd : s.cfg.saveND = false) (hnc : s.pop.nCons = 0) (hv : vals s.vec ≠ []) (off : Batch X)
    (hmate : ops.mate s.clock s.pop = .ok off) (hod : off.ndim = d) (r : Results O (NVec m) (List ℝ) (NVec m))
    (hevr : ops.evaluate (s.clock + 1) s.cfg.useSurr off = .ok r) (ho : EvalOK 0 off.rows.length r)
    (hu : s.pop.uncertainity = none ↔ r.uncertainity = none) (i : Fin m) (h2 : 2 ≤ rs.length + off.rows.length)
    (hnan : s.sel i = none ∨ (∃ q ∈ rs, q.f i = none) ∨ ∃ f ∈ r.fitness, f i = none) :
    ∃ t, EA.nextGen ops s = (.ok (), t) ∧ Represents t.pop [] ∧ t.pop.individuals = some [] ∧ t.sel i = none ∧ t.gen = s.gen + 1 ∧
      t.cfg = s.cfg ∧ t.vec = s.vec := by
  have hadd := add_spec (d := d) hr off r (by rw [hnc]; exact ho) (fun _ => hdim) (.inl hod)
  obtain ⟨a1, a2, a3, a4, a5⟩ := hadd
  obtain ⟨a5, a6⟩ := a5 (by
    by_cases h : r.uncertainity = none
    · exact .inr (.inl h)
    · exact .inr (.inr (fun e => h (hu.1 e))))
  have hpa : ({ s with clock := s.clock + 1 } : EA X O (NVec m) (List ℝ) (NVec m) V (NVec m) Q).popAdd ops off =
        (.ok r, { s with pop := (s.pop.add off (.ok r)).2, clock := s.clock + 1 + 1,
                         trueEvals := s.trueEvals + (if s.cfg.useSurr then 0 else off.rows.length), log := s.log ++ [(off.rows, r)] }) := by
    unfold EA.popAdd
    simp only [hevr, a5, evLog]
  have hlen : (rs ++ newRecs off.rows r).length = rs.length + off.rows.length := by
    rw [List.length_append, newRecs_length _ _ 0 ho]
  have hproj := (newRecs_proj off.rows r ho).2.2.1
  have hnan' : s.sel i = none ∨ popIdeal (s.clock + 1 + 1) i = none ∨ ∃ f ∈ (rs ++ newRecs off.rows r).map Rec.f, f i = none := by
    rcases hnan with h | ⟨q, hq, h⟩ | ⟨f, hf, h⟩
    · exact .inl h
    · exact .inr (.inr ⟨_, List.mem_map.2 ⟨q, by simp [hq], rfl⟩, h⟩)
    · refine .inr (.inr ⟨f, ?_, h⟩)
      rw [List.map_append, hproj]
      simp [hf]
  unfold EA.nextGen
  rw [hmate]
  dsimp only
  rw [hpa]
  dsimp only
  rw [hnd]
  simp only [Bool.false_eq_true, if_false]
  obtain ⟨sel, id', e1, e2, -, e3, -⟩ := c110_selection (vals s.vec) (gam s.vec) (pen (s.clock + 1 + 1)) s.sel (popIdeal (s.clock + 1 + 1))
    ((rs ++ newRecs off.rows r).map Rec.f) none hv (by
      intro e
      have := congrArg List.length e
      rw [List.length_map, hlen, List.length_nil] at this
      omega) i hnan'
  have hs : ops.select (s.clock + 1 + 1) s.vec s.sel (s.pop.add off (.ok r)).2 = (.ok [], s.vec, id') := by
    rw [hsel]
    unfold rveaSelectN
    rw [a1.fits, a1.nocons (by rw [a2]; exact hnc)]
    simp only [calcFitnessN]
    rw [e1, e3 rfl (by rw [List.length_map, hlen]; exact h2)]
    rfl
  rw [hs]
  dsimp only
  obtain ⟨k1, k2, -, -, k5, -⟩ := keep_ok (p := (s.pop.add off (.ok r)).2) a1 a4 [] (by simp [inRange])
  have hrows : rowsAt (names (rs ++ newRecs off.rows r).length []) (rs ++ newRecs off.rows r) = [] := by
    simp [rowsAt, names]
  rw [hrows] at k2
  generalize (s.pop.add off (.ok r)).2.keep [] = kk at k1 k2 k5
  obtain ⟨kk1, p⟩ := kk
  dsimp only at k1 k2 k5
  subst k1
  dsimp only
  have hi : p.individuals = some [] := by
    rcases k2.inds with h | ⟨h, -⟩
    · exact h
    · exact absurd h k5
  refine ⟨_, rfl, ?_⟩
  split <;> exact ⟨k2, hi, e2, rfl, rfl, rfl⟩

/-- The three facts about a population without individuals. -/
theorem barren (ops : Ops (Row n) O (NVec m) (List ℝ) (NVec m) V (NVec m) Q R) (pen : Nat → ℝ) (popIdeal : Nat → NVec m)
    (vals : V → List (NVec m)) (gam : V → List (Option ℝ)) (ty : SelType) (hsel : ops.select = rveaSelectN ty pen popIdeal vals gam)
    (lo hi : Fin n → ℝ) (draw : Nat → MateDraw n) (hmate : ops.mate = mateAll lo hi draw) (hsh : ∀ clk l, ((draw clk).shuffle l).Perm l)
    (nc : Nat) (unc : Bool) (hp : ProblemOK ops nc unc) : Barren ops := by
  refine ⟨?_, ?_, ?_⟩
  · intro clk p b hin hb
    rw [hmate] at hb
    obtain ⟨ids, -, -, off, hoff, hlen⟩ := c40_sbx_whole_population 1 30 (draw clk).shuffle (hsh clk) (draw clk).pairs ([] : List (Row n))
    simp only [mateAll, hin, mateDefault, hoff] at hb
    injection hb with hb
    rw [← hb]
    have : off = [] := List.length_eq_zero_iff.1 (by simpa using hlen)
    subst this
    rfl
  · intro clk surr b r hr hb
    have := (hp clk surr b r hr).1.fits
    rw [hb] at this
    exact List.length_eq_zero_iff.1 this
  · intro clk v t p hf
    rw [hsel]
    unfold rveaSelectN
    rw [hf]
    cases ty with
    | mean => exact ⟨_, _, _, rfl⟩
    | other => exact ⟨_, _, _, rfl⟩
    | optimistic => cases p.uncertainity <;> exact ⟨_, _, _, rfl⟩
    | robust => cases p.uncertainity <;> exact ⟨_, _, _, rfl⟩

/-- C110. RVEA without constraints and without an archive of non-dominated solutions.  A generation that reaches selection with a NaN in
objective `i` -- in an individual of the population, in an offspring, or in the ideal point remembered from earlier -- completes, and
leaves an empty population.  Over every later history of calls, whatever the user does about the exceptions, the population remains
empty, no further generation is ever counted, every attempt at one raises, and so does every `iterate()` that has generations to do. -/
theorem c110_one_nan_ends_the_run (ops : Ops (Row n) O (NVec m) (List ℝ) (NVec m) V (NVec m) Q R) (pen : Nat → ℝ)
    (popIdeal : Nat → NVec m) (vals : V → List (NVec m)) (gam : V → List (Option ℝ))
    (hsel : ops.select = rveaSelectN .mean pen popIdeal vals gam) (lo hi : Fin n → ℝ) (draw : Nat → MateDraw n)
    (hmate : ops.mate = mateAll lo hi draw) (hsh : ∀ clk l, ((draw clk).shuffle l).Perm l) (unc : Bool) (hp : ProblemOK ops 0 unc)
    (s : EA (Row n) O (NVec m) (List ℝ) (NVec m) V (NVec m) Q) (rs : List (Rec (Row n) O (NVec m) (List ℝ) (NVec m)))
    (hr : Represents s.pop rs) (hdim : s.pop.ndim = 2) (hnd : s.cfg.saveND = false) (hnc : s.pop.nCons = 0)
    (hloc : s.cfg.location ≠ some .problem) (hun : s.pop.uncertainity = none ↔ unc = false) (hv : vals s.vec ≠ [])
    (off : Batch (Row n)) (hoff : ops.mate s.clock s.pop = .ok off) (r : Results O (NVec m) (List ℝ) (NVec m))
    (hevr : ops.evaluate (s.clock + 1) s.cfg.useSurr off = .ok r) (i : Fin m) (h2 : 2 ≤ rs.length + off.rows.length)
    (hnan : s.sel i = none ∨ (∃ q ∈ rs, q.f i = none) ∨ ∃ f ∈ r.fitness, f i = none) :
    ∃ t, EA.nextGen ops s = (.ok (), t) ∧ t.gen = s.gen + 1 ∧ Represents t.pop [] ∧ t.sel i = none ∧
      ∀ cs : List (Call R), (t.calls ops cs).pop.individuals = some [] ∧ (t.calls ops cs).pop.fitness = [] ∧
        (t.calls ops cs).gen = s.gen + 1 ∧ (∃ e, (EA.nextGen ops (t.calls ops cs)).1 = .error e) ∧
        ∀ pref, 0 < (t.calls ops cs).cfg.nGen → (t.calls ops cs).checkFE = true → ∃ e, ((t.calls ops cs).iterate ops pref).1 = .error e := by
  have hod : off.ndim = 2 := by
    rw [hmate] at hoff
    unfold mateAll at hoff
    split at hoff
    · cases hoff
    · split at hoff
      · cases hoff
      · injection hoff with hoff
        rw [← hoff]
  obtain ⟨ho, hu⟩ := hp _ _ _ _ hevr
  obtain ⟨t, t1, t2, t3, t4, t5, t6, -⟩ := nextGen_nan (d := 2) ops pen popIdeal vals gam hsel s rs hr hdim hnd hnc hv off hoff hod r hevr ho
    (hun.trans hu.symm) i h2 hnan
  have hb := barren ops pen popIdeal vals gam .mean hsel lo hi draw hmate hsh 0 unc hp
  have hg : Gone (s.gen + 1) t := ⟨t3, by simpa using t2.fits, t5, by rw [t6]; exact hloc⟩
  refine ⟨t, t1, t5, t2, t4, fun cs => ?_⟩
  have h := Gone.calls ops hb cs t hg
  exact ⟨h.inds, h.fits, h.gen, (nextGen_gone ops hb _ h).2, fun pref => (h.iterate ops hb pref).2⟩

/-! ## MOEA/D -/

section moead
variable {K F C U S : Type} [LinearOrder K] [Zero K] {X O : Type}

theorem step_holds_on (ops : Ops X O F C U (MoeadVec m K) S Q R) (mo : MoeadOps m K X O F C U) (useRepair : Bool) (i : Nat)
    (s t : EA X O F C U (MoeadVec m K) S Q) (rs : List (Rec X O F C U)) (nCons : Nat)
    (hev : ∀ n sur b r, ops.evaluate n sur b = .ok r → EvalOK nCons b.rows.length r)
    (hrep : Represents s.pop rs) (hne : rs ≠ []) (hd : 0 < s.pop.ndim) (hn : s.pop.nCons = nCons)
    (h : moeadStep ops mo useRepair i s = (.ok (), t)) :
    ∃ rs', Represents t.pop rs' ∧ 0 < t.pop.ndim ∧ t.pop.nCons = nCons ∧ rs'.length = rs.length ∧
      ∀ (k : Nat) (r : Rec X O F C U), rs[k]? = some r → (∀ c w, mo.sf r.f w (mo.ideal c) = none) → rs'[k]? = some r := by
  obtain ⟨rs', a, nb, p1, p2, x0, xs, h1, h2, h8, h9, h3, h4, h5, h6, -, h7⟩ :=
    moeadStep_spec ops mo useRepair i s t rs nCons hev hrep hne hd hn h
  refine ⟨rs', h1, h8, h9, h2, fun k r hk hnan => (h7 k r hk).2 ?_⟩
  rintro ⟨-, x, y, -, hy, -⟩
  unfold subValue at hy
  cases hp : s.vec.planar[k]? with
  | none => rw [hp] at hy; cases hy
  | some w => rw [hp, Option.bind_some, hnan] at hy; cases hy

theorem steps_hold_on (ops : Ops X O F C U (MoeadVec m K) S Q R) (mo : MoeadOps m K X O F C U) (useRepair : Bool) (nCons : Nat)
    (hev : ∀ n sur b r, ops.evaluate n sur b = .ok r → EvalOK nCons b.rows.length r) (is : List Nat)
    (s t : EA X O F C U (MoeadVec m K) S Q) (rs : List (Rec X O F C U))
    (hrep : Represents s.pop rs) (hne : rs ≠ []) (hd : 0 < s.pop.ndim) (hn : s.pop.nCons = nCons)
    (h : moeadSteps ops mo useRepair is s = (.ok (), t)) :
    ∃ rs', Represents t.pop rs' ∧ 0 < t.pop.ndim ∧ t.pop.nCons = nCons ∧ rs'.length = rs.length ∧
      ∀ (k : Nat) (r : Rec X O F C U), rs[k]? = some r → (∀ c w, mo.sf r.f w (mo.ideal c) = none) → rs'[k]? = some r := by
  induction is generalizing s rs with
  | nil =>
    simp only [moeadSteps, Prod.mk.injEq, true_and] at h
    subst h
    exact ⟨rs, hrep, hd, hn, rfl, fun k r hk _ => hk⟩
  | cons i is ih =>
    simp only [moeadSteps] at h
    split at h
    · simp at h
    · rename_i u s1 hs1
      obtain ⟨rs1, a1, a2, a3, a4, a5⟩ := step_holds_on ops mo useRepair i s s1 rs nCons hev hrep hne hd hn hs1
      have hne1 : rs1 ≠ [] := by
        intro h0; rw [h0] at a4
        exact hne (List.length_eq_zero_iff.1 a4.symm)
      obtain ⟨rs2, b1, b2, b3, b4, b5⟩ := ih s1 rs1 a1 hne1 a2 a3 h
      exact ⟨rs2, b1, b2, b3, b4.trans a4, fun k r hk hnan => b5 k r (a5 k r hk hnan) hnan⟩

/-- C110 (MOEA/D). Over any number of completed generations, whatever offspring are made: an individual whose scalarised value is NaN
(its fitness or the ideal point holds a NaN, `hnan`) is never replaced; it is still there, at the same place, however good the
offspring. -/
theorem c110_moead_never_replaces_nan (ops : Ops X O F C U (MoeadVec m K) S Q R) (mo : MoeadOps m K X O F C U) (useRepair : Bool)
    (popSize nCons : Nat) (hev : ∀ n sur b r, ops.evaluate n sur b = .ok r → EvalOK nCons b.rows.length r)
    {cond : EA X O F C U (MoeadVec m K) S Q → Prop} {g : Nat} {s t : EA X O F C U (MoeadVec m K) S Q}
    (hg : Gens (moeadNextGen ops mo useRepair popSize) cond g s t) (rs : List (Rec X O F C U)) (hrep : Represents s.pop rs)
    (hne : rs ≠ []) (hd : 0 < s.pop.ndim) (hn : s.pop.nCons = nCons) :
    ∃ rs', Represents t.pop rs' ∧ rs'.length = rs.length ∧
      ∀ (k : Nat) (r : Rec X O F C U), rs[k]? = some r → (∀ c w, mo.sf r.f w (mo.ideal c) = none) → rs'[k]? = some r := by
  induction hg generalizing rs with
  | zero s => exact ⟨rs, hrep, rfl, fun k r hk _ => hk⟩
  | @succ k s t u hc hb hg ih =>
    unfold moeadNextGen at hb
    split at hb
    · simp at hb
    · rename_i u1 s1 hs1
      simp only [Prod.mk.injEq, true_and] at hb
      obtain ⟨rs1, a1, a2, a3, a4, a5⟩ := steps_hold_on ops mo useRepair nCons hev _ s s1 rs hrep hne hd hn hs1
      have hne1 : rs1 ≠ [] := by
        intro h0; rw [h0] at a4
        exact hne (List.length_eq_zero_iff.1 a4.symm)
      subst hb
      obtain ⟨rs2, b1, b2, b3⟩ := ih rs1 a1 hne1 a2 a3
      exact ⟨rs2, b1, b2.trans a4, fun k r hk hnan => b3 k r (a5 k r hk hnan) hnan⟩

/-- C110 (MOEA/D). Once the ideal point holds a NaN, so that no scalarised value is a number any more, the population is frozen: after any
number of completed generations it is the same list of records, while `pop_size` further vectors have been evaluated in each (`fe`). -/
theorem c110_moead_frozen_by_nan_ideal (ops : Ops X O F C U (MoeadVec m K) S Q R) (mo : MoeadOps m K X O F C U) (useRepair : Bool)
    (popSize nCons : Nat) (hev : ∀ n sur b r, ops.evaluate n sur b = .ok r → EvalOK nCons b.rows.length r)
    {cond : EA X O F C U (MoeadVec m K) S Q → Prop} {g : Nat} {s t : EA X O F C U (MoeadVec m K) S Q}
    (hg : Gens (moeadNextGen ops mo useRepair popSize) cond g s t) (rs : List (Rec X O F C U)) (hrep : Represents s.pop rs)
    (hne : rs ≠ []) (hd : 0 < s.pop.ndim) (hn : s.pop.nCons = nCons) (hnan : ∀ c f w, mo.sf f w (mo.ideal c) = none) :
    Represents t.pop rs ∧ t.fe = s.fe + (if s.cfg.useSurr then 0 else g * popSize) ∧ t.gen = s.gen + g := by
  obtain ⟨rs', h1, h2, h3⟩ := c110_moead_never_replaces_nan ops mo useRepair popSize nCons hev hg rs hrep hne hd hn
  have e : rs' = rs := by
    apply List.ext_getElem?
    intro k
    cases hk : rs[k]? with
    | none =>
      rw [List.getElem?_eq_none_iff] at hk ⊢
      omega
    | some r => exact h3 k r hk (fun c w => hnan c _ _)
  subst e
  refine ⟨h1, ?_⟩
  clear h1 h2 h3 hrep hne hd hn hnan
  induction hg with
  | zero s => simp
  | @succ k s t u hc hb hg ih =>
    have hc := (moead_counts ops mo useRepair popSize).ok _ _ hb
    obtain ⟨i1, i2⟩ := ih
    have c1 : t.cfg = s.cfg := hc.1
    refine ⟨?_, ?_⟩
    · rw [i1, hc.2.2.2.2.1, c1]
      split
      · omega
      · rw [Nat.add_mul]; omega
    · rw [i2, hc.2.2.1]; omega

end moead

/-! ## The hypotheses can be met -/

/-- Draws that leave the order alone and mutate nothing in particular. -/
noncomputable def stillDraw : MateDraw 1 := ⟨id, fun _ => ⟨fun _ => 0, fun _ => false, fun _ => 0⟩, fun _ _ => 1, fun _ _ => 0⟩

/-- RVEA on a problem with one objective whose evaluation is NaN for every vector. -/
noncomputable def nanOps : Ops (Row 1) Unit (NVec 1) (List ℝ) (NVec 1) Unit (NVec 1) Unit Unit where
  adapt v _ := v
  respond _ _ v _ _ := (.ok (), v)
  mate := mateAll (fun _ => 0) (fun _ => 1) (fun _ => stillDraw)
  evaluate _ _ b := .ok ⟨b.rows.map (fun _ => ()), b.rows.map (fun _ _ => none), none, none⟩
  select := rveaSelectN .mean (fun _ => 0) (fun _ _ => some 0) (fun _ => [fun _ => some 1]) (fun _ => [some 1])
  newId _ := 0
  probManage q _ _ := (.ok (), q)
  probReeval q o := (o.map (fun _ _ => none), q)
  dom _ _ := false
  nonDom l := l.map (fun _ => true)

/-- Two individuals with numbers for fitness, one generation per iteration. -/
noncomputable def nanDemo : EA (Row 1) Unit (NVec 1) (List ℝ) (NVec 1) Unit (NVec 1) Unit :=
  ⟨⟨false, none, 1, 1, 0, false, false, false⟩, 0,
    ⟨0, 2, some [fun _ => some 0, fun _ => some 1], [(), ()], [fun _ => some 1, fun _ => some 2], none, none⟩,
    (), fun _ => some 0, (), 0, 0, 0, 2, none, none, false, false, [], none, 2, []⟩

/-- The population disappears in the first generation, and `iterate()` raises ever after. -/
example : ∃ t, EA.nextGen nanOps nanDemo = (.ok (), t) ∧ Represents t.pop [] ∧ ∀ cs, (t.calls nanOps cs).gen = 1 := by
  obtain ⟨ids, -, -, off, hoff, hlen⟩ := c40_sbx_whole_population 1 30 stillDraw.shuffle (fun l => List.Perm.refl l) stillDraw.pairs
    [(fun _ => some 0 : Row 1), fun _ => some 1]
  have hm : nanOps.mate nanDemo.clock nanDemo.pop =
      .ok ⟨2, bpDo (1 / ((1 : Nat) : ℝ)) 20 (fun _ => 0) (fun _ => 1) stillDraw.k stillDraw.miu off⟩ := by
    simp only [nanOps, nanDemo, mateAll, mateDefault, hoff]
  obtain ⟨t, h1, -, h3, -, h5⟩ := c110_one_nan_ends_the_run nanOps _ _ _ _ rfl _ _ _ rfl (fun _ l => List.Perm.refl l) false
    (by
      intro clk surr b r hr
      injection hr with hr
      rw [← hr]
      exact ⟨⟨by simp, by simp, fun _ => rfl, fun h => absurd rfl h, fun us h => by cases h⟩, by simp⟩)
    nanDemo [⟨fun _ => some 0, (), fun _ => some 1, none, none⟩, ⟨fun _ => some 1, (), fun _ => some 2, none, none⟩]
    ⟨.inl rfl, rfl, rfl, fun _ h => absurd rfl h, fun _ => rfl, fun us h => by cases h⟩ rfl rfl rfl (by simp [nanDemo]) (by simp [nanDemo])
    (by simp) _ hm _ rfl 0 (by simp) (.inr (.inr (by
      refine ⟨fun _ => none, ?_, rfl⟩
      simp only [List.mem_map, and_true]
      have : (bpDo (1 / ((1 : Nat) : ℝ)) 20 (fun _ => 0) (fun _ => 1) stillDraw.k stillDraw.miu off).length = 2 := by
        simp [bpDo, hlen]
      exact List.exists_mem_of_length_pos (by omega))))
  exact ⟨t, h1, h3, fun cs => (h5 cs).2.2.1⟩

/-- Exactly one feasible individual is kept although its fitness is not a number either. -/
example : ∃ ideal', apdDoN [(fun _ => some 1 : NVec 1)] [some 1] 0 (fun _ => some 0) (fun _ => some 0) [fun _ => some 3, fun _ => none]
    (some [[1], [-1]]) = .ok ([1], ideal') ∧ ideal' 0 = none := by
  obtain ⟨sel, id', h1, h2, -, -, -, h3⟩ := c110_selection [(fun _ => some 1 : NVec 1)] [some 1] 0 (fun _ => some 0) (fun _ => some 0)
    [fun _ => some 3, fun _ => none] (some [[1], [-1]]) (by simp) (by simp) 0 (.inr (.inr ⟨fun _ => none, by simp, rfl⟩))
  have := h3 [[1], [-1]] 1 rfl (by simp) (by intro v hv; simp at hv; subst hv; norm_num) (by
    intro k hk hno
    match k, hk with
    | 0, _ => exact absurd (hno 1 (by simp)) (by norm_num)
    | 1, _ => rfl)
  subst this
  exact ⟨id', h1, h2⟩

/-- The small MOEA/D of `Props/MOEAD.lean` where the fitness 60 counts as NaN: two generations replace the others, not that one. -/
def nanMoead : MoeadOps 1 Nat Nat Nat Nat Nat Nat := { demoMoead with sf := fun f w _ => if f = 60 then none else some (f * w 0) }

example :
    let t := (moeadNextGen demoMoeadOps nanMoead true 3 (moeadNextGen demoMoeadOps nanMoead true 3 demoMoeadState).2).2
    (t.pop.individuals, t.fe, t.gen) = (some [48, 60, 38], 9, 2) := by decide +kernel

/-- And with a NaN ideal point nothing changes, at three evaluations per generation. -/
example : Represents (moeadNextGen demoMoeadOps { demoMoead with sf := fun _ _ _ => none } true 3 demoMoeadState).2.pop
    [⟨50, 50, 50, none, none⟩, ⟨60, 60, 60, none, none⟩, ⟨40, 40, 40, none, none⟩] := by
  refine (c110_moead_frozen_by_nan_ideal demoMoeadOps { demoMoead with sf := fun _ _ _ => none } true 3 0 (cond := fun _ => True) (s := demoMoeadState)
    (g := 1) ?_ (.succ trivial ?_ (.zero _)) _ ⟨Or.inl rfl, rfl, rfl, fun _ h => absurd rfl h, fun _ => rfl, fun us h => by cases h⟩ (by simp) (by decide) rfl
    (fun _ _ _ => rfl)).1
  · intro n sur b r h
    injection h with h
    subst h
    exact ⟨rfl, rfl, fun _ => rfl, fun h => absurd rfl h, fun us h => by cases h⟩
  · exact Prod.ext_iff.2 ⟨by rfl, rfl⟩

end Verif.Props
