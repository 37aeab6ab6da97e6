import Verif.Proofs.InfSelect
import Verif.Props.NaNSelect

/-!
# C113: what an infinite objective value does to RVEA

Simulations that fail are often reported by an infinite objective value.  During an iteration that is harmless: the selection passes over
such individuals and chooses among the others what it would have chosen without them.  At the beginning of an iteration it is not:
the reference vectors are scaled by the range of the population, which is infinite, and `0 * inf` and `inf / inf` are NaN.
-/

open Verif Verif.Spec Verif.Proofs
open _root_.Spec (Rec Represents EvalOK newRecs rowsAt names inRange Gens)
namespace Verif.Props
variable {X O U V Q R : Type} {m n : Nat}

/-- The float is a number: neither infinite nor NaN. -/
def IsNumber (a : XF) : Prop := ∃ x : ℝ, a = some (x : EReal)

theorem notNumber_iff (a : XF) : NotNumber a ↔ ¬ IsNumber a := by
  unfold NotNumber IsNumber
  cases a with
  | none => simp
  | some a =>
    induction a with
    | bot => simp
    | top => simp
    | coe a => simp

/-- C113. One fitness value that is infinite or NaN in the population given to `adapt`, and every reference vector has NaN in that
objective afterwards, whatever the other values are. -/
theorem c113_adapt (s : XRV m) (fitness : List (XVec m)) (i : Fin m) (h : ∃ f ∈ fitness, ¬ IsNumber (f i)) :
    ∃ t, s.adapt fitness = .ok t ∧ t.init = s.init ∧ t.values.length = s.init.length ∧ ∀ v ∈ t.values, v i = none := by
  obtain ⟨f, hf, h⟩ := h
  exact adapt_notNumber s fitness i ⟨f, hf, (notNumber_iff _).2 h⟩

theorem colMaxX_asX (fs : List (Vec m)) : colMaxX (fs.map asX) = (colMax fs).map asX := by
  cases fs with
  | nil => rfl
  | cons r rs =>
    simp only [List.map_cons, colMaxX, colMax, Except.map]
    congr 1
    induction rs generalizing r with
    | nil => rfl
    | cons q rs ih =>
      rw [List.map_cons, List.foldl_cons, List.foldl_cons, ← ih]
      congr 1

theorem colMinX_asX (fs : List (Vec m)) : colMinX (fs.map asX) = (colMin fs).map asX := by
  cases fs with
  | nil => rfl
  | cons r rs =>
    simp only [List.map_cons, colMinX, colMin, Except.map]
    congr 1
    induction rs generalizing r with
    | nil => rfl
    | cons q rs ih =>
      rw [List.map_cons, List.foldl_cons, List.foldl_cons, ← ih]
      congr 1

/-- C113. On numbers `adapt` is the one of C22, C23. -/
theorem c113_adapt_same_on_numbers (s : RV m) (fitness : List (Vec m)) :
    (XRV.mk s.init (s.values.map (fun f i => some ((f i : ℝ) : EReal)))).adapt (fitness.map (fun f i => some ((f i : ℝ) : EReal))) =
      (s.adapt fitness).map (fun t => XRV.mk t.init (t.values.map (fun f i => some ((f i : ℝ) : EReal)))) := by
  have h1 := colMaxX_asX fitness
  have h2 := colMinX_asX fitness
  show XRV.adapt _ (fitness.map asX) = _
  unfold XRV.adapt RV.adapt
  rw [h1, h2]
  cases colMax fitness with
  | error e => rfl
  | ok hi =>
    cases colMin fitness with
    | error e => rfl
    | ok lo =>
      simp only [Except.map]
      congr 2
      simp only [RV.normalize, List.map_map]
      apply List.map_congr_left
      intro v _
      have : (fun i => xMul (some ((v i : ℝ) : EReal)) (xSub (asX hi i) (asX lo i))) = asX (fun i => v i * (hi i - lo i)) := by
        funext i
        simp only [asX, xSub_coe, xMul_coe]
      rw [this, xUnit_asX]
      rfl

/-- What a row of floats is taken for: a row of numbers, or (`none`) the row of a failed individual, with at least one entry `inf` and
otherwise numbers. -/
def Reads (f : XVec m) : Option (Vec m) → Prop
  | some g => f = fun i => some ((g i : ℝ) : EReal)
  | none => (∃ i, f i = some ⊤) ∧ ∀ i, IsNumber (f i) ∨ f i = some ⊤

/-- `pos` says where the rows of numbers stand among all rows. -/
def Places {α : Type} (rows : List (Option α)) (pos : Nat → Nat) : Prop :=
  (∀ p q, p < q → q < (rows.filterMap id).length → pos p < pos q) ∧
  ∀ q a, (rows.filterMap id)[q]? = some a → rows[pos q]? = some (some a)

theorem places_goodPos {α : Type} (rows : List (Option α)) : Places rows (fun q => (goodPos rows).getD q 0) := by
  refine ⟨?_, fun q a h => goodPos_get rows q a h⟩
  intro p q hpq hq
  rw [← goodPos_length] at hq
  have hs : (goodPos rows).Pairwise (· < ·) := by
    unfold goodPos whereIdx
    have h1 : (List.map (fun p => p.2) (rows.map Option.isSome).zipIdx).Pairwise (· < ·) := by
      rw [List.zipIdx_map_snd, ← List.range_eq_range']
      exact List.pairwise_lt_range
    exact h1.sublist ((List.filter_sublist).map _)
  dsimp only
  rw [List.getD_eq_getElem?_getD, List.getD_eq_getElem?_getD, List.getElem?_eq_getElem (by omega), List.getElem?_eq_getElem hq]
  exact (List.pairwise_iff_getElem.1 hs) p q (by omega) hq hpq

theorem finRow_reads {f : XVec m} {o : Option (Vec m)} (h : Reads f o) : finRow f = o ∧ ∀ i, f i ≠ none ∧ f i ≠ some ⊥ := by
  cases o with
  | some g =>
    subst h
    exact ⟨finRow_asX g, fun i => ⟨by simp, by simp⟩⟩
  | none =>
    obtain ⟨⟨i, hi⟩, hall⟩ := h
    refine ⟨?_, fun k => ?_⟩
    · cases hf : finRow f with
      | none => rfl
      | some g =>
        have := finRow_some hf
        rw [this] at hi
        simp [asX] at hi
    · rcases hall k with ⟨x, e⟩ | e
      · rw [e]; exact ⟨by simp, by simp⟩
      · rw [e]; exact ⟨by simp, by simp⟩

theorem finRow_all {fitness : List (XVec m)} {rows : List (Option (Vec m))} (h : List.Forall₂ Reads fitness rows) :
    fitness.map finRow = rows ∧ ∀ f ∈ fitness, ∀ i, f i ≠ none ∧ f i ≠ some ⊥ := by
  induction h with
  | nil => exact ⟨rfl, by simp⟩
  | cons h _ ih =>
    obtain ⟨h1, h2⟩ := finRow_reads h
    refine ⟨by rw [List.map_cons, h1, ih.1], ?_⟩
    intro f hf
    rcases List.mem_cons.1 hf with rfl | hf
    · exact h2
    · exact ih.2 f hf

/-- C113. RVEA's selection without constraints, when some individuals have an infinite (`inf`) objective value, at least one has not, and the
reference vectors and the remembered ideal point are numbers.  It returns; the new ideal point `z` consists of numbers, the componentwise least
of the old one, the problem's and all numbers in the fitness rows.  The individuals selected are those `sel0` that the selection picks when
the failed ones are taken out of the population (and the ideal point is `z`), at the places `pos` they have in it -- and nobody else,
except that a failed individual is kept for the first reference vector if it is the only failed one and no other individual has
that vector as its nearest. -/
theorem c113_infinite_values_do_not_interfere (values : List (Vec m)) (gammas : List ℝ) (pen : ℝ) (ideal popIdeal : Vec m)
    (fitness : List (XVec m)) (rows : List (Option (Vec m))) (hrows : List.Forall₂ Reads fitness rows) (hv : values ≠ [])
    (hg : gammas.length = values.length) (hgood : rows.filterMap id ≠ []) :
    ∃ (z : Vec m) (sel sel0 : List Nat) (pos : Nat → Nat), Places rows pos ∧
      apdDoX (values.map (fun f i => some ((f i : ℝ) : EReal))) (gammas.map (fun g => some ((g : ℝ) : EReal))) pen
        (fun i => some ((ideal i : ℝ) : EReal)) (fun i => some ((popIdeal i : ℝ) : EReal)) fitness none =
          .ok (sel, fun i => some ((z i : ℝ) : EReal)) ∧
      apdDo values gammas pen ideal z (rows.filterMap id) none = .ok (sel0, z) ∧
      (∀ i, IsGreatest {b : ℝ | b ≤ ideal i ∧ b ≤ popIdeal i ∧ ∀ f ∈ fitness, ∀ x : ℝ, f i = some (x : EReal) → b ≤ x} (z i)) ∧
      (∀ j, sel = j :: sel0.map pos ↔ rows[j]? = some none ∧ (∀ k, rows[k]? = some none → k = j) ∧
        ∀ a ∈ rows.filterMap id, argmaxL (values.map (cosineOf (fun i => a i - z i))) ≠ .ok 0) ∧
      (sel = sel0.map pos ∨ ∃ j, sel = j :: sel0.map pos) := by
  obtain ⟨hr, hok⟩ := finRow_all hrows
  obtain ⟨z, sel, sel0, h1, h2, h3, h4, h5, h6, h7⟩ := apdDoX_failed values gammas pen ideal popIdeal fitness hv hg hok (by rw [hr]; exact hgood)
  rw [hr] at h5 h6 h7
  have hnear : ∀ a, nearest values z a ≠ 0 ↔ argmaxL (values.map (cosineOf (fun i => a i - z i))) ≠ .ok 0 := by
    intro a
    rw [argmaxL_nearest values hv]
    simp
  refine ⟨z, sel, sel0, _, places_goodPos rows, h1, h5, ?_, ?_, ?_⟩
  · intro i
    refine ⟨⟨(h2 i).1, (h2 i).2, fun f hf x hx => h3 f hf i x hx⟩, ?_⟩
    rintro b ⟨b1, b2, b3⟩
    exact h4 i b b1 b2 b3
  · intro j
    constructor
    · intro e
      rcases h6 with e' | ⟨k, k1, k2, k3, k4⟩
      · rw [e'] at e
        have := congrArg List.length e
        simp at this
      · rw [k4] at e
        injection e with e _
        subst e
        exact ⟨k1, k2, fun a ha => (hnear a).1 (k3 a ha)⟩
    · rintro ⟨j1, j2, j3⟩
      exact h7 j j1 j2 (fun a ha => (hnear a).2 (j3 a ha))
  · rcases h6 with e | ⟨k, -, -, -, e⟩
    · exact .inl e
    · exact .inr ⟨k, e⟩

theorem apdDo_ideal (values : List (Vec m)) (gammas : List ℝ) (pen : ℝ) (ideal popIdeal z : Vec m) (good : List (Vec m)) (sel0 : List Nat)
    (hgood : good ≠ []) (h : apdDo values gammas pen ideal z good none = .ok (sel0, z))
    (hz : ∀ i, IsGreatest {b : ℝ | b ≤ ideal i ∧ b ≤ popIdeal i ∧ ∀ g ∈ good, b ≤ g i} (z i)) :
    apdDo values gammas pen ideal popIdeal good none = .ok (sel0, z) := by
  obtain ⟨fmin, hf⟩ := colMin_total good hgood
  have hs := colMin_spec good fmin hf
  have e1 : newIdeal ideal fmin popIdeal = z := by
    funext i
    refine IsGreatest.unique ?_ (hz i)
    obtain ⟨⟨g, hg, e⟩, hle⟩ := hs i
    unfold newIdeal
    refine ⟨⟨by simp, by simp, fun g hg => ?_⟩, ?_⟩
    · exact le_trans (by simp) (hle g hg)
    · rintro b ⟨b1, b2, b3⟩
      have := b3 g hg
      rw [e] at this
      simp [b1, b2, this]
  have e2 : newIdeal ideal fmin z = z := by
    have h' := h
    unfold apdDo at h'
    rw [hf] at h'
    dsimp only at h'
    split at h'
    · cases h'
    · injection h' with h'
      exact (Prod.ext_iff.1 h').2
  rw [← h]
  unfold apdDo
  rw [hf]
  dsimp only
  rw [e1, e2]

/-- C113. When all objectives of the failed individuals are `inf`, the others are selected exactly as if the failed ones were not there: `sel0`
is what the selection returns for the population without them, and the ideal point is the same. -/
theorem c113_entirely_failed (values : List (Vec m)) (gammas : List ℝ) (pen : ℝ) (ideal popIdeal : Vec m)
    (rows : List (Option (Vec m))) (hm : 0 < m) (hv : values ≠ []) (hg : gammas.length = values.length) (hgood : rows.filterMap id ≠ []) :
    ∃ (z : Vec m) (sel sel0 : List Nat) (pos : Nat → Nat), Places rows pos ∧
      apdDoX (values.map (fun f i => some ((f i : ℝ) : EReal))) (gammas.map (fun g => some ((g : ℝ) : EReal))) pen
        (fun i => some ((ideal i : ℝ) : EReal)) (fun i => some ((popIdeal i : ℝ) : EReal))
        (rows.map (fun o i => match o with | some g => some ((g i : ℝ) : EReal) | none => some ⊤)) none =
          .ok (sel, fun i => some ((z i : ℝ) : EReal)) ∧
      apdDo values gammas pen ideal popIdeal (rows.filterMap id) none = .ok (sel0, z) ∧
      (sel = sel0.map pos ∨ ∃ j, sel = j :: sel0.map pos ∧ rows[j]? = some none ∧ (∀ k, rows[k]? = some none → k = j) ∧
        ∀ a ∈ rows.filterMap id, argmaxL (values.map (cosineOf (fun i => a i - z i))) ≠ .ok 0) := by
  have hrows : List.Forall₂ Reads (rows.map (fun o i => match o with | some g => some ((g i : ℝ) : EReal) | none => some ⊤)) rows := by
    clear hgood
    induction rows with
    | nil => exact .nil
    | cons o rows ih =>
      refine .cons ?_ ih
      cases o with
      | some g => rfl
      | none => exact ⟨⟨⟨0, hm⟩, rfl⟩, fun _ => .inr rfl⟩
  obtain ⟨z, sel, sel0, pos, h1, h2, h3, h4, h5, h6⟩ := c113_infinite_values_do_not_interfere values gammas pen ideal popIdeal _ rows hrows hv hg hgood
  refine ⟨z, sel, sel0, pos, h1, h2, apdDo_ideal values gammas pen ideal popIdeal z _ sel0 hgood h3 ?_, ?_⟩
  · intro i
    obtain ⟨⟨q1, q2, q3⟩, q4⟩ := h4 i
    refine ⟨⟨q1, q2, fun g hg => ?_⟩, ?_⟩
    · obtain ⟨o, ho, e⟩ := List.mem_filterMap.1 hg
      exact q3 _ (List.mem_map.2 ⟨o, ho, rfl⟩) (g i) (by rw [id] at e; rw [e])
    · rintro b ⟨b1, b2, b3⟩
      refine q4 ⟨b1, b2, ?_⟩
      intro f hf x hx
      obtain ⟨o, ho, rfl⟩ := List.mem_map.1 hf
      cases o with
      | none => simp at hx
      | some g =>
        have := b3 g (List.mem_filterMap.2 ⟨_, ho, rfl⟩)
        simp only [Option.some.injEq, EReal.coe_eq_coe_iff] at hx
        rw [← hx]; exact this
  · rcases h6 with h | ⟨j, h⟩
    · exact .inl h
    · exact .inr ⟨j, h, (h5 j).1 h⟩

theorem goodPos_some (l : List (Vec m)) : goodPos (l.map some) = List.range l.length := by
  induction l with
  | nil => rfl
  | cons a l ih =>
    unfold goodPos at ih ⊢
    rw [List.map_cons, List.map_cons, whereIdx_cons, ih]
    simp [List.range_succ_eq_map]

/-- C113. On numbers the selection is the one of C27 to C30. -/
theorem c113_same_on_numbers (values : List (Vec m)) (gammas : List ℝ) (pen : ℝ) (ideal popIdeal : Vec m) (fitness : List (Vec m))
    (hv : values ≠ []) (hg : gammas.length = values.length) :
    apdDoX (values.map (fun f i => some ((f i : ℝ) : EReal))) (gammas.map (fun g => some ((g : ℝ) : EReal))) pen
        (fun i => some ((ideal i : ℝ) : EReal)) (fun i => some ((popIdeal i : ℝ) : EReal))
        (fitness.map (fun f i => some ((f i : ℝ) : EReal))) none =
      (apdDo values gammas pen ideal popIdeal fitness none).map (fun r => (r.1, fun i => some ((r.2 i : ℝ) : EReal))) := by
  by_cases hne : fitness = []
  · subst hne; rfl
  have hl : (fitness.map asX).map finRow = fitness.map some := by
    rw [List.map_map]
    exact List.map_congr_left (fun f _ => finRow_asX f)
  have hl2 : (fitness.map some).filterMap id = fitness := by simp
  obtain ⟨z, sel, sel0, h1, h2, h3, h4, h5, h6, h7⟩ := apdDoX_failed values gammas pen ideal popIdeal (fitness.map asX) hv hg (by
    intro f hf i
    obtain ⟨g, -, rfl⟩ := List.mem_map.1 hf
    exact ⟨by simp [asX], by simp [asX]⟩) (by rw [hl, hl2]; exact hne)
  rw [hl, hl2] at h5
  rw [hl] at h6
  have h8 := apdDo_ideal values gammas pen ideal popIdeal z fitness sel0 hne h5 (by
    intro i
    refine ⟨⟨(h2 i).1, (h2 i).2, fun g hg => h3 _ (List.mem_map.2 ⟨g, hg, rfl⟩) i _ rfl⟩, ?_⟩
    rintro b ⟨b1, b2, b3⟩
    refine h4 i b b1 b2 ?_
    intro f hf x hx
    obtain ⟨g, hg, rfl⟩ := List.mem_map.1 hf
    have := b3 g hg
    simp only [asX, Option.some.injEq, EReal.coe_eq_coe_iff] at hx
    rw [← hx]; exact this)
  have hrange := (c29_rvea_selection values gammas pen ideal popIdeal fitness none sel0 z h8).2.1
  have hsel : sel = sel0 := by
    rcases h6 with e | ⟨j, hj, -⟩
    · rw [e, goodPos_some]
      conv_rhs => rw [← List.map_id sel0]
      apply List.map_congr_left
      intro q hq
      have := hrange q hq
      simp [List.getD_eq_getElem?_getD, this]
    · rw [List.getElem?_map] at hj
      cases hq : fitness[j]? <;> rw [hq] at hj <;> simp at hj
  rw [h8, ← hsel]
  exact h1

/-! ## The run -/

theorem nextGen_nan_vectors {d : Nat} (ops : Ops X O (XVec m) (List ℝ) U (XRV m) (XVec m) Q R) (pen : Nat → ℝ) (popIdeal : Nat → XVec m)
    (gam : XRV m → List XF) (hsel : ops.select = rveaSelectX pen popIdeal gam)
    (s : EA X O (XVec m) (List ℝ) U (XRV m) (XVec m) Q) (rs : List (Rec X O (XVec m) (List ℝ) U)) (hr : Represents s.pop rs)
    (hdim : s.pop.ndim = d) (hnd : s.cfg.saveND = false) (hnc : s.pop.nCons = 0) (hv : s.vec.values ≠ []) (off : Batch X)
    (hmate : ops.mate s.clock s.pop = .ok off) (hod : off.ndim = d) (r : Results O (XVec m) (List ℝ) U)
    (hevr : ops.evaluate (s.clock + 1) s.cfg.useSurr off = .ok r) (ho : EvalOK 0 off.rows.length r)
    (hu : s.pop.uncertainity = none ↔ r.uncertainity = none) (i : Fin m) (h2 : 2 ≤ rs.length + off.rows.length)
    (hnan : ∀ v ∈ s.vec.values, v i = none) :
    ∃ t, EA.nextGen ops s = (.ok (), t) ∧ Represents t.pop [] ∧ t.pop.individuals = some [] ∧ t.gen = s.gen + 1 ∧
      t.genIter = s.genIter + 1 ∧ t.cfg = s.cfg ∧ t.vec = s.vec ∧ t.fe = s.fe + (if s.cfg.useSurr then 0 else off.rows.length) := by
  have hadd := add_spec (d := d) hr off r (by rw [hnc]; exact ho) (fun _ => hdim) (.inl hod)
  obtain ⟨a1, a2, a3, a4, a5⟩ := hadd
  obtain ⟨a5, a6⟩ := a5 (by
    by_cases h : r.uncertainity = none
    · exact .inr (.inl h)
    · exact .inr (.inr (fun e => h (hu.1 e))))
  have hpa : ({ s with clock := s.clock + 1 } : EA X O (XVec m) (List ℝ) U (XRV m) (XVec m) Q).popAdd ops off =
        (.ok r, { s with pop := (s.pop.add off (.ok r)).2, clock := s.clock + 1 + 1,
                         trueEvals := s.trueEvals + (if s.cfg.useSurr then 0 else off.rows.length), log := s.log ++ [(off.rows, r)] }) := by
    unfold EA.popAdd
    simp only [hevr, a5, evLog]
  have hlen : (rs ++ newRecs off.rows r).length = rs.length + off.rows.length := by
    rw [List.length_append, newRecs_length _ _ 0 ho]
  unfold EA.nextGen
  rw [hmate]
  dsimp only
  rw [hpa]
  dsimp only
  rw [hnd]
  simp only [Bool.false_eq_true, if_false]
  have hlf : ((rs ++ newRecs off.rows r).map Rec.f).length = rs.length + off.rows.length := by rw [List.length_map, hlen]
  obtain ⟨id', e1⟩ := apdDoX_nan_vectors s.vec.values (gam s.vec) (pen (s.clock + 1 + 1)) s.sel (popIdeal (s.clock + 1 + 1))
    ((rs ++ newRecs off.rows r).map Rec.f) none hv (by
      intro e
      rw [e, List.length_nil] at hlf
      omega) i hnan
  have hcf : constraintFilter (none : Option (List (List ℝ))) (List.range ((rs ++ newRecs off.rows r).map Rec.f).length) =
      List.range (rs.length + off.rows.length) := by rw [hlf]; rfl
  rw [hcf] at e1
  obtain ⟨k, hk⟩ : ∃ k, rs.length + off.rows.length = k + 2 := ⟨_, (Nat.sub_add_cancel h2).symm⟩
  rw [hk, List.range_succ_eq_map, List.range_succ_eq_map] at e1
  simp only [List.map_cons] at e1
  have hs : ops.select (s.clock + 1 + 1) s.vec s.sel (s.pop.add off (.ok r)).2 = (.ok [], s.vec, id') := by
    rw [hsel]
    unfold rveaSelectX
    rw [a1.fits, a1.nocons (by rw [a2]; exact hnc)]
    rw [e1]
    rfl
  rw [hs]
  dsimp only
  obtain ⟨k1, k2, -, -, k5, -⟩ := keep_ok (p := (s.pop.add off (.ok r)).2) a1 a4 [] (by simp [inRange])
  have hrows : rowsAt (names (rs ++ newRecs off.rows r).length []) (rs ++ newRecs off.rows r) = [] := by
    simp [rowsAt, names]
  rw [hrows] at k2
  generalize (s.pop.add off (.ok r)).2.keep [] = kk at k1 k2 k5
  obtain ⟨kk1, p⟩ := kk
  dsimp only at k1 k2 k5
  subst k1
  dsimp only
  have hi : p.individuals = some [] := by
    rcases k2.inds with h | ⟨h, -⟩
    · exact h
    · exact absurd h k5
  refine ⟨_, rfl, ?_⟩
  cases hus : s.cfg.useSurr <;> simp [k2, hi]

theorem barrenX (ops : Ops (Row n) O (XVec m) (List ℝ) U (XRV m) (XVec m) Q R) (pen : Nat → ℝ) (popIdeal : Nat → XVec m)
    (gam : XRV m → List XF) (hsel : ops.select = rveaSelectX pen popIdeal gam)
    (lo hi : Fin n → ℝ) (draw : Nat → MateDraw n) (hmate : ops.mate = mateAll lo hi draw) (hsh : ∀ clk l, ((draw clk).shuffle l).Perm l)
    (nc : Nat) (unc : Bool) (hp : ProblemOK ops nc unc) : Barren ops := by
  refine ⟨?_, ?_, ?_⟩
  · intro clk p b hin hb
    rw [hmate] at hb
    obtain ⟨ids, -, -, off, hoff, hlen⟩ := c40_sbx_whole_population 1 30 (draw clk).shuffle (hsh clk) (draw clk).pairs ([] : List (Row n))
    simp only [mateAll, hin, mateDefault, hoff] at hb
    injection hb with hb
    rw [← hb]
    have : off = [] := List.length_eq_zero_iff.1 (by simpa using hlen)
    subst this
    rfl
  · intro clk surr b r hr hb
    have := (hp clk surr b r hr).1.fits
    rw [hb] at this
    exact List.length_eq_zero_iff.1 this
  · intro clk v t p hf
    rw [hsel]
    unfold rveaSelectX
    rw [hf]
    exact ⟨_, _, _, rfl⟩

/-- What `iterate` does before its first generation, when no preferences are given: nothing but adapting the vectors (and recording the
archive). -/
theorem before_first_generation (ops : Ops X O (XVec m) (List ℝ) U (XRV m) (XVec m) Q R) (hadapt : ops.adapt = adaptRVsX)
    (s : EA X O (XVec m) (List ℝ) U (XRV m) (XVec m) Q) (hloc : s.cfg.location ≠ some .problem) (pref : Option (Pref R))
    (hpref : s.cfg.location = none ∨ pref = none) (i : Fin m) (hbad : ∃ f ∈ s.pop.fitness, ¬ IsNumber (f i)) :
    ∃ u, s.managePreferences ops pref = (.ok (), u) ∧
      (u.preIteration ops).pop = s.pop ∧ (u.preIteration ops).cfg = s.cfg ∧ (u.preIteration ops).gen = s.gen ∧
      (u.preIteration ops).clock = s.clock ∧ (u.preIteration ops).fe = s.fe ∧
      (u.preIteration ops).vec.values.length = s.vec.init.length ∧ ∀ v ∈ (u.preIteration ops).vec.values, v i = none := by
  have ha : ∀ v : XRV m, (adaptRVsX v s.pop.fitness).init = v.init ∧ (adaptRVsX v s.pop.fitness).values.length = v.init.length ∧
      ∀ w ∈ (adaptRVsX v s.pop.fitness).values, w i = none := by
    intro v
    obtain ⟨t, h1, h2, h3, h4⟩ := c113_adapt v s.pop.fitness i hbad
    unfold adaptRVsX
    rw [h1]
    exact ⟨h2, h3, h4⟩
  have hrec : ∀ u : EA X O (XVec m) (List ℝ) U (XRV m) (XVec m) Q, u.record.pop = u.pop ∧ u.record.cfg = u.cfg ∧ u.record.gen = u.gen ∧
      u.record.clock = u.clock ∧ u.record.fe = u.fe ∧ u.record.vec = u.vec := by
    intro u
    unfold EA.record
    split <;> exact ⟨rfl, rfl, rfl, rfl, rfl, rfl⟩
  have hpre : ∀ u : EA X O (XVec m) (List ℝ) U (XRV m) (XVec m) Q, u.pop = s.pop → u.cfg = s.cfg →
      (u.preIteration ops).pop = u.pop ∧ (u.preIteration ops).cfg = u.cfg ∧ (u.preIteration ops).gen = u.gen ∧
      (u.preIteration ops).clock = u.clock ∧ (u.preIteration ops).fe = u.fe ∧ ((u.preIteration ops).vec = u.vec ∨
        ((u.preIteration ops).vec.values.length = u.vec.init.length ∧ ∀ v ∈ (u.preIteration ops).vec.values, v i = none)) ∧
      (u.cfg.location = none → (u.preIteration ops).vec.values.length = u.vec.init.length ∧ ∀ v ∈ (u.preIteration ops).vec.values, v i = none) := by
    intro u hu hc
    obtain ⟨r1, r2, r3, r4, r5, r6⟩ := hrec u
    unfold EA.preIteration
    rw [hadapt]
    generalize u.record = w at r1 r2 r3 r4 r5 r6
    have hw : w.pop = s.pop := r1.trans hu
    obtain ⟨b1, b2, b3⟩ := ha w.vec
    obtain ⟨c1, c2, c3⟩ := ha (adaptRVsX w.vec s.pop.fitness)
    rw [b1] at c1 c2
    rw [show w.vec.init = u.vec.init by rw [r6]] at b2 c2
    dsimp only
    have hw' : w.pop.fitness = s.pop.fitness := by rw [hw]
    by_cases hint : w.cfg.interact = true
    · by_cases hl : w.cfg.location = some .selection
      · simp only [hint, hl, Bool.not_true, Bool.false_eq_true, ne_eq, not_true_eq_false, if_false]
        exact ⟨r1, r2, r3, r4, r5, .inl r6, fun h => by rw [← r2, hl] at h; cases h⟩
      · simp only [hint, hl, Bool.not_true, Bool.false_eq_true, ne_eq, not_false_eq_true, if_true, if_false, hw']
        exact ⟨r1, r2, r3, r4, r5, .inr ⟨b2, b3⟩, fun _ => ⟨b2, b3⟩⟩
    · have hint' : w.cfg.interact = false := by simpa using hint
      by_cases hl : w.cfg.location = some .selection
      · simp only [hint', hl, Bool.not_false, ne_eq, not_true_eq_false, if_true, if_false, hw']
        exact ⟨r1, r2, r3, r4, r5, .inr ⟨b2, b3⟩, fun _ => ⟨b2, b3⟩⟩
      · simp only [hint', hl, Bool.not_false, ne_eq, not_false_eq_true, if_true, hw']
        exact ⟨r1, r2, r3, r4, r5, .inr ⟨c2, c3⟩, fun _ => ⟨c2, c3⟩⟩
  cases hl : s.cfg.location with
  | none =>
    obtain ⟨p1, p2, p3, p4, p5, -, p7⟩ := hpre s rfl rfl
    refine ⟨s, ?_, p1, p2, p3, p4, p5, p7 hl⟩
    unfold EA.managePreferences
    rw [hl]
  | some l =>
    cases l with
    | problem => exact absurd hl hloc
    | selection =>
      have hp : pref = none := by
        rcases hpref with h | h
        · rw [hl] at h; cases h
        · exact h
      subst hp
      obtain ⟨b1, b2, b3⟩ := ha s.vec
      obtain ⟨p1, p2, p3, p4, p5, p6, -⟩ := hpre { s with vec := adaptRVsX s.vec s.pop.fitness } rfl rfl
      refine ⟨{ s with vec := adaptRVsX s.vec s.pop.fitness }, ?_, p1, p2, p3, p4, p5, ?_⟩
      · unfold EA.managePreferences
        rw [hl]
        simp only [EA.selManage, hadapt]
      · rcases p6 with h | ⟨h1, h2⟩
        · rw [h]; exact ⟨b2, b3⟩
        · exact ⟨h1.trans (congrArg List.length b1), h2⟩

/-- C113. RVEA without constraints and without an archive of non-dominated solutions, and an `iterate()` without preferences that begins while
the population holds a value that is not a number (infinite, or NaN) in some objective.  If that iteration has a generation to do and
the offspring of it can be made and evaluated, the first generation completes and leaves an empty population, whatever the
values of the offspring; an iteration of two or more generations raises in the second one if the evaluation budget lasts.  Over every later
history of calls the population remains empty, no further generation is counted, and every `iterate()` with generations to do raises. -/
theorem c113_infinite_value_ends_the_run (ops : Ops (Row n) O (XVec m) (List ℝ) U (XRV m) (XVec m) Q R) (pen : Nat → ℝ)
    (popIdeal : Nat → XVec m) (gam : XRV m → List XF) (hsel : ops.select = rveaSelectX pen popIdeal gam) (hadapt : ops.adapt = adaptRVsX)
    (lo hi : Fin n → ℝ) (draw : Nat → MateDraw n) (hmate : ops.mate = mateAll lo hi draw) (hsh : ∀ clk l, ((draw clk).shuffle l).Perm l)
    (unc : Bool) (hp : ProblemOK ops 0 unc) (s : EA (Row n) O (XVec m) (List ℝ) U (XRV m) (XVec m) Q)
    (rs : List (Rec (Row n) O (XVec m) (List ℝ) U)) (hr : Represents s.pop rs) (hdim : s.pop.ndim = 2) (hnd : s.cfg.saveND = false)
    (hnc : s.pop.nCons = 0) (hun : s.pop.uncertainity = none ↔ unc = false) (hv : s.vec.init ≠ [])
    (hloc : s.cfg.location ≠ some .problem) (pref : Option (Pref R)) (hpref : s.cfg.location = none ∨ pref = none)
    (i : Fin m) (hbad : ∃ q ∈ rs, ¬ IsNumber (q.f i)) (hgen : 0 < s.cfg.nGen) (hfe : s.checkFE = true)
    (off : Batch (Row n)) (hoff : ops.mate s.clock s.pop = .ok off) (r : Results O (XVec m) (List ℝ) U)
    (hevr : ops.evaluate (s.clock + 1) s.cfg.useSurr off = .ok r) (h2 : 2 ≤ rs.length + off.rows.length) :
    ∃ t res, s.iterate ops pref = (res, t) ∧ t.pop.individuals = some [] ∧ t.pop.fitness = [] ∧ t.gen = s.gen + 1 ∧
      (2 ≤ s.cfg.nGen → s.cfg.total = 0 ∨ s.fe + off.rows.length ≤ s.cfg.total → ∃ e, res = .error e) ∧
      ∀ cs : List (Call R), (t.calls ops cs).pop.individuals = some [] ∧ (t.calls ops cs).pop.fitness = [] ∧
        (t.calls ops cs).gen = s.gen + 1 ∧ (∃ e, (EA.nextGen ops (t.calls ops cs)).1 = .error e) ∧
        ∀ pref, 0 < (t.calls ops cs).cfg.nGen → (t.calls ops cs).checkFE = true → ∃ e, ((t.calls ops cs).iterate ops pref).1 = .error e := by
  have hod : off.ndim = 2 := by
    rw [hmate] at hoff
    unfold mateAll at hoff
    split at hoff
    · cases hoff
    · split at hoff
      · cases hoff
      · injection hoff with hoff
        rw [← hoff]
  have hb := barrenX ops pen popIdeal gam hsel lo hi draw hmate hsh 0 unc hp
  obtain ⟨u, u0, u1, u2, u3, u4, u5, u6, u7⟩ := before_first_generation ops hadapt s hloc pref hpref i (by
    rw [hr.fits]
    obtain ⟨q, hq, h⟩ := hbad
    exact ⟨_, List.mem_map.2 ⟨q, hq, rfl⟩, h⟩)
  obtain ⟨w, hw⟩ : ∃ w, ({ u.preIteration ops with genIter := 0 } : EA (Row n) O (XVec m) (List ℝ) U (XRV m) (XVec m) Q) = w := ⟨_, rfl⟩
  have w1 : w.pop = s.pop := by rw [← hw]; exact u1
  have w2 : w.cfg = s.cfg := by rw [← hw]; exact u2
  have w3 : w.gen = s.gen := by rw [← hw]; exact u3
  have w4 : w.clock = s.clock := by rw [← hw]; exact u4
  have w5 : w.fe = s.fe := by rw [← hw]; exact u5
  have w6 : w.vec.values.length = s.vec.init.length := by rw [← hw]; exact u6
  have w7 : ∀ v ∈ w.vec.values, v i = none := by rw [← hw]; exact u7
  have w8 : w.genIter = 0 := by rw [← hw]
  obtain ⟨ho, hu⟩ := hp _ _ _ _ hevr
  obtain ⟨t, t1, t2, t3, t4, t5, t6, -, t8⟩ := nextGen_nan_vectors (d := 2) ops pen popIdeal gam hsel w rs (by rw [w1]; exact hr) (by rw [w1]; exact hdim)
    (by rw [w2]; exact hnd) (by rw [w1]; exact hnc) (by
      intro e
      rw [e] at w6
      exact hv (List.length_eq_zero_iff.1 w6.symm)) off (by rw [w4, w1]; exact hoff) hod r (by rw [w4, w2]; exact hevr) ho
    (by rw [w1]; exact hun.trans hu.symm) i h2 w7
  have hg : Gone (s.gen + 1) t := ⟨t3, by simpa using t2.fits, by rw [t4, w3], by rw [t6, w2]; exact hloc⟩
  have hcont : w.continueIteration = true := by
    unfold EA.continueIteration EA.checkFE at *
    rw [w8, w2, w5, hfe]
    simpa using hgen
  obtain ⟨N, hN⟩ : ∃ N, s.cfg.nGen = N + 1 := ⟨_, (Nat.sub_add_cancel hgen).symm⟩
  obtain ⟨l1, l2⟩ := Gone.loop ops hb N t hg
  have hloop : EA.loop (EA.nextGen ops) w.cfg.nGen w = EA.loop (EA.nextGen ops) N t := by
    rw [w2, hN, EA.loop, if_pos hcont, t1]
  have hit : s.iterate ops pref = match EA.loop (EA.nextGen ops) N t with
      | (.error e, s) => (.error e, s)
      | (.ok _, s) => ({ s with iter := s.iter + 1 } : EA (Row n) O (XVec m) (List ℝ) U (XRV m) (XVec m) Q).requestPreferences ops := by
    unfold EA.iterate EA.iterateWith
    rw [u0]
    dsimp only
    rw [hw, show (u.preIteration ops).cfg = w.cfg by rw [← hw], hloop]
    rcases EA.loop (EA.nextGen ops) N t with ⟨_ | _, v⟩ <;> rfl
  have hgone : Gone (s.gen + 1) (s.iterate ops pref).2 := by
    rw [hit]
    generalize EA.loop (EA.nextGen ops) N t = q at l1
    obtain ⟨q, v⟩ := q
    cases q with
    | error e => exact l1
    | ok _ =>
      have h5 : Gone (s.gen + 1) ({ v with iter := v.iter + 1 } : EA (Row n) O (XVec m) (List ℝ) U (XRV m) (XVec m) Q) := l1.of_eq rfl rfl rfl
      exact h5.requestPreferences ops
  refine ⟨(s.iterate ops pref).2, (s.iterate ops pref).1, rfl, hgone.inds, hgone.fits, hgone.gen, ?_, fun cs => ?_⟩
  · intro hn hbud
    obtain ⟨e, he⟩ := l2 (by omega) (by
      unfold EA.continueIteration EA.checkFE
      rw [t5, w8, t6, w2, t8, w5, w2]
      have : 0 + 1 < s.cfg.nGen := by omega
      simp only [this, decide_true, Bool.true_and]
      split
      · rfl
      · rename_i h0
        rcases hbud with h | h
        · exact absurd h h0
        · have : s.fe + (if s.cfg.useSurr = true then 0 else off.rows.length) ≤ s.cfg.total := by split <;> omega
          simpa using this)
    refine ⟨e, ?_⟩
    rw [hit]
    generalize EA.loop (EA.nextGen ops) N t = q at he
    obtain ⟨q, v⟩ := q
    dsimp only at he
    subst he
    rfl
  · have h := Gone.calls ops hb cs _ hgone
    exact ⟨h.inds, h.fits, h.gen, (nextGen_gone ops hb _ h).2, fun pref => (h.iterate ops hb pref).2⟩

/-! ## The hypotheses can be met -/

/-- RVEA on a problem with one objective whose evaluation is 1 for every vector. -/
noncomputable def infOps : Ops (Row 1) Unit (XVec 1) (List ℝ) Unit (XRV 1) (XVec 1) Unit Unit where
  adapt := adaptRVsX
  respond _ _ v _ _ := (.ok (), v)
  mate := mateAll (fun _ => 0) (fun _ => 1) (fun _ => stillDraw)
  evaluate _ _ b := .ok ⟨b.rows.map (fun _ => ()), b.rows.map (fun _ _ => some 1), none, none⟩
  select := rveaSelectX (fun _ => 0) (fun _ _ => some ⊤) (fun _ => [some 1])
  newId _ := 0
  probManage q _ _ := (.ok (), q)
  probReeval q o := (o.map (fun _ _ => none), q)
  dom _ _ := false
  nonDom l := l.map (fun _ => true)

/-- Two individuals, one of which failed; three generations per iteration, no budget. -/
noncomputable def infDemo : EA (Row 1) Unit (XVec 1) (List ℝ) Unit (XRV 1) (XVec 1) Unit :=
  ⟨⟨false, none, 1, 3, 0, false, false, false⟩, 0,
    ⟨0, 2, some [fun _ => some 0, fun _ => some 1], [(), ()], [fun _ => some 1, fun _ => some ⊤], none, none⟩,
    ⟨[fun _ => 1], [fun _ => some 1]⟩, fun _ => some 1, (), 0, 0, 0, 2, none, none, false, false, [], none, 2, []⟩

/-- The iteration raises in its second generation, and only one generation is ever counted. -/
example : (∃ e, (infDemo.iterate infOps none).1 = .error e) ∧ (infDemo.iterate infOps none).2.gen = 1 ∧
    ∀ cs, ((infDemo.iterate infOps none).2.calls infOps cs).gen = 1 := by
  obtain ⟨ids, -, -, off, hoff, hlen⟩ := c40_sbx_whole_population 1 30 stillDraw.shuffle (fun l => List.Perm.refl l) stillDraw.pairs
    [(fun _ => some 0 : Row 1), fun _ => some 1]
  have hm : infOps.mate infDemo.clock infDemo.pop =
      .ok ⟨2, bpDo (1 / ((1 : Nat) : ℝ)) 20 (fun _ => 0) (fun _ => 1) stillDraw.k stillDraw.miu off⟩ := by
    simp only [infOps, infDemo, mateAll, mateDefault, hoff]
  obtain ⟨t, res, h1, -, -, h4, h5, h6⟩ := c113_infinite_value_ends_the_run infOps _ _ _ rfl rfl _ _ _ rfl (fun _ l => List.Perm.refl l) false
    (by
      intro clk surr b r hr
      injection hr with hr
      rw [← hr]
      exact ⟨⟨by simp, by simp, fun _ => rfl, fun h => absurd rfl h, fun us h => by cases h⟩, by simp⟩)
    infDemo [⟨fun _ => some 0, (), fun _ => some 1, none, none⟩, ⟨fun _ => some 1, (), fun _ => some ⊤, none, none⟩]
    ⟨.inl rfl, rfl, rfl, fun _ h => absurd rfl h, fun _ => rfl, fun us h => by cases h⟩ rfl rfl rfl (by simp [infDemo]) (by simp [infDemo])
    (by simp [infDemo]) none (.inr rfl) 0 ⟨⟨fun _ => some 1, (), fun _ => some ⊤, none, none⟩, by simp, by rintro ⟨x, h⟩; simp at h⟩ (by decide) rfl _ hm _ rfl (by simp)
  rw [h1]
  exact ⟨h5 (by decide) (.inl rfl), h4, fun cs => (h6 cs).2.2.1⟩

/-- Three individuals, the second of which failed: the rows of the others, and where they stand. -/
example : List.Forall₂ Reads [(fun _ => some ((3 : ℝ) : EReal) : XVec 1), fun _ => some ⊤, fun _ => some ((2 : ℝ) : EReal)]
    [some (fun _ => 3), none, some (fun _ => 2)] :=
  .cons rfl (.cons ⟨⟨0, rfl⟩, fun _ => .inr rfl⟩ (.cons rfl .nil))

example : Places [some (10 : Nat), none, some 20] (fun q => 2 * q) := by
  refine ⟨fun p q h _ => by simpa using h, ?_⟩
  intro q a h
  match q, h with
  | 0, h => simpa using h
  | 1, h => simpa using h

end Verif.Props
