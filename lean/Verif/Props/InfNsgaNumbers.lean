import Verif.Props.InfNsga
import Verif.Props.InfSelect

/-!
# C116: the selection on numbers
-/

open Verif Verif.Spec Verif.Proofs
namespace Verif.Props
variable {m : Nat}

/-- The state seen as floats. -/
def nsgaAsX (st : Nsga m) : NsgaX m := ⟨asX st.ideal, st.worst.map asX, st.extreme.map (fun e => e.map asX)⟩

theorem xMax2_coe (a b : ℝ) : xMax2 (some (a : EReal)) (some (b : EReal)) = some ((max a b : ℝ) : EReal) := by
  simp [xMax2, EReal.coe_strictMono.monotone.map_max]

theorem xMin2_coe (a b : ℝ) : xMin2 (some (a : EReal)) (some (b : EReal)) = some ((min a b : ℝ) : EReal) := by
  simp [xMin2, EReal.coe_strictMono.monotone.map_min]

theorem xFloor_coe (a : ℝ) : xFloor (some (a : EReal)) = some ((if a < 1 / 10 ^ 3 then 0 else a : ℝ) : EReal) := by
  simp only [xFloor, EReal.coe_lt_coe_iff]
  split <;> rfl

theorem rowMaxX_coe (f : Vec m) : rowMaxX (asX f) = some ((rowMax f : ℝ) : EReal) := by
  unfold rowMaxX rowMax
  have : List.ofFn (asX f) = (List.ofFn f).map (fun x : ℝ => some (x : EReal)) := by
    rw [List.map_ofFn]; rfl
  rw [this]
  cases List.ofFn f with
  | nil => rfl
  | cons x xs =>
    simp only [List.map_cons]
    induction xs generalizing x with
    | nil => rfl
    | cons y ys ih => rw [List.map_cons, List.foldl_cons, List.foldl_cons, xMax2_coe, ih]

theorem asfX_asX (ideal : Vec m) (k : Fin m) (f : Vec m) : asfX (asX ideal) k (asX f) = some ((asf ideal k f : ℝ) : EReal) := by
  unfold asfX asf
  rw [← rowMaxX_coe]
  congr 1
  funext i
  show xMul (xFloor (xSub (some _) (some _))) _ = some _
  rw [xSub_coe, xFloor_coe, xMul_coe]

theorem extremeRowX_asX (pool : List (Vec m)) (ideal : Vec m) (k : Fin m) :
    extremeRowX (pool.map asX) (asX ideal) k = (extremeRow pool ideal k).map asX := by
  unfold extremeRowX extremeRow
  have e : (pool.map asX).map (asfX (asX ideal) k) = ((pool.map (asf ideal k)).map (fun x : ℝ => (x : EReal))).map some := by
    simp only [List.map_map]
    exact List.map_congr_left (fun f _ => asfX_asX ideal k f)
  rw [e, argminN_some', argminL_map (fun x : ℝ => (x : EReal)) EReal.coe_strictMono]
  cases argminL (pool.map (asf ideal k)) with
  | error e => rfl
  | ok j =>
    dsimp only
    rw [List.getElem?_map]
    cases pool[j]? <;> rfl

theorem extremePointsX_asX (front : List (Vec m)) (ideal : Vec m) (old : Option (List (Vec m))) :
    extremePointsX (front.map asX) (asX ideal) (old.map (fun e => e.map asX)) = (extremePoints front ideal old).map (fun e => e.map asX) := by
  unfold extremePointsX extremePoints
  have e : extremePoolX (front.map asX) (old.map (fun e => e.map asX)) = (extremePool front old).map asX := by
    cases old with
    | none => rfl
    | some e => simp [extremePoolX, extremePool]
  rw [e]
  exact mapM_mapN asX _ _ (extremeRowX_asX _ _) _

theorem xLe_coe (a b : ℝ) : xLe (some (a : EReal)) (some (b : EReal)) = decide (a ≤ b) := by
  simp only [xLe, EReal.coe_le_coe_iff]

theorem nadirPointX_asX (solveX : List (XVec m) → Option (XVec m)) (solve : List (Vec m) → Option (Vec m))
    (hsol : ∀ M, solveX (M.map asX) = (solve M).map asX) (ext : List (Vec m)) (ideal worst wof wop : Vec m) :
    nadirPointX solveX (ext.map asX) (asX ideal) (asX worst) (asX wof) (asX wop) = asX (nadirPoint solve ext ideal worst wof wop) := by
  have hM : (ext.map asX).map (fun (e : XVec m) i => xSub (e i) (asX ideal i)) = (ext.map (fun e i => e i - ideal i)).map asX := by
    simp only [List.map_map]
    apply List.map_congr_left
    intro e _
    funext i
    exact xSub_coe _ _
  have hfin : ∀ nad : Vec m, (fun i => if xLe (xSub (asX nad i) (asX ideal i)) (some ((1 / 10 ^ 6 : ℝ) : EReal)) then asX wop i else asX nad i) =
      asX (fun i => if nad i - ideal i ≤ 1 / 10 ^ 6 then wop i else nad i) := by
    intro nad
    funext i
    show (if xLe (xSub (some _) (some _)) _ then _ else _) = _
    rw [xSub_coe, xLe_coe]
    simp only [asX, decide_eq_true_eq]
    split <;> rfl
  unfold nadirPointX nadirPoint
  dsimp only
  rw [hM, hsol]
  cases solve (ext.map (fun e i => e i - ideal i)) with
  | none => exact hfin wof
  | some plane =>
    have hclose : planeCloseX (ext.map asX) (asX ideal) (asX plane) ↔ planeClose ext ideal plane := by
      have hd : ∀ e : Vec m, xSum (fun i => xMul (xSub (asX e i) (asX ideal i)) (asX plane i)) =
          some ((∑ i, (e i - ideal i) * plane i : ℝ) : EReal) := by
        intro e
        rw [← xSum_coe]
        congr 1
        funext i
        show xMul (xSub (some _) (some _)) (some _) = _
        rw [xSub_coe, xMul_coe]
      unfold planeCloseX planeClose
      constructor
      · intro h e he
        obtain ⟨d, hd', hle⟩ := h (asX e) (List.mem_map_of_mem he)
        rw [hd e] at hd'
        injection hd' with hd'
        rw [EReal.coe_eq_coe_iff.1 hd']; exact hle
      · intro h e he
        obtain ⟨e', he', rfl⟩ := List.mem_map.1 he
        exact ⟨_, hd e', h e' he'⟩
    have hcond : (planeCloseX (ext.map asX) (asX ideal) (asX plane) ∧
        (∀ i, ¬ xLe (xDiv (some 1) (asX plane i)) (some ((1 / 10 ^ 6 : ℝ) : EReal)) = true) ∧
        ∀ i, ¬ nanLt (asX worst i) (xAdd (asX ideal i) (xDiv (some 1) (asX plane i))) = true) ↔
        (planeClose ext ideal plane ∧ (∀ i, ¬ 1 / plane i ≤ 1 / 10 ^ 6) ∧ ∀ i, ideal i + 1 / plane i ≤ worst i) := by
      rw [hclose, ← forall_and, ← forall_and]
      refine and_congr_right (fun _ => forall_congr' (fun i => ?_))
      by_cases h0 : plane i = 0
      · have e : xDiv (some 1) (asX plane i) = some ⊤ := by
          show xDiv (some 1) (some ((plane i : ℝ) : EReal)) = _
          simp [xDiv, h0]
        have e2 : xAdd (asX ideal i) (some ⊤) = some ⊤ := by
          show xAdd (some ((ideal i : ℝ) : EReal)) (some ⊤) = _
          simp [xAdd]
        rw [e, e2, h0]
        constructor
        · rintro ⟨-, h⟩
          exfalso
          apply h
          show decide (((worst i : ℝ) : EReal) < ⊤) = true
          simp
        · rintro ⟨h, -⟩
          exact absurd (by norm_num) h
      · have e : xDiv (some 1) (asX plane i) = some ((1 / plane i : ℝ) : EReal) := xDiv_coe 1 (plane i) h0
        have e2 : xAdd (asX ideal i) (some ((1 / plane i : ℝ) : EReal)) = some ((ideal i + 1 / plane i : ℝ) : EReal) := xAdd_coe _ _
        rw [e, e2, xLe_coe]
        have e3 : nanLt (asX worst i) (some ((ideal i + 1 / plane i : ℝ) : EReal)) = decide (worst i < ideal i + 1 / plane i) := by
          show decide (((worst i : ℝ) : EReal) < _) = _
          simp only [EReal.coe_lt_coe_iff]
        rw [e3]
        simp only [decide_eq_true_eq, not_lt]
    simp only [Option.map_some]
    by_cases hc : planeClose ext ideal plane ∧ (∀ i, ¬ 1 / plane i ≤ 1 / 10 ^ 6) ∧ ∀ i, ideal i + 1 / plane i ≤ worst i
    · rw [if_pos (hcond.2 hc), if_pos hc]
      have e : (fun i => xAdd (asX ideal i) (xDiv (some 1) (asX plane i))) = asX (fun i => ideal i + 1 / plane i) := by
        funext i
        have h0 : plane i ≠ 0 := by
          intro h0
          apply hc.2.1 i
          rw [h0]; norm_num
        have e : xDiv (some 1) (asX plane i) = some ((1 / plane i : ℝ) : EReal) := xDiv_coe 1 (plane i) h0
        rw [e]
        exact xAdd_coe _ _
      have := hfin (fun i => ideal i + 1 / plane i)
      rw [← e] at this
      exact this
    · rw [if_neg (fun h => hc (hcond.1 h)), if_neg hc]
      exact hfin wof

theorem newWorstX_asX (worst : Option (Vec m)) (wp : Vec m) : newWorstX (worst.map asX) (asX wp) = asX (newWorst worst wp) := by
  cases worst with
  | none => rfl
  | some w => funext i; exact xMax2_coe _ _

theorem getD_asX (fitness : List (Vec m)) (l : List Nat) (h : ∀ j ∈ l, j < fitness.length) :
    l.map (fun j => (fitness.map asX).getD j (fun _ => none)) = (l.map (fun j => fitness.getD j 0)).map asX := by
  rw [List.map_map]
  apply List.map_congr_left
  intro j hj
  have := h j hj
  simp [List.getD_eq_getElem?_getD, List.getElem?_eq_getElem this]

theorem nsgaPointsX_asX (solveX : List (XVec m) → Option (XVec m)) (solve : List (Vec m) → Option (Vec m))
    (hsol : ∀ M, solveX (M.map asX) = (solve M).map asX) (st : Nsga m) (fitness : List (Vec m)) (f0 : List Nat) (h0 : ∀ j ∈ f0, j < fitness.length) :
    nsgaPointsX solveX (nsgaAsX st) (fitness.map asX) f0 =
      ((nsgaPoints solve st fitness f0).1.map asX, nsgaAsX (nsgaPoints solve st fitness f0).2) := by
  unfold nsgaPointsX nsgaPoints
  rw [colMinX_asX, colMaxX_asX]
  cases colMin fitness with
  | error e => rfl
  | ok fmin =>
    cases colMax fitness with
    | error e => rfl
    | ok fmax =>
      have hid : (fun i => xMin2 ((nsgaAsX st).ideal i) (asX fmin i)) = asX (nsgaExtremes st fmin fmax).ideal := by
        funext i; exact xMin2_coe _ _
      have hex : (nsgaAsX st).extreme = (nsgaExtremes st fmin fmax).extreme.map (fun e => e.map asX) := rfl
      have hw : newWorstX (nsgaAsX st).worst (asX fmax) = asX (newWorst st.worst fmax) := newWorstX_asX _ _
      simp only [Except.map, getD_asX fitness f0 h0, colMaxX_asX]
      cases colMax (f0.map (fun j => fitness.getD j 0)) with
      | error e =>
        simp only [hid, hw]
        rfl
      | ok wfront =>
        simp only [hid, hex, hw, extremePointsX_asX]
        cases extremePoints (f0.map (fun j => fitness.getD j 0)) (nsgaExtremes st fmin fmax).ideal (nsgaExtremes st fmin fmax).extreme with
        | error e => rfl
        | ok ext =>
          simp only [Except.map]
          rw [nadirPointX_asX solveX solve hsol]
          rfl

theorem perpDistX_asX (v u : Vec m) (hu : norm2 u ≠ 0) : perpDistX (asX v) (asX u) = (((perpDist v u : ℝ) : EReal) : WithBot EReal) := by
  unfold perpDistX perpDist
  have e1 : xSum (fun k => xMul (asX v k) (asX u k)) = some ((∑ k, v k * u k : ℝ) : EReal) := by
    rw [← xSum_coe]
    congr 1
    funext k
    exact xMul_coe _ _
  rw [xNorm_asX, e1, xDiv_coe _ _ hu]
  have e2 : (fun i => xSub (xDiv (xMul (some (((∑ k, v k * u k) / norm2 u : ℝ) : EReal)) (asX u i)) (some ((norm2 u : ℝ) : EReal))) (asX v i)) =
      asX (fun i => (∑ k, v k * u k) / norm2 u * u i / norm2 u - v i) := by
    funext i
    show xSub (xDiv (xMul _ (some _)) _) (some _) = some _
    rw [xMul_coe, xDiv_coe _ _ hu, xSub_coe]
  rw [e2, xNorm_asX]

theorem associateX_asX (refDirs : List (Vec m)) (hr : ∀ u ∈ refDirs, norm2 u ≠ 0) (ideal nadir : Vec m) (fs : List (Vec m)) :
    associateX (refDirs.map asX) (asX ideal) (asX nadir) (fs.map asX) =
      (associate refDirs ideal nadir fs).map (fun nd => nd.map (fun p => (p.1, (((p.2 : ℝ) : EReal) : WithBot EReal)))) := by
  have hmono : StrictMono (fun x : ℝ => (((x : ℝ) : EReal) : WithBot EReal)) := fun _ _ h => WithBot.coe_lt_coe.2 (EReal.coe_lt_coe_iff.2 h)
  induction fs with
  | nil => rfl
  | cons f fs ih =>
    have hn : nicheNormalX (asX ideal) (asX nadir) (asX f) = asX (nicheNormal ideal nadir f) := by
      funext i
      unfold nicheNormalX nicheNormal
      have e1 : xSub (asX f i) (asX ideal i) = some ((f i - ideal i : ℝ) : EReal) := xSub_coe _ _
      have e2 : xSub (asX nadir i) (asX ideal i) = some ((nadir i - ideal i : ℝ) : EReal) := xSub_coe _ _
      simp only [e1, e2]
      by_cases h0 : nadir i - ideal i = 0
      · rw [if_pos (by rw [h0]; rfl), xDiv_coe _ _ (by norm_num)]
        simp only [asX, if_pos h0]
      · rw [if_neg (by intro h; injection h with h; exact h0 (EReal.coe_eq_coe_iff.1 h)), xDiv_coe _ _ h0]
        simp only [asX, if_neg h0]
    have e : (refDirs.map asX).map (perpDistX (nicheNormalX (asX ideal) (asX nadir) (asX f))) =
        (refDirs.map (perpDist (nicheNormal ideal nadir f))).map (fun x : ℝ => (((x : ℝ) : EReal) : WithBot EReal)) := by
      rw [hn]
      simp only [List.map_map]
      apply List.map_congr_left
      intro u hu
      exact perpDistX_asX _ u (hr u hu)
    rw [List.map_cons]
    unfold associateX associate
    dsimp only
    rw [e, argminL_map _ hmono, ih]
    cases ha : argminL (refDirs.map (perpDist (nicheNormal ideal nadir f))) with
    | error e => rfl
    | ok a =>
      cases associate refDirs ideal nadir fs with
      | error e => rfl
      | ok as =>
        obtain ⟨v, hv, -⟩ := argminL_spec _ _ ha
        simp only [Except.map, List.map_cons, List.getD_eq_getElem?_getD, List.getElem?_map, hv, Option.map_some, Option.getD_some]

theorem lastFrontChoiceX_asX (rnd : NicheRand) (refDirs : List (Vec m)) (hr : ∀ u ∈ refDirs, norm2 u ≠ 0) (ideal nadir : Vec m) (n : Nat)
    (fitness : List (Vec m)) (fronts : List (List Nat)) (h : ∀ f ∈ fronts, ∀ j ∈ f, j < fitness.length) :
    lastFrontChoiceX rnd (refDirs.map asX) (asX ideal) (asX nadir) n (fitness.map asX) fronts =
      lastFrontChoice rnd refDirs ideal nadir n fitness fronts := by
  have hmono : StrictMono (fun x : ℝ => (((x : ℝ) : EReal) : WithBot EReal)) := fun _ _ h => WithBot.coe_lt_coe.2 (EReal.coe_lt_coe_iff.2 h)
  unfold lastFrontChoiceX lastFrontChoice
  dsimp only
  rw [getD_asX fitness fronts.flatten (by
    intro j hj
    obtain ⟨f, hf, hj⟩ := List.mem_flatten.1 hj
    exact h f hf j hj), associateX_asX refDirs hr]
  cases associate refDirs ideal nadir (fronts.flatten.map (fun j => fitness.getD j 0)) with
  | error e => rfl
  | ok nd =>
    simp only [Except.map, ← List.map_take, ← List.map_drop, List.map_map, List.length_map]
    have e2 : (nd.drop fronts.dropLast.flatten.length).map
          ((fun p : Nat × WithBot EReal => p.2) ∘ fun p : Nat × ℝ => (p.1, (((p.2 : ℝ) : EReal) : WithBot EReal))) =
        ((nd.drop fronts.dropLast.flatten.length).map (fun p => p.2)).map (fun x : ℝ => (((x : ℝ) : EReal) : WithBot EReal)) := by
      rw [List.map_map]; rfl
    rw [e2, niching_map _ hmono]
    rfl

/-- C116. When every value is a number and no reference vector is zero, this is the selection of C33–C36 and C54: same outcome, same
places, same state afterwards. -/
theorem c116_same_on_numbers (sortX : List (XVec m) → List (List Nat)) (solveX : List (XVec m) → Option (XVec m))
    (sort : List (Vec m) → List (List Nat)) (solve : List (Vec m) → Option (Vec m)) (rnd : NicheRand) (refDirs : List (Vec m))
    (hr : ∀ u ∈ refDirs, u ≠ 0) (nSurvive : Option Nat) (st : Nsga m) (fitness : List (Vec m)) (hs : sortX (fitness.map asX) = sort fitness)
    (hsol : ∀ M, solveX (M.map asX) = (solve M).map asX) (hj : ∀ f ∈ sort fitness, ∀ j ∈ f, j < fitness.length) :
    nsgaDoX sortX solveX rnd (refDirs.map asX) nSurvive (nsgaAsX st) (fitness.map asX) =
      ((nsgaDo sort solve rnd refDirs nSurvive st fitness).1, nsgaAsX (nsgaDo sort solve rnd refDirs nSurvive st fitness).2) := by
  have hr' : ∀ u ∈ refDirs, norm2 u ≠ 0 := by
    intro u hu h0
    apply hr u hu
    funext i
    unfold norm2 at h0
    rw [Real.sqrt_eq_zero (Finset.sum_nonneg (fun i _ => by positivity))] at h0
    have := (Finset.sum_eq_zero_iff_of_nonneg (fun i _ => by positivity)).1 h0 i (Finset.mem_univ i)
    simpa using this
  unfold nsgaDoX nsgaDo
  rw [hs]
  cases hc : sort fitness with
  | nil => rfl
  | cons f0 rest =>
    dsimp only
    rw [nsgaPointsX_asX solveX solve hsol st fitness f0 (hj f0 (by simp [hc]))]
    generalize nsgaPoints solve st fitness f0 = r
    obtain ⟨r1, st'⟩ := r
    cases r1 with
    | error e => rfl
    | ok nadir =>
      simp only [Except.map]
      cases nSurvive with
      | none => rfl
      | some n =>
        dsimp only
        cases ha : acceptedFronts n (f0 :: rest) with
        | none => rfl
        | some fs =>
          dsimp only
          split
          · have hfs : ∀ f ∈ fs, ∀ j ∈ f, j < fitness.length := by
              obtain ⟨k, -, rfl, -⟩ := acceptedFronts_some ha
              intro f hf
              exact hj f (by rw [hc]; exact List.mem_of_mem_take hf)
            have := lastFrontChoiceX_asX rnd refDirs hr' st'.ideal nadir n fitness fs hfs
            exact Prod.ext this rfl
          · rfl

theorem asX_injective : Function.Injective (asX : Vec m → XVec m) := by
  intro a b h
  funext i
  have := congrFun h i
  simp only [asX, Option.some.injEq] at this
  exact EReal.coe_eq_coe_iff.1 this

open Classical in
/-- A function on rows of floats that does on rows of numbers what a given one does. -/
noncomputable def onNumbers {A : Type} (dflt : A) (f : List (Vec m) → A) (F : List (XVec m)) : A :=
  if h : ∃ l : List (Vec m), F = l.map asX then f h.choose else dflt

theorem onNumbers_asX {A : Type} (dflt : A) (f : List (Vec m) → A) (l : List (Vec m)) : onNumbers dflt f (l.map asX) = f l := by
  have h : ∃ l' : List (Vec m), l.map asX = l'.map asX := ⟨l, rfl⟩
  unfold onNumbers
  rw [dif_pos h]
  exact congrArg f (List.map_injective_iff.2 asX_injective h.choose_spec).symm

/-- C116, the hypotheses of `c116_same_on_numbers` are met by every sorting and solving routine on numbers. -/
example (sort : List (Vec m) → List (List Nat)) (solve : List (Vec m) → Option (Vec m)) :
    ∃ (sortX : List (XVec m) → List (List Nat)) (solveX : List (XVec m) → Option (XVec m)),
    (∀ fitness : List (Vec m), sortX (fitness.map asX) = sort fitness) ∧ ∀ M : List (Vec m), solveX (M.map asX) = (solve M).map asX :=
  ⟨onNumbers [] sort, onNumbers none (fun M => (solve M).map asX), onNumbers_asX _ _, onNumbers_asX _ _⟩

/-- Two reference vectors that are not zero, two individuals neither of which dominates the other. -/
example : (∀ u ∈ [![(1 : ℝ), 0], ![0, 1]], u ≠ 0) ∧ ∀ f ∈ [[0, 1]], ∀ j ∈ f, j < [![(0 : ℝ), 1], ![1, 0]].length := by
  refine ⟨?_, by simp⟩
  intro u hu h0
  simp only [List.mem_cons, List.not_mem_nil, or_false] at hu
  rcases hu with rfl | rfl
  · have := congrFun h0 0; simp at this
  · have := congrFun h0 1; simp at this

end Verif.Props
