import Verif.Model.InfMoead
import Verif.Proofs.InfSelect
import Verif.Props.MOEAD
import Verif.Spec.Scalarizing

/-!
# C115: MOEA/D and individuals whose simulation failed
-/

open Verif Verif.Spec Verif.Proofs
open _root_.Spec (Rec Represents EvalOK Gens newRecs)
namespace Verif.Props
variable {X O C U S Q R : Type} {m : Nat}

/-- A simulation that failed: some objective is `inf` or NaN. -/
def HasFailed (f : XVec m) : Prop := ∃ i, f i = none ∨ f i = some ⊤

/-- Weights that are positive numbers. -/
def PosW (w : Fin m → EReal) : Prop := ∃ v : Vec m, (∀ i, 0 < v i) ∧ ∀ i, w i = ((v i : ℝ) : EReal)

/-- Weights that are numbers, none negative. -/
def NonnegW (w : Fin m → EReal) : Prop := ∃ v : Vec m, (∀ i, 0 ≤ v i) ∧ ∀ i, w i = ((v i : ℝ) : EReal)

theorem foldAdd_lost (l : List XF) : ∀ a, ((a = none ∨ a = some ⊤) ∨ ∃ b ∈ l, b = none ∨ b = some ⊤) →
    l.foldl xAdd a = none ∨ l.foldl xAdd a = some ⊤ := by
  induction l with
  | nil =>
    intro a h
    rcases h with h | ⟨b, hb, -⟩
    · exact h
    · cases hb
  | cons b l ih =>
    intro a h
    rw [List.foldl_cons]
    apply ih
    have key : (a = none ∨ a = some ⊤) ∨ (b = none ∨ b = some ⊤) → xAdd a b = none ∨ xAdd a b = some ⊤ := by
      intro h
      cases a with
      | none => exact .inl (xAdd_none_left _)
      | some a =>
        cases b with
        | none => exact .inl (xAdd_none_right _)
        | some b =>
          simp only [xAdd]
          split
          · exact .inl rfl
          · rename_i hn
            right
            rcases h with (h | h) | (h | h)
            · cases h
            · injection h with h
              subst h
              have hb : b ≠ ⊥ := fun h => hn (.inl ⟨rfl, h⟩)
              rw [EReal.top_add_of_ne_bot hb]
            · cases h
            · injection h with h
              subst h
              have ha : a ≠ ⊥ := fun h => hn (.inr ⟨h, rfl⟩)
              rw [EReal.add_top_of_ne_bot ha]
    rcases h with h | ⟨c, hc, h⟩
    · exact .inl (key (.inl h))
    · rcases List.mem_cons.1 hc with rfl | hc
      · exact .inl (key (.inr h))
      · exact .inr ⟨c, hc, h⟩

theorem xSum_lost (f : XVec m) (i : Fin m) (h : f i = none ∨ f i = some ⊤) : xSum f = none ∨ xSum f = some ⊤ :=
  foldAdd_lost _ _ (.inr ⟨f i, List.mem_ofFn.2 ⟨i, rfl⟩, h⟩)

theorem xSub_failed (a z : XF) (h : a = none ∨ a = some ⊤) : xSub a z = none ∨ xSub a z = some ⊤ := by
  rcases h with rfl | rfl
  · exact .inl (xSub_none_left _)
  · cases z with
    | none => exact .inl rfl
    | some z =>
      simp only [xSub]
      split
      · exact .inl rfl
      · rename_i hn
        right
        have hz : z ≠ ⊤ := fun h => hn (by simp [h])
        rw [EReal.top_sub hz]

theorem xMul_lost_pos (a : XF) (v : ℝ) (hv : 0 < v) (h : a = none ∨ a = some ⊤) :
    xMul a (some (v : EReal)) = none ∨ xMul a (some (v : EReal)) = some ⊤ := by
  rcases h with rfl | rfl
  · exact .inl (xMul_none_left _)
  · right
    simp only [xMul]
    rw [if_neg, EReal.top_mul_coe_of_pos hv]
    rintro (⟨h, -⟩ | ⟨-, h⟩)
    · exact EReal.top_ne_zero h
    · rw [EReal.coe_eq_zero] at h
      exact hv.ne' h

theorem xDiv_lost_pos (a : XF) (v : ℝ) (hv : 0 < v) (h : a = none ∨ a = some ⊤) :
    xDiv a (some (v : EReal)) = none ∨ xDiv a (some (v : EReal)) = some ⊤ := by
  rcases h with rfl | rfl
  · exact .inl (xDiv_none_left _)
  · right
    simp only [xDiv]
    rw [if_neg (by rw [EReal.coe_eq_zero]; exact hv.ne'), if_neg (by rintro ⟨-, h | h⟩ <;> cases h), EReal.top_div_of_pos_ne_top (by exact_mod_cast hv) (EReal.coe_ne_top _)]

theorem norm_pos {w : Vec m} (hw : ∃ i, w i ≠ 0) : 0 < norm2 w := by
  obtain ⟨i, hi⟩ := hw
  unfold norm2
  apply Real.sqrt_pos.2
  exact Finset.sum_pos' (fun j _ => by positivity) ⟨i, Finset.mem_univ _, by positivity⟩

theorem xAlong_lost (f z : XVec m) (w : Vec m) (hw : ∀ i, 0 < w i) (hf : HasFailed f) :
    xAlong f (asX w) z = none ∨ xAlong f (asX w) z = some ⊤ := by
  obtain ⟨i, hi⟩ := hf
  unfold xAlong
  rw [xNorm_asX]
  apply xDiv_lost_pos _ _ (norm_pos ⟨i, (hw i).ne'⟩)
  have := xSum_lost (fun i => xMul (xSub (f i) (z i)) (asX w i)) i (xMul_lost_pos _ _ (hw i) (xSub_failed _ _ hi))
  rcases this with h | h
  · rw [h]; exact .inl rfl
  · rw [h]; right; simp [xAbs]

theorem xNorm_none (f : XVec m) (i : Fin m) (h : f i = none) : xNorm f = none := by
  unfold xNorm
  rw [xSum_none _ i (by rw [h]; rfl)]
  rfl

theorem xSub_none_lost (a b : XF) (ha : a = none ∨ a = some ⊤) (hb : b = none ∨ b = some ⊤) : xSub a b = none := by
  rcases ha with rfl | rfl
  · exact xSub_none_left _
  · rcases hb with rfl | rfl
    · rfl
    · simp [xSub]

theorem xAdd_lost (z b : XF) (hb : b = none ∨ b = some ⊤) : xAdd z b = none ∨ xAdd z b = some ⊤ := by
  have := foldAdd_lost [b] z (.inr ⟨b, by simp, hb⟩)
  simpa using this

theorem PosW.eq {w : Fin m → EReal} (hw : PosW w) : ∃ v : Vec m, (∀ i, 0 < v i) ∧ w = fun i => ((v i : ℝ) : EReal) := by
  obtain ⟨v, h1, h2⟩ := hw
  exact ⟨v, h1, funext h2⟩

/-- C115. The PBI value of a failed individual is NaN, whatever the ideal point and the positive weights, and however the distance is
computed. -/
theorem c115_pbi_of_failed (theta : ℝ) (f z : XVec m) (w : Fin m → EReal) (hw : PosW w) (hf : HasFailed f) :
    pbiX theta f w z = none ∧ pbiX' theta f w z = none := by
  obtain ⟨v, hv, rfl⟩ := hw.eq
  have hd := xAlong_lost f z v hv hf
  obtain ⟨i, hi⟩ := hf
  have hstep : xDiv (xMul (xAlong f (asX v) z) (asX v i)) (xNorm (asX v)) = none ∨
      xDiv (xMul (xAlong f (asX v) z) (asX v i)) (xNorm (asX v)) = some ⊤ := by
    rw [xNorm_asX]
    exact xDiv_lost_pos _ _ (norm_pos ⟨i, (hv i).ne'⟩) (xMul_lost_pos _ _ (hv i) hd)
  constructor
  · show xAdd _ (xMul _ (xNorm (fun i => xSub (xSub (f i) (z i)) (xDiv (xMul (xAlong f (asX v) z) (asX v i)) (xNorm (asX v)))))) = none
    rw [xNorm_none _ i (xSub_none_lost _ _ (xSub_failed _ _ hi) hstep), xMul_none_right, xAdd_none_right]
  · show xAdd _ (xMul _ (xNorm (fun i => xSub (f i) (xAdd (z i) (xDiv (xMul (xAlong f (asX v) z) (asX v i)) (xNorm (asX v))))))) = none
    rw [xNorm_none _ i (xSub_none_lost _ _ hi (xAdd_lost _ _ hstep)), xMul_none_right, xAdd_none_right]

theorem xAbs_coe (a : ℝ) : xAbs (some (a : EReal)) = some ((|a| : ℝ) : EReal) := by
  simp only [xAbs]
  split
  · rename_i h
    rw [abs_of_nonneg (by exact_mod_cast h)]
  · rename_i h
    rw [abs_of_neg (by rw [not_le] at h; exact_mod_cast h)]
    simp

theorem xNorm_coe (g : Vec m) : xNorm (fun i => some ((g i : ℝ) : EReal)) = some ((norm2 g : ℝ) : EReal) := xNorm_asX g

theorem norm2_sum (g : Vec m) : norm2 g = Real.sqrt (∑ i, g i ^ 2) := rfl

theorem xAlong_coe (f z w : Vec m) (hw : ∃ i, w i ≠ 0) :
    xAlong (asX f) (asX w) (asX z) = some ((|∑ i, (f i - z i) * w i| / Real.sqrt (∑ i, w i ^ 2) : ℝ) : EReal) := by
  unfold xAlong
  have : (fun i => xMul (xSub (asX f i) (asX z i)) (asX w i)) = fun i => some (((f i - z i) * w i : ℝ) : EReal) := by
    funext i
    show xMul (xSub (some _) (some _)) (some _) = _
    rw [xSub_coe, xMul_coe]
  rw [this, xSum_coe, xAbs_coe, xNorm_asX, xDiv_coe _ _ (norm_pos hw).ne', norm2_sum]

/-- C115. Where everything is a number both are the penalty boundary intersection of the numbers. -/
theorem c115_pbi_of_numbers (theta : ℝ) (f z w : Vec m) (hw : ∃ i, w i ≠ 0) :
    pbiX theta (asX f) (fun i => ((w i : ℝ) : EReal)) (asX z) = some ((pbi theta f w z : ℝ) : EReal) ∧
      pbiX' theta (asX f) (fun i => ((w i : ℝ) : EReal)) (asX z) = some ((pbi theta f w z : ℝ) : EReal) := by
  have hn := (norm_pos hw).ne'
  have hd := xAlong_coe f z w hw
  generalize hD : |∑ i, (f i - z i) * w i| / Real.sqrt (∑ i, w i ^ 2) = d at hd
  have e : pbi theta f w z = d + theta * norm2 (fun i => f i - z i - d * w i / norm2 w) := by
    unfold pbi
    simp only [hD]
    rfl
  rw [e]
  constructor
  · show xAdd (xAlong (asX f) (asX w) (asX z)) (xMul _ (xNorm (fun i => xSub (xSub (asX f i) (asX z i)) (xDiv (xMul (xAlong (asX f) (asX w) (asX z)) (asX w i)) (xNorm (asX w)))))) = _
    rw [hd, xNorm_asX w]
    have : (fun i => xSub (xSub (asX f i) (asX z i)) (xDiv (xMul (some ((d : ℝ) : EReal)) (asX w i)) (some ((norm2 w : ℝ) : EReal)))) =
        fun i => some ((f i - z i - d * w i / norm2 w : ℝ) : EReal) := by
      funext i
      show xSub (xSub (some _) (some _)) (xDiv (xMul _ (some _)) _) = _
      rw [xSub_coe, xMul_coe, xDiv_coe _ _ hn, xSub_coe]
    rw [this, xNorm_coe, xMul_coe, xAdd_coe]
  · show xAdd (xAlong (asX f) (asX w) (asX z)) (xMul _ (xNorm (fun i => xSub (asX f i) (xAdd (asX z i) (xDiv (xMul (xAlong (asX f) (asX w) (asX z)) (asX w i)) (xNorm (asX w))))))) = _
    rw [hd, xNorm_asX w]
    have : (fun i => xSub (asX f i) (xAdd (asX z i) (xDiv (xMul (some ((d : ℝ) : EReal)) (asX w i)) (some ((norm2 w : ℝ) : EReal))))) =
        fun i => some ((f i - z i - d * w i / norm2 w : ℝ) : EReal) := by
      funext i
      show xSub (some _) (xAdd (some _) (xDiv (xMul _ (some _)) _)) = _
      rw [xMul_coe, xDiv_coe _ _ hn, xAdd_coe, xSub_coe]
      congr 2
      ring
    rw [this, xNorm_coe, xMul_coe, xAdd_coe]

/-! ## The population -/

/-- The scalarization function is PBI, computed in one way or the other. -/
def UsesPBI (mo : MoeadOps m EReal X O (XVec m) C U) : Prop :=
  ∃ theta : ℝ, (∀ f w z, mo.sf f w z = pbiX theta f w z) ∨ ∀ f w z, mo.sf f w z = pbiX' theta f w z

/-- The small constant that replaces zero weights is a positive number. -/
def TinyPos (mo : MoeadOps m EReal X O (XVec m) C U) : Prop := ∃ x : ℝ, 0 < x ∧ mo.tiny = (x : EReal)

theorem posW_fix {mo : MoeadOps m EReal X O (XVec m) C U} (ht : TinyPos mo) {w : Fin m → EReal} (hw : NonnegW w) :
    PosW (fun j => if w j = 0 then mo.tiny else w j) := by
  obtain ⟨x, hx, ht⟩ := ht
  obtain ⟨v, hv, hw⟩ := hw
  refine ⟨fun j => if v j = 0 then x else v j, fun i => ?_, fun i => ?_⟩
  · show 0 < if v i = 0 then x else v i
    split
    · exact hx
    · rename_i h
      exact lt_of_le_of_ne (hv i) (Ne.symm h)
  · show (if w i = 0 then mo.tiny else w i) = ((if v i = 0 then x else v i : ℝ) : EReal)
    by_cases h : v i = 0
    · rw [if_pos (by rw [hw, h]; rfl), if_pos h, ht]
    · rw [if_neg (by rw [hw, EReal.coe_eq_zero]; exact h), if_neg h, hw]

theorem subValue_failed {mo : MoeadOps m EReal X O (XVec m) C U} (hpbi : UsesPBI mo) (ht : TinyPos mo) (planar : List (Fin m → EReal))
    (hpl : ∀ w ∈ planar, NonnegW w) (z : XVec m) (k : Nat) (r : Rec X O (XVec m) C U) (hf : HasFailed r.f) : subValue mo planar z k r = none := by
  unfold subValue
  cases h : planar[k]? with
  | none => rfl
  | some w =>
    have hp := posW_fix ht (hpl w (List.mem_of_getElem? h))
    obtain ⟨theta, he | he⟩ := hpbi
    · rw [Option.bind_some, he]
      exact (c115_pbi_of_failed theta r.f z _ hp hf).1
    · rw [Option.bind_some, he]
      exact (c115_pbi_of_failed theta r.f z _ hp hf).2

/-- Failed individuals are the same records at the same places, and nobody else has failed. -/
def SameFailed (rs rs' : List (Rec X O (XVec m) C U)) : Prop :=
  rs'.length = rs.length ∧ ∀ (k : Nat) (r : Rec X O (XVec m) C U), rs[k]? = some r →
    (HasFailed r.f → rs'[k]? = some r) ∧ (¬ HasFailed r.f → ∃ r', rs'[k]? = some r' ∧ ¬ HasFailed r'.f)

theorem SameFailed.refl (rs : List (Rec X O (XVec m) C U)) : SameFailed rs rs := ⟨rfl, fun _ r h => ⟨fun _ => h, fun hn => ⟨r, h, hn⟩⟩⟩

theorem SameFailed.trans {a b c : List (Rec X O (XVec m) C U)} (h1 : SameFailed a b) (h2 : SameFailed b c) : SameFailed a c := by
  refine ⟨h2.1.trans h1.1, fun k r hk => ⟨fun hf => ?_, fun hn => ?_⟩⟩
  · exact (h2.2 k r ((h1.2 k r hk).1 hf)).1 hf
  · obtain ⟨r', h, hn'⟩ := (h1.2 k r hk).2 hn
    exact (h2.2 k r' h).2 hn'

theorem step_failed (ops : Ops X O (XVec m) C U (MoeadVec m EReal) S Q R) (mo : MoeadOps m EReal X O (XVec m) C U) (useRepair : Bool)
    (hpbi : UsesPBI mo) (ht : TinyPos mo) (i : Nat) (s t : EA X O (XVec m) C U (MoeadVec m EReal) S Q) (rs : List (Rec X O (XVec m) C U))
    (nCons : Nat) (hev : ∀ n sur b r, ops.evaluate n sur b = .ok r → EvalOK nCons b.rows.length r) (hpl : ∀ w ∈ s.vec.planar, NonnegW w)
    (hrep : Represents s.pop rs) (hne : rs ≠ []) (hd : 0 < s.pop.ndim) (hn : s.pop.nCons = nCons)
    (h : moeadStep ops mo useRepair i s = (.ok (), t)) :
    ∃ rs', Represents t.pop rs' ∧ 0 < t.pop.ndim ∧ t.pop.nCons = nCons ∧ t.vec = s.vec ∧ SameFailed rs rs' := by
  obtain ⟨rs', a, nb, p1, p2, x0, xs, h1, h2, h8, h9, h3, h4, h5, h6, -, h7⟩ :=
    moeadStep_spec ops mo useRepair i s t rs nCons hev hrep hne hd hn h
  refine ⟨rs', h1, h8, h9, (moeadStep_ok ops mo useRepair i s t h).2.2.2.2.2.1, h2, fun k r hk => ⟨fun hf => (h7 k r hk).2 ?_, fun hnf => ?_⟩⟩
  · rintro ⟨-, x, y, -, hy, -⟩
    rw [subValue_failed hpbi ht _ hpl _ k r hf] at hy
    cases hy
  · by_cases hc : k ∈ nb ∧ Less (subValue mo s.vec.planar (mo.ideal (s.clock + 3)) k a) (subValue mo s.vec.planar (mo.ideal (s.clock + 3)) k r)
    · refine ⟨a, (h7 k r hk).1 hc, fun hfa => ?_⟩
      obtain ⟨-, x, y, hx, -⟩ := hc
      rw [subValue_failed hpbi ht _ hpl _ k a hfa] at hx
      cases hx
    · exact ⟨r, (h7 k r hk).2 hc, hnf⟩

theorem steps_failed (ops : Ops X O (XVec m) C U (MoeadVec m EReal) S Q R) (mo : MoeadOps m EReal X O (XVec m) C U) (useRepair : Bool)
    (hpbi : UsesPBI mo) (ht : TinyPos mo) (nCons : Nat) (hev : ∀ n sur b r, ops.evaluate n sur b = .ok r → EvalOK nCons b.rows.length r)
    (is : List Nat) (s t : EA X O (XVec m) C U (MoeadVec m EReal) S Q) (rs : List (Rec X O (XVec m) C U)) (hpl : ∀ w ∈ s.vec.planar, NonnegW w)
    (hrep : Represents s.pop rs) (hne : rs ≠ []) (hd : 0 < s.pop.ndim) (hn : s.pop.nCons = nCons)
    (h : moeadSteps ops mo useRepair is s = (.ok (), t)) :
    ∃ rs', Represents t.pop rs' ∧ 0 < t.pop.ndim ∧ t.pop.nCons = nCons ∧ t.vec = s.vec ∧ SameFailed rs rs' := by
  induction is generalizing s rs with
  | nil =>
    simp only [moeadSteps, Prod.mk.injEq, true_and] at h
    subst h
    exact ⟨rs, hrep, hd, hn, rfl, .refl rs⟩
  | cons i is ih =>
    simp only [moeadSteps] at h
    split at h
    · simp at h
    · rename_i u s1 hs1
      obtain ⟨rs1, a1, a2, a3, a4, a5⟩ := step_failed ops mo useRepair hpbi ht i s s1 rs nCons hev hpl hrep hne hd hn hs1
      have hne1 : rs1 ≠ [] := by
        intro h0
        have := a5.1
        rw [h0] at this
        exact hne (List.length_eq_zero_iff.1 this.symm)
      obtain ⟨rs2, b1, b2, b3, b4, b5⟩ := ih s1 rs1 (by rw [a4]; exact hpl) a1 hne1 a2 a3 h
      exact ⟨rs2, b1, b2, b3, b4.trans a4, a5.trans b5⟩

/-- C115. MOEA/D with its default scalarization, over any number of completed generations, whatever offspring are made and whatever the
ideal point: an individual with `inf` or NaN in an objective is the same record at the same place at the end, however good the offspring
were, and every other place is held by an individual that has not failed.  (With or without repair; weights that are numbers, none
negative.) -/
theorem c115_failed_never_replaced (ops : Ops X O (XVec m) C U (MoeadVec m EReal) S Q R) (mo : MoeadOps m EReal X O (XVec m) C U)
    (useRepair : Bool) (popSize nCons : Nat) (hpbi : UsesPBI mo) (ht : TinyPos mo)
    (hev : ∀ n sur b r, ops.evaluate n sur b = .ok r → EvalOK nCons b.rows.length r)
    {cond : EA X O (XVec m) C U (MoeadVec m EReal) S Q → Prop} {g : Nat} {s t : EA X O (XVec m) C U (MoeadVec m EReal) S Q}
    (hg : Gens (moeadNextGen ops mo useRepair popSize) cond g s t) (rs : List (Rec X O (XVec m) C U)) (hrep : Represents s.pop rs)
    (hpl : ∀ w ∈ s.vec.planar, NonnegW w) (hne : rs ≠ []) (hd : 0 < s.pop.ndim) (hn : s.pop.nCons = nCons) :
    ∃ rs', Represents t.pop rs' ∧ rs'.length = rs.length ∧ ∀ (k : Nat) (r : Rec X O (XVec m) C U), rs[k]? = some r →
      (HasFailed r.f → rs'[k]? = some r) ∧ (¬ HasFailed r.f → ∃ r', rs'[k]? = some r' ∧ ¬ HasFailed r'.f) := by
  suffices h : ∃ rs', Represents t.pop rs' ∧ SameFailed rs rs' by
    obtain ⟨rs', h1, h2⟩ := h
    exact ⟨rs', h1, h2.1, h2.2⟩
  induction hg generalizing rs with
  | zero s => exact ⟨rs, hrep, .refl rs⟩
  | @succ k s t u hc hb hg ih =>
    unfold moeadNextGen at hb
    split at hb
    · simp at hb
    · rename_i u1 s1 hs1
      simp only [Prod.mk.injEq, true_and] at hb
      obtain ⟨rs1, a1, a2, a3, a4, a5⟩ := steps_failed ops mo useRepair hpbi ht nCons hev _ s s1 rs hpl hrep hne hd hn hs1
      have hne1 : rs1 ≠ [] := by
        intro h0
        have := a5.1
        rw [h0] at this
        exact hne (List.length_eq_zero_iff.1 this.symm)
      subst hb
      obtain ⟨rs2, b1, b2⟩ := ih rs1 a1 (by show ∀ w ∈ s1.vec.planar, _; rw [a4]; exact hpl) hne1 a2 a3
      exact ⟨rs2, b1, a5.trans b2⟩

/-! ## Another scalarization -/

theorem foldMax_coe (l : List ℝ) : ∀ a : ℝ, ∃ b : ℝ, (l.map (fun x : ℝ => (some (x : EReal) : XF))).foldl xMax2 (some (a : EReal)) = some (b : EReal) := by
  induction l with
  | nil => exact fun a => ⟨a, rfl⟩
  | cons x l ih =>
    intro a
    rw [List.map_cons, List.foldl_cons]
    have : xMax2 (some (a : EReal)) (some (x : EReal)) = some ((max a x : ℝ) : EReal) := by
      simp only [xMax2]
      rw [EReal.coe_strictMono.monotone.map_max]
    rw [this]
    exact ih _

theorem foldMax_some (l : List XF) : ∀ a : EReal, none ∉ l → (∃ b, l.foldl xMax2 (some a) = some b ∧ a ≤ b ∧ ∀ x, some x ∈ l → x ≤ b) := by
  induction l with
  | nil => exact fun a _ => ⟨a, rfl, le_rfl, by simp⟩
  | cons c l ih =>
    intro a h
    cases c with
    | none => simp at h
    | some c =>
      obtain ⟨b, h1, h2, h3⟩ := ih (max a c) (by intro hl; exact h (by simp [hl]))
      refine ⟨b, h1, (le_max_left _ _).trans h2, ?_⟩
      intro x hx
      rcases List.mem_cons.1 hx with hx | hx
      · injection hx with hx
        subst hx
        exact (le_max_right _ _).trans h2
      · exact h3 x hx

/-- C115. With the Tchebycheff scalarization instead, a row with `inf` in an objective and NaN in none has the value `inf` (ideal point a
row of numbers, weights positive numbers), and a row of numbers has a number: the row of numbers wins. -/
theorem c115_tchebycheff_differs (f : XVec m) (a z : Vec m) (w : Fin m → EReal) (hw : PosW w) (hf : ∃ i, f i = some ⊤)
    (hnan : ∀ i, f i ≠ none) : tcheX f w (asX z) = some ⊤ ∧ Less (tcheX (asX a) w (asX z)) (tcheX f w (asX z)) := by
  obtain ⟨v, hv, rfl⟩ := hw.eq
  have h1 : tcheX f (fun i => ((v i : ℝ) : EReal)) (asX z) = some ⊤ := by
    unfold tcheX
    have hno : none ∉ List.ofFn (fun i => xMul (some ((v i : ℝ) : EReal)) (xAbs (xSub (f i) (asX z i)))) := by
      intro h
      obtain ⟨i, hi⟩ := List.mem_ofFn.1 h
      cases hfi : f i with
      | none => exact hnan i hfi
      | some x =>
        have h1 : xSub (f i) (asX z i) = some (x - ((z i : ℝ) : EReal)) := by
          rw [hfi]
          show xSub (some x) (some _) = _
          simp only [xSub]
          rw [if_neg]
          rintro (⟨-, h⟩ | ⟨-, h⟩)
          · exact EReal.coe_ne_top _ h
          · exact EReal.coe_ne_bot _ h
        rw [h1] at hi
        simp only [xAbs, xMul] at hi
        rw [if_neg] at hi
        · exact absurd hi (by simp)
        · rintro (⟨h, -⟩ | ⟨h | h, -⟩)
          · rw [EReal.coe_eq_zero] at h
            exact (hv i).ne' h
          · exact EReal.coe_ne_top _ h
          · exact EReal.coe_ne_bot _ h
    obtain ⟨b, e1, -, e3⟩ := foldMax_some _ 0 hno
    obtain ⟨i, hi⟩ := hf
    have := e3 ⊤ (List.mem_ofFn.2 ⟨i, by
      have : xSub (f i) (asX z i) = some ⊤ := by
        rw [hi]
        show xSub (some ⊤) (some _) = _
        simp only [xSub]
        rw [if_neg (by rintro (⟨-, h⟩ | ⟨h, -⟩); exact EReal.coe_ne_top _ h; cases h), EReal.top_sub (EReal.coe_ne_top _)]
      rw [this]
      simp only [xAbs, le_top, if_true, xMul]
      rw [if_neg, EReal.coe_mul_top_of_pos (hv i)]
      rintro (⟨h, -⟩ | ⟨-, h⟩)
      · rw [EReal.coe_eq_zero] at h
        exact (hv i).ne' h
      · exact EReal.top_ne_zero h⟩)
    rw [e1, top_le_iff.1 this]
  refine ⟨h1, ?_⟩
  have h2 : ∃ b : ℝ, tcheX (asX a) (fun i => ((v i : ℝ) : EReal)) (asX z) = some (b : EReal) := by
    unfold tcheX
    have : List.ofFn (fun i => xMul (some ((v i : ℝ) : EReal)) (xAbs (xSub (asX a i) (asX z i)))) =
        (List.ofFn (fun i => v i * |a i - z i|)).map (fun x : ℝ => (some (x : EReal) : XF)) := by
      rw [List.map_ofFn]
      congr 1
      funext i
      show xMul (some _) (xAbs (xSub (some _) (some _))) = _
      rw [xSub_coe, xAbs_coe, xMul_coe]
      rfl
    rw [this]
    exact foldMax_coe _ 0
  obtain ⟨b, h2⟩ := h2
  exact ⟨_, _, h2, h1, EReal.coe_lt_top b⟩

/-- C115. So with the Tchebycheff scalarization a step with an offspring of numbers does replace the failed neighbours. -/
theorem c115_tchebycheff_replaces (ops : Ops X O (XVec m) C U (MoeadVec m EReal) S Q R) (mo : MoeadOps m EReal X O (XVec m) C U)
    (useRepair : Bool) (hsf : ∀ f w z, mo.sf f w z = tcheX f w z) (ht : TinyPos mo) (i : Nat)
    (s t : EA X O (XVec m) C U (MoeadVec m EReal) S Q) (rs : List (Rec X O (XVec m) C U)) (nCons : Nat)
    (hev : ∀ n sur b r, ops.evaluate n sur b = .ok r → EvalOK nCons b.rows.length r) (hpl : ∀ w ∈ s.vec.planar, NonnegW w)
    (hrep : Represents s.pop rs) (hne : rs ≠ []) (hd : 0 < s.pop.ndim) (hn : s.pop.nCons = nCons)
    (hz : ∀ c, ∃ z, mo.ideal c = asX z) (hnum : ∀ n sur b r, ops.evaluate n sur b = .ok r → ∀ f ∈ r.fitness, ∃ a, f = asX a)
    (h : moeadStep ops mo useRepair i s = (.ok (), t)) :
    ∃ (rs' : List (Rec X O (XVec m) C U)) (nb : List Nat), Represents t.pop rs' ∧ s.vec.neigh[i]? = some nb ∧
      ∀ k ∈ nb, ∀ r : Rec X O (XVec m) C U, rs[k]? = some r → (k < s.vec.planar.length) → (∃ j, r.f j = some ⊤) → (∀ j, r.f j ≠ none) →
        ∃ a r', rs'[k]? = some r' ∧ r'.f = asX a := by
  obtain ⟨rs', a, nb, p1, p2, x0, xs, h1, h2, h8, h9, h3, h4, h5, h6, ⟨res, hres, hrec⟩, h7⟩ :=
    moeadStep_spec ops mo useRepair i s t rs nCons hev hrep hne hd hn h
  refine ⟨rs', nb, h1, h3, fun k hk r hr hlt hinf hnan => ?_⟩
  obtain ⟨z, hz⟩ := hz (s.clock + 3)
  have hfa : ∃ y, a.f = asX y := by
    have hok : EvalOK nCons 1 res := hev _ _ _ _ hres
    obtain ⟨o, f, ho, hf, hrec'⟩ := newRecs_one a.x res hok
    rw [hrec'] at hrec
    have := List.head_eq_of_cons_eq hrec
    rw [← this]
    exact hnum _ _ _ _ hres f (by rw [hf]; simp)
  obtain ⟨y, hy⟩ := hfa
  refine ⟨y, a, (h7 k r hr).1 ⟨hk, ?_⟩, hy⟩
  unfold subValue
  rw [List.getElem?_eq_getElem hlt, Option.bind_some, Option.bind_some, hsf, hsf, hz, hy]
  exact (c115_tchebycheff_differs r.f y z _ (posW_fix ht (hpl _ (List.getElem_mem _))) hinf hnan).2

/-! ## The hypotheses can be met -/

/-- One objective, decision vectors are numbers, PBI with theta 5. -/
noncomputable def infMoead : MoeadOps 1 EReal Nat Nat (XVec 1) Nat Nat where
  pick _ _ := (0, 1)
  mate _ _ _ _ := .ok [7]
  repair x := x
  sf f w z := pbiX 5 f w z
  ideal _ := fun _ => some 0
  tiny := ((1 / 10000 : ℝ) : EReal)

/-- Every vector has its own number for fitness. -/
noncomputable def infMoeadOps : Ops Nat Nat (XVec 1) Nat Nat (MoeadVec 1 EReal) Nat Nat Nat where
  adapt v _ := v
  respond _ _ v _ _ := (.ok (), v)
  mate _ p := .ok ⟨2, p.individuals.getD []⟩
  evaluate _ _ b := .ok ⟨b.rows, b.rows.map (fun x _ => some (((x : ℝ) : EReal))), none, none⟩
  select _ v t _ := (.ok [], v, t)
  newId n := n
  probManage q _ _ := (.ok (), q)
  probReeval q o := (o.map (fun _ _ => none), q)
  dom _ _ := false
  nonDom l := l.map (fun _ => true)

/-- Two individuals, the first of which has failed. -/
noncomputable def infMoeadState : EA Nat Nat (XVec 1) Nat Nat (MoeadVec 1 EReal) Nat Nat where
  cfg := ⟨false, none, 2, 3, 0, false, false, false⟩
  clock := 0
  pop := ⟨0, 2, some [50, 60], [50, 60], [fun _ => some ⊤, fun _ => some ((60 : ℝ) : EReal)], none, none⟩
  vec := ⟨[fun _ => ((1 : ℝ) : EReal), fun _ => ((0 : ℝ) : EReal)], [[0, 1], [1, 0]]⟩
  sel := 0
  prob := 0
  iter := 0
  gen := 0
  genIter := 0
  fe := 2
  reqId := none
  itype := none
  typeSet := false
  allowRead := false
  archive := []
  nd := none
  trueEvals := 2
  log := []

/-- A generation completes, and the failed individual is still the first one. -/
example : ∃ t rs', moeadNextGen infMoeadOps infMoead true 2 infMoeadState = (.ok (), t) ∧ Represents t.pop rs' ∧
    rs'[0]? = some ⟨50, 50, fun _ => some ⊤, none, none⟩ := by
  have hev : ∀ n sur b r, infMoeadOps.evaluate n sur b = .ok r → EvalOK 0 b.rows.length r := by
    intro n sur b r h
    injection h with h
    subst h
    exact ⟨rfl, by simp, fun _ => rfl, fun h => absurd rfl h, fun us h => by cases h⟩
  have hready : MoeadReady infMoeadOps infMoead 2 0 2 false infMoeadState.vec :=
    { enough := by decide
      two := by intro nb h; simp [infMoeadState] at h; rcases h with rfl | rfl <;> decide
      valid := by intro nb h; simp [infMoeadState] at h; rcases h with rfl | rfl <;> simp [infMoeadState]
      picks := by intro t n h; simp [infMoead]; omega
      mates := fun _ _ _ _ _ _ _ _ => ⟨_, _, rfl⟩
      evaluates := fun n sur b r h => ⟨hev n sur b r h, by injection h with h; subst h; simp⟩ }
  have hrep : Represents infMoeadState.pop [⟨50, 50, fun _ => some ⊤, none, none⟩, ⟨60, 60, fun _ => some ((60 : ℝ) : EReal), none, none⟩] :=
    ⟨Or.inl rfl, rfl, rfl, fun _ h => absurd rfl h, fun _ => rfl, fun us h => by cases h⟩
  obtain ⟨-, -, -, h⟩ := c37_generation_succeeds infMoeadOps infMoead true 2 0 2 2 false infMoeadState hready
    ⟨⟨_, hrep, rfl⟩, by decide, rfl, by decide, rfl, by simp [infMoeadState]⟩
  have hok := (h (by simp [infMoeadState])).2 (fun _ _ _ => ⟨_, rfl⟩)
  obtain ⟨rs', h1, -, h3⟩ := c115_failed_never_replaced infMoeadOps infMoead true 2 0 ⟨5, .inl (fun _ _ _ => rfl)⟩
    ⟨1 / 10000, by norm_num, rfl⟩ hev (cond := fun _ => True) (s := infMoeadState) (t := (moeadNextGen infMoeadOps infMoead true 2 infMoeadState).2)
    (.succ trivial (Prod.ext hok rfl) (.zero _)) _ hrep (by
      intro w hw
      simp [infMoeadState] at hw
      rcases hw with rfl | rfl
      · exact ⟨fun _ => 1, fun _ => zero_le_one, fun _ => rfl⟩
      · exact ⟨fun _ => 0, fun _ => le_rfl, fun _ => rfl⟩) (by simp) (by decide) rfl
  exact ⟨_, rs', Prod.ext hok rfl, h1, (h3 0 _ rfl).1 ⟨0, .inr rfl⟩⟩

/-- With the Tchebycheff scalarization 7 beats `inf`. -/
example : Less (tcheX (asX (fun _ : Fin 1 => 7)) (fun _ => ((1 : ℝ) : EReal)) (asX (fun _ => 0)))
    (tcheX (fun _ : Fin 1 => some ⊤) (fun _ => ((1 : ℝ) : EReal)) (asX (fun _ => 0))) :=
  (c115_tchebycheff_differs (fun _ => some ⊤) (fun _ => 7) (fun _ => 0) _ ⟨fun _ => 1, fun _ => one_pos, fun _ => rfl⟩ ⟨0, rfl⟩
    (by simp)).2

/-- A step with the Tchebycheff scalarization replaces the failed individual. -/
example : ∃ t rs' r', moeadStep infMoeadOps { infMoead with sf := tcheX } true 0 infMoeadState = (.ok (), t) ∧ Represents t.pop rs' ∧
    rs'[0]? = some r' ∧ ∃ a, r'.f = asX a := by
  have hev : ∀ n sur b r, infMoeadOps.evaluate n sur b = .ok r → EvalOK 0 b.rows.length r := by
    intro n sur b r h
    injection h with h
    subst h
    exact ⟨rfl, by simp, fun _ => rfl, fun h => absurd rfl h, fun us h => by cases h⟩
  have hready : MoeadReady infMoeadOps { infMoead with sf := tcheX } 2 0 2 false infMoeadState.vec :=
    { enough := by decide
      two := by intro nb h; simp [infMoeadState] at h; rcases h with rfl | rfl <;> decide
      valid := by intro nb h; simp [infMoeadState] at h; rcases h with rfl | rfl <;> simp [infMoeadState]
      picks := by intro t n h; simp [infMoead]; omega
      mates := fun _ _ _ _ _ _ _ _ => ⟨_, _, rfl⟩
      evaluates := fun n sur b r h => ⟨hev n sur b r h, by injection h with h; subst h; simp⟩ }
  have hrep : Represents infMoeadState.pop [⟨50, 50, fun _ => some ⊤, none, none⟩, ⟨60, 60, fun _ => some ((60 : ℝ) : EReal), none, none⟩] :=
    ⟨Or.inl rfl, rfl, rfl, fun _ h => absurd rfl h, fun _ => rfl, fun us h => by cases h⟩
  obtain ⟨-, -, -, h⟩ := moeadStep_kept infMoeadOps { infMoead with sf := tcheX } true 2 0 2 2 false 0 infMoeadState hready (by decide)
    ⟨⟨_, hrep, rfl⟩, by decide, rfl, by decide, rfl, by simp [infMoeadState]⟩
  have hok := (h (by simp [infMoeadState])).2 (fun _ _ _ => ⟨_, rfl⟩)
  obtain ⟨rs', nb, h1, h2, h3⟩ := c115_tchebycheff_replaces infMoeadOps { infMoead with sf := tcheX } true (fun _ _ _ => rfl)
    ⟨1 / 10000, by norm_num, rfl⟩ 0 infMoeadState (moeadStep infMoeadOps { infMoead with sf := tcheX } true 0 infMoeadState).2 _ 0 hev (by
      intro w hw
      simp [infMoeadState] at hw
      rcases hw with rfl | rfl
      · exact ⟨fun _ => 1, fun _ => zero_le_one, fun _ => rfl⟩
      · exact ⟨fun _ => 0, fun _ => le_rfl, fun _ => rfl⟩) hrep (by simp) (by decide) rfl (fun _ => ⟨fun _ => 0, rfl⟩) (by
      intro n sur b r h f hf
      injection h with h
      subst h
      obtain ⟨x, -, rfl⟩ := List.mem_map.1 hf
      exact ⟨fun _ => (x : ℝ), rfl⟩) (Prod.ext hok rfl)
  have e : nb = [0, 1] := by injection h2 with h2; exact h2.symm
  subst e
  obtain ⟨a, r', h4, h5⟩ := h3 0 (by simp) _ rfl (by decide) ⟨0, rfl⟩ (by simp)
  exact ⟨_, rs', r', Prod.ext hok rfl, h1, h4, a, h5⟩

end Verif.Props
