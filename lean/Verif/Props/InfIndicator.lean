import Verif.Model.InfIndicator
import Verif.Props.InfSelect
import Verif.Props.IndicatorRun

/-!
# C114: IBEA and individuals whose simulation failed
-/

open Verif Verif.Spec Verif.Proofs
open _root_.Spec (Rec Represents EvalOK newRecs)
namespace Verif.Props
variable {X O F U P Q R : Type} {m : Nat}

/-- The row of a failed simulation: `inf` everywhere. -/
def AllInf (f : XVec m) : Prop := ∀ i, f i = some ⊤

/-- A row with an entry that is a number or `-inf`. -/
def SomeBelow (f : XVec m) : Prop := ∃ i x, f i = some x ∧ x ≠ ⊤

theorem sum_le_length (l : List ℝ) (h : ∀ x ∈ l, x ≤ 1) : l.sum ≤ l.length := by
  induction l with
  | nil => simp
  | cons a l ih =>
    have h1 := h a (by simp)
    have h2 := ih (fun x hx => h x (by simp [hx]))
    simp only [List.sum_cons, List.length_cons, Nat.cast_add, Nat.cast_one]
    linarith

/-- Where the losses of the bad are all 1 and those of the others to the bad are 0, the bad have the smaller fitness. -/
theorem bad_below_good (t : F → F → ℝ) (bad : F → Prop) (h1 : ∀ a b, t a b ≤ 1) (hb : ∀ a b, bad a → t a b = 1) (l : List F)
    (hg : ∀ a ∈ l, ¬ bad a → ∀ b, bad b → t a b = 0) (i j : Nat) (a b : F) (ha : l[i]? = some a) (hbj : l[j]? = some b) (hba : bad a)
    (hgb : ¬ bad b) : indFitness t a (l.eraseIdx i) < indFitness t b (l.eraseIdx j) := by
  have hij : j ≠ i := by
    rintro rfl
    rw [ha] at hbj
    injection hbj with hbj
    exact hgb (hbj ▸ hba)
  have hi : i < l.length := (List.getElem?_eq_some_iff.1 ha).1
  have hj : j < l.length := (List.getElem?_eq_some_iff.1 hbj).1
  have e1 : indFitness t a (l.eraseIdx i) = -((l.length - 1 : Nat) : ℝ) := by
    unfold indFitness
    have : (l.eraseIdx i).map (t a) = List.replicate (l.length - 1) 1 := by
      rw [List.eq_replicate_iff]
      refine ⟨by rw [List.length_map, List.length_eraseIdx_of_lt hi], ?_⟩
      intro x hx
      obtain ⟨c, -, rfl⟩ := List.mem_map.1 hx
      exact hb a c hba
    rw [this]
    simp
  have ham : a ∈ l.eraseIdx j := by
    obtain ⟨hi', rfl⟩ := List.getElem?_eq_some_iff.1 ha
    rw [List.mem_eraseIdx_iff_getElem]
    exact ⟨i, hi', fun e => hij e.symm, rfl⟩
  obtain ⟨u, v, huv⟩ := List.append_of_mem ham
  have p2 : (l.eraseIdx j).Perm (a :: (u ++ v)) := by rw [huv]; exact List.perm_middle
  have hlen := p2.length_eq
  rw [List.length_eraseIdx_of_lt hj, List.length_cons] at hlen
  rw [e1, indFitness_perm p2]
  unfold indFitness
  rw [List.map_cons, List.sum_cons, hg b (List.mem_of_getElem? hbj) hgb a hba, zero_add]
  have h2 := sum_le_length ((u ++ v).map (t b)) (by
    intro x hx
    obtain ⟨c, -, rfl⟩ := List.mem_map.1 hx
    exact h1 b c)
  rw [List.length_map] at h2
  rw [hlen]
  push_cast
  linarith

theorem worst_is_bad (t : F → F → ℝ) (bad : F → Prop) (h1 : ∀ a b, t a b ≤ 1) (hb : ∀ a b, bad a → t a b = 1) (l : List F)
    (hg : ∀ a ∈ l, ¬ bad a → ∀ b, bad b → t a b = 0) (w : Nat) (hw : IsWorst t l w) (hex : ∃ b ∈ l, bad b) (a : F) (ha : l[w]? = some a) :
    bad a := by
  by_contra hna
  obtain ⟨b, hbm, hbb⟩ := hex
  obtain ⟨j, hj, rfl⟩ := List.mem_iff_getElem.1 hbm
  have hlt := bad_below_good t bad h1 hb l hg j w _ a (List.getElem?_eq_getElem hj) ha hbb hna
  obtain ⟨v, h2, h3, -⟩ := hw
  have e1 : (allFitness t l)[w]? = some (indFitness t a (l.eraseIdx w)) := by simp [allFitness, ha]
  have e2 : (allFitness t l)[j]? = some (indFitness t l[j] (l.eraseIdx j)) := by simp [allFitness, List.getElem?_eq_getElem hj]
  rw [e1] at h2
  injection h2 with h2
  have := h3 j _ e2
  linarith

open Classical in
theorem removesWorst_bad_first {α : Type} (t : F → F → ℝ) (bad : F → Prop) (h1 : ∀ a b, t a b ≤ 1) (hb : ∀ a b, bad a → t a b = 1) (f : α → F)
    (k : Nat) (rs rs' : List α) (h : RemovesWorst t f k rs rs') (hg : ∀ a ∈ rs, ¬ bad (f a) → ∀ b, bad b → t (f a) b = 0) :
    (k + (rs.filter (fun a => ¬ bad (f a))).length ≤ rs.length → rs'.filter (fun a => ¬ bad (f a)) = rs.filter (fun a => ¬ bad (f a))) ∧
    (∀ q, k + (rs.filter (fun a => ¬ bad (f a))).length = rs.length + q → RemovesWorst t f q (rs.filter (fun a => ¬ bad (f a))) rs') := by
  induction h with
  | zero rs =>
    refine ⟨fun _ => rfl, fun q hq => ?_⟩
    have hle := List.length_filter_le (fun a => decide (¬ bad (f a))) rs
    have hq0 : q = 0 := by omega
    subst hq0
    have : rs.filter (fun a => ¬ bad (f a)) = rs := by
      rw [List.filter_eq_self]
      rw [← List.length_filter_eq_length_iff]
      omega
    rw [this]
    exact .zero rs
  | @succ k rs rs' w hlt hw hrest ih =>
    have ih := ih (fun a ha => hg a ((List.eraseIdx_sublist _ _).subset ha))
    by_cases hex : ∃ b ∈ rs.map f, bad b
    · have hbw := worst_is_bad t bad h1 hb (rs.map f) (by
        intro a ha hna b hbb
        obtain ⟨c, hc, rfl⟩ := List.mem_map.1 ha
        exact hg c hc hna b hbb) w hw hex (f rs[w]) (by simp [List.getElem?_eq_getElem hlt])
      have hfe : (rs.eraseIdx w).filter (fun a => ¬ bad (f a)) = rs.filter (fun a => ¬ bad (f a)) := by
        have e1 := List.eraseIdx_eq_take_drop_succ rs w
        have e2 : rs = rs.take w ++ rs[w] :: rs.drop (w + 1) := by
          rw [List.getElem_cons_drop, List.take_append_drop]
        rw [e1, List.filter_append]
        conv_rhs => rw [e2, List.filter_append, List.filter_cons_of_neg (by simpa using hbw)]
      rw [hfe, List.length_eraseIdx_of_lt hlt] at ih
      refine ⟨fun hk => ih.1 (by omega), fun q hq => ih.2 q (by omega)⟩
    · have hall : rs.filter (fun a => ¬ bad (f a)) = rs := by
        rw [List.filter_eq_self]
        intro a ha
        have : ¬ bad (f a) := fun hba => hex ⟨f a, List.mem_map.2 ⟨a, ha, rfl⟩, hba⟩
        simpa using this
      rw [hall]
      refine ⟨fun hk => by omega, fun q hq => ?_⟩
      have : q = k + 1 := by omega
      subst this
      exact .succ hlt hw hrest

/-! ## The epsilon indicator -/

theorem epsFold_ge (l : List XF) : ∀ e : EReal, e ≤ l.foldl (fun e d => match d with | some d => if d > e then d else e | none => e) e := by
  induction l with
  | nil => intro e; exact le_rfl
  | cons d l ih =>
    intro e
    rw [List.foldl_cons]
    refine le_trans ?_ (ih _)
    cases d with
    | none => exact le_rfl
    | some d =>
      dsimp only
      split
      · rename_i h; exact h.le
      · exact le_rfl

theorem epsFold_ge_mem (l : List XF) (x : EReal) (hx : some x ∈ l) : ∀ e : EReal,
    x ≤ l.foldl (fun e d => match d with | some d => if d > e then d else e | none => e) e := by
  induction l with
  | nil => cases hx
  | cons d l ih =>
    intro e
    rw [List.foldl_cons]
    rcases List.mem_cons.1 hx with h | h
    · subst h
      refine le_trans ?_ (epsFold_ge l _)
      dsimp only
      split
      · exact le_rfl
      · rename_i h; exact not_lt.1 h
    · exact ih h _

theorem epsFold_stays (l : List XF) (e : EReal) (h : ∀ x, some x ∈ l → x ≤ e) :
    l.foldl (fun e d => match d with | some d => if d > e then d else e | none => e) e = e := by
  induction l with
  | nil => rfl
  | cons d l ih =>
    rw [List.foldl_cons]
    cases d with
    | none => exact ih (fun x hx => h x (by simp [hx]))
    | some d =>
      dsimp only
      rw [if_neg (not_lt.2 (h d (by simp)))]
      exact ih (fun x hx => h x (by simp [hx]))

theorem epsX_nonneg (a b : XVec m) : 0 ≤ epsX a b := epsFold_ge _ 0

theorem epsX_of_allInf (a b : XVec m) (h : AllInf a) : epsX a b = 0 := by
  unfold epsX
  apply epsFold_stays
  intro x hx
  obtain ⟨i, hi⟩ := (List.mem_ofFn' _ _).1 hx
  dsimp only at hi
  rw [h i] at hi
  cases hb : b i with
  | none => rw [hb] at hi; cases hi
  | some y =>
    rw [hb] at hi
    simp only [xSub] at hi
    split at hi
    · cases hi
    · injection hi with hi
      rw [← hi]
      simp

theorem epsX_to_allInf (a b : XVec m) (ha : SomeBelow a) (h : AllInf b) : epsX a b = ⊤ := by
  obtain ⟨i, x, hx, hne⟩ := ha
  rw [← top_le_iff]
  unfold epsX
  apply epsFold_ge_mem
  refine (List.mem_ofFn' _ _).2 ⟨i, ?_⟩
  dsimp only
  rw [h i, hx]
  simp only [xSub]
  rw [if_neg (by simp [hne]), EReal.top_sub hne]

theorem ibeaTermX_le_one (kappa : ℝ) (hk : 0 < kappa) (a b : XVec m) : ibeaTermX epsX kappa a b ≤ 1 := by
  unfold ibeaTermX
  split
  · exact zero_le_one
  · rw [← Real.exp_zero]
    apply Real.exp_le_exp.2
    have := EReal.toReal_nonneg (epsX_nonneg a b)
    exact div_nonpos_of_nonpos_of_nonneg (by linarith) hk.le

theorem ibeaTermX_of_allInf (kappa : ℝ) (a b : XVec m) (h : AllInf a) : ibeaTermX epsX kappa a b = 1 := by
  unfold ibeaTermX
  rw [epsX_of_allInf a b h, if_neg (by simp)]
  simp

theorem ibeaTermX_to_allInf (kappa : ℝ) (a b : XVec m) (ha : SomeBelow a) (h : AllInf b) : ibeaTermX epsX kappa a b = 0 := by
  unfold ibeaTermX
  rw [epsX_to_allInf a b ha h, if_pos rfl]

/-- C114. On numbers this is IBEA's term with the additive epsilon indicator. -/
theorem c114_same_on_numbers (kappa : ℝ) (a b : Fin m → ℝ) :
    ibeaTermX epsX kappa (fun i => some ((a i : ℝ) : EReal)) (fun i => some ((b i : ℝ) : EReal)) = ibeaTerm additiveEps kappa a b := by
  have key : ∀ (l : List ℝ) (e : ℝ), 0 ≤ e → (l.map (fun x : ℝ => (some (x : EReal) : XF))).foldl
      (fun e d => match d with | some d => if d > e then d else e | none => e) (e : EReal) = ((max e (l.foldr max 0) : ℝ) : EReal) := by
    intro l
    induction l with
    | nil => intro e he; simp [he]
    | cons x l ih =>
      intro e he
      rw [List.map_cons, List.foldl_cons, List.foldr_cons]
      dsimp only
      by_cases hx : x > e
      · rw [if_pos (by exact_mod_cast hx), ih x (by linarith), ← max_assoc, max_eq_right hx.le]
      · rw [if_neg (by exact_mod_cast hx), ih e he, ← max_assoc, max_eq_left (not_lt.1 hx)]
  have e : epsX (fun i => some ((a i : ℝ) : EReal)) (fun i => some ((b i : ℝ) : EReal)) = ((additiveEps a b : ℝ) : EReal) := by
    unfold epsX additiveEps
    have : (List.ofFn (fun i => xSub (some ((b i : ℝ) : EReal)) (some ((a i : ℝ) : EReal)))) =
        (List.ofFn (fun i => b i - a i)).map (fun x : ℝ => (some (x : EReal) : XF)) := by
      rw [List.map_ofFn]
      congr 1
    rw [this]
    have h := key (List.ofFn (fun i => b i - a i)) 0 le_rfl
    rw [EReal.coe_zero] at h
    refine h.trans ?_
    rw [max_eq_right]
    exact ((foldr_max_le _ _).1 le_rfl).1
  unfold ibeaTermX ibeaTerm
  rw [e, if_neg (EReal.coe_ne_top _), EReal.toReal_coe]

open Classical in
/-- C114. Environmental selection of the default IBEA on a population in which the simulations of some individuals failed (`inf` in all
objectives), the others having a value below `inf` in some objective.  It returns with `pop_size` survivors (or with all); nobody who has
not failed is removed while a failed one is left: if at most `pop_size` individuals have not failed, they all survive, and if at least
that many, no failed one does, and the survivors are those that environmental selection chooses from the population without the failed ones. -/
theorem c114_failed_removed_first (io : IndOps X O (XVec m) (List ℝ) U P R) (popSize : Nat) (hp : 0 < popSize) (kappa : ℝ) (hk : 0 < kappa)
    (hio : ∀ ref objs, io.term ref objs = ibeaTermX epsX kappa) (s : EA X O (XVec m) (List ℝ) U P (List ℝ) Q)
    (rs : List (Rec X O (XVec m) (List ℝ) U)) (h : Represents s.pop rs) (hne : s.pop.individuals ≠ none)
    (hrows : ∀ r ∈ rs, AllInf r.f ∨ SomeBelow r.f) :
    ∃ rs', (indReduce io popSize s).1 = .ok () ∧ Represents (indReduce io popSize s).2.pop rs' ∧ rs'.Sublist rs ∧
      rs'.length = min rs.length popSize ∧
      ((rs.filter (fun r => ¬ AllInf r.f)).length ≤ popSize → rs'.filter (fun r => ¬ AllInf r.f) = rs.filter (fun r => ¬ AllInf r.f)) ∧
      (popSize ≤ (rs.filter (fun r => ¬ AllInf r.f)).length → (∀ r ∈ rs', ¬ AllInf r.f) ∧
        RemovesWorst (ibeaTermX epsX kappa) Rec.f ((rs.filter (fun r => ¬ AllInf r.f)).length - popSize)
          (rs.filter (fun r => ¬ AllInf r.f)) rs') := by
  obtain ⟨rs', h1, h2, h3, h4, -⟩ := c45_environmental_selection io popSize hp s rs h hne
  rw [hio] at h3
  have hsub : ∀ {k : Nat} {l l' : List (Rec X O (XVec m) (List ℝ) U)}, RemovesWorst (ibeaTermX epsX kappa) Rec.f k l l' → l'.Sublist l := by
    intro k l l' hr
    induction hr with
    | zero => exact List.Sublist.refl _
    | succ _ _ _ ih => exact ih.trans (List.eraseIdx_sublist _ _)
  obtain ⟨g1, g2⟩ := removesWorst_bad_first (ibeaTermX epsX kappa) AllInf (ibeaTermX_le_one kappa hk) (ibeaTermX_of_allInf kappa) Rec.f _ rs rs' h3 (by
    intro a ha hna b hb
    exact ibeaTermX_to_allInf kappa _ _ ((hrows a ha).resolve_left hna) hb)
  have hle := List.length_filter_le (fun r : Rec X O (XVec m) (List ℝ) U => decide (¬ AllInf r.f)) rs
  refine ⟨rs', h1, h2, hsub h3, h4, fun hq => g1 (by omega), fun hq => ?_⟩
  have hr := g2 ((rs.filter (fun r => ¬ AllInf r.f)).length - popSize) (by omega)
  refine ⟨fun r hrm => ?_, hr⟩
  have := (List.mem_filter.1 ((hsub hr).subset hrm)).2
  simpa using this

/-- C114. As long as a failed individual is in the population, its fitness is less than that of everybody who has not failed. -/
theorem c114_failed_have_least_fitness (kappa : ℝ) (hk : 0 < kappa) (fits : List (XVec m)) (hrows : ∀ f ∈ fits, AllInf f ∨ SomeBelow f)
    (i j : Nat) (a b : XVec m) (ha : fits[i]? = some a) (hb : fits[j]? = some b) (hba : AllInf a) (hgb : ¬ AllInf b) :
    ∃ x y, (fitnessAssign (ibeaTermX epsX kappa) fits)[i]? = some x ∧ (fitnessAssign (ibeaTermX epsX kappa) fits)[j]? = some y ∧ x < y := by
  rw [fitnessAssign_eq]
  refine ⟨indFitness (ibeaTermX epsX kappa) a (fits.eraseIdx i), indFitness (ibeaTermX epsX kappa) b (fits.eraseIdx j), ?_, ?_, ?_⟩
  · simp [allFitness, ha]
  · simp [allFitness, hb]
  · exact bad_below_good _ AllInf (ibeaTermX_le_one kappa hk) (ibeaTermX_of_allInf kappa) fits (by
      intro a ha hna b hb
      exact ibeaTermX_to_allInf kappa _ _ ((hrows a ha).resolve_left hna) hb) i j a b ha hb hba hgb

/-- C114. The tournament then works the other way round (C46): of a failed aspirant and one that has not failed, the failed one becomes
the parent. -/
theorem c114_failed_become_parents (kappa : ℝ) (hk : 0 < kappa) (fits : List (XVec m)) (hrows : ∀ f ∈ fits, AllInf f ∨ SomeBelow f)
    (hn : 2 < fits.length) (draw : Nat → List Nat) (hd : ∀ k, LegalDraw fits.length 2 (draw k)) (k i j : Nat) (hk' : k < fits.length)
    (hdr : ∀ x, x ∈ draw (2 * k) ↔ x = i ∨ x = j) (a b : XVec m) (ha : fits[i]? = some a) (hb : fits[j]? = some b) (hba : AllInf a)
    (hgb : ¬ AllInf b) :
    ∃ parents, tournament 2 (fitnessAssign (ibeaTermX epsX kappa) fits) draw = .ok parents ∧ parents[k]? = some i := by
  obtain ⟨x, y, hx, hy, hxy⟩ := c114_failed_have_least_fitness kappa hk fits hrows i j a b ha hb hba hgb
  have hl : (fitnessAssign (ibeaTermX epsX kappa) fits).length = fits.length := by
    unfold fitnessAssign
    rw [List.length_mapIdx]
  exact c46_worse_of_two_wins _ (by rw [hl]; exact hn) draw (by rw [hl]; exact hd) k i j (by rw [hl]; exact hk') hdr x y hx hy hxy

open Classical in
/-- The hypotheses can be met: four individuals, two of which failed; the other two survive a reduction to two. -/
example : let io : IndOps Nat Nat (XVec 2) (List ℝ) Nat Unit Nat :=
      ⟨fun _ _ => ibeaTermX epsX 0.05, fun _ _ => [], fun _ _ _ => .ok ⟨2, []⟩, fun _ _ _ => .error .valueError, fun _ => 0, fun _ => ()⟩
    let s : EA Nat Nat (XVec 2) (List ℝ) Nat Unit (List ℝ) Unit :=
      ⟨⟨false, none, 1, 1, 0, false, false, false⟩, 0,
        ⟨0, 2, some [1, 2, 3, 4], [1, 2, 3, 4], [fun _ => some ⊤, fun _ => some 1, fun _ => some ⊤, fun i => if i = 0 then some 5 else some ⊤], none, none⟩,
        (), [], (), 0, 0, 0, 4, none, none, false, false, [], none, 4, []⟩
    ∃ r₁ r₂, Represents (indReduce io 2 s).2.pop [r₁, r₂] ∧ r₁.x = 2 ∧ r₂.x = 4 := by
  intro io s
  have hf : ∀ i : Fin 2, (fun i : Fin 2 => if i = 0 then (some 5 : XF) else some ⊤) 0 ≠ some ⊤ := by
    intro i
    simp only [if_true, ne_eq, Option.some.injEq]
    exact EReal.coe_ne_top 5
  obtain ⟨rs', -, h2, h3, h4, h5, -⟩ := c114_failed_removed_first io 2 (by omega) 0.05 (by norm_num) (fun _ _ => rfl) s
    [⟨1, 1, fun _ => some ⊤, none, none⟩, ⟨2, 2, fun _ => some 1, none, none⟩, ⟨3, 3, fun _ => some ⊤, none, none⟩,
      ⟨4, 4, fun i => if i = 0 then some 5 else some ⊤, none, none⟩]
    ⟨.inl rfl, rfl, rfl, fun _ h => absurd rfl h, fun _ => rfl, fun us h => by cases h⟩ (by simp [s]) (by
      intro r hr
      simp only [List.mem_cons, List.not_mem_nil, or_false] at hr
      rcases hr with rfl | rfl | rfl | rfl
      · exact .inl (fun _ => rfl)
      · exact .inr ⟨0, 1, rfl, EReal.coe_ne_top 1⟩
      · exact .inl (fun _ => rfl)
      · exact .inr ⟨0, 5, rfl, EReal.coe_ne_top 5⟩)
  have n1 : AllInf (fun _ : Fin 2 => (some ⊤ : XF)) := fun _ => rfl
  have n2 : ¬ AllInf (fun _ : Fin 2 => (some 1 : XF)) := fun h => by
    have := h 0
    injection this with this
    exact EReal.coe_ne_top 1 this
  have n3 : ¬ AllInf (fun i : Fin 2 => if i = 0 then (some 5 : XF) else some ⊤) := fun h => hf 0 (h 0)
  simp only [List.filter_cons, n1, n2, n3, not_true_eq_false, decide_false, Bool.false_eq_true, if_false, not_false_eq_true, decide_true,
    if_true, List.filter_nil, List.length_cons, List.length_nil] at h5
  have h5 := h5 (by omega)
  have hl : rs'.length = 2 := by simpa using h4
  have hall : rs' = rs'.filter (fun r => decide (¬ AllInf r.f)) := by
    have hs : (rs'.filter (fun r => decide (¬ AllInf r.f))).Sublist rs' := List.filter_sublist
    exact (hs.eq_of_length (by rw [h5, hl]; rfl)).symm
  rw [hall, h5] at h2
  exact ⟨_, _, h2, rfl, rfl⟩

end Verif.Props
