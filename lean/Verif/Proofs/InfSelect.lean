import Verif.Model.InfSelect
import Verif.Proofs.NaNSelect

/-!
# Lemmas for `Props/InfSelect.lean`
-/

open Verif
namespace Verif.Proofs
variable {m : Nat}

/-- Infinite or NaN. -/
def NotNumber (a : XF) : Prop := a = none ∨ a = some ⊤ ∨ a = some ⊥

theorem xMin2_none_left (a : XF) : xMin2 none a = none := by cases a <;> rfl
theorem xMin2_none_right (a : XF) : xMin2 a none = none := by cases a <;> rfl
theorem xMax2_none_left (a : XF) : xMax2 none a = none := by cases a <;> rfl
theorem xMax2_none_right (a : XF) : xMax2 a none = none := by cases a <;> rfl
theorem xAdd_none_left (a : XF) : xAdd none a = none := by cases a <;> rfl
theorem xAdd_none_right (a : XF) : xAdd a none = none := by cases a <;> rfl
theorem xMul_none_left (a : XF) : xMul none a = none := by cases a <;> rfl
theorem xMul_none_right (a : XF) : xMul a none = none := by cases a <;> rfl
theorem xDiv_none_left (a : XF) : xDiv none a = none := by cases a <;> rfl
theorem xDiv_none_right (a : XF) : xDiv a none = none := by cases a <;> rfl
theorem xSub_none_left (a : XF) : xSub none a = none := by cases a <;> rfl
theorem xSub_none_right (a : XF) : xSub a none = none := by cases a <;> rfl

theorem foldMinX (i : Fin m) (rs : List (XVec m)) (r : XVec m) :
    rs.foldl (fun a b i => xMin2 (a i) (b i)) r i = (rs.map (fun f => f i)).foldl xMin2 (r i) := by
  induction rs generalizing r with
  | nil => rfl
  | cons q rs ih => rw [List.foldl_cons, ih, List.map_cons, List.foldl_cons]

theorem foldMaxX (i : Fin m) (rs : List (XVec m)) (r : XVec m) :
    rs.foldl (fun a b i => xMax2 (a i) (b i)) r i = (rs.map (fun f => f i)).foldl xMax2 (r i) := by
  induction rs generalizing r with
  | nil => rfl
  | cons q rs ih => rw [List.foldl_cons, ih, List.map_cons, List.foldl_cons]

theorem foldMax_none (l : List XF) : ∀ a, (a = none ∨ none ∈ l) → l.foldl xMax2 a = none := by
  induction l with
  | nil => intro a h; simpa using h
  | cons b l ih =>
    intro a h
    rw [List.foldl_cons]
    apply ih
    rcases h with rfl | h
    · exact .inl (xMax2_none_left _)
    · rcases List.mem_cons.1 h with h | h
      · rw [← h]; exact .inl (xMax2_none_right _)
      · exact .inr h

/-- The greatest entry of a column that holds `inf` is `inf` or NaN. -/
theorem foldMax_top (l : List XF) : ∀ a, (a = none ∨ a = some ⊤ ∨ some ⊤ ∈ l) → l.foldl xMax2 a = none ∨ l.foldl xMax2 a = some ⊤ := by
  induction l with
  | nil => intro a h; simpa using h
  | cons b l ih =>
    intro a h
    rw [List.foldl_cons]
    apply ih
    rcases h with rfl | rfl | h
    · exact .inl (xMax2_none_left _)
    · cases b with
      | none => exact .inl rfl
      | some b => exact .inr (.inl (by simp [xMax2]))
    · rcases List.mem_cons.1 h with h | h
      · rw [← h]
        cases a with
        | none => exact .inl rfl
        | some a => exact .inr (.inl (by simp [xMax2]))
      · exact .inr (.inr h)

theorem foldMin_bot (l : List XF) : ∀ a, (a = none ∨ a = some ⊥ ∨ some ⊥ ∈ l) → l.foldl xMin2 a = none ∨ l.foldl xMin2 a = some ⊥ := by
  induction l with
  | nil => intro a h; simpa using h
  | cons b l ih =>
    intro a h
    rw [List.foldl_cons]
    apply ih
    rcases h with rfl | rfl | h
    · exact .inl (xMin2_none_left _)
    · cases b with
      | none => exact .inl rfl
      | some b => exact .inr (.inl (by simp [xMin2]))
    · rcases List.mem_cons.1 h with h | h
      · rw [← h]
        cases a with
        | none => exact .inl rfl
        | some a => exact .inr (.inl (by simp [xMin2]))
      · exact .inr (.inr h)

/-- The range of a column that does not consist of numbers is `inf` or NaN. -/
theorem range_notNumber (l : List XF) (a : XF) (h : ∃ x ∈ a :: l, NotNumber x) :
    xSub (l.foldl xMax2 a) (l.foldl xMin2 a) = none ∨ xSub (l.foldl xMax2 a) (l.foldl xMin2 a) = some ⊤ := by
  obtain ⟨x, hx, h⟩ := h
  rcases h with rfl | rfl | rfl
  · rw [foldMax_none l a (by rcases List.mem_cons.1 hx with h | h; exacts [.inl h.symm, .inr h])]
    exact .inl (xSub_none_left _)
  · rcases foldMax_top l a (by rcases List.mem_cons.1 hx with h | h; exacts [.inr (.inl h.symm), .inr (.inr h)]) with e | e
    · rw [e]; exact .inl (xSub_none_left _)
    · rw [e]
      cases l.foldl xMin2 a with
      | none => exact .inl rfl
      | some b =>
        by_cases hb : b = ⊤
        · subst hb; left; simp [xSub]
        · right
          simp only [xSub]
          rw [if_neg (by simp [hb])]
          induction b with
          | bot => simp
          | top => exact absurd rfl hb
          | coe b => simp
  · rcases foldMin_bot l a (by rcases List.mem_cons.1 hx with h | h; exacts [.inr (.inl h.symm), .inr (.inr h)]) with e | e
    · rw [e]; exact .inl (xSub_none_right _)
    · rw [e]
      cases l.foldl xMax2 a with
      | none => exact .inl rfl
      | some b =>
        by_cases hb : b = ⊥
        · subst hb; left; simp [xSub]
        · right
          simp only [xSub]
          rw [if_neg (by simp [hb])]
          induction b with
          | bot => exact absurd rfl hb
          | top => simp
          | coe b => simp

theorem mul_range (v : ℝ) (r : XF) (h : r = none ∨ r = some ⊤) : NotNumber (xMul (some (v : EReal)) r) := by
  rcases h with rfl | rfl
  · exact .inl (xMul_none_right _)
  · simp only [xMul]
    split
    · exact .inl rfl
    · rename_i h
      have hv : v ≠ 0 := by rintro rfl; exact h (by simp)
      rcases lt_or_gt_of_ne hv with hv | hv
      · right; right; rw [EReal.coe_mul_top_of_neg hv]
      · right; left; rw [EReal.coe_mul_top_of_pos hv]

/-- The square of a float is NaN or not negative. -/
theorem sq_nonneg_or (a : XF) : xMul a a = none ∨ ∃ s : EReal, xMul a a = some s ∧ 0 ≤ s := by
  cases a with
  | none => exact .inl rfl
  | some a =>
    right
    induction a with
    | bot => exact ⟨⊤, by simp [xMul], le_top⟩
    | top => exact ⟨⊤, by simp [xMul], le_top⟩
    | coe a => exact ⟨((a * a : ℝ) : EReal), by simp [xMul], by exact_mod_cast mul_self_nonneg a⟩

theorem sq_notNumber (a : XF) (h : NotNumber a) : xMul a a = none ∨ xMul a a = some ⊤ := by
  rcases h with rfl | rfl | rfl
  · exact .inl rfl
  · right; simp [xMul]
  · right; simp [xMul]

theorem foldAdd_none (l : List XF) : ∀ a, (a = none ∨ none ∈ l) → l.foldl xAdd a = none := by
  induction l with
  | nil => intro a h; simpa using h
  | cons b l ih =>
    intro a h
    rw [List.foldl_cons]
    apply ih
    rcases h with rfl | h
    · exact .inl (xAdd_none_left _)
    · rcases List.mem_cons.1 h with h | h
      · rw [← h]; exact .inl (xAdd_none_right _)
      · exact .inr h

theorem foldAdd_top (l : List XF) (hl : ∀ b ∈ l, b = none ∨ ∃ s : EReal, b = some s ∧ 0 ≤ s) :
    ∀ a, (a = none ∨ ∃ s : EReal, a = some s ∧ 0 ≤ s) → (a = none ∨ a = some ⊤ ∨ none ∈ l ∨ some ⊤ ∈ l) →
      l.foldl xAdd a = none ∨ l.foldl xAdd a = some ⊤ := by
  induction l with
  | nil => intro a _ h; simpa using h
  | cons b l ih =>
    intro a ha h
    rw [List.foldl_cons]
    have hb := hl b (by simp)
    have hnn : xAdd a b = none ∨ ∃ s : EReal, xAdd a b = some s ∧ 0 ≤ s := by
      rcases ha with rfl | ⟨s, rfl, hs⟩
      · exact .inl (xAdd_none_left _)
      rcases hb with rfl | ⟨t, rfl, ht⟩
      · exact .inl rfl
      simp only [xAdd]
      split
      · exact .inl rfl
      · exact .inr ⟨_, rfl, add_nonneg hs ht⟩
    have ne_bot : ∀ s : EReal, 0 ≤ s → s ≠ ⊥ := by
      rintro s hs rfl
      simp at hs
    refine ih (fun c hc => hl c (by simp [hc])) _ hnn ?_
    rcases h with rfl | rfl | h | h
    · exact .inl (xAdd_none_left _)
    · rcases hb with rfl | ⟨t, rfl, ht⟩
      · exact .inl rfl
      · right; left
        simp only [xAdd]
        rw [if_neg (by simp [ne_bot t ht]), EReal.top_add_of_ne_bot (ne_bot t ht)]
    · rcases List.mem_cons.1 h with h | h
      · rw [← h]; exact .inl (xAdd_none_right _)
      · exact .inr (.inr (.inl h))
    · rcases List.mem_cons.1 h with h | h
      · rw [← h]
        rcases ha with rfl | ⟨t, rfl, ht⟩
        · exact .inl rfl
        · right; left
          simp only [xAdd]
          rw [if_neg (by simp [ne_bot t ht]), EReal.add_top_of_ne_bot (ne_bot t ht)]
      · exact .inr (.inr (.inr h))

theorem xSum_none (f : XVec m) (i : Fin m) (h : f i = none) : xSum f = none :=
  foldAdd_none _ _ (.inr ((List.mem_ofFn' _ _).2 ⟨i, h⟩))

/-- A row with an infinite entry or a NaN has an infinite norm, or none. -/
theorem xNorm_notNumber (f : XVec m) (i : Fin m) (h : NotNumber (f i)) : xNorm f = none ∨ xNorm f = some ⊤ := by
  have key : xSum (fun i => xMul (f i) (f i)) = none ∨ xSum (fun i => xMul (f i) (f i)) = some ⊤ := by
    refine foldAdd_top _ ?_ _ (.inr ⟨0, rfl, le_rfl⟩) ?_
    · intro b hb
      obtain ⟨j, rfl⟩ := (List.mem_ofFn' _ _).1 hb
      exact sq_nonneg_or _
    · rcases sq_notNumber _ h with e | e
      · exact .inr (.inr (.inl ((List.mem_ofFn' _ _).2 ⟨i, e⟩)))
      · exact .inr (.inr (.inr ((List.mem_ofFn' _ _).2 ⟨i, e⟩)))
  unfold xNorm
  rcases key with e | e
  · rw [e]; exact .inl rfl
  · rw [e]; right; simp [xSqrt]

theorem xUnit_notNumber (f : XVec m) (i : Fin m) (h : NotNumber (f i)) : xUnit f i = none := by
  unfold xUnit
  rcases xNorm_notNumber f i h with e | e
  · rw [e]; simp [xDiv_none_right]
  · rw [e, if_neg (by simp)]
    rcases h with h | h | h
    · rw [h]; rfl
    · rw [h]; simp [xDiv]
    · rw [h]; simp [xDiv]

/-- One infinite or NaN fitness value makes every adapted vector NaN in that objective. -/
theorem adapt_notNumber (s : XRV m) (fitness : List (XVec m)) (i : Fin m) (h : ∃ f ∈ fitness, NotNumber (f i)) :
    ∃ t, s.adapt fitness = .ok t ∧ t.init = s.init ∧ t.values.length = s.init.length ∧ ∀ v ∈ t.values, v i = none := by
  obtain ⟨f, hf, h⟩ := h
  cases fitness with
  | nil => cases hf
  | cons r rs =>
    refine ⟨_, rfl, rfl, by simp, ?_⟩
    intro v hv
    obtain ⟨w, -, rfl⟩ := List.mem_map.1 hv
    apply xUnit_notNumber
    apply mul_range
    rw [foldMaxX, foldMinX]
    refine range_notNumber _ _ ⟨f i, ?_, h⟩
    rcases List.mem_cons.1 hf with e | e
    · subst e; simp
    · exact List.mem_cons_of_mem _ (List.mem_map.2 ⟨f, e, rfl⟩)

theorem cosineX_none (f v : XVec m) (i : Fin m) (h : xUnit f i = none ∨ v i = none) : cosineX f v = none := by
  unfold cosineX
  rw [xSum_none _ i (by rcases h with h | h; · rw [h, xMul_none_left]
                        · rw [h, xMul_none_right])]
  rfl

theorem apdValueX_none (pen : ℝ) (g : XF) (f v : XVec m) (h : cosineX f v = none) : apdValueX pen g f v = none := by
  unfold apdValueX
  rw [h]
  simp only [xArccos, Option.map_none, xDiv_none_left, xMul_none_right, xAdd_none_right]

theorem nanmin_all_noneK {K : Type} [LinearOrder K] (l : List (Option K)) (h : ∀ a ∈ l, a = none) : nanmin l = none := by
  induction l with
  | nil => rfl
  | cons a l ih =>
    rw [h a (by simp)]
    exact ih (fun b hb => h b (List.mem_cons_of_mem _ hb))

theorem apdPick_all_none {K : Type} [LinearOrder K] (apd : Nat → Option K) (sub : List Nat) (h : ∀ j ∈ sub, apd j = none) :
    apdPick apd sub = none := by
  unfold apdPick
  rw [nanmin_all_noneK _ (by intro a ha; obtain ⟨j, hj, e⟩ := List.mem_map.1 ha; rw [← e]; exact h j hj)]

theorem argmaxN_all_none {K : Type} [LinearOrder K] (l : List (Option K)) (hl : l ≠ []) (h : ∀ a ∈ l, a = none) : argmaxN l = .ok 0 := by
  cases l with
  | nil => exact absurd rfl hl
  | cons a l =>
    rw [h a (by simp)]
    rfl

theorem assignAllX_none (values : List (XVec m)) (hv : values ≠ []) (fs : List (XVec m)) (h : ∀ f ∈ fs, ∀ v ∈ values, cosineX f v = none) :
    assignAllX values fs = .ok (List.replicate fs.length 0) := by
  induction fs with
  | nil => rfl
  | cons f fs ih =>
    unfold assignAllX
    rw [argmaxN_all_none (values.map (cosineX f)) (by simpa using hv) (by
      intro a ha
      obtain ⟨v, hvm, rfl⟩ := List.mem_map.1 ha
      exact h f (by simp) v hvm), ih (fun f hf => h f (List.mem_cons_of_mem _ hf))]
    rfl

theorem constraintFilter_nil (cons : Option (List (List ℝ))) : constraintFilter cons ([] : List Nat) = [] := by
  unfold constraintFilter
  cases cons <;> simp

theorem apdLoopX_none (cons : Option (List (List ℝ))) (apd : Nat → Nat → XF) (h : ∀ j, apd 0 j = none) (n k : Nat) (hk : 0 < k) :
    (List.range k).filterMap (apdOneX cons apd (List.replicate n 0)) =
      match constraintFilter cons (List.range n) with
      | [j] => [j]
      | _ => [] := by
  obtain ⟨k, rfl⟩ : ∃ q, k = q + 1 := ⟨k - 1, by omega⟩
  rw [List.range_succ_eq_map, List.filterMap_cons]
  have hr : (List.map Nat.succ (List.range k)).filterMap (apdOneX cons apd (List.replicate n 0)) = [] := by
    rw [List.filterMap_eq_nil_iff]
    intro i hi
    obtain ⟨q, -, rfl⟩ := List.mem_map.1 hi
    unfold apdOneX
    rw [subPopulation_empty n _ (by simp), constraintFilter_nil]
  rw [hr]
  unfold apdOneX
  rw [subPopulation_all]
  generalize constraintFilter cons (List.range n) = l
  match l with
  | [] => rfl
  | [j] => rfl
  | j :: k :: rest =>
    dsimp only
    rw [apdPick_all_none _ _ (fun j _ => h j)]

/-- With every vector NaN in objective `i` the selection is whoever the constraints leave alone. -/
theorem apdDoX_nan_vectors (values : List (XVec m)) (gammas : List XF) (pen : ℝ) (ideal popIdeal : XVec m) (fitness : List (XVec m))
    (cons : Option (List (List ℝ))) (hv : values ≠ []) (hf : fitness ≠ []) (i : Fin m) (h : ∀ v ∈ values, v i = none) :
    ∃ ideal', apdDoX values gammas pen ideal popIdeal fitness cons =
      .ok (match constraintFilter cons (List.range fitness.length) with
      | [j] => [j]
      | _ => [], ideal') := by
  obtain ⟨r, rs, rfl⟩ := List.exists_cons_of_ne_nil hf
  unfold apdDoX
  simp only [colMinX]
  generalize newIdealX ideal (rs.foldl (fun a b i => xMin2 (a i) (b i)) r) popIdeal = id'
  refine ⟨id', ?_⟩
  obtain ⟨tf, htf⟩ : ∃ t : List (XVec m), (r :: rs).map (fun f i => xSub (f i) (id' i)) = t := ⟨_, rfl⟩
  have hl : tf.length = (r :: rs).length := by rw [← htf]; simp
  rw [htf, assignAllX_none values hv tf (fun f _ v hvm => cosineX_none f v i (.inr (h v hvm))), hl]
  dsimp only
  rw [apdLoopX_none cons _ _ _ _ (List.length_pos_iff.2 hv)]
  intro j
  apply apdValueX_none
  apply cosineX_none _ _ i
  right
  cases values with
  | nil => exact absurd rfl hv
  | cons v vs => exact h v (by simp)


/-! ## Where everything is a number it is the model of before -/

/-- A row of numbers as a row of floats. -/
def asX (f : Vec m) : XVec m := fun i => some ((f i : ℝ) : EReal)

theorem xAdd_coe (a b : ℝ) : xAdd (some (a : EReal)) (some (b : EReal)) = some ((a + b : ℝ) : EReal) := by
  simp [xAdd]

theorem xSub_coe (a b : ℝ) : xSub (some (a : EReal)) (some (b : EReal)) = some ((a - b : ℝ) : EReal) := by
  simp [xSub]

theorem xMul_coe (a b : ℝ) : xMul (some (a : EReal)) (some (b : EReal)) = some ((a * b : ℝ) : EReal) := by
  simp [xMul]

theorem xDiv_coe (a b : ℝ) (hb : b ≠ 0) : xDiv (some (a : EReal)) (some (b : EReal)) = some ((a / b : ℝ) : EReal) := by
  simp [xDiv, hb, EReal.coe_div]

theorem foldAdd_coe (l : List ℝ) : ∀ a : ℝ, (l.map (fun x : ℝ => some (x : EReal))).foldl xAdd (some (a : EReal)) = some ((a + l.sum : ℝ) : EReal) := by
  induction l with
  | nil => intro a; simp
  | cons b l ih =>
    intro a
    rw [List.map_cons, List.foldl_cons, xAdd_coe, ih, List.sum_cons, add_assoc]

theorem xSum_coe (g : Fin m → ℝ) : xSum (fun i => some ((g i : ℝ) : EReal)) = some ((∑ i, g i : ℝ) : EReal) := by
  unfold xSum
  have : List.ofFn (fun i => some ((g i : ℝ) : EReal)) = (List.ofFn g).map (fun x : ℝ => some (x : EReal)) := by
    rw [List.map_ofFn]; rfl
  rw [this]
  have := foldAdd_coe (List.ofFn g) 0
  rw [EReal.coe_zero] at this
  rw [this, zero_add, List.sum_ofFn]

theorem xNorm_asX (f : Vec m) : xNorm (asX f) = some ((norm2 f : ℝ) : EReal) := by
  unfold xNorm norm2
  have : (fun i => xMul (asX f i) (asX f i)) = fun i => some (((f i * f i : ℝ)) : EReal) := by
    funext i; exact xMul_coe _ _
  rw [this, xSum_coe]
  have h0 : (0 : ℝ) ≤ ∑ i, f i * f i := Finset.sum_nonneg (fun i _ => mul_self_nonneg _)
  simp only [xSqrt]
  rw [if_neg (EReal.coe_ne_top _), if_pos (by exact_mod_cast h0), EReal.toReal_coe]
  simp [sq]

theorem eps_ne : eps ≠ 0 := by unfold eps; positivity

theorem xUnit_asX (f : Vec m) : xUnit (asX f) = asX (unitRow f) := by
  funext i
  unfold xUnit unitRow
  rw [xNorm_asX]
  by_cases h : norm2 f = 0
  · rw [if_pos (by rw [h]; rfl)]
    simp only [h, if_true]
    exact xDiv_coe _ _ eps_ne
  · rw [if_neg (by simpa using h)]
    simp only [h, if_false]
    exact xDiv_coe _ _ h

theorem cosineX_asX (f v : Vec m) : cosineX (asX f) (asX v) = some ((cosineOf f v : ℝ) : EReal) := by
  unfold cosineX cosineOf
  rw [xUnit_asX]
  have : (fun i => xMul (asX (unitRow f) i) (asX v i)) = fun i => some (((unitRow f i * v i : ℝ)) : EReal) := by
    funext i; exact xMul_coe _ _
  rw [this, xSum_coe]
  generalize (∑ i, unitRow f i * v i) = c
  dsimp only
  have h1 : xCapOne (some (c : EReal)) = some (((if c > 1 then 1 else c : ℝ)) : EReal) := by
    simp only [xCapOne]
    by_cases h : c > 1
    · rw [if_pos h, if_pos (by exact_mod_cast h)]; rfl
    · rw [if_neg h, if_neg (by exact_mod_cast h)]
  rw [h1]
  generalize (if c > 1 then 1 else c : ℝ) = c
  simp only [xFloorZero]
  by_cases h : c < 0
  · rw [if_pos h, if_pos (by exact_mod_cast h)]; rfl
  · rw [if_neg h, if_neg (by exact_mod_cast h)]

theorem apdValueX_asX (pen g : ℝ) (f v : Vec m) : apdValueX pen (some (g : EReal)) (asX f) (asX v) = some ((apdValue pen g f v : ℝ) : EReal) := by
  unfold apdValueX apdValue
  rw [cosineX_asX, xNorm_asX]
  simp only [xArccos, Option.map_some, EReal.toReal_coe]
  have h : (if (some (g : EReal)) = some 0 then some ((eps : ℝ) : EReal) else some (g : EReal)) =
      some (((if g = 0 then eps else g : ℝ)) : EReal) := by
    by_cases h : g = 0
    · rw [if_pos h, if_pos (by rw [h]; rfl)]
    · rw [if_neg h, if_neg (by simpa using h)]
  rw [h, xDiv_coe _ _ (by split; exacts [eps_ne, by assumption]), xMul_coe]
  have := xAdd_coe 1 (pen * (Real.arccos (cosineOf f v) / if g = 0 then eps else g))
  rw [EReal.coe_one] at this
  rw [this, xMul_coe]

theorem argmaxGo_coe (l : List ℝ) : ∀ (bi : Nat) (b : ℝ) (i : Nat), argmaxGo bi (b : EReal) i (l.map (fun x : ℝ => (x : EReal))) = argmaxGo bi b i l := by
  induction l with
  | nil => intros; rfl
  | cons x l ih =>
    intro bi b i
    rw [List.map_cons]
    simp only [argmaxGo, EReal.coe_lt_coe_iff, ih]

theorem argmaxL_coe (l : List ℝ) : argmaxL (l.map (fun x : ℝ => (x : EReal))) = argmaxL l := by
  cases l with
  | nil => rfl
  | cons x l => simp only [List.map_cons, argmaxL, argmaxGo_coe]

theorem nanmin_coe (l : List (Option ℝ)) : nanmin (l.map (Option.map (fun x : ℝ => (x : EReal)))) = (nanmin l).map (fun x : ℝ => (x : EReal)) := by
  induction l with
  | nil => rfl
  | cons a l ih =>
    cases a with
    | none => simpa [nanmin] using ih
    | some x =>
      simp only [List.map_cons, Option.map_some, nanmin, ih]
      cases nanmin l with
      | none => rfl
      | some y => simp only [Option.map_some]; rw [EReal.coe_strictMono.monotone.map_min]

/-- The row of numbers, if it is one. -/
noncomputable def finRow (f : XVec m) : Option (Vec m) := by
  classical exact if ∃ g : Vec m, f = asX g then some (fun i => ((f i).getD 0).toReal) else none

theorem finRow_asX (g : Vec m) : finRow (asX g) = some g := by
  unfold finRow
  rw [if_pos ⟨g, rfl⟩]
  simp [asX]

theorem finRow_some {f : XVec m} {g : Vec m} (h : finRow f = some g) : f = asX g := by
  unfold finRow at h
  split at h
  · rename_i hg
    obtain ⟨g', rfl⟩ := hg
    injection h with h
    rw [← h]
    simp [asX]
  · cases h

/-- A row without NaN and `-inf` that is not a row of numbers has an entry `inf`. -/
theorem finRow_none {f : XVec m} (h : finRow f = none) (hf : ∀ i, f i ≠ none ∧ f i ≠ some ⊥) : ∃ i, f i = some ⊤ := by
  by_contra hno
  unfold finRow at h
  rw [if_pos] at h
  · cases h
  · refine ⟨fun i => ((f i).getD 0).toReal, ?_⟩
    funext i
    have h1 := hf i
    have h2 : f i ≠ some ⊤ := fun e => hno ⟨i, e⟩
    unfold asX
    cases hfi : f i with
    | none => exact absurd hfi h1.1
    | some a =>
      induction a with
      | bot => exact absurd hfi h1.2
      | top => exact absurd hfi h2
      | coe a => simp [hfi]

/-! ## Positions -/

theorem whereIdx_cons (b : Bool) (bs : List Bool) : whereIdx (b :: bs) = (if b then [0] else []) ++ (whereIdx bs).map Nat.succ := by
  unfold whereIdx
  rw [List.zipIdx_cons, List.filter_cons]
  have : (bs.zipIdx (0 + 1)).filter (fun p => p.1) = (bs.zipIdx.filter (fun p => p.1)).map (fun p => (p.1, p.2 + 1)) := by
    rw [zero_add, List.zipIdx_eq_map_add, List.filter_map]
    have : (List.map (fun x : Bool × Nat => (x.1, x.2 + 1)) bs.zipIdx).filter (fun p => p.1) = _ := rfl
    simp only [Function.comp_def]
    congr 1
    funext p
    simp [Nat.add_comm]
  rw [this]
  cases b <;> simp [Function.comp_def]

theorem mem_whereIdx (bs : List Bool) (j : Nat) : j ∈ whereIdx bs ↔ bs[j]? = some true := by
  induction bs generalizing j with
  | nil => simp [whereIdx]
  | cons b bs ih =>
    rw [whereIdx_cons, List.mem_append, List.mem_map]
    cases j with
    | zero =>
      cases b <;> simp
    | succ j =>
      rw [List.getElem?_cons_succ, ← ih]
      constructor
      · rintro (h | ⟨q, hq, e⟩)
        · cases b <;> simp at h
        · cases e; exact hq
      · intro h; exact .inr ⟨j, h, rfl⟩

section pos
variable {α : Type}

/-- Where the rows that are there stand. -/
def goodPos (l : List (Option α)) : List Nat := whereIdx (l.map Option.isSome)

theorem goodPos_length (l : List (Option α)) : (goodPos l).length = (l.filterMap id).length := by
  induction l with
  | nil => rfl
  | cons a l ih =>
    unfold goodPos at ih ⊢
    rw [List.map_cons, whereIdx_cons]
    cases a <;> simp [ih]

theorem goodPos_get (l : List (Option α)) (q : Nat) (a : α) (h : (l.filterMap id)[q]? = some a) : l[(goodPos l).getD q 0]? = some (some a) := by
  induction l generalizing q with
  | nil => simp at h
  | cons b l ih =>
    unfold goodPos at ih ⊢
    rw [List.map_cons, whereIdx_cons]
    cases b with
    | none =>
      have h' : (l.filterMap id)[q]? = some a := by simpa using h
      have hl := (List.getElem?_eq_some_iff.1 h').1
      have e := ih q h'
      rw [← goodPos_length] at hl
      unfold goodPos at hl
      simp only [Option.isSome_none, Bool.false_eq_true, if_false, List.nil_append]
      rw [List.getD_eq_getElem?_getD, List.getElem?_map, List.getElem?_eq_getElem hl]
      rw [List.getD_eq_getElem?_getD, List.getElem?_eq_getElem hl] at e
      simpa using e
    | some b =>
      cases q with
      | zero => simpa using h
      | succ q =>
        have h' : (l.filterMap id)[q]? = some a := by simpa using h
        have hl := (List.getElem?_eq_some_iff.1 h').1
        have e := ih q h'
        rw [← goodPos_length] at hl
        unfold goodPos at hl
        simp only [Option.isSome_some, if_true, List.singleton_append]
        rw [List.getD_eq_getElem?_getD, List.getElem?_cons_succ, List.getElem?_map, List.getElem?_eq_getElem hl]
        rw [List.getD_eq_getElem?_getD, List.getElem?_eq_getElem hl] at e
        simpa using e

/-- Vectors nearest to rows: the rows that are not there count for the first vector. -/
def tagAll (near : α → Nat) (l : List (Option α)) : List Nat := l.map (fun a => match a with | some a => near a | none => 0)

theorem sub_filter (near : α → Nat) (i : Nat) (l : List (Option α)) :
    (subPopulation (tagAll near l) i).filter (fun j => (l.getD j none).isSome) =
      (subPopulation ((l.filterMap id).map near) i).map (fun q => (goodPos l).getD q 0) := by
  induction l with
  | nil => rfl
  | cons b l ih =>
    have hs : ∀ (x : Nat) (xs : List Nat), subPopulation (x :: xs) i = (if x == i then [0] else []) ++ (subPopulation xs i).map Nat.succ := by
      intro x xs
      unfold subPopulation
      rw [List.map_cons, whereIdx_cons]
    have hlt : ∀ q ∈ subPopulation ((l.filterMap id).map near) i, q < (goodPos l).length := by
      intro q hq
      unfold subPopulation at hq
      rw [mem_whereIdx] at hq
      have := (List.getElem?_eq_some_iff.1 hq).1
      rw [goodPos_length]
      simpa using this
    have hf : ((subPopulation (tagAll near l) i).map Nat.succ).filter (fun j => ((b :: l).getD j none).isSome) =
        ((subPopulation (tagAll near l) i).filter (fun j => (l.getD j none).isSome)).map Nat.succ := by
      rw [List.filter_map]
      rfl
    cases b with
    | none =>
      have e1 : tagAll near (none :: l) = 0 :: tagAll near l := rfl
      have e2 : (none :: l).filterMap id = l.filterMap id := by simp
      have e3 : goodPos (none :: l) = (goodPos l).map Nat.succ := by
        unfold goodPos; rw [List.map_cons, whereIdx_cons]; rfl
      rw [e1, e2, e3, hs, List.filter_append, hf, ih, List.map_map]
      have : (if (0 == i) = true then [0] else []).filter (fun j => ((none :: l).getD j none).isSome) = [] := by
        split <;> simp
      rw [this, List.nil_append]
      apply List.map_congr_left
      intro q hq
      have := hlt q hq
      simp [List.getD_eq_getElem?_getD, List.getElem?_eq_getElem this]
    | some a =>
      have e1 : tagAll near (some a :: l) = near a :: tagAll near l := rfl
      have e2 : (some a :: l).filterMap id = a :: l.filterMap id := by simp
      have e3 : goodPos (some a :: l) = 0 :: (goodPos l).map Nat.succ := by
        unfold goodPos; rw [List.map_cons, whereIdx_cons]; rfl
      rw [e1, e2, e3, List.map_cons, hs, hs, List.filter_append, hf, ih, List.map_append, List.map_map, List.map_map]
      congr 1
      · split <;> simp
      · apply List.map_congr_left
        intro q hq
        have := hlt q hq
        simp [List.getD_eq_getElem?_getD, List.getElem?_eq_getElem this]

theorem sub_mem (near : α → Nat) (i j : Nat) (l : List (Option α)) (h : j ∈ subPopulation (tagAll near l) i) :
    ∃ o, l[j]? = some o ∧ (o = none → i = 0) := by
  unfold subPopulation tagAll at h
  rw [mem_whereIdx, List.getElem?_map, List.getElem?_map] at h
  cases hj : l[j]? with
  | none => rw [hj] at h; simp at h
  | some o =>
    refine ⟨o, rfl, ?_⟩
    rintro rfl
    rw [hj] at h
    simp only [Option.map_some, Option.some.injEq, beq_iff_eq] at h
    exact h.symm

end pos

/-! ## The choice within a sub population -/

section pick
variable {K : Type} [LinearOrder K]

theorem nanmin_filter (l : List (Option K)) : nanmin (l.filter Option.isSome) = nanmin l := by
  induction l with
  | nil => rfl
  | cons a l ih =>
    cases a with
    | none => simpa [nanmin] using ih
    | some x => simp only [List.filter_cons, Option.isSome_some, if_true, nanmin, ih]

/-- NaN distances are passed over. -/
theorem apdPick_filter (apd : Nat → Option K) (sub : List Nat) : apdPick apd (sub.filter (fun j => (apd j).isSome)) = apdPick apd sub := by
  unfold apdPick
  have : (sub.filter (fun j => (apd j).isSome)).map apd = (sub.map apd).filter Option.isSome := by
    rw [List.filter_map]; rfl
  rw [this, nanmin_filter]
  split
  · rfl
  · rename_i mn _
    congr 1
    rw [List.filter_filter]
    apply List.filter_congr
    intro j _
    by_cases h : apd j = some mn
    · simp [h]
    · simp [h]

theorem apdPick_one (apd : Nat → Option K) (j : Nat) (h : (apd j).isSome) : apdPick apd [j] = some j := by
  obtain ⟨x, hx⟩ := Option.isSome_iff_exists.1 h
  simp [apdPick, nanmin, hx]

theorem apdPick_map (apd : Nat → Option EReal) (apd0 : Nat → Option ℝ) (p : Nat → Nat) (sub : List Nat)
    (h : ∀ q ∈ sub, apd (p q) = (apd0 q).map (fun x : ℝ => (x : EReal))) : apdPick apd (sub.map p) = (apdPick apd0 sub).map p := by
  unfold apdPick
  have e : (sub.map p).map apd = (sub.map apd0).map (Option.map (fun x : ℝ => (x : EReal))) := by
    rw [List.map_map, List.map_map]
    exact List.map_congr_left h
  rw [e, nanmin_coe]
  cases nanmin (sub.map apd0) with
  | none => rfl
  | some mn =>
    simp only [Option.map_some]
    rw [List.filter_map, ← List.head?_map]
    congr 2
    apply List.filter_congr
    intro q hq
    simp only [Function.comp_apply]
    rw [h q hq]
    cases apd0 q with
    | none => simp
    | some x => simp

end pick

/-! ## Failed rows -/

theorem foldMin_spec (l : List XF) : ∀ a : XF, none ∉ a :: l →
    ∃ w, l.foldl xMin2 a = some w ∧ some w ∈ a :: l ∧ ∀ y, some y ∈ a :: l → w ≤ y := by
  induction l with
  | nil =>
    intro a h
    cases a with
    | none => simp at h
    | some a => exact ⟨a, rfl, by simp, fun y hy => by simp at hy; rw [hy]⟩
  | cons b l ih =>
    intro a h
    cases a with
    | none => simp at h
    | some a =>
      cases b with
      | none => simp at h
      | some b =>
        have hm : xMin2 (some a) (some b) = some (min a b) := rfl
        obtain ⟨w, h1, h2, h3⟩ := ih (some (min a b)) (by
          intro hn
          apply h
          rcases List.mem_cons.1 hn with e | e
          · cases e
          · simp [e])
        refine ⟨w, by rw [List.foldl_cons, hm]; exact h1, ?_, ?_⟩
        · rcases List.mem_cons.1 h2 with e | e
          · injection e with e
            rcases min_choice a b with h' | h'
            · rw [e, h']; simp
            · rw [e, h']; simp
          · simp [e]
        · intro y hy
          have hab := h3 (min a b) (by simp)
          rcases List.mem_cons.1 hy with e | e
          · injection e with e; rw [e]; exact hab.trans (min_le_left _ _)
          · rcases List.mem_cons.1 e with e | e
            · injection e with e; rw [e]; exact hab.trans (min_le_right _ _)
            · exact h3 y (by simp [e])

/-- The ideal point after selection is a row of numbers, below everything it has been computed from. -/
theorem newIdealX_number (ideal popIdeal : Vec m) (r : XVec m) (rs : List (XVec m)) (h : ∀ f ∈ r :: rs, ∀ i, f i ≠ none ∧ f i ≠ some ⊥) :
    ∃ z : Vec m, newIdealX (asX ideal) (rs.foldl (fun a b i => xMin2 (a i) (b i)) r) (asX popIdeal) = asX z ∧
      (∀ i, z i ≤ ideal i ∧ z i ≤ popIdeal i) ∧ (∀ f ∈ r :: rs, ∀ i (x : ℝ), f i = some (x : EReal) → z i ≤ x) ∧
      ∀ i (b : ℝ), b ≤ ideal i → b ≤ popIdeal i → (∀ f ∈ r :: rs, ∀ x : ℝ, f i = some (x : EReal) → b ≤ x) → b ≤ z i := by
  have key : ∀ i, ∃ w : ℝ, newIdealX (asX ideal) (rs.foldl (fun a b i => xMin2 (a i) (b i)) r) (asX popIdeal) i = some (w : EReal) ∧
      (w ≤ ideal i ∧ w ≤ popIdeal i) ∧ (∀ f ∈ r :: rs, ∀ x : ℝ, f i = some (x : EReal) → w ≤ x) ∧
      ∀ b : ℝ, b ≤ ideal i → b ≤ popIdeal i → (∀ f ∈ r :: rs, ∀ x : ℝ, f i = some (x : EReal) → b ≤ x) → b ≤ w := by
    intro i
    unfold newIdealX
    rw [foldMinX]
    have hm : ∀ x, x ∈ r i :: rs.map (fun f => f i) ↔ ∃ f ∈ r :: rs, f i = x := by
      intro x
      rw [List.mem_cons, List.mem_map]
      constructor
      · rintro (e | ⟨f, hf, e⟩)
        · exact ⟨r, by simp, e.symm⟩
        · exact ⟨f, by simp [hf], e⟩
      · rintro ⟨f, hf, e⟩
        rcases List.mem_cons.1 hf with rfl | hf
        · exact .inl e.symm
        · exact .inr ⟨f, hf, e⟩
    obtain ⟨w, h1, h2, h3⟩ := foldMin_spec (rs.map (fun f => f i)) (r i) (by
      intro hn
      obtain ⟨f, hf, e⟩ := (hm _).1 hn
      exact (h f hf i).1 e)
    rw [h1]
    obtain ⟨f, hf, hfw⟩ := (hm _).1 h2
    have e1 : xMin2 (xMin2 (asX ideal i) (some w)) (asX popIdeal i) = some (min (min (ideal i : EReal) w) (popIdeal i)) := rfl
    rw [e1]
    induction w with
    | bot => exact absurd hfw (h f hf i).2
    | top =>
      refine ⟨min (ideal i) (popIdeal i), ?_, ⟨min_le_left _ _, min_le_right _ _⟩, ?_, ?_⟩
      · rw [min_eq_left (le_top), ← EReal.coe_strictMono.monotone.map_min]
      · intro g hg x hx
        have := h3 _ ((hm _).2 ⟨g, hg, hx⟩)
        simp at this
      · intro b b1 b2 _
        exact le_min b1 b2
    | coe w =>
      refine ⟨min (min (ideal i) w) (popIdeal i), ?_, ⟨(min_le_left _ _).trans (min_le_left _ _), min_le_right _ _⟩, ?_, ?_⟩
      · rw [← EReal.coe_strictMono.monotone.map_min, ← EReal.coe_strictMono.monotone.map_min]
      · intro g hg x hx
        have := h3 _ ((hm _).2 ⟨g, hg, hx⟩)
        exact ((min_le_left _ _).trans (min_le_right _ _)).trans (by exact_mod_cast this)
      · intro b b1 b2 b3
        exact le_min (le_min b1 (b3 f hf w hfw)) b2
  choose z hz using key
  exact ⟨z, funext (fun i => (hz i).1), fun i => (hz i).2.1, fun f hf i x hx => (hz i).2.2.1 f hf x hx,
    fun i b b1 b2 b3 => (hz i).2.2.2 b b1 b2 b3⟩

/-- The vector nearest to a row of numbers, seen from `z`. -/
noncomputable def nearest (values : List (Vec m)) (z a : Vec m) : Nat :=
  match argmaxL (values.map (cosineOf (fun i => a i - z i))) with
  | .ok k => k
  | .error _ => 0

theorem argmaxL_nearest (values : List (Vec m)) (hv : values ≠ []) (z a : Vec m) :
    argmaxL (values.map (cosineOf (fun i => a i - z i))) = .ok (nearest values z a) := by
  unfold nearest
  cases values with
  | nil => exact absurd rfl hv
  | cons v vs => rfl

theorem sub_asX (a z : Vec m) : (fun i => xSub (asX a i) (some ((z i : ℝ) : EReal))) = asX (fun i => a i - z i) := by
  funext i
  exact xSub_coe _ _

theorem sub_failed (f : XVec m) (z : Vec m) (i : Fin m) (h : f i = some ⊤) : NotNumber (xSub (f i) (some ((z i : ℝ) : EReal))) := by
  rw [h]
  right; left
  simp [xSub]

theorem assignX_tag (values : List (Vec m)) (hv : values ≠ []) (z : Vec m) (fitness : List (XVec m))
    (h : ∀ f ∈ fitness, ∀ i, f i ≠ none ∧ f i ≠ some ⊥) :
    assignAllX (values.map asX) (fitness.map (fun f i => xSub (f i) (some ((z i : ℝ) : EReal)))) =
      .ok (tagAll (nearest values z) (fitness.map finRow)) := by
  induction fitness with
  | nil => rfl
  | cons f fs ih =>
    rw [List.map_cons]
    unfold assignAllX
    rw [ih (fun g hg => h g (List.mem_cons_of_mem _ hg))]
    have : argmaxN ((values.map asX).map (cosineX (fun i => xSub (f i) (some ((z i : ℝ) : EReal))))) =
        .ok (match finRow f with | some a => nearest values z a | none => 0) := by
      cases hf : finRow f with
      | none =>
        obtain ⟨i, hi⟩ := finRow_none hf (h f (by simp))
        apply argmaxN_all_none
        · simpa using hv
        · intro a ha
          obtain ⟨v, -, rfl⟩ := List.mem_map.1 ha
          exact cosineX_none _ _ i (.inl (xUnit_notNumber _ i (sub_failed f z i hi)))
      | some a =>
        rw [finRow_some hf, sub_asX]
        have e : (values.map asX).map (cosineX (asX (fun i => a i - z i))) =
            ((values.map (cosineOf (fun i => a i - z i))).map (fun x : ℝ => (x : EReal))).map some := by
          simp only [List.map_map]
          exact List.map_congr_left (fun v _ => cosineX_asX _ v)
        rw [e, argmaxN_some, argmaxL_coe, argmaxL_nearest values hv]
    rw [this]
    simp only [tagAll, List.map_cons]
    cases finRow f <;> rfl

theorem assign_tag (values : List (Vec m)) (hv : values ≠ []) (z : Vec m) (good : List (Vec m)) :
    assignAll values (good.map (fun f i => f i - z i)) = .ok (good.map (nearest values z)) := by
  induction good with
  | nil => rfl
  | cons a good ih =>
    rw [List.map_cons]
    unfold assignAll
    rw [ih, argmaxL_nearest values hv]
    rfl

/-- The choice from a filtered sub population. -/
def pickOf {K : Type} [LinearOrder K] (apd : Nat → Option K) : List Nat → Option Nat
  | [] => none
  | [j] => some j
  | j :: k :: rest => apdPick apd (j :: k :: rest)

/-- The choice for vector `i` with and without the failed rows. -/
theorem apdOneX_failed (values : List (Vec m)) (z : Vec m) (fitness : List (XVec m)) (i : Nat) (A : Nat → Nat → XF) (B : Nat → Nat → Option ℝ)
    (hgood : ∀ q a, ((fitness.map finRow).filterMap id)[q]? = some a →
      ∃ x : ℝ, A i ((goodPos (fitness.map finRow)).getD q 0) = some (x : EReal) ∧ B i q = some x)
    (hbad : ∀ j, (fitness.map finRow)[j]? = some none → A i j = none) :
    let l := fitness.map finRow
    let near := nearest values z
    let one := apdOneX none A (tagAll near l) i
    let one0 := apdOne none B ((l.filterMap id).map near) i
    (i ≠ 0 → one = one0.map (fun q => (goodPos l).getD q 0)) ∧
    (one = one0.map (fun q => (goodPos l).getD q 0) ∨
      ∃ j, one0 = none ∧ one = some j ∧ l[j]? = some none ∧ (∀ j', l[j']? = some none → j' = j) ∧ ∀ a ∈ l.filterMap id, near a ≠ 0) ∧
    (∀ j, i = 0 → l[j]? = some none → (∀ j', l[j']? = some none → j' = j) → (∀ a ∈ l.filterMap id, near a ≠ 0) → one = some j ∧ one0 = none) := by
  intro l near one one0
  obtain ⟨sub, hsub⟩ : ∃ s, subPopulation (tagAll near l) i = s := ⟨_, rfl⟩
  obtain ⟨sub0, hsub0⟩ : ∃ s, subPopulation ((l.filterMap id).map near) i = s := ⟨_, rfl⟩
  have hfil := sub_filter near i l
  rw [hsub, hsub0] at hfil
  have hmem : ∀ j ∈ sub, ∃ o, l[j]? = some o ∧ (o = none → i = 0) := by
    intro j hj; rw [← hsub] at hj; exact sub_mem near i j l hj
  have hmem0 : ∀ q ∈ sub0, ∃ a, (l.filterMap id)[q]? = some a ∧ near a = i := by
    intro q hq
    rw [← hsub0] at hq
    unfold subPopulation at hq
    rw [mem_whereIdx, List.getElem?_map, List.getElem?_map] at hq
    cases h : (l.filterMap id)[q]? with
    | none => rw [h] at hq; simp at hq
    | some a => rw [h] at hq; exact ⟨a, rfl, by simpa using hq⟩
  have hsome : ∀ j ∈ sub, (A i j).isSome = (l.getD j none).isSome := by
    intro j hj
    obtain ⟨o, ho, -⟩ := hmem j hj
    rw [List.getD_eq_getElem?_getD, ho]
    cases o with
    | none => rw [hbad j ho]; rfl
    | some a =>
      have hjm : j ∈ sub.filter (fun j => (l.getD j none).isSome) := by
        rw [List.mem_filter, List.getD_eq_getElem?_getD, ho]; exact ⟨hj, rfl⟩
      rw [hfil] at hjm
      obtain ⟨q, hq, rfl⟩ := List.mem_map.1 hjm
      obtain ⟨b, hb, -⟩ := hmem0 q hq
      obtain ⟨x, hx, -⟩ := hgood q b hb
      rw [hx]; rfl
  have hfA : sub.filter (fun j => (A i j).isSome) = sub0.map (fun q => (goodPos l).getD q 0) := by
    rw [← hfil]
    exact List.filter_congr (fun j hj => hsome j hj)
  have hAB : ∀ q ∈ sub0, A i ((goodPos l).getD q 0) = (B i q).map (fun x : ℝ => (x : EReal)) ∧ (B i q).isSome := by
    intro q hq
    obtain ⟨a, ha, -⟩ := hmem0 q hq
    obtain ⟨x, h1, h2⟩ := hgood q a ha
    rw [h1, h2]
    exact ⟨rfl, rfl⟩
  have eone : one = pickOf (A i) sub := by
    rw [← hsub]
    show apdOneX none A (tagAll near l) i = _
    unfold apdOneX pickOf
    rfl
  have eone0 : one0 = pickOf (B i) sub0 := by
    rw [← hsub0]
    show apdOne none B ((l.filterMap id).map near) i = _
    unfold apdOne pickOf
    rfl
  have hcase : sub0 ≠ [] → one = one0.map (fun q => (goodPos l).getD q 0) := by
    intro hne
    have e0 : one0 = apdPick (B i) sub0 := by
      rw [eone0]
      match sub0, hne, hAB with
      | [q], _, hAB => exact (apdPick_one _ _ (hAB q (by simp)).2).symm
      | q :: r :: rest, _, _ => rfl
    have e1 : one = apdPick (A i) sub := by
      rw [eone]
      have hl : sub ≠ [] := by
        rintro rfl
        rw [List.filter_nil] at hfA
        exact hne (List.map_eq_nil_iff.1 hfA.symm)
      match sub, hl, hfA with
      | [j], _, hfA =>
        refine (apdPick_one _ _ ?_).symm
        by_contra hn
        rw [List.filter_cons_of_neg (by simpa using hn), List.filter_nil] at hfA
        exact hne (List.map_eq_nil_iff.1 hfA.symm)
      | j :: k :: rest, _, _ => rfl
    rw [e1, e0, ← apdPick_filter, hfA, apdPick_map (A i) (B i) _ sub0 (fun q hq => (hAB q hq).1)]
  have hallbad : sub0 = [] → ∀ j ∈ sub, l[j]? = some none := by
    intro h0 j hj
    obtain ⟨o, ho, -⟩ := hmem j hj
    cases o with
    | none => exact ho
    | some a =>
      have hjm : j ∈ sub.filter (fun j => (l.getD j none).isSome) := by
        rw [List.mem_filter, List.getD_eq_getElem?_getD, ho]; exact ⟨hj, rfl⟩
      rw [hfil, h0] at hjm
      cases hjm
  have hbadin : i = 0 → ∀ j, l[j]? = some none → j ∈ sub := by
    rintro rfl j hj
    rw [← hsub]
    unfold subPopulation tagAll
    rw [mem_whereIdx, List.getElem?_map, List.getElem?_map, hj]
    rfl
  have hnoone : sub0 = [] ↔ ∀ a ∈ l.filterMap id, near a ≠ i := by
    constructor
    · intro h0 a ha e
      obtain ⟨q, hq⟩ := List.getElem?_of_mem ha
      have : q ∈ sub0 := by
        rw [← hsub0]
        unfold subPopulation
        rw [mem_whereIdx, List.getElem?_map, List.getElem?_map, hq]
        simp [e]
      rw [h0] at this
      cases this
    · intro h
      cases hs : sub0 with
      | nil => rfl
      | cons q rest =>
        obtain ⟨a, ha, e⟩ := hmem0 q (by rw [hs]; simp)
        exact absurd e (h a (List.mem_of_getElem? ha))
  have hnd : sub.Nodup := by
    rw [← hsub]
    unfold subPopulation whereIdx
    apply List.Nodup.sublist (l₂ := (List.map (fun p => p.2) ((tagAll near l).map (fun a => a == i)).zipIdx))
    · exact (List.filter_sublist).map _
    · rw [List.zipIdx_map_snd]
      exact List.nodup_range'
  refine ⟨?_, ?_, ?_⟩
  · intro hi
    by_cases h0 : sub0 = []
    · have : sub = [] := by
        cases hs : sub with
        | nil => rfl
        | cons j rest =>
          obtain ⟨o, ho, hoi⟩ := hmem j (by rw [hs]; simp)
          have := hallbad h0 j (by rw [hs]; simp)
          rw [ho] at this
          injection this with this
          exact absurd (hoi this) hi
      rw [eone, eone0, h0, this]
      rfl
    · exact hcase h0
  · by_cases h0 : sub0 = []
    · have e0 : one0 = none := by rw [eone0, h0]; rfl
      match sub, hmem, hallbad, hbadin, eone with
      | [], _, _, _, eone => left; rw [eone, e0]; rfl
      | [j], hmem, hallbad, hbadin, eone =>
        right
        have hj := hallbad h0 j (by simp)
        obtain ⟨o, ho, hoi⟩ := hmem j (by simp)
        have hi : i = 0 := hoi (by rw [hj] at ho; injection ho with ho; exact ho.symm)
        refine ⟨j, e0, by rw [eone]; rfl, hj, ?_, ?_⟩
        · intro j' hj'
          have := hbadin hi j' hj'
          simpa using this
        · rw [← hi]; exact hnoone.1 h0
      | j :: k :: rest, _, hallbad, _, eone =>
        left
        rw [eone, e0]
        show apdPick (A i) (j :: k :: rest) = none
        apply apdPick_all_none
        intro q hq
        exact hbad q (hallbad h0 q hq)
    · exact .inl (hcase h0)
  · rintro j hi hj huniq hno
    have h0 : sub0 = [] := hnoone.2 (by rw [hi]; exact hno)
    have hsj : sub = [j] := by
      have hall : ∀ k ∈ sub, k = j := fun k hk => huniq k (hallbad h0 k hk)
      have hin := hbadin hi j hj
      match sub, hall, hin, hnd with
      | [k], hall, _, _ => rw [hall k (by simp)]
      | k :: k' :: rest, hall, _, hnd =>
        have e1 := hall k (by simp)
        have e2 := hall k' (by simp)
        subst e1
        subst e2
        simp at hnd
    rw [eone, eone0, hsj, h0]
    exact ⟨rfl, rfl⟩

/-- `APD_Select.do` with rows that have an entry `inf`: the choice among the others, and possibly one of them for the first vector. -/
theorem apdDoX_failed (values : List (Vec m)) (gammas : List ℝ) (pen : ℝ) (ideal popIdeal : Vec m) (fitness : List (XVec m))
    (hv : values ≠ []) (hg : gammas.length = values.length) (h : ∀ f ∈ fitness, ∀ i, f i ≠ none ∧ f i ≠ some ⊥)
    (hgood : (fitness.map finRow).filterMap id ≠ []) :
    let l := fitness.map finRow
    let good := l.filterMap id
    ∃ (z : Vec m) (sel sel0 : List Nat),
      apdDoX (values.map asX) (gammas.map (fun g : ℝ => some (g : EReal))) pen (asX ideal) (asX popIdeal) fitness none = .ok (sel, asX z) ∧
      (∀ i, z i ≤ ideal i ∧ z i ≤ popIdeal i) ∧ (∀ f ∈ fitness, ∀ i (x : ℝ), f i = some (x : EReal) → z i ≤ x) ∧
      (∀ i (b : ℝ), b ≤ ideal i → b ≤ popIdeal i → (∀ f ∈ fitness, ∀ x : ℝ, f i = some (x : EReal) → b ≤ x) → b ≤ z i) ∧
      apdDo values gammas pen ideal z good none = .ok (sel0, z) ∧
      (sel = sel0.map (fun q => (goodPos l).getD q 0) ∨
        ∃ j, l[j]? = some none ∧ (∀ j', l[j']? = some none → j' = j) ∧ (∀ a ∈ good, nearest values z a ≠ 0) ∧
          sel = j :: sel0.map (fun q => (goodPos l).getD q 0)) ∧
      (∀ j, l[j]? = some none → (∀ j', l[j']? = some none → j' = j) → (∀ a ∈ good, nearest values z a ≠ 0) →
        sel = j :: sel0.map (fun q => (goodPos l).getD q 0)) := by
  intro l good
  have hne : fitness ≠ [] := by
    rintro rfl
    exact hgood rfl
  obtain ⟨r, rs, hrs⟩ := List.exists_cons_of_ne_nil hne
  obtain ⟨z, hz, hz1, hz2, hz3⟩ := newIdealX_number ideal popIdeal r rs (by rw [← hrs]; exact h)
  rw [← hrs] at hz2 hz3
  obtain ⟨tf, htf⟩ : ∃ t : List (XVec m), fitness.map (fun f i => xSub (f i) (some ((z i : ℝ) : EReal))) = t := ⟨_, rfl⟩
  obtain ⟨A, hA⟩ : ∃ A : Nat → Nat → XF, A = fun i j => apdValueX pen ((gammas.map (fun g : ℝ => some (g : EReal))).getD i none)
    (tf.getD j (fun _ => none)) ((values.map asX).getD i (fun _ => none)) := ⟨_, rfl⟩
  have h1 : apdDoX (values.map asX) (gammas.map (fun g : ℝ => some (g : EReal))) pen (asX ideal) (asX popIdeal) fitness none =
      .ok ((List.range values.length).filterMap (apdOneX none A (tagAll (nearest values z) l)), asX z) := by
    have hcm : colMinX fitness = .ok (rs.foldl (fun a b i => xMin2 (a i) (b i)) r) := by rw [hrs]; rfl
    unfold apdDoX
    rw [hcm]
    dsimp only
    rw [hz]
    have hasg := assignX_tag values hv z fitness h
    have e : fitness.map (fun f i => xSub (f i) (asX z i)) = tf := htf
    rw [htf] at hasg
    rw [e, hasg, List.length_map, hA]
  obtain ⟨g0, gs, hgs⟩ := List.exists_cons_of_ne_nil hgood
  obtain ⟨tf0, htf0⟩ : ∃ t : List (Vec m), good.map (fun f i => f i - z i) = t := ⟨_, rfl⟩
  obtain ⟨B, hB⟩ : ∃ B : Nat → Nat → Option ℝ, B = fun i j => some (apdValue pen (gammas.getD i 0) (tf0.getD j 0) (values.getD i 0)) := ⟨_, rfl⟩
  have hmg : ∀ a ∈ good, ∃ f ∈ fitness, f = asX a := by
    intro a ha
    obtain ⟨o, ho, e⟩ := List.mem_filterMap.1 ha
    obtain ⟨f, hf, rfl⟩ := List.mem_map.1 ho
    exact ⟨f, hf, finRow_some e⟩
  have h2 : apdDo values gammas pen ideal z good none =
      .ok ((List.range values.length).filterMap (apdOne none B (good.map (nearest values z))), z) := by
    have hfm : ∀ (l : List (Vec m)) (g : Vec m) i, (∀ a ∈ g :: l, z i ≤ a i) → z i ≤ l.foldl (fun a b i => min (a i) (b i)) g i := by
      intro l
      induction l with
      | nil => intro g i hh; exact hh g (by simp)
      | cons b l ih =>
        intro g i hh
        rw [List.foldl_cons]
        apply ih
        intro a ha
        rcases List.mem_cons.1 ha with rfl | ha
        · exact le_min (hh g (by simp)) (hh b (by simp))
        · exact hh a (by simp [ha])
    have hid : newIdeal ideal (gs.foldl (fun a b i => min (a i) (b i)) g0) z = z := by
      funext i
      unfold newIdeal
      apply min_eq_right
      apply le_min (hz1 i).1
      apply hfm
      intro a ha
      obtain ⟨f, hf, rfl⟩ := hmg a (by show a ∈ (fitness.map finRow).filterMap id; rw [hgs]; exact ha)
      exact hz2 _ hf i (a i) rfl
    have hcm : colMin good = .ok (gs.foldl (fun a b i => min (a i) (b i)) g0) := by
      show colMin ((fitness.map finRow).filterMap id) = _
      rw [hgs]; rfl
    unfold apdDo
    rw [hcm]
    dsimp only
    rw [hid, assign_tag values hv z good, htf0]
    dsimp only
    rw [hB]
    rfl
  have key : ∀ i, i < values.length → _ := fun i hi => apdOneX_failed values z fitness i A B (by
      intro q a ha
      have hp := goodPos_get (fitness.map finRow) q a ha
      rw [List.getElem?_map] at hp
      cases hf : fitness[(goodPos (fitness.map finRow)).getD q 0]? with
      | none => rw [hf] at hp; cases hp
      | some f =>
        rw [hf] at hp
        simp only [Option.map_some, Option.some.injEq] at hp
        have hfa := finRow_some hp
        refine ⟨apdValue pen (gammas.getD i 0) (fun k => a k - z k) (values.getD i 0), ?_, ?_⟩
        · rw [hA]
          dsimp only
          have e1 : (gammas.map (fun g : ℝ => some (g : EReal))).getD i none = some ((gammas.getD i 0 : ℝ) : EReal) := by
            simp [List.getD_eq_getElem?_getD, List.getElem?_map, List.getElem?_eq_getElem (hg ▸ hi : i < gammas.length)]
          have e2 : tf.getD ((goodPos (fitness.map finRow)).getD q 0) (fun _ => none) = asX (fun k => a k - z k) := by
            rw [← htf, List.getD_eq_getElem?_getD, List.getElem?_map, hf, hfa]
            exact sub_asX a z
          have e3 : (values.map asX).getD i (fun _ => none) = asX (values.getD i 0) := by
            simp [List.getD_eq_getElem?_getD, List.getElem?_map, List.getElem?_eq_getElem hi]
          rw [e1, e2, e3, apdValueX_asX]
        · rw [hB]
          dsimp only
          congr 2
          rw [← htf0, List.getD_eq_getElem?_getD, List.getElem?_map]
          have : good[q]? = some a := ha
          rw [this]
          rfl) (by
      intro j hj
      rw [List.getElem?_map] at hj
      cases hf : fitness[j]? with
      | none => rw [hf] at hj; cases hj
      | some f =>
        rw [hf] at hj
        simp only [Option.map_some, Option.some.injEq] at hj
        obtain ⟨k, hk⟩ := finRow_none hj (h f (List.mem_of_getElem? hf))
        rw [hA]
        dsimp only
        apply apdValueX_none
        apply cosineX_none _ _ k
        left
        apply xUnit_notNumber
        rw [← htf, List.getD_eq_getElem?_getD, List.getElem?_map, hf]
        exact sub_failed f z k hk)
  refine ⟨z, _, _, h1, hz1, hz2, hz3, h2, ?_, ?_⟩
  all_goals
    obtain ⟨k, hk⟩ : ∃ k, values.length = k + 1 := ⟨values.length - 1, by have := List.length_pos_iff.2 hv; omega⟩
    rw [hk, List.range_succ_eq_map, List.filterMap_cons, List.filterMap_cons, List.filterMap_map, List.filterMap_map]
    have hrest : (List.range k).filterMap (apdOneX none A (tagAll (nearest values z) l) ∘ Nat.succ) =
        ((List.range k).filterMap (apdOne none B (good.map (nearest values z)) ∘ Nat.succ)).map (fun q => (goodPos l).getD q 0) := by
      rw [List.map_filterMap]
      apply List.filterMap_congr
      intro i hi
      have := (key (i + 1) (by rw [hk]; have := List.mem_range.1 hi; omega)).1 (by simp)
      exact this
    rw [hrest]
    obtain ⟨-, hk0, hk1⟩ := key 0 (by omega)
  · rcases hk0 with e | ⟨j, e0, e1, e2, e3, e4⟩
    · left
      have e' : apdOneX none A (tagAll (nearest values z) l) 0 =
        (apdOne none B (good.map (nearest values z)) 0).map (fun q => (goodPos l).getD q 0) := e
      rw [e']
      cases apdOne none B (good.map (nearest values z)) 0 with
      | none => rfl
      | some q => rfl
    · right
      refine ⟨j, e2, e3, e4, ?_⟩
      have e0' : apdOne none B (good.map (nearest values z)) 0 = none := e0
      have e1' : apdOneX none A (tagAll (nearest values z) l) 0 = some j := e1
      rw [e0', e1']
  · intro j hj hu hn
    obtain ⟨e1, e0⟩ := hk1 j rfl hj hu hn
    have e0' : apdOne none B (good.map (nearest values z)) 0 = none := e0
    have e1' : apdOneX none A (tagAll (nearest values z) l) 0 = some j := e1
    rw [e0', e1']

end Verif.Proofs
