import Verif.Model.InfNsga
import Verif.Proofs.InfSelect
import Verif.Props.NaNNsga

/-!
# C116: NSGA-III and individuals whose simulation failed
-/

open Verif Verif.Spec Verif.Proofs
namespace Verif.Props
variable {m : Nat}

/-- A failed simulation: `inf` in every objective. -/
def FailedRow (f : XVec m) : Prop := ∀ i, f i = some ⊤

/-- A row without NaN that is below infinity somewhere. -/
def LiveRow (f : XVec m) : Prop := (∀ i, f i ≠ none) ∧ ∃ i x, f i = some x ∧ x ≠ ⊤

/-- Pareto dominance of rows of floats. -/
def XRowDominates (a b : XVec m) : Prop :=
  (∀ i, ∃ x y, a i = some x ∧ b i = some y ∧ x ≤ y) ∧ ∃ i x y, a i = some x ∧ b i = some y ∧ x < y

/-- Individual `y` dominates individual `x`. -/
def XIndDominates (fitness : List (XVec m)) (y x : Nat) : Prop :=
  ∃ a b, fitness[y]? = some a ∧ fitness[x]? = some b ∧ XRowDominates a b

theorem live_dominates_failed {a b : XVec m} (ha : LiveRow a) (hb : FailedRow b) : XRowDominates a b := by
  obtain ⟨h1, i, x, hi, hx⟩ := ha
  refine ⟨fun j => ?_, i, x, ⊤, hi, hb i, lt_top_iff_ne_top.2 hx⟩
  cases h : a j with
  | none => exact absurd h (h1 j)
  | some y => exact ⟨y, ⊤, rfl, hb j, le_top⟩

/-! ## The operator always returns -/

theorem extremePointsX_total (front : List (XVec m)) (ideal : XVec m) (old : Option (List (XVec m))) (h : front ≠ []) :
    ∃ ext, extremePointsX front ideal old = .ok ext := by
  apply mapM_except_total
  intro k _
  have hp : extremePoolX front old ≠ [] := by
    cases old with
    | none => exact h
    | some e => simp [extremePoolX, h]
  obtain ⟨j, hj, hl⟩ := argminN_total ((extremePoolX front old).map (asfX ideal k)) (by simpa using hp)
  rw [List.length_map] at hl
  refine ⟨(extremePoolX front old)[j], ?_⟩
  unfold extremeRowX
  rw [hj]
  dsimp only
  rw [List.getElem?_eq_getElem hl]

theorem nsgaPointsX_total (solve : List (XVec m) → Option (XVec m)) (st : NsgaX m) (fitness : List (XVec m)) (f0 : List Nat)
    (hf : fitness ≠ []) (h0 : f0 ≠ []) : ∃ nadir, (nsgaPointsX solve st fitness f0).1 = .ok nadir := by
  cases fitness with
  | nil => exact absurd rfl hf
  | cons r rs =>
    cases f0 with
    | nil => exact absurd rfl h0
    | cons j js =>
      unfold nsgaPointsX
      simp only [colMinX, colMaxX, List.map_cons]
      obtain ⟨ext, he⟩ := extremePointsX_total (((r :: rs).getD j (fun _ => none)) :: js.map (fun j => (r :: rs).getD j (fun _ => none)))
        (fun i => xMin2 (st.ideal i) (rs.foldl (fun a b i => xMin2 (a i) (b i)) r i)) st.extreme (by simp)
      rw [he]
      exact ⟨_, rfl⟩

theorem associateX_total (refDirs : List (XVec m)) (ideal nadir : XVec m) (fs : List (XVec m)) (h : refDirs ≠ []) :
    ∃ nd, associateX refDirs ideal nadir fs = .ok nd ∧ nd.length = fs.length ∧ ∀ p ∈ nd, p.1 < refDirs.length := by
  induction fs with
  | nil => exact ⟨[], rfl, rfl, by simp⟩
  | cons f fs ih =>
    obtain ⟨as, has, hl, hm⟩ := ih
    obtain ⟨a, ha⟩ := argminL_total (refDirs.map (perpDistX (nicheNormalX ideal nadir f))) (by simpa using h)
    obtain ⟨c, hc, -⟩ := argminL_spec _ _ ha
    have hlt : a < refDirs.length := by simpa using (List.getElem?_eq_some_iff.1 hc).1
    simp only [associateX, ha, has]
    refine ⟨_, rfl, by simp [hl], fun p hp => ?_⟩
    rcases List.mem_cons.1 hp with rfl | hp
    · exact hlt
    · exact hm p hp

theorem lastFrontChoiceX_spec (rnd : NicheRand) (hsh : ∀ t l, (rnd.shuffle t l).Perm l) (refDirs : List (XVec m))
    (hr : refDirs ≠ []) (ideal nadir : XVec m) (n : Nat) (fitness : List (XVec m)) (fronts : List (List Nat)) (i : Nat)
    (last : List Nat) (hl : fronts[i]? = some last) (hnl : last.Nodup)
    (hn : ((fronts.take i).flatten).length ≤ n) (hn2 : n ≤ ((fronts.take (i + 1)).flatten).length) :
    ∃ chosen, lastFrontChoiceX rnd refDirs ideal nadir n fitness (fronts.take (i + 1)) =
        .ok ((fronts.take i).flatten ++ chosen) ∧ chosen.Nodup ∧ (∀ j ∈ chosen, j ∈ last) ∧
      ((fronts.take i).flatten ++ chosen).length = n := by
  obtain ⟨g1, g2⟩ := getLastD_take fronts i last hl
  have hflat : (fronts.take (i + 1)).flatten = (fronts.take i).flatten ++ last := by
    obtain ⟨hi, he⟩ := List.getElem?_eq_some_iff.1 hl
    rw [List.take_succ_eq_append_getElem hi, he]
    simp
  unfold lastFrontChoiceX
  simp only [g1, g2, hflat]
  obtain ⟨nd, hnd, hlen, hniche⟩ := associateX_total refDirs ideal nadir
    (((fronts.take i).flatten ++ last).map (fun j => fitness.getD j (fun _ => none))) hr
  simp only [hnd]
  simp only [List.length_map, List.length_append] at hlen
  rw [hflat, List.length_append] at hn2
  generalize (fronts.take i).flatten = before at *
  obtain ⟨js, c', e1, e2, e3, -, -⟩ := niching_spec rnd hsh ((nd.drop before.length).map (fun p => p.1))
    ((nd.drop before.length).map (fun p => p.2)) (fun c => (((nd.take before.length).map (fun p => p.1)).count c)) (by simp)
    (n - before.length) 0 (List.replicate last.length true)
    (nicheCount refDirs.length ((nd.take before.length).map (fun p => p.1))) [] (by simp [hlen])
    (by
      intro k hk
      simp only [List.length_map, List.length_drop, hlen] at hk
      simp [List.getElem?_replicate]; omega)
    (by
      intro c hc
      obtain ⟨p, hp, rfl⟩ := List.mem_map.1 hc
      simpa [nicheCount] using hniche p (List.mem_of_mem_drop hp))
    (by
      intro c hc
      simp only [nicheCount, List.length_map, List.length_range] at hc
      simp [nicheCount, hc, occupants])
    (by simp [avail, List.count_replicate]; omega)
  simp only [e1]
  obtain ⟨hnd1, hlt⟩ := fairRun_nodup _ _ _ _ _ e3
  simp only [List.length_map, List.length_drop, hlen, Nat.add_sub_cancel_left] at hlt
  have hmap : js.filterMap (fun j => last[j]?) = js.map (fun j => last.getD j 0) := by
    rw [← List.filterMap_eq_map]
    refine List.filterMap_congr (fun j hj => ?_)
    simp [hlt j hj]
  refine ⟨js.filterMap (fun j => last[j]?), rfl, ?_, ?_, ?_⟩
  · rw [hmap]
    refine List.Nodup.map_on ?_ hnd1
    intro a ha b hb hab
    have h1 := hlt a ha
    have h2 := hlt b hb
    simp only [List.getD_eq_getElem?_getD, List.getElem?_eq_getElem h1, List.getElem?_eq_getElem h2, Option.getD_some] at hab
    exact (List.Nodup.getElem_inj_iff hnl).1 hab
  · intro x hx
    obtain ⟨j, -, hj⟩ := List.mem_filterMap.1 hx
    exact List.mem_of_getElem? hj
  · rw [hmap]; simp [e2]; omega

/-- The form of every selection with enough individuals. -/
theorem nsgaDoX_form {dom : Nat → Nat → Prop} (sort : List (XVec m) → List (List Nat)) (solve : List (XVec m) → Option (XVec m)) (rnd : NicheRand)
    (hsh : ∀ t l, (rnd.shuffle t l).Perm l) (refDirs : List (XVec m)) (hr : refDirs ≠ []) (n : Nat) (st : NsgaX m)
    (fitness : List (XVec m)) (hf : fitness ≠ []) (hs : IsFrontSort dom fitness.length (sort fitness)) (hn : n ≤ fitness.length) :
    ∃ i last chosen, (sort fitness)[i]? = some last ∧
      (nsgaDoX sort solve rnd refDirs (some n) st fitness).1 = .ok (((sort fitness).take i).flatten ++ chosen) ∧
      chosen.Nodup ∧ (∀ j ∈ chosen, j ∈ last) ∧ (((sort fitness).take i).flatten ++ chosen).length = n := by
  have hpos : 0 < fitness.length := List.length_pos_iff.2 hf
  generalize hfr : sort fitness = fronts at *
  cases fronts with
  | nil =>
    have := hs.all.length_eq
    simp at this; omega
  | cons f0 rest =>
    have hne0 := first_front_nonempty hs hpos
    obtain ⟨nadir, hok⟩ := nsgaPointsX_total solve st fitness f0 hf hne0
    unfold nsgaDoX
    rw [hfr]
    dsimp only
    generalize nsgaPointsX solve st fitness f0 = r at hok
    obtain ⟨r1, st'⟩ := r
    dsimp only at hok
    subst hok
    dsimp only
    have hnod : (f0 :: rest).flatten.Nodup := hs.all.nodup_iff.2 List.nodup_range
    cases hacc : acceptedFronts n (f0 :: rest) with
    | none =>
      have := acceptedFronts_none hacc (by simp)
      have hl := hs.all.length_eq
      simp only [List.length_range] at hl
      omega
    | some fs =>
      obtain ⟨i, hi, rfl, hle, hearlier⟩ := acceptedFronts_some hacc
      obtain ⟨last, hlast⟩ : ∃ f, (f0 :: rest)[i]? = some f := ⟨_, List.getElem?_eq_getElem hi⟩
      have hbefore : (((f0 :: rest).take i).flatten).length ≤ n := by
        cases i with
        | zero => simp
        | succ k => exact (hearlier k (by omega)).le
      have hnl : last.Nodup := (List.nodup_flatten.1 hnod).1 last (List.mem_of_getElem? hlast)
      have hflat : ((f0 :: rest).take (i + 1)).flatten = ((f0 :: rest).take i).flatten ++ last := by
        obtain ⟨hi', he⟩ := List.getElem?_eq_some_iff.1 hlast
        rw [List.take_succ_eq_append_getElem hi', he]
        simp
      dsimp only
      by_cases hgt : ((f0 :: rest).take (i + 1)).flatten.length > n
      · rw [if_pos hgt]
        obtain ⟨chosen, c1, c2, c3, c4⟩ := lastFrontChoiceX_spec rnd hsh refDirs hr st'.ideal nadir n fitness (f0 :: rest) i last hlast hnl
          hbefore hle
        exact ⟨i, last, chosen, hlast, c1, c2, c3, c4⟩
      · rw [if_neg hgt]
        refine ⟨i, last, last, hlast, ?_, hnl, fun j hj => hj, ?_⟩
        · rw [hflat]
        · rw [← hflat]; omega

/-- C116. Selection returns, whatever values are infinite or NaN: exactly `n` different individuals.  And if the sorting is by dominance, no
failed individual is among them while somebody who has not failed is left out. -/
theorem c116_failed_last (sort : List (XVec m) → List (List Nat)) (solve : List (XVec m) → Option (XVec m)) (rnd : NicheRand)
    (hsh : ∀ t l, (rnd.shuffle t l).Perm l) (refDirs : List (XVec m)) (hr : refDirs ≠ []) (n : Nat) (st : NsgaX m)
    (fitness : List (XVec m)) (hf : fitness ≠ []) (hs : IsFrontSort (XIndDominates fitness) fitness.length (sort fitness))
    (hn : n ≤ fitness.length) :
    ∃ sel, (nsgaDoX sort solve rnd refDirs (some n) st fitness).1 = .ok sel ∧ sel.length = n ∧ sel.Nodup ∧
      (∀ x ∈ sel, x < fitness.length) ∧
      ∀ x ∈ sel, ∀ f, fitness[x]? = some f → FailedRow f → ∀ (y : Nat) g, fitness[y]? = some g → LiveRow g → y ∈ sel := by
  obtain ⟨i, last, chosen, h1, h2, h3, h4, h5⟩ := nsgaDoX_form sort solve rnd hsh refDirs hr n st fitness hf hs hn
  have hnod : (sort fitness).flatten.Nodup := hs.all.nodup_iff.2 List.nodup_range
  have hsub : ((sort fitness).take i).flatten ++ last = ((sort fitness).take (i + 1)).flatten := by
    obtain ⟨hi', he⟩ := List.getElem?_eq_some_iff.1 h1
    rw [List.take_succ_eq_append_getElem hi', he]
    simp
  have hpre : (((sort fitness).take (i + 1)).flatten).Sublist (sort fitness).flatten := by
    conv_rhs => rw [← List.take_append_drop (i + 1) (sort fitness), List.flatten_append]
    exact List.sublist_append_left _ _
  have hnod2 : (((sort fitness).take i).flatten ++ last).Nodup := by rw [hsub]; exact hnod.sublist hpre
  have hmem : ∀ x ∈ ((sort fitness).take i).flatten ++ chosen, x ∈ ((sort fitness).take i).flatten ++ last := by
    intro x hx
    rcases List.mem_append.1 hx with hx | hx
    · exact List.mem_append_left _ hx
    · exact List.mem_append_right _ (h4 x hx)
  refine ⟨_, h2, h5, ?_, ?_, ?_⟩
  · rw [List.nodup_append] at hnod2 ⊢
    exact ⟨hnod2.1, h3, fun a ha b hb => hnod2.2.2 a ha b (h4 b hb)⟩
  · intro x hx
    have : x ∈ (sort fitness).flatten := hpre.subset (hsub ▸ hmem x hx)
    simpa using hs.all.mem_iff.1 this
  · intro x hx f hxf hff y g hyg hg
    obtain ⟨k, fr, hk, hfr, hxfr⟩ : ∃ (k : Nat) (fr : List Nat), k ≤ i ∧ (sort fitness)[k]? = some fr ∧ x ∈ fr := by
      rcases List.mem_append.1 hx with hx | hx
      · obtain ⟨fr, hf1, hf2⟩ := List.mem_flatten.1 hx
        obtain ⟨k, hk⟩ := List.mem_iff_getElem?.1 hf1
        rw [List.getElem?_take] at hk
        split at hk
        · rename_i hki; exact ⟨k, fr, hki.le, hk, hf2⟩
        · cases hk
      · exact ⟨i, last, le_refl _, h1, h4 x hx⟩
    obtain ⟨k', fr', hk', hfr', hy⟩ := hs.earlier k fr x y hfr hxfr (List.getElem?_eq_some_iff.1 hyg).1
      ⟨g, f, hyg, hxf, live_dominates_failed hg hff⟩
    refine List.mem_append_left _ (List.mem_flatten.2 ⟨fr', ?_, hy⟩)
    exact List.mem_of_getElem? (i := k') (by rw [List.getElem?_take, if_pos (by omega)]; exact hfr')

/-- C116. So if at least `n` have not failed (`alive`: some of their places, all different), no failed individual is selected; and if at most
`n` have not failed, all of them are. -/
theorem c116_enough_alive (sort : List (XVec m) → List (List Nat)) (solve : List (XVec m) → Option (XVec m)) (rnd : NicheRand)
    (hsh : ∀ t l, (rnd.shuffle t l).Perm l) (refDirs : List (XVec m)) (hr : refDirs ≠ []) (n : Nat) (st : NsgaX m)
    (fitness : List (XVec m)) (hf : fitness ≠ []) (hs : IsFrontSort (XIndDominates fitness) fitness.length (sort fitness))
    (hn : n ≤ fitness.length) (hrows : ∀ f ∈ fitness, FailedRow f ∨ LiveRow f) (alive : List Nat) (hnd : alive.Nodup)
    (hal : ∀ x, x ∈ alive ↔ ∃ f, fitness[x]? = some f ∧ LiveRow f) :
    ∃ sel, (nsgaDoX sort solve rnd refDirs (some n) st fitness).1 = .ok sel ∧
      (n ≤ alive.length → ∀ x ∈ sel, x ∈ alive) ∧ (alive.length ≤ n → ∀ x ∈ alive, x ∈ sel) := by
  obtain ⟨sel, h1, h2, h3, h4, h5⟩ := c116_failed_last sort solve rnd hsh refDirs hr n st fitness hf hs hn
  -- either everybody selected is alive, or everybody alive is selected
  have hdich : (∀ x ∈ sel, x ∈ alive) ∨ ((∀ y ∈ alive, y ∈ sel) ∧ ∃ x ∈ sel, x ∉ alive) := by
    by_cases h : ∀ x ∈ sel, x ∈ alive
    · exact .inl h
    · right
      push Not at h
      obtain ⟨x, hx, hxa⟩ := h
      refine ⟨fun y hy => ?_, x, hx, hxa⟩
      obtain ⟨g, hg1, hg2⟩ := (hal y).1 hy
      have hlt := h4 x hx
      rcases hrows _ (List.getElem_mem hlt) with hff | hlive
      · exact h5 x hx _ (List.getElem?_eq_getElem hlt) hff y g hg1 hg2
      · exact absurd ((hal x).2 ⟨_, List.getElem?_eq_getElem hlt, hlive⟩) hxa
  refine ⟨sel, h1, fun hle x hx => ?_, fun hle x hx => ?_⟩
  · rcases hdich with h | ⟨h, x', hx', hxa⟩
    · exact h x hx
    · exfalso
      have hsub : (x' :: alive).Subperm sel := List.subperm_of_subset (List.nodup_cons.2 ⟨hxa, hnd⟩) (by
        intro y hy
        rcases List.mem_cons.1 hy with rfl | hy
        · exact hx'
        · exact h y hy)
      have := hsub.length_le
      rw [List.length_cons] at this
      omega
  · rcases hdich with h | ⟨h, -⟩
    · have hsub : sel.Subperm alive := List.subperm_of_subset h3 h
      exact (hsub.perm_of_length_le (by omega)).mem_iff.2 hx
    · exact h x hx

/-! ## Niching -/

/-- Somebody failed, everybody else has numbers. -/
def SomeFailed (fitness : List (XVec m)) : Prop := (∃ f ∈ fitness, FailedRow f) ∧ ∀ f ∈ fitness, FailedRow f ∨ ∃ a : Vec m, f = asX a

theorem foldMax_top' (l : List XF) : ∀ a, none ∉ a :: l → some ⊤ ∈ a :: l → l.foldl xMax2 a = some ⊤ := by
  intro a hn ht
  have h1 := foldMax_top l a (by
    rcases List.mem_cons.1 ht with h | h
    · exact .inr (.inl h.symm)
    · exact .inr (.inr h))
  rcases h1 with h1 | h1
  · exfalso
    clear ht
    induction l generalizing a with
    | nil => rw [List.foldl_nil] at h1; subst h1; simp at hn
    | cons b l ih =>
      rw [List.foldl_cons] at h1
      refine ih (xMax2 a b) ?_ h1
      cases a with
      | none => simp at hn
      | some a =>
        cases b with
        | none => simp at hn
        | some b =>
          intro h
          rcases List.mem_cons.1 h with h | h
          · cases h
          · exact hn (by simp [h])
  · exact h1

theorem colMax_failed (r : XVec m) (rs : List (XVec m)) (h : SomeFailed (r :: rs)) (i : Fin m) :
    rs.foldl (fun a b i => xMax2 (a i) (b i)) r i = some ⊤ := by
  rw [foldMaxX]
  have hm : ∀ x, x ∈ r i :: rs.map (fun f => f i) ↔ ∃ f ∈ r :: rs, f i = x := by
    intro x
    rw [← List.map_cons (f := fun f : XVec m => f i), List.mem_map]
  apply foldMax_top'
  · intro hn
    obtain ⟨f, hf, e⟩ := (hm _).1 hn
    rcases h.2 f hf with hff | ⟨a, rfl⟩
    · rw [hff i] at e; cases e
    · cases e
  · obtain ⟨f, hf, hff⟩ := h.1
    exact (hm _).2 ⟨f, hf, hff i⟩

theorem ideal_number (z : Vec m) (r : XVec m) (rs : List (XVec m)) (h : SomeFailed (r :: rs)) :
    ∃ z' : Vec m, (fun i => xMin2 (asX z i) (rs.foldl (fun a b i => xMin2 (a i) (b i)) r i)) = asX z' := by
  obtain ⟨z', h1, -⟩ := newIdealX_number z z r rs (by
    intro f hf i
    rcases h.2 f hf with hff | ⟨a, rfl⟩
    · rw [hff i]; exact ⟨by simp, by simp⟩
    · exact ⟨by simp [asX], by simp [asX]⟩)
  refine ⟨z', ?_⟩
  rw [← h1]
  funext i
  unfold newIdealX
  show xMin2 (asX z i) _ = xMin2 (xMin2 (asX z i) _) (asX z i)
  generalize rs.foldl (fun a b i => xMin2 (a i) (b i)) r i = w
  cases w with
  | none => rfl
  | some w =>
    show some (min (z i : EReal) w) = some (min (min (z i : EReal) w) (z i))
    rw [min_comm _ w, min_assoc, min_self]

/-- Everybody is at the origin when the nadir point is infinite. -/
theorem perp_of_infinite_nadir (z a u : Vec m) (nadir : XVec m) (hnad : ∀ i, nadir i = some ⊤) (hu : u ≠ 0) :
    perpDistX (nicheNormalX (asX z) nadir (asX a)) (asX u) = ((0 : EReal) : WithBot EReal) := by
  have hz : nicheNormalX (asX z) nadir (asX a) = asX (fun _ => 0) := by
    funext i
    unfold nicheNormalX
    rw [hnad]
    have e : xSub (some ⊤) (asX z i) = some ⊤ := by
      show xSub (some ⊤) (some _) = _
      simp only [xSub]
      rw [if_neg (by rintro (⟨-, h⟩ | ⟨h, -⟩); exact EReal.coe_ne_top _ h; cases h), EReal.top_sub (EReal.coe_ne_top _)]
    rw [e, if_neg (by intro h; injection h with h; exact EReal.top_ne_zero h)]
    show xDiv (xSub (some _) (some _)) (some ⊤) = some ((0 : ℝ) : EReal)
    rw [xSub_coe]
    simp only [xDiv]
    rw [if_neg EReal.top_ne_zero, if_neg (by rintro ⟨h | h, -⟩; exact EReal.coe_ne_top _ h; exact EReal.coe_ne_bot _ h), EReal.div_top]
    rfl
  have hn : norm2 u ≠ 0 := by
    intro h0
    apply hu
    funext i
    unfold norm2 at h0
    rw [Real.sqrt_eq_zero (Finset.sum_nonneg (fun i _ => by positivity))] at h0
    have := (Finset.sum_eq_zero_iff_of_nonneg (fun i _ => by positivity)).1 h0 i (Finset.mem_univ i)
    simpa using this
  unfold perpDistX
  rw [hz, xNorm_asX]
  have e1 : xSum (fun k => xMul (asX (fun _ => (0 : ℝ)) k) (asX u k)) = some ((0 : ℝ) : EReal) := by
    have : (fun k => xMul (asX (fun _ => (0 : ℝ)) k) (asX u k)) = fun k : Fin m => some (((0 * u k : ℝ)) : EReal) := by
      funext k
      exact xMul_coe _ _
    rw [this, xSum_coe]
    simp
  rw [e1, xDiv_coe _ _ hn]
  have e2 : (fun i => xSub (xDiv (xMul (some ((0 / norm2 u : ℝ) : EReal)) (asX u i)) (some ((norm2 u : ℝ) : EReal))) (asX (fun _ => (0 : ℝ)) i)) =
      asX (fun _ : Fin m => (0 : ℝ)) := by
    funext i
    show xSub (xDiv (xMul _ (some _)) _) (some _) = some _
    rw [xMul_coe, xDiv_coe _ _ hn, xSub_coe]
    simp
  rw [e2, xNorm_asX]
  have : norm2 (fun _ : Fin m => (0 : ℝ)) = 0 := by simp [norm2]
  rw [this]
  rfl

theorem associateX_infinite (refDirs : List (XVec m)) (hr : refDirs ≠ []) (hdir : ∀ u ∈ refDirs, ∃ v : Vec m, u = asX v ∧ v ≠ 0) (z : Vec m)
    (nadir : XVec m) (hnad : ∀ i, nadir i = some ⊤) (fs : List (XVec m)) (hfs : ∀ f ∈ fs, ∃ a : Vec m, f = asX a) :
    associateX refDirs (asX z) nadir fs = .ok (List.replicate fs.length (0, ((0 : EReal) : WithBot EReal))) := by
  induction fs with
  | nil => rfl
  | cons f fs ih =>
    obtain ⟨a, rfl⟩ := hfs f (by simp)
    have e : refDirs.map (perpDistX (nicheNormalX (asX z) nadir (asX a))) = List.replicate refDirs.length ((0 : EReal) : WithBot EReal) := by
      rw [List.eq_replicate_iff]
      refine ⟨by simp, ?_⟩
      intro x hx
      obtain ⟨u, hu, rfl⟩ := List.mem_map.1 hx
      obtain ⟨v, rfl, hv⟩ := hdir u hu
      exact perp_of_infinite_nadir z a v nadir hnad hv
    obtain ⟨k, hk⟩ : ∃ k, refDirs.length = k + 1 := ⟨refDirs.length - 1, by have := List.length_pos_iff.2 hr; omega⟩
    unfold associateX
    dsimp only
    rw [e, hk, argminL_const, ih (fun f hf => hfs f (by simp [hf]))]
    dsimp only
    rw [List.length_cons, List.replicate_succ (n := fs.length)]
    simp [List.replicate_succ]

/-- C116. One failed simulation among individuals with numbers, and no hyperplane through the extreme points (`np.linalg.solve` raises, as
when two of them are equal), so that the worst of the population stands in for the nadir point: the last front, if it fits only in part and
has numbers, is drawn from by lot.  No fitness value, reference vector or state enters, and nothing is left of niching.  (The ideal point
and the reference vectors are numbers, no vector is zero.) -/
theorem c116_niching_by_lot (sort : List (XVec m) → List (List Nat)) (solve : List (XVec m) → Option (XVec m)) (rnd : NicheRand)
    (hsh : ∀ t l, (rnd.shuffle t l).Perm l) (refDirs : List (XVec m)) (hr : refDirs ≠ [])
    (hdir : ∀ u ∈ refDirs, ∃ v : Vec m, u = asX v ∧ v ≠ 0) (n : Nat) (st : NsgaX m) (z : Vec m) (hz : st.ideal = asX z)
    (fitness : List (XVec m)) (hfail : SomeFailed fitness) (before : List (List Nat)) (last : List Nat) (rest : List (List Nat))
    (hs : sort fitness = before ++ last :: rest) (hne : ∀ f ∈ before, f ≠ []) (h1 : before.flatten.length < n)
    (h2 : n < before.flatten.length + last.length)
    (hnum : ∀ j, j ∈ before.flatten ∨ j ∈ last → ∃ a : Vec m, fitness[j]? = some (asX a))
    (hsing : ∀ (z' : Vec m) (ext : List (XVec m)),
      extremePointsX (((sort fitness).headD []).map (fun j => fitness.getD j (fun _ => none))) (asX z') st.extreme = .ok ext →
      solve (ext.map (fun e i => xSub (e i) (asX z' i))) = none) :
    (nsgaDoX sort solve rnd refDirs (some n) st fitness).1 =
      .ok (before.flatten ++ (luckyDraws rnd.shuffle (n - before.flatten.length) 0 (List.range last.length)).filterMap (fun j => last[j]?)) := by
  have hf : fitness ≠ [] := by
    obtain ⟨f, hf, -⟩ := hfail.1
    exact List.ne_nil_of_mem hf
  obtain ⟨f0, tl, hc, h0⟩ : ∃ f0 tl, before ++ last :: rest = f0 :: tl ∧ f0 ≠ [] := by
    cases before with
    | nil =>
      refine ⟨last, rest, rfl, ?_⟩
      intro e; subst e; simp at h1 h2
    | cons b bs => exact ⟨b, bs ++ last :: rest, rfl, hne b (by simp)⟩
  obtain ⟨nadir, hok⟩ := nsgaPointsX_total solve st fitness f0 hf h0
  rw [hs, hc, List.headD_cons] at hsing
  have hkey : (∃ z' : Vec m, (nsgaPointsX solve st fitness f0).2.ideal = asX z') ∧ ∀ i, nadir i = some ⊤ := by
    cases fitness with
    | nil => exact absurd rfl hf
    | cons r rs =>
      cases f0 with
      | nil => exact absurd rfl h0
      | cons j js =>
        obtain ⟨z', hz'⟩ := ideal_number z r rs hfail
        unfold nsgaPointsX at hok ⊢
        simp only [colMinX, colMaxX, List.map_cons] at hok ⊢
        rw [hz] at hok ⊢
        rw [hz'] at hok ⊢
        obtain ⟨ext, he⟩ := extremePointsX_total (((r :: rs).getD j (fun _ => none)) :: js.map (fun j => (r :: rs).getD j (fun _ => none)))
          (asX z') st.extreme (by simp)
        rw [he] at hok ⊢
        dsimp only at hok ⊢
        refine ⟨⟨z', rfl⟩, fun i => ?_⟩
        injection hok with hok
        rw [← hok]
        unfold nadirPointX
        rw [hsing z' ext (by rw [List.map_cons]; exact he)]
        dsimp only
        have e := colMax_failed r rs hfail i
        have e2 : xSub (rs.foldl (fun a b i => xMax2 (a i) (b i)) r i) (asX z' i) = some ⊤ := by
          rw [e]
          show xSub (some ⊤) (some _) = _
          simp only [xSub]
          rw [if_neg (by rintro (⟨-, h⟩ | ⟨h, -⟩); exact EReal.coe_ne_top _ h; cases h), EReal.top_sub (EReal.coe_ne_top _)]
        rw [e2, if_neg (by simp only [xLe, decide_eq_true_eq, top_le_iff]; exact EReal.coe_ne_top _)]
        exact e
  obtain ⟨⟨z', hid⟩, hnad⟩ := hkey
  unfold nsgaDoX
  rw [hs, hc]
  dsimp only
  generalize nsgaPointsX solve st fitness f0 = r at hid hok
  obtain ⟨r1, st'⟩ := r
  dsimp only at hid hok
  subst hok
  dsimp only
  rw [← hc, acceptedFronts_split before last rest n h1 (by omega)]
  dsimp only
  have hl : (before ++ [last]).flatten = before.flatten ++ last := by simp
  rw [if_pos (by rw [hl, List.length_append]; omega)]
  dsimp only [lastFrontChoiceX]
  rw [hid, associateX_infinite refDirs hr hdir z' nadir hnad _ (by
    intro f hf
    obtain ⟨j, hj, rfl⟩ := List.mem_map.1 hf
    rw [hl] at hj
    obtain ⟨a, ha⟩ := hnum j (List.mem_append.1 hj)
    exact ⟨a, by rw [List.getD_eq_getElem?_getD, ha]; rfl⟩)]
  dsimp only
  have e1 : (before ++ [last]).dropLast = before := by simp
  have e2 : (before ++ [last]).getLastD [] = last := by simp
  rw [e1, e2, hl, List.length_map, List.length_append]
  have e3 : (List.replicate (before.flatten.length + last.length) ((0 : Nat), ((0 : EReal) : WithBot EReal))).drop before.flatten.length =
      List.replicate last.length (0, ((0 : EReal) : WithBot EReal)) := by simp
  rw [e3, List.map_replicate, List.map_replicate]
  have hw : whereIdx (List.replicate last.length true) = List.range last.length := by
    rw [whereIdx_eq, List.length_replicate, List.filter_eq_self]
    intro k hk
    simp [List.mem_range.1 hk]
  obtain ⟨c, hc'⟩ := niching_luck rnd hsh last.length ((0 : EReal) : WithBot EReal) (n - before.flatten.length) 0 (List.replicate last.length true)
    (nicheCount refDirs.length (((List.replicate (before.flatten.length + last.length) ((0 : Nat), ((0 : EReal) : WithBot EReal))).take
      before.flatten.length).map (fun p => p.1))) (by simp) (by simp [nicheCount, List.length_pos_iff.2 hr]) (by rw [hw, List.length_range]; omega)
  rw [hc', hw]

/-! ## The hypotheses can be met -/

open Classical in
/-- `XRowDominates` on individuals as a Boolean relation. -/
noncomputable def xIndDom (fitness : List (XVec m)) (y x : Nat) : Bool := decide (XIndDominates fitness y x)

/-- C116. Reference non-dominated sorting meets the contract for every fitness matrix. -/
theorem c116_sort_contract_satisfiable (fitness : List (XVec m)) :
    IsFrontSort (XIndDominates fitness) fitness.length (peelFronts (xIndDom fitness) fitness.length (List.range fitness.length)) := by
  have hd : _root_.Spec.IsDominance (xIndDom fitness) := by
    constructor
    · intro a
      simp only [xIndDom, decide_eq_false_iff_not]
      rintro ⟨f, g, hf, hg, -, i, x, y, hx, hy, hi⟩
      rw [hf] at hg; cases hg
      rw [hx] at hy; cases hy
      exact lt_irrefl _ hi
    · intro a b c h1 h2
      simp only [xIndDom, decide_eq_true_eq] at *
      obtain ⟨f, g, hf, hg, hle, i, x, y, hx, hy, hi⟩ := h1
      obtain ⟨g', h, hg', hh, hle', -⟩ := h2
      rw [hg] at hg'; cases hg'
      refine ⟨f, h, hf, hh, fun k => ?_, i, ?_⟩
      · obtain ⟨p, q, e1, e2, e3⟩ := hle k
        obtain ⟨q', r, e4, e5, e6⟩ := hle' k
        rw [e2] at e4; cases e4
        exact ⟨p, r, e1, e5, e3.trans e6⟩
      · obtain ⟨q', r, e4, e5, e6⟩ := hle' i
        rw [hy] at e4; cases e4
        exact ⟨x, r, hx, e5, hi.trans_le e6⟩
  obtain ⟨h1, h2, h3⟩ := peelFronts_spec (xIndDom fitness) hd fitness.length (List.range fitness.length) (by simp)
  refine ⟨h1, ?_, ?_⟩
  · intro i f x y hi hx hy hd
    exact h2 i f x y hi hx (by simpa using hy) (by simpa [xIndDom] using hd)
  · intro i f g x hf hg hx
    obtain ⟨y, hy, hd⟩ := h3 i f g x hf hg hx
    exact ⟨y, hy, by simpa [xIndDom] using hd⟩

/-- Three individuals, the first of which has failed; two survive: the two others. -/
example (rnd : NicheRand) (hsh : ∀ t l, (rnd.shuffle t l).Perm l) : ∃ sel,
    (nsgaDoX (fun f => peelFronts (xIndDom f) f.length (List.range f.length)) (fun _ => none) rnd [asX (![1, 0] : Vec 2), asX ![0, 1]]
      (some 2) ⟨asX ![0, 0], none, none⟩ [fun _ => some ⊤, asX ![1, 2], asX ![2, 1]]).1 = .ok sel ∧ 1 ∈ sel ∧ 2 ∈ sel := by
  obtain ⟨sel, h1, -, h2⟩ := c116_enough_alive (fun f => peelFronts (xIndDom f) f.length (List.range f.length)) (fun _ => none) rnd hsh
    [asX (![1, 0] : Vec 2), asX ![0, 1]] (by simp) 2 ⟨asX ![0, 0], none, none⟩ [fun _ => some ⊤, asX ![1, 2], asX ![2, 1]] (by simp)
    (c116_sort_contract_satisfiable _) (by simp) (by
      intro f hf
      simp only [List.mem_cons, List.not_mem_nil, or_false] at hf
      rcases hf with rfl | rfl | rfl
      · exact .inl (fun _ => rfl)
      · exact .inr ⟨fun i => by simp [asX], 0, _, rfl, EReal.coe_ne_top _⟩
      · exact .inr ⟨fun i => by simp [asX], 0, _, rfl, EReal.coe_ne_top _⟩) [1, 2] (by simp) (by
      intro x
      match x with
      | 0 =>
        refine ⟨fun h => by simp at h, ?_⟩
        rintro ⟨f, hf, -, i, y, hy, hne⟩
        injection hf with hf
        rw [← hf] at hy
        injection hy with hy
        exact absurd hy.symm hne
      | 1 => exact ⟨fun _ => ⟨_, rfl, fun i => by simp [asX], 0, _, rfl, EReal.coe_ne_top _⟩, fun _ => by simp⟩
      | 2 => exact ⟨fun _ => ⟨_, rfl, fun i => by simp [asX], 0, _, rfl, EReal.coe_ne_top _⟩, fun _ => by simp⟩
      | x + 3 =>
        refine ⟨fun h => by simp at h, ?_⟩
        rintro ⟨f, hf, -⟩
        simp at hf)
  exact ⟨sel, h1, h2 (by simp) 1 (by simp), h2 (by simp) 2 (by simp)⟩

/-- Two non-dominated individuals, a third has failed, one place: whoever the shuffle puts first. -/
example (rnd : NicheRand) (hsh : ∀ t l, (rnd.shuffle t l).Perm l) :
    (nsgaDoX (fun _ => [[0, 1], [2]]) (fun _ => none) rnd [asX (![1, 0] : Vec 2), asX ![0, 1]] (some 1) ⟨asX ![0, 0], none, none⟩
      [asX ![1, 2], asX ![2, 1], fun _ => some ⊤]).1 =
      .ok ((luckyDraws rnd.shuffle 1 0 [0, 1]).filterMap (fun j => [0, 1][j]?)) := by
  refine c116_niching_by_lot (fun _ => [[0, 1], [2]]) (fun _ => none) rnd hsh [asX (![1, 0] : Vec 2), asX ![0, 1]] (by simp) ?_ 1
    ⟨asX ![0, 0], none, none⟩ ![0, 0] rfl [asX ![1, 2], asX ![2, 1], fun _ => some ⊤] ⟨⟨fun _ => some ⊤, by simp, fun _ => rfl⟩, ?_⟩ [] [0, 1]
    [[2]] rfl (by simp) (by simp) (by simp) ?_ (fun _ _ _ => rfl)
  · intro u hu
    simp only [List.mem_cons, List.not_mem_nil, or_false] at hu
    rcases hu with rfl | rfl
    · exact ⟨_, rfl, fun h => by have := congrFun h 0; simp at this⟩
    · exact ⟨_, rfl, fun h => by have := congrFun h 1; simp at this⟩
  · intro f hf
    simp only [List.mem_cons, List.not_mem_nil, or_false] at hf
    rcases hf with rfl | rfl | rfl
    · exact .inr ⟨_, rfl⟩
    · exact .inr ⟨_, rfl⟩
    · exact .inl (fun _ => rfl)
  · intro j hj
    simp at hj
    rcases hj with rfl | rfl
    · exact ⟨_, rfl⟩
    · exact ⟨_, rfl⟩

end Verif.Props
