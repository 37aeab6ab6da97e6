import Verif.Proofs.NSGA3

/-!
# Properties C33–C36: NSGA-III selection
-/

open scoped BigOperators

namespace Verif.Props
open Verif Verif.Spec

variable {m : Nat}

/-! ## Lemmas -/

theorem colMin_total (l : List (Vec m)) (h : l ≠ []) : ∃ v, colMin l = .ok v := by
  cases l with
  | nil => exact absurd rfl h
  | cons x xs => exact ⟨_, rfl⟩

theorem colMax_total (l : List (Vec m)) (h : l ≠ []) : ∃ v, colMax l = .ok v := by
  cases l with
  | nil => exact absurd rfl h
  | cons x xs => exact ⟨_, rfl⟩

theorem colMax_spec (fitness : List (Vec m)) (fmax : Vec m) (h : colMax fitness = .ok fmax) (j : Fin m) :
    IsColMax fitness j (fmax j) := by
  cases fitness with
  | nil => cases h
  | cons r rs =>
    simp only [colMax, Except.ok.injEq] at h
    subst h
    exact go rs r j
where
  go (rs : List (Vec m)) (r : Vec m) (j : Fin m) :
      IsColMax (r :: rs) j (rs.foldl (fun a b i => max (a i) (b i)) r j) := by
    induction rs generalizing r with
    | nil => exact ⟨⟨r, by simp, rfl⟩, by simp⟩
    | cons a rs ih =>
      obtain ⟨⟨x, hx, hxe⟩, hle⟩ := ih (fun i => max (r i) (a i))
      simp only [List.foldl_cons]
      refine ⟨?_, ?_⟩
      · rcases List.mem_cons.1 hx with rfl | hx
        · rw [← hxe]
          rcases le_total (r j) (a j) with h | h
          · exact ⟨a, by simp, by simp [h]⟩
          · exact ⟨r, by simp, by simp [h]⟩
        · exact ⟨x, by simp [hx], hxe⟩
      · intro y hy
        have h0 := hle _ (List.mem_cons_self)
        rcases List.mem_cons.1 hy with rfl | hy
        · exact le_trans (le_max_left _ _) h0
        · rcases List.mem_cons.1 hy with rfl | hy
          · exact le_trans (le_max_right _ _) h0
          · exact hle y (by simp [hy])

/-- in a mapM over `Except`, success of every entry gives success -/
theorem mapM_except_total {α β : Type} (f : α → Except Err β) (l : List α) (h : ∀ a ∈ l, ∃ b, f a = .ok b) :
    ∃ bs, l.mapM f = .ok bs := by
  induction l with
  | nil => exact ⟨[], rfl⟩
  | cons a l ih =>
    obtain ⟨b, hb⟩ := h a (by simp)
    obtain ⟨bs, hbs⟩ := ih (fun x hx => h x (by simp [hx]))
    exact ⟨b :: bs, by rw [List.mapM_cons, hb, hbs]; rfl⟩

theorem extremePoints_total (front : List (Vec m)) (ideal : Vec m) (old : Option (List (Vec m))) (h : front ≠ []) :
    ∃ e, extremePoints front ideal old = .ok e := by
  unfold extremePoints
  apply mapM_except_total
  intro k _
  have hne : extremePool front old ≠ [] := by cases old <;> simp [extremePool, h]
  obtain ⟨j, hj⟩ := argminL_total ((extremePool front old).map (asf ideal k)) (by simpa using hne)
  simp only [extremeRow, hj]
  obtain ⟨c, hc, -⟩ := argminL_spec _ _ hj
  rw [List.getElem?_map] at hc
  cases hr : (extremePool front old)[j]? with
  | none => rw [hr] at hc; simp at hc
  | some r => exact ⟨r, rfl⟩

/-- Niche and distance of one row: the first reference direction of least perpendicular distance. -/
theorem associate_spec (refDirs : List (Vec m)) (ideal nadir : Vec m) (fs : List (Vec m)) (nd : List (Nat × ℝ))
    (h : associate refDirs ideal nadir fs = .ok nd) :
    nd.length = fs.length ∧ ∀ (i : Nat) (f : Vec m) (p : Nat × ℝ), fs[i]? = some f → nd[i]? = some p →
      ∃ u, refDirs[p.1]? = some u ∧ p.2 = perpDist (nicheNormal ideal nadir f) u ∧
        (∀ (k : Nat) (w : Vec m), refDirs[k]? = some w →
          perpDist (nicheNormal ideal nadir f) u ≤ perpDist (nicheNormal ideal nadir f) w) ∧
        (∀ (k : Nat) (w : Vec m), k < p.1 → refDirs[k]? = some w →
          perpDist (nicheNormal ideal nadir f) u < perpDist (nicheNormal ideal nadir f) w) := by
  induction fs generalizing nd with
  | nil => simp only [associate, Except.ok.injEq] at h; subst h; simp
  | cons g gs ih =>
    simp only [associate] at h
    split at h
    · rename_i a as ha has
      cases h
      obtain ⟨h1, h2⟩ := ih as has
      refine ⟨by simp [h1], ?_⟩
      intro i f p hf hp
      cases i with
      | zero =>
        simp only [List.getElem?_cons_zero, Option.some.injEq] at hf hp
        subst hf hp
        obtain ⟨c, hc, hmin, hfirst⟩ := argminL_spec _ _ ha
        have hc' := hc
        rw [List.getElem?_map] at hc
        cases hu : refDirs[a]? with
        | none => rw [hu] at hc; simp at hc
        | some u =>
          rw [hu] at hc
          simp only [Option.map_some, Option.some.injEq] at hc
          refine ⟨u, rfl, ?_, ?_, ?_⟩
          · rw [List.getD_eq_getElem?_getD, hc', ← hc]; rfl
          · intro k w hw
            rw [hc]
            exact hmin k _ (by rw [List.getElem?_map, hw]; rfl)
          · intro k w hk hw
            rw [hc]
            exact hfirst k _ hk (by rw [List.getElem?_map, hw]; rfl)
      | succ i => exact h2 i f p (by simpa using hf) (by simpa using hp)
    · cases h
    · cases h

theorem associate_total (refDirs : List (Vec m)) (ideal nadir : Vec m) (fs : List (Vec m)) (h : refDirs ≠ []) :
    ∃ nd, associate refDirs ideal nadir fs = .ok nd := by
  induction fs with
  | nil => exact ⟨[], rfl⟩
  | cons f fs ih =>
    obtain ⟨as, has⟩ := ih
    obtain ⟨a, ha⟩ := argminL_total (refDirs.map (perpDist (nicheNormal ideal nadir f))) (by simpa using h)
    simp only [associate, ha, has]
    exact ⟨_, rfl⟩

theorem getLastD_take {α : Type} (l : List (List α)) (i : Nat) (f : List α) (h : l[i]? = some f) :
    (l.take (i + 1)).getLastD [] = f ∧ (l.take (i + 1)).dropLast = l.take i := by
  obtain ⟨hi, he⟩ := List.getElem?_eq_some_iff.1 h
  rw [List.take_succ_eq_append_getElem hi]
  simp [he]

/-- what the choice from the last front returns -/
theorem lastFrontChoice_spec (rnd : NicheRand) (hsh : ∀ t l, (rnd.shuffle t l).Perm l) (refDirs : List (Vec m))
    (hr : refDirs ≠ []) (ideal nadir : Vec m) (n : Nat) (fitness : List (Vec m)) (fronts : List (List Nat)) (i : Nat)
    (last : List Nat) (hl : fronts[i]? = some last) (hnl : last.Nodup)
    (hn : ((fronts.take i).flatten).length ≤ n) (hn2 : n ≤ ((fronts.take (i + 1)).flatten).length) :
    ∃ chosen, lastFrontChoice rnd refDirs ideal nadir n fitness (fronts.take (i + 1)) =
        .ok ((fronts.take i).flatten ++ chosen) ∧ chosen.Nodup ∧ (∀ j ∈ chosen, j ∈ last) ∧
      ((fronts.take i).flatten ++ chosen).length = n := by
  obtain ⟨g1, g2⟩ := getLastD_take fronts i last hl
  have hflat : (fronts.take (i + 1)).flatten = (fronts.take i).flatten ++ last := by
    obtain ⟨hi, he⟩ := List.getElem?_eq_some_iff.1 hl
    rw [List.take_succ_eq_append_getElem hi, he]
    simp
  unfold lastFrontChoice
  simp only [g1, g2, hflat]
  obtain ⟨nd, hnd⟩ := associate_total refDirs ideal nadir
    (((fronts.take i).flatten ++ last).map (fun j => fitness.getD j 0)) hr
  obtain ⟨hlen, hspec⟩ := associate_spec _ _ _ _ _ hnd
  simp only [hnd]
  simp only [List.length_map, List.length_append] at hlen
  rw [hflat, List.length_append] at hn2
  generalize (fronts.take i).flatten = before at *
  have hniche : ∀ p ∈ nd, p.1 < refDirs.length := by
    intro p hp
    obtain ⟨k, hk⟩ := List.mem_iff_getElem?.1 hp
    have hkl : k < nd.length := (List.getElem?_eq_some_iff.1 hk).1
    obtain ⟨u, hu, -⟩ := hspec k _ p (List.getElem?_eq_getElem (by simpa [← hlen] using hkl)) hk
    exact (List.getElem?_eq_some_iff.1 hu).1
  obtain ⟨js, c', e1, e2, e3, -, -⟩ := niching_spec rnd hsh ((nd.drop before.length).map (fun p => p.1))
    ((nd.drop before.length).map (fun p => p.2)) (fun c => (((nd.take before.length).map (fun p => p.1)).count c)) (by simp)
    (n - before.length) 0 (List.replicate last.length true)
    (nicheCount refDirs.length ((nd.take before.length).map (fun p => p.1))) [] (by simp [hlen])
    (by
      intro k hk
      simp only [List.length_map, List.length_drop, hlen] at hk
      simp [List.getElem?_replicate]; omega)
    (by
      intro c hc
      obtain ⟨p, hp, rfl⟩ := List.mem_map.1 hc
      simpa [nicheCount] using hniche p (List.mem_of_mem_drop hp))
    (by
      intro c hc
      simp only [nicheCount, List.length_map, List.length_range] at hc
      simp [nicheCount, hc, occupants])
    (by simp [avail, List.count_replicate]; omega)
  simp only [e1]
  obtain ⟨hnd1, hlt⟩ := fairRun_nodup _ _ _ _ _ e3
  simp only [List.length_map, List.length_drop, hlen, Nat.add_sub_cancel_left] at hlt
  have hmap : js.filterMap (fun j => last[j]?) = js.map (fun j => last.getD j 0) := by
    rw [← List.filterMap_eq_map]
    refine List.filterMap_congr (fun j hj => ?_)
    simp [hlt j hj]
  refine ⟨js.filterMap (fun j => last[j]?), rfl, ?_, ?_, ?_⟩
  · rw [hmap]
    refine List.Nodup.map_on ?_ hnd1
    intro a ha b hb hab
    have h1 := hlt a ha
    have h2 := hlt b hb
    simp only [List.getD_eq_getElem?_getD, List.getElem?_eq_getElem h1, List.getElem?_eq_getElem h2, Option.getD_some] at hab
    exact (List.Nodup.getElem_inj_iff hnl).1 hab
  · intro x hx
    obtain ⟨j, -, hj⟩ := List.mem_filterMap.1 hx
    exact List.mem_of_getElem? hj
  · rw [hmap]; simp [e2]; omega

/-- Front sorting puts somebody into the first front. -/
theorem first_front_nonempty {dom : Nat → Nat → Prop} {n : Nat} {f0 : List Nat} {rest : List (List Nat)}
    (h : IsFrontSort dom n (f0 :: rest)) (hn : 0 < n) : f0 ≠ [] := by
  have key : ∀ (i : Nat) (f : List Nat), (f0 :: rest)[i]? = some f → f ≠ [] → f0 ≠ [] := by
    intro i
    induction i with
    | zero => intro f hf hne; simp at hf; subst hf; exact hne
    | succ i ih =>
      intro f hf hne
      obtain ⟨x, hx⟩ := List.exists_mem_of_ne_nil _ hne
      have hi : i < (f0 :: rest).length := by
        have := (List.getElem?_eq_some_iff.1 hf).1; omega
      obtain ⟨y, hy, -⟩ := h.witness i _ f x (List.getElem?_eq_getElem hi) hf hx
      exact ih _ (List.getElem?_eq_getElem hi) (List.ne_nil_of_mem hy)
  have h0 : 0 ∈ (f0 :: rest).flatten := h.all.mem_iff.2 (by simpa using hn)
  obtain ⟨f, hf, hx⟩ := List.mem_flatten.1 h0
  obtain ⟨i, hi⟩ := List.mem_iff_getElem?.1 hf
  exact key i f hi (List.ne_nil_of_mem hx)

/-- The form of every selection with enough individuals. -/
theorem nsgaDo_form (sort : List (Vec m) → List (List Nat)) (solve : List (Vec m) → Option (Vec m)) (rnd : NicheRand)
    (hsh : ∀ t l, (rnd.shuffle t l).Perm l) (refDirs : List (Vec m)) (hr : refDirs ≠ []) (n : Nat) (st : Nsga m)
    (fitness : List (Vec m)) (hf : fitness ≠ []) (hs : IsFrontSort (IndDominates fitness) fitness.length (sort fitness))
    (hn : n ≤ fitness.length) :
    ∃ st' i last chosen, (sort fitness)[i]? = some last ∧
      nsgaDo sort solve rnd refDirs (some n) st fitness = (.ok (((sort fitness).take i).flatten ++ chosen), st') ∧
      chosen.Nodup ∧ (∀ j ∈ chosen, j ∈ last) ∧ (((sort fitness).take i).flatten ++ chosen).length = n ∧
      n ≤ (((sort fitness).take i).flatten ++ last).length := by
  have hpos : 0 < fitness.length := List.length_pos_iff.2 hf
  generalize hfr : sort fitness = fronts at *
  cases fronts with
  | nil =>
    have := hs.all.length_eq
    simp at this; omega
  | cons f0 rest =>
    have hne0 := first_front_nonempty hs hpos
    obtain ⟨fmin, h1⟩ := colMin_total fitness hf
    obtain ⟨fmax, h2⟩ := colMax_total fitness hf
    obtain ⟨wf, h3⟩ := colMax_total (f0.map (fun j => fitness.getD j 0)) (by simpa using hne0)
    obtain ⟨ext, h4⟩ := extremePoints_total (f0.map (fun j => fitness.getD j 0)) (nsgaExtremes st fmin fmax).ideal
      (nsgaExtremes st fmin fmax).extreme (by simpa using hne0)
    unfold nsgaDo nsgaPoints
    simp only [hfr, h1, h2, h3, h4]
    have hnod : (f0 :: rest).flatten.Nodup := hs.all.nodup_iff.2 List.nodup_range
    cases hacc : acceptedFronts n (f0 :: rest) with
    | none =>
      have := acceptedFronts_none hacc (by simp)
      have hl := hs.all.length_eq
      simp only [List.length_range] at hl
      omega
    | some fs =>
      obtain ⟨i, hi, rfl, hle, hearlier⟩ := acceptedFronts_some hacc
      obtain ⟨last, hlast⟩ : ∃ f, (f0 :: rest)[i]? = some f := ⟨_, List.getElem?_eq_getElem hi⟩
      have hbefore : (((f0 :: rest).take i).flatten).length ≤ n := by
        cases i with
        | zero => simp
        | succ k => exact (hearlier k (by omega)).le
      have hnl : last.Nodup := (List.nodup_flatten.1 hnod).1 last (List.mem_of_getElem? hlast)
      have hflat : ((f0 :: rest).take (i + 1)).flatten = ((f0 :: rest).take i).flatten ++ last := by
        obtain ⟨hi', he⟩ := List.getElem?_eq_some_iff.1 hlast
        rw [List.take_succ_eq_append_getElem hi', he]
        simp
      by_cases hgt : ((f0 :: rest).take (i + 1)).flatten.length > n
      · simp only [if_pos hgt]
        obtain ⟨chosen, c1, c2, c3, c4⟩ := lastFrontChoice_spec rnd hsh refDirs hr
          ((nsgaExtremes st fmin fmax).ideal) (nadirPoint solve ext (nsgaExtremes st fmin fmax).ideal
            (newWorst st.worst fmax) fmax wf) n fitness (f0 :: rest) i last hlast hnl hbefore hle
        exact ⟨{ nsgaExtremes st fmin fmax with extreme := some ext }, i, last, chosen, hlast, Prod.ext c1 rfl, c2, c3,
          c4, by rw [← hflat]; exact hle⟩
      · simp only [if_neg hgt]
        refine ⟨{ nsgaExtremes st fmin fmax with extreme := some ext }, i, last, last, hlast, ?_, hnl, fun j hj => hj, ?_,
          by rw [← hflat]; exact hle⟩
        · rw [hflat]
        · rw [← hflat]; omega

/-! ## C33 -/

/-- C33. With at least `pop_size` individuals, whatever the random choices, the fitness values and the state of the
operator, selection succeeds and returns exactly `pop_size` distinct valid indices. -/
theorem c33_exactly_pop_size (sort : List (Vec m) → List (List Nat)) (solve : List (Vec m) → Option (Vec m)) (rnd : NicheRand)
    (hsh : ∀ t l, (rnd.shuffle t l).Perm l) (refDirs : List (Vec m)) (hr : refDirs ≠ []) (n : Nat) (st : Nsga m)
    (fitness : List (Vec m)) (hf : fitness ≠ []) (hs : IsFrontSort (IndDominates fitness) fitness.length (sort fitness))
    (hn : n ≤ fitness.length) :
    ∃ sel st', nsgaDo sort solve rnd refDirs (nSurviveAttr none n) st fitness = (.ok sel, st') ∧
      sel.length = n ∧ sel.Nodup ∧ ∀ j ∈ sel, j < fitness.length := by
  obtain ⟨st', i, last, chosen, h1, h2, h3, h4, h5, -⟩ := nsgaDo_form sort solve rnd hsh refDirs hr n st fitness hf hs hn
  refine ⟨_, st', h2, h5, ?_, ?_⟩
  · have hnod : (sort fitness).flatten.Nodup := hs.all.nodup_iff.2 List.nodup_range
    have hsplit := List.take_append_drop i (sort fitness)
    rw [← hsplit, List.flatten_append] at hnod
    obtain ⟨n1, -, n3⟩ := List.nodup_append.1 hnod
    refine List.nodup_append.2 ⟨n1, h3, fun a ha b hb => n3 a ha b ?_⟩
    obtain ⟨hi, he⟩ := List.getElem?_eq_some_iff.1 h1
    rw [List.drop_eq_getElem_cons hi, he]
    simp [h4 b hb]
  · intro j hj
    have : j ∈ (sort fitness).flatten := by
      rcases List.mem_append.1 hj with hj | hj
      · obtain ⟨f, hf1, hf2⟩ := List.mem_flatten.1 hj
        exact List.mem_flatten.2 ⟨f, List.mem_of_mem_take hf1, hf2⟩
      · exact List.mem_flatten.2 ⟨last, List.mem_of_getElem? h1, h4 j hj⟩
    simpa using hs.all.mem_iff.1 this

/-- C33 (deviation): with fewer individuals than `pop_size` (but some) selection returns no index at all. -/
theorem c33_too_few_selects_nobody (sort : List (Vec m) → List (List Nat)) (solve : List (Vec m) → Option (Vec m)) (rnd : NicheRand)
    (refDirs : List (Vec m)) (n : Nat) (st : Nsga m)
    (fitness : List (Vec m)) (hf : fitness ≠ []) (hs : IsFrontSort (IndDominates fitness) fitness.length (sort fitness))
    (hn : fitness.length < n) :
    ∃ st', nsgaDo sort solve rnd refDirs (nSurviveAttr none n) st fitness = (.ok [], st') := by
  have hpos : 0 < fitness.length := List.length_pos_iff.2 hf
  generalize hfr : sort fitness = fronts at *
  cases fronts with
  | nil =>
    have := hs.all.length_eq
    simp at this; omega
  | cons f0 rest =>
    have hne0 := first_front_nonempty hs hpos
    obtain ⟨fmin, h1⟩ := colMin_total fitness hf
    obtain ⟨fmax, h2⟩ := colMax_total fitness hf
    obtain ⟨wf, h3⟩ := colMax_total (f0.map (fun j => fitness.getD j 0)) (by simpa using hne0)
    obtain ⟨ext, h4⟩ := extremePoints_total (f0.map (fun j => fitness.getD j 0)) (nsgaExtremes st fmin fmax).ideal
      (nsgaExtremes st fmin fmax).extreme (by simpa using hne0)
    unfold nsgaDo nsgaPoints
    simp only [hfr, h1, h2, h3, h4, nSurviveAttr]
    cases hacc : acceptedFronts n (f0 :: rest) with
    | none => exact ⟨_, rfl⟩
    | some fs =>
      obtain ⟨i, hi, rfl, hle, -⟩ := acceptedFronts_some hacc
      have hl := hs.all.length_eq
      have h5 : (((f0 :: rest).take (i + 1)).flatten).length ≤ ((f0 :: rest).flatten).length :=
        (List.take_sublist _ _).flatten.length_le
      simp only [List.length_range] at hl
      omega

/-- C33 (deviation): an operator built with an explicit `n_survive` can never select: AttributeError, for every
population. -/
theorem c33_explicit_n_survive_unusable (sort : List (Vec m) → List (List Nat)) (solve : List (Vec m) → Option (Vec m))
    (rnd : NicheRand) (refDirs : List (Vec m)) (n k : Nat) (st : Nsga m) (fitness : List (Vec m)) (hf : fitness ≠ [])
    (hs : IsFrontSort (IndDominates fitness) fitness.length (sort fitness)) :
    (nsgaDo sort solve rnd refDirs (nSurviveAttr (some k) n) st fitness).1 = .error .attributeError := by
  have hpos : 0 < fitness.length := List.length_pos_iff.2 hf
  generalize hfr : sort fitness = fronts at *
  cases fronts with
  | nil =>
    have := hs.all.length_eq
    simp at this; omega
  | cons f0 rest =>
    have hne0 := first_front_nonempty hs hpos
    obtain ⟨fmin, h1⟩ := colMin_total fitness hf
    obtain ⟨fmax, h2⟩ := colMax_total fitness hf
    obtain ⟨wf, h3⟩ := colMax_total (f0.map (fun j => fitness.getD j 0)) (by simpa using hne0)
    obtain ⟨ext, h4⟩ := extremePoints_total (f0.map (fun j => fitness.getD j 0)) (nsgaExtremes st fmin fmax).ideal
      (nsgaExtremes st fmin fmax).extreme (by simpa using hne0)
    unfold nsgaDo nsgaPoints
    simp only [hfr, h1, h2, h3, h4, nSurviveAttr]

/-! ## C34 -/

/-- C34. Selection is elitist.  Let a selection of `pop_size` out of at least as many individuals return `sel`.
(1) No selected individual is dominated by one that was not selected.  (2) If at most `pop_size` individuals are
non-dominated, all of them are selected; otherwise only non-dominated ones are. -/
theorem c34_elitist (sort : List (Vec m) → List (List Nat)) (solve : List (Vec m) → Option (Vec m)) (rnd : NicheRand)
    (hsh : ∀ t l, (rnd.shuffle t l).Perm l) (refDirs : List (Vec m)) (hr : refDirs ≠ []) (n : Nat) (st st' : Nsga m)
    (fitness : List (Vec m)) (hf : fitness ≠ []) (hs : IsFrontSort (IndDominates fitness) fitness.length (sort fitness))
    (hn : n ≤ fitness.length) (sel : List Nat)
    (hsel : nsgaDo sort solve rnd refDirs (nSurviveAttr none n) st fitness = (.ok sel, st'))
    (best : List Nat) (hbest : best.Nodup)
    (hb : ∀ x, x ∈ best ↔ x < fitness.length ∧ ∀ y, y < fitness.length → ¬ IndDominates fitness y x) :
    (∀ x ∈ sel, ∀ y, y < fitness.length → IndDominates fitness y x → y ∈ sel) ∧
    (best.length ≤ n → ∀ x ∈ best, x ∈ sel) ∧ (n ≤ best.length → ∀ x ∈ sel, x ∈ best) := by
  obtain ⟨st2, i, last, chosen, h1, h2, h3, h4, h5, h6⟩ := nsgaDo_form sort solve rnd hsh refDirs hr n st fitness hf hs hn
  have heq : sel = ((sort fitness).take i).flatten ++ chosen := by
    have : nSurviveAttr none n = some n := rfl
    rw [this, h2] at hsel
    simp only [Prod.mk.injEq, Except.ok.injEq] at hsel
    exact hsel.1.symm
  have hfrontOf : ∀ x ∈ sel, ∃ (k : Nat) (f : List Nat), k ≤ i ∧ (sort fitness)[k]? = some f ∧ x ∈ f := by
    intro x hx
    rw [heq] at hx
    rcases List.mem_append.1 hx with hx | hx
    · obtain ⟨f, hf1, hf2⟩ := List.mem_flatten.1 hx
      obtain ⟨k, hk⟩ := List.mem_iff_getElem?.1 hf1
      rw [List.getElem?_take] at hk
      split at hk
      · rename_i hki; exact ⟨k, f, hki.le, hk, hf2⟩
      · cases hk
    · exact ⟨i, last, le_refl _, h1, h4 x hx⟩
  have hearly : ∀ (k : Nat) (f : List Nat) (x : Nat), k < i → (sort fitness)[k]? = some f → x ∈ f → x ∈ sel := by
    intro k f x hk hf2 hx
    rw [heq]
    refine List.mem_append_left _ (List.mem_flatten.2 ⟨f, ?_, hx⟩)
    exact List.mem_of_getElem? (i := k) (by rw [List.getElem?_take, if_pos hk]; exact hf2)
  -- the first front is the set of non-dominated individuals
  have hpos : 0 < fitness.length := List.length_pos_iff.2 hf
  obtain ⟨f0, hf0⟩ : ∃ f, (sort fitness)[0]? = some f := by
    have : 0 < (sort fitness).length := by
      rcases Nat.eq_zero_or_pos (sort fitness).length with h | h
      · have := hs.all.length_eq
        rw [List.length_eq_zero_iff.1 h] at this
        simp at this; omega
      · exact h
    exact ⟨_, List.getElem?_eq_getElem this⟩
  have hmemAll : ∀ (k : Nat) (f : List Nat) (x : Nat), (sort fitness)[k]? = some f → x ∈ f → x < fitness.length := by
    intro k f x hk hx
    simpa using hs.all.mem_iff.1 (List.mem_flatten.2 ⟨f, List.mem_of_getElem? hk, hx⟩)
  have hfb : ∀ x, x ∈ f0 ↔ x ∈ best := by
    intro x
    rw [hb]
    constructor
    · intro hx
      refine ⟨hmemAll 0 f0 x hf0 hx, fun y hy hd => ?_⟩
      obtain ⟨k, g, hk, -⟩ := hs.earlier 0 f0 x y hf0 hx hy hd
      omega
    · rintro ⟨hx, hno⟩
      obtain ⟨f, hf1, hf2⟩ := List.mem_flatten.1 (hs.all.mem_iff.2 (by simpa using hx))
      obtain ⟨k, hk⟩ := List.mem_iff_getElem?.1 hf1
      cases k with
      | zero => rw [hf0] at hk; cases hk; exact hf2
      | succ k =>
        have hkl : k < (sort fitness).length := by
          have := (List.getElem?_eq_some_iff.1 hk).1; omega
        obtain ⟨y, hy, hd⟩ := hs.witness k _ f x (List.getElem?_eq_getElem hkl) hk hf2
        exact absurd hd (hno y (hmemAll k _ y (List.getElem?_eq_getElem hkl) hy))
  have hnod : (sort fitness).flatten.Nodup := hs.all.nodup_iff.2 List.nodup_range
  have hf0n : f0.Nodup := (List.nodup_flatten.1 hnod).1 f0 (List.mem_of_getElem? hf0)
  have hlen0 : f0.length = best.length := ((List.perm_ext_iff_of_nodup hf0n hbest).2 hfb).length_eq
  refine ⟨?_, ?_, ?_⟩
  · intro x hx y hy hd
    obtain ⟨k, f, hk, hf2, hxf⟩ := hfrontOf x hx
    obtain ⟨k', g, hk', hg, hyg⟩ := hs.earlier k f x y hf2 hxf hy hd
    exact hearly k' g y (by omega) hg hyg
  · intro hle x hx
    rw [← hfb] at hx
    rcases Nat.eq_zero_or_pos i with rfl | hi
    · have e : last = f0 := by rw [hf0] at h1; exact (Option.some.inj h1).symm
      rw [e] at h4 h6
      simp only [List.take_zero, List.flatten_nil, List.nil_append] at h5 h6 heq
      have hsub : chosen.Subperm f0 := List.subperm_of_subset h3 h4
      have : chosen.Perm f0 := hsub.perm_of_length_le (by omega)
      rw [heq]; exact this.mem_iff.2 hx
    · exact hearly 0 f0 x hi hf0 hx
  · intro hge x hx
    rw [← hfb]
    rcases Nat.eq_zero_or_pos i with rfl | hi
    · have e : last = f0 := by rw [hf0] at h1; exact (Option.some.inj h1).symm
      rw [e] at h4 h6
      rw [heq] at hx
      simp only [List.take_zero, List.flatten_nil, List.nil_append] at hx
      exact h4 x hx
    · -- the first front already fills the selection
      have hsplit : ((sort fitness).take i).flatten = f0 ++ (((sort fitness).drop 1).take (i - 1)).flatten := by
        obtain ⟨r, hr2⟩ : ∃ r, sort fitness = f0 :: r := by
          cases hc : sort fitness with
          | nil => rw [hc] at hf0; simp at hf0
          | cons a r => rw [hc] at hf0; simp at hf0; subst hf0; exact ⟨r, rfl⟩
        rw [hr2]
        cases i with
        | zero => omega
        | succ i => simp
      rw [hsplit] at h5 heq
      simp only [List.length_append] at h5
      have e1 : (((sort fitness).drop 1).take (i - 1)).flatten = [] := List.length_eq_zero_iff.1 (by omega)
      have e2 : chosen = [] := List.length_eq_zero_iff.1 (by omega)
      rw [heq, e1, e2] at hx
      simpa using hx

/-! ## The contract on non-dominated sorting can be met -/

theorem peelFronts_spec (dom : Nat → Nat → Bool) (hdom : _root_.Spec.IsDominance dom) (fuel : Nat) (rem : List Nat)
    (hfuel : rem.length ≤ fuel) :
    (peelFronts dom fuel rem).flatten.Perm rem ∧
    (∀ (i : Nat) (f : List Nat) (x y : Nat), (peelFronts dom fuel rem)[i]? = some f → x ∈ f → y ∈ rem → dom y x = true →
      ∃ (k : Nat) (g : List Nat), k < i ∧ (peelFronts dom fuel rem)[k]? = some g ∧ y ∈ g) ∧
    (∀ (i : Nat) (f g : List Nat) (x : Nat), (peelFronts dom fuel rem)[i]? = some f →
      (peelFronts dom fuel rem)[i + 1]? = some g → x ∈ g → ∃ y ∈ f, dom y x = true) := by
  induction fuel generalizing rem with
  | zero =>
    have : rem = [] := List.length_eq_zero_iff.1 (by omega)
    subst this
    simp [peelFronts]
  | succ fuel ih =>
    cases rem with
    | nil => simp [peelFronts]
    | cons r rs =>
      simp only [peelFronts]
      generalize hrem : r :: rs = rem at *
      have hcomp : rem.filter (fun x => rem.any (fun y => dom y x)) = rem.filter (fun x => !rem.all (fun y => !dom y x)) := by
        refine List.filter_congr (fun x _ => ?_)
        rw [List.not_all_eq_any_not]; simp
      have hnonempty : rem.filter (fun x => rem.all (fun y => !dom y x)) ≠ [] := by
        obtain ⟨b, hb, hmin, -⟩ := exists_minimal hdom rem r (by rw [← hrem]; simp)
        intro h
        have : b ∈ rem.filter (fun x => rem.all (fun y => !dom y x)) := List.mem_filter.2 ⟨hb, hmin⟩
        rw [h] at this; simp at this
      have hperm : (rem.filter (fun x => rem.all (fun y => !dom y x)) ++
          rem.filter (fun x => rem.any (fun y => dom y x))).Perm rem := by
        rw [hcomp]; exact List.filter_append_perm _ _
      have hlen : (rem.filter (fun x => rem.any (fun y => dom y x))).length ≤ fuel := by
        have h1 := hperm.length_eq
        rw [List.length_append] at h1
        have := List.length_pos_iff.2 hnonempty
        omega
      obtain ⟨i1, i2, i3⟩ := ih _ hlen
      refine ⟨?_, ?_, ?_⟩
      · rw [List.flatten_cons]
        exact (List.Perm.append_left _ i1).trans hperm
      · intro i f x y hi hx hy hd
        cases i with
        | zero =>
          simp only [List.getElem?_cons_zero, Option.some.injEq] at hi
          subst hi
          have := List.all_eq_true.1 (List.mem_filter.1 hx).2 y hy
          simp [hd] at this
        | succ i =>
          simp only [List.getElem?_cons_succ] at hi
          by_cases hy0 : y ∈ rem.filter (fun x => rem.all (fun y => !dom y x))
          · exact ⟨0, _, by omega, rfl, hy0⟩
          · have hy1 : y ∈ rem.filter (fun x => rem.any (fun y => dom y x)) := by
              rcases List.mem_append.1 (hperm.mem_iff.2 hy) with h | h
              · exact absurd h hy0
              · exact h
            obtain ⟨k, g, hk, hg, hyg⟩ := i2 i f x y hi hx hy1 hd
            exact ⟨k + 1, g, by omega, by simpa using hg, hyg⟩
      · intro i f g x hf hg hx
        simp only [List.getElem?_cons_succ] at hg
        cases i with
        | zero =>
          simp only [List.getElem?_cons_zero, Option.some.injEq] at hf
          subst hf
          have hxr : x ∈ rem.filter (fun x => rem.any (fun y => dom y x)) :=
            i1.mem_iff.1 (List.mem_flatten.2 ⟨g, List.mem_of_getElem? hg, hx⟩)
          obtain ⟨y, hy, hd⟩ := List.any_eq_true.1 (List.mem_filter.1 hxr).2
          obtain ⟨b, hb, hmin, hor⟩ := exists_minimal hdom rem y hy
          refine ⟨b, List.mem_filter.2 ⟨hb, hmin⟩, ?_⟩
          rcases hor with rfl | h
          · exact hd
          · exact hdom.trans b y x h hd
        | succ i =>
          simp only [List.getElem?_cons_succ] at hf
          exact i3 i f g x hf hg hx

open Classical in
/-- `RowDominates` on individuals as a Boolean relation. -/
noncomputable def indDom (fitness : List (Vec m)) (y x : Nat) : Bool := decide (IndDominates fitness y x)

theorem indDom_isDominance (fitness : List (Vec m)) : _root_.Spec.IsDominance (indDom fitness) where
  irrefl a := by
    simp only [indDom, decide_eq_false_iff_not]
    rintro ⟨f, g, hf, hg, -, i, hi⟩
    rw [hf] at hg; cases hg
    exact lt_irrefl _ hi
  trans a b c h1 h2 := by
    simp only [indDom, decide_eq_true_eq] at *
    obtain ⟨f, g, hf, hg, hle, i, hi⟩ := h1
    obtain ⟨g', h, hg', hh, hle', -⟩ := h2
    rw [hg] at hg'; cases hg'
    exact ⟨f, h, hf, hh, fun k => (hle k).trans (hle' k), i, hi.trans_le (hle' i)⟩

/-- Reference non-dominated sorting meets the contract assumed of `fast_non_dominated_sort` in C33 and C34, for every
fitness matrix. -/
theorem c34_sort_contract_satisfiable (fitness : List (Vec m)) :
    IsFrontSort (IndDominates fitness) fitness.length (peelFronts (indDom fitness) fitness.length (List.range fitness.length)) := by
  obtain ⟨h1, h2, h3⟩ := peelFronts_spec (indDom fitness) (indDom_isDominance fitness) fitness.length
    (List.range fitness.length) (by simp)
  refine ⟨h1, ?_, ?_⟩
  · intro i f x y hi hx hy hd
    exact h2 i f x y hi hx (by simpa using hy) (by simpa [indDom] using hd)
  · intro i f g x hf hg hx
    obtain ⟨y, hy, hd⟩ := h3 i f g x hf hg hx
    exact ⟨y, hy, by simpa [indDom] using hd⟩

/-- The hypotheses of C33 and C34 together, for a population of three with two survivors. -/
example (rnd : NicheRand) (hsh : ∀ t l, (rnd.shuffle t l).Perm l) : ∃ sel st',
    nsgaDo (fun f => peelFronts (indDom f) f.length (List.range f.length)) (fun _ => none) rnd [(![1, 0] : Vec 2), ![0, 1]]
      (nSurviveAttr none 2) ⟨![0, 0], none, none⟩ [![1, 2], ![2, 1], ![3, 3]] = (.ok sel, st') ∧ sel.length = 2 ∧ sel.Nodup := by
  obtain ⟨sel, st', h, h1, h2, -⟩ := c33_exactly_pop_size (fun f => peelFronts (indDom f) f.length (List.range f.length))
    (fun _ => none) rnd hsh [(![1, 0] : Vec 2), ![0, 1]] (by simp) 2 ⟨![0, 0], none, none⟩ [![1, 2], ![2, 1], ![3, 3]] (by simp)
    (c34_sort_contract_satisfiable _) (by simp)
  exact ⟨sel, st', h, h1, h2⟩

/-- A permutation-valued shuffle exists (any list reversal, say). -/
example : ∀ (t : Nat) (l : List Nat), ((⟨fun t => t, fun _ l => l.reverse⟩ : NicheRand).shuffle t l).Perm l :=
  fun _ l => l.reverse_perm

/-! ## C35 -/

/-- C35, the loop: `niching` asked for at most as many as there are members of the front succeeds for all random
outcomes; every member chosen is chosen by a fair step, and the final niche counts are the initial ones plus the
chosen members of each niche. -/
theorem c35_niching_is_fair {K : Type} [LinearOrder K] (rnd : NicheRand) (hsh : ∀ t l, (rnd.shuffle t l).Perm l)
    (niche : List Nat) (dist : List K) (count : List Nat) (n : Nat) (hd : dist.length = niche.length)
    (hniche : ∀ c ∈ niche, c < count.length) (hn : n ≤ niche.length) :
    ∃ js c', niching rnd niche dist n 0 (List.replicate niche.length true) count = .ok (js, c') ∧ js.length = n ∧ js.Nodup ∧
      (∀ (i j : Nat), js[i]? = some j → FairStep niche dist (fun c => count.getD c 0) (js.take i) j) ∧
      c'.length = count.length ∧ ∀ c, c < count.length → c'.getD c 0 = count.getD c 0 + occupants niche js c := by
  obtain ⟨js, c', h1, h2, h3, h4, h5⟩ := niching_spec rnd hsh niche dist (fun c => count.getD c 0) hd n 0
    (List.replicate niche.length true) count [] (by simp) (by intro k hk; simp [hk]) hniche
    (by intro c _; simp [occupants]) (by simpa [avail] using hn)
  exact ⟨js, c', h1, h2, (fairRun_nodup _ _ _ _ _ h3).1, by simpa using h3, h4, by simpa using h5⟩

/-- Two in niche 0 already, none in niche 1: the member of niche 1 goes first, then the others. -/
example : niching (K := Nat) ⟨fun t => t, fun _ l => l⟩ [0, 1, 0] [5, 6, 4] 2 0 [true, true, true] [2, 0] = .ok ([1, 0], [3, 1]) := by
  decide +kernel

/-- C35: the niche counts used at the start are the numbers of individuals per niche. -/
theorem c35_initial_counts (n c : Nat) (niche : List Nat) (hc : c < n) :
    (nicheCount n niche).length = n ∧ (nicheCount n niche).getD c 0 = occupants niche (List.range niche.length) c := by
  refine ⟨by simp [nicheCount], ?_⟩
  have : (nicheCount n niche).getD c 0 = niche.count c := by simp [nicheCount, hc]
  rw [this]
  clear this
  unfold occupants
  induction niche using List.reverseRecOn with
  | nil => simp
  | append_singleton l a ih =>
    rw [List.count_append, ih]
    simp only [List.length_append, List.length_singleton, List.range_succ, List.filter_append, List.count_singleton]
    congr 1
    · congr 1
      refine List.filter_congr (fun j hj => ?_)
      rw [List.getElem?_append_left (by simpa using hj)]
    · by_cases h : a = c <;> simp [h]

/-- C35: the distance used is the distance of the point to the line through the origin in the given direction: it is
attained on the line and no point of the line is nearer. -/
theorem c35_perpendicular_distance (v u : Vec m) (hu : u ≠ 0) :
    (∃ t : ℝ, perpDist v u = dist2 v (fun i => t * u i)) ∧ ∀ t : ℝ, perpDist v u ≤ dist2 v (fun i => t * u i) := by
  have hn : norm2 u ≠ 0 := fun h => hu ((norm2_eq_zero u).1 h)
  have hsq : norm2 u ^ 2 = ∑ i, u i ^ 2 := by
    unfold norm2; exact Real.sq_sqrt (Finset.sum_nonneg (fun i _ => sq_nonneg _))
  set s : ℝ := (∑ k, v k * u k) / norm2 u ^ 2 with hs
  have hp : perpDist v u = dist2 v (fun i => s * u i) := by
    unfold perpDist dist2
    rw [← norm2_eq_len]
    unfold norm2
    congr 1
    refine Finset.sum_congr rfl (fun i _ => ?_)
    have : (∑ k, v k * u k) / norm2 u * u i / norm2 u = s * u i := by rw [hs]; field_simp
    unfold norm2 at this
    beta_reduce
    rw [this]; ring
  refine ⟨⟨s, hp⟩, fun t => ?_⟩
  rw [hp]
  unfold dist2
  rw [← norm2_eq_len, ← norm2_eq_len]
  refine Real.sqrt_le_sqrt ?_
  have hexp : ∀ t : ℝ, (∑ i, (v i - t * u i) ^ 2) = (∑ i, v i ^ 2) - 2 * t * (∑ i, v i * u i) + t ^ 2 * ∑ i, u i ^ 2 := by
    intro t
    rw [Finset.mul_sum, Finset.mul_sum, ← Finset.sum_sub_distrib, ← Finset.sum_add_distrib]
    refine Finset.sum_congr rfl (fun i _ => by ring)
  have hA : (∑ k, v k * u k) = s * norm2 u ^ 2 := by rw [hs]; field_simp
  rw [hexp, hexp, hA, ← hsq]
  nlinarith [mul_nonneg (sq_nonneg (t - s)) (sq_nonneg (norm2 u))]

example : (![1, 0] : Vec 2) ≠ 0 := by
  intro h; have := congrFun h 0; simp at this

/-- Direction number `c` is the first one whose line is nearest to the point `p`. -/
def IsNiche (refDirs : List (Vec m)) (p : Vec m) (c : Nat) : Prop :=
  ∃ u, refDirs[c]? = some u ∧ (∀ (k : Nat) (w : Vec m), refDirs[k]? = some w → perpDist p u ≤ perpDist p w) ∧
    ∀ (k : Nat) (w : Vec m), k < c → refDirs[k]? = some w → perpDist p u < perpDist p w

/-- `x` is a fair choice from the front `last` after `prior` have been selected: its niche has the fewest selected
members among the niches of the members of `last` still to be had, and if it has none, `x` is nearest to the direction
among these of the same niche. -/
def FairChoice (niche : Nat → Nat) (dist : Nat → ℝ) (last prior : List Nat) (x : Nat) : Prop :=
  x ∈ last ∧ x ∉ prior ∧ ∀ y ∈ last, y ∉ prior →
    prior.countP (fun j => niche j == niche x) ≤ prior.countP (fun j => niche j == niche y) ∧
    (prior.countP (fun j => niche j == niche x) = 0 → niche y = niche x → dist x ≤ dist y)

theorem lastFrontChoice_fair (rnd : NicheRand) (hsh : ∀ t l, (rnd.shuffle t l).Perm l) (refDirs : List (Vec m))
    (hr : refDirs ≠ []) (ideal nadir : Vec m) (n : Nat) (fitness : List (Vec m)) (fronts : List (List Nat)) (i : Nat)
    (last : List Nat) (hl : fronts[i]? = some last) (hnd : ((fronts.take (i + 1)).flatten).Nodup)
    (hn : ((fronts.take i).flatten).length ≤ n) (hn2 : n ≤ ((fronts.take (i + 1)).flatten).length) (sel : List Nat)
    (h : lastFrontChoice rnd refDirs ideal nadir n fitness (fronts.take (i + 1)) = .ok sel) :
    ∃ (niche : Nat → Nat) (dist : Nat → ℝ),
      (∀ (j : Nat) (f : Vec m), j ∈ (fronts.take (i + 1)).flatten → fitness[j]? = some f →
        IsNiche refDirs (nicheNormal ideal nadir f) (niche j) ∧
        ∀ u, refDirs[niche j]? = some u → dist j = perpDist (nicheNormal ideal nadir f) u) ∧
      (∀ (q x : Nat), ((fronts.take i).flatten).length ≤ q → sel[q]? = some x → FairChoice niche dist last (sel.take q) x) := by
  obtain ⟨g1, g2⟩ := getLastD_take fronts i last hl
  have hflat : (fronts.take (i + 1)).flatten = (fronts.take i).flatten ++ last := by
    obtain ⟨hi, he⟩ := List.getElem?_eq_some_iff.1 hl
    rw [List.take_succ_eq_append_getElem hi, he]
    simp
  unfold lastFrontChoice at h
  simp only [g1, g2, hflat] at h
  obtain ⟨nd, hndd⟩ := associate_total refDirs ideal nadir
    (((fronts.take i).flatten ++ last).map (fun j => fitness.getD j 0)) hr
  obtain ⟨hlen, hspec⟩ := associate_spec _ _ _ _ _ hndd
  simp only [hndd] at h
  simp only [List.length_map, List.length_append] at hlen
  rw [hflat] at hnd hn2 ⊢
  rw [List.length_append] at hn2
  generalize (fronts.take i).flatten = before at *
  have hniche : ∀ p ∈ nd, p.1 < refDirs.length := by
    intro p hp
    obtain ⟨k, hk⟩ := List.mem_iff_getElem?.1 hp
    have hkl : k < nd.length := (List.getElem?_eq_some_iff.1 hk).1
    obtain ⟨u, hu, -⟩ := hspec k _ p (List.getElem?_eq_getElem (by simpa [← hlen] using hkl)) hk
    exact (List.getElem?_eq_some_iff.1 hu).1
  obtain ⟨js, c', e1, e2, e3, -, -⟩ := niching_spec rnd hsh ((nd.drop before.length).map (fun p => p.1))
    ((nd.drop before.length).map (fun p => p.2)) (fun c => (((nd.take before.length).map (fun p => p.1)).count c)) (by simp)
    (n - before.length) 0 (List.replicate last.length true)
    (nicheCount refDirs.length ((nd.take before.length).map (fun p => p.1))) [] (by simp [hlen])
    (by
      intro k hk
      simp only [List.length_map, List.length_drop, hlen] at hk
      simp [List.getElem?_replicate]; omega)
    (by
      intro c hc
      obtain ⟨p, hp, rfl⟩ := List.mem_map.1 hc
      simpa [nicheCount] using hniche p (List.mem_of_mem_drop hp))
    (by
      intro c hc
      simp only [nicheCount, List.length_map, List.length_range] at hc
      simp [nicheCount, hc, occupants])
    (by simp [avail]; omega)
  simp only [e1, Except.ok.injEq] at h
  simp only [List.nil_append] at e3
  obtain ⟨hjn, hjl⟩ := fairRun_nodup _ _ _ [] js (by simpa using e3)
  simp only [List.length_map, List.length_drop, hlen, Nat.add_sub_cancel_left] at hjl
  have hmap : js.filterMap (fun j => last[j]?) = js.map (fun j => last.getD j 0) := by
    rw [← List.filterMap_eq_map]
    refine List.filterMap_congr (fun j hj => ?_)
    simp [hjl j hj]
  rw [hmap] at h
  obtain ⟨nb, nl, ndis⟩ := List.nodup_append.1 hnd
  -- niche and distance of an individual, by its position in the selection
  let pos : Nat → Nat := fun j => (before ++ last).idxOf j
  let entry : Nat → Nat × ℝ := fun j => nd.getD (pos j) (0, 0)
  have hpos : ∀ j ∈ before ++ last, (before ++ last)[pos j]? = some j ∧ pos j < nd.length := by
    intro j hj
    have hlt : pos j < (before ++ last).length := List.idxOf_lt_length_of_mem hj
    refine ⟨?_, by rw [hlen]; simpa using hlt⟩
    rw [List.getElem?_eq_getElem hlt]
    simp [pos]
  have hposlast : ∀ (p y : Nat), last[p]? = some y → pos y = before.length + p := by
    intro p y hp
    have hy : y ∈ before ++ last := List.mem_append_right _ (List.mem_of_getElem? hp)
    obtain ⟨h1, -⟩ := hpos y hy
    obtain ⟨hl1, he1⟩ := List.getElem?_eq_some_iff.1 h1
    have h2 : (before ++ last)[before.length + p]? = some y := by
      rw [List.getElem?_append_right (by omega)]; simpa using hp
    obtain ⟨hl2, he2⟩ := List.getElem?_eq_some_iff.1 h2
    exact (List.Nodup.getElem_inj_iff hnd).1 (he1.trans he2.symm)
  have hposbefore : ∀ (p y : Nat), before[p]? = some y → pos y = p := by
    intro p y hp
    have hy : y ∈ before ++ last := List.mem_append_left _ (List.mem_of_getElem? hp)
    obtain ⟨h1, -⟩ := hpos y hy
    obtain ⟨hl1, he1⟩ := List.getElem?_eq_some_iff.1 h1
    have h2 : (before ++ last)[p]? = some y := by
      rw [List.getElem?_append_left (List.getElem?_eq_some_iff.1 hp).1]; exact hp
    obtain ⟨hl2, he2⟩ := List.getElem?_eq_some_iff.1 h2
    exact (List.Nodup.getElem_inj_iff hnd).1 (he1.trans he2.symm)
  have hnl : ∀ (p y : Nat), last[p]? = some y →
      ((nd.drop before.length).map (fun p => p.1))[p]? = some (entry y).1 ∧
      ((nd.drop before.length).map (fun p => p.2))[p]? = some (entry y).2 := by
    intro p y hp
    have hpl : before.length + p < nd.length := by
      rw [hlen]; have := (List.getElem?_eq_some_iff.1 hp).1; omega
    have : nd[before.length + p]? = some (entry y) := by
      simp [entry, hposlast p y hp, hpl]
    simp [List.getElem?_map, List.getElem?_drop, this]
  have hinit : ∀ c, ((nd.take before.length).map (fun p => p.1)).count c = before.countP (fun j => (entry j).1 == c) := by
    intro c
    have : (nd.take before.length).map (fun p => p.1) = before.map (fun j => (entry j).1) := by
      apply List.ext_getElem?
      intro k
      rw [List.getElem?_map, List.getElem?_map, List.getElem?_take]
      by_cases hk : k < before.length
      · obtain ⟨y, hy⟩ : ∃ y, before[k]? = some y := ⟨_, List.getElem?_eq_getElem hk⟩
        have hkl : k < nd.length := by rw [hlen]; omega
        rw [hy, if_pos hk]
        simp [entry, hposbefore k y hy, hkl]
      · rw [if_neg hk, List.getElem?_eq_none (by omega)]
        rfl
    rw [this, List.count, List.countP_map]
    rfl
  have hocc : ∀ (l : List Nat), (∀ j ∈ l, j < last.length) → ∀ c,
      occupants ((nd.drop before.length).map (fun p => p.1)) l c =
        (l.map (fun j => last.getD j 0)).countP (fun j => (entry j).1 == c) := by
    intro l hl c
    unfold occupants
    rw [List.countP_map, List.countP_eq_length_filter]
    congr 1
    refine List.filter_congr (fun j hj => ?_)
    have hj' := hl j hj
    have := (hnl j last[j] (List.getElem?_eq_getElem hj')).1
    rw [this]
    simp [hj']
  refine ⟨fun j => (entry j).1, fun j => (entry j).2, ?_, ?_⟩
  · intro j f hj hf
    obtain ⟨h1, h2⟩ := hpos j hj
    have hfd : ((before ++ last).map (fun j => fitness.getD j 0))[pos j]? = some f := by
      rw [List.getElem?_map, h1]
      simp [hf]
    have hnde : nd[pos j]? = some (entry j) := by simp [entry, h2]
    obtain ⟨u, hu1, hu2, hu3, hu4⟩ := hspec (pos j) f (entry j) hfd hnde
    refine ⟨⟨u, hu1, hu3, hu4⟩, fun w hw => ?_⟩
    rw [hu1] at hw; cases hw
    exact hu2
  · intro q x hq hx
    rw [← h] at hx ⊢
    rw [List.getElem?_append_right hq, List.getElem?_map] at hx
    obtain ⟨p, hp, hpx⟩ := Option.map_eq_some_iff.1 hx
    have hpl := hjl p (List.mem_of_getElem? hp)
    have hlp : last[p]? = some x := by
      rw [List.getElem?_eq_getElem hpl]
      simp [List.getD_eq_getElem?_getD, List.getElem?_eq_getElem hpl] at hpx
      rw [hpx]
    have hfair := e3 _ p hp
    have htake : (before ++ js.map (fun j => last.getD j 0)).take q =
        before ++ (js.take (q - before.length)).map (fun j => last.getD j 0) := by
      rw [List.take_append, List.take_of_length_le hq, List.map_take]
    rw [htake]
    have hprior : ∀ (k y : Nat), last[k]? = some y →
        (y ∉ before ++ (js.take (q - before.length)).map (fun j => last.getD j 0) ↔ k ∉ js.take (q - before.length)) := by
      intro k y hky
      have hyb : y ∉ before := fun hyb => ndis y hyb y (List.mem_of_getElem? hky) rfl
      rw [List.mem_append, not_or]
      constructor
      · rintro ⟨-, h2⟩ hk
        refine h2 (List.mem_map.2 ⟨k, hk, ?_⟩)
        rw [List.getD_eq_getElem?_getD, hky]; rfl
      · intro hk
        refine ⟨hyb, fun hmem => ?_⟩
        obtain ⟨k', hk', he⟩ := List.mem_map.1 hmem
        have hk'l := hjl k' (List.mem_of_mem_take hk')
        obtain ⟨hkl, hke⟩ := List.getElem?_eq_some_iff.1 hky
        rw [List.getD_eq_getElem?_getD, List.getElem?_eq_getElem hk'l, Option.getD_some] at he
        have : k' = k := (List.Nodup.getElem_inj_iff nl).1 (he.trans hke.symm)
        exact hk (this ▸ hk')
    have hcnt : ∀ c, List.countP (fun j => (entry j).1 == c)
        (before ++ (js.take (q - before.length)).map (fun j => last.getD j 0)) =
        ((nd.take before.length).map (fun p => p.1)).count c +
          occupants ((nd.drop before.length).map (fun p => p.1)) (js.take (q - before.length)) c := by
      intro c
      rw [List.countP_append, hinit c, hocc _ (fun j hj => hjl j (List.mem_of_mem_take hj))]
    refine ⟨List.mem_of_getElem? hlp, (hprior p x hlp).2 hfair.fresh.2, ?_⟩
    intro y hy hyp
    obtain ⟨k, hk⟩ := List.mem_iff_getElem?.1 hy
    have hkp := (hprior k y hk).1 hyp
    obtain ⟨a1, a2⟩ := hnl p x hlp
    obtain ⟨b1, b2⟩ := hnl k y hk
    refine ⟨?_, ?_⟩
    · rw [hcnt, hcnt]
      exact hfair.least k _ _ hkp a1 b1
    · intro h0 hsame
      rw [hcnt] at h0
      have b1' : ((nd.drop before.length).map (fun p => p.1))[k]? = some (entry x).1 := by rw [b1]; exact congrArg some hsame
      exact hfair.closest k _ _ _ hkp a1 b1' h0 a2 b2

/-- C35 for the operator.  When the accepted fronts overflow `pop_size`, then, with niches and distances taken from the reference
directions after normalisation by the ideal left behind and the nadir point of this call (which C54 describes), every individual
taken from the last front is a fair choice given everything selected before it. -/
theorem c35_selection_from_last_front_is_fair (sort : List (Vec m) → List (List Nat)) (solve : List (Vec m) → Option (Vec m))
    (rnd : NicheRand) (hsh : ∀ t l, (rnd.shuffle t l).Perm l) (refDirs : List (Vec m)) (hr : refDirs ≠ []) (n : Nat)
    (st st' : Nsga m) (fitness : List (Vec m)) (hs : IsFrontSort (IndDominates fitness) fitness.length (sort fitness))
    (i : Nat) (last : List Nat) (hl : (sort fitness)[i]? = some last) (hb : (((sort fitness).take i).flatten).length < n)
    (ho : n < (((sort fitness).take (i + 1)).flatten).length) (sel : List Nat)
    (hsel : nsgaDo sort solve rnd refDirs (nSurviveAttr none n) st fitness = (.ok sel, st')) :
    ∃ (nadir : Vec m) (niche : Nat → Nat) (dist : Nat → ℝ), nsgaPoints solve st fitness ((sort fitness).headD []) = (.ok nadir, st') ∧
      (∀ (j : Nat) (f : Vec m), j ∈ ((sort fitness).take (i + 1)).flatten → fitness[j]? = some f →
        IsNiche refDirs (nicheNormal st'.ideal nadir f) (niche j) ∧
        ∀ u, refDirs[niche j]? = some u → dist j = perpDist (nicheNormal st'.ideal nadir f) u) ∧
      (∀ (q x : Nat), (((sort fitness).take i).flatten).length ≤ q → sel[q]? = some x →
        FairChoice niche dist last (sel.take q) x) := by
  have hnodAll : (sort fitness).flatten.Nodup := hs.all.nodup_iff.2 List.nodup_range
  have hnod : (((sort fitness).take (i + 1)).flatten).Nodup := hnodAll.sublist (List.take_sublist _ _).flatten
  have hlen := hs.all.length_eq
  simp only [List.length_range] at hlen
  have hi := (List.getElem?_eq_some_iff.1 hl).1
  have hle : (((sort fitness).take (i + 1)).flatten).length ≤ ((sort fitness).flatten).length :=
    (List.take_sublist _ _).flatten.length_le
  have hpos : 0 < fitness.length := by omega
  have hf : fitness ≠ [] := List.length_pos_iff.1 hpos
  generalize hfr : sort fitness = fronts at *
  cases fronts with
  | nil => simp at hi
  | cons f0 rest =>
    have hne0 := first_front_nonempty hs hpos
    obtain ⟨fmin, h1⟩ := colMin_total fitness hf
    obtain ⟨fmax, h2⟩ := colMax_total fitness hf
    obtain ⟨wf, h3⟩ := colMax_total (f0.map (fun j => fitness.getD j 0)) (by simpa using hne0)
    obtain ⟨ext, h4⟩ := extremePoints_total (f0.map (fun j => fitness.getD j 0)) (nsgaExtremes st fmin fmax).ideal
      (nsgaExtremes st fmin fmax).extreme (by simpa using hne0)
    unfold nsgaDo nsgaPoints at hsel
    simp only [hfr, h1, h2, h3, h4, nSurviveAttr] at hsel
    cases hacc : acceptedFronts n (f0 :: rest) with
    | none =>
      have := acceptedFronts_none hacc (by simp)
      omega
    | some fs =>
      obtain ⟨k, hk, rfl, hle2, hearlier⟩ := acceptedFronts_some hacc
      have hmono : ∀ a b, a ≤ b → (((f0 :: rest).take a).flatten).length ≤ (((f0 :: rest).take b).flatten).length := by
        intro a b hab
        exact (List.take_sublist_take_left hab).flatten.length_le
      have hki : k = i := by
        rcases Nat.lt_trichotomy k i with h | h | h
        · have := hmono (k + 1) i h; omega
        · exact h
        · have := hearlier i h; omega
      subst hki
      rw [hacc] at hsel
      simp only [if_pos ho, Prod.mk.injEq] at hsel
      obtain ⟨e1, e2⟩ := hsel
      obtain ⟨niche, dist, a1, a2⟩ := lastFrontChoice_fair rnd hsh refDirs hr _ _ n fitness (f0 :: rest) k last hl hnod
        hb.le ho.le sel e1
      subst e2
      refine ⟨_, niche, dist, ?_, a1, a2⟩
      unfold nsgaPoints
      simp only [List.headD_cons, h1, h2, h3, h4]

/-- Three mutually non-dominated individuals and two places: the hypotheses of the previous theorem hold with `i = 0`. -/
example : IsFrontSort (IndDominates [(![1, 3] : Vec 2), ![2, 2], ![3, 1]]) 3 [[0, 1, 2]] ∧
    ((([[0, 1, 2]] : List (List Nat)).take 0).flatten).length < 2 ∧ 2 < ((([[0, 1, 2]] : List (List Nat)).take 1).flatten).length := by
  refine ⟨⟨List.Perm.refl _, ?_, ?_⟩, by decide, by decide⟩
  · intro i f x y hf hx hy hd
    exfalso
    obtain ⟨a, b, ha, hb, hle, k, hk⟩ := hd
    cases i with
    | succ i => simp at hf
    | zero =>
      simp only [List.getElem?_cons_zero, Option.some.injEq] at hf
      subst hf
      have h0 := hle 0
      have h1 := hle 1
      have hx' : x = 0 ∨ x = 1 ∨ x = 2 := by simpa using hx
      have hy' : y = 0 ∨ y = 1 ∨ y = 2 := by omega
      rcases hx' with rfl | rfl | rfl <;> rcases hy' with rfl | rfl | rfl <;>
        simp at ha hb <;> subst ha hb <;> first | exact lt_irrefl _ hk | (norm_num at h0; done) | (norm_num at h1; done)
  · intro i f g x hf hg
    cases i <;> simp at hg

/-! ## C36 -/

/-- One call of the selection operator with everything that may differ from call to call. -/
structure NsgaCall (m : Nat) where
  sort : List (Vec m) → List (List Nat)
  solve : List (Vec m) → Option (Vec m)
  rnd : NicheRand
  refDirs : List (Vec m)
  nSurvive : Option Nat
  fitness : List (Vec m)

/-- The state after a sequence of calls (exceptions are caught by the user, who goes on). -/
noncomputable def nsgaCalls (st : Nsga m) : List (NsgaCall m) → Nsga m
  | [] => st
  | c :: cs => nsgaCalls (nsgaDo c.sort c.solve c.rnd c.refDirs c.nSurvive st c.fitness).2 cs

theorem nsgaDo_state (c : NsgaCall m) (st : Nsga m) (f0 : List Nat) (rest : List (List Nat))
    (hs : c.sort c.fitness = f0 :: rest) :
    (nsgaDo c.sort c.solve c.rnd c.refDirs c.nSurvive st c.fitness).2 = (nsgaPoints c.solve st c.fitness f0).2 := by
  unfold nsgaDo
  simp only [hs]
  cases nsgaPoints c.solve st c.fitness f0 with
  | mk r st' =>
    cases r with
    | error e => rfl
    | ok nadir =>
      simp only
      split
      · rfl
      · split
        · rfl
        · split <;> rfl

theorem nsgaPoints_extremes (solve : List (Vec m) → Option (Vec m)) (st : Nsga m) (fitness : List (Vec m)) (f0 : List Nat)
    (fmin fmax : Vec m) (h1 : colMin fitness = .ok fmin) (h2 : colMax fitness = .ok fmax) :
    (nsgaPoints solve st fitness f0).2.ideal = (nsgaExtremes st fmin fmax).ideal ∧
    (nsgaPoints solve st fitness f0).2.worst = (nsgaExtremes st fmin fmax).worst := by
  unfold nsgaPoints
  simp only [h1, h2]
  split
  · exact ⟨rfl, rfl⟩
  · split <;> exact ⟨rfl, rfl⟩

theorem nsgaDo_extremes (c : NsgaCall m) (st : Nsga m) (hs : c.sort c.fitness ≠ []) (hf : c.fitness ≠ []) :
    ∃ fmin fmax, colMin c.fitness = .ok fmin ∧ colMax c.fitness = .ok fmax ∧
      (nsgaDo c.sort c.solve c.rnd c.refDirs c.nSurvive st c.fitness).2.ideal = (nsgaExtremes st fmin fmax).ideal ∧
      (nsgaDo c.sort c.solve c.rnd c.refDirs c.nSurvive st c.fitness).2.worst = (nsgaExtremes st fmin fmax).worst := by
  obtain ⟨fmin, h1⟩ := colMin_total c.fitness hf
  obtain ⟨fmax, h2⟩ := colMax_total c.fitness hf
  cases hc : c.sort c.fitness with
  | nil => exact absurd hc hs
  | cons f0 rest =>
    rw [nsgaDo_state c st f0 rest hc]
    exact ⟨fmin, fmax, h1, h2, nsgaPoints_extremes c.solve st c.fitness f0 fmin fmax h1 h2⟩

/-- C36. After any sequence of selections (successful or not) on nonempty populations, the ideal point is
component-wise the least value of the initial ideal and of all fitness rows seen, and, once there was a selection, the
worst point the greatest value of all fitness rows seen. -/
theorem c36_running_extremes (ideal0 : Vec m) (calls : List (NsgaCall m))
    (h : ∀ c ∈ calls, c.sort c.fitness ≠ [] ∧ c.fitness ≠ []) (j : Fin m) :
    IsColMin (ideal0 :: calls.flatMap (fun c => c.fitness)) j ((nsgaCalls ⟨ideal0, none, none⟩ calls).ideal j) ∧
    (calls ≠ [] → ∃ w, (nsgaCalls ⟨ideal0, none, none⟩ calls).worst = some w ∧
      IsColMax (calls.flatMap (fun c => c.fitness)) j (w j)) := by
  have main : ∀ (calls : List (NsgaCall m)) (st : Nsga m) (seen : List (Vec m)),
      (∀ c ∈ calls, c.sort c.fitness ≠ [] ∧ c.fitness ≠ []) → IsColMin (ideal0 :: seen) j (st.ideal j) →
      (st.worst = none ∧ seen = [] ∨ ∃ w, st.worst = some w ∧ IsColMax seen j (w j)) →
      IsColMin (ideal0 :: (seen ++ calls.flatMap (fun c => c.fitness))) j ((nsgaCalls st calls).ideal j) ∧
      ((nsgaCalls st calls).worst = none ∧ seen ++ calls.flatMap (fun c => c.fitness) = [] ∨
        ∃ w, (nsgaCalls st calls).worst = some w ∧ IsColMax (seen ++ calls.flatMap (fun c => c.fitness)) j (w j)) := by
    intro calls
    induction calls with
    | nil => intro st seen _ h1 h2; simpa [nsgaCalls] using ⟨h1, h2⟩
    | cons c cs ih =>
      intro st seen hall h1 h2
      obtain ⟨hc1, hc2⟩ := hall c (by simp)
      obtain ⟨fmin, fmax, e1, e2, e3, e4⟩ := nsgaDo_extremes c st hc1 hc2
      have hmin := colMin_spec c.fitness fmin e1 j
      have hmax := colMax_spec c.fitness fmax e2 j
      have := ih (nsgaDo c.sort c.solve c.rnd c.refDirs c.nSurvive st c.fitness).2 (seen ++ c.fitness)
        (fun x hx => hall x (by simp [hx])) (by
          rw [e3]
          simp only [nsgaExtremes]
          obtain ⟨⟨r, hr, hre⟩, hle⟩ := h1
          obtain ⟨⟨q, hq, hqe⟩, hle'⟩ := hmin
          refine ⟨?_, ?_⟩
          · rcases min_choice (st.ideal j) (fmin j) with h | h
            · exact ⟨r, by rcases List.mem_cons.1 hr with h | h <;> simp [h], by rw [h, hre]⟩
            · exact ⟨q, by simp [hq], by rw [h, hqe]⟩
          · intro y hy
            rw [← List.cons_append] at hy
            rcases List.mem_append.1 hy with hy | hy
            · exact le_trans (min_le_left _ _) (hle y hy)
            · exact le_trans (min_le_right _ _) (hle' y hy))
        (Or.inr (by
          rw [e4]
          refine ⟨_, rfl, ?_⟩
          rcases h2 with ⟨hw, hseen⟩ | ⟨w, hw, ⟨r, hr, hre⟩, hle⟩
          · subst hseen
            simpa [newWorst, hw] using hmax
          · obtain ⟨⟨q, hq, hqe⟩, hle'⟩ := hmax
            simp only [newWorst, hw]
            refine ⟨?_, ?_⟩
            · rcases max_choice (w j) (fmax j) with h | h
              · exact ⟨r, by simp [hr], by rw [h, hre]⟩
              · exact ⟨q, by simp [hq], by rw [h, hqe]⟩
            · intro y hy
              rcases List.mem_append.1 hy with hy | hy
              · exact le_trans (hle y hy) (le_max_left _ _)
              · exact le_trans (hle' y hy) (le_max_right _ _)))
      simpa [nsgaCalls, List.append_assoc] using this
  obtain ⟨r1, r2⟩ := main calls ⟨ideal0, none, none⟩ [] h ⟨⟨ideal0, by simp, rfl⟩, by simp⟩ (Or.inl ⟨rfl, rfl⟩)
  refine ⟨by simpa using r1, fun hne => ?_⟩
  rcases r2 with ⟨-, hnil⟩ | hw
  · exfalso
    cases calls with
    | nil => exact hne rfl
    | cons c cs =>
      simp only [List.nil_append, List.flatMap_cons, List.append_eq_nil_iff] at hnil
      exact (h c (by simp)).2 hnil.1
  · simpa using hw

/-- Two calls meeting the hypotheses. -/
example : ∀ c ∈ ([⟨fun f => [List.range f.length], fun _ => none, ⟨id, fun _ l => l⟩, [], none, [![1, 2]]⟩,
    ⟨fun f => [List.range f.length], fun _ => none, ⟨id, fun _ l => l⟩, [], some 1, [![0, 3], ![5, 5]]⟩] : List (NsgaCall 2)),
    c.sort c.fitness ≠ [] ∧ c.fitness ≠ [] := by
  intro c hc
  simp only [List.mem_cons, List.not_mem_nil, or_false] at hc
  rcases hc with rfl | rfl <;> simp

/-! ## C54: normalisation -/

theorem foldl_max_le {x : ℝ} {xs : List ℝ} {b : ℝ} : xs.foldl max x ≤ b ↔ x ≤ b ∧ ∀ y ∈ xs, y ≤ b := by
  induction xs generalizing x with
  | nil => simp
  | cons y ys ih => simp only [List.foldl_cons, ih, max_le_iff, List.mem_cons, forall_eq_or_imp]; tauto

/-- `rowMax` is the greatest entry. -/
theorem rowMax_le (v : Vec m) (hm : 0 < m) (b : ℝ) : rowMax v ≤ b ↔ ∀ i, v i ≤ b := by
  unfold rowMax
  cases h : List.ofFn v with
  | nil => have := congrArg List.length h; simp at this; omega
  | cons x xs =>
    simp only
    rw [foldl_max_le]
    have : (x ≤ b ∧ ∀ y ∈ xs, y ≤ b) ↔ ∀ y ∈ List.ofFn v, y ≤ b := by rw [h]; simp
    rw [this]
    simp [List.mem_ofFn]

theorem nadirPoint_bounds (solve : List (Vec m) → Option (Vec m)) (ext : List (Vec m)) (ideal worst wof wop : Vec m)
    (h1 : ∀ i, ideal i ≤ wop i) (h2 : ∀ i, wop i ≤ worst i) (h3 : ∀ i, wof i ≤ worst i) (i : Fin m) :
    ideal i ≤ nadirPoint solve ext ideal worst wof wop i ∧ nadirPoint solve ext ideal worst wof wop i ≤ worst i ∧
    (nadirPoint solve ext ideal worst wof wop i - ideal i ≤ 1 / 10 ^ 6 → nadirPoint solve ext ideal worst wof wop i = wop i) := by
  have key : ∀ nad : Vec m, (∀ i, nad i ≤ worst i) →
      ideal i ≤ (if nad i - ideal i ≤ 1 / 10 ^ 6 then wop i else nad i) ∧
      (if nad i - ideal i ≤ 1 / 10 ^ 6 then wop i else nad i) ≤ worst i ∧
      ((if nad i - ideal i ≤ 1 / 10 ^ 6 then wop i else nad i) - ideal i ≤ 1 / 10 ^ 6 →
        (if nad i - ideal i ≤ 1 / 10 ^ 6 then wop i else nad i) = wop i) := by
    intro nad hn
    split
    · exact ⟨h1 i, h2 i, fun _ => rfl⟩
    · rename_i h
      push Not at h
      refine ⟨?_, hn i, fun h' => absurd h' (not_le.2 h)⟩
      have : (0 : ℝ) < 1 / 10 ^ 6 := by positivity
      linarith
  unfold nadirPoint
  cases solve (ext.map (fun e i => e i - ideal i)) with
  | none => exact key wof h3
  | some plane =>
    simp only
    by_cases hc : planeClose ext ideal plane ∧ (∀ i, ¬ 1 / plane i ≤ 1 / 10 ^ 6) ∧ ∀ i, ideal i + 1 / plane i ≤ worst i
    · rw [if_pos hc]
      exact key (fun i => ideal i + 1 / plane i) hc.2.2
    · rw [if_neg hc]
      exact key wof h3

/-- C54. In every selection, whatever the linear solver returns, the nadir point used for normalisation lies between the
ideal point left behind and the worst point left behind; it is within 1e-6 of the ideal only where the worst value of the
first front is; and every individual's normalised fitness is nonnegative. -/
theorem c54_nadir_between_ideal_and_worst (solve : List (Vec m) → Option (Vec m)) (st st' : Nsga m) (fitness : List (Vec m))
    (f0 : List Nat) (hr : ∀ j ∈ f0, j < fitness.length) (nadir : Vec m)
    (h : nsgaPoints solve st fitness f0 = (.ok nadir, st')) :
    ∃ (worst wfront : Vec m), st'.worst = some worst ∧ (∀ i, IsColMax (f0.map (fun j => fitness.getD j 0)) i (wfront i)) ∧
      (∀ i, st'.ideal i ≤ nadir i ∧ nadir i ≤ worst i ∧ (nadir i - st'.ideal i ≤ 1 / 10 ^ 6 → nadir i = wfront i)) ∧
      ∀ f ∈ fitness, ∀ i, 0 ≤ nicheNormal st'.ideal nadir f i := by
  unfold nsgaPoints at h
  cases h1 : colMin fitness with
  | error e => simp [h1] at h
  | ok fmin =>
    cases h2 : colMax fitness with
    | error e => simp [h1, h2] at h
    | ok fmax =>
      simp only [h1, h2] at h
      cases h3 : colMax (f0.map (fun j => fitness.getD j 0)) with
      | error e => simp only [h3] at h; cases h
      | ok wf =>
        simp only [h3] at h
        split at h
        · simp at h
        · rename_i ext he
          simp only [Prod.mk.injEq, Except.ok.injEq] at h
          obtain ⟨hnad, hst⟩ := h
          have hid : ∀ i, ∀ f ∈ fitness, (nsgaExtremes st fmin fmax).ideal i ≤ f i := by
            intro i f hf
            have := (colMin_spec fitness fmin h1 i).2 f hf
            exact le_trans (min_le_right _ _) this
          have hfr : ∀ f ∈ f0.map (fun j => fitness.getD j 0), f ∈ fitness := by
            intro f hf
            obtain ⟨j, hj, rfl⟩ := List.mem_map.1 hf
            have := hr j hj
            rw [List.getD_eq_getElem?_getD, List.getElem?_eq_getElem this]
            exact List.getElem_mem _
          have hw : ∀ i, fmax i ≤ newWorst st.worst fmax i := by
            intro i
            cases hst2 : st.worst with
            | none => simp [newWorst]
            | some w => simp [newWorst]
          have hwf : ∀ i, wf i ≤ fmax i := by
            intro i
            obtain ⟨⟨r, hr1, hr2⟩, -⟩ := colMax_spec _ wf h3 i
            rw [← hr2]
            exact (colMax_spec fitness fmax h2 i).2 r (hfr r hr1)
          have hidwf : ∀ i, (nsgaExtremes st fmin fmax).ideal i ≤ wf i := by
            intro i
            obtain ⟨⟨r, hr1, hr2⟩, -⟩ := colMax_spec _ wf h3 i
            rw [← hr2]
            exact hid i r (hfr r hr1)
          have hb := fun i => nadirPoint_bounds solve ext (nsgaExtremes st fmin fmax).ideal (newWorst st.worst fmax) fmax wf
            hidwf (fun i => (hwf i).trans (hw i)) hw i
          subst hst
          refine ⟨newWorst st.worst fmax, wf, rfl, fun i => colMax_spec _ wf h3 i, ?_, ?_⟩
          · intro i; rw [← hnad]; exact hb i
          · intro f hf i
            have h0 := hid i f hf
            have h1' := (hb i).1
            rw [hnad] at h1'
            unfold nicheNormal
            refine div_nonneg (by simpa using sub_nonneg.2 h0) ?_
            split
            · positivity
            · simpa using sub_nonneg.2 h1'

/-- C54 (deviation): when the linear system has no solution, the nadir point is taken from the worst values of the
whole population, not of the first front as the parameter names and the pymoo original say: in every component where
that is more than 1e-6 above the ideal. -/
theorem c54_fallback_is_worst_of_population (solve : List (Vec m) → Option (Vec m)) (st st' : Nsga m) (fitness : List (Vec m))
    (f0 : List Nat) (nadir fmax : Vec m) (hns : ∀ M, solve M = none) (h2 : colMax fitness = .ok fmax)
    (h : nsgaPoints solve st fitness f0 = (.ok nadir, st')) (i : Fin m) (hi : 1 / 10 ^ 6 < fmax i - st'.ideal i) :
    nadir i = fmax i := by
  unfold nsgaPoints at h
  cases h1 : colMin fitness with
  | error e => simp [h1] at h
  | ok fmin =>
    simp only [h1, h2] at h
    split at h
    · simp at h
    · split at h
      · simp at h
      · simp only [Prod.mk.injEq, Except.ok.injEq] at h
        obtain ⟨hnad, hst⟩ := h
        subst hst
        rw [← hnad]
        simp only [nadirPoint, hns]
        exact if_neg (not_le.2 hi)

theorem mapM_except_ok {α β : Type} (f : α → Except Err β) (l : List α) (bs : List β) (h : l.mapM f = .ok bs) :
    bs.length = l.length ∧ ∀ (i : Nat) (a : α) (b : β), l[i]? = some a → bs[i]? = some b → f a = .ok b := by
  induction l generalizing bs with
  | nil => simp [List.mapM_nil, pure, Except.pure] at h; subst h; simp
  | cons a l ih =>
    rw [List.mapM_cons] at h
    cases hfa : f a with
    | error e => rw [hfa] at h; cases h
    | ok b =>
      rw [hfa] at h
      cases hl : l.mapM f with
      | error e => rw [hl] at h; cases h
      | ok cs =>
        rw [hl] at h
        have : bs = b :: cs := by cases h; rfl
        subst this
        obtain ⟨h1, h2⟩ := ih cs hl
        refine ⟨by simp [h1], ?_⟩
        intro i x y hx hy
        cases i with
        | zero => simp at hx hy; subst hx hy; exact hfa
        | succ i => exact h2 i x y (by simpa using hx) (by simpa using hy)

/-- Weighted Chebyshev value used to pick the extreme point of axis `k`: deviations from the ideal below 1e-3 count as 0,
axis `k` has weight 1 and the others 1e6. -/
def ChebyshevLe (ideal : Vec m) (k : Fin m) (f : Vec m) (b : ℝ) : Prop :=
  ∀ i, (if f i - ideal i < 1 / 10 ^ 3 then 0 else f i - ideal i) * (if k = i then 1 else 10 ^ 6) ≤ b

/-- C54: the extreme points are one fitness row per objective, each taken from the old extreme points or from the first
front, and with the least weighted Chebyshev value among these. -/
theorem c54_extreme_points (hm : 0 < m) (front : List (Vec m)) (ideal : Vec m) (old : Option (List (Vec m))) (ext : List (Vec m))
    (h : extremePoints front ideal old = .ok ext) :
    ext.length = m ∧ ∀ (k : Fin m) (e : Vec m), ext[k.1]? = some e →
      (e ∈ front ∨ ∃ o, old = some o ∧ e ∈ o) ∧
      ∀ f, (f ∈ front ∨ ∃ o, old = some o ∧ f ∈ o) → ∀ b, ChebyshevLe ideal k f b → ChebyshevLe ideal k e b := by
  obtain ⟨h1, h2⟩ := mapM_except_ok _ _ _ h
  have hpool : ∀ f, f ∈ extremePool front old ↔ (f ∈ front ∨ ∃ o, old = some o ∧ f ∈ o) := by
    intro f
    cases old with
    | none => simp [extremePool]
    | some o => simp [extremePool, or_comm]
  refine ⟨by simpa using h1, fun k e he => ?_⟩
  have hk : (List.finRange m)[k.1]? = some k := by simp
  have hrow := h2 k.1 k e hk he
  unfold extremeRow at hrow
  split at hrow
  · cases hrow
  · rename_i j hj
    split at hrow
    · cases hrow
    · rename_i r hr
      cases hrow
      refine ⟨(hpool _).1 (List.mem_of_getElem? hr), fun f hf b hfb => ?_⟩
      obtain ⟨q, hq⟩ := List.mem_iff_getElem?.1 ((hpool f).2 hf)
      obtain ⟨c, hc, hmin, -⟩ := argminL_spec _ _ hj
      rw [List.getElem?_map, hr] at hc
      simp only [Option.map_some, Option.some.injEq] at hc
      have hle := hmin q (asf ideal k f) (by rw [List.getElem?_map, hq]; rfl)
      rw [← hc] at hle
      have hb' : asf ideal k f ≤ b := (rowMax_le _ hm b).2 hfb
      exact (rowMax_le _ hm b).1 (hle.trans hb')

/-- C54: when the solver's answer solves the system for the extreme points, all intercepts are above 1e-6 and none exceeds the worst value seen, the
nadir point is where the hyperplane through all the extreme points left behind meets the axes: `Σ (e i - ideal i) / (nadir i - ideal i) = 1` for each of
them. -/
theorem c54_hyperplane (solve : List (Vec m) → Option (Vec m)) (st st' : Nsga m) (fitness : List (Vec m)) (f0 : List Nat) (nadir : Vec m)
    (h : nsgaPoints solve st fitness f0 = (.ok nadir, st')) :
    ∃ ext worst, st'.extreme = some ext ∧ st'.worst = some worst ∧
      extremePoints (f0.map (fun j => fitness.getD j 0)) st'.ideal st.extreme = .ok ext ∧
      ∀ plane, solve (ext.map (fun e i => e i - st'.ideal i)) = some plane → (∀ e ∈ ext, (∑ i, (e i - st'.ideal i) * plane i) = 1) →
        (∀ i, 1 / 10 ^ 6 < 1 / plane i ∧ st'.ideal i + 1 / plane i ≤ worst i) →
        (∀ i, nadir i - st'.ideal i = 1 / plane i) ∧ ∀ e ∈ ext, (∑ i, (e i - st'.ideal i) / (nadir i - st'.ideal i)) = 1 := by
  unfold nsgaPoints at h
  cases h1 : colMin fitness with
  | error e => simp [h1] at h
  | ok fmin =>
    cases h2 : colMax fitness with
    | error e => simp [h1, h2] at h
    | ok fmax =>
      simp only [h1, h2] at h
      split at h
      · simp at h
      · rename_i wf h3
        split at h
        · simp at h
        · rename_i ext he
          simp only [Prod.mk.injEq, Except.ok.injEq] at h
          obtain ⟨hnad, hst⟩ := h
          subst hst
          refine ⟨ext, newWorst st.worst fmax, rfl, rfl, he, ?_⟩
          intro plane hp hsol hgood
          dsimp only at hp hsol hgood ⊢
          have hn : ∀ i, nadir i = (nsgaExtremes st fmin fmax).ideal i + 1 / plane i := by
            intro i
            rw [← hnad]
            unfold nadirPoint
            simp only [hp]
            have hc : planeClose ext (nsgaExtremes st fmin fmax).ideal plane ∧ (∀ i, ¬ 1 / plane i ≤ 1 / 10 ^ 6) ∧
                ∀ i, (nsgaExtremes st fmin fmax).ideal i + 1 / plane i ≤ newWorst st.worst fmax i :=
              ⟨fun e he => by rw [hsol e he]; norm_num, fun i => not_le.2 (hgood i).1, fun i => (hgood i).2⟩
            have := (hgood i).1
            simp only [if_pos hc]
            rw [if_neg (by rw [add_sub_cancel_left]; exact not_le.2 this)]
          refine ⟨fun i => by rw [hn i, add_sub_cancel_left], fun e he => ?_⟩
          rw [← hsol e he]
          refine Finset.sum_congr rfl (fun i _ => ?_)
          rw [hn i, add_sub_cancel_left, div_div_eq_mul_div, div_one]

/-- The points are computed for every nonempty population and first front. -/
theorem nsgaPoints_total (solve : List (Vec m) → Option (Vec m)) (st : Nsga m) (fitness : List (Vec m)) (f0 : List Nat)
    (hf : fitness ≠ []) (h0 : f0 ≠ []) : ∃ nadir st', nsgaPoints solve st fitness f0 = (.ok nadir, st') := by
  obtain ⟨fmin, h1⟩ := colMin_total fitness hf
  obtain ⟨fmax, h2⟩ := colMax_total fitness hf
  obtain ⟨wf, h3⟩ := colMax_total (f0.map (fun j => fitness.getD j 0)) (by simpa using h0)
  obtain ⟨ext, h4⟩ := extremePoints_total (f0.map (fun j => fitness.getD j 0)) (nsgaExtremes st fmin fmax).ideal
    (nsgaExtremes st fmin fmax).extreme (by simpa using h0)
  unfold nsgaPoints
  simp only [h1, h2, h3, h4]
  exact ⟨_, _, rfl⟩

example : ∃ nadir st', nsgaPoints (fun _ => none) ⟨![0, 0], none, none⟩ [(![1, 2] : Vec 2), ![2, 1], ![3, 3]] [0, 1] =
    (.ok nadir, st') := nsgaPoints_total _ _ _ _ (by simp) (by simp)

/-- Non-vacuity of `c54_hyperplane`: two individuals on the line through (4, 0) and (0, 4), ideal 0. -/
example : ∃ nadir st' ext worst, nsgaPoints (fun _ => some ![1 / 4, 1 / 4]) ⟨![0, 0], some ![9, 9], none⟩ [(![4, 0] : Vec 2), ![0, 4]] [0, 1] =
    (.ok nadir, st') ∧ st'.extreme = some ext ∧ st'.worst = some worst ∧
    (∀ e ∈ ext, (∑ i, (e i - st'.ideal i) * (![1 / 4, 1 / 4] : Vec 2) i) = 1) ∧
    ∀ i, 1 / 10 ^ 6 < 1 / (![1 / 4, 1 / 4] : Vec 2) i ∧ st'.ideal i + 1 / (![1 / 4, 1 / 4] : Vec 2) i ≤ worst i := by
  obtain ⟨nadir, st', h⟩ := nsgaPoints_total (fun _ => some ![1 / 4, 1 / 4]) ⟨![0, 0], some ![9, 9], none⟩ [(![4, 0] : Vec 2), ![0, 4]] [0, 1]
    (by simp) (by simp)
  obtain ⟨ext, worst, e1, e2, e3, -⟩ := c54_hyperplane _ _ _ _ _ _ h
  obtain ⟨x1, x2⟩ := nsgaPoints_extremes (fun _ => some ![1 / 4, 1 / 4]) ⟨![0, 0], some ![9, 9], none⟩ [(![4, 0] : Vec 2), ![0, 4]] [0, 1] _ _ rfl rfl
  rw [h] at x1 x2
  have hid : st'.ideal = ![0, 0] := by
    dsimp only at x1
    rw [x1]
    funext i
    fin_cases i <;> simp [nsgaExtremes]
  have hw : worst = ![9, 9] := by
    dsimp only at x2
    rw [e2] at x2
    simp only [nsgaExtremes, newWorst, Option.some.injEq] at x2
    rw [x2]
    funext i
    fin_cases i <;> norm_num
  refine ⟨nadir, st', ext, worst, h, e1, e2, ?_, ?_⟩
  · intro e he
    obtain ⟨hl, hx⟩ := c54_extreme_points (by norm_num) _ _ _ _ e3
    obtain ⟨k, hk⟩ := List.mem_iff_getElem?.1 he
    have hk2 : k < 2 := lt_of_lt_of_eq (List.getElem?_eq_some_iff.1 hk).1 hl
    obtain ⟨hm, -⟩ := hx ⟨k, hk2⟩ e hk
    rw [hid]
    rcases hm with hm | ⟨o, ho, -⟩
    · simp only [List.map_cons, List.map_nil, List.getD_cons_zero, List.getD_cons_succ, List.mem_cons, List.not_mem_nil, or_false] at hm
      rcases hm with rfl | rfl <;> simp [Fin.sum_univ_two] <;> norm_num
    · cases ho
  · intro i
    rw [hid, hw]
    fin_cases i <;> norm_num

end Verif.Props
