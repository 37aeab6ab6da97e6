import Verif.Proofs.Management

/-!
# C51: finding new solutions; C60: the solutions chosen for true evaluation
-/

namespace Verif.Props
open Verif Verif.Spec
open _root_.Spec (names rowsAt inRange)

section
variable {α : Type} [LinearOrder α]

theorem repeated_iff (l : List α) (k : Nat) : Repeated l k ↔ k < l.length ∧ k ∉ uniqueIdx l := by
  rw [mem_uniqueIdx]
  constructor
  · rintro ⟨x, j, h1, h2, h3⟩
    refine ⟨(List.getElem?_eq_some_iff.1 h1).1, ?_⟩
    rintro ⟨y, h4, h5⟩
    rw [h1] at h4
    simp only [Option.some.injEq] at h4
    subst h4
    exact h5 j h2 h3
  · rintro ⟨h1, h2⟩
    by_contra hc
    apply h2
    refine ⟨l[k], by simp [h1], fun j hj he => hc ⟨l[k], j, by simp [h1], hj, he⟩⟩

theorem repeated_append_left (a xs : List α) (k : Nat) (hk : k < a.length) : Repeated (a ++ xs) k ↔ Repeated a k := by
  unfold Repeated
  constructor
  · rintro ⟨x, j, h1, h2, h3⟩
    rw [List.getElem?_append_left hk] at h1
    rw [List.getElem?_append_left (by omega)] at h3
    exact ⟨x, j, h1, h2, h3⟩
  · rintro ⟨x, j, h1, h2, h3⟩
    exact ⟨x, j, by rw [List.getElem?_append_left hk]; exact h1, h2, by rw [List.getElem?_append_left (by omega)]; exact h3⟩

theorem repeated_append_right (a xs : List α) (k : Nat) (hk : k < xs.length) :
    Repeated (a ++ xs) (a.length + k) ↔ ¬ NewRow a xs k := by
  have hg : ∀ j : Nat, (a ++ xs)[a.length + j]? = xs[j]? := fun j => by
    rw [List.getElem?_append_right (by omega), Nat.add_sub_cancel_left]
  unfold Repeated NewRow
  constructor
  · rintro ⟨x, j, h1, h2, h3⟩ ⟨y, h4, h5, h6⟩
    rw [hg, h4] at h1
    simp only [Option.some.injEq] at h1
    subst h1
    by_cases hj : j < a.length
    · rw [List.getElem?_append_left hj] at h3
      exact h5 (List.mem_of_getElem? h3)
    · rw [List.getElem?_append_right (by omega)] at h3
      exact h6 (j - a.length) (by omega) h3
  · intro h
    by_contra hc
    apply h
    refine ⟨xs[k], by simp [hk], fun hm => ?_, fun j hj he => ?_⟩
    · obtain ⟨i, hi⟩ := List.mem_iff_getElem?.1 hm
      have hil := (List.getElem?_eq_some_iff.1 hi).1
      exact hc ⟨xs[k], i, by rw [hg]; simp [hk], by omega, by rw [List.getElem?_append_left hil]; exact hi⟩
    · exact hc ⟨xs[k], a.length + j, by rw [hg]; simp [hk], by omega, by rw [hg]; exact he⟩

theorem removeDuplicate_first (xs archive : List α) :
    removeDuplicate xs archive =
      npDelete xs.length (((List.range (archive ++ xs).length).filter (fun k => decide (k ∉ uniqueIdx (archive ++ xs)))).map
        (fun (i : Nat) => (i : Int) - archive.length)) := by
  unfold removeDuplicate
  have hlt : ∀ k ∈ uniqueIdx (archive ++ xs), k < (archive ++ xs).length := by
    intro k hk
    obtain ⟨x, h1, -⟩ := (mem_uniqueIdx _ _).1 hk
    exact (List.getElem?_eq_some_iff.1 h1).1
  simp only []
  rw [npDelete_ok _ _ (inRange_nat _ _ hlt)]
  simp only []
  congr 2
  apply List.filter_congr
  intro k hk
  rw [names_nat _ _ _ hlt (List.mem_range.1 hk)]
  simp

/-- C51 in full: `remove_duplicate` raises IndexError exactly when the archive repeats a row so far from its end that the
negative position leaves `X`; otherwise it returns, ascending, the rows of `X` that are new and not hit by a negative position. -/
theorem c51_general (xs archive : List α) :
    ((∃ p, Repeated archive p ∧ p + xs.length < archive.length) → removeDuplicate xs archive = .error .indexError) ∧
    ((∀ p, Repeated archive p → archive.length ≤ p + xs.length) →
      ∃ ks, removeDuplicate xs archive = .ok ks ∧ ks.Pairwise (· < ·) ∧
        ∀ k, k ∈ ks ↔ NewRow archive xs k ∧ ∀ p, Repeated archive p → p + xs.length ≠ archive.length + k) := by
  rw [removeDuplicate_first]
  generalize hidx : ((List.range (archive ++ xs).length).filter (fun k => decide (k ∉ uniqueIdx (archive ++ xs)))).map
    (fun (i : Nat) => (i : Int) - archive.length) = idx
  have hmem : ∀ i : Int, i ∈ idx ↔ ∃ p : Nat, Repeated (archive ++ xs) p ∧ i = (p : Int) - archive.length := by
    intro i
    rw [← hidx]
    simp only [List.mem_map, List.mem_filter, List.mem_range, decide_eq_true_eq]
    constructor
    · rintro ⟨p, hp, rfl⟩
      exact ⟨p, (repeated_iff _ _).2 hp, rfl⟩
    · rintro ⟨p, hp, rfl⟩
      exact ⟨p, (repeated_iff _ _).1 hp, rfl⟩
  have hlen : ∀ p, Repeated (archive ++ xs) p → p < archive.length + xs.length := by
    intro p hp
    have := ((repeated_iff _ _).1 hp).1
    simpa using this
  constructor
  · rintro ⟨p, hp, hlt⟩
    apply npDelete_error
    have hpl : p < archive.length := ((repeated_iff _ _).1 hp).1
    rw [Bool.eq_false_iff]
    intro h
    unfold inRange at h
    rw [List.all_eq_true] at h
    have := h ((p : Int) - archive.length) ((hmem _).2 ⟨p, (repeated_append_left _ _ _ hpl).2 hp, rfl⟩)
    simp only [Bool.and_eq_true, decide_eq_true_eq] at this
    omega
  · intro hall
    have hr : inRange xs.length idx = true := by
      unfold inRange
      rw [List.all_eq_true]
      intro i hi
      obtain ⟨p, hp, rfl⟩ := (hmem i).1 hi
      have h1 := hlen p hp
      simp only [Bool.and_eq_true, decide_eq_true_eq]
      by_cases hpl : p < archive.length
      · have := hall p ((repeated_append_left _ _ _ hpl).1 hp)
        omega
      · omega
    refine ⟨_, npDelete_ok _ _ hr, ?_, ?_⟩
    · exact List.Pairwise.filter _ List.pairwise_lt_range
    · intro k
      rw [List.mem_filter, List.mem_range]
      have hn : names xs.length idx k = true ↔
          ∃ p, Repeated (archive ++ xs) p ∧ ((p : Int) - archive.length = k ∨ (p : Int) - archive.length = (k : Int) - xs.length) := by
        unfold names
        rw [List.any_eq_true]
        constructor
        · rintro ⟨i, hi, h⟩
          obtain ⟨p, hp, rfl⟩ := (hmem i).1 hi
          simp only [Bool.or_eq_true, beq_iff_eq] at h
          exact ⟨p, hp, h⟩
        · rintro ⟨p, hp, h⟩
          refine ⟨_, (hmem _).2 ⟨p, hp, rfl⟩, ?_⟩
          simp only [Bool.or_eq_true, beq_iff_eq]
          exact h
      rw [Bool.not_eq_true', ← Bool.not_eq_true, hn]
      constructor
      · rintro ⟨hk, hno⟩
        constructor
        · by_contra hc
          exact hno ⟨archive.length + k, (repeated_append_right _ _ _ hk).2 hc, Or.inl (by omega)⟩
        · intro p hp he
          have hpl : p < archive.length := ((repeated_iff _ _).1 hp).1
          exact hno ⟨p, (repeated_append_left _ _ _ hpl).2 hp, Or.inr (by omega)⟩
      · rintro ⟨hnew, hnot⟩
        have hk : k < xs.length := by
          obtain ⟨x, h1, -⟩ := hnew
          exact (List.getElem?_eq_some_iff.1 h1).1
        refine ⟨hk, ?_⟩
        rintro ⟨p, hp, h | h⟩
        · have : p = archive.length + k := by omega
          subst this
          exact (repeated_append_right _ _ _ hk).1 hp hnew
        · by_cases hpl : p < archive.length
          · exact hnot p ((repeated_append_left _ _ _ hpl).1 hp) (by omega)
          · omega

/-- C51: if the archive has no repeated rows, `remove_duplicate` returns, ascending, exactly the positions of `X` whose row
is neither in the archive nor earlier in `X`. -/
theorem c51_distinct_archive (xs archive : List α) (hn : archive.Nodup) :
    ∃ ks, removeDuplicate xs archive = .ok ks ∧ ks.Pairwise (· < ·) ∧ ∀ k, k ∈ ks ↔ NewRow archive xs k := by
  have hno : ∀ p, ¬ Repeated archive p := by
    rintro p ⟨x, j, h1, h2, h3⟩
    obtain ⟨a1, a2⟩ := List.getElem?_eq_some_iff.1 h1
    obtain ⟨b1, b2⟩ := List.getElem?_eq_some_iff.1 h3
    have := (List.Nodup.getElem_inj_iff hn).1 (a2.trans b2.symm)
    omega
  obtain ⟨ks, h1, h2, h3⟩ := (c51_general xs archive).2 (fun p hp => absurd hp (hno p))
  refine ⟨ks, h1, h2, fun k => (h3 k).trans ⟨And.left, fun h => ⟨h, fun p hp => absurd hp (hno p)⟩⟩⟩

/-- C51, in terms of rows: the rows it names are pairwise different, none is in the archive, and together with the archive
they are all the rows there are. -/
theorem c51_rows (xs archive : List α) (hn : archive.Nodup) :
    ∃ ks rows, removeDuplicate xs archive = .ok ks ∧ takeRows xs ks = some rows ∧ rows.Nodup ∧ (∀ x ∈ rows, x ∉ archive) ∧
      ∀ x, x ∈ archive ∨ x ∈ rows ↔ x ∈ archive ∨ x ∈ xs := by
  obtain ⟨ks, h1, h2, h3⟩ := c51_distinct_archive xs archive hn
  obtain ⟨rows, hr⟩ := takeRows_total xs ks (fun k hk => by
    obtain ⟨x, hx, -⟩ := (h3 k).1 hk
    exact (List.getElem?_eq_some_iff.1 hx).1)
  obtain ⟨r1, r2, r3⟩ := takeRows_spec _ _ _ hr
  have hrow : ∀ (j : Nat) (x : α), rows[j]? = some x → ∃ k, ks[j]? = some k ∧ xs[k]? = some x := by
    intro j x hj
    have hjl : j < ks.length := by
      have := (List.getElem?_eq_some_iff.1 hj).1
      omega
    refine ⟨ks[j], by simp [hjl], ?_⟩
    rw [← r3 j ks[j] (by simp [hjl])]
    exact hj
  refine ⟨ks, rows, h1, hr, ?_, ?_, ?_⟩
  · rw [List.nodup_iff_injective_getElem]
    rintro ⟨i, hi⟩ ⟨j, hj⟩ he
    simp only at he
    by_contra hne
    have hne : i ≠ j := fun h => hne (by simp [h])
    wlog hij : i < j generalizing i j
    · exact this j hj i hi he.symm (fun h => hne (by simp at h; omega)) (Ne.symm hne) (by omega)
    obtain ⟨k, k1, k2⟩ := hrow i rows[i] (by simp [hi])
    obtain ⟨l, l1, l2⟩ := hrow j rows[j] (by simp [hj])
    have hkl : k < l := by
      have := List.pairwise_iff_getElem.1 h2 i j (by omega) (by omega) hij
      rw [(List.getElem?_eq_some_iff.1 k1).2, (List.getElem?_eq_some_iff.1 l1).2] at this
      exact this
    obtain ⟨x, x1, x2, x3⟩ := (h3 l).1 (List.mem_of_getElem? l1)
    rw [l2] at x1
    simp only [Option.some.injEq] at x1
    exact x3 k hkl (by rw [k2, he, x1])
  · intro x hx
    obtain ⟨j, hj⟩ := List.mem_iff_getElem?.1 hx
    obtain ⟨k, k1, k2⟩ := hrow j x hj
    obtain ⟨y, y1, y2, -⟩ := (h3 k).1 (List.mem_of_getElem? k1)
    rw [k2] at y1
    simp only [Option.some.injEq] at y1
    subst y1
    exact y2
  · intro x
    constructor
    · rintro (h | h)
      · exact Or.inl h
      · obtain ⟨j, hj⟩ := List.mem_iff_getElem?.1 h
        obtain ⟨k, -, k2⟩ := hrow j x hj
        exact Or.inr (List.mem_of_getElem? k2)
    · rintro (h | h)
      · exact Or.inl h
      · by_cases hx : x ∈ archive
        · exact Or.inl hx
        · right
          classical
          have hex : ∃ k, xs[k]? = some x := List.mem_iff_getElem?.1 h
          have hnew : NewRow archive xs (Nat.find hex) := ⟨x, Nat.find_spec hex, hx, fun j hj => Nat.find_min hex hj⟩
          obtain ⟨j, hj⟩ := List.mem_iff_getElem?.1 ((h3 _).2 hnew)
          have := r3 j _ hj
          rw [Nat.find_spec hex] at this
          exact List.mem_of_getElem? this

end

/-- Rows 1, 2, 2, 3 against an archive 1, 5: the new ones are the first 2 and the 3. -/
example : removeDuplicate [1, 2, 2, 3] [1, 5] = .ok [1, 3] := by decide

example : NewRow [1, 5] [1, 2, 2, 3] 1 ∧ ¬ NewRow [1, 5] [1, 2, 2, 3] 2 := by
  constructor
  · exact ⟨2, rfl, by decide, fun j hj => by
      obtain rfl : j = 0 := by omega
      decide⟩
  · rintro ⟨x, h1, -, h3⟩
    exact h3 1 (by omega) h1

/-- C51 fails when the archive repeats a row: with archive `7, 7` and `X = 1, 2` the new row 2 is dropped, although it is in
neither the archive nor elsewhere in `X`. -/
theorem c51_repeated_archive_drops : removeDuplicate [1, 2] [7, 7] = .ok [0] ∧ NewRow [7, 7] [1, 2] 1 := by
  refine ⟨by decide, 2, rfl, by decide, ?_⟩
  intro j hj
  obtain rfl : j = 0 := by omega
  decide

/-- C51 fails when the archive repeats a row: with archive `7, 7, 8` and one new solution it raises IndexError. -/
theorem c51_repeated_archive_raises : removeDuplicate [1] [7, 7, 8] = .error .indexError := by decide

/-! ## C60 -/

section
variable {X O U K : Type} [LinearOrder X] [LinearOrder K]

theorem partition_take {l : List K} {kth n : Nat} {idx : List Nat} (h : IsPartition l kth idx) (hn : n ≤ l.length) :
    (idx.take n).length = n ∧ (idx.take n).Nodup ∧ ∀ a ∈ idx.take n, a < l.length := by
  have hl := h.perm.length_eq
  simp only [List.length_range] at hl
  refine ⟨by rw [List.length_take]; omega, ?_, ?_⟩
  · exact (h.perm.nodup_iff.2 List.nodup_range).sublist (List.take_sublist _ _)
  · intro a ha
    exact List.mem_range.1 (h.perm.mem_iff.1 (List.mem_of_mem_take ha))

/-- C60: what `ikrvea_mm` sends to the true functions.  Let `new` be the solutions that are neither in the archive nor
repeated.  None are evaluated if there are none; ValueError if there are at most `2u`, or `u = 0`; otherwise exactly `u`
different solutions, all of them current solutions that are not in the archive, are evaluated. -/
theorem c60_chosen (mo : MMOps O U K) (hpart : ∀ (l : List K) (kth : Nat), kth < l.length → IsPartition l kth (mo.part l kth))
    (inds : List X) (objs : List O) (us : List U) (archive : List X) (u : Nat) (hn : archive.Nodup)
    (ho : objs.length = inds.length) (hu : us.length = inds.length) :
    ∃ ks new, removeDuplicate inds archive = .ok ks ∧ takeRows inds ks = some new ∧
      (∀ x, x ∈ new ↔ x ∈ inds ∧ x ∉ archive) ∧ new.Nodup ∧
      (new = [] → mmSelect mo inds objs (some us) archive u = .ok none) ∧
      (new ≠ [] → (new.length ≤ 2 * u ∨ u = 0) → mmSelect mo inds objs (some us) archive u = .error .valueError) ∧
      (2 * u < new.length → u ≠ 0 → ∃ rows, mmSelect mo inds objs (some us) archive u = .ok (some rows) ∧ rows.length = u ∧
        rows.Nodup ∧ (∀ x ∈ rows, x ∈ new) ∧ ∀ x ∈ rows, x ∈ new.take (2 * u)) := by
  obtain ⟨ks, new, h1, h2, h3, h4, h5⟩ := c51_rows inds archive hn
  obtain ⟨r1, r2, r3⟩ := takeRows_spec _ _ _ h2
  obtain ⟨ob, hob⟩ := takeRows_total objs ks (fun k hk => by rw [ho]; exact r2 k hk)
  obtain ⟨un, hun⟩ := takeRows_total us ks (fun k hk => by rw [hu]; exact r2 k hk)
  have o1 := (takeRows_spec _ _ _ hob).1
  have u1 := (takeRows_spec _ _ _ hun).1
  have hkz : ks.length = 0 ↔ new = [] := by rw [← r1]; exact List.length_eq_zero_iff
  refine ⟨ks, new, h1, h2, ?_, h3, ?_, ?_, ?_⟩
  · intro x
    constructor
    · intro hx
      have hna := h4 x hx
      rcases (h5 x).1 (Or.inr hx) with h | h
      · exact absurd h hna
      · exact ⟨h, hna⟩
    · rintro ⟨hx, hna⟩
      rcases (h5 x).2 (Or.inr hx) with h | h
      · exact absurd h hna
      · exact h
  · intro he
    unfold mmSelect
    rw [h1]
    simp only [if_pos (hkz.2 he)]
  · intro he hc
    unfold mmSelect
    rw [h1]
    simp only [if_neg (fun h => he (hkz.1 h)), h2, hob, hun]
    unfold argpartition
    by_cases hlt : 2 * u < (ob.map mo.asf).length
    · rw [if_pos hlt]
      simp only [List.length_map] at hlt
      have hu0 : u = 0 := by omega
      subst hu0
      simp [takeRows]
    · rw [if_neg hlt]
  · intro hlt hu0
    unfold mmSelect
    rw [h1]
    have hne : ¬ ks.length = 0 := by omega
    simp only [if_neg hne, h2, hob, hun]
    unfold argpartition
    have hla : (ob.map mo.asf).length = new.length := by rw [List.length_map]; omega
    rw [if_pos (by rw [hla]; exact hlt)]
    obtain ⟨p1, p2, p3⟩ := partition_take (hpart (ob.map mo.asf) (2 * u) (by rw [hla]; exact hlt)) (n := 2 * u) (by omega)
    simp only []
    obtain ⟨un', hun'⟩ := takeRows_total un ((mo.part (ob.map mo.asf) (2 * u)).take (2 * u)) (fun k hk => by
      have := p3 k hk
      omega)
    have un1 := (takeRows_spec _ _ _ hun').1
    rw [hun']
    have hlb : (un'.map mo.maxUnc).length = 2 * u := by rw [List.length_map, un1, p1]
    simp only []
    rw [if_pos (by omega)]
    obtain ⟨q1, q2, q3⟩ := partition_take (hpart (un'.map mo.maxUnc) u (by omega)) (n := u) (by omega)
    simp only []
    obtain ⟨rows, hrows⟩ := takeRows_total new ((mo.part (un'.map mo.maxUnc) u).take u) (fun k hk => by
      have := q3 k hk
      omega)
    rw [hrows]
    obtain ⟨w1, w2, w3⟩ := takeRows_spec _ _ _ hrows
    have hget : ∀ (j : Nat) (x : X), rows[j]? = some x →
        ∃ k, ((mo.part (un'.map mo.maxUnc) u).take u)[j]? = some k ∧ new[k]? = some x := by
      intro j x hj
      have hjl := (List.getElem?_eq_some_iff.1 hj).1
      have hj2 : j < ((mo.part (un'.map mo.maxUnc) u).take u).length := by omega
      refine ⟨_, List.getElem?_eq_getElem hj2, ?_⟩
      rw [← w3 j _ (List.getElem?_eq_getElem hj2)]
      exact hj
    refine ⟨rows, rfl, by omega, ?_, ?_, ?_⟩
    · rw [List.nodup_iff_injective_getElem]
      rintro ⟨i, hi⟩ ⟨j, hj⟩ he
      simp only at he
      obtain ⟨k, k1, k2⟩ := hget i rows[i] (List.getElem?_eq_getElem hi)
      obtain ⟨l, l1, l2⟩ := hget j rows[j] (List.getElem?_eq_getElem hj)
      obtain ⟨a1, a2⟩ := List.getElem?_eq_some_iff.1 k2
      obtain ⟨b1, b2⟩ := List.getElem?_eq_some_iff.1 l2
      have hkl : k = l := (List.Nodup.getElem_inj_iff h3).1 (a2.trans (he.trans b2.symm))
      subst hkl
      obtain ⟨c1, c2⟩ := List.getElem?_eq_some_iff.1 k1
      obtain ⟨d1, d2⟩ := List.getElem?_eq_some_iff.1 l1
      have := (List.Nodup.getElem_inj_iff q2).1 (c2.trans d2.symm)
      simp [this]
    · intro x hx
      obtain ⟨j, hj⟩ := List.mem_iff_getElem?.1 hx
      obtain ⟨k, -, k2⟩ := hget j x hj
      exact List.mem_of_getElem? k2
    · intro x hx
      obtain ⟨j, hj⟩ := List.mem_iff_getElem?.1 hx
      obtain ⟨k, k1, k2⟩ := hget j x hj
      have hk := q3 k (List.mem_of_getElem? k1)
      rw [hlb] at hk
      apply List.mem_of_getElem? (i := k)
      rw [List.getElem?_take, if_pos hk]
      exact k2

/-- Without uncertainties (`population.uncertainity is None`) `ikrvea_mm` raises TypeError as soon as there is a new solution. -/
theorem c60_no_uncertainty (mo : MMOps O U K) (inds : List X) (objs : List O) (archive : List X) (u : Nat) (hn : archive.Nodup)
    (ho : objs.length = inds.length) (x : X) (hx : x ∈ inds) (hxa : x ∉ archive) :
    mmSelect mo inds objs none archive u = .error .typeError := by
  obtain ⟨ks, new, h1, h2, h3, h4, h5⟩ := c51_rows inds archive hn
  obtain ⟨r1, r2, r3⟩ := takeRows_spec _ _ _ h2
  obtain ⟨ob, hob⟩ := takeRows_total objs ks (fun k hk => by rw [ho]; exact r2 k hk)
  have hne : ¬ ks.length = 0 := by
    intro h
    have hnil : new = [] := List.length_eq_zero_iff.1 (by omega)
    rcases (h5 x).2 (Or.inr hx) with h' | h'
    · exact hxa h'
    · rw [hnil] at h'
      simp at h'
  unfold mmSelect
  rw [h1]
  simp only [if_neg hne, h2, hob]

end

/-- Four new solutions with achievement values 5, 4, 1, 2 (as objective) and any uncertainties. -/
def mmDemo (part : List Nat → Nat → List Nat) : MMOps Nat Nat Nat := ⟨id, id, part⟩

/-- C60: the paper's rule, "of the `2u` solutions with the lowest achievement values", is violated: whatever the
(correct) `argpartition`, with `u = 1` and achievement values 5, 4, 1, 2 the solution evaluated is one of the two with the
highest values, because positions in the list of candidates are used as positions in the list of all new solutions. -/
theorem c60_wrong_candidates_violated (part : List Nat → Nat → List Nat)
    (hpart : ∀ (l : List Nat) (kth : Nat), kth < l.length → IsPartition l kth (part l kth)) :
    ∃ x, mmSelect (mmDemo part) [10, 11, 12, 13] [5, 4, 1, 2] (some [3, 3, 9, 1]) [] 1 = .ok (some [x]) ∧ (x = 10 ∨ x = 11) := by
  have hks : removeDuplicate [10, 11, 12, 13] ([] : List Nat) = .ok [0, 1, 2, 3] := by decide
  unfold mmSelect
  rw [hks]
  simp only [List.length_cons, List.length_nil, takeRows, List.getElem?_cons_zero, List.getElem?_cons_succ]
  unfold argpartition mmDemo
  simp only [List.map_cons, List.map_nil, id, List.length_cons, List.length_nil]
  obtain ⟨p1, p2, p3⟩ := partition_take (hpart [5, 4, 1, 2] 2 (by decide)) (n := 2) (by decide)
  obtain ⟨un', hun'⟩ := takeRows_total [3, 3, 9, 1] ((part [5, 4, 1, 2] 2).take 2) (fun k hk => p3 k hk)
  have un1 := (takeRows_spec _ _ _ hun').1
  rw [p1] at un1
  simp only [show (0 + 1 + 1 + 1 + 1 = 0) = False by simp, if_false, show 2 * 1 < 0 + 1 + 1 + 1 + 1 by decide, if_true]
  rw [hun']
  simp only [List.length_map, un1, show 1 < 2 by decide, if_true]
  obtain ⟨q1, q2, q3⟩ := partition_take (hpart (un'.map id) 1 (by simp [un1])) (n := 1) (by simp [un1])
  obtain ⟨k, hk⟩ := List.length_eq_one_iff.1 q1
  have hk2 := q3 k (by rw [hk]; exact List.mem_singleton_self _)
  simp only [List.length_map, un1] at hk2
  rw [hk]
  rcases (by omega : k = 0 ∨ k = 1) with rfl | rfl
  · exact ⟨10, by simp [takeRows], Or.inl rfl⟩
  · exact ⟨11, by simp [takeRows], Or.inr rfl⟩

/-- A correct `argpartition`: full sorting. -/
def sortPart (l : List Nat) (_ : Nat) : List Nat := (l.zipIdx.insertionSort (rowPosLe (α := Nat))).map (fun p => p.2)

theorem sortPart_ok (l : List Nat) (kth : Nat) : IsPartition l kth (sortPart l kth) := by
  constructor
  · have h := (List.perm_insertionSort (rowPosLe (α := Nat)) l.zipIdx).map (fun p => p.2)
    unfold sortPart
    refine h.trans ?_
    have : l.zipIdx.map (fun p => p.2) = List.range l.length := by
      rw [show (fun p : Nat × Nat => p.2) = Prod.snd from rfl, List.zipIdx_map_snd]
      exact (List.range_eq_range').symm
    rw [this]
  · intro i j a b x y hi hj ha hb hx hy
    unfold sortPart at ha hb
    rw [List.getElem?_map] at ha hb
    simp only [Option.map_eq_some_iff] at ha hb
    obtain ⟨⟨x', a'⟩, ha1, rfl⟩ := ha
    obtain ⟨⟨y', b'⟩, hb1, rfl⟩ := hb
    simp only at hx hy
    have hxm := (List.mem_insertionSort (rowPosLe (α := Nat))).1 (List.mem_of_getElem? ha1)
    have hym := (List.mem_insertionSort (rowPosLe (α := Nat))).1 (List.mem_of_getElem? hb1)
    rw [mem_zipIdx_iff'] at hxm hym
    rw [hx] at hxm
    rw [hy] at hym
    simp only [Option.some.injEq] at hxm hym
    subst hxm hym
    obtain ⟨a1, a2⟩ := List.getElem?_eq_some_iff.1 ha1
    obtain ⟨b1, b2⟩ := List.getElem?_eq_some_iff.1 hb1
    have := List.pairwise_iff_getElem.1 (List.pairwise_insertionSort (rowPosLe (α := Nat)) l.zipIdx) i j a1 b1 (by omega)
    rw [a2, b2] at this
    rcases this with h | h
    · exact le_of_lt h
    · exact le_of_eq h.1

/-- The hypotheses of `c60_chosen` hold for a run in which one of four new solutions is evaluated. -/
example : (∀ (l : List Nat) (kth : Nat), kth < l.length → IsPartition l kth ((mmDemo sortPart).part l kth)) ∧
    ([7] : List Nat).Nodup ∧
    mmSelect (mmDemo sortPart) [10, 7, 11, 12, 13, 10] [5, 0, 4, 1, 2, 5] (some [3, 3, 3, 9, 1, 3]) [7] 1 = .ok (some [11]) :=
  ⟨fun l kth _ => sortPart_ok l kth, by decide, by decide⟩

end Verif.Props
