import Verif.Model.NSGA3
import Verif.Spec.NSGA3
import Verif.Proofs.Dominance
import Verif.Props.APD

/-!
# Lemmas about niching and fronts
-/

open scoped BigOperators

namespace Verif
open Verif.Spec Verif.Props

theorem argminL_spec {K : Type} [LinearOrder K] (l : List K) (k : Nat) (h : argminL l = .ok k) :
    ∃ c, l[k]? = some c ∧ (∀ (j : Nat) (x : K), l[j]? = some x → c ≤ x) ∧
      (∀ (j : Nat) (x : K), j < k → l[j]? = some x → c < x) :=
  argmaxL_spec (K := Kᵒᵈ) l k h

theorem argminL_total {K : Type} [LinearOrder K] (l : List K) (h : l ≠ []) : ∃ k, argminL l = .ok k := by
  cases l with
  | nil => exact absurd rfl h
  | cons x xs => exact ⟨_, rfl⟩

theorem mem_insertUnique (a : Nat) (l : List Nat) (k : Nat) : k ∈ insertUnique a l ↔ k = a ∨ k ∈ l := by
  induction l with
  | nil => simp [insertUnique]
  | cons b bs ih =>
    simp only [insertUnique]
    split
    · simp
    · split
      · rename_i h; subst h; simp
      · simp only [List.mem_cons, ih]; tauto

theorem mem_npUnique (l : List Nat) (k : Nat) : k ∈ npUnique l ↔ k ∈ l := by
  unfold npUnique
  induction l with
  | nil => simp
  | cons a l ih => rw [List.foldr_cons, mem_insertUnique, ih, List.mem_cons]

theorem minNat_spec (l : List Nat) (h : l ≠ []) : ∃ mn, minNat l = .ok mn ∧ mn ∈ l ∧ ∀ x ∈ l, mn ≤ x := by
  cases l with
  | nil => exact absurd rfl h
  | cons x xs =>
    refine ⟨xs.foldl min x, rfl, ?_⟩
    clear h
    induction xs generalizing x with
    | nil => simp
    | cons y ys ih =>
      obtain ⟨h1, h2⟩ := ih (min x y)
      simp only [List.foldl_cons]
      refine ⟨?_, ?_⟩
      · rcases List.mem_cons.1 h1 with h | h
        · rw [h]
          rcases le_total x y with hxy | hxy
          · simp [hxy]
          · simp [hxy]
        · simp [h]
      · intro z hz
        have h0 := h2 (min x y) (by simp)
        rcases List.mem_cons.1 hz with rfl | hz
        · omega
        · rcases List.mem_cons.1 hz with rfl | hz
          · omega
          · exact h2 z (by simp [hz])

theorem mem_compress_get {α : Type} (m : List Bool) (l : List α) (a : α) :
    a ∈ compress m l ↔ ∃ i : Nat, m[i]? = some true ∧ l[i]? = some a := by
  rw [mem_compress, List.mem_iff_getElem?]
  constructor
  · rintro ⟨i, hi⟩
    rw [List.getElem?_zip_eq_some] at hi
    exact ⟨i, hi⟩
  · rintro ⟨i, h1, h2⟩
    exact ⟨i, List.getElem?_zip_eq_some.2 ⟨h1, h2⟩⟩

section Niching
variable {K : Type} [LinearOrder K]

theorem mem_nicheInds (niche : List Nat) (mask : List Bool) (next j : Nat) :
    j ∈ whereIdx (List.zipWith (fun a b => a == next && b) niche mask) ↔ niche[j]? = some next ∧ mask[j]? = some true := by
  rw [mem_whereIdx, List.getElem?_zipWith]
  cases niche[j]? <;> cases mask[j]? <;> simp

theorem nicheRound_spec (rnd : NicheRand) (hsh : ∀ t l, (rnd.shuffle t l).Perm l) (t : Nat) (niche : List Nat) (dist : List K)
    (mask : List Bool) (count : List Nat) (hlen : mask.length = niche.length) (hd : dist.length = niche.length)
    (hsome : ∃ i : Nat, mask[i]? = some true) :
    ∃ j next, nicheRound rnd t niche dist mask count = .ok (j, next) ∧ mask[j]? = some true ∧ niche[j]? = some next ∧
      (∀ (k c : Nat), mask[k]? = some true → niche[k]? = some c → count.getD next 0 ≤ count.getD c 0) ∧
      (count.getD next 0 = 0 → ∀ (k : Nat) (x y : K), mask[k]? = some true → niche[k]? = some next →
        dist[j]? = some x → dist[k]? = some y → x ≤ y) := by
  have hcand : ∀ c, c ∈ npUnique (compress mask niche) ↔ ∃ i : Nat, mask[i]? = some true ∧ niche[i]? = some c := by
    intro c; rw [mem_npUnique, mem_compress_get]
  have hne : (npUnique (compress mask niche)).map (fun k => count.getD k 0) ≠ [] := by
    obtain ⟨i, hi⟩ := hsome
    have hi' : i < niche.length := by rw [← hlen]; exact (List.getElem?_eq_some_iff.1 hi).1
    have : niche[i] ∈ npUnique (compress mask niche) := (hcand _).2 ⟨i, hi, by simp [hi']⟩
    intro h
    rw [List.map_eq_nil_iff] at h
    rw [h] at this; simp at this
  obtain ⟨mn, hmn, hmem, hle⟩ := minNat_spec _ hne
  unfold nicheRound
  simp only [hmn]
  have hbest : ((npUnique (compress mask niche)).filter (fun k => count.getD k 0 == mn)).length > 0 := by
    obtain ⟨k, hk, hk2⟩ := List.mem_map.1 hmem
    exact List.length_pos_of_mem (List.mem_filter.2 ⟨hk, by simpa using hk2⟩)
  generalize hb : (npUnique (compress mask niche)).filter (fun k => count.getD k 0 == mn) = best at *
  obtain ⟨next, hnext⟩ : ∃ x, best[rnd.pick t % best.length]? = some x :=
    ⟨_, List.getElem?_eq_getElem (Nat.mod_lt _ hbest)⟩
  simp only [hnext]
  have hnb : next ∈ best := List.mem_of_getElem? hnext
  rw [← hb] at hnb
  obtain ⟨hn1, hn2⟩ := List.mem_filter.1 hnb
  simp only [beq_iff_eq] at hn2
  have hleast : ∀ (k c : Nat), mask[k]? = some true → niche[k]? = some c → count.getD next 0 ≤ count.getD c 0 := by
    intro k c h1 h2
    rw [hn2]
    exact hle _ (List.mem_map.2 ⟨c, (hcand c).2 ⟨k, h1, h2⟩, rfl⟩)
  obtain ⟨i0, hi1, hi2⟩ := (hcand next).1 hn1
  have hperm := hsh t (whereIdx (List.zipWith (fun a b => a == next && b) niche mask))
  have hinds : ∀ j, j ∈ rnd.shuffle t (whereIdx (List.zipWith (fun a b => a == next && b) niche mask)) ↔
      niche[j]? = some next ∧ mask[j]? = some true := by
    intro j; rw [hperm.mem_iff, mem_nicheInds]
  generalize rnd.shuffle t (whereIdx (List.zipWith (fun a b => a == next && b) niche mask)) = inds at *
  have hi0 : i0 ∈ inds := (hinds i0).2 ⟨hi2, hi1⟩
  have hfm : inds.filterMap (fun j => dist[j]?) = inds.map (fun j => dist.getD j (dist.getD i0 (Classical.choice
      (by have hi' : i0 < dist.length := by rw [hd]; exact (List.getElem?_eq_some_iff.1 hi2).1
          exact ⟨dist[i0]⟩)))) := by
    rw [← List.filterMap_eq_map]
    refine List.filterMap_congr (fun j hj => ?_)
    have hj' : j < dist.length := by rw [hd]; exact (List.getElem?_eq_some_iff.1 ((hinds j).1 hj).1).1
    simp [hj']
  split
  · rename_i h0
    obtain ⟨p, hp⟩ := argminL_total (inds.filterMap (fun j => dist[j]?)) (by
      rw [hfm]; intro h; rw [List.map_eq_nil_iff] at h; rw [h] at hi0; simp at hi0)
    simp only [hp]
    obtain ⟨c, hc, hmin, -⟩ := argminL_spec _ _ hp
    rw [hfm, List.getElem?_map] at hc
    cases hj : inds[p]? with
    | none => rw [hj] at hc; simp at hc
    | some j =>
      rw [hj] at hc
      simp only [Option.map_some, Option.some.injEq] at hc
      have hjm := (hinds j).1 (List.mem_of_getElem? hj)
      refine ⟨j, next, rfl, hjm.2, hjm.1, hleast, fun _ k x y hk1 hk2 hx hy => ?_⟩
      have hk : k ∈ inds := (hinds k).2 ⟨hk2, hk1⟩
      obtain ⟨q, hq⟩ := List.mem_iff_getElem?.1 hk
      have hxc : c = x := by
        rw [← hc, List.getD_eq_getElem?_getD, hx]; rfl
      rw [← hxc]
      refine hmin q y ?_
      rw [hfm, List.getElem?_map, hq]
      simp [hy]
  · rename_i h0
    have : 0 < inds.length := List.length_pos_of_mem hi0
    rw [List.getElem?_eq_getElem this]
    have hjm := (hinds inds[0]).1 (List.getElem_mem _)
    exact ⟨inds[0], next, rfl, hjm.2, hjm.1, hleast, fun h => absurd h h0⟩

/-- available members, given by the mask -/
def avail (mask : List Bool) : Nat := mask.count true

theorem exists_true_of_avail {mask : List Bool} (h : 0 < avail mask) : ∃ i : Nat, mask[i]? = some true := by
  have : true ∈ mask := List.count_pos_iff.1 h
  exact List.mem_iff_getElem?.1 this

theorem avail_set {mask : List Bool} {j : Nat} (h : mask[j]? = some true) : avail (mask.set j false) + 1 = avail mask := by
  unfold avail
  obtain ⟨hj, he⟩ := List.getElem?_eq_some_iff.1 h
  have hpos : 0 < mask.count true := List.count_pos_iff.2 (he ▸ List.getElem_mem hj)
  rw [List.count_set hj]
  simp [he]
  omega

/-- The loop: it finds exactly the required number of distinct survivors, each by a fair step, and the counts
returned are the initial counts plus the survivors per niche. -/
theorem niching_spec (rnd : NicheRand) (hsh : ∀ t l, (rnd.shuffle t l).Perm l) (niche : List Nat) (dist : List K)
    (initial : Nat → Nat) (hd : dist.length = niche.length) (n t : Nat) (mask : List Bool) (count before : List Nat)
    (hlen : mask.length = niche.length) (hmask : ∀ k : Nat, k < niche.length → (mask[k]? = some true ↔ k ∉ before))
    (hniche : ∀ c ∈ niche, c < count.length)
    (hcount : ∀ c, c < count.length → count.getD c 0 = initial c + occupants niche before c)
    (hn : n ≤ avail mask) :
    ∃ js c', niching rnd niche dist n t mask count = .ok (js, c') ∧ js.length = n ∧
      (∀ (i j : Nat), js[i]? = some j → FairStep niche dist initial (before ++ js.take i) j) ∧
      c'.length = count.length ∧
      ∀ c, c < count.length → c'.getD c 0 = initial c + occupants niche (before ++ js) c := by
  induction n generalizing t mask count before with
  | zero =>
    refine ⟨[], count, rfl, rfl, by simp, rfl, fun c hc => by simpa using hcount c hc⟩
  | succ n ih =>
    obtain ⟨j, next, hr, h1, h2, h3, h4⟩ := nicheRound_spec rnd hsh t niche dist mask count hlen hd
      (exists_true_of_avail (by omega))
    have hjl : j < niche.length := (List.getElem?_eq_some_iff.1 h2).1
    have hnl : next < count.length := hniche next (List.mem_of_getElem? h2)
    have hfair : FairStep niche dist initial before j := by
      refine ⟨⟨hjl, (hmask j hjl).1 h1⟩, ?_, ?_⟩
      · intro k c d hk hc hdd
        rw [h2] at hc; cases hc
        have hkl : k < niche.length := (List.getElem?_eq_some_iff.1 hdd).1
        have := h3 k d ((hmask k hkl).2 hk) hdd
        rwa [hcount _ hnl, hcount _ (hniche d (List.mem_of_getElem? hdd))] at this
      · intro k c x y hk hc hkc h0 hx hy
        rw [h2] at hc; cases hc
        have hkl : k < niche.length := (List.getElem?_eq_some_iff.1 hkc).1
        refine h4 (by rw [hcount _ hnl]; exact h0) k x y ((hmask k hkl).2 hk) hkc hx hy
    have hav := avail_set h1
    obtain ⟨js, c', e1, e2, e3, e4, e5⟩ := ih (t + 1) (mask.set j false) (count.set next (count.getD next 0 + 1))
      (before ++ [j]) (by simpa using hlen) (by
        intro k hk
        rw [List.getElem?_set]
        by_cases hkj : j = k
        · subst hkj; simp [hlen, hk]
        · simp only [if_neg hkj, hmask k hk, List.mem_append, List.mem_singleton, not_or]
          exact ⟨fun h => ⟨h, fun h' => hkj h'.symm⟩, fun h => h.1⟩)
      (by simpa using hniche) (by
        intro c hc
        rw [List.length_set] at hc
        have hocc : occupants niche (before ++ [j]) c = occupants niche before c + (if next = c then 1 else 0) := by
          unfold occupants
          rw [List.filter_append, List.length_append]
          congr 1
          simp only [List.filter_cons, h2, List.filter_nil]
          by_cases hnc : next = c
          · simp [hnc]
          · simp [hnc]
        rw [hocc, List.getD_eq_getElem?_getD, List.getElem?_set]
        by_cases hnc : next = c
        · subst hnc
          simp only [if_true, hnl, Option.getD_some, hcount _ hnl]
          omega
        · simp only [if_neg hnc, Nat.add_zero]
          rw [← List.getD_eq_getElem?_getD]
          exact hcount c hc) (by omega)
    refine ⟨j :: js, c', by simp only [niching, hr, e1], by simp [e2], ?_, by simpa using e4, ?_⟩
    · intro i k hk
      cases i with
      | zero =>
        simp only [List.getElem?_cons_zero, Option.some.injEq] at hk
        subst hk
        simpa using hfair
      | succ i =>
        simp only [List.getElem?_cons_succ] at hk
        have := e3 i k hk
        simpa [List.append_assoc] using this
    · intro c hc
      have := e5 c (by simpa using hc)
      simpa [List.append_assoc] using this

end Niching

theorem fairRun_nodup {K : Type} [LinearOrder K] (niche : List Nat) (dist : List K) (initial : Nat → Nat) (before js : List Nat)
    (h : ∀ (i j : Nat), js[i]? = some j → FairStep niche dist initial (before ++ js.take i) j) :
    js.Nodup ∧ ∀ j ∈ js, j < niche.length := by
  constructor
  · rw [List.nodup_iff_getElem?_ne_getElem?]
    intro i k hik hk he
    obtain ⟨x, hx⟩ : ∃ x, js[k]? = some x := ⟨_, List.getElem?_eq_getElem hk⟩
    have hf := (h k x hx).fresh.2
    refine hf (List.mem_append_right _ ?_)
    rw [List.mem_take_iff_getElem]
    rw [hx] at he
    obtain ⟨hi, hxe⟩ := List.getElem?_eq_some_iff.1 he
    exact ⟨i, by omega, hxe⟩
  · intro j hj
    obtain ⟨i, hi⟩ := List.mem_iff_getElem?.1 hj
    exact (h i j hi).fresh.1

/-! ## Fronts -/

theorem acceptedFronts_some {n : Nat} {fronts fs : List (List Nat)} (h : acceptedFronts n fronts = some fs) :
    ∃ i, i < fronts.length ∧ fs = fronts.take (i + 1) ∧ n ≤ fs.flatten.length ∧
      (∀ j, j < i → ((fronts.take (j + 1)).flatten).length < n) := by
  unfold acceptedFronts at h
  rw [Option.map_eq_some_iff] at h
  obtain ⟨i, hi, rfl⟩ := h
  obtain ⟨h1, h2⟩ := List.find?_range_eq_some.1 hi |>.imp_right id
  refine ⟨i, ?_, rfl, by simpa using h1, ?_⟩
  · have := List.mem_of_find?_eq_some hi; simpa using this
  · intro j hj
    have := h2.2 j hj
    simpa using this

theorem acceptedFronts_none {n : Nat} {fronts : List (List Nat)} (h : acceptedFronts n fronts = none) (hne : fronts ≠ []) :
    fronts.flatten.length < n := by
  unfold acceptedFronts at h
  rw [Option.map_eq_none_iff, List.find?_eq_none] at h
  have hpos : 0 < fronts.length := List.length_pos_iff.2 hne
  have := h (fronts.length - 1) (by simp; omega)
  rw [Nat.sub_add_cancel hpos, List.take_length] at this
  simpa using this

end Verif
