import Verif.Model.NaNNsga
import Verif.Proofs.NaNSelect
import Verif.Props.NSGA3

/-!
# C112: NaN fitness values in NSGA-III
-/

namespace Verif.Props

open Verif Verif.Spec Verif.Proofs
variable {m : Nat}

/-- `n` draws without replacement from the places `av`: each time the first of a shuffle of those still there.  Nothing else enters. -/
def luckyDraws (shuffle : Nat → List Nat → List Nat) : Nat → Nat → List Nat → List Nat
  | 0, _, _ => []
  | n + 1, t, av =>
    match shuffle t av with
    | [] => []
    | j :: _ => j :: luckyDraws shuffle n (t + 1) (av.filter (fun k => k ≠ j))

/-- A NaN in objective `i`: in the point remembered so far or in somebody's fitness. -/
def NaNAt (i : Fin m) (st : NsgaN m) (fitness : List (NVec m)) : Prop := st.ideal i = none ∨ ∃ f ∈ fitness, f i = none

theorem whereIdx_eq (mask : List Bool) : whereIdx mask = (List.range mask.length).filter (fun k => mask[k]? == some true) := by
  have key : ∀ (mask : List Bool) (s : Nat), ((mask.zipIdx s).filter (fun p => p.1)).map (fun p => p.2) =
      (List.range' s mask.length).filter (fun k => mask[k - s]? == some true) := by
    intro mask
    induction mask with
    | nil => intro s; rfl
    | cons b bs ih =>
      intro s
      rw [List.zipIdx_cons, List.length_cons, List.range'_succ, List.filter_cons, List.filter_cons]
      have e : (List.range' (s + 1) bs.length).filter (fun k => (b :: bs)[k - s]? == some true) =
          (List.range' (s + 1) bs.length).filter (fun k => bs[k - (s + 1)]? == some true) := by
        apply List.filter_congr
        intro k hk
        have := (List.mem_range'_1.1 hk).1
        rw [show k - s = (k - (s + 1)) + 1 by omega, List.getElem?_cons_succ]
      rw [e]
      cases b
      · simp [ih]
      · simp [ih]
  have := key mask 0
  simpa [whereIdx, List.range_eq_range'] using this

theorem whereIdx_set (mask : List Bool) (j : Nat) : whereIdx (mask.set j false) = (whereIdx mask).filter (fun k => k ≠ j) := by
  rw [whereIdx_eq, whereIdx_eq, List.length_set, List.filter_filter]
  apply List.filter_congr
  intro k hk
  rw [List.getElem?_set]
  by_cases h : j = k
  · subst h
    simp
  · rw [if_neg h]
    simp [Ne.symm h]

theorem argmaxL_const {K : Type} [LinearOrder K] (d : K) (n : Nat) : argmaxL (List.replicate (n + 1) d) = .ok 0 := by
  have : ∀ (n i : Nat), argmaxGo 0 d i (List.replicate n d) = 0 := by
    intro n
    induction n with
    | zero => intro i; rfl
    | succ n ih =>
      intro i
      rw [List.replicate_succ]
      unfold argmaxGo
      rw [if_neg (lt_irrefl _)]
      exact ih _
  rw [List.replicate_succ]
  show Except.ok (argmaxGo 0 d 1 (List.replicate n d)) = _
  rw [this n 1]

theorem argminL_const {K : Type} [LinearOrder K] (d : K) (n : Nat) : argminL (List.replicate (n + 1) d) = .ok 0 :=
  argmaxL_const (K := Kᵒᵈ) d n

theorem npUnique_zeros (l : List Nat) (h : l ≠ []) (h0 : ∀ x ∈ l, x = 0) : npUnique l = [0] := by
  induction l with
  | nil => exact absurd rfl h
  | cons x xs ih =>
    have hx := h0 x (by simp)
    subst hx
    unfold npUnique
    rw [List.foldr_cons]
    by_cases hxs : xs = []
    · subst hxs; rfl
    · have := ih hxs (fun y hy => h0 y (List.mem_cons_of_mem _ hy))
      unfold npUnique at this
      rw [this]
      rfl

theorem compress_zeros (mask : List Bool) (n : Nat) : ∀ x ∈ compress mask (List.replicate n 0), x = 0 := by
  intro x hx
  obtain ⟨k, hk⟩ := (mem_compress_get mask _ x).1 hx
  have := List.mem_of_getElem? hk.2
  exact (List.mem_replicate.1 this).2

theorem niching_luck {K : Type} [LinearOrder K] (rnd : NicheRand) (hsh : ∀ t l, (rnd.shuffle t l).Perm l) (L : Nat) (d : K) :
    ∀ (n t : Nat) (mask : List Bool) (count : List Nat), mask.length = L → 0 < count.length → n ≤ (whereIdx mask).length →
    ∃ c, niching rnd (List.replicate L 0) (List.replicate L d) n t mask count = .ok (luckyDraws rnd.shuffle n t (whereIdx mask), c) := by
  intro n
  induction n with
  | zero => intro t mask count _ _ _; exact ⟨count, rfl⟩
  | succ n ih =>
    intro t mask count hm hc hn
    have hz : List.zipWith (fun a b => a == 0 && b) (List.replicate L 0) mask = mask := by
      apply List.ext_getElem?
      intro k
      rw [List.getElem?_zipWith, List.getElem?_replicate]
      by_cases hk : k < L
      · rw [if_pos hk, List.getElem?_eq_getElem (by omega)]
        simp
      · rw [if_neg hk, List.getElem?_eq_none (by omega)]
    obtain ⟨j, av, hs⟩ : ∃ j av, rnd.shuffle t (whereIdx mask) = j :: av := by
      cases h : rnd.shuffle t (whereIdx mask) with
      | nil =>
        have := (hsh t (whereIdx mask)).length_eq
        rw [h] at this
        simp at this
        omega
      | cons j av => exact ⟨j, av, rfl⟩
    have hmem : ∀ k ∈ j :: av, k < L := by
      intro k hk
      have hk' : k ∈ whereIdx mask := (hsh t _).mem_iff.1 (by rw [hs]; exact hk)
      rw [whereIdx_eq] at hk'
      have := (List.mem_filter.1 hk').1
      rw [List.mem_range] at this
      omega
    have hj : j ∈ whereIdx mask := (hsh t _).mem_iff.1 (by rw [hs]; simp)
    have hcomp : compress mask (List.replicate L 0) ≠ [] := by
      rw [whereIdx_eq] at hj
      have h1 := List.mem_filter.1 hj
      have hjm : mask[j]? = some true := by simpa using h1.2
      refine List.ne_nil_of_mem ((mem_compress_get mask _ 0).2 ⟨j, hjm, ?_⟩)
      rw [List.getElem?_replicate, if_pos (hmem j (by simp))]
    have hdist : (j :: av).filterMap (fun k => (List.replicate L d)[k]?) = List.replicate (av.length + 1) d := by
      rw [List.eq_replicate_iff]
      have e : (j :: av).filterMap (fun k => (List.replicate L d)[k]?) = (j :: av).map (fun _ => d) := by
        rw [← List.filterMap_eq_map]
        apply List.filterMap_congr
        intro k hk
        rw [List.getElem?_replicate, if_pos (hmem k hk)]
        rfl
      rw [e]
      simp
    have hround : nicheRound rnd t (List.replicate L 0) (List.replicate L d) mask count = .ok (j, 0) := by
      unfold nicheRound
      rw [npUnique_zeros _ hcomp (compress_zeros mask L)]
      simp only [List.map_cons, List.map_nil, minNat, List.foldl_nil, List.filter_cons, beq_self_eq_true, if_true, List.filter_nil,
        List.length_singleton, Nat.mod_one, List.getElem?_cons_zero]
      rw [hz, hs, hdist, argminL_const]
      split <;> rfl
    unfold niching
    rw [hround]
    dsimp only
    have hw : (whereIdx (mask.set j false)).length + 1 = (whereIdx mask).length := by
      rw [whereIdx_set]
      have hnd : (whereIdx mask).Nodup := by rw [whereIdx_eq]; exact List.nodup_range.filter _
      have := List.length_erase_of_mem hj
      rw [hnd.erase_eq_filter] at this
      have h2 : 0 < (whereIdx mask).length := List.length_pos_of_mem hj
      have e : (whereIdx mask).filter (fun k => decide (k ≠ j)) = (whereIdx mask).filter (fun k => k != j) := by
        apply List.filter_congr; intro k _; by_cases h : k = j <;> simp [h]
      rw [e]
      omega
    obtain ⟨c, hc'⟩ := ih (t + 1) (mask.set j false) (count.set 0 (count.getD 0 0 + 1)) (by simpa using hm) (by simpa using hc) (by omega)
    refine ⟨c, ?_⟩
    rw [hc']
    dsimp only
    congr 2
    conv_rhs => unfold luckyDraws
    rw [hs]
    dsimp only
    rw [whereIdx_set]

theorem associateN_nan (refDirs : List (NVec m)) (hr : refDirs ≠ []) (ideal nadir : NVec m) (i : Fin m) (hi : ideal i = none) (fs : List (NVec m)) :
    associateN refDirs ideal nadir fs = .ok (List.replicate fs.length (0, ⊥)) := by
  induction fs with
  | nil => rfl
  | cons f fs ih =>
    have e : refDirs.map (perpDistN (nicheNormalN ideal nadir f)) = List.replicate refDirs.length ⊥ := by
      rw [List.eq_replicate_iff]
      refine ⟨by simp, ?_⟩
      intro x hx
      obtain ⟨u, -, rfl⟩ := List.mem_map.1 hx
      have : nicheNormalN ideal nadir f i = none := by
        unfold nicheNormalN
        rw [hi, nanSub_none_right]
        rfl
      unfold perpDistN
      rw [numbers_none _ i this]
    obtain ⟨k, hk⟩ : ∃ k, refDirs.length = k + 1 := ⟨refDirs.length - 1, by have := List.length_pos_iff.2 hr; omega⟩
    unfold associateN
    dsimp only
    rw [e, hk, argminL_const, ih]
    dsimp only
    rw [List.length_cons, List.replicate_succ (n := fs.length)]
    simp [List.replicate_succ]

theorem argminN_total {K : Type} [LinearOrder K] (l : List (Option K)) (h : l ≠ []) : ∃ k, argminN l = .ok k ∧ k < l.length := by
  unfold argminN
  cases hf : l.findIdx? Option.isNone with
  | some i => exact ⟨i, rfl, (List.findIdx?_eq_some_iff_getElem.1 hf).1⟩
  | none =>
    have hall : ∀ x ∈ l, x.isNone = false := by simpa [List.findIdx?_eq_none_iff] using hf
    have hlen : (l.filterMap id).length = l.length := by
      clear hf h
      induction l with
      | nil => rfl
      | cons x xs ih =>
        have := hall x (by simp)
        cases x with
        | none => simp at this
        | some a =>
          have := ih (fun y hy => hall y (List.mem_cons_of_mem _ hy))
          show (a :: xs.filterMap id).length = _
          rw [List.length_cons, List.length_cons, this]
    obtain ⟨k, hk⟩ := argminL_total (l.filterMap id) (by
      intro e
      rw [e] at hlen
      exact h (List.length_eq_zero_iff.1 hlen.symm))
    refine ⟨k, hk, ?_⟩
    obtain ⟨v, hv, -⟩ := argminL_spec _ _ hk
    rw [← hlen]
    exact (List.getElem?_eq_some_iff.1 hv).1

theorem extremePointsN_total (front : List (NVec m)) (ideal : NVec m) (old : Option (List (NVec m))) (h : front ≠ []) :
    ∃ ext, extremePointsN front ideal old = .ok ext := by
  apply mapM_except_total
  intro k _
  have hp : extremePoolN front old ≠ [] := by
    cases old with
    | none => exact h
    | some e => simp [extremePoolN, h]
  obtain ⟨j, hj, hl⟩ := argminN_total ((extremePoolN front old).map (asfN ideal k)) (by simpa using hp)
  rw [List.length_map] at hl
  refine ⟨(extremePoolN front old)[j], ?_⟩
  unfold extremeRowN
  rw [hj]
  dsimp only
  rw [List.getElem?_eq_getElem hl]

theorem nsgaPointsN_ideal (solve : List (NVec m) → Option (NVec m)) (st : NsgaN m) (fitness : List (NVec m)) (f0 : List Nat) (i : Fin m)
    (hn : NaNAt i st fitness) : (nsgaPointsN solve st fitness f0).2.ideal i = none := by
  unfold nsgaPointsN
  cases fitness with
  | nil =>
    rcases hn with h | ⟨f, hf, -⟩
    · exact h
    · simp at hf
  | cons r rs =>
    have e : nanMin2 (st.ideal i) (rs.foldl (fun a b i => nanMin2 (a i) (b i)) r i) = none := by
      rcases hn with h | ⟨f, hf, h⟩
      · rw [h, nanMin2_none_left]
      · rw [foldl_nan i rs r ?_, nanMin2_none_right]
        rcases List.mem_cons.1 hf with rfl | hf
        · exact .inl h
        · exact .inr ⟨f, hf, h⟩
    simp only [colMinN, colMaxN]
    split
    · exact e
    · split <;> exact e

theorem nsgaPointsN_total (solve : List (NVec m) → Option (NVec m)) (st : NsgaN m) (fitness : List (NVec m)) (f0 : List Nat)
    (hf : fitness ≠ []) (h0 : f0 ≠ []) : ∃ nadir, (nsgaPointsN solve st fitness f0).1 = .ok nadir := by
  cases fitness with
  | nil => exact absurd rfl hf
  | cons r rs =>
    cases f0 with
    | nil => exact absurd rfl h0
    | cons j js =>
      unfold nsgaPointsN
      simp only [colMinN, colMaxN, List.map_cons]
      obtain ⟨ext, he⟩ := extremePointsN_total (((r :: rs).getD j (fun _ => none)) :: js.map (fun j => (r :: rs).getD j (fun _ => none)))
        (fun i => nanMin2 (st.ideal i) (rs.foldl (fun a b i => nanMin2 (a i) (b i)) r i)) st.extreme (by simp)
      rw [he]
      exact ⟨_, rfl⟩

theorem acceptedFronts_split (before : List (List Nat)) (last : List Nat) (rest : List (List Nat)) (n : Nat)
    (h1 : before.flatten.length < n) (h2 : n ≤ before.flatten.length + last.length) :
    acceptedFronts n (before ++ last :: rest) = some (before ++ [last]) := by
  have ht : (before ++ last :: rest).take (before.length + 1) = before ++ [last] := by simp [List.take_append]
  unfold acceptedFronts
  have : (List.range (before ++ last :: rest).length).find?
      (fun i => decide (n ≤ (((before ++ last :: rest).take (i + 1)).flatten).length)) = some before.length := by
    rw [List.find?_range_eq_some]
    refine ⟨?_, by simp, ?_⟩
    · rw [ht]; simpa using h2
    · intro j hj
      have e : (before ++ last :: rest).take (j + 1) = before.take (j + 1) := by
        rw [List.take_append_of_le_length (by omega)]
      rw [e]
      have : (before.take (j + 1)).flatten.length ≤ before.flatten.length := by
        conv_rhs => rw [← List.take_append_drop (j + 1) before, List.flatten_append, List.length_append]
        omega
      simp only [Bool.not_eq_true', decide_eq_false_iff_not]
      omega
  rw [this, Option.map_some, ht]

/-- C112. A NaN in objective `i`, of anybody or in the remembered ideal point: the ideal point is NaN there afterwards, whether or not the
selection raised. -/
theorem c112_nan_is_remembered (sort : List (NVec m) → List (List Nat)) (solve : List (NVec m) → Option (NVec m)) (rnd : NicheRand)
    (refDirs : List (NVec m)) (nSurvive : Option Nat) (st : NsgaN m) (fitness : List (NVec m)) (i : Fin m) (hn : NaNAt i st fitness)
    (hs : sort fitness ≠ []) : (nsgaDoN sort solve rnd refDirs nSurvive st fitness).2.ideal i = none := by
  unfold nsgaDoN
  cases hc : sort fitness with
  | nil => exact absurd hc hs
  | cons f0 rest =>
    dsimp only
    have h := nsgaPointsN_ideal solve st fitness f0 i hn
    generalize nsgaPointsN solve st fitness f0 = r at h
    obtain ⟨r1, st'⟩ := r
    cases r1 with
    | error e => exact h
    | ok nadir =>
      dsimp only
      split
      · exact h
      · split
        · exact h
        · split <;> exact h

theorem nanMax2_none_left (a : Option ℝ) : nanMax2 none a = none := by cases a <;> rfl
theorem nanMax2_none_right (a : Option ℝ) : nanMax2 a none = none := by cases a <;> rfl

theorem foldlMax_nan (i : Fin m) (rs : List (NVec m)) : ∀ r : NVec m, (r i = none ∨ ∃ f ∈ rs, f i = none) →
    rs.foldl (fun a b i => nanMax2 (a i) (b i)) r i = none := by
  induction rs with
  | nil => intro r h; simpa using h
  | cons q rs ih =>
    intro r h
    rw [List.foldl_cons]
    apply ih
    rcases h with h | ⟨f, hf, h⟩
    · left; simp [h, nanMax2_none_left]
    · rcases List.mem_cons.1 hf with e | hf
      · subst e; left; simp [h, nanMax2_none_right]
      · exact .inr ⟨f, hf, h⟩

/-- C112. The same for the worst point: a NaN fitness value in objective `i`, or a NaN there already, and it is NaN there afterwards. -/
theorem c112_worst_is_nan (sort : List (NVec m) → List (List Nat)) (solve : List (NVec m) → Option (NVec m)) (rnd : NicheRand)
    (refDirs : List (NVec m)) (nSurvive : Option Nat) (st : NsgaN m) (fitness : List (NVec m)) (i : Fin m) (hf : fitness ≠ [])
    (hn : (∃ w, st.worst = some w ∧ w i = none) ∨ ∃ f ∈ fitness, f i = none) (hs : sort fitness ≠ []) :
    ∃ w, (nsgaDoN sort solve rnd refDirs nSurvive st fitness).2.worst = some w ∧ w i = none := by
  have h : ∀ f0, ∃ w, (nsgaPointsN solve st fitness f0).2.worst = some w ∧ w i = none := by
    intro f0
    unfold nsgaPointsN
    cases fitness with
    | nil => exact absurd rfl hf
    | cons r rs =>
      have e : newWorstN st.worst (rs.foldl (fun a b i => nanMax2 (a i) (b i)) r) i = none := by
        unfold newWorstN
        rcases hn with ⟨w, hw, h⟩ | ⟨f, hf, h⟩
        · rw [hw]
          dsimp only
          rw [h, nanMax2_none_left]
        · have hmax : rs.foldl (fun a b i => nanMax2 (a i) (b i)) r i = none := by
            apply foldlMax_nan i rs r
            rcases List.mem_cons.1 hf with rfl | hf
            · exact .inl h
            · exact .inr ⟨f, hf, h⟩
          cases st.worst with
          | none => exact hmax
          | some w => exact (congrArg (nanMax2 (w i)) hmax).trans (nanMax2_none_right _)
      simp only [colMinN, colMaxN]
      split
      · exact ⟨_, rfl, e⟩
      · split <;> exact ⟨_, rfl, e⟩
  unfold nsgaDoN
  cases hc : sort fitness with
  | nil => exact absurd hc hs
  | cons f0 rest =>
    dsimp only
    have h := h f0
    generalize nsgaPointsN solve st fitness f0 = r at h
    obtain ⟨r1, st'⟩ := r
    cases r1 with
    | error e => exact h
    | ok nadir =>
      dsimp only
      split
      · exact h
      · split
        · exact h
        · split <;> exact h

/-- One call of the selection operator with everything that may differ from call to call. -/
structure NsgaCallN (m : Nat) where
  sort : List (NVec m) → List (List Nat)
  solve : List (NVec m) → Option (NVec m)
  rnd : NicheRand
  refDirs : List (NVec m)
  nSurvive : Option Nat
  fitness : List (NVec m)

/-- The state after a sequence of calls. -/
noncomputable def nsgaCallsN (st : NsgaN m) : List (NsgaCallN m) → NsgaN m
  | [] => st
  | c :: cs => nsgaCallsN (nsgaDoN c.sort c.solve c.rnd c.refDirs c.nSurvive st c.fitness).2 cs

/-- C112. … and it stays NaN there for the rest of the run, whatever is selected from later. -/
theorem c112_for_ever (st : NsgaN m) (i : Fin m) (h : st.ideal i = none) (cs : List (NsgaCallN m)) : (nsgaCallsN st cs).ideal i = none := by
  induction cs generalizing st with
  | nil => exact h
  | cons c cs ih =>
    apply ih
    by_cases hs : c.sort c.fitness = []
    · unfold nsgaDoN
      rw [hs]
      exact h
    · exact c112_nan_is_remembered _ _ _ _ _ _ _ i (.inl h) hs

/-- C112. With a NaN, and a front that only fits in part: the whole fronts before it, and from it members drawn by lot.  No fitness value,
reference vector or state enters. -/
theorem c112_last_front_by_lot (sort : List (NVec m) → List (List Nat)) (solve : List (NVec m) → Option (NVec m)) (rnd : NicheRand)
    (hsh : ∀ t l, (rnd.shuffle t l).Perm l) (refDirs : List (NVec m)) (hr : refDirs ≠ []) (n : Nat) (st : NsgaN m) (fitness : List (NVec m))
    (i : Fin m) (hn : NaNAt i st fitness) (hf : fitness ≠ []) (before : List (List Nat)) (last : List Nat) (rest : List (List Nat))
    (hs : sort fitness = before ++ last :: rest) (hne : ∀ f ∈ before, f ≠ []) (h1 : before.flatten.length < n)
    (h2 : n < before.flatten.length + last.length) :
    (nsgaDoN sort solve rnd refDirs (some n) st fitness).1 =
      .ok (before.flatten ++ (luckyDraws rnd.shuffle (n - before.flatten.length) 0 (List.range last.length)).filterMap (fun j => last[j]?)) := by
  obtain ⟨f0, tl, hc, h0⟩ : ∃ f0 tl, before ++ last :: rest = f0 :: tl ∧ f0 ≠ [] := by
    cases before with
    | nil =>
      refine ⟨last, rest, rfl, ?_⟩
      intro e; subst e; simp at h1 h2
    | cons b bs => exact ⟨b, bs ++ last :: rest, rfl, hne b (by simp)⟩
  have hid := nsgaPointsN_ideal solve st fitness f0 i hn
  obtain ⟨nadir, hok⟩ := nsgaPointsN_total solve st fitness f0 hf h0
  unfold nsgaDoN
  rw [hs, hc]
  dsimp only
  generalize nsgaPointsN solve st fitness f0 = r at hid hok
  obtain ⟨r1, st'⟩ := r
  dsimp only at hid hok
  subst hok
  dsimp only
  rw [← hc, acceptedFronts_split before last rest n h1 (by omega)]
  dsimp only
  have hl : (before ++ [last]).flatten = before.flatten ++ last := by simp
  rw [if_pos (by rw [hl, List.length_append]; omega)]
  dsimp only [lastFrontChoiceN]
  rw [associateN_nan refDirs hr st'.ideal nadir i hid]
  dsimp only
  have e1 : (before ++ [last]).dropLast = before := by simp
  have e2 : (before ++ [last]).getLastD [] = last := by simp
  rw [e1, e2, hl, List.length_map, List.length_append]
  have e3 : (List.replicate (before.flatten.length + last.length) ((0 : Nat), (⊥ : WithBot ℝ))).drop before.flatten.length =
      List.replicate last.length (0, ⊥) := by simp
  rw [e3, List.map_replicate, List.map_replicate]
  have hw : whereIdx (List.replicate last.length true) = List.range last.length := by
    rw [whereIdx_eq, List.length_replicate, List.filter_eq_self]
    intro k hk
    simp [List.mem_range.1 hk]
  obtain ⟨c, hc'⟩ := niching_luck rnd hsh last.length (⊥ : WithBot ℝ) (n - before.flatten.length) 0 (List.replicate last.length true)
    (nicheCount refDirs.length (((List.replicate (before.flatten.length + last.length) ((0 : Nat), (⊥ : WithBot ℝ))).take
      before.flatten.length).map (fun p => p.1))) (by simp) (by simp [nicheCount, List.length_pos_iff.2 hr]) (by rw [hw, List.length_range]; omega)
  rw [hc', hw]

/-- C112. In other words: two calls with the same fronts, the same number of places and the same random numbers select the same places,
however much their fitness values, reference vectors (preferences) and earlier history differ. -/
theorem c112_nothing_else_matters (sort sort' : List (NVec m) → List (List Nat)) (solve solve' : List (NVec m) → Option (NVec m))
    (rnd : NicheRand) (hsh : ∀ t l, (rnd.shuffle t l).Perm l) (refDirs refDirs' : List (NVec m)) (hr : refDirs ≠ []) (hr' : refDirs' ≠ [])
    (n : Nat) (hn0 : 0 < n) (st st' : NsgaN m) (fitness fitness' : List (NVec m)) (i i' : Fin m) (hn : NaNAt i st fitness) (hn' : NaNAt i' st' fitness')
    (hf : fitness ≠ []) (hf' : fitness' ≠ []) (hs : sort fitness = sort' fitness') (hne : ∀ f ∈ sort fitness, f ≠ []) :
    (nsgaDoN sort solve rnd refDirs (some n) st fitness).1 = (nsgaDoN sort' solve' rnd refDirs' (some n) st' fitness').1 := by
  cases hc : sort fitness with
  | nil =>
    unfold nsgaDoN
    rw [← hs, hc]
  | cons f0 tl =>
    cases ha : acceptedFronts n (f0 :: tl) with
    | none =>
      obtain ⟨na, g⟩ := nsgaPointsN_total solve st fitness f0 hf (hne f0 (by simp [hc]))
      obtain ⟨na', g'⟩ := nsgaPointsN_total solve' st' fitness' f0 hf' (hne f0 (by simp [hc]))
      unfold nsgaDoN
      rw [← hs, hc]
      dsimp only
      generalize nsgaPointsN solve st fitness f0 = r at g
      generalize nsgaPointsN solve' st' fitness' f0 = r' at g'
      obtain ⟨r1, q⟩ := r
      obtain ⟨r1', q'⟩ := r'
      dsimp only at g g'
      subst g g'
      simp only [ha]
    | some fs =>
      obtain ⟨k, hk, rfl, hle, hlt⟩ := acceptedFronts_some ha
      by_cases hex : ((f0 :: tl).take (k + 1)).flatten.length > n
      · obtain ⟨b, l, re, e, hb⟩ : ∃ b l re, f0 :: tl = b ++ l :: re ∧ (f0 :: tl).take (k + 1) = b ++ [l] ∧ b = (f0 :: tl).take k :=
          ⟨(f0 :: tl).take k, (f0 :: tl)[k], (f0 :: tl).drop (k + 1), by
            rw [List.cons_getElem_drop_succ, List.take_append_drop], List.take_succ_eq_append_getElem hk, rfl⟩
        have hbl : b.flatten.length < n := by
          cases k with
          | zero => rw [hb.2]; simpa using hn0
          | succ k => rw [hb.2]; exact hlt k (by omega)
        have hl2 : n < b.flatten.length + l.length := by
          rw [hb.1] at hex
          simpa using hex
        have hbn : ∀ f ∈ b, f ≠ [] := fun f hf => hne f (by rw [hc, e]; simp [hf])
        rw [c112_last_front_by_lot sort solve rnd hsh refDirs hr n st fitness i hn hf b l re (hc.trans e) hbn hbl hl2,
          c112_last_front_by_lot sort' solve' rnd hsh refDirs' hr' n st' fitness' i' hn' hf' b l re (hs.symm.trans (hc.trans e)) hbn hbl hl2]
      · obtain ⟨na, g⟩ := nsgaPointsN_total solve st fitness f0 hf (hne f0 (by simp [hc]))
        obtain ⟨na', g'⟩ := nsgaPointsN_total solve' st' fitness' f0 hf' (hne f0 (by simp [hc]))
        unfold nsgaDoN
        rw [← hs, hc]
        dsimp only
        generalize nsgaPointsN solve st fitness f0 = r at g
        generalize nsgaPointsN solve' st' fitness' f0 = r' at g'
        obtain ⟨r1, q⟩ := r
        obtain ⟨r1', q'⟩ := r'
        dsimp only at g g'
        subst g g'
        simp only [ha]
        rw [if_neg hex, if_neg hex]

/-! ## Dominance with NaN -/

theorem dominatesN_acc (xs ys : List (Option ℝ)) : ∀ acc, dominatesN acc xs ys = true ↔
    (∀ (k : Nat) (x y : ℝ), xs[k]? = some (some x) → ys[k]? = some (some y) → x ≤ y) ∧
      (acc = true ∨ ∃ (k : Nat) (x y : ℝ), xs[k]? = some (some x) ∧ ys[k]? = some (some y) ∧ x < y) := by
  induction xs generalizing ys with
  | nil => intro acc; simp [dominatesN]
  | cons a as ih =>
    intro acc
    cases ys with
    | nil => simp [dominatesN]
    | cons b bs =>
      unfold dominatesN
      have split1 : ∀ P : Nat → Prop, (∀ k, P k) ↔ P 0 ∧ ∀ k, P (k + 1) := fun P =>
        ⟨fun h => ⟨h 0, fun k => h (k + 1)⟩, fun h k => by cases k with | zero => exact h.1 | succ k => exact h.2 k⟩
      have split2 : ∀ P : Nat → Prop, (∃ k, P k) ↔ P 0 ∨ ∃ k, P (k + 1) := fun P =>
        ⟨fun ⟨k, h⟩ => by cases k with | zero => exact .inl h | succ k => exact .inr ⟨k, h⟩,
          fun h => h.elim (fun h => ⟨0, h⟩) (fun ⟨k, h⟩ => ⟨k + 1, h⟩)⟩
      rw [split1 (fun k => ∀ x y : ℝ, (a :: as)[k]? = some (some x) → (b :: bs)[k]? = some (some y) → x ≤ y),
        split2 (fun k => ∃ x y : ℝ, (a :: as)[k]? = some (some x) ∧ (b :: bs)[k]? = some (some y) ∧ x < y)]
      simp only [List.getElem?_cons_zero, List.getElem?_cons_succ, Option.some.injEq]
      cases a with
      | none =>
        rw [if_neg (by cases b <;> simp [nanLt]), if_neg (by simp [nanLt]), ih bs acc]
        simp
      | some a =>
        cases b with
        | none =>
          rw [if_neg (by simp [nanLt]), if_neg (by simp [nanLt]), ih bs acc]
          simp
        | some b =>
          simp only [nanLt, decide_eq_true_eq, Option.some.injEq]
          by_cases h1 : b < a
          · rw [if_pos h1]
            constructor
            · intro h; exact absurd h (by simp)
            · intro h; exact absurd (h.1.1 a b rfl rfl) (not_le.2 h1)
          · rw [if_neg h1]
            by_cases h2 : a < b
            · rw [if_pos h2, ih bs true]
              constructor
              · rintro ⟨g1, -⟩
                exact ⟨⟨fun x y hx hy => by subst hx hy; exact h2.le, g1⟩, .inr (.inl ⟨a, b, rfl, rfl, h2⟩)⟩
              · rintro ⟨⟨-, g1⟩, -⟩
                exact ⟨g1, .inl rfl⟩
            · rw [if_neg h2, ih bs acc]
              have e : a = b := le_antisymm (not_lt.1 h1) (not_lt.1 h2)
              subst e
              constructor
              · rintro ⟨g1, g2⟩
                refine ⟨⟨fun x y hx hy => by subst hx hy; exact le_rfl, g1⟩, ?_⟩
                rcases g2 with g2 | g2
                · exact .inl g2
                · exact .inr (.inr g2)
              · rintro ⟨⟨-, g1⟩, g2⟩
                refine ⟨g1, ?_⟩
                rcases g2 with g2 | ⟨x, y, hx, hy, hxy⟩ | g2
                · exact .inl g2
                · subst hx hy; exact absurd hxy (lt_irrefl _)
                · exact .inr g2

/-- C112. Dominance between rows of floats: components where either is NaN are passed over. -/
theorem c112_dominance_skips_nan (xs ys : List (Option ℝ)) : dominatesN false xs ys = true ↔
    (∀ (k : Nat) (x y : ℝ), xs[k]? = some (some x) → ys[k]? = some (some y) → x ≤ y) ∧
      ∃ (k : Nat) (x y : ℝ), xs[k]? = some (some x) ∧ ys[k]? = some (some y) ∧ x < y := by
  rw [dominatesN_acc]
  simp

/-- C112. Without NaN it is the dominance used in C07–C09. -/
theorem c112_dominance_without_nan (xs ys : List ℝ) (acc : Bool) : dominatesN acc (xs.map some) (ys.map some) = dominatesAux acc xs ys := by
  induction xs generalizing ys acc with
  | nil => rfl
  | cons x xs ih =>
    cases ys with
    | nil => rfl
    | cons y ys =>
      simp only [List.map_cons, dominatesN, dominatesAux, nanLt, decide_eq_true_eq, ih]

/-- C112. So dominance is no longer an order: three individuals can dominate each other in a circle, and then all three are dominated. -/
theorem c112_dominance_cycle :
    ∃ a b c : List (Option ℝ), dominatesN false a b = true ∧ dominatesN false b c = true ∧ dominatesN false c a = true := by
  refine ⟨[some 1, some 2, none], [some 2, none, some 1], [none, some 1, some 2], ?_, ?_, ?_⟩ <;>
    simp [dominatesN, nanLt]

/-- C112. And a row of NaN only is never dominated and dominates nobody: the archive accepts it and never lets it go. -/
theorem c112_all_nan_row (xs : List (Option ℝ)) (h : ∀ x ∈ xs, x = none) (ys : List (Option ℝ)) :
    dominatesN false xs ys = false ∧ dominatesN false ys xs = false := by
  constructor
  · rw [Bool.eq_false_iff, Ne, c112_dominance_skips_nan]
    rintro ⟨-, k, x, y, hx, -⟩
    exact absurd (h _ (List.mem_of_getElem? hx)) (by simp)
  · rw [Bool.eq_false_iff, Ne, c112_dominance_skips_nan]
    rintro ⟨-, k, x, y, -, hy, -⟩
    exact absurd (h _ (List.mem_of_getElem? hy)) (by simp)

theorem checkNew_free (dom : F → F → Bool) (x : F) (h : ∀ y, dom x y = false ∧ dom y x = false) (as : List F) :
    ∀ ms, checkNew dom x as ms = (true, ms) := by
  induction as with
  | nil => intro ms; cases ms <;> rfl
  | cons a as ih =>
    intro ms
    cases ms with
    | nil => rfl
    | cons b ms =>
      unfold checkNew
      simp only [(h a).1, (h a).2, ih ms, Bool.false_eq_true, if_false]
      split <;> rfl

theorem checkNew_keeps (dom : F → F → Bool) (x : F) (as : List F) (j : Nat) (a : F) (ha : as[j]? = some a) (h : dom x a = false) :
    ∀ ms : List Bool, ms[j]? = some true → (checkNew dom x as ms).2[j]? = some true := by
  induction as generalizing j with
  | nil => simp at ha
  | cons b as ih =>
    intro ms hm
    cases ms with
    | nil => simp at hm
    | cons c ms =>
      unfold checkNew
      cases j with
      | zero =>
        simp only [List.getElem?_cons_zero, Option.some.injEq] at ha hm
        subst ha hm
        simp only [Bool.not_true, Bool.false_eq_true, if_false, h]
        split <;> simp
      | succ j =>
        simp only [List.getElem?_cons_succ] at ha hm
        have := ih j ha ms hm
        split
        · simpa using this
        · split
          · simpa using hm
          · split <;> simpa using this

/-- C112. `check_domination` with NaN rows: a new row of NaN only is reported as non-dominated against every archive, and an archived row of
NaN only is never reported as dominated, whatever arrives. -/
theorem c112_nan_rows_pile_up (new archive : List (List (Option ℝ))) :
    (∀ (i : Nat) (x : List (Option ℝ)), new[i]? = some x → (∀ v ∈ x, v = none) → (checkDomination (dominatesN false) new archive).1[i]? = some true) ∧
    (∀ (j : Nat) (a : List (Option ℝ)), archive[j]? = some a → (∀ v ∈ a, v = none) →
      (checkDomination (dominatesN false) new archive).2[j]? = some true) := by
  constructor
  · unfold checkDomination
    generalize List.replicate archive.length true = ms
    induction new generalizing ms with
    | nil => intro i x hx; simp at hx
    | cons y new ih =>
      intro i x hx hnan
      unfold checkAll
      cases i with
      | zero =>
        simp only [List.getElem?_cons_zero, Option.some.injEq] at hx
        subst hx
        rw [checkNew_free _ y (fun z => c112_all_nan_row y hnan z)]
        rfl
      | succ i =>
        simp only [List.getElem?_cons_succ] at hx
        simpa using ih _ i x hx hnan
  · intro j a ha hnan
    unfold checkDomination
    have key : ∀ (new : List (List (Option ℝ))) (ms : List Bool), ms[j]? = some true → (checkAll (dominatesN false) archive new ms).2[j]? = some true := by
      intro new
      induction new with
      | nil => intro ms h; exact h
      | cons y new ih =>
        intro ms h
        exact ih _ (checkNew_keeps _ y archive j a ha (c112_all_nan_row a hnan y).2 ms h)
    apply key
    rw [List.getElem?_replicate, if_pos (List.getElem?_eq_some_iff.1 ha).1]

/-- C112. An individual with a NaN in one objective evicts an archived one that is better, by however much, in that objective. -/
theorem c112_nan_evicts (x y z : ℝ) (h : x < y) :
    checkDomination (dominatesN false) [[some x, none]] [[some y, some z]] = ([true], [false]) := by
  have h1 : dominatesN false [some y, some z] [some x, none] = false := by simp [dominatesN, nanLt, h]
  have h2 : dominatesN false [some x, none] [some y, some z] = true := by simp [dominatesN, nanLt, h, h.le, not_lt.2 h.le]
  simp [checkDomination, checkAll, checkNew, h1, h2]

/-! ## Without NaN -/

/-- The state seen as floats. -/
def liftNsga (st : Nsga m) : NsgaN m := ⟨asN st.ideal, st.worst.map asN, st.extreme.map (fun e => e.map asN)⟩

theorem foldlMax_asN (rs : List (Vec m)) : ∀ r : Vec m, (rs.map asN).foldl (fun a b i => nanMax2 (a i) (b i)) (asN r) =
    asN (rs.foldl (fun a b i => max (a i) (b i)) r) := by
  induction rs with
  | nil => exact fun r => rfl
  | cons q rs ih =>
    intro r
    rw [List.map_cons, List.foldl_cons, List.foldl_cons, ← ih]
    rfl

theorem colMaxN_asN (fs : List (Vec m)) : colMaxN (fs.map asN) = (colMax fs).map asN := by
  cases fs with
  | nil => rfl
  | cons r rs =>
    simp only [List.map_cons, colMaxN, colMax]
    rw [foldlMax_asN]
    rfl

theorem colMinN_asN (fs : List (Vec m)) : colMinN (fs.map asN) = (colMin fs).map asN := by
  cases fs with
  | nil => rfl
  | cons r rs =>
    simp only [List.map_cons, colMinN, colMin]
    rw [foldl_asN]
    rfl

theorem asfN_asN (ideal : Vec m) (k : Fin m) (f : Vec m) : asfN (asN ideal) k (asN f) = some (asf ideal k f) := by
  have e : (fun i => nanSub (asN f i) (asN ideal i)) = asN (fun i => f i - ideal i) := rfl
  unfold asfN
  rw [e, numbers_asN]
  rfl

theorem argminN_some' {K : Type} [LinearOrder K] (l : List K) : argminN (l.map some) = argminL l := by
  unfold argminN
  have : (l.map some).findIdx? Option.isNone = none := by
    rw [List.findIdx?_eq_none_iff]
    intro x hx
    obtain ⟨a, -, rfl⟩ := List.mem_map.1 hx
    rfl
  rw [this]
  simp [List.filterMap_map]

theorem extremeRowN_asN (pool : List (Vec m)) (ideal : Vec m) (k : Fin m) :
    extremeRowN (pool.map asN) (asN ideal) k = (extremeRow pool ideal k).map asN := by
  unfold extremeRowN extremeRow
  have e : (pool.map asN).map (asfN (asN ideal) k) = (pool.map (asf ideal k)).map some := by
    simp only [List.map_map]
    exact List.map_congr_left (fun f _ => asfN_asN ideal k f)
  rw [e, argminN_some']
  cases argminL (pool.map (asf ideal k)) with
  | error e => rfl
  | ok j =>
    dsimp only
    rw [List.getElem?_map]
    cases pool[j]? <;> rfl

theorem mapM_mapN {α β γ : Type} (g : β → γ) (f : α → Except Err β) (f' : α → Except Err γ) (h : ∀ a, f' a = (f a).map g) (l : List α) :
    l.mapM f' = (l.mapM f).map (fun bs => bs.map g) := by
  induction l with
  | nil => rfl
  | cons a l ih =>
    rw [List.mapM_cons, List.mapM_cons, ih, h]
    cases f a with
    | error e => rfl
    | ok b => cases l.mapM f <;> rfl

theorem extremePointsN_asN (front : List (Vec m)) (ideal : Vec m) (old : Option (List (Vec m))) :
    extremePointsN (front.map asN) (asN ideal) (old.map (fun e => e.map asN)) = (extremePoints front ideal old).map (fun e => e.map asN) := by
  unfold extremePointsN extremePoints
  have e : extremePoolN (front.map asN) (old.map (fun e => e.map asN)) = (extremePool front old).map asN := by
    cases old with
    | none => rfl
    | some e => simp [extremePoolN, extremePool]
  rw [e]
  exact mapM_mapN asN _ _ (extremeRowN_asN _ _) _

theorem nadirPointN_asN (solveN : List (NVec m) → Option (NVec m)) (solve : List (Vec m) → Option (Vec m))
    (hsol : ∀ M, solveN (M.map asN) = (solve M).map asN) (ext : List (Vec m)) (ideal worst wof wop : Vec m) :
    nadirPointN solveN (ext.map asN) (asN ideal) (asN worst) (asN wof) (asN wop) = asN (nadirPoint solve ext ideal worst wof wop) := by
  have hM : (ext.map asN).map (fun (e : NVec m) i => nanSub (e i) (asN ideal i)) = (ext.map (fun e i => e i - ideal i)).map asN := by
    simp only [List.map_map]
    rfl
  have hfin : ∀ nad : Vec m, (fun i => if nanLe (nanSub (asN nad i) (asN ideal i)) (some (1 / 10 ^ 6)) then asN wop i else asN nad i) =
      asN (fun i => if nad i - ideal i ≤ 1 / 10 ^ 6 then wop i else nad i) := by
    intro nad
    funext i
    simp only [asN, nanSub, nanLe, decide_eq_true_eq]
    split <;> rfl
  unfold nadirPointN nadirPoint
  dsimp only
  rw [hM, hsol]
  cases solve (ext.map (fun e i => e i - ideal i)) with
  | none => exact hfin wof
  | some plane =>
    have hclose : planeCloseN (ext.map asN) (asN ideal) (asN plane) ↔ planeClose ext ideal plane := by
      have hd : ∀ e : Vec m, nanDot (fun i => nanSub (asN e i) (asN ideal i)) (asN plane) = some (∑ i, (e i - ideal i) * plane i) := by
        intro e
        have : (fun i => nanSub (asN e i) (asN ideal i)) = asN (fun i => e i - ideal i) := rfl
        unfold nanDot
        rw [this, numbers_asN, numbers_asN]
      unfold planeCloseN planeClose
      constructor
      · intro h e he
        obtain ⟨d, hd', hle⟩ := h (asN e) (List.mem_map_of_mem he)
        rw [hd e] at hd'
        injection hd' with hd'
        rw [hd']; exact hle
      · intro h e he
        obtain ⟨e', he', rfl⟩ := List.mem_map.1 he
        exact ⟨_, hd e', h e' he'⟩
    have hcond : (planeCloseN (ext.map asN) (asN ideal) (asN plane) ∧
        (∀ i, ¬ nanLe (nanDiv (some 1) (asN plane i)) (some (1 / 10 ^ 6)) = true) ∧
        ∀ i, ¬ nanLt (asN worst i) (nanAdd (asN ideal i) (nanDiv (some 1) (asN plane i))) = true) ↔
        (planeClose ext ideal plane ∧ (∀ i, ¬ 1 / plane i ≤ 1 / 10 ^ 6) ∧ ∀ i, ideal i + 1 / plane i ≤ worst i) := by
      rw [hclose]
      simp only [asN, nanDiv, nanAdd, nanLe, nanLt, decide_eq_true_eq, not_lt]
    simp only [Option.map_some]
    by_cases hc : planeClose ext ideal plane ∧ (∀ i, ¬ 1 / plane i ≤ 1 / 10 ^ 6) ∧ ∀ i, ideal i + 1 / plane i ≤ worst i
    · rw [if_pos (hcond.2 hc), if_pos hc]
      exact hfin (fun i => ideal i + 1 / plane i)
    · rw [if_neg (fun h => hc (hcond.1 h)), if_neg hc]
      exact hfin wof

theorem newWorstN_asN (worst : Option (Vec m)) (wp : Vec m) : newWorstN (worst.map asN) (asN wp) = asN (newWorst worst wp) := by
  cases worst <;> rfl

theorem getD_asN (fitness : List (Vec m)) (l : List Nat) (h : ∀ j ∈ l, j < fitness.length) :
    l.map (fun j => (fitness.map asN).getD j (fun _ => none)) = (l.map (fun j => fitness.getD j 0)).map asN := by
  rw [List.map_map]
  apply List.map_congr_left
  intro j hj
  have := h j hj
  simp [List.getD_eq_getElem?_getD, List.getElem?_eq_getElem this]

theorem nsgaPointsN_asN (solveN : List (NVec m) → Option (NVec m)) (solve : List (Vec m) → Option (Vec m))
    (hsol : ∀ M, solveN (M.map asN) = (solve M).map asN) (st : Nsga m) (fitness : List (Vec m)) (f0 : List Nat) (h0 : ∀ j ∈ f0, j < fitness.length) :
    nsgaPointsN solveN (liftNsga st) (fitness.map asN) f0 =
      ((nsgaPoints solve st fitness f0).1.map asN, liftNsga (nsgaPoints solve st fitness f0).2) := by
  unfold nsgaPointsN nsgaPoints
  rw [colMinN_asN, colMaxN_asN]
  cases colMin fitness with
  | error e => rfl
  | ok fmin =>
    cases colMax fitness with
    | error e => rfl
    | ok fmax =>
      simp only [Except.map, getD_asN fitness f0 h0, colMaxN_asN]
      cases colMax (f0.map (fun j => fitness.getD j 0)) with
      | error e => exact Prod.ext rfl (congrArg₂ (fun a b => NsgaN.mk a (some b) _) rfl (newWorstN_asN _ _))
      | ok wfront =>
        dsimp only
        have hid : (fun i => nanMin2 ((liftNsga st).ideal i) (asN fmin i)) = asN (nsgaExtremes st fmin fmax).ideal := rfl
        have hex : (liftNsga st).extreme = (nsgaExtremes st fmin fmax).extreme.map (fun e => e.map asN) := rfl
        have hw : newWorstN (liftNsga st).worst (asN fmax) = asN (newWorst st.worst fmax) := newWorstN_asN _ _
        simp only [hid, hex, hw, extremePointsN_asN]
        cases extremePoints (f0.map (fun j => fitness.getD j 0)) (nsgaExtremes st fmin fmax).ideal (nsgaExtremes st fmin fmax).extreme with
        | error e => rfl
        | ok ext =>
          simp only [Except.map]
          rw [nadirPointN_asN solveN solve hsol]
          rfl

theorem argmaxGo_map {K L : Type} [LinearOrder K] [LinearOrder L] (g : K → L) (hg : StrictMono g) (l : List K) :
    ∀ (bi : Nat) (b : K) (i : Nat), argmaxGo bi (g b) i (l.map g) = argmaxGo bi b i l := by
  induction l with
  | nil => intro bi b i; rfl
  | cons x xs ih =>
    intro bi b i
    rw [List.map_cons]
    unfold argmaxGo
    simp only [hg.lt_iff_lt, ih]

theorem argmaxL_map {K L : Type} [LinearOrder K] [LinearOrder L] (g : K → L) (hg : StrictMono g) (l : List K) :
    argmaxL (l.map g) = argmaxL l := by
  cases l with
  | nil => rfl
  | cons x xs =>
    simp only [List.map_cons, argmaxL]
    rw [argmaxGo_map g hg]

theorem argminL_map {K L : Type} [LinearOrder K] [LinearOrder L] (g : K → L) (hg : StrictMono g) (l : List K) :
    argminL (l.map g) = argminL l := by
  unfold argminL
  have hg' : StrictMono (fun x : Kᵒᵈ => (OrderDual.toDual (g (OrderDual.ofDual x)) : Lᵒᵈ)) := fun a b h => hg h
  exact @argmaxL_map Kᵒᵈ Lᵒᵈ _ _ _ hg' l

theorem niching_map {K L : Type} [LinearOrder K] [LinearOrder L] (g : K → L) (hg : StrictMono g) (rnd : NicheRand) (niche : List Nat)
    (dist : List K) : ∀ (n t : Nat) (mask : List Bool) (count : List Nat),
    niching rnd niche (dist.map g) n t mask count = niching rnd niche dist n t mask count := by
  intro n
  induction n with
  | zero => intro t mask count; rfl
  | succ n ih =>
    intro t mask count
    have hr : nicheRound rnd t niche (dist.map g) mask count = nicheRound rnd t niche dist mask count := by
      have e : ∀ l : List Nat, l.filterMap (fun j => (dist.map g)[j]?) = (l.filterMap (fun j => dist[j]?)).map g := by
        intro l
        rw [List.map_filterMap]
        apply List.filterMap_congr
        intro j _
        rw [List.getElem?_map]
      unfold nicheRound
      simp only [e, argminL_map g hg]
    unfold niching
    rw [hr]
    simp only [ih]

theorem associateN_asN (refDirs : List (Vec m)) (ideal nadir : Vec m) (fs : List (Vec m)) :
    associateN (refDirs.map asN) (asN ideal) (asN nadir) (fs.map asN) =
      (associate refDirs ideal nadir fs).map (fun nd => nd.map (fun p => (p.1, ((p.2 : ℝ) : WithBot ℝ)))) := by
  induction fs with
  | nil => rfl
  | cons f fs ih =>
    have hn : nicheNormalN (asN ideal) (asN nadir) (asN f) = asN (nicheNormal ideal nadir f) := by
      funext i
      simp only [nicheNormalN, nicheNormal, asN, nanSub, Option.some.injEq]
      split <;> rfl
    have e : (refDirs.map asN).map (perpDistN (nicheNormalN (asN ideal) (asN nadir) (asN f))) =
        (refDirs.map (perpDist (nicheNormal ideal nadir f))).map (fun x : ℝ => (x : WithBot ℝ)) := by
      rw [hn]
      simp only [List.map_map]
      apply List.map_congr_left
      intro u _
      simp only [Function.comp, perpDistN, numbers_asN]
    rw [List.map_cons]
    unfold associateN associate
    dsimp only
    rw [e, argminL_map (fun x : ℝ => (x : WithBot ℝ)) (fun _ _ h => WithBot.coe_lt_coe.2 h), ih]
    cases ha : argminL (refDirs.map (perpDist (nicheNormal ideal nadir f))) with
    | error e => rfl
    | ok a =>
      cases associate refDirs ideal nadir fs with
      | error e => rfl
      | ok as =>
        obtain ⟨v, hv, -⟩ := argminL_spec _ _ ha
        simp only [Except.map, List.map_cons, List.getD_eq_getElem?_getD, List.getElem?_map, hv, Option.map_some, Option.getD_some]

theorem lastFrontChoiceN_asN (rnd : NicheRand) (refDirs : List (Vec m)) (ideal nadir : Vec m) (n : Nat) (fitness : List (Vec m))
    (fronts : List (List Nat)) (h : ∀ f ∈ fronts, ∀ j ∈ f, j < fitness.length) :
    lastFrontChoiceN rnd (refDirs.map asN) (asN ideal) (asN nadir) n (fitness.map asN) fronts =
      lastFrontChoice rnd refDirs ideal nadir n fitness fronts := by
  unfold lastFrontChoiceN lastFrontChoice
  dsimp only
  rw [getD_asN fitness fronts.flatten (by
    intro j hj
    obtain ⟨f, hf, hj⟩ := List.mem_flatten.1 hj
    exact h f hf j hj), associateN_asN]
  cases associate refDirs ideal nadir (fronts.flatten.map (fun j => fitness.getD j 0)) with
  | error e => rfl
  | ok nd =>
    simp only [Except.map, ← List.map_take, ← List.map_drop, List.map_map, List.length_map]
    have e2 : (nd.drop fronts.dropLast.flatten.length).map ((fun p : Nat × WithBot ℝ => p.2) ∘ fun p : Nat × ℝ => (p.1, ((p.2 : ℝ) : WithBot ℝ))) =
        ((nd.drop fronts.dropLast.flatten.length).map (fun p => p.2)).map (fun x : ℝ => (x : WithBot ℝ)) := by
      rw [List.map_map]; rfl
    rw [e2, niching_map (fun x : ℝ => (x : WithBot ℝ)) (fun _ _ h => WithBot.coe_lt_coe.2 h)]
    rfl

/-- C112. When every value is a number, this is the selection of C33–C36 and C54: same outcome, same places, same state afterwards. -/
theorem c112_same_without_nan (sortN : List (NVec m) → List (List Nat)) (solveN : List (NVec m) → Option (NVec m))
    (sort : List (Vec m) → List (List Nat)) (solve : List (Vec m) → Option (Vec m)) (rnd : NicheRand) (refDirs : List (Vec m))
    (nSurvive : Option Nat) (st : Nsga m) (fitness : List (Vec m)) (hs : sortN (fitness.map asN) = sort fitness)
    (hsol : ∀ M, solveN (M.map asN) = (solve M).map asN) (hj : ∀ f ∈ sort fitness, ∀ j ∈ f, j < fitness.length) :
    nsgaDoN sortN solveN rnd (refDirs.map asN) nSurvive (liftNsga st) (fitness.map asN) =
      ((nsgaDo sort solve rnd refDirs nSurvive st fitness).1, liftNsga (nsgaDo sort solve rnd refDirs nSurvive st fitness).2) := by
  unfold nsgaDoN nsgaDo
  rw [hs]
  cases hc : sort fitness with
  | nil => rfl
  | cons f0 rest =>
    dsimp only
    rw [nsgaPointsN_asN solveN solve hsol st fitness f0 (hj f0 (by simp [hc]))]
    generalize nsgaPoints solve st fitness f0 = r
    obtain ⟨r1, st'⟩ := r
    cases r1 with
    | error e => rfl
    | ok nadir =>
      simp only [Except.map]
      cases nSurvive with
      | none => rfl
      | some n =>
        dsimp only
        cases ha : acceptedFronts n (f0 :: rest) with
        | none => rfl
        | some fs =>
          dsimp only
          split
          · have hfs : ∀ f ∈ fs, ∀ j ∈ f, j < fitness.length := by
              obtain ⟨k, -, rfl, -⟩ := acceptedFronts_some ha
              intro f hf
              exact hj f (by rw [hc]; exact List.mem_of_mem_take hf)
            have := lastFrontChoiceN_asN rnd refDirs st'.ideal nadir n fitness fs hfs
            exact Prod.ext this rfl
          · rfl

/-- Non-vacuity: three individuals in one front, two places, the third has a NaN; if the shuffle always puts the last first, the two selected
are the third and the second, whatever the reference vectors. -/
example (refDirs : List (NVec 2)) (hr : refDirs ≠ []) (solve : List (NVec 2) → Option (NVec 2)) (st : NsgaN 2) :
    (nsgaDoN (fun _ => [[0, 1, 2]]) solve ⟨fun _ => 0, fun _ l => l.reverse⟩ refDirs (some 2) st
      [![some 0, some 1], ![some 1, some 0], ![some 5, none]]).1 = .ok [2, 1] := by
  refine (c112_last_front_by_lot (fun _ => [[0, 1, 2]]) solve _ (fun _ l => List.reverse_perm l) refDirs hr 2 st _ 1
    (.inr ⟨![some 5, none], by simp, rfl⟩) (by simp) [] [0, 1, 2] [] rfl (by simp) (by simp) (by simp)).trans ?_
  decide

end Verif.Props
