import Verif.Props.Indicator
import Verif.Spec.Lottery
import Mathlib.Data.Nat.Factorial.Basic
import Mathlib.Data.Fintype.BigOperators
import Mathlib.Algebra.BigOperators.Field
import Mathlib.Tactic.Linarith
import Mathlib.Tactic.FieldSimp
import Mathlib.Tactic.Ring

/-! C103: how likely the tournament is to make each individual a parent. -/

namespace Verif.Props

open Verif Verif.Spec

theorem ways_eq (N k : Nat) : ways N k = N.descFactorial k := by
  induction k generalizing N with
  | zero => cases N <;> simp [ways]
  | succ k ih =>
    cases N with
    | zero => simp [ways]
    | succ N => rw [ways, ih, Nat.succ_descFactorial_succ]

theorem ways_succ_sub (N k : Nat) : ways (N + 1) (k + 1) = (k + 1) * ways N k + ways N (k + 1) := by
  rw [ways_eq, ways_eq, ways_eq, Nat.succ_descFactorial_succ, Nat.descFactorial_succ]
  by_cases h : k ≤ N
  · obtain ⟨d, rfl⟩ := Nat.exists_eq_add_of_le h
    have : k + d - k = d := by omega
    rw [this]; ring
  · have : N.descFactorial k = 0 := Nat.descFactorial_eq_zero_iff_lt.2 (by omega)
    rw [this]; simp

/-- The draws of one call of the operator on `m + 1` individuals: number `q` are the lots of tournament `q`, two tournaments per parent.  (The operator
reads no other draws; any legal list will do there.) -/
def drawsOf {m k : Nat} (ω : Fin (2 * (m + 1)) → Lots m k) (q : Nat) : List Nat :=
  if h : q < 2 * (m + 1) then (ω ⟨q, h⟩).list else List.range k

theorem lots_legal {m k : Nat} (d : Lots m k) : LegalDraw (m + 1) k d.list := by
  refine ⟨by simp [Lots.list], ?_, ?_⟩
  · unfold Lots.list
    rw [List.nodup_ofFn]
    intro a b h
    exact d.injective (Fin.ext h)
  · intro x hx
    unfold Lots.list at hx
    rw [List.mem_ofFn] at hx
    obtain ⟨j, rfl⟩ := hx
    have := (d j).2
    omega

theorem drawsOf_legal {m k : Nat} (hk : k ≤ m) (ω : Fin (2 * (m + 1)) → Lots m k) (q : Nat) :
    LegalDraw (m + 1) k (drawsOf ω q) := by
  unfold drawsOf
  split
  · exact lots_legal _
  · refine ⟨by simp, List.nodup_range, ?_⟩
    intro x hx
    rw [List.mem_range] at hx
    omega

/-- The winner of one tournament: the individual the code returns. -/
theorem winner_of_lots {m k : Nat} (hk0 : 0 < k) (hk : k ≤ m) (f : Fin (m + 1) → ℝ) (d : Lots m k) :
    ∃ w : Fin m, tourSelect k (List.ofFn f) d.list = .ok (w : Nat) ∧ (∃ j, d j = w) ∧ ∀ j, f w.castSucc ≤ f (d j).castSucc := by
  have hleg : LegalDraw (List.ofFn f).length k d.list := by
    rw [List.length_ofFn]; exact lots_legal d
  obtain ⟨a, v, h1, h2, h3, h4⟩ := tourSelect_spec k hk0 (List.ofFn f) (by rw [List.length_ofFn]; omega) d.list hleg
  unfold Lots.list at h2
  rw [List.mem_ofFn] at h2
  obtain ⟨j, rfl⟩ := h2
  have get : ∀ i : Fin m, (List.ofFn f)[(i : Nat)]? = some (f i.castSucc) := by
    intro i
    rw [List.getElem?_ofFn, dif_pos (by have := i.2; omega)]
    rfl
  refine ⟨d j, h1, ⟨j, rfl⟩, ?_⟩
  intro l
  obtain ⟨w, e1, e2⟩ := h4 (d l) (by unfold Lots.list; rw [List.mem_ofFn]; exact ⟨l, rfl⟩)
  rw [get] at h3 e1
  cases h3; cases e1; exact e2

theorem tourParents_ok (size : Nat) (fitness : List ℝ) (draw : Nat → List Nat) (w : Nat → Nat)
    (h : ∀ q, tourSelect size fitness (draw q) = .ok (w q)) (is : List Nat) :
    tourParents size fitness draw is = .ok (is.map fun i => w (2 * i)) := by
  induction is with
  | nil => rfl
  | cons i is ih =>
    unfold tourParents
    rw [h, h]
    dsimp only
    rw [ih]
    rfl

/-- All parents of one call: parent `i` is the winner of tournament `2 i`. -/
theorem parents_of_lots {m k : Nat} (hk0 : 0 < k) (hk : k ≤ m) (f : Fin (m + 1) → ℝ) :
    ∃ w : Lots m k → Fin m,
      (∀ d, tourSelect k (List.ofFn f) d.list = .ok (w d : Nat)) ∧
      (∀ d, (∃ j, d j = w d) ∧ ∀ j, f (w d).castSucc ≤ f (d j).castSucc) ∧
      ∀ ω : Fin (2 * (m + 1)) → Lots m k,
        tournament k (List.ofFn f) (drawsOf ω) =
          .ok (List.ofFn fun i : Fin (m + 1) => (w (ω ⟨2 * (i : Nat), by omega⟩) : Nat)) := by
  choose w h1 h2 h3 using fun d => winner_of_lots hk0 hk f d
  refine ⟨w, h1, fun d => ⟨h2 d, h3 d⟩, ?_⟩
  intro ω
  have hsel : ∀ q, ∃ a, tourSelect k (List.ofFn f) (drawsOf ω q) = .ok a := by
    intro q
    obtain ⟨a, v, e, -⟩ := tourSelect_spec k hk0 (List.ofFn f) (by rw [List.length_ofFn]; omega) (drawsOf ω q)
      (by rw [List.length_ofFn]; exact drawsOf_legal hk ω q)
    exact ⟨a, e⟩
  choose g hg using hsel
  unfold tournament
  rw [tourParents_ok k (List.ofFn f) (drawsOf ω) g hg, List.length_ofFn]
  congr 1
  apply List.ext_getElem
  · simp
  · intro i hi1 hi2
    simp only [List.getElem_map, List.getElem_range, List.getElem_ofFn]
    have hi : i < m + 1 := by simpa using hi1
    have e := hg (2 * i)
    unfold drawsOf at e
    rw [dif_pos (by omega), h1] at e
    injection e with e
    exact e.symm

/-! ### Counting -/

theorem card_lots (m k : Nat) : Fintype.card (Lots m k) = ways m k := by
  rw [ways_eq, Fintype.card_embedding_eq]
  simp

open Classical in
/-- Of all lots, those with every lot in `S`. -/
theorem card_lots_in {m k : Nat} (S : Fin m → Prop) :
    (Finset.univ.filter fun d : Lots m k => ∀ j, S (d j)).card = ways (howMany S) k := by
  have e : {d : Lots m k // ∀ j, S (d j)} ≃ (Fin k ↪ {x : Fin m // S x}) :=
    { toFun := fun d => ⟨fun j => ⟨d.1 j, d.2 j⟩, fun a b h => d.1.injective (congrArg Subtype.val h)⟩
      invFun := fun d => ⟨⟨fun j => (d j).1, fun a b h => d.injective (Subtype.ext h)⟩, fun j => (d j).2⟩
      left_inv := fun d => rfl
      right_inv := fun d => rfl }
  rw [← Fintype.card_subtype, Fintype.card_congr e, Fintype.card_embedding_eq, ways_eq]
  congr 1
  · rw [Fintype.card_subtype]; unfold howMany; congr
  · simp

theorem odds_eq {Ω : Type} [Fintype Ω] (A : Ω → Prop) [DecidablePred A] :
    odds A = ((Finset.univ.filter A).card : ℝ) / (Fintype.card Ω : ℝ) := by
  unfold odds
  congr

theorem howMany_eq {m : Nat} (P : Fin m → Prop) [DecidablePred P] : howMany P = (Finset.univ.filter P).card := by
  unfold howMany
  congr

theorem prod_pairs (n : Nat) (g : Nat → ℝ) : ∏ q : Fin (2 * n), g q = ∏ i : Fin n, (g (2 * (i : Nat)) * g (2 * (i : Nat) + 1)) := by
  rw [Fin.prod_univ_eq_prod_range, Fin.prod_univ_eq_prod_range (fun i => g (2 * i) * g (2 * i + 1))]
  induction n with
  | zero => simp
  | succ n ih =>
    rw [Finset.prod_range_succ, ← ih, show 2 * (n + 1) = 2 * n + 1 + 1 by omega, Finset.prod_range_succ, Finset.prod_range_succ]
    ring

open Classical in
/-- Independent rounds: rounds `2 i` satisfy `A i` each, the others are free. -/
theorem odds_rounds {Ω : Type} [Fintype Ω] [Nonempty Ω] {n : Nat} (A : Fin n → Ω → Prop) :
    odds (fun ω : Fin (2 * n) → Ω => ∀ i : Fin n, A i (ω ⟨2 * (i : Nat), by omega⟩)) = ∏ i, odds (A i) := by
  have hc : (Fintype.card Ω : ℝ) ≠ 0 := by exact_mod_cast Fintype.card_ne_zero
  let B : Fin (2 * n) → Finset Ω := fun q => if h : (q : Nat) % 2 = 0 then Finset.univ.filter (A ⟨(q : Nat) / 2, by omega⟩) else Finset.univ
  have hset : (Finset.univ.filter fun ω : Fin (2 * n) → Ω => ∀ i : Fin n, A i (ω ⟨2 * (i : Nat), by omega⟩)) = Fintype.piFinset B := by
    ext ω
    rw [Finset.mem_filter, Fintype.mem_piFinset]
    constructor
    · rintro ⟨-, h⟩ q
      dsimp only [B]
      split
      · rename_i hq
        rw [Finset.mem_filter]
        refine ⟨Finset.mem_univ _, ?_⟩
        have := h ⟨(q : Nat) / 2, by omega⟩
        have e : (⟨2 * ((q : Nat) / 2), by omega⟩ : Fin (2 * n)) = q := Fin.ext (by dsimp only; omega)
        dsimp only at this
        rw [e] at this
        exact this
      · exact Finset.mem_univ _
    · intro h
      refine ⟨Finset.mem_univ _, ?_⟩
      intro i
      have := h ⟨2 * (i : Nat), by omega⟩
      dsimp only [B] at this
      rw [dif_pos (by omega), Finset.mem_filter] at this
      have e : (⟨2 * (i : Nat) / 2, by omega⟩ : Fin n) = i := Fin.ext (by dsimp only; omega)
      rw [e] at this
      exact this.2
  rw [odds_eq, hset]
  simp only [odds_eq]
  rw [Fintype.card_piFinset, Fintype.card_fun, Fintype.card_fin]
  let c : Nat → ℝ := fun q => if h : q < 2 * n then ((B ⟨q, h⟩).card : ℝ) else 0
  have hB : ∀ q : Fin (2 * n), ((B q).card : ℝ) = c q := by
    intro q
    dsimp only [c]
    rw [dif_pos q.2]
  have hpair : ∀ i : Fin n, c (2 * (i : Nat)) * c (2 * (i : Nat) + 1) = ((Finset.univ.filter (A i)).card : ℝ) * (Fintype.card Ω : ℝ) := by
    intro i
    dsimp only [c, B]
    rw [dif_pos (by omega), dif_pos (by omega), dif_pos (by omega), dif_neg (by omega), Finset.card_univ]
    have e : (⟨2 * (i : Nat) / 2, by omega⟩ : Fin n) = i := Fin.ext (by dsimp only; omega)
    rw [e]
  clear_value c
  push_cast
  rw [Finset.prod_congr rfl (fun q _ => hB q), prod_pairs, Finset.prod_congr rfl (fun i _ => hpair i), Finset.prod_mul_distrib, Finset.prod_div_distrib]
  rw [Finset.prod_const, Finset.card_univ, Fintype.card_fin, show 2 * n = n + n by omega, pow_add]
  rw [mul_div_mul_right _ _ (pow_ne_zero n hc)]

theorem odds_congr {Ω : Type} [Fintype Ω] {A B : Ω → Prop} (h : ∀ ω, A ω ↔ B ω) : odds A = odds B := by
  have : A = B := funext fun ω => propext (h ω)
  rw [this]

theorem odds_true {Ω : Type} [Fintype Ω] [Nonempty Ω] : odds (fun _ : Ω => True) = 1 := by
  classical
  rw [odds_eq, Finset.filter_true_of_mem (by simp), Finset.card_univ]
  exact div_self (by exact_mod_cast Fintype.card_ne_zero)

/-- One round out of the `2 n`. -/
theorem odds_one_round {Ω : Type} [Fintype Ω] [Nonempty Ω] {n : Nat} (A : Ω → Prop) (i : Fin n) :
    odds (fun ω : Fin (2 * n) → Ω => A (ω ⟨2 * (i : Nat), by omega⟩)) = odds A := by
  classical
  have := odds_rounds (n := n) (fun (j : Fin n) (d : Ω) => j = i → A d)
  rw [odds_congr (B := fun ω : Fin (2 * n) → Ω => A (ω ⟨2 * (i : Nat), by omega⟩))] at this
  · rw [this, Finset.prod_eq_single i]
    · exact odds_congr fun d => by simp
    · intro j _ hj
      rw [odds_congr (B := fun _ => True) (fun d => by simp [hj])]
      exact odds_true
    · simp
  · intro ω
    constructor
    · intro h; exact h i rfl
    · rintro h j rfl; exact h

theorem nonempty_lots {m k : Nat} (hk : k ≤ m) : Nonempty (Lots m k) :=
  ⟨Fin.castLEEmb hk⟩

/-- One tournament: everything it draws is above `t`. -/
theorem odds_winner_above {m k : Nat} (hk0 : 0 < k) (f : Fin (m + 1) → ℝ) (w : Lots m k → Fin m)
    (hw : ∀ d, (∃ j, d j = w d) ∧ ∀ j, f (w d).castSucc ≤ f (d j).castSucc) (t : ℝ) :
    odds (fun d : Lots m k => t < f (w d).castSucc) = (ways (howMany fun b : Fin m => t < f b.castSucc) k : ℝ) / (ways m k : ℝ) := by
  classical
  have hk0 := hk0
  rw [odds_congr (B := fun d : Lots m k => ∀ j, t < f (d j).castSucc)]
  · unfold odds
    rw [← card_lots_in (k := k) (fun b : Fin m => t < f b.castSucc), card_lots]
    congr
  · intro d
    obtain ⟨⟨j, hj⟩, h⟩ := hw d
    constructor
    · intro ht l; exact lt_of_lt_of_le ht (h l)
    · intro ht; rw [← hj]; exact ht j

open Classical in
theorem odds_winner_is {m k : Nat} (f : Fin (m + 1) → ℝ) (w : Lots m (k + 1) → Fin m)
    (hw : ∀ d, (∃ j, d j = w d) ∧ ∀ j, f (w d).castSucc ≤ f (d j).castSucc) (a : Fin m)
    (hdis : ∀ b : Fin m, f b.castSucc = f a.castSucc → b = a) :
    odds (fun d : Lots m (k + 1) => w d = a) =
      ((k + 1) * ways (howMany fun b : Fin m => f a.castSucc < f b.castSucc) k : ℝ) / (ways m (k + 1) : ℝ) := by
  rw [odds_eq, card_lots]
  congr 1
  have hsub : (Finset.univ.filter fun d : Lots m (k + 1) => ∀ j, f a.castSucc < f (d j).castSucc) ⊆
      (Finset.univ.filter fun d : Lots m (k + 1) => ∀ j, f a.castSucc ≤ f (d j).castSucc) := by
    intro d
    rw [Finset.mem_filter, Finset.mem_filter]
    exact fun h => ⟨h.1, fun j => (h.2 j).le⟩
  have hset : (Finset.univ.filter fun d : Lots m (k + 1) => w d = a) =
      (Finset.univ.filter fun d : Lots m (k + 1) => ∀ j, f a.castSucc ≤ f (d j).castSucc) \
        (Finset.univ.filter fun d : Lots m (k + 1) => ∀ j, f a.castSucc < f (d j).castSucc) := by
    ext d
    simp only [Finset.mem_filter, Finset.mem_univ, true_and, Finset.mem_sdiff, not_forall, not_lt]
    obtain ⟨⟨j, hj⟩, h⟩ := hw d
    constructor
    · rintro rfl
      exact ⟨h, j, by rw [hj]⟩
    · rintro ⟨h1, l, hl⟩
      apply hdis
      apply le_antisymm
      · exact (h l).trans hl
      · rw [← hj]; exact h1 j
  have hcount : (howMany fun b : Fin m => f a.castSucc ≤ f b.castSucc) = (howMany fun b : Fin m => f a.castSucc < f b.castSucc) + 1 := by
    rw [howMany_eq, howMany_eq]
    have : (Finset.univ.filter fun b : Fin m => f a.castSucc ≤ f b.castSucc) =
        insert a (Finset.univ.filter fun b : Fin m => f a.castSucc < f b.castSucc) := by
      ext b
      simp only [Finset.mem_filter, Finset.mem_univ, true_and, Finset.mem_insert]
      constructor
      · intro h
        rcases h.lt_or_eq with h | h
        · exact .inr h
        · exact .inl (hdis b h.symm)
      · rintro (rfl | h)
        · exact le_rfl
        · exact h.le
    rw [this, Finset.card_insert_of_notMem (by simp)]
  rw [hset, Finset.card_sdiff_of_subset hsub, card_lots_in (fun b : Fin m => f a.castSucc ≤ f b.castSucc),
    card_lots_in (fun b : Fin m => f a.castSucc < f b.castSucc), hcount, ways_succ_sub]
  rw [Nat.add_sub_cancel]
  push_cast
  ring

/-! ### The property -/

/-- C103. Parents of different tournaments are independent, and for every one of them: the probability that its stored fitness is above `t` is
`ways N size / ways m size`, where `N` counts the individuals above `t`, leaving out the last one.  Ties allowed. -/
theorem c103_chance_above {m k : Nat} (hk0 : 0 < k) (hk : k ≤ m) (f : Fin (m + 1) → ℝ) (t : Fin (m + 1) → ℝ) :
    odds (fun ω : Fin (2 * (m + 1)) → Lots m k =>
      ∃ parents, tournament k (List.ofFn f) (drawsOf ω) = .ok parents ∧ parents.length = m + 1 ∧
        ∀ i : Fin (m + 1), ∃ a : Fin (m + 1), parents[(i : Nat)]? = some (a : Nat) ∧ t i < f a) =
    ∏ i, (ways (howMany fun b : Fin m => t i < f b.castSucc) k : ℝ) / (ways m k : ℝ) := by
  have := nonempty_lots hk
  obtain ⟨w, -, h2, h3⟩ := parents_of_lots hk0 hk f
  rw [← Finset.prod_congr rfl (fun i _ => odds_winner_above hk0 f w h2 (t i))]
  rw [← odds_rounds (fun (i : Fin (m + 1)) (d : Lots m k) => t i < f (w d).castSucc)]
  apply odds_congr
  intro ω
  rw [h3 ω]
  constructor
  · rintro ⟨ps, h, -, hp⟩ i
    cases h
    obtain ⟨a, e1, e2⟩ := hp i
    rw [List.getElem?_ofFn, dif_pos i.2] at e1
    injection e1 with e1
    have : (w (ω ⟨2 * (i : Nat), by omega⟩)).castSucc = a := Fin.ext e1
    rw [this]; exact e2
  · intro h
    refine ⟨_, rfl, by simp, ?_⟩
    intro i
    refine ⟨(w (ω ⟨2 * (i : Nat), by omega⟩)).castSucc, ?_, h i⟩
    rw [List.getElem?_ofFn, dif_pos i.2]
    rfl

/-- C103. If its stored fitness differs from all others', individual `a` (not the last one) is parent number `i` with probability
`size · ways N (size - 1) / ways m size`, where `N` counts the individuals with a larger stored fitness, leaving out the last one. -/
theorem c103_chance_of_each {m k : Nat} (hk : k + 1 ≤ m) (f : Fin (m + 1) → ℝ) (a : Fin m)
    (hdis : ∀ b : Fin m, f b.castSucc = f a.castSucc → b = a) (i : Fin (m + 1)) :
    odds (fun ω : Fin (2 * (m + 1)) → Lots m (k + 1) =>
      ∃ parents, tournament (k + 1) (List.ofFn f) (drawsOf ω) = .ok parents ∧ parents[(i : Nat)]? = some (a : Nat)) =
    ((k + 1) * ways (howMany fun b : Fin m => f a.castSucc < f b.castSucc) k : ℝ) / (ways m (k + 1) : ℝ) := by
  have := nonempty_lots hk
  obtain ⟨w, -, h2, h3⟩ := parents_of_lots (Nat.succ_pos k) hk f
  rw [← odds_winner_is f w h2 a hdis, ← odds_one_round (n := m + 1) (fun d => w d = a) i]
  apply odds_congr
  intro ω
  rw [h3 ω]
  constructor
  · rintro ⟨ps, h, hp⟩
    cases h
    rw [List.getElem?_ofFn, dif_pos i.2] at hp
    injection hp with hp
    exact Fin.ext hp
  · intro h
    refine ⟨_, rfl, ?_⟩
    rw [List.getElem?_ofFn, dif_pos i.2, ← h]

/-- The list of parents (empty if the operator raises). -/
noncomputable def parentsOr {m k : Nat} (f : Fin (m + 1) → ℝ) (ω : Fin (2 * (m + 1)) → Lots m k) : List Nat :=
  match tournament k (List.ofFn f) (drawsOf ω) with
  | .ok ps => ps
  | .error _ => []

/-- C103. The expected number of times individual `a` is among the parents. -/
theorem c103_expected_copies {m k : Nat} (hk : k + 1 ≤ m) (f : Fin (m + 1) → ℝ) (a : Fin m)
    (hdis : ∀ b : Fin m, f b.castSucc = f a.castSucc → b = a) :
    expected (fun ω : Fin (2 * (m + 1)) → Lots m (k + 1) => (parentsOr f ω).count (a : Nat)) =
    (m + 1) * ((k + 1) * ways (howMany fun b : Fin m => f a.castSucc < f b.castSucc) k : ℝ) / (ways m (k + 1) : ℝ) := by
  classical
  have hone := c103_chance_of_each hk f a hdis
  have := nonempty_lots hk
  obtain ⟨w, -, h2, h3⟩ := parents_of_lots (Nat.succ_pos k) hk f
  unfold expected
  have hc : ∀ ω : Fin (2 * (m + 1)) → Lots m (k + 1), (parentsOr f ω).count (a : Nat) =
      ∑ i : Fin (m + 1), if (w (ω ⟨2 * (i : Nat), by omega⟩) : Nat) = a then 1 else 0 := by
    intro ω
    unfold parentsOr
    rw [h3 ω]
    dsimp only
    have : ∀ (n : Nat) (g : Fin n → Nat) (x : Nat), (List.ofFn g).count x = ∑ i, if g i = x then 1 else 0 := by
      intro n g x
      induction n with
      | zero => simp
      | succ n ih =>
        rw [List.ofFn_succ, List.count_cons, Fin.sum_univ_succ, ih]
        simp only [beq_iff_eq]
        omega
    exact this _ _ _
  simp only [hc]
  rw [Finset.sum_comm]
  push_cast
  rw [Finset.sum_div]
  have hi : ∀ i : Fin (m + 1), (∑ ω : Fin (2 * (m + 1)) → Lots m (k + 1),
      (if (w (ω ⟨2 * (i : Nat), by omega⟩) : Nat) = a then (1 : ℝ) else 0)) / (Fintype.card (Fin (2 * (m + 1)) → Lots m (k + 1)) : ℝ) =
      ((k + 1) * ways (howMany fun b : Fin m => f a.castSucc < f b.castSucc) k : ℝ) / (ways m (k + 1) : ℝ) := by
    intro i
    rw [← hone i, Finset.sum_boole]
    unfold odds
    congr 2
    congr 1
    ext ω
    simp only [Finset.mem_filter, Finset.mem_univ, true_and]
    rw [h3 ω]
    constructor
    · intro h
      refine ⟨_, rfl, ?_⟩
      rw [List.getElem?_ofFn, dif_pos i.2, ← h]
    · rintro ⟨ps, h, hp⟩
      cases h
      rw [List.getElem?_ofFn, dif_pos i.2] at hp
      injection hp
  simp only [Finset.sum_ite] at hi
  have hsum := Finset.sum_congr (rfl : (Finset.univ : Finset (Fin (m + 1))) = Finset.univ) (fun i _ => hi i)
  simp only [Finset.sum_ite]
  rw [hsum]
  simp only [Finset.sum_const, Finset.card_univ, Fintype.card_fin, nsmul_eq_mul]
  push_cast
  ring

/-- C103, against the operator's intention (environmental selection, C45, removes the smallest fitness first, so a large stored fitness is good): an
individual that fewer than `size - 1` others exceed (leaving out the last one) never becomes a parent. -/
theorem c103_strongest_never_mate {m k : Nat} (hk : k + 1 ≤ m) (f : Fin (m + 1) → ℝ) (a : Fin m)
    (hdis : ∀ b : Fin m, f b.castSucc = f a.castSucc → b = a)
    (hfew : (howMany fun b : Fin m => f a.castSucc < f b.castSucc) < k) (ω : Fin (2 * (m + 1)) → Lots m (k + 1)) :
    ∃ parents, tournament (k + 1) (List.ofFn f) (drawsOf ω) = .ok parents ∧ (a : Nat) ∉ parents := by
  classical
  have hne := nonempty_lots hk
  obtain ⟨w, -, h2, h3⟩ := parents_of_lots (Nat.succ_pos k) hk f
  refine ⟨_, h3 ω, ?_⟩
  intro hm
  rw [List.mem_ofFn] at hm
  obtain ⟨i, hi⟩ := hm
  have h0 : ways (howMany fun b : Fin m => f a.castSucc < f b.castSucc) k = 0 := by
    rw [ways_eq]; exact Nat.descFactorial_eq_zero_iff_lt.2 hfew
  have hz := odds_winner_is f w h2 a hdis
  rw [h0, odds_eq] at hz
  simp only [Nat.cast_zero, mul_zero, zero_div, div_eq_zero_iff, Nat.cast_eq_zero] at hz
  rcases hz with hz | hz
  · rw [Finset.card_eq_zero] at hz
    have : ω ⟨2 * (i : Nat), by omega⟩ ∈ (Finset.univ.filter fun d : Lots m (k + 1) => w d = a) := by
      rw [Finset.mem_filter]; exact ⟨Finset.mem_univ _, Fin.ext hi⟩
    rw [hz] at this
    exact absurd this (Finset.notMem_empty _)
  · exact Fintype.card_ne_zero hz

/-- C103. Binary tournaments (IBEA, PBEA): of two individuals, neither of them the last one, the one with the larger stored fitness is the less likely
parent; the probabilities are `2 N / (m (m - 1))`. -/
theorem c103_binary {m : Nat} (hm : 2 ≤ m) (f : Fin (m + 1) → ℝ) (hinj : ∀ a b : Fin m, f a.castSucc = f b.castSucc → a = b) (i : Fin (m + 1)) :
    ∃ p : Fin m → ℝ,
      (∀ a : Fin m, odds (fun ω : Fin (2 * (m + 1)) → Lots m 2 =>
        ∃ parents, tournament 2 (List.ofFn f) (drawsOf ω) = .ok parents ∧ parents[(i : Nat)]? = some (a : Nat)) = p a) ∧
      (∀ a, p a = 2 * (howMany fun b : Fin m => f a.castSucc < f b.castSucc) / (m * (m - 1))) ∧
      ∀ a b, f a.castSucc < f b.castSucc → p b < p a := by
  classical
  have hw : (ways m 2 : ℝ) = m * (m - 1) := by
    obtain ⟨d, rfl⟩ := Nat.exists_eq_add_of_le hm
    rw [show 2 + d = d + 1 + 1 by omega]
    simp only [ways]
    push_cast
    ring
  have hpos : (0 : ℝ) < m * (m - 1) := by
    have : (2 : ℝ) ≤ m := by exact_mod_cast hm
    exact mul_pos (by linarith) (by linarith)
  have h1 : ∀ N, ways N 1 = N := by
    intro N; cases N <;> simp [ways]
  refine ⟨fun a => 2 * (howMany fun b : Fin m => f a.castSucc < f b.castSucc) / (m * (m - 1)), ?_, fun a => rfl, ?_⟩
  · intro a
    rw [c103_chance_of_each (k := 1) hm f a (fun b h => hinj b a h) i, hw, h1]
    norm_num
  · intro a b hab
    apply div_lt_div_of_pos_right _ hpos
    have : (howMany fun c : Fin m => f b.castSucc < f c.castSucc) < (howMany fun c : Fin m => f a.castSucc < f c.castSucc) := by
      rw [howMany_eq, howMany_eq]
      apply Finset.card_lt_card
      rw [Finset.ssubset_iff_of_subset]
      · exact ⟨b, by simpa using hab, by simp⟩
      · intro c
        simp only [Finset.mem_filter, Finset.mem_univ, true_and]
        exact fun h => hab.trans h
    have : ((howMany fun c : Fin m => f b.castSucc < f c.castSucc : Nat) : ℝ) < (howMany fun c : Fin m => f a.castSucc < f c.castSucc : Nat) := by
      exact_mod_cast this
    linarith

/-- C103. The last individual is never a parent. -/
theorem c103_last_never {m k : Nat} (hk0 : 0 < k) (hk : k ≤ m) (f : Fin (m + 1) → ℝ) (ω : Fin (2 * (m + 1)) → Lots m k) :
    ∃ parents, tournament k (List.ofFn f) (drawsOf ω) = .ok parents ∧ m ∉ parents := by
  obtain ⟨w, -, h2, h3⟩ := parents_of_lots hk0 hk f
  refine ⟨_, h3 ω, ?_⟩
  intro hm
  rw [List.mem_ofFn] at hm
  obtain ⟨i, hi⟩ := hm
  have := (w (ω ⟨2 * (i : Nat), by omega⟩)).2
  omega

/-- Four individuals with stored fitnesses 3, 1, 2, 7 (7: the last one, and the best).  The best of the others, number 0, is never a parent; number 2 with
probability 1/3 and number 1, the worst, with probability 2/3. -/
example (i : Fin 4) :
    ∃ p : Fin 3 → ℝ, (∀ a : Fin 3, odds (fun ω : Fin (2 * 4) → Lots 3 2 =>
        ∃ parents, tournament 2 (List.ofFn ![(3 : ℝ), 1, 2, 7]) (drawsOf ω) = .ok parents ∧ parents[(i : Nat)]? = some (a : Nat)) = p a) ∧
      p 0 = 0 ∧ p 1 = 2 / 3 ∧ p 2 = 1 / 3 := by
  classical
  obtain ⟨p, h1, h2, -⟩ := c103_binary (m := 3) (by omega) ![(3 : ℝ), 1, 2, 7] (by
    intro a b
    fin_cases a <;> fin_cases b <;> simp [Fin.castSucc]) i
  refine ⟨p, h1, ?_, ?_, ?_⟩ <;> rw [h2, howMany_eq, Finset.card_filter, Fin.sum_univ_three] <;> simp <;> norm_num

end Verif.Props
