import Verif.Spec.BioGPPredict
import Verif.Props.BioGP
import Mathlib.Data.Set.Card
import Mathlib.Tactic.NormNum

/-!
# C75, C76: prediction and fitting of BioGP trees
-/

namespace Verif.Props
open Verif Verif.Spec
open Classical

/-! ## Trees -/

theorem fits_child {d : Frame} {v : NVal GFn GTerm} {rs : List (Node GFn GTerm)} (h : Fits d (.mk v rs)) : ∀ r ∈ rs, Fits d r := by
  intro r hr p s hp
  obtain ⟨i, hi⟩ := List.mem_iff_getElem?.1 hr
  exact h (i :: p) s (by simp only [Node.at?, hi]; exact hp)

theorem fits_top {d : Frame} {t : Node GFn GTerm} (h : Fits d t) :
    match t.value with
    | .fn g => t.roots.length = g.arity
    | .term (.var x) => t.roots = [] ∧ ∃ l, d.col x = some l ∧ l.length = d.rows
    | .term (.const _) => t.roots = []
    | .linear => False := h [] t (by cases t; rfl)

theorem dividesBy_mk (v : NVal GFn GTerm) (rs : List (Node GFn GTerm)) (x : String) :
    DividesBy (.mk v rs) x ↔ (v = .fn .div ∧ ∃ u, rs[1]? = some u ∧ u.value = .term (.var x)) ∨ ∃ r ∈ rs, DividesBy r x := by
  constructor
  · rintro ⟨p, s, u, h1, h2, h3, h4⟩
    cases p with
    | nil =>
      simp only [Node.at?, Option.some.injEq] at h1
      subst h1
      exact .inl ⟨h2, u, h3, h4⟩
    | cons i p =>
      simp only [Node.at?] at h1
      cases hi : rs[i]? with
      | none => rw [hi] at h1; simp at h1
      | some c =>
        rw [hi] at h1
        exact .inr ⟨c, List.mem_of_getElem? hi, p, s, u, h1, h2, h3, h4⟩
  · rintro (⟨h1, u, h2, h3⟩ | ⟨r, hr, p, s, u, h1, h2, h3, h4⟩)
    · exact ⟨[], .mk v rs, u, by simp [Node.at?], h1, h2, h3⟩
    · obtain ⟨i, hi⟩ := List.mem_iff_getElem?.1 hr
      exact ⟨i :: p, s, u, by simp only [Node.at?, hi]; exact h1, h2, h3, h4⟩

/-! ## The frame after writing into some columns -/

/-- The frame with zeros replaced by ones in the columns of `P`. -/
noncomputable def _root_.Verif.Frame.after (d : Frame) (P : String → Prop) : Frame :=
  { d with col := fun z => if P z then (d.col z).map onesForZeros else d.col z }

theorem nonzero_eq (y : ℝ) : nonzero y = if y = 0 then 1 else y := rfl

theorem onesForZeros_idem (l : List ℝ) : onesForZeros (onesForZeros l) = onesForZeros l := by
  simp only [onesForZeros, List.map_map]
  apply List.map_congr_left
  intro y _
  by_cases h : y = 0 <;> simp [h]

theorem onesForZeros_of_no_zero (l : List ℝ) (h : (0 : ℝ) ∉ l) : onesForZeros l = l := by
  unfold onesForZeros
  conv_rhs => rw [← List.map_id l]
  apply List.map_congr_left
  intro y hy
  rw [if_neg (fun e => h (by rw [← e]; exact hy))]
  rfl

theorem no_zero_onesForZeros (l : List ℝ) : (0 : ℝ) ∉ onesForZeros l := by
  unfold onesForZeros
  intro h
  obtain ⟨y, -, hy⟩ := List.mem_map.1 h
  by_cases h0 : y = 0
  · simp [h0] at hy
  · rw [if_neg h0] at hy; exact h0 hy

theorem length_onesForZeros (l : List ℝ) : (onesForZeros l).length = l.length := by simp [onesForZeros]

theorem after_after (d : Frame) (P Q : String → Prop) : (d.after P).after Q = d.after (fun z => P z ∨ Q z) := by
  unfold Frame.after
  congr 1
  funext z
  by_cases h1 : P z <;> by_cases h2 : Q z <;> simp [h1, h2, Function.comp_def, onesForZeros_idem]

theorem after_congr (d : Frame) {P Q : String → Prop} (h : ∀ z, P z ↔ Q z) : d.after P = d.after Q := by
  have : P = Q := funext fun z => propext (h z)
  rw [this]

theorem after_none (d : Frame) (P : String → Prop) (h : ∀ z, ¬ P z) : d.after P = d := by
  unfold Frame.after
  cases d with
  | mk r c => simp [h]

theorem after_pure (d : Frame) (P : String → Prop) (h : ∀ z, P z → ¬ HasZero d z) : d.after P = d := by
  unfold Frame.after
  cases d with
  | mk r c =>
    congr 1
    funext z
    split
    · rename_i hp
      cases hc : c z with
      | none => show (c z).map onesForZeros = none; rw [hc]; rfl
      | some l =>
        have : (0 : ℝ) ∉ l := fun h0 => h z hp ⟨l, hc, h0⟩
        show (c z).map onesForZeros = some l
        rw [hc]
        simp [onesForZeros_of_no_zero l this]
    · rfl

theorem after_noZero (d : Frame) (P : String → Prop) (z : String) (hz : P z) : ¬ HasZero (d.after P) z := by
  rintro ⟨l, hl, h0⟩
  simp only [Frame.after, hz, if_true] at hl
  cases hc : d.col z with
  | none => rw [hc] at hl; simp at hl
  | some l0 =>
    rw [hc] at hl
    simp only [Option.map_some, Option.some.injEq] at hl
    rw [← hl] at h0
    exact no_zero_onesForZeros l0 h0

theorem fits_after {d : Frame} {t : Node GFn GTerm} (P : String → Prop) (h : Fits d t) : Fits (d.after P) t := by
  intro p s hp
  have := h p s hp
  cases hv : s.value with
  | fn g => rw [hv] at this; exact this
  | linear => rw [hv] at this; exact this
  | term y =>
    rw [hv] at this
    cases y with
    | const c => exact this
    | var x =>
      obtain ⟨h0, l, hl, hlen⟩ := this
      refine ⟨h0, ?_⟩
      by_cases hP : P x
      · exact ⟨onesForZeros l, by simp [Frame.after, hP, hl], by rw [length_onesForZeros]; exact hlen⟩
      · exact ⟨l, by simp [Frame.after, hP, hl], hlen⟩

theorem fixZeros_view (d : Frame) (x : String) : d.fixZeros (.view x) = (.view x, d.after (· = x)) := by
  simp only [Frame.fixZeros, Frame.after, Prod.mk.injEq, true_and]
  congr 1
  funext z
  by_cases h : z = x
  · subst h; simp only [if_true]; rfl
  · simp [h]

/-! ## What is written -/

/-- The array that comes out: a view for a variable, otherwise a fresh one with one entry for every row. -/
def ArrOf (d : Frame) (t : Node GFn GTerm) (a : Arr) : Prop :=
  (∀ x, t.value = .term (.var x) → a = .view x) ∧
  ((∀ x, t.value ≠ .term (.var x)) → ∃ l, a = .fresh l ∧ l.length = d.rows)

theorem read_length {d : Frame} {t : Node GFn GTerm} {a : Arr} (h : ArrOf d t a) (hf : Fits d t) : (d.read a).length = d.rows := by
  by_cases hx : ∃ x, t.value = .term (.var x)
  · obtain ⟨x, hx⟩ := hx
    rw [h.1 x hx]
    have := fits_top hf
    rw [hx] at this
    obtain ⟨-, l, hl, hlen⟩ := this
    simp [Frame.read, hl, hlen]
  · obtain ⟨l, hl, hlen⟩ := h.2 (fun x hv => hx ⟨x, hv⟩)
    rw [hl]; exact hlen

/-- One call of a function. -/
theorem applyFn_writes (g : GFn) (rs : List (Node GFn GTerm)) (as : List Arr) (d d' : Frame) (hlen : rs.length = g.arity)
    (hrows : d'.rows = d.rows) (hf : ∀ t ∈ rs, Fits d' t) (h : List.Forall₂ (ArrOf d') rs as) :
    ∃ l, applyFn g as d' = (.ok (.fresh l), d'.after (fun x => g = .div ∧ ∃ u, rs[1]? = some u ∧ u.value = .term (.var x))) ∧
      l.length = d.rows := by
  have har : g.arity = 1 ∨ g.arity = 2 := by cases g <;> simp [GFn.arity]
  cases h with
  | nil => simp only [List.length_nil] at hlen; omega
  | cons h1 hs =>
    rename_i t1 a1 ts bs
    have r1 := read_length h1 (hf t1 (by simp))
    cases hs with
    | nil =>
      have ha : g.arity = 1 := by simp only [List.length_cons, List.length_nil] at hlen; omega
      have hg : g ≠ .div := by rintro rfl; simp [GFn.arity] at ha
      refine ⟨(d'.read a1).map g.one, ?_, by rw [List.length_map, r1, hrows]⟩
      rw [after_none _ _ (fun z hz => hg hz.1)]
      simp only [applyFn, ha, if_true]
    | cons h2 hs' =>
      rename_i t2 a2 ts' bs'
      have r2 := read_length h2 (hf t2 (by simp))
      have ha : g.arity = ts'.length + 2 := by simp only [List.length_cons] at hlen; omega
      have h2' : ts'.length = 0 := by omega
      have ht : ts' = [] := List.length_eq_zero_iff.1 h2'
      subst ht
      cases hs'
      simp only [List.length_nil, Nat.zero_add] at ha
      by_cases hg : g = .div
      · subst hg
        by_cases hx : ∃ x, t2.value = .term (.var x)
        · obtain ⟨x, hx⟩ := hx
          have e2 := h2.1 x hx
          subst e2
          have q1 : ((d'.after (· = x)).read a1).length = d'.rows :=
            read_length (d := d'.after (· = x)) (t := t1) h1 (fits_after _ (hf t1 (by simp)))
          have q2 : ((d'.after (· = x)).read (.view x)).length = d'.rows :=
            read_length (d := d'.after (· = x)) (t := t2) h2 (fits_after _ (hf t2 (by simp)))
          refine ⟨List.zipWith GFn.div.two ((d'.after (· = x)).read a1) ((d'.after (· = x)).read (.view x)), ?_,
            by rw [List.length_zipWith, q1, q2, Nat.min_self, hrows]⟩
          simp only [applyFn, ha, if_true, fixZeros_view]
          congr 1
          apply after_congr
          intro z
          simp only [true_and, List.getElem?_cons_succ, List.getElem?_cons_zero, Option.some.injEq, exists_eq_left', hx, NVal.term.injEq,
            GTerm.var.injEq]
          exact eq_comm
        · obtain ⟨l, hl, hlen'⟩ := h2.2 (fun x hv => hx ⟨x, hv⟩)
          subst hl
          refine ⟨List.zipWith GFn.div.two (d'.read a1) (l.map nonzero), ?_,
            by rw [List.length_zipWith, r1, List.length_map, hlen', Nat.min_self, hrows]⟩
          rw [after_none]
          · simp only [applyFn, ha, if_true, Frame.fixZeros, Frame.read]
          · rintro z ⟨-, u, hu, hv⟩
            simp only [List.getElem?_cons_succ, List.getElem?_cons_zero, Option.some.injEq] at hu
            subst hu
            exact hx ⟨z, hv⟩
      · refine ⟨List.zipWith g.two (d'.read a1) (d'.read a2), ?_, by rw [List.length_zipWith, r1, r2, Nat.min_self, hrows]⟩
        rw [after_none _ _ (fun z hz => hg hz.1)]
        simp only [applyFn, ha, if_true, if_neg hg]

theorem arrOf_after {d : Frame} {P : String → Prop} {t : Node GFn GTerm} {a : Arr} : ArrOf (d.after P) t a ↔ ArrOf d t a := Iff.rfl

mutual
theorem nodePredict_writes : (t : Node GFn GTerm) → (d : Frame) → Fits d t →
    ∃ a, nodePredict t d = (.ok a, d.after (DividesBy t)) ∧ ArrOf d t a
  | .mk v rs, d, h => by
    have htop := fits_top h
    cases v with
    | linear => exact htop.elim
    | term x =>
      cases x with
      | const c =>
        simp only [Node.value, Node.roots] at htop
        subst htop
        refine ⟨.fresh (List.replicate d.rows c), ?_, fun x hx => by simp [Node.value] at hx, fun _ => ⟨_, rfl, by simp⟩⟩
        simp only [nodePredict]
        rw [after_none]
        intro z hz
        rw [dividesBy_mk] at hz
        simp at hz
      | var x =>
        simp only [Node.value, Node.roots] at htop
        obtain ⟨h0, l, hl, -⟩ := htop
        subst h0
        refine ⟨.view x, ?_, fun y hy => by simp only [Node.value, NVal.term.injEq, GTerm.var.injEq] at hy; rw [hy],
          fun hn => absurd rfl (hn x)⟩
        simp only [nodePredict, hl]
        rw [after_none]
        intro z hz
        rw [dividesBy_mk] at hz
        simp at hz
    | fn g =>
      simp only [Node.value, Node.roots] at htop
      obtain ⟨as, h1, h2⟩ := nodesPredict_writes rs d (fits_child h)
      obtain ⟨l, h3, h4⟩ := applyFn_writes g rs as d (d.after (fun x => ∃ t ∈ rs, DividesBy t x)) htop rfl
        (fun t ht => fits_after _ (fits_child h t ht)) h2
      refine ⟨.fresh l, ?_, fun x hx => by simp [Node.value] at hx, fun _ => ⟨l, rfl, h4⟩⟩
      simp only [nodePredict, h1, h3]
      rw [after_after]
      congr 1
      apply after_congr
      intro z
      rw [dividesBy_mk]
      simp only [NVal.fn.injEq]
      exact or_comm
theorem nodesPredict_writes : (ts : List (Node GFn GTerm)) → (d : Frame) → (∀ t ∈ ts, Fits d t) →
    ∃ as, nodesPredict ts d = (.ok as, d.after (fun x => ∃ t ∈ ts, DividesBy t x)) ∧ List.Forall₂ (ArrOf d) ts as
  | [], d, _ => ⟨[], by simp only [nodesPredict]; rw [after_none]; simp, .nil⟩
  | t :: ts, d, h => by
    obtain ⟨a, h1, h2⟩ := nodePredict_writes t d (h t (by simp))
    obtain ⟨as, h3, h4⟩ := nodesPredict_writes ts (d.after (DividesBy t)) (fun s hs => fits_after _ (h s (by simp [hs])))
    refine ⟨a :: as, ?_, .cons h2 ?_⟩
    · simp only [nodesPredict, h1, h3]
      rw [after_after]
      congr 1
      apply after_congr
      intro z
      simp
    · exact h4
end

/-! ## Without zeros in divisors -/

theorem meaningL_eq (row : String → ℝ) (ts : List (Node GFn GTerm)) : meaningL row ts = ts.map (meaning row) := by
  induction ts with
  | nil => simp [meaningL]
  | cons t ts ih => simp [meaningL, ih]

theorem getD_row {d : Frame} {x : String} {l : List ℝ} (hl : d.col x = some l) (hlen : l.length = d.rows) :
    l = (List.range d.rows).map (fun j => rowOf d j x) := by
  apply List.ext_getElem?
  intro j
  by_cases hj : j < d.rows
  · rw [List.getElem?_map, List.getElem?_range hj]
    simp [rowOf, hl, List.getElem?_eq_getElem (show j < l.length by omega)]
  · rw [List.getElem?_eq_none (by omega), List.getElem?_eq_none (by simp; omega)]

/-- The values of a tree on all rows of a frame. -/
noncomputable def valuesOn (d : Frame) (t : Node GFn GTerm) : List ℝ := (List.range d.rows).map (fun j => meaning (rowOf d j) t)

theorem valuesOn_length (d : Frame) (t : Node GFn GTerm) : (valuesOn d t).length = d.rows := by simp [valuesOn]

theorem zipWith_range (n : Nat) (f : ℝ → ℝ → ℝ) (g h : Nat → ℝ) :
    List.zipWith f ((List.range n).map g) ((List.range n).map h) = (List.range n).map (fun j => f (g j) (h j)) := by
  rw [List.zipWith_map]
  apply List.ext_getElem?
  intro i
  by_cases hi : i < n <;> simp [List.getElem?_zipWith, hi]

theorem applyFn_pure (g : GFn) (rs : List (Node GFn GTerm)) (as : List Arr) (d : Frame) (hlen : rs.length = g.arity)
    (hf : ∀ t ∈ rs, Fits d t) (h : List.Forall₂ (fun t a => ArrOf d t a ∧ d.read a = valuesOn d t) rs as)
    (hz : ∀ x, DividesBy (.mk (.fn g) rs) x → ¬ HasZero d x) :
    ∃ l, applyFn g as d = (.ok (.fresh l), d) ∧ l = valuesOn d (.mk (.fn g) rs) := by
  have har : g.arity = 1 ∨ g.arity = 2 := by cases g <;> simp [GFn.arity]
  cases h with
  | nil => simp only [List.length_nil] at hlen; omega
  | cons h1 hs =>
    rename_i t1 a1 ts bs
    cases hs with
    | nil =>
      have ha : g.arity = 1 := by simp only [List.length_cons, List.length_nil] at hlen; omega
      refine ⟨(d.read a1).map g.one, by simp only [applyFn, ha, if_true], ?_⟩
      rw [h1.2, valuesOn, List.map_map]
      apply List.map_congr_left
      intro j _
      cases g <;> simp [GFn.arity] at ha <;> simp [meaning, meaningL, fnMeaning, GFn.one]
    | cons h2 hs' =>
      rename_i t2 a2 ts' bs'
      have ha : g.arity = ts'.length + 2 := by simp only [List.length_cons] at hlen; omega
      have h2' : ts'.length = 0 := by omega
      have ht : ts' = [] := List.length_eq_zero_iff.1 h2'
      subst ht
      cases hs'
      simp only [List.length_nil, Nat.zero_add] at ha
      by_cases hg : g = .div
      · subst hg
        by_cases hx : ∃ x, t2.value = .term (.var x)
        · obtain ⟨x, hx⟩ := hx
          have e2 := h2.1.1 x hx
          subst e2
          have hd : DividesBy (.mk (.fn .div) [t1, t2]) x := (dividesBy_mk _ _ _).2 (.inl ⟨rfl, t2, rfl, hx⟩)
          have hw : d.after (· = x) = d := after_pure d _ (fun z e => by subst e; exact hz z hd)
          refine ⟨List.zipWith GFn.div.two (d.read a1) (d.read (.view x)), ?_, ?_⟩
          · simp only [applyFn, ha, if_true, fixZeros_view, hw]
          · rw [h1.2, h2.2, valuesOn, valuesOn, zipWith_range, valuesOn]
            apply List.map_congr_left
            intro j hj
            have hne : meaning (rowOf d j) t2 ≠ 0 := by
              intro h0
              have hft := fits_top (hf t2 (by simp))
              rw [hx] at hft
              obtain ⟨-, l, hl, hlen'⟩ := hft
              refine hz x hd ⟨l, hl, ?_⟩
              have := h2.2
              simp only [Frame.read, hl, Option.getD_some] at this
              rw [this, ← h0]
              exact List.mem_map.2 ⟨j, hj, rfl⟩
            simp [meaning, meaningL, fnMeaning, GFn.two, hne]
        · obtain ⟨l, hl, hlen'⟩ := h2.1.2 (fun x hv => hx ⟨x, hv⟩)
          subst hl
          refine ⟨List.zipWith GFn.div.two (d.read a1) (l.map nonzero), by simp only [applyFn, ha, if_true, Frame.fixZeros, Frame.read], ?_⟩
          have h22 : l = valuesOn d t2 := h2.2
          rw [h1.2, h22, valuesOn, valuesOn, List.map_map, zipWith_range, valuesOn]
          apply List.map_congr_left
          intro j hj
          by_cases h0 : meaning (rowOf d j) t2 = 0 <;> simp [meaning, meaningL, fnMeaning, GFn.two, nonzero, h0]
      · refine ⟨List.zipWith g.two (d.read a1) (d.read a2), by simp only [applyFn, ha, if_true, if_neg hg], ?_⟩
        rw [h1.2, h2.2, valuesOn, valuesOn, zipWith_range, valuesOn]
        apply List.map_congr_left
        intro j _
        cases g <;> simp [GFn.arity] at ha hg <;> simp [meaning, meaningL, fnMeaning, GFn.two]

mutual
theorem nodePredict_pure : (t : Node GFn GTerm) → (d : Frame) → Fits d t → (∀ x, DividesBy t x → ¬ HasZero d x) →
    ∃ a, nodePredict t d = (.ok a, d) ∧ ArrOf d t a ∧ d.read a = valuesOn d t
  | .mk v rs, d, h, hz => by
    have htop := fits_top h
    cases v with
    | linear => exact htop.elim
    | term x =>
      cases x with
      | const c =>
        refine ⟨.fresh (List.replicate d.rows c), by simp only [nodePredict],
          ⟨fun x hx => by simp [Node.value] at hx, fun _ => ⟨_, rfl, by simp⟩⟩, ?_⟩
        simp only [Frame.read, valuesOn, meaning]
        rw [List.map_const', List.length_range]
      | var x =>
        simp only [Node.value, Node.roots] at htop
        obtain ⟨h0, l, hl, hlen⟩ := htop
        refine ⟨.view x, by simp only [nodePredict, hl], ⟨fun y hy => by
          simp only [Node.value, NVal.term.injEq, GTerm.var.injEq] at hy; rw [hy], fun hn => absurd rfl (hn x)⟩, ?_⟩
        simp only [Frame.read, hl, Option.getD_some, valuesOn, meaning]
        exact getD_row hl hlen
    | fn g =>
      simp only [Node.value, Node.roots] at htop
      obtain ⟨as, h1, h2⟩ := nodesPredict_pure rs d (fits_child h) (fun t ht x hx => hz x ((dividesBy_mk _ _ _).2 (.inr ⟨t, ht, hx⟩)))
      obtain ⟨l, h3, h4⟩ := applyFn_pure g rs as d htop (fits_child h) h2 hz
      refine ⟨.fresh l, by simp only [nodePredict, h1, h3], ⟨fun x hx => by simp [Node.value] at hx, fun _ => ⟨l, rfl, ?_⟩⟩, h4⟩
      rw [h4, valuesOn_length]
theorem nodesPredict_pure : (ts : List (Node GFn GTerm)) → (d : Frame) → (∀ t ∈ ts, Fits d t) →
    (∀ t ∈ ts, ∀ x, DividesBy t x → ¬ HasZero d x) →
    ∃ as, nodesPredict ts d = (.ok as, d) ∧ List.Forall₂ (fun t a => ArrOf d t a ∧ d.read a = valuesOn d t) ts as
  | [], d, _, _ => ⟨[], by simp only [nodesPredict], .nil⟩
  | t :: ts, d, h, hz => by
    obtain ⟨a, h1, h2⟩ := nodePredict_pure t d (h t (by simp)) (hz t (by simp))
    obtain ⟨as, h3, h4⟩ := nodesPredict_pure ts d (fun s hs => h s (by simp [hs])) (fun s hs => hz s (by simp [hs]))
    exact ⟨a :: as, by simp only [nodesPredict, h1, h3], .cons h2 h4⟩
end

/-! ## Row by row -/

/-- Row `j` of an array. -/
noncomputable def _root_.Verif.Arr.oneRow (j : Nat) : Arr → Arr
  | .fresh l => .fresh [l.getD j 0]
  | .view x => .view x

theorem oneRow_fresh (j : Nat) (l : List ℝ) : (Arr.fresh l).oneRow j = .fresh [l.getD j 0] := rfl
theorem oneRow_view (j : Nat) (x : String) : (Arr.view x).oneRow j = .view x := rfl
theorem read_fresh (d : Frame) (l : List ℝ) : d.read (.fresh l) = l := rfl

theorem read_row {d : Frame} {t : Node GFn GTerm} {a : Arr} (h : ArrOf d t a) (hf : Fits d t) (j : Nat) :
    (oneRow d j).read (a.oneRow j) = [(d.read a).getD j 0] := by
  by_cases hx : ∃ x, t.value = .term (.var x)
  · obtain ⟨x, hx⟩ := hx
    rw [h.1 x hx]
    have := fits_top hf
    rw [hx] at this
    obtain ⟨-, l, hl, hlen⟩ := this
    simp [Frame.read, hl, oneRow, Arr.oneRow]
  · obtain ⟨l, hl, hlen⟩ := h.2 (fun x hv => hx ⟨x, hv⟩)
    rw [hl]; rfl

theorem getD_map_onesForZeros (l : List ℝ) (j : Nat) (hj : j < l.length) : (onesForZeros l).getD j 0 = nonzero (l.getD j 0) := by
  simp only [onesForZeros, List.getD_eq_getElem?_getD, List.getElem?_map, List.getElem?_eq_getElem hj]
  rfl

theorem oneRow_after {d : Frame} {x : String} {l : List ℝ} (hl : d.col x = some l) {j : Nat} (hj : j < l.length) :
    (oneRow d j).after (· = x) = oneRow (d.after (· = x)) j := by
  unfold oneRow Frame.after
  congr 1
  funext z
  dsimp only
  by_cases hz : z = x
  · subst hz
    simp only [if_true, hl, Option.map_some, Option.some.injEq]
    rw [getD_map_onesForZeros l j hj]
    rfl
  · simp [hz]

theorem getD_zipWith (f : ℝ → ℝ → ℝ) (a b : List ℝ) (j : Nat) (ha : j < a.length) (hb : j < b.length) :
    (List.zipWith f a b).getD j 0 = f (a.getD j 0) (b.getD j 0) := by
  simp [List.getD_eq_getElem?_getD, List.getElem?_zipWith, List.getElem?_eq_getElem ha, List.getElem?_eq_getElem hb]

theorem applyFn_row (g : GFn) (rs : List (Node GFn GTerm)) (as : List Arr) (d : Frame) (hlen : rs.length = g.arity)
    (hf : ∀ t ∈ rs, Fits d t) (h : List.Forall₂ (ArrOf d) rs as) (j : Nat) (hj : j < d.rows) (a : Arr) (d' : Frame)
    (hr : applyFn g as d = (.ok a, d')) :
    applyFn g (as.map (Arr.oneRow j)) (oneRow d j) = (.ok (a.oneRow j), oneRow d' j) := by
  have har : g.arity = 1 ∨ g.arity = 2 := by cases g <;> simp [GFn.arity]
  cases h with
  | nil => simp only [List.length_nil] at hlen; omega
  | cons h1 hs =>
    rename_i t1 a1 ts bs
    have r1 := read_length h1 (hf t1 (by simp))
    have e1 := read_row h1 (hf t1 (by simp)) j
    cases hs with
    | nil =>
      have ha : g.arity = 1 := by simp only [List.length_cons, List.length_nil] at hlen; omega
      simp only [applyFn, ha, if_true, Prod.mk.injEq, Except.ok.injEq] at hr
      simp only [applyFn, ha, if_true, List.map_cons, List.map_nil, e1, Prod.mk.injEq, Except.ok.injEq]
      refine ⟨?_, by rw [hr.2]⟩
      rw [← hr.1]
      simp [Arr.oneRow, List.getD_eq_getElem?_getD, List.getElem?_eq_getElem (show j < (d.read a1).length by omega)]
    | cons h2 hs' =>
      rename_i t2 a2 ts' bs'
      have r2 := read_length h2 (hf t2 (by simp))
      have e2 := read_row h2 (hf t2 (by simp)) j
      have ha : g.arity = ts'.length + 2 := by simp only [List.length_cons] at hlen; omega
      have h2' : ts'.length = 0 := by omega
      have ht : ts' = [] := List.length_eq_zero_iff.1 h2'
      subst ht
      cases hs'
      simp only [List.length_nil, Nat.zero_add] at ha
      by_cases hg : g = .div
      · subst hg
        by_cases hx : ∃ x, t2.value = .term (.var x)
        · obtain ⟨x, hx⟩ := hx
          have ev := h2.1 x hx
          subst ev
          have hft := fits_top (hf t2 (by simp))
          rw [hx] at hft
          obtain ⟨-, l, hl, hlen'⟩ := hft
          have q1 : ((d.after (· = x)).read a1).length = d.rows :=
            read_length (d := d.after (· = x)) (t := t1) h1 (fits_after _ (hf t1 (by simp)))
          have q2 : ((d.after (· = x)).read (.view x)).length = d.rows :=
            read_length (d := d.after (· = x)) (t := t2) h2 (fits_after _ (hf t2 (by simp)))
          have f1 := read_row (d := d.after (· = x)) (t := t1) h1 (fits_after _ (hf t1 (by simp))) j
          have f2 := read_row (d := d.after (· = x)) (t := t2) h2 (fits_after _ (hf t2 (by simp))) j
          rw [oneRow_view] at f2
          simp only [applyFn, ha, if_true, fixZeros_view, Prod.mk.injEq, Except.ok.injEq] at hr
          simp only [applyFn, ha, if_true, List.map_cons, List.map_nil, oneRow_view, fixZeros_view]
          rw [oneRow_after hl (by omega), f1, f2, ← hr.2, ← hr.1, oneRow_fresh, getD_zipWith _ _ _ j (by omega) (by omega)]
          rfl
        · obtain ⟨l, hl, hlen'⟩ := h2.2 (fun x hv => hx ⟨x, hv⟩)
          subst hl
          simp only [applyFn, ha, if_true, Frame.fixZeros, Prod.mk.injEq, Except.ok.injEq] at hr
          simp only [applyFn, ha, if_true, List.map_cons, List.map_nil, oneRow_fresh, Frame.fixZeros, e1]
          rw [← hr.2, ← hr.1]
          simp only [read_fresh, oneRow_fresh]
          rw [getD_zipWith _ _ _ j (by omega) (by rw [List.length_map]; omega)]
          simp [List.getD_eq_getElem?_getD, List.getElem?_eq_getElem (show j < l.length by omega)]
      · simp only [applyFn, ha, if_true, if_neg hg, Prod.mk.injEq, Except.ok.injEq] at hr
        simp only [applyFn, ha, if_true, if_neg hg, List.map_cons, List.map_nil, e1, e2]
        rw [← hr.2, ← hr.1]
        simp only [Arr.oneRow]
        rw [getD_zipWith _ _ _ j (by omega) (by omega)]
        rfl

mutual
theorem nodePredict_row : (t : Node GFn GTerm) → (d : Frame) → Fits d t → (j : Nat) → j < d.rows → (a : Arr) → (d' : Frame) →
    nodePredict t d = (.ok a, d') → nodePredict t (oneRow d j) = (.ok (a.oneRow j), oneRow d' j)
  | .mk v rs, d, h, j, hj, a, d', hr => by
    have htop := fits_top h
    cases v with
    | linear => exact htop.elim
    | term x =>
      cases x with
      | const c =>
        simp only [nodePredict, Prod.mk.injEq, Except.ok.injEq] at hr
        rw [← hr.1, ← hr.2]
        simp [nodePredict, oneRow, Arr.oneRow, List.getD_eq_getElem?_getD, List.getElem?_replicate, hj]
      | var x =>
        simp only [Node.value, Node.roots] at htop
        obtain ⟨h0, l, hl, hlen⟩ := htop
        simp only [nodePredict, hl, Prod.mk.injEq, Except.ok.injEq] at hr
        rw [← hr.1, ← hr.2]
        simp [nodePredict, oneRow, Arr.oneRow, hl]
    | fn g =>
      simp only [Node.value, Node.roots] at htop
      obtain ⟨as, h1, h2⟩ := nodesPredict_writes rs d (fits_child h)
      have h3 := nodesPredict_row rs d (fits_child h) j hj as _ h1
      simp only [nodePredict, h1] at hr
      simp only [nodePredict, h3]
      exact applyFn_row g rs as _ htop (fun t ht => fits_after _ (fits_child h t ht)) h2 j hj a d' hr
theorem nodesPredict_row : (ts : List (Node GFn GTerm)) → (d : Frame) → (∀ t ∈ ts, Fits d t) → (j : Nat) → j < d.rows →
    (as : List Arr) → (d' : Frame) → nodesPredict ts d = (.ok as, d') →
    nodesPredict ts (oneRow d j) = (.ok (as.map (Arr.oneRow j)), oneRow d' j)
  | [], d, _, j, _, as, d', hr => by
    simp only [nodesPredict, Prod.mk.injEq, Except.ok.injEq] at hr
    rw [← hr.1, ← hr.2]
    simp only [nodesPredict, List.map_nil]
  | t :: ts, d, h, j, hj, as, d', hr => by
    obtain ⟨a, h1, -⟩ := nodePredict_writes t d (h t (by simp))
    have h2 := nodePredict_row t d (h t (by simp)) j hj a _ h1
    obtain ⟨bs, h3, -⟩ := nodesPredict_writes ts (d.after (DividesBy t)) (fun s hs => fits_after _ (h s (by simp [hs])))
    have h4 := nodesPredict_row ts (d.after (DividesBy t)) (fun s hs => fits_after _ (h s (by simp [hs]))) j hj bs _ h3
    simp only [nodesPredict, h1, h3, Prod.mk.injEq, Except.ok.injEq] at hr
    simp only [nodesPredict, h2, h4, ← hr.1, ← hr.2, List.map_cons]
end

/-! ## C75: prediction -/

/-- A fitted model over the columns of a frame: at least one subtree, and one weight more than subtrees. -/
structure FittedOn (d : Frame) (roots : List (Node GFn GTerm)) (w : List ℝ) : Prop where
  some_tree : roots ≠ []
  weights : w.length = roots.length + 1
  fits : ∀ r ∈ roots, Fits d r

theorem zipWith_sum_range (v w : List ℝ) (h : w.length = v.length) :
    (List.zipWith (fun a b => a * b) v w).sum = ((List.range v.length).map (fun i => w.getD i 0 * v.getD i 0)).sum := by
  induction v generalizing w with
  | nil => simp
  | cons a v ih =>
    cases w with
    | nil => simp at h
    | cons b w =>
      simp only [List.length_cons, Nat.add_right_cancel_iff] at h
      rw [List.zipWith_cons_cons, List.sum_cons, ih w h, List.length_cons, List.range_succ_eq_map, List.map_cons, List.sum_cons, List.map_map]
      simp [Function.comp_def, mul_comm]

theorem linearOut_eq (w : List ℝ) (roots : List (Node GFn GTerm)) (d : Frame) (j : Nat) (hj : j < d.rows)
    (hw : w.length = roots.length + 1) : linearOut w (roots.map (valuesOn d)) j = modelValue w roots (rowOf d j) := by
  unfold linearOut modelValue
  cases w with
  | nil => simp at hw
  | cons b w =>
    simp only [List.length_cons, Nat.add_right_cancel_iff] at hw
    rw [List.zipWith_cons_cons, List.sum_cons, zipWith_sum_range _ _ (by simpa using hw)]
    simp only [one_mul, List.getD_cons_zero, List.getD_cons_succ, List.length_map, List.map_map]
    congr 2
    apply List.map_congr_left
    intro i hi
    have hi' := List.mem_range.1 hi
    simp [List.getD_eq_getElem?_getD, List.getElem?_eq_getElem hi', valuesOn, hj]

theorem forall2_ne_nil {d : Frame} {ts : List (Node GFn GTerm)} {as : List Arr} (h : List.Forall₂ (ArrOf d) ts as) (hne : ts ≠ []) :
    as ≠ [] := by
  cases h with
  | nil => exact absurd rfl hne
  | cons => simp

theorem forall2_reads {d : Frame} {ts : List (Node GFn GTerm)} {as : List Arr}
    (h : List.Forall₂ (fun t a => ArrOf d t a ∧ d.read a = valuesOn d t) ts as) : as.map d.read = ts.map (valuesOn d) := by
  induction h with
  | nil => rfl
  | cons h1 _ ih => rw [List.map_cons, List.map_cons, ih, h1.2]

theorem subtreeOutputs_pure (d : Frame) (roots : List (Node GFn GTerm)) (h0 : roots ≠ []) (hf : ∀ r ∈ roots, Fits d r)
    (hz : ∀ r ∈ roots, ∀ x, DividesBy r x → ¬ HasZero d x) : subtreeOutputs roots d = (.ok (roots.map (valuesOn d)), d) := by
  obtain ⟨as, h1, h2⟩ := nodesPredict_pure roots d hf hz
  have hne := forall2_ne_nil (h2.imp (fun _ _ h => h.1)) h0
  simp only [subtreeOutputs, h1, if_neg hne, forall2_reads h2]

/-- C75: as long as no column that a tree divides by contains a zero, `predict` computes, for every row, the bias plus the weighted sum of
the subtrees' values, and leaves the data alone. -/
theorem c75_predict_means (d : Frame) (roots : List (Node GFn GTerm)) (w : List ℝ) (h : FittedOn d roots w)
    (hz : ∀ r ∈ roots, ∀ x, DividesBy r x → ¬ HasZero d x) :
    gpPredict roots w d = (.ok ((List.range d.rows).map (fun j => modelValue w roots (rowOf d j))), d) := by
  simp only [gpPredict, subtreeOutputs_pure d roots h.some_tree h.fits hz]
  rw [if_neg (by rw [List.length_map]; simpa using h.weights)]
  congr 2
  apply List.map_congr_left
  intro j hj
  exact linearOut_eq w roots d j (List.mem_range.1 hj) h.weights

theorem subtreeOutputs_writes (d : Frame) (roots : List (Node GFn GTerm)) (h0 : roots ≠ []) (hf : ∀ r ∈ roots, Fits d r) :
    ∃ vals, subtreeOutputs roots d = (.ok vals, d.after (fun x => ∃ r ∈ roots, DividesBy r x)) ∧ vals.length = roots.length := by
  obtain ⟨as, h1, h2⟩ := nodesPredict_writes roots d hf
  have hne := forall2_ne_nil h2 h0
  refine ⟨as.map (d.after (fun x => ∃ r ∈ roots, DividesBy r x)).read, by simp only [subtreeOutputs, h1, if_neg hne], ?_⟩
  rw [List.length_map, ← h2.length_eq]

theorem gpPredict_writes (d : Frame) (roots : List (Node GFn GTerm)) (w : List ℝ) (h : FittedOn d roots w) :
    ∃ out, gpPredict roots w d = (.ok out, d.after (fun x => ∃ r ∈ roots, DividesBy r x)) ∧ out.length = d.rows := by
  obtain ⟨vals, h1, h2⟩ := subtreeOutputs_writes d roots h.some_tree h.fits
  refine ⟨(List.range d.rows).map (linearOut w vals), ?_, by simp⟩
  simp only [gpPredict, h1]
  rw [if_neg (by rw [h2]; simpa using h.weights)]
  rfl

/-- C75: `predict` always returns one value for every row, and writes into the data it is given: in every column that some subtree divides
by, the zeros are ones afterwards; all other columns and the number of rows are untouched. -/
theorem c75_predict_writes (d : Frame) (roots : List (Node GFn GTerm)) (w : List ℝ) (h : FittedOn d roots w) :
    ∃ out d', gpPredict roots w d = (.ok out, d') ∧ out.length = d.rows ∧ d'.rows = d.rows ∧
      (∀ x, (∃ r ∈ roots, DividesBy r x) → d'.col x = (d.col x).map onesForZeros) ∧
      (∀ x, (¬ ∃ r ∈ roots, DividesBy r x) → d'.col x = d.col x) := by
  obtain ⟨out, h1, h2⟩ := gpPredict_writes d roots w h
  exact ⟨out, _, h1, h2, rfl, fun x hx => by simp only [Frame.after, if_pos hx], fun x hx => by simp only [Frame.after, if_neg hx]⟩

/-- C75: the caller's data are changed exactly if a column that some subtree divides by has a zero. -/
theorem c75_changes_data_iff (d : Frame) (roots : List (Node GFn GTerm)) (w : List ℝ) (h : FittedOn d roots w) :
    (gpPredict roots w d).2 ≠ d ↔ ∃ r ∈ roots, ∃ x, DividesBy r x ∧ HasZero d x := by
  obtain ⟨out, h1, -⟩ := gpPredict_writes d roots w h
  rw [h1]
  constructor
  · intro hne
    by_contra hno
    exact hne (after_pure d _ (fun z ⟨r, hr, hd⟩ h0 => hno ⟨r, hr, z, hd, h0⟩))
  · rintro ⟨r, hr, x, hd, h0⟩ heq
    exact after_noZero d (fun x => ∃ r ∈ roots, DividesBy r x) x ⟨r, hr, hd⟩ (by
      show HasZero (d.after _) x
      have : d.after (fun x => ∃ r ∈ roots, DividesBy r x) = d := heq
      rw [this]; exact h0)

/-- C75: a second prediction on the same data changes nothing more; it gives the values of the expressions on the changed data, and so
does every further one. -/
theorem c75_second_prediction (d : Frame) (roots : List (Node GFn GTerm)) (w : List ℝ) (h : FittedOn d roots w) :
    gpPredict roots w (gpPredict roots w d).2 =
      (.ok ((List.range d.rows).map (fun j => modelValue w roots (rowOf (gpPredict roots w d).2 j))), (gpPredict roots w d).2) := by
  obtain ⟨out, h1, -⟩ := gpPredict_writes d roots w h
  rw [h1]
  exact c75_predict_means _ roots w ⟨h.some_tree, h.weights, fun r hr => fits_after _ (h.fits r hr)⟩
    (fun r hr x hx => after_noZero d (fun x => ∃ r ∈ roots, DividesBy r x) x ⟨r, hr, hx⟩)

/-- C75: rows do not influence each other, zeros or not: predicting row `j` alone gives what predicting all rows gives there, and changes
that row in the same way. -/
theorem c75_rows_independent (d : Frame) (roots : List (Node GFn GTerm)) (w : List ℝ) (h : FittedOn d roots w) (j : Nat) (hj : j < d.rows) :
    ∃ out, (gpPredict roots w d).1 = .ok out ∧
      gpPredict roots w (oneRow d j) = (.ok [out.getD j 0], oneRow (gpPredict roots w d).2 j) := by
  obtain ⟨as, h1, h2⟩ := nodesPredict_writes roots d h.fits
  have h3 := nodesPredict_row roots d h.fits j hj as _ h1
  have hne := forall2_ne_nil h2 h.some_tree
  have hlen : w.length = (as.map (d.after (fun x => ∃ r ∈ roots, DividesBy r x)).read).length + 1 := by
    rw [List.length_map, ← h2.length_eq]; exact h.weights
  have hlen' : w.length = ((as.map (Arr.oneRow j)).map (oneRow (d.after (fun x => ∃ r ∈ roots, DividesBy r x)) j).read).length + 1 := by
    rw [List.length_map, List.length_map, ← h2.length_eq]; exact h.weights
  have e1 : gpPredict roots w d = (.ok ((List.range d.rows).map
      (linearOut w (as.map (d.after (fun x => ∃ r ∈ roots, DividesBy r x)).read))), d.after (fun x => ∃ r ∈ roots, DividesBy r x)) := by
    simp only [gpPredict, subtreeOutputs, h1, if_neg hne]
    rw [if_neg (not_not.2 hlen)]
    rfl
  have e2 : gpPredict roots w (oneRow d j) = (.ok ((List.range 1).map
      (linearOut w ((as.map (Arr.oneRow j)).map (oneRow (d.after (fun x => ∃ r ∈ roots, DividesBy r x)) j).read))),
      oneRow (d.after (fun x => ∃ r ∈ roots, DividesBy r x)) j) := by
    have hne' : as.map (Arr.oneRow j) ≠ [] := by simpa using hne
    simp only [gpPredict, subtreeOutputs, h3, if_neg hne']
    rw [if_neg (not_not.2 hlen')]
    rfl
  rw [e1, e2]
  refine ⟨_, rfl, ?_⟩
  congr 2
  have hread : ∀ (ts : List (Node GFn GTerm)) (as : List Arr), (∀ t ∈ ts, Fits (d.after (fun x => ∃ r ∈ roots, DividesBy r x)) t) →
      List.Forall₂ (ArrOf d) ts as →
      ((as.map (Arr.oneRow j)).map (oneRow (d.after (fun x => ∃ r ∈ roots, DividesBy r x)) j).read).map (fun v => v.getD 0 0) =
      (as.map (d.after (fun x => ∃ r ∈ roots, DividesBy r x)).read).map (fun v => v.getD j 0) := by
    intro ts as hts hh
    induction hh with
    | nil => rfl
    | cons q1 _ ih =>
      simp only [List.map_cons]
      rw [ih (fun t ht => hts t (by simp [ht]))]
      congr 1
      rw [read_row (d := d.after (fun x => ∃ r ∈ roots, DividesBy r x)) q1 (hts _ (by simp)) j]
      rfl
  have hread' := hread roots as (fun t ht => fits_after _ (h.fits t ht)) h2
  have e3 : (List.range 1).map (linearOut w ((as.map (Arr.oneRow j)).map (oneRow (d.after (fun x => ∃ r ∈ roots, DividesBy r x)) j).read)) =
      [linearOut w (as.map (d.after (fun x => ∃ r ∈ roots, DividesBy r x)).read) j] := by
    show [linearOut w _ 0] = _
    unfold linearOut
    rw [hread']
  rw [e3, List.getD_eq_getElem?_getD, List.getElem?_map, List.getElem?_range hj]
  rfl

/-! ### Not repeatable -/

/-- the variable `x` as a tree -/
def vx (x : String) : Node GFn GTerm := .mk (.term (.var x)) []

/-- `x * x + 1 / x` -/
noncomputable def squareInverse : Node GFn GTerm :=
  .mk (.fn .add) [.mk (.fn .mul) [vx "x", vx "x"], .mk (.fn .div) [.mk (.term (.const 1)) [], vx "x"]]

/-- one column `x` with one entry -/
noncomputable def frameX (v : ℝ) : Frame := ⟨1, fun z => if z = "x" then some [v] else none⟩

theorem fits_vx (d : Frame) (x : String) (l : List ℝ) (h : d.col x = some l) (hl : l.length = d.rows) : Fits d (vx x) := by
  intro p s hp
  cases p with
  | nil =>
    simp only [vx, Node.at?, Option.some.injEq] at hp
    subst hp
    exact ⟨rfl, l, h, hl⟩
  | cons i p => simp [vx, Node.at?] at hp

theorem fits_const (d : Frame) (c : ℝ) : Fits d (.mk (.term (.const c)) []) := by
  intro p s hp
  cases p with
  | nil =>
    simp only [Node.at?, Option.some.injEq] at hp
    subst hp
    rfl
  | cons i p => simp [Node.at?] at hp

theorem fits_fn (d : Frame) (g : GFn) (rs : List (Node GFn GTerm)) (hlen : rs.length = g.arity) (h : ∀ r ∈ rs, Fits d r) :
    Fits d (.mk (.fn g) rs) := by
  intro p s hp
  cases p with
  | nil =>
    simp only [Node.at?, Option.some.injEq] at hp
    subst hp
    exact hlen
  | cons i p =>
    simp only [Node.at?] at hp
    cases hi : rs[i]? with
    | none => rw [hi] at hp; simp at hp
    | some c => rw [hi] at hp; exact h c (List.mem_of_getElem? hi) p s hp

theorem squareInverse_fits (v : ℝ) : FittedOn (frameX v) [squareInverse] [0, 1] := by
  have hx : Fits (frameX v) (vx "x") := fits_vx _ "x" [v] rfl rfl
  refine ⟨by simp, rfl, fun r hr => ?_⟩
  rw [List.mem_singleton] at hr
  subst hr
  refine fits_fn _ _ _ rfl (fun r hr => ?_)
  simp only [List.mem_cons, List.not_mem_nil, or_false] at hr
  rcases hr with rfl | rfl
  · exact fits_fn _ _ _ rfl (fun r hr => by simp only [List.mem_cons, List.not_mem_nil, or_false, or_self] at hr; subst hr; exact hx)
  · refine fits_fn _ _ _ rfl (fun r hr => ?_)
    simp only [List.mem_cons, List.not_mem_nil, or_false] at hr
    rcases hr with rfl | rfl
    · exact fits_const _ 1
    · exact hx

/-- C75, violated: predicting the same point twice can give two different answers (1, then 2, for `x * x + 1 / x` at zero). -/
theorem c75_repeatable_violated : ∃ (d : Frame) (roots : List (Node GFn GTerm)) (w : List ℝ), FittedOn d roots w ∧
    (gpPredict roots w d).1 = .ok [1] ∧ (gpPredict roots w (gpPredict roots w d).2).1 = .ok [2] := by
  refine ⟨frameX 0, [squareInverse], [0, 1], squareInverse_fits 0, ?_, ?_⟩
  · simp [gpPredict, subtreeOutputs, squareInverse, vx, nodePredict, nodesPredict, applyFn, GFn.arity, frameX, Frame.read, Frame.fixZeros,
      linearOut, GFn.two, nonzero]
  · simp [gpPredict, subtreeOutputs, squareInverse, vx, nodePredict, nodesPredict, applyFn, GFn.arity, frameX, Frame.read, Frame.fixZeros,
      linearOut, GFn.two, nonzero]
    norm_num

/-- C75, violated: even the first prediction need not be the value of the model: a subtree that is a bare variable is read after another
subtree has overwritten its column (`x + 1 / x` at zero, with a division by zero counting as division by one, is 1, not 2). -/
theorem c75_first_prediction_violated : ∃ (d : Frame) (roots : List (Node GFn GTerm)) (w : List ℝ), FittedOn d roots w ∧
    modelValue w roots (rowOf d 0) = 1 ∧ (gpPredict roots w d).1 = .ok [2] := by
  refine ⟨frameX 0, [vx "x", .mk (.fn .div) [.mk (.term (.const 1)) [], vx "x"]], [0, 1, 1], ⟨by simp, rfl, ?_⟩, ?_, ?_⟩
  · have hx : Fits (frameX 0) (vx "x") := fits_vx _ "x" [0] rfl rfl
    intro r hr
    simp only [List.mem_cons, List.not_mem_nil, or_false] at hr
    rcases hr with rfl | rfl
    · exact hx
    · refine fits_fn _ _ _ rfl (fun r hr => ?_)
      simp only [List.mem_cons, List.not_mem_nil, or_false] at hr
      rcases hr with rfl | rfl
      · exact fits_const _ 1
      · exact hx
  · simp [modelValue, List.range_succ, meaning, meaningL, fnMeaning, vx, rowOf, frameX]
  · simp [gpPredict, subtreeOutputs, vx, nodePredict, nodesPredict, applyFn, GFn.arity, frameX, Frame.read, Frame.fixZeros,
      linearOut, GFn.two, nonzero]
    norm_num

/-- Non-vacuity of the positive theorems: the same tree at a point without zeros. -/
example : FittedOn (frameX 2) [squareInverse] [0, 1] ∧ (∀ r ∈ [squareInverse], ∀ x, DividesBy r x → ¬ HasZero (frameX 2) x) ∧
    (gpPredict [squareInverse] [0, 1] (frameX 2)).1 = .ok [9 / 2] := by
  refine ⟨squareInverse_fits 2, ?_, ?_⟩
  · rintro r - x - ⟨l, hl, h0⟩
    simp only [frameX] at hl
    split at hl
    · injection hl with hl; subst hl; simp at h0
    · cases hl
  · simp [gpPredict, subtreeOutputs, squareInverse, vx, nodePredict, nodesPredict, applyFn, GFn.arity, frameX, Frame.read, Frame.fixZeros,
      linearOut, GFn.two, nonzero]
    norm_num

/-! ## C76: fitting -/

/-- What the training set and the configuration must agree on: the functions are called with as many arguments as they take, and every
terminal is a number or a column of the training data. -/
structure Agrees (c : GPCfg GFn GTerm) (d : Frame) : Prop where
  arity : c.arity = GFn.arity
  cols : ∀ x, GTerm.var x ∈ c.terms → ∃ l, d.col x = some l ∧ l.length = d.rows

theorem isExpr_fits {c : GPCfg GFn GTerm} {d : Frame} (ha : Agrees c d) {t : Node GFn GTerm} (h : IsExpr c t) : Fits d t := by
  intro p s hp
  have := h p s hp
  cases hv : s.value with
  | fn g => rw [hv] at this; rw [← ha.arity]; exact this.2
  | linear => rw [hv] at this; exact this
  | term y =>
    rw [hv] at this
    cases y with
    | const z => exact this.2
    | var x => exact ⟨this.2, ha.cols x this.1⟩

/-- C76: fitting an individual with `max_subtrees` expressions never raises, whatever the solver returns and whatever ratios are low; the
individual keeps `max_subtrees` expressions and gets the weights the solver found, and one output value for every row. -/
theorem c76_fit_returns (c : GPCfg GFn GTerm) (scalar : ℝ) (lstsq : List (List ℝ) → List ℝ) (low : List (List ℝ) → List Bool)
    (r : Nat → GrowRand) (roots : List (Node GFn GTerm)) (d : Frame) (ha : Agrees c d) (ht : c.terms ≠ []) (hfn : c.fns ≠ [])
    (hn : roots.length = c.maxSubtrees) (h0 : roots ≠ []) (hx : ∀ t ∈ roots, IsExpr c t)
    (hlow : ∀ vals, vals.length = roots.length → (low vals).length = roots.length) :
    ∃ f vals, calculateLinear c scalar lstsq low r roots d = (.ok f, (subtreeOutputs roots d).2) ∧
      (subtreeOutputs roots d).1 = .ok vals ∧ f.linear = lstsq vals ∧
      f.out = (List.range d.rows).map (linearOut (lstsq vals) vals) ∧
      f.roots.length = c.maxSubtrees ∧ (∀ t ∈ f.roots, IsExpr c t) := by
  obtain ⟨vals, h1, h2⟩ := subtreeOutputs_writes d roots h0 (fun t ht => isExpr_fits ha (hx t ht))
  obtain ⟨out, h3, h4, h5, -⟩ := c59_prune c ht hfn r (low vals) 0 roots hn (by rw [hlow vals h2]; omega) hx
  have e : ∃ f, calculateLinear c scalar lstsq low r roots d = (.ok f, (subtreeOutputs roots d).2) ∧ f.linear = lstsq vals ∧
      f.out = (List.range d.rows).map (linearOut (lstsq vals) vals) ∧ f.roots = out := by
    refine ⟨_, by simp only [calculateLinear, h1, h3]; rfl, rfl, rfl, rfl⟩
  obtain ⟨f, e1, e2, e3, e4⟩ := e
  exact ⟨f, vals, e1, by rw [h1], e2, e3, by rw [e4]; exact h4, by rw [e4]; exact h5⟩

/-- C76: the complexity that is reported: `scalar` times the depth of the tree as it is afterwards plus `1 - scalar` times the number of its
function nodes. -/
theorem c76_complexity (c : GPCfg GFn GTerm) (scalar : ℝ) (lstsq : List (List ℝ) → List ℝ) (low : List (List ℝ) → List Bool)
    (r : Nat → GrowRand) (roots : List (Node GFn GTerm)) (d d' : Frame) (f : LinFit)
    (h : calculateLinear c scalar lstsq low r roots d = (.ok f, d')) :
    ∃ depth, DepthLE (.mk .linear f.roots) depth ∧ (∃ p s, (Node.mk .linear f.roots).at? p = some s ∧ p.length = depth) ∧
      f.complexity = scalar * (depth : ℝ) +
        (1 - scalar) * (Set.ncard {p : List Nat | ∃ s g, (Node.mk .linear f.roots).at? p = some s ∧ s.value = .fn g} : ℝ) := by
  unfold calculateLinear at h
  split at h
  · simp at h
  · dsimp only at h
    split at h
    · simp at h
    · rename_i roots' _
      simp only [Prod.mk.injEq, Except.ok.injEq] at h
      obtain ⟨h, -⟩ := h
      subst h
      refine ⟨totalDepth (.mk .linear roots'), (totalDepth_spec _).1, (totalDepth_spec _).2, ?_⟩
      dsimp only
      congr 3
      generalize Node.mk NVal.linear roots' = t
      have e : {p : List Nat | ∃ s g, t.at? p = some s ∧ s.value = .fn g} =
          ((((subNodes t).filter (fun q => match q.2.value with | .fn _ => true | _ => false)).map Prod.fst).toFinset : Set (List Nat)) := by
        ext p
        simp only [Set.mem_ofPred_eq, List.coe_toFinset, List.mem_map, List.mem_filter, Prod.exists, exists_and_right, exists_eq_right]
        constructor
        · rintro ⟨s, g, h1, h2⟩
          exact ⟨s, (mem_subNodes t p s).2 h1, by simp [h2]⟩
        · rintro ⟨s, h1, h2⟩
          cases hv : s.value with
          | fn g => exact ⟨s, g, (mem_subNodes t p s).1 h1, hv⟩
          | linear => rw [hv] at h2; simp at h2
          | term y => rw [hv] at h2; simp at h2
      rw [e, Set.ncard_coe_finset, List.toFinset_card_of_nodup, List.length_map]
      · rfl
      · exact ((subNodes_nodup t).sublist (List.Sublist.map _ List.filter_sublist))

/-- C76: if no ratio is low (and no divisor column has a zero), the individual is unchanged and the output used for its error is what the
fitted model predicts for the training data. -/
theorem c76_error_of_model (c : GPCfg GFn GTerm) (scalar : ℝ) (lstsq : List (List ℝ) → List ℝ) (low : List (List ℝ) → List Bool)
    (r : Nat → GrowRand) (roots : List (Node GFn GTerm)) (d : Frame) (h0 : roots ≠ []) (hf : ∀ t ∈ roots, Fits d t)
    (hz : ∀ t ∈ roots, ∀ x, DividesBy t x → ¬ HasZero d x)
    (hlow : low (roots.map (fun t => (List.range d.rows).map (fun j => meaning (rowOf d j) t))) = List.replicate roots.length false)
    (hw : ∀ vals, (lstsq vals).length = vals.length + 1) :
    ∃ f, calculateLinear c scalar lstsq low r roots d = (.ok f, d) ∧ f.roots = roots ∧ gpPredict f.roots f.linear d = (.ok f.out, d) := by
  have h1 := subtreeOutputs_pure d roots h0 hf hz
  refine ⟨_, by simp only [calculateLinear, h1, show low (roots.map (valuesOn d)) = List.replicate roots.length false from hlow, c59_none]; rfl, rfl, ?_⟩
  dsimp only
  simp only [gpPredict, h1]
  rw [if_neg (not_not.2 (hw _))]

/-- C76: if exactly one ratio is low, at subtree `i`, that subtree is removed and a new one appended, but the weights stay where they were:
subtree `k + 1` (`k ≥ i`) is from then on weighted with what was fitted for subtree `k`, and the new one with the last weight. -/
theorem c76_weights_shift (c : GPCfg GFn GTerm) (scalar : ℝ) (lstsq : List (List ℝ) → List ℝ) (low : List (List ℝ) → List Bool)
    (r : Nat → GrowRand) (roots : List (Node GFn GTerm)) (d : Frame) (ha : Agrees c d) (ht : c.terms ≠ []) (hfn : c.fns ≠ [])
    (hn : roots.length = c.maxSubtrees) (hx : ∀ t ∈ roots, IsExpr c t) (hz : ∀ x, ¬ HasZero d x) (i : Nat) (hi : i < roots.length)
    (hlow : low (roots.map (fun t => (List.range d.rows).map (fun j => meaning (rowOf d j) t))) =
      List.replicate i false ++ true :: List.replicate (roots.length - i - 1) false)
    (hw : ∀ vals, (lstsq vals).length = vals.length + 1) :
    ∃ f new w, calculateLinear c scalar lstsq low r roots d = (.ok f, d) ∧ IsExpr c new ∧ f.roots = roots.eraseIdx i ++ [new] ∧
      w = lstsq (roots.map (fun t => (List.range d.rows).map (fun j => meaning (rowOf d j) t))) ∧
      f.out = (List.range d.rows).map (fun j => modelValue w roots (rowOf d j)) ∧
      gpPredict f.roots f.linear d = (.ok ((List.range d.rows).map (fun j => modelValue w (roots.eraseIdx i ++ [new]) (rowOf d j))), d) := by
  have h0 : roots ≠ [] := by rintro rfl; simp at hi
  have hf : ∀ t ∈ roots, Fits d t := fun t ht => isExpr_fits ha (hx t ht)
  have h1 := subtreeOutputs_pure d roots h0 hf (fun t _ x _ => hz x)
  obtain ⟨new, h2, h3⟩ := c59_one c ht hfn r i (roots.length - i - 1) roots hn hi
  have hlow' : low (roots.map (valuesOn d)) = List.replicate i false ++ true :: List.replicate (roots.length - i - 1) false := hlow
  refine ⟨_, new, lstsq (roots.map (valuesOn d)), by simp only [calculateLinear, h1, hlow', h3]; rfl, h2, rfl, rfl, ?_, ?_⟩
  · dsimp only
    apply List.map_congr_left
    intro j hj
    exact linearOut_eq _ roots d j (List.mem_range.1 hj) (by rw [hw, List.length_map])
  · refine c75_predict_means d _ _ ⟨by simp, ?_, ?_⟩ (fun t _ x _ => hz x)
    · rw [hw, List.length_append, List.length_eraseIdx_of_lt hi, List.length_map]
      simp only [List.length_cons, List.length_nil]
      omega
    · intro t ht
      rcases List.mem_append.1 ht with h | h
      · exact hf t (List.mem_of_mem_eraseIdx h)
      · rw [List.mem_singleton] at h; subst h; exact isExpr_fits ha h2

/-- C76: an array of one individual is not accepted: AttributeError, nothing fitted; an empty one is IndexError. -/
theorem c76_single_individual_raises (fit : Nat → List (Node GFn GTerm) → Frame → Except Err LinFit × Frame) (loss : List ℝ → ℝ)
    (t : List (Node GFn GTerm)) (d : Frame) :
    modelPerformance fit loss [t] d = (.error .attributeError, d) ∧ modelPerformance fit loss [] d = (.error .indexError, d) := ⟨rfl, rfl⟩

/-- C76: in a batch of two or more whose fits all return, the individuals are fitted one after the other on the same (possibly changing)
data; the pairs reported are the loss of the output and the complexity, in the order of the batch. -/
theorem c76_batch (fit : Nat → List (Node GFn GTerm) → Frame → Except Err LinFit × Frame) (loss : List ℝ → ℝ)
    (trees : List (List (Node GFn GTerm))) (h : 2 ≤ trees.length) (ds : Nat → Frame) (fs : Nat → LinFit)
    (hfit : ∀ (i : Nat) (t : List (Node GFn GTerm)), trees[i]? = some t → fit i t (ds i) = (.ok (fs i), ds (i + 1))) :
    modelPerformance fit loss trees (ds 0) =
      (.ok ((List.range trees.length).map (fun i => (loss (fs i).out, (fs i).complexity)), (List.range trees.length).map fs), ds trees.length) := by
  have key : ∀ (ts : List (List (Node GFn GTerm))) (k : Nat),
      (∀ (i : Nat) (t : List (Node GFn GTerm)), ts[i]? = some t → fit (k + i) t (ds (k + i)) = (.ok (fs (k + i)), ds (k + i + 1))) →
      modelPerformance.go fit loss k ts (ds k) =
        (.ok ((List.range' k ts.length).map (fun i => (loss (fs i).out, (fs i).complexity)), (List.range' k ts.length).map fs),
          ds (k + ts.length)) := by
    intro ts
    induction ts with
    | nil => intro k _; rfl
    | cons t ts ih =>
      intro k hk
      have h1 := hk 0 t rfl
      have h2 := ih (k + 1) (fun i t hi => by
        have := hk (i + 1) t (by simpa using hi)
        rw [show k + 1 + i = k + (i + 1) by omega]; exact this)
      rw [Nat.add_zero] at h1
      simp only [modelPerformance.go, h1, h2, List.length_cons, List.range'_succ, List.map_cons]
      rw [show k + 1 + ts.length = k + (ts.length + 1) by omega]
  match trees, h with
  | a :: b :: ts, _ =>
    have := key (a :: b :: ts) 0 (fun i t hi => by rw [Nat.zero_add]; exact hfit i t hi)
    rw [Nat.zero_add, ← List.range_eq_range'] at this
    exact this

/-! ### The fitted error is not the model's -/

/-- three rows, with columns `x` and `z` -/
noncomputable def frameXZ : Frame := ⟨3, fun n => if n = "x" then some [1, 2, 3] else if n = "z" then some [2, -1, 2] else none⟩

/-- two subtrees of depth at most one over these columns -/
def cfgXZ : GPCfg GFn GTerm := ⟨[.neg], [.var "z", .var "x"], GFn.arity, 1, 2⟩

theorem isExpr_vx (c : GPCfg GFn GTerm) (n : String) (h : GTerm.var n ∈ c.terms) : IsExpr c (vx n) := by
  intro p s hp
  cases p with
  | nil => simp only [vx, Node.at?, Option.some.injEq] at hp; subst hp; exact ⟨h, rfl⟩
  | cons i p => simp [vx, Node.at?] at hp

/-- C76, violated: with the target `x` and the subtrees `z` and `x` the least squares fit is exact (weights 0, 0, 1), so the reported output is
the target; `z` is pruned since it contributes nothing, and the resulting individual predicts the column `z` instead of `x` on the very
data it was fitted to. -/
theorem c76_error_violated : ∃ (lstsq : List (List ℝ) → List ℝ) (low : List (List ℝ) → List Bool) (r : Nat → GrowRand) (f : LinFit),
    Agrees cfgXZ frameXZ ∧ (∀ x, ¬ HasZero frameXZ x) ∧ (∀ t ∈ [vx "z", vx "x"], IsExpr cfgXZ t) ∧
    calculateLinear cfgXZ (1 / 2) lstsq low r [vx "z", vx "x"] frameXZ = (.ok f, frameXZ) ∧
    f.linear = [0, 0, 1] ∧ f.out = [1, 2, 3] ∧ (gpPredict f.roots f.linear frameXZ).1 = .ok [2, -1, 2] := by
  refine ⟨fun _ => [0, 0, 1], fun _ => [true, false], fun _ => ⟨fun _ => true, fun _ => 0, fun _ => 0⟩,
    ⟨[1, 2, 3], 1 / 2, [vx "x", vx "z"], [0, 0, 1]⟩, ⟨rfl, ?_⟩, ?_, ?_, ?_, rfl, rfl, ?_⟩
  · intro x hx
    simp only [cfgXZ, List.mem_cons, GTerm.var.injEq, List.not_mem_nil, or_false] at hx
    rcases hx with rfl | rfl
    · exact ⟨[2, -1, 2], rfl, rfl⟩
    · exact ⟨[1, 2, 3], rfl, rfl⟩
  · rintro x ⟨l, hl, h0⟩
    simp only [frameXZ] at hl
    split at hl
    · injection hl with hl; subst hl; simp at h0
    · split at hl
      · injection hl with hl; subst hl; simp at h0
      · cases hl
  · intro t ht
    simp only [List.mem_cons, List.not_mem_nil, or_false] at ht
    rcases ht with rfl | rfl
    · exact isExpr_vx cfgXZ "z" (by simp [cfgXZ])
    · exact isExpr_vx cfgXZ "x" (by simp [cfgXZ])
  · have h1 : subtreeOutputs [vx "z", vx "x"] frameXZ = (.ok [[2, -1, 2], [1, 2, 3]], frameXZ) := by
      simp [subtreeOutputs, vx, nodePredict, nodesPredict, frameXZ, Frame.read]
    have h2 : pruneLoop cfgXZ (fun _ => ⟨fun _ => true, fun _ => 0, fun _ => 0⟩) 0 [true, false] [vx "z", vx "x"] = .ok [vx "x", vx "z"] := rfl
    have h3 : totalDepth (Node.mk NVal.linear [vx "x", vx "z"]) = 1 := rfl
    simp only [calculateLinear, h1, h2, h3, Prod.mk.injEq, Except.ok.injEq, LinFit.mk.injEq, and_true]
    refine ⟨?_, by
      rw [show (List.filter _ (subNodes (Node.mk NVal.linear [vx "x", vx "z"]))).length = 0 from rfl]
      norm_num⟩
    simp [frameXZ, List.range_succ, linearOut]
  · simp [gpPredict, subtreeOutputs, vx, nodePredict, nodesPredict, frameXZ, Frame.read, linearOut, List.range_succ]

/-- Non-vacuity of the positive theorems about fitting: the same individual, nothing pruned, or the first subtree pruned. -/
example : ∃ (lstsq : List (List ℝ) → List ℝ) (low low' : List (List ℝ) → List Bool), Agrees cfgXZ frameXZ ∧
    (∀ t ∈ [vx "z", vx "x"], Fits frameXZ t) ∧ (∀ t ∈ [vx "z", vx "x"], ∀ x, DividesBy t x → ¬ HasZero frameXZ x) ∧
    (∀ vals, (lstsq vals).length = vals.length + 1) ∧ low [[2, -1, 2], [1, 2, 3]] = List.replicate 2 false ∧
    low' [[2, -1, 2], [1, 2, 3]] = List.replicate 0 false ++ true :: List.replicate (2 - 0 - 1) false := by
  obtain ⟨-, -, -, -, h1, h2, h3, -⟩ := c76_error_violated
  exact ⟨fun v => List.replicate (v.length + 1) 1, fun v => v.map (fun _ => false), fun _ => [true, false], h1,
    fun t ht => isExpr_fits h1 (h3 t ht), fun t _ x _ => h2 x, by simp, rfl, rfl⟩

end Verif.Props
