import Verif.Model.BioGPTrain
import Verif.Spec.BioGPTrain
import Verif.Props.BioGPPredict
import Verif.Props.Training
import Verif.Props.TrainingDemo
import Verif.Props.OtherEAs
import Verif.Props.LeastSquares

/-!
# C87: whole trainings of BioGP
-/

open Classical

namespace Verif.Props
open Verif Verif.Spec
open _root_.Spec (Rec Represents EvalOK Gens names rowsSet rowsAt newRecs inRange)

section trees
variable {G T : Type}

/-! ## Loose trees -/

/-- A node of a loose tree. -/
def looseNode (c : GPCfg G T) (s : Node G T) : Prop :=
  match s.value with
  | .fn g => g ∈ c.fns ∧ s.roots.length = c.arity g
  | .term x => x ∈ c.terms
  | .linear => False

theorem looseNode_congr {c : GPCfg G T} {s s' : Node G T} (h1 : s.value = s'.value) (h2 : s.roots.length = s'.roots.length)
    (h : looseNode c s') : looseNode c s := by
  unfold looseNode at *
  rw [h1]
  cases hv : s'.value with
  | fn g => rw [hv] at h; exact ⟨h.1, h2.trans h.2⟩
  | term x => rw [hv] at h; exact h
  | linear => rw [hv] at h; exact h

theorem looseExpr_iff {c : GPCfg G T} {t : Node G T} : LooseExpr c t ↔ ∀ (p : List Nat) (s : Node G T), t.at? p = some s → looseNode c s :=
  Iff.rfl

theorem loose_of_expr {c : GPCfg G T} {t : Node G T} (h : IsExpr c t) : LooseExpr c t := by
  intro p s hp
  have := h p s hp
  cases hv : s.value with
  | fn g => rw [hv] at this; exact this
  | term x => rw [hv] at this; exact this.1
  | linear => rw [hv] at this; exact this

theorem looseInd_of_ind {c : GPCfg G T} {t : Node G T} (h : IsInd c t) : LooseInd c t :=
  ⟨h.root, h.count, fun s hs => loose_of_expr (h.exprs s hs)⟩

theorem _root_.Verif.Spec.LooseExpr.sub {c : GPCfg G T} {t : Node G T} (h : LooseExpr c t) {p : List Nat} {s : Node G T} (hs : t.at? p = some s) :
    LooseExpr c s := by
  intro q u hu
  refine h (p ++ q) u ?_
  rw [at?_append, hs, Option.bind_some]
  exact hu

theorem _root_.Verif.Spec.LooseExpr.put {c : GPCfg G T} {t s : Node G T} (h : LooseExpr c t) (hs : LooseExpr c s) (p : List Nat) : LooseExpr c (t.put p s) := by
  rw [looseExpr_iff]
  intro q u hu
  rcases put_cases p t s q u hu with ⟨q', -, h'⟩ | ⟨-, u0, h1, h2, h3, -⟩
  · exact looseExpr_iff.1 hs q' u h'
  · exact looseNode_congr h2 h3 (looseExpr_iff.1 h q u0 h1)

theorem _root_.Verif.Spec.LooseInd.put {c : GPCfg G T} {t s : Node G T} (h : LooseInd c t) (hs : LooseExpr c s) {p : List Nat} (hp : p ≠ []) :
    LooseInd c (t.put p s) := by
  cases p with
  | nil => exact absurd rfl hp
  | cons i p =>
    rw [put_cons]
    refine ⟨h.root, by simpa [Node.roots] using h.count, ?_⟩
    intro x hx
    rw [roots_mk] at hx
    obtain ⟨j, hj⟩ := List.getElem?_of_mem hx
    rw [List.getElem?_modify] at hj
    cases hc : t.roots[j]? with
    | none => rw [hc] at hj; simp at hj
    | some d =>
      rw [hc] at hj
      have hd := h.exprs d (List.mem_of_getElem? hc)
      by_cases hij : i = j
      · simp [hij] at hj
        subst hj
        exact hd.put hs p
      · simp [hij] at hj
        subst hj
        exact hd

theorem _root_.Verif.Spec.LooseInd.sub {c : GPCfg G T} {t s : Node G T} (h : LooseInd c t) {p : List Nat} (hp : p ≠ []) (hs : t.at? p = some s) :
    LooseExpr c s := by
  cases p with
  | nil => exact absurd rfl hp
  | cons i p =>
    rw [at?_cons] at hs
    cases hc : t.roots[i]? with
    | none => rw [hc] at hs; simp at hs
    | some d =>
      rw [hc, Option.bind_some] at hs
      exact (h.exprs d (List.mem_of_getElem? hc)).sub hs

/-! ### Variation -/

/-- Two nodes at the same depth, or two nodes below the roots, change places. -/
theorem loose_swap {c : GPCfg G T} {t1 t2 s1 s2 : Node G T} (h1 : LooseInd c t1) (h2 : LooseInd c t2) {p1 p2 : List Nat} (e1 : t1.at? p1 = some s1)
    (e2 : t2.at? p2 = some s2) (hp : p1 = [] ↔ p2 = []) : LooseInd c (t1.put p1 s2) ∧ LooseInd c (t2.put p2 s1) := by
  by_cases h : p1 = []
  · have h' := hp.1 h
    subst h h'
    rw [at?_nil] at e1 e2
    injection e1 with e1
    injection e2 with e2
    subst e1 e2
    rw [put_nil, put_nil]
    exact ⟨h2, h1⟩
  · have h' : p2 ≠ [] := fun e => h (hp.2 e)
    exact ⟨h1.put (h2.sub h' e2) h, h2.put (h1.sub h e1) h'⟩

theorem loose_xover {c : GPCfg G T} (k : XKind) {t1 t2 o1 o2 : Node G T} (h1 : LooseInd c t1) (h2 : LooseInd c t2) (d1 d2 : Nat)
    (h : xoverPair k t1 t2 d1 d2 = .ok (o1, o2)) : LooseInd c o1 ∧ LooseInd c o2 := by
  cases k with
  | none =>
    simp only [xoverPair, Except.ok.injEq, Prod.mk.injEq] at h
    obtain ⟨rfl, rfl⟩ := h
    exact ⟨h1, h2⟩
  | fair =>
    simp only [xoverPair, heightFair] at h
    split at h
    · rename_i q1 q2 hq1 hq2
      simp only [Except.ok.injEq, swapTrees, Prod.mk.injEq] at h
      obtain ⟨rfl, rfl⟩ := h
      obtain ⟨a1, a2⟩ := (mem_nodesAtDepth t1 _ q1.1 q1.2).1 (pick_ok hq1)
      obtain ⟨b1, b2⟩ := (mem_nodesAtDepth t2 _ q2.1 q2.2).1 (pick_ok hq2)
      refine loose_swap h1 h2 a1 b1 ?_
      rw [← List.length_eq_zero_iff, ← List.length_eq_zero_iff, a2, b2]
    · cases h
  | standard =>
    simp only [xoverPair, standardXover] at h
    split at h
    · rename_i q1 q2 hq1 hq2
      simp only [Except.ok.injEq, swapTrees, Prod.mk.injEq] at h
      obtain ⟨rfl, rfl⟩ := h
      obtain ⟨a1, a2⟩ := (mem_subNodes_tail t1 q1.1 q1.2).1 (pick_ok hq1)
      obtain ⟨b1, b2⟩ := (mem_subNodes_tail t2 q2.1 q2.2).1 (pick_ok hq2)
      exact loose_swap h1 h2 a1 b1 ⟨fun e => absurd e a2, fun e => absurd e b2⟩
    · cases h

theorem loose_standardMut {c : GPCfg G T} {t o : Node G T} (h : LooseInd c t) (d : Nat) (r : GrowRand) (ho : standardMut c t d r = .ok o) : LooseInd c o := by
  unfold standardMut at ho
  cases hq : pick (subNodes t).tail d with
  | error e => rw [hq] at ho; simp at ho
  | ok q =>
    rw [hq] at ho
    dsimp only at ho
    have m := (mem_subNodes_tail t q.1 q.2).1 (pick_ok hq)
    cases hg : growAt c false r (c.maxDepth - q.1.length) [] with
    | error e => rw [hg] at ho; simp at ho
    | ok s =>
      rw [hg] at ho
      injection ho with ho
      subst ho
      exact h.put (loose_of_expr (growAt_spec c false r _ _ s hg).1) m.2

theorem loose_pointVal (c : GPCfg G T) (r : PointRand) (p : List Nat) (v : NVal G T) (rs rs' : List (Node G T)) (hl : rs'.length = rs.length)
    (h : looseNode c (.mk v rs)) : looseNode c (.mk (pointVal c r p v) rs') := by
  have keep : looseNode c (.mk v rs') := looseNode_congr (s' := .mk v rs) rfl hl h
  have second : looseNode c (.mk (if r.second p then (match pick c.terms (r.term p) with | .ok t => .term t | .error _ => v) else v) rs') := by
    split
    · cases hp : pick c.terms (r.term p) with
      | error e => exact keep
      | ok x => exact pick_ok hp
    · exact keep
  unfold pointVal
  split
  · rename_i g _
    cases hp : pick (c.fns.filter (fun f => c.arity f == c.arity g)) (r.fn p) with
    | error e => exact keep
    | ok f =>
      have := List.mem_filter.1 (pick_ok hp)
      have hk : g ∈ c.fns ∧ rs'.length = c.arity g := keep
      exact ⟨this.1, by
        have e : c.arity f = c.arity g := by simpa using this.2
        rw [e]; exact hk.2⟩
  · exact second

theorem loose_pointMut {c : GPCfg G T} {t : Node G T} (h : LooseInd c t) (r : PointRand) : LooseInd c (pointMut c t r) := by
  refine ⟨h.root, by simp only [pointMut, roots_mk, pointAtL_length]; exact h.count, ?_⟩
  intro s hs
  rw [looseExpr_iff]
  intro p u hu
  obtain ⟨i, hi⟩ := List.getElem?_of_mem hs
  have hat : (pointMut c t r).at? (i :: p) = some u := by rw [at?_cons, hi, Option.bind_some]; exact hu
  rw [pointMut_at c t r _ (by simp), Option.map_eq_some_iff] at hat
  obtain ⟨u0, h0, rfl⟩ := hat
  have hok : looseNode c u0 := looseExpr_iff.1 (h.sub (by simp) h0) [] u0 (at?_nil u0)
  cases u0 with
  | mk v rs =>
    simp only [pointAt]
    exact loose_pointVal c r _ v rs _ (pointAtL_length ..) hok

theorem loose_monoMut {c : GPCfg G T} {t o : Node G T} (h : LooseInd c t) (d1 d2 : Nat) (ho : monoMut t d1 d2 = .ok o) : LooseInd c o := by
  unfold monoMut at ho
  dsimp only at ho
  split at ho
  · simp at ho
  · cases e1 : pick (subNodes t).tail d1 with
    | error e => rw [e1] at ho; simp at ho
    | ok q1 =>
      rw [e1] at ho
      dsimp only at ho
      cases e2 : pick ((subNodes t).tail.eraseIdx (d1 % (subNodes t).tail.length)) d2 with
      | error e => rw [e2] at ho; simp at ho
      | ok q2 =>
        rw [e2] at ho
        dsimp only at ho
        obtain ⟨a1, a2⟩ := (mem_subNodes_tail t q1.1 q1.2).1 (pick_ok e1)
        obtain ⟨b1, b2⟩ := (mem_subNodes_tail t q2.1 q2.2).1 (List.mem_of_mem_eraseIdx (pick_ok e2))
        split at ho
        · injection ho with ho
          subst ho
          exact h.put (h.sub b2 b1) a2
        · split at ho
          · injection ho with ho
            subst ho
            exact h.put (h.sub a2 a1) b2
          · injection ho with ho
            subst ho
            exact (h.put (h.sub b2 b1) a2).put (h.sub a2 a1) b2

/-- Pruning that returns leaves `max_subtrees` subtrees, each an old one or a newly grown expression. -/
theorem pruneLoop_ok {c : GPCfg G T} {r : Nat → GrowRand} (fs : List Bool) : ∀ (i : Nat) (roots out : List (Node G T)),
    roots.length = c.maxSubtrees → pruneLoop c r i fs roots = .ok out →
      out.length = c.maxSubtrees ∧ ∀ s ∈ out, s ∈ roots ∨ (IsExpr c s ∧ DepthLE s (c.maxDepth - 1)) := by
  induction fs with
  | nil =>
    intro i roots out h1 h
    simp only [pruneLoop, Except.ok.injEq] at h
    subst h
    exact ⟨h1, fun s hs => .inl hs⟩
  | cons f fs ih =>
    intro i roots out h1 h
    cases f with
    | false =>
      simp only [pruneLoop] at h
      exact ih (i + 1) roots out h1 h
    | true =>
      simp only [pruneLoop] at h
      split at h
      · cases h
      · rename_i hi
        cases hts : fillRoots c false c.maxDepth (r i) (roots.eraseIdx i) with
        | error e => rw [hts] at h; simp at h
        | ok ts =>
          rw [hts] at h
          dsimp only at h
          obtain ⟨new, e1, e2, e3⟩ := fillRoots_spec c false c.maxDepth (r i) (roots.eraseIdx i) ts hts
          have hle : (roots.eraseIdx i).length + 1 = roots.length := by
            rw [List.length_eraseIdx_of_lt (by omega)]
            omega
          obtain ⟨a1, a2⟩ := ih (i + 1) ts out (by rw [e1, List.length_append, e2]; omega) h
          refine ⟨a1, ?_⟩
          intro s hs
          rcases a2 s hs with h | h
          · rw [e1] at h
            rcases List.mem_append.1 h with h | h
            · exact .inl (List.mem_of_mem_eraseIdx h)
            · obtain ⟨p, hp⟩ := e3 s h
              have := growAt_spec c false (r i) _ p s hp
              exact .inr ⟨this.1, this.2.1⟩
          · exact .inr h

/-! ### Trimming -/

theorem trimL_eq (ts : List (Node G T)) : trimL ts = ts.map trim := by
  induction ts with
  | nil => simp [trimL]
  | cons t ts ih => simp [trimL, ih]

theorem loose_child {c : GPCfg G T} {v : NVal G T} {rs : List (Node G T)} (h : LooseExpr c (.mk v rs)) : ∀ r ∈ rs, LooseExpr c r := by
  intro r hr
  obtain ⟨i, hi⟩ := List.mem_iff_getElem?.1 hr
  exact h.sub (p := [i]) (by rw [at?_cons, roots_mk, hi, Option.bind_some, at?_nil])

mutual
theorem trim_isExpr (c : GPCfg G T) : (t : Node G T) → LooseExpr c t → IsExpr c (trim t)
  | .mk v rs, h => by
    have ht : looseNode c (.mk v rs) := looseExpr_iff.1 h [] _ (at?_nil _)
    cases v with
    | linear => exact ht.elim
    | term x =>
      simp only [trim]
      exact isExpr_mk ⟨ht, rfl⟩ (by simp)
    | fn g =>
      simp only [trim]
      exact isExpr_mk ⟨ht.1, by rw [roots_mk, trimL_eq, List.length_map]; exact ht.2⟩ (trimL_isExpr c rs (loose_child h))
theorem trimL_isExpr (c : GPCfg G T) : (ts : List (Node G T)) → (∀ t ∈ ts, LooseExpr c t) → ∀ s ∈ trimL ts, IsExpr c s
  | [], _ => by simp [trimL]
  | t :: ts, h => by
    intro s hs
    simp only [trimL, List.mem_cons] at hs
    rcases hs with rfl | hs
    · exact trim_isExpr c t (h t (by simp))
    · exact trimL_isExpr c ts (fun u hu => h u (by simp [hu])) s hs
end

theorem trim_looseInd {c : GPCfg G T} {t : Node G T} (h : LooseInd c t) : IsInd c (trim t) := by
  cases t with
  | mk v rs =>
    have hv : v = .linear := h.root
    subst hv
    simp only [trim]
    refine ⟨rfl, by rw [roots_mk, trimL_eq, List.length_map]; exact h.count, ?_⟩
    rw [roots_mk]
    exact trimL_isExpr c rs h.exprs

mutual
theorem trim_of_expr (c : GPCfg G T) : (t : Node G T) → IsExpr c t → trim t = t
  | .mk v rs, h => by
    have ht : okNode c (.mk v rs) := isExpr_iff.1 h [] _ (at?_nil _)
    have hc : ∀ r ∈ rs, IsExpr c r := by
      intro r hr
      obtain ⟨i, hi⟩ := List.mem_iff_getElem?.1 hr
      exact h.sub (p := [i]) (by rw [at?_cons, roots_mk, hi, Option.bind_some, at?_nil])
    cases v with
    | linear => exact ht.elim
    | term x =>
      have : rs = [] := ht.2
      subst this
      rfl
    | fn g =>
      simp only [trim]
      rw [trimL_of_expr c rs hc]
theorem trimL_of_expr (c : GPCfg G T) : (ts : List (Node G T)) → (∀ t ∈ ts, IsExpr c t) → trimL ts = ts
  | [], _ => by simp [trimL]
  | t :: ts, h => by
    simp only [trimL]
    rw [trim_of_expr c t (h t (by simp)), trimL_of_expr c ts (fun u hu => h u (by simp [hu]))]
end

end trees

/-! ## Dead nodes do not matter for prediction -/

mutual
theorem nodePredict_trim : (t : Node GFn GTerm) → (d : Frame) → nodePredict (trim t) d = nodePredict t d
  | .mk v rs, d => by
    cases v with
    | linear => simp only [trim, nodePredict]
    | term x => cases x <;> simp only [trim, nodePredict]
    | fn g => simp only [trim, nodePredict, nodesPredict_trim rs d]
theorem nodesPredict_trim : (ts : List (Node GFn GTerm)) → (d : Frame) → nodesPredict (trimL ts) d = nodesPredict ts d
  | [], d => by simp only [trimL]
  | t :: ts, d => by
    simp only [trimL, nodesPredict, nodePredict_trim t d]
    split
    · rfl
    · rename_i a d' _
      rw [nodesPredict_trim ts d']
end

mutual
theorem meaning_trim (row : String → ℝ) : (t : Node GFn GTerm) → meaning row (trim t) = meaning row t
  | .mk v rs => by
    cases v with
    | linear => simp only [trim, meaning]
    | term x => cases x <;> simp only [trim, meaning]
    | fn g => simp only [trim, meaning, meaningL_trim row rs]
theorem meaningL_trim (row : String → ℝ) : (ts : List (Node GFn GTerm)) → meaningL row (trimL ts) = meaningL row ts
  | [] => by simp only [trimL]
  | t :: ts => by simp only [trimL, meaningL, meaning_trim row t, meaningL_trim row ts]
end

theorem subtreeOutputs_trim (roots : List (Node GFn GTerm)) (d : Frame) : subtreeOutputs (roots.map trim) d = subtreeOutputs roots d := by
  unfold subtreeOutputs
  rw [← trimL_eq, nodesPredict_trim]

theorem gpPredict_trim (roots : List (Node GFn GTerm)) (w : List ℝ) (d : Frame) : gpPredict (roots.map trim) w d = gpPredict roots w d := by
  unfold gpPredict
  rw [subtreeOutputs_trim]

theorem modelValue_trim (roots : List (Node GFn GTerm)) (w : List ℝ) (row : String → ℝ) : modelValue w (roots.map trim) row = modelValue w roots row := by
  unfold modelValue
  rw [List.length_map]
  congr 2
  apply List.map_congr_left
  intro i _
  rw [List.getElem?_map, Option.map_map]
  have : meaning row ∘ trim = meaning row := funext (meaning_trim row)
  rw [this]

/-- C87. Nodes below a terminal are never looked at: prediction with a tree and with the tree without its dead nodes is the same, whatever the data; a tree of
expressions with dead nodes is an individual of expressions once they are cut off. -/
theorem c87_dead_nodes_do_not_predict (c : GPCfg GFn GTerm) (t : Node GFn GTerm) (h : LooseInd c t) :
    IsInd c (trim t) ∧ (∀ w d, gpPredict (trim t).roots w d = gpPredict t.roots w d) ∧
    (∀ w row, modelValue w (trim t).roots row = modelValue w t.roots row) := by
  refine ⟨trim_looseInd h, ?_, ?_⟩ <;>
  · cases t with
    | mk v rs =>
      have hv : v = .linear := h.root
      subst hv
      intro w d
      simp only [trim, roots_mk, trimL_eq]
      first | exact gpPredict_trim rs w d | exact modelValue_trim rs w d

/-! ## The data -/

theorem rewritten_eq (d : Frame) (P : String → Bool) : d.rewritten P = d.after (fun z => P z = true) := by
  unfold Frame.rewritten Frame.after
  congr 1
  funext z
  by_cases h : P z = true
  · simp only [h, if_true]; rfl
  · simp only [h, Bool.false_eq_true, if_false]

theorem after_eq (d : Frame) (P : String → Prop) : d.after P = d.rewritten (fun z => decide (P z)) := by
  rw [rewritten_eq]
  exact after_congr d (fun z => by simp)

theorem rewritten_none (d : Frame) : d.rewritten (fun _ => false) = d := by
  rw [rewritten_eq]
  exact after_none d _ (by simp)

theorem rewritten_after (d : Frame) (P : String → Bool) (Q : String → Prop) : (d.rewritten P).after Q = d.rewritten (fun z => decide (P z = true ∨ Q z)) := by
  rw [rewritten_eq, after_after, after_eq]
  exact congrArg _ (funext fun z => by simp only [decide_eq_decide])

theorem applyFn_frame (g : GFn) (args : List Arr) (d : Frame) : ∃ Q, (applyFn g args d).2 = d.after Q := by
  have nothing : ∃ Q, d = d.after Q := ⟨fun _ => False, (after_none d _ (by simp)).symm⟩
  match args with
  | [] => exact nothing
  | [a] =>
    simp only [applyFn]
    split <;> exact nothing
  | [a, b] =>
    simp only [applyFn]
    split
    · split
      · cases b with
        | fresh l => exact nothing
        | view x =>
          rw [fixZeros_view]
          exact ⟨_, rfl⟩
      · exact nothing
    · exact nothing
  | _ :: _ :: _ :: _ => exact nothing

mutual
/-- Whatever the tree and the outcome, prediction does nothing to the data but write ones for zeros in whole columns. -/
theorem nodePredict_frame : (t : Node GFn GTerm) → (d : Frame) → ∃ Q, (nodePredict t d).2 = d.after Q
  | .mk v rs, d => by
    have nothing : ∃ Q, d = d.after Q := ⟨fun _ => False, (after_none d _ (by simp)).symm⟩
    cases v with
    | linear => simp only [nodePredict]; exact nothing
    | term x =>
      cases x with
      | const c => simp only [nodePredict]; exact nothing
      | var x =>
        simp only [nodePredict]
        split <;> exact nothing
    | fn g =>
      simp only [nodePredict]
      obtain ⟨Q, hQ⟩ := nodesPredict_frame rs d
      split
      · rename_i e d' h
        rw [h] at hQ
        exact ⟨Q, hQ⟩
      · rename_i as d' h
        rw [h] at hQ
        obtain ⟨Q', hQ'⟩ := applyFn_frame g as d'
        dsimp only at hQ
        rw [hQ', hQ, after_after]
        exact ⟨_, rfl⟩
theorem nodesPredict_frame : (ts : List (Node GFn GTerm)) → (d : Frame) → ∃ Q, (nodesPredict ts d).2 = d.after Q
  | [], d => ⟨fun _ => False, (after_none d _ (by simp)).symm⟩
  | t :: ts, d => by
    simp only [nodesPredict]
    obtain ⟨Q, hQ⟩ := nodePredict_frame t d
    split
    · rename_i e d' h
      rw [h] at hQ
      exact ⟨Q, hQ⟩
    · rename_i a d' h
      rw [h] at hQ
      obtain ⟨Q', hQ'⟩ := nodesPredict_frame ts d'
      dsimp only at hQ
      have key : (nodesPredict ts d').2 = d.after (fun z => Q z ∨ Q' z) := by rw [hQ', hQ, after_after]
      split
      · rename_i e d'' h'
        rw [h'] at key
        exact ⟨_, key⟩
      · rename_i as d'' h'
        rw [h'] at key
        exact ⟨_, key⟩
end

theorem subtreeOutputs_frame (roots : List (Node GFn GTerm)) (d : Frame) : ∃ Q, (subtreeOutputs roots d).2 = d.after Q := by
  unfold subtreeOutputs
  obtain ⟨Q, hQ⟩ := nodesPredict_frame roots d
  split
  · rename_i e d' h
    rw [h] at hQ
    exact ⟨Q, hQ⟩
  · rename_i as d' h
    rw [h] at hQ
    split <;> exact ⟨Q, hQ⟩

theorem calculateLinear_frame (c : GPCfg GFn GTerm) (scalar : ℝ) (lstsq : List (List ℝ) → List ℝ) (low : List (List ℝ) → List Bool)
    (r : Nat → GrowRand) (roots : List (Node GFn GTerm)) (d : Frame) : (calculateLinear c scalar lstsq low r roots d).2 = (subtreeOutputs roots d).2 := by
  unfold calculateLinear
  split
  · rename_i e d' h; rw [h]
  · rename_i vals d' h
    rw [h]
    dsimp only
    split <;> rfl

theorem go_frame (d : GPData) (c : GPCfg GFn GTerm) (regrow : Nat → Nat → GrowRand) (loss : List ℝ → ℝ) (ts : List (List (Node GFn GTerm))) :
    ∀ (k : Nat) (P : String → Bool), ∃ P', (modelPerformance.go (gpFitTree d c regrow) loss k ts (d.X.rewritten P)).2 = d.X.rewritten P' := by
  induction ts with
  | nil => intro k P; exact ⟨P, rfl⟩
  | cons t ts ih =>
    intro k P
    have h1 : ∃ P', (gpFitTree d c regrow k t (d.X.rewritten P)).2 = d.X.rewritten P' := by
      unfold gpFitTree
      rw [calculateLinear_frame]
      obtain ⟨Q, hQ⟩ := subtreeOutputs_frame t (d.X.rewritten P)
      rw [hQ, rewritten_after]
      exact ⟨_, rfl⟩
    obtain ⟨P', hP'⟩ := h1
    simp only [modelPerformance.go]
    split
    · rename_i e d' h
      rw [h] at hP'
      exact ⟨P', hP'⟩
    · rename_i f d' h
      rw [h] at hP'
      dsimp only at hP'
      obtain ⟨P'', hP''⟩ := ih (k + 1) P'
      rw [← hP'] at hP''
      split
      · rename_i e d'' h'
        rw [h'] at hP''
        exact ⟨P'', hP''⟩
      · rename_i q d'' h'
        rw [h'] at hP''
        exact ⟨P'', hP''⟩

/-- C87. Evaluating individuals, successfully or not, does nothing to the training data but write ones for zeros in some columns. -/
theorem c87_data (d : GPData) (c : GPCfg GFn GTerm) (regrow : Nat → Nat → GrowRand) (loss : List ℝ → ℝ) (trees : List (List (Node GFn GTerm)))
    (P : String → Bool) : ∃ P', (modelPerformance (gpFitTree d c regrow) loss trees (d.X.rewritten P)).2 = d.X.rewritten P' := by
  match trees with
  | [] => exact ⟨P, rfl⟩
  | [_] => exact ⟨P, rfl⟩
  | a :: b :: ts => exact go_frame d c regrow loss (a :: b :: ts) 0 P

/-! ## Evaluation -/

/-- The fit of one individual on the training data (some columns rewritten), for given draws of the regrowth. -/
def FitWith (d : GPData) (c : GPCfg GFn GTerm) (regrow : Nat → Nat → GrowRand) (roots : List (Node GFn GTerm)) (f : LinFit) : Prop :=
  ∃ (i : Nat) (P : String → Bool) (fr : Frame), gpFitTree d c regrow i roots (d.X.rewritten P) = (.ok f, fr)

/-- The fit of one individual on the training data (some columns rewritten). -/
def FitOf (d : GPData) (c : GPCfg GFn GTerm) (roots : List (Node GFn GTerm)) (f : LinFit) : Prop :=
  ∃ (regrow : Nat → Nat → GrowRand) (i : Nat) (P : String → Bool) (fr : Frame), gpFitTree d c regrow i roots (d.X.rewritten P) = (.ok f, fr)

theorem go_ok (d : GPData) (c : GPCfg GFn GTerm) (regrow : Nat → Nat → GrowRand) (loss : List ℝ → ℝ) (ts : List (List (Node GFn GTerm))) :
    ∀ (k : Nat) (P : String → Bool) (objs : List (ℝ × ℝ)) (fits : List LinFit) (fr : Frame),
      modelPerformance.go (gpFitTree d c regrow) loss k ts (d.X.rewritten P) = (.ok (objs, fits), fr) →
      List.Forall₂ (FitWith d c regrow) ts fits ∧ objs = fits.map (fun f => (loss f.out, f.complexity)) := by
  induction ts with
  | nil =>
    intro k P objs fits fr h
    simp only [modelPerformance.go, Prod.mk.injEq, Except.ok.injEq] at h
    obtain ⟨⟨rfl, rfl⟩, -⟩ := h
    exact ⟨.nil, rfl⟩
  | cons t ts ih =>
    intro k P objs fits fr h
    have h1 : ∃ P', (gpFitTree d c regrow k t (d.X.rewritten P)).2 = d.X.rewritten P' := by
      unfold gpFitTree
      rw [calculateLinear_frame]
      obtain ⟨Q, hQ⟩ := subtreeOutputs_frame t (d.X.rewritten P)
      rw [hQ, rewritten_after]
      exact ⟨_, rfl⟩
    obtain ⟨P', hP'⟩ := h1
    simp only [modelPerformance.go] at h
    split at h
    · simp at h
    · rename_i f d' hf
      rw [hf] at hP'
      dsimp only at hP'
      subst hP'
      split at h
      · simp at h
      · rename_i q d'' h'
        simp only [Prod.mk.injEq, Except.ok.injEq] at h
        obtain ⟨⟨rfl, rfl⟩, -⟩ := h
        obtain ⟨a1, a2⟩ := ih (k + 1) P' q.1 q.2 d'' h'
        exact ⟨.cons ⟨k, P, _, hf⟩ a1, by rw [List.map_cons, ← a2]⟩

/-- The row of the objectives of a fitted individual. -/
noncomputable def objOf (d : GPData) (f : LinFit) : GPObj := ⟨d.loss d.y f.out, f.complexity, f⟩

/-- An evaluation that returns: at least two individuals, each fitted. -/
theorem gpEvaluate_with (d : GPData) (c : GPCfg GFn GTerm) (P : String → Bool) (regrow : Nat → Nat → GrowRand) (b : Batch GTree)
    (res : Results GPObj (ℝ × ℝ) Unit Unit) (h : gpEvaluate d c (d.X.rewritten P) regrow b = .ok res) :
    2 ≤ b.rows.length ∧ ∃ fits : List LinFit, List.Forall₂ (fun t f => FitWith d c regrow t.roots f) b.rows fits ∧
      res = ⟨fits.map (objOf d), fits.map (fun f => (d.loss d.y f.out, f.complexity)), none, none⟩ := by
  unfold gpEvaluate at h
  cases hm : modelPerformance (gpFitTree d c regrow) (d.loss d.y) (b.rows.map Node.roots) (d.X.rewritten P) with
  | mk q fr =>
    rw [hm] at h
    cases q with
    | error e => cases h
    | ok q =>
      obtain ⟨objs, fits⟩ := q
      dsimp only at h
      injection h with h
      subst h
      obtain ⟨nd, rows⟩ := b
      match rows with
      | [] => simp [modelPerformance] at hm
      | [_] => simp [modelPerformance] at hm
      | x :: y :: rest =>
        refine ⟨by simp, fits, ?_, ?_⟩
        · have := (go_ok d c regrow (d.loss d.y) ((x :: y :: rest).map Node.roots) 0 P objs fits fr hm).1
          rwa [List.forall₂_map_left_iff] at this
        · have := (go_ok d c regrow (d.loss d.y) ((x :: y :: rest).map Node.roots) 0 P objs fits fr hm).2
          subst this
          congr 1
          rw [List.zipWith_map_left, List.zipWith_self]
          rfl

theorem gpEvaluate_ok (d : GPData) (c : GPCfg GFn GTerm) (P : String → Bool) (regrow : Nat → Nat → GrowRand) (b : Batch GTree)
    (res : Results GPObj (ℝ × ℝ) Unit Unit) (h : gpEvaluate d c (d.X.rewritten P) regrow b = .ok res) :
    2 ≤ b.rows.length ∧ ∃ fits : List LinFit, List.Forall₂ (fun t f => FitOf d c t.roots f) b.rows fits ∧
      res = ⟨fits.map (objOf d), fits.map (fun f => (d.loss d.y f.out, f.complexity)), none, none⟩ := by
  obtain ⟨h1, fits, h2, h3⟩ := gpEvaluate_with d c P regrow b res h
  exact ⟨h1, fits, h2.imp (fun _ _ ⟨i, P, fr, h⟩ => ⟨regrow, i, P, fr, h⟩), h3⟩

theorem newRecs_forall₂ {X O F C U L : Type} (g : L → O) (k : L → F) (R : X → L → Prop) {xs : List X} {fits : List L} (h : List.Forall₂ R xs fits) :
    ∀ q ∈ newRecs xs (⟨fits.map g, fits.map k, none, none⟩ : Results O F C U), ∃ x f, x ∈ xs ∧ R x f ∧ q = ⟨x, g f, k f, none, none⟩ := by
  unfold newRecs
  simp only [_root_.Spec.optCol]
  induction h with
  | nil => simp
  | cons h1 h2 ih =>
    rename_i x f xs fits
    intro q hq
    simp [List.replicate_succ] at hq ih
    rcases hq with hq | hq
    · exact ⟨x, f, by simp, h1, hq⟩
    · obtain ⟨a1, a2, a3, a4, a5, hm, he⟩ := hq
      obtain ⟨x', hx, f', hf, e⟩ := ih q a1 a2 a3 a4 a5 hm he
      exact ⟨x', f', by simp [hx], hf, e⟩

/-- A fit that returns keeps `max_subtrees` subtrees; the weights are those of the solver on the outputs of the subtrees as they were. -/
theorem fitOf_spec (d : GPData) (c : GPCfg GFn GTerm) {t : GTree} {f : LinFit} (ht : LooseInd c t) (h : FitOf d c t.roots f) :
    LooseInd c (.mk .linear f.roots) ∧
    (∃ depth, HasDepth (.mk .linear f.roots) depth ∧ f.complexity = 1 / 2 * (depth : ℝ) + 1 / 2 * (fnCount (.mk .linear f.roots) : ℝ)) ∧
    ∃ (P : String → Bool) (vals : List (List ℝ)), (subtreeOutputs t.roots (d.X.rewritten P)).1 = .ok vals ∧
      f.linear = d.lstsq (designRows d.X.rows vals) d.y ∧ f.out = (List.range d.X.rows).map (linearOut f.linear vals) := by
  obtain ⟨regrow, i, P, fr, h⟩ := h
  have hc := c76_complexity c (1 / 2) _ _ _ _ _ _ _ h
  unfold gpFitTree calculateLinear at h
  cases hs : subtreeOutputs t.roots (d.X.rewritten P) with
  | mk q fr' =>
    rw [hs] at h
    cases q with
    | error e => simp at h
    | ok vals =>
      dsimp only at h
      have hrows : fr'.rows = d.X.rows := by
        obtain ⟨Q, hQ⟩ := subtreeOutputs_frame t.roots (d.X.rewritten P)
        rw [hs] at hQ
        dsimp only at hQ
        rw [hQ]
        rfl
      cases hp : pruneLoop c (regrow i) 0 (d.low vals) t.roots with
      | error e => rw [hp] at h; simp at h
      | ok roots' =>
        rw [hp] at h
        dsimp only at h
        simp only [Prod.mk.injEq, Except.ok.injEq] at h
        obtain ⟨h, -⟩ := h
        obtain ⟨a1, a2⟩ := pruneLoop_ok _ _ _ _ ht.count hp
        have hr : f.roots = roots' := by rw [← h]
        refine ⟨⟨rfl, by rw [roots_mk, hr]; exact a1, ?_⟩, ?_, P, vals, by rw [hs], by rw [← h]; rfl, ?_⟩
        · rw [roots_mk, hr]
          intro s hs
          rcases a2 s hs with h | h
          · exact ht.exprs s h
          · exact loose_of_expr h.1
        · obtain ⟨depth, b1, b2, b3⟩ := hc
          refine ⟨depth, ⟨b1, b2⟩, ?_⟩
          rw [b3]
          norm_num [fnCount]
        · rw [← h, hrows]

/-! ## Evolution -/

noncomputable instance : Inhabited GPObj := ⟨⟨0, 0, ⟨[], 0, [], []⟩⟩⟩

theorem gpOps_surrogate (st : GPSettings) (d : GPData) (c : GPCfg GFn GTerm) (r : GPRand) : SurrogateOps 2 (gpOps st d c r) := by
  refine ⟨?_, ?_⟩
  · intro cl p m b h
    simp only [gpOps, gpMate] at h
    split at h
    · cases h
    · split at h
      · cases h
      · split at h
        · cases h
        · injection h with h
          rw [← h]
  · intro cl b res h
    obtain ⟨-, fits, -, h⟩ := gpEvaluate_ok d c _ _ b res h
    subst h
    exact ⟨by simp, rfl, rfl⟩

/-- Mating loose individuals gives loose individuals. -/
theorem gpMate_loose (st : GPSettings) (c : GPCfg GFn GTerm) (r : GPRand) (clock : Nat) (p : Pop GTree GPObj (ℝ × ℝ) Unit Unit) (mating : List (Int × Int))
    (off : Batch GTree) (hp : ∀ t ∈ gpTrees p, LooseInd c t) (h : gpMate st c r clock p mating = .ok off) : ∀ t ∈ off.rows, LooseInd c t := by
  unfold gpMate at h
  split at h
  · cases h
  · split at h
    · cases h
    · rename_i off1 hx
      split at h
      · cases h
      · rename_i off2 hm
        injection h with h
        subst h
        have h1 : ∀ t ∈ off1, LooseInd c t := by
          unfold gpXover at hx
          split at hx
          · cases hx
          · rename_i pairs hpairs
            injection hx with hx
            subst hx
            intro t ht
            obtain ⟨pr, hpr, ht⟩ := List.mem_flatMap.1 ht
            obtain ⟨i, hi⟩ := List.mem_iff_getElem?.1 hpr
            obtain ⟨l1, l2⟩ := mapM_except_ok _ _ _ hpairs
            have hil : i < pairs.length := (List.getElem?_eq_some_iff.1 hi).1
            obtain ⟨a, ha⟩ : ∃ a, mating.zipIdx[i]? = some a := ⟨_, List.getElem?_eq_getElem (by omega)⟩
            have := l2 i a pr ha hi
            unfold gpPair at this
            split at this
            · rename_i t1 t2 e1 e2
              have := loose_xover _ (hp t1 (List.mem_of_getElem? e1)) (hp t2 (List.mem_of_getElem? e2)) _ _ (o1 := pr.1) (o2 := pr.2) this
              simp only [List.mem_cons, List.not_mem_nil, or_false] at ht
              rcases ht with rfl | rfl
              · exact this.1
              · exact this.2
            · cases this
        intro t ht
        unfold gpMutate at hm
        obtain ⟨i, hi⟩ := List.mem_iff_getElem?.1 ht
        obtain ⟨l1, l2⟩ := mapM_except_ok _ _ _ hm
        have hil : i < off2.length := (List.getElem?_eq_some_iff.1 hi).1
        obtain ⟨a, ha⟩ : ∃ a, off1.zipIdx[i]? = some a := ⟨_, List.getElem?_eq_getElem (by omega)⟩
        have := l2 i a t ha hi
        have hmem : a.1 ∈ off1 := by
          rw [List.getElem?_zipIdx, Option.map_eq_some_iff] at ha
          obtain ⟨b, hb, rfl⟩ := ha
          exact List.mem_of_getElem? hb
        unfold mutateTree at this
        split at this
        · exact loose_standardMut (h1 a.1 hmem) _ _ this
        · injection this with this
          rw [← this]
          exact loose_pointMut (h1 a.1 hmem) _
        · exact loose_monoMut (h1 a.1 hmem) _ _ this
        · injection this with this
          rw [← this]
          exact h1 a.1 hmem

/-- The records during a training: loose individuals, each with the fit that its evaluation produced. -/
def GPInv (d : GPData) (c : GPCfg GFn GTerm) (rs : List (Rec GTree GPObj (ℝ × ℝ) Unit Unit)) : Prop :=
  ∀ q ∈ rs, LooseInd c q.x ∧ ∃ f, FitOf d c q.x.roots f ∧ q.o = objOf d f ∧ q.f = (q.o.error, q.o.complexity)

theorem gpInv_new (d : GPData) (c : GPCfg GFn GTerm) (P : String → Bool) (regrow : Nat → Nat → GrowRand) (rows : List GTree) (nd : Nat)
    (res : Results GPObj (ℝ × ℝ) Unit Unit) (h : gpEvaluate d c (d.X.rewritten P) regrow ⟨nd, rows⟩ = .ok res) (hl : ∀ t ∈ rows, LooseInd c t) :
    GPInv d c (newRecs rows res) := by
  obtain ⟨-, fits, hf, rfl⟩ := gpEvaluate_ok d c P regrow _ res h
  intro q hq
  obtain ⟨x, f, hx, hxf, rfl⟩ := newRecs_forall₂ (objOf d) _ (fun t f => FitOf d c t.roots f) hf q hq
  exact ⟨hl x hx, f, hxf, rfl, rfl⟩

theorem gp_preserved (st : GPSettings) (d : GPData) (c : GPCfg GFn GTerm) (r : GPRand) (pc : PPGACfg) : Preserved 2 pc (gpOps st d c r) (GPInv d c) := by
  intro s t rs rs' hT g
  obtain ⟨mating, off, placed, res, g1, g2, g3, g4, g5, g6, -, -, -⟩ := g.bred
  have htrees : ∀ t ∈ gpTrees s.pop, LooseInd c t := by
    intro t ht
    unfold gpTrees at ht
    rw [hT.repr.objs] at ht
    simp only [List.mem_map, exists_exists_and_eq_and] at ht
    obtain ⟨q, hq, rfl⟩ := ht
    obtain ⟨q1, f, q2, q3, -⟩ := hT.inv q hq
    rw [q3]
    exact (fitOf_spec d c q1 q2).1
  have hoff := gpMate_loose st c r _ _ _ off htrees g1
  have hnew : GPInv d c (newRecs (rowsAt (fun k => decide (k ∈ placed)) off.rows) res) :=
    gpInv_new d c _ _ _ 2 res g3 (fun t ht => hoff t ((rowsAt_sublist _ _).subset ht))
  intro q hq
  rcases List.mem_append.1 (g6.subset hq) with h | h
  · exact hT.inv q h
  · exact hnew q h

theorem gpCreate_ok (st : GPSettings) (c : GPCfg GFn GTerm) (create : Nat → GrowRand) (trees : List GTree) (h : gpCreate st c create = .ok trees) :
    trees.length = (designs st.method st.popSize st.maxDepth).length ∧ ∀ t ∈ trees, IsInd c t ∧ DepthLE t (max st.maxDepth 1) := by
  unfold gpCreate at h
  obtain ⟨l1, l2⟩ := mapM_except_ok _ _ _ h
  rw [List.length_zipIdx] at l1
  refine ⟨l1, ?_⟩
  intro t ht
  obtain ⟨i, hi⟩ := List.mem_iff_getElem?.1 ht
  have hil : i < trees.length := (List.getElem?_eq_some_iff.1 hi).1
  obtain ⟨a, ha⟩ : ∃ a, (designs st.method st.popSize st.maxDepth).zipIdx[i]? = some a := ⟨_, List.getElem?_eq_getElem (by rw [List.length_zipIdx]; omega)⟩
  obtain ⟨b1, b2⟩ := c50_new_individual c _ _ _ t (l2 i a t ha hi)
  have hmem : a.1 ∈ designs st.method st.popSize st.maxDepth := by
    rw [List.getElem?_zipIdx, Option.map_eq_some_iff] at ha
    obtain ⟨b, hb, rfl⟩ := ha
    exact List.mem_of_getElem? hb
  have := (c50_designs st.popSize st.maxDepth).1 _ _ hmem
  exact ⟨b1, b2.mono (by omega)⟩

/-- What the trees of a training know: the terminals are those of an earlier `fit` (or of the constructor), else the columns. -/
def trainCfg (st : GPSettings) (d : GPData) (s : GPReg) : GPCfg GFn GTerm := gpCfg st (s.terminals.getD (d.columns.map GTerm.var))

theorem gp_initial_recs (d : GPData) (c : GPCfg GFn GTerm) (regrow : Nat → Nat → GrowRand) (trees : List GTree) (hl : ∀ t ∈ trees, LooseInd c t) (v)
    (p : Pop GTree GPObj (ℝ × ℝ) Unit Unit) (hp : (Pop.new 0).add ⟨2, trees⟩ (gpEvaluate d c d.X regrow ⟨2, trees⟩) = (.ok v, p)) :
    2 ≤ trees.length ∧ p.ndim = 2 ∧ p.nCons = 0 ∧ ∃ res, gpEvaluate d c (d.X.rewritten fun _ => false) regrow ⟨2, trees⟩ = .ok res ∧ Represents p (newRecs trees res) ∧
      (newRecs trees res).length = trees.length ∧ GPInv d c (newRecs trees res) := by
  rw [← rewritten_none d.X] at hp
  cases he : gpEvaluate d c (d.X.rewritten fun _ => false) regrow ⟨2, trees⟩ with
  | error err => rw [he] at hp; simp [Pop.add] at hp
  | ok res =>
    rw [he] at hp
    have hnew := gpInv_new d c _ _ _ 2 res he hl
    obtain ⟨k1, fits, k2, k3⟩ := gpEvaluate_ok d c _ regrow _ res he
    have hlen : fits.length = trees.length := k2.length_eq.symm
    have hev : EvalOK (Pop.new 0 : Pop GTree GPObj (ℝ × ℝ) Unit Unit).nCons trees.length res := by
      rw [k3]
      exact ⟨by simpa using hlen, by simpa using hlen, fun _ => rfl, by simp [Pop.new], by simp⟩
    obtain ⟨b1, b2, b3, b4, b5⟩ := add_spec (d := 2) (represents_new 0) ⟨2, trees⟩ res hev (by simp [Pop.new]) (Or.inl rfl)
    rw [hp] at b1 b2 b3
    dsimp only at b1 b2 b3
    rw [List.nil_append] at b1
    exact ⟨k1, b3, b2, res, rfl, b1, newRecs_length _ _ _ hev, hnew⟩

theorem gp_initial (d : GPData) (c : GPCfg GFn GTerm) (regrow : Nat → Nat → GrowRand) (trees : List GTree) (hl : ∀ t ∈ trees, LooseInd c t) (v)
    (p : Pop GTree GPObj (ℝ × ℝ) Unit Unit) (hp : (Pop.new 0).add ⟨2, trees⟩ (gpEvaluate d c d.X regrow ⟨2, trees⟩) = (.ok v, p)) :
    2 ≤ trees.length ∧ p.ndim = 2 ∧ p.nCons = 0 ∧ ∃ rs, Represents p rs ∧ rs.length = trees.length ∧ GPInv d c rs := by
  obtain ⟨a1, a2, a3, res, -, a4, a5, a6⟩ := gp_initial_recs d c regrow trees hl v p hp
  exact ⟨a1, a2, a3, _, a4, a5, a6⟩

/-- How `fit` proceeds. -/
theorem gpFit_cases (st : GPSettings) (d : GPData) (tn : TournOps GTree GPObj (ℝ × ℝ) Unit Unit) (r : GPRand) (s : GPReg) :
    (∃ err, gpFit st d tn r s = (.error err, s) ∨ gpFit st d tn r s = (.error err, { s with terminals := some (trainCfg st d s).terms })) ∨
    (d.X.rows = d.y.length ∧ st.soGen = 0 ∧ 1 / 2 ≤ st.pXover ∧ 2 ≤ (designs st.method st.popSize st.maxDepth).length ∧
      ∃ (p : Pop GTree GPObj (ℝ × ℝ) Unit Unit) (rs : List (Rec GTree GPObj (ℝ × ℝ) Unit Unit)), Represents p rs ∧ GPInv d (trainCfg st d s) rs ∧
        gpFit st d tn r s = gpFinish st d r.colsEnd p { s with terminals := some (trainCfg st d s).terms }) := by
  unfold gpFit
  split
  · exact .inl ⟨_, .inl rfl⟩
  · rename_i hrows
    dsimp only
    change (∃ err, _ = _ ∨ _ = (_, { s with terminals := some (s.terminals.getD (d.columns.map GTerm.var)) })) ∨ _
    cases hc : gpCreate st (gpCfg st (s.terminals.getD (d.columns.map GTerm.var))) r.create with
    | error e => exact .inl ⟨_, .inr rfl⟩
    | ok trees =>
      dsimp only
      obtain ⟨c1, c2⟩ := gpCreate_ok _ _ _ _ hc
      cases hp : (Pop.new 0).add ⟨2, trees⟩ (gpEvaluate d (gpCfg st (s.terminals.getD (d.columns.map GTerm.var))) d.X r.regrow0 ⟨2, trees⟩) with
      | mk v p =>
        cases v with
        | error err => exact .inl ⟨_, .inr rfl⟩
        | ok v =>
          dsimp only
          obtain ⟨a1, a2, a3, rs, a4, a5, a6⟩ := gp_initial d _ r.regrow0 trees (fun t ht => looseInd_of_ind (c2 t ht).1) v p hp
          split
          · exact .inl ⟨_, .inr rfl⟩
          · rename_i hx
            cases hcon : tournConstruct 1 st.soGen (some p) with
            | error e => exact .inl ⟨_, .inr rfl⟩
            | ok ea =>
              dsimp only
              have hd := c73_tournament_iterate tn 1 st.soGen p ea hcon 1 (by decide)
              by_cases h0 : st.soGen = 0
              · obtain ⟨ea', e1, e2, -⟩ := hd.2.2 h0 (le_refl _)
                rw [e1]
                dsimp only
                rw [e2]
                cases hev : evolveTo st.popSize (gpOps st d (gpCfg st (s.terminals.getD (d.columns.map GTerm.var))) r) r.evolve.dPred r.evolve.dPrey p with
                | error err => exact .inl ⟨_, .inr rfl⟩
                | ok t =>
                  right
                  obtain ⟨⟨rs', T⟩, -, -⟩ := evolveTo_spec (F := ℝ × ℝ) (O := GPObj) st.popSize (gpOps st d _ r) r.evolve.dPred r.evolve.dPrey p
                    (by rw [a2]; exact gpOps_surrogate st d _ r) _ (by rw [a2]; exact gp_preserved st d _ r _) rs a4 a3 a6 t hev
                  exact ⟨by simpa using hrows, h0, by linarith [not_lt.1 hx], by omega, t.pop, rs', T.repr, T.inv, rfl⟩
              · rw [hd.2.1 (by omega) (by decide)]
                exact .inl ⟨_, .inr rfl⟩

theorem gpPredict_ok {roots : List (Node GFn GTerm)} {w : List ℝ} {d : Frame} {yp : List ℝ} (h : (gpPredict roots w d).1 = .ok yp) :
    yp.length = d.rows ∧ roots ≠ [] ∧ w.length = roots.length + 1 := by
  have len : ∀ (ts : List (Node GFn GTerm)) (d d' : Frame) (as : List Arr), nodesPredict ts d = (.ok as, d') → as.length = ts.length := by
    intro ts
    induction ts with
    | nil =>
      intro d d' as h
      simp only [nodesPredict, Prod.mk.injEq, Except.ok.injEq] at h
      rw [← h.1]; rfl
    | cons t ts ih =>
      intro d d' as h
      simp only [nodesPredict] at h
      split at h
      · simp at h
      · split at h
        · simp at h
        · rename_i as' d'' h'
          simp only [Prod.mk.injEq, Except.ok.injEq] at h
          rw [← h.1, List.length_cons, List.length_cons, ih _ _ _ h']
  unfold gpPredict at h
  obtain ⟨Q, hQ⟩ := subtreeOutputs_frame roots d
  cases hs : subtreeOutputs roots d with
  | mk q d' =>
    rw [hs] at h hQ
    dsimp only at hQ
    cases q with
    | error e => simp at h
    | ok vals =>
      dsimp only at h
      split at h
      · simp at h
      · rename_i hw
        simp only [Except.ok.injEq] at h
        unfold subtreeOutputs at hs
        split at hs
        · simp at hs
        · rename_i as d'' has
          split at hs
          · simp at hs
          · rename_i hne
            simp only [Prod.mk.injEq, Except.ok.injEq] at hs
            have hl := len _ _ _ _ has
            refine ⟨by rw [← h, List.length_map, List.length_range, hQ]; rfl, ?_, ?_⟩
            · rintro rfl
              exact hne (List.length_eq_zero_iff.1 hl)
            · have : vals.length = as.length := by rw [← hs.1, List.length_map]
              rw [← hl, ← this]
              simpa using hw

theorem gpFinish_cases (st : GPSettings) (d : GPData) (colsEnd : String → Bool) (p : Pop GTree GPObj (ℝ × ℝ) Unit Unit) (s : GPReg)
    (rs : List (Rec GTree GPObj (ℝ × ℝ) Unit Unit)) (hr : Represents p rs) :
    (∃ err s1, gpFinish st d colsEnd p s = (.error err, s1) ∧ s1.trained = s.trained ∧ s1.rmse = s.rmse ∧ s1.terminals = s.terminals ∧ s1.population = some p) ∨
    (st.minError = true ∧ ∃ (i : Nat) (q : Rec GTree GPObj (ℝ × ℝ) Unit Unit) (yp : List ℝ), rs[i]? = some q ∧ (∀ q' ∈ rs, q.o.error ≤ q'.o.error) ∧
      (∀ (j : Nat) (q' : Rec GTree GPObj (ℝ × ℝ) Unit Unit), j < i → rs[j]? = some q' → q.o.error < q'.o.error) ∧
      (gpPredict q.o.fit.roots q.o.fit.linear (d.X.rewritten colsEnd)).1 = .ok yp ∧
      gpFinish st d colsEnd p s = (.ok (), ⟨s.terminals, some p, some q.o.fit, some (rmseOf d.y yp), true⟩)) := by
  unfold gpFinish
  dsimp only
  cases hsel : dnSelect st.minError (p.objectives.map GPObj.error) with
  | error err => exact .inl ⟨err, _, rfl, rfl, rfl, rfl, rfl⟩
  | ok i =>
    have hme : st.minError = true := by
      cases hm : st.minError with
      | true => rfl
      | false => rw [hm] at hsel; simp [dnSelect] at hsel
    rw [hme] at hsel
    simp only [dnSelect, if_true] at hsel
    obtain ⟨ev, he, hle, hlt⟩ := argminL_spec _ _ hsel
    rw [hr.objs, List.map_map] at he hle hlt
    rw [List.getElem?_map, Option.map_eq_some_iff] at he
    obtain ⟨q, hq, hqe⟩ := he
    have ho : p.objectives[i]? = some q.o := by rw [hr.objs, List.getElem?_map, hq]; rfl
    dsimp only
    rw [ho]
    dsimp only
    cases hpr : (gpPredict q.o.fit.roots q.o.fit.linear (d.X.rewritten colsEnd)).1 with
    | error e => exact .inl ⟨e, _, rfl, rfl, rfl, rfl, rfl⟩
    | ok yp =>
      right
      refine ⟨hme, i, q, yp, hq, ?_, ?_, hpr, rfl⟩
      · intro q' hq'
        obtain ⟨j, hj⟩ := List.mem_iff_getElem?.1 hq'
        have := hle j q'.o.error (by rw [List.getElem?_map, hj]; rfl)
        rw [← hqe] at this
        exact this
      · intro j q' hj hq'
        have := hlt j q'.o.error hj (by rw [List.getElem?_map, hq']; rfl)
        rw [← hqe] at this
        exact this

theorem rmseOf_eq (y p : List ℝ) (h : p.length = y.length) : rmseOf y p = rmsError y p := by
  unfold rmseOf rmsError
  congr 3
  apply List.ext_getElem
  · simp [h]
  · intro i h1 h2
    have h3 : i < y.length := by simpa [h] using h1
    simp [List.getElem?_eq_getElem h3, List.getElem?_eq_getElem (show i < p.length by omega)]

/-- C87. A `fit` of BioGP that returns: no generations of single-objective evolution were asked for, the probability of crossover was at least 1/2, the criterion was
"min_error", and the initial population had at least two individuals.  The model is then trained.  Every individual of the population kept has exactly `max_subtrees`
subtrees over the given functions and terminals, its fitness are the two recorded numbers, and its recorded complexity is half its depth plus half its number of function
nodes (whatever `complexity_scalar` was given).  The individual kept is the first one of least recorded error, and the reported RMSE is that of what `predict` returns for
the training data (with ones written for zeros in some columns). -/
theorem c87_fit (st : GPSettings) (d : GPData) (tn : TournOps GTree GPObj (ℝ × ℝ) Unit Unit) (r : GPRand) (s s' : GPReg)
    (h : gpFit st d tn r s = (.ok (), s')) :
    st.soGen = 0 ∧ 1 / 2 ≤ st.pXover ∧ st.minError = true ∧ 2 ≤ (designs st.method st.popSize st.maxDepth).length ∧ d.X.rows = d.y.length ∧
    s'.trained = true ∧ s'.terminals = some (s.terminals.getD (d.columns.map GTerm.var)) ∧
    ∃ (p : Pop GTree GPObj (ℝ × ℝ) Unit Unit) (i : Nat) (o : GPObj), s'.population = some p ∧ p.objectives[i]? = some o ∧ s'.tree = some o.fit ∧
      (∀ o' ∈ p.objectives, o.error ≤ o'.error) ∧
      (∀ (j : Nat) (o' : GPObj), j < i → p.objectives[j]? = some o' → o.error < o'.error) ∧
      p.fitness = p.objectives.map (fun o => (o.error, o.complexity)) ∧
      (∀ o' ∈ p.objectives, LooseInd (gpCfg st (s.terminals.getD (d.columns.map GTerm.var))) (.mk .linear o'.fit.roots) ∧
        ∃ depth, HasDepth (.mk .linear o'.fit.roots) depth ∧ o'.complexity = 1 / 2 * (depth : ℝ) + 1 / 2 * (fnCount (.mk .linear o'.fit.roots) : ℝ)) ∧
      ∃ (P : String → Bool) (yp : List ℝ), (gpRegPredict s' (d.X.rewritten P)).1 = .ok yp ∧ yp.length = d.y.length ∧ s'.rmse = some (rmsError d.y yp) := by
  rcases gpFit_cases st d tn r s with ⟨err, he | he⟩ | ⟨a1, a2, a3, a4, p, rs, a5, a6, a7⟩
  · rw [he] at h; simp at h
  · rw [he] at h; simp at h
  · rcases gpFinish_cases st d r.colsEnd p { s with terminals := some (trainCfg st d s).terms } rs a5 with ⟨err, s1, he, -⟩ | ⟨b0, i, q, yp, b1, b2, b2', b3, b4⟩
    · rw [a7, he] at h; simp at h
    · rw [a7, b4] at h
      simp only [Prod.mk.injEq, true_and] at h
      subst h
      obtain ⟨l1, -, -⟩ := gpPredict_ok b3
      have hl : yp.length = d.y.length := by rw [l1, ← a1]; rfl
      refine ⟨a2, a3, b0, a4, a1, rfl, rfl, p, i, q.o, rfl, by rw [a5.objs, List.getElem?_map, b1]; rfl, rfl, ?_, ?_, ?_, ?_, r.colsEnd, yp, b3, hl, ?_⟩
      · intro o' ho'
        rw [a5.objs] at ho'
        obtain ⟨q', hq', rfl⟩ := List.mem_map.1 ho'
        exact b2 q' hq'
      · intro j o' hj ho'
        rw [a5.objs, List.getElem?_map, Option.map_eq_some_iff] at ho'
        obtain ⟨q', hq', rfl⟩ := ho'
        exact b2' j q' hj hq'
      · rw [a5.objs, a5.fits, List.map_map]
        apply List.map_congr_left
        intro q' hq'
        obtain ⟨-, f, -, -, e⟩ := a6 q' hq'
        exact e
      · intro o' ho'
        rw [a5.objs] at ho'
        obtain ⟨q', hq', rfl⟩ := List.mem_map.1 ho'
        obtain ⟨c1, f, c2, c3, -⟩ := a6 q' hq'
        obtain ⟨d1, d2, -⟩ := fitOf_spec d _ c1 c2
        rw [c3]
        exact ⟨d1, d2⟩
      · rw [← rmseOf_eq _ _ hl]

/-- C87. After a `fit` that returned, `predict` returns for every data frame that has the terminals as columns, with one value per row; zeros in columns that a live node
divides by are replaced by ones in the caller's data; and if there are none, the values are the bias plus the weighted sum of the subtrees' values. -/
theorem c87_predict (st : GPSettings) (d : GPData) (tn : TournOps GTree GPObj (ℝ × ℝ) Unit Unit) (r : GPRand) (s s' : GPReg)
    (h : gpFit st d tn r s = (.ok (), s')) (D : Frame)
    (hD : ∀ x, GTerm.var x ∈ s.terminals.getD (d.columns.map GTerm.var) → ∃ l, D.col x = some l ∧ l.length = D.rows) :
    ∃ f, s'.tree = some f ∧ (∃ out, gpRegPredict s' D = (.ok out, D.after (fun x => ∃ t ∈ f.roots, DividesBy (trim t) x)) ∧ out.length = D.rows) ∧
      ((∀ t ∈ f.roots, ∀ x, DividesBy (trim t) x → ¬ HasZero D x) →
        gpRegPredict s' D = (.ok ((List.range D.rows).map (fun j => modelValue f.linear f.roots (rowOf D j))), D)) := by
  obtain ⟨-, -, -, -, -, -, -, p, i, o, -, h2, h3, -, -, -, h4, P, yp, h5, -, -⟩ := c87_fit st d tn r s s' h
  obtain ⟨h6, -⟩ := h4 o (List.mem_of_getElem? h2)
  simp only [gpRegPredict, h3] at h5 ⊢
  obtain ⟨-, l2, l3⟩ := gpPredict_ok h5
  have hf : FittedOn D (o.fit.roots.map trim) o.fit.linear := by
    refine ⟨by simpa using l2, by rw [List.length_map]; exact l3, ?_⟩
    intro t ht
    obtain ⟨u, hu, rfl⟩ := List.mem_map.1 ht
    exact isExpr_fits (c := gpCfg st (s.terminals.getD (d.columns.map GTerm.var))) ⟨rfl, hD⟩ (trim_isExpr _ u (h6.exprs u hu))
  refine ⟨o.fit, rfl, ?_, ?_⟩
  · obtain ⟨out, a1, a2⟩ := gpPredict_writes D _ _ hf
    refine ⟨out, ?_, a2⟩
    rw [← gpPredict_trim, a1]
    congr 1
    apply after_congr
    intro z
    simp
  · intro hz
    have := c75_predict_means D _ _ hf (by
      intro t ht
      obtain ⟨u, hu, rfl⟩ := List.mem_map.1 ht
      exact hz u hu)
    rw [gpPredict_trim] at this
    rw [this]
    simp only [modelValue_trim]

theorem rewritten_pure (d : Frame) (P : String → Bool) (hz : ∀ x, ¬ HasZero d x) : d.rewritten P = d := by
  rw [rewritten_eq]
  exact after_pure d _ (fun z _ => hz z)

theorem designRows_dot (rows : Nat) (vals : List (List ℝ)) (w : List ℝ) :
    (designRows rows vals).map (fun row => dotList row w) = (List.range rows).map (linearOut w vals) := by
  unfold designRows
  rw [List.map_map]
  rfl

/-- What the evaluation of an individual records, when no column has a zero. -/
theorem fitOf_values (d : GPData) (c : GPCfg GFn GTerm) {t : GTree} {f : LinFit} (ht : LooseInd c t) (h : FitOf d c t.roots f) (ha : Agrees c d.X)
    (hz : ∀ x, ¬ HasZero d.X x) (hrows : 0 < d.X.rows) (hy : d.X.rows = d.y.length) (hls : SolvesLeastSquares d.lstsq) :
    f.linear.length = c.maxSubtrees + 1 ∧ f.out = (List.range d.X.rows).map (fun j => modelValue f.linear t.roots (rowOf d.X j)) ∧
    (∀ w : List ℝ, w.length = c.maxSubtrees + 1 → sqErr f.out d.y ≤ sqErr ((List.range d.X.rows).map (fun j => modelValue w t.roots (rowOf d.X j))) d.y) ∧
    (f.roots = t.roots → gpPredict f.roots f.linear d.X = (.ok f.out, d.X)) := by
  obtain ⟨a1, -, P, vals, a2, a3, a4⟩ := fitOf_spec d c ht h
  rw [rewritten_pure _ _ hz, ← subtreeOutputs_trim] at a2
  have hf : ∀ u ∈ t.roots.map trim, Fits d.X u := by
    intro u hu
    obtain ⟨v, hv, rfl⟩ := List.mem_map.1 hu
    exact isExpr_fits ha (trim_isExpr _ v (ht.exprs v hv))
  have hne : t.roots.map trim ≠ [] := by
    intro e
    rw [e] at a2
    simp [subtreeOutputs, nodesPredict] at a2
  rw [subtreeOutputs_pure d.X _ hne hf (fun _ _ x _ => hz x)] at a2
  simp only [Except.ok.injEq] at a2
  have hlen : vals.length = c.maxSubtrees := by rw [← a2, List.length_map, List.length_map]; exact ht.count
  obtain ⟨b1, b2⟩ := hls (c.maxSubtrees + 1) (designRows d.X.rows vals) d.y (by
      intro e
      have : (designRows d.X.rows vals).length = 0 := by rw [e]; rfl
      simp [designRows] at this
      omega) (by simp [designRows, hy]) (by
      intro row hr
      simp only [designRows, List.mem_map] at hr
      obtain ⟨j, -, rfl⟩ := hr
      simp [hlen])
  have key : ∀ w : List ℝ, w.length = c.maxSubtrees + 1 →
      (List.range d.X.rows).map (linearOut w vals) = (List.range d.X.rows).map (fun j => modelValue w t.roots (rowOf d.X j)) := by
    intro w hw
    apply List.map_congr_left
    intro j hj
    rw [← a2, linearOut_eq _ _ _ _ (List.mem_range.1 hj) (by rw [hw, List.length_map, ht.count]), modelValue_trim]
  have hl : f.linear.length = c.maxSubtrees + 1 := by rw [a3]; exact b1
  refine ⟨hl, by rw [a4, key _ hl], ?_, ?_⟩
  · intro w hw
    rw [a4, ← key w hw, ← designRows_dot, ← designRows_dot, a3]
    exact b2 w hw
  · intro e
    rw [e, ← gpPredict_trim, c75_predict_means d.X _ _ ⟨hne, by rw [hl, List.length_map, ht.count], hf⟩ (fun _ _ x _ => hz x), a4, key _ hl]
    simp only [modelValue_trim]

/-- C87. What the recorded error of an individual of the kept population means, when the data have the terminals as columns and no zeros: the individual had, when it was
evaluated, some subtrees `roots₀`; its weights are optimal in the sense of least squares for `roots₀` (no other bias and weights come closer to the target), and the recorded
error is the loss of the output of *that* model.  It is the error of the model kept only if `roots₀` are the subtrees kept (see `c87_model_error_violated`). -/
theorem c87_recorded_error (st : GPSettings) (d : GPData) (tn : TournOps GTree GPObj (ℝ × ℝ) Unit Unit) (r : GPRand) (s s' : GPReg)
    (h : gpFit st d tn r s = (.ok (), s'))
    (hcols : ∀ x, GTerm.var x ∈ s.terminals.getD (d.columns.map GTerm.var) → ∃ l, d.X.col x = some l ∧ l.length = d.X.rows)
    (hz : ∀ x, ¬ HasZero d.X x) (hrows : 0 < d.X.rows) (hls : SolvesLeastSquares d.lstsq) :
    ∃ p : Pop GTree GPObj (ℝ × ℝ) Unit Unit, s'.population = some p ∧ ∀ o ∈ p.objectives, ∃ roots₀ : List GTree,
      LooseInd (gpCfg st (s.terminals.getD (d.columns.map GTerm.var))) (.mk .linear roots₀) ∧
      o.fit.linear.length = st.maxSubtrees + 1 ∧
      o.fit.out = (List.range d.X.rows).map (fun j => modelValue o.fit.linear roots₀ (rowOf d.X j)) ∧ o.error = d.loss d.y o.fit.out ∧
      (∀ w : List ℝ, w.length = st.maxSubtrees + 1 →
        sqErr o.fit.out d.y ≤ sqErr ((List.range d.X.rows).map (fun j => modelValue w roots₀ (rowOf d.X j))) d.y) ∧
      (o.fit.roots = roots₀ → gpPredict o.fit.roots o.fit.linear d.X = (.ok o.fit.out, d.X)) := by
  rcases gpFit_cases st d tn r s with ⟨err, he | he⟩ | ⟨a1, a2, a3, a4, p, rs, a5, a6, a7⟩
  · rw [he] at h; simp at h
  · rw [he] at h; simp at h
  · rcases gpFinish_cases st d r.colsEnd p { s with terminals := some (trainCfg st d s).terms } rs a5 with ⟨err, s1, he, -⟩ | ⟨b0, i, q, yp, b1, b2, b2', b3, b4⟩
    · rw [a7, he] at h; simp at h
    · rw [a7, b4] at h
      simp only [Prod.mk.injEq, true_and] at h
      subst h
      refine ⟨p, rfl, ?_⟩
      intro o ho
      rw [a5.objs] at ho
      obtain ⟨q', hq', rfl⟩ := List.mem_map.1 ho
      obtain ⟨c1, f, c2, c3, -⟩ := a6 q' hq'
      obtain ⟨e1, e2, e3, e4⟩ := fitOf_values d _ c1 c2 ⟨rfl, hcols⟩ hz hrows a1 hls
      rw [c3]
      exact ⟨q'.x.roots, ⟨rfl, c1.count, c1.exprs⟩, e1, e2, rfl, e3, e4⟩

/-! ## Trainings that fail -/

/-- C87. A `fit` that raises leaves the regressor as trained or untrained as it was, with the RMSE it had. -/
theorem c87_failed_fit (st : GPSettings) (d : GPData) (tn : TournOps GTree GPObj (ℝ × ℝ) Unit Unit) (r : GPRand) (s s' : GPReg) (e : Err)
    (h : gpFit st d tn r s = (.error e, s')) : s'.trained = s.trained ∧ s'.rmse = s.rmse := by
  rcases gpFit_cases st d tn r s with ⟨err, he | he⟩ | ⟨a1, a2, a3, a4, p, rs, a5, a6, a7⟩
  · rw [he] at h; simp only [Prod.mk.injEq] at h; rw [← h.2]; exact ⟨rfl, rfl⟩
  · rw [he] at h; simp only [Prod.mk.injEq] at h; rw [← h.2]; exact ⟨rfl, rfl⟩
  · rcases gpFinish_cases st d r.colsEnd p { s with terminals := some (trainCfg st d s).terms } rs a5 with ⟨err, s1, he, c1, c2, -⟩ | ⟨b0, i, q, yp, b1, b2, b2', b3, b4⟩
    · rw [a7, he] at h
      simp only [Prod.mk.injEq] at h
      rw [← h.2]
      exact ⟨c1, c2⟩
    · rw [a7, b4] at h; simp at h

/-- C87. With generations of single-objective evolution (the default is 10), or a probability of crossover below 1/2, or an unknown criterion, or fewer than two
initial individuals, or data of another length than the target, `fit` never returns. -/
theorem c87_never_trains (st : GPSettings) (d : GPData) (tn : TournOps GTree GPObj (ℝ × ℝ) Unit Unit) (r : GPRand) (s : GPReg)
    (h : 0 < st.soGen ∨ st.pXover < 1 / 2 ∨ st.minError = false ∨ (designs st.method st.popSize st.maxDepth).length < 2 ∨ d.X.rows ≠ d.y.length) :
    ∃ e s', gpFit st d tn r s = (.error e, s') ∧ s'.trained = s.trained ∧ s'.rmse = s.rmse := by
  cases hg : gpFit st d tn r s with
  | mk q s' =>
    cases q with
    | error e => exact ⟨e, s', rfl, c87_failed_fit st d tn r s s' e hg⟩
    | ok u =>
      obtain ⟨h1, h2, h3, h4, h5, -⟩ := c87_fit st d tn r s s' hg
      rcases h with h | h | h | h | h
      · omega
      · linarith
      · rw [h3] at h; cases h
      · omega
      · exact absurd h5 h

/-- C87. Before a model was selected `predict` raises AttributeError and leaves the data alone; and so it does after any `fit` that cannot return because of
single-objective generations, a crossover probability below 1/2, fewer than two initial individuals or data of another length than the target. -/
theorem c87_untrained (st : GPSettings) (d : GPData) (tn : TournOps GTree GPObj (ℝ × ℝ) Unit Unit) (r : GPRand) (s : GPReg) (hs : s.tree = none) (D : Frame) :
    gpRegPredict s D = (.error .attributeError, D) ∧
    ((0 < st.soGen ∨ st.pXover < 1 / 2 ∨ (designs st.method st.popSize st.maxDepth).length < 2 ∨ d.X.rows ≠ d.y.length) →
      gpRegPredict (gpFit st d tn r s).2 D = (.error .attributeError, D)) := by
  refine ⟨by simp only [gpRegPredict, hs], ?_⟩
  intro h
  rcases gpFit_cases st d tn r s with ⟨err, he | he⟩ | ⟨a1, a2, a3, a4, -⟩
  · rw [he]; simp only [gpRegPredict, hs]
  · rw [he]; simp only [gpRegPredict, hs]
  · exfalso
    rcases h with h | h | h | h
    · omega
    · linarith
    · omega
    · exact h a1

end Verif.Props
