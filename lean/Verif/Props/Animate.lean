import Verif.Spec.Animate
import Verif.Props.NSGA3

/-!
# C88: animations of populations
-/

namespace Verif.Props
open Verif Verif.Spec
variable {K : Type} [LinearOrder K]

theorem dimension_ok (l : List K) (d : K × K × List K) (h : dimension l = .ok d) : d.2.2 = l ∧ d.1 ∈ l ∧ d.2.1 ∈ l ∧ ∀ x ∈ l, d.1 ≤ x ∧ x ≤ d.2.1 := by
  have hmin : ∀ (l : List K) (a : K), (l.foldl min a ∈ a :: l) ∧ ∀ x ∈ a :: l, l.foldl min a ≤ x := by
    intro l
    induction l with
    | nil => intro a; simp
    | cons b l ih =>
      intro a
      obtain ⟨h1, h2⟩ := ih (min a b)
      rw [List.foldl_cons]
      refine ⟨?_, ?_⟩
      · rcases List.mem_cons.1 h1 with h | h
        · rcases min_choice a b with e | e <;> rw [h, e] <;> simp
        · simp [h]
      · intro x hx
        have h0 := h2 (min a b) (by simp)
        rcases List.mem_cons.1 hx with rfl | hx
        · exact h0.trans (min_le_left _ _)
        · rcases List.mem_cons.1 hx with rfl | hx
          · exact h0.trans (min_le_right _ _)
          · exact h2 x (by simp [hx])
  have hmax : ∀ (l : List K) (a : K), (l.foldl max a ∈ a :: l) ∧ ∀ x ∈ a :: l, x ≤ l.foldl max a := by
    intro l
    induction l with
    | nil => intro a; simp
    | cons b l ih =>
      intro a
      obtain ⟨h1, h2⟩ := ih (max a b)
      rw [List.foldl_cons]
      refine ⟨?_, ?_⟩
      · rcases List.mem_cons.1 h1 with h | h
        · rcases max_choice a b with e | e <;> rw [h, e] <;> simp
        · simp [h]
      · intro x hx
        have h0 := h2 (max a b) (by simp)
        rcases List.mem_cons.1 hx with rfl | hx
        · exact (le_max_left _ _).trans h0
        · rcases List.mem_cons.1 hx with rfl | hx
          · exact (le_max_right _ _).trans h0
          · exact h2 x (by simp [hx])
  cases l with
  | nil => simp [dimension] at h
  | cons a as =>
    simp only [dimension, Except.ok.injEq] at h
    rw [← h]
    exact ⟨rfl, (hmin as a).1, (hmax as a).1, fun x hx => ⟨(hmin as a).2 x hx, (hmax as a).2 x hx⟩⟩

theorem shows_of_columns (s : Trace K) (t : Table K) (h : axesOf s = (List.finRange t.cols).map t.column) : Shows s t := by
  refine ⟨by rw [h]; simp, ?_⟩
  intro j l hl
  rw [h, List.getElem?_map, List.getElem?_eq_getElem (by simp), Option.map_some, Option.some.injEq] at hl
  subst hl
  simp only [List.getElem_finRange, Table.column]
  refine ⟨by simp, ?_⟩
  intro i r hr
  rw [List.getElem?_map, hr]
  rfl

/-- C88. Data with two objectives or more are shown, exactly as they are; with four or more (at least one row) the range of every axis is that of the data. -/
theorem c88_shows (t : Table K) (h : Plottable t) : ∃ s, traceOf t = .ok (some s) ∧ Shows s t ∧ TightRanges s := by
  obtain ⟨cols, rows⟩ := t
  unfold traceOf
  by_cases h2 : cols = 2
  · subst h2
    rw [dif_pos rfl]
    exact ⟨_, rfl, shows_of_columns _ _ (by simp [axesOf, List.finRange_succ]), trivial⟩
  · by_cases h3 : cols = 3
    · subst h3
      rw [dif_neg (by simp), dif_pos rfl]
      exact ⟨_, rfl, shows_of_columns _ _ (by simp [axesOf, List.finRange_succ]), trivial⟩
    · have h4 : 4 ≤ cols := by have := h.1; dsimp only at this; omega
      have hne := h.2 h4
      dsimp only at hne
      rw [dif_neg h2, dif_neg h3, if_pos h4]
      obtain ⟨ds, hds⟩ := mapM_except_total (fun j => dimension (Table.column ⟨cols, rows⟩ j)) (List.finRange cols) (by
        intro j _
        cases rows with
        | nil => exact absurd rfl hne
        | cons r rs => exact ⟨_, rfl⟩)
      obtain ⟨l1, l2⟩ := mapM_except_ok _ _ _ hds
      dsimp only
      rw [hds]
      refine ⟨_, rfl, shows_of_columns _ _ ?_, ?_⟩
      · simp only [axesOf]
        apply List.ext_getElem
        · simp [l1]
        · intro i h1 h2'
          have h1' : i < ds.length := by simpa using h1
          have hi : i < (List.finRange cols).length := by rw [← l1]; exact h1'
          have := dimension_ok _ _ (l2 i _ _ (List.getElem?_eq_getElem hi) (List.getElem?_eq_getElem h1'))
          simp only [List.getElem_map]
          exact this.1
      · intro d hd
        obtain ⟨i, hi⟩ := List.mem_iff_getElem?.1 hd
        have hil : i < ds.length := (List.getElem?_eq_some_iff.1 hi).1
        have hi' : i < (List.finRange cols).length := by rw [← l1]; exact hil
        obtain ⟨e1, e2, e3, e4⟩ := dimension_ok _ _ (l2 i _ _ (List.getElem?_eq_getElem hi') hi)
        rw [e1]
        exact ⟨e2, e3, e4⟩

/-- C88. The first plot: one frame, number 0, showing the data, which are also shown before the animation starts; the file is what is returned. -/
theorem c88_init (t : Table K) (h : Plottable t) :
    ∃ f s, (animateInit t).1 = .ok f ∧ f.data = [s] ∧ f.frames = [("0", s)] ∧ f.steps = [0] ∧ Shows s t ∧ TightRanges s ∧ (animateInit t).2.getLast? = some f := by
  obtain ⟨s, h1, h2, h3⟩ := c88_shows t h
  refine ⟨(⟨[s], [], []⟩ : Fig K).push 0 s, s, ?_, rfl, rfl, rfl, h2, h3, ?_⟩
  · simp only [animateInit, h1]
  · simp only [animateInit, h1]
    rfl

/-- C88. Any history of calls of `animate_next_` with data that can be plotted: every call adds one frame and one step of the slider, in order; the frame shows that
call's data; its name is the label of the step; a call that names no generation gets the number of frames there were; the first plot is not changed, and the file holds
the figure. -/
theorem c88_history (cs : List (Table K × Option Int)) (hcs : ∀ c ∈ cs, Plottable c.1) : ∀ (f : Fig K) (file : Option (Fig K)), file = some f →
    ∃ fs : List (String × Trace K), ∃ gs : List Int, (animateRun f file cs).1 = ⟨f.data, f.frames ++ fs, f.steps ++ gs⟩ ∧
      (animateRun f file cs).2 = some (animateRun f file cs).1 ∧ fs.length = cs.length ∧ gs.length = cs.length ∧
      ∀ (k : Nat) (c : Table K × Option Int), cs[k]? = some c → ∃ s g, fs[k]? = some (toString g, s) ∧ gs[k]? = some g ∧ Shows s c.1 ∧ TightRanges s ∧
        g = c.2.getD ((f.frames.length + k : Nat) : Int) := by
  induction cs with
  | nil =>
    intro f file hf
    exact ⟨[], [], by simp [animateRun], by simp [animateRun, hf], rfl, rfl, by simp⟩
  | cons c cs ih =>
    intro f file hf
    obtain ⟨s, h1, h2, h3⟩ := c88_shows c.1 (hcs c (by simp))
    have hn : animateNext c.1 c.2 f = (.ok (), f.push (c.2.getD f.frames.length) s, [f.push (c.2.getD f.frames.length) s]) := by
      simp only [animateNext, h1]
    obtain ⟨fs, gs, a1, a2, a3, a4, a5⟩ := ih (fun c hc => hcs c (by simp [hc])) (f.push (c.2.getD f.frames.length) s) (some (f.push (c.2.getD f.frames.length) s)) rfl
    have hr : animateRun f file (c :: cs) = animateRun (f.push (c.2.getD f.frames.length) s) (some (f.push (c.2.getD f.frames.length) s)) cs := by
      simp only [animateRun, hn]
      rfl
    rw [hr]
    refine ⟨(toString (c.2.getD (f.frames.length : Int)), s) :: fs, c.2.getD f.frames.length :: gs, ?_, a2, by simp [a3], by simp [a4], ?_⟩
    · rw [a1]
      simp [Fig.push]
    · intro k c' hk
      cases k with
      | zero =>
        simp only [List.getElem?_cons_zero, Option.some.injEq] at hk
        subst hk
        exact ⟨s, _, rfl, rfl, h2, h3, rfl⟩
      | succ k =>
        obtain ⟨s', g, b1, b2, b3, b4, b5⟩ := a5 k c' hk
        refine ⟨s', g, b1, b2, b3, b4, ?_⟩
        rw [b5]
        simp only [Fig.push, List.length_append, List.length_singleton]
        congr 2
        omega

/-- C88. If generations are never named, the steps are 0, 1, 2, …: all different, in order. -/
theorem c88_default_numbers (t : Table K) (h : Plottable t) (ts : List (Table K)) (hts : ∀ u ∈ ts, Plottable u) (f : Fig K) (hf : (animateInit t).1 = .ok f) :
    (animateRun f (some f) (ts.map (fun u => (u, none)))).1.steps = (List.range (ts.length + 1)).map (fun (k : Nat) => (k : Int)) ∧
    (animateRun f (some f) (ts.map (fun u => (u, none)))).1.frames.map Prod.fst = (List.range (ts.length + 1)).map (fun (k : Nat) => toString (k : Int)) := by
  obtain ⟨f', s, e1, e2, e3, e4, -⟩ := c88_init t h
  rw [hf] at e1
  injection e1 with e1
  subst e1
  obtain ⟨fs, gs, a1, -, a3, a4, a5⟩ := c88_history (ts.map (fun u => (u, (none : Option Int)))) (by simpa using hts) f (some f) rfl
  rw [a1, e3, e4]
  rw [List.length_map] at a3 a4
  have key : ∀ k, k < ts.length → gs[k]? = some ((k + 1 : Nat) : Int) ∧ (fs[k]?).map Prod.fst = some (toString ((k + 1 : Nat) : Int)) := by
    intro k hk
    obtain ⟨s', g, b1, b2, -, -, b5⟩ := a5 k (ts[k], none) (by rw [List.getElem?_map, List.getElem?_eq_getElem hk]; rfl)
    rw [e3] at b5
    simp only [List.length_singleton, Option.getD_none] at b5
    rw [b1, b2, b5, Nat.add_comm]
    exact ⟨rfl, rfl⟩
  constructor
  · apply List.ext_getElem?
    intro i
    cases i with
    | zero => simp
    | succ k =>
      by_cases hk : k < ts.length
      · simp [(key k hk).1, hk]
      · simp [hk, List.getElem?_eq_none (by omega : gs.length ≤ k)]
  · apply List.ext_getElem?
    intro i
    cases i with
    | zero => simp; rfl
    | succ k =>
      by_cases hk : k < ts.length
      · have := (key k hk).2
        simp [hk] at this ⊢
        exact this
      · simp [hk, List.getElem?_eq_none (by omega : fs.length ≤ k)]

/-- C88. With fewer than two objectives, the first plot raises UnboundLocalError (a single objective cannot be animated), and a later call does nothing: no frame, no step,
nothing written.  Four or more objectives and no rows: ValueError, the figure as it was. -/
theorem c88_unplottable (t : Table K) :
    (t.cols < 2 → animateInit t = (.error .unboundLocalError, []) ∧ ∀ g f, animateNext t g f = (.ok (), f, [])) ∧
    (4 ≤ t.cols → t.rows = [] → animateInit t = (.error .valueError, []) ∧ ∀ g f, animateNext t g f = (.error .valueError, f, [])) := by
  constructor
  · intro h
    have : traceOf t = .ok none := by
      unfold traceOf
      rw [dif_neg (by omega), dif_neg (by omega), if_neg (by omega)]
    exact ⟨by simp only [animateInit, this], fun g f => by simp only [animateNext, this]⟩
  · intro h h0
    have : traceOf t = .error .valueError := by
      unfold traceOf
      rw [dif_neg (by omega), dif_neg (by omega), if_pos h]
      obtain ⟨cols, rows⟩ := t
      dsimp only at h h0 ⊢
      subst h0
      obtain ⟨n, rfl⟩ : ∃ n, cols = n + 1 := ⟨cols - 1, by omega⟩
      rw [List.finRange_succ, List.mapM_cons]
      rfl
    exact ⟨by simp only [animateInit, this], fun g f => by simp only [animateNext, this]⟩

open Classical in
/-- C88. Over any history, calls with data that cannot be plotted are as if they had not been made: same figure, same file. -/
theorem c88_skips_unplottable (cs : List (Table K × Option Int)) : ∀ (f : Fig K) (file : Option (Fig K)),
    animateRun f file cs = animateRun f file (cs.filter (fun c => decide (Plottable c.1))) := by
  induction cs with
  | nil => intro f file; rfl
  | cons c cs ih =>
    intro f file
    by_cases h : Plottable c.1
    · rw [List.filter_cons_of_pos (by simpa using h)]
      simp only [animateRun]
      exact ih _ _
    · rw [List.filter_cons_of_neg (by simpa using h)]
      have hn : (animateNext c.1 c.2 f).2 = (f, []) := by
        by_cases h2 : c.1.cols < 2
        · rw [((c88_unplottable c.1).1 h2).2]
        · have : 4 ≤ c.1.cols ∧ c.1.rows = [] := by
            by_contra hc
            exact h ⟨by omega, fun h4 h0 => hc ⟨h4, h0⟩⟩
          rw [((c88_unplottable c.1).2 this.1 this.2).2]
      simp only [animateRun, hn]
      rw [← ih]
      rfl

/-- C88. So after any history of calls, whatever the data: the file is the figure that the calls with plottable data made, one frame each. -/
theorem c88_file_is_figure (cs : List (Table K × Option Int)) (f : Fig K) : (animateRun f (some f) cs).2 = some (animateRun f (some f) cs).1 := by
  classical
  rw [c88_skips_unplottable]
  obtain ⟨_, _, -, h, -⟩ := c88_history (cs.filter (fun c => decide (Plottable c.1))) (by
    intro c hc
    simpa using (List.mem_filter.1 hc).2) f (some f) rfl
  exact h

/-- C88, violated: frames are told apart by their names only, and nothing keeps a caller from using one twice: two data sets under the number 1, as the script
`symmetric_vectors.py:120-126` does. -/
theorem c88_names_violated (t u v : Table K) (ht : Plottable t) (hu : Plottable u) (hv : Plottable v) :
    ∃ f, (animateInit t).1 = .ok f ∧ ∃ s s', (animateRun f (some f) [(u, some 1), (v, some 1)]).1.frames = [("0", (f.data.headD s)), ("1", s), ("1", s')] ∧
      Shows s u ∧ Shows s' v := by
  obtain ⟨f, s0, e1, e2, e3, e4, -⟩ := c88_init t ht
  obtain ⟨s, a1, a2, -⟩ := c88_shows u hu
  obtain ⟨s', b1, b2, -⟩ := c88_shows v hv
  refine ⟨f, e1, s, s', ?_, a2, b2⟩
  simp only [animateRun, animateNext, a1, b1, Fig.push, e3, e2]
  rfl

/-- the hypotheses are met: two objectives, four objectives -/
example : Plottable (⟨2, [fun _ => 1, fun i => i.val]⟩ : Table ℕ) ∧ Plottable (⟨4, [fun i => i.val]⟩ : Table ℕ) ∧ ¬ Plottable (⟨1, [fun _ => 1]⟩ : Table ℕ) := by
  refine ⟨⟨by decide, fun h => absurd h (by decide)⟩, ⟨by decide, fun _ => by simp⟩, fun h => absurd h.1 (by decide)⟩

end Verif.Props
