import Verif.Model.Indicator
import Verif.Spec.Indicator
import Verif.Proofs.MOEAD
import Verif.Proofs.NSGA3
import Mathlib.Tactic.Linarith

namespace Verif

open Verif.Spec
open _root_.Spec (Rec Represents rowsAt names inRange)

variable {X O F C U P Q R : Type}

theorem foldl_skip (g : F → ℝ) (i : Nat) (l : List F) (k : Nat) (acc : ℝ) :
    (l.zipIdx k).foldl (fun acc p => if p.2 ≠ i then acc + -(g p.1) else acc) acc =
      acc - ((if i < k then l else l.eraseIdx (i - k)).map g).sum := by
  induction l generalizing k acc with
  | nil => simp
  | cons x xs ih =>
    rw [List.zipIdx_cons, List.foldl_cons, ih]
    by_cases h1 : k = i
    · subst h1
      simp
    · rw [if_pos h1]
      by_cases h2 : i < k
      · rw [if_pos (by omega), if_pos h2]
        simp only [List.map_cons, List.sum_cons]
        ring
      · rw [if_neg (by omega), if_neg h2]
        obtain ⟨d, hd⟩ : ∃ d, i - k = d + 1 := ⟨i - k - 1, by omega⟩
        rw [hd, List.eraseIdx_cons_succ, show i - (k + 1) = d by omega]
        simp only [List.map_cons, List.sum_cons]
        ring

theorem fitnessAssign_eq (t : F → F → ℝ) (fits : List F) : fitnessAssign t fits = allFitness t fits := by
  unfold fitnessAssign allFitness
  congr 1
  funext i a
  rw [foldl_skip (t a) i fits 0 0]
  simp [indFitness]

theorem sum_eraseIdx (g : F → ℝ) (l : List F) (i : Nat) (a : F) (h : l[i]? = some a) :
    ((l.eraseIdx i).map g).sum + g a = (l.map g).sum := by
  induction l generalizing i with
  | nil => simp at h
  | cons x xs ih =>
    cases i with
    | zero =>
      simp only [List.getElem?_cons_zero, Option.some.injEq] at h
      subst h
      simp; ring
    | succ i =>
      simp only [List.getElem?_cons_succ] at h
      have := ih i h
      simp only [List.eraseIdx_cons_succ, List.map_cons, List.sum_cons]
      linarith

theorem allFitness_get (t : F → F → ℝ) (l : List F) (i : Nat) :
    (allFitness t l)[i]? = l[i]?.map (fun a => -((l.map (t a)).sum - t a a)) := by
  unfold allFitness
  rw [List.getElem?_mapIdx]
  cases h : l[i]? with
  | none => rfl
  | some a =>
    simp only [Option.map_some, Option.some.injEq, indFitness]
    have := sum_eraseIdx (t a) l i a h
    linarith

theorem envUpdate_erase (t : F → F → ℝ) (fits : List F) (w : Nat) (hw : w < fits.length) :
    (envUpdate t fits w (allFitness t fits)).eraseIdx w = allFitness t (fits.eraseIdx w) := by
  have hb : fits[w]? = some fits[w] := List.getElem?_eq_getElem hw
  have upd : ∀ i, i ≠ w → (envUpdate t fits w (allFitness t fits))[i]? =
      fits[i]?.map (fun a => -((fits.map (t a)).sum - t a a) + t a fits[w]) := by
    intro i hi
    unfold envUpdate
    rw [List.getElem?_mapIdx, allFitness_get]
    cases h : fits[i]? with
    | none => rfl
    | some a =>
      simp only [Option.map_some, Option.some.injEq]
      rw [if_pos (Ne.symm hi), hb]
  apply List.ext_getElem?
  intro j
  rw [List.getElem?_eraseIdx, allFitness_get, List.getElem?_eraseIdx]
  have fin : ∀ a : F, -((fits.map (t a)).sum - t a a) + t a fits[w] =
      -(((fits.eraseIdx w).map (t a)).sum - t a a) := by
    intro a
    have := sum_eraseIdx (t a) fits w _ hb
    linarith
  split
  · rw [upd j (by omega)]
    congr 1
    funext a
    exact fin a
  · rw [upd (j + 1) (by omega)]
    congr 1
    funext a
    exact fin a

theorem rowsAt_ne_eq_eraseIdx {α : Type} (l : List α) (w : Nat) :
    rowsAt (fun k => !decide (k = w)) l = l.eraseIdx w := by
  have key : ∀ (l : List α) (s : Nat), ((l.zipIdx s).filter (fun p => !decide (p.2 = w))).map (fun p => p.1) =
      if w < s then l else l.eraseIdx (w - s) := by
    intro l
    induction l with
    | nil => simp
    | cons x xs ih =>
      intro s
      rw [List.zipIdx_cons, List.filter_cons]
      by_cases h : s = w
      · subst h
        simp [ih]
      · simp only [h, decide_false, Bool.not_false, if_true, List.map_cons, ih]
        by_cases h2 : w < s
        · rw [if_pos (by omega), if_pos h2]
        · rw [if_neg (by omega), if_neg h2]
          obtain ⟨d, hd⟩ : ∃ d, w - s = d + 1 := ⟨w - s - 1, by omega⟩
          rw [hd, List.eraseIdx_cons_succ, show w - (s + 1) = d by omega]
  have := key l 0
  simpa [rowsAt] using this

theorem delete_one {p : Pop X O F C U} {rs : List (Rec X O F C U)} (h : Represents p rs) (hne : p.individuals ≠ none)
    (w : Nat) (hw : w < rs.length) :
    (p.delete [(w : Int)]).1 = .ok () ∧ Represents (p.delete [(w : Int)]).2 (rs.eraseIdx w) ∧
      ((p.delete [(w : Int)]).2.individuals = none ↔ rs.eraseIdx w = []) ∧
      (p.delete [(w : Int)]).2.nCons = p.nCons ∧ (p.delete [(w : Int)]).2.ndim = p.ndim := by
  have hr : inRange rs.length [(w : Int)] = true := inRange_nat rs.length [w] (by simpa using hw)
  obtain ⟨h1, h2, h3, h4, h5, -⟩ := delete_ok h hne [(w : Int)] hr
  have e : rowsAt (fun k => !names rs.length [(w : Int)] k) rs = rs.eraseIdx w := by
    rw [← rowsAt_ne_eq_eraseIdx]
    apply rowsAt_congr
    intro k hk
    have := names_nat rs.length [w] k (by simpa using hw) hk
    simp only [List.map_cons, List.map_nil] at this
    rw [this]
    simp
  rw [e] at h2 h5
  exact ⟨h1, h2, h5, h3, h4⟩

theorem envLoop_spec (t : F → F → ℝ) (popSize : Nat) (hp : 0 < popSize) (fuel : Nat) :
    ∀ (p : Pop X O F C U) (rs : List (Rec X O F C U)) , Represents p rs → p.individuals ≠ none →
      rs.length - popSize < fuel →
    ∃ (p' : Pop X O F C U) (rs' : List (Rec X O F C U)),
      envLoop t popSize fuel p (allFitness t p.fitness) = (.ok (), p', allFitness t p'.fitness) ∧
      Represents p' rs' ∧ p'.individuals ≠ none ∧ RemovesWorst t Rec.f (rs.length - popSize) rs rs' ∧
      rs'.length = min rs.length popSize ∧ p'.nCons = p.nCons ∧ p'.ndim = p.ndim := by
  induction fuel with
  | zero => intro p rs _ _ h; omega
  | succ fuel ih =>
    intro p rs h hne hf
    have hlen : ∀ inds, p.individuals = some inds → inds.length = rs.length := by
      intro inds hi
      rcases h.inds with h1 | ⟨h1, -⟩
      · rw [hi] at h1
        injection h1 with h1
        rw [h1, List.length_map]
      · exact absurd h1 hne
    unfold envLoop
    cases hi : p.individuals with
    | none => exact absurd hi hne
    | some inds =>
      have hl := hlen inds hi
      dsimp only
      by_cases hlt : popSize < inds.length
      · rw [if_pos hlt]
        have hfl : p.fitness.length = rs.length := by rw [h.fits, List.length_map]
        have hal : (allFitness t p.fitness).length = rs.length := by simp [allFitness, hfl]
        obtain ⟨w, hw⟩ := argminL_total (allFitness t p.fitness) (by
          intro e; rw [e] at hal; simp at hal; omega)
        rw [hw]
        obtain ⟨v, hv, hmin, hfirst⟩ := argminL_spec _ _ hw
        have hwl : w < rs.length := by
          rw [← hal]
          exact (List.getElem?_eq_some_iff.1 hv).1
        obtain ⟨d1, d2, d3, d4, d5⟩ := delete_one h hne w hwl
        dsimp only
        rw [envUpdate_erase t p.fitness w (by omega)]
        generalize p.delete [(w : Int)] = r at d1 d2 d3 d4 d5
        obtain ⟨r1, q⟩ := r
        dsimp only at d1 d2 d3 d4 d5
        subst d1
        have hqf : q.fitness = p.fitness.eraseIdx w := by
          rw [d2.fits, h.fits, List.eraseIdx_map]
        rw [← hqf]
        have hel : (rs.eraseIdx w).length = rs.length - 1 := List.length_eraseIdx_of_lt hwl
        have hqne : q.individuals ≠ none := by
          intro e
          have := d3.1 e
          rw [this] at hel
          simp at hel
          omega
        obtain ⟨p', rs', g1, g2, g3, g4, g5, g6, g7⟩ := ih q (rs.eraseIdx w) d2 hqne (by omega)
        refine ⟨p', rs', g1, g2, g3, ?_, by omega, g6.trans d4, g7.trans d5⟩
        obtain ⟨k, hk⟩ : ∃ k, rs.length - popSize = k + 1 := ⟨rs.length - popSize - 1, by omega⟩
        rw [hk]
        refine .succ hwl ⟨v, ?_, ?_, ?_⟩ ?_
        · rw [← h.fits]; exact hv
        · rw [← h.fits]; exact hmin
        · rw [← h.fits]; exact hfirst
        · rw [show k = (rs.eraseIdx w).length - popSize by omega]
          exact g4
      · rw [if_neg hlt]
        refine ⟨p, rs, rfl, h, hne, ?_, by omega, rfl, rfl⟩
        rw [show rs.length - popSize = 0 by omega]
        exact .zero _

end Verif
