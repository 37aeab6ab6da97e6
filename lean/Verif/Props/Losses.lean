import Verif.Spec.Losses
import Verif.Model.Activation
import Verif.Props.LeastSquares
import Verif.Props.TrainingDemo
import Verif.Props.BioGPTrain

/-!
# C102: no surrogate of a training population is worse than predicting the mean
-/

open scoped BigOperators

namespace Verif.Props
open Verif Verif.Spec

theorem sqErr_comm (a b : List ℝ) : sqErr a b = (List.zipWith (fun x y => (x - y) ^ 2) b a).sum := by
  unfold sqErr
  rw [List.zipWith_comm]
  congr 1
  congr 1
  funext x y
  ring

theorem sqErr_const (c : ℝ) {α : Type} (l : List α) (y : List ℝ) (h : l.length = y.length) : sqErr (l.map (fun _ => c)) y = (y.map (fun a => (a - c) ^ 2)).sum := by
  unfold sqErr
  congr 1
  apply List.ext_getElem
  · simp [h]
  · intro i g1 g2
    simp only [List.getElem_zipWith, List.getElem_map]
    ring

theorem sq_sum_nonneg (y p : List ℝ) : 0 ≤ (List.zipWith (fun a b : ℝ => (a - b) ^ 2) y p).sum := by
  apply List.sum_nonneg
  intro v hv
  rw [List.mem_iff_getElem] at hv
  obtain ⟨i, hi, rfl⟩ := hv
  rw [List.getElem_zipWith]
  positivity

theorem dev_sum_nonneg (y : List ℝ) (c : ℝ) : 0 ≤ (y.map (fun a => (a - c) ^ 2)).sum := by
  apply List.sum_nonneg
  intro v hv
  obtain ⟨a, -, rfl⟩ := List.mem_map.1 hv
  positivity

theorem sum_zero_all (l : List ℝ) (h : ∀ v ∈ l, 0 ≤ v) (h0 : l.sum = 0) : ∀ v ∈ l, v = 0 := by
  induction l with
  | nil => simp
  | cons a l ih =>
    rw [List.sum_cons] at h0
    have h1 := h a List.mem_cons_self
    have h2 : 0 ≤ l.sum := List.sum_nonneg (fun v hv => h v (List.mem_cons_of_mem _ hv))
    intro v hv
    rcases List.mem_cons.1 hv with rfl | hv
    · linarith
    · exact ih (fun v hv => h v (List.mem_cons_of_mem _ hv)) (by linarith) v hv

/-- C102. The losses a user can name.  "mse" and "neg_r2" rank any two predictions of the same non-constant targets in the same way; the mean squared error is
never negative and zero only for exact predictions; the coefficient of determination is never above 1.  Any other name but "msle" is refused at construction. -/
theorem c102_losses :
    lossFunction "mse" = .ok meanSquaredError ∧ lossFunction "neg_r2" = .ok (fun y p => -r2Score y p) ∧
    (∀ name, (∃ f, lossFunction name = .ok f) ↔ name = "mse" ∨ name = "msle" ∨ name = "neg_r2") ∧
    (∀ name e, lossFunction name = .error e → e = .keyError) ∧
    (∀ y p, 0 ≤ meanSquaredError y p ∧ (p.length = y.length → (meanSquaredError y p = 0 ↔ p = y))) ∧
    (∀ y p, r2Score y p ≤ 1) ∧
    (∀ y p q, variance y ≠ 0 → (meanSquaredError y p ≤ meanSquaredError y q ↔ -r2Score y p ≤ -r2Score y q)) := by
  refine ⟨by simp [lossFunction], by simp [lossFunction], ?_, ?_, ?_, ?_, ?_⟩
  · intro name
    unfold lossFunction
    split_ifs <;> simp_all
  · intro name e h
    unfold lossFunction at h
    split_ifs at h
    cases h; rfl
  · intro y p
    refine ⟨div_nonneg (sq_sum_nonneg y p) (by positivity), fun hl => ⟨fun h => ?_, fun h => ?_⟩⟩
    · unfold meanSquaredError at h
      rw [div_eq_zero_iff] at h
      rcases h with h | h
      · apply List.ext_getElem hl
        intro i g1 g2
        have hmem : (y[i] - p[i]) ^ 2 ∈ List.zipWith (fun a b : ℝ => (a - b) ^ 2) y p := by
          rw [List.mem_iff_getElem]
          exact ⟨i, by simp; omega, by rw [List.getElem_zipWith]⟩
        have := sum_zero_all _ (by
          intro v hv
          rw [List.mem_iff_getElem] at hv
          obtain ⟨i, hi, rfl⟩ := hv
          rw [List.getElem_zipWith]
          positivity) h _ hmem
        have := pow_eq_zero_iff (two_ne_zero) |>.1 this
        linarith
      · have : y.length = 0 := by exact_mod_cast h
        rw [List.length_eq_zero_iff] at this
        subst this
        exact List.length_eq_zero_iff.1 hl
    · subst h
      unfold meanSquaredError
      have : (List.zipWith (fun a b : ℝ => (a - b) ^ 2) p p).sum = 0 := by
        apply List.sum_eq_zero
        intro v hv
        rw [List.mem_iff_getElem] at hv
        obtain ⟨i, hi, rfl⟩ := hv
        rw [List.getElem_zipWith]
        simp
      rw [this, zero_div]
  · intro y p
    unfold r2Score
    dsimp only
    split_ifs with h1 h2
    · have := div_nonneg (sq_sum_nonneg y p) (dev_sum_nonneg y (y.sum / (y.length : ℝ)))
      linarith
    · norm_num
    · exact le_rfl
  · intro y p q hv
    have hden : (y.map (fun a => (a - y.sum / (y.length : ℝ)) ^ 2)).sum ≠ 0 := by
      intro h0
      apply hv
      unfold variance mean
      rw [h0, zero_div]
    have hpos : 0 < (y.map (fun a => (a - y.sum / (y.length : ℝ)) ^ 2)).sum := lt_of_le_of_ne (dev_sum_nonneg y _) (Ne.symm hden)
    have hlen : (0 : ℝ) < y.length := by
      cases y with
      | nil => simp at hden
      | cons a y => simp; positivity
    unfold meanSquaredError r2Score
    simp only [ne_eq, hden, not_false_eq_true, if_true]
    rw [div_le_div_iff_of_pos_right hlen, neg_le_neg_iff, sub_le_sub_iff_left, div_le_div_iff_of_pos_right hpos]

theorem log1p_inj {y p : List ℝ} (hy : ∀ a ∈ y, 0 ≤ a) (hp : ∀ a ∈ p, 0 ≤ a)
    (h : p.map (fun a => Real.log (1 + a)) = y.map (fun a => Real.log (1 + a))) : p = y := by
  induction p generalizing y with
  | nil => cases y with
    | nil => rfl
    | cons b y => simp at h
  | cons a p ih => cases y with
    | nil => simp at h
    | cons b y =>
      simp only [List.map_cons, List.cons.injEq] at h
      have ha := hp a (by simp)
      have hb := hy b (by simp)
      have := Real.log_injOn_pos (Set.mem_Ioi.2 (by linarith : (0 : ℝ) < 1 + a)) (Set.mem_Ioi.2 (by linarith : (0 : ℝ) < 1 + b)) h.1
      rw [ih (fun x hx => hy x (by simp [hx])) (fun x hx => hp x (by simp [hx])) h.2, show a = b by linarith]

/-- C102. The third loss a user can name, "msle": the mean squared error of the logarithms of one plus the values; for targets and predictions that are not
negative (scikit-learn refuses others) it is never negative, zero only for exact predictions, and unchanged when one plus every value is multiplied by the same
positive number, so it measures ratios. -/
theorem c102_log_loss : ∃ f, lossFunction "msle" = .ok f ∧
    (∀ y p, f y p = meanSquaredError (y.map (fun a => Real.log (1 + a))) (p.map (fun a => Real.log (1 + a)))) ∧
    (∀ y p, 0 ≤ f y p) ∧
    (∀ y p, (∀ a ∈ y, 0 ≤ a) → (∀ a ∈ p, 0 ≤ a) → p.length = y.length → (f y p = 0 ↔ p = y)) ∧
    (∀ y p c, 0 < c → (∀ a ∈ y, 0 ≤ a) → (∀ a ∈ p, 0 ≤ a) →
      f (y.map (fun a => c * (1 + a) - 1)) (p.map (fun a => c * (1 + a) - 1)) = f y p) := by
  have hm : ∀ y p, meanSquaredLogError y p =
      meanSquaredError (y.map (fun a => Real.log (1 + a))) (p.map (fun a => Real.log (1 + a))) := by
    intro y p
    unfold meanSquaredLogError meanSquaredError
    rw [List.zipWith_map, List.length_map]
  refine ⟨meanSquaredLogError, by simp [lossFunction], hm, ?_, ?_, ?_⟩
  · intro y p
    rw [hm]
    exact (c102_losses.2.2.2.2.1 _ _).1
  · intro y p hy hp hl
    rw [hm, (c102_losses.2.2.2.2.1 _ _).2 (by simpa using hl)]
    exact ⟨log1p_inj hy hp, fun h => by rw [h]⟩
  · intro y p c hc hy hp
    unfold meanSquaredLogError
    rw [List.zipWith_map, List.length_map]
    congr 2
    induction y generalizing p with
    | nil => simp
    | cons a y ih => cases p with
      | nil => simp
      | cons b p =>
        have ha := hy a (by simp)
        have hb := hp b (by simp)
        simp only [List.zipWith_cons_cons, List.cons.injEq]
        refine ⟨?_, ih p (fun x hx => hy x (by simp [hx])) (fun x hx => hp x (by simp [hx]))⟩
        rw [show 1 + (c * (1 + a) - 1) = c * (1 + a) by ring, show 1 + (c * (1 + b) - 1) = c * (1 + b) by ring,
          Real.log_mul hc.ne' (by linarith), Real.log_mul hc.ne' (by linarith)]
        ring

/-- Non-vacuity: targets 0 and 1, predictions 1 and 1: the loss is half the square of log 2, and not 0. -/
example : ∃ f, lossFunction "msle" = .ok f ∧ f [0, 1] [1, 1] = Real.log 2 ^ 2 / 2 ∧ f [0, 1] [1, 1] ≠ 0 := by
  have h2 : (1 : ℝ) + 1 = 2 := by norm_num
  have hv : meanSquaredLogError [0, 1] [1, 1] = Real.log 2 ^ 2 / 2 := by
    simp [meanSquaredLogError, h2]
  refine ⟨meanSquaredLogError, by simp [lossFunction], hv, ?_⟩
  rw [hv]
  have : 0 < Real.log 2 := Real.log_pos (by norm_num)
  positivity

/-- C102. Predictions at least as good as the mean: the mean squared error lies between 0 and the variance of the targets, the coefficient of determination between
0 and 1 (so "neg_r2" between -1 and 0). -/
theorem c102_at_least_mean_losses {y p : List ℝ} (h : AtLeastMean y p) :
    (0 ≤ meanSquaredError y p ∧ meanSquaredError y p ≤ variance y) ∧ (0 ≤ r2Score y p ∧ r2Score y p ≤ 1) := by
  have hm : meanSquaredError y p ≤ variance y := by
    unfold meanSquaredError variance
    rw [mean, List.length_map]
    exact div_le_div_of_nonneg_right h.errors (by positivity)
  refine ⟨⟨(c102_losses.2.2.2.2.1 y p).1, hm⟩, ?_, c102_losses.2.2.2.2.2.1 y p⟩
  have he := h.errors
  unfold mean at he
  unfold r2Score
  dsimp only
  split_ifs with h1 h2
  · have hpos : 0 < (y.map (fun a => (a - y.sum / (y.length : ℝ)) ^ 2)).sum := lt_of_le_of_ne (dev_sum_nonneg y _) (Ne.symm h1)
    have := (div_le_one hpos).2 he
    linarith
  · exact le_rfl
  · norm_num

/-- C102. Constant targets are met exactly by every surrogate that is at least as good as the mean. -/
theorem c102_constant_targets {y p : List ℝ} (h : AtLeastMean y p) (hv : ∀ a ∈ y, ∀ b ∈ y, a = b) : p = y := by
  have h0 : (y.map (fun a => (a - mean y) ^ 2)).sum = 0 := by
    cases hy : y with
    | nil => rfl
    | cons c l =>
      have hall : ∀ a ∈ y, a = c := fun a ha => hv a ha c (by rw [hy]; exact List.mem_cons_self)
      have hm : mean y = c := by
        unfold mean
        have : y = List.replicate y.length c := List.eq_replicate_iff.2 ⟨rfl, hall⟩
        have hl : (y.length : ℝ) ≠ 0 := by rw [hy]; simp; positivity
        have hs : y.sum = y.length * c := by
          conv_lhs => rw [this]
          simp
        rw [hs]
        field_simp
      rw [← hy]
      apply List.sum_eq_zero
      intro v hv'
      obtain ⟨a, ha, rfl⟩ := List.mem_map.1 hv'
      rw [hm, hall a ha]
      simp
  have hz : meanSquaredError y p = 0 := by
    unfold meanSquaredError
    rw [le_antisymm (h.errors.trans h0.le) (sq_sum_nonneg y p), zero_div]
  exact ((c102_losses.2.2.2.2.1 y p).2 h.length).1 hz

/-! ## EvoNN -/

section nn
variable {r c : Nat}

theorem nn_atLeastMean (d : NNData r c) (act : ℝ → ℝ) (n : NNet (r + 1) c ℝ) (hX : d.X ≠ []) (hl : d.X.length = d.y.length)
    (solve : List (List ℝ) → List ℝ → List ℝ) (hsolve : SolvesLeastSquares solve) (hlstsq : ∀ A y, List.ofFn (d.lstsq A y) = solve (A.map List.ofFn) y) :
    AtLeastMean d.y (nnTrainPred d act n) := by
  have hS := hsolve (c + 1) ((d.X.map (fun x => (Fin.cons 1 (nnHidden act n x) : Fin (c + 1) → ℝ))).map List.ofFn) d.y
    (by simpa using hX) (by simpa using hl) (by
      intro row hr
      simp only [List.map_map, List.mem_map] at hr
      obtain ⟨x, -, rfl⟩ := hr
      simp)
  have := hS.2 (List.ofFn (Fin.cons (mean d.y) (fun _ => 0) : Fin (c + 1) → ℝ)) (by simp)
  rw [← hlstsq] at this
  simp only [List.map_map, Function.comp_def, dotList_ofFn] at this
  refine ⟨?_, by simp [nnTrainPred, hl]⟩
  rw [← sqErr_comm]
  refine this.trans (le_of_eq ?_)
  rw [← sqErr_const (mean d.y) d.X d.y hl]
  congr 1
  apply List.map_congr_left
  intro x _
  simp [nnOutput]

/-- C102. EvoNN, if `np.linalg.lstsq` keeps its promise: after a fit that returned, the error recorded for any network of the final population is the loss of some
predictions that are at least as good as always predicting the mean of the targets; and so are the predictions of the trained model on the training data. -/
theorem c102_evonn_no_worse_than_the_mean (d : NNData r c) (crit : Criterion) (mt : MutType) (popSize : Nat) (u : Nat → Fin r → Fin c → ℝ)
    (zero : Nat → Fin (r + 1) → Fin c → Bool) (draw : Nat → Nat → NNDraw (r + 1) c ℝ) (e : EvolveRand) (s s' : NNReg r c)
    (solve : List (List ℝ) → List ℝ → List ℝ) (hsolve : SolvesLeastSquares solve)
    (hlstsq : ∀ A y, List.ofFn (d.lstsq A y) = solve (A.map List.ofFn) y) (hX : d.X ≠ [])
    (h : nnFit d crit mt popSize u zero draw e s = (.ok (), s')) :
    ∃ (act : ℝ → ℝ) (p : Pop (NNet (r + 1) c ℝ) (ℝ × ℝ) (ℝ × ℝ) Unit Unit), d.act = some act ∧ s'.population = some p ∧
      (∀ o ∈ p.objectives, ∃ predictions, o.1 = d.loss d.y predictions ∧ AtLeastMean d.y predictions) ∧
      ∃ predictions, d.X.mapM (nnPredictAt act s') = .ok predictions ∧ AtLeastMean d.y predictions := by
  rcases nnFit_cases d crit mt popSize u zero draw e s with ⟨err, he⟩ | ⟨act, p, ha, hl, hb, ho, he⟩
  · rw [he] at h; simp at h
  · rw [he] at h
    rcases nnFinish_cases d act crit p s (by rw [ho]; simp) with ⟨n, rest, hcr, hi, hk, hf⟩ | ⟨-, -, -, hf⟩ | ⟨-, -, hf⟩ | ⟨-, err, s'', hf, -⟩
    · rw [hf] at h
      simp only [Prod.mk.injEq, true_and] at h
      subst h
      refine ⟨act, p, ha, rfl, fun o hoo => ?_, nnTrainPred d act n, ?_, nn_atLeastMean d act n hX hl solve hsolve hlstsq⟩
      · rw [ho] at hoo
        obtain ⟨m, -, rfl⟩ := List.mem_map.1 hoo
        exact ⟨nnTrainPred d act m, rfl, nn_atLeastMean d act m hX hl solve hsolve hlstsq⟩
      · exact mapM_of_ok _ _ _ (fun x _ => by simp [nnPredictAt])
    · rw [hf] at h; simp at h
    · rw [hf] at h; simp at h
    · rw [hf] at h; simp at h

end nn

/-- A least squares solver of the kind EvoNN needs exists. -/
theorem nn_solver_exists (c : Nat) : ∃ (solve : List (List ℝ) → List ℝ → List ℝ) (lst : List (Fin (c + 1) → ℝ) → List ℝ → Fin (c + 1) → ℝ),
    SolvesLeastSquares solve ∧ ∀ A y, List.ofFn (lst A y) = solve (A.map List.ofFn) y := by
  classical
  obtain ⟨solve, hs⟩ := c85_least_squares_solvable
  let g : List (List ℝ) → List ℝ → List ℝ := fun A y => if A ≠ [] ∧ A.length = y.length then solve A y else List.replicate (c + 1) 0
  refine ⟨g, fun A y i => (g (A.map List.ofFn) y).getD i 0, fun k A y hne hl hA => ?_, fun A y => ?_⟩
  · simp only [g, if_pos (show A ≠ [] ∧ A.length = y.length from ⟨hne, hl⟩)]
    exact hs k A y hne hl hA
  · have hlen : (g (A.map List.ofFn) y).length = c + 1 := by
      simp only [g]
      split_ifs with h
      · exact (hs (c + 1) _ y h.1 h.2 (by
          intro row hr
          obtain ⟨x, -, rfl⟩ := List.mem_map.1 hr
          simp)).1
      · simp
    apply List.ext_getElem
    · rw [List.length_ofFn, hlen]
    · intro i g1 g2
      rw [List.getElem_ofFn]
      show (g (A.map List.ofFn) y).getD i 0 = _
      rw [List.getD_eq_getElem _ _ g2]

/-- Six samples, least squares, "mse": a fit that returns, every recorded error of which is at most the variance of the targets 1, ..., 6. -/
example : ∃ (d : NNData 1 1) (e : EvolveRand) (s' : NNReg 1 1) (p : Pop (NNet 2 1 ℝ) (ℝ × ℝ) (ℝ × ℝ) Unit Unit), d.y = [1, 2, 3, 4, 5, 6] ∧
    nnFit d .akaike .gaussian 2 (fun _ _ _ => 1) (fun _ _ _ => false)
      (fun _ _ => ⟨fun _ => false, fun _ _ => false, fun _ _ => 0, fun _ _ => false, fun _ _ => 0, (0, 0), (0, 0)⟩) e ⟨none, none, none, none, false⟩ = (.ok (), s') ∧
    s'.population = some p ∧ ∀ o ∈ p.objectives, 0 ≤ o.1 ∧ o.1 ≤ variance d.y := by
  obtain ⟨solve, lst, h1, h2⟩ := nn_solver_exists 1
  let d : NNData 1 1 := ⟨List.replicate 6 (fun _ => 1), [1, 2, 3, 4, 5, 6], some Real.tanh, lst, meanSquaredError⟩
  obtain ⟨e, -, s', h⟩ := c85_evonn_can_train d
    .gaussian (by decide) (fun _ _ _ => 1) (fun _ _ _ => false) (fun _ _ => ⟨fun _ => false, fun _ _ => false, fun _ _ => 0, fun _ _ => false, fun _ _ => 0, (0, 0), (0, 0)⟩)
    (by simp [d]) (by simp [d]) Real.tanh rfl ⟨none, none, none, none, false⟩
  obtain ⟨act, p, -, h3, h4, -⟩ := c102_evonn_no_worse_than_the_mean d _ _ _ _ _ _ _ _ s' solve h1 h2 (by simp [d]) h
  refine ⟨d, e, s', p, rfl, h, h3, fun o ho => ?_⟩
  obtain ⟨pr, e1, e2⟩ := h4 o ho
  rw [e1]
  exact (c102_at_least_mean_losses e2).1

/-! ## EvoDN2 -/

theorem dn_atLeastMean (d : DNData) (subsets : List (List Nat)) (n : DNet ℝ) (rows : List (List ℝ)) (hp : dnPenult d subsets n = .ok rows) (hX : d.X ≠ [])
    (hl : d.X.length = d.y.length) (hsolve : SolvesLeastSquares d.lstsq) : AtLeastMean d.y (dnTrainPred d rows) := by
  obtain ⟨g, hg1, hg2⟩ := mapM_ok_map (fun x => feedForward d.act x subsets n) d.X rows hp
  have hrow : ∀ row ∈ rows, row.length = outWidth subsets n := by
    intro row hrow
    rw [hg1] at hrow
    obtain ⟨x, hx, rfl⟩ := List.mem_map.1 hrow
    exact feedForward_width d.act x n subsets _ (hg2 x hx)
  have hlr : rows.length = d.y.length := by rw [hg1]; simpa using hl
  have hS := hsolve (outWidth subsets n + 1) (rows.map (fun row => 1 :: row)) d.y (by rw [hg1]; simpa using hX) (by simpa using hlr) (by
    intro row hr
    obtain ⟨row', hr', rfl⟩ := List.mem_map.1 hr
    rw [List.length_cons, hrow row' hr'])
  have hconv : ∀ l : List ℝ, l.length = outWidth subsets n + 1 →
      (rows.map (fun row => (1 : ℝ) :: row)).map (fun row => dotList row l) = rows.map (dnOutput l) := by
    intro l hll
    rw [List.map_map]
    apply List.map_congr_left
    intro row hr
    exact dotList_cons row l (by rw [hll, hrow row hr])
  have hm := hS.2 (mean d.y :: List.replicate (outWidth subsets n) 0) (by simp)
  rw [hconv _ hS.1, hconv _ (by simp)] at hm
  refine ⟨?_, by simpa [dnTrainPred] using hlr⟩
  rw [← sqErr_comm]
  refine hm.trans (le_of_eq ?_)
  rw [← sqErr_const (mean d.y) rows d.y hlr]
  congr 1
  apply List.map_congr_left
  intro row _
  unfold dnOutput
  simp only [List.getD_cons_zero, List.getD_cons_succ]
  have : ((List.range row.length).map (fun k => row.getD k 0 * (List.replicate (outWidth subsets n) (0 : ℝ)).getD k 0)).sum = 0 := by
    apply List.sum_eq_zero
    intro v hv
    obtain ⟨k, -, rfl⟩ := List.mem_map.1 hv
    rw [List.getD_eq_getElem?_getD (l := List.replicate _ _), List.getElem?_replicate]
    split <;> simp
  rw [this, zero_add]

/-- C102. EvoDN2, if `np.linalg.lstsq` keeps its promise: likewise. -/
theorem c102_evodn2_no_worse_than_the_mean (d : DNData) (minError : Bool) (popSize numSubnets maxLayers maxNodes : Nat) (sample : Nat → List Nat) (choose : Nat → Nat)
    (rnd : DNRand ℝ) (draw : Nat → Nat → Nat → Nat → DNDraw ℝ) (e : EvolveRand) (s s' : DNReg) (hsolve : SolvesLeastSquares d.lstsq)
    (h : dnFit d minError popSize numSubnets maxLayers maxNodes sample choose rnd draw e s = (.ok (), s')) (hX : d.X ≠ []) :
    ∃ (p : Pop (DNet ℝ) (ℝ × ℝ) (ℝ × ℝ) Unit Unit), s'.population = some p ∧
      (∀ o ∈ p.objectives, ∃ predictions, o.1 = d.loss d.y predictions ∧ AtLeastMean d.y predictions) ∧
      ∃ predictions, d.X.mapM (dnPredictAt d s') = .ok predictions ∧ AtLeastMean d.y predictions := by
  rcases dnFit_cases d minError popSize numSubnets maxLayers maxNodes sample choose rnd draw e s with ⟨err, he⟩ | ⟨subsets, hl, hf, ⟨err, he⟩ | ⟨P0, p, rs, hc, h2, hr, hI, he⟩⟩
  · rw [he] at h; simp at h
  · rw [he] at h; simp at h
  · rw [he] at h
    rcases dnFinish_cases d subsets minError p { s with subsets := some subsets } P0 rs hr hI with ⟨err, hfin⟩ | ⟨hme, i, q, rows, hq, hle, hpen, hfin⟩
    · rw [hfin] at h; simp at h
    · rw [hfin] at h
      simp only [Prod.mk.injEq, true_and] at h
      subst h
      refine ⟨p, rfl, fun o ho => ?_, dnTrainPred d rows, ?_, dn_atLeastMean d subsets q.x rows hpen hX hl hsolve⟩
      · rw [hr.objs] at ho
        obtain ⟨q', hq', rfl⟩ := List.mem_map.1 ho
        have h1 := (hI.2 q' hq').1
        unfold dnObjectives at h1
        cases hpen' : dnPenult d subsets q'.x with
        | error err => rw [hpen'] at h1; cases h1
        | ok rows' =>
          rw [hpen'] at h1
          simp only [Except.ok.injEq] at h1
          exact ⟨dnTrainPred d rows', by rw [← h1], dn_atLeastMean d subsets q'.x rows' hpen' hX hl hsolve⟩
      · obtain ⟨g, hg1, hg2⟩ := mapM_ok_map (fun x => feedForward d.act x subsets q.x) d.X rows hpen
        unfold dnTrainPred
        have hmap : ∀ f : List ℝ → ℝ, rows.map f = d.X.map (fun x => f (g x)) := by
          intro f; conv_lhs => rw [hg1, List.map_map]
          rfl
        rw [hmap]
        refine mapM_of_ok _ _ _ (fun x hx => ?_)
        simp only [dnPredictAt, hg2 x hx]

/-- Two samples, one variable, least squares, "neg_r2": a fit that returns, every recorded error of which lies between -1 and 0. -/
example : ∃ (d : DNData) (e : EvolveRand) (s' : DNReg) (p : Pop (DNet ℝ) (ℝ × ℝ) (ℝ × ℝ) Unit Unit), d.y = [1, 2] ∧ dnFit d true 2 1 2 2 (fun _ => [0]) (fun _ => 0)
    ⟨fun _ _ => 0, fun _ _ _ => 0, fun _ _ _ _ => 1, fun _ _ _ _ => false⟩ (fun _ _ _ _ => ⟨fun _ => false, fun _ => false, fun _ => 0, fun _ => false, fun _ => 0⟩)
    e ⟨none, none, none, none, none, false⟩ = (.ok (), s') ∧ s'.population = some p ∧ ∀ o ∈ p.objectives, -1 ≤ o.1 ∧ o.1 ≤ 0 := by
  obtain ⟨solve, hs⟩ := c85_least_squares_solvable
  let d : DNData := ⟨[[1], [2]], [1, 2], 1, Real.tanh, solve, fun y p => -r2Score y p⟩
  obtain ⟨e, -, s', h⟩ := c85_evodn2_can_train d 1 2 2 (by decide) (by decide) (by decide)
    (fun _ => [0]) (fun _ => 0) (by simp [d]) ⟨fun _ _ => 0, fun _ _ _ => 0, fun _ _ _ _ => 1, fun _ _ _ _ => false⟩
    (fun _ _ _ _ => ⟨fun _ => false, fun _ => false, fun _ => 0, fun _ => false, fun _ => 0⟩) rfl Nat.zero_lt_one (by simp [d]) ⟨none, none, none, none, none, false⟩ rfl
  obtain ⟨p, h3, h4, -⟩ := c102_evodn2_no_worse_than_the_mean d _ _ _ _ _ _ _ _ _ _ _ s' hs h (by simp [d])
  refine ⟨d, e, s', p, rfl, h, h3, fun o ho => ?_⟩
  obtain ⟨pr, e1, e2⟩ := h4 o ho
  obtain ⟨-, h5, h6⟩ := c102_at_least_mean_losses e2
  rw [e1]
  show -1 ≤ -r2Score d.y pr ∧ -r2Score d.y pr ≤ 0
  constructor <;> linarith

/-! ## BioGP -/

/-- C102. BioGP, if `np.linalg.lstsq` keeps its promise, on data with the terminals as columns and without zeros: the error recorded for any individual of the
final population is the loss of some predictions that are at least as good as always predicting the mean of the targets.  (Not so, in general, the predictions of
the individual kept, whose subtrees may have been replaced after the weights were computed: `c87_model_error_violated`.) -/
theorem c102_biogp_no_worse_than_the_mean (st : GPSettings) (d : GPData) (tn : TournOps GTree GPObj (ℝ × ℝ) Unit Unit) (r : GPRand) (s s' : GPReg)
    (h : gpFit st d tn r s = (.ok (), s'))
    (hcols : ∀ x, GTerm.var x ∈ s.terminals.getD (d.columns.map GTerm.var) → ∃ l, d.X.col x = some l ∧ l.length = d.X.rows)
    (hz : ∀ x, ¬ HasZero d.X x) (hrows : 0 < d.X.rows) (hls : SolvesLeastSquares d.lstsq) :
    ∃ p : Pop GTree GPObj (ℝ × ℝ) Unit Unit, s'.population = some p ∧
      ∀ o ∈ p.objectives, ∃ predictions, o.error = d.loss d.y predictions ∧ AtLeastMean d.y predictions := by
  obtain ⟨-, -, -, -, hy, -⟩ := c87_fit st d tn r s s' h
  obtain ⟨p, hp, hall⟩ := c87_recorded_error st d tn r s s' h hcols hz hrows hls
  refine ⟨p, hp, fun o ho => ?_⟩
  obtain ⟨roots₀, -, h2, h3, h4, h5, -⟩ := hall o ho
  refine ⟨o.fit.out, h4, ?_, by rw [h3]; simpa using hy⟩
  have := h5 (mean d.y :: List.replicate st.maxSubtrees 0) (by simp)
  rw [← sqErr_comm]
  refine this.trans (le_of_eq ?_)
  rw [← sqErr_const (mean d.y) (List.range d.X.rows) d.y (by simpa using hy)]
  congr 1
  apply List.map_congr_left
  intro j _
  simp [modelValue]

end Verif.Props
