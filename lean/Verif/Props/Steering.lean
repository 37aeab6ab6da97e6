import Verif.Spec.Steering
import Verif.Model.Answers
import Verif.Props.RefVectors
import Verif.Props.InForce
import Verif.Props.Runs
import Verif.Props.Invariance

/-!
# C94: an accepted answer steers the search where it says
-/

namespace Verif.Props
open Verif Verif.Spec
open scoped BigOperators

variable {m : Nat}

/-! ## Geometry -/

theorem len_nonneg (v : Vec m) : 0 ≤ len v := Real.sqrt_nonneg _

theorem inner_self (v : Vec m) : inner v v = len v ^ 2 := by
  unfold inner len
  rw [Real.sq_sqrt (Finset.sum_nonneg (fun i _ => mul_self_nonneg _))]

theorem inner_smul_left (c : ℝ) (v w : Vec m) : inner (fun i => c * v i) w = c * inner v w := by
  unfold inner; rw [Finset.mul_sum]; exact Finset.sum_congr rfl (fun i _ => by ring)

theorem inner_comm' (v w : Vec m) : inner v w = inner w v := by
  unfold inner; exact Finset.sum_congr rfl (fun i _ => by ring)

theorem inner_add_left (v w z : Vec m) : inner (fun i => v i + w i) z = inner v z + inner w z := by
  unfold inner; rw [← Finset.sum_add_distrib]; exact Finset.sum_congr rfl (fun i _ => by ring)

theorem len_smul (c : ℝ) (hc : 0 ≤ c) (v : Vec m) : len (fun i => c * v i) = c * len v := by
  have h : len (fun i => c * v i) ^ 2 = (c * len v) ^ 2 := by
    rw [← inner_self, inner_smul_left, inner_comm', inner_smul_left, inner_self]; ring
  exact (pow_left_inj₀ (len_nonneg _) (mul_nonneg hc (len_nonneg _)) two_ne_zero).1 h

theorem cauchy (v w : Vec m) : |inner v w| ≤ len v * len w := by
  have h : inner v w ^ 2 ≤ (len v * len w) ^ 2 := by
    rw [mul_pow, ← inner_self, ← inner_self]
    have := Finset.sum_mul_sq_le_sq_mul_sq Finset.univ v w
    simpa [inner, pow_two] using this
  exact abs_le_of_sq_le_sq h (mul_nonneg (len_nonneg _) (len_nonneg _))

/-- Adding `x` to a longer `y` turns it by at most `arcsin (|x| / |y|)`. -/
theorem angle_add (x y : Vec m) (h : len x < len y) :
    0 < len (fun i => x i + y i) ∧ angleTo (fun i => x i + y i) y ≤ Real.arcsin (len x / len y) := by
  have hx := len_nonneg x
  have hy : 0 < len y := lt_of_le_of_lt hx h
  have hs : inner (fun i => x i + y i) y = inner x y + len y ^ 2 := by rw [inner_add_left, inner_self]
  have hc := neg_le_of_abs_le (cauchy x y)
  have hpos : 0 < inner (fun i => x i + y i) y := by rw [hs]; nlinarith
  have hA : len (fun i => x i + y i) ^ 2 = len x ^ 2 + 2 * inner x y + len y ^ 2 := by
    rw [← inner_self, inner_add_left, inner_comm' x, inner_comm' y, inner_add_left, inner_add_left, inner_self, inner_self, inner_comm' y x]; ring
  have ha : 0 < len (fun i => x i + y i) := by
    rcases (len_nonneg (fun i => x i + y i)).eq_or_lt with e | e
    · have := (le_abs_self _).trans (cauchy (fun i => x i + y i) y)
      rw [← e] at this; linarith
    · exact e
  refine ⟨ha, ?_⟩
  have hr : 0 ≤ len x / len y := div_nonneg hx hy.le
  rw [Real.arcsin_eq_arccos hr]
  unfold angleTo
  refine Real.arccos_le_arccos ?_
  rw [Real.sqrt_le_left (by positivity), div_pow, div_pow, mul_pow]
  rw [le_div_iff₀ (by positivity)]
  have hy2 : len y ^ 2 ≠ 0 := by positivity
  have e1 : (1 - len x ^ 2 / len y ^ 2) * (len (fun i => x i + y i) ^ 2 * len y ^ 2) =
      (len y ^ 2 - len x ^ 2) * len (fun i => x i + y i) ^ 2 := by field_simp
  rw [e1, hA, hs]
  nlinarith [sq_nonneg (inner x y + len x ^ 2)]

/-- The angle does not depend on the lengths. -/
theorem angle_scale (c d : ℝ) (hc : 0 < c) (hd : 0 < d) (v w : Vec m) :
    angleTo (fun i => c * v i) (fun i => d * w i) = angleTo v w := by
  unfold angleTo
  rw [len_smul c hc.le, len_smul d hd.le, inner_smul_left, inner_comm', inner_smul_left, inner_comm']
  congr 1
  rw [show c * (d * inner v w) = (c * d) * inner v w by ring, show c * len v * (d * len w) = (c * d) * (len v * len w) by ring]
  exact mul_div_mul_left _ _ (by positivity)

theorem angle_direction {a u : Vec m} (h : IsDirection a u) (ha : 0 < len a) (z : Vec m) : len u = 1 ∧ angleTo u z = angleTo a z := by
  rcases h with ⟨h, -⟩ | ⟨h1, c, hc, h2⟩
  · subst h; simp [len] at ha
  · refine ⟨h1, ?_⟩
    have := angle_scale c 1 hc one_pos u z
    simp only [one_mul] at this
    rw [← this]
    congr 1
    funext i; exact (h2 i).symm

/-- Mixing one fifth of `v` into four fifths of `z`. -/
theorem angle_mix (v z : Vec m) (h : len v < 4 * len z) :
    0 < len (fun i => 1 / 5 * v i + 4 / 5 * z i) ∧ angleTo (fun i => 1 / 5 * v i + 4 / 5 * z i) z ≤ Real.arcsin (len v / (4 * len z)) := by
  have e1 := len_smul (1 / 5) (by norm_num) v
  have e2 := len_smul (4 / 5) (by norm_num) z
  obtain ⟨h1, h2⟩ := angle_add (fun i => 1 / 5 * v i) (fun i => 4 / 5 * z i) (by rw [e1, e2]; linarith)
  refine ⟨h1, ?_⟩
  have e3 := angle_scale 1 (4 / 5) one_pos (by norm_num) (fun i => 1 / 5 * v i + 4 / 5 * z i) z
  simp only [one_mul] at e3
  rw [← e3]
  refine h2.trans (le_of_eq ?_)
  rw [e1, e2]
  congr 1
  rw [show 1 / 5 * len v = (1 / 5) * len v by ring, show 4 / 5 * len z = (1 / 5) * (4 * len z) by ring]
  exact mul_div_mul_left _ _ (by norm_num)

/-- The other way round: one fifth of `v` keeps its direction when `z` is short. -/
theorem angle_mix' (v z : Vec m) (h : 4 * len z < len v) :
    0 < len (fun i => 1 / 5 * v i + 4 / 5 * z i) ∧ angleTo (fun i => 1 / 5 * v i + 4 / 5 * z i) v ≤ Real.arcsin (4 * len z / len v) := by
  have e1 := len_smul (1 / 5) (by norm_num) v
  have e2 := len_smul (4 / 5) (by norm_num) z
  obtain ⟨h1, h2⟩ := angle_add (fun i => 4 / 5 * z i) (fun i => 1 / 5 * v i) (by rw [e1, e2]; linarith)
  have ec : (fun i => 4 / 5 * z i + 1 / 5 * v i) = (fun i => 1 / 5 * v i + 4 / 5 * z i) := by funext i; ring
  rw [ec] at h1 h2
  refine ⟨h1, ?_⟩
  have e3 := angle_scale 1 (1 / 5) one_pos (by norm_num) (fun i => 1 / 5 * v i + 4 / 5 * z i) v
  simp only [one_mul] at e3
  rw [← e3]
  refine h2.trans (le_of_eq ?_)
  rw [e1, e2]
  congr 1
  rw [show 4 / 5 * len z = (1 / 5) * (4 * len z) by ring]
  exact mul_div_mul_left _ _ (by norm_num)

/-! ## What a run never changes -/

section runs
variable {X O F C U V S Q R : Type}

/-- What adaptation, answers and selection keep about the vectors holds over any history of calls. -/
theorem calls_vec (ops : Ops X O F C U V S Q R) (hr : SelectReads ops) (P : V → Prop) (ha : ∀ v f, P v → P (ops.adapt v f))
    (hp : ∀ clk k v p r, P v → P (ops.respond clk k v p r).2) (cs : List (Call R)) :
    ∀ s : EA X O F C U V S Q, P s.vec → P (s.calls ops cs).vec := by
  have hman : ∀ (s : EA X O F C U V S Q) pref, P s.vec → P (s.managePreferences ops pref).2.vec := by
    intro s pref h
    unfold EA.managePreferences EA.selManage
    split
    · exact h
    · split
      · exact ha _ _ h
      · split
        · exact h
        · split
          · exact h
          · split
            · exact h
            · exact hp _ _ _ _ _ h
    · generalize ops.probManage s.prob s.pop pref = q
      obtain ⟨q, q'⟩ := q
      cases q <;> exact h
  have hpre : ∀ s : EA X O F C U V S Q, P s.vec → P (s.preIteration ops).vec := by
    intro s h
    have : s.record.vec = s.vec := by unfold EA.record; split <;> rfl
    rw [← this] at h
    simp only [EA.preIteration]
    split <;> split
    · exact ha _ _ (ha _ _ h)
    · exact ha _ _ h
    · exact ha _ _ h
    · exact h
  have hit : ∀ (s : EA X O F C U V S Q) pref, P s.vec → P (s.iterate ops pref).2.vec := by
    intro s pref h
    unfold EA.iterate EA.iterateWith
    have h1 := hman s pref h
    generalize s.managePreferences ops pref = r at h1
    obtain ⟨r, t⟩ := r
    cases r with
    | error e => exact h1
    | ok _ =>
      dsimp only
      have h2 := hpre t h1
      generalize t.preIteration ops = u at h2
      have h3 := (loop_inForce ops hr u.vec u.cfg.nGen ({ u with genIter := 0 }) rfl).1
      generalize EA.loop (EA.nextGen ops) u.cfg.nGen { u with genIter := 0 } = r at h3
      obtain ⟨r, v⟩ := r
      dsimp only at h3
      rw [← h3] at h2
      cases r with
      | error e => exact h2
      | ok _ =>
        rw [(requestPreferences_frame ops _).2.2.2.2.2.2]
        exact h2
  have hty : ∀ (s : EA X O F C U V S Q) arg, (s.setInteractionType arg).2.vec = s.vec := by
    intro s arg
    unfold EA.setInteractionType
    split
    · rfl
    · rfl
    · dsimp only
      split
      · rfl
      · split <;> rfl
  have hrd : ∀ s : EA X O F C U V S Q, s.readAllowable.2.vec = s.vec := by
    intro s
    unfold EA.readAllowable
    split
    · rfl
    · have h1 := hty s none
      generalize s.setInteractionType none = r at h1
      obtain ⟨r, t⟩ := r
      cases r <;> exact h1
  have hst : ∀ s : EA X O F C U V S Q, (s.start ops).2.vec = s.vec := by
    intro s
    unfold EA.start
    split
    · rfl
    · dsimp only
      split
      · rename_i hq
        split at hq
        · split at hq
          · simp only [Prod.mk.injEq] at hq; rw [← hq.2]
          · split at hq
            · simp only [Prod.mk.injEq] at hq; rw [← hq.2]
            · simp at hq
        · simp at hq
      · rename_i t hq
        rw [(requestPreferences_frame ops _).2.2.2.2.2.2]
        split at hq
        · split at hq
          · simp at hq
          · split at hq
            · simp at hq
            · simp only [Prod.mk.injEq] at hq
              rw [← hq.2]
        · simp only [Prod.mk.injEq] at hq; rw [← hq.2]
  induction cs with
  | nil => exact fun s h => h
  | cons c cs ih =>
    intro s h
    cases c with
    | start => exact ih _ (by show P (s.start ops).2.vec; rw [hst]; exact h)
    | setType a => exact ih _ (by
      have e := hty s a
      rw [← e] at h
      simp only [EA.call]
      split <;> (rename_i hq; rw [hq] at h; exact h))
    | readAllowable => exact ih _ (by
      have e := hrd s
      rw [← e] at h
      simp only [EA.call]
      split <;> (rename_i hq; rw [hq] at h; exact h))
    | iterate p => exact ih _ (hit s p h)

end runs

/-! ## The vectors of the beginning -/

theorem create_init (hm : 2 ≤ m) (r : Nat) (hr : 1 ≤ r) (v0 : RV m) (h : RV.create m r = .ok v0) :
    v0.init = v0.values ∧ v0.initP = v0.planar ∧ v0.init.length = Nat.choose (r + m - 1) (m - 1) ∧
    v0.initP.length = Nat.choose (r + m - 1) (m - 1) ∧ (∀ v ∈ v0.init, len v = 1) ∧ (∀ v ∈ v0.initP, OnSimplex v ∧ len v ≤ 1) := by
  have hl := length_weights m r hm
  rw [create_ok r hm hr] at h
  cases h
  have hs : ∀ v ∈ (weights m r).map (latticeRow m r), OnSimplex v := by
    intro v hv
    have hl := (latticeRow_spec r hm v).1 hv
    refine ⟨fun i => ?_, lattice_sum r hr v hl⟩
    obtain ⟨k, -, h2⟩ := hl
    rw [h2 i]; positivity
  refine ⟨rfl, rfl, by simp [hl], by simp [hl], ?_, ?_⟩
  · intro v hv
    obtain ⟨w, hw, rfl⟩ := List.mem_map.1 hv
    have h0 : w ≠ 0 := by
      intro e
      have := (hs w hw).2
      rw [e] at this; simp at this
    rw [← norm2_eq_len, norm2_unitRow w h0]
  · intro v hv
    refine ⟨hs v hv, ?_⟩
    obtain ⟨h1, h2⟩ := hs v hv
    have : len v ^ 2 ≤ 1 ^ 2 := by
      rw [← inner_self]
      unfold inner
      calc ∑ i, v i * v i ≤ ∑ i, v i := Finset.sum_le_sum (fun i _ => by
              have : v i ≤ 1 := by rw [← h2]; exact Finset.single_le_sum (fun i _ => h1 i) (Finset.mem_univ i)
              nlinarith [h1 i])
        _ = 1 ^ 2 := by rw [h2]; norm_num
    exact (pow_le_pow_iff_left₀ (len_nonneg _) zero_le_one two_ne_zero).1 this

theorem forall₂_from_right {α β : Type} {P : α → β → Prop} {l : List α} {l' : List β} (h : List.Forall₂ P l l') (b : β) (hb : b ∈ l') :
    ∃ a ∈ l, P a b := by
  induction h with
  | nil => simp at hb
  | cons h1 h2 ih =>
    rcases List.mem_cons.1 hb with rfl | hb
    · exact ⟨_, by simp, h1⟩
    · obtain ⟨a, ha, hp⟩ := ih hb
      exact ⟨a, by simp [ha], hp⟩

theorem forall₂_imp_mem {α β : Type} {P P' : α → β → Prop} {l : List α} {l' : List β} (h : List.Forall₂ P l l')
    (hi : ∀ a ∈ l, ∀ b, P a b → P' a b) : List.Forall₂ P' l l' := by
  induction h with
  | nil => exact .nil
  | cons h1 h2 ih => exact .cons (hi _ (by simp) _ h1) (ih (fun a ha => hi a (by simp [ha])))

theorem forall₂_split {α β : Type} {P : α → β → Prop} {a b : List α} {l : List β} (h : List.Forall₂ P (a ++ b) l) :
    ∃ l1 l2, List.Forall₂ P a l1 ∧ List.Forall₂ P b l2 ∧ l = l1 ++ l2 := by
  induction a generalizing l with
  | nil => exact ⟨[], l, .nil, h, rfl⟩
  | cons x a ih =>
    cases h with
    | cons h1 h2 =>
      obtain ⟨l1, l2, g1, g2, rfl⟩ := ih h2
      exact ⟨_ :: l1, l2, .cons h1 g1, g2, rfl⟩

/-- Indexing with solution numbers gives the rows with these numbers. -/
theorem chosen_named {O : Type} (objs : List O) (l : List Nat) (hl : ∀ i ∈ l, i < objs.length) :
    ∃ z, chosenRows objs (l.map (fun (i : Nat) => (i : Int))) = .ok z ∧ List.Forall₂ (fun (i : Nat) z => objs[i]? = some z) l z := by
  refine ⟨l.filterMap (fun k => objs[k]?), ?_, ?_⟩
  · unfold chosenRows
    have : resolve objs.length (l.map (fun (i : Nat) => (i : Int))) = .ok l := by
      induction l with
      | nil => rfl
      | cons a l ih =>
        have ih := ih (fun i hi => hl i (by simp [hi]))
        have ha := hl a (by simp)
        have hn : normIdx objs.length (a : Int) = some a := by
          unfold normIdx
          simp [ha]
        simp only [List.map_cons, resolve]
        rw [hn, ih]
    rw [this]
  · induction l with
    | nil => simp
    | cons a l ih =>
      have ha := hl a (by simp)
      simp only [List.filterMap_cons, List.getElem?_eq_getElem ha]
      exact .cons (by simp [ha]) (ih (fun i hi => hl i (by simp [hi])))

theorem run_snoc (cs : List (VecCall m)) (c : VecCall m) : ∀ s : RV m, s.run (cs ++ [c]) = (s.run cs).run [c] := by
  induction cs with
  | nil => intro s; rfl
  | cons a cs ih =>
    intro s
    simp only [List.cons_append, RV.run]
    cases s.call a with
    | ok t => exact ih t
    | error e => exact ih s

section steering
variable {X S Q : Type}

/-- An EA whose answers are treated as in `SelectionBase.py`: `mult` is `problem._max_multiplier`, `ideal` the ideal fitness known to the
problem at a given moment. -/
structure Steered (ops : Ops X (Vec m) (Vec m) (List ℝ) (Vec m) (RV m) S Q (Answer m)) (mult : Vec m) (ideal : Nat → Vec m)
    (lhs : Nat → Nat → List (Vec m)) : Prop where
  reads : SelectReads ops
  adapt : ops.adapt = rvAdapt
  respond : ops.respond = rvRespond (answerCall mult ideal lhs)

/-- `p` answers the request open in the state `t`, which asks for an answer of kind `k`. -/
structure Answers (t : EA X (Vec m) (Vec m) (List ℝ) (Vec m) (RV m) S Q) (p : Pref (Answer m)) (k : Kind) : Prop where
  location : t.cfg.location = some .selection
  interact : t.cfg.interact = true
  request : t.reqId = some p.id
  kind : t.itype = some k
  cls : p.cls = k.cls

variable {ops : Ops X (Vec m) (Vec m) (List ℝ) (Vec m) (RV m) S Q (Answer m)} {mult : Vec m} {ideal : Nat → Vec m}
  {lhs : Nat → Nat → List (Vec m)}

theorem Steered.init (h : Steered ops mult ideal lhs) (cs : List (Call (Answer m)))
    (s : EA X (Vec m) (Vec m) (List ℝ) (Vec m) (RV m) S Q) :
    (s.calls ops cs).vec.init = s.vec.init ∧ (s.calls ops cs).vec.initP = s.vec.initP := by
  refine calls_vec ops h.reads (fun v => v.init = s.vec.init ∧ v.initP = s.vec.initP) ?_ ?_ cs s ⟨rfl, rfl⟩
  · intro v f hv
    rw [h.adapt]
    unfold rvAdapt
    cases hc : v.adapt f with
    | error e => exact hv
    | ok w =>
      obtain ⟨e1, e2⟩ := init_call v w (.adapt f) hc
      exact ⟨e1.trans hv.1, e2.trans hv.2⟩
  · intro clk k v p r hv
    rw [h.respond]
    unfold rvRespond
    split
    · exact hv
    · rename_i c _
      cases hc : v.call c with
      | error e => exact hv
      | ok w =>
        obtain ⟨e1, e2⟩ := init_call v w c hc
        exact ⟨e1.trans hv.1, e2.trans hv.2⟩

/-- The vectors in force are those of the vector operation the answer is turned into. -/
theorem Steered.inForce (h : Steered ops mult ideal lhs) (t : EA X (Vec m) (Vec m) (List ℝ) (Vec m) (RV m) S Q) (p : Pref (Answer m)) (k : Kind)
    (ha : Answers t p k) (c : VecCall m) (w : RV m) (hc : answerCall mult ideal lhs t.clock k t.pop p.response = .ok c) (hw : t.vec.call c = .ok w) :
    InForce ops t (some p) w := by
  have hresp : ops.respond t.clock k t.vec t.pop p.response = (.ok (), w) := by
    rw [h.respond]
    unfold rvRespond
    rw [hc]
    dsimp only
    rw [hw]
  have := c64_preference_in_force ops h.reads t ha.location ha.interact p k ha.request ha.kind ha.cls (by rw [hresp])
  rw [hresp] at this
  exact this

/-- C94, reference point.  In an interactive EA with `N = C(r+m-1, m-1)` reference vectors, at any moment of any run, an answer to the request
for a reference point that is not better than the ideal point in any objective and not equal to it decides the vectors of the whole next iteration: `N`
vectors, each at an angle of at most arcsin 1/4 (14.5 degrees) from the direction of the reference point seen from the ideal point, then the
axes.  Both for the spherical vectors (RVEA) and for the planar ones (NSGA-III). -/
theorem c94_reference_point_focuses (hm : 2 ≤ m) (r : Nat) (hr : 1 ≤ r) (v0 : RV m) (hv0 : RV.create m r = .ok v0)
    (h : Steered ops mult ideal lhs) (s t : EA X (Vec m) (Vec m) (List ℝ) (Vec m) (RV m) S Q) (hs : s.vec = v0)
    (cs : List (Call (Answer m))) (ht : s.calls ops cs = t) (p : Pref (Answer m)) (ha : Answers t p .refPoint) (q : Vec m)
    (hq : p.response = .point q) (hge : ∀ i, ideal t.clock i ≤ q i * mult i) (hne : ∃ i, q i * mult i ≠ ideal t.clock i) :
    ∃ w front frontP, InForce ops t (some p) w ∧ EndsWithAxes front w.values ∧ EndsWithAxes frontP w.planar ∧
      front.length = Nat.choose (r + m - 1) (m - 1) ∧ frontP.length = Nat.choose (r + m - 1) (m - 1) ∧
      (∀ v ∈ front, (∀ i, 0 ≤ v i) ∧ len v = 1 ∧ angleTo v (fun i => q i * mult i - ideal t.clock i) ≤ Real.arcsin (1 / 4)) ∧
      (∀ v ∈ frontP, (∀ i, 0 ≤ v i) ∧ ∑ i, v i = 1 ∧ angleTo v (fun i => q i * mult i - ideal t.clock i) ≤ Real.arcsin (1 / 4)) := by
  obtain ⟨c1, c2, c3, c4, c5, c6⟩ := create_init hm r hr v0 hv0
  obtain ⟨i1, i2⟩ := h.init cs s
  rw [ht, hs] at i1 i2
  generalize hd : (fun i => q i * mult i - ideal t.clock i) = d
  have hd0 : d ≠ 0 := by
    obtain ⟨i, hi⟩ := hne
    intro e
    rw [← hd] at e
    have := congrFun e i
    simp only [Pi.zero_apply] at this
    exact hi (by linarith)
  have hdp : ∀ i, 0 ≤ d i := by
    intro i; rw [← hd]; have := hge i; simp only; linarith
  have hn : 0 < len d := by
    rw [← norm2_eq_len]
    exact lt_of_le_of_ne (norm2_nonneg d) (Ne.symm ((norm2_eq_zero d).not.2 hd0))
  generalize hu : (fun i => d i / norm2 d) = u
  have hu1 : len u = 1 := by
    rw [← norm2_eq_len, ← hu]
    have e : (fun i => d i / norm2 d) = unitRow d := by
      funext i; simp [unitRow, (norm2_eq_zero d).not.2 hd0]
    rw [e, norm2_unitRow d hd0]
  have hup : ∀ i, 0 ≤ u i := by intro i; rw [← hu]; exact div_nonneg (hdp i) (norm2_nonneg d)
  have hdu : d = fun i => len d * u i := by
    funext i; rw [← hu, ← norm2_eq_len]; field_simp [(norm2_eq_zero d).not.2 hd0]
  have hang : ∀ v : Vec m, angleTo v d = angleTo v u := by
    intro v
    have := angle_scale 1 (len d) one_pos hn v u
    simp only [one_mul, ← hdu] at this
    exact this
  have hbl : ∀ v : Vec m, blend (1 / 5) u v = fun i => 1 / 5 * v i + 4 / 5 * u i := by
    intro v; funext i; unfold blend; ring
  refine ⟨_, (v0.init.map (blend (1 / 5) u)).map unitRow, (v0.initP.map (blend (1 / 5) u)).map planarRow,
    h.inForce t p .refPoint ha (.refPoint d) _ (by rw [hq, ← hd]; rfl) rfl, ?_, ?_, by simpa using c3, by simpa using c4, ?_, ?_⟩
  · rw [hu, addEdges_values (t.vec.adapt3 u (1 / 5)) (norm_normalize _).values]
    simp only [RV.adapt3, RV.normalize, i1]
    exact endsWithAxes_axes _
  · rw [hu, addEdges_planar (t.vec.adapt3 u (1 / 5)) (norm_normalize _).planar]
    simp only [RV.adapt3, RV.normalize, i2]
    exact endsWithAxes_axes _
  · intro w hw
    obtain ⟨b, hb, rfl⟩ := List.mem_map.1 hw
    obtain ⟨v, hv, rfl⟩ := List.mem_map.1 hb
    have hv1 := c5 v hv
    obtain ⟨a1, a2⟩ := angle_mix v u (by rw [hv1, hu1]; norm_num)
    rw [← hbl] at a1 a2
    obtain ⟨d1, d2⟩ := angle_direction (unitRow_isDirection (blend (1 / 5) u v)) a1 u
    refine ⟨?_, d1, ?_⟩
    · intro i
      have hb0 : 0 ≤ blend (1 / 5) u v i := by
        rw [hbl]
        have h1 : 0 ≤ v i := by
          rw [c1] at hv
          have hh := create_ok r hm hr
          rw [hv0] at hh
          cases hh
          obtain ⟨x, hx, rfl⟩ := List.mem_map.1 hv
          obtain ⟨k, -, hk⟩ := (latticeRow_spec r hm x).1 hx
          unfold unitRow
          refine div_nonneg (by rw [hk i]; positivity) ?_
          split
          · unfold eps; positivity
          · exact norm2_nonneg _
        have := hup i
        simp only; linarith
      unfold unitRow
      refine div_nonneg hb0 ?_
      split
      · unfold eps; positivity
      · exact norm2_nonneg _
    · rw [hang, d2]
      rw [hv1, hu1, mul_one] at a2
      exact a2
  · intro w hw
    obtain ⟨b, hb, rfl⟩ := List.mem_map.1 hw
    obtain ⟨v, hv, rfl⟩ := List.mem_map.1 hb
    obtain ⟨hv1, hv2⟩ := c6 v hv
    have hsx := onSimplex_blend v u hv1 hup
    refine ⟨hsx.1, hsx.2, ?_⟩
    obtain ⟨-, a2⟩ := angle_mix v u (by rw [hu1]; linarith)
    rw [← hbl, hu1, mul_one] at a2
    have hsum : 0 < ∑ j, blend (1 / 5) u v j := by
      rw [hbl, Finset.sum_add_distrib, ← Finset.mul_sum, ← Finset.mul_sum, hv1.2]
      have := Finset.sum_nonneg (fun i (_ : i ∈ Finset.univ) => hup i)
      linarith
    have e := angle_scale (1 / ∑ j, blend (1 / 5) u v j) 1 (by positivity) one_pos (blend (1 / 5) u v) u
    have e' : (fun i => 1 / (∑ j, blend (1 / 5) u v j) * blend (1 / 5) u v i) = planarRow (blend (1 / 5) u v) := by
      funext i; unfold planarRow; ring
    simp only [one_mul] at e
    rw [hang, ← e', e]
    refine a2.trans (Real.monotone_arcsin ?_)
    linarith

/-- What happens to the vectors during any run is some history of vector operations, so C22 to C25 apply to runs. -/
theorem Steered.history (h : Steered ops mult ideal lhs) (cs : List (Call (Answer m)))
    (s : EA X (Vec m) (Vec m) (List ℝ) (Vec m) (RV m) S Q) : ∃ ops', (s.calls ops cs).vec = s.vec.run ops' := by
  refine calls_vec ops h.reads (fun v => ∃ o, v = s.vec.run o) ?_ ?_ cs s ⟨[], rfl⟩
  · rintro v f ⟨o, rfl⟩
    rw [h.adapt]
    unfold rvAdapt
    cases hc : (s.vec.run o).adapt f with
    | error e => exact ⟨o, rfl⟩
    | ok w =>
      refine ⟨o ++ [.adapt f], ?_⟩
      rw [run_snoc]
      simp only [RV.run, RV.call, hc]
  · rintro clk k v p r ⟨o, rfl⟩
    rw [h.respond]
    unfold rvRespond
    split
    · exact ⟨o, rfl⟩
    · rename_i c _
      cases hc : (s.vec.run o).call c with
      | error e => exact ⟨o, rfl⟩
      | ok w =>
        refine ⟨o ++ [c], ?_⟩
        rw [run_snoc]
        simp only [RV.run, hc]

open Classical in
/-- C94, non-preferred solutions.  At any moment of any run (with as many spherical as planar vectors, and planar vectors of sum 1), an answer that
names some, not all, of the solutions, none of which is zero, keeps for the next iteration exactly the vectors whose planar form is at distance at
least 1/5 from every named solution's objective vector divided by its L1 norm, in order, followed by the axes. -/
theorem c94_non_preferred_removes (r : Nat) (v0 : RV m) (hv0 : RV.create m r = .ok v0)
    (h : Steered ops mult ideal lhs) (s t : EA X (Vec m) (Vec m) (List ℝ) (Vec m) (RV m) S Q) (hs : s.vec = v0)
    (cs : List (Call (Answer m))) (ht : s.calls ops cs = t) (p : Pref (Answer m)) (ha : Answers t p .nonPreferred) (is : List Nat)
    (hq : p.response = .indices (is.map (fun (i : Nat) => (i : Int)))) (hin : ∀ i ∈ is, i < t.pop.objectives.length)
    (hall : is.length ≠ t.pop.objectives.length) (hlen : t.vec.values.length = t.vec.planar.length)
    (hsum : ∀ p ∈ t.vec.planar, ∑ i, p i = 1) (hnz : ∀ i ∈ is, ∀ z, t.pop.objectives[i]? = some z → z ≠ 0) :
    let far := fun (v : Vec m) => decide (∀ i ∈ is, ∀ z, t.pop.objectives[i]? = some z → 1 / 5 ≤ dist2 (l1Normalised z) v)
    ∃ w, InForce ops t (some p) w ∧ EndsWithAxes (((t.vec.values.zip t.vec.planar).filter (fun q => far q.2)).map Prod.fst) w.values ∧
      EndsWithAxes (t.vec.planar.filter far) w.planar := by
  intro far
  obtain ⟨z, hz, hzi⟩ := chosen_named t.pop.objectives is hin
  have hzl := hzi.length_eq
  obtain ⟨o, ho⟩ := h.history cs s
  rw [ht, hs] at ho
  have hmem : ∀ P : Vec m → Prop, (∀ y ∈ z, P y) ↔ ∀ i ∈ is, ∀ z, t.pop.objectives[i]? = some z → P z := by
    intro P
    clear hz hzl hnz hall hin hq far
    induction hzi with
    | nil => simp
    | cons h1 h2 ih =>
      simp only [List.forall_mem_cons, ih]
      rw [h1]
      simp
  obtain ⟨w, h1, h2, h3⟩ := c25_removes_exactly_nearby_vectors r v0 hv0 o t.vec ho.symm hlen hsum z t.pop.objectives.length (by omega)
    ((hmem (fun y => y ≠ 0)).2 hnz)
  have hans : answerCall mult ideal lhs t.clock .nonPreferred t.pop p.response = .ok (.nonPreferred z t.pop.objectives.length) := by
    rw [hq]; simp only [answerCall, hz]; rfl
  have hf : ∀ v, far v = decide (∀ y ∈ z, 1 / 5 ≤ dist2 (l1Normalised y) v) := by
    intro v
    simp only [far]
    exact decide_eq_decide.2 (hmem _).symm
  refine ⟨w, h.inForce t p .nonPreferred ha _ w hans h1, ?_, ?_⟩
  · simp only [hf]; exact h2
  · rw [show far = fun v => decide (∀ y ∈ z, 1 / 5 ≤ dist2 (l1Normalised y) v) from funext hf]; exact h3

/-- C94, preferred solutions.  At any moment of any run, an answer that names some, not all, of the solutions by their numbers gives, for
each of them in turn, `N` vectors, then come the axes.  Those made for a solution with objective vector `z` are at an angle of at most
arcsin (1 / (4 |z|)) from `z` if `z` is longer than 1/4; but if it is shorter, they are at most arcsin (4 |z|) away from where they were at
the beginning: for objectives with small values the answer has nearly no effect. -/
theorem c94_preferred_solutions_focus (hm : 2 ≤ m) (r : Nat) (hr : 1 ≤ r) (v0 : RV m) (hv0 : RV.create m r = .ok v0)
    (h : Steered ops mult ideal lhs) (s t : EA X (Vec m) (Vec m) (List ℝ) (Vec m) (RV m) S Q) (hs : s.vec = v0)
    (cs : List (Call (Answer m))) (ht : s.calls ops cs = t) (p : Pref (Answer m)) (ha : Answers t p .preferred) (is : List Nat)
    (hq : p.response = .indices (is.map (fun (i : Nat) => (i : Int)))) (hin : ∀ i ∈ is, i < t.pop.objectives.length) (hne : is ≠ [])
    (hall : is.length ≠ t.pop.objectives.length) :
    ∃ w blocks, InForce ops t (some p) w ∧ EndsWithAxes blocks.flatten w.values ∧
      List.Forall₂ (fun (i : Nat) (block : List (Vec m)) => ∃ z, t.pop.objectives[i]? = some z ∧
        (1 / 4 < len z → block.length = Nat.choose (r + m - 1) (m - 1) ∧
          ∀ v ∈ block, len v = 1 ∧ angleTo v z ≤ Real.arcsin (1 / (4 * len z))) ∧
        (len z < 1 / 4 → List.Forall₂ (fun v b => len b = 1 ∧ angleTo b v ≤ Real.arcsin (4 * len z)) v0.values block)) is blocks := by
  obtain ⟨c1, c2, c3, c4, c5, c6⟩ := create_init hm r hr v0 hv0
  obtain ⟨i1, i2⟩ := h.init cs s
  rw [ht, hs] at i1 i2
  obtain ⟨z, hz, hzi⟩ := chosen_named t.pop.objectives is hin
  have hzl := hzi.length_eq
  have hz0 : z ≠ [] := by
    intro e; rw [e] at hzl; simp at hzl; exact hne hzl
  obtain ⟨w, front, hw, hax, hfr, -, -⟩ := c24_preferred_solutions t.vec [] z t.pop.objectives.length hz0 (by omega)
  have hans : answerCall mult ideal lhs t.clock .preferred t.pop p.response = .ok (.preferred z t.pop.objectives.length) := by
    rw [hq]; simp only [answerCall, hz]; rfl
  have hsplit : ∀ (is : List Nat) (z : List (Vec m)) (front : List (Vec m)), List.Forall₂ (fun (i : Nat) z => t.pop.objectives[i]? = some z) is z →
      List.Forall₂ (fun p w => IsDirection (fun i => 1 / 5 * p.2 i + 4 / 5 * p.1 i) w) (z.flatMap (fun zi => t.vec.init.map (fun v => (zi, v)))) front →
      ∃ blocks : List (List (Vec m)), blocks.flatten = front ∧ List.Forall₂ (fun (i : Nat) (block : List (Vec m)) => ∃ z, t.pop.objectives[i]? = some z ∧
        List.Forall₂ (fun v w => IsDirection (fun i => 1 / 5 * v i + 4 / 5 * z i) w) v0.init block) is blocks := by
    intro is z front hi
    induction hi generalizing front with
    | nil => intro hf; simp at hf; exact ⟨[], by simp [hf], .nil⟩
    | @cons i zi is zs h1 h2 ih =>
      intro hf
      simp only [List.flatMap_cons] at hf
      obtain ⟨f1, f2, hf1, hf2, rfl⟩ : ∃ f1 f2, List.Forall₂ (fun p w => IsDirection (fun i => 1 / 5 * p.2 i + 4 / 5 * p.1 i) w)
          (t.vec.init.map (fun v => (zi, v))) f1 ∧ List.Forall₂ (fun p w => IsDirection (fun i => 1 / 5 * p.2 i + 4 / 5 * p.1 i) w)
          (zs.flatMap (fun zi => t.vec.init.map (fun v => (zi, v)))) f2 ∧ front = f1 ++ f2 :=
        forall₂_split hf
      obtain ⟨bs, hb1, hb2⟩ := ih f2 hf2
      rw [List.forall₂_map_left_iff, i1] at hf1
      exact ⟨f1 :: bs, by simp [hb1], .cons ⟨zi, h1, hf1⟩ hb2⟩
  obtain ⟨blocks, hb, hbl⟩ := hsplit is z front hzi hfr
  refine ⟨w, blocks, h.inForce t p .preferred ha _ w hans hw, by rw [hb]; exact hax, hbl.imp ?_⟩
  rintro i block ⟨zi, hzi, hblk⟩
  refine ⟨zi, hzi, ?_, ?_⟩
  · intro hlen
    refine ⟨by rw [← hblk.length_eq, c3], ?_⟩
    intro b hb
    obtain ⟨v, hv, hd⟩ := forall₂_from_right hblk b hb
    have hv1 := c5 v hv
    obtain ⟨a1, a2⟩ := angle_mix v zi (by rw [hv1]; linarith)
    obtain ⟨d1, d2⟩ := angle_direction hd a1 zi
    rw [hv1] at a2
    exact ⟨d1, by rw [d2]; exact a2⟩
  · intro hlen
    rw [← c1]
    refine forall₂_imp_mem hblk ?_
    intro v hv b hd
    have hv1 := c5 v hv
    obtain ⟨a1, a2⟩ := angle_mix' v zi (by rw [hv1]; linarith)
    obtain ⟨d1, d2⟩ := angle_direction hd a1 v
    rw [hv1, div_one] at a2
    exact ⟨d1, by rw [d2]; exact a2⟩

end steering

/-! ## Maximised objectives -/

theorem demo93_steered (ev : Row 1 → Vec 2) (mult ideal : Vec 2) : Steered (demo93 ev mult ideal) mult (fun _ => ideal) (fun _ _ => []) :=
  ⟨c64_selection_reads _ .mean (fun _ => 0) (fun _ => ideal) rfl, rfl, rfl⟩

/-- Two individuals, at 0 and at 1. -/
def demo94Design (_ _ : Nat) : Except Err (Batch (Row 1)) := .ok ⟨2, [fun _ => some 0, fun _ => some 1]⟩

theorem len_two (a b : ℝ) : len (![a, b] : Vec 2) = Real.sqrt (a * a + b * b) := by
  unfold len; rw [Fin.sum_univ_two]; rfl

theorem cos_angleTo (v w : Vec m) (hv : 0 < len v) (hw : 0 < len w) : Real.cos (angleTo v w) = inner v w / (len v * len w) := by
  have h := cauchy v w
  have hp : 0 < len v * len w := by positivity
  unfold angleTo
  refine Real.cos_arccos ?_ ?_
  · rw [le_div_iff₀ hp]; have := neg_le_of_abs_le h; linarith
  · rw [div_le_one hp]; exact (le_abs_self _).trans h

/-- C94, violated for preferred solutions and maximised objectives.  Both objectives are maximised, the two solutions of the population have objective
vectors (10, 0) and (0, 10), the ideal fitness (-10, -10) is the true one, the user prefers the first solution, and there are any number of
reference vectors.  Then every vector in force, the axes apart, is at an angle of at most arcsin 1/40 (1.5 degrees) from the *other* solution, seen from
the ideal point as selection does, and at least arccos 1/40 (88.5 degrees) from the preferred one. -/
theorem c94_preferred_maximised_violated (r : Nat) (hr : 1 ≤ r) :
    ∃ (ev : Row 1 → Vec 2) (v0 : RV 2) (s t : EA (Row 1) (Vec 2) (Vec 2) (List ℝ) (Vec 2) (RV 2) (Vec 2) Unit) (p : Pref (Answer 2))
      (w : RV 2) (front : List (Vec 2)) (preferred other : Vec 2), RV.create 2 r = .ok v0 ∧
      construct (demo93 ev ![-1, -1] ![-10, -10]) demo94Design (fun _ => v0) (fun _ => ![-10, -10]) () true false false false 10 10 0
        (some (.mo, 2, 0)) none (some 2) none = .ok s ∧
      s.calls (demo93 ev ![-1, -1] ![-10, -10]) [.setType (some "Preferred solutions"), .start] = t ∧
      t.pop.objectives = [![10, 0], ![0, 10]] ∧ t.pop.fitness = [preferred, other] ∧ Answers t p .preferred ∧ p.response = .indices [0] ∧
      InForce (demo93 ev ![-1, -1] ![-10, -10]) t (some p) w ∧ EndsWithAxes front w.values ∧ front.length = r + 1 ∧
      ∀ v ∈ front, angleTo v (fun i => other i - (![-10, -10] : Vec 2) i) ≤ Real.arcsin (1 / 40) ∧
        Real.arccos (1 / 40) ≤ angleTo v (fun i => preferred i - (![-10, -10] : Vec 2) i) := by
  obtain ⟨ev, hev⟩ : ∃ ev : Row 1 → Vec 2, ev = fun x => ![10 * (1 - (x 0).getD 0), 10 * (x 0).getD 0] := ⟨_, rfl⟩
  obtain ⟨v0, hv0⟩ : ∃ v0 : RV 2, RV.create 2 r = .ok v0 := ⟨_, create_ok r (by omega) hr⟩
  have e0 : ev (fun _ => some 0) = ![10, 0] := by rw [hev]; funext i; fin_cases i <;> simp
  have e1 : ev (fun _ => some 1) = ![0, 10] := by rw [hev]; funext i; fin_cases i <;> simp
  have hst := demo93_steered ev ![-1, -1] ![-10, -10]
  obtain ⟨s, t, hs, ht, t1, t2, t3, t4, t5, t6, t7⟩ : ∃ s t, construct (demo93 ev ![-1, -1] ![-10, -10]) demo94Design (fun _ => v0) (fun _ => ![-10, -10]) ()
        true false false false 10 10 0 (some (.mo, 2, 0)) none (some 2) none = .ok s ∧
      s.calls (demo93 ev ![-1, -1] ![-10, -10]) [.setType (some "Preferred solutions"), .start] = t ∧ t.cfg.location = some .selection ∧ t.cfg.interact = true ∧
      t.reqId = some 7 ∧ t.itype = some .preferred ∧ s.vec = v0 ∧ t.pop.objectives = [ev (fun _ => some 0), ev (fun _ => some 1)] ∧
      t.pop.fitness = [fun i => ev (fun _ => some 0) i * (![-1, -1] : Vec 2) i, fun i => ev (fun _ => some 1) i * (![-1, -1] : Vec 2) i] :=
    ⟨_, _, rfl, rfl, rfl, rfl, rfl, rfl, rfl, rfl, rfl⟩
  rw [e0, e1] at t6 t7
  have hA : Answers t (⟨7, .preferredSolution, .indices [0]⟩ : Pref (Answer 2)) .preferred := ⟨t1, t2, t3, t4, rfl⟩
  obtain ⟨w, blocks, hf, hax, hb⟩ := c94_preferred_solutions_focus (m := 2) (by omega) r hr v0 hv0 hst s t t5 _ ht _ hA [0] rfl
    (by rw [t6]; simp) (by simp) (by rw [t6]; simp)
  have hl10 : len (![10, 0] : Vec 2) = 10 := by
    rw [len_two, show (10 * 10 + 0 * 0 : ℝ) = 10 ^ 2 by norm_num]; exact Real.sqrt_sq (by norm_num)
  have hl01 : len (![0, 10] : Vec 2) = 10 := by
    rw [len_two, show (0 * 0 + 10 * 10 : ℝ) = 10 ^ 2 by norm_num]; exact Real.sqrt_sq (by norm_num)
  rw [List.forall₂_cons_left_iff] at hb
  obtain ⟨block, bs, ⟨z, hz, hz1, -⟩, hnil, rfl⟩ := hb
  rw [List.forall₂_nil_left_iff] at hnil
  subst hnil
  rw [t6] at hz
  simp only [List.getElem?_cons_zero, Option.some.injEq] at hz
  subst hz
  obtain ⟨hlen, hang⟩ := hz1 (by rw [hl10]; norm_num)
  refine ⟨ev, v0, s, t, _, w, block, _, _, hv0, hs, ht, t6, t7, hA, rfl, hf, by simpa using hax, by rw [hlen]; simp, ?_⟩
  have ho : (fun i => (fun i => (![0, 10] : Vec 2) i * (![-1, -1] : Vec 2) i) i - (![-10, -10] : Vec 2) i) = ![10, 0] := by
    funext i; fin_cases i <;> norm_num
  have hp : (fun i => (fun i => (![10, 0] : Vec 2) i * (![-1, -1] : Vec 2) i) i - (![-10, -10] : Vec 2) i) = ![0, 10] := by
    funext i; fin_cases i <;> norm_num
  rw [ho, hp]
  intro v hv
  obtain ⟨h1, h2⟩ := hang v hv
  rw [hl10, show (1 / (4 * 10) : ℝ) = 1 / 40 by norm_num] at h2
  refine ⟨h2, ?_⟩
  have hcos : Real.sqrt (1 - (1 / 40) ^ 2) ≤ v 0 := by
    have c := Real.cos_le_cos_of_nonneg_of_le_pi (Real.arccos_nonneg _) (by
      rw [Real.arcsin_eq_arccos (by norm_num)]; exact Real.arccos_le_pi _) h2
    rw [Real.cos_arcsin, show Real.cos (Real.arccos _) = Real.cos (angleTo v ![10, 0]) from rfl, cos_angleTo v _ (by rw [h1]; norm_num) (by rw [hl10]; norm_num),
      h1, hl10] at c
    have e : inner v ![10, 0] = v 0 * 10 := by unfold inner; rw [Fin.sum_univ_two]; simp
    rw [e] at c
    calc _ ≤ _ := c
      _ = v 0 := by ring
  have hv2 : v 0 * v 0 + v 1 * v 1 = 1 := by
    have := inner_self v
    rw [h1] at this
    unfold inner at this
    rw [Fin.sum_univ_two] at this
    linarith
  have h0 : 1 - (1 / 40) ^ 2 ≤ v 0 ^ 2 := by
    rw [Real.sqrt_le_left (le_trans (Real.sqrt_nonneg _) hcos)] at hcos
    exact hcos
  have h11 : v 1 ≤ 1 / 40 := by
    refine le_of_abs_le (abs_le_of_sq_le_sq (by nlinarith) (by norm_num))
  unfold angleTo
  refine Real.arccos_le_arccos ?_
  rw [h1, hl01]
  have e : inner v ![0, 10] = v 1 * 10 := by unfold inner; rw [Fin.sum_univ_two]; simp
  rw [e]
  linarith

/-- Non-vacuity of `c94_reference_point_focuses`: reference point (3, 4), ideal (0, 0). -/
example : ∃ (ev : Row 1 → Vec 2) (v0 : RV 2) (s t : EA (Row 1) (Vec 2) (Vec 2) (List ℝ) (Vec 2) (RV 2) (Vec 2) Unit) (p : Pref (Answer 2)),
    RV.create 2 9 = .ok v0 ∧ s.vec = v0 ∧ Steered (demo93 ev ![1, 1] ![0, 0]) ![1, 1] (fun _ => ![0, 0]) (fun _ _ => []) ∧
    s.calls (demo93 ev ![1, 1] ![0, 0]) [.setType (some "Reference point"), .start] = t ∧ Answers t p .refPoint ∧ p.response = .point ![3, 4] ∧
    (∀ i, (![0, 0] : Vec 2) i ≤ (![3, 4] : Vec 2) i * (![1, 1] : Vec 2) i) ∧ ∃ i, (![3, 4] : Vec 2) i * (![1, 1] : Vec 2) i ≠ (![0, 0] : Vec 2) i := by
  obtain ⟨v0, hv0⟩ : ∃ v0 : RV 2, RV.create 2 9 = .ok v0 := ⟨_, create_ok 9 (by omega) (by omega)⟩
  obtain ⟨s, t, hs, ht, t1, t2, t3, t4, t5⟩ : ∃ s t, construct (demo93 (fun _ => ![1, 2]) ![1, 1] ![0, 0]) demo94Design (fun _ => v0) (fun _ => ![0, 0]) ()
        true false false false 10 10 0 (some (.mo, 2, 0)) none (some 2) none = .ok s ∧
      s.calls (demo93 (fun _ => ![1, 2]) ![1, 1] ![0, 0]) [.setType (some "Reference point"), .start] = t ∧ t.cfg.location = some .selection ∧
      t.cfg.interact = true ∧ t.reqId = some 7 ∧ t.itype = some .refPoint ∧ s.vec = v0 :=
    ⟨_, _, rfl, rfl, rfl, rfl, rfl, rfl, rfl⟩
  refine ⟨_, v0, s, t, ⟨7, .referencePoint, .point ![3, 4]⟩, hv0, t5, demo93_steered _ _ _, ht, ⟨t1, t2, t3, t4, rfl⟩, rfl, ?_, 0, by simp⟩
  intro i; fin_cases i <;> simp

/-- Non-vacuity of `c94_non_preferred_removes`: the first of two solutions is named. -/
example : ∃ (ev : Row 1 → Vec 2) (v0 : RV 2) (s t : EA (Row 1) (Vec 2) (Vec 2) (List ℝ) (Vec 2) (RV 2) (Vec 2) Unit) (p : Pref (Answer 2)),
    RV.create 2 9 = .ok v0 ∧ s.vec = v0 ∧ Steered (demo93 ev ![1, 1] ![0, 0]) ![1, 1] (fun _ => ![0, 0]) (fun _ _ => []) ∧
    s.calls (demo93 ev ![1, 1] ![0, 0]) [.setType (some "Non-preferred solutions"), .start] = t ∧ Answers t p .nonPreferred ∧
    p.response = .indices ([0].map (fun (i : Nat) => (i : Int))) ∧ (∀ i ∈ [0], i < t.pop.objectives.length) ∧
    [0].length ≠ t.pop.objectives.length ∧ t.vec.values.length = t.vec.planar.length ∧ (∀ p ∈ t.vec.planar, ∑ i, p i = 1) ∧
    (∀ i ∈ [0], ∀ z, t.pop.objectives[i]? = some z → z ≠ 0) := by
  obtain ⟨v0, hv0⟩ : ∃ v0 : RV 2, RV.create 2 9 = .ok v0 := ⟨_, create_ok 9 (by omega) (by omega)⟩
  obtain ⟨s, t, hs, ht, t1, t2, t3, t4, t5, t6, t7⟩ : ∃ s t, construct (demo93 (fun _ => ![1, 2]) ![1, 1] ![0, 0]) demo94Design (fun _ => v0) (fun _ => ![0, 0]) ()
        true false false false 10 10 0 (some (.mo, 2, 0)) none (some 2) none = .ok s ∧
      s.calls (demo93 (fun _ => ![1, 2]) ![1, 1] ![0, 0]) [.setType (some "Non-preferred solutions"), .start] = t ∧ t.cfg.location = some .selection ∧
      t.cfg.interact = true ∧ t.reqId = some 7 ∧ t.itype = some .nonPreferred ∧ s.vec = v0 ∧ t.vec = v0 ∧ t.pop.objectives = [![1, 2], ![1, 2]] :=
    ⟨_, _, rfl, rfl, rfl, rfl, rfl, rfl, rfl, rfl, rfl⟩
  obtain ⟨c1, c2, c3, c4, -, c6⟩ := create_init (by omega) 9 (by omega) v0 hv0
  refine ⟨_, v0, s, t, ⟨7, .nonPreferredSolution, .indices [0]⟩, hv0, t5, demo93_steered _ _ _, ht, ⟨t1, t2, t3, t4, rfl⟩, rfl, ?_, ?_, ?_, ?_, ?_⟩
  · rw [t7]; simp
  · rw [t7]; simp
  · rw [t6, ← c1, ← c2, c3, c4]
  · rw [t6, ← c2]; exact fun p hp => (c6 p hp).1.2
  · rw [t7]
    simp only [List.mem_singleton, forall_eq, List.getElem?_cons_zero, Option.some.injEq, forall_eq']
    intro e
    simpa using congrFun e 0

end Verif.Props
