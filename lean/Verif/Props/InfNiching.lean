import Verif.Props.InfNsga
import Verif.Props.InfMoead
import Verif.Props.InfNsgaNumbers

/-!
# C116: individuals with an infinite or NaN objective and niching
-/

open Verif Verif.Spec Verif.Proofs
namespace Verif.Props
variable {m : Nat}

theorem xAdd_inf_left (c : EReal) (hc : c = ⊤ ∨ c = ⊥) (a b : XF) (h : a = none ∨ a = some c) : xAdd a b = none ∨ xAdd a b = some c := by
  rcases h with rfl | rfl
  · exact .inl (xAdd_none_left _)
  · cases b with
    | none => exact .inl rfl
    | some b =>
      simp only [xAdd]
      rcases hc with rfl | rfl
      · split
        · exact .inl rfl
        · rename_i h
          exact .inr (by rw [EReal.top_add_of_ne_bot (fun e => h (.inl ⟨rfl, e⟩))])
      · split
        · exact .inl rfl
        · exact .inr (by rw [EReal.bot_add])

theorem xAdd_inf_right (c : EReal) (hc : c = ⊤ ∨ c = ⊥) (a b : XF) (h : b = none ∨ b = some c) : xAdd a b = none ∨ xAdd a b = some c := by
  rcases h with rfl | rfl
  · exact .inl (xAdd_none_right _)
  · cases a with
    | none => exact .inl rfl
    | some a =>
      simp only [xAdd]
      rcases hc with rfl | rfl
      · split
        · exact .inl rfl
        · rename_i h
          exact .inr (by rw [EReal.add_top_of_ne_bot (fun e => h (.inr ⟨e, rfl⟩))])
      · split
        · exact .inl rfl
        · exact .inr (by rw [EReal.add_bot])

theorem foldAdd_inf (c : EReal) (hc : c = ⊤ ∨ c = ⊥) (l : List XF) : ∀ a, ((a = none ∨ a = some c) ∨ some c ∈ l) →
    l.foldl xAdd a = none ∨ l.foldl xAdd a = some c := by
  induction l with
  | nil =>
    intro a h
    rcases h with h | h
    · exact h
    · cases h
  | cons b l ih =>
    intro a h
    rw [List.foldl_cons]
    apply ih
    rcases h with h | h
    · exact .inl (xAdd_inf_left c hc a b h)
    · rcases List.mem_cons.1 h with h | h
      · exact .inl (xAdd_inf_right c hc a b (.inr h.symm))
      · exact .inr h

theorem xSum_inf (c : EReal) (hc : c = ⊤ ∨ c = ⊥) (f : XVec m) (i : Fin m) (h : f i = some c) : xSum f = none ∨ xSum f = some c :=
  foldAdd_inf c hc _ _ (.inr (List.mem_ofFn.2 ⟨i, h⟩))

theorem xDiv_inf (c : EReal) (hc : c = ⊤ ∨ c = ⊥) (x : ℝ) (hx : 0 < x) : xDiv (some c) (some (x : EReal)) = some c := by
  have h0 : (x : EReal) ≠ 0 := by exact_mod_cast hx.ne'
  have hp : (0 : EReal) < (x : EReal) := by exact_mod_cast hx
  simp only [xDiv]
  rw [if_neg h0, if_neg (by rintro ⟨-, h | h⟩; exact EReal.coe_ne_top _ h; exact EReal.coe_ne_bot _ h)]
  rcases hc with rfl | rfl
  · rw [EReal.top_div_of_pos_ne_top hp (EReal.coe_ne_top _)]
  · rw [EReal.bot_div_of_pos_ne_top hp (EReal.coe_ne_top _)]

theorem xMul_inf (c : EReal) (hc : c = ⊤ ∨ c = ⊥) (x : ℝ) (hx : x ≠ 0) :
    ∃ d : EReal, (d = ⊤ ∨ d = ⊥) ∧ xMul (some c) (some (x : EReal)) = some d ∧ xMul (some d) (some (x : EReal)) = some c := by
  have h0 : (x : EReal) ≠ 0 := by exact_mod_cast hx
  have hm : ∀ c : EReal, (c = ⊤ ∨ c = ⊥) → xMul (some c) (some (x : EReal)) = some (c * x) := by
    intro c hc
    simp only [xMul]
    rw [if_neg]
    rintro (⟨h, -⟩ | ⟨-, h⟩)
    · rcases hc with rfl | rfl <;> simp at h
    · exact h0 h
  rcases lt_or_gt_of_ne hx with hn | hp
  · rcases hc with rfl | rfl
    · exact ⟨⊥, .inr rfl, by rw [hm _ (.inl rfl), EReal.top_mul_coe_of_neg hn], by rw [hm _ (.inr rfl), EReal.bot_mul_coe_of_neg hn]⟩
    · exact ⟨⊤, .inl rfl, by rw [hm _ (.inr rfl), EReal.bot_mul_coe_of_neg hn], by rw [hm _ (.inl rfl), EReal.top_mul_coe_of_neg hn]⟩
  · rcases hc with rfl | rfl
    · exact ⟨⊤, .inl rfl, by rw [hm _ (.inl rfl), EReal.top_mul_coe_of_pos hp], by rw [hm _ (.inl rfl), EReal.top_mul_coe_of_pos hp]⟩
    · exact ⟨⊥, .inr rfl, by rw [hm _ (.inr rfl), EReal.bot_mul_coe_of_pos hp], by rw [hm _ (.inr rfl), EReal.bot_mul_coe_of_pos hp]⟩

/-- The perpendicular distance from a row with an infinite or NaN entry is NaN. -/
theorem perp_of_notNumber (v : XVec m) (u : Vec m) (hu : norm2 u ≠ 0) (i : Fin m) (h : NotNumber (v i)) : perpDistX v (asX u) = ⊥ := by
  have hpos : 0 < norm2 u := lt_of_le_of_ne (Real.sqrt_nonneg _) (Ne.symm hu)
  unfold perpDistX
  rw [xNorm_asX, xNorm_none _ i]
  show xSub (xDiv (xMul (xDiv _ _) (some ((u i : ℝ) : EReal))) _) (v i) = none
  have key : ∀ c : EReal, (c = ⊤ ∨ c = ⊥) → v i = some c →
      xSub (xDiv (xMul (xDiv (xSum (fun k => xMul (v k) (asX u k))) (some ((norm2 u : ℝ) : EReal))) (some ((u i : ℝ) : EReal)))
        (some ((norm2 u : ℝ) : EReal))) (v i) = none := by
    intro c hc e
    by_cases h0 : u i = 0
    · have : xSum (fun k => xMul (v k) (asX u k)) = none := by
        apply xSum_none _ i
        rw [e]
        show xMul (some c) (some ((u i : ℝ) : EReal)) = none
        rw [h0]
        simp only [xMul]
        rw [if_pos (.inr ⟨hc, rfl⟩)]
      rw [this, xDiv_none_left, xMul_none_left, xDiv_none_left, xSub_none_left]
    · obtain ⟨d, hd, h1, h2⟩ := xMul_inf c hc (u i) h0
      rcases xSum_inf d hd (fun k => xMul (v k) (asX u k)) i (by rw [e]; exact h1) with hs | hs
      · rw [hs, xDiv_none_left, xMul_none_left, xDiv_none_left, xSub_none_left]
      · rw [hs, xDiv_inf d hd _ hpos, h2, xDiv_inf c hc _ hpos, e]
        simp only [xSub]
        rw [if_pos]
        rcases hc with rfl | rfl
        · exact .inl ⟨rfl, rfl⟩
        · exact .inr ⟨rfl, rfl⟩
  rcases h with h | h | h
  · rw [h, xSub_none_right]
  · exact key ⊤ (.inl rfl) h
  · exact key ⊥ (.inr rfl) h

theorem nicheNormal_notNumber (z nad : Vec m) (f : XVec m) (i : Fin m) (h : NotNumber (f i)) :
    NotNumber (nicheNormalX (asX z) (asX nad) f i) := by
  have e2 : xSub (asX nad i) (asX z i) = some ((nad i - z i : ℝ) : EReal) := xSub_coe _ _
  obtain ⟨x, hx, e⟩ : ∃ x : ℝ, x ≠ 0 ∧ nicheNormalX (asX z) (asX nad) f i = xDiv (xSub (f i) (asX z i)) (some (x : EReal)) := by
    unfold nicheNormalX
    simp only [e2]
    by_cases h0 : nad i - z i = 0
    · exact ⟨1 / 10 ^ 12, by norm_num, by rw [if_pos (by rw [h0]; rfl)]⟩
    · exact ⟨_, h0, by rw [if_neg (by intro h; injection h with h; exact h0 (EReal.coe_eq_coe_iff.1 h))]⟩
  rw [e]
  have hx0 : (x : EReal) ≠ 0 := by exact_mod_cast hx
  have hd : ∀ c : EReal, (c = ⊤ ∨ c = ⊥) → NotNumber (xDiv (some c) (some (x : EReal))) := by
    intro c hc
    simp only [xDiv]
    rw [if_neg hx0, if_neg (by rintro ⟨-, h | h⟩; exact EReal.coe_ne_top _ h; exact EReal.coe_ne_bot _ h)]
    rcases lt_or_gt_of_ne hx with hn | hp
    · have hn' : (x : EReal) < 0 := by exact_mod_cast hn
      rcases hc with rfl | rfl
      · rw [EReal.top_div_of_neg_ne_bot hn' (EReal.coe_ne_bot _)]; exact .inr (.inr rfl)
      · rw [EReal.bot_div_of_neg_ne_bot hn' (EReal.coe_ne_bot _)]; exact .inr (.inl rfl)
    · have hp' : (0 : EReal) < (x : EReal) := by exact_mod_cast hp
      rcases hc with rfl | rfl
      · rw [EReal.top_div_of_pos_ne_top hp' (EReal.coe_ne_top _)]; exact .inr (.inl rfl)
      · rw [EReal.bot_div_of_pos_ne_top hp' (EReal.coe_ne_top _)]; exact .inr (.inr rfl)
  rcases h with h | h | h
  · rw [h, xSub_none_left, xDiv_none_left]; exact .inl rfl
  · rw [h]
    have : xSub (some ⊤) (asX z i) = some ⊤ := by
      show xSub (some ⊤) (some ((z i : ℝ) : EReal)) = _
      simp [xSub]
    rw [this]; exact hd ⊤ (.inl rfl)
  · rw [h]
    have : xSub (some ⊥) (asX z i) = some ⊥ := by
      show xSub (some ⊥) (some ((z i : ℝ) : EReal)) = _
      simp [xSub]
    rw [this]; exact hd ⊥ (.inr rfl)

/-- C116. When the ideal and the nadir point are numbers, an individual with an infinite or NaN objective is assigned to the first reference
vector, with the distance NaN, whatever its other objectives are. -/
theorem c116_infinite_to_first_niche (refDirs : List (Vec m)) (hr : refDirs ≠ []) (hdir : ∀ u ∈ refDirs, u ≠ 0) (z nad : Vec m) (fs : List (XVec m))
    (nd : List (Nat × WithBot EReal)) (h : associateX (refDirs.map asX) (asX z) (asX nad) fs = .ok nd) (j : Nat) (f : XVec m)
    (hj : fs[j]? = some f) (hf : ∃ i, ¬ IsNumber (f i)) : nd[j]? = some (0, ⊥) := by
  obtain ⟨i, hf⟩ := hf
  rw [← notNumber_iff] at hf
  have hnorm : ∀ u ∈ refDirs, norm2 u ≠ 0 := by
    intro u hu h0
    apply hdir u hu
    funext i
    unfold norm2 at h0
    rw [Real.sqrt_eq_zero (Finset.sum_nonneg (fun i _ => by positivity))] at h0
    have := (Finset.sum_eq_zero_iff_of_nonneg (fun i _ => by positivity)).1 h0 i (Finset.mem_univ i)
    simpa using this
  induction fs generalizing nd j with
  | nil => cases hj
  | cons g fs ih =>
    unfold associateX at h
    dsimp only at h
    cases ha : argminL ((refDirs.map asX).map (perpDistX (nicheNormalX (asX z) (asX nad) g))) with
    | error e => rw [ha] at h; cases h
    | ok a =>
      rw [ha] at h
      cases hb : associateX (refDirs.map asX) (asX z) (asX nad) fs with
      | error e => rw [hb] at h; cases h
      | ok as =>
        rw [hb] at h
        injection h with h
        subst h
        cases j with
        | succ j => exact ih as hb j hj
        | zero =>
          injection hj with hj
          subst hj
          obtain ⟨k, hk⟩ : ∃ k, refDirs.length = k + 1 := ⟨refDirs.length - 1, by have := List.length_pos_iff.2 hr; omega⟩
          have e : (refDirs.map asX).map (perpDistX (nicheNormalX (asX z) (asX nad) g)) = List.replicate (k + 1) (⊥ : WithBot EReal) := by
            rw [List.eq_replicate_iff]
            refine ⟨by simp [hk], ?_⟩
            intro x hx
            obtain ⟨u', hu, rfl⟩ := List.mem_map.1 hx
            obtain ⟨u, hu2, rfl⟩ := List.mem_map.1 hu
            exact perp_of_notNumber _ u (hnorm u hu2) i (nicheNormal_notNumber z nad g i hf)
          rw [e] at ha ⊢
          rw [argminL_const] at ha
          injection ha with ha
          subst ha
          simp [List.replicate_succ]

theorem associateX_get (refDirs : List (XVec m)) (z nad : XVec m) (fs : List (XVec m)) (nd : List (Nat × WithBot EReal))
    (h : associateX refDirs z nad fs = .ok nd) (j : Nat) (f : XVec m) (hj : fs[j]? = some f) :
    ∃ p, nd[j]? = some p ∧ associateX refDirs z nad [f] = .ok [p] := by
  induction fs generalizing nd j with
  | nil => cases hj
  | cons g fs ih =>
    unfold associateX at h
    dsimp only at h
    cases ha : argminL (refDirs.map (perpDistX (nicheNormalX z nad g))) with
    | error e => rw [ha] at h; cases h
    | ok a =>
      rw [ha] at h
      cases hb : associateX refDirs z nad fs with
      | error e => rw [hb] at h; cases h
      | ok as =>
        rw [hb] at h
        injection h with h
        subst h
        cases j with
        | succ j => exact ih as hb j hj
        | zero =>
          injection hj with hj
          subst hj
          refine ⟨_, rfl, ?_⟩
          simp only [associateX, ha]

theorem associateX_length' (refDirs : List (XVec m)) (z nad : XVec m) (fs : List (XVec m)) (nd : List (Nat × WithBot EReal))
    (h : associateX refDirs z nad fs = .ok nd) : nd.length = fs.length := by
  induction fs generalizing nd with
  | nil => injection h with h; subst h; rfl
  | cons g fs ih =>
    unfold associateX at h
    dsimp only at h
    cases ha : argminL (refDirs.map (perpDistX (nicheNormalX z nad g))) with
    | error e => rw [ha] at h; cases h
    | ok a =>
      rw [ha] at h
      cases hb : associateX refDirs z nad fs with
      | error e => rw [hb] at h; cases h
      | ok as =>
        rw [hb] at h
        injection h with h
        subst h
        simp [ih as hb]

/-- C116. So infinity in one objective is an advantage there: whenever niching turns to the first reference vector while nobody is assigned
to it, and a member of the last front that is still available has an infinite or NaN objective, then the member taken has one, however near
other members are to the vector. -/
theorem c116_infinite_taken_first (rnd : NicheRand) (hsh : ∀ t l, (rnd.shuffle t l).Perm l) (refDirs : List (Vec m)) (hr : refDirs ≠ [])
    (hdir : ∀ u ∈ refDirs, u ≠ 0) (z nad : Vec m) (last : List (XVec m)) (nd : List (Nat × WithBot EReal))
    (h : associateX (refDirs.map asX) (asX z) (asX nad) last = .ok nd) (t : Nat) (mask : List Bool) (hlen : mask.length = last.length)
    (count : List Nat) (hempty : count.getD 0 0 = 0) (j : Nat)
    (hround : nicheRound rnd t (nd.map (fun p => p.1)) (nd.map (fun p => p.2)) mask count = .ok (j, 0))
    (k : Nat) (f : XVec m) (hk : mask[k]? = some true) (hf : last[k]? = some f) (hinf : ∃ i, ¬ IsNumber (f i)) :
    ∃ g, last[j]? = some g ∧ ∃ i, ¬ IsNumber (g i) := by
  have hl := associateX_length' _ _ _ _ _ h
  obtain ⟨j', next, e, hmj, hnj, -, hmin⟩ := nicheRound_spec rnd hsh t (nd.map (fun p => p.1)) (nd.map (fun p => p.2)) mask count
    (by simp [hlen, hl]) (by simp) ⟨k, hk⟩
  rw [hround] at e
  injection e with e
  injection e with e1 e2
  subst e1
  subst e2
  have hjl : j < last.length := by
    rw [← hlen]
    exact (List.getElem?_eq_some_iff.1 hmj).1
  refine ⟨last[j], List.getElem?_eq_getElem hjl, ?_⟩
  by_contra hno
  have hk0 := c116_infinite_to_first_niche refDirs hr hdir z nad last nd h k f hf hinf
  obtain ⟨p, hp, hone⟩ := associateX_get _ _ _ _ _ h j last[j] (List.getElem?_eq_getElem hjl)
  have hle := hmin hempty k p.2 ⊥ hk (by rw [List.getElem?_map, hk0]; rfl) (by rw [List.getElem?_map, hp]; rfl) (by rw [List.getElem?_map, hk0]; rfl)
  obtain ⟨a, ha⟩ : ∃ a : Vec m, last[j] = asX a := by
    have : ∀ i, ∃ x : ℝ, last[j] i = some (x : EReal) := fun i => by
      by_contra hc
      exact hno ⟨i, hc⟩
    choose a ha using this
    exact ⟨a, funext ha⟩
  have hnorm : ∀ u ∈ refDirs, norm2 u ≠ 0 := by
    intro u hu h0
    apply hdir u hu
    funext i
    unfold norm2 at h0
    rw [Real.sqrt_eq_zero (Finset.sum_nonneg (fun i _ => by positivity))] at h0
    have := (Finset.sum_eq_zero_iff_of_nonneg (fun i _ => by positivity)).1 h0 i (Finset.mem_univ i)
    simpa using this
  rw [ha] at hone
  have hone' := associateX_asX refDirs hnorm z nad [a]
  rw [List.map_singleton, hone] at hone'
  cases hc : associate refDirs z nad [a] with
  | error e => rw [hc] at hone'; cases hone'
  | ok l =>
    rw [hc] at hone'
    injection hone' with hone'
    cases l with
    | nil => cases hone'
    | cons q l =>
      dsimp only at hone'
      rw [List.map_cons] at hone'
      injection hone' with hq _
      rw [hq] at hle
      exact absurd (le_bot_iff.1 hle) WithBot.coe_ne_bot

/-- A number and a failed simulation, one objective, one reference vector: the round turns to that vector and takes the failed one. -/
example : ∃ nd j, associateX ([![(1 : ℝ)]].map asX) (asX ![0]) (asX ![1]) [asX ![0], fun _ => some ⊤] = .ok nd ∧
    nicheRound ⟨fun _ => 0, fun _ l => l⟩ 0 (nd.map (fun p => p.1)) (nd.map (fun p => p.2)) [true, true] [0] = .ok (j, 0) ∧ j = 1 := by
  have hdir : ∀ u ∈ [![(1 : ℝ)]], u ≠ 0 := by
    intro u hu h0
    rw [List.mem_singleton] at hu
    subst hu
    have := congrFun h0 0
    simp at this
  have hinf : ∃ i : Fin 1, ¬ IsNumber ((fun _ => some ⊤ : XVec 1) i) := ⟨0, by
    rintro ⟨x, hx⟩
    injection hx with hx
    exact EReal.coe_ne_top _ hx.symm⟩
  obtain ⟨nd, hnd, -⟩ := associateX_total ([![(1 : ℝ)]].map asX) (asX ![0]) (asX ![1]) [asX ![0], fun _ => some ⊤] (by simp)
  have hl := associateX_length' _ _ _ _ _ hnd
  obtain ⟨j, next, e, hmj, hnj, -⟩ := nicheRound_spec (K := WithBot EReal) ⟨fun _ => 0, fun _ l => l⟩ (fun _ _ => List.Perm.refl _) 0
    (nd.map (fun p => p.1)) (nd.map (fun p => p.2)) [true, true] [0] (by simp [hl]) (by simp) ⟨0, rfl⟩
  have hnext : next = 0 := by
    rw [List.getElem?_map] at hnj
    have hjl : j < 2 := (List.getElem?_eq_some_iff.1 hmj).1
    obtain ⟨p, hp, hone⟩ := associateX_get _ _ _ _ _ hnd j _ (List.getElem?_eq_getElem (by simpa using hjl))
    rw [hp] at hnj
    injection hnj with hnj
    rw [← hnj]
    simp only [associateX, List.map_cons, List.map_nil] at hone
    injection hone with hone
    injection hone with hone _
    exact (congrArg Prod.fst hone).symm
  subst hnext
  refine ⟨nd, j, hnd, e, ?_⟩
  obtain ⟨g, hg, i, hgi⟩ := c116_infinite_taken_first ⟨fun _ => 0, fun _ l => l⟩ (fun _ _ => List.Perm.refl _) _ (by simp) hdir ![0] ![1] _ nd hnd 0
    [true, true] rfl [0] rfl j e 1 _ rfl rfl hinf
  have hjl : j < 2 := (List.getElem?_eq_some_iff.1 hmj).1
  obtain rfl | rfl : j = 0 ∨ j = 1 := by omega
  · injection hg with hg
    subst hg
    exact absurd ⟨_, rfl⟩ hgi
  · rfl

end Verif.Props
