import Mathlib.Tactic.Linarith
import Mathlib.Tactic.NormNum
import Verif.Model.IOPIS
import Verif.Spec.IOPIS

/-!
# C52: the IOPIS problem keeps the best value seen; its preference protocol
-/

namespace Verif.Props
open Verif Verif.Spec

variable {m k : Nat} {P R : Type}

theorem foldl_min_spec {n : Nat} (rows : List (Vec n)) (i : Fin n) (a : ℝ) :
    (rows.foldl (fun acc r => min acc (r i)) a ∈ a :: rows.map (fun r => r i)) ∧
      ∀ x ∈ a :: rows.map (fun r => r i), rows.foldl (fun acc r => min acc (r i)) a ≤ x := by
  induction rows generalizing a with
  | nil => simp
  | cons r rs ih =>
    obtain ⟨h1, h2⟩ := ih (min a (r i))
    simp only [List.foldl_cons, List.map_cons]
    constructor
    · rcases List.mem_cons.1 h1 with h | h
      · rw [h]
        rcases min_choice a (r i) with h' | h' <;> rw [h'] <;> simp
      · exact List.mem_cons_of_mem _ (List.mem_cons_of_mem _ h)
    · intro x hx
      rcases List.mem_cons.1 hx with rfl | hx
      · exact le_trans (h2 _ List.mem_cons_self) (min_le_left _ _)
      · rcases List.mem_cons.1 hx with rfl | hx
        · exact le_trans (h2 _ List.mem_cons_self) (min_le_right _ _)
        · exact h2 x (List.mem_cons_of_mem _ hx)

/-- C52: after a re-evaluation the ideal is, objective by objective, the best of the old ideal and the vectors given. -/
theorem c52_ideal_best (po : PISOps m k P R) (s : IOPISProb m k P) (maximise : Fin m → Bool)
    (hm : Multipliers maximise s.mult) (objs : List (Vec m)) (i : Fin m) :
    IsBest (maximise i) (s.ideal i :: objs.map (fun o => o i)) ((s.reevaluate po objs).2.ideal i) := by
  have hmi := hm i
  obtain ⟨h1, h2⟩ := foldl_min_spec (objs.map (fun o => times o s.mult)) i (times s.ideal s.mult i)
  have he : (s.reevaluate po objs).2.ideal i =
      (objs.map (fun o => times o s.mult)).foldl (fun acc r => min acc (r i)) (times s.ideal s.mult i) * s.mult i := rfl
  rw [he]
  generalize (objs.map (fun o => times o s.mult)).foldl (fun acc r => min acc (r i)) (times s.ideal s.mult i) = b at h1 h2
  have hsq : s.mult i * s.mult i = 1 := by rw [hmi]; split <;> norm_num
  have hlist : times s.ideal s.mult i :: (objs.map (fun o => times o s.mult)).map (fun r => r i) =
      (s.ideal i :: objs.map (fun o => o i)).map (fun x => x * s.mult i) := by
    simp [times, Function.comp_def]
  rw [hlist] at h1 h2
  constructor
  · obtain ⟨x, hx, rfl⟩ := List.mem_map.1 h1
    rw [mul_assoc, hsq, mul_one]
    exact hx
  · intro x hx
    have := h2 _ (List.mem_map.2 ⟨x, hx, rfl⟩)
    rw [hmi] at this ⊢
    cases hmx : maximise i <;> simp [hmx] at this ⊢ <;> linarith

/-- C52: a re-evaluation never makes the ideal worse, and no given vector is better than it in any objective. -/
theorem c52_never_worse (po : PISOps m k P R) (s : IOPISProb m k P) (hm : ∀ i, s.mult i = 1 ∨ s.mult i = -1)
    (objs : List (Vec m)) (i : Fin m) :
    s.mult i * (s.reevaluate po objs).2.ideal i ≤ s.mult i * s.ideal i ∧
      ∀ o ∈ objs, s.mult i * (s.reevaluate po objs).2.ideal i ≤ s.mult i * o i := by
  have hmul : Multipliers (fun i => decide (s.mult i = -1)) s.mult := by
    intro j
    rcases hm j with h | h
    · have h' : ¬ ((1 : ℝ) = -1) := by norm_num
      simp [h, h']
    · simp [h]
  obtain ⟨-, h2⟩ := c52_ideal_best po s _ hmul objs i
  have key : ∀ x ∈ s.ideal i :: objs.map (fun o => o i), s.mult i * (s.reevaluate po objs).2.ideal i ≤ s.mult i * x := by
    intro x hx
    have := h2 x hx
    rcases hm i with h | h
    · rw [h] at this ⊢
      have h' : ¬ ((1 : ℝ) = -1) := by norm_num
      simp [h'] at this
      linarith
    · rw [h] at this ⊢
      simp at this
      linarith
  exact ⟨key _ List.mem_cons_self, fun o ho => key _ (List.mem_cons_of_mem _ (List.mem_map.2 ⟨o, ho, rfl⟩))⟩

/-- All objective vectors given to re-evaluations in a history. -/
def givenVectors : List (IOPISCall m R) → List (Vec m)
  | [] => []
  | .reevaluate objs :: cs => objs ++ givenVectors cs
  | .manage _ _ _ _ :: cs => givenVectors cs
  | .updatePref _ :: cs => givenVectors cs

theorem manage_keeps (po : PISOps m k P R) (s : IOPISProb m k P) (a b c : Vec m) (p : PrefObj R) :
    (s.manage po a b c p).2.ideal = s.ideal ∧ (s.manage po a b c p).2.mult = s.mult ∧
      (s.manage po a b c p).2.nadir = s.nadir ∧ (s.manage po a b c p).2.type = s.type ∧
      (s.manage po a b c p).2.idealFit = s.idealFit ∧ (s.manage po a b c p).2.nadirFit = s.nadirFit := by
  unfold IOPISProb.manage
  split <;> simp

theorem call_keeps (po : PISOps m k P R) (s : IOPISProb m k P) (c : IOPISCall m R) :
    (s.call po c).mult = s.mult ∧ (s.call po c).nadir = s.nadir ∧ (s.call po c).type = s.type := by
  cases c with
  | reevaluate objs => exact ⟨rfl, rfl, rfl⟩
  | manage a b c p => obtain ⟨-, h1, h2, h3, -⟩ := manage_keeps po s a b c p; exact ⟨h1, h2, h3⟩
  | updatePref r => exact ⟨rfl, rfl, rfl⟩

/-- C52 over any history of re-evaluations and preference updates: the ideal is the best of the initial ideal and all vectors
ever given; the nadir, the multipliers and the type of preference never change. -/
theorem c52_history (po : PISOps m k P R) (s : IOPISProb m k P) (maximise : Fin m → Bool)
    (hm : Multipliers maximise s.mult) (cs : List (IOPISCall m R)) (i : Fin m) :
    IsBest (maximise i) (s.ideal i :: (givenVectors cs).map (fun o => o i)) ((s.calls po cs).ideal i) ∧
      (s.calls po cs).nadir = s.nadir ∧ (s.calls po cs).mult = s.mult ∧ (s.calls po cs).type = s.type := by
  induction cs generalizing s with
  | nil =>
    refine ⟨⟨by simp [givenVectors, IOPISProb.calls], ?_⟩, rfl, rfl, rfl⟩
    intro x hx
    simp only [givenVectors, List.map_nil, List.mem_singleton] at hx
    subst hx
    show if maximise i then s.ideal i ≤ s.ideal i else s.ideal i ≤ s.ideal i
    split <;> exact le_refl _
  | cons c cs ih =>
    obtain ⟨k1, k2, k3⟩ := call_keeps po s c
    obtain ⟨⟨h1, h2⟩, h3, h4, h5⟩ := ih (s.call po c) (by rw [k1]; exact hm)
    have hc : s.calls po (c :: cs) = (s.call po c).calls po cs := rfl
    rw [hc]
    refine ⟨?_, h3.trans k2, h4.trans k1, h5.trans k3⟩
    generalize ((s.call po c).calls po cs).ideal i = b at h1 h2
    have hsame : ∀ (c' : IOPISCall m R), (s.call po c').ideal = s.ideal → givenVectors (c' :: cs) = givenVectors cs →
        c = c' → IsBest (maximise i) (s.ideal i :: (givenVectors (c :: cs)).map (fun o => o i)) b := by
      intro c' e1 e2 e3
      subst e3
      rw [e2, ← e1]
      exact ⟨h1, h2⟩
    cases c with
    | manage a b' c' p => exact hsame (.manage a b' c' p) (manage_keeps po s a b' c' p).1 rfl rfl
    | updatePref r => exact hsame (.updatePref r) rfl rfl rfl
    | reevaluate objs =>
      obtain ⟨g1, g2⟩ := c52_ideal_best po s maximise hm objs i
      have hid : (s.call po (.reevaluate objs)).ideal i = (s.reevaluate po objs).2.ideal i := rfl
      rw [hid] at h1 h2
      have hl : (givenVectors (.reevaluate objs :: cs)).map (fun o => o i) =
          objs.map (fun o => o i) ++ (givenVectors cs).map (fun o => o i) := by simp [givenVectors]
      rw [hl]
      constructor
      · rcases List.mem_cons.1 h1 with h | h
        · rw [h]
          rcases List.mem_cons.1 g1 with h' | h'
          · rw [h']; exact List.mem_cons_self
          · exact List.mem_cons_of_mem _ (List.mem_append_left _ h')
        · exact List.mem_cons_of_mem _ (List.mem_append_right _ h)
      · intro x hx
        have hb := h2 _ List.mem_cons_self
        have htr : ∀ y, (if maximise i then y ≤ (s.reevaluate po objs).2.ideal i else (s.reevaluate po objs).2.ideal i ≤ y) →
            if maximise i then y ≤ b else b ≤ y := by
          intro y hy
          cases hmx : maximise i <;> simp [hmx] at hb hy ⊢ <;> linarith
        rcases List.mem_cons.1 hx with rfl | hx
        · exact htr _ (g2 _ List.mem_cons_self)
        · rcases List.mem_append.1 hx with hx | hx
          · exact htr _ (g2 _ (List.mem_cons_of_mem _ hx))
          · exact h2 x (List.mem_cons_of_mem _ hx)

/-- C52: `reevaluate_fitness` returns one fitness row per vector, computed from the map as it was before the call; the ideal
fitness afterwards is the least, component by component, of those rows and the fitness of the old ideal. -/
theorem c52_ideal_fitness (po : PISOps m k P R) (s : IOPISProb m k P) (objs : List (Vec m)) (j : Fin k) :
    (s.reevaluate po objs).1 = objs.map (fun o => po.apply s.pis (fun i => o i * s.mult i)) ∧
      IsBest false (po.apply s.pis (fun i => s.ideal i * s.mult i) j :: (s.reevaluate po objs).1.map (fun f => f j))
        ((s.reevaluate po objs).2.idealFit j) := by
  refine ⟨rfl, ?_⟩
  obtain ⟨h1, h2⟩ := foldl_min_spec (s.reevaluate po objs).1 j (po.apply s.pis (fun i => s.ideal i * s.mult i) j)
  exact ⟨h1, fun x hx => h2 x hx⟩

/-- C52: after a re-evaluation the map is the one built from the new ideal and the nadir. -/
theorem c52_map_updated (po : PISOps m k P R) (s : IOPISProb m k P) (objs : List (Vec m)) :
    (s.reevaluate po objs).2.pis = po.updateMap s.pis (fun i => (s.reevaluate po objs).2.ideal i * s.mult i)
      (fun i => s.nadir i * s.mult i) := rfl

/-- One objective, minimised; the fitness is the distance from the utopian point stored in the map. -/
noncomputable def demoPIS : PISOps 1 1 (Vec 1) Unit := ⟨fun u v => fun i => v i - u i, fun _ u _ => u, fun u _ => u⟩

noncomputable def demoIOPIS : IOPISProb 1 1 (Vec 1) :=
  ⟨.iopis, fun _ => 1, fun _ => 0, fun _ => 10, fun _ => 0, fun _ => 0, fun _ => 10⟩

/-- C52: the fitness returned by a re-evaluation is stale as soon as the ideal improves: evaluating the same vector right
after gives another fitness (0 instead of -2), and the ideal fitness kept (-2) is not the fitness of the ideal (0). -/
theorem c52_stale_fitness : (demoIOPIS.reevaluate demoPIS [fun _ => -2]).1 = [fun _ => -2] ∧
    (demoIOPIS.reevaluate demoPIS [fun _ => -2]).2.evaluateFitness demoPIS [fun _ => -2] = [fun _ => 0] ∧
    (demoIOPIS.reevaluate demoPIS [fun _ => -2]).2.idealFit = fun _ => -2 := by
  refine ⟨?_, ?_, ?_⟩
  · simp [IOPISProb.reevaluate, IOPISProb.evaluateFitness, demoIOPIS, demoPIS, times]
  · simp [IOPISProb.reevaluate, IOPISProb.evaluateFitness, IOPISProb.updateIdeal, demoIOPIS, demoPIS, times, aminWith]
  · funext i
    simp [IOPISProb.reevaluate, IOPISProb.evaluateFitness, IOPISProb.updateIdeal, demoIOPIS, demoPIS, times, aminWith]

/-- The hypotheses of `c52_history` are met by a history with two re-evaluations and a preference. -/
example : Multipliers (fun _ => false) demoIOPIS.mult ∧
    givenVectors (R := Unit) (m := 1) [.reevaluate [fun _ => 3], .manage (fun _ => 0) (fun _ => 1) (fun _ => 1) (.dict ()),
      .reevaluate [fun _ => -2]] = [fun _ => 3, fun _ => -2] := by
  refine ⟨fun i => by simp [demoIOPIS], rfl⟩

/-! ## Preferences -/

/-- C61: a preference of the wrong class raises TypeError and changes nothing; for classification every preference does. -/
theorem c61_wrong_preference (po : PISOps m k P R) (s : IOPISProb m k P) (a b c : Vec m) (p : PrefObj R)
    (h : (s.type = .iopis ∧ ∀ r, p ≠ .dict r) ∨ (s.type = .multiDM ∧ ∀ r, p ≠ .list r) ∨ s.type = .classification) :
    s.manage po a b c p = (.error .typeError, s) := by
  unfold IOPISProb.manage
  split
  · rename_i r h1
    rcases h with ⟨-, h2⟩ | ⟨h2, -⟩ | h2
    · exact absurd rfl (h2 r)
    · rw [h1] at h2; simp at h2
    · rw [h1] at h2; simp at h2
  · rename_i r h1
    rcases h with ⟨h2, -⟩ | ⟨-, h2⟩ | h2
    · rw [h1] at h2; simp at h2
    · exact absurd rfl (h2 r)
    · rw [h1] at h2; simp at h2
  · rfl

/-- C61: an accepted preference rebuilds the map from the population's ideal and nadir in minimisation form and then gives it
the preference; ideal, nadir and recorded fitnesses are untouched. -/
theorem c61_accepted (po : PISOps m k P R) (s : IOPISProb m k P) (a b c : Vec m) (p : PrefObj R) (r : R)
    (h : (s.type = .iopis ∧ p = .dict r) ∨ (s.type = .multiDM ∧ p = .list r)) :
    s.manage po a b c p = (.ok (), { s with
      pis := po.updatePref (po.updateMap s.pis (fun i => a i * c i) (fun i => b i * c i)) r }) := by
  unfold IOPISProb.manage
  rcases h with ⟨h1, rfl⟩ | ⟨h1, rfl⟩ <;> rw [h1] <;> rfl

/-- C61: construction raises ValueError exactly for a `PIS_type` other than the three allowed names. -/
theorem c61_constructor (po : PISOps m k P R) (make : PISType → Vec m → Vec m → P) (typ : String) (mult ideal nadir : Vec m)
    (pref : R) :
    (typ ∉ ["MultiDM", "Classification", "IOPIS"] ↔ IOPISProb.init po make typ mult ideal nadir pref = .error .valueError) ∧
    (typ ∈ ["MultiDM", "Classification", "IOPIS"] → ∃ s, IOPISProb.init po make typ mult ideal nadir pref = .ok s ∧
      s.ideal = ideal ∧ s.nadir = nadir ∧ s.mult = mult ∧
      s.idealFit = po.apply s.pis (fun i => ideal i * mult i) ∧ s.nadirFit = po.apply s.pis (fun i => nadir i * mult i)) := by
  have hcases : (typ ∉ ["MultiDM", "Classification", "IOPIS"] ∧ PISType.parse typ = none) ∨
      (typ ∈ ["MultiDM", "Classification", "IOPIS"] ∧ ∃ t, PISType.parse typ = some t) := by
    by_cases h1 : typ = "IOPIS"
    · exact Or.inr ⟨by simp [h1], .iopis, by simp [PISType.parse, h1]⟩
    · by_cases h2 : typ = "Classification"
      · exact Or.inr ⟨by simp [h2], .classification, by simp [PISType.parse, h2]⟩
      · by_cases h3 : typ = "MultiDM"
        · exact Or.inr ⟨by simp [h3], .multiDM, by simp [PISType.parse, h3]⟩
        · exact Or.inl ⟨by simp [h1, h2, h3], by simp [PISType.parse, h1, h2, h3]⟩
  rcases hcases with ⟨h1, h2⟩ | ⟨h1, t, h2⟩
  · refine ⟨⟨fun _ => by unfold IOPISProb.init; rw [h2], fun _ => h1⟩, fun h => absurd h h1⟩
  · refine ⟨⟨fun h => absurd h1 h, fun h => ?_⟩, fun _ => ?_⟩
    · unfold IOPISProb.init at h
      rw [h2] at h
      simp at h
    · unfold IOPISProb.init
      rw [h2]
      exact ⟨_, rfl, rfl, rfl, rfl, rfl, rfl⟩

/-- The preference given last in a history: by `update_preference`, or by `manage_preferences` with an object of the class the type of
problem takes (a dict for IOPIS, a list for MultiDM); `r0` if there is none. -/
def lastPreference (t : PISType) (r0 : R) : List (IOPISCall m R) → R
  | [] => r0
  | .updatePref r :: cs => lastPreference t r cs
  | .manage _ _ _ (.dict r) :: cs => lastPreference t (if t = .iopis then r else r0) cs
  | .manage _ _ _ (.list r) :: cs => lastPreference t (if t = .multiDM then r else r0) cs
  | .manage _ _ _ .other :: cs => lastPreference t r0 cs
  | .reevaluate _ :: cs => lastPreference t r0 cs

/-- C61 over any history of re-evaluations, preferences and rejected preferences: the fitness is computed under the preference accepted
last.  `prefOf` reads the preference a PIS works with; setting one makes it that, and moving utopian and nadir does not touch it. -/
theorem c61_latest_preference_in_force (po : PISOps m k P R) (prefOf : P → R) (hset : ∀ p r, prefOf (po.updatePref p r) = r)
    (hmap : ∀ p a b, prefOf (po.updateMap p a b) = prefOf p) (s : IOPISProb m k P) (cs : List (IOPISCall m R)) :
    prefOf (s.calls po cs).pis = lastPreference s.type (prefOf s.pis) cs := by
  induction cs generalizing s with
  | nil => rfl
  | cons c cs ih =>
    have h1 : s.calls po (c :: cs) = (s.call po c).calls po cs := rfl
    rw [h1, ih, (call_keeps po s c).2.2]
    cases c with
    | reevaluate objs =>
      have : prefOf (s.call po (.reevaluate objs)).pis = prefOf s.pis := hmap _ _ _
      rw [this]
      rfl
    | updatePref r =>
      have : prefOf (s.call po (.updatePref r)).pis = r := hset _ _
      rw [this]
      rfl
    | manage a b c p =>
      have hc : s.call po (.manage a b c p) = (s.manage po a b c p).2 := rfl
      rw [hc]
      unfold IOPISProb.manage
      cases p with
      | dict r => cases ht : s.type <;> simp [lastPreference, hset, ht]
      | list r => cases ht : s.type <;> simp [lastPreference, hset, ht]
      | other => cases ht : s.type <;> simp [lastPreference, ht]

/-- A PIS that is a preference and a utopian point meets the hypotheses; a rejected list and a re-evaluation after the second preference
leave it in force. -/
example : ∃ (po : PISOps 1 1 (ℕ × Vec 1) ℕ) (prefOf : ℕ × Vec 1 → ℕ), (∀ p r, prefOf (po.updatePref p r) = r) ∧
    (∀ p a b, prefOf (po.updateMap p a b) = prefOf p) ∧
    lastPreference (m := 1) .iopis 0 [.updatePref 3, .manage (fun _ => 0) (fun _ => 1) (fun _ => 1) (.dict 5), .reevaluate [],
      .manage (fun _ => 0) (fun _ => 1) (fun _ => 1) (.list 7)] = 5 :=
  ⟨⟨fun p v => fun i => v i - p.2 i, fun p u _ => (p.1, u), fun p r => (r, p.2)⟩, Prod.fst, fun _ _ => rfl, fun _ _ _ => rfl, rfl⟩

/-- Both kinds of outcome occur. -/
example : (demoIOPIS.manage demoPIS (fun _ => 0) (fun _ => 1) (fun _ => 1) (.list ())).1 = .error .typeError ∧
    (demoIOPIS.manage demoPIS (fun _ => 0) (fun _ => 1) (fun _ => 1) (.dict ())).1 = .ok () := ⟨rfl, rfl⟩

end Verif.Props
