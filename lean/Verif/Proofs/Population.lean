import Verif.Model.Population
import Verif.Proofs.Numpy
import Verif.Spec.Population

/-! # Refinement lemmas for the population -/

namespace Verif
open Spec

variable {X O F C U : Type}

theorem Represents_length {p : Pop X O F C U} {rs} (h : Represents p rs) {inds}
    (hi : p.individuals = some inds) : inds.length = rs.length := by
  rcases h.inds with h | ⟨h, _⟩
  · rw [hi] at h; simp only [Option.some.injEq] at h; simp [h]
  · rw [hi] at h; cases h

theorem boolIndex_map {α β : Type} (rs : List α) (f : α → β) (m : List Bool) (g : Nat → Bool)
    (hl : m.length = rs.length) (h : ∀ k, k < rs.length → m[k]? = some (g k)) :
    boolIndex m (rs.map f) = .ok ((rowsAt g rs).map f) := by
  rw [← rowsAt_map]
  exact boolIndex_ok _ _ _ (by simpa using hl) (by simpa using h)

theorem boolIndex_some {α β : Type} (rs : List α) (cs : List β) (f : α → Option β) (m : List Bool)
    (g : Nat → Bool) (hc : cs.map some = rs.map f)
    (hl : m.length = rs.length) (h : ∀ k, k < rs.length → m[k]? = some (g k)) :
    boolIndex m cs = .ok (rowsAt g cs) ∧ (rowsAt g cs).map some = (rowsAt g rs).map f := by
  have hlen : cs.length = rs.length := by simpa using congrArg List.length hc
  refine ⟨boolIndex_ok _ _ _ (by omega) (by simpa [hlen] using h), ?_⟩
  rw [← rowsAt_map, ← rowsAt_map, hc]

theorem maskColumns_spec {p p' : Pop X O F C U} {rs} (h : Represents p rs) (m : List Bool) (g : Nat → Bool)
    (hl : m.length = rs.length) (hg : ∀ k, k < rs.length → m[k]? = some (g k))
    (hne : p.individuals ≠ none)
    (hi : p'.individuals = some ((rowsAt g rs).map Rec.x) ∨ (p'.individuals = none ∧ rowsAt g rs = []))
    (ho : p'.objectives = p.objectives) (hf : p'.fitness = p.fitness)
    (hc : p'.constraint = p.constraint) (hu : p'.uncertainity = p.uncertainity)
    (hn : p'.nCons = p.nCons) :
    (p'.maskColumns m).1 = .ok () ∧ Represents (p'.maskColumns m).2 (rowsAt g rs) ∧
      (p'.maskColumns m).2.nCons = p.nCons ∧ (p'.maskColumns m).2.ndim = p'.ndim ∧
      (p'.maskColumns m).2.individuals = p'.individuals ∧
      ((p'.maskColumns m).2.uncertainity = none ↔ p.uncertainity = none) := by
  have h1 := boolIndex_map rs Rec.o m g hl hg
  have h2 := boolIndex_map rs Rec.f m g hl hg
  unfold Pop.maskColumns
  rw [ho, h.objs, h1]
  simp only [hf, h.fits, h2, hu, hn]
  cases hun : p.uncertainity with
  | none =>
    by_cases hnc : p.nCons = 0
    · simp only [hnc, gt_iff_lt, Nat.lt_irrefl, if_false]
      refine ⟨trivial, ⟨?_, rfl, rfl, ?_, ?_, ?_⟩, ?_, by trivial, by trivial, ?_⟩
      · exact hi
      · intro _ hh; exact absurd (by simp) hh
      · intro _; rw [← h.nocons hnc]; exact hc
      · intro us hus; simp at hus
      · simp
      · simp
    · obtain ⟨cs, hcs, hcm⟩ := h.cons hne hnc
      obtain ⟨h3, h4⟩ := boolIndex_some rs cs Rec.c m g hcm hl hg
      have : 0 < p.nCons := Nat.pos_of_ne_zero hnc
      simp only [gt_iff_lt, this, if_true, hc, hcs, h3]
      refine ⟨trivial, ⟨?_, rfl, rfl, ?_, ?_, ?_⟩, ?_, by trivial, by trivial, ?_⟩
      · exact hi
      · intro _ _; exact ⟨_, rfl, h4⟩
      · intro hh; exact absurd (by simpa [hn] using hh) hnc
      · intro us hus; simp at hus
      · simp
      · simp
  | some us =>
    obtain ⟨h5, h6⟩ := boolIndex_some rs us Rec.u m g (h.unc us hun) hl hg
    simp only [h5]
    by_cases hnc : p.nCons = 0
    · simp only [hnc, gt_iff_lt, Nat.lt_irrefl, if_false]
      refine ⟨trivial, ⟨?_, rfl, rfl, ?_, ?_, ?_⟩, ?_, by trivial, by trivial, ?_⟩
      · exact hi
      · intro _ hh; exact absurd (by simp) hh
      · intro _; rw [← h.nocons hnc]; exact hc
      · intro us' hus; simp at hus; rw [← hus]; exact h6
      · simp
      · simp
    · obtain ⟨cs, hcs, hcm⟩ := h.cons hne hnc
      obtain ⟨h3, h4⟩ := boolIndex_some rs cs Rec.c m g hcm hl hg
      have : 0 < p.nCons := Nat.pos_of_ne_zero hnc
      simp only [gt_iff_lt, this, if_true, hc, hcs, h3]
      refine ⟨trivial, ⟨?_, rfl, rfl, ?_, ?_, ?_⟩, ?_, by trivial, by trivial, ?_⟩
      · exact hi
      · intro _ _; exact ⟨_, rfl, h4⟩
      · intro hh; exact absurd (by simpa [hn] using hh) hnc
      · intro us' hus; simp at hus; rw [← hus]; exact h6
      · simp
      · simp

/-- `keep` with all indices in range. -/
theorem keep_ok {p : Pop X O F C U} {rs} (h : Represents p rs) (hne : p.individuals ≠ none)
    (idx : List Int) (hr : inRange rs.length idx = true) :
    (p.keep idx).1 = .ok () ∧ Represents (p.keep idx).2 (rowsAt (names rs.length idx) rs) ∧
      (p.keep idx).2.nCons = p.nCons ∧ (p.keep idx).2.ndim = p.ndim ∧
      (p.keep idx).2.individuals ≠ none ∧
      ((p.keep idx).2.uncertainity = none ↔ p.uncertainity = none) := by
  cases hi : p.individuals with
  | none => exact absurd hi hne
  | some inds =>
    have hlen := Represents_length h hi
    have hinds : inds = rs.map Rec.x := by
      rcases h.inds with hh | ⟨hh, _⟩
      · rw [hi] at hh; simpa using hh
      · rw [hi] at hh; cases hh
    obtain ⟨ks, hks⟩ := (resolve_ok_iff (n := rs.length) (idx := idx)).2 hr
    have hml : (setMask (List.replicate rs.length false) ks true).length = rs.length := by
      simp [setMask_length]
    have hmg := fun k hk => keepMask_get hks k hk
    have hb := boolIndex_map rs Rec.x _ (names rs.length idx) hml hmg
    unfold Pop.keep
    rw [hi]
    simp only [hlen, hks]
    rw [hinds, hb]
    have := maskColumns_spec (p' := { p with individuals := some ((rowsAt (names rs.length idx) rs).map Rec.x) })
      h _ (names rs.length idx) hml hmg hne (Or.inl rfl) rfl rfl rfl rfl rfl
    refine ⟨this.1, this.2.1, this.2.2.1, this.2.2.2.1, ?_, this.2.2.2.2.2⟩
    rw [this.2.2.2.2.1]; simp

theorem keep_error {p : Pop X O F C U} {rs} (h : Represents p rs) (idx : List Int)
    (hr : p.individuals = none ∨ inRange rs.length idx = false) :
    p.keep idx = (.error (if p.individuals = none then .attributeError else .indexError), p) := by
  unfold Pop.keep
  cases hi : p.individuals with
  | none => rfl
  | some inds =>
    have hlen := Represents_length h hi
    rcases hr with hr | hr
    · rw [hi] at hr; cases hr
    · simp [hlen, resolve_error hr]

theorem delete_ok {p : Pop X O F C U} {rs} (h : Represents p rs) (hne : p.individuals ≠ none)
    (idx : List Int) (hr : inRange rs.length idx = true) :
    (p.delete idx).1 = .ok () ∧ Represents (p.delete idx).2 (rowsAt (fun k => !names rs.length idx k) rs) ∧
      (p.delete idx).2.nCons = p.nCons ∧ (p.delete idx).2.ndim = p.ndim ∧
      ((p.delete idx).2.individuals = none ↔ rowsAt (fun k => !names rs.length idx k) rs = []) ∧
      ((p.delete idx).2.uncertainity = none ↔ p.uncertainity = none) := by
  cases hi : p.individuals with
  | none => exact absurd hi hne
  | some inds =>
    have hlen := Represents_length h hi
    have hinds : inds = rs.map Rec.x := by
      rcases h.inds with hh | ⟨hh, _⟩
      · rw [hi] at hh; simpa using hh
      · rw [hi] at hh; cases hh
    obtain ⟨ks, hks⟩ := (resolve_ok_iff (n := rs.length) (idx := idx)).2 hr
    have hml : (setMask (List.replicate rs.length true) ks false).length = rs.length := by
      simp [setMask_length]
    have hmg := fun k hk => deleteMask_get hks k hk
    have hb := boolIndex_map rs Rec.x _ (fun k => !names rs.length idx k) hml hmg
    unfold Pop.delete
    rw [hi]
    simp only [hlen, hks]
    rw [hinds, hb]
    simp only []
    have := maskColumns_spec (p' := { p with individuals :=
        (if ((rowsAt (fun k => !names rs.length idx k) rs).map Rec.x).length = 0 then none
        else some ((rowsAt (fun k => !names rs.length idx k) rs).map Rec.x)) })
      h _ (fun k => !names rs.length idx k) hml hmg hne (by
        simp only [List.length_map]
        split
        · right; exact ⟨rfl, List.length_eq_zero_iff.1 (by assumption)⟩
        · left; rfl) rfl rfl rfl rfl rfl
    refine ⟨this.1, this.2.1, this.2.2.1, this.2.2.2.1, ?_, this.2.2.2.2.2⟩
    rw [this.2.2.2.2.1]
    simp only [List.length_map]
    split
    · simp_all
    · simp_all

theorem delete_error {p : Pop X O F C U} {rs} (h : Represents p rs) (idx : List Int)
    (hr : p.individuals = none ∨ inRange rs.length idx = false) :
    p.delete idx = (.error (if p.individuals = none then .attributeError else .indexError), p) := by
  unfold Pop.delete
  cases hi : p.individuals with
  | none => rfl
  | some inds =>
    have hlen := Represents_length h hi
    rcases hr with hr | hr
    · rw [hi] at hr; cases hr
    · simp [hlen, resolve_error hr]


theorem zip5_proj (xs : List X) (os : List O) (fs : List F) (cs : List (Option C)) (us : List (Option U))
    (ho : os.length = xs.length) (hf : fs.length = xs.length) (hc : cs.length = xs.length)
    (hu : us.length = xs.length) :
    let l := (xs.zip (os.zip (fs.zip (cs.zip us)))).map
      (fun t => (⟨t.1, t.2.1, t.2.2.1, t.2.2.2.1, t.2.2.2.2⟩ : Rec X O F C U))
    l.map Rec.x = xs ∧ l.map Rec.o = os ∧ l.map Rec.f = fs ∧ l.map Rec.c = cs ∧ l.map Rec.u = us := by
  have l4 : (cs.zip us).length = xs.length := by simp [hc, hu]
  have l3 : (fs.zip (cs.zip us)).length = xs.length := by simp [hf, hc, hu]
  have l2 : (os.zip (fs.zip (cs.zip us))).length = xs.length := by simp [ho, hf, hc, hu]
  simp only [List.map_map]
  have e2 : (xs.zip (os.zip (fs.zip (cs.zip us)))).map Prod.snd = os.zip (fs.zip (cs.zip us)) :=
    List.map_snd_zip (by omega)
  have e3 : (os.zip (fs.zip (cs.zip us))).map Prod.snd = fs.zip (cs.zip us) :=
    List.map_snd_zip (by omega)
  have e4 : (fs.zip (cs.zip us)).map Prod.snd = cs.zip us := List.map_snd_zip (by omega)
  refine ⟨?_, ?_, ?_, ?_, ?_⟩
  · exact List.map_fst_zip (by omega)
  · have e : (((xs.zip (os.zip (fs.zip (cs.zip us)))).map Prod.snd).map Prod.fst) = os := by
      rw [e2]; exact List.map_fst_zip (by omega)
    rw [List.map_map] at e; exact e
  · have e : ((((xs.zip (os.zip (fs.zip (cs.zip us)))).map Prod.snd).map Prod.snd).map Prod.fst) = fs := by
      rw [e2, e3]; exact List.map_fst_zip (by omega)
    rw [List.map_map, List.map_map] at e; exact e
  · have e : (((((xs.zip (os.zip (fs.zip (cs.zip us)))).map Prod.snd).map Prod.snd).map Prod.snd).map
        Prod.fst) = cs := by
      rw [e2, e3, e4]; exact List.map_fst_zip (by omega)
    rw [List.map_map, List.map_map, List.map_map] at e; exact e
  · have e : (((((xs.zip (os.zip (fs.zip (cs.zip us)))).map Prod.snd).map Prod.snd).map Prod.snd).map
        Prod.snd) = us := by
      rw [e2, e3, e4]; exact List.map_snd_zip (by omega)
    rw [List.map_map, List.map_map, List.map_map] at e; exact e

theorem newRecs_proj (xs : List X) (r : Results O F C U) {nCons : Nat} (h : EvalOK nCons xs.length r) :
    (newRecs xs r).map Rec.x = xs ∧ (newRecs xs r).map Rec.o = r.objectives ∧
    (newRecs xs r).map Rec.f = r.fitness ∧
    (newRecs xs r).map Rec.c = optCol xs.length r.constraints ∧
    (newRecs xs r).map Rec.u = optCol xs.length r.uncertainity := by
  have hc : (optCol xs.length r.constraints).length = xs.length := by
    by_cases hn : nCons = 0
    · simp [h.nocons hn, optCol]
    · obtain ⟨cs, h1, h2⟩ := h.cons hn; simp [h1, optCol, h2]
  have hu : (optCol xs.length r.uncertainity).length = xs.length := by
    cases hh : r.uncertainity with
    | none => simp [optCol]
    | some us => simp [optCol, h.unc us hh]
  exact zip5_proj xs _ _ _ _ h.objs h.fits hc hu

/-- Whether the call returns or raises, the new rows are the appended records. -/
theorem add_spec {d : Nat} {p : Pop X O F C U} {rs} (h : Represents p rs) (off : Batch X)
    (r : Results O F C U) (hev : EvalOK p.nCons off.rows.length r)
    (hd : p.individuals ≠ none → p.ndim = d)
    (hnd : off.ndim = d ∨ (off.ndim + 1 = d ∧ off.rows.length = 1 ∧ p.individuals ≠ none)) :
    Represents (p.add off (.ok r)).2 (rs ++ newRecs off.rows r) ∧
      (p.add off (.ok r)).2.nCons = p.nCons ∧ (p.add off (.ok r)).2.ndim = d ∧
      (p.add off (.ok r)).2.individuals ≠ none ∧
      ((p.individuals = none ∨ r.uncertainity = none ∨ p.uncertainity ≠ none) →
        (p.add off (.ok r)).1 = .ok r ∧
        ((p.add off (.ok r)).2.uncertainity = none ↔ r.uncertainity = none)) := by
  obtain ⟨px, po, pf, pc, pu⟩ := newRecs_proj off.rows r hev
  unfold Pop.add
  cases hi : p.individuals with
  | none =>
    have hrs : rs = [] := by
      rcases h.inds with hh | hh
      · rw [hi] at hh; cases hh
      · exact hh.2
    subst hrs
    have hdd : off.ndim = d := by
      rcases hnd with h1 | ⟨_, _, h1⟩
      · exact h1
      · exact absurd hi h1
    simp only [List.nil_append]
    refine ⟨⟨Or.inl ?_, ?_, ?_, ?_, ?_, ?_⟩, by trivial, hdd, by simp, ?_⟩
    · simp [px]
    · simp [po]
    · simp [pf]
    · intro _ hn
      obtain ⟨cs, h1, h2⟩ := hev.cons hn
      exact ⟨cs, h1, by rw [pc, h1]; rfl⟩
    · intro hn; exact hev.nocons hn
    · intro us hus; simp only at hus; rw [pu, hus]; rfl
    · intro _; simp
  | some inds =>
    have hinds : inds = rs.map Rec.x := by
      rcases h.inds with hh | ⟨hh, _⟩
      · rw [hi] at hh; simpa using hh
      · rw [hi] at hh; cases hh
    have hpd : p.ndim = d := hd (by simp [hi])
    have happ : (if p.ndim = off.ndim + 1 then inds ++ off.rows
        else if p.ndim = off.ndim then inds ++ off.rows else inds) = inds ++ off.rows := by
      rcases hnd with h1 | ⟨h1, _, _⟩
      · simp [hpd, h1]
      · simp [hpd, h1]
    simp only [happ]
    have hIX : (rs ++ newRecs off.rows r).map Rec.x = inds ++ off.rows := by simp [px, hinds]
    have hIO : (rs ++ newRecs off.rows r).map Rec.o = p.objectives ++ r.objectives := by
      simp [po, h.objs]
    have hIF : (rs ++ newRecs off.rows r).map Rec.f = p.fitness ++ r.fitness := by
      simp [pf, h.fits]
    by_cases hn : p.nCons = 0
    · simp only [hn, ne_eq, not_true_eq_false, if_false]
      have hcn := h.nocons hn
      cases hru : r.uncertainity with
      | none =>
        refine ⟨⟨Or.inl (by simp [hIX]), hIO.symm, hIF.symm, ?_, fun _ => hcn, ?_⟩, ?_, hpd, by simp, ?_⟩
        · intro _ hh; exact absurd rfl hh
        · intro us hus; simp at hus
        · simp
        · simp
      | some us =>
        cases hpu : p.uncertainity with
        | none =>
          simp only [vstackOpt]
          refine ⟨⟨Or.inl (by simp [hIX]), hIO.symm, hIF.symm, ?_, fun _ => hcn, ?_⟩, by simp, hpd, by simp, ?_⟩
          · intro _ hh; exact absurd rfl hh
          · intro us hus; simp at hus
          · simp
        | some us0 =>
          simp only [vstackOpt]
          refine ⟨⟨Or.inl (by simp [hIX]), hIO.symm, hIF.symm, ?_, fun _ => hcn, ?_⟩, by simp, hpd, by simp, ?_⟩
          · intro _ hh; exact absurd rfl hh
          · intro us' hus; simp only [Option.some.injEq] at hus
            rw [← hus]; simp [h.unc us0 hpu, pu, hru, optCol]
          · simp
    · obtain ⟨cs0, hc0, hcm⟩ := h.cons (by simp [hi]) hn
      obtain ⟨cs, hc1, hc2⟩ := hev.cons hn
      simp only [ne_eq, hn, not_false_eq_true, if_true, hc0, hc1, vstackOpt]
      have hIC : (cs0 ++ cs).map some = (rs ++ newRecs off.rows r).map Rec.c := by
        simp [hcm, pc, hc1, optCol]
      cases hru : r.uncertainity with
      | none =>
        refine ⟨⟨Or.inl (by simp [hIX]), hIO.symm, hIF.symm, fun _ _ => ⟨_, rfl, hIC⟩, ?_, ?_⟩, by simp, hpd, by simp, ?_⟩
        · intro hh; exact absurd hh hn
        · intro us hus; simp at hus
        · simp
      | some us =>
        cases hpu : p.uncertainity with
        | none =>
          refine ⟨⟨Or.inl (by simp [hIX]), hIO.symm, hIF.symm, fun _ _ => ⟨_, rfl, hIC⟩, ?_, ?_⟩, by simp, hpd, by simp, ?_⟩
          · intro hh; exact absurd hh hn
          · intro us hus; simp at hus
          · simp
        | some us0 =>
          refine ⟨⟨Or.inl (by simp [hIX]), hIO.symm, hIF.symm, fun _ _ => ⟨_, rfl, hIC⟩, ?_, ?_⟩, by simp, hpd, by simp, ?_⟩
          · intro hh; exact absurd hh hn
          · intro us' hus; simp only [Option.some.injEq] at hus
            rw [← hus]; simp [h.unc us0 hpu, pu, hru, optCol]
          · simp

theorem setRows_map {α β : Type} (rs : List α) (f : α → β) (a : α) {idx : List Int} {ks : List Nat}
    (h : resolve rs.length idx = .ok ks) :
    setRows (rs.map f) ks (f a) = (rowsSet (fun k => names rs.length idx k) a rs).map f := by
  rw [← rowsSet_map]
  apply rowsSet_eq
  intro k hk
  rw [resolve_mem h]
  simp at hk
  simp [hk]

theorem setRows_some {α β : Type} (rs : List α) (cs : List β) (f : α → Option β) (a : α) (b : β)
    (hab : some b = f a) (hcs : cs.map some = rs.map f) {idx : List Int} {ks : List Nat}
    (h : resolve rs.length idx = .ok ks) :
    (setRows cs ks b).map some = (rowsSet (fun k => names rs.length idx k) a rs).map f := by
  have hlen : cs.length = rs.length := by simpa using congrArg List.length hcs
  rw [rowsSet_eq cs ks b (fun k => names rs.length idx k), ← rowsSet_map, hcs, hab, ← rowsSet_map]
  intro k hk
  rw [resolve_mem h]
  simp; omega

theorem replace_ok {p : Pop X O F C U} {rs} (h : Represents p rs) (hne : p.individuals ≠ none)
    (idx : List Int) (x : X) (o : O) (f : F) (c : Option C) (u : Option U)
    (hr : inRange rs.length idx = true)
    (hc : p.nCons ≠ 0 → c ≠ none) (hu : p.uncertainity ≠ none → u ≠ none) :
    (p.replace idx x o f c u).1 = .ok () ∧
    Represents (p.replace idx x o f c u).2
      (rowsSet (fun k => names rs.length idx k) ⟨x, o, f, c, u⟩ rs) ∧
    (p.replace idx x o f c u).2.nCons = p.nCons ∧ (p.replace idx x o f c u).2.ndim = p.ndim ∧
    (p.replace idx x o f c u).2.individuals ≠ none ∧
    ((p.replace idx x o f c u).2.uncertainity = none ↔ p.uncertainity = none) := by
  cases hi : p.individuals with
  | none => exact absurd hi hne
  | some inds =>
    have hinds : inds = rs.map Rec.x := by
      rcases h.inds with hh | ⟨hh, _⟩
      · rw [hi] at hh; simpa using hh
      · rw [hi] at hh; cases hh
    obtain ⟨ks, hks⟩ := (resolve_ok_iff (n := rs.length) (idx := idx)).2 hr
    let a : Rec X O F C U := ⟨x, o, f, c, u⟩
    have ex := setRows_map rs Rec.x a hks
    have eo := setRows_map rs Rec.o a hks
    have ef := setRows_map rs Rec.f a hks
    unfold Pop.replace
    simp only [hi, hinds, List.length_map, hks, h.objs, h.fits]
    by_cases hn : p.nCons = 0
    · simp only [h.nocons hn]
      cases hpu : p.uncertainity with
      | none =>
        refine ⟨rfl, ⟨Or.inl (congrArg some ex), eo, ef, fun _ hh => absurd hn hh, fun _ => rfl, ?_⟩, by trivial, by trivial, by simp, by simp⟩
        intro us hus; simp at hus
      | some us =>
        have hul : us.length = rs.length := by simpa using congrArg List.length (h.unc us hpu)
        cases u with
        | none => exact absurd rfl (hu (by simp [hpu]))
        | some u =>
          simp only [hul, hks]
          refine ⟨trivial, ⟨Or.inl (congrArg some ex), eo, ef, fun _ hh => absurd hn hh, fun _ => rfl, ?_⟩, by trivial, by trivial, by simp, by simp⟩
          intro us' hus; simp only [Option.some.injEq] at hus
          rw [← hus]
          exact setRows_some rs us Rec.u a u rfl (h.unc us hpu) hks
    · obtain ⟨cs0, hc0, hcm⟩ := h.cons (by simp [hi]) hn
      have hcl : cs0.length = rs.length := by simpa using congrArg List.length hcm
      cases c with
      | none => exact absurd rfl (hc hn)
      | some c =>
        have ec := setRows_some rs cs0 Rec.c a c rfl hcm hks
        simp only [hc0, hcl, hks]
        cases hpu : p.uncertainity with
        | none =>
          refine ⟨rfl, ⟨Or.inl (congrArg some ex), eo, ef, fun _ _ => ⟨_, rfl, ec⟩, fun hh => absurd hh hn, ?_⟩, by trivial, by trivial, by simp, by simp⟩
          intro us hus; simp at hus
        | some us =>
          have hul : us.length = rs.length := by simpa using congrArg List.length (h.unc us hpu)
          cases u with
          | none => exact absurd rfl (hu (by simp [hpu]))
          | some u =>
            simp only [hul, hks]
            refine ⟨trivial, ⟨Or.inl (congrArg some ex), eo, ef, fun _ _ => ⟨_, rfl, ec⟩, fun hh => absurd hh hn, ?_⟩, by trivial, by trivial, by simp, by simp⟩
            intro us' hus; simp only [Option.some.injEq] at hus
            rw [← hus]
            exact setRows_some rs us Rec.u a u rfl (h.unc us hpu) hks

theorem replace_error {p : Pop X O F C U} {rs} (h : Represents p rs) (idx : List Int)
    (x : X) (o : O) (f : F) (c : Option C) (u : Option U)
    (hr : p.individuals = none ∨ inRange rs.length idx = false) :
    p.replace idx x o f c u =
      (.error (if p.individuals = none then .typeError else .indexError), p) := by
  unfold Pop.replace
  cases hi : p.individuals with
  | none => rfl
  | some inds =>
    have hlen := Represents_length h hi
    rcases hr with hr | hr
    · rw [hi] at hr; cases hr
    · simp [hlen, resolve_error hr]

/-- One step of the refinement. -/
theorem step_refines {d : Nat} {p : Pop X O F C U} {rs} (h : Represents p rs)
    (hd : p.individuals ≠ none → p.ndim = d) (op : PopOp X O F C U) (hok : OpOK d p op) :
    Represents (p.step op).2 (recStep rs op) ∧
      ((p.step op).2.individuals ≠ none → (p.step op).2.ndim = d) ∧
      (p.step op).2.nCons = p.nCons := by
  cases op with
  | add off ev =>
    cases ev with
    | error e => simpa [Pop.step, Pop.add, recStep] using ⟨h, hd⟩
    | ok r =>
      have := add_spec h off r hok.1 hd hok.2
      have e : (p.step (.add off (.ok r))).2 = (p.add off (.ok r)).2 := by
        unfold Pop.step
        simp only
        split <;> simp_all
      rw [e]
      exact ⟨this.1, fun _ => this.2.2.1, this.2.1⟩
  | keep idx =>
    simp only [Pop.step, recStep]
    by_cases hne : p.individuals = none
    · rw [keep_error h idx (Or.inl hne)]
      have hrs : rs = [] := by
        rcases h.inds with hh | hh
        · rw [hne] at hh; cases hh
        · exact hh.2
      subst hrs
      simpa [rowsAt] using ⟨h, hd⟩
    · by_cases hr : inRange rs.length idx = true
      · have := keep_ok h hne idx hr
        simp only [hr, if_true]
        exact ⟨this.2.1, fun _ => by rw [this.2.2.2.1]; exact hd hne, this.2.2.1⟩
      · simp only [Bool.not_eq_true] at hr
        rw [keep_error h idx (Or.inr hr)]
        simpa [hr] using ⟨h, hd⟩
  | delete idx =>
    simp only [Pop.step, recStep]
    by_cases hne : p.individuals = none
    · rw [delete_error h idx (Or.inl hne)]
      have hrs : rs = [] := by
        rcases h.inds with hh | hh
        · rw [hne] at hh; cases hh
        · exact hh.2
      subst hrs
      simpa [rowsAt] using ⟨h, hd⟩
    · by_cases hr : inRange rs.length idx = true
      · have := delete_ok h hne idx hr
        simp only [hr, if_true]
        exact ⟨this.2.1, fun _ => by rw [this.2.2.2.1]; exact hd hne, this.2.2.1⟩
      · simp only [Bool.not_eq_true] at hr
        rw [delete_error h idx (Or.inr hr)]
        simpa [hr] using ⟨h, hd⟩
  | replace idx x o f c u =>
    simp only [Pop.step, recStep]
    by_cases hne : p.individuals = none
    · rw [replace_error h idx x o f c u (Or.inl hne)]
      have hrs : rs = [] := by
        rcases h.inds with hh | hh
        · rw [hne] at hh; cases hh
        · exact hh.2
      subst hrs
      simpa [rowsSet] using ⟨h, hd⟩
    · by_cases hr : inRange rs.length idx = true
      · have := replace_ok h hne idx x o f c u hr hok.1 hok.2
        simp only [hr, if_true]
        exact ⟨this.2.1, fun _ => by rw [this.2.2.2.1]; exact hd hne, this.2.2.1⟩
      · simp only [Bool.not_eq_true] at hr
        rw [replace_error h idx x o f c u (Or.inr hr)]
        simpa [hr] using ⟨h, hd⟩

theorem run_refines {d : Nat} (ops : List (PopOp X O F C U)) {p : Pop X O F C U} {rs}
    (h : Represents p rs) (hd : p.individuals ≠ none → p.ndim = d) (hok : RunOK d p ops) :
    Represents (p.run ops) (recRun rs ops) := by
  induction ops generalizing p rs with
  | nil => exact h
  | cons op ops ih =>
    have := step_refines h hd op hok.1
    exact ih this.1 this.2.1 hok.2

theorem represents_new (nCons : Nat) : Represents (Pop.new nCons : Pop X O F C U) [] := by
  refine ⟨Or.inr ⟨rfl, rfl⟩, rfl, rfl, ?_, fun _ => rfl, ?_⟩
  · intro h; exact absurd rfl h
  · intro us hus; cases hus

end Verif
