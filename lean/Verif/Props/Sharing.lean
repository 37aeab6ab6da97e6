import Verif.Spec.Sharing
import Mathlib.Tactic.Common
import Mathlib.Order.Basic
import Mathlib.Data.Nat.Basic
import Mathlib.Data.List.Nodup

/-!
# C90: the population as plain values, although its arrays are shared
-/

namespace Verif.Props

open Verif Verif.Spec

variable {R : Type}

/-- The value of one column changed. -/
private def putCol (c : Col) (l : List R) (p : Pop R R R R R) : Pop R R R R R :=
  match c with
  | .individuals => { p with individuals := some l }
  | .objectives => { p with objectives := l }
  | .fitness => { p with fitness := l }
  | .constraint => { p with constraint := some l }
  | .uncertainity => { p with uncertainity := some l }

theorem _root_.Verif.Spec.Unchanged.refl (h : Heap R) : Unchanged h h := ⟨le_rfl, fun _ _ => rfl⟩

theorem _root_.Verif.Spec.Unchanged.trans {h h' h'' : Heap R} (a : Unchanged h h') (b : Unchanged h' h'') : Unchanged h h'' :=
  ⟨a.1.trans b.1, fun r hr => (b.2 r (lt_of_lt_of_le hr a.1)).trans (a.2 r hr)⟩

theorem _root_.Verif.Spec.Unchanged.alloc (h : Heap R) (l : List R) : Unchanged h (h.alloc l).2 :=
  ⟨Nat.le_succ _, fun r hr => by simp [Heap.alloc, Nat.ne_of_lt hr]⟩

private theorem read_unchanged {h h' : Heap R} {s : Shared} (hs : Separate h s) (u : Unchanged h h') : s.read h' = s.read h := by
  have key : ∀ c, (s.attr c).map h'.cells = (s.attr c).map h.cells := by
    intro c
    cases hc : s.attr c with
    | none => rfl
    | some r => simp [u.2 r (hs.exist c r hc)]
  simp only [Shared.read, key]

private theorem separate_unchanged {h h' : Heap R} {s : Shared} (hs : Separate h s) (u : h.next ≤ h'.next) : Separate h' s :=
  ⟨fun c r hc => lt_of_lt_of_le (hs.exist c r hc) u, hs.apart, hs.present⟩

/-- A new array assigned to an attribute. -/
private theorem fresh {h : Heap R} {s : Shared} (hs : Separate h s) (c : Col) (hc : s.attr c ≠ none) (l : List R) :
    Separate (h.alloc l).2 (s.set c (some (h.alloc l).1)) ∧
      (s.set c (some (h.alloc l).1)).read (h.alloc l).2 = putCol c l (s.read h) := by
  have hn : ∀ d r, s.attr d = some r → r ≠ h.next := fun d r hd => Nat.ne_of_lt (hs.exist d r hd)
  have key : ∀ d, (s.attr d).map (h.alloc l).2.cells = (s.attr d).map h.cells := by
    intro d
    cases hd : s.attr d with
    | none => rfl
    | some r => simp [Heap.alloc, hn d r hd]
  refine ⟨⟨?_, ?_, ?_⟩, ?_⟩
  · intro d r hd
    simp only [Shared.set, Heap.alloc] at hd ⊢
    split at hd
    · cases hd; exact Nat.lt_succ_self _
    · exact Nat.lt_succ_of_lt (hs.exist d r hd)
  · intro d e r hd he
    simp only [Shared.set, Heap.alloc] at hd he
    split at hd <;> split at he
    · simp_all
    · cases hd; exact absurd rfl (hn _ _ he)
    · cases he; exact absurd rfl (hn _ _ hd)
    · exact hs.apart d e r hd he
  · intro hi
    have := hs.present
    cases c <;> simp_all [Shared.set, Heap.alloc]
  · have hnew : (h.alloc l).2.cells (h.alloc l).1 = l := by simp [Heap.alloc]
    cases c <;> simp [Shared.read, Shared.set, putCol, key, hnew]

/-- `None` assigned to an attribute other than objectives and fitness. -/
private theorem cleared {h : Heap R} {s : Shared} (hs : Separate h s) (c : Col) (hc : c = .individuals ∨ c = .uncertainity) :
    Separate h (s.set c none) := by
  refine ⟨?_, ?_, ?_⟩
  · intro d r hd
    simp only [Shared.set] at hd
    split at hd
    · cases hd
    · exact hs.exist d r hd
  · intro d e r hd he
    simp only [Shared.set] at hd he
    split at hd
    · cases hd
    · split at he
      · cases he
      · exact hs.apart d e r hd he
  · intro hi
    have := hs.present
    rcases hc with rfl | rfl <;> simp_all [Shared.set]

/-- Writing into the array of one attribute. -/
private theorem written {h : Heap R} {s : Shared} (hs : Separate h s) {c : Col} {a : Nat} (hc : s.attr c = some a) (l : List R) :
    Separate (h.write a l) s ∧ s.read (h.write a l) = putCol c l (s.read h) := by
  refine ⟨⟨hs.exist, hs.apart, hs.present⟩, ?_⟩
  have key : ∀ d, d ≠ c → (s.attr d).map (h.write a l).cells = (s.attr d).map h.cells := by
    intro d hd
    cases he : s.attr d with
    | none => rfl
    | some r =>
      have : r ≠ a := fun hra => hd (hs.apart d c a (hra ▸ he) hc)
      simp [Heap.write, this]
  have hnew : (h.write a l).cells a = l := by simp [Heap.write]
  cases c <;> simp only [Shared.read, putCol, hc] <;> simp [key, hnew]

private theorem vstack_spec {h : Heap R} {s : Shared} (hs : Separate h s) (c : Col) {b : Nat} (hb : b < h.next) {a : Nat}
    (ha : s.attr c = some a) :
    ∃ h' s', s.vstack h c (some b) = .ok (h', s') ∧ Separate h' s' ∧ Unchanged h h' ∧
      s'.read h' = putCol c (h.cells a ++ h.cells b) (s.read h) ∧ s' = s.set c (some h.next) ∧ h'.next = h.next + 1 := by
  have hf := fresh hs c (by simp [ha]) (h.cells a ++ h.cells b)
  refine ⟨_, _, ?_, hf.1, Unchanged.alloc _ _, hf.2, rfl, rfl⟩
  simp [Shared.vstack, ha]

private theorem maskCol_spec {h : Heap R} {s : Shared} (hs : Separate h s) (c : Col) (mask : List Bool) {a : Nat}
    (ha : s.attr c = some a) :
    (∃ e, boolIndex mask (h.cells a) = .error e ∧ s.maskCol h c mask = .error e) ∨
    (∃ l h' s', boolIndex mask (h.cells a) = .ok l ∧ s.maskCol h c mask = .ok (h', s') ∧ Separate h' s' ∧ Unchanged h h' ∧
      s'.read h' = putCol c l (s.read h) ∧ s' = s.set c (some h.next)) := by
  cases hb : boolIndex mask (h.cells a) with
  | error e => left; exact ⟨e, rfl, by simp [Shared.maskCol, ha, hb]⟩
  | ok l =>
    right
    have hf := fresh hs c (by simp [ha]) l
    exact ⟨l, _, _, rfl, by simp only [Shared.maskCol, ha, hb], hf.1, Unchanged.alloc _ _, hf.2, rfl⟩

private theorem set_attr_ne (s : Shared) {c d : Col} (r : Option Nat) (h : d ≠ c) : (s.set c r).attr d = s.attr d := by
  simp [Shared.set, h]

private theorem set_attr_eq (s : Shared) (c : Col) (r : Option Nat) : (s.set c r).attr c = r := by
  simp [Shared.set]

/-- What one call has to satisfy. -/
private def Agrees (h : Heap R) (out : Except Err Unit × Heap R × Shared) (pure : Except Err Unit × Pop R R R R R) : Prop :=
  Separate out.2.1 out.2.2 ∧ Unchanged h out.2.1 ∧ out.1 = pure.1 ∧ out.2.2.read out.2.1 = pure.2

private theorem maskColumns_agrees {h : Heap R} {s : Shared} (hs : Separate h s) (mask : List Bool) {o f : Nat}
    (ho : s.attr .objectives = some o) (hf : s.attr .fitness = some f) :
    Agrees h (s.maskColumns h mask) ((s.read h).maskColumns mask) := by
  have ro : (s.read h).objectives = h.cells o := by simp [Shared.read, ho]
  have rf : (s.read h).fitness = h.cells f := by simp [Shared.read, hf]
  rcases maskCol_spec hs .objectives mask ho with ⟨e, hb, hm⟩ | ⟨l, h1, s1, hb, hm, hs1, u1, r1, e1⟩
  · simp only [Shared.maskColumns, hm, Pop.maskColumns, ro, hb]
    exact ⟨hs, Unchanged.refl _, rfl, rfl⟩
  have hf1 : s1.attr .fitness = some f := by rw [e1, set_attr_ne _ _ (by decide), hf]
  have cf : h1.cells f = h.cells f := u1.2 f (hs.exist _ _ hf)
  rcases maskCol_spec hs1 .fitness mask hf1 with ⟨e, hb2, hm2⟩ | ⟨l2, h2, s2, hb2, hm2, hs2, u2, r2, e2⟩
  · rw [cf] at hb2
    simp only [Shared.maskColumns, hm, hm2, Pop.maskColumns, ro, hb, rf, hb2]
    exact ⟨hs1, u1, rfl, by rw [r1]; simp only [putCol, rf]⟩
  rw [cf] at hb2
  have u12 := u1.trans u2
  have hu2 : s2.attr .uncertainity = s.attr .uncertainity := by
    rw [e2, set_attr_ne _ _ (by decide), e1, set_attr_ne _ _ (by decide)]
  have hc2 : s2.attr .constraint = s.attr .constraint := by
    rw [e2, set_attr_ne _ _ (by decide), e1, set_attr_ne _ _ (by decide)]
  have hn2 : s2.nCons = s.nCons := by rw [e2, e1]; rfl
  -- the constraint column
  have last : ∀ (h3 : Heap R) (s3 : Shared) (p : Pop R R R R R), Separate h3 s3 → Unchanged h h3 → s3.read h3 = p →
      s3.attr .constraint = s.attr .constraint → s3.nCons = s.nCons →
      Agrees h
        (match (if s.nCons > 0 then s3.maskCol h3 .constraint mask else .ok (h3, s3)) with
          | .error e => (.error e, h3, s3)
          | .ok hs => (.ok (), hs))
        (if p.nCons > 0 then
          match p.constraint with
          | none => (.error .typeError, p)
          | some cs =>
            match boolIndex mask cs with
            | .error e => (.error e, p)
            | .ok cs' => (.ok (), { p with constraint := some cs' })
        else (.ok (), p)) := by
    intro h3 s3 p hs3 u3 hp hc3 hn3
    have hpn : p.nCons = s.nCons := by rw [← hp]; exact hn3
    rw [hpn]
    by_cases hn : s.nCons > 0
    · simp only [hn, if_true]
      cases hc : s.attr .constraint with
      | none =>
        have : p.constraint = none := by rw [← hp]; simp [Shared.read, hc3, hc]
        simp only [Shared.maskCol, hc3, hc, this]
        exact ⟨hs3, u3, rfl, hp⟩
      | some k =>
        have hk : s3.attr .constraint = some k := hc3.trans hc
        have : p.constraint = some (h3.cells k) := by rw [← hp]; simp [Shared.read, hk]
        rcases maskCol_spec hs3 .constraint mask hk with ⟨e, hb, hm⟩ | ⟨l, h4, s4, hb, hm, hs4, u4, r4, e4⟩
        · simp only [this, hm, hb]; exact ⟨hs3, u3, rfl, hp⟩
        · simp only [this, hm, hb]
          exact ⟨hs4, u3.trans u4, rfl, by rw [r4, hp]; simp only [putCol, hpn]⟩
    · simp only [hn, if_false]
      exact ⟨hs3, u3, rfl, hp⟩
  cases hu : s.attr .uncertainity with
  | none =>
    have ru : (s.read h).uncertainity = none := by simp [Shared.read, hu]
    simp only [Shared.maskColumns, hm, hm2, Pop.maskColumns, ro, hb, rf, hb2, hu2, hu, ru, Option.isSome_none, Bool.false_eq_true,
      if_false]
    exact last h2 s2 { s.read h with objectives := l, fitness := l2, uncertainity := none } hs2 u12
      (by rw [r2, r1]; simp only [putCol, ru]) hc2 hn2
  | some k =>
    have hk : s2.attr .uncertainity = some k := hu2.trans hu
    have ck : h2.cells k = h.cells k := u12.2 k (hs.exist _ _ hu)
    have ru : (s.read h).uncertainity = some (h.cells k) := by simp [Shared.read, hu]
    rcases maskCol_spec hs2 .uncertainity mask hk with ⟨e, hb3, hm3⟩ | ⟨l3, h3, s3, hb3, hm3, hs3, u3, r3, e3⟩
    · rw [ck] at hb3
      simp only [Shared.maskColumns, hm, hm2, Pop.maskColumns, ro, hb, rf, hb2, hk, ru, Option.isSome_some, if_true, hm3, hb3]
      exact ⟨hs2, u12, rfl, by rw [r2, r1]; simp only [putCol, ru]⟩
    · rw [ck] at hb3
      simp only [Shared.maskColumns, hm, hm2, Pop.maskColumns, ro, hb, rf, hb2, hk, ru, Option.isSome_some, if_true, hm3, hb3]
      exact last h3 s3 { s.read h with objectives := l, fitness := l2, uncertainity := some l3 } hs3 (u12.trans u3)
        (by rw [r3, r2, r1]; simp only [putCol]) (by rw [e3, set_attr_ne _ _ (by decide), hc2])
        (by rw [e3]; exact hn2)

private theorem keep_agrees {h : Heap R} {s : Shared} (hs : Separate h s) (is : List Int) :
    Agrees h (s.keep h is) ((s.read h).keep is) := by
  cases hi : s.attr .individuals with
  | none =>
    have ri : (s.read h).individuals = none := by simp [Shared.read, hi]
    simp only [Shared.keep, hi, Pop.keep, ri]
    exact ⟨hs, Unchanged.refl _, rfl, rfl⟩
  | some i =>
    have ri : (s.read h).individuals = some (h.cells i) := by simp [Shared.read, hi]
    cases hr : resolve (h.cells i).length is with
    | error e =>
      simp only [Shared.keep, hi, Pop.keep, ri, hr]
      exact ⟨hs, Unchanged.refl _, rfl, rfl⟩
    | ok ks =>
      obtain ⟨ho, hf⟩ := hs.present (by simp [hi])
      obtain ⟨o, ho⟩ := Option.ne_none_iff_exists'.mp ho
      obtain ⟨f, hf⟩ := Option.ne_none_iff_exists'.mp hf
      rcases maskCol_spec hs .individuals (setMask (List.replicate (h.cells i).length false) ks true) hi with
        ⟨e, hb, hm⟩ | ⟨l, h1, s1, hb, hm, hs1, u1, r1, e1⟩
      · simp only [Shared.keep, hi, Pop.keep, ri, hr, hm, hb]
        exact ⟨hs, Unchanged.refl _, rfl, rfl⟩
      · simp only [Shared.keep, hi, Pop.keep, ri, hr, hm, hb]
        have := maskColumns_agrees hs1 (setMask (List.replicate (h.cells i).length false) ks true)
          (o := o) (f := f) (by rw [e1, set_attr_ne _ _ (by decide), ho]) (by rw [e1, set_attr_ne _ _ (by decide), hf])
        rw [r1] at this
        exact ⟨this.1, u1.trans this.2.1, this.2.2⟩

private theorem delete_agrees {h : Heap R} {s : Shared} (hs : Separate h s) (is : List Int) :
    Agrees h (s.delete h is) ((s.read h).delete is) := by
  cases hi : s.attr .individuals with
  | none =>
    have ri : (s.read h).individuals = none := by simp [Shared.read, hi]
    simp only [Shared.delete, hi, Pop.delete, ri]
    exact ⟨hs, Unchanged.refl _, rfl, rfl⟩
  | some i =>
    have ri : (s.read h).individuals = some (h.cells i) := by simp [Shared.read, hi]
    cases hr : resolve (h.cells i).length is with
    | error e =>
      simp only [Shared.delete, hi, Pop.delete, ri, hr]
      exact ⟨hs, Unchanged.refl _, rfl, rfl⟩
    | ok ks =>
      obtain ⟨ho, hf⟩ := hs.present (by simp [hi])
      obtain ⟨o, ho⟩ := Option.ne_none_iff_exists'.mp ho
      obtain ⟨f, hf⟩ := Option.ne_none_iff_exists'.mp hf
      cases hb : boolIndex (setMask (List.replicate (h.cells i).length true) ks false) (h.cells i) with
      | error e =>
        simp only [Shared.delete, hi, Pop.delete, ri, hr, hb]
        exact ⟨hs, Unchanged.refl _, rfl, rfl⟩
      | ok l =>
        simp only [Shared.delete, hi, Pop.delete, ri, hr, hb]
        have u1 := Unchanged.alloc h l
        have fin : ∀ s1, Separate (h.alloc l).2 s1 → s1.attr .objectives = some o → s1.attr .fitness = some f →
            s1.read (h.alloc l).2 = { s.read h with individuals := if l.length = 0 then none else some l } →
            Agrees h (s1.maskColumns (h.alloc l).2 (setMask (List.replicate (h.cells i).length true) ks false))
              (({ s.read h with individuals := if l.length = 0 then none else some l } : Pop R R R R R).maskColumns
                (setMask (List.replicate (h.cells i).length true) ks false)) := by
          intro s1 hs1 ho1 hf1 hr1
          have := maskColumns_agrees hs1 (setMask (List.replicate (h.cells i).length true) ks false) ho1 hf1
          rw [hr1] at this
          exact ⟨this.1, u1.trans this.2.1, this.2.2⟩
        by_cases hl : l.length = 0
        · simp only [hl, if_true] at fin ⊢
          have hsep := separate_unchanged hs u1.1
          refine fin _ (cleared hsep .individuals (Or.inl rfl)) (by rw [set_attr_ne _ _ (by decide), ho])
            (by rw [set_attr_ne _ _ (by decide), hf]) ?_
          rw [← read_unchanged hs u1]
          simp [Shared.read, Shared.set]
        · simp only [hl, if_false] at fin ⊢
          have hfr := fresh hs .individuals (by simp [hi]) l
          exact fin _ hfr.1 (by rw [set_attr_ne _ _ (by decide), ho]) (by rw [set_attr_ne _ _ (by decide), hf]) hfr.2

private theorem first_apart (s : Shared) (off o f : Nat) (k u : Option Nat) (hn : (off :: ([o, f] ++ k.toList ++ u.toList)).Nodup)
    (c e : Col) (a : Nat)
    (hc : ((((( s.set .individuals (some off)).set .objectives (some o)).set .fitness (some f)).set .constraint k).set .uncertainity
      u).attr c = some a)
    (he : ((((( s.set .individuals (some off)).set .objectives (some o)).set .fitness (some f)).set .constraint k).set .uncertainity
      u).attr e = some a) : c = e := by
  cases k <;> cases u <;> simp at hn <;> cases c <;> cases e <;> first | rfl | (simp [Shared.set] at hc he <;> omega)

private theorem add_agrees {h : Heap R} {s : Shared} (hs : Separate h s) (d off : Nat) (ev : Except Err SharedResults)
    (hg : Given h s (.add d off ev : SharedOp R)) :
    Agrees h (s.add h d off ev) ((s.read h).step (.add ⟨d, h.cells off⟩ (ev.map (fun r => r.read h)))) := by
  cases ev with
  | error e => exact ⟨hs, Unchanged.refl _, rfl, rfl⟩
  | ok r =>
  obtain ⟨hex, hnd⟩ := hg
  cases hi : s.attr .individuals with
  | none =>
    have ri : (s.read h).individuals = none := by simp [Shared.read, hi]
    have hn := hnd hi
    simp only [Shared.add, hi, Pop.step, Pop.add, Except.map, ri]
    refine ⟨⟨?_, ?_, ?_⟩, Unchanged.refl _, rfl, ?_⟩
    · intro c a hc
      apply hex
      cases c <;> simp [Shared.set] at hc <;> simp [resultArrays, hc]
    · intro c e a hc he
      exact first_apart _ _ _ _ _ _ hn c e a hc he
    · intro _; simp [Shared.set]
    · simp [Shared.read, Shared.set, SharedResults.read]
  | some i =>
    have ri : (s.read h).individuals = some (h.cells i) := by simp [Shared.read, hi]
    obtain ⟨ho, hf⟩ := hs.present (by simp [hi])
    obtain ⟨o, ho⟩ := Option.ne_none_iff_exists'.mp ho
    obtain ⟨f, hf⟩ := Option.ne_none_iff_exists'.mp hf
    have ro : (s.read h).objectives = h.cells o := by simp [Shared.read, ho]
    have rf : (s.read h).fitness = h.cells f := by simp [Shared.read, hf]
    have ho' : r.objectives < h.next := hex _ (by simp [resultArrays])
    have hf' : r.fitness < h.next := hex _ (by simp [resultArrays])
    -- the individuals
    obtain ⟨h1, s1, e0, hs1, u1, r1, a1, n1, d1⟩ : ∃ h1 s1,
        (if s.ndim = d + 1 ∨ s.ndim = d then
          ((h.alloc (h.cells i ++ h.cells off)).2, s.set .individuals (some (h.alloc (h.cells i ++ h.cells off)).1))
        else (h, s)) = (h1, s1) ∧ Separate h1 s1 ∧ Unchanged h h1 ∧
        s1.read h1 = putCol .individuals
          (if s.ndim = d + 1 then h.cells i ++ h.cells off else if s.ndim = d then h.cells i ++ h.cells off else h.cells i) (s.read h) ∧
        (∀ c, c ≠ .individuals → s1.attr c = s.attr c) ∧ s1.nCons = s.nCons ∧ s1.ndim = s.ndim := by
      by_cases hd : s.ndim = d + 1 ∨ s.ndim = d
      · have hfr := fresh hs .individuals (by simp [hi]) (h.cells i ++ h.cells off)
        refine ⟨_, _, by rw [if_pos hd], hfr.1, Unchanged.alloc _ _, ?_, fun c hc => set_attr_ne _ _ hc, rfl, rfl⟩
        rw [hfr.2]
        rcases hd with hd | hd <;> simp [putCol, hd]
      · refine ⟨h, s, by rw [if_neg hd], hs, Unchanged.refl _, ?_, fun _ _ => rfl, rfl, rfl⟩
        rw [not_or] at hd
        simp only [hd.1, hd.2, if_false, putCol, ← ri]
    obtain ⟨h2, s2, v2, hs2, u2, r2, e2, n2⟩ := vstack_spec hs1 .objectives (b := r.objectives) (lt_of_lt_of_le ho' u1.1) (a := o)
      (by rw [a1 _ (by decide), ho])
    have hf2 : s2.attr .fitness = some f := by rw [e2, set_attr_ne _ _ (by decide), a1 _ (by decide), hf]
    have u12 := u1.trans u2
    obtain ⟨h3, s3, v3, hs3, u3, r3, e3, n3⟩ := vstack_spec hs2 .fitness (b := r.fitness) (lt_of_lt_of_le hf' u12.1) (a := f) hf2
    have u13 := u12.trans u3
    have hc3 : s3.attr .constraint = s.attr .constraint := by
      rw [e3, set_attr_ne _ _ (by decide), e2, set_attr_ne _ _ (by decide), a1 _ (by decide)]
    have hu3 : s3.attr .uncertainity = s.attr .uncertainity := by
      rw [e3, set_attr_ne _ _ (by decide), e2, set_attr_ne _ _ (by decide), a1 _ (by decide)]
    have hn3 : s3.nCons = s.nCons := by rw [e3, e2]; exact n1
    obtain ⟨q, hq⟩ : ∃ q : Pop R R R R R, q = Pop.mk s.nCons s.ndim
        (some (if s.ndim = d + 1 then h.cells i ++ h.cells off else if s.ndim = d then h.cells i ++ h.cells off else h.cells i))
        (h.cells o ++ h.cells r.objectives) (h.cells f ++ h.cells r.fitness) (s.read h).constraint (s.read h).uncertainity :=
      ⟨_, rfl⟩
    have r3' : s3.read h3 = q := by
      rw [r3, r2, r1, u1.2 o (hs.exist _ _ ho), u1.2 _ ho', u12.2 f (hs.exist _ _ hf), u12.2 _ hf']
      rw [hq]; rfl
    -- the uncertainty
    have last : ∀ (h4 : Heap R) (s4 : Shared) (p : Pop R R R R R), Separate h4 s4 → Unchanged h h4 → s4.read h4 = p →
        s4.attr .uncertainity = s.attr .uncertainity →
        Agrees h
          (match r.uncertainity with
            | none => (.ok (), h4, s4.set .uncertainity none)
            | some u =>
              match s4.vstack h4 .uncertainity (some u) with
              | .error e => (.error e, h4, s4)
              | .ok hs => (.ok (), hs))
          (match (match (r.read h).uncertainity with
            | none => (Except.ok (r.read h), { p with uncertainity := none })
            | some _ =>
              match vstackOpt p.uncertainity (r.read h).uncertainity with
              | .error e => (.error e, p)
              | .ok u => (.ok (r.read h), { p with uncertainity := u })) with
            | (.ok _, p') => (.ok (), p')
            | (.error e, p') => (.error e, p')) := by
      intro h4 s4 p hs4 u4 hp hu4
      cases hu : r.uncertainity with
      | none =>
        have : (r.read h).uncertainity = none := by simp [SharedResults.read, hu]
        simp only [this]
        refine ⟨cleared hs4 _ (Or.inr rfl), u4, rfl, ?_⟩
        rw [← hp]; simp [Shared.read, Shared.set]
      | some u =>
        have hul : u < h.next := hex _ (by simp [resultArrays, hu])
        have h1 : (r.read h).uncertainity = some (h.cells u) := by simp [SharedResults.read, hu]
        cases hk : s.attr .uncertainity with
        | none =>
          have hk4 : s4.attr .uncertainity = none := hu4.trans hk
          have h2 : p.uncertainity = none := by rw [← hp]; simp [Shared.read, hk4]
          simp only [h1, h2, vstackOpt, Shared.vstack, hk4]
          exact ⟨hs4, u4, rfl, hp⟩
        | some k =>
          have hk4 : s4.attr .uncertainity = some k := hu4.trans hk
          have h2 : p.uncertainity = some (h4.cells k) := by rw [← hp]; simp [Shared.read, hk4]
          obtain ⟨h5, s5, v5, hs5, u5, r5, _, _⟩ := vstack_spec hs4 .uncertainity (b := u) (lt_of_lt_of_le hul u4.1) hk4
          simp only [h1, h2, vstackOpt, v5]
          exact ⟨hs5, u4.trans u5, rfl, by rw [r5, hp, u4.2 u hul]; simp only [putCol]⟩
    have hnq : (s.read h).nCons = s.nCons := rfl
    have hdq : (s.read h).ndim = s.ndim := rfl
    have hoq : (r.read h).objectives = h.cells r.objectives := rfl
    have hfq : (r.read h).fitness = h.cells r.fitness := rfl
    simp only [Shared.add, hi, e0, v2, v3, Pop.step, Pop.add, Except.map, ri, hnq, hdq, hoq, hfq, ro, rf]
    by_cases hn : s.nCons ≠ 0
    · cases hc : r.constraints with
      | none =>
        have h1 : (r.read h).constraints = none := by simp [SharedResults.read, hc]
        have h2 : s3.vstack h3 .constraint none = .error .valueError := by
          simp only [Shared.vstack]; cases s3.attr .constraint <;> rfl
        have h3' : ∀ a : Option (List R), vstackOpt a none = .error .valueError := by intro a; cases a <;> rfl
        simp only [if_pos hn, h2, h1, h3']
        exact ⟨hs3, u13, rfl, r3'.trans hq⟩
      | some c =>
        have hcl : c < h.next := hex _ (by simp [resultArrays, hc])
        have h1 : (r.read h).constraints = some (h.cells c) := by simp [SharedResults.read, hc]
        cases hk : s.attr .constraint with
        | none =>
          have hk3 : s3.attr .constraint = none := hc3.trans hk
          have h2 : (s.read h).constraint = none := by simp [Shared.read, hk]
          have h4 : s3.vstack h3 .constraint (some c) = .error .valueError := by simp only [Shared.vstack, hk3]
          simp only [if_pos hn, h4, h1, h2, vstackOpt]
          refine ⟨hs3, u13, rfl, ?_⟩
          rw [r3', hq]; simp only [h2]
        | some k =>
          have hk3 : s3.attr .constraint = some k := hc3.trans hk
          have h2 : (s.read h).constraint = some (h.cells k) := by simp [Shared.read, hk]
          obtain ⟨h4, s4, v4, hs4, u4, r4, e4, _⟩ := vstack_spec hs3 .constraint (b := c) (lt_of_lt_of_le hcl u13.1) hk3
          have key := last h4 s4 { q with constraint := some (h.cells k ++ h.cells c) } hs4 (u13.trans u4)
            (by rw [r4, r3', u13.2 c hcl, u13.2 k (hs.exist _ _ hk)]; rfl) (by rw [e4, set_attr_ne _ _ (by decide), hu3])
          rw [hq] at key
          have hv : vstackOpt (some (h.cells k)) (some (h.cells c)) = .ok (some (h.cells k ++ h.cells c)) := rfl
          simp only [if_pos hn, v4, h1, h2, hv] at key ⊢
          cases hu : (r.read h).uncertainity with
          | none => simp only [hu] at key ⊢; exact key
          | some us =>
            simp only [hu] at key ⊢
            cases hw : vstackOpt (s.read h).uncertainity (some us) with
            | error e => simp only [hw] at key ⊢; exact key
            | ok w => simp only [hw] at key ⊢; exact key
    · have key := last h3 s3 q hs3 u13 r3' hu3
      rw [hq] at key
      simp only [if_neg hn] at key ⊢
      cases hu : (r.read h).uncertainity with
      | none => simp only [hu] at key ⊢; exact key
      | some us =>
        simp only [hu] at key ⊢
        cases hw : vstackOpt (s.read h).uncertainity (some us) with
        | error e => simp only [hw] at key ⊢; exact key
        | ok w => simp only [hw] at key ⊢; exact key

/-- Only arrays the population refers to differ. -/
private def OnlyOwn (s : Shared) (h h' : Heap R) : Prop :=
  h'.next = h.next ∧ ∀ r, (∀ c, s.attr c ≠ some r) → h'.cells r = h.cells r

private theorem assign_spec {h : Heap R} {s : Shared} (hs : Separate h s) (c : Col) {a : Nat} (ha : s.attr c = some a) (is : List Int)
    (row : Option R) :
    (∃ e, resolve (h.cells a).length is = .error e ∧ s.assign h c is row = .error e) ∨
    (∃ ks, resolve (h.cells a).length is = .ok ks ∧
      ((row = none ∧ s.assign h c is row = .error .typeError) ∨
        ∃ v h', row = some v ∧ s.assign h c is row = .ok h' ∧ Separate h' s ∧
          s.read h' = putCol c (setRows (h.cells a) ks v) (s.read h) ∧ OnlyOwn s h h' ∧
          (∀ d b, s.attr d = some b → d ≠ c → h'.cells b = h.cells b))) := by
  cases hr : resolve (h.cells a).length is with
  | error e => left; exact ⟨e, rfl, by simp [Shared.assign, ha, hr]⟩
  | ok ks =>
    right
    refine ⟨ks, rfl, ?_⟩
    cases row with
    | none => left; exact ⟨rfl, by simp [Shared.assign, ha, hr]⟩
    | some v =>
      right
      have hw := written hs ha (setRows (h.cells a) ks v)
      refine ⟨v, _, rfl, by simp only [Shared.assign, ha, hr], hw.1, hw.2, ⟨rfl, ?_⟩, ?_⟩
      · intro r hr'
        have : r ≠ a := fun he => hr' c (he ▸ ha)
        simp [Heap.write, this]
      · intro d b hb hd
        have : b ≠ a := fun he => hd (hs.apart d c a (he ▸ hb) ha)
        simp [Heap.write, this]

private theorem OnlyOwn.trans {s : Shared} {h h' h'' : Heap R} (a : OnlyOwn s h h') (b : OnlyOwn s h' h'') : OnlyOwn s h h'' :=
  ⟨b.1.trans a.1, fun r hr => (b.2 r hr).trans (a.2 r hr)⟩

/-- The last assignment of `replace`. -/
private def uncTail (p : Pop R R R R R) (is : List Int) (u : Option R) : Except Err Unit × Pop R R R R R :=
  match p.uncertainity with
  | none => (.ok (), p)
  | some us =>
    match resolve us.length is, u with
    | .error e, _ => (.error e, p)
    | .ok _, none => (.error .typeError, p)
    | .ok ks, some u => (.ok (), { p with uncertainity := some (setRows us ks u) })

/-- The last two assignments of `replace`. -/
private def conTail (p : Pop R R R R R) (is : List Int) (c u : Option R) : Except Err Unit × Pop R R R R R :=
  match p.constraint with
  | none => uncTail p is u
  | some cs =>
    match resolve cs.length is, c with
    | .error e, _ => (.error e, p)
    | .ok _, none => (.error .typeError, p)
    | .ok ks, some c => uncTail { p with constraint := some (setRows cs ks c) } is u

private theorem pure_replace (p : Pop R R R R R) (is : List Int) (x o f : R) (c u : Option R) {inds : List R} {k1 k2 k3 : List Nat}
    (hi : p.individuals = some inds) (q1 : resolve inds.length is = .ok k1) (q2 : resolve p.objectives.length is = .ok k2)
    (q3 : resolve p.fitness.length is = .ok k3) :
    p.replace is x o f c u = conTail (Pop.mk p.nCons p.ndim (some (setRows inds k1 x)) (setRows p.objectives k2 o)
      (setRows p.fitness k3 f) p.constraint p.uncertainity) is c u := by
  simp only [Pop.replace, hi, q1, q2, q3, conTail, uncTail]
  cases p.constraint with
  | none => rfl
  | some cs =>
    cases hr : resolve cs.length is with
    | error e => simp only [hr]
    | ok ks => cases c <;> simp only [hr] <;> rfl

private theorem replace_agrees {h : Heap R} {s : Shared} (hs : Separate h s) (is : List Int) (x o f : R) (c u : Option R) :
    Separate (s.replace h is x o f c u).2.1 (s.replace h is x o f c u).2.2 ∧ (s.replace h is x o f c u).2.2 = s ∧
      OnlyOwn s h (s.replace h is x o f c u).2.1 ∧ (s.replace h is x o f c u).1 = ((s.read h).replace is x o f c u).1 ∧
      (s.replace h is x o f c u).2.2.read (s.replace h is x o f c u).2.1 = ((s.read h).replace is x o f c u).2 := by
  cases hi : s.attr .individuals with
  | none =>
    have ri : (s.read h).individuals = none := by simp [Shared.read, hi]
    simp only [Shared.replace, Shared.assign, hi, Pop.replace, ri]
    exact ⟨hs, trivial, ⟨rfl, fun _ _ => rfl⟩, trivial, trivial⟩
  | some i =>
  have ri : (s.read h).individuals = some (h.cells i) := by simp [Shared.read, hi]
  obtain ⟨ho, hf⟩ := hs.present (by simp [hi])
  obtain ⟨a, ho⟩ := Option.ne_none_iff_exists'.mp ho
  obtain ⟨b, hf⟩ := Option.ne_none_iff_exists'.mp hf
  have ro : (s.read h).objectives = h.cells a := by simp [Shared.read, ho]
  have rf : (s.read h).fitness = h.cells b := by simp [Shared.read, hf]
  rcases assign_spec hs .individuals hi is (some x) with ⟨e, q, as⟩ | ⟨k1, q1, ⟨hne, _⟩ | ⟨v, h1, hv, as1, hs1, r1, o1, c1⟩⟩
  · simp only [Shared.replace, as, Pop.replace, ri, q]
    exact ⟨hs, trivial, ⟨rfl, fun _ _ => rfl⟩, trivial, trivial⟩
  · cases hne
  cases hv
  rcases assign_spec hs1 .objectives ho is (some o) with ⟨e, q, as⟩ | ⟨k2, q2, ⟨hne, _⟩ | ⟨v, h2, hv, as2, hs2, r2, o2, c2⟩⟩
  · rw [c1 _ _ ho (by decide)] at q
    simp only [Shared.replace, as1, as, Pop.replace, ri, q1, ro, q]
    exact ⟨hs1, trivial, o1, trivial, by rw [r1]; simp only [putCol, ro]⟩
  · cases hne
  cases hv
  have o12 := o1.trans o2
  rw [c1 _ _ ho (by decide)] at q2 r2
  have cb : h2.cells b = h.cells b := (c2 _ _ hf (by decide)).trans (c1 _ _ hf (by decide))
  rcases assign_spec hs2 .fitness hf is (some f) with ⟨e, q, as⟩ | ⟨k3, q3, ⟨hne, _⟩ | ⟨v, h3, hv, as3, hs3, r3, o3, c3⟩⟩
  · rw [cb] at q
    simp only [Shared.replace, as1, as2, as, Pop.replace, ri, q1, ro, q2, rf, q]
    exact ⟨hs2, trivial, o12, trivial, by rw [r2, r1]; simp only [putCol, rf]⟩
  · cases hne
  cases hv
  have o13 := o12.trans o3
  rw [cb] at q3 r3
  -- the uncertainty
  have last : ∀ (h4 : Heap R) (p : Pop R R R R R), Separate h4 s → OnlyOwn s h h4 → s.read h4 = p →
      ∀ out : Except Err Unit × Heap R × Shared, ∀ pout : Except Err Unit × Pop R R R R R,
      out = (match (if (s.attr .uncertainity).isSome then s.assign h4 .uncertainity is u else .ok h4) with
          | .error e => (.error e, h4, s)
          | .ok h => (.ok (), h, s)) →
      pout = uncTail p is u →
      Separate out.2.1 out.2.2 ∧ out.2.2 = s ∧ OnlyOwn s h out.2.1 ∧ out.1 = pout.1 ∧ out.2.2.read out.2.1 = pout.2 := by
    intro h4 p hs4 o4 hp out pout hout hpout
    subst hout hpout
    cases hu : s.attr .uncertainity with
    | none =>
      have : p.uncertainity = none := by rw [← hp]; simp [Shared.read, hu]
      simp only [uncTail, this, Option.isSome_none, Bool.false_eq_true, if_false]
      exact ⟨hs4, trivial, o4, trivial, hp⟩
    | some k =>
      have : p.uncertainity = some (h4.cells k) := by rw [← hp]; simp [Shared.read, hu]
      rcases assign_spec hs4 .uncertainity hu is u with ⟨e, q, as⟩ | ⟨k5, q5, ⟨hne, as⟩ | ⟨v, h5, hv, as5, hs5, r5, o5, _⟩⟩
      · simp only [uncTail, this, Option.isSome_some, if_true, as, q]
        exact ⟨hs4, trivial, o4, trivial, hp⟩
      · subst hne
        simp only [uncTail, this, Option.isSome_some, if_true, as, q5]
        exact ⟨hs4, trivial, o4, trivial, hp⟩
      · subst hv
        simp only [uncTail, this, Option.isSome_some, if_true, as5, q5]
        exact ⟨hs5, trivial, o4.trans o5, trivial, by rw [r5, hp]; rfl⟩
  obtain ⟨q, hq⟩ : ∃ q : Pop R R R R R, q = Pop.mk (s.read h).nCons (s.read h).ndim (some (setRows (h.cells i) k1 x))
      (setRows (h.cells a) k2 o) (setRows (h.cells b) k3 f) (s.read h).constraint (s.read h).uncertainity := ⟨_, rfl⟩
  have r3' : s.read h3 = q := by rw [r3, r2, r1, hq]; rfl
  have qc : q.constraint = (s.read h).constraint := by rw [hq]
  have hpure : (s.read h).replace is x o f c u = conTail q is c u := by
    rw [pure_replace (s.read h) is x o f c u ri q1 (by rw [ro]; exact q2) (by rw [rf]; exact q3), hq, ro, rf]
  have hsh : s.replace h is x o f c u =
      (match (if (s.attr .constraint).isSome then s.assign h3 .constraint is c else .ok h3) with
        | .error e => (.error e, h3, s)
        | .ok h =>
          match (if (s.attr .uncertainity).isSome then s.assign h .uncertainity is u else .ok h) with
          | .error e => (.error e, h, s)
          | .ok h => (.ok (), h, s)) := by
    simp only [Shared.replace, as1, as2, as3]
    rfl
  cases hc : s.attr .constraint with
  | none =>
    have rc : q.constraint = none := by rw [qc]; simp [Shared.read, hc]
    refine last h3 q hs3 o13 r3' _ _ ?_ ?_
    · rw [hsh, hc]; rfl
    · rw [hpure, conTail, rc]
  | some k =>
    have rc : q.constraint = some (h.cells k) := by rw [qc]; simp [Shared.read, hc]
    have ck : h3.cells k = h.cells k := (c3 _ _ hc (by decide)).trans ((c2 _ _ hc (by decide)).trans (c1 _ _ hc (by decide)))
    rcases assign_spec hs3 .constraint hc is c with ⟨e, q', as⟩ | ⟨k5, q5, ⟨hne, as⟩ | ⟨v, h4, hv, as5, hs4, r4, o4, _⟩⟩
    · rw [ck] at q'
      rw [hsh, hpure]
      simp only [hc, conTail, rc, q', as, Option.isSome_some, if_true]
      exact ⟨hs3, trivial, o13, trivial, r3'⟩
    · rw [ck] at q5
      subst hne
      rw [hsh, hpure]
      simp only [hc, conTail, rc, q5, as, Option.isSome_some, if_true]
      exact ⟨hs3, trivial, o13, trivial, r3'⟩
    · rw [ck] at q5 r4
      subst hv
      refine last h4 { q with constraint := some (setRows (h.cells k) k5 v) } hs4 (o13.trans o4) (by rw [r4, r3']; rfl) _ _ ?_ ?_
      · rw [hsh]; simp only [hc, as5, Option.isSome_some, if_true]
      · rw [hpure]; simp only [conTail, rc, q5]

/-! ### The theorems -/

/-- **C90.** One call on a population with shared arrays raises what it raises on plain values, and leaves, as far as any reader of the
population can see, the same population. -/
theorem c90_call_as_on_values (h : Heap R) (s : Shared) (hs : Separate h s) (op : SharedOp R) (hg : Given h s op) (call : PopOp R R R R R)
    (hc : callSeen h op = some call) :
    (s.step h op).1 = ((s.read h).step call).1 ∧ (s.step h op).2.2.read (s.step h op).2.1 = ((s.read h).step call).2 := by
  cases op with
  | add d off ev => cases hc; exact (add_agrees hs d off ev hg).2.2
  | keep is => cases hc; exact (keep_agrees hs is).2.2
  | delete is => cases hc; exact (delete_agrees hs is).2.2
  | replace is x o f c u => cases hc; exact (replace_agrees hs is x o f c u).2.2.2
  | array rows => cases hc

private theorem step_separate {h : Heap R} {s : Shared} (hs : Separate h s) (op : SharedOp R) (hg : Given h s op) :
    Separate (s.step h op).2.1 (s.step h op).2.2 := by
  cases op with
  | add d off ev => exact (add_agrees hs d off ev hg).1
  | keep is => exact (keep_agrees hs is).1
  | delete is => exact (delete_agrees hs is).1
  | replace is x o f c u => exact (replace_agrees hs is x o f c u).1
  | array rows => exact separate_unchanged hs (Unchanged.alloc h rows).1

/-- **C90.** Any history of calls on a population with shared arrays, other arrays being created in between, leaves the population that
the same calls leave on plain values; its attributes still refer to separate arrays.  (So everything proved of populations as values
holds of the arrays.) -/
theorem c90_history_as_on_values (ops : List (SharedOp R)) : ∀ (h : Heap R) (s : Shared), Separate h s → GivenAll h s ops →
    (s.run h ops).2.read (s.run h ops).1 = (s.read h).run (callsSeen h s ops) ∧ Separate (s.run h ops).1 (s.run h ops).2 := by
  induction ops with
  | nil => intro h s hs _; exact ⟨rfl, hs⟩
  | cons op ops ih =>
    intro h s hs hg
    have hs' := step_separate hs op hg.1
    obtain ⟨h1, h2⟩ := ih _ _ hs' hg.2
    refine ⟨?_, h2⟩
    rw [Shared.run, h1, callsSeen]
    cases hc : callSeen h op with
    | some call =>
      simp only [Option.toList_some, List.singleton_append, Pop.run]
      rw [(c90_call_as_on_values h s hs op hg.1 call hc).2]
    | none =>
      simp only [Option.toList_none, List.nil_append]
      cases op <;> simp only [callSeen, reduceCtorEq] at hc
      rename_i rows
      simp only [Shared.step]
      rw [read_unchanged hs (Unchanged.alloc h rows)]

private theorem vstack_ok {h h' : Heap R} {s s' : Shared} {c : Col} {b : Option Nat} (hv : s.vstack h c b = .ok (h', s')) :
    s' = s.set c (some h.next) ∧ h'.next = h.next + 1 := by
  unfold Shared.vstack at hv
  split at hv
  · cases hv; exact ⟨rfl, rfl⟩
  · cases hv

/-- After an `add` that appended, every attribute refers to an array newer than the call. -/
private theorem add_new {h h' : Heap R} {s s' : Shared} {d off : Nat} {r : SharedResults} (hi : s.attr .individuals ≠ none)
    (hd : s.ndim = d + 1 ∨ s.ndim = d) (hc : s.nCons = 0 → s.attr .constraint = none)
    (ha : s.add h d off (.ok r) = (.ok (), h', s')) : ∀ c a, s'.attr c = some a → h.next ≤ a := by
  obtain ⟨i, hi⟩ := Option.ne_none_iff_exists'.mp hi
  simp only [Shared.add, hi, if_pos hd] at ha
  split at ha
  · cases ha
  rename_i hs2 v2
  obtain ⟨h2, s2⟩ := hs2
  obtain ⟨e2, n2⟩ := vstack_ok v2
  split at ha
  · cases ha
  rename_i hs3 v3
  obtain ⟨h3, s3⟩ := hs3
  obtain ⟨e3, n3⟩ := vstack_ok v3
  simp only [Heap.alloc] at e2 n2 n3 e3
  -- the first three attributes
  have base : ∀ c a, c ≠ .constraint → c ≠ .uncertainity → s3.attr c = some a → h.next ≤ a := by
    intro c a h1 h2' hca
    rw [e3, e2] at hca
    cases c <;> simp [Shared.set] at hca h1 h2' <;> omega
  have n13 : h.next ≤ h3.next := by omega
  have hcon : s3.attr .constraint = s.attr .constraint := by rw [e3, e2]; simp [Shared.set]
  have fin : ∀ (h4 : Heap R) (s4 : Shared), h.next ≤ h4.next → (∀ c a, c ≠ .uncertainity → s4.attr c = some a → h.next ≤ a) →
      ∀ out, out = (match r.uncertainity with
            | none => ((.ok (), h4, s4.set .uncertainity none) : Except Err Unit × Heap R × Shared)
            | some u =>
              match s4.vstack h4 .uncertainity (some u) with
              | .error e => (.error e, h4, s4)
              | .ok hs => (.ok (), hs)) → out = (.ok (), h', s') → ∀ c a, s'.attr c = some a → h.next ≤ a := by
    intro h4 s4 hn4 hb4 out hout he c a hca
    rw [hout] at he
    split at he
    · cases he
      by_cases hcu : c = .uncertainity
      · subst hcu; simp [Shared.set] at hca
      · rw [set_attr_ne _ _ hcu] at hca; exact hb4 c a hcu hca
    · split at he
      · cases he
      · rename_i hs5 v5
        obtain ⟨h5, s5⟩ := hs5
        obtain ⟨e5, _⟩ := vstack_ok v5
        cases he
        rw [e5] at hca
        by_cases hcu : c = .uncertainity
        · subst hcu; simp [Shared.set] at hca; omega
        · rw [set_attr_ne _ _ hcu] at hca; exact hb4 c a hcu hca
  by_cases hn : s.nCons ≠ 0
  · simp only [if_pos hn] at ha
    split at ha
    · cases ha
    rename_i hs4 v4
    obtain ⟨h4, s4⟩ := hs4
    obtain ⟨e4, n4⟩ := vstack_ok v4
    refine fin h4 s4 (by omega) ?_ _ rfl (Eq.trans ?_ ha)
    · intro c a hcu hca
      rw [e4] at hca
      by_cases hcc : c = .constraint
      · subst hcc; simp [Shared.set] at hca; omega
      · rw [set_attr_ne _ _ hcc] at hca; exact base c a hcc hcu hca
    · rfl
  · simp only [if_neg hn] at ha
    refine fin h3 s3 n13 ?_ _ rfl (Eq.trans ?_ ha)
    · intro c a hcu hca
      by_cases hcc : c = .constraint
      · subst hcc
        rw [hcon, hc (by simpa using hn)] at hca
        cases hca
      · exact base c a hcc hcu hca
    · rfl

private theorem allocResults_spec (h : Heap R) (r : Results R R R R) :
    Unchanged h (h.allocResults r).2 ∧ (h.allocResults r).1.read (h.allocResults r).2 = r ∧
      (∀ a ∈ resultArrays (h.allocResults r).1, a < (h.allocResults r).2.next) := by
  obtain ⟨o, f, c, u⟩ := r
  cases c <;> cases u <;>
    refine ⟨⟨by simp [Heap.allocResults, Heap.alloc]; try omega, fun q hq => ?_⟩, ?_, ?_⟩ <;>
    simp [Heap.allocResults, Heap.alloc, SharedResults.read, resultArrays] <;> try omega
  all_goals
    split_ifs <;> first | omega | rfl

private theorem moead_agrees {h : Heap R} {s : Shared} (hs : Separate h s) (row : R) (fix : Option (R → R))
    (ev : R → Except Err (Results R R R R)) (sel : Pop R R R R R → Except Err (List Int))
    (hi : s.attr .individuals ≠ none) (hd : 0 < s.ndim) (hc : s.nCons = 0 → s.attr .constraint = none) :
    Agrees h (s.moeadTurn h row fix ev sel) (moeadValues (s.read h) row fix ev sel) := by
  obtain ⟨x, hx⟩ : ∃ x, x = fix.elim row (fun g => g row) := ⟨_, rfl⟩
  obtain ⟨h1, hh1⟩ : ∃ h1, h1 = fix.elim (h.alloc [row]).2 (fun g => (h.alloc [row]).2.repairInPlace (h.alloc [row]).1 g) :=
    ⟨_, rfl⟩
  have u1 : Unchanged h h1 := by
    rw [hh1]
    cases fix with
    | none => exact Unchanged.alloc _ _
    | some g =>
      refine ⟨Nat.le_succ _, fun r hr => ?_⟩
      simp [Heap.alloc, Heap.repairInPlace, Heap.write, Nat.ne_of_lt hr]
  have n1 : h1.next = h.next + 1 := by rw [hh1]; cases fix <;> rfl
  have c1 : h1.cells h.next = [x] := by
    rw [hh1, hx]; cases fix <;> simp [Heap.alloc, Heap.repairInPlace, Heap.write]
  have hs1 : Separate h1 s := separate_unchanged hs u1.1
  have hdef : s.moeadTurn h row fix ev sel = (match ev x with
      | .error e => (.error e, h1, s)
      | .ok r =>
        match s.add (h1.allocResults r).2 (s.ndim - 1) h.next (.ok (h1.allocResults r).1) with
        | (.error e, hs) => (.error e, hs)
        | (.ok _, h, s) =>
          match sel (s.read h) with
          | .error e => (.error e, h, s)
          | .ok is =>
            match r.objectives, r.fitness with
            | o :: _, f :: _ =>
              match s.replace h is x o f (r.constraints.bind List.head?) (r.uncertainity.bind List.head?) with
              | (.error e, hs) => (.error e, hs)
              | (.ok _, h, s) => s.delete h [-1]
            | _, _ => (.error .valueError, h, s)) := by
    rw [hx, hh1]; cases fix <;> rfl
  have hval : moeadValues (s.read h) row fix ev sel = (match ev x with
      | .error e => (.error e, s.read h)
      | .ok r =>
        match (s.read h).step (.add ⟨(s.read h).ndim - 1, [x]⟩ (.ok r)) with
        | (.error e, p) => (.error e, p)
        | (.ok _, p) =>
          match sel p with
          | .error e => (.error e, p)
          | .ok is =>
            match r.objectives, r.fitness with
            | o :: _, f :: _ =>
              match p.step (.replace is x o f (r.constraints.bind List.head?) (r.uncertainity.bind List.head?)) with
              | (.error e, p) => (.error e, p)
              | (.ok _, p) => p.step (.delete [-1])
            | _, _ => (.error .valueError, p)) := by
    rw [hx]; cases fix <;> rfl
  rw [hdef, hval]
  clear hdef hval hh1 hx
  cases hev : ev x with
  | error e => exact ⟨hs1, u1, rfl, read_unchanged hs u1⟩
  | ok r =>
    dsimp only
    obtain ⟨ua, ra, la⟩ := allocResults_spec h1 r
    have u2 := u1.trans ua
    have hs2 : Separate (h1.allocResults r).2 s := separate_unchanged hs u2.1
    have hg : Given (h1.allocResults r).2 s (.add (s.ndim - 1) h.next (.ok (h1.allocResults r).1) : SharedOp R) := by
      refine ⟨fun a ha => ?_, fun hn => absurd hn hi⟩
      rcases List.mem_cons.mp ha with rfl | ha
      · exact lt_of_lt_of_le (by omega) ua.1
      · exact la a ha
    have key := add_agrees hs2 (s.ndim - 1) h.next (.ok (h1.allocResults r).1) hg
    have hcell : (h1.allocResults r).2.cells h.next = [x] := by rw [ua.2 _ (by omega), c1]
    have hmap : (Except.ok (h1.allocResults r).1 : Except Err SharedResults).map (fun q => q.read (h1.allocResults r).2) = .ok r := by
      simp only [Except.map, ra]
    rw [hcell, hmap, read_unchanged hs u2] at key
    have hnd : (s.read h).ndim = s.ndim := rfl
    rw [hnd]
    have hnew := @add_new R (h1.allocResults r).2 
    cases hadd : s.add (h1.allocResults r).2 (s.ndim - 1) h.next (.ok (h1.allocResults r).1) with
    | mk oa hsa =>
    obtain ⟨h3, s3⟩ := hsa
    cases hp : (s.read h).step (.add ⟨s.ndim - 1, [x]⟩ (.ok r)) with
    | mk op p =>
    rw [hadd, hp] at key
    obtain ⟨hs3, u3, ho, hr3⟩ := key
    simp only at hs3 u3 ho hr3
    subst ho
    have u23 := u2.trans u3
    cases oa with
    | error e => exact ⟨hs3, u23, rfl, hr3⟩
    | ok _ =>
      have fresh3 := hnew hi (by omega) hc hadd
      simp only [hr3]
      cases hsel : sel p with
      | error e => exact ⟨hs3, u23, rfl, hr3⟩
      | ok is =>
        dsimp only
        rcases hob : r.objectives with _ | ⟨o, os⟩
        · exact ⟨hs3, u23, rfl, hr3⟩
        rcases hfi : r.fitness with _ | ⟨f, fs⟩
        · exact ⟨hs3, u23, rfl, hr3⟩
        simp only [Pop.step]
        have krep := replace_agrees hs3 is x o f (r.constraints.bind List.head?) (r.uncertainity.bind List.head?)
        rw [hr3] at krep
        cases hrep : s3.replace h3 is x o f (r.constraints.bind List.head?) (r.uncertainity.bind List.head?) with
        | mk ob hsb =>
        obtain ⟨h4, s4⟩ := hsb
        cases hpr : p.replace is x o f (r.constraints.bind List.head?) (r.uncertainity.bind List.head?) with
        | mk opr p4 =>
        rw [hrep, hpr] at krep
        obtain ⟨hs4, e4, own, ho4, hr4⟩ := krep
        simp only at hs4 e4 own ho4 hr4
        subst ho4
        have u4 : Unchanged h h4 := by
          refine ⟨by rw [own.1]; exact u23.1, fun q hq => ?_⟩
          rw [own.2 q (fun c hcq => ?_)]
          · exact u23.2 q hq
          · have := fresh3 c q hcq
            have := u2.1
            omega
        cases ob with
        | error e => exact ⟨hs4, u4, rfl, hr4⟩
        | ok _ =>
          have kd := delete_agrees hs4 [-1]
          rw [hr4] at kd
          exact ⟨kd.1, u4.trans kd.2.1, kd.2.2⟩

/-- **C90.** A step of MOEA/D on shared arrays does to the population what it does on values. -/
theorem c90_moead_step_as_on_values (h : Heap R) (s : Shared) (hs : Separate h s) (row : R) (fix : Option (R → R))
    (ev : R → Except Err (Results R R R R)) (sel : Pop R R R R R → Except Err (List Int))
    (hg : GivenTurn h s (.moead row fix ev sel)) :
    (s.moeadTurn h row fix ev sel).1 = (moeadValues (s.read h) row fix ev sel).1 ∧
      (s.moeadTurn h row fix ev sel).2.2.read (s.moeadTurn h row fix ev sel).2.1 = (moeadValues (s.read h) row fix ev sel).2 :=
  (moead_agrees hs row fix ev sel hg.1 hg.2.1 hg.2.2).2.2

/-- **C90.** Whatever the algorithms of the package do afterwards, for any number of turns, an array that exists now keeps its contents:
a table of the archive, the data of a plot request, an array the caller got from or gave to the population. -/
theorem c90_arrays_handed_out_never_change (ts : List (Turn R)) : ∀ (h : Heap R) (s : Shared), Separate h s → GivenTurns h s ts →
    Unchanged h (s.turns h ts).1 ∧ Separate (s.turns h ts).1 (s.turns h ts).2 := by
  induction ts with
  | nil => intro h s hs _; exact ⟨Unchanged.refl h, hs⟩
  | cons t ts ih =>
    intro h s hs hg
    have one : Unchanged h (s.turn h t).2.1 ∧ Separate (s.turn h t).2.1 (s.turn h t).2.2 := by
      cases t with
      | add d off ev => exact ⟨(add_agrees hs d off ev hg.1).2.1, (add_agrees hs d off ev hg.1).1⟩
      | keep is => exact ⟨(keep_agrees hs is).2.1, (keep_agrees hs is).1⟩
      | delete is => exact ⟨(delete_agrees hs is).2.1, (delete_agrees hs is).1⟩
      | array rows => exact ⟨Unchanged.alloc _ _, separate_unchanged hs (Unchanged.alloc h rows).1⟩
      | moead row fix ev sel =>
        have := moead_agrees hs row fix ev sel hg.1.1 hg.1.2.1 hg.1.2.2
        exact ⟨this.2.1, this.1⟩
    obtain ⟨h1, h2⟩ := ih _ _ one.2 hg.2
    exact ⟨one.1.trans h1, h2⟩

/-- **C90.** `replace` changes no array but those the population refers to at that moment, and leaves the attributes where they are:
what it writes is seen by everybody who holds one of these arrays. -/
theorem c90_replace_writes_only_own_arrays (h : Heap R) (s : Shared) (hs : Separate h s) (is : List Int) (x o f : R) (c u : Option R) :
    (s.replace h is x o f c u).2.2 = s ∧ (s.replace h is x o f c u).2.1.next = h.next ∧
      ∀ r, (∀ k, s.attr k ≠ some r) → (s.replace h is x o f c u).2.1.cells r = h.cells r :=
  ⟨(replace_agrees hs is x o f c u).2.1, (replace_agrees hs is x o f c u).2.2.1.1, (replace_agrees hs is x o f c u).2.2.1.2⟩

/-! ### Cases -/

/-- An empty population. -/
private def empty : Shared := ⟨0, 0, fun _ => none⟩

/-- Three arrays: two individuals, their objectives and their fitness. -/
private def three : Heap Nat :=
  ⟨fun r => match r with
    | 0 => [10, 11]
    | 1 => [20, 21]
    | 2 => [30, 31]
    | _ => [], 3⟩

private theorem empty_separate (h : Heap Nat) : Separate h empty :=
  ⟨fun _ _ hc => by simp [empty] at hc, fun _ _ _ hc => by simp [empty] at hc, fun hc => by simp [empty] at hc⟩

/-- **C90, the exception.** The first `add` keeps the caller's array as the population's, and `replace` called on the population directly
writes into it: the caller's own array (and every table made from the population before) has changed. -/
theorem c90_direct_replace_violated :
    (three.cells 0 = [10, 11]) ∧
    ((empty.run three [.add 2 0 (.ok ⟨1, 2, none, none⟩), .replace [1] 77 88 99 none none]).1.cells 0 = [10, 77]) ∧
    ((empty.run three [.add 2 0 (.ok ⟨1, 2, none, none⟩), .replace [1] 77 88 99 none none]).2.attr .individuals = some 0) := by
  decide +kernel

/-- The hypotheses of the history theorem are met: add, another array and its evaluation, add, keep, replace, delete. -/
example : GivenAll three empty [.add 2 0 (.ok ⟨1, 2, none, none⟩), .array [12], .array [22], .array [32],
    .add 1 3 (.ok ⟨4, 5, none, none⟩), .keep [0, 2], .replace [0] 77 88 99 none none, .delete [-1]] := by
  simp [GivenAll, Given, resultArrays, three, empty, Shared.step, Shared.add, Heap.alloc]

/-- ... and the theorem gives what one expects of it. -/
example : ((empty.run three [.add 2 0 (.ok ⟨1, 2, none, none⟩), .array [12], .array [22], .array [32],
    .add 1 3 (.ok ⟨4, 5, none, none⟩), .keep [0, 2], .replace [0] 77 88 99 none none]).2.read
    (empty.run three [.add 2 0 (.ok ⟨1, 2, none, none⟩), .array [12], .array [22], .array [32],
    .add 1 3 (.ok ⟨4, 5, none, none⟩), .keep [0, 2], .replace [0] 77 88 99 none none]).1).individuals = some [77, 12] := by
  decide +kernel

/-- The hypotheses about turns are met by a population followed by two steps of MOEA/D with repair; the first individual is replaced and
the arrays of the caller are as before. -/
example :
    let ts : List (Turn Nat) := [.add 2 0 (.ok ⟨1, 2, none, none⟩),
      .moead 5 (some (· + 1)) (fun x => .ok ⟨[x], [x], none, none⟩) (fun _ => .ok [0]),
      .moead 8 none (fun x => .ok ⟨[x], [x], none, none⟩) (fun _ => .ok [])]
    GivenTurns three empty ts ∧ ((empty.turns three ts).2.read (empty.turns three ts).1).individuals = some [6, 11] ∧
      (empty.turns three ts).1.cells 0 = [10, 11] := by
  refine ⟨⟨⟨?_, ?_⟩, ⟨?_, ?_, ?_⟩, ⟨?_, ?_, ?_⟩, trivial⟩, ?_, ?_⟩ <;> decide +kernel

end Verif.Props
