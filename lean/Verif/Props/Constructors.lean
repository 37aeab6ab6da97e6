import Verif.Model.Constructors
import Verif.Spec.Calls
import Verif.Proofs.RefVectors
import Verif.Props.Loop

/-!
# Property C106: the arguments of a constructor call reach the run
-/

namespace Verif.Props
open Verif Verif.Spec

/-- The names of the parameters of a class's constructor, in order. -/
def paramNames (c : EAClass) : List String := c.init.params.map Prod.fst

/-- The defaults in a class's signature. -/
def paramDefault (c : EAClass) (p : String) : Option PyVal := (c.init.params.lookup p).join

theorem names_nodup (c : EAClass) : (paramNames c).Nodup := by cases c <;> decide

/-! ## Binding -/

theorem pyArg_spec (pos : Option PyVal) (kw : PyEnv) (p : PyParam) :
    pyArg pos kw p = match pos.or ((kw.lookup p.1).or p.2) with
      | some v => .ok v
      | none => .error .typeError := by
  obtain ⟨n, d⟩ := p
  unfold pyArg
  dsimp only
  cases pos <;> cases kw.lookup n <;> cases d <;> rfl

theorem pyArgs_spec (kw : PyEnv) (ps : List PyParam) (pos : List PyVal) :
    (∀ env, pyArgs kw ps pos = .ok env → env.length = ps.length ∧ ∀ (i : Nat) (p : PyParam), ps[i]? = some p →
      ∃ v, env[i]? = some (p.1, v) ∧ pos[i]?.or ((kw.lookup p.1).or p.2) = some v) ∧
    ((∀ (i : Nat) (p : PyParam), ps[i]? = some p → pos[i]?.or ((kw.lookup p.1).or p.2) ≠ none) → ∃ env, pyArgs kw ps pos = .ok env) ∧
    ((∃ (i : Nat) (p : PyParam), ps[i]? = some p ∧ pos[i]?.or ((kw.lookup p.1).or p.2) = none) → pyArgs kw ps pos = .error .typeError) := by
  induction ps generalizing pos with
  | nil =>
    refine ⟨?_, ?_, ?_⟩
    · intro env h; cases h; simp
    · intro _; exact ⟨[], rfl⟩
    · rintro ⟨i, p, h, -⟩; simp at h
  | cons p ps ih =>
    obtain ⟨i1, i2, i3⟩ := ih pos.tail
    have ht : ∀ i : Nat, pos.tail[i]? = pos[i + 1]? := by intro i; cases pos <;> simp
    have hh : pos.head? = pos[0]? := by cases pos <;> rfl
    simp only [pyArgs, pyArg_spec, hh]
    refine ⟨?_, ?_, ?_⟩
    · intro env h
      cases h0 : pos[0]?.or ((kw.lookup p.1).or p.2) with
      | none => rw [h0] at h; cases h
      | some v =>
        rw [h0] at h
        dsimp only at h
        cases hr : pyArgs kw ps pos.tail with
        | error e => rw [hr] at h; cases h
        | ok e =>
          rw [hr] at h
          cases h
          obtain ⟨j1, j2⟩ := i1 e hr
          refine ⟨by simp [j1], fun i q hq => ?_⟩
          cases i with
          | zero => simp at hq; subst hq; exact ⟨v, rfl, h0⟩
          | succ i =>
            obtain ⟨w, hw, hw2⟩ := j2 i q (by simpa using hq)
            rw [ht] at hw2
            exact ⟨w, by simpa using hw, hw2⟩
    · intro h
      have h0 := h 0 p rfl
      obtain ⟨v, hv⟩ := Option.ne_none_iff_exists'.1 h0
      obtain ⟨e, he⟩ := i2 (fun i q hq => by rw [ht]; exact h (i + 1) q (by simpa using hq))
      rw [hv, he]
      exact ⟨_, rfl⟩
    · rintro ⟨i, q, hq, hn⟩
      cases i with
      | zero =>
        simp at hq; subst hq
        rw [hn]
      | succ i =>
        have := i3 ⟨i, q, by simpa using hq, by rw [ht]; exact hn⟩
        rw [this]
        cases pos[0]?.or ((kw.lookup p.1).or p.2) <;> rfl

theorem lookup_of_nodup {α : Type} (l : List (String × α)) (hn : (l.map Prod.fst).Nodup) (i : Nat) (p : String) (v : α)
    (h : l[i]? = some (p, v)) : l.lookup p = some v := by
  induction l generalizing i with
  | nil => simp at h
  | cons a l ih =>
    obtain ⟨k, w⟩ := a
    simp only [List.map_cons, List.nodup_cons] at hn
    cases i with
    | zero =>
      simp only [List.getElem?_cons_zero, Option.some.injEq, Prod.mk.injEq] at h
      obtain ⟨rfl, rfl⟩ := h
      simp [List.lookup]
    | succ i =>
      simp only [List.getElem?_cons_succ] at h
      have hm : p ∈ l.map Prod.fst := List.mem_map.2 ⟨(p, v), List.mem_of_getElem? h, rfl⟩
      have hne : p ≠ k := fun e => hn.1 (e ▸ hm)
      have : (p == k) = false := by simpa using hne
      simp only [List.lookup, this]
      exact ih hn.2 i h

theorem lookup_none {α : Type} (l : List (String × α)) (p : String) : l.lookup p = none ↔ ∀ v, (p, v) ∉ l := by
  induction l with
  | nil => simp
  | cons a l ih =>
    obtain ⟨k, w⟩ := a
    by_cases h : p = k
    · subst h; simp [List.lookup]; exact ⟨w, fun h => absurd rfl h⟩
    · have : (p == k) = false := by simpa using h
      simp only [List.lookup, this, ih, List.mem_cons, Prod.mk.injEq, not_or]
      constructor
      · intro hh v; exact ⟨fun e => h e.1, hh v⟩
      · intro hh v; exact (hh v).2

/-- What the binding gives to each parameter. -/
theorem bind_receives (c : EAClass) (pos : List PyVal) (kw : PyEnv) (env : PyEnv) (h : pyBind c.init.params pos kw = .ok env) (p : String)
    (hp : p ∈ paramNames c) : ∃ v, env.lookup p = some v ∧ Receives (paramNames c) (paramDefault c) pos kw p v := by
  unfold pyBind at h
  split at h
  · cases h
  · split at h
    · obtain ⟨h1, h2⟩ := (pyArgs_spec kw c.init.params pos).1 env h
      obtain ⟨q, hq, rfl⟩ := List.mem_map.1 hp
      obtain ⟨i, hi⟩ := List.getElem?_of_mem hq
      obtain ⟨v, hv, hv2⟩ := h2 i q hi
      have hnames : env.map Prod.fst = paramNames c := by
        apply List.ext_getElem?
        intro j
        simp only [paramNames, List.getElem?_map]
        cases hj : c.init.params[j]? with
        | none =>
          have : env[j]? = none := by rw [List.getElem?_eq_none_iff] at hj ⊢; omega
          rw [this]; rfl
        | some r => obtain ⟨w, hw, -⟩ := h2 j r hj; rw [hw]; rfl
      have hnd := names_nodup c
      refine ⟨v, lookup_of_nodup env (by rw [hnames]; exact hnd) i q.1 v hv, ?_⟩
      have hni : (paramNames c)[i]? = some q.1 := by simp [paramNames, hi]
      have huniq : ∀ j : Nat, (paramNames c)[j]? = some q.1 → j = i := by
        intro j hj
        have hj' := (List.getElem?_eq_some_iff.1 hj)
        have hi' := (List.getElem?_eq_some_iff.1 hni)
        exact (List.Nodup.getElem_inj_iff hnd).1 (hj'.2.trans hi'.2.symm)
      cases hpos : pos[i]? with
      | some w =>
        rw [hpos] at hv2
        simp at hv2; subst hv2
        exact .position i w hni hpos
      | none =>
        rw [hpos] at hv2
        have hno : ∀ j : Nat, (paramNames c)[j]? = some q.1 → pos[j]? = none := fun j hj => by rw [huniq j hj]; exact hpos
        cases hk : kw.lookup q.1 with
        | some w =>
          rw [hk] at hv2
          simp at hv2; subst hv2
          exact .keyword w hno hk
        | none =>
          rw [hk] at hv2
          simp at hv2
          refine .default v hno hk ?_
          unfold paramDefault
          rw [lookup_of_nodup c.init.params hnd i q.1 q.2 hi]
          exact hv2
    · cases h

/-- The binding succeeds exactly for legal calls, and raises TypeError otherwise. -/
theorem bind_legal (c : EAClass) (pos : List PyVal) (kw : PyEnv) :
    (LegalCall (paramNames c) (paramDefault c) pos kw → ∃ env, pyBind c.init.params pos kw = .ok env) ∧
    (¬ LegalCall (paramNames c) (paramDefault c) pos kw → pyBind c.init.params pos kw = .error .typeError) := by
  have hnd := names_nodup c
  have hguard : (kw.all (fun a => (c.init.params.map Prod.fst).contains a.1) &&
      kw.all (fun a => !((c.init.params.take pos.length).map Prod.fst).contains a.1)) = true ↔
      ∀ a ∈ kw, a.1 ∈ paramNames c ∧ a.1 ∉ (paramNames c).take pos.length := by
    simp only [Bool.and_eq_true, List.all_eq_true, List.contains_iff_mem, Bool.not_eq_true', List.map_take]
    constructor
    · rintro ⟨h1, h2⟩ a ha
      refine ⟨h1 a ha, fun hm => ?_⟩
      have hm' : a.1 ∈ List.take pos.length (c.init.params.map Prod.fst) := hm
      have := h2 a ha
      rw [List.contains_iff_mem.2 hm'] at this
      cases this
    · intro h
      refine ⟨fun a ha => (h a ha).1, fun a ha => ?_⟩
      cases hc : (List.take pos.length (c.init.params.map Prod.fst)).contains a.1 with
      | false => rfl
      | true => exact absurd (List.contains_iff_mem.1 hc) (h a ha).2
  have hgive : ∀ (i : Nat) (q : PyParam), c.init.params[i]? = some q →
      (pos[i]?.or ((kw.lookup q.1).or q.2) ≠ none ↔ (paramDefault c q.1 = none → i < pos.length ∨ ∃ v, (q.1, v) ∈ kw)) := by
    intro i q hi
    have hd : paramDefault c q.1 = q.2 := by
      unfold paramDefault
      rw [lookup_of_nodup c.init.params hnd i q.1 q.2 hi]; rfl
    rw [hd]
    cases hpos : pos[i]? with
    | some v =>
      have : i < pos.length := (List.getElem?_eq_some_iff.1 hpos).1
      simp [this]
    | none =>
      have hge : ¬ i < pos.length := by rw [List.getElem?_eq_none_iff] at hpos; omega
      cases hk : kw.lookup q.1 with
      | some v =>
        have : ∃ v, (q.1, v) ∈ kw := by
          by_contra hno
          push Not at hno
          rw [(lookup_none kw q.1).2 hno] at hk; cases hk
        simp [this]
      | none =>
        have := (lookup_none kw q.1).1 hk
        cases hq : q.2 with
        | none => simp [hge, this]
        | some d => simp
  unfold pyBind LegalCall
  rw [show (paramNames c).length = c.init.params.length by simp [paramNames]]
  constructor
  · rintro ⟨h1, h2, h3⟩
    rw [if_neg (by omega), if_pos (hguard.2 h2)]
    exact (pyArgs_spec kw c.init.params pos).2.1 (fun i q hi => (hgive i q hi).2 (h3 i q.1 (by simp [paramNames, hi])))
  · intro hno
    split
    · rfl
    · rename_i hlen
      split
      · rename_i hg
        have h2 := hguard.1 hg
        apply (pyArgs_spec kw c.init.params pos).2.2
        by_contra hall
        push Not at hall
        apply hno
        refine ⟨by omega, h2, fun i p hi hdn => ?_⟩
        simp only [paramNames, List.getElem?_map, Option.map_eq_some_iff] at hi
        obtain ⟨q, hq, rfl⟩ := hi
        exact (hgive i q hq).1 (hall i q hq) hdn
      · rfl

/-! ## From one constructor to the next -/

theorem evalKeywords_spec (env : PyEnv) (args : List (String × PyExpr)) :
    (∀ kw', evalKeywords env args = .ok kw' → kw'.map Prod.fst = args.map Prod.fst ∧
      ∀ q, (args.lookup q = none → kw'.lookup q = none) ∧ ∀ e, args.lookup q = some e → ∃ v, e.eval env = .ok v ∧ kw'.lookup q = some v) ∧
    ((∀ a ∈ args, ∃ v, a.2.eval env = .ok v) → ∃ kw', evalKeywords env args = .ok kw') := by
  induction args with
  | nil =>
    refine ⟨?_, fun _ => ⟨[], rfl⟩⟩
    intro kw' h
    cases h
    simp
  | cons a args ih =>
    obtain ⟨k, x⟩ := a
    obtain ⟨i1, i2⟩ := ih
    refine ⟨?_, ?_⟩
    · intro kw' h
      simp only [evalKeywords] at h
      cases hx : x.eval env with
      | error e => rw [hx] at h; cases h
      | ok v =>
        rw [hx] at h
        cases hr : evalKeywords env args with
        | error e => rw [hr] at h; cases h
        | ok r =>
          rw [hr] at h
          cases h
          obtain ⟨j1, j2⟩ := i1 r hr
          refine ⟨by simp [j1], fun q => ?_⟩
          by_cases hq : q = k
          · subst hq
            refine ⟨fun h => by simp [List.lookup] at h, fun e he => ?_⟩
            simp [List.lookup] at he
            subst he
            exact ⟨v, hx, by simp [List.lookup]⟩
          · have : (q == k) = false := by simpa using hq
            simp only [List.lookup, this]
            exact j2 q
    · intro h
      obtain ⟨v, hv⟩ := h (k, x) (by simp)
      obtain ⟨r, hr⟩ := i2 (fun a ha => h a (List.mem_cons_of_mem _ ha))
      simp only [evalKeywords, hr]
      dsimp only at hv
      rw [hv]
      exact ⟨_, rfl⟩

/-- What a parameter (or literal) of the parent's constructor is in terms of the parameters of the constructor that calls it with `args`. -/
def through (args : List (String × PyExpr)) (parent : EAClass) : PyExpr → Option PyExpr
  | .lit v => some (.lit v)
  | .var q =>
    match args.lookup q with
    | some e => some e
    | none => (paramDefault parent q).map .lit

/-- The parameter of `c` (or literal) that the constructor of the ancestor `a` receives as `p`. -/
def source : Nat → EAClass → EAClass → String → Option PyExpr
  | 0, _, _, _ => none
  | n + 1, c, a, p =>
    if c = a then some (.var p)
    else
      match c.init.parent with
      | none => none
      | some (P, args) => (source n P a p).bind (through args P)

/-- The parameter of `c` (or literal) that the attribute `k` keeps. -/
def attrSource : Nat → EAClass → String → Option PyExpr
  | 0, _, _ => none
  | n + 1, c, k =>
    match c.init.sets.lookup k with
    | some q => some (.var q)
    | none =>
      match c.init.parent with
      | none => none
      | some (P, args) => (attrSource n P k).bind (through args P)

/-- `v` is the literal, or what the parameter receives in the call. -/
def Stands (c : EAClass) (pos : List PyVal) (kw : PyEnv) : PyExpr → PyVal → Prop
  | .lit w, v => v = w
  | .var q, v => Receives (paramNames c) (paramDefault c) pos kw q v

theorem env_names (c : EAClass) (pos : List PyVal) (kw env : PyEnv) (h : pyBind c.init.params pos kw = .ok env) (q : String) (v : PyVal)
    (hq : env.lookup q = some v) : q ∈ paramNames c := by
  unfold pyBind at h
  split at h
  · cases h
  · split at h
    · obtain ⟨h1, h2⟩ := (pyArgs_spec kw c.init.params pos).1 env h
      by_contra hno
      have : env.lookup q = none := by
        rw [lookup_none]
        intro w hw
        obtain ⟨i, hi⟩ := List.getElem?_of_mem hw
        have hl : i < c.init.params.length := by
          have := (List.getElem?_eq_some_iff.1 hi).1; omega
        obtain ⟨u, hu, -⟩ := h2 i c.init.params[i] (List.getElem?_eq_getElem hl)
        rw [hi] at hu
        simp only [Option.some.injEq, Prod.mk.injEq] at hu
        exact hno (by rw [hu.1]; exact List.mem_map.2 ⟨_, List.getElem_mem hl, rfl⟩)
      rw [this] at hq; cases hq
    · cases h

theorem stands_through (c P : EAClass) (args : List (String × PyExpr)) (pos : List PyVal) (kw env kw' : PyEnv)
    (hb : pyBind c.init.params pos kw = .ok env) (hk : evalKeywords env args = .ok kw') (e : PyExpr) (v : PyVal) (h : Stands P [] kw' e v) :
    ∃ e', through args P e = some e' ∧ Stands c pos kw e' v := by
  cases e with
  | lit w => exact ⟨.lit w, rfl, h⟩
  | var q =>
    obtain ⟨-, hks⟩ := (evalKeywords_spec env args).1 kw' hk
    obtain ⟨n1, n2⟩ := hks q
    cases ha : args.lookup q with
    | none =>
      have hn := n1 ha
      cases h with
      | position i _ h1 h2 => simp at h2
      | keyword _ _ h2 => rw [hn] at h2; cases h2
      | default _ _ _ h3 => exact ⟨.lit v, by simp [through, ha, h3], rfl⟩
    | some x =>
      obtain ⟨w, hw, hw2⟩ := n2 x ha
      have hvw : v = w := by
        cases h with
        | position i _ h1 h2 => simp at h2
        | keyword _ _ h2 => rw [hw2] at h2; cases h2; rfl
        | default _ _ h2 _ => rw [hw2] at h2; cases h2
      subst hvw
      refine ⟨x, by simp [through, ha], ?_⟩
      cases x with
      | lit u => simp only [PyExpr.eval, Except.ok.injEq] at hw; exact hw.symm
      | var r =>
        simp only [PyExpr.eval] at hw
        cases hr : env.lookup r with
        | none => rw [hr] at hw; cases hw
        | some u =>
          rw [hr] at hw
          cases hw
          obtain ⟨u', h1, h2⟩ := bind_receives c pos kw env hb r (env_names c pos kw env hb r v hr)
          rw [hr] at h1; cases h1
          exact h2

theorem runInit_cases (n : Nat) (c : EAClass) (pos : List PyVal) (kw : PyEnv) (frames : List (EAClass × PyEnv))
    (h : runInit (n + 1) c pos kw = .ok frames) :
    ∃ env, pyBind c.init.params pos kw = .ok env ∧
      ((c.init.parent = none ∧ frames = [(c, env)]) ∨
        ∃ P args kw' rest, c.init.parent = some (P, args) ∧ evalKeywords env args = .ok kw' ∧ runInit n P [] kw' = .ok rest ∧
          frames = (c, env) :: rest) := by
  simp only [runInit] at h
  cases hb : pyBind c.init.params pos kw with
  | error e => rw [hb] at h; cases h
  | ok env =>
    rw [hb] at h
    refine ⟨env, rfl, ?_⟩
    dsimp only at h
    cases hp : c.init.parent with
    | none => rw [hp] at h; cases h; exact .inl ⟨rfl, rfl⟩
    | some pa =>
      obtain ⟨P, args⟩ := pa
      rw [hp] at h
      dsimp only at h
      cases hk : evalKeywords env args with
      | error e => rw [hk] at h; cases h
      | ok kw' =>
        rw [hk] at h
        dsimp only at h
        cases hr : runInit n P [] kw' with
        | error e => rw [hr] at h; cases h
        | ok rest => rw [hr] at h; cases h; exact .inr ⟨P, args, kw', rest, rfl, hk, hr, rfl⟩

theorem frames_source (n : Nat) (c : EAClass) (pos : List PyVal) (kw : PyEnv) (frames : List (EAClass × PyEnv))
    (h : runInit n c pos kw = .ok frames) (a : EAClass) (env : PyEnv) (hl : frames.lookup a = some env) (p : String) (hp : p ∈ paramNames a) :
    ∃ e v, source n c a p = some e ∧ env.lookup p = some v ∧ Stands c pos kw e v := by
  induction n generalizing c pos kw frames with
  | zero => cases h
  | succ n ih =>
    obtain ⟨env0, hb, hc⟩ := runInit_cases n c pos kw frames h
    by_cases hca : c = a
    · subst hca
      have : frames.lookup c = some env0 := by
        rcases hc with ⟨-, rfl⟩ | ⟨P, args, kw', rest, -, -, -, rfl⟩ <;> simp [List.lookup]
      rw [this] at hl
      have he : env = env0 := (Option.some.inj hl).symm
      subst he
      obtain ⟨v, h1, h2⟩ := bind_receives c pos kw env hb p hp
      exact ⟨.var p, v, by simp [source], h1, h2⟩
    · have hne : (a == c) = false := by simpa using fun e => hca e.symm
      rcases hc with ⟨-, rfl⟩ | ⟨P, args, kw', rest, hpar, hk, hr, rfl⟩
      · simp [List.lookup, hne] at hl
      · simp only [List.lookup, hne] at hl
        obtain ⟨e, v, h1, h2, h3⟩ := ih P [] kw' rest hr hl
        obtain ⟨e', h4, h5⟩ := stands_through c P args pos kw env0 kw' hb hk e v h3
        refine ⟨e', v, ?_, h2, h5⟩
        simp only [source, if_neg hca, hpar, h1, Option.bind_some, h4]

theorem lookup_append {α : Type} (l l' : List (String × α)) (k : String) : (l ++ l').lookup k = (l.lookup k).or (l'.lookup k) := by
  induction l with
  | nil => simp
  | cons a l ih =>
    obtain ⟨q, v⟩ := a
    simp only [List.cons_append, List.lookup]
    cases k == q <;> simp [ih]

theorem setAttrs_lookup (env : PyEnv) (sets : List (String × String)) (k : String) :
    (sets.lookup k = none → (setAttrs env sets).lookup k = none) ∧
    (∀ q v, sets.lookup k = some q → env.lookup q = some v → (setAttrs env sets).lookup k = some v) := by
  induction sets with
  | nil => simp [setAttrs]
  | cons a sets ih =>
    obtain ⟨x, y⟩ := a
    unfold setAttrs at ih ⊢
    simp only [List.filterMap_cons, List.lookup]
    by_cases hx : k = x
    · subst hx
      refine ⟨fun h => by simp at h, fun q v hq hv => ?_⟩
      simp at hq
      subst hq
      rw [hv]
      simp [List.lookup]
    · have hne : (k == x) = false := by simpa using hx
      simp only [hne]
      cases env.lookup y with
      | none => simpa using ih
      | some w => simpa [List.lookup, hne] using ih

theorem sets_known (c : EAClass) : ∀ a ∈ c.init.sets, a.2 ∈ paramNames c := by cases c <;> decide

theorem lookup_mem {α : Type} (l : List (String × α)) (k : String) (v : α) (h : l.lookup k = some v) : (k, v) ∈ l := by
  induction l with
  | nil => simp at h
  | cons a l ih =>
    obtain ⟨q, w⟩ := a
    by_cases hq : k = q
    · subst hq
      simp [List.lookup] at h
      simp [h]
    · have : (k == q) = false := by simpa using hq
      simp only [List.lookup, this] at h
      exact List.mem_cons_of_mem _ (ih h)

theorem attrs_source (n : Nat) (c : EAClass) (pos : List PyVal) (kw : PyEnv) (frames : List (EAClass × PyEnv))
    (h : runInit n c pos kw = .ok frames) (k : String) :
    match attrSource n c k with
    | none => (attrsOf frames).lookup k = none
    | some e => ∃ v, (attrsOf frames).lookup k = some v ∧ Stands c pos kw e v := by
  induction n generalizing c pos kw frames with
  | zero => cases h
  | succ n ih =>
    obtain ⟨env0, hb, hc⟩ := runInit_cases n c pos kw frames h
    obtain ⟨s1, s2⟩ := setAttrs_lookup env0 c.init.sets k
    simp only [attrSource]
    cases hs : c.init.sets.lookup k with
    | some q =>
      obtain ⟨v, h1, h2⟩ := bind_receives c pos kw env0 hb q (sets_known c (k, q) (lookup_mem _ _ _ hs))
      have h3 := s2 q v hs h1
      refine ⟨v, ?_, h2⟩
      rcases hc with ⟨-, rfl⟩ | ⟨P, args, kw', rest, -, -, -, rfl⟩ <;>
        simp [attrsOf, lookup_append, h3]
    | none =>
      have h3 := s1 hs
      rcases hc with ⟨hpar, rfl⟩ | ⟨P, args, kw', rest, hpar, hk, hr, rfl⟩
      · simp [hpar, attrsOf, h3]
      · simp only [hpar]
        have hrest : (attrsOf ((c, env0) :: rest)).lookup k = (attrsOf rest).lookup k := by
          simp [attrsOf, lookup_append, h3]
        rw [hrest]
        have := ih P [] kw' rest hr
        cases ha : attrSource n P k with
        | none => rw [ha] at this; simpa using this
        | some e =>
          rw [ha] at this
          obtain ⟨v, h1, h2⟩ := this
          obtain ⟨e', h4, h5⟩ := stands_through c P args pos kw env0 kw' hb hk e v h2
          simp only [Option.bind_some, h4]
          exact ⟨v, h1, h5⟩

/-- Whether the keywords of every constructor call on the way up are accepted. -/
def wired : Nat → EAClass → Bool
  | 0, _ => false
  | n + 1, c =>
    match c.init.parent with
    | none => true
    | some (P, args) =>
      args.all (fun a => (paramNames P).contains a.1 && match a.2 with | .lit _ => true | .var q => (paramNames c).contains q) &&
      P.init.params.all (fun p => p.2.isSome || (args.map Prod.fst).contains p.1) && wired n P

theorem wired_runs (n : Nat) (c : EAClass) (hw : wired n c = true) (pos : List PyVal) (kw : PyEnv)
    (hl : LegalCall (paramNames c) (paramDefault c) pos kw) : ∃ frames, runInit n c pos kw = .ok frames := by
  induction n generalizing c pos kw with
  | zero => cases hw
  | succ n ih =>
    obtain ⟨env, hb⟩ := (bind_legal c pos kw).1 hl
    simp only [runInit, hb]
    simp only [wired] at hw
    cases hp : c.init.parent with
    | none => exact ⟨_, rfl⟩
    | some pa =>
      obtain ⟨P, args⟩ := pa
      rw [hp] at hw
      simp only [Bool.and_eq_true, List.all_eq_true] at hw
      obtain ⟨⟨w1, w2⟩, w3⟩ := hw
      obtain ⟨kw', hk⟩ := (evalKeywords_spec env args).2 (by
        intro a ha
        have := (w1 a ha).2
        obtain ⟨k, x⟩ := a
        cases x with
        | lit v => exact ⟨v, rfl⟩
        | var q =>
          simp only [List.contains_iff_mem] at this
          obtain ⟨v, hv, -⟩ := bind_receives c pos kw env hb q this
          exact ⟨v, by simp [PyExpr.eval, hv]⟩)
      obtain ⟨hkeys, -⟩ := (evalKeywords_spec env args).1 kw' hk
      obtain ⟨rest, hr⟩ := ih P w3 [] kw' (by
        refine ⟨by simp, fun a ha => ⟨?_, by simp⟩, fun i p hi hd => ?_⟩
        · have : a.1 ∈ args.map Prod.fst := by rw [← hkeys]; exact List.mem_map_of_mem ha
          obtain ⟨b, hb1, hb2⟩ := List.mem_map.1 this
          have := (w1 b hb1).1
          simp only [List.contains_iff_mem] at this
          rw [← hb2]; exact this
        · right
          simp only [paramNames, List.getElem?_map, Option.map_eq_some_iff] at hi
          obtain ⟨q, hq, rfl⟩ := hi
          have hd' : q.2 = none := by
            unfold paramDefault at hd
            rw [lookup_of_nodup P.init.params (names_nodup P) i q.1 q.2 hq] at hd
            exact hd
          have := w2 q (List.mem_of_getElem? hq)
          rw [hd'] at this
          simp only [Option.isSome_none, Bool.false_or, List.contains_iff_mem] at this
          rw [← hkeys] at this
          obtain ⟨b, hb1, hb2⟩ := List.mem_map.1 this
          exact ⟨b.2, by rw [← hb2]; exact hb1⟩)
      simp only [hk, hr]
      exact ⟨_, rfl⟩

/-! ## C106 -/

/-- The parameters of each constructor in their order (the signatures that the documentation shows). -/
def documentedOrder : EAClass → List String
  | .baseEA => ["a_priori", "interact", "selection_operator", "n_iterations", "n_gen_per_iter", "total_function_evaluations", "use_surrogates",
      "keep_archive", "save_non_dominated"]
  | .baseDecomposition => ["problem", "initial_population", "population_size", "population_params", "lattice_resolution", "interact", "n_iterations",
      "n_gen_per_iter", "use_surrogates", "total_function_evaluations", "keep_archive", "save_non_dominated"]
  | .rvea => ["problem", "population_size", "population_params", "initial_population", "alpha", "lattice_resolution", "selection_type",
      "interact", "use_surrogates", "n_iterations", "n_gen_per_iter", "total_function_evaluations", "time_penalty_component",
      "keep_archive", "save_non_dominated"]
  | .nsga3 => ["problem", "population_size", "population_params", "n_survive", "initial_population", "lattice_resolution", "selection_type",
      "interact", "use_surrogates", "n_iterations", "n_gen_per_iter", "total_function_evaluations", "keep_archive", "save_non_dominated"]
  | .moead => ["problem", "n_neighbors", "n_parents", "use_repair", "initial_population", "population_size", "population_params",
      "lattice_resolution", "interact", "n_iterations", "n_gen_per_iter", "use_surrogates", "total_function_evaluations",
      "scalarization_function", "keep_archive", "save_non_dominated"]
  | .baseIndicator => ["problem", "population_size", "selection_operator", "population_params", "initial_population", "a_priori", "interact",
      "n_iterations", "n_gen_per_iter", "total_function_evaluations", "use_surrogates", "fitnesses"]
  | .ibea => ["problem", "population_size", "initial_population", "a_priori", "interact", "population_params", "n_iterations", "n_gen_per_iter",
      "total_function_evaluations", "use_surrogates", "kappa", "indicator"]
  | .pbea => ["problem", "population_size", "initial_population", "a_priori", "interact", "n_iterations", "n_gen_per_iter",
      "total_function_evaluations", "use_surrogates", "kappa", "indicator", "population_params", "reference_point", "delta"]
  | .baseIOPIS => ["problem", "population_size", "population_params", "initial_population", "lattice_resolution", "n_iterations", "n_gen_per_iter",
      "total_function_evaluations", "use_surrogates"]
  | .iopisRvea => ["problem", "population_size", "population_params", "initial_population", "alpha", "lattice_resolution", "n_iterations",
      "n_gen_per_iter", "total_function_evaluations", "time_penalty_component", "use_surrogates"]
  | .iopisNsga3 => ["problem", "population_size", "population_params", "initial_population", "lattice_resolution", "n_iterations", "n_gen_per_iter",
      "total_function_evaluations", "use_surrogates"]
  | .ikRvea => ["problem", "population_size", "population_params", "initial_population", "alpha", "lattice_resolution", "selection_type",
      "a_priori", "interact", "use_surrogates", "n_iterations", "n_gen_per_iter", "number_of_update", "total_function_evaluations",
      "time_penalty_component"]
  | .tournament => ["problem", "initial_population", "n_gen_per_iter", "n_iterations", "tournament_size", "population_size"]
  | .ppga => ["problem", "population_size", "population_params", "initial_population", "n_iterations", "n_gen_per_iter", "predator_pop_size",
      "prey_max_moves", "prob_prey_move", "offspring_place_attempts", "kill_interval", "max_rank", "neighbourhood_radius"]

theorem names_documented (c : EAClass) : paramNames c = documentedOrder c := by cases c <;> rfl

/-- The parameters without a default. -/
def mandatory : EAClass → List String
  | .baseEA | .baseDecomposition => []
  | .baseIndicator | .ibea => ["problem", "population_size"]
  | .pbea => ["problem", "population_size", "initial_population"]
  | .tournament => ["problem", "initial_population"]
  | _ => ["problem"]

/-- What Python accepts as a call of the documented signature. -/
def DocumentedCall (c : EAClass) (pos : List PyVal) (kw : PyEnv) : Prop :=
  LegalCall (documentedOrder c) (fun p => if p ∈ mandatory c then none else some PyVal.none) pos kw

theorem documentedCall_iff (c : EAClass) (pos : List PyVal) (kw : PyEnv) :
    DocumentedCall c pos kw ↔ LegalCall (paramNames c) (paramDefault c) pos kw := by
  have h : ∀ p ∈ paramNames c, (paramDefault c p = none ↔ p ∈ mandatory c) := by cases c <;> decide
  unfold DocumentedCall LegalCall
  rw [← names_documented]
  refine and_congr Iff.rfl (and_congr Iff.rfl ?_)
  refine forall_congr' fun i => forall_congr' fun p => forall_congr' fun hp => ?_
  rw [h p (List.mem_of_getElem? hp)]
  by_cases hm : p ∈ mandatory c <;> simp [hm]

/-- C106: a call of a constructor is accepted exactly if Python accepts it as a call of that signature (all other calls raise TypeError): the arguments a
class hands on to its parents are always acceptable to them.  The exception is IK_RVEA: every call of it raises TypeError. -/
theorem c106_accepted_calls (c : EAClass) (pos : List PyVal) (kw : PyEnv) :
    (c ≠ .ikRvea → DocumentedCall c pos kw → ∃ frames, callInit c pos kw = .ok frames) ∧
    (¬ DocumentedCall c pos kw → callInit c pos kw = .error .typeError) ∧
    (c = .ikRvea → callInit c pos kw = .error .typeError) := by
  simp only [documentedCall_iff]
  have hw : c ≠ .ikRvea → wired 4 c = true := by cases c <;> decide
  refine ⟨fun hc hl => wired_runs 4 c (hw hc) pos kw hl, fun hl => ?_, ?_⟩
  · unfold callInit
    simp only [runInit, (bind_legal c pos kw).2 hl]
  · rintro rfl
    unfold callInit
    rw [runInit]
    cases hb : pyBind EAClass.ikRvea.init.params pos kw with
    | error e =>
      by_cases hl : LegalCall (paramNames .ikRvea) (paramDefault .ikRvea) pos kw
      · obtain ⟨env, he⟩ := (bind_legal .ikRvea pos kw).1 hl
        rw [he] at hb; cases hb
      · rw [(bind_legal .ikRvea pos kw).2 hl] at hb; cases hb; rfl
    | ok env =>
      dsimp only
      have hpar : EAClass.ikRvea.init.parent = some (.rvea, sameNames ["problem", "population_size", "population_params", "initial_population",
        "lattice_resolution", "a_priori", "interact", "use_surrogates", "n_iterations", "n_gen_per_iter", "total_function_evaluations"]) := rfl
      rw [hpar]
      dsimp only
      obtain ⟨kw', hk⟩ := (evalKeywords_spec env (sameNames ["problem", "population_size", "population_params", "initial_population",
        "lattice_resolution", "a_priori", "interact", "use_surrogates", "n_iterations", "n_gen_per_iter", "total_function_evaluations"])).2 (by
        intro a ha
        obtain ⟨q, hq, rfl⟩ := List.mem_map.1 ha
        have hin : q ∈ paramNames .ikRvea := by
          have : ∀ q ∈ ["problem", "population_size", "population_params", "initial_population", "lattice_resolution", "a_priori", "interact",
              "use_surrogates", "n_iterations", "n_gen_per_iter", "total_function_evaluations"], q ∈ paramNames .ikRvea := by decide
          exact this q hq
        obtain ⟨v, hv, -⟩ := bind_receives .ikRvea pos kw env hb q hin
        exact ⟨v, by simp [PyExpr.eval, hv]⟩)
      rw [hk]
      dsimp only
      obtain ⟨hkeys, -⟩ := (evalKeywords_spec env _).1 kw' hk
      have hno : ¬ LegalCall (paramNames .rvea) (paramDefault .rvea) [] kw' := by
        rintro ⟨-, h2, -⟩
        have : "a_priori" ∈ kw'.map Prod.fst := by rw [hkeys]; decide
        obtain ⟨b, hb1, hb2⟩ := List.mem_map.1 this
        have := (h2 b hb1).1
        rw [hb2] at this
        exact absurd this (by decide)
      rw [show runInit 3 .rvea [] kw' = .error .typeError by simp only [runInit, (bind_legal .rvea [] kw').2 hno]]

/-- The settings of a run that the constructor of each class takes and keeps under the same name, with the default in the signature (PBEA's docstring
names 0.01 for `delta`; the signature has 0.1, `PBEA.py:73`). -/
def documented : EAClass → List (String × PyVal)
  | .rvea => [("n_iterations", .int 10), ("n_gen_per_iter", .int 100), ("total_function_evaluations", .int 0), ("interact", .bool false),
      ("use_surrogates", .bool false), ("keep_archive", .bool false), ("save_non_dominated", .bool false), ("alpha", .int 2),
      ("selection_type", .none), ("time_penalty_component", .none)]
  | .nsga3 => [("n_iterations", .int 10), ("n_gen_per_iter", .int 100), ("total_function_evaluations", .int 0), ("interact", .bool false),
      ("use_surrogates", .bool false), ("keep_archive", .bool false), ("save_non_dominated", .bool false), ("selection_type", .none)]
  | .moead => [("n_iterations", .int 10), ("n_gen_per_iter", .int 100), ("total_function_evaluations", .int 0), ("interact", .bool false),
      ("use_surrogates", .bool false), ("keep_archive", .bool false), ("save_non_dominated", .bool false), ("use_repair", .bool true),
      ("n_parents", .int 2)]
  | .ibea => [("n_iterations", .int 10), ("n_gen_per_iter", .int 100), ("total_function_evaluations", .int 0), ("interact", .bool false),
      ("use_surrogates", .bool false), ("a_priori", .bool false), ("kappa", .float 5 2)]
  | .pbea => [("n_iterations", .int 10), ("n_gen_per_iter", .int 100), ("total_function_evaluations", .int 0), ("interact", .bool false),
      ("use_surrogates", .bool false), ("a_priori", .bool false), ("kappa", .float 5 2), ("delta", .float 1 1), ("reference_point", .none)]
  | .iopisRvea => [("n_iterations", .int 10), ("n_gen_per_iter", .int 100), ("total_function_evaluations", .int 0), ("use_surrogates", .bool false),
      ("alpha", .none), ("time_penalty_component", .none)]
  | .iopisNsga3 => [("n_iterations", .int 10), ("n_gen_per_iter", .int 100), ("total_function_evaluations", .int 0), ("use_surrogates", .bool false)]
  | .tournament => [("n_iterations", .int 10), ("n_gen_per_iter", .int 10), ("tournament_size", .int 5)]
  | .ppga => [("n_iterations", .int 10), ("n_gen_per_iter", .int 10), ("predator_pop_size", .int 50), ("prey_max_moves", .int 10),
      ("prob_prey_move", .float 3 1), ("offspring_place_attempts", .int 10), ("kill_interval", .int 7), ("max_rank", .int 20),
      ("neighbourhood_radius", .int 3)]
  | _ => []

/-- C106: in the object a call returns, every documented setting has the value given for it in the call (by position or by keyword), and the documented
default if it was not given. -/
theorem c106_settings_kept (c : EAClass) (pos : List PyVal) (kw : PyEnv) (frames : List (EAClass × PyEnv)) (h : callInit c pos kw = .ok frames)
    (k : String) (d : PyVal) (hk : (k, d) ∈ documented c) :
    ∃ v, (attrsOf frames).lookup k = some v ∧ Receives (documentedOrder c) (fun p => if p = k then some d else none) pos kw k v := by
  rw [← names_documented]
  have hs : ∀ a ∈ documented c, attrSource 4 c a.1 = some (.var a.1) := by
    cases c <;> simp only [documented, List.forall_mem_cons, List.not_mem_nil, IsEmpty.forall_iff, implies_true, and_true] <;>
      (try refine ⟨?_, ?_, ?_, ?_, ?_, ?_, ?_, ?_, ?_, ?_⟩) <;> (try refine ⟨?_, ?_, ?_, ?_, ?_, ?_, ?_, ?_, ?_⟩) <;>
      (try refine ⟨?_, ?_, ?_, ?_, ?_, ?_, ?_, ?_⟩) <;> (try refine ⟨?_, ?_, ?_, ?_, ?_, ?_, ?_⟩) <;> (try refine ⟨?_, ?_, ?_, ?_, ?_, ?_⟩) <;>
      (try refine ⟨?_, ?_, ?_, ?_⟩) <;> (try refine ⟨?_, ?_, ?_⟩) <;> rfl
  have hdd : ∀ a ∈ documented c, paramDefault c a.1 = some a.2 := by cases c <;> decide
  have := attrs_source 4 c pos kw frames h k
  rw [hs (k, d) hk] at this
  obtain ⟨v, h1, h2⟩ := this
  refine ⟨v, h1, ?_⟩
  cases h2 with
  | position i _ a b => exact .position i v a b
  | keyword _ a b => exact .keyword v a b
  | default _ a b e =>
    rw [hdd (k, d) hk] at e
    exact .default v a b (by simpa using e)

/-- C106: IOPIS_RVEA and IOPIS_NSGAIII are interactive and have neither archive, whatever the call; IBEA, PBEA, TournamentEA and PPGA have neither archive,
and the last two know no limit of evaluations, no surrogates and no interaction. -/
theorem c106_fixed_settings (c : EAClass) (pos : List PyVal) (kw : PyEnv) (frames : List (EAClass × PyEnv)) (h : callInit c pos kw = .ok frames) :
    (c = .iopisRvea ∨ c = .iopisNsga3 → (attrsOf frames).lookup "interact" = some (.bool true) ∧ (attrsOf frames).lookup "a_priori" = some (.bool true)) ∧
    (c = .iopisRvea ∨ c = .iopisNsga3 ∨ c = .ibea ∨ c = .pbea ∨ c = .tournament ∨ c = .ppga →
      (attrsOf frames).lookup "keep_archive" = some (.bool false) ∧ (attrsOf frames).lookup "save_non_dominated" = some (.bool false)) ∧
    (c = .tournament ∨ c = .ppga → (attrsOf frames).lookup "interact" = some (.bool false) ∧
      (attrsOf frames).lookup "use_surrogates" = some (.bool false) ∧ (attrsOf frames).lookup "total_function_evaluations" = some (.int 0)) := by
  have key : ∀ (k : String) (w : PyVal), attrSource 4 c k = some (.lit w) → (attrsOf frames).lookup k = some w := by
    intro k w hs
    have := attrs_source 4 c pos kw frames h k
    rw [hs] at this
    obtain ⟨v, h1, h2⟩ := this
    rw [h1, h2]
  refine ⟨?_, ?_, ?_⟩
  · rintro (rfl | rfl) <;> exact ⟨key _ _ rfl, key _ _ rfl⟩
  · rintro (rfl | rfl | rfl | rfl | rfl | rfl) <;> exact ⟨key _ _ rfl, key _ _ rfl⟩
  · rintro (rfl | rfl) <;> exact ⟨key _ _ rfl, key _ _ rfl, key _ _ rfl⟩

theorem bind_ok {α β : Type} (x : Except Err α) (f : α → Except Err β) (y : β) (h : (x >>= f) = .ok y) : ∃ a, x = .ok a ∧ f a = .ok y := by
  cases x with
  | error e => cases h
  | ok a => exact ⟨a, rfl, h⟩

theorem nat_ok (v : PyVal) (n : Nat) (h : v.nat = .ok n) : v = .int n := by
  cases v with
  | int k =>
    simp only [PyVal.nat] at h
    split at h
    · rename_i hk
      cases h
      rw [Int.toNat_of_nonneg hk]
    · cases h
  | _ => cases h

theorem get_ok (env : PyEnv) (p : String) (v : PyVal) (h : env.get p = .ok v) : env.lookup p = some v := by
  unfold PyEnv.get at h
  cases hl : env.lookup p with
  | none => rw [hl] at h; cases h
  | some w => rw [hl] at h; cases h; rfl

section
variable {X O F C U V S Q R : Type}

theorem construct_cfg (ops : Ops X O F C U V S Q R) (design : Nat → Nat → Except Err (Batch X)) (vec0 : Nat → V) (sel0 : Nat → S) (prob0 : Q)
    (interact useSurr keepArchive saveND : Bool) (nIter nGen total : Nat) (problem : Option (ProblemType × Nat × Nat))
    (initPop : Option (Pop X O F C U × Nat)) (size lattice : Option Nat) (s : EA X O F C U V S Q)
    (h : construct ops design vec0 sel0 prob0 interact useSurr keepArchive saveND nIter nGen total problem initPop size lattice = .ok s) :
    s.cfg.interact = interact ∧ s.cfg.useSurr = useSurr ∧ s.cfg.keepArchive = keepArchive ∧ s.cfg.saveND = saveND ∧ s.cfg.nIter = nIter ∧
      s.cfg.nGen = nGen ∧ s.cfg.total = total ∧ s.iter = 0 ∧ s.gen = 0 := by
  unfold construct at h
  dsimp only at h
  cases initPop with
  | some pn =>
    cases problem with
    | some _ => cases h
    | none => cases h; exact ⟨rfl, rfl, rfl, rfl, rfl, rfl, rfl, rfl, rfl⟩
  | none =>
    cases problem with
    | none => cases h
    | some pr =>
      obtain ⟨ty, m, nc⟩ := pr
      dsimp only at h
      split at h
      · cases h
      · rename_i rows _
        unfold EA.popAdd at h
        dsimp only at h
        split at h
        · cases h
        · rename_i _ _ ea heq
          cases h
          dsimp only
          generalize Pop.add _ _ _ = r at heq
          obtain ⟨r1, p1⟩ := r
          cases heq
          exact ⟨rfl, rfl, rfl, rfl, rfl, rfl, rfl, rfl, rfl⟩

/-- The values that count as false: `None`, `False`, zero and the empty string. -/
def Falsy (v : PyVal) : Prop := v = .none ∨ v = .bool false ∨ v = .int 0 ∨ (∃ d, v = .float 0 d) ∨ v = .str ""

theorem truth_false (v : PyVal) : v.truth = false ↔ Falsy v := by
  cases v <;> simp [PyVal.truth, Falsy]

/-- C106: the run itself has the settings of the call: for RVEA, NSGAIII and MOEA_D, the numbers of iterations, generations and evaluations that
the loops compare with (C10, C11) and the switches are those given in the call or the defaults. -/
theorem c106_run_settings (ops : Ops X O F C U V S Q R) (design : Nat → Nat → Except Err (Batch X)) (vec0 : Nat → V) (sel0 : Nat → S) (prob0 : Q)
    (problems : Nat → ProblemType × Nat × Nat) (pops : Nat → Pop X O F C U × Nat) (c : EAClass) (hc : c = .rvea ∨ c = .nsga3 ∨ c = .moead)
    (pos : List PyVal) (kw : PyEnv) (s : EA X O F C U V S Q) (h : callDecomposition ops design vec0 sel0 prob0 problems pops c pos kw = .ok s) :
    let given := fun (p : String) (v d : PyVal) => Receives (documentedOrder c) (fun q => if q = p then some d else none) pos kw p v
    given "n_iterations" (.int s.cfg.nIter) (.int 10) ∧ given "n_gen_per_iter" (.int s.cfg.nGen) (.int 100) ∧
    given "total_function_evaluations" (.int s.cfg.total) (.int 0) ∧
    (∃ v, given "interact" v (.bool false) ∧ (s.cfg.interact = false ↔ Falsy v)) ∧
    (∃ v, given "use_surrogates" v (.bool false) ∧ (s.cfg.useSurr = false ↔ Falsy v)) ∧
    (∃ v, given "keep_archive" v (.bool false) ∧ (s.cfg.keepArchive = false ↔ Falsy v)) ∧
    (∃ v, given "save_non_dominated" v (.bool false) ∧ (s.cfg.saveND = false ↔ Falsy v)) ∧ s.iter = 0 ∧ s.gen = 0 := by
  rw [← names_documented]
  intro given
  unfold callDecomposition at h
  obtain ⟨frames, hf, h⟩ := bind_ok _ _ _ h
  cases hl : frames.lookup .baseDecomposition with
  | none => simp only [hl] at h; cases h
  | some env =>
    simp only [hl] at h
    obtain ⟨v1, g1, h⟩ := bind_ok _ _ _ h
    obtain ⟨v2, g2, h⟩ := bind_ok _ _ _ h
    obtain ⟨v3, g3, h⟩ := bind_ok _ _ _ h
    obtain ⟨v4, g4, h⟩ := bind_ok _ _ _ h
    obtain ⟨w5, g5, h⟩ := bind_ok _ _ _ h
    obtain ⟨v5, k5, h⟩ := bind_ok _ _ _ h
    obtain ⟨w6, g6, h⟩ := bind_ok _ _ _ h
    obtain ⟨v6, k6, h⟩ := bind_ok _ _ _ h
    obtain ⟨w7, g7, h⟩ := bind_ok _ _ _ h
    obtain ⟨v7, k7, h⟩ := bind_ok _ _ _ h
    obtain ⟨_, -, h⟩ := bind_ok _ _ _ h
    obtain ⟨_, -, h⟩ := bind_ok _ _ _ h
    obtain ⟨_, -, h⟩ := bind_ok _ _ _ h
    obtain ⟨_, -, h⟩ := bind_ok _ _ _ h
    obtain ⟨_, -, h⟩ := bind_ok _ _ _ h
    obtain ⟨_, -, h⟩ := bind_ok _ _ _ h
    obtain ⟨_, -, h⟩ := bind_ok _ _ _ h
    obtain ⟨_, -, h⟩ := bind_ok _ _ _ h
    obtain ⟨c1, c2, c3, c4, c5, c6, c7, c8, c9⟩ := construct_cfg _ _ _ _ _ _ _ _ _ _ _ _ _ _ _ _ _ h
    have key : ∀ (p : String) (d v : PyVal), p ∈ paramNames .baseDecomposition → source 4 c .baseDecomposition p = some (.var p) →
        paramDefault c p = some d → env.get p = .ok v → given p v d := by
      intro p d v hp hs hd hg
      obtain ⟨e, w, a1, a2, a3⟩ := frames_source 4 c pos kw frames hf .baseDecomposition env hl p hp
      rw [hs] at a1; cases a1
      rw [get_ok env p v hg] at a2; cases a2
      cases a3 with
      | position i _ a b => exact .position i v a b
      | keyword _ a b => exact .keyword v a b
      | default _ a b e =>
        rw [hd] at e
        exact .default v a b (by simpa using e)
    have e5 := nat_ok _ _ k5
    have e6 := nat_ok _ _ k6
    have e7 := nat_ok _ _ k7
    subst e5 e6 e7
    rw [c5, c6, c7]
    refine ⟨?_, ?_, ?_, ⟨v1, ?_, by rw [c1]; exact truth_false v1⟩, ⟨v2, ?_, by rw [c2]; exact truth_false v2⟩, ⟨v3, ?_, by rw [c3]; exact truth_false v3⟩, ⟨v4, ?_, by rw [c4]; exact truth_false v4⟩, c8, c9⟩
    · exact key _ _ _ (by decide) (by rcases hc with rfl | rfl | rfl <;> rfl) (by rcases hc with rfl | rfl | rfl <;> rfl) g5
    · exact key _ _ _ (by decide) (by rcases hc with rfl | rfl | rfl <;> rfl) (by rcases hc with rfl | rfl | rfl <;> rfl) g6
    · exact key _ _ _ (by decide) (by rcases hc with rfl | rfl | rfl <;> rfl) (by rcases hc with rfl | rfl | rfl <;> rfl) g7
    · exact key _ _ _ (by decide) (by rcases hc with rfl | rfl | rfl <;> rfl) (by rcases hc with rfl | rfl | rfl <;> rfl) g1
    · exact key _ _ _ (by decide) (by rcases hc with rfl | rfl | rfl <;> rfl) (by rcases hc with rfl | rfl | rfl <;> rfl) g2
    · exact key _ _ _ (by decide) (by rcases hc with rfl | rfl | rfl <;> rfl) (by rcases hc with rfl | rfl | rfl <;> rfl) g3
    · exact key _ _ _ (by decide) (by rcases hc with rfl | rfl | rfl <;> rfl) (by rcases hc with rfl | rfl | rfl <;> rfl) g4

theorem natOrNone_ok (v : PyVal) (o : Option Nat) (h : v.natOrNone = .ok o) :
    (v = .none ∧ o = none) ∨ ∃ n : Nat, v = .int n ∧ o = some n := by
  cases v with
  | none => cases h; exact .inl ⟨rfl, rfl⟩
  | int k =>
    simp only [PyVal.natOrNone] at h
    split at h
    · rename_i hk
      cases h
      exact .inr ⟨k.toNat, by rw [Int.toNat_of_nonneg hk], rfl⟩
    · cases h
  | _ => cases h

theorem objOrNone_ok {α : Type} (t : Nat → α) (v : PyVal) (o : Option α) (h : v.objOrNone t = .ok o) :
    (v = .none ∧ o = none) ∨ ∃ k : Nat, v = .obj k ∧ o = some (t k) := by
  cases v with
  | none => cases h; exact .inl ⟨rfl, rfl⟩
  | obj k => cases h; exact .inr ⟨k, rfl, rfl⟩
  | _ => cases h

theorem construct_pop (ops : Ops X O F C U V S Q R) (design : Nat → Nat → Except Err (Batch X)) (vec0 : Nat → V) (sel0 : Nat → S) (prob0 : Q)
    (interact useSurr keepArchive saveND : Bool) (nIter nGen total : Nat) (problem : Option (ProblemType × Nat × Nat))
    (initPop : Option (Pop X O F C U × Nat)) (size lattice : Option Nat) (s : EA X O F C U V S Q)
    (h : construct ops design vec0 sel0 prob0 interact useSurr keepArchive saveND nIter nGen total problem initPop size lattice = .ok s) :
    (∃ p, initPop = some p ∧ problem = none ∧ s.pop = p.1 ∧ s.fe = 0) ∨
    ∃ ty m nc rows, problem = some (ty, m, nc) ∧ initPop = none ∧ design 0 (choosePopSize m size lattice) = .ok rows ∧
      s.pop.individuals = some rows.rows ∧ s.fe = choosePopSize m size lattice := by
  unfold construct at h
  dsimp only at h
  cases initPop with
  | some pn =>
    cases problem with
    | some _ => cases h
    | none => cases h; exact .inl ⟨pn, rfl, rfl, rfl, rfl⟩
  | none =>
    cases problem with
    | none => cases h
    | some pr =>
      obtain ⟨ty, m, nc⟩ := pr
      dsimp only at h
      split at h
      · cases h
      · rename_i rows hd
        refine .inr ⟨ty, m, nc, rows, rfl, rfl, hd, ?_⟩
        unfold EA.popAdd at h
        dsimp only at h
        cases hevr : ops.evaluate 1 useSurr rows with
        | error e => rw [hevr] at h; simp [Pop.add] at h
        | ok r =>
          rw [hevr] at h
          simp only [Pop.add, Pop.new] at h
          injection h with h
          subst h
          exact ⟨rfl, by simp⟩

/-- The population sizes for 2 to 10 objectives when neither a size nor a resolution is given (`lattice_res_options`, `BaseEA.py:402-411`). -/
def usualSizes : List (Nat × Nat) := [(2, 50), (3, 105), (4, 120), (5, 126), (6, 126), (7, 84), (8, 120), (9, 165), (10, 220)]

/-- C106: RVEA, NSGAIII and MOEA_D take either a population (and then the problem given must be `None`) and go on with it, or a problem, and then create and
evaluate as many individuals as `population_size` says; without it, as many as there are vectors of the given `lattice_resolution`, and without both,
the usual number for the number of objectives. -/
theorem c106_population (ops : Ops X O F C U V S Q R) (design : Nat → Nat → Except Err (Batch X)) (vec0 : Nat → V) (sel0 : Nat → S) (prob0 : Q)
    (problems : Nat → ProblemType × Nat × Nat) (pops : Nat → Pop X O F C U × Nat) (c : EAClass) (hc : c = .rvea ∨ c = .nsga3 ∨ c = .moead)
    (pos : List PyVal) (kw : PyEnv) (s : EA X O F C U V S Q) (h : callDecomposition ops design vec0 sel0 prob0 problems pops c pos kw = .ok s) :
    let given := fun (p : String) (v : PyVal) => Receives (documentedOrder c) (fun q => if q = p ∧ q ≠ "problem" then some .none else none) pos kw p v
    (∃ k, given "initial_population" (.obj k) ∧ given "problem" .none ∧ s.pop = (pops k).1 ∧ s.fe = 0) ∨
    ∃ k N rows, given "problem" (.obj k) ∧ given "initial_population" .none ∧ design 0 N = .ok rows ∧ s.pop.individuals = some rows.rows ∧ s.fe = N ∧
      (given "population_size" (.int N) ∨ given "population_size" .none ∧
        ((∃ r : Nat, given "lattice_resolution" (.int r) ∧ N = Nat.choose (r + (problems k).2.1 - 1) ((problems k).2.1 - 1)) ∨
          given "lattice_resolution" .none ∧ ∀ M, ((problems k).2.1, M) ∈ usualSizes → N = M)) := by
  rw [← names_documented]
  intro given
  unfold callDecomposition at h
  obtain ⟨frames, hf, h⟩ := bind_ok _ _ _ h
  cases hl : frames.lookup .baseDecomposition with
  | none => simp only [hl] at h; cases h
  | some env =>
    simp only [hl] at h
    obtain ⟨_, -, h⟩ := bind_ok _ _ _ h
    obtain ⟨_, -, h⟩ := bind_ok _ _ _ h
    obtain ⟨_, -, h⟩ := bind_ok _ _ _ h
    obtain ⟨_, -, h⟩ := bind_ok _ _ _ h
    obtain ⟨_, -, h⟩ := bind_ok _ _ _ h
    obtain ⟨_, -, h⟩ := bind_ok _ _ _ h
    obtain ⟨_, -, h⟩ := bind_ok _ _ _ h
    obtain ⟨_, -, h⟩ := bind_ok _ _ _ h
    obtain ⟨_, -, h⟩ := bind_ok _ _ _ h
    obtain ⟨_, -, h⟩ := bind_ok _ _ _ h
    obtain ⟨w1, g1, h⟩ := bind_ok _ _ _ h
    obtain ⟨v1, k1, h⟩ := bind_ok _ _ _ h
    obtain ⟨w2, g2, h⟩ := bind_ok _ _ _ h
    obtain ⟨v2, k2, h⟩ := bind_ok _ _ _ h
    obtain ⟨w3, g3, h⟩ := bind_ok _ _ _ h
    obtain ⟨v3, k3, h⟩ := bind_ok _ _ _ h
    obtain ⟨w4, g4, h⟩ := bind_ok _ _ _ h
    obtain ⟨v4, k4, h⟩ := bind_ok _ _ _ h
    have key : ∀ (p : String) (v : PyVal), p ∈ paramNames .baseDecomposition → source 4 c .baseDecomposition p = some (.var p) →
        paramDefault c p = (if p = "problem" then none else some .none) → env.get p = .ok v → given p v := by
      intro p v hp hs hd hg
      obtain ⟨e, w, a1, a2, a3⟩ := frames_source 4 c pos kw frames hf .baseDecomposition env hl p hp
      rw [hs] at a1; cases a1
      rw [get_ok env p v hg] at a2; cases a2
      cases a3 with
      | position i _ a b => exact .position i v a b
      | keyword _ a b => exact .keyword v a b
      | default _ a b e =>
        rw [hd] at e
        refine .default v a b ?_
        by_cases hp : p = "problem"
        · rw [if_pos hp] at e; cases e
        · rw [if_neg hp] at e; simp [hp, e]
    have q1 := key "problem" w1 (by decide) (by rcases hc with rfl | rfl | rfl <;> rfl) (by rcases hc with rfl | rfl | rfl <;> rfl) g1
    have q2 := key "initial_population" w2 (by decide) (by rcases hc with rfl | rfl | rfl <;> rfl) (by rcases hc with rfl | rfl | rfl <;> rfl) g2
    have q3 := key "population_size" w3 (by decide) (by rcases hc with rfl | rfl | rfl <;> rfl) (by rcases hc with rfl | rfl | rfl <;> rfl) g3
    have q4 := key "lattice_resolution" w4 (by decide) (by rcases hc with rfl | rfl | rfl <;> rfl) (by rcases hc with rfl | rfl | rfl <;> rfl) g4
    rcases construct_pop _ _ _ _ _ _ _ _ _ _ _ _ _ _ _ _ _ h with ⟨p, e1, e2, e3, e4⟩ | ⟨ty, m, nc', rows, e1, e2, e3, e4, e5⟩
    · rcases objOrNone_ok _ _ _ k1 with ⟨rfl, rfl⟩ | ⟨k, rfl, rfl⟩
      · rcases objOrNone_ok _ _ _ k2 with ⟨rfl, rfl⟩ | ⟨k, rfl, rfl⟩
        · cases e1
        · cases e1
          exact .inl ⟨k, q2, q1, e3, e4⟩
      · cases e2
    · rcases objOrNone_ok _ _ _ k1 with ⟨rfl, rfl⟩ | ⟨k, rfl, rfl⟩
      · cases e1
      · rcases objOrNone_ok _ _ _ k2 with ⟨rfl, rfl⟩ | ⟨k', rfl, rfl⟩
        · have hm : (problems k).2.1 = m := by injection e1 with e1; rw [e1]
          refine .inr ⟨k, _, rows, q1, q2, e3, e4, e5, ?_⟩
          rcases natOrNone_ok _ _ k3 with ⟨rfl, rfl⟩ | ⟨n, rfl, rfl⟩
          · refine .inr ⟨q3, ?_⟩
            rcases natOrNone_ok _ _ k4 with ⟨rfl, rfl⟩ | ⟨r, rfl, rfl⟩
            · refine .inr ⟨q4, ?_⟩
              rw [hm]
              intro M hM
              have : ∀ a ∈ usualSizes, choosePopSize a.1 none none = a.2 := by decide +kernel
              exact this (m, M) hM
            · exact .inl ⟨r, q4, by rw [hm]; simp [choosePopSize, comb_eq_choose]⟩
          · exact .inl q3
        · cases e2

/-- C106: an RVEA or NSGAIII object constructed from a problem alone, driven by `while ea.continue_evolution(): ea.iterate()`, runs 10 iterations
of 100 generations each, if nothing raises. -/
theorem c106_plain_run (ops : Ops X O F C U V S Q R) (design : Nat → Nat → Except Err (Batch X)) (vec0 : Nat → V) (sel0 : Nat → S) (prob0 : Q)
    (problems : Nat → ProblemType × Nat × Nat) (pops : Nat → Pop X O F C U × Nat) (c : EAClass) (hc : c = .rvea ∨ c = .nsga3)
    (problem : PyVal) (s : EA X O F C U V S Q) (h : callDecomposition ops design vec0 sel0 prob0 problems pops c [problem] [] = .ok s)
    (prefs : Nat → Option (Pref R)) (t : EA X O F C U V S Q) (hrun : EA.drive ops (EA.nextGen ops) prefs 10 s = (.ok (), t)) :
    t.iter = 10 ∧ t.gen = 1000 ∧ t.continueEvolution = false := by
  obtain ⟨a1, a2, a3, -, -, -, -, a4, a5⟩ := c106_run_settings ops design vec0 sel0 prob0 problems pops c
    (by rcases hc with h | h <;> simp [h]) [problem] [] s h
  have key : ∀ (p : String) (v d : PyVal), (documentedOrder c)[0]? ≠ some p → Receives (documentedOrder c) (fun q => if q = p then some d else none) [problem] [] p v →
      v = d := by
    intro p v d hp hr
    cases hr with
    | position i _ h1 h2 =>
      cases i with
      | zero => exact absurd h1 hp
      | succ i => simp at h2
    | keyword _ _ h2 => simp at h2
    | default _ _ _ h3 => simp at h3; exact h3.symm
  have e1 := key _ _ _ (by rcases hc with rfl | rfl <;> decide) a1
  have e2 := key _ _ _ (by rcases hc with rfl | rfl <;> decide) a2
  have e3 := key _ _ _ (by rcases hc with rfl | rfl <;> decide) a3
  simp only [PyVal.int.injEq] at e1 e2 e3
  have n1 : s.cfg.nIter = 10 := by exact_mod_cast e1
  have n2 : s.cfg.nGen = 100 := by exact_mod_cast e2
  have n3 : s.cfg.total = 0 := by exact_mod_cast e3
  obtain ⟨b1, b2, b3⟩ := c10_full_run ops prefs s t n3 a4 a5 (by rw [n1]; exact hrun)
  rw [n1] at b1 b2
  rw [n2] at b2
  exact ⟨b1, by simpa using b2, b3⟩

end

/-- A call with two positional and two keyword arguments is accepted, and one that gives `problem` twice is not. -/
example : (∃ frames, callInit .rvea [.obj 0, .int 12] [("n_iterations", .int 3), ("keep_archive", .bool true)] = .ok frames ∧
      (attrsOf frames).lookup "n_iterations" = some (.int 3) ∧ (attrsOf frames).lookup "n_gen_per_iter" = some (.int 100)) ∧
    callInit .rvea [.obj 0] [("problem", .obj 1)] = .error .typeError ∧ callInit .pbea [.obj 0, .int 12] [] = .error .typeError := by
  refine ⟨⟨_, rfl, rfl, rfl⟩, rfl, rfl⟩

/-- Keeps one individual. -/
def demoOne : Ops Nat Unit Nat Unit Unit Unit Unit Unit Nat where
  adapt v _ := v
  respond _ _ v _ _ := (.ok (), v)
  mate _ _ := .ok ⟨2, [7]⟩
  evaluate _ _ b := .ok ⟨b.rows.map fun _ => (), b.rows, none, none⟩
  select _ v t _ := (.ok [-1], v, t)
  newId n := n
  probManage q _ _ := (.ok (), q)
  probReeval q _ := ([], q)
  dom a b := decide (a < b)
  nonDom l := l.map fun _ => true

/-- `RVEA(problem)` of the demo problem. -/
def demo106 : Except Err (EA Nat Unit Nat Unit Unit Unit Unit Unit) :=
  callDecomposition demoOne (fun _ n => .ok ⟨2, List.range n⟩) (fun _ => ()) (fun _ => ()) () (fun _ => (.mo, 2, 0)) (fun _ => (Pop.new 0, 0)) .rvea [.obj 0] []

/-- Its 10 iterations of 100 generations: the numbers of iterations and generations. -/
def demo106Run (x : Except Err (EA Nat Unit Nat Unit Unit Unit Unit Unit)) : Option (Nat × Nat) :=
  match x with
  | .error _ => none
  | .ok s =>
    match EA.drive demoOne (EA.nextGen demoOne) (fun _ => none) 10 s with
    | (.ok (), t) => some (t.iter, t.gen)
    | _ => none

theorem demo106Run_some (x : Except Err (EA Nat Unit Nat Unit Unit Unit Unit Unit)) (v : Nat × Nat) (h : demo106Run x = some v) :
    ∃ s t, x = .ok s ∧ EA.drive demoOne (EA.nextGen demoOne) (fun _ => none) 10 s = (.ok (), t) ∧ t.gen = v.2 := by
  unfold demo106Run at h
  split at h
  · cases h
  · rename_i s
    split at h
    · rename_i t ht
      refine ⟨s, t, rfl, ht, ?_⟩
      rw [← Option.some.inj h]
    · cases h

/-- The hypotheses of `c106_plain_run` are met. -/
example : ∃ s t, demo106 = .ok s ∧ EA.drive demoOne (EA.nextGen demoOne) (fun _ => none) 10 s = (.ok (), t) ∧ t.gen = 1000 :=
  demo106Run_some demo106 (10, 1000) (by decide +kernel)

end Verif.Props
