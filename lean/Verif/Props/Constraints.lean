import Verif.Proofs.ImageMore
import Verif.Spec.Constraints
import Verif.Props.Invariance
import Verif.Props.MoeadRun
import Verif.Props.IndicatorRun

/-!
# C96: the constraints of the problem: RVEA reads each individual's total violation, the other EAs read nothing
-/

namespace Verif.Props
open Verif Verif.Spec

variable {X O F C U V S Q R : Type} {m : Nat}

/-- Rows renamed by `h`, everything else as it is. -/
def eraseBy (h : C → C) : Ren O O F F C C U U S S := ⟨id, id, h, id, id⟩

theorem results_erase_eq {h : C → C} {rel : C → C → Prop} (hrel : ∀ a b, rel a b → h a = h b) (a b : Except Err (Results O F C U))
    (hab : SameButConstraints rel a b) :
    b.map (fun r => r.im (eraseBy h : Ren O O F F C C U U S S)) = a.map (fun r => r.im (eraseBy h : Ren O O F F C C U U S S)) := by
  match a, b, hab with
  | .error e, .error e', hab => cases hab; rfl
  | .ok ⟨ro, rf, rc, ru⟩, .ok ⟨ro', rf', rc', ru'⟩, hab =>
    obtain ⟨h1, h2, h3, h4⟩ := hab
    simp only at h1 h2 h3 h4
    subst h1; subst h2; subst h3
    match rc, rc', h4 with
    | none, none, _ => rfl
    | some l, some l', h4 =>
      have : l'.map h = l.map h := by
        induction h4 with
        | nil => rfl
        | cons hd _ ih => simp only [List.map_cons, ih, hrel _ _ hd]
      simp only [Except.map, Results.im, eraseBy, Option.map_some, this]

theorem list_map_id_eq {α : Type} {l l' : List α} (h : l'.map id = l.map id) : l' = l := by simpa using h

theorem option_map_id_eq {α : Type} {l l' : Option (List α)} (h : l'.map (fun x => x.map id) = l.map (fun x => x.map id)) : l' = l := by
  simpa using h

theorem entry_erase (h : C → C) (e : Entry X O F) : e.im (eraseBy h : Ren O O F F C C U U S S) = e := by
  cases e; simp [Entry.im, eraseBy]

theorem nd_erase (h : C → C) (a : NDArchive X O F) : a.im (eraseBy h : Ren O O F F C C U U S S) = a := by
  cases a; simp [NDArchive.im, eraseBy]

theorem sameSearch_of_erase (h : C → C) (s s' : EA X O F C U V S Q)
    (hs : s'.im (eraseBy h : Ren O O F F C C U U S S) = s.im (eraseBy h : Ren O O F F C C U U S S)) : SameSearch s s' where
  individuals := (congrArg (fun t => t.pop.individuals) hs : _)
  objectives := list_map_id_eq (congrArg (fun t => t.pop.objectives) hs : _)
  fitness := list_map_id_eq (congrArg (fun t => t.pop.fitness) hs : _)
  uncertainty := option_map_id_eq (congrArg (fun t => t.pop.uncertainity) hs : _)
  vectors := (congrArg (fun t => t.vec) hs : _)
  operator := (congrArg (fun t => t.sel) hs : _)
  iteration := (congrArg (fun t => t.iter) hs : _)
  generation := (congrArg (fun t => t.gen) hs : _)
  generationInIteration := (congrArg (fun t => t.genIter) hs : _)
  evaluations := (congrArg (fun t => t.fe) hs : _)
  request := (congrArg (fun t => t.reqId) hs : _)
  interaction := (congrArg (fun t => t.itype) hs : _)
  archive := by
    have : s'.archive.map (fun p => (p.1, p.2.im (eraseBy h : Ren O O F F C C U U S S))) =
      s.archive.map (fun p => (p.1, p.2.im (eraseBy h : Ren O O F F C C U U S S))) := (congrArg (fun t => t.archive) hs : _)
    simpa [entry_erase] using this
  nonDominated := by
    have : s'.nd.map (fun p => p.im (eraseBy h : Ren O O F F C C U U S S)) =
      s.nd.map (fun p => p.im (eraseBy h : Ren O O F F C C U U S S)) := (congrArg (fun t => t.nd) hs : _)
    have e : (fun p : NDArchive X O F => p.im (eraseBy h : Ren O O F F C C U U S S)) = id := funext (nd_erase h)
    simpa [e] using this

/-- The same EA on the problem whose constraint values are renamed by `h`. -/
def erasedOps (h : C → C) (ops : Ops X O F C U V S Q R) : Ops X O F C U V S Q R :=
  { ops with evaluate := fun clk b x => (ops.evaluate clk b x).map (fun r => r.im (eraseBy h : Ren O O F F C C U U S S)) }

theorem ansCall_refl : ∀ c : Call R, AnsCall Eq c c
  | .start => trivial
  | .setType _ => rfl
  | .readAllowable => trivial
  | .iterate none => trivial
  | .iterate (some _) => ⟨rfl, rfl, rfl⟩

theorem ansOpt_refl : ∀ p : Option (Pref R), AnsOpt Eq p p
  | none => trivial
  | some _ => ⟨rfl, rfl, rfl⟩

theorem callsWith_cfg (ops : Ops X O F C U V S Q R) {b : EA X O F C U V S Q → EARes Unit X O F C U V S Q}
    (hcfg : ∀ s, SameInteraction s (b s).2) : ∀ (cs : List (Call R)) (s : EA X O F C U V S Q), (s.callsWith ops b cs).cfg = s.cfg
  | [], s => rfl
  | .start :: cs, s => (callsWith_cfg ops hcfg cs _).trans (calls_cfg_clock ops s .start).1
  | .setType a :: cs, s => (callsWith_cfg ops hcfg cs _).trans (setInteractionType_spec s a).2.2.1
  | .readAllowable :: cs, s => (callsWith_cfg ops hcfg cs _).trans (readAllowable_spec s).2.2.1
  | .iterate p :: cs, s => by
    refine (callsWith_cfg ops hcfg cs _).trans ?_
    rcases iterateWith_spec ops hcfg s p with ⟨e, t, h1, he⟩ | ⟨s1, h1, h2, -⟩
    · rw [he]; exact h1.cfg
    · rw [h2]; exact (requestPreferences_clock ops s1).2.1.trans h1.cfg

theorem ansCalls_refl (cs : List (Call R)) : List.Forall₂ (AnsCall Eq) cs cs := List.forall₂_same.2 (fun c _ => ansCall_refl c)

/-- What is assumed of the components besides selection. -/
structure BlindBase (h : C → C) (ops : Ops X O F C U V S Q R) : Prop where
  respond : ∀ clk k v p r, ops.respond clk k v (p.im (eraseBy h : Ren O O F F C C U U S S)) r = ops.respond clk k v p r

theorem imBase_erased {h : C → C} {ops : Ops X O F C U V S Q R} (hb : BlindBase h ops) :
    ImBase (eraseBy h : Ren O O F F C C U U S S) Eq ops (erasedOps h ops) where
  adapt v f := by rw [show f.map (eraseBy h : Ren O O F F C C U U S S).f = f from List.map_id f]; rfl
  respond clk k v p r r' e := by subst e; exact hb.respond clk k v p r
  evaluate clk b x := rfl
  newId := rfl
  dom a b := rfl
  nonDom l := by rw [show l.map (eraseBy h : Ren O O F F C C U U S S).f = l from List.map_id l]; rfl

theorem erasedOps_eq {h : C → C} {rel : C → C → Prop} (hrel : ∀ a b, rel a b → h a = h b) (ops : Ops X O F C U V S Q R)
    (ev' : Nat → Bool → Batch X → Except Err (Results O F C U))
    (hev : ∀ clk b x, SameButConstraints rel (ops.evaluate clk b x) (ev' clk b x)) :
    erasedOps h { ops with evaluate := ev' } = erasedOps h ops := by
  have : (fun clk b x => (ev' clk b x).map (fun r => r.im (eraseBy h : Ren O O F F C C U U S S))) =
      fun clk b x => (ops.evaluate clk b x).map (fun r => r.im (eraseBy h : Ren O O F F C C U U S S)) := by
    funext clk b x
    exact results_erase_eq hrel _ _ (hev clk b x)
  unfold erasedOps
  dsimp only
  rw [this]

theorem construct_erase {h : C → C} {rel : C → C → Prop} (hrel : ∀ a b, rel a b → h a = h b) {ops : Ops X O F C U V S Q R}
    (hb : BlindBase h ops) (ev' : Nat → Bool → Batch X → Except Err (Results O F C U))
    (hev : ∀ clk b x, SameButConstraints rel (ops.evaluate clk b x) (ev' clk b x))
    (design : Nat → Nat → Except Err (Batch X)) (vec0 : Nat → V) (sel0 : Nat → S) (prob0 : Q)
    (interact useSurr keepArchive saveND : Bool) (nIter nGen total : Nat) (problem : Option (ProblemType × Nat × Nat)) (ps lr : Option Nat) :
    (construct { ops with evaluate := ev' } design vec0 sel0 prob0 interact useSurr keepArchive saveND nIter nGen total problem none ps lr).map
        (fun s => s.im (eraseBy h : Ren O O F F C C U U S S)) =
      (construct ops design vec0 sel0 prob0 interact useSurr keepArchive saveND nIter nGen total problem none ps lr).map
        (fun s => s.im (eraseBy h : Ren O O F F C C U U S S)) := by
  have hb' : BlindBase h { ops with evaluate := ev' } := ⟨hb.respond⟩
  have e1 := construct_im (imBase_erased hb) design vec0 sel0 prob0 interact useSurr keepArchive saveND nIter nGen total problem ps lr
  have e2 := construct_im (imBase_erased hb') design vec0 sel0 prob0 interact useSurr keepArchive saveND nIter nGen total problem ps lr
  rw [erasedOps_eq hrel ops ev' hev] at e2
  exact e2.symm.trans e1

/-- Two objects that agree but for constraints, and the EA does not read them: after every history they still agree. -/
theorem calls_erase {h : C → C} {rel : C → C → Prop} (hrel : ∀ a b, rel a b → h a = h b) {ops : Ops X O F C U V S Q R}
    (hb : BlindBase h ops)
    (hmate : ∀ clk p, ops.mate clk (p.im (eraseBy h : Ren O O F F C C U U S S)) = ops.mate clk p)
    (hsel : ∀ clk v t p, ops.select clk v t (p.im (eraseBy h : Ren O O F F C C U U S S)) = ops.select clk v t p)
    (ev' : Nat → Bool → Batch X → Except Err (Results O F C U))
    (hev : ∀ clk b x, SameButConstraints rel (ops.evaluate clk b x) (ev' clk b x))
    (s s' : EA X O F C U V S Q) (hs : s'.im (eraseBy h : Ren O O F F C C U U S S) = s.im (eraseBy h : Ren O O F F C C U U S S))
    (hl : s.cfg.location ≠ some .problem) (cs : List (Call R)) :
    SameSearch (s.calls ops cs) (s'.calls { ops with evaluate := ev' } cs) ∧
      ∀ a, ((s'.calls { ops with evaluate := ev' } cs).call { ops with evaluate := ev' } a).1 = ((s.calls ops cs).call ops a).1 := by
  have hb' : BlindBase h { ops with evaluate := ev' } := ⟨hb.respond⟩
  have i1 : ImOps (eraseBy h : Ren O O F F C C U U S S) Eq ops (erasedOps h ops) := ⟨imBase_erased hb, hmate, hsel⟩
  have i2 : ImOps (eraseBy h : Ren O O F F C C U U S S) Eq { ops with evaluate := ev' } (erasedOps h ops) := by
    have : ImOps (eraseBy h : Ren O O F F C C U U S S) Eq { ops with evaluate := ev' } (erasedOps h { ops with evaluate := ev' }) :=
      ⟨imBase_erased hb', hmate, hsel⟩
    rwa [erasedOps_eq hrel ops ev' hev] at this
  have hl' : s'.cfg.location ≠ some .problem := by
    have : s'.cfg = s.cfg := (congrArg (fun t => t.cfg) hs : _)
    rw [this]; exact hl
  have e1 := calls_im i1 cs cs (ansCalls_refl cs) s hl
  have e2 := calls_im i2 cs cs (ansCalls_refl cs) s' hl'
  have e3 : (s'.calls { ops with evaluate := ev' } cs).im (eraseBy h : Ren O O F F C C U U S S) = (s.calls ops cs).im (eraseBy h : Ren O O F F C C U U S S) := by
    rw [← e1, ← e2, hs]
  refine ⟨sameSearch_of_erase h _ _ e3, fun a => ?_⟩
  have f1 := call_im i1 (s.calls ops cs) (by rw [(calls_cfg ops cs s).1]; exact hl) a a (ansCall_refl a)
  have f2 := call_im i2 (s'.calls { ops with evaluate := ev' } cs) (by rw [(calls_cfg _ cs s').1]; exact hl') a a (ansCall_refl a)
  have f3 := congrArg Prod.fst f1
  have f4 := congrArg Prod.fst f2
  rw [e3] at f4
  exact f4.symm.trans f3

/-! ## RVEA and NSGA-III -/

theorem builtFrom_blind {sh : Shared93 X m} {mult : Vec m} {ideal : Nat → Vec m}
    {ops : Ops X (Vec m) (Vec m) (List ℝ) (Vec m) (RV m) S Q (Answer m)} (hb : BuiltFrom sh mult ideal ops) (h : List ℝ → List ℝ) :
    BlindBase h ops where
  respond clk k v p r := by
    rw [hb.respond]
    unfold rvRespond
    have : answerCall mult ideal sh.lhs clk k (p.im (eraseBy h : Ren (Vec m) (Vec m) (Vec m) (Vec m) (List ℝ) (List ℝ) (Vec m) (Vec m) S S)) r =
        answerCall mult ideal sh.lhs clk k p r := by
      have e : (p.im (eraseBy h : Ren (Vec m) (Vec m) (Vec m) (Vec m) (List ℝ) (List ℝ) (Vec m) (Vec m) S S)).objectives = p.objectives := List.map_id _
      unfold answerCall
      rw [e]
    rw [this]

theorem two_problems {sh : Shared93 X m} {mult : Vec m} {ideal : Nat → Vec m}
    {ops : Ops X (Vec m) (Vec m) (List ℝ) (Vec m) (RV m) S Q (Answer m)} (hb : BuiltFrom sh mult ideal ops)
    {h : List ℝ → List ℝ} {rel : List ℝ → List ℝ → Prop} (hrel : ∀ a b, rel a b → h a = h b)
    (hsel : ∀ clk v t p, ops.select clk v t (p.im (eraseBy h : Ren (Vec m) (Vec m) (Vec m) (Vec m) (List ℝ) (List ℝ) (Vec m) (Vec m) S S)) = ops.select clk v t p)
    (ev' : Nat → Bool → Batch X → Except Err (Results (Vec m) (Vec m) (List ℝ) (Vec m)))
    (hev : ∀ clk b x, SameButConstraints rel (ops.evaluate clk b x) (ev' clk b x))
    (design : Nat → Nat → Except Err (Batch X)) (vec0 : Nat → RV m) (sel0 : Nat → S) (prob0 : Q)
    (interact useSurr keepArchive saveND : Bool) (nIter nGen total : Nat) (ty0 : ProblemType) (hty : ty0 ≠ .iopis) (k nc : Nat)
    (ps lr : Option Nat) (s : EA X (Vec m) (Vec m) (List ℝ) (Vec m) (RV m) S Q)
    (hs : construct ops design vec0 sel0 prob0 interact useSurr keepArchive saveND nIter nGen total (some (ty0, k, nc)) none ps lr = .ok s) :
    ∃ s', construct { ops with evaluate := ev' } design vec0 sel0 prob0 interact useSurr keepArchive saveND nIter nGen total
        (some (ty0, k, nc)) none ps lr = .ok s' ∧
      ∀ cs, SameSearch (s.calls ops cs) (s'.calls { ops with evaluate := ev' } cs) ∧
        ∀ a, ((s'.calls { ops with evaluate := ev' } cs).call { ops with evaluate := ev' } a).1 = ((s.calls ops cs).call ops a).1 := by
  have hbl := builtFrom_blind hb h
  have e := construct_erase hrel hbl ev' hev design vec0 sel0 prob0 interact useSurr keepArchive saveND nIter nGen total (some (ty0, k, nc)) ps lr
  rw [hs] at e
  generalize hc : construct { ops with evaluate := ev' } design vec0 sel0 prob0 interact useSurr keepArchive saveND nIter nGen total
    (some (ty0, k, nc)) none ps lr = c at e
  cases c with
  | error e' => cases e
  | ok s' =>
    have e : s'.im _ = s.im _ := Except.ok.inj e
    refine ⟨s', rfl, fun cs => ?_⟩
    refine calls_erase hrel hbl ?_ hsel ev' hev s s' e ?_ cs
    · intro clk p; rw [hb.mate, hb.mate]; rfl
    · exact construct_location ops design vec0 sel0 prob0 interact useSurr keepArchive saveND nIter nGen total ty0 hty k nc ps lr s hs

/-- C96. NSGA-III does not read the constraints.  Two problems with the same objectives, fitness and uncertainties and whatever constraint values
(as many rows), the same settings, variation and answers: every history of calls gives the same requests and exceptions, the same individuals,
vectors, counters, archive and archive of non-dominated solutions. -/
theorem c96_nsga_ignores_constraints (sh : Shared93 X m) (mult : Vec m) (ideal : Nat → Vec m) (ty : SelType)
    (sort : List (Vec m) → List (List Nat)) (solve : List (Vec m) → Option (Vec m)) (rnd : Nat → NicheRand) (ns : Option Nat)
    (ops : Ops X (Vec m) (Vec m) (List ℝ) (Vec m) (RV m) (Nsga m) Q (Answer m)) (hb : BuiltFrom sh mult ideal ops)
    (hsel : ops.select = nsgaSelect ty sort solve rnd ns)
    (ev' : Nat → Bool → Batch X → Except Err (Results (Vec m) (Vec m) (List ℝ) (Vec m)))
    (hev : ∀ clk b x, SameButConstraints (fun _ _ => True) (ops.evaluate clk b x) (ev' clk b x))
    (design : Nat → Nat → Except Err (Batch X)) (vec0 : Nat → RV m) (sel0 : Nat → Nsga m) (prob0 : Q)
    (interact useSurr keepArchive saveND : Bool) (nIter nGen total : Nat) (ty0 : ProblemType) (hty : ty0 ≠ .iopis) (k nc : Nat)
    (ps lr : Option Nat) (s : EA X (Vec m) (Vec m) (List ℝ) (Vec m) (RV m) (Nsga m) Q)
    (hs : construct ops design vec0 sel0 prob0 interact useSurr keepArchive saveND nIter nGen total (some (ty0, k, nc)) none ps lr = .ok s) :
    ∃ s', construct { ops with evaluate := ev' } design vec0 sel0 prob0 interact useSurr keepArchive saveND nIter nGen total
        (some (ty0, k, nc)) none ps lr = .ok s' ∧
      ∀ cs, SameSearch (s.calls ops cs) (s'.calls { ops with evaluate := ev' } cs) ∧
        ∀ a, ((s'.calls { ops with evaluate := ev' } cs).call { ops with evaluate := ev' } a).1 = ((s.calls ops cs).call ops a).1 := by
  refine two_problems hb (h := fun _ => []) (fun _ _ _ => rfl) ?_ ev' hev design vec0 sel0 prob0 interact useSurr keepArchive saveND nIter nGen
    total ty0 hty k nc ps lr s hs
  intro clk v t p
  rw [hsel]
  unfold nsgaSelect
  have e1 : (p.im (eraseBy (fun _ => []) : Ren (Vec m) (Vec m) (Vec m) (Vec m) (List ℝ) (List ℝ) (Vec m) (Vec m) (Nsga m) (Nsga m))).fitness = p.fitness := List.map_id _
  have e2 : (p.im (eraseBy (fun _ => []) : Ren (Vec m) (Vec m) (Vec m) (Vec m) (List ℝ) (List ℝ) (Vec m) (Vec m) (Nsga m) (Nsga m))).uncertainity = p.uncertainity := by
    show p.uncertainity.map (fun l => l.map id) = _
    simp
  rw [e1, e2]

open Classical in
/-- C96 (consequence). Whatever run of NSGA-III one looks at, on a problem with constraints: there is a problem with the same objectives whose
constraints are satisfied by every decision vector except those of the final population, which all violate them, and on which the run is the same:
NSGA-III ends with exactly the infeasible ones. -/
theorem c96_nsga_may_end_infeasible (sh : Shared93 X m) (mult : Vec m) (ideal : Nat → Vec m) (ty : SelType)
    (sort : List (Vec m) → List (List Nat)) (solve : List (Vec m) → Option (Vec m)) (rnd : Nat → NicheRand) (ns : Option Nat)
    (ops : Ops X (Vec m) (Vec m) (List ℝ) (Vec m) (RV m) (Nsga m) Q (Answer m)) (hb : BuiltFrom sh mult ideal ops)
    (hsel : ops.select = nsgaSelect ty sort solve rnd ns)
    (hcon : ∀ clk b x r, ops.evaluate clk b x = .ok r → ∃ l, r.constraints = some l ∧ l.length = x.rows.length)
    (design : Nat → Nat → Except Err (Batch X)) (vec0 : Nat → RV m) (sel0 : Nat → Nsga m) (prob0 : Q)
    (interact useSurr keepArchive saveND : Bool) (nIter nGen total : Nat) (ty0 : ProblemType) (hty : ty0 ≠ .iopis) (k nc : Nat)
    (ps lr : Option Nat) (s : EA X (Vec m) (Vec m) (List ℝ) (Vec m) (RV m) (Nsga m) Q)
    (hs : construct ops design vec0 sel0 prob0 interact useSurr keepArchive saveND nIter nGen total (some (ty0, k, nc)) none ps lr = .ok s)
    (cs : List (Call (Answer m))) (final : List X) (hfinal : (s.calls ops cs).pop.individuals = some final) :
    ∃ con : X → List ℝ, (∀ x, rowViolation (con x) = 0 ↔ x ∉ final) ∧
      ∀ ops', ops' = { ops with evaluate := fun clk b x => (ops.evaluate clk b x).map (fun r => { r with constraints := some (x.rows.map con) }) } →
        ∃ s', construct ops' design vec0 sel0 prob0 interact useSurr keepArchive saveND nIter nGen total (some (ty0, k, nc)) none ps lr = .ok s' ∧
          (s'.calls ops' cs).pop.individuals = some final := by
  refine ⟨fun x => if x ∈ final then [1] else [0], fun x => ?_, ?_⟩
  · by_cases hx : x ∈ final <;> simp [hx, rowViolation]
  · rintro ops' rfl
    obtain ⟨s', h1, h2⟩ := c96_nsga_ignores_constraints sh mult ideal ty sort solve rnd ns ops hb hsel
      (fun clk b x => (ops.evaluate clk b x).map (fun r => { r with constraints := some (x.rows.map (fun x => if x ∈ final then [1] else [0])) }))
      (fun clk b x => by
        have := hcon clk b x
        generalize ops.evaluate clk b x = e at this
        cases e with
        | error e => exact rfl
        | ok r =>
          obtain ⟨l, hl, hn⟩ := this r rfl
          obtain ⟨ro, rf, rc, ru⟩ := r
          simp only at hl
          subst hl
          refine ⟨rfl, rfl, rfl, ?_⟩
          show List.Forall₂ (fun _ _ => True) l (x.rows.map _)
          rw [List.forall₂_iff_get]
          exact ⟨by simp [hn], fun _ _ _ => trivial⟩)
      design vec0 sel0 prob0 interact useSurr keepArchive saveND nIter nGen total ty0 hty k nc ps lr s hs
    exact ⟨s', h1, (h2 cs).1.individuals.trans hfinal⟩

theorem rowViolation_nonneg (row : List ℝ) : 0 ≤ rowViolation row := by
  unfold rowViolation
  exact List.sum_nonneg (fun x hx => by obtain ⟨v, -, rfl⟩ := List.mem_map.1 hx; exact le_max_left _ _)

theorem rowViolation_zero (row : List ℝ) : rowViolation row = 0 ↔ ∀ v ∈ row, max 0 v = 0 := by
  induction row with
  | nil => simp [rowViolation]
  | cons a row ih =>
    have h1 : rowViolation (a :: row) = max 0 a + rowViolation row := by simp [rowViolation]
    have h2 := rowViolation_nonneg row
    have h3 : 0 ≤ max 0 a := le_max_left _ _
    rw [h1]
    constructor
    · intro h v hv
      rcases List.mem_cons.1 hv with rfl | hv
      · linarith
      · exact (ih.1 (by linarith)) v hv
    · intro h
      rw [h a (by simp), ih.2 (fun v hv => h v (by simp [hv]))]
      simp

theorem constraintFilter_total (cons : Option (List (List ℝ))) (sub : List Nat) :
    constraintFilter (cons.map (fun l => l.map (fun row => [rowViolation row]))) sub = constraintFilter cons sub := by
  cases cons with
  | none => rfl
  | some c =>
    simp only [Option.map_some, constraintFilter]
    have hv : ∀ j, ((c.map (fun row => [rowViolation row])).getD j []).map (fun v => max 0 v) = if j < c.length then [rowViolation (c.getD j [])] else [] := by
      intro j
      rw [List.getD_eq_getElem?_getD, List.getD_eq_getElem?_getD, List.getElem?_map]
      split
      · rename_i hj
        rw [List.getElem?_eq_getElem hj]
        simp [max_eq_right (rowViolation_nonneg _)]
      · rename_i hj
        rw [List.getElem?_eq_none (by omega)]
        rfl
    have hfeas : ∀ j, (((c.map (fun row => [rowViolation row])).getD j []).map (fun v => max 0 v)).all (fun v => decide (v = 0)) =
        ((c.getD j []).map (fun v => max 0 v)).all (fun v => decide (v = 0)) := by
      intro j
      rw [hv]
      split
      · rw [Bool.eq_iff_iff]
        simp only [List.all_cons, List.all_nil, Bool.and_true, decide_eq_true_eq, List.all_map, List.all_eq_true, Function.comp_apply]
        exact rowViolation_zero _
      · rename_i hj
        rw [List.getD_eq_getElem?_getD, List.getElem?_eq_none (by omega)]
        rfl
    have htot : ∀ j, (((c.map (fun row => [rowViolation row])).getD j []).map (fun v => max 0 v)).sum =
        ((c.getD j []).map (fun v => max 0 v)).sum := by
      intro j
      rw [hv]
      split
      · simp only [List.sum_cons, List.sum_nil, add_zero]; rfl
      · rename_i hj
        rw [List.getD_eq_getElem?_getD, List.getElem?_eq_none (by omega)]
        rfl
    simp only [hfeas, htot]

/-- C96. RVEA reads of the constraints of an individual only the total violation (the sum of the positive values).  Two problems with the same
objectives, fitness and uncertainties and constraints that always give the same total violation: every history runs the same. -/
theorem c96_rvea_total_violation (sh : Shared93 X m) (mult : Vec m) (ideal : Nat → Vec m) (ty : SelType) (pen : Nat → ℝ)
    (ops : Ops X (Vec m) (Vec m) (List ℝ) (Vec m) (RV m) (Vec m) Q (Answer m)) (hb : BuiltFrom sh mult ideal ops)
    (hsel : ops.select = rveaSelect ty pen ideal)
    (ev' : Nat → Bool → Batch X → Except Err (Results (Vec m) (Vec m) (List ℝ) (Vec m)))
    (hev : ∀ clk b x, SameButConstraints (fun row row' => rowViolation row' = rowViolation row) (ops.evaluate clk b x) (ev' clk b x))
    (design : Nat → Nat → Except Err (Batch X)) (vec0 : Nat → RV m) (sel0 : Nat → Vec m) (prob0 : Q)
    (interact useSurr keepArchive saveND : Bool) (nIter nGen total : Nat) (ty0 : ProblemType) (hty : ty0 ≠ .iopis) (k nc : Nat)
    (ps lr : Option Nat) (s : EA X (Vec m) (Vec m) (List ℝ) (Vec m) (RV m) (Vec m) Q)
    (hs : construct ops design vec0 sel0 prob0 interact useSurr keepArchive saveND nIter nGen total (some (ty0, k, nc)) none ps lr = .ok s) :
    ∃ s', construct { ops with evaluate := ev' } design vec0 sel0 prob0 interact useSurr keepArchive saveND nIter nGen total
        (some (ty0, k, nc)) none ps lr = .ok s' ∧
      ∀ cs, SameSearch (s.calls ops cs) (s'.calls { ops with evaluate := ev' } cs) ∧
        ∀ a, ((s'.calls { ops with evaluate := ev' } cs).call { ops with evaluate := ev' } a).1 = ((s.calls ops cs).call ops a).1 := by
  refine two_problems hb (h := fun row => [rowViolation row]) (fun a b (h : rowViolation b = rowViolation a) => by simp only [h]) ?_ ev' hev design vec0 sel0 prob0
    interact useSurr keepArchive saveND nIter nGen total ty0 hty k nc ps lr s hs
  intro clk v t p
  rw [hsel]
  unfold rveaSelect
  have e1 : (p.im (eraseBy (fun row => [rowViolation row]) : Ren (Vec m) (Vec m) (Vec m) (Vec m) (List ℝ) (List ℝ) (Vec m) (Vec m) (Vec m) (Vec m))).fitness = p.fitness := List.map_id _
  have e2 : (p.im (eraseBy (fun row => [rowViolation row]) : Ren (Vec m) (Vec m) (Vec m) (Vec m) (List ℝ) (List ℝ) (Vec m) (Vec m) (Vec m) (Vec m))).uncertainity = p.uncertainity := by
    show p.uncertainity.map (fun l => l.map id) = _
    simp
  have e3 : (p.im (eraseBy (fun row => [rowViolation row]) : Ren (Vec m) (Vec m) (Vec m) (Vec m) (List ℝ) (List ℝ) (Vec m) (Vec m) (Vec m) (Vec m))).constraint =
    p.constraint.map (fun l => l.map (fun row => [rowViolation row])) := rfl
  rw [e1, e2, e3]
  have hapd : ∀ g fit, apdDo v.values g (pen clk) t (ideal clk) fit (p.constraint.map (fun l => l.map (fun row => [rowViolation row]))) =
      apdDo v.values g (pen clk) t (ideal clk) fit p.constraint := by
    intro g fit
    have : ∀ apd asg n, apdLoop (p.constraint.map (fun l => l.map (fun row => [rowViolation row]))) apd asg n = apdLoop p.constraint apd asg n := by
      intro apd asg n
      unfold apdLoop
      refine List.filterMap_congr (fun i _ => ?_)
      unfold apdOne
      rw [constraintFilter_total]
    unfold apdDo
    simp only [this]
  simp only [hapd]

/-! ## MOEA/D -/

theorem moeadBody_interaction (ops : Ops X O F C U (MoeadRV m) S Q R) (mo : MoeadOps m ℝ X O F C U) (useRepair : Bool) (N : Nat)
    (s : EA X O F C U (MoeadRV m) S Q) : SameInteraction s (moeadBody ops mo useRepair N s).2 := by
  have hstep : ∀ i (s : EA X O F C U (MoeadVec m ℝ) S Q), SameInteraction s (moeadStep (ops.forGeneration (W := MoeadVec m ℝ)) mo useRepair i s).2 := by
    intro i s
    have hev : ∀ (x : X) (u : EA X O F C U (MoeadVec m ℝ) S Q), SameInteraction u (moeadEvaluate (ops.forGeneration (W := MoeadVec m ℝ)) x u).2 := by
      intro x u
      unfold moeadEvaluate EA.popAdd
      dsimp only
      generalize u.pop.add _ _ = r
      obtain ⟨r, p⟩ := r
      cases r with
      | error e => exact ⟨rfl, rfl, rfl, rfl, rfl, Nat.le_succ _⟩
      | ok _ => dsimp only; split <;> exact ⟨rfl, rfl, rfl, rfl, rfl, Nat.le_succ _⟩
    have hfin : ∀ (x : X) (res : Results O F C U) (u : EA X O F C U (MoeadVec m ℝ) S Q),
        SameInteraction u (moeadFinish (ops.forGeneration (W := MoeadVec m ℝ)) mo i x res u).2 := by
      intro x res u
      unfold moeadFinish EA.updateND
      repeat' split
      all_goals exact ⟨rfl, rfl, rfl, rfl, rfl, Nat.le_refl _⟩
    unfold moeadStep
    split
    · exact SameInteraction.refl _
    · dsimp only
      split
      · exact ⟨rfl, rfl, rfl, rfl, rfl, Nat.le_succ _⟩
      · exact ⟨rfl, rfl, rfl, rfl, rfl, Nat.le_succ _⟩
      · rename_i x0 xs _
        have h0 : SameInteraction s ({ s with clock := s.clock + 1 + 1 } : EA X O F C U (MoeadVec m ℝ) S Q) :=
          ⟨rfl, rfl, rfl, rfl, rfl, by simp only; omega⟩
        have h1 := h0.trans (hev (if useRepair then mo.repair x0 else x0) { s with clock := s.clock + 1 + 1 })
        split
        · rename_i heq; rw [heq] at h1; exact h1
        · rename_i res t heq
          rw [heq] at h1
          exact h1.trans (hfin (if useRepair then mo.repair x0 else x0) res t)
  have hsteps : ∀ (is : List Nat) (s : EA X O F C U (MoeadVec m ℝ) S Q),
      SameInteraction s (moeadSteps (ops.forGeneration (W := MoeadVec m ℝ)) mo useRepair is s).2 := by
    intro is
    induction is with
    | nil => exact fun _ => SameInteraction.refl _
    | cons i is ih =>
      intro s
      have h1 := hstep i s
      unfold moeadSteps
      generalize moeadStep (ops.forGeneration (W := MoeadVec m ℝ)) mo useRepair i s = r at h1
      obtain ⟨r, t⟩ := r
      cases r with
      | error e => exact h1
      | ok _ => exact h1.trans (ih t)
  have h := hsteps (List.range N) (s.withVec s.vec.toVec)
  unfold moeadBody moeadNextGen
  generalize moeadSteps (ops.forGeneration (W := MoeadVec m ℝ)) mo useRepair (List.range N) (s.withVec s.vec.toVec) = r at h
  obtain ⟨r, t⟩ := r
  cases r with
  | error e => exact ⟨h.cfg, h.reqId, h.itype, h.typeSet, h.allowRead, h.clock⟩
  | ok _ => exact ⟨h.cfg, h.reqId, h.itype, h.typeSet, h.allowRead, h.clock⟩

/-- C96. MOEA/D does not read the constraints either (`sf`: any scalarisation of fitness, weights and ideal point). -/
theorem c96_moead_ignores_constraints (vary : Nat → Option (List X) → Nat → Nat → Except Err (List X)) (mult : Vec m) (ideal : Nat → Vec m)
    (lhs : Nat → Nat → List (Vec m)) (argsort : List ℝ → List Nat) (nNeighbors nParents : Nat)
    (ops : Ops X (Vec m) (Vec m) C U (MoeadRV m) S Q (Answer m)) (hresp : ops.respond = moeadRespond argsort nNeighbors (answerCall mult ideal lhs))
    (mo : MoeadOps m ℝ X (Vec m) (Vec m) C U) (hmate : ∀ clk p a b, mo.mate clk p a b = vary clk p.individuals a b)
    (ev' : Nat → Bool → Batch X → Except Err (Results (Vec m) (Vec m) C U))
    (hev : ∀ clk b x, SameButConstraints (fun _ _ => True) (ops.evaluate clk b x) (ev' clk b x))
    (design : Nat → Nat → Except Err (Batch X)) (sel0 : S) (prob0 : Q)
    (interact useSurr keepArchive saveND useRepair : Bool) (nIter nGen total N : Nat) (pty : ProblemType) (hty : pty ≠ .iopis) (nc : Nat)
    (ps lr : Option Nat) (s : EA X (Vec m) (Vec m) C U (MoeadRV m) S Q)
    (hs : moeadConstruct ops design argsort nNeighbors nParents sel0 prob0 interact useSurr keepArchive saveND nIter nGen total pty nc ps lr = .ok s) :
    ∃ s', moeadConstruct { ops with evaluate := ev' } design argsort nNeighbors nParents sel0 prob0 interact useSurr keepArchive saveND nIter nGen
        total pty nc ps lr = .ok s' ∧
      ∀ cs, SameSearch (s.callsWith ops (moeadBody ops mo useRepair N) cs)
          (s'.callsWith { ops with evaluate := ev' } (moeadBody { ops with evaluate := ev' } mo useRepair N) cs) ∧
        ∀ pref, ((s'.callsWith { ops with evaluate := ev' } (moeadBody { ops with evaluate := ev' } mo useRepair N) cs).iterateWith
            { ops with evaluate := ev' } (moeadBody { ops with evaluate := ev' } mo useRepair N) pref).1 =
          ((s.callsWith ops (moeadBody ops mo useRepair N) cs).iterateWith ops (moeadBody ops mo useRepair N) pref).1 := by
  classical
  by_cases hC : Nonempty C
  swap
  · have he : ev' = ops.evaluate := by
      funext clk b x
      have h := hev clk b x
      generalize ops.evaluate clk b x = r at h
      generalize ev' clk b x = r' at h
      match r, r', h with
      | .error e, .error e', h => cases h; rfl
      | .ok ⟨ro, rf, rc, ru⟩, .ok ⟨ro', rf', rc', ru'⟩, h =>
        obtain ⟨h1, h2, h3, h4⟩ := h
        simp only at h1 h2 h3 h4
        subst h1; subst h2; subst h3
        match rc, rc', h4 with
        | none, none, _ => rfl
        | some [], some [], _ => rfl
        | some (a :: _), _, _ => exact absurd ⟨a⟩ hC
    subst he
    exact ⟨s, hs, fun cs => ⟨⟨rfl, rfl, rfl, rfl, rfl, rfl, rfl, rfl, rfl, rfl, rfl, rfl, rfl, rfl⟩, fun _ => rfl⟩⟩
  obtain ⟨c0⟩ := hC
  have hrel : ∀ a b : C, True → (fun _ : C => c0) a = (fun _ : C => c0) b := fun _ _ _ => rfl
  let g : Ren (Vec m) (Vec m) (Vec m) (Vec m) C C U U S S := eraseBy (fun _ => c0)
  have hblind : ∀ (o : Ops X (Vec m) (Vec m) C U (MoeadRV m) S Q (Answer m)), o.respond = ops.respond → BlindBase (fun _ => c0) o := by
    intro o ho
    constructor
    intro clk k v p r
    rw [ho, hresp]
    unfold moeadRespond
    have : answerCall mult ideal lhs clk k (p.im g) r = answerCall mult ideal lhs clk k p r := by
      have e : (p.im g).objectives = p.objectives := List.map_id _
      unfold answerCall
      rw [e]
    rw [this]
  have hmo : ImMo g mo mo := by
    refine ⟨rfl, ?_, rfl, ?_⟩
    · intro clk p a b; rw [hmate, hmate]; rfl
    · intro clk v fit i
      rw [show fit.map g.f = fit from List.map_id fit]
  have hbase := imBase_erased (hblind ops rfl)
  have hbase' : ImBase g Eq { ops with evaluate := ev' } (erasedOps (fun _ => c0) ops) := by
    have := imBase_erased (hblind { ops with evaluate := ev' } rfl)
    rwa [erasedOps_eq hrel ops ev' hev] at this
  have hbody : ∀ (o : Ops X (Vec m) (Vec m) C U (MoeadRV m) S Q (Answer m)), ImBase g Eq o (erasedOps (fun _ => c0) ops) → ∀ s,
      moeadBody (erasedOps (fun _ => c0) ops) mo useRepair N (s.im g) = ((moeadBody o mo useRepair N s).1, (moeadBody o mo useRepair N s).2.im g) :=
    fun o ho s => moeadBody_im hmo ho.dom ho.evaluate useRepair N s
  -- the constructor
  have hcon := construct_erase hrel (hblind ops rfl) ev' hev design (fun _ => (⟨⟨[], [], [], [], 0⟩, []⟩ : MoeadRV m)) (fun _ => sel0) prob0 interact
    useSurr keepArchive saveND nIter nGen total (some (pty, m, nc)) ps lr
  unfold moeadConstruct at hs
  generalize hc1 : construct ops design (fun _ => (⟨⟨[], [], [], [], 0⟩, []⟩ : MoeadRV m)) (fun _ => sel0) prob0 interact useSurr keepArchive saveND
    nIter nGen total (some (pty, m, nc)) none ps lr = c1 at hs hcon
  generalize hc2 : construct { ops with evaluate := ev' } design (fun _ => (⟨⟨[], [], [], [], 0⟩, []⟩ : MoeadRV m)) (fun _ => sel0) prob0 interact
    useSurr keepArchive saveND nIter nGen total (some (pty, m, nc)) none ps lr = c2 at hcon
  cases c1 with
  | error e => cases hs
  | ok t =>
    cases c2 with
    | error e => cases hcon
    | ok t' =>
      have hcon : t'.im g = t.im g := Except.ok.inj hcon
      have hloc := construct_location ops design _ _ prob0 interact useSurr keepArchive saveND nIter nGen total pty hty m nc ps lr t hc1
      dsimp only at hs
      by_cases hp : nParents ≠ 2
      · rw [if_pos hp] at hs; cases hs
      · rw [if_neg hp] at hs
        generalize hr : chooseResolution m none (some (choosePopSize m ps lr)) = cr at hs
        match cr with
        | .error e => cases hs
        | .ok none => cases hs
        | .ok (some r) =>
          dsimp only at hs
          generalize hv : RV.create m r = cv at hs
          match cv with
          | .error e => cases hs
          | .ok v =>
            have hs : _ = s := Except.ok.inj hs
            let s' : EA X (Vec m) (Vec m) C U (MoeadRV m) S Q := { t' with vec := moeadInit argsort nNeighbors v }
            have hss : s'.im g = s.im g := by
              rw [← hs]
              show ({ t'.im g with vec := moeadInit argsort nNeighbors v } : EA X (Vec m) (Vec m) C U (MoeadRV m) S Q) =
                { t.im g with vec := moeadInit argsort nNeighbors v }
              rw [hcon]
            have hls : s.cfg.location ≠ some .problem := by rw [← hs]; exact hloc
            have hls' : s'.cfg.location ≠ some .problem := by
              have : s'.cfg = s.cfg := (congrArg (fun t => t.cfg) hss : _)
              rw [this]; exact hls
            refine ⟨s', ?_, fun cs => ?_⟩
            · unfold moeadConstruct
              rw [hc2]
              simp only [if_neg hp, hr, hv]
              rfl
            · have e1 := callsWith_im hbase (hbody ops hbase) (moeadBody_interaction ops mo useRepair N) cs cs (ansCalls_refl cs) s hls
              have e2 := callsWith_im hbase' (hbody _ hbase') (moeadBody_interaction _ mo useRepair N) cs cs (ansCalls_refl cs) s' hls'
              have e3 := e2.symm.trans ((congrArg (fun u => EA.callsWith (erasedOps (fun _ => c0) ops)
                (moeadBody (erasedOps (fun _ => c0) ops) mo useRepair N) u cs) hss).trans e1)
              refine ⟨sameSearch_of_erase _ _ _ e3, fun pref => ?_⟩
              have hcfg : ∀ (o : Ops X (Vec m) (Vec m) C U (MoeadRV m) S Q (Answer m)) (u : EA X (Vec m) (Vec m) C U (MoeadRV m) S Q),
                  u.cfg.location ≠ some .problem → (u.callsWith o (moeadBody o mo useRepair N) cs).cfg.location ≠ some .problem := by
                intro o u hu
                rw [callsWith_cfg o (moeadBody_interaction o mo useRepair N) cs u]
                exact hu
              have f1 := iterateWith_im (hbody ops hbase) hbase (s.callsWith ops (moeadBody ops mo useRepair N) cs) (hcfg ops s hls) pref pref (ansOpt_refl pref)
              have f2 := iterateWith_im (hbody { ops with evaluate := ev' } hbase') hbase'
                (s'.callsWith { ops with evaluate := ev' } (moeadBody { ops with evaluate := ev' } mo useRepair N) cs)
                (hcfg { ops with evaluate := ev' } s' hls') pref pref (ansOpt_refl pref)
              rw [e3] at f2
              have k1 := congrArg Prod.fst f1
              have k2 := congrArg Prod.fst f2
              exact k2.symm.trans k1

/-! ## IBEA and PBEA -/

/-- C96. The indicator EAs do not read the constraints (`term`: whatever is computed from the reference point, the objectives and two fitness rows;
IBEA's and PBEA's are instances). -/
theorem c96_indicator_ignores_constraints {P : Type} (vary : Nat → Option (List X) → List Nat → Except Err (Batch X))
    (io : IndOps X O F C U P R) (hmate : ∀ clk p ch, io.mate clk p ch = vary clk p.individuals ch)
    (ev' : Nat → Bool → Batch X → Except Err (Results O F C U))
    (hev : ∀ clk b x, SameButConstraints (fun _ _ => True) (io.evaluate clk b x) (ev' clk b x))
    (design : Nat → Nat → Except Err (Batch X)) (ref0 : P) (prob0 : Q) (interact useSurr : Bool) (nIter nGen total nc n : Nat)
    (s : EA X O F C U P (List ℝ) Q)
    (hs : indConstruct io design ref0 prob0 interact useSurr nIter nGen total nc n none = .ok s) :
    ∃ s', indConstruct { io with evaluate := ev' } design ref0 prob0 interact useSurr nIter nGen total nc n none = .ok s' ∧
      ∀ cs, SameSearch (indCalls io n s cs) (indCalls { io with evaluate := ev' } n s' cs) ∧
        ∀ pref, (indIterate { io with evaluate := ev' } n (indCalls { io with evaluate := ev' } n s' cs) pref).1 =
          (indIterate io n (indCalls io n s cs) pref).1 := by
  classical
  by_cases hC : Nonempty C
  swap
  · have he : ev' = io.evaluate := by
      funext clk b x
      have h := hev clk b x
      generalize io.evaluate clk b x = r at h
      generalize ev' clk b x = r' at h
      match r, r', h with
      | .error e, .error e', h => cases h; rfl
      | .ok ⟨ro, rf, rc, ru⟩, .ok ⟨ro', rf', rc', ru'⟩, h =>
        obtain ⟨h1, h2, h3, h4⟩ := h
        simp only at h1 h2 h3 h4
        subst h1; subst h2; subst h3
        match rc, rc', h4 with
        | none, none, _ => rfl
        | some [], some [], _ => rfl
        | some (a :: _), _, _ => exact absurd ⟨a⟩ hC
    subst he
    exact ⟨s, hs, fun cs => ⟨⟨rfl, rfl, rfl, rfl, rfl, rfl, rfl, rfl, rfl, rfl, rfl, rfl, rfl, rfl⟩, fun _ => rfl⟩⟩
  obtain ⟨c0⟩ := hC
  let g : Ren O O F F C C U U (List ℝ) (List ℝ) := eraseBy (fun _ => c0)
  let ioE : IndOps X O F C U P R := { io with evaluate := fun clk b x => (io.evaluate clk b x).map (fun r => r.im g) }
  have hi : ∀ ev, (∀ clk b x, (ev clk b x).map (fun r : Results O F C U => r.im g) = (io.evaluate clk b x).map (fun r => r.im g)) →
      ImInd g { io with evaluate := ev } ioE := by
    intro ev hev
    refine ⟨?_, rfl, ?_, ?_, rfl, rfl, rfl⟩
    · intro r os a b
      rw [show os.map g.o = os from List.map_id os]
      rfl
    · intro clk p ch
      show io.mate clk (p.im g) ch = io.mate clk p ch
      rw [hmate, hmate]; rfl
    · intro clk b x
      exact (hev clk b x).symm
  have h1 : ImInd g io ioE := hi io.evaluate (fun _ _ _ => rfl)
  have h2 := hi ev' (fun clk b x => results_erase_eq (rel := fun _ _ => True) (fun _ _ _ => rfl) _ _ (hev clk b x))
  have k1 := indConstruct_im h1 design ref0 prob0 interact useSurr nIter nGen total nc n
  have k2 := indConstruct_im h2 design ref0 prob0 interact useSurr nIter nGen total nc n
  rw [hs] at k1
  rw [k1] at k2
  generalize hc : indConstruct { io with evaluate := ev' } design ref0 prob0 interact useSurr nIter nGen total nc n none = c at k2
  cases c with
  | error e => cases k2
  | ok s' =>
    have k2 : s.im g = s'.im g := Except.ok.inj k2
    refine ⟨s', rfl, fun cs => ?_⟩
    have e3 : (indCalls { io with evaluate := ev' } n s' cs).im g = (indCalls io n s cs).im g := by
      rw [← indCalls_im h2, ← indCalls_im h1, k2]
    refine ⟨sameSearch_of_erase _ _ _ e3, fun pref => ?_⟩
    have f1 := congrArg Prod.fst (indIterate_im h1 n (indCalls io n s cs) pref)
    have f2 := congrArg Prod.fst (indIterate_im h2 n (indCalls { io with evaluate := ev' } n s' cs) pref)
    rw [e3] at f2
    exact f2.symm.trans f1

/-! ## The hypotheses are met -/

/-- NSGA-III on one variable and two objectives with one constraint, `con`. -/
noncomputable def demo96 (con : Row 1 → List ℝ) : Ops (Row 1) (Vec 2) (Vec 2) (List ℝ) (Vec 2) (RV 2) (Nsga 2) Unit (Answer 2) where
  adapt := rvAdapt
  respond := rvRespond (answerCall (fun _ => 1) (fun _ _ => 0) (fun _ _ => []))
  mate := mateAll (fun _ => 0) (fun _ => 1) (fun _ => ⟨id, fun _ => ⟨fun _ => 0, fun _ => false, fun _ => 0⟩, fun _ _ => 0, fun _ _ => 0⟩)
  evaluate := fun _ _ b => .ok ⟨b.rows.map (fun x i => if i = 0 then (x 0).getD 0 else 1), b.rows.map (fun x i => if i = 0 then (x 0).getD 0 else 1),
    some (b.rows.map con), none⟩
  select := nsgaSelect .mean (fun fitness => peelFronts (indDom fitness) fitness.length (List.range fitness.length)) (fun _ => none) (fun _ => ⟨fun _ => 0, fun _ l => l⟩) none
  newId := fun _ => 7
  probManage := fun q _ _ => (.ok (), q)
  probReeval := fun q _ => ([], q)
  dom := fun a b => by classical exact decide (RowDominates a b)
  nonDom := nonDominated (fun a b => by classical exact decide (RowDominates a b))

/-- Non-vacuity: the NSGA-III of the demonstration is of the shape assumed, on two problems with different constraints, and can be built. -/
example (con con' : Row 1 → List ℝ) : BuiltFrom demoShared (fun _ => 1) (fun _ _ => 0) (demo96 con) ∧
    (∀ clk b x, SameButConstraints (fun _ _ => True) ((demo96 con).evaluate clk b x) ((demo96 con').evaluate clk b x)) ∧
    (∀ clk b x r, (demo96 con).evaluate clk b x = .ok r → ∃ l, r.constraints = some l ∧ l.length = x.rows.length) ∧
    ∃ s : EA (Row 1) (Vec 2) (Vec 2) (List ℝ) (Vec 2) (RV 2) (Nsga 2) Unit,
      construct (demo96 con) demo93Design (fun _ => ⟨[], [], [], [], 0⟩) (fun _ => ⟨0, none, none⟩) () false false true true 2 2 0
        (some (.data, 2, 1)) none (some 4) none = .ok s ∧ s.pop.individuals = some (List.replicate 4 (fun _ => some 0)) := by
  refine ⟨⟨fun clk p => by simp only [demo96, demoShared, mateAll], rfl, rfl, rfl, rfl, rfl⟩, ?_, ?_, _, rfl, rfl⟩
  · intro clk b x
    refine ⟨rfl, rfl, rfl, ?_⟩
    show List.Forall₂ (fun _ _ => True) (x.rows.map con) (x.rows.map con')
    rw [List.forall₂_iff_get]
    exact ⟨by simp, fun _ _ _ => trivial⟩
  · intro clk b x r hr
    have hr := Except.ok.inj hr
    exact ⟨x.rows.map con, by rw [← hr], by simp⟩

/-- Non-vacuity: two rows with the same total violation, one with it in the first constraint, one in the second. -/
example : rowViolation [3, -1] = rowViolation [-2, 3] := by norm_num [rowViolation]

/-- Non-vacuity: what MOEA/D's and the indicator EAs' mating is assumed to read holds of the default operators. -/
example (lo hi : Fin 1 → ℝ) (draw : Nat → MateDraw 1) (clk : Nat) (p : Pop (Row 1) O F C U) (ch : List Nat) :
    mateChosen lo hi draw clk p ch = (fun clk inds ch => mateChosen (O := Unit) (F := Unit) (C := Unit) (U := Unit) lo hi draw clk ⟨0, 2, inds, [], [], none, none⟩ ch)
      clk p.individuals ch := rfl

end Verif.Props
