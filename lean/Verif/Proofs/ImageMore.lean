import Verif.Proofs.Image
import Verif.Props.Interaction
import Verif.Model.MoeadRun
import Verif.Model.IndicatorRun

/-!
# The image of MOEA/D and of the indicator EAs under renaming of rows
-/

namespace Verif
open Verif.Props

variable {X O O' F F' C C' U U' V S S' Q R R' : Type} {m : Nat}
variable {g : Ren O O' F F' C C' U U' S S'}

theorem callsWith_im {ans : R → R' → Prop} {ops : Ops X O F C U V S Q R} {ops' : Ops X O' F' C' U' V S' Q R'} (h : ImBase g ans ops ops')
    {b : EA X O F C U V S Q → EARes Unit X O F C U V S Q} {b' : EA X O' F' C' U' V S' Q → EARes Unit X O' F' C' U' V S' Q}
    (hb : ∀ s, b' (s.im g) = ((b s).1, (b s).2.im g)) (hcfg : ∀ s, SameInteraction s (b s).2) :
    ∀ (cs : List (Call R)) (cs' : List (Call R')), List.Forall₂ (AnsCall ans) cs cs' → ∀ s : EA X O F C U V S Q,
      s.cfg.location ≠ some .problem → (s.im g).callsWith ops' b' cs' = (s.callsWith ops b cs).im g
  | _, _, .nil, s, hl => rfl
  | _, _, .cons (a := c) (b := c') (l₁ := cs) (l₂ := cs') hc hcs, s, hl => by
    match c, c', hc with
    | .start, .start, _ =>
      simp only [EA.callsWith]
      rw [start_im h]
      refine callsWith_im h hb hcfg cs cs' hcs _ ?_
      have : (s.start ops).2.cfg = s.cfg := (calls_cfg_clock ops s .start).1
      rw [this]; exact hl
    | .setType a, .setType b, hb' =>
      have hb' : b = a := hb'
      subst hb'
      simp only [EA.callsWith]
      rw [setInteractionType_im]
      refine callsWith_im h hb hcfg cs cs' hcs _ ?_
      have : (s.setInteractionType b).2.cfg = s.cfg := (setInteractionType_spec s b).2.2.1
      rw [this]; exact hl
    | .readAllowable, .readAllowable, _ =>
      simp only [EA.callsWith]
      rw [readAllowable_im]
      refine callsWith_im h hb hcfg cs cs' hcs _ ?_
      have : s.readAllowable.2.cfg = s.cfg := (readAllowable_spec s).2.2.1
      rw [this]; exact hl
    | .iterate p, .iterate q, hpq =>
      simp only [EA.callsWith]
      rw [iterateWith_im hb h s hl p q hpq]
      refine callsWith_im h hb hcfg cs cs' hcs _ ?_
      have : (s.iterateWith ops b p).2.cfg = s.cfg := by
        rcases iterateWith_spec ops hcfg s p with ⟨e, t, h1, he⟩ | ⟨s1, h1, h2, -⟩
        · rw [he]; exact h1.cfg
        · rw [h2]; exact (requestPreferences_clock ops s1).2.1.trans h1.cfg
      rw [this]; exact hl

/-! ## Populations -/

theorem delete_im (p : Pop X O F C U) (idx : List Int) : (p.im g).delete idx = ((p.delete idx).1, (p.delete idx).2.im g) := by
  unfold Pop.delete
  have : (p.im g).individuals = p.individuals := rfl
  rw [this]
  cases p.individuals with
  | none => rfl
  | some inds =>
    dsimp only
    cases resolve inds.length idx with
    | error e => rfl
    | ok ks =>
      dsimp only
      cases boolIndex (setMask (List.replicate inds.length true) ks false) inds with
      | error e => rfl
      | ok i1 =>
        dsimp only
        exact maskColumns_im (g := g) ({ p with individuals := if i1.length = 0 then none else some i1 } : Pop X O F C U) _

theorem setRows_im {α β : Type} (h : α → β) (l : List α) (ks : List Nat) (x : α) : setRows (l.map h) ks (h x) = (setRows l ks x).map h := by
  unfold setRows
  induction ks generalizing l with
  | nil => rfl
  | cons k ks ih => simp only [List.foldl_cons]; rw [← List.map_set]; exact ih _

theorem replace_im (p : Pop X O F C U) (idx : List Int) (x : X) (o : O) (f : F) (c : Option C) (u : Option U) :
    (p.im g).replace idx x (g.o o) (g.f f) (c.map g.c) (u.map g.u) = ((p.replace idx x o f c u).1, (p.replace idx x o f c u).2.im g) := by
  obtain ⟨nc, nd, inds, ob, fi, co, un⟩ := p
  cases inds with
  | none => rfl
  | some inds =>
    simp only [Pop.replace, Pop.im, List.length_map]
    cases resolve inds.length idx with
    | error e => rfl
    | ok k1 =>
      cases resolve ob.length idx with
      | error e => rfl
      | ok k2 =>
        dsimp only
        cases resolve fi.length idx with
        | error e => simp [Pop.im, setRows_im]
        | ok k3 =>
          dsimp only
          cases co with
          | none =>
            cases un with
            | none => simp [Pop.im, setRows_im]
            | some us =>
              simp only [Option.map_none, Option.map_some, List.length_map]
              cases resolve us.length idx <;> cases u <;> simp [Pop.im, setRows_im]
          | some cs =>
            simp only [Option.map_some, List.length_map]
            cases resolve cs.length idx with
            | error e => simp [Pop.im, setRows_im]
            | ok k4 =>
              cases c with
              | none => simp [Pop.im, setRows_im]
              | some c =>
                cases un with
                | none => simp [Pop.im, setRows_im]
                | some us =>
                  simp only [Option.map_some, List.length_map]
                  cases resolve us.length idx <;> cases u <;> simp [Pop.im, setRows_im]

theorem replaceWith_im (p : Pop X O F C U) (sel : List Nat) (x : X) (res : Results O F C U) :
    replaceWith (p.im g) sel x (res.im g) = ((replaceWith p sel x res).1, (replaceWith p sel x res).2.im g) := by
  obtain ⟨ro, rf, rc, ru⟩ := res
  cases ro with
  | nil => rfl
  | cons o os =>
    cases rf with
    | nil => rfl
    | cons f fs =>
      simp only [replaceWith, Results.im, List.map_cons]
      have hc : (rc.map (fun l => l.map g.c)).bind List.head? = (rc.bind List.head?).map g.c := by
        cases rc with
        | none => rfl
        | some l => cases l <;> rfl
      have hu : (ru.map (fun l => l.map g.u)).bind List.head? = (ru.bind List.head?).map g.u := by
        cases ru with
        | none => rfl
        | some l => cases l <;> rfl
      rw [hc, hu]
      exact replace_im p _ x o f _ _

/-! ## MOEA/D -/

/-- MOEA/D's own components on renamed rows. -/
structure ImMo (g : Ren O O' F F' C C' U U' S S') (mo : MoeadOps m ℝ X O F C U) (mo' : MoeadOps m ℝ X O' F' C' U') : Prop where
  pick : mo'.pick = mo.pick
  mate : ∀ clk p a b, mo'.mate clk (p.im g) a b = mo.mate clk p a b
  repair : mo'.repair = mo.repair
  select : ∀ clk v fit i, moeadSelect mo' (mo'.ideal clk) v (fit.map g.f) i = moeadSelect mo (mo.ideal clk) v fit i

section
variable {ops : Ops X O F C U (MoeadVec m ℝ) S Q R} {ops' : Ops X O' F' C' U' (MoeadVec m ℝ) S' Q R'}
variable {mo : MoeadOps m ℝ X O F C U} {mo' : MoeadOps m ℝ X O' F' C' U'}

theorem updateND_im (hd : ∀ a b, ops'.dom (g.f a) (g.f b) = ops.dom a b) (s : EA X O F C U (MoeadVec m ℝ) S Q) (rows : List X)
    (res : Results O F C U) :
    (s.im g).updateND ops' rows (res.im g) = ((s.updateND ops rows res).1, (s.updateND ops rows res).2.im g) := by
  unfold EA.updateND
  have e1 : (s.im g).cfg = s.cfg := rfl
  have e2 : (s.im g).nd = s.nd.map (fun a => a.im g) := rfl
  simp only [e1, e2, Results.im, archiveUpdate_im_of hd]
  split
  · cases archiveUpdate ops.dom s.nd rows res.objectives res.fitness <;> rfl
  · rfl

theorem moeadFinish_im (hm : ImMo g mo mo') (hd : ∀ a b, ops'.dom (g.f a) (g.f b) = ops.dom a b) (i : Nat) (x : X) (res : Results O F C U)
    (s : EA X O F C U (MoeadVec m ℝ) S Q) :
    moeadFinish ops' mo' i x (res.im g) (s.im g) = ((moeadFinish ops mo i x res s).1, (moeadFinish ops mo i x res s).2.im g) := by
  unfold moeadFinish
  have e1 : (s.im g).clock = s.clock := rfl
  have e2 : (s.im g).vec = s.vec := rfl
  have e3 : (s.im g).pop = s.pop.im g := rfl
  have e4 : (s.pop.im g).fitness = s.pop.fitness.map g.f := rfl
  rw [e1, e2, e3, e4, hm.select]
  cases moeadSelect mo (mo.ideal s.clock) s.vec s.pop.fitness i with
  | error e => rfl
  | ok sel =>
    dsimp only
    rw [replaceWith_im]
    generalize replaceWith s.pop sel x res = r
    obtain ⟨r1, p⟩ := r
    cases r1 with
    | error e => rfl
    | ok _ =>
      dsimp only
      rw [delete_im]
      generalize p.delete [-1] = r
      obtain ⟨r1, p⟩ := r
      cases r1 with
      | error e => rfl
      | ok _ => exact updateND_im hd ({ s with pop := p } : EA X O F C U (MoeadVec m ℝ) S Q) [x] res

theorem moeadEvaluate_im
    (he : ∀ clk b x, ops'.evaluate clk b x = (ops.evaluate clk b x).map (fun r => r.im g)) (x : X) (s : EA X O F C U (MoeadVec m ℝ) S Q) :
    moeadEvaluate ops' x (s.im g) = ((moeadEvaluate ops x s).1.map (fun r => r.im g), (moeadEvaluate ops x s).2.im g) := by
  unfold moeadEvaluate
  rw [show (s.im g).pop.ndim = s.pop.ndim from rfl, popAdd_im_of he]
  generalize EA.popAdd ops s ⟨s.pop.ndim - 1, [x]⟩ = r
  obtain ⟨r1, t⟩ := r
  cases r1 with
  | error e => rfl
  | ok res =>
    dsimp only [Except.map]
    by_cases hs : t.cfg.useSurr = true
    · have hs' : (t.im g).cfg.useSurr = true := hs
      rw [if_pos hs, if_pos hs']
    · have hs' : ¬ (t.im g).cfg.useSurr = true := hs
      rw [if_neg hs, if_neg hs']
      rfl

theorem moeadStep_im (hm : ImMo g mo mo') (hd : ∀ a b, ops'.dom (g.f a) (g.f b) = ops.dom a b)
    (he : ∀ clk b x, ops'.evaluate clk b x = (ops.evaluate clk b x).map (fun r => r.im g)) (ur : Bool) (i : Nat)
    (s : EA X O F C U (MoeadVec m ℝ) S Q) :
    moeadStep ops' mo' ur i (s.im g) = ((moeadStep ops mo ur i s).1, (moeadStep ops mo ur i s).2.im g) := by
  unfold moeadStep
  have e1 : chooseParents (mo'.pick (s.im g).clock) (s.im g).vec.neigh i = chooseParents (mo.pick s.clock) s.vec.neigh i := by
    rw [hm.pick]; rfl
  rw [e1]
  cases chooseParents (mo.pick s.clock) s.vec.neigh i with
  | error e => rfl
  | ok ab =>
    obtain ⟨a, b⟩ := ab
    dsimp only
    have e2 : mo'.mate ((s.im g).clock + 1) (s.im g).pop a b = mo.mate (s.clock + 1) s.pop a b := hm.mate (s.clock + 1) s.pop a b
    rw [e2, hm.repair]
    cases mo.mate (s.clock + 1) s.pop a b with
    | error e => rfl
    | ok l =>
      cases l with
      | nil => rfl
      | cons x xs =>
        dsimp only
        generalize (if ur = true then mo.repair x else x) = y
        have h3 := moeadEvaluate_im he y ({ s with clock := s.clock + 1 + 1 } : EA X O F C U (MoeadVec m ℝ) S Q)
        have h4 : moeadEvaluate ops' y ({ s.im g with clock := (s.im g).clock + 1 + 1 } : EA X O' F' C' U' (MoeadVec m ℝ) S' Q) = _ := h3
        rw [h4]
        generalize moeadEvaluate ops y ({ s with clock := s.clock + 1 + 1 } : EA X O F C U (MoeadVec m ℝ) S Q) = r
        obtain ⟨r1, t⟩ := r
        cases r1 with
        | error e => rfl
        | ok res => exact moeadFinish_im hm hd i y res t

theorem moeadSteps_im (hm : ImMo g mo mo') (hd : ∀ a b, ops'.dom (g.f a) (g.f b) = ops.dom a b)
    (he : ∀ clk b x, ops'.evaluate clk b x = (ops.evaluate clk b x).map (fun r => r.im g)) (ur : Bool) : ∀ (is : List Nat)
    (s : EA X O F C U (MoeadVec m ℝ) S Q),
    moeadSteps ops' mo' ur is (s.im g) = ((moeadSteps ops mo ur is s).1, (moeadSteps ops mo ur is s).2.im g)
  | [], s => rfl
  | i :: is, s => by
    simp only [moeadSteps]
    rw [moeadStep_im hm hd he]
    generalize moeadStep ops mo ur i s = r
    obtain ⟨r1, t⟩ := r
    cases r1 with
    | error e => rfl
    | ok _ => exact moeadSteps_im hm hd he ur is t

theorem moeadNextGen_im (hm : ImMo g mo mo') (hd : ∀ a b, ops'.dom (g.f a) (g.f b) = ops.dom a b)
    (he : ∀ clk b x, ops'.evaluate clk b x = (ops.evaluate clk b x).map (fun r => r.im g)) (ur : Bool) (n : Nat)
    (s : EA X O F C U (MoeadVec m ℝ) S Q) :
    moeadNextGen ops' mo' ur n (s.im g) = ((moeadNextGen ops mo ur n s).1, (moeadNextGen ops mo ur n s).2.im g) := by
  unfold moeadNextGen
  rw [moeadSteps_im hm hd he]
  generalize moeadSteps ops mo ur (List.range n) s = r
  obtain ⟨r1, t⟩ := r
  cases r1 <;> rfl

end

theorem moeadBody_im {ops : Ops X O F C U (MoeadRV m) S Q R} {ops' : Ops X O' F' C' U' (MoeadRV m) S' Q R'}
    {mo : MoeadOps m ℝ X O F C U} {mo' : MoeadOps m ℝ X O' F' C' U'} (hm : ImMo g mo mo')
    (hd : ∀ a b, ops'.dom (g.f a) (g.f b) = ops.dom a b)
    (he : ∀ clk b x, ops'.evaluate clk b x = (ops.evaluate clk b x).map (fun r => r.im g)) (ur : Bool) (n : Nat) (s : EA X O F C U (MoeadRV m) S Q) :
    moeadBody ops' mo' ur n (s.im g) = ((moeadBody ops mo ur n s).1, (moeadBody ops mo ur n s).2.im g) := by
  have := moeadNextGen_im (ops := ops.forGeneration) (ops' := ops'.forGeneration) hm hd he ur n (s.withVec s.vec.toVec)
  unfold moeadBody
  rw [show (s.im g).withVec (s.im g).vec.toVec = (s.withVec s.vec.toVec).im g from rfl, this]
  rfl

/-! ## Indicator EAs -/

/-- The components of an indicator EA on renamed rows. -/
structure ImInd {P : Type} (g : Ren O O' F F' C C' U U' (List ℝ) (List ℝ)) (io : IndOps X O F C U P R) (io' : IndOps X O' F' C' U' P R) : Prop where
  term : ∀ r os a b, io'.term r (os.map g.o) (g.f a) (g.f b) = io.term r os a b
  draw : io'.draw = io.draw
  mate : ∀ clk p ch, io'.mate clk (p.im g) ch = io.mate clk p ch
  evaluate : ∀ clk b x, io'.evaluate clk b x = (io.evaluate clk b x).map (fun r => r.im g)
  newId : io'.newId = io.newId
  toRef : io'.toRef = io.toRef
  vals : g.s = id

section
variable {P : Type} {gi : Ren O O' F F' C C' U U' (List ℝ) (List ℝ)} {io : IndOps X O F C U P R} {io' : IndOps X O' F' C' U' P R}

theorem fitnessAssign_map (t : F → F → ℝ) (t' : F' → F' → ℝ) (f : F → F') (h : ∀ a b, t' (f a) (f b) = t a b) (l : List F) :
    fitnessAssign t' (l.map f) = fitnessAssign t l := by
  unfold fitnessAssign
  apply List.ext_getElem?
  intro k
  simp only [List.getElem?_mapIdx, List.getElem?_map]
  cases l[k]? with
  | none => rfl
  | some a =>
    simp only [Option.map_some, List.zipIdx_map, List.foldl_map, Prod.map_fst, Prod.map_snd, h, id]

theorem envUpdate_map (t : F → F → ℝ) (t' : F' → F' → ℝ) (f : F → F') (h : ∀ a b, t' (f a) (f b) = t a b) (l : List F) (w : Nat) (vals : List ℝ) :
    envUpdate t' (l.map f) w vals = envUpdate t l w vals := by
  unfold envUpdate
  congr 1
  funext i v
  split
  · simp only [List.getElem?_map]
    cases l[i]? <;> cases l[w]? <;> simp [h]
  · rfl

theorem envLoop_im (t : F → F → ℝ) (t' : F' → F' → ℝ) (h : ∀ a b, t' (g.f a) (g.f b) = t a b) (n : Nat) : ∀ (fuel : Nat) (p : Pop X O F C U) (vals : List ℝ),
    envLoop t' n fuel (p.im g) vals = ((envLoop t n fuel p vals).1, (envLoop t n fuel p vals).2.1.im g, (envLoop t n fuel p vals).2.2)
  | 0, p, vals => rfl
  | fuel + 1, p, vals => by
    simp only [envLoop]
    have e1 : (p.im g).individuals = p.individuals := rfl
    have e2 : (p.im g).fitness = p.fitness.map g.f := rfl
    rw [e1, e2]
    cases p.individuals with
    | none => rfl
    | some inds =>
      dsimp only
      split
      · cases argminL vals with
        | error e => rfl
        | ok w =>
          dsimp only
          rw [delete_im, envUpdate_map t t' g.f h]
          generalize p.delete [(w : Int)] = r
          obtain ⟨r1, q⟩ := r
          cases r1 with
          | error e => rfl
          | ok _ => exact envLoop_im t t' h n fuel q _
      · rfl

theorem indNextGen_im (hi : ImInd gi io io') (n : Nat) (s : EA X O F C U P (List ℝ) Q) :
    indNextGen io' n (s.im gi) = ((indNextGen io n s).1, (indNextGen io n s).2.im gi) := by
  have hred : indReduce io' n (s.im gi) = ((indReduce io n s).1, (indReduce io n s).2.im gi) := by
    unfold indReduce
    have e1 : (s.im gi).vec = s.vec := rfl
    have e2 : (s.im gi).pop = s.pop.im gi := rfl
    have e3 : (s.pop.im gi).fitness = s.pop.fitness.map gi.f := rfl
    have e4 : (s.pop.im gi).objectives = s.pop.objectives.map gi.o := rfl
    simp only [e1, e2, e3, e4, List.length_map]
    rw [fitnessAssign_map _ _ gi.f (hi.term s.vec s.pop.objectives), envLoop_im _ _ (hi.term s.vec s.pop.objectives)]
    simp only [EA.im, hi.vals, id]
  unfold indNextGen
  rw [hred]
  generalize indReduce io n s = r
  obtain ⟨r1, t⟩ := r
  cases r1 with
  | error e => rfl
  | ok _ =>
    dsimp only
    unfold indVary
    have e1 : (t.im gi).sel = t.sel := by simp [EA.im, hi.vals]
    have e2 : (t.im gi).clock = t.clock := rfl
    have e3 : (t.im gi).pop = t.pop.im gi := rfl
    have e4 : tournament 2 (t.im gi).sel (io'.draw (t.im gi).clock) = tournament 2 t.sel (io.draw t.clock) := by
      rw [e1, e2, hi.draw]
    rw [e4]
    cases tournament 2 t.sel (io.draw t.clock) with
    | error e => rfl
    | ok ch =>
      dsimp only
      have e5 : io'.mate ((t.im gi).clock + 1) (t.im gi).pop ch = io.mate (t.clock + 1) t.pop ch := hi.mate _ _ _
      rw [e5]
      cases io.mate (t.clock + 1) t.pop ch with
      | error e => rfl
      | ok off =>
        dsimp only
        have e6 : (t.im gi).pop.add off (io'.evaluate ((t.im gi).clock + 1 + 1) false off) =
          (((t.pop.add off (io.evaluate (t.clock + 1 + 1) false off)).1).map (fun r => r.im gi),
            (t.pop.add off (io.evaluate (t.clock + 1 + 1) false off)).2.im gi) := by
          rw [hi.evaluate]; exact add_im _ _ _
        have e7 : evLog off (io'.evaluate ((t.im gi).clock + 1 + 1) false off) =
            (evLog off (io.evaluate (t.clock + 1 + 1) false off)).map (fun p => (p.1, p.2.im gi)) := by
          rw [hi.evaluate]; exact evLog_im _ _
        rw [e6, e7]
        generalize t.pop.add off (io.evaluate (t.clock + 1 + 1) false off) = r
        obtain ⟨r1, q⟩ := r
        cases r1 <;> simp [Except.map, EA.im]

theorem indRequest_im (hi : ImInd gi io io') (s : EA X O F C U P (List ℝ) Q) :
    indRequest io' (s.im gi) = ((indRequest io s).1, (indRequest io s).2.im gi) := by
  unfold indRequest
  have e1 : (s.im gi).cfg = s.cfg := rfl
  have e2 : (s.im gi).clock = s.clock := rfl
  rw [e1, e2, hi.newId]
  split <;> rfl

theorem indManage_im (hi : ImInd gi io io') (s : EA X O F C U P (List ℝ) Q) (pref : Option (Pref R)) :
    indManage io' (s.im gi) pref = ((indManage io s pref).1, (indManage io s pref).2.im gi) := by
  unfold indManage
  have e1 : (s.im gi).cfg = s.cfg := rfl
  have e2 : (s.im gi).reqId = s.reqId := rfl
  rw [e1, e2, hi.toRef]
  split
  · rfl
  · cases pref with
    | none => rfl
    | some p =>
      dsimp only
      split
      · rfl
      · cases s.reqId with
        | none => rfl
        | some id => dsimp only; split <;> rfl

theorem indIterate_im (hi : ImInd gi io io') (n : Nat) (s : EA X O F C U P (List ℝ) Q) (pref : Option (Pref R)) :
    indIterate io' n (s.im gi) pref = ((indIterate io n s pref).1, (indIterate io n s pref).2.im gi) := by
  unfold indIterate indIterateWith
  rw [indManage_im hi]
  generalize indManage io s pref = r
  obtain ⟨r1, t⟩ := r
  cases r1 with
  | error e => rfl
  | ok _ =>
    dsimp only
    have := loop_im (indNextGen io n) (indNextGen io' n) (indNextGen_im hi n) t.cfg.nGen ({ t with genIter := 0 } : EA X O F C U P (List ℝ) Q)
    rw [show ({ t.im gi with genIter := 0 } : EA X O' F' C' U' P (List ℝ) Q) = ({ t with genIter := 0 } : EA X O F C U P (List ℝ) Q).im gi from rfl,
      show (t.im gi).cfg.nGen = t.cfg.nGen from rfl, this]
    generalize EA.loop (indNextGen io n) t.cfg.nGen ({ t with genIter := 0 } : EA X O F C U P (List ℝ) Q) = w
    obtain ⟨w1, t3⟩ := w
    cases w1 with
    | error e => rfl
    | ok u => exact indRequest_im hi ({ t3 with iter := t3.iter + 1 } : EA X O F C U P (List ℝ) Q)

theorem indCall_im (hi : ImInd gi io io') (n : Nat) (s : EA X O F C U P (List ℝ) Q) (c : IndCall R) :
    indCall io' n (s.im gi) c = (indCall io n s c).im gi := by
  cases c with
  | iterate pref => simp only [indCall, indIterate_im hi]
  | requests => simp only [indCall, indRequest_im hi]
  | start =>
    simp only [indCall, indStart]
    have e1 : (s.im gi).cfg = s.cfg := rfl
    have e2 : (s.im gi).typeSet = s.typeSet := rfl
    rw [e1, e2]
    split
    · rfl
    · rw [indRequest_im hi]

theorem indCalls_im (hi : ImInd gi io io') (n : Nat) (cs : List (IndCall R)) : ∀ s : EA X O F C U P (List ℝ) Q,
    indCalls io' n (s.im gi) cs = (indCalls io n s cs).im gi := by
  unfold indCalls
  induction cs with
  | nil => intro s; rfl
  | cons c cs ih => intro s; simp only [List.foldl_cons]; rw [indCall_im hi, ih]

theorem indConstruct_im (hi : ImInd gi io io') (design : Nat → Nat → Except Err (Batch X)) (ref0 : P) (prob0 : Q)
    (interact useSurr : Bool) (nIter nGen total nCons n : Nat) :
    indConstruct io' design ref0 prob0 interact useSurr nIter nGen total nCons n none =
      (indConstruct io design ref0 prob0 interact useSurr nIter nGen total nCons n none).map (fun s => s.im gi) := by
  unfold indConstruct
  dsimp only
  cases design 0 n with
  | error e => rfl
  | ok off =>
    dsimp only
    rw [hi.evaluate, show (Pop.new nCons : Pop X O' F' C' U') = (Pop.new nCons : Pop X O F C U).im gi from rfl, add_im]
    rw [evLog_im]
    generalize (Pop.new nCons : Pop X O F C U).add off (io.evaluate 1 useSurr off) = r
    obtain ⟨r1, q⟩ := r
    cases r1 with
    | error e => rfl
    | ok _ => simp [Except.map, EA.im, hi.vals]

end

end Verif
