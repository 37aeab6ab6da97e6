import Mathlib.Data.List.Nodup
import Mathlib.Data.List.Basic
import Verif.Spec.Reports
import Verif.Props.Interaction

/-!
# C91, C92: what the user is shown
-/

namespace Verif.Props

open Verif Verif.Spec

variable {X O F C U V S Q R K : Type}

/-! ### Frames -/

theorem labelsOf_flat (names : List String) : labelsOf (names.map .one) = .ok (names.map (fun n => .plain (.one n))) := by
  cases names with
  | nil => rfl
  | cons n ns => simp [labelsOf, Name.isMany]

theorem sheet_flat (names : List String) (rows : List (List K)) :
    sheet (names.map .one) names.length rows = .ok ⟨names.map (fun n => .plain (.one n)), rows⟩ := by
  simp [sheet, labelsOf_flat]

theorem findIdx_label (names : List String) (hn : names.Nodup) (j : Nat) (name : String) (h : names[j]? = some name) :
    (names.map (fun n => Label.plain (.one n))).findIdx (fun l => l == .plain (.one name)) = j := by
  induction names generalizing j with
  | nil => simp at h
  | cons n ns ih =>
    cases j with
    | zero =>
      simp only [List.getElem?_cons_zero, Option.some.injEq] at h
      subst h
      simp [List.findIdx_cons]
    | succ j =>
      simp only [List.getElem?_cons_succ] at h
      have hne : n ≠ name := by
        rintro rfl
        exact (List.nodup_cons.mp hn).1 (List.mem_of_getElem? h)
      have : (Label.plain (.one n) == Label.plain (.one name)) = false := by simpa using hne
      simp [List.findIdx_cons, this, ih (List.nodup_cons.mp hn).2 j h]

theorem labelled_flat (names : List String) (hn : names.Nodup) (rows : List (List K)) :
    Labelled ⟨names.map (fun n => .plain (.one n)), rows⟩ names rows := by
  refine ⟨rfl, rfl, fun i j row name hr hj => ?_⟩
  simp only [cellAt, hr, Option.bind_some, findIdx_label names hn j name hj]

/-- The tables made of a population under flat names. -/
def flatTables (L : Layout X O F K) (vn on fn : List String) (e : Entry X O F) : Tables K :=
  ⟨e.iteration, ⟨vn.map (fun n => .plain (.one n)), (e.individuals.getD []).map L.cx⟩,
    ⟨on.map (fun n => .plain (.one n)), e.objectives.map L.co⟩, ⟨fn.map (fun n => .plain (.one n)), e.fitness.map L.cf⟩⟩

theorem archiveNames_flat (on fn : List String) (ho : on ≠ []) (hf : fn ≠ []) :
    archiveNames (on.map .one) (fn.map .one) = .ok (on.map .one) := by
  cases on with
  | nil => exact absurd rfl ho
  | cons o os =>
    cases fn with
    | nil => exact absurd rfl hf
    | cons f fs => simp [archiveNames, Name.isMany]

theorem tables_flat {L : Layout X O F K} {vn on fn : List String} (h : FlatNames L vn on fn) (iter : Nat) (p : Pop X O F C U) :
    L.tables iter p = .ok (flatTables L vn on fn ⟨iter, p.individuals, p.objectives, p.fitness⟩) := by
  have hx : L.individualsTable p.individuals =
      .ok (⟨vn.map (fun n => .plain (.one n)), (p.individuals.getD []).map L.cx⟩ : Sheet K) := by
    cases p.individuals with
    | none => simp [Layout.individualsTable, emptySheet, h.variables, labelsOf_flat]
    | some l => simp only [Layout.individualsTable, h.variables, ← h.nX, sheet_flat, Option.getD_some]
  unfold Layout.tables
  rw [h.objectives, h.fitness, archiveNames_flat on fn h.someObjective h.someFitness]
  simp only [hx]
  simp only [← h.nO, ← h.nF, sheet_flat]
  rfl

theorem plot_flat {L : Layout X O F K} {vn on fn : List String} (h : FlatNames L vn on fn) (p : Pop X O F C U) :
    L.plot p = .ok ⟨on.map (fun n => .plain (.one n)), p.objectives.map L.co⟩ := by
  unfold Layout.plot
  rw [h.objectives, ← h.nO, sheet_flat]

theorem dictSet_map {α β : Type} (g : α → β) (d : List (Nat × α)) (k : Nat) (v : α) :
    (dictSet d k v).map (fun q => (q.1, g q.2)) = dictSet (d.map (fun q => (q.1, g q.2))) k (g v) := by
  have h1 : (d.map (fun q => (q.1, g q.2))).any (fun p => p.1 == k) = d.any (fun p => p.1 == k) := by
    simp [List.any_map, Function.comp_def]
  unfold dictSet
  rw [h1]
  split
  · simp only [List.map_map]
    congr 1
    funext q
    simp only [Function.comp]
    split <;> rfl
  · simp

/-- The tables correspond to the archive of rows. -/
def Tabulated (L : Layout X O F K) (vn on fn : List String) (s : Reported X O F C U V S Q K) : Prop :=
  s.tables = s.ea.archive.map (fun q => (q.1, flatTables L vn on fn q.2))

theorem record_flat {L : Layout X O F K} {vn on fn : List String} (h : FlatNames L vn on fn) (s : Reported X O F C U V S Q K)
    (ht : Tabulated L vn on fn s) :
    ∃ t, s.record L = (.ok (), t) ∧ t.ea = s.ea.record ∧ Tabulated L vn on fn t := by
  unfold Reported.record
  by_cases hk : s.ea.cfg.keepArchive = true
  · rw [if_pos hk, tables_flat h]
    refine ⟨_, rfl, rfl, ?_⟩
    unfold Tabulated EA.record
    rw [if_pos hk]
    simp only [dictSet_map]
    rw [← ht]
  · rw [if_neg hk]
    refine ⟨s, rfl, ?_, ht⟩
    unfold EA.record
    rw [if_neg hk]

theorem requestPreferences_archive (ops : Ops X O F C U V S Q R) (s : EA X O F C U V S Q) :
    (s.requestPreferences ops).2.archive = s.archive ∧ (s.requestPreferences ops).2.pop = s.pop := by
  unfold EA.requestPreferences
  split
  · simp
  · split
    · simp
    · simp
    · split
      · simp
      · simp only
        split <;> simp

/-- What is shown with a request, under flat names. -/
def shownOf (L : Layout X O F K) (on : List String) (p : Pop X O F C U) (r : Option Request) : Shown K :=
  ⟨r, nSolutionsOf r p, ⟨on.map (fun n => .plain (.one n)), p.objectives.map L.co⟩⟩

/-- A result of the reporting object is that of the plain one, with what is shown. -/
structure ReportAgrees (L : Layout X O F K) (vn on fn : List String) (r : RepRes (Shown K) X O F C U V S Q K)
    (q : EARes (Option Request) X O F C U V S Q) : Prop where
  ea : r.2.ea = q.2
  tables : Tabulated L vn on fn r.2
  outcome : r.1 = q.1.map (shownOf L on q.2.pop)

theorem requests_flat {L : Layout X O F K} {vn on fn : List String} (h : FlatNames L vn on fn) (ops : Ops X O F C U V S Q R)
    (s : Reported X O F C U V S Q K) (ht : Tabulated L vn on fn s) :
    ReportAgrees L vn on fn (s.requests L ops) (s.ea.requestPreferences ops) := by
  have ha := (requestPreferences_archive ops s.ea).1
  unfold Reported.requests
  generalize s.ea.requestPreferences ops = r at ha
  obtain ⟨r, t⟩ := r
  have ht' : Tabulated L vn on fn { s with ea := t } := by
    unfold Tabulated at ht ⊢
    simp only at ha ⊢
    rw [ht, ha]
  cases r with
  | error e => exact ⟨rfl, ht', rfl⟩
  | ok r =>
    simp only [plot_flat h]
    exact ⟨rfl, ht', rfl⟩

theorem loop_archive {body : EA X O F C U V S Q → EARes Unit X O F C U V S Q} (hb : ∀ s, (body s).2.archive = s.archive)
    (fuel : Nat) (s : EA X O F C U V S Q) : (EA.loop body fuel s).2.archive = s.archive := by
  induction fuel generalizing s with
  | zero => rfl
  | succ n ih =>
    simp only [EA.loop]
    split
    · have h := hb s
      generalize body s = r at h
      obtain ⟨r1, t⟩ := r
      cases r1 with
      | error e => exact h
      | ok x => exact (ih t).trans h
    · rfl

theorem iterate_flat {L : Layout X O F K} {vn on fn : List String} (h : FlatNames L vn on fn) (ops : Ops X O F C U V S Q R)
    {body : EA X O F C U V S Q → EARes Unit X O F C U V S Q} (hb : ∀ s, (body s).2.archive = s.archive)
    (s : Reported X O F C U V S Q K) (ht : Tabulated L vn on fn s) (pref : Option (Pref R)) :
    ReportAgrees L vn on fn (s.iterateWith L ops body pref) (s.ea.iterateWith ops body pref) := by
  have hm := (managePreferences_frame ops s.ea pref).2.1
  unfold Reported.iterateWith EA.iterateWith
  generalize s.ea.managePreferences ops pref = r at hm
  obtain ⟨r, t⟩ := r
  have ht1 : Tabulated L vn on fn { s with ea := t } := by
    unfold Tabulated at ht ⊢
    simp only at hm ⊢
    rw [ht, hm]
  cases r with
  | error e => exact ⟨rfl, ht1, rfl⟩
  | ok _ =>
    obtain ⟨u, hu, hue, htu⟩ := record_flat h { s with ea := t } ht1
    simp only [hu]
    have hpre : (if (if !u.ea.cfg.interact then { u.ea with vec := ops.adapt u.ea.vec u.ea.pop.fitness } else u.ea).cfg.location ≠
          some .selection then
        { (if !u.ea.cfg.interact then { u.ea with vec := ops.adapt u.ea.vec u.ea.pop.fitness } else u.ea) with
          vec := ops.adapt (if !u.ea.cfg.interact then { u.ea with vec := ops.adapt u.ea.vec u.ea.pop.fitness } else u.ea).vec
            (if !u.ea.cfg.interact then { u.ea with vec := ops.adapt u.ea.vec u.ea.pop.fitness } else u.ea).pop.fitness }
        else (if !u.ea.cfg.interact then { u.ea with vec := ops.adapt u.ea.vec u.ea.pop.fitness } else u.ea)) =
        t.preIteration ops := by
      unfold EA.preIteration
      rw [hue]
    rw [hpre]
    have harch : (t.preIteration ops).archive = u.ea.archive := by
      rw [← hpre]
      split <;> split <;> rfl
    have hl := loop_archive hb (t.preIteration ops).cfg.nGen { (t.preIteration ops) with genIter := 0 }
    generalize EA.loop body (t.preIteration ops).cfg.nGen { (t.preIteration ops) with genIter := 0 } = l at hl
    obtain ⟨l, w⟩ := l
    have htw : ∀ w' : EA X O F C U V S Q, w'.archive = w.archive → Tabulated L vn on fn { u with ea := w' } := by
      intro w' hw'
      unfold Tabulated at htu ⊢
      simp only at hl ⊢
      rw [htu, hw', hl, harch]
    cases l with
    | error e => exact ⟨rfl, htw w rfl, rfl⟩
    | ok _ => exact requests_flat h ops _ (htw _ rfl)

theorem start_flat {L : Layout X O F K} {vn on fn : List String} (h : FlatNames L vn on fn) (ops : Ops X O F C U V S Q R)
    (s : Reported X O F C U V S Q K) (ht : Tabulated L vn on fn s) :
    ReportAgrees L vn on fn (s.start L ops) (s.ea.start ops) := by
  unfold Reported.start EA.start
  split
  · exact ⟨rfl, ht, rfl⟩
  · by_cases hk : s.ea.cfg.saveND = true
    · simp only [if_pos hk]
      cases hi : s.ea.pop.individuals with
      | none => exact ⟨rfl, ht, rfl⟩
      | some inds =>
        simp only
        cases ha : startArchive ops.nonDom inds s.ea.pop.objectives s.ea.pop.fitness with
        | error e => exact ⟨rfl, ht, rfl⟩
        | ok nd => exact requests_flat h ops { s with ea := { s.ea with nd := some nd } } ht
    · simp only [if_neg hk]
      exact requests_flat h ops s ht

theorem setInteractionType_archive (s : EA X O F C U V S Q) (a : Option String) :
    (s.setInteractionType a).2.archive = s.archive ∧ (s.setInteractionType a).2.pop = s.pop := by
  unfold EA.setInteractionType
  cases s.cfg.location with
  | none => simp
  | some l =>
    cases l with
    | problem => simp
    | selection =>
      cases a with
      | none => simp
      | some str => cases hk : Kind.parse str <;> simp [hk]

theorem readAllowable_archive (s : EA X O F C U V S Q) : s.readAllowable.2.archive = s.archive ∧ s.readAllowable.2.pop = s.pop := by
  unfold EA.readAllowable
  split
  · simp
  · have := setInteractionType_archive s none
    generalize s.setInteractionType none = r at this
    obtain ⟨r, t⟩ := r
    cases r <;> exact this

theorem call_flat {L : Layout X O F K} {vn on fn : List String} (h : FlatNames L vn on fn) (ops : Ops X O F C U V S Q R)
    {body : EA X O F C U V S Q → EARes Unit X O F C U V S Q} (hb : ∀ s, (body s).2.archive = s.archive)
    (s : Reported X O F C U V S Q K) (ht : Tabulated L vn on fn s) (c : Call R) :
    (s.call L ops body c).2.ea = s.ea.callsWith ops body [c] ∧ Tabulated L vn on fn (s.call L ops body c).2 := by
  cases c with
  | start =>
    have := start_flat h ops s ht
    simp only [Reported.call, EA.callsWith]
    generalize s.start L ops = r at this
    obtain ⟨r, t⟩ := r
    cases r <;> exact ⟨this.ea, this.tables⟩
  | iterate p =>
    have := iterate_flat h ops hb s ht p
    simp only [Reported.call, EA.callsWith]
    generalize s.iterateWith L ops body p = r at this
    obtain ⟨r, t⟩ := r
    cases r <;> exact ⟨this.ea, this.tables⟩
  | setType a =>
    have := (setInteractionType_archive s.ea a).1
    simp only [Reported.call, EA.callsWith]
    generalize s.ea.setInteractionType a = r at this
    obtain ⟨r, t⟩ := r
    have ht' : Tabulated L vn on fn { s with ea := t } := by
      unfold Tabulated at ht ⊢
      simp only at this ⊢
      rw [ht, this]
    cases r <;> exact ⟨rfl, ht'⟩
  | readAllowable =>
    have := (readAllowable_archive s.ea).1
    simp only [Reported.call, EA.callsWith]
    generalize s.ea.readAllowable = r at this
    obtain ⟨r, t⟩ := r
    have ht' : Tabulated L vn on fn { s with ea := t } := by
      unfold Tabulated at ht ⊢
      simp only at this ⊢
      rw [ht, this]
    cases r <;> exact ⟨rfl, ht'⟩

theorem callsWith_cons (ops : Ops X O F C U V S Q R) (body : EA X O F C U V S Q → EARes Unit X O F C U V S Q) (c : Call R)
    (cs : List (Call R)) (s : EA X O F C U V S Q) :
    s.callsWith ops body (c :: cs) = (s.callsWith ops body [c]).callsWith ops body cs := by
  cases c <;> rfl

theorem calls_flat {L : Layout X O F K} {vn on fn : List String} (h : FlatNames L vn on fn) (ops : Ops X O F C U V S Q R)
    {body : EA X O F C U V S Q → EARes Unit X O F C U V S Q} (hb : ∀ s, (body s).2.archive = s.archive) (cs : List (Call R)) :
    ∀ (s : Reported X O F C U V S Q K), Tabulated L vn on fn s →
      (s.calls L ops body cs).ea = s.ea.callsWith ops body cs ∧ Tabulated L vn on fn (s.calls L ops body cs) := by
  induction cs with
  | nil => intro s ht; exact ⟨rfl, ht⟩
  | cons c cs ih =>
    intro s ht
    obtain ⟨h1, h2⟩ := call_flat h ops hb s ht c
    obtain ⟨h3, h4⟩ := ih _ h2
    exact ⟨by rw [callsWith_cons, ← h1]; exact h3, h4⟩

theorem showsEntry_flat {L : Layout X O F K} {vn on fn : List String} (hd : DistinctNames vn on fn) (e : Entry X O F) :
    ShowsEntry L vn on fn (flatTables L vn on fn e) e :=
  ⟨rfl, labelled_flat vn hd.variables _, labelled_flat on hd.objectives _, labelled_flat fn hd.fitness _⟩

/-! ### C92 -/

/-- **C92.** With plain names, as many as there are columns, building the tables and the plot never interferes: over any history of calls
the run goes exactly as the run of the plain model. -/
theorem c92_plain_names_never_interfere (L : Layout X O F K) (vn on fn : List String) (h : FlatNames L vn on fn)
    (ops : Ops X O F C U V S Q R) (body : EA X O F C U V S Q → EARes Unit X O F C U V S Q)
    (hb : ∀ s, (body s).2.archive = s.archive) (ea : EA X O F C U V S Q) (ha : ea.archive = []) (cs : List (Call R)) (c : Call R) :
    ((⟨ea, []⟩ : Reported X O F C U V S Q K).calls L ops body cs).ea = ea.callsWith ops body cs ∧
    (c = .start → (((⟨ea, []⟩ : Reported X O F C U V S Q K).calls L ops body cs).call L ops body c).1.map (fun v => v.bind (·.request)) =
      ((ea.callsWith ops body cs).start ops).1) ∧
    (∀ p, c = .iterate p →
      (((⟨ea, []⟩ : Reported X O F C U V S Q K).calls L ops body cs).call L ops body c).1.map (fun v => v.bind (·.request)) =
      ((ea.callsWith ops body cs).iterateWith ops body p).1) := by
  have h0 : Tabulated L vn on fn (⟨ea, []⟩ : Reported X O F C U V S Q K) := by
    unfold Tabulated
    simp only [ha, List.map_nil]
  obtain ⟨h1, h2⟩ := calls_flat h ops hb cs _ h0
  generalize (⟨ea, []⟩ : Reported X O F C U V S Q K).calls L ops body cs = s at h1 h2
  have h1' : s.ea = ea.callsWith ops body cs := h1
  rw [← h1']
  refine ⟨rfl, ?_, ?_⟩
  · rintro rfl
    have := (start_flat h ops s h2).outcome
    simp only [Reported.call]
    generalize s.start L ops = r at this
    obtain ⟨r, t⟩ := r
    simp only at this
    subst this
    cases (s.ea.start ops).1 <;> rfl
  · rintro p rfl
    have := (iterate_flat h ops hb s h2 p).outcome
    simp only [Reported.call]
    generalize s.iterateWith L ops body p = r at this
    obtain ⟨r, t⟩ := r
    simp only at this
    subst this
    cases (s.ea.iterateWith ops body p).1 <;> rfl

/-- **C92.** ... and every table of the archive shows the population it recorded, each value under the name of its variable, objective or
fitness, in the order the entries were recorded. -/
theorem c92_archive_tables_labelled (L : Layout X O F K) (vn on fn : List String) (h : FlatNames L vn on fn) (hd : DistinctNames vn on fn)
    (ops : Ops X O F C U V S Q R) (body : EA X O F C U V S Q → EARes Unit X O F C U V S Q)
    (hb : ∀ s, (body s).2.archive = s.archive) (ea : EA X O F C U V S Q) (ha : ea.archive = []) (cs : List (Call R)) :
    List.Forall₂ (fun (t : Nat × Tables K) (e : Nat × Entry X O F) => t.1 = e.1 ∧ ShowsEntry L vn on fn t.2 e.2)
      ((⟨ea, []⟩ : Reported X O F C U V S Q K).calls L ops body cs).tables (ea.callsWith ops body cs).archive ∧
    ∃ ts, (((⟨ea, []⟩ : Reported X O F C U V S Q K).calls L ops body cs).finish L).1 = .ok ts ∧
      ((ea.callsWith ops body cs).cfg.keepArchive = true → ∃ ts', ts = some ts' ∧
        List.Forall₂ (fun (t : Nat × Tables K) (e : Nat × Entry X O F) => t.1 = e.1 ∧ ShowsEntry L vn on fn t.2 e.2)
          ts' (ea.callsWith ops body cs).record.archive) := by
  have h0 : Tabulated L vn on fn (⟨ea, []⟩ : Reported X O F C U V S Q K) := by
    unfold Tabulated
    simp only [ha, List.map_nil]
  obtain ⟨h1, h2⟩ := calls_flat h ops hb cs _ h0
  generalize (⟨ea, []⟩ : Reported X O F C U V S Q K).calls L ops body cs = s at h1 h2
  have h1' : s.ea = ea.callsWith ops body cs := h1
  rw [← h1']
  have key : ∀ t : Reported X O F C U V S Q K, Tabulated L vn on fn t →
      List.Forall₂ (fun (t : Nat × Tables K) (e : Nat × Entry X O F) => t.1 = e.1 ∧ ShowsEntry L vn on fn t.2 e.2)
        t.tables t.ea.archive := by
    intro t ht
    unfold Tabulated at ht
    rw [ht]
    generalize t.ea.archive = as
    induction as with
    | nil => exact .nil
    | cons a as ih => exact .cons ⟨rfl, showsEntry_flat hd _⟩ ih
  refine ⟨key s h2, ?_⟩
  obtain ⟨t, ht, hte, htt⟩ := record_flat h s h2
  unfold Reported.finish
  rw [ht]
  refine ⟨_, rfl, fun hk => ?_⟩
  have hk' : t.ea.cfg.keepArchive = true := by
    rw [hte]
    unfold EA.record
    rw [if_pos hk]
    exact hk
  rw [if_pos hk']
  exact ⟨_, rfl, by rw [← hte]; exact key t htt⟩

private theorem length_le_sum : ∀ (l : List Nat), (∀ n ∈ l, 1 ≤ n) → l.length ≤ l.sum
  | [], _ => by simp
  | n :: ns, h => by
    have := length_le_sum ns (fun k hk => h k (List.mem_cons_of_mem _ hk))
    have := h n List.mem_cons_self
    simp only [List.length_cons, List.sum_cons]
    omega

private theorem length_lt_sum : ∀ (l : List Nat), (∀ n ∈ l, 1 ≤ n) → (∃ n ∈ l, 2 ≤ n) → l.length < l.sum
  | [], _, h => by simp at h
  | n :: ns, h, hex => by
    have h1 := length_le_sum ns (fun k hk => h k (List.mem_cons_of_mem _ hk))
    have h2 := h n List.mem_cons_self
    simp only [List.length_cons, List.sum_cons]
    by_cases h3 : 2 ≤ n
    · omega
    · obtain ⟨k, hk, hk2⟩ := hex
      rcases List.mem_cons.mp hk with rfl | hk
      · exact absurd hk2 h3
      · have := length_lt_sum ns (fun k hk => h k (List.mem_cons_of_mem _ hk)) ⟨k, hk, hk2⟩
        omega

theorem sheet_nested (names : List Name) (width : Nat) (h : NestedNames names width) (rows : List (List K)) :
    sheet names width rows = .error .valueError := by
  obtain ⟨total, ne, sev, nested⟩ := h
  unfold sheet labelsOf
  match names, sev with
  | n :: m :: ns, _ =>
    simp only
    by_cases hall : (n :: m :: ns).all Name.isMany = true
    · rw [if_pos hall]
      by_cases heq : (m :: ns).all (fun q => q.strings.length == n.strings.length) = true
      · rw [if_pos heq]
        simp only [List.length_map, List.length_range]
        rw [if_neg]
        have hm : m.strings.length = n.strings.length := by
          simp only [List.all_cons, Bool.and_eq_true, beq_iff_eq] at heq
          exact heq.1
        have := ne n List.mem_cons_self
        simp only [List.map_cons, List.sum_cons] at total
        omega
      · rw [if_neg heq]
    · rw [if_neg hall]
      simp only [List.length_map]
      rw [if_neg]
      have h2 : ∃ q ∈ n :: m :: ns, 2 ≤ q.strings.length := by
        rcases nested with hn | hn
        · refine absurd ?_ hall
          rw [List.all_eq_true]
          intro q hq
          obtain ⟨l, rfl⟩ := hn q hq
          rfl
        · exact hn
      have := length_lt_sum ((n :: m :: ns).map (fun q => q.strings.length))
        (by intro k hk; obtain ⟨q, hq, rfl⟩ := List.mem_map.mp hk; exact ne q hq)
        (by obtain ⟨q, hq, h2⟩ := h2; exact ⟨_, List.mem_map_of_mem hq, h2⟩)
      rw [total, List.length_map] at this
      omega

/-- **C92, vector-valued objectives.** When the objective names are nested, the plot cannot be built: neither `start` nor `iterate` ever
returns normally. -/
theorem c92_nested_objective_names_never_shown (L : Layout X O F K) (h : NestedNames L.objectives L.nO) (ops : Ops X O F C U V S Q R)
    (body : EA X O F C U V S Q → EARes Unit X O F C U V S Q) (s : Reported X O F C U V S Q K) :
    (∃ e, (s.start L ops).1 = .error e) ∧ ∀ p, ∃ e, (s.iterateWith L ops body p).1 = .error e := by
  have hr : ∀ s : Reported X O F C U V S Q K, ∃ e, (s.requests L ops).1 = .error e := by
    intro s
    unfold Reported.requests
    generalize s.ea.requestPreferences ops = r
    obtain ⟨r, t⟩ := r
    cases r with
    | error e => exact ⟨e, rfl⟩
    | ok r =>
      simp only [Layout.plot, sheet_nested _ _ h]
      exact ⟨_, rfl⟩
  constructor
  · unfold Reported.start
    split
    · exact ⟨_, rfl⟩
    · by_cases hk : s.ea.cfg.saveND = true
      · simp only [if_pos hk]
        cases hi : s.ea.pop.individuals with
        | none => exact ⟨_, rfl⟩
        | some inds =>
          simp only
          cases ha : startArchive ops.nonDom inds s.ea.pop.objectives s.ea.pop.fitness with
          | error e => exact ⟨_, rfl⟩
          | ok nd => exact hr _
      · simp only [if_neg hk]
        exact hr _
  · intro p
    unfold Reported.iterateWith
    generalize s.ea.managePreferences ops p = r
    obtain ⟨r, t⟩ := r
    cases r with
    | error e => exact ⟨_, rfl⟩
    | ok _ =>
      simp only
      generalize Reported.record L { s with ea := t } = r
      obtain ⟨r, u⟩ := r
      cases r with
      | error e => exact ⟨_, rfl⟩
      | ok _ =>
        simp only
        split
        · exact ⟨_, rfl⟩
        · exact hr _

/-- **C92, vector-valued fitness.** When the fitness names are nested and an archive is kept, no iteration ever runs: every `iterate` and
every `end` raises, with generation counter, population size and archive as before. -/
theorem c92_nested_fitness_names_no_iteration (L : Layout X O F K) (h : NestedNames L.fitness L.nF) (ops : Ops X O F C U V S Q R)
    (body : EA X O F C U V S Q → EARes Unit X O F C U V S Q) (s : Reported X O F C U V S Q K)
    (hk : s.ea.cfg.keepArchive = true) (p : Option (Pref R)) :
    (∃ e, (s.finish L) = (.error e, s)) ∧
    ∃ e, (s.iterateWith L ops body p).1 = .error e ∧ (s.iterateWith L ops body p).2.tables = s.tables ∧
      (s.iterateWith L ops body p).2.ea.gen = s.ea.gen ∧ (s.iterateWith L ops body p).2.ea.iter = s.ea.iter ∧
      (s.iterateWith L ops body p).2.ea.trueEvals = s.ea.trueEvals ∧
      (s.iterateWith L ops body p).2.ea.pop.individuals = s.ea.pop.individuals ∧
      (s.iterateWith L ops body p).2.ea.pop.objectives = s.ea.pop.objectives := by
  have ht : ∀ (i : Nat) (q : Pop X O F C U), ∃ e, L.tables i q = .error e := by
    intro i q
    unfold Layout.tables
    cases archiveNames L.objectives L.fitness with
    | error e => exact ⟨_, rfl⟩
    | ok names =>
      simp only
      cases L.individualsTable q.individuals with
      | error e => exact ⟨_, rfl⟩
      | ok x =>
        simp only
        cases sheet names L.nO (q.objectives.map L.co) with
        | error e => exact ⟨_, rfl⟩
        | ok o => exact ⟨.valueError, by simp only [sheet_nested _ _ h]⟩
  have hr : ∀ t : Reported X O F C U V S Q K, t.ea.cfg.keepArchive = true → ∃ e, t.record L = (.error e, t) := by
    intro t hk
    obtain ⟨e, he⟩ := ht t.ea.iter t.ea.pop
    exact ⟨e, by unfold Reported.record; rw [if_pos hk, he]⟩
  constructor
  · obtain ⟨e, he⟩ := hr s hk
    exact ⟨e, by unfold Reported.finish; rw [he]⟩
  · have hm := managePreferences_frame ops s.ea p
    unfold Reported.iterateWith
    generalize s.ea.managePreferences ops p = r at hm
    obtain ⟨r, t⟩ := r
    simp only at hm
    obtain ⟨⟨hc, hi, hg, -, he⟩, -, -, -, h5, h6⟩ := hm
    cases r with
    | error e => exact ⟨e, rfl, rfl, hg, hi, he, h5, h6⟩
    | ok _ =>
      obtain ⟨e, hre⟩ := hr { s with ea := t } (by simp only [hc, hk])
      refine ⟨e, ?_⟩
      simp only [hre]
      exact ⟨trivial, trivial, hg, hi, he, h5, h6⟩

theorem flatten_many (groups : List (List String)) : flattenNames (groups.map .many) = groups.flatten.map .one := by
  induction groups with
  | nil => rfl
  | cons g gs ih =>
    have : flattenNames ((g :: gs).map .many) = g.map .one ++ flattenNames (gs.map .many) := rfl
    rw [this, ih, List.flatten_cons, List.map_append]

/-- **C92, vector-valued objectives in the archive.** Groups of objective names are flattened for the archive: if the fitness names are
plain, every value stands under its own name. -/
theorem c92_grouped_objectives_in_archive (L : Layout X O F K) (vn fn : List String) (groups : List (List String))
    (hv : L.variables = vn.map .one) (ho : L.objectives = groups.map .many) (hf : L.fitness = fn.map .one) (hg : groups ≠ [])
    (hfn : fn ≠ []) (nx : vn.length = L.nX) (no : groups.flatten.length = L.nO) (nf : fn.length = L.nF)
    (hd : DistinctNames vn groups.flatten fn) (iter : Nat) (p : Pop X O F C U) :
    ∃ t, L.tables iter p = .ok t ∧ ShowsEntry L vn groups.flatten fn t ⟨iter, p.individuals, p.objectives, p.fitness⟩ := by
  have hx : L.individualsTable p.individuals =
      .ok (⟨vn.map (fun n => .plain (.one n)), (p.individuals.getD []).map L.cx⟩ : Sheet K) := by
    cases p.individuals with
    | none => simp [Layout.individualsTable, emptySheet, hv, labelsOf_flat]
    | some l => simp only [Layout.individualsTable, hv, ← nx, sheet_flat, Option.getD_some]
  have hn : archiveNames L.objectives L.fitness = .ok (groups.flatten.map .one) := by
    rw [ho, hf, ← flatten_many]
    cases groups with
    | nil => exact absurd rfl hg
    | cons g gs =>
      cases fn with
      | nil => exact absurd rfl hfn
      | cons f fs => simp [archiveNames, Name.isMany]
  refine ⟨flatTables L vn groups.flatten fn ⟨iter, p.individuals, p.objectives, p.fitness⟩, ?_, showsEntry_flat hd _⟩
  unfold Layout.tables
  rw [hn]
  simp only [hx]
  simp only [hf, ← no, ← nf, sheet_flat]
  rfl

/-- **C92 is violated for a single vector-valued fitness.** Then the objectives of the archive stand under the names of the fitness,
whatever the objective names are; the fitness itself stands under one-element tuples of its names. -/
theorem c92_objectives_under_fitness_names_violated (L : Layout X O F K) (vn fn : List String) (hv : L.variables = vn.map .one)
    (ho : L.objectives ≠ []) (hf : L.fitness = [.many fn]) (nx : vn.length = L.nX) (no : fn.length = L.nO) (nf : fn.length = L.nF)
    (hd : fn.Nodup) (iter : Nat) (p : Pop X O F C U) :
    ∃ t, L.tables iter p = .ok t ∧ Labelled t.objectives fn (p.objectives.map L.co) ∧
      t.fitness.columns = fn.map (fun name => .tuple [name]) ∧ t.fitness.rows = p.fitness.map L.cf := by
  have hx : L.individualsTable p.individuals =
      .ok (⟨vn.map (fun n => .plain (.one n)), (p.individuals.getD []).map L.cx⟩ : Sheet K) := by
    cases p.individuals with
    | none => simp [Layout.individualsTable, emptySheet, hv, labelsOf_flat]
    | some l => simp only [Layout.individualsTable, hv, ← nx, sheet_flat, Option.getD_some]
  have hn : archiveNames L.objectives L.fitness = .ok (fn.map .one) := by
    have : flattenNames [.many fn] = fn.map .one := by simpa using flatten_many [fn]
    rw [hf]
    cases hob : L.objectives with
    | nil => exact absurd hob ho
    | cons o os => simp [archiveNames, Name.isMany, this]
  have hfs : sheet L.fitness L.nF (p.fitness.map L.cf) =
      .ok ⟨(List.range fn.length).map (fun j => .tuple ([Name.many fn].filterMap (fun m => m.strings[j]?))), p.fitness.map L.cf⟩ := by
    rw [hf, ← nf]
    simp [sheet, labelsOf, Name.isMany, Name.strings]
  unfold Layout.tables
  rw [hn]
  simp only [hx]
  simp only [← no, sheet_flat]
  simp only [hfs]
  refine ⟨_, rfl, labelled_flat fn hd _, ?_, rfl⟩
  apply List.ext_getElem
  · simp
  · intro j h1 h2
    simp only [List.length_map, List.length_range] at h1
    simp [Name.strings, h1]

/-- **C92, mixed names.** When the first objective is vector-valued and another one is scalar, the scalar's name is taken apart into its letters for the
archive: with a name of two letters or more there are more labels than columns, and with an archive every `iterate` and every `end` raises. -/
theorem c92_mixed_names_no_iteration (L : Layout X O F K) (g : List String) (name : String) (fn : List String) (ho : L.objectives = [.many g, .one name])
    (hf : L.fitness = fn.map .one) (hfn : fn ≠ []) (no : g.length + 1 = L.nO) (hl : 2 ≤ name.toList.length)
    (ops : Ops X O F C U V S Q R) (body : EA X O F C U V S Q → EARes Unit X O F C U V S Q) (s : Reported X O F C U V S Q K)
    (hk : s.ea.cfg.keepArchive = true) (p : Option (Pref R)) :
    (∃ e, (s.finish L) = (.error e, s)) ∧ (∃ e, (s.iterateWith L ops body p).1 = .error e) ∧ (s.iterateWith L ops body p).2.tables = s.tables := by
  have hn : archiveNames L.objectives L.fitness = .ok ((g ++ name.toList.map Char.toString).map .one) := by
    rw [ho, hf]
    cases fn with
    | nil => exact absurd rfl hfn
    | cons f fs => simp [archiveNames, Name.isMany, flattenNames, Name.items]
  have ht : ∀ (i : Nat) (q : Pop X O F C U), ∃ e, L.tables i q = .error e := by
    intro i q
    unfold Layout.tables
    rw [hn]
    simp only
    cases L.individualsTable q.individuals with
    | error e => exact ⟨_, rfl⟩
    | ok x =>
      have : sheet ((g ++ name.toList.map Char.toString).map .one) L.nO (q.objectives.map L.co) = .error .valueError := by
        unfold sheet
        rw [labelsOf_flat]
        simp only [List.length_map, List.length_append]
        rw [if_neg (by omega)]
      simp only [this]
      exact ⟨_, rfl⟩
  have hr : ∀ t : Reported X O F C U V S Q K, t.ea.cfg.keepArchive = true → ∃ e, t.record L = (.error e, t) := by
    intro t hk
    obtain ⟨e, he⟩ := ht t.ea.iter t.ea.pop
    exact ⟨e, by unfold Reported.record; rw [if_pos hk, he]⟩
  constructor
  · obtain ⟨e, he⟩ := hr s hk
    exact ⟨e, by unfold Reported.finish; rw [he]⟩
  · have hm := managePreferences_frame ops s.ea p
    unfold Reported.iterateWith
    generalize s.ea.managePreferences ops p = r at hm
    obtain ⟨r, t⟩ := r
    simp only at hm
    obtain ⟨⟨hc, hi, hg, -, he⟩, -, -, -, h5, h6⟩ := hm
    cases r with
    | error e => exact ⟨⟨e, rfl⟩, rfl⟩
    | ok _ =>
      obtain ⟨e, hre⟩ := hr { s with ea := t } (by simp only [hc, hk])
      simp only [hre]
      exact ⟨⟨e, rfl⟩, trivial⟩

/-- Non-vacuity: a vector-valued objective with two components and a scalar one called `cost`. -/
example : 2 ≤ "cost".toList.length ∧
    flattenNames [.many ["f_1", "f_2"], .one "cost"] = [.one "f_1", .one "f_2", .one "c", .one "o", .one "s", .one "t"] := by decide

/-! ### C91 -/

theorem requests_shown {L : Layout X O F K} {vn on fn : List String} (h : FlatNames L vn on fn) (hd : on.Nodup)
    (ops : Ops X O F C U V S Q R) (s : Reported X O F C U V S Q K) (v : Shown K) (hv : (s.requests L ops).1 = .ok v) :
    Labelled v.plot on ((s.requests L ops).2.ea.pop.objectives.map L.co) ∧
      (∀ n, v.nSolutions = some n → n = v.plot.rows.length) ∧
      ((∃ n, v.nSolutions = some n) ↔ ∃ r, v.request = some r ∧ (r.cls = .preferredSolution ∨ r.cls = .nonPreferredSolution)) := by
  unfold Reported.requests at hv ⊢
  generalize s.ea.requestPreferences ops = r at hv
  obtain ⟨r, t⟩ := r
  cases r with
  | error e => simp at hv
  | ok r =>
    simp only [plot_flat h] at hv ⊢
    cases hv
    refine ⟨labelled_flat on hd _, fun n hn => ?_, ?_⟩
    · simp only [nSolutionsOf] at hn
      simp only [List.length_map]
      split at hn
      · simp at hn
      · split at hn <;> simp at hn
        · exact hn.symm
        · exact hn.symm
    · cases r with
      | none => simp [nSolutionsOf]
      | some r =>
        obtain ⟨i, c⟩ := r
        cases c <;> simp [nSolutionsOf]

/-- A call that shows something ends with `requests()`. -/
theorem call_shows (L : Layout X O F K) (ops : Ops X O F C U V S Q R) (body : EA X O F C U V S Q → EARes Unit X O F C U V S Q)
    (s : Reported X O F C U V S Q K) (c : Call R) (v : Shown K) (hv : (s.call L ops body c).1 = .ok (some v)) :
    ∃ t : Reported X O F C U V S Q K, (t.requests L ops).1 = .ok v ∧ (s.call L ops body c).2 = (t.requests L ops).2 := by
  cases c with
  | setType a =>
    simp only [Reported.call] at hv
    split at hv <;> simp at hv
  | readAllowable =>
    simp only [Reported.call] at hv
    split at hv <;> simp at hv
  | start =>
    have key : (∃ e, (s.start L ops).1 = .error e) ∨ ∃ t : Reported X O F C U V S Q K, s.start L ops = t.requests L ops := by
      unfold Reported.start
      split
      · exact Or.inl ⟨_, rfl⟩
      · by_cases hk : s.ea.cfg.saveND = true
        · simp only [if_pos hk]
          cases hi : s.ea.pop.individuals with
          | none => exact Or.inl ⟨_, rfl⟩
          | some inds =>
            simp only
            cases ha : startArchive ops.nonDom inds s.ea.pop.objectives s.ea.pop.fitness with
            | error e => exact Or.inl ⟨_, rfl⟩
            | ok nd => exact Or.inr ⟨_, rfl⟩
        · simp only [if_neg hk]
          exact Or.inr ⟨_, rfl⟩
    simp only [Reported.call] at hv ⊢
    rcases key with ⟨e, he⟩ | ⟨t, ht⟩
    · generalize s.start L ops = r at hv he
      obtain ⟨r, u⟩ := r
      simp only at he
      subst he
      simp at hv
    · refine ⟨t, ?_⟩
      rw [ht] at hv ⊢
      generalize t.requests L ops = r at hv
      obtain ⟨r, u⟩ := r
      cases r with
      | error e => simp at hv
      | ok w => simp only [Except.ok.injEq, Option.some.injEq] at hv; subst hv; exact ⟨rfl, rfl⟩
  | iterate p =>
    have key : (∃ e, (s.iterateWith L ops body p).1 = .error e) ∨
        ∃ t : Reported X O F C U V S Q K, s.iterateWith L ops body p = t.requests L ops := by
      unfold Reported.iterateWith
      generalize s.ea.managePreferences ops p = r
      obtain ⟨r, t⟩ := r
      cases r with
      | error e => exact Or.inl ⟨_, rfl⟩
      | ok _ =>
        simp only
        generalize Reported.record L { s with ea := t } = r
        obtain ⟨r, u⟩ := r
        cases r with
        | error e => exact Or.inl ⟨_, rfl⟩
        | ok _ =>
          simp only
          split
          · exact Or.inl ⟨_, rfl⟩
          · exact Or.inr ⟨_, rfl⟩
    simp only [Reported.call] at hv ⊢
    rcases key with ⟨e, he⟩ | ⟨t, ht⟩
    · generalize s.iterateWith L ops body p = r at hv he
      obtain ⟨r, u⟩ := r
      simp only at he
      subst he
      simp at hv
    · refine ⟨t, ?_⟩
      rw [ht] at hv ⊢
      generalize t.requests L ops = r at hv
      obtain ⟨r, u⟩ := r
      cases r with
      | error e => simp at hv
      | ok w => simp only [Except.ok.injEq, Option.some.injEq] at hv; subst hv; exact ⟨rfl, rfl⟩

/-- **C91.** Whenever `start` or `iterate` returns, the plot shows the objectives of exactly the individuals the population then has, in
the order of the population and under the objective names; a request for preferred or non-preferred solutions, and only such a request,
says how many solutions there are, and that is the number of solutions plotted. -/
theorem c91_shows_the_current_population (L : Layout X O F K) (vn on fn : List String) (h : FlatNames L vn on fn) (hd : on.Nodup)
    (ops : Ops X O F C U V S Q R) (body : EA X O F C U V S Q → EARes Unit X O F C U V S Q) (s : Reported X O F C U V S Q K)
    (c : Call R) (v : Shown K) (hv : (s.call L ops body c).1 = .ok (some v)) :
    Labelled v.plot on ((s.call L ops body c).2.ea.pop.objectives.map L.co) ∧
      (∀ n, v.nSolutions = some n → n = v.plot.rows.length) ∧
      ((∃ n, v.nSolutions = some n) ↔ ∃ r, v.request = some r ∧ (r.cls = .preferredSolution ∨ r.cls = .nonPreferredSolution)) := by
  obtain ⟨t, ht, hs⟩ := call_shows L ops body s c v hv
  rw [hs]
  exact requests_shown h hd ops t v ht

theorem requests_pop (L : Layout X O F K) (ops : Ops X O F C U V S Q R) (s : Reported X O F C U V S Q K) :
    (s.requests L ops).2.ea.pop = s.ea.pop := by
  have := (requestPreferences_archive ops s.ea).2
  unfold Reported.requests
  generalize s.ea.requestPreferences ops = r at this
  obtain ⟨r, t⟩ := r
  cases r with
  | error e => exact this
  | ok r =>
    simp only
    split <;> exact this

theorem noIteration_objectives (L : Layout X O F K) (ops : Ops X O F C U V S Q R)
    (body : EA X O F C U V S Q → EARes Unit X O F C U V S Q) (s : Reported X O F C U V S Q K) (c : Call R)
    (hc : NoIteration ops s.ea c) : (s.call L ops body c).2.ea.pop.objectives = s.ea.pop.objectives := by
  cases c with
  | setType a =>
    have := (setInteractionType_archive s.ea a).2
    simp only [Reported.call]
    generalize s.ea.setInteractionType a = r at this
    obtain ⟨r, t⟩ := r
    cases r <;> exact congrArg Pop.objectives this
  | readAllowable =>
    have := (readAllowable_archive s.ea).2
    simp only [Reported.call]
    generalize s.ea.readAllowable = r at this
    obtain ⟨r, t⟩ := r
    cases r <;> exact congrArg Pop.objectives this
  | start =>
    have key : (s.start L ops).2.ea.pop = s.ea.pop := by
      unfold Reported.start
      split
      · rfl
      · by_cases hk : s.ea.cfg.saveND = true
        · simp only [if_pos hk]
          cases hi : s.ea.pop.individuals with
          | none => rfl
          | some inds =>
            simp only
            cases ha : startArchive ops.nonDom inds s.ea.pop.objectives s.ea.pop.fitness with
            | error e => rfl
            | ok nd => exact requests_pop L ops _
        · simp only [if_neg hk]
          exact requests_pop L ops _
    simp only [Reported.call]
    generalize s.start L ops = r at key
    obtain ⟨r, t⟩ := r
    cases r <;> exact congrArg Pop.objectives key
  | iterate p =>
    obtain ⟨e, he⟩ := hc
    have hm := (managePreferences_frame ops s.ea p).2.2.2.2.2
    have hit : s.iterateWith L ops body p = (.error e, { s with ea := (s.ea.managePreferences ops p).2 }) := by
      unfold Reported.iterateWith
      generalize s.ea.managePreferences ops p = r at he
      obtain ⟨r, t⟩ := r
      simp only at he
      subst he
      rfl
    simp only [Reported.call, hit]
    exact hm

theorem noIterations_objectives (L : Layout X O F K) (ops : Ops X O F C U V S Q R)
    (body : EA X O F C U V S Q → EARes Unit X O F C U V S Q) (cs : List (Call R)) :
    ∀ s : Reported X O F C U V S Q K, NoIterations L ops body s cs → (s.calls L ops body cs).ea.pop.objectives = s.ea.pop.objectives := by
  induction cs with
  | nil => intro s _; rfl
  | cons c cs ih =>
    intro s h
    exact (ih _ h.2).trans (noIteration_objectives L ops body s c h.1)

/-- **C91.** An answer that names solutions by number means the solutions that were plotted: take any call that showed `v`, then any calls
none of which starts an iteration (other types, rejected answers, `start` again); if now an answer names the solutions `is`, all of them
numbers of plotted solutions, the objectives the EA picks are exactly those rows of the plot. -/
theorem c91_answer_means_what_was_shown (L : Layout X O F K) (vn on fn : List String) (h : FlatNames L vn on fn) (hd : on.Nodup)
    (ops : Ops X O F C U V S Q R) (body : EA X O F C U V S Q → EARes Unit X O F C U V S Q) (s : Reported X O F C U V S Q K)
    (c : Call R) (v : Shown K) (hv : (s.call L ops body c).1 = .ok (some v)) (cs : List (Call R))
    (hcs : NoIterations L ops body (s.call L ops body c).2 cs) (is : List Nat) (his : ∀ i ∈ is, i < v.plot.rows.length) :
    ∃ picked, chosenRows (((s.call L ops body c).2.calls L ops body cs).ea.pop.objectives) (is.map Int.ofNat) = .ok picked ∧
      List.Forall₂ (fun i o => v.plot.rows[i]? = some (L.co o)) is picked := by
  have ho := noIterations_objectives L ops body cs _ hcs
  obtain ⟨t, ht, hs⟩ := call_shows L ops body s c v hv
  have hrows : v.plot.rows = (s.call L ops body c).2.ea.pop.objectives.map L.co := by
    rw [hs]
    clear ho hcs hs hv
    unfold Reported.requests at ht ⊢
    generalize t.ea.requestPreferences ops = r at ht
    obtain ⟨r, u⟩ := r
    cases r with
    | error e => simp at ht
    | ok r =>
      simp only [plot_flat h] at ht ⊢
      cases ht
      rfl
  rw [ho]
  generalize (s.call L ops body c).2.ea.pop.objectives = objs at hrows
  rw [hrows] at his ⊢
  simp only [List.length_map] at his
  unfold chosenRows
  have hres : resolve objs.length (is.map Int.ofNat) = .ok is := by
    clear ho hcs hv
    induction is with
    | nil => rfl
    | cons i is ih =>
      have hi := his i List.mem_cons_self
      simp only [List.map_cons, resolve]
      have hn : normIdx objs.length (Int.ofNat i) = some i := by
        unfold normIdx
        simp [hi]
      rw [hn, ih (fun j hj => his j (List.mem_cons_of_mem _ hj))]
  rw [hres]
  refine ⟨_, rfl, ?_⟩
  clear hres ho hcs hv
  induction is with
  | nil => exact .nil
  | cons i is ih =>
    have hi := his i List.mem_cons_self
    have : objs[i]? = some objs[i] := List.getElem?_eq_getElem hi
    rw [List.filterMap_cons, this]
    refine .cons ?_ (ih (fun j hj => his j (List.mem_cons_of_mem _ hj)))
    simp [this]

/-! ### Cases -/

/-- The population of the demo run has numbers for decision vectors, objectives and fitness; each is one column. -/
def demoLayout : Layout Nat Nat Nat Nat :=
  ⟨[.one "x"], [.one "cost"], [.one "f"], 1, 1, 1, fun x => [x], fun x => [x], fun x => [x]⟩

theorem demoLayout_flat : FlatNames demoLayout ["x"] ["cost"] ["f"] :=
  ⟨rfl, rfl, rfl, rfl, rfl, rfl, by decide, by decide⟩

theorem demoLayout_distinct : DistinctNames ["x"] ["cost"] ["f"] := ⟨by decide, by decide, by decide⟩

/-- `_next_gen` leaves the archive alone. -/
theorem nextGen_archive (ops : Ops X O F C U V S Q R) (s : EA X O F C U V S Q) : (EA.nextGen ops s).2.archive = s.archive := by
  unfold EA.nextGen
  cases ops.mate s.clock s.pop with
  | error e => rfl
  | ok off =>
    simp only
    have h1 : (EA.popAdd ops { s with clock := s.clock + 1 } off).2.archive = s.archive := rfl
    generalize EA.popAdd ops { s with clock := s.clock + 1 } off = pr at h1
    obtain ⟨r, s1⟩ := pr
    cases r with
    | error e => exact h1
    | ok res =>
      simp only at h1 ⊢
      have h2 : (if s1.cfg.saveND then
            match archiveUpdate ops.dom s1.nd off.rows res.objectives res.fitness with
            | .error e => ((.error e, s1) : EARes Unit X O F C U V S Q)
            | .ok nd => (.ok (), { s1 with nd := some nd })
          else (.ok (), s1)).2.archive = s1.archive := by
        split
        · split <;> rfl
        · rfl
      generalize (if s1.cfg.saveND then
            match archiveUpdate ops.dom s1.nd off.rows res.objectives res.fitness with
            | .error e => ((.error e, s1) : EARes Unit X O F C U V S Q)
            | .ok nd => (.ok (), { s1 with nd := some nd })
          else (.ok (), s1)) = a at h2
      obtain ⟨a1, s2⟩ := a
      rw [← h1, ← h2]
      cases a1 with
      | error e => rfl
      | ok u =>
        simp only
        split
        · rfl
        · split
          · rfl
          · simp only
            split <;> rfl

/-- The hypotheses are met and the tables are there: a run of two iterations with an archive, then `end`. -/
example : ∃ s : EA Nat Nat Nat Nat Nat Nat Nat Nat, demoState false false 0 = .ok s ∧ s.archive = [] ∧
    (((⟨s, []⟩ : Reported Nat Nat Nat Nat Nat Nat Nat Nat Nat).calls demoLayout demoEA (EA.nextGen demoEA)
      [.start, .iterate none, .iterate none]).finish demoLayout).1.map (fun t => t.map (List.map Prod.fst)) = .ok (some [0, 3, 6]) ∧
    (((⟨s, []⟩ : Reported Nat Nat Nat Nat Nat Nat Nat Nat Nat).calls demoLayout demoEA (EA.nextGen demoEA)
      [.start, .iterate none, .iterate none]).tables.map (fun t => (cellAt t.2.objectives 0 "cost", cellAt t.2.objectives 1 "cost"))) =
      [(some 0, some 1), (some 3, some 4)] :=
  ⟨_, rfl, rfl, by decide +kernel, by decide +kernel⟩

/-- Something is shown with a request for preferred solutions; two other calls later the answer means the same solutions. -/
example : ∃ s : EA Nat Nat Nat Nat Nat Nat Nat Nat, demoState true false 0 = .ok s ∧
    let a := (⟨s, []⟩ : Reported Nat Nat Nat Nat Nat Nat Nat Nat Nat).calls demoLayout demoEA (EA.nextGen demoEA)
      [.setType (some "Preferred solutions")]
    ∃ v, (a.call demoLayout demoEA (EA.nextGen demoEA) .start).1 = .ok (some v) ∧ v.nSolutions = some 2 ∧ v.plot.rows = [[0], [1]] ∧
      NoIterations demoLayout demoEA (EA.nextGen demoEA) (a.call demoLayout demoEA (EA.nextGen demoEA) .start).2
        [.iterate (some ⟨77, .preferredSolution, 1⟩), .readAllowable] :=
  ⟨_, rfl, _, rfl, rfl, rfl, ⟨_, rfl⟩, trivial, trivial⟩

/-- The demo operators with an evaluation that fails in the second generation. -/
def failingEA : Ops Nat Nat Nat Nat Nat Nat Nat Nat Nat :=
  { demoEA with evaluate := fun n _ b => if n < 6 then .ok ⟨b.rows, b.rows, none, none⟩ else .error .evaluationError }

/-- **C91 is violated after an iteration that failed.** `start` shows two solutions and asks for preferred ones; `iterate()` raises in
its second generation; the answer to the request is still accepted, but solution number 0 is by then another one than the one shown. -/
theorem c91_after_failed_iteration_violated : ∃ s : EA Nat Nat Nat Nat Nat Nat Nat Nat, demoState true false 0 = .ok s ∧
    let a := (⟨s, []⟩ : Reported Nat Nat Nat Nat Nat Nat Nat Nat Nat).calls demoLayout failingEA (EA.nextGen failingEA)
      [.setType (some "Preferred solutions")]
    let b := (a.call demoLayout failingEA (EA.nextGen failingEA) .start).2
    let d := (b.call demoLayout failingEA (EA.nextGen failingEA) (.iterate none))
    ∃ v r, (a.call demoLayout failingEA (EA.nextGen failingEA) .start).1 = .ok (some v) ∧ v.request = some r ∧
      v.plot.rows = [[0], [1]] ∧ d.1 = .error .evaluationError ∧
      (d.2.ea.managePreferences failingEA (some ⟨r.id, .preferredSolution, 5⟩)).1 = .ok () ∧
      chosenRows d.2.ea.pop.objectives [0] = .ok [1] :=
  ⟨_, rfl, _, _, rfl, rfl, by rfl, by rfl, by rfl, by rfl⟩

/-- Nested names: two vector-valued objectives. -/
example : NestedNames [.many ["a", "b"], .many ["c", "d"]] 4 :=
  ⟨rfl, by decide, by decide, Or.inl (by intro n hn; simp only [List.mem_cons, List.not_mem_nil, or_false] at hn; rcases hn with rfl | rfl <;> exact ⟨_, rfl⟩)⟩

example : NestedNames [.one "a", .many ["b", "c"]] 3 :=
  ⟨rfl, by decide, by decide, Or.inr ⟨_, List.mem_cons_of_mem _ List.mem_cons_self, by decide⟩⟩

end Verif.Props
