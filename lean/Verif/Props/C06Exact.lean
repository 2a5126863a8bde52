/-
C06 — Table alteration is exact: the criterion.
-/
import Verif.Lemmas.Needs
import Verif.Props.C06
import Verif.Props.C10
import Verif.Lemmas.Convert

set_option autoImplicit false

namespace PySqlSync
open Spec

namespace Need

variable {E : Engine} {d : Dialect} {S T : Table}

/-! ### From statements to actions -/

def actsOf (stmts : List Stmt) : List Action := stmts.flatMap (fun
  | .alterTable _ a => a
  | _ => [])

theorem acts_append (a b : List Stmt) : actsOf (a ++ b) = actsOf a ++ actsOf b := by simp [actsOf]

/-- A statement that leaves the schema as it is. -/
def Idle : Stmt → Prop
  | .commentTable .. | .commentColumn .. | .insertRows .. | .insertLabels .. | .insertDistinct .. | .updateKeys .. => True
  | _ => False

theorem idle_step {st : Stmt} (h : Idle st) {db db' : Db} (hs : step E db st = some db') : db' = db := by
  cases st <;> first | exact absurd h id | (simp only [step] at hs; split at hs <;> simp_all)

theorem idle_acts {l : List Stmt} (h : ∀ st ∈ l, Idle st) : actsOf l = [] := by
  unfold actsOf
  rw [List.flatMap_eq_nil_iff]
  intro st hst
  have := h st hst
  cases st <;> first | exact absurd this id | rfl

theorem steps_run {P : TableState → Prop} (hP : ∀ ts, P ts) {a : List Action} : ∀ {ts ts' : TableState},
    stepActions E ts a = some ts' → ActRun E P ts a ts' := by
  induction a with
  | nil => intro ts ts' h; cases h; exact .nil _
  | cons x a ih =>
    intro ts ts' h
    simp only [stepActions, Option.bind_eq_some_iff] at h
    obtain ⟨t1, h1, h2⟩ := h
    exact .cons h1 (hP _) (ih h2)

/-- What a run of statements does to a table that they alter.  `w`: each statement has one action. -/
theorem runs_acts (w : Prop) {q : QId} {stmts : List Stmt} {db db' : Db} (hr : Runs E db stmts db')
    (hst : ∀ st ∈ stmts, (∃ a, st = .alterTable q a ∧ (w → ∃ x, a = [x])) ∨ Idle st) :
    ∀ {ts : TableState}, db.objs q.key = some (.table ts) →
      ∃ ts', db'.objs q.key = some (.table ts') ∧ ActRun E (fun ts => w → ∃ K, ts.Fits K) ts (actsOf stmts) ts' := by
  induction hr with
  | nil => intro ts h0; exact ⟨ts, h0, .nil _⟩
  | @cons db db1 db' st rest hs v _ ih =>
    intro ts h0
    have ih := @ih (fun s hm => hst s (List.mem_cons_of_mem _ hm))
    rcases hst st (List.mem_cons_self ..) with ⟨a, rfl, hw⟩ | hi
    · simp only [step, h0, Option.map_eq_some_iff] at hs
      obtain ⟨t1, h1, rfl⟩ := hs
      obtain ⟨ts', k1, k2⟩ := ih (set_same _ _ _)
      refine ⟨ts', k1, ?_⟩
      have e : actsOf (.alterTable q a :: rest) = a ++ actsOf rest := rfl
      rw [e]
      refine ActRun.append ?_ k2
      by_cases hwt : w
      · obtain ⟨x, rfl⟩ := hw hwt
        simp only [stepActions, Option.bind_eq_some_iff] at h1
        obtain ⟨t2, h2, h3⟩ := h1
        cases h3
        exact ActRun.single h2 (fun _ => ⟨_, v.fits _ _ (set_same _ _ _)⟩)
      · exact steps_run (fun _ h => absurd h hwt) h1
    · have := idle_step hi hs
      subst this
      obtain ⟨ts', k1, k2⟩ := ih h0
      refine ⟨ts', k1, ?_⟩
      have e : actsOf (st :: rest) = actsOf rest := by
        rw [show st :: rest = [st] ++ rest from rfl, acts_append, idle_acts (l := [st]) (by simpa using hi)]
        rfl
      rw [e]; exact k2

theorem acts_alter (a : List Action) : actsOf (S.alterStmt d a) = a := by
  unfold Table.alterStmt actsOf
  split
  · rw [List.flatMap_map]
    induction a with
    | nil => rfl
    | cons x a ih => simp [List.flatMap_cons] at ih ⊢
  · simp

theorem acts_alter' (a : List Action) : actsOf (if a = [] then [] else S.alterStmt d a) = a := by
  split
  · rename_i h; rw [h]; rfl
  · exact acts_alter a

theorem acts_alters (a : List Action) : actsOf (a.flatMap (fun x => S.alterStmt d [x])) = a := by
  induction a with
  | nil => rfl
  | cons x a ih => rw [List.flatMap_cons, acts_append, ih, acts_alter]; rfl

theorem alter_kind {a : List Action} {st : Stmt} (h : st ∈ S.alterStmt d a) :
    ∃ b, st = .alterTable S.name b ∧ (d.splits = true → ∃ x, b = [x]) := by
  unfold Table.alterStmt at h
  split at h
  · obtain ⟨x, _, rfl⟩ := List.mem_map.1 h
    exact ⟨_, rfl, fun _ => ⟨x, rfl⟩⟩
  · rename_i hs
    rw [List.mem_singleton.1 h]
    exact ⟨_, rfl, fun hs' => absurd hs' hs⟩

theorem migrate_idle {p : Column × Column} {l : List Stmt} (h : migrateColumn d S p.1 T p.2 = .ok l) :
    ∀ st ∈ l, Idle st := by
  intro st hst
  unfold migrateColumn at h
  split at h
  · cases hr : T.getConstraint p.2.name with
    | error e => simp [hr, bind, Except.bind] at h
    | ok r =>
      simp only [hr, bind, Except.bind, pure, Except.pure, Except.ok.injEq] at h
      subst h
      simp only [List.mem_singleton] at hst
      subst hst
      trivial
  · cases hr : T.getConstraint p.2.name with
    | error e => simp [hr, bind, Except.bind] at h
    | ok r =>
      simp only [hr, bind, Except.bind, pure, Except.pure, Except.ok.injEq] at h
      subst h
      simp only [List.mem_append, List.mem_singleton] at hst
      rcases hst with hst | hst
      · split at hst
        · simp only [List.mem_singleton] at hst; subst hst; trivial
        · simp only [List.mem_singleton] at hst; subst hst; trivial
        · cases hst
      · subst hst; trivial
  · simp only [Except.ok.injEq] at h
    subst h
    cases hst

/-- The parts of the script. -/
theorem script_parts {stmts : List Stmt} (h : mutateTable d S T = .ok stmts) :
    ∃ rn am an al, (migratedPairs d S T).mapM (fun p => p.1.softDropStmt d) = .ok rn
      ∧ (migratedPairs d S T).mapM (fun p => p.2.createStmt d) = .ok am
      ∧ (T.columns.difference S.columns).mapM (fun c => c.createStmt d) = .ok an
      ∧ alterActions S T d = .ok al
      ∧ actsOf stmts = (if d = .mssql then mssqlDefaults S T else []) ++ rn ++ (am ++ an) ++ al
      ∧ ∀ st ∈ stmts, (∃ a, st = .alterTable S.name a ∧ (d.splits = true → ∃ x, a = [x])) ∨ Idle st := by
  have hms : ∃ pre base post, mutateTableBase d S T = .ok base ∧ stmts = pre ++ base ++ post
      ∧ (∀ st ∈ post, Idle st) ∧ pre = (if d = .mssql then
        (if mssqlDefaults S T = [] then [] else S.alterStmt d (mssqlDefaults S T)) else []) := by
    by_cases hd : d = .mssql
    · subst hd
      unfold mutateTable at h
      simp only [bind, Except.bind] at h
      split at h
      · cases h
      · rename_i base hb
        cases h
        exact ⟨_, base, [], hb, by simp, by simp, rfl⟩
    · obtain ⟨pre, base, post, hb, rfl, hpost, hpre⟩ := C10.mutateTable_base h
      refine ⟨pre, base, post, hb, rfl, ?_, ?_⟩
      · intro st hst
        rcases hpost st hst with ⟨q, x, rfl⟩ | ⟨q, c, x, rfl⟩ <;> trivial
      · rw [if_neg hd]
        rcases hpre with e | ⟨e, _⟩
        · exact e
        · exact absurd e hd
  obtain ⟨pre, base, post, hb, rfl, hpost, hpre⟩ := hms
  obtain ⟨rn, am, an, mg, al, h1, h2, h3, h4, h5, rfl⟩ := table_parts hb
  have hmg : ∀ st ∈ mg.flatten, Idle st := by
    intro st hst
    obtain ⟨e4, k4⟩ := mapM_flatten h4
    rw [e4, List.mem_flatMap] at hst
    obtain ⟨p, hp, hst⟩ := hst
    exact migrate_idle (k4 p hp) st hst
  refine ⟨rn, am, an, al, h1, h2, h3, h5, ?_, ?_⟩
  · have hp : actsOf pre = if d = .mssql then mssqlDefaults S T else [] := by
      rw [hpre]
      split
      · exact acts_alter' _
      · rfl
    simp only [acts_append, acts_alters, acts_alter', idle_acts hmg, idle_acts hpost, hp, List.append_nil, List.nil_append,
      List.append_assoc]
  · intro st hst
    simp only [List.mem_append] at hst
    have hif : ∀ a : List Action, st ∈ (if a = [] then [] else S.alterStmt d a) →
        (∃ a, st = .alterTable S.name a ∧ (d.splits = true → ∃ x, a = [x])) := by
      intro a ha
      split at ha
      · cases ha
      · exact alter_kind ha
    rcases hst with (hst | ((hst | hst) | hst) | hst) | hst
    · rw [hpre] at hst
      split at hst
      · exact .inl (hif _ hst)
      · cases hst
    · obtain ⟨x, _, hx⟩ := List.mem_flatMap.1 hst
      exact .inl (alter_kind hx)
    · exact .inl (hif _ hst)
    · exact .inr (hmg st hst)
    · exact .inl (hif _ hst)
    · exact .inr (hpost st hst)

/-! ### The actions of a script, by kind -/

/-- A column in both tables. -/
def Both (S T : Table) (s u : Column) : Prop := s ∈ S.columns.items ∧ u ∈ T.columns.items ∧ s.name = u.name

theorem change_col {s u : Column} {l : List Action} (h : mutateColumn d s u = .ok l) : ∀ x ∈ l, colOf x = some s.name := by
  intro x hx
  unfold mutateColumn at h
  split at h
  · simp only [bind, Except.bind] at h
    repeat' split at h
    all_goals first
      | (cases h; done)
      | (cases h; rw [List.mem_singleton.1 hx]; rfl)
      | (cases h; cases hx)
  · obtain ⟨a, b, c, e, h⟩ : ∃ a b c e, (if Option.isSome a || Option.isSome b || Option.isSome c || Option.isSome e then
        Except.ok [Action.modify s.name a b c e] else Except.ok []) = Except.ok (ε := Err) l := ⟨_, _, _, _, h⟩
    split at h
    · cases h; rw [List.mem_singleton.1 hx]; rfl
    · cases h; cases hx
  · split at h
    · cases h
    · split at h
      · cases h; rw [List.mem_singleton.1 hx]; rfl
      · cases h; cases hx
  · split at h
    · cases h; cases hx
    · cases h
      simp only [List.mem_append] at hx
      rcases hx with ((hx | hx) | hx) | hx
      · split at hx
        · rw [List.mem_singleton.1 hx]; rfl
        · cases hx
      · split at hx
        · rw [List.mem_singleton.1 hx]; rfl
        · split at hx
          · rw [List.mem_singleton.1 hx]; rfl
          · cases hx
      · split at hx
        · rw [List.mem_singleton.1 hx]; rfl
        · split at hx
          · rw [List.mem_singleton.1 hx]; rfl
          · cases hx
        · cases hx
      · split at hx
        · rw [List.mem_singleton.1 hx]; rfl
        · split at hx
          · rw [List.mem_singleton.1 hx]; rfl
          · cases hx

/-- A table with the types its columns mention renamed. -/
def retyped (ρ : QId → QId) (ts : TableState) : TableState :=
  { ts with cols := fun n => (ts.cols n).map (fun c => { c with ty := c.ty.mapRef ρ }) }

theorem retyped_id (ts : TableState) : retyped id ts = ts := by
  cases ts with
  | mk cols pk cons dfs =>
    unfold retyped
    simp only [TableState.mk.injEq, and_true]
    funext n
    cases cols n with
    | none => rfl
    | some c => simp only [Option.map_some, mapRef_id id (fun _ _ => rfl) c.ty (fun _ _ => rfl)]

/-- A script that ran, by parts; the types that the table's columns mention may have been renamed before. -/
structure Ran (ρ : QId → QId) (d : Dialect) (E : Engine) (S T : Table) (pre rn ad hard ch drops dc ac : List Action) : Prop where
  run : ActRun E (fun ts => d.splits = true → ∃ K, ts.Fits K) (retyped ρ (Spec.Table.state d E S))
    (pre ++ (rn ++ (ad ++ (hard ++ (ch ++ (drops ++ (dc ++ ac))))))) (Spec.Table.state d E T)
  preEq : pre = if d = .mssql then mssqlDefaults S T else []
  rnMem : ∀ x ∈ rn, ∃ s u spec, Both S T s u ∧ Converted d s u ∧ s.softDropStmt d = .ok x
    ∧ x = .renameColumn s.name (deletedName s.name) spec
  rnHas : ∀ s u, Both S T s u → Converted d s u → ∃ spec, .renameColumn s.name (deletedName s.name) spec ∈ rn
  adMem : ∀ x ∈ ad, ∃ u spec, u ∈ T.columns.items ∧ u.dataSpec d = .ok spec ∧ x = .addColumn u.name spec
    ∧ ((∃ s, Both S T s u ∧ Converted d s u) ∨ ∀ s ∈ S.columns.items, s.name ≠ u.name)
  adHas : ∀ s u, Both S T s u → Converted d s u → ∃ spec, u.dataSpec d = .ok spec ∧ .addColumn u.name spec ∈ ad
  hardMem : ∀ x ∈ hard, ∃ s u, Both S T s u ∧ Converted d s u ∧ x = .dropColumn (deletedName s.name)
  hardHas : ∀ s u, Both S T s u → Converted d s u → .dropColumn (deletedName s.name) ∈ hard
  chMem : ∀ x ∈ ch, ∃ s u l, Both S T s u ∧ mutateColumn d s u = .ok l ∧ x ∈ l
  chHas : ∀ s u, Both S T s u → ∃ l c1 c2, mutateColumn d s u = .ok l ∧ ch = c1 ++ (l ++ c2)
    ∧ ∀ x ∈ c1, colOf x ≠ some s.name
  dropsMem : ∀ x ∈ drops, ∃ s ∈ S.columns.items, (∀ u ∈ T.columns.items, s.name ≠ u.name) ∧ x = s.dropStmt d
  dropsHas : ∀ s ∈ S.columns.items, (∀ u ∈ T.columns.items, s.name ≠ u.name) → s.dropStmt d ∈ drops
  dcMem : ∀ x ∈ dc, ∃ c ∈ S.constraints.items, (∀ c' ∈ T.constraints.items, c'.name ≠ c.name) ∧ x = .dropConstraint c.name
  dcHas : ∀ c ∈ S.constraints.items, (∀ c' ∈ T.constraints.items, c'.name ≠ c.name) →
    (Spec.Constraint.state E c).isSome → .dropConstraint c.name ∈ dc
  acMem : ∀ x ∈ ac, ∃ c ∈ T.constraints.items, (∀ c' ∈ S.constraints.items, c'.name ≠ c.name)
    ∧ ∃ spec, x = .addConstraint c.name spec
  same : ∀ c ∈ S.constraints.items, ∀ c' ∈ T.constraints.items, c'.name = c.name → c = c'

theorem mem_migrated {s u : Column} (wT : TableWF d T) :
    (s, u) ∈ migratedPairs d S T ↔ Both S T s u ∧ Converted d s u := by
  unfold migratedPairs
  rw [List.mem_filter, ODict.mem_intersection wT.columns, isColumnMigrated_iff]
  rfl

variable {ρ : QId → QId}

theorem ran {stmts : List Stmt} (wS : TableWF d S) (wT : TableWF d T) {db db' : Db}
    (h0 : db.objs S.name.key = some (.table (retyped ρ (Spec.Table.state d E S))))
    (h1 : db'.objs S.name.key = some (.table (Spec.Table.state d E T)))
    (h : mutateTable d S T = .ok stmts) (hr : Runs E db stmts db') :
    ∃ pre rn ad hard ch drops dc ac, Ran ρ d E S T pre rn ad hard ch drops dc ac := by
  obtain ⟨rn, am, an, al, k1, k2, k3, k4, k5, k6⟩ := script_parts h
  obtain ⟨ts', r1, r2⟩ := runs_acts (d.splits = true) hr k6 h0
  rw [h1] at r1
  cases r1
  rw [k5] at r2
  unfold alterActions at k4
  simp only [bind, Except.bind] at k4
  split at k4
  · cases k4
  · rename_i changes hch
    have hch := wrapColumn_ok hch
    split at k4
    · cases k4
    · rename_i hsame
      cases k4
      simp only [List.append_assoc] at r2
      rw [← List.append_assoc am] at r2
      refine ⟨_, rn, am ++ an, _, changes.flatten, _, _, _, r2, rfl, ?_, ?_, ?_, ?_, ?_, ?_, ?_, ?_, ?_, ?_, ?_, ?_, ?_, ?_⟩
      · intro x hx
        obtain ⟨⟨s, u⟩, hp, hx⟩ := mem_mapM' k1 hx
        obtain ⟨m1, m2⟩ := (mem_migrated wT).1 hp
        obtain ⟨spec, e⟩ := softDrop_ok hx
        exact ⟨s, u, spec, m1, m2, hx, e⟩
      · intro s u hb hc
        obtain ⟨x, hm, hx⟩ := Conv.mapM_fwd k1 (s, u) ((mem_migrated wT).2 ⟨hb, hc⟩)
        obtain ⟨spec, e⟩ := softDrop_ok hx
        exact ⟨spec, e ▸ hm⟩
      · intro x hx
        rcases List.mem_append.1 hx with hx | hx
        · obtain ⟨⟨s, u⟩, hp, hx⟩ := mem_mapM' k2 hx
          obtain ⟨m1, m2⟩ := (mem_migrated wT).1 hp
          obtain ⟨spec, e1, e2⟩ := createStmt_ok hx
          exact ⟨u, spec, m1.2.1, e1, e2, .inl ⟨s, m1, m2⟩⟩
        · obtain ⟨u, hp, hx⟩ := mem_mapM' k3 hx
          obtain ⟨m1, m2⟩ := ODict.mem_difference.1 hp
          obtain ⟨spec, e1, e2⟩ := createStmt_ok hx
          exact ⟨u, spec, m1, e1, e2, .inr (fun s hs e => m2 (List.mem_map.2 ⟨s, hs, e⟩))⟩
      · intro s u hb hc
        obtain ⟨x, hm, hx⟩ := Conv.mapM_fwd k2 (s, u) ((mem_migrated wT).2 ⟨hb, hc⟩)
        obtain ⟨spec, e1, e2⟩ := createStmt_ok hx
        exact ⟨spec, e1, List.mem_append_left _ (e2 ▸ hm)⟩
      · intro x hx
        obtain ⟨⟨s, u⟩, hp, rfl⟩ := List.mem_map.1 hx
        obtain ⟨m1, m2⟩ := (mem_migrated wT).1 hp
        exact ⟨s, u, m1, m2, rfl⟩
      · intro s u hb hc
        exact List.mem_map.2 ⟨(s, u), (mem_migrated wT).2 ⟨hb, hc⟩, rfl⟩
      · intro x hx
        obtain ⟨l, hl, hx⟩ := List.mem_flatten.1 hx
        obtain ⟨⟨s, u⟩, hp, hy⟩ := mem_mapM' hch hl
        exact ⟨s, u, l, (ODict.mem_intersection wT.columns).1 hp, hy, hx⟩
      · intro s u hb
        obtain ⟨p, q, hpq⟩ := List.append_of_mem ((ODict.mem_intersection wT.columns).2 hb)
        have hn := notMem_prefix _ (ODict.intersection_nodup wS.columns T.columns) hpq
        obtain ⟨e1, e2⟩ := mapM_flatten hch
        refine ⟨_, p.flatMap (fun x => ((mutateColumn d x.1 x.2).toOption).getD []),
          q.flatMap (fun x => ((mutateColumn d x.1 x.2).toOption).getD []), e2 (s, u) (by rw [hpq]; simp), ?_, ?_⟩
        · rw [e1, hpq, List.flatMap_append, List.flatMap_cons]
        · intro x hx e
          obtain ⟨⟨a, b⟩, ha, hx⟩ := List.mem_flatMap.1 hx
          have := change_col (e2 (a, b) (by rw [hpq]; exact List.mem_append_left _ ha)) x hx
          rw [this] at e
          apply hn
          exact List.mem_map.2 ⟨(a, b), ha, Option.some.inj e⟩
      · intro x hx
        obtain ⟨s, hs, rfl⟩ := List.mem_map.1 hx
        obtain ⟨m1, m2⟩ := ODict.mem_difference.1 hs
        exact ⟨s, m1, fun u hu e => m2 (List.mem_map.2 ⟨u, hu, e.symm⟩), rfl⟩
      · intro s hs hn
        refine List.mem_map.2 ⟨s, ODict.mem_difference.2 ⟨hs, ?_⟩, rfl⟩
        intro hm
        obtain ⟨u, hu, e⟩ := List.mem_map.1 hm
        exact hn u hu e.symm
      · intro x hx
        obtain ⟨c, hc, hx⟩ := List.mem_filterMap.1 hx
        obtain ⟨m1, m2⟩ := ODict.mem_difference.1 hc
        simp only [Option.map_eq_some_iff] at hx
        obtain ⟨_, _, rfl⟩ := hx
        exact ⟨c, m1, fun u hu e => m2 (List.mem_map.2 ⟨u, hu, e⟩), rfl⟩
      · intro c hc hn hs
        refine List.mem_filterMap.2 ⟨c, ODict.mem_difference.2 ⟨hc, ?_⟩, ?_⟩
        · intro hm
          obtain ⟨u, hu, e⟩ := List.mem_map.1 hm
          exact hn u hu e
        · cases c <;> first | rfl | cases hs
      · intro x hx
        obtain ⟨c, hc, hx⟩ := List.mem_filterMap.1 hx
        obtain ⟨m1, m2⟩ := ODict.mem_difference.1 hc
        simp only [Option.map_eq_some_iff] at hx
        obtain ⟨sp, _, rfl⟩ := hx
        exact ⟨c, m1, fun u hu e => m2 (List.mem_map.2 ⟨u, hu, e⟩), sp, rfl⟩
      · intro c hc c' hc' e
        have hp : (c, c') ∈ S.constraints.intersection T.constraints :=
          (ODict.mem_intersection wT.constraints).2 ⟨hc, hc', e.symm⟩
        refine Classical.byContradiction fun hne => hsame ?_
        rw [List.any_eq_true]
        exact ⟨_, hp, by simpa using hne⟩

/-! ### What a script that ran says about the tables -/

/-- The kinds of actions. -/
def Part (d : Dialect) (S T : Table) (x : Action) : Prop :=
  (d = .mssql ∧ ∃ s u, Both S T s u ∧ (x = .dropConstraint (defaultConstraintName s.name)
    ∨ ∃ e, x = .addDefault (defaultConstraintName s.name) e s.name))
  ∨ (∃ s u spec, Both S T s u ∧ Converted d s u ∧ x = .renameColumn s.name (deletedName s.name) spec)
  ∨ (∃ u spec, u ∈ T.columns.items ∧ u.dataSpec d = .ok spec ∧ x = .addColumn u.name spec)
  ∨ (∃ s u, Both S T s u ∧ Converted d s u ∧ x = .dropColumn (deletedName s.name))
  ∨ (∃ s u l, Both S T s u ∧ mutateColumn d s u = .ok l ∧ x ∈ l ∧ colOf x = some s.name)
  ∨ (∃ s ∈ S.columns.items, (∀ u ∈ T.columns.items, s.name ≠ u.name)
    ∧ (x = .dropColumn s.name ∨ d = .mssql ∧ x = .dropDefaultAndColumn (defaultConstraintName s.name) s.name))
  ∨ (∃ c ∈ S.constraints.items, (∀ c' ∈ T.constraints.items, c'.name ≠ c.name) ∧ x = .dropConstraint c.name)
  ∨ (∃ c ∈ T.constraints.items, (∀ c' ∈ S.constraints.items, c'.name ≠ c.name) ∧ ∃ spec, x = .addConstraint c.name spec)

theorem dropStmt_cases (s : Column) : s.dropStmt d = .dropColumn s.name
    ∨ d = .mssql ∧ s.dropStmt d = .dropDefaultAndColumn (defaultConstraintName s.name) s.name := by
  unfold Column.dropStmt
  split
  · exact .inr ⟨rfl, rfl⟩
  · exact .inl rfl

theorem not_deleted {tb : Table} (w : TableWF d tb) {c : Column} (hc : c ∈ tb.columns.items) (x : Text) :
    c.name ≠ deletedName x := w.names c hc x

variable {pre rn ad hard ch drops dc ac : List Action}

theorem Ran.preMem (R : Ran ρ d E S T pre rn ad hard ch drops dc ac) {x : Action} (hx : x ∈ pre) :
    d = .mssql ∧ ∃ s u, Both S T s u ∧ (x = .dropConstraint (defaultConstraintName s.name)
      ∨ ∃ e, x = .addDefault (defaultConstraintName s.name) e s.name) := by
  rw [R.preEq] at hx
  split at hx
  · rename_i hd
    refine ⟨hd, ?_⟩
    obtain ⟨⟨s, u⟩, hp, hx⟩ := List.mem_flatMap.1 hx
    refine ⟨s, u, mem_inter hp, ?_⟩
    unfold mssqlDefault at hx
    split at hx
    · cases hx
    · rcases List.mem_append.1 hx with hx | hx
      · split at hx
        · exact .inl (List.mem_singleton.1 hx)
        · cases hx
      · split at hx
        · exact .inr ⟨_, List.mem_singleton.1 hx⟩
        · cases hx
  · cases hx

theorem Ran.part (R : Ran ρ d E S T pre rn ad hard ch drops dc ac) {x : Action}
    (hx : x ∈ pre ++ (rn ++ (ad ++ (hard ++ (ch ++ (drops ++ (dc ++ ac))))))) : Part d S T x := by
  unfold Part
  simp only [List.mem_append] at hx
  rcases hx with hx | hx | hx | hx | hx | hx | hx | hx
  · exact .inl (R.preMem hx)
  · obtain ⟨s, u, spec, h1, h2, _, h3⟩ := R.rnMem x hx
    exact .inr (.inl ⟨s, u, spec, h1, h2, h3⟩)
  · obtain ⟨u, spec, h1, h2, h3, _⟩ := R.adMem x hx
    exact .inr (.inr (.inl ⟨u, spec, h1, h2, h3⟩))
  · exact .inr (.inr (.inr (.inl (R.hardMem x hx))))
  · obtain ⟨s, u, l, h1, h2, h3⟩ := R.chMem x hx
    exact .inr (.inr (.inr (.inr (.inl ⟨s, u, l, h1, h2, h3, change_col h2 x h3⟩))))
  · obtain ⟨s, h1, h2, rfl⟩ := R.dropsMem x hx
    exact .inr (.inr (.inr (.inr (.inr (.inl ⟨s, h1, h2, dropStmt_cases s⟩)))))
  · exact .inr (.inr (.inr (.inr (.inr (.inr (.inl (R.dcMem x hx)))))))
  · exact .inr (.inr (.inr (.inr (.inr (.inr (.inr (R.acMem x hx)))))))

theorem both_unique (wS : TableWF d S) (wT : TableWF d T) {s u s' u' : Column} (h : Both S T s u) (h' : Both S T s' u')
    (e : s.name = s'.name) : s = s' ∧ u = u' :=
  ⟨eq_of_key wS.columns h.1 h'.1 e, eq_of_key wT.columns h.2.1 h'.2.1 (h.2.2.symm.trans (e.trans h'.2.2))⟩

/-- Only converted columns are renamed. -/
theorem Part.ren {old new : Text} {spec : ColSpec} (h : Part d S T (.renameColumn old new spec)) :
    ∃ s u, Both S T s u ∧ Converted d s u ∧ old = s.name ∧ new = deletedName s.name := by
  rcases h with ⟨_, s, u, hb, h | ⟨e, h⟩⟩ | ⟨s, u, sp, hb, hc, h⟩ | ⟨u, sp, _, _, h⟩ | ⟨s, u, _, _, h⟩
    | ⟨s, u, l, _, _, _, h⟩ | ⟨s, _, _, h | ⟨_, h⟩⟩ | ⟨c, _, _, h⟩ | ⟨c, _, _, sp, h⟩
  all_goals cases h
  exact ⟨s, u, hb, hc, rfl, rfl⟩

theorem Part.addCon {m : Text} {spec : ConSpec} (h : Part d S T (.addConstraint m spec)) :
    ∀ c' ∈ S.constraints.items, c'.name ≠ m := by
  rcases h with ⟨_, s, u, hb, h | ⟨e, h⟩⟩ | ⟨s, u, sp, hb, hc, h⟩ | ⟨u, sp, _, _, h⟩ | ⟨s, u, _, _, h⟩
    | ⟨s, u, l, _, _, _, h⟩ | ⟨s, _, _, h | ⟨_, h⟩⟩ | ⟨c, _, _, h⟩ | ⟨c, _, hc, sp, h⟩
  all_goals cases h
  exact hc

theorem tab_cols {K : Kinds} (hT : (Spec.Table.state d E T).Fits K) {n : Text}
    (h : ((Spec.Table.state d E T).cols n).isSome) : ∃ u ∈ T.columns.items, u.name = n := by
  change (((T.columns.get n).map (Spec.Column.state d))).isSome at h
  rw [Option.isSome_map] at h
  cases hg : T.columns.get n with
  | none => rw [hg] at h; cases h
  | some u => exact ⟨u, (ODict.get_some_mem hg).1, (ODict.get_some_mem hg).2⟩

/-- The primary key stays, and no column of it is converted. -/
theorem Ran.key {K : Kinds} (R : Ran ρ d E S T pre rn ad hard ch drops dc ac) (wT : TableWF d T)
    (hT : (Spec.Table.state d E T).Fits K) :
    S.primaryKey = T.primaryKey ∧ ∀ s u, Both S T s u → Converted d s u → s.name ∉ S.primaryKey := by
  obtain ⟨h1, h2⟩ := back_pk R.run (p := T.primaryKey) rfl wT.key (by
    intro old new spec hm hn
    obtain ⟨s, u, _, _, _, rfl⟩ := (R.part hm).ren
    obtain ⟨c, hc, _⟩ := hT.pk _ hn
    obtain ⟨u', hu', e⟩ := tab_cols hT (by rw [hc]; rfl)
    exact not_deleted wT hu' _ e)
  have h1 : S.primaryKey = T.primaryKey := h1
  refine ⟨h1, fun s u hb hc => ?_⟩
  obtain ⟨spec, hm⟩ := R.rnHas s u hb hc
  rw [h1]
  exact h2 s.name (deletedName s.name) spec (by simp [hm])

theorem state_con (w : TableWF d S) {c : Constraint} (hc : c ∈ S.constraints.items) :
    (Spec.Table.state d E S).cons c.name = Spec.Constraint.state E c := by
  have : S.constraints.get c.name = some c := ODict.get_eq_of_mem w.constraints hc
  show (S.constraints.get c.name).bind _ = _
  rw [this]; rfl

/-- A constraint that stays involves no converted column. -/
theorem Ran.shared {K : Kinds} (R : Ran ρ d E S T pre rn ad hard ch drops dc ac) (wS : TableWF d S) (wT : TableWF d T)
    (hT : (Spec.Table.state d E T).Fits K) {c c' : Constraint} (hc : c ∈ S.constraints.items)
    (hc' : c' ∈ T.constraints.items) (he : c'.name = c.name) {x : ConState} (hx : Spec.Constraint.state E c = some x)
    {s u : Column} (hb : Both S T s u) (hcv : Converted d s u) : s.name ∉ x.cols := by
  have e := R.same c hc c' hc' he
  subst e
  have hend : (Spec.Table.state d E T).cons c.name = some x := (state_con wT hc').trans hx
  obtain ⟨_, h2⟩ := back_con R.run hend
    (fun spec hm => (R.part hm).addCon c hc rfl)
    (by
      intro old new spec hm hn
      obtain ⟨s, u, _, _, _, rfl⟩ := (R.part hm).ren
      obtain ⟨u', hu', e⟩ := tab_cols hT ((hT.cons _ _ hend).1 _ hn)
      exact not_deleted wT hu' _ e)
  obtain ⟨spec, hm⟩ := R.rnHas s u hb hcv
  exact h2 s.name (deletedName s.name) spec (by simp [hm])

/-- Constraints survive what is not about them and removes no column. -/
theorem keep_strict {ts ts' : TableState} {x : Action} {m z : Text} (h : stepAction E ts x = some ts')
    (hne : ∀ n, x ≠ .dropColumn n) (hk2 : ∀ df n, x ≠ .dropDefaultAndColumn df n)
    (hde : x ≠ .dropConstraint m) (ha : ∀ spec, x ≠ .addConstraint m spec)
    (hr : ∀ new spec, x ≠ .renameColumn z new spec) (h0 : Has m z ts) : Has m z ts' := by
  rcases keep_has h ha hr (.inr h0) with k | k
  · exfalso
    obtain ⟨y, hy, hz⟩ := h0
    have absurdly : ts'.cons m = ts.cons m → False := by intro e; rw [k, hy] at e; cases e
    cases effect h with
    | add n spec hn hc hp' hk hd => exact absurdly (by rw [hk])
    | drop n hc hp' _ _ => exact hne n rfl
    | dropBoth df n hc hp' hk _ => exact hk2 df n rfl
    | rename old new spec c ho hn hc hp' hk _ => rw [hk, hy] at k; cases k
    | col n f c c' x hcol hx ho hf hc hp' hk hd => exact absurdly (by rw [hk])
    | addDf df e n c ho hi hc hp' hk hd => exact absurdly (by rw [hk])
    | addCon n spec hc hp' hk _ => exact absurdly (hk m (by rintro rfl; exact ha spec rfl))
    | dropDf n _ c hm ho hc hp' hk _ => exact absurdly (by rw [hk])
    | dropCon n hm ho hc hp' hk _ =>
      exact absurdly (by rw [hk, upd_ne _ _ _ _ (by rintro rfl; exact hde rfl)])
  · exact k

/-- Dropping a column and later a constraint that involves it is refused. -/
theorem doomed {P : TableState → Prop} {b c : TableState} {p q : List Action} {y : Action} {m z : Text}
    (h : ActRun E P b (p ++ y :: q) c) (hy : y = .dropColumn z ∨ ∃ df, y = .dropDefaultAndColumn df z)
    (hp : ∀ x ∈ p, x ≠ .dropConstraint m ∧ (∀ spec, x ≠ .addConstraint m spec) ∧ ∀ new spec, x ≠ .renameColumn z new spec)
    (hq : ∀ x ∈ q, ∀ spec, x ≠ .addConstraint m spec) (hm : .dropConstraint m ∈ q) (h0 : Has m z b)
    (mode : (E.cascadeDrop = false ∧ ∀ ts, P ts → ∃ K, ts.Fits K)
      ∨ (E.cascadeDrop = true ∧ (∀ m, b.dfs m = none) ∧ ∀ x ∈ p ++ y :: q,
        (∀ n spec, x = .addColumn n spec → spec.defaultName = none) ∧ ∀ df e n, x ≠ .addDefault df e n)) : False := by
  obtain ⟨b1, k1, k2⟩ := append_inv h
  obtain ⟨b2, k3, k4, k5⟩ := cons_inv k2
  have hcols : b2.cols z = none := by
    rcases hy with rfl | ⟨df, rfl⟩
    · cases effect k3 with
      | drop n hc hp' hk hd => rw [hc, upd_same]
      | col n f c c' x hcol => cases hcol
    · cases effect k3 with
      | dropBoth df n hc hp' hk hd => rw [hc, upd_same]
      | col n f c c' x hcol => cases hcol
  rcases mode with ⟨hE, hP⟩ | ⟨hE, hdf, hno⟩
  · have : Has m z b1 := keep k1 (fun x hx ts ts' hh hs =>
      keep_has' hs hE (hp x hx).1 (hp x hx).2.1 (hp x hx).2.2 hh) h0
    have : Has m z b2 := by
      refine keep_has' k3 hE ?_ ?_ ?_ this
      · rcases hy with rfl | ⟨df, rfl⟩ <;> intro e <;> cases e
      · rcases hy with rfl | ⟨df, rfl⟩ <;> intro _ e <;> cases e
      · rcases hy with rfl | ⟨df, rfl⟩ <;> intro _ _ e <;> cases e
    obtain ⟨K, hf⟩ := hP _ k4
    obtain ⟨w, hw, hz⟩ := this
    have := (hf.cons _ _ hw).1 z hz
    rw [hcols] at this
    cases this
  · have h1 : b1.cons m = none ∨ Has m z b1 := keep (Q := fun ts => ts.cons m = none ∨ Has m z ts) k1
      (fun x hx ts ts' hh hs => keep_has hs (hp x hx).2.1 (hp x hx).2.2 hh) (.inr h0)
    have h1d : ∀ m, b1.dfs m = none := keep (Q := fun ts => ∀ m, ts.dfs m = none) k1
      (fun x hx ts ts' hh hs => keep_noDf hs (hno x (List.mem_append_left _ hx)).1
        (hno x (List.mem_append_left _ hx)).2 hh) hdf
    have h2d : ∀ m, b2.dfs m = none := keep_noDf k3 (hno y (by simp)).1 (hno y (by simp)).2 h1d
    have h2 : b2.cons m = none := by
      have hcons : b2.cons = (fun m => (b1.cons m).filter (fun c => !c.cols.contains z)) := by
        rcases hy with rfl | ⟨df, rfl⟩
        · cases effect k3 with
          | drop n hc hp' hk hd => rw [hk, hE]; rfl
          | col n f c c' x hcol => cases hcol
        · cases effect k3 with
          | dropBoth df n hc hp' hk hd => rw [hk, hE]; rfl
          | col n f c c' x hcol => cases hcol
      rw [hcons]
      rcases h1 with h1 | ⟨w, hw, hz⟩
      · simp [h1]
      · simp [hw, Option.filter, hz]
    refine never (Q := fun ts => ts.cons m = none ∧ ∀ m, ts.dfs m = none) k5 ?_ ⟨h2, h2d⟩ hm ?_
    · intro x hx ts ts' hh hs
      have := hno x (by simp [hx])
      exact ⟨keep_none hs (hq x hx) hh.1, keep_noDf hs this.1 this.2 hh.2⟩
    · intro ts hh
      simp [stepAction, hh.1, hh.2]

/-- How the engine treats constraints of dropped columns. -/
theorem Ran.mode {condCols : Text → List Text} (R : Ran ρ d (engine d condCols) S T pre rn ad hard ch drops dc ac)
    (wS : TableWF d S) (hd : d ≠ .mysql) :
    ((engine d condCols).cascadeDrop = false ∧ d = .mssql ∧ ∀ ts : TableState, (d.splits = true → ∃ K, ts.Fits K) → ∃ K, ts.Fits K)
      ∨ ((engine d condCols).cascadeDrop = true ∧ d ≠ .mssql ∧ (∀ m, (retyped ρ (Spec.Table.state d (engine d condCols) S)).dfs m = none)
        ∧ ∀ x ∈ pre ++ (rn ++ (ad ++ (hard ++ (ch ++ (drops ++ (dc ++ ac)))))),
          (∀ n spec, x = .addColumn n spec → spec.defaultName = none) ∧ ∀ df e n, x ≠ .addDefault df e n) := by
  by_cases hm : d = .mssql
  · subst hm
    exact .inl ⟨rfl, rfl, fun ts h => h rfl⟩
  · refine .inr ⟨?_, hm, ?_, ?_⟩
    · cases d <;> first | rfl | exact absurd rfl hm | exact absurd rfl hd
    · intro m
      cases d <;> first | rfl | exact absurd rfl hm
    · intro x hx
      have hp := R.part hx
      constructor
      · rintro n spec rfl
        rcases hp with ⟨_, s, u, hb, h | ⟨e, h⟩⟩ | ⟨s, u, sp, hb, hc, h⟩ | ⟨u, sp, _, hsp, h⟩ | ⟨s, u, _, _, h⟩
          | ⟨s, u, l, _, _, _, h⟩ | ⟨s, _, _, h | ⟨_, h⟩⟩ | ⟨c, _, _, h⟩ | ⟨c, _, hc, sp, h⟩
        all_goals cases h
        unfold PySqlSync.Column.dataSpec at hsp
        cases hcm : u.comment d with
        | error e => simp [hcm, bind, Except.bind] at hsp
        | ok comment =>
          simp only [hcm, bind, Except.bind, pure, Except.pure, Except.ok.injEq] at hsp
          subst hsp
          rfl
      · rintro df e n rfl
        rcases hp with ⟨h, _⟩ | ⟨s, u, sp, hb, hc, h⟩ | ⟨u, sp, _, hsp, h⟩ | ⟨s, u, _, _, h⟩
          | ⟨s, u, l, _, _, _, h⟩ | ⟨s, _, _, h | ⟨_, h⟩⟩ | ⟨c, _, _, h⟩ | ⟨c, _, hc, sp, h⟩
        · exact hm h
        all_goals (cases h; done)

/-- A constraint that goes involves no dropped column. -/
theorem Ran.goneDropped {condCols : Text → List Text} (R : Ran ρ d (engine d condCols) S T pre rn ad hard ch drops dc ac)
    (wS : TableWF d S) (hd : d ≠ .mysql) {s : Column} (hs : s ∈ S.columns.items)
    (hn : ∀ u ∈ T.columns.items, s.name ≠ u.name) {c : Constraint} (hc : c ∈ S.constraints.items)
    (hcn : ∀ c' ∈ T.constraints.items, c'.name ≠ c.name) {x : ConState}
    (hx : Spec.Constraint.state (engine d condCols) c = some x) : s.name ∉ x.cols := by
  intro hz
  obtain ⟨d1, d2, hsplit⟩ := List.append_of_mem (R.dropsHas s hs hn)
  have hall : pre ++ (rn ++ (ad ++ (hard ++ (ch ++ (drops ++ (dc ++ ac))))))
      = (pre ++ rn ++ ad ++ hard ++ ch ++ d1) ++ s.dropStmt d :: (d2 ++ dc ++ ac) := by
    rw [hsplit]; simp only [List.append_assoc, List.cons_append]
  have hrun := R.run
  rw [hall] at hrun
  have hpart : ∀ y ∈ (pre ++ rn ++ ad ++ hard ++ ch ++ d1) ++ s.dropStmt d :: (d2 ++ dc ++ ac), Part d S T y :=
    fun y hy => R.part (by rw [hall]; exact hy)
  refine doomed (m := c.name) (z := s.name) hrun ?_ ?_ ?_ ?_ ⟨x, (state_con wS hc).trans hx, hz⟩ ?_
  · rcases dropStmt_cases (d := d) s with e | ⟨_, e⟩
    · exact .inl e
    · exact .inr ⟨_, e⟩
  · intro y hy
    have hp := hpart y (List.mem_append_left _ hy)
    refine ⟨?_, ?_, ?_⟩
    · rintro rfl
      simp only [List.mem_append, or_assoc] at hy
      rcases hy with hy | hy | hy | hy | hy | hy
      · obtain ⟨hm, a, b, _, e | ⟨_, e⟩⟩ := R.preMem hy
        · exact wS.mssql hm c hc _ (Action.dropConstraint.inj e)
        · cases e
      · obtain ⟨_, _, _, _, _, _, e⟩ := R.rnMem _ hy; cases e
      · obtain ⟨_, _, _, _, e, _⟩ := R.adMem _ hy; cases e
      · obtain ⟨_, _, _, _, e⟩ := R.hardMem _ hy; cases e
      · obtain ⟨_, _, l, _, hl, hm⟩ := R.chMem _ hy
        have := change_col hl _ hm
        cases this
      · obtain ⟨a, _, _, e⟩ := R.dropsMem (.dropConstraint c.name) (by rw [hsplit]; exact List.mem_append_left _ hy)
        rcases dropStmt_cases (d := d) a with e' | ⟨_, e'⟩ <;> rw [e'] at e <;> cases e
    · rintro spec rfl
      exact hp.addCon c hc rfl
    · rintro new spec rfl
      obtain ⟨a, b, hb, _, e, _⟩ := hp.ren
      exact hn b hb.2.1 (e.trans hb.2.2)
  · rintro y hy spec rfl
    exact (hpart _ (List.mem_append_right _ (List.mem_cons_of_mem _ hy))).addCon c hc rfl
  · simp only [List.mem_append]
    exact .inl (.inr (R.dcHas c hc hcn (by rw [hx]; rfl)))
  · rcases R.mode wS hd with ⟨h1, _, h2⟩ | ⟨h1, _, h2, h3⟩
    · exact .inl ⟨h1, h2⟩
    · exact .inr ⟨h1, h2, fun y hy => h3 y (by rw [hall]; exact hy)⟩

/-- A constraint that goes involves no converted column. -/
theorem Ran.goneConverted {condCols : Text → List Text} (R : Ran ρ d (engine d condCols) S T pre rn ad hard ch drops dc ac)
    (wS : TableWF d S) (wT : TableWF d T) (hd : d ≠ .mysql) {s u : Column} (hb : Both S T s u) (hcv : Converted d s u)
    {c : Constraint} (hc : c ∈ S.constraints.items) (hcn : ∀ c' ∈ T.constraints.items, c'.name ≠ c.name) {x : ConState}
    (hx : Spec.Constraint.state (engine d condCols) c = some x) : s.name ∉ x.cols := by
  intro hz
  obtain ⟨spec, hmem⟩ := R.rnHas s u hb hcv
  obtain ⟨r1, r2, hr, hr1⟩ := List.eq_append_cons_of_mem hmem
  obtain ⟨k1, k2, hk⟩ := List.append_of_mem (R.hardHas s u hb hcv)
  have hall : pre ++ (rn ++ (ad ++ (hard ++ (ch ++ (drops ++ (dc ++ ac))))))
      = (pre ++ r1) ++ .renameColumn s.name (deletedName s.name) spec ::
        ((r2 ++ ad ++ k1) ++ .dropColumn (deletedName s.name) :: (k2 ++ ch ++ drops ++ dc ++ ac)) := by
    rw [hr, hk]; simp only [List.append_assoc, List.cons_append]
  have hpart : ∀ y ∈ (pre ++ r1) ++ .renameColumn s.name (deletedName s.name) spec ::
        ((r2 ++ ad ++ k1) ++ .dropColumn (deletedName s.name) :: (k2 ++ ch ++ drops ++ dc ++ ac)), Part d S T y :=
    fun y hy => R.part (by rw [hall]; exact hy)
  have hrun := R.run
  rw [hall] at hrun
  obtain ⟨b1, q1, q2⟩ := append_inv hrun
  obtain ⟨b2, q3, q3', q4⟩ := cons_inv q2
  have hpre : ∀ y ∈ pre, y ≠ .dropConstraint c.name := by
    rintro y hy rfl
    obtain ⟨hm, a, b, _, e | ⟨_, e⟩⟩ := R.preMem hy
    · exact wS.mssql hm c hc _ (Action.dropConstraint.inj e)
    · cases e
  have hrn : ∀ y ∈ r1, ∃ a b sp, Both S T a b ∧ Converted d a b ∧ a.softDropStmt d = .ok y
      ∧ y = .renameColumn a.name (deletedName a.name) sp := fun y hy => R.rnMem y (by rw [hr]; exact List.mem_append_left _ hy)
  have hb1 : Has c.name s.name b1 := by
    refine keep q1 ?_ ⟨x, (state_con wS hc).trans hx, hz⟩
    intro y hy ts ts' hh hs
    rcases List.mem_append.1 hy with hy | hy
    · have h1 := hpre y hy
      obtain ⟨hm, a, b, _, e⟩ := R.preMem hy
      refine keep_strict hs ?_ ?_ h1 ?_ ?_ hh
      · rintro n rfl; rcases e with e | ⟨_, e⟩ <;> cases e
      · rintro df n rfl; rcases e with e | ⟨_, e⟩ <;> cases e
      · rintro sp rfl; rcases e with e | ⟨_, e⟩ <;> cases e
      · rintro n sp rfl; rcases e with e | ⟨_, e⟩ <;> cases e
    · obtain ⟨a, b, sp, hab, _, hso, rfl⟩ := hrn y hy
      refine keep_strict hs (fun _ e => by cases e) (fun _ _ e => by cases e) (fun e => by cases e)
        (fun _ e => by cases e) ?_ hh
      intro new sp' e
      have e1 : a.name = s.name := by injection e
      obtain ⟨h1, _⟩ := both_unique wS wT hab hb e1
      subst h1
      apply hr1
      obtain ⟨a', b', sp2, hab', _, hso', he'⟩ := R.rnMem _ hmem
      have e2 : a' = a := by
        have : a.name = a'.name := by injection he'
        exact (both_unique wS wT hab' hab this.symm).1
      subst e2
      rw [hso] at hso'
      injection hso' with hso'
      rw [← hso']
      exact hy
  have hb2 : Has c.name (deletedName s.name) b2 := has_rename q3 hb1
  refine doomed q4 (.inl rfl) ?_ ?_ ?_ hb2 ?_
  · intro y hy
    have hp := hpart y (by simp only [List.mem_append, List.mem_cons] at hy ⊢; exact .inr (.inr (.inl hy)))
    refine ⟨?_, ?_, ?_⟩
    · rintro rfl
      simp only [List.mem_append, or_assoc] at hy
      rcases hy with hy | hy | hy
      · obtain ⟨_, _, _, _, _, _, e⟩ := R.rnMem (.dropConstraint c.name)
          (by rw [hr]; exact List.mem_append_right _ (List.mem_cons_of_mem _ hy)); cases e
      · obtain ⟨_, _, _, _, e, _⟩ := R.adMem _ hy; cases e
      · obtain ⟨_, _, _, _, e⟩ := R.hardMem (.dropConstraint c.name) (by rw [hk]; exact List.mem_append_left _ hy); cases e
    · rintro spec rfl
      exact hp.addCon c hc rfl
    · rintro new spec rfl
      obtain ⟨a, b, hab, _, e, _⟩ := hp.ren
      exact not_deleted wS hab.1 _ e.symm
  · rintro y hy spec rfl
    refine (hpart (.addConstraint c.name spec) ?_).addCon c hc rfl
    exact List.mem_append_right _ (List.mem_cons_of_mem _ (List.mem_append_right _ (List.mem_cons_of_mem _ hy)))
  · simp only [List.mem_append]
    exact .inl (.inr (R.dcHas c hc hcn (by rw [hx]; rfl)))
  · rcases R.mode wS hd with ⟨h1, _, h2⟩ | ⟨h1, _, h2, h3⟩
    · exact .inl ⟨h1, h2⟩
    · have h3' := fun y hy => h3 y (by rw [hall]; exact hy)
      refine .inr ⟨h1, ?_, fun y hy => h3' y (List.mem_append_right _ (List.mem_cons_of_mem _ hy))⟩
      have : ∀ m, b1.dfs m = none := keep (Q := fun ts => ∀ m, ts.dfs m = none) q1
        (fun y hy ts ts' hh hs => keep_noDf hs (h3' y (List.mem_append_left _ hy)).1
          (h3' y (List.mem_append_left _ hy)).2 hh) h2
      exact keep_noDf q3 (h3' _ (by simp)).1 (h3' _ (by simp)).2 this

/-- What is emitted for a changed column, by dialects that follow the standard. -/
theorem base_change (h1 : d ≠ .mysql) (h2 : d ≠ .oracle) (h3 : d ≠ .mssql) {s u : Column} {l : List Action}
    (h : mutateColumn d s u = .ok l) (hne : s ≠ u) : l =
      (if s.ty ≠ u.ty then [Action.setDataType s.name u.ty] else [])
      ++ (if s.nullable && !u.nullable then [Action.setNotNull s.name]
          else if !s.nullable && u.nullable then [Action.dropNotNull s.name] else [])
      ++ (match s.default, u.default with
          | some _, none => [Action.dropDefault s.name]
          | _, some e => if s.default ≠ u.default then [Action.setDefault s.name e] else []
          | none, none => [])
      ++ (if s.identity && !u.identity then [Action.dropIdentity s.name]
          else if !s.identity && u.identity then [Action.addIdentity s.name] else []) := by
  cases d
  case mysql => exact absurd rfl h1
  case oracle => exact absurd rfl h2
  case mssql => exact absurd rfl h3
  all_goals
    unfold mutateColumn at h
    simp only [if_neg hne, Except.ok.injEq] at h
    exact h.symm

/-- The part of it before the identity property. -/
theorem base_before {s u : Column} {x : Action} (hx : x ∈
      (if s.ty ≠ u.ty then [Action.setDataType s.name u.ty] else [])
      ++ (if s.nullable && !u.nullable then [Action.setNotNull s.name]
          else if !s.nullable && u.nullable then [Action.dropNotNull s.name] else [])
      ++ (match s.default, u.default with
          | some _, none => [Action.dropDefault s.name]
          | _, some e => if s.default ≠ u.default then [Action.setDefault s.name e] else []
          | none, none => [])) :
    (∃ ty, x = .setDataType s.name ty) ∨ x = .setNotNull s.name ∨ x = .dropNotNull s.name ∨ x = .dropDefault s.name
      ∨ ∃ e, x = .setDefault s.name e := by
  simp only [List.mem_append] at hx
  rcases hx with (hx | hx) | hx
  · split at hx
    · exact .inl ⟨_, List.mem_singleton.1 hx⟩
    · cases hx
  · split at hx
    · exact .inr (.inl (List.mem_singleton.1 hx))
    · split at hx
      · exact .inr (.inr (.inl (List.mem_singleton.1 hx)))
      · cases hx
  · split at hx
    · exact .inr (.inr (.inr (.inl (List.mem_singleton.1 hx))))
    · split at hx
      · exact .inr (.inr (.inr (.inr ⟨_, List.mem_singleton.1 hx⟩)))
      · cases hx
    · cases hx

/-- SQL Server cannot change the identity property. -/
theorem mssql_identity {s u : Column} {l : List Action} (h : mutateColumn .mssql s u = .ok l) : s.identity = u.identity := by
  unfold mutateColumn at h
  simp only at h
  split at h
  · cases h
  · rename_i hh; simpa using hh

/-- A converted column keeps its identity property. -/
theorem Ran.convIdentity (R : Ran ρ d E S T pre rn ad hard ch drops dc ac) (wS : TableWF d S) (wT : TableWF d T)
    (h1 : d ≠ .mysql) (h2 : d ≠ .oracle) {s u : Column} (hb : Both S T s u) (hcv : Converted d s u) :
    s.identity = u.identity := by
  obtain ⟨l, c1, c2, hl, hch, _⟩ := R.chHas s u hb
  by_cases h3 : d = .mssql
  · subst h3; exact mssql_identity hl
  refine Classical.byContradiction fun hne => ?_
  have hbase := base_change h1 h2 h3 hl (fun e => hne (by rw [e]))
  obtain ⟨spec, hsp, hmem⟩ := R.adHas s u hb hcv
  obtain ⟨a1, a2, hsplit⟩ := List.append_of_mem hmem
  have hall : pre ++ (rn ++ (ad ++ (hard ++ (ch ++ (drops ++ (dc ++ ac))))))
      = (pre ++ rn ++ a1) ++ .addColumn u.name spec :: ((a2 ++ hard ++ ch) ++ (drops ++ (dc ++ ac))) := by
    rw [hsplit]; simp only [List.append_assoc, List.cons_append]
  have hrun := R.run
  rw [hall] at hrun
  obtain ⟨b1, _, q2⟩ := append_inv hrun
  obtain ⟨b2, q3, _, q4⟩ := cons_inv q2
  obtain ⟨b3, q5, _⟩ := append_inv q4
  have hid : spec.identity = u.identity := by
    unfold PySqlSync.Column.dataSpec at hsp
    cases hcm : u.comment d with
    | error e => simp [hcm, bind, Except.bind] at hsp
    | ok comment =>
      simp only [hcm, bind, Except.bind, pure, Except.pure, Except.ok.injEq] at hsp
      subst hsp
      rfl
  have hb2 : ∃ c, b2.cols s.name = some c ∧ c.identity = u.identity := by
    cases effect q3 with
    | add n sp hn hc hp' hk hd => exact ⟨_, by rw [hb.2.2, hc, upd_same], hid⟩
    | col n f c c' x hcol => cases hcol
  have hy : ∃ y, y ∈ a2 ++ hard ++ ch ∧ (y = .dropIdentity s.name ∧ u.identity = false
      ∨ y = .addIdentity s.name ∧ u.identity = true) := by
    have hin : ∀ y ∈ l, y ∈ a2 ++ hard ++ ch := by
      intro y hy; rw [hch]; simp [hy]
    cases hi : s.identity with
    | true =>
      have hu : u.identity = false := by cases hu : u.identity <;> simp_all
      exact ⟨.dropIdentity s.name, hin _ (by rw [hbase, hi, hu]; simp), .inl ⟨rfl, hu⟩⟩
    | false =>
      have hu : u.identity = true := by cases hu : u.identity <;> simp_all
      exact ⟨.addIdentity s.name, hin _ (by rw [hbase, hi, hu]; simp), .inr ⟨rfl, hu⟩⟩
  obtain ⟨y, hyin, hyc⟩ := hy
  have hadp : ∀ x ∈ a2, ∃ v sp, v ∈ T.columns.items ∧ v.dataSpec d = .ok sp ∧ x = .addColumn v.name sp := by
    intro x hx
    obtain ⟨v, sp, k1, k2, k3, _⟩ := R.adMem x (by rw [hsplit]; simp [hx])
    exact ⟨v, sp, k1, k2, k3⟩
  refine never (Q := fun ts => ∃ c, ts.cols s.name = some c ∧ c.identity = u.identity) q5 ?_ hb2 hyin ?_
  · intro x hx ts ts' hh hs
    simp only [List.mem_append, or_assoc] at hx
    rcases hx with hx | hx | hx
    · obtain ⟨v, sp, _, _, rfl⟩ := hadp x hx
      exact keep_identity hs (fun e => by cases e) (fun _ e => by cases e) (fun _ _ e => by cases e)
        (fun _ e => by cases e) (fun _ e => by cases e) (fun _ e => by cases e) (fun _ _ _ _ e => by cases e) hh
    · obtain ⟨a, b, _, _, rfl⟩ := R.hardMem x hx
      exact keep_identity hs (fun e => not_deleted wS hb.1 _ (Action.dropColumn.inj e).symm) (fun _ e => by cases e)
        (fun _ _ e => by cases e)
        (fun _ e => by cases e) (fun _ e => by cases e) (fun _ e => by cases e) (fun _ _ _ _ e => by cases e) hh
    · obtain ⟨a, b, la, hab, hla, hxl⟩ := R.chMem x hx
      have hcol := change_col hla x hxl
      by_cases e : a.name = s.name
      · obtain ⟨e1, e2⟩ := both_unique wS wT hab hb e
        subst e1 e2
        rw [hl] at hla
        cases hla
        rw [hbase] at hxl
        rcases List.mem_append.1 hxl with hxl | hxl
        · have := base_before hxl
          refine keep_identity hs ?_ ?_ ?_ ?_ ?_ ?_ ?_ hh
          · rintro rfl; simp at this
          · rintro _ rfl; simp at this
          · rintro _ _ rfl; simp at this
          · rintro _ rfl; simp at this
          · rintro _ rfl; simp at this
          · rintro _ rfl; simp at this
          · rintro _ _ _ _ rfl; simp at this
        · have hxi : x = y := by
            rcases hyc with ⟨rfl, hu⟩ | ⟨rfl, hu⟩
            · have hsi : a.identity = true := by cases hsi : a.identity <;> simp_all
              rw [hu, hsi] at hxl; simpa using hxl
            · have hsi : a.identity = false := by cases hsi : a.identity <;> simp_all
              rw [hu, hsi] at hxl; simpa using hxl
          subst hxi
          exfalso
          obtain ⟨c, hc, hi⟩ := hh
          rcases hyc with ⟨rfl, hu⟩ | ⟨rfl, hu⟩
          · simp [stepAction, TableState.onCol, hc, hi, hu] at hs
          · simp [stepAction, TableState.onCol, hc, hi, hu] at hs
      · have hne' : ∀ (z : Action), colOf z = some s.name → x ≠ z := by
          rintro z hz rfl
          rw [hcol] at hz
          exact e (Option.some.inj hz)
        have hno : ∀ (z : Action), colOf z = none → x ≠ z := by
          rintro z hz rfl
          rw [hcol] at hz
          cases hz
        exact keep_identity hs (hno _ rfl) (fun _ => hno _ rfl) (fun _ _ => hno _ rfl) (fun _ => hne' _ rfl)
          (fun _ => hne' _ rfl) (fun _ => hne' _ rfl) (fun _ _ _ _ => hne' _ rfl) hh
  · intro ts hh
    obtain ⟨c, hc, hi⟩ := hh
    rcases hyc with ⟨rfl, hu⟩ | ⟨rfl, hu⟩
    · simp [stepAction, TableState.onCol, hc, hi, hu]
    · simp [stepAction, TableState.onCol, hc, hi, hu]

theorem state_col {tb : Table} (w : TableWF d tb) {c : Column} (hc : c ∈ tb.columns.items) :
    (Spec.Table.state d E tb).cols c.name = some (Spec.Column.state d c) := by
  have : tb.columns.get c.name = some c := ODict.get_eq_of_mem w.columns hc
  show (tb.columns.get c.name).map _ = _
  rw [this]; rfl

theorem start_col {tb : Table} (w : TableWF d tb) {c : Column} (hc : c ∈ tb.columns.items) :
    (retyped ρ (Spec.Table.state d E tb)).cols c.name
      = some { Spec.Column.state d c with ty := c.ty.mapRef ρ } := by
  show ((Spec.Table.state d E tb).cols c.name).map _ = _
  rw [state_col w hc]; rfl

/-- A column that ceases to be an identity column stays not nullable and without default. -/
theorem Ran.identity {K : Kinds} (R : Ran ρ d E S T pre rn ad hard ch drops dc ac) (wS : TableWF d S) (wT : TableWF d T)
    (hS : (retyped ρ (Spec.Table.state d E S)).Fits K)
    (h1 : d ≠ .mysql) (h2 : d ≠ .oracle) {s u : Column} (hb : Both S T s u) (hs : s.identity = true)
    (hu : u.identity = false) : u.nullable = false ∧ u.default = none := by
  have hcv : ¬ Converted d s u := by
    intro hcv
    have := R.convIdentity wS wT h1 h2 hb hcv
    rw [hs, hu] at this
    cases this
  obtain ⟨l, c1, c2, hl, hch, hc1⟩ := R.chHas s u hb
  have h3 : d ≠ .mssql := by
    rintro rfl
    have := mssql_identity hl
    rw [hs, hu] at this
    cases this
  have hbase := base_change h1 h2 h3 hl (fun e => by rw [e, hu] at hs; cases hs)
  have hsok := (hS.cols _ _ (start_col wS hb.1)).1 hs
  have hsn : s.nullable = false := hsok.1
  have hsd : s.default = none := by simpa [Spec.Column.state] using hsok.2
  have hcol0 : ∃ c, (retyped ρ (Spec.Table.state d E S)).cols s.name = some c ∧ c.identity = true :=
    ⟨_, start_col wS hb.1, hs⟩
  generalize hl1 : (if s.ty ≠ u.ty then [Action.setDataType s.name u.ty] else [])
      ++ (if s.nullable && !u.nullable then [Action.setNotNull s.name]
          else if !s.nullable && u.nullable then [Action.dropNotNull s.name] else [])
      ++ (match s.default, u.default with
          | some _, none => [Action.dropDefault s.name]
          | _, some e => if s.default ≠ u.default then [Action.setDefault s.name e] else []
          | none, none => []) = l1 at hbase
  have hbefore : ∀ x ∈ l1, (∃ ty, x = .setDataType s.name ty) ∨ x = .setNotNull s.name ∨ x = .dropNotNull s.name
      ∨ x = .dropDefault s.name ∨ ∃ e, x = .setDefault s.name e := fun x hx => base_before (hl1 ▸ hx)
  have hall : pre ++ (rn ++ (ad ++ (hard ++ (ch ++ (drops ++ (dc ++ ac))))))
      = (pre ++ rn ++ ad ++ hard ++ c1 ++ l1) ++ ((if s.identity && !u.identity then [Action.dropIdentity s.name]
          else if !s.identity && u.identity then [Action.addIdentity s.name] else []) ++ (c2 ++ (drops ++ (dc ++ ac)))) := by
    rw [hch, hbase]; simp only [List.append_assoc]
  have hrun := R.run
  rw [hall] at hrun
  obtain ⟨b1, q1, _⟩ := append_inv hrun
  have key : ∀ y ∈ l1, (∀ ts : TableState, (∃ c, ts.cols s.name = some c ∧ c.identity = true) → stepAction E ts y = none) →
      False := by
    intro y hy hno
    refine never (Q := fun ts => ∃ c, ts.cols s.name = some c ∧ c.identity = true) q1 ?_ hcol0
      (List.mem_append_right _ hy) hno
    intro x hx ts ts' hh hstep
    simp only [List.mem_append, or_assoc] at hx
    rcases hx with hx | hx | hx | hx | hx | hx
    · exact absurd (R.preMem hx).1 h3
    · obtain ⟨a, b, sp, hab, habc, _, rfl⟩ := R.rnMem x hx
      refine keep_identity hstep (fun e => by cases e) (fun _ e => by cases e) ?_
        (fun _ e => by cases e) (fun _ e => by cases e) (fun _ e => by cases e) (fun _ _ _ _ e => by cases e) hh
      intro new sp' e
      have e1 : a.name = s.name := by injection e
      obtain ⟨rfl, rfl⟩ := both_unique wS wT hab hb e1
      exact hcv habc
    · obtain ⟨v, sp, _, _, rfl, _⟩ := R.adMem x hx
      exact keep_identity hstep (fun e => by cases e) (fun _ e => by cases e) (fun _ _ e => by cases e)
        (fun _ e => by cases e) (fun _ e => by cases e) (fun _ e => by cases e) (fun _ _ _ _ e => by cases e) hh
    · obtain ⟨a, b, _, _, rfl⟩ := R.hardMem x hx
      exact keep_identity hstep (fun e => not_deleted wS hb.1 _ (Action.dropColumn.inj e).symm) (fun _ e => by cases e)
        (fun _ _ e => by cases e)
        (fun _ e => by cases e) (fun _ e => by cases e) (fun _ e => by cases e) (fun _ _ _ _ e => by cases e) hh
    · have hcol : colOf x ≠ some s.name := hc1 x hx
      obtain ⟨a, b, la, hab, hla, hxl⟩ := R.chMem x (by rw [hch]; exact List.mem_append_left _ hx)
      have hsome := change_col hla x hxl
      have hne' : ∀ (z : Action), colOf z = some s.name → x ≠ z := by
        rintro z hz rfl; exact hcol hz
      have hno : ∀ (z : Action), colOf z = none → x ≠ z := by
        rintro z hz rfl
        rw [hsome] at hz
        cases hz
      exact keep_identity hstep (hno _ rfl) (fun _ => hno _ rfl) (fun _ _ => hno _ rfl) (fun _ => hne' _ rfl)
        (fun _ => hne' _ rfl) (fun _ => hne' _ rfl) (fun _ _ _ _ => hne' _ rfl) hh
    · have := hbefore x hx
      refine keep_identity hstep ?_ ?_ ?_ ?_ ?_ ?_ ?_ hh
      · rintro rfl; simp at this
      · rintro _ rfl; simp at this
      · rintro _ _ rfl; simp at this
      · rintro _ rfl; simp at this
      · rintro _ rfl; simp at this
      · rintro _ rfl; simp at this
      · rintro _ _ _ _ rfl; simp at this
  constructor
  · cases hn : u.nullable with
    | false => rfl
    | true =>
      exfalso
      refine key (.dropNotNull s.name) (by rw [← hl1, hsn, hn]; simp) ?_
      rintro ts ⟨c, hc, hi⟩
      simp [stepAction, TableState.onCol, hc, hi]
  · cases hn : u.default with
    | none => rfl
    | some e =>
      exfalso
      refine key (.setDefault s.name e) (by rw [← hl1, hsd, hn]; simp) ?_
      rintro ts ⟨c, hc, hi⟩
      simp [stepAction, TableState.onCol, hc, hi]

/-- SQL Server: a converted column has no default afterwards. -/
theorem Ran.convDefault (R : Ran ρ .mssql E S T pre rn ad hard ch drops dc ac) (wS : TableWF .mssql S) (wT : TableWF .mssql T)
    {s u : Column} (hb : Both S T s u) (hcv : Converted .mssql s u) : u.default = none := by
  cases hu : u.default with
  | none => rfl
  | some e =>
    exfalso
    obtain ⟨spec, hsp, hmem⟩ := R.adHas s u hb hcv
    have hdn : spec.defaultName = some (defaultConstraintName s.name) := by
      unfold PySqlSync.Column.dataSpec at hsp
      cases hcm : u.comment .mssql with
      | error e => simp [hcm, bind, Except.bind] at hsp
      | ok comment =>
        simp only [hcm, bind, Except.bind, pure, Except.pure, Except.ok.injEq] at hsp
        subst hsp
        simp [hu, hb.2.2]
    obtain ⟨p, q, hpq⟩ := List.append_of_mem ((ODict.mem_intersection wT.columns).2 hb)
    have hnd := ODict.intersection_nodup wS.columns T.columns
    have hpre : pre = p.flatMap (fun x => mssqlDefault x.1 x.2) ++ (mssqlDefault s u
        ++ q.flatMap (fun x => mssqlDefault x.1 x.2)) := by
      rw [R.preEq, if_pos rfl]
      unfold mssqlDefaults
      rw [hpq, List.flatMap_append, List.flatMap_cons]
    have hseg : ∀ r : List (Column × Column), (∀ a b, (a, b) ∈ r → a.name ≠ s.name) →
        ∀ x ∈ r.flatMap (fun x => mssqlDefault x.1 x.2), x ≠ .dropConstraint (defaultConstraintName s.name)
          ∧ ∀ n, x ≠ .dropDefaultAndColumn (defaultConstraintName s.name) n := by
      intro r hr x hx
      obtain ⟨⟨a, b⟩, hab, hx⟩ := List.mem_flatMap.1 hx
      have hne := hr a b hab
      unfold mssqlDefault at hx
      split at hx
      · cases hx
      · rcases List.mem_append.1 hx with hx | hx
        · split at hx
          · rw [List.mem_singleton.1 hx]
            exact ⟨fun e => hne (df_inj (Action.dropConstraint.inj e)), fun _ e => by cases e⟩
          · cases hx
        · split at hx
          · rw [List.mem_singleton.1 hx]
            exact ⟨fun e => (by cases e), fun _ e => (by cases e)⟩
          · cases hx
    have hnd' : ((p ++ (s, u) :: q).map (fun x => x.1.name)).Nodup := by rw [← hpq]; exact hnd
    rw [List.map_append, List.map_cons, List.nodup_append, List.nodup_cons] at hnd'
    have hpn : ∀ a b, (a, b) ∈ p → a.name ≠ s.name := fun a b hab e2 =>
      hnd'.2.2 _ (List.mem_map_of_mem (f := fun x : Column × Column => x.1.name) hab) s.name (List.mem_cons_self ..) e2
    have hqn : ∀ a b, (a, b) ∈ q → a.name ≠ s.name := fun a b hab e2 =>
      hnd'.2.1.1 (e2 ▸ List.mem_map_of_mem (f := fun x : Column × Column => x.1.name) hab)
    have hrun := R.run
    obtain ⟨b1, q1, q2⟩ := append_inv hrun
    obtain ⟨b2, q3, q4⟩ := append_inv q2
    obtain ⟨b3, q5, _⟩ := append_inv q4
    rw [hpre] at q1
    obtain ⟨e1, q6, q7⟩ := append_inv q1
    obtain ⟨e2, q8, q9⟩ := append_inv q7
    have hmid : (e2.dfs (defaultConstraintName s.name)).isSome := by
      unfold mssqlDefault at q8
      split at q8
      · rename_i heq
        cases q8
        refine keep (Q := fun ts => (ts.dfs (defaultConstraintName s.name)).isSome) q6
          (fun x hx ts ts' hh hs => keep_df hs (hseg p hpn x hx).1 (hseg p hpn x hx).2 hh) ?_
        show ((S.columns.items.find? (fun c => c.default.isSome && defaultConstraintName c.name = defaultConstraintName s.name)).map
          Column.name).isSome
        rw [Option.isSome_map, List.find?_isSome]
        exact ⟨s, hb.1, by rw [heq, hu]; simp⟩
      · rw [hu] at q8
        obtain ⟨e3, _, q10⟩ := append_inv q8
        obtain ⟨e4, q11, _, q12⟩ := cons_inv q10
        cases q12
        cases effect q11 with
        | addDf k v m c ho hi hc hp' hk hd => rw [hd, upd_same]; rfl
        | col n f c c' x hcol => cases hcol
    have hb1 : (b1.dfs (defaultConstraintName s.name)).isSome :=
      keep (Q := fun ts => (ts.dfs (defaultConstraintName s.name)).isSome) q9
        (fun x hx ts ts' hh hs => keep_df hs (hseg q hqn x hx).1 (hseg q hqn x hx).2 hh) hmid
    have hb2 : (b2.dfs (defaultConstraintName s.name)).isSome :=
      keep (Q := fun ts => (ts.dfs (defaultConstraintName s.name)).isSome) q3 (by
        intro x hx ts ts' hh hs
        obtain ⟨_, _, _, _, _, _, rfl⟩ := R.rnMem x hx
        exact keep_df hs (fun e => by cases e) (fun _ e => by cases e) hh) hb1
    refine never (Q := fun ts => (ts.dfs (defaultConstraintName s.name)).isSome) q5 ?_ hb2 hmem ?_
    · intro x hx ts ts' hh hs
      obtain ⟨_, _, _, _, rfl, _⟩ := R.adMem x hx
      exact keep_df hs (fun e => by cases e) (fun _ e => by cases e) hh
    · intro ts hh
      simp [stepAction, hdn, hh]

theorem onCol_fun {n : Text} {f g : ColState → Option ColState}
    (h : ∀ ts : TableState, ts.onCol n f = ts.onCol n g) (c : ColState) : f c = g c := by
  have := h ⟨fun _ => some c, [], fun _ => none, fun _ => none⟩
  simp only [TableState.onCol] at this
  cases hf : f c with
  | none =>
    cases hg : g c with
    | none => rfl
    | some y => rw [hf, hg] at this; cases this
  | some x =>
    cases hg : g c with
    | none => rw [hf, hg] at this; cases this
    | some y =>
      rw [hf, hg] at this
      simp only [Option.map_some, Option.some.injEq, TableState.mk.injEq, and_true] at this
      have := congrFun this n
      rw [upd_same, upd_same] at this
      exact this

/-- Oracle: an unchanged default of a column that is not converted is what it was. -/
theorem Ran.oracle (R : Ran ρ .oracle E S T pre rn ad hard ch drops dc ac) (wS : TableWF .oracle S) (wT : TableWF .oracle T)
    {s u : Column} (hb : Both S T s u) (hcv : ¬ Converted .oracle s u) (hd : s.default = u.default) :
    (Spec.Column.state .oracle s).default = (Spec.Column.state .oracle u).default := by
  have hfin : ∃ c, (Spec.Table.state .oracle E T).cols s.name = some c
      ∧ c.default = (Spec.Column.state .oracle s).default := by
    have := keep (Q := fun ts => (∀ m, ts.dfs m = none)
      ∧ ∃ c, ts.cols s.name = some c ∧ c.default = (Spec.Column.state .oracle s).default) R.run ?_
      ⟨fun _ => rfl, _, start_col wS hb.1, rfl⟩
    · exact this.2
    intro x hx ts ts' hh hs
    have hp := R.part hx
    have hnodf : (∀ n spec, x = .addColumn n spec → spec.defaultName = none) ∧ ∀ df e n, x ≠ .addDefault df e n := by
      constructor
      · rintro n spec rfl
        rcases hp with ⟨h, _⟩ | ⟨s, u, sp, hb, hc, h⟩ | ⟨u, sp, _, hsp, h⟩ | ⟨s, u, _, _, h⟩
          | ⟨s, u, l, _, _, _, h⟩ | ⟨s, _, _, h | ⟨_, h⟩⟩ | ⟨c, _, _, h⟩ | ⟨c, _, hc, sp, h⟩
        all_goals cases h
        unfold PySqlSync.Column.dataSpec at hsp
        cases hcm : u.comment .oracle with
        | error e => simp [hcm, bind, Except.bind] at hsp
        | ok comment =>
          simp only [hcm, bind, Except.bind, pure, Except.pure, Except.ok.injEq] at hsp
          subst hsp
          rfl
      · rintro df e n rfl
        rcases hp with ⟨h, _⟩ | ⟨s, u, sp, hb, hc, h⟩ | ⟨u, sp, _, hsp, h⟩ | ⟨s, u, _, _, h⟩
          | ⟨s, u, l, _, _, _, h⟩ | ⟨s, _, _, h | ⟨_, h⟩⟩ | ⟨c, _, _, h⟩ | ⟨c, _, hc, sp, h⟩
        all_goals (cases h; done)
    refine ⟨keep_noDf hs hnodf.1 hnodf.2 hh.1, ?_⟩
    refine keep_col (R := fun c => c.default = (Spec.Column.state .oracle s).default) hs ?_ ?_ ?_ ?_ ?_ ?_ hh.2
    · rintro rfl
      rcases hp with ⟨h, _⟩ | ⟨s, u, sp, hb, hc, h⟩ | ⟨u, sp, _, hsp, h⟩ | ⟨a, b, _, _, h⟩
        | ⟨s, u, l, _, _, _, h⟩ | ⟨a, _, ha, h | ⟨_, h⟩⟩ | ⟨c, _, _, h⟩ | ⟨c, _, hc, sp, h⟩
      case inr.inr.inr.inl => exact not_deleted wS hb.1 _ (Action.dropColumn.inj h)
      case inr.inr.inr.inr.inr.inl.inl => exact ha u hb.2.1 ((Action.dropColumn.inj h).symm.trans hb.2.2)
      all_goals cases h
    · rintro df rfl
      rcases hp with ⟨h, _⟩ | ⟨s, u, sp, hb, hc, h⟩ | ⟨u, sp, _, hsp, h⟩ | ⟨a, b, _, _, h⟩
        | ⟨s, u, l, _, _, _, h⟩ | ⟨a, _, ha, h | ⟨h, _⟩⟩ | ⟨c, _, _, h⟩ | ⟨c, _, hc, sp, h⟩
      all_goals cases h
    · rintro new sp rfl
      obtain ⟨a, b, hab, habc, e, _⟩ := hp.ren
      obtain ⟨rfl, rfl⟩ := both_unique wS wT hb hab e
      exact hcv habc
    · intro hcol f hf c c' hfc hR
      rcases hp with ⟨h, _⟩ | ⟨s, u, sp, hb, hc, h⟩ | ⟨u, sp, _, hsp, h⟩ | ⟨a, b, _, _, h⟩
        | ⟨a, b, l, hab, hl, hxl, h⟩ | ⟨a, _, ha, h | ⟨h, _⟩⟩ | ⟨c, _, _, h⟩ | ⟨c, _, hc, sp, h⟩
      case inr.inr.inr.inr.inl =>
        rw [h] at hcol
        obtain ⟨rfl, rfl⟩ := both_unique wS wT hab hb (Option.some.inj hcol)
        obtain ⟨ty, nl, i, hl⟩ : ∃ ty nl i, (if Option.isSome ty || Option.isSome (none : Option (Option Text))
            || Option.isSome nl || Option.isSome i then
          Except.ok [Action.modify a.name ty none nl i] else Except.ok []) = Except.ok (ε := Err) l := by
          unfold mutateColumn at hl
          simp only at hl
          rw [if_neg (c := a.default ≠ b.default) (by simp [hd])] at hl
          exact ⟨_, _, _, hl⟩
        split at hl
        · cases hl
          rw [List.mem_singleton.1 hxl] at hf
          have := onCol_fun (g := fun c => some
            { ty := ty.getD c.ty, default := (none : Option (Option Text)).getD c.default, nullable := nl.getD c.nullable
              identity := i.getD c.identity }) (fun ts => (hf ts).symm.trans rfl) c
          rw [hfc] at this
          cases this
          exact hR
        · cases hl; cases hxl
      all_goals first
        | (cases h; done)
        | (subst h; cases hcol; done)
    · rintro c v hR df e m rfl
      exact absurd rfl (hnodf.2 df e m)
    · rintro c hR k m rfl hk
      rw [hh.1] at hk
      cases hk
  obtain ⟨c, hc, he⟩ := hfin
  rw [hb.2.2, state_col wT hb.2.1] at hc
  cases hc
  exact he.symm

/-- Tables between which a script ran are within `TableSafe`. -/
theorem Ran.safe {condCols : Text → List Text} {K K' : Kinds}
    (R : Ran ρ d (engine d condCols) S T pre rn ad hard ch drops dc ac) (wS : TableWF d S) (wT : TableWF d T)
    (hS : (retyped ρ (Spec.Table.state d (engine d condCols) S)).Fits K)
    (hT : (Spec.Table.state d (engine d condCols) T).Fits K') : TableSafe d (engine d condCols) S T := by
  obtain ⟨hk1, hk2⟩ := R.key wT hT
  have shared_or : ∀ c ∈ S.constraints.items, (∃ c' ∈ T.constraints.items, c'.name = c.name)
      ∨ ∀ c' ∈ T.constraints.items, c'.name ≠ c.name := by
    intro c _
    by_cases e : ∃ c' ∈ T.constraints.items, c'.name = c.name
    · exact .inl e
    · exact .inr (fun c' hc' e' => e ⟨c', hc', e'⟩)
  refine ⟨hk1, ?_, ?_, ?_, ?_⟩
  · intro s hs u hu e hcv
    have hb : Need.Both S T s u := ⟨hs, hu, e⟩
    refine ⟨hk2 s u hb hcv, ?_, fun h1 h2 => R.convIdentity wS wT h1 h2 hb hcv, ?_⟩
    · intro c hc hmy x hx
      rcases shared_or c hc with ⟨c', hc', e'⟩ | hn
      · exact R.shared wS wT hT hc hc' e' hx hb hcv
      · have hd : d ≠ .mysql := by
          intro hd
          obtain ⟨c', hc', e'⟩ := hmy hd
          exact hn c' hc' e'
        exact R.goneConverted wS wT hd hb hcv hc hn hx
    · rintro rfl
      exact R.convDefault wS wT hb hcv
  · intro hd s hs hn c hc x hx
    rcases shared_or c hc with ⟨c', hc', e'⟩ | hcn
    · have e := R.same c hc c' hc' e'
      subst e
      intro hm
      have hend : (Spec.Table.state d (engine d condCols) T).cons c.name = some x := (Need.state_con wT hc').trans hx
      obtain ⟨u, hu, e⟩ := Need.tab_cols hT ((hT.cons _ _ hend).1 _ hm)
      exact hn u hu e.symm
    · exact R.goneDropped wS hd hs hn hc hcn hx
  · intro h1 h2 s hs u hu e hsi hui
    exact R.identity wS wT hS h1 h2 ⟨hs, hu, e⟩ hsi hui
  · rintro rfl s hs u hu e hcv hdf
    exact R.oracle wS wT ⟨hs, hu, e⟩ hcv hdf


end Need

/-- The script emitted for a pair of tables does what it is for exactly if the two tables are within `TableSafe`: then,
    and only then, the database accepts each statement, is consistent after each, and has the target table in the end,
    all else being as before. -/
theorem C06_exact_criterion (d : Dialect) (condCols : Text → List Text) {S T : Table} {db : Db}
    (v : Valid db) (wS : TableWF d S) (wT : TableWF d T)
    (h0 : db.objs S.name.key = some (.table (Spec.Table.state d (engine d condCols) S)))
    (hT : (Spec.Table.state d (engine d condCols) T).Fits db.kinds)
    {stmts : List Stmt} (h : mutateTable d S T = .ok stmts) :
    Runs (engine d condCols) db stmts
        { db with objs := upd db.objs S.name.key (some (.table (Spec.Table.state d (engine d condCols) T))) }
      ↔ TableSafe d (engine d condCols) S T := by
  constructor
  · intro hr
    have e0 := Need.retyped_id (Spec.Table.state d (engine d condCols) S)
    have h0' := h0
    rw [← e0] at h0'
    obtain ⟨pre, rn, ad, hard, ch, drops, dc, ac, R⟩ := Need.ran wS wT h0' (by simp [upd]) h hr
    exact R.safe wS wT (v.fits _ _ h0') hT
  · intro safe
    exact C06_alter_table_safe d condCols v wS wT safe h0 hT h

namespace C06.Example
open PySqlSync.Example

/-- A table with a column that takes part in a constraint … -/
def with_ : Table where
  name := q "shop" "item"
  columns := ⟨[key0 "id", col "a" int4, col "b" int4]⟩
  primaryKey := [t "id"]
  constraints := ⟨[.unique (t "uq_ab") [t "a", t "b"]]⟩

/-- … and without that column and that constraint. -/
def without : Table where
  name := q "shop" "item"
  columns := ⟨[key0 "id", col "b" int4]⟩
  primaryKey := [t "id"]
  constraints := ⟨[]⟩

def cat : Catalog := ⟨⟨[{ name := t "shop", tables := ⟨[with_]⟩ }]⟩⟩

/-- The hypotheses of the criterion are met for any dialect; on MySQL the script does it, on SQL Server and PostgreSQL
    it does not. -/
example : Runs (engine .mysql (fun _ => [])) (Spec.Catalog.db .mysql (engine .mysql (fun _ => [])) cat)
    ((mutateTable .mysql with_ without).toOption.getD [])
    { (Spec.Catalog.db .mysql (engine .mysql (fun _ => [])) cat) with
      objs := upd (Spec.Catalog.db .mysql (engine .mysql (fun _ => [])) cat).objs (t "shop", t "item")
        (some (.table (Spec.Table.state .mysql (engine .mysql (fun _ => [])) without))) } := by
  have v : Valid (Spec.Catalog.db .mysql (engine .mysql (fun _ => [])) cat) := catValidB_ok (by decide +kernel)
  refine (C06_exact_criterion .mysql _ (S := with_) (T := without) v (tableWFB_ok (by decide +kernel))
    (tableWFB_ok (by decide +kernel)) rfl (tableFitsB_ok (by decide +kernel)) (Example.ok_of_toOption rfl)).2 ?_
  exact tableSafeB_ok (by decide +kernel)

example (d : Dialect) (hd : d = .mssql ∨ d = .postgresql) :
    ¬ Runs (engine d (fun _ => [])) (Spec.Catalog.db d (engine d (fun _ => [])) cat)
    ((mutateTable d with_ without).toOption.getD [])
    { (Spec.Catalog.db d (engine d (fun _ => [])) cat) with
      objs := upd (Spec.Catalog.db d (engine d (fun _ => [])) cat).objs (t "shop", t "item")
        (some (.table (Spec.Table.state d (engine d (fun _ => [])) without))) } := by
  have key : ∀ d : Dialect, d ≠ .mysql → ¬ TableSafe d (engine d (fun _ => [])) with_ without := by
    intro d hd safe
    refine safe.dropped hd (col "a" int4) (by simp [with_]) ?_ (.unique (t "uq_ab") [t "a", t "b"]) (by simp [with_])
      (.unique [t "a", t "b"]) rfl (by simp [ConState.cols, col])
    decide +kernel
  rcases hd with rfl | rfl
  · have v : Valid (Spec.Catalog.db .mssql (engine .mssql (fun _ => [])) cat) := catValidB_ok (by decide +kernel)
    intro hr
    exact key _ (by decide) ((C06_exact_criterion .mssql _ (S := with_) (T := without) v (tableWFB_ok (by decide +kernel))
      (tableWFB_ok (by decide +kernel)) rfl (tableFitsB_ok (by decide +kernel)) (Example.ok_of_toOption rfl)).1 hr)
  · have v : Valid (Spec.Catalog.db .postgresql (engine .postgresql (fun _ => [])) cat) := catValidB_ok (by decide +kernel)
    intro hr
    exact key _ (by decide) ((C06_exact_criterion .postgresql _ (S := with_) (T := without) v
      (tableWFB_ok (by decide +kernel))
      (tableWFB_ok (by decide +kernel)) rfl (tableFitsB_ok (by decide +kernel)) (Example.ok_of_toOption rfl)).1 hr)

end C06.Example

end PySqlSync
