/-
When nothing is to be done for a table (in dialects other than PostgreSQL), exactly.
-/
import Verif.Props.C02
import Verif.Props.C11
import Verif.Lemmas.Convert

set_option autoImplicit false

namespace PySqlSync
open Spec

namespace Set

/-- Nothing is to be done for a column: type, nullability, default and identity are the same, and on MySQL the comment. -/
structure Idle (d : Dialect) (a b : Column) : Prop where
  agree : AgreeColumn a b
  comment : d = .mysql → ∃ x, a.comment .mysql = .ok x ∧ b.comment .mysql = .ok x

theorem column_idle {d : Dialect} {a b : Column} (h : Idle d a b) : mutateColumn d a b = .ok [] := by
  obtain ⟨⟨h1, h2, h3, h4⟩, h5⟩ := h
  cases d with
  | mysql =>
    obtain ⟨x, e1, e2⟩ := h5 rfl
    simp [mutateColumn, h1, h2, h3, h4, e1, e2, bind, Except.bind, pure, Except.pure]
  | oracle => simp [mutateColumn, h1, h2, h3, h4]
  | mssql => simp [mutateColumn, h1, h2, h4]
  | _ =>
    unfold mutateColumn
    dsimp only
    split
    · rfl
    · cases hb : b.default <;> simp [h1, h2, h3, h4, hb]

theorem column_mysql {a b : Column} (h : mutateColumn .mysql a b = .ok []) : ∃ x, a.comment .mysql = .ok x ∧ b.comment .mysql = .ok x := by
  unfold mutateColumn at h
  simp only [bind, Except.bind] at h
  split at h
  · split at h
    · cases h
    · cases h
  · cases ha : a.comment .mysql with
    | error e => rw [ha] at h; cases h
    | ok x =>
      cases hb : b.comment .mysql with
      | error e => rw [ha, hb] at h; cases h
      | ok y =>
        rw [ha, hb] at h
        dsimp only at h
        by_cases e : x = y
        · subst e; exact ⟨x, rfl, rfl⟩
        · rw [if_pos e] at h
          split at h <;> cases h

/-- The parts of a comment statement for a table of MySQL. -/
theorem table_mysql {a b : Table} (h : mutateTable .mysql a b = .ok []) : a.shortDescription = b.shortDescription := by
  unfold mutateTable at h
  cases hb : mutateTableBase .mysql a b with
  | error e => simp [hb, bind, Except.bind] at h
  | ok base =>
    simp only [hb, bind, Except.bind, pure, Except.pure, Except.ok.injEq, List.append_eq_nil_iff] at h
    have h := h.2
    revert h
    generalize a.shortDescription = u
    generalize b.shortDescription = v
    intro h
    match u, v, h with
    | none, none, _ => rfl
    | none, some y, h => cases h
    | some x, none, h => cases h
    | some x, some y, h =>
      dsimp only at h
      by_cases e : x = y
      · rw [e]
      · rw [if_pos e] at h; cases h

theorem table_name {d : Dialect} {a b : Table} {l : List Stmt} (h : mutateTable d a b = .ok l) : a.name = b.name := by
  unfold mutateTable at h
  cases hb : mutateTableBase d a b with
  | error e => simp [hb, bind, Except.bind] at h
  | ok base =>
    unfold mutateTableBase at hb
    unfold checkIdentity at hb
    by_cases e : a.name = b.name
    · exact e
    · rw [if_neg e] at hb; cases hb

theorem table_columns {d : Dialect} {a b : Table} (h : mutateTable d a b = .ok []) (p : Column × Column) (hp : p ∈ a.columns.intersection b.columns) :
    mutateColumn d p.1 p.2 = .ok [] := by
  have hb : mutateTableBase d a b = .ok [] := by
    unfold mutateTable at h
    cases hb : mutateTableBase d a b with
    | error e => simp [hb, bind, Except.bind] at h
    | ok base =>
      simp only [hb, bind, Except.bind] at h
      split at h
      · simp only [pure, Except.pure, Except.ok.injEq, List.append_eq_nil_iff] at h
        rw [h.2]
      · simp only [pure, Except.pure, Except.ok.injEq, List.append_eq_nil_iff] at h
        rw [h.1]
      · simp only [pure, Except.pure, Except.ok.injEq, List.append_eq_nil_iff] at h
        rw [h.1.1]
      · simp only [pure, Except.pure, Except.ok.injEq] at h
        rw [h]
  obtain ⟨rn, am, an, mg, al, hrn, ham, han, hmg, hal, hst⟩ := table_parts hb
  obtain ⟨_, h4⟩ := List.append_eq_nil_iff.1 hst.symm
  have h4 := C11.ifAlter_nil h4
  subst h4
  unfold alterActions at hal
  simp only [bind, Except.bind] at hal
  split at hal
  · cases hal
  · rename_i ch hch
    split at hal
    · cases hal
    · simp only [pure, Except.pure, Except.ok.injEq, List.append_eq_nil_iff] at hal
      exact C11.mapM_nil (wrapColumn_ok' hch) hal.1.1.1.2 p hp

theorem kept_some {c x : Constraint} : some x = (some c).filter (fun c => c.spec.isSome) ↔ x = c ∧ c.spec.isSome = true := by
  show some x = (if c.spec.isSome = true then some c else none) ↔ _
  by_cases h : c.spec.isSome = true
  · rw [if_pos h]; simp [h]
  · rw [if_neg h]; simp [h]

theorem kept_none {c : Constraint} : none = (some c).filter (fun c => c.spec.isSome) ↔ c.spec = none := by
  show none = (if c.spec.isSome = true then some c else none) ↔ _
  cases h : c.spec <;> simp

/-- Nothing is to be done for a table exactly if names, columns, constraints (of those that are declared in the database) agree, and on MySQL the comment. -/
theorem silent_iff {d : Dialect} (hd : d ≠ .postgresql) {a b : Table} (ac : Distinct a.columns) (ak : Distinct a.constraints) (bc : Distinct b.columns)
    (bk : Distinct b.constraints) (hs : ∀ c ∈ a.constraints.items, c.spec.isSome = true) :
    mutateTable d a b = .ok [] ↔ a.name = b.name ∧ (∀ n, OptRel (Idle d) (a.columns.get n) (b.columns.get n)) ∧
      (∀ n, a.constraints.get n = (b.constraints.get n).filter (fun c => c.spec.isSome)) ∧ (d = .mysql → a.shortDescription = b.shortDescription) := by
  constructor
  · intro h
    have hag := C11.table_silent' bc bk h
    refine ⟨table_name h, ?_, ?_, fun e => by subst e; exact table_mysql h⟩
    · intro n
      have := hag.columns n
      cases ha : a.columns.get n with
      | none => rw [ha] at this; cases hb : b.columns.get n with
        | none => trivial
        | some y => rw [hb] at this; exact this.elim
      | some x =>
        rw [ha] at this
        cases hb : b.columns.get n with
        | none => rw [hb] at this; exact this.elim
        | some y =>
          rw [hb] at this
          refine ⟨this, ?_⟩
          intro e
          subst e
          have hx := ODict.get_some_mem ha
          have hy := ODict.get_some_mem hb
          exact column_mysql (table_columns h (x, y) (C11.mem_pair bc hx.1 hy.1 (hx.2.trans hy.2.symm)))
    · intro n
      have h1 := hag.constraints n
      cases ha : a.constraints.get n with
      | none =>
        rw [ha] at h1
        cases hb : b.constraints.get n with
        | none => rfl
        | some y =>
          rw [hb] at h1
          exact kept_none.2 h1.symm
      | some x =>
        have hx := ODict.get_some_mem ha
        rw [ha] at h1
        cases hb : b.constraints.get n with
        | none =>
          rw [hb] at h1
          have h1 : x.spec = none := h1
          have := hs x hx.1
          rw [h1] at this
          cases this
        | some y =>
          have hy := ODict.get_some_mem hb
          have e : x = y := C11.table_constraints h (x, y) (C11.mem_pair bk hx.1 hy.1 (hx.2.trans hy.2.symm))
          subst e
          exact kept_some.2 ⟨rfl, hs x hx.1⟩
  · rintro ⟨hn, g1, g2, hm⟩
    have c1 := optRel_contains g1
    have d1 := diff_nil_of_contains c1
    have d1' := diff_nil_of_contains (fun k => (c1 k).symm)
    have hmp : migratedPairs d a b = [] := by
      simp only [migratedPairs, List.filter_eq_nil_iff]
      intro p hp
      have := (inter_rel ac g1 hp).1
      simp [isColumnMigrated, this.agree.ty]
    obtain ⟨r, hr, hrf⟩ := PySqlSync.mapM_nil (f := fun p : Column × Column => mutateColumn d p.1 p.2) (l := a.columns.intersection b.columns)
      (fun p hp => column_idle (inter_rel ac g1 hp).1)
    have d2 : a.constraints.difference b.constraints = [] := by
      apply List.eq_nil_iff_forall_not_mem.2
      intro c hc
      obtain ⟨h1, h2⟩ := ODict.mem_difference.1 hc
      have := g2 (key c)
      rw [ODict.get_eq_of_mem (d := a.constraints) ak h1, (ODict.get_none_iff _ _).2 h2] at this
      cases this
    have d2' : (b.constraints.difference a.constraints).filterMap (fun c => c.spec.map (fun s => Action.addConstraint c.name s)) = [] := by
      rw [List.filterMap_eq_nil_iff]
      intro c hc
      obtain ⟨h1, h2⟩ := ODict.mem_difference.1 hc
      have := g2 (key c)
      rw [ODict.get_eq_of_mem (d := b.constraints) bk h1, (ODict.get_none_iff _ _).2 h2] at this
      rw [kept_none.1 this]
      rfl
    have hcon : (a.constraints.intersection b.constraints).any (fun p => p.1 ≠ p.2) = false := by
      rw [List.any_eq_false]
      intro p hp
      obtain ⟨h1, h2, h3⟩ := (ODict.mem_intersection (a := p.1) (b := p.2) bk).1 hp
      have := g2 (key p.1)
      rw [ODict.get_eq_of_mem (d := a.constraints) ak h1, h3, ODict.get_eq_of_mem (d := b.constraints) bk h2] at this
      have e : p.1 = p.2 := (kept_some.1 this).1
      simp [e]
    have halter : alterActions a b d = .ok [] := by
      unfold alterActions
      rw [hmp, hr, d1, d2, d2', hcon]
      simp [wrapColumn, bind, Except.bind, pure, Except.pure, hrf]
    have hbase : mutateTableBase d a b = .ok [] := by
      unfold mutateTableBase
      rw [hmp, d1', halter, hn]
      simp [checkIdentity, wrapColumn, bind, Except.bind, pure, Except.pure]
    have hdef : mssqlDefaults a b = [] := by
      simp only [mssqlDefaults, List.flatMap_eq_nil_iff]
      intro p hp
      have := (inter_rel ac g1 hp).1
      simp [mssqlDefault, this.agree.default]
    unfold mutateTable
    rw [hbase]
    cases d with
    | postgresql => exact absurd rfl hd
    | mssql => simp [bind, Except.bind, pure, Except.pure, hdef]
    | mysql =>
      simp only [bind, Except.bind, pure, Except.pure, hm rfl]
      cases b.shortDescription <;> simp
    | _ => simp [bind, Except.bind, pure, Except.pure]

/-- The same for a namespace with tables only. -/
theorem namespace_iff {d : Dialect} {a b : Namespace} (hd : Distinct b.tables) (ha : Distinct a.tables) (ae : a.enums.items = [])
    (as : a.structs.items = []) (be : b.enums.items = []) (bs : b.structs.items = []) :
    mutateNamespace d {} a b = .ok [] ↔ a.name = b.name ∧ ∀ k, OptRel (fun x y => mutateTable d x y = .ok []) (a.tables.get k) (b.tables.get k) := by
  have nil : ∀ {x : List Stmt}, (∀ s ∈ x, s ∈ ([] : List Stmt)) → x = [] := fun h =>
    List.eq_nil_iff_forall_not_mem.2 (fun s hs => by cases h s hs)
  constructor
  · intro h
    refine ⟨?_, ?_⟩
    · unfold mutateNamespace at h
      simp only [bind, Except.bind] at h
      split at h
      · cases h
      · rename_i hn
        exact Classical.byContradiction (fun e => by simp [e, throw, throwThe, MonadExceptOf.throw] at hn)
    · obtain ⟨p1, p2, p3, p4, p5, p6, p7, p8, p9⟩ := C11.namespace_parts h
      refine C11.agree_of hd ?_ ?_ ?_
      · apply List.eq_nil_iff_forall_not_mem.2
        intro e he
        cases p9 rfl e he
      · apply List.eq_nil_iff_forall_not_mem.2
        intro tb he
        obtain ⟨x, hx, hl⟩ := p6 tb he
        rw [nil hl] at hx
        unfold Table.createStmt at hx
        simp only [bind, Except.bind] at hx
        split at hx
        · cases hx
        · cases hx
      · intro p hp
        obtain ⟨x, hx, hl⟩ := p3 p hp
        rw [nil hl] at hx
        exact hx
  · rintro ⟨hn, g⟩
    have ct := optRel_contains g
    have t1 := diff_nil_of_contains ct
    have t2 := diff_nil_of_contains (fun k => (ct k).symm)
    have xe : a.enums = ⟨[]⟩ := by cases ha : a.enums; rw [ha] at ae; cases ae; rfl
    have xs : a.structs = ⟨[]⟩ := by cases ha : a.structs; rw [ha] at as; cases as; rfl
    have ye : b.enums = ⟨[]⟩ := by cases ha : b.enums; rw [ha] at be; cases be; rfl
    have ys : b.structs = ⟨[]⟩ := by cases ha : b.structs; rw [ha] at bs; cases bs; rfl
    obtain ⟨r3, h3, f3⟩ := PySqlSync.mapM_nil (f := fun p : Table × Table => mutateTable d p.1 p.2)
      (l := a.tables.intersection b.tables) (fun p hp => (inter_rel ha g hp).1)
    have e1 : b.enums.difference a.enums = [] := by rw [ye]; rfl
    have e2 : a.enums.difference b.enums = [] := by rw [xe]; rfl
    have e3 : a.enums.intersection b.enums = [] := by rw [xe]; rfl
    have e4 : b.structs.difference a.structs = [] := by rw [ys]; rfl
    have e5 : a.structs.difference b.structs = [] := by rw [xs]; rfl
    have e6 : a.structs.intersection b.structs = [] := by rw [xs]; rfl
    unfold mutateNamespace
    simp [hn, t1, t2, h3, f3, softPairs, e1, e2, e3, e4, e5, e6, bind, Except.bind, pure, Except.pure]

end Set
end PySqlSync
