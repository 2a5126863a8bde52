/-
C05 — Column alteration is exact.
-/
import Verif.Spec.Safe
import Verif.Model.Mutation
import Verif.Examples.Shop

set_option autoImplicit false

namespace PySqlSync
open Spec

/-- A table with one column changed. -/
def setC (ts : TableState) (n : Text) (c : ColState) : TableState := { ts with cols := upd ts.cols n (some c) }

theorem setC_self {ts : TableState} {n : Text} {c : ColState} (h : ts.cols n = some c) : setC ts n c = ts := by
  have : upd ts.cols n (some c) = ts.cols := by
    funext x; unfold upd; split
    · rename_i e; rw [e, h]
    · rfl
  unfold setC; rw [this]

theorem onCol_setC (ts : TableState) (n : Text) (c : ColState) (f : ColState → Option ColState) :
    (setC ts n c).onCol n f = (f c).map (setC ts n) := by
  unfold TableState.onCol setC
  simp only [upd, if_true]
  cases f c with
  | none => rfl
  | some c' =>
    simp only [Option.map_some, Option.some.injEq]
    congr 1
    funext x
    simp only [upd]
    split <;> rfl

theorem stepActions_one {E : Engine} {ts : TableState} {n : Text} {c c' : ColState} {a : Action} {rest : List Action}
    {r : Option TableState} {f : ColState → Option ColState} (ha : ∀ ts, stepAction E ts a = ts.onCol n f)
    (hf : f c = some c') (hr : stepActions E (setC ts n c') rest = r) :
    stepActions E (setC ts n c) (a :: rest) = r := by
  simp only [stepActions, ha, onCol_setC, hf, Option.map_some, Option.bind_some, hr]

theorem stepActions_app {E : Engine} : ∀ {l1 l2 : List Action} {ts ts' : TableState},
    stepActions E ts l1 = some ts' → stepActions E ts (l1 ++ l2) = stepActions E ts' l2 := by
  intro l1
  induction l1 with
  | nil => intro l2 ts ts' h; cases h; rfl
  | cons a l1 ih =>
    intro l2 ts ts' h
    simp only [stepActions, List.cons_append] at h ⊢
    cases ha : stepAction E ts a with
    | none => rw [ha] at h; cases h
    | some t1 => rw [ha] at h; simp only [Option.bind_some] at h ⊢; exact ih h

/-- The clause emitted for a pair of columns turns the source column into the target column and touches nothing else
    of the table.  SQL Server, whose defaults are constraints, is in `C05_alter_exact_mssql`.
    The hypotheses exclude what goes wrong (see below, and `C05_alter_exactly`). -/
theorem C05_alter_exact (d : Dialect) (hd : d ≠ .mssql) (E : Engine) {s u : Column} (hname : s.name = u.name)
    {acts : List Action} (h : mutateColumn d s u = .ok acts)
    (okS : (Spec.Column.state d s).Ok) (okU : (Spec.Column.state d u).Ok)
    (identity : d ≠ .mysql → d ≠ .oracle → s.identity = true → u.identity = false →
      u.nullable = false ∧ u.default = none)
    (snowflake : d = .snowflake → ∀ e, u.default = some e → defaultExpr d u.ty e = e)
    (sameDefault : s.default = u.default → (Spec.Column.state d s).default = (Spec.Column.state d u).default)
    (ts : TableState) (h0 : ts.cols s.name = some (Spec.Column.state d s)) :
    stepActions E ts acts = some (setC ts u.name (Spec.Column.state d u)) := by
  rw [← setC_self h0, ← hname]
  have hset : ∀ c, setC (setC ts s.name (Spec.Column.state d s)) s.name c = setC ts s.name c := by
    intro c
    unfold setC
    congr 1
    funext x
    simp only [upd]
    split <;> rfl
  rw [hset]
  have base : ∀ (hb : ∀ e, u.default = some e → defaultExpr d u.ty e = e)
      (hi : s.identity = true → u.identity = false → u.nullable = false ∧ u.default = none)
      (h : (if s = u then Except.ok [] else .ok (
      (if s.ty ≠ u.ty then [Action.setDataType s.name u.ty] else [])
      ++ (if s.nullable && !u.nullable then [Action.setNotNull s.name]
          else if !s.nullable && u.nullable then [Action.dropNotNull s.name] else [])
      ++ (match s.default, u.default with
          | some _, none => [Action.dropDefault s.name]
          | _, some e => if s.default ≠ u.default then [Action.setDefault s.name e] else []
          | none, none => [])
      ++ (if s.identity && !u.identity then [Action.dropIdentity s.name]
          else if !s.identity && u.identity then [Action.addIdentity s.name] else []))
        : Except Err (List Action)) = .ok acts),
      stepActions E (setC ts s.name (Spec.Column.state d s)) acts
        = some (setC ts s.name (Spec.Column.state d u)) := by
    intro hb hi h
    split at h
    · rename_i e
      cases h
      rw [e]; rfl
    · cases h
      have r1 : stepActions E (setC ts s.name (Spec.Column.state d s))
          (if s.ty ≠ u.ty then [Action.setDataType s.name u.ty] else [])
          = some (setC ts s.name { Spec.Column.state d s with ty := u.ty }) := by
        split
        · exact stepActions_one (f := fun c => some { c with ty := u.ty }) (fun _ => rfl) rfl rfl
        · rename_i e
          have : s.ty = u.ty := by simpa using e
          simp only [stepActions, Spec.Column.state, this]
      have r2 : stepActions E (setC ts s.name { Spec.Column.state d s with ty := u.ty })
          (if s.nullable && !u.nullable then [Action.setNotNull s.name]
            else if !s.nullable && u.nullable then [Action.dropNotNull s.name] else [])
          = some (setC ts s.name { Spec.Column.state d s with ty := u.ty, nullable := u.nullable }) := by
        cases hs : s.nullable <;> cases hu : u.nullable
        · simp [stepActions, Spec.Column.state, hs]
        · have hsi : s.identity = false := by
            cases hsi : s.identity with
            | false => rfl
            | true =>
              cases hui : u.identity with
              | true => have := (okU hui).1; simp [Spec.Column.state, hu] at this
              | false => have := (hi hsi hui).1; rw [hu] at this; cases this
          exact stepActions_one (f := fun c => if c.identity then none else some { c with nullable := true })
            (fun _ => rfl) (by simp [Spec.Column.state, hsi]) rfl
        · exact stepActions_one (f := fun c => some { c with nullable := false }) (fun _ => rfl) rfl rfl
        · simp [stepActions, Spec.Column.state, hs]
      have hid : s.identity = true → s.default ≠ u.default → False := by
        intro hsi hne
        have hsd := (okS hsi).2
        cases hui : u.identity with
        | true =>
          have hud := (okU hui).2
          simp only [Spec.Column.state, Option.map_eq_none_iff] at hsd hud
          exact hne (hsd.trans hud.symm)
        | false =>
          have hud := (hi hsi hui).2
          simp only [Spec.Column.state, Option.map_eq_none_iff] at hsd
          exact hne (hsd.trans hud.symm)
      have r3 : stepActions E (setC ts s.name { Spec.Column.state d s with ty := u.ty, nullable := u.nullable })
          (match s.default, u.default with
          | some _, none => [Action.dropDefault s.name]
          | _, some e => if s.default ≠ u.default then [Action.setDefault s.name e] else []
          | none, none => [])
          = some (setC ts s.name { Spec.Column.state d u with identity := s.identity }) := by
        have same : s.default = u.default → ({ Spec.Column.state d s with ty := u.ty, nullable := u.nullable } : ColState)
            = { Spec.Column.state d u with identity := s.identity } := by
          intro e
          have := sameDefault e
          simp only [Spec.Column.state] at this ⊢
          rw [this]
        have change : s.default ≠ u.default → s.identity = false := by
          intro hne
          cases hsi : s.identity with
          | false => rfl
          | true => exact absurd hne (fun h => hid hsi h)
        cases hs : s.default with
        | none =>
          cases hu : u.default with
          | none =>
            rw [same (hs.trans hu.symm)]
            rfl
          | some e =>
            simp only [ne_eq, reduceCtorEq, not_false_eq_true, if_true]
            refine stepActions_one (f := fun c => if c.identity then none else some { c with default := some e })
              (fun _ => rfl) ?_ rfl
            have := change (by rw [hs, hu]; simp)
            simp [Spec.Column.state, this, hu, hb e hu]
        | some x =>
          cases hu : u.default with
          | none =>
            refine stepActions_one (f := fun c => if c.identity then none else some { c with default := none })
              (fun _ => rfl) ?_ rfl
            have := change (by rw [hs, hu]; simp)
            simp [Spec.Column.state, this, hu]
          | some e =>
            by_cases hxe : x = e
            · simp only [hxe, ne_eq, not_true_eq_false, if_false]
              rw [same (by rw [hs, hu, hxe])]; rfl
            · simp only [ne_eq, Option.some.injEq, hxe, not_false_eq_true, if_true]
              refine stepActions_one (f := fun c => if c.identity then none else some { c with default := some e })
                (fun _ => rfl) ?_ rfl
              have := change (by rw [hs, hu]; simpa using hxe)
              simp [Spec.Column.state, this, hu, hb e hu]
      have r4 : stepActions E (setC ts s.name { Spec.Column.state d u with identity := s.identity })
          (if s.identity && !u.identity then [Action.dropIdentity s.name]
            else if !s.identity && u.identity then [Action.addIdentity s.name] else [])
          = some (setC ts s.name (Spec.Column.state d u)) := by
        cases hs : s.identity <;> cases hu : u.identity
        · simp [stepActions, Spec.Column.state, hu]
        · refine stepActions_one (f := fun c => if c.identity || c.nullable || c.default.isSome then none
            else some { c with identity := true }) (fun _ => rfl) ?_ rfl
          have := okU hu
          simp only [Spec.Column.state] at this
          simp [Spec.Column.state, hu, this]
        · refine stepActions_one (f := fun c => if c.identity then some { c with identity := false } else none)
            (fun _ => rfl) ?_ rfl
          simp [Spec.Column.state, hu]
        · simp [stepActions, Spec.Column.state, hu]
      rw [List.append_assoc, List.append_assoc, stepActions_app r1, stepActions_app r2, stepActions_app r3]
      exact r4
  have plain : (d ≠ .oracle ∧ d ≠ .snowflake) → ∀ e, defaultExpr d u.ty e = e := by
    intro hd e
    unfold defaultExpr
    split
    · exact absurd rfl hd.1
    · exact absurd rfl hd.2
    · rfl
  cases d with
  | mssql => exact absurd rfl hd
  | mysql =>
    have dspec : ∀ spec, u.dataSpec .mysql = .ok spec → Spec.ColSpec.state spec = Spec.Column.state .mysql u :=
      fun spec hsp => (dataSpec_ok hsp okU (by intro e; cases e)).1
    have redef : ∀ spec, u.dataSpec .mysql = .ok spec →
        stepActions E (setC ts s.name (Spec.Column.state .mysql s)) [.redefine s.name spec]
          = some (setC ts s.name (Spec.Column.state .mysql u)) := by
      intro spec hsp
      refine stepActions_one (f := fun _ => some (Spec.ColSpec.state spec)) (fun _ => rfl) ?_ rfl
      rw [dspec spec hsp]
    unfold mutateColumn at h
    simp only [bind, Except.bind] at h
    split at h
    · split at h
      · cases h
      · rename_i spec hsp
        cases h; exact redef spec hsp
    · rename_i hne
      simp only [Bool.or_eq_true, decide_eq_true_eq, ne_eq, not_or, Decidable.not_not] at hne
      split at h
      · cases h
      · split at h
        · cases h
        · split at h
          · split at h
            · cases h
            · rename_i spec hsp
              cases h; exact redef spec hsp
          · cases h
            have : Spec.Column.state .mysql s = Spec.Column.state .mysql u := by
              simp only [Spec.Column.state]
              have e1 : s.ty = u.ty := by simpa using hne.1.1.1
              have e2 : s.nullable = u.nullable := by simpa using hne.1.1.2
              have e3 : s.default = u.default := by simpa using hne.1.2
              have e4 : s.identity = u.identity := by simpa using hne.2
              rw [e1, e2, e3, e4]
            rw [this]; rfl
  | oracle =>
    unfold mutateColumn at h
    dsimp only at h
    have fin : ∀ x, stepActions E (setC ts s.name (Spec.Column.state .oracle s))
        [.modify s.name (if s.ty ≠ u.ty then some u.ty else none) x
          (if s.nullable ≠ u.nullable then some u.nullable else none)
          (if s.identity ≠ u.identity then some u.identity else none)]
          = some (setC ts s.name { Spec.Column.state .oracle u with
              default := x.getD (Spec.Column.state .oracle s).default }) := by
      intro x
      refine stepActions_one (f := fun c => some { ty := (if s.ty ≠ u.ty then some u.ty else none).getD c.ty, default := x.getD c.default, nullable := (if s.nullable ≠ u.nullable then some u.nullable else none).getD c.nullable, identity := (if s.identity ≠ u.identity then some u.identity else none).getD c.identity }) (fun _ => rfl) ?_ rfl
      congr 1
      simp only [Spec.Column.state, ColState.mk.injEq, true_and]
      refine ⟨?_, ?_, ?_⟩
      · by_cases e : s.ty = u.ty <;> simp [e]
      · by_cases e : s.nullable = u.nullable <;> simp [e]
      · by_cases e : s.identity = u.identity <;> simp [e]
    have hdef : (if s.default ≠ u.default then some (u.default.map (defaultExpr Dialect.oracle u.ty)) else none).getD
        (Spec.Column.state .oracle s).default = (Spec.Column.state .oracle u).default := by
      by_cases e : s.default = u.default
      · simp only [e, ne_eq, not_true_eq_false, if_false, Option.getD_none]
        exact sameDefault e
      · simp only [e, ne_eq, not_false_eq_true, if_true, Option.getD_some]; rfl
    by_cases hany : ((if s.ty ≠ u.ty then some u.ty else none).isSome
        || (if s.default ≠ u.default then some (u.default.map (defaultExpr Dialect.oracle u.ty)) else none).isSome
        || (if s.nullable ≠ u.nullable then some u.nullable else none).isSome
        || (if s.identity ≠ u.identity then some u.identity else none).isSome) = true
    · rw [if_pos hany] at h
      cases h
      rw [fin, hdef]
    · rw [if_neg hany] at h
      cases h
      simp only [Bool.or_eq_true, not_or] at hany
      obtain ⟨⟨⟨a1, a2⟩, a3⟩, a4⟩ := hany
      have e1 : s.ty = u.ty := by
        apply Classical.byContradiction; intro e; simp [e] at a1
      have e2 : s.default = u.default := by
        apply Classical.byContradiction; intro e; simp [e] at a2
      have e3 : s.nullable = u.nullable := by
        apply Classical.byContradiction; intro e; simp [e] at a3
      have e4 : s.identity = u.identity := by
        apply Classical.byContradiction; intro e; simp [e] at a4
      have := sameDefault e2
      simp only [Spec.Column.state] at this
      simp only [stepActions, Spec.Column.state, e1, e3, e4]
      rw [e1] at this
      rw [this]
  | ansi => exact base (fun e _ => plain (by simp) e) (identity (by simp) (by simp)) h
  | postgresql => exact base (fun e _ => plain (by simp) e) (identity (by simp) (by simp)) h
  | delta => exact base (fun e _ => plain (by simp) e) (identity (by simp) (by simp)) h
  | snowflake => exact base (snowflake rfl) (identity (by simp) (by simp)) h

/-- The same for SQL Server, where a default is a constraint `df_<column>` changed by clauses of its own, which come
    first.  (A change of the identity property is refused: `C05_mssql_identity_refused`.) -/
theorem C05_alter_exact_mssql (E : Engine) {s u : Column} (hname : s.name = u.name) {acts : List Action}
    (h : mutateColumn .mssql s u = .ok acts) (okU : (Spec.Column.state .mssql u).Ok)
    (ts : TableState) (h0 : ts.cols s.name = some (Spec.Column.state .mssql s))
    (hcon : ts.cons (t "df_" ++ s.name) = none)
    (hdf : ts.dfs (t "df_" ++ s.name) = if s.default.isSome then some s.name else none) :
    stepActions E ts (mssqlDefault s u ++ acts) = some
      { ts with cols := upd ts.cols u.name (some (Spec.Column.state .mssql u))
                dfs := upd ts.dfs (t "df_" ++ u.name) (if u.default.isSome then some u.name else none) } := by
  have hx : ∀ e, defaultExpr .mssql u.ty e = e := fun _ => rfl
  have hx' : ∀ e, defaultExpr .mssql s.ty e = e := fun _ => rfl
  have hid : s.identity = u.identity := by
    unfold mutateColumn at h
    dsimp only at h
    by_cases e : s.identity = u.identity
    · exact e
    · rw [if_pos (by simpa using e)] at h; cases h
  -- the clause for type and nullability
  have r2 : ∀ ts1 : TableState, ∀ c, ts1.cols s.name = some c → c.identity = s.identity → c.ty = s.ty →
      c.nullable = s.nullable →
      stepActions E ts1 acts = some (setC ts1 s.name { c with ty := u.ty, nullable := u.nullable }) := by
    intro ts1 c hc h1 h2 h3
    unfold mutateColumn at h
    dsimp only at h
    rw [if_neg (by simpa using hid)] at h
    by_cases e : s.ty = u.ty ∧ s.nullable = u.nullable
    · rw [if_neg (by simp [e.1, e.2])] at h
      cases h
      have : ({ c with ty := u.ty, nullable := u.nullable } : ColState) = c := by
        rw [← e.1, ← e.2, ← h2, ← h3]
      rw [this, setC_self hc]; rfl
    · rw [if_pos (by simpa [Classical.or_iff_not_imp_left] using e)] at h
      cases h
      have := stepActions_one (E := E) (ts := ts1) (n := s.name) (c := c) (r := some (setC ts1 s.name
          { c with ty := u.ty, nullable := u.nullable })) (a := .retype s.name u.ty (!u.nullable)) (rest := [])
        (f := fun c => some { c with ty := u.ty, nullable := !!u.nullable }) (fun _ => rfl) rfl (by
          simp only [stepActions, Bool.not_not])
      rwa [setC_self hc] at this
  have upd_self : ∀ {β : Type} (f : Text → β) (k : Text) (v : β), f k = v → upd f k v = f := by
    intro β f k v hv
    funext x; unfold upd; split
    · rename_i e; rw [e, hv]
    · rfl
  have upd_upd' : ∀ {β : Type} (f : Text → β) (k : Text) (v w : β), upd (upd f k v) k w = upd f k w := by
    intro β f k v w
    funext x; simp only [upd]; split <;> rfl
  rw [← hname]
  unfold mssqlDefault
  by_cases e : s.default = u.default
  · rw [if_pos e, List.nil_append, r2 ts _ h0 rfl rfl rfl]
    have e1 : upd ts.dfs (t "df_" ++ s.name) (if u.default.isSome then some s.name else none) = ts.dfs :=
      upd_self _ _ _ (by rw [hdf, e])
    rw [e1]
    simp only [setC, Spec.Column.state, e, hid]
    rfl
  · rw [if_neg e]
    have uid : u.default ≠ none → u.identity = false := by
      intro hne
      cases hui : u.identity with
      | false => rfl
      | true =>
        have := (okU hui).2
        simp only [Spec.Column.state, Option.map_eq_none_iff] at this
        exact absurd this hne
    -- after the old default is gone
    have r0 : stepActions E ts (if s.default.isSome then
          [Action.dropConstraint (defaultConstraintName s.name)] else [])
        = some { ts with cols := upd ts.cols s.name (some { Spec.Column.state .mssql s with default := none })
                         dfs := upd ts.dfs (t "df_" ++ s.name) none } := by
      cases hs : s.default with
      | none =>
        rw [hs] at hdf
        simp only [Option.isSome_none, Bool.false_eq_true, if_false] at hdf
        simp only [Option.isSome_none, Bool.false_eq_true, if_false, stepActions]
        rw [upd_self _ _ _ hdf, upd_self _ _ _ (by rw [h0]; simp only [Spec.Column.state, hs, Option.map_none])]
      | some x =>
        rw [hs] at hdf
        simp only [Option.isSome_some, if_true] at hdf
        simp only [Option.isSome_some, if_true, stepActions, stepAction, defaultConstraintName, hdf, h0,
          Option.bind_some]
    rw [List.append_assoc, stepActions_app r0]
    cases hu : u.default with
    | none =>
      simp only [List.nil_append]
      rw [r2 _ _ (by simp [upd]; rfl) rfl rfl rfl]
      simp only [setC, upd_upd', Spec.Column.state, hu, hid]
      rfl
    | some x =>
      have hui := uid (by rw [hu]; simp)
      have r1 : stepActions E ({ ts with
            cols := upd ts.cols s.name (some { Spec.Column.state .mssql s with default := none })
            dfs := upd ts.dfs (t "df_" ++ s.name) none })
          [Action.addDefault (defaultConstraintName s.name) x s.name]
          = some { ts with cols := upd ts.cols s.name (some { Spec.Column.state .mssql s with default := some x })
                           dfs := upd ts.dfs (t "df_" ++ s.name) (some s.name) } := by
        simp only [stepActions, stepAction, defaultConstraintName, hcon]
        simp only [upd, if_true, Option.isSome_none, Bool.or_false, Bool.false_eq_true, if_false, Spec.Column.state,
          hid, hui, Option.bind_some, Option.some.injEq, TableState.mk.injEq, true_and]
        constructor
        · funext y; simp only [upd]; split <;> rfl
        · funext y; simp only [upd]; split <;> rfl
      rw [stepActions_app r1, r2 _ _ (by simp [upd]; rfl) rfl rfl rfl]
      simp only [setC, upd_upd', Spec.Column.state, hu, hid, Option.map_some, Option.isSome_some, if_true]
      rfl

/-- SQL Server cannot change the identity property of a column: the change is refused, not dropped silently. -/
theorem C05_mssql_identity_refused {s u : Column} (h : s.identity ≠ u.identity) :
    ∃ e, mutateColumn .mssql s u = .error e := by
  unfold mutateColumn
  dsimp only
  rw [if_pos h]
  exact ⟨_, rfl⟩

/-- The attributes of a column that the clauses are about. -/
def SameAttributes (s u : Column) : Prop :=
  s.ty = u.ty ∧ s.nullable = u.nullable ∧ s.default = u.default ∧ s.identity = u.identity

/-- No clause is emitted iff type, nullability, default and identity agree (and, where the clause also carries the
    comment, i.e. on MySQL, the comments). -/
theorem C05_nothing_emitted_iff (d : Dialect) {s u : Column} {acts : List Action}
    (h : mutateColumn d s u = .ok acts) :
    (if d = .mssql then mssqlDefault s u else []) ++ acts = [] ↔
      SameAttributes s u ∧ (d = .mysql → s.comment d = u.comment d) := by
  unfold SameAttributes
  have base : ∀ (h : (if s = u then Except.ok [] else .ok (
      (if s.ty ≠ u.ty then [Action.setDataType s.name u.ty] else [])
      ++ (if s.nullable && !u.nullable then [Action.setNotNull s.name]
          else if !s.nullable && u.nullable then [Action.dropNotNull s.name] else [])
      ++ (match s.default, u.default with
          | some _, none => [Action.dropDefault s.name]
          | _, some e => if s.default ≠ u.default then [Action.setDefault s.name e] else []
          | none, none => [])
      ++ (if s.identity && !u.identity then [Action.dropIdentity s.name]
          else if !s.identity && u.identity then [Action.addIdentity s.name] else []))
        : Except Err (List Action)) = .ok acts),
      acts = [] ↔ s.ty = u.ty ∧ s.nullable = u.nullable ∧ s.default = u.default ∧ s.identity = u.identity := by
    intro h
    split at h
    · rename_i e
      cases h
      simp [e]
    · cases h
      simp only [List.append_eq_nil_iff, and_assoc]
      refine and_congr ?_ (and_congr ?_ (and_congr ?_ ?_))
      · by_cases e : s.ty = u.ty <;> simp [e]
      · cases s.nullable <;> cases u.nullable <;> simp
      · cases s.default <;> cases u.default <;> simp
      · cases s.identity <;> cases u.identity <;> simp
  cases d with
  | mssql =>
    simp only [if_true, reduceCtorEq, false_implies, and_true, List.append_eq_nil_iff]
    unfold mutateColumn at h
    dsimp only at h
    by_cases e : s.identity = u.identity
    · rw [if_neg (by simpa using e)] at h
      have hd : mssqlDefault s u = [] ↔ s.default = u.default := by
        unfold mssqlDefault
        by_cases e : s.default = u.default
        · simp [e]
        · rw [if_neg e]
          cases hs : s.default <;> cases hu : u.default <;> simp_all
      by_cases e' : s.ty = u.ty ∧ s.nullable = u.nullable
      · rw [if_neg (by simp [e'.1, e'.2])] at h
        cases h
        simp [hd, e, e'.1, e'.2]
      · rw [if_pos (by simpa [Classical.or_iff_not_imp_left] using e')] at h
        cases h
        simp only [List.cons_ne_nil, and_false, false_iff, not_and]
        intro h1 h2; exact absurd ⟨h1, h2⟩ e'
    · rw [if_pos (by simpa using e)] at h; cases h
  | mysql =>
    simp only [reduceCtorEq, if_false, List.nil_append, true_implies]
    unfold mutateColumn at h
    simp only [bind, Except.bind] at h
    split at h
    · rename_i hne
      split at h
      · cases h
      · cases h
        simp only [List.cons_ne_nil, false_iff, not_and]
        intro e
        simp [e.1, e.2.1, e.2.2.1, e.2.2.2] at hne
    · rename_i hne
      simp only [Bool.or_eq_true, decide_eq_true_eq, ne_eq, not_or, Decidable.not_not] at hne
      have hsame : s.ty = u.ty ∧ s.nullable = u.nullable ∧ s.default = u.default ∧ s.identity = u.identity :=
        ⟨hne.1.1.1, hne.1.1.2, hne.1.2, hne.2⟩
      split at h
      · cases h
      · rename_i a ha
        split at h
        · cases h
        · rename_i b hb
          split at h
          · rename_i hab
            split at h
            · cases h
            · cases h
              simp only [List.cons_ne_nil, false_iff, not_and]
              intro _ e; rw [ha, hb] at e; cases e; exact hab rfl
          · rename_i hab
            cases h
            simp only [true_iff]
            refine ⟨hsame, ?_⟩
            rw [ha, hb, Decidable.not_not.1 hab]
  | oracle =>
    simp only [reduceCtorEq, if_false, List.nil_append, false_implies, and_true]
    unfold mutateColumn at h
    dsimp only at h
    by_cases e : s.ty = u.ty ∧ s.nullable = u.nullable ∧ s.default = u.default ∧ s.identity = u.identity
    · rw [if_neg (by simp [e.1, e.2.1, e.2.2.1, e.2.2.2])] at h
      cases h
      exact ⟨fun _ => e, fun _ => rfl⟩
    · have hany : ((if s.ty ≠ u.ty then some u.ty else none).isSome
        || (if s.default ≠ u.default then some (u.default.map (defaultExpr Dialect.oracle u.ty)) else none).isSome
        || (if s.nullable ≠ u.nullable then some u.nullable else none).isSome
        || (if s.identity ≠ u.identity then some u.identity else none).isSome) = true := by
        apply Classical.byContradiction
        intro hn
        simp only [Bool.or_eq_true, not_or] at hn
        obtain ⟨⟨⟨a1, a2⟩, a3⟩, a4⟩ := hn
        apply e
        refine ⟨?_, ?_, ?_, ?_⟩ <;> apply Classical.byContradiction <;> intro e'
        · simp [e'] at a1
        · simp [e'] at a3
        · simp [e'] at a2
        · simp [e'] at a4
      rw [if_pos hany] at h
      cases h
      simp [e]
  | ansi => simpa using base h
  | postgresql => simpa using base h
  | delta => simpa using base h
  | snowflake => simpa using base h

/-- Why the hypothesis `identity` is there: PostgreSQL's DROP NOT NULL is refused while the column is still an
    identity column, and the clause that ends that comes later. -/
theorem C05_identity_to_nullable_refused (E : Engine) (ts : TableState) (n : Text) (c : ColState)
    (h0 : ts.cols n = some c) (hc : c.identity = true) (ty : SqlType) :
    mutateColumn .postgresql { name := n, ty := ty, nullable := false, identity := true }
        { name := n, ty := ty, nullable := true } = .ok [.dropNotNull n, .dropIdentity n]
    ∧ stepActions E ts [.dropNotNull n, .dropIdentity n] = none := by
  constructor
  · unfold mutateColumn
    simp
  · simp [stepActions, stepAction, TableState.onCol, h0, hc]

/-- Why the hypothesis `snowflake` is there: a timestamp default is written as `TIMESTAMP '...'` when the column is
    created, but as a plain string when the default is changed later. -/
theorem C05_snowflake_timestamp_default (E : Engine) (ts : TableState) :
    let lit := t "'2024-01-01 00:00:00'"
    let s : Column := { name := t "x", ty := .timestamp .base none false, nullable := true }
    let u : Column := { s with default := some lit }
    ts.cols (t "x") = some (Spec.Column.state .snowflake s) →
    mutateColumn .snowflake s u = .ok [.setDefault (t "x") lit]
    ∧ ((stepActions E ts [.setDefault (t "x") lit]).bind (fun ts' => ts'.cols (t "x"))).bind ColState.default
        = some lit
    ∧ (Spec.Column.state .snowflake u).default = some (t "TIMESTAMP " ++ lit) := by
  intro lit s u h0
  refine ⟨rfl, ?_, ?_⟩
  · simp [stepActions, stepAction, TableState.onCol, h0, upd, Spec.Column.state, s]
  · decide +kernel

/-- The hypotheses of `C05_alter_exact` are met where all four attributes change. -/
example (E : Engine) (ts : TableState)
    (h0 : ts.cols (t "x") = some (Spec.Column.state .postgresql
      { name := t "x", ty := Example.int4, nullable := true, default := some (t "0") })) :
    stepActions E ts [.setDataType (t "x") Example.int8, .setNotNull (t "x"), .dropDefault (t "x"),
      .addIdentity (t "x")] = some (setC ts (t "x") (Spec.Column.state .postgresql
      { name := t "x", ty := Example.int8, nullable := false, identity := true })) :=
  C05_alter_exact .postgresql (by decide) E
    (s := { name := t "x", ty := Example.int4, nullable := true, default := some (t "0") })
    (u := { name := t "x", ty := Example.int8, nullable := false, identity := true }) rfl rfl
    (fun h => by cases h) (fun _ => ⟨rfl, rfl⟩) (fun _ _ h => by cases h) (fun h => by cases h)
    (fun h => by cases h) ts h0

/-- The hypotheses of `C05_alter_exact_mssql` are met for a change of type, nullability and default. -/
example : let s : Column := { name := t "x", ty := Example.int4, nullable := true, default := some (t "0") }
    let u : Column := { name := t "x", ty := Example.int8, nullable := false, default := some (t "1") }
    mssqlDefault s u = [.dropConstraint (t "df_x"), .addDefault (t "df_x") (t "1") (t "x")]
    ∧ mutateColumn .mssql s u = .ok [.retype (t "x") Example.int8 true] := ⟨rfl, rfl⟩

end PySqlSync
