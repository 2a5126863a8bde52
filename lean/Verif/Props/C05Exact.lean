/-
C05, exactly: for which changes of a column the clause that is emitted does what it should.
-/
import Verif.Props.C05

set_option autoImplicit false

namespace PySqlSync
open Spec

/-- Which changes of a column are possible (all dialects but SQL Server, where defaults are constraints).
    Where a clause lists single changes, the generation of values must not be given up together with NOT NULL, or for a default; a default that
    is written differently for the new data type (`TIMESTAMP '...'`) must not have changed along with it (where clauses list single
    changes), and must have changed (where they do not restate the definition). -/
structure Spec.Alterable (d : Dialect) (s u : Column) : Prop where
  identity : d ≠ .mysql → d ≠ .oracle → s.identity = true → u.identity = false → u.nullable = false ∧ u.default = none
  written : d ≠ .mysql → d ≠ .oracle → s.default ≠ u.default → ∀ e, u.default = some e → defaultExpr d u.ty e = e
  same : d ≠ .mysql → s.default = u.default → ∀ e, u.default = some e → defaultExpr d s.ty e = defaultExpr d u.ty e

namespace C05

/-- The effect of an action on the column it is about. -/
def colAct : Action → ColState → Option ColState
  | .setDataType _ ty, c => some { c with ty := ty }
  | .setNotNull _, c => some { c with nullable := false }
  | .dropNotNull _, c => if c.identity then none else some { c with nullable := true }
  | .setDefault _ e, c => if c.identity then none else some { c with default := some e }
  | .dropDefault _, c => if c.identity then none else some { c with default := none }
  | .addIdentity _, c => if c.identity || c.nullable || c.default.isSome then none else some { c with identity := true }
  | .dropIdentity _, c => if c.identity then some { c with identity := false } else none
  | _, _ => none

def colActs : List Action → ColState → Option ColState
  | [], c => some c
  | a :: rest, c => (colAct a c).bind (colActs rest)

/-- The actions that list single changes of a column. -/
def Single (n : Text) : Action → Prop
  | .setDataType m _ | .setNotNull m | .dropNotNull m | .setDefault m _ | .dropDefault m | .addIdentity m | .dropIdentity m => m = n
  | _ => False

theorem run_single (E : Engine) (n : Text) : ∀ (acts : List Action) (ts : TableState) (c : ColState), (∀ a ∈ acts, Single n a) →
    stepActions E (setC ts n c) acts = (colActs acts c).map (setC ts n) := by
  intro acts
  induction acts with
  | nil => intro ts c _; rfl
  | cons a acts ih =>
    intro ts c h
    have ha := h a List.mem_cons_self
    have key : stepAction E (setC ts n c) a = (colAct a c).map (setC ts n) := by
      cases a <;> first
        | exact False.elim ha
        | (have hm : _ = n := ha
           subst hm
           exact onCol_setC ts _ c _)
    simp only [stepActions, key, colActs]
    cases colAct a c with
    | none => rfl
    | some c' => simpa using ih ts c' (fun b hb => h b (List.mem_cons_of_mem _ hb))

theorem setC_inj {ts : TableState} {n : Text} {c c' : ColState} (h : setC ts n c = setC ts n c') : c = c' := by
  have := congrArg (fun x => x.cols n) h
  simpa [setC, upd] using this

theorem map_setC {ts : TableState} {n : Text} {x : Option ColState} {c : ColState} : x.map (setC ts n) = some (setC ts n c) ↔ x = some c := by
  cases x with
  | none => simp
  | some y =>
    simp only [Option.map_some, Option.some.injEq]
    exact ⟨setC_inj, fun h => h ▸ rfl⟩

theorem colActs_append (a b : List Action) (c : ColState) : colActs (a ++ b) c = (colActs a c).bind (colActs b) := by
  induction a generalizing c with
  | nil => rfl
  | cons x a ih =>
    simp only [List.cons_append, colActs]
    cases colAct x c with
    | none => rfl
    | some c' => simpa using ih c'

/-- The clauses for one change each. -/
def typeActs (s u : Column) : List Action := if s.ty ≠ u.ty then [.setDataType s.name u.ty] else []
def nullActs (s u : Column) : List Action :=
  if s.nullable && !u.nullable then [.setNotNull s.name] else if !s.nullable && u.nullable then [.dropNotNull s.name] else []
def defaultActs (s u : Column) : List Action :=
  match s.default, u.default with
  | some _, none => [.dropDefault s.name]
  | _, some e => if s.default ≠ u.default then [.setDefault s.name e] else []
  | none, none => []
def identityActs (s u : Column) : List Action :=
  if s.identity && !u.identity then [.dropIdentity s.name] else if !s.identity && u.identity then [.addIdentity s.name] else []

theorem single_acts (s u : Column) : ∀ a ∈ typeActs s u ++ nullActs s u ++ defaultActs s u ++ identityActs s u, Single s.name a := by
  intro a ha
  simp only [List.mem_append] at ha
  rcases ha with ((ha | ha) | ha) | ha
  · unfold typeActs at ha; split at ha <;> simp at ha; subst ha; rfl
  · unfold nullActs at ha
    split at ha
    · simp at ha; subst ha; rfl
    · split at ha <;> simp at ha; subst ha; rfl
  · unfold defaultActs at ha
    split at ha
    · simp at ha; subst ha; rfl
    · split at ha <;> simp at ha; subst ha; rfl
    · simp at ha
  · unfold identityActs at ha
    split at ha
    · simp at ha; subst ha; rfl
    · split at ha <;> simp at ha; subst ha; rfl

theorem typeActs_eff (s u : Column) (c : ColState) (h : c.ty = s.ty) : colActs (typeActs s u) c = some { c with ty := u.ty } := by
  unfold typeActs
  split
  · rfl
  · rename_i e
    have e : s.ty = u.ty := by simpa using e
    show some c = _
    rw [← e, ← h]

theorem nullActs_eff (s u : Column) (c : ColState) (h : c.nullable = s.nullable) :
    colActs (nullActs s u) c = if s.nullable = false ∧ u.nullable = true ∧ c.identity = true then none else some { c with nullable := u.nullable } := by
  unfold nullActs
  cases hs : s.nullable <;> cases hu : u.nullable <;> cases hi : c.identity <;> simp [colActs, colAct, hi, h, hs]
  all_goals (cases c; simp_all)

theorem defaultActs_eff (s u : Column) (c : ColState) :
    colActs (defaultActs s u) c = if s.default = u.default then some c else if c.identity = true then none
      else some { c with default := u.default } := by
  unfold defaultActs
  cases hs : s.default with
  | none => cases hu : u.default <;> cases hi : c.identity <;> simp [colActs, colAct, hi]
  | some x =>
    cases hu : u.default with
    | none => cases hi : c.identity <;> simp [colActs, colAct, hi]
    | some e =>
      by_cases hxe : x = e
      · simp [hxe, colActs]
      · cases hi : c.identity <;> simp [hxe, colActs, colAct, hi]

theorem identityActs_eff (s u : Column) (c : ColState) (h : c.identity = s.identity) :
    colActs (identityActs s u) c = if s.identity = false ∧ u.identity = true ∧ (c.nullable = true ∨ c.default.isSome = true) then none
      else some { c with identity := u.identity } := by
  unfold identityActs
  cases hs : s.identity <;> cases hu : u.identity <;> simp [colActs, colAct, h, hs]
  all_goals (cases c; simp_all)

theorem base_exact (d : Dialect) (hd1 : d ≠ .mysql) (hd2 : d ≠ .oracle) {s u : Column}
    (okS : (Spec.Column.state d s).Ok) (okU : (Spec.Column.state d u).Ok) :
    colActs (typeActs s u ++ nullActs s u ++ defaultActs s u ++ identityActs s u) (Spec.Column.state d s) = some (Spec.Column.state d u) ↔
      Alterable d s u := by
  rw [colActs_append, colActs_append, colActs_append, typeActs_eff s u _ rfl, Option.bind_some, nullActs_eff s u _ rfl]
  have hS : s.identity = true → s.nullable = false ∧ s.default = none := by
    intro h; have := okS h; simpa [Spec.Column.state] using this
  have hU : u.identity = true → u.nullable = false ∧ u.default = none := by
    intro h; have := okU h; simpa [Spec.Column.state] using this
  have fin : ∀ (x : Option Text), (colActs (identityActs s u)
      { ty := u.ty, nullable := u.nullable, default := x, identity := s.identity } = some (Spec.Column.state d u)) ↔
      x = u.default.map (defaultExpr d u.ty) := by
    intro x
    rw [identityActs_eff _ _ _ rfl]
    split
    · rename_i h
      obtain ⟨h1, h2, h3⟩ := h
      obtain ⟨h4, h5⟩ := hU h2
      rcases h3 with h3 | h3
      · dsimp only at h3; rw [h4] at h3; cases h3
      · dsimp only at h3
        refine iff_of_false (by simp) ?_
        intro e
        rw [e, h5] at h3
        cases h3
    · simp only [Spec.Column.state, Option.some.injEq, ColState.mk.injEq, true_and, and_true]
  have hnone : ∀ (x y : Option ColState) (f : ColState → Option ColState), (none : Option ColState).bind f = y ↔ none = y := fun _ _ _ => Iff.rfl
  by_cases h1 : s.nullable = false ∧ u.nullable = true ∧ s.identity = true
  · rw [if_pos (by exact h1)]
    refine iff_of_false (by simp) ?_
    intro ha
    have hui : u.identity = false := by
      cases hui : u.identity with
      | false => rfl
      | true => have := (hU hui).1; rw [h1.2.1] at this; cases this
    have := (ha.identity hd1 hd2 h1.2.2 hui).1
    rw [h1.2.1] at this
    cases this
  · rw [if_neg (by exact h1), Option.bind_some, defaultActs_eff]
    by_cases h2 : s.default = u.default
    · rw [if_pos h2, Option.bind_some]
      show colActs (identityActs s u) { ty := u.ty, nullable := u.nullable, default := s.default.map (defaultExpr d s.ty), identity := s.identity } = _ ↔ _
      rw [fin, h2]
      constructor
      · intro h
        refine ⟨?_, fun _ _ h3 => absurd h2 h3, ?_⟩
        · intro _ _ hsi hui
          have hn := (hS hsi)
          refine ⟨?_, h2 ▸ hn.2⟩
          cases hun : u.nullable with
          | false => rfl
          | true => exact absurd ⟨hn.1, hun, hsi⟩ h1
        · intro _ _ e he
          rw [he] at h
          simpa using h
      · intro h
        cases hu : u.default with
        | none => rfl
        | some e => simpa using h.same hd1 h2 e hu
    · rw [if_neg h2]
      show (if s.identity = true then none else _).bind _ = _ ↔ _
      cases hsi : s.identity with
      | true =>
        rw [if_pos rfl]
        refine iff_of_false (by simp) ?_
        intro ha
        cases hui : u.identity with
        | true => exact h2 ((hS hsi).2.trans (hU hui).2.symm)
        | false => exact h2 ((hS hsi).2.trans (ha.identity hd1 hd2 hsi hui).2.symm)
      | false =>
        rw [if_neg (by simp), Option.bind_some]
        have := fin u.default
        rw [hsi] at this
        show colActs (identityActs s u) { ty := u.ty, nullable := u.nullable, default := u.default, identity := s.identity } = _ ↔ _
        rw [hsi, this]
        constructor
        · intro h
          refine ⟨(by intro _ _ h'; rw [hsi] at h'; cases h'), ?_, fun _ h3 => absurd h3 h2⟩
          intro _ _ _ e he
          rw [he] at h
          simpa using h.symm
        · intro h
          cases hu : u.default with
          | none => rfl
          | some e => simp [h.written hd1 hd2 h2 e hu]

end C05

/-- **C05, exactly.**  For every pair of columns with the same name, both as a table may have them (a column with generated values is
    not NULL and has no default), and every table that has the first: the clause emitted for the change (if it is not refused) makes it
    the second and leaves the rest of the table as it is, if and only if the change is `Alterable`. -/
theorem C05_alter_exactly (d : Dialect) (hd : d ≠ .mssql) (E : Engine) {s u : Column} (hname : s.name = u.name)
    {acts : List Action} (h : mutateColumn d s u = .ok acts) (okS : (Spec.Column.state d s).Ok) (okU : (Spec.Column.state d u).Ok)
    (ts : TableState) (h0 : ts.cols s.name = some (Spec.Column.state d s)) :
    stepActions E ts acts = some (setC ts u.name (Spec.Column.state d u)) ↔ Alterable d s u := by
  have base : d ≠ .mysql → d ≠ .oracle →
      (if s = u then Except.ok [] else .ok (C05.typeActs s u ++ C05.nullActs s u ++ C05.defaultActs s u ++ C05.identityActs s u)
        : Except Err (List Action)) = .ok acts →
      (stepActions E ts acts = some (setC ts u.name (Spec.Column.state d u)) ↔ Alterable d s u) := by
    intro h1 h2 h
    rw [← hname]
    have hset : ∀ c, setC (setC ts s.name (Spec.Column.state d s)) s.name c = setC ts s.name c := by
      intro c
      unfold setC
      congr 1
      funext x
      simp only [upd]
      split <;> rfl
    by_cases e : s = u
    · subst e
      rw [if_pos rfl] at h
      cases h
      refine iff_of_true (by rw [setC_self h0]; rfl) ⟨?_, fun _ _ h => absurd rfl h, fun _ _ _ _ => rfl⟩
      intro _ _ h h'
      rw [h] at h'
      cases h'
    · rw [if_neg e] at h
      cases h
      rw [← C05.base_exact d h1 h2 okS okU]
      have key := C05.run_single E s.name _ (ts := setC ts s.name (Spec.Column.state d s)) (c := Spec.Column.state d s) (C05.single_acts s u)
      rw [hset, setC_self h0] at key
      rw [key]
      exact C05.map_setC
  cases d with
  | mssql => exact absurd rfl hd
  | mysql =>
    have ha : Alterable .mysql s u := ⟨fun h => absurd rfl h, fun h => absurd rfl h, fun h => absurd rfl h⟩
    exact iff_of_true (C05_alter_exact .mysql (by simp) E hname h okS okU (fun h => absurd rfl h) (fun h => by cases h)
      (fun e => by
        show s.default.map (fun x => x) = u.default.map (fun x => x)
        rw [e]) ts h0) ha
  | oracle =>
    constructor
    · intro hr
      refine ⟨fun _ h => absurd rfl h, fun _ h => absurd rfl h, ?_⟩
      intro _ e x hx
      -- the clause does not restate a default that has not changed
      have hdef : ∀ ts', stepActions E ts acts = some ts' → ∃ c, ts'.cols s.name = some c ∧ c.default = (Spec.Column.state .oracle s).default := by
        intro ts' hs
        unfold mutateColumn at h
        dsimp only at h
        rw [if_neg (c := s.default ≠ u.default) (by simpa using e)] at h
        revert h
        generalize (if s.ty ≠ u.ty then some u.ty else none) = a
        generalize (if s.nullable ≠ u.nullable then some u.nullable else none) = b
        generalize (if s.identity ≠ u.identity then some u.identity else none) = g
        intro h
        split at h
        · cases h
          simp only [stepActions, stepAction, TableState.onCol, h0, Option.getD_none, Option.map_some, Option.bind_some,
            Option.some.injEq] at hs
          subst hs
          exact ⟨_, if_pos rfl, rfl⟩
        · cases h
          cases hs
          exact ⟨_, h0, rfl⟩
      obtain ⟨c, hc, hcd⟩ := hdef _ hr
      rw [← hname] at hc
      simp only [setC, upd, if_true, Option.some.injEq] at hc
      subst hc
      simp only [Spec.Column.state, e, hx, Option.map_some, Option.some.injEq] at hcd
      exact hcd.symm
    · intro ha
      refine C05_alter_exact .oracle (by simp) E hname h okS okU (fun _ h => absurd rfl h) (fun h => by cases h) ?_ ts h0
      intro e
      simp only [Spec.Column.state, e]
      cases hu : u.default with
      | none => rfl
      | some x => simpa using ha.same (by simp) e x hu
  | ansi => exact base (by simp) (by simp) h
  | postgresql => exact base (by simp) (by simp) h
  | delta => exact base (by simp) (by simp) h
  | snowflake => exact base (by simp) (by simp) h

/-- **C05.**  In particular on PostgreSQL (and with the ANSI and Delta variants), for all changes but the one from generated values to NULL or
    to a default. -/
theorem C05_alter_postgresql (E : Engine) {s u : Column} (hname : s.name = u.name) {acts : List Action}
    (h : mutateColumn .postgresql s u = .ok acts) (okS : (Spec.Column.state .postgresql s).Ok) (okU : (Spec.Column.state .postgresql u).Ok)
    (ts : TableState) (h0 : ts.cols s.name = some (Spec.Column.state .postgresql s)) :
    stepActions E ts acts = some (setC ts u.name (Spec.Column.state .postgresql u)) ↔
      ¬ (s.identity = true ∧ u.identity = false ∧ (u.nullable = true ∨ u.default.isSome = true)) := by
  rw [C05_alter_exactly .postgresql (by simp) E hname h okS okU ts h0]
  constructor
  · rintro ha ⟨h1, h2, h3⟩
    obtain ⟨h4, h5⟩ := ha.identity (by simp) (by simp) h1 h2
    rcases h3 with h3 | h3
    · rw [h4] at h3; cases h3
    · rw [h5] at h3; cases h3
  · intro hn
    refine ⟨?_, fun _ _ _ _ _ => rfl, fun _ _ _ _ => rfl⟩
    intro _ _ h1 h2
    constructor
    · cases hu : u.nullable with
      | false => rfl
      | true => exact absurd ⟨h1, h2, .inl hu⟩ hn
    · cases hu : u.default with
      | none => rfl
      | some e => exact absurd ⟨h1, h2, .inr (by rw [hu]; rfl)⟩ hn

/-- A change of type, nullability and default that is possible on every dialect, and one from generated values that is not on PostgreSQL. -/
example : (∀ d, Alterable d { name := t "x", ty := .varChar .base none, nullable := true } { name := t "x", ty := .integer .base 4 true none none, nullable := false, default := some (t "1") }) ∧
    ¬ Alterable .postgresql { name := t "x", ty := .integer .base 4 true none none, nullable := false, identity := true }
      { name := t "x", ty := .integer .base 4 true none none, nullable := true } := by
  constructor
  · intro d
    refine ⟨by simp, ?_, by simp⟩
    intro _ _ _ e he
    have e' : e = t "1" := by simpa using he.symm
    subst e'
    cases d <;> decide +kernel
  · intro h
    have := h.identity (by simp) (by simp) rfl rfl
    simp at this

end PySqlSync
