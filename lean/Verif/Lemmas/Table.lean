/-
Helper lemmas: running the actions of `ALTER TABLE`.
-/
import Verif.Spec.Denote
import Verif.Model.Mutation
import Verif.Lemmas.ObjectDict

set_option autoImplicit false

namespace PySqlSync
open Spec

theorem upd_same {α β : Type} [DecidableEq α] (f : α → β) (k : α) (v : β) : upd f k v k = v := by simp [upd]
theorem upd_ne {α β : Type} [DecidableEq α] (f : α → β) (k x : α) (v : β) (h : x ≠ k) : upd f k v x = f x := by
  simp [upd, h]
theorem upd_upd {α β : Type} [DecidableEq α] (f : α → β) (k : α) (v w : β) : upd (upd f k v) k w = upd f k w := by
  funext x; simp only [upd]; split <;> rfl
theorem upd_self {α β : Type} [DecidableEq α] (f : α → β) (k : α) (v : β) (h : f k = v) : upd f k v = f := by
  funext x; simp only [upd]; split
  · next e => rw [e, h]
  · rfl

/-! ### Runs of actions -/

/-- The actions succeed one after the other and every state after an action satisfies `P`. -/
inductive ActRun (E : Engine) (P : TableState → Prop) : TableState → List Action → TableState → Prop where
  | nil (ts : TableState) : ActRun E P ts [] ts
  | cons {ts ts1 ts' : TableState} {a : Action} {rest : List Action} :
      stepAction E ts a = some ts1 → P ts1 → ActRun E P ts1 rest ts' → ActRun E P ts (a :: rest) ts'

theorem ActRun.steps {E : Engine} {P : TableState → Prop} {ts ts' : TableState} {acts : List Action}
    (h : ActRun E P ts acts ts') : stepActions E ts acts = some ts' := by
  induction h with
  | nil => rfl
  | cons h1 _ _ ih => simp [stepActions, h1, ih]

theorem ActRun.append {E : Engine} {P : TableState → Prop} {a b c : TableState} {l1 l2 : List Action}
    (h1 : ActRun E P a l1 b) (h2 : ActRun E P b l2 c) : ActRun E P a (l1 ++ l2) c := by
  induction h1 with
  | nil => exact h2
  | cons h p _ ih => exact .cons h p (ih h2)

theorem ActRun.mono {E : Engine} {P Q : TableState → Prop} {a b : TableState} {l : List Action}
    (h : ActRun E P a l b) (hPQ : ∀ ts, P ts → Q ts) : ActRun E Q a l b := by
  induction h with
  | nil => exact .nil _
  | cons h p _ ih => exact .cons h (hPQ _ p) ih

theorem ActRun.single {E : Engine} {P : TableState → Prop} {a b : TableState} {x : Action}
    (h : stepAction E a x = some b) (p : P b) : ActRun E P a [x] b := .cons h p (.nil _)

theorem ActRun.final {E : Engine} {P : TableState → Prop} {a b : TableState} {l : List Action}
    (h : ActRun E P a l b) (hl : l ≠ []) : P b := by
  induction h with
  | nil => exact absurd rfl hl
  | cons h p hr ih =>
    cases hr with
    | nil => exact p
    | cons h' p' hr' => exact ih (by simp)

theorem ActRun.good {E : Engine} {P : TableState → Prop} {a b : TableState} {l : List Action}
    (h : ActRun E P a l b) (ha : P a) : P b := by
  cases l with
  | nil => cases h; exact ha
  | cons x l => exact h.final (by simp)

/-- A run over a list of items, each contributing some actions. -/
theorem ActRun.flatMap {E : Engine} {P : TableState → Prop} {α : Type} (f : α → List Action)
    (D : List α → TableState) (l : List α)
    (hstep : ∀ p a s, l = p ++ a :: s → P (D p) → ActRun E P (D p) (f a) (D (p ++ [a]))) (h0 : P (D [])) :
    ActRun E P (D []) (l.flatMap f) (D l) := by
  suffices H : ∀ s p, l = p ++ s → P (D p) → ActRun E P (D p) (s.flatMap f) (D l) from H l [] rfl h0
  intro s
  induction s with
  | nil => intro p hp _; simp at hp; subst hp; exact .nil _
  | cons a s ih =>
    intro p hp hD
    have h1 := hstep p a s hp hD
    have h2 := ih (p ++ [a]) (by simp [hp]) (h1.good hD)
    simpa using h1.append h2

/-! ### Default constraints (SQL Server) -/

open Classical in
/-- The default constraints a table has, given its columns. -/
noncomputable def dfsOf (d : Dialect) (cols : Text → Option ColState) : Text → Option Text := fun m =>
  if d = .mssql ∧ ∃ n, m = defaultConstraintName n then
    (cols (m.drop 3)).bind (fun c => if c.default.isSome then some (m.drop 3) else none)
  else none

theorem df_drop (n : Text) : (defaultConstraintName n).drop 3 = n := by
  simp [defaultConstraintName, t_def]

theorem df_inj {m n : Text} (h : defaultConstraintName m = defaultConstraintName n) : m = n := by
  have := congrArg (List.drop 3) h
  rwa [df_drop, df_drop] at this

theorem dfsOf_df (cols : Text → Option ColState) (n : Text) :
    dfsOf .mssql cols (defaultConstraintName n) =
      (cols n).bind (fun c => if c.default.isSome then some n else none) := by
  unfold dfsOf
  rw [if_pos ⟨rfl, n, rfl⟩, df_drop]

theorem dfsOf_other (d : Dialect) (cols : Text → Option ColState) (m : Text) (h : ∀ n, m ≠ defaultConstraintName n) :
    dfsOf d cols m = none := by
  unfold dfsOf
  rw [if_neg]
  rintro ⟨_, n, hn⟩
  exact h n hn

theorem dfsOf_ne (d : Dialect) (cols : Text → Option ColState) (m : Text) (h : d ≠ .mssql) :
    dfsOf d cols m = none := by
  unfold dfsOf
  rw [if_neg]
  rintro ⟨e, _⟩
  exact h e

/-- A table state whose default constraints are those of its columns. -/
noncomputable def mkT (d : Dialect) (cols : Text → Option ColState) (pk : List Text) (cons : Text → Option ConState) : TableState :=
  ⟨cols, pk, cons, dfsOf d cols⟩

/-- To show that the default constraints match, it is enough to look at the names `df_n`. -/
theorem dfs_ext {d : Dialect} {f : Text → Option Text} {cols : Text → Option ColState}
    (h1 : d ≠ .mssql → ∀ m, f m = none)
    (h2 : d = .mssql → ∀ m, (∀ n, m ≠ defaultConstraintName n) → f m = none)
    (h3 : d = .mssql → ∀ n, f (defaultConstraintName n) =
      (cols n).bind (fun c => if c.default.isSome then some n else none)) : f = dfsOf d cols := by
  funext m
  by_cases hd : d = .mssql
  · by_cases hm : ∃ n, m = defaultConstraintName n
    · obtain ⟨n, rfl⟩ := hm
      rw [h3 hd n, hd, dfsOf_df]
    · have hm' : ∀ n, m ≠ defaultConstraintName n := fun n e => hm ⟨n, e⟩
      rw [h2 hd m hm', dfsOf_other _ _ _ hm']
  · rw [h1 hd m, dfsOf_ne _ _ _ hd]

/-! ### Single actions -/

theorem mkT_ext {d : Dialect} {ts : TableState} {cols : Text → Option ColState} {pk : List Text}
    {cons : Text → Option ConState} (h1 : ts.cols = cols) (h2 : ts.pk = pk) (h3 : ts.cons = cons)
    (h4 : ts.dfs = dfsOf d cols) : ts = mkT d cols pk cons := by
  cases ts; simp only at h1 h2 h3 h4; subst h1 h2 h3 h4; rfl

section
variable {d : Dialect} {E : Engine} {cols : Text → Option ColState} {pk : List Text} {cons : Text → Option ConState}

theorem dfsOf_upd (n : Text) (c : Option ColState)
    (h : d = .mssql → (cols n).bind (fun c => if c.default.isSome then some n else none) =
      c.bind (fun c => if c.default.isSome then some n else none)) : dfsOf d cols = dfsOf d (upd cols n c) := by
  apply dfs_ext
  · intro hd m; exact dfsOf_ne _ _ _ hd
  · intro _ m hm; exact dfsOf_other _ _ _ hm
  · intro hd m
    subst hd
    rw [dfsOf_df]
    by_cases e : m = n
    · subst e; rw [upd_same]; exact h rfl
    · rw [upd_ne _ _ _ _ e]

/-- Adding a column. -/
theorem step_add (n : Text) (spec : ColSpec) (h : cols n = none)
    (hname : spec.defaultName = if d = .mssql then spec.default.map (fun _ => defaultConstraintName n) else none)
    (hcons : d = .mssql → cons (defaultConstraintName n) = none) :
    stepAction E (mkT d cols pk cons) (.addColumn n spec) =
      some (mkT d (upd cols n (some (Spec.ColSpec.state spec))) pk cons) := by
  simp only [stepAction, mkT, h, Option.isSome_none]
  by_cases hd : d = .mssql
  · cases hdef : spec.default with
    | none =>
      have : spec.defaultName = none := by simp [hname, hdef]
      simp only [this]
      rw [← dfsOf_upd]
      · rfl
      · intro _; simp [h, Spec.ColSpec.state, hdef]
    | some e =>
      have hn : spec.defaultName = some (defaultConstraintName n) := by simp [hname, hdef, hd]
      have hdf : dfsOf d cols (defaultConstraintName n) = none := by subst hd; simp [dfsOf_df, h]
      simp only [hn, hcons hd, hdf, Option.isSome_none, Bool.or_self]
      simp only [Bool.false_eq_true, if_false, Option.some.injEq]
      apply mkT_ext <;> try rfl
      apply dfs_ext
      · intro h; exact absurd hd h
      · intro _ m hm
        simp only [upd_ne _ _ _ _ (hm n)]
        exact dfsOf_other _ _ _ hm
      · intro _ m
        simp only
        by_cases e : m = n
        · subst e; simp [upd_same, Spec.ColSpec.state, hdef]
        · rw [upd_ne _ _ _ _ (fun h => e (df_inj h)), hd, dfsOf_df, upd_ne _ _ _ _ e]
  · have : spec.defaultName = none := by simp [hname, hd]
    simp only [this]
    rw [← dfsOf_upd]
    · rfl
    · intro h; exact absurd h hd

/-- A constraint does not involve a column. -/
def Untouched (cons : Text → Option ConState) (n : Text) : Prop := ∀ m c, cons m = some c → n ∉ c.cols

theorem dropCol_eq {ts : TableState} (n : Text) (c : ColState) (h : ts.cols n = some c)
    (hu : E.cascadeDrop = true → Untouched ts.cons n ∧ n ∉ ts.pk) :
    ts.dropCol E n = some { ts with cols := upd ts.cols n none } := by
  unfold TableState.dropCol
  rw [h]
  cases hc : E.cascadeDrop with
  | false => simp
  | true =>
    obtain ⟨hu, hp⟩ := hu hc
    simp only [Option.some.injEq]
    congr 1
    · simp [hp]
    · funext m
      simp only [if_true]
      cases hm : ts.cons m with
      | none => rfl
      | some x => simp [Option.filter, hu m x hm]

/-- Dropping a column without default constraint. -/
theorem step_drop (n : Text) (c : ColState) (h : cols n = some c) (hdef : d = .mssql → c.default = none)
    (hu : E.cascadeDrop = true → Untouched cons n ∧ n ∉ pk) :
    stepAction E (mkT d cols pk cons) (.dropColumn n) = some (mkT d (upd cols n none) pk cons) := by
  simp only [stepAction]
  rw [dropCol_eq n c h (by simpa [mkT] using hu)]
  simp only [mkT, Option.some.injEq]
  rw [← dfsOf_upd]
  intro hd
  simp [h, hdef hd]

/-- Dropping a column together with its default constraint. -/
theorem step_dropDefault (n : Text) (c : ColState) (h : cols n = some c) (hdef : c.default.isSome)
    (hd : d = .mssql) (hu : E.cascadeDrop = true → Untouched cons n ∧ n ∉ pk) :
    stepAction E (mkT d cols pk cons) (.dropDefaultAndColumn (defaultConstraintName n) n) =
      some (mkT d (upd cols n none) pk cons) := by
  subst hd
  have h1 : dfsOf .mssql cols (defaultConstraintName n) = some n := by simp [dfsOf_df, h, hdef]
  simp only [stepAction, mkT, h1, if_true]
  rw [dropCol_eq n c h (by simpa using hu)]
  simp only [Option.some.injEq]
  apply mkT_ext <;> try rfl
  apply dfs_ext
  · intro h; exact absurd rfl h
  · intro _ m hm
    simp only [upd_ne _ _ _ _ (hm n)]
    exact dfsOf_other _ _ _ hm
  · intro _ m
    simp only
    by_cases e : m = n
    · subst e; simp [upd_same]
    · rw [upd_ne _ _ _ _ (fun h => e (df_inj h)), dfsOf_df, upd_ne _ _ _ _ e]

/-- Renaming a column outside the primary key. -/
theorem step_rename (old new : Text) (spec : ColSpec) (c : ColState) (h : cols old = some c) (hnew : cols new = none)
    (hdef : d = .mssql → c.default = none) (hp : old ∉ pk) :
    stepAction E (mkT d cols pk cons) (.renameColumn old new spec) =
      some (mkT d (upd (upd cols old none) new (some c)) pk
        (fun m => (cons m).map (ConState.mapCols (fun n => if n = old then new else n)))) := by
  have hne : new ≠ old := by rintro rfl; simp [h] at hnew
  simp only [stepAction, mkT, h, hnew, Option.isSome_none, Bool.false_eq_true, if_false, Option.some.injEq]
  apply mkT_ext
  · rfl
  · simp only
    conv => rhs; rw [← List.map_id pk]
    apply List.map_congr_left
    intro x hx
    have : x ≠ old := fun e => hp (e ▸ hx)
    simp [this]
  · rfl
  · apply dfs_ext
    · intro hd m; simp [dfsOf_ne _ _ _ hd]
    · intro _ m hm; simp [dfsOf_other _ _ _ hm]
    · intro hd m
      subst hd
      simp only [dfsOf_df]
      by_cases e : m = old
      · subst e
        have h0 : c.default = none := hdef rfl
        simp only [h, Option.bind_some, h0]
        simp [upd, Ne.symm hne]
      · by_cases e2 : m = new
        · subst e2
          simp [hnew, upd, hdef rfl]
        · rw [upd_ne _ _ _ _ e2, upd_ne _ _ _ _ e]
          cases cols m with
          | none => rfl
          | some x => cases hx : x.default <;> simp [hx, e]

/-- Changing one column. -/
theorem step_onCol (n : Text) (c c' : ColState) (f : ColState → Option ColState) (h : cols n = some c)
    (hf : f c = some c') (hdef : d = .mssql → c.default.isSome = c'.default.isSome) :
    (mkT d cols pk cons).onCol n f = some (mkT d (upd cols n (some c')) pk cons) := by
  simp only [TableState.onCol, mkT, h, hf, Option.map_some, Option.some.injEq]
  rw [← dfsOf_upd]
  intro hd
  simp only [h, Option.bind_some, hdef hd]

theorem step_addConstraint (n : Text) (spec : ConSpec) (h : cons n = none)
    (hn : d = .mssql → ∀ x, n ≠ defaultConstraintName x) :
    stepAction E (mkT d cols pk cons) (.addConstraint n spec) =
      some (mkT d cols pk (upd cons n (some (match spec with
        | .unique cs => .unique cs
        | .foreign cs k rs => .foreign cs k.key rs
        | .check c => .check c (E.condCols c))))) := by
  have hdf : dfsOf d cols n = none := by
    by_cases hd : d = .mssql
    · exact dfsOf_other _ _ _ (hn hd)
    · exact dfsOf_ne _ _ _ hd
  simp [stepAction, mkT, h, hdf]
  split <;> rfl

theorem step_dropConstraint (n : Text) (c : ConState) (h : cons n = some c)
    (hn : d = .mssql → ∀ x, n ≠ defaultConstraintName x) :
    stepAction E (mkT d cols pk cons) (.dropConstraint n) = some (mkT d cols pk (upd cons n none)) := by
  have hdf : dfsOf d cols n = none := by
    by_cases hd : d = .mssql
    · exact dfsOf_other _ _ _ (hn hd)
    · exact dfsOf_ne _ _ _ hd
  simp [stepAction, mkT, h, hdf]

/-- SQL Server: dropping a column's default. -/
theorem step_dropDf (n : Text) (c : ColState) (h : cols n = some c) (hdef : c.default.isSome) (hd : d = .mssql) :
    stepAction E (mkT d cols pk cons) (.dropConstraint (defaultConstraintName n)) =
      some (mkT d (upd cols n (some { c with default := none })) pk cons) := by
  subst hd
  have h1 : dfsOf .mssql cols (defaultConstraintName n) = some n := by simp [dfsOf_df, h, hdef]
  simp only [stepAction, mkT, h1, h, Option.some.injEq]
  apply mkT_ext <;> try rfl
  apply dfs_ext
  · intro h; exact absurd rfl h
  · intro _ m hm
    simp only [upd_ne _ _ _ _ (hm n)]
    exact dfsOf_other _ _ _ hm
  · intro _ m
    simp only
    by_cases e : m = n
    · subst e; simp [upd_same]
    · rw [upd_ne _ _ _ _ (fun h => e (df_inj h)), dfsOf_df, upd_ne _ _ _ _ e]

/-- SQL Server: adding a column's default. -/
theorem step_addDf (n e : Text) (c : ColState) (h : cols n = some c) (hdef : c.default = none)
    (hi : c.identity = false) (hd : d = .mssql) (hcons : cons (defaultConstraintName n) = none) :
    stepAction E (mkT d cols pk cons) (.addDefault (defaultConstraintName n) e n) =
      some (mkT d (upd cols n (some { c with default := some e })) pk cons) := by
  subst hd
  have h1 : dfsOf .mssql cols (defaultConstraintName n) = none := by simp [dfsOf_df, h, hdef]
  simp only [stepAction, mkT, h1, h, hcons, hdef, hi, Option.isSome_none, Bool.or_self, Bool.false_eq_true, if_false,
    Option.some.injEq]
  apply mkT_ext <;> try rfl
  apply dfs_ext
  · intro h; exact absurd rfl h
  · intro _ m hm
    simp only [upd_ne _ _ _ _ (hm n)]
    exact dfsOf_other _ _ _ hm
  · intro _ m
    simp only
    by_cases e : m = n
    · subst e; simp [upd_same]
    · rw [upd_ne _ _ _ _ (fun h => e (df_inj h)), dfsOf_df, upd_ne _ _ _ _ e]

end

/-! ### Fits is preserved -/

section
variable {K : Kinds} {d : Dialect} {cols : Text → Option ColState} {pk : List Text} {cons : Text → Option ConState}

theorem mkT_fits
    (h1 : ∀ n c, cols n = some c → c.Ok ∧ TypeFits K c.ty)
    (h2 : ∀ n ∈ pk, ∃ c, cols n = some c ∧ c.nullable = false)
    (h3 : ∀ n c, cons n = some c → c.Fits K cols) : (mkT d cols pk cons).Fits K where
  cols := h1
  pk := h2
  cons := h3
  dfs := by
    intro n m h
    simp only [mkT, dfsOf] at h
    split at h
    · cases hc : cols (n.drop 3) with
      | none => simp [hc] at h
      | some c =>
        simp only [hc, Option.bind_some] at h
        split at h
        · simp only [Option.some.injEq] at h
          subst h
          refine ⟨c, hc, ?_⟩
          intro e
          simp_all
        · simp at h
    · simp at h

/-- Setting a column to an admissible definition. -/
theorem fits_setCol (h : (mkT d cols pk cons).Fits K) (n : Text) (c : ColState) (hok : c.Ok) (hty : TypeFits K c.ty)
    (hpk : n ∈ pk → c.nullable = false) : (mkT d (upd cols n (some c)) pk cons).Fits K := by
  apply mkT_fits
  · intro m x hx
    by_cases e : m = n
    · subst e; rw [upd_same] at hx; cases hx; exact ⟨hok, hty⟩
    · rw [upd_ne _ _ _ _ e] at hx; exact h.cols m x hx
  · intro m hm
    by_cases e : m = n
    · subst e; exact ⟨c, upd_same _ _ _, hpk hm⟩
    · rw [upd_ne _ _ _ _ e]; exact h.pk m hm
  · intro m x hx
    obtain ⟨h1, h2⟩ := h.cons m x hx
    refine ⟨fun y hy => ?_, h2⟩
    by_cases e : y = n
    · subst e; simp [upd_same]
    · rw [upd_ne _ _ _ _ e]; exact h1 y hy

/-- Removing a column that nothing involves. -/
theorem fits_dropCol (h : (mkT d cols pk cons).Fits K) (n : Text) (hu : Untouched cons n) (hp : n ∉ pk) :
    (mkT d (upd cols n none) pk cons).Fits K := by
  apply mkT_fits
  · intro m x hx
    by_cases e : m = n
    · subst e; rw [upd_same] at hx; cases hx
    · rw [upd_ne _ _ _ _ e] at hx; exact h.cols m x hx
  · intro m hm
    have e : m ≠ n := fun e => hp (e ▸ hm)
    rw [upd_ne _ _ _ _ e]; exact h.pk m hm
  · intro m x hx
    obtain ⟨h1, h2⟩ := h.cons m x hx
    refine ⟨fun y hy => ?_, h2⟩
    have e : y ≠ n := fun e => hu m x hx (e ▸ hy)
    rw [upd_ne _ _ _ _ e]; exact h1 y hy

theorem fits_setCon (h : (mkT d cols pk cons).Fits K) (n : Text) (c : Option ConState)
    (hc : ∀ x, c = some x → x.Fits K cols) : (mkT d cols pk (upd cons n c)).Fits K := by
  apply mkT_fits
  · exact h.cols
  · exact h.pk
  · intro m x hx
    by_cases e : m = n
    · subst e; rw [upd_same] at hx; exact hc x hx
    · rw [upd_ne _ _ _ _ e] at hx; exact h.cons m x hx

end
end PySqlSync
