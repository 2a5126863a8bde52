/-
Helper lemmas: databases and runs of statements.
-/
import Verif.Lemmas.TableAlter

set_option autoImplicit false

namespace PySqlSync
open Spec

section
variable {E : Engine}

theorem runs_append {a b c : Db} {l1 l2 : List Stmt} (h1 : Runs E a l1 b) (h2 : Runs E b l2 c) : Runs E a (l1 ++ l2) c := by
  induction h1 with
  | nil => exact h2
  | cons h v _ ih => exact .cons h v (ih h2)

theorem runs_single {a b : Db} {s : Stmt} (h : step E a s = some b) (v : Valid b) : Runs E a [s] b := .cons h v (.nil _)

theorem runs_valid {a b : Db} {l : List Stmt} (h : Runs E a l b) (v : Valid a) : Valid b := by
  induction h with
  | nil => exact v
  | cons _ v1 _ ih => exact ih v1

/-- A statement that changes nothing. -/
theorem runs_skip {a : Db} {s : Stmt} (h : step E a s = some a) (v : Valid a) : Runs E a [s] a := runs_single h v

theorem runs_skips {a : Db} {l : List Stmt} (h : ∀ s ∈ l, step E a s = some a) (v : Valid a) : Runs E a l a := by
  induction l with
  | nil => exact .nil _
  | cons s l ih => exact .cons (h s (by simp)) v (ih (fun x hx => h x (by simp [hx])))

/-- A run over a list of items, each contributing some statements. -/
theorem runs_flatMap {α : Type} (f : α → List Stmt) (D : List α → Db) (l : List α)
    (hstep : ∀ p a s, l = p ++ a :: s → Valid (D p) → Runs E (D p) (f a) (D (p ++ [a]))) (h0 : Valid (D [])) :
    Runs E (D []) (l.flatMap f) (D l) := by
  suffices H : ∀ s p, l = p ++ s → Valid (D p) → Runs E (D p) (s.flatMap f) (D l) from H l [] rfl h0
  intro s
  induction s with
  | nil => intro p hp _; simp at hp; subst hp; exact .nil _
  | cons a s ih =>
    intro p hp hD
    have h1 := hstep p a s hp hD
    have h2 := ih (p ++ [a]) (by simp [hp]) (runs_valid h1 hD)
    simpa using runs_append h1 h2

/-! ### Replacing an object -/

theorem set_same (db : Db) (k : Key) (o : Option Obj) : (db.set k o).objs k = o := by simp [Db.set, upd]
theorem set_ne (db : Db) (k x : Key) (o : Option Obj) (h : x ≠ k) : (db.set k o).objs x = db.objs x := by
  simp [Db.set, upd, h]
theorem set_set (db : Db) (k : Key) (o o' : Option Obj) : (db.set k o).set k o' = db.set k o' := by
  simp [Db.set, upd_upd]
theorem set_self (db : Db) (k : Key) (o : Option Obj) (h : db.objs k = o) : db.set k o = db := by
  cases db; simp only [Db.set] at *; rw [upd_self _ _ _ h]

theorem kinds_set (db : Db) (k : Key) (o : Option Obj) : (db.set k o).kinds = upd db.kinds k (o.map Obj.kind) := by
  funext x
  simp only [Db.kinds, Db.set, upd]
  split <;> rfl

theorem kinds_set_same (db : Db) (k : Key) (o o' : Obj) (h : db.objs k = some o) (hk : o'.kind = o.kind) :
    (db.set k (some o')).kinds = db.kinds := by
  rw [kinds_set]
  apply upd_self
  simp [Db.kinds, h, hk]

/-- Replacing an object by one of the same kind. -/
theorem valid_replace {db : Db} (v : Valid db) {k : Key} {o o' : Obj} (h : db.objs k = some o) (hk : o'.kind = o.kind)
    (hf : o'.Fits db.kinds) : Valid (db.set k (some o')) := by
  refine ⟨?_, ?_⟩
  · intro x y hy
    by_cases e : x = k
    · subst e; exact v.schema _ _ h
    · rw [set_ne _ _ _ _ e] at hy; exact v.schema _ _ hy
  · intro x y hy
    rw [kinds_set_same db k o o' h hk]
    by_cases e : x = k
    · subst e; rw [set_same] at hy; cases hy; exact hf
    · rw [set_ne _ _ _ _ e] at hy; exact v.fits _ _ hy

/-! ### Kinds -/

/-- Every name that denotes something in `K` denotes the same in `K'`. -/
def KLe (K K' : Kinds) : Prop := ∀ k x, K k = some x → K' k = some x

theorem typeFits_mono {K K' : Kinds} (h : KLe K K') {ty : SqlType} (hf : TypeFits K ty) : TypeFits K' ty := by
  intro k hk
  rcases hf k hk with e | e
  · exact .inl (h _ _ e)
  · exact .inr (h _ _ e)

theorem conFits_mono {K K' : Kinds} (h : KLe K K') {cols : Text → Option ColState} {c : ConState}
    (hf : c.Fits K cols) : c.Fits K' cols := by
  refine ⟨hf.1, ?_⟩
  have := hf.2
  cases c <;> simp only at this ⊢
  exact h _ _ this

theorem tabFits_mono {K K' : Kinds} (h : KLe K K') {ts : TableState} (hf : ts.Fits K) : ts.Fits K' where
  cols := fun n c hc => ⟨(hf.cols n c hc).1, typeFits_mono h (hf.cols n c hc).2⟩
  pk := hf.pk
  cons := fun n c hc => conFits_mono h (hf.cons n c hc)
  dfs := hf.dfs

theorem objFits_mono {K K' : Kinds} (h : KLe K K') {o : Obj} (hf : o.Fits K) : o.Fits K' := by
  cases o with
  | enum vs => trivial
  | struct attrs => exact fun n ty hn => typeFits_mono h (hf n ty hn)
  | table ts => exact tabFits_mono h hf

theorem isTable_of_kind {db : Db} {k : Key} {pk : List Text} (h : db.kinds k = some (.table pk)) : db.isTable k = true := by
  unfold Db.kinds at h
  cases ho : db.objs k with
  | none => simp [ho] at h
  | some o =>
    cases o with
    | enum vs => simp [ho, Obj.kind] at h
    | struct a => simp [ho, Obj.kind] at h
    | table ts => simp [Db.isTable, ho]

theorem hasColumn_table {db : Db} {k : Key} {ts : TableState} (h : db.objs k = some (.table ts)) (n : Text) :
    db.hasColumn k n = (ts.cols n).isSome := by
  simp [Db.hasColumn, h]

/-! ### Altering one table -/

section
variable {db : Db} {q : QId} {pk : List Text} {d : Dialect}

/-- The database with another state of the table. -/
def put (db : Db) (q : QId) (ts : TableState) : Db := db.set q.key (some (.table ts))

theorem put_kinds {ts0 : TableState} (h0 : db.objs q.key = some (.table ts0)) (hpk : ts0.pk = pk)
    {ts : TableState} (h : ts.pk = pk) : (put db q ts).kinds = db.kinds := by
  apply kinds_set_same _ _ _ _ h0
  simp [Obj.kind, h, hpk]

theorem put_valid (v : Valid db) {ts0 : TableState} (h0 : db.objs q.key = some (.table ts0)) (hpk : ts0.pk = pk)
    {ts : TableState} (h : Good db.kinds pk ts) : Valid (put db q ts) := by
  apply valid_replace v h0
  · simp [Obj.kind, h.2, hpk]
  · exact h.1

theorem put_objs (ts : TableState) : (put db q ts).objs q.key = some (.table ts) := set_same _ _ _

theorem put_put (ts ts' : TableState) : put (put db q ts) q ts' = put db q ts' := set_set _ _ _ _

theorem put_step {ts ts' : TableState} {acts : List Action} (h : stepActions E ts acts = some ts') :
    step E (put db q ts) (.alterTable q acts) = some (put db q ts') := by
  simp only [step, put_objs, h, Option.map_some, Option.some.injEq]
  exact set_set _ _ _ _

variable (v : Valid db) {ts0 : TableState} (h0 : db.objs q.key = some (.table ts0)) (hpk : ts0.pk = pk)
include v h0 hpk

theorem runs_each {ts ts' : TableState} {acts : List Action}
    (h : ActRun E (Good db.kinds pk) ts acts ts') :
    Runs E (put db q ts) (acts.map (fun a => .alterTable q [a])) (put db q ts') := by
  induction h with
  | nil => exact .nil _
  | cons hs hp _ ih =>
    refine .cons ?_ (put_valid v h0 hpk hp) ih
    apply put_step
    simp [stepActions, hs]

theorem runs_alterStmt (tb : Table) (hq : tb.name = q) {ts ts' : TableState} {acts : List Action}
    (h : ActRun E (fun ts => d = .mysql ∨ Good db.kinds pk ts) ts acts ts') (hg : Good db.kinds pk ts') :
    Runs E (put db q ts) (tb.alterStmt d acts) (put db q ts') := by
  unfold Table.alterStmt
  subst hq
  split
  · rename_i hs
    have hmy : d ≠ .mysql := by rintro rfl; simp [Dialect.splits] at hs
    exact runs_each v h0 hpk (h.mono (fun ts h => h.resolve_left hmy))
  · exact runs_single (put_step h.steps) (put_valid v h0 hpk hg)

theorem runs_alterStmt' (tb : Table) (hq : tb.name = q) {ts ts' : TableState} {acts : List Action}
    (h : ActRun E (fun ts => d = .mysql ∨ Good db.kinds pk ts) ts acts ts') (hg : Good db.kinds pk ts') :
    Runs E (put db q ts) (if acts = [] then [] else tb.alterStmt d acts) (put db q ts') := by
  split
  · rename_i e
    subst e
    cases h
    exact .nil _
  · exact runs_alterStmt v h0 hpk tb hq h hg

theorem runs_alterEach (tb : Table) (hq : tb.name = q) {ts ts' : TableState} {acts : List Action}
    (h : ActRun E (Good db.kinds pk) ts acts ts') :
    Runs E (put db q ts) (acts.flatMap (fun a => tb.alterStmt d [a])) (put db q ts') := by
  have e : acts.flatMap (fun a => tb.alterStmt d [a]) = acts.map (fun a => .alterTable q [a]) := by
    rw [List.map_eq_flatMap]
    congr 1
    funext a
    unfold Table.alterStmt
    rw [hq]
    split <;> rfl
  rw [e]
  exact runs_each v h0 hpk h

end

/-! ### One table -/

theorem getConstraint_ok {tb : Table} {n : Text} {r : Ref} (h : tb.getConstraint n = .ok r) :
    ∃ c ∈ tb.constraints.items, ∃ m cols, c = .foreign m cols r := by
  unfold Table.getConstraint at h
  split at h
  · rename_i r' hf
    simp only [Except.ok.injEq] at h
    subst h
    obtain ⟨c, hc, hr⟩ := List.exists_of_findSome?_eq_some hf
    refine ⟨c, hc, ?_⟩
    cases c <;> simp only [reduceCtorEq] at hr
    split at hr
    · cases hr
    · split at hr
      · cases hr; exact ⟨_, _, rfl⟩
      · cases hr
  · cases h

variable {d : Dialect} {db : Db} {σ : SqlType → SqlType} {S T : Table}

theorem TabHyp.lookup (H : TabHyp d E db.kinds σ S T) {n : Text} {r : Ref} (h : T.getConstraint n = .ok r) :
    ∃ pk, db.kinds r.table.key = some (.table pk) := by
  obtain ⟨c, hc, m, cols, rfl⟩ := getConstraint_ok h
  have hg : T.constraints.get m = some (.foreign m cols r) := (ODict.get_eq_some_iff H.wfT.constraints).2 ⟨hc, rfl⟩
  have := (H.fitT.cons m (.foreign cols r.table.key r.columns) (by simp [mkT, tabCons, hg, Spec.Constraint.state])).2
  exact ⟨_, this⟩

/-- Executing the script of one table. -/
theorem run_mutateTable (v : Valid db) (H : TabHyp d E db.kinds σ S T)
    (h0 : db.objs S.name.key = some (.table (mkT d (srcCols d σ S) S.primaryKey (tabCons E S))))
    {stmts : List Stmt} (h : mutateTable d S T = .ok stmts) :
    Runs E db stmts (put db S.name (Spec.Table.state d E T)) := by
  unfold mutateTable at h
  cases hb : mutateTableBase d S T with
  | error e => simp [hb, bind, Except.bind] at h
  | ok base =>
    simp only [hb, bind, Except.bind, pure, Except.pure] at h
    unfold mutateTableBase at hb
    have hname : S.name = T.name := by
      unfold checkIdentity at hb
      by_cases e : S.name = T.name
      · exact e
      · simp [e, bind, Except.bind] at hb
    have hck : checkIdentity S.name T.name = .ok () := by simp [checkIdentity, hname]
    cases h1 : wrapColumn T.name ((migratedPairs d S T).mapM (fun p => p.1.softDropStmt d)) with
    | error e => simp [hck, h1, bind, Except.bind] at hb
    | ok renames =>
    cases h2 : wrapColumn T.name ((migratedPairs d S T).mapM (fun p => p.2.createStmt d)) with
    | error e => simp [hck, h1, h2, bind, Except.bind] at hb
    | ok adds1 =>
    cases h3 : wrapColumn T.name ((T.columns.difference S.columns).mapM (fun c => c.createStmt d)) with
    | error e => simp [hck, h1, h2, h3, bind, Except.bind] at hb
    | ok adds2 =>
    cases h4 : wrapColumn T.name ((migratedPairs d S T).mapM (fun p => migrateColumn d S p.1 T p.2)) with
    | error e => simp [hck, h1, h2, h3, h4, bind, Except.bind] at hb
    | ok migrates =>
    cases h5 : alterActions S T d with
    | error e => simp [hck, h1, h2, h3, h4, h5, bind, Except.bind] at hb
    | ok alters =>
    simp only [hck, h1, h2, h3, h4, h5, bind, Except.bind, pure, Except.pure, Except.ok.injEq] at hb
    have hid : d = .mssql → ∀ s u, (s, u) ∈ S.columns.intersection T.columns → s.identity = u.identity := by
      intro hd s u hsu
      subst hd
      unfold alterActions at h5
      cases hch : wrapColumn T.name ((S.columns.intersection T.columns).mapM (fun p => mutateColumn .mssql p.1 p.2)) with
      | error e => simp [hch, bind, Except.bind] at h5
      | ok changes =>
        have := (mapM_flatten (wrapColumn_ok hch)).2 _ hsu
        unfold mutateColumn at this
        simp only at this
        split at this
        · cases this
        · rename_i hne; simpa using hne
    have r1 := H.run_renames hid (wrapColumn_ok h1)
    have g0 := H.good0
    have g1 := H.good1 hid
    have gR := r1.good g1
    have r2 := H.run_adds gR (wrapColumn_ok h2) (wrapColumn_ok h3)
    have gA := r2.good gR
    have r5 := H.run_alter hid gA h5
    have gT := H.goodT
    have hpk : (mkT d (srcCols d σ S) S.primaryKey (tabCons E S)).pk = S.primaryKey := rfl
    have hdb : db = put db S.name (mkT d (srcCols d σ S) S.primaryKey (tabCons E S)) := (set_self _ _ _ h0).symm
    have hTs : Spec.Table.state d E T = mkT d (tabCols d T) S.primaryKey (tabCons E T) := by
      rw [state_eq d E T H.wfT.columns, H.safe.key]
    -- the base class's statements
    have hbase : Runs E (put db S.name (mkT d (cols1 d σ S T) S.primaryKey (tabCons E S))) base
        (put db S.name (Spec.Table.state d E T)) := by
      rw [← hb, hTs]
      have s1 := runs_alterEach (d := d) v h0 hpk S rfl r1
      have s2 := runs_alterStmt' (d := d) v h0 hpk S rfl (r2.mono (fun _ h => .inr h)) gA
      have s5 := runs_alterStmt' v h0 hpk S rfl r5 gT
      have s4 : Runs E (put db S.name (mkT d (colsA d σ S T) S.primaryKey (consR d E S T))) migrates.flatten
          (put db S.name (mkT d (colsA d σ S T) S.primaryKey (consR d E S T))) := by
        apply runs_skips _ (put_valid v h0 hpk gA)
        intro st hst
        obtain ⟨e4, k4⟩ := mapM_flatten (wrapColumn_ok h4)
        rw [e4, List.mem_flatMap] at hst
        obtain ⟨⟨s, u⟩, hp, hst⟩ := hst
        have hmig := k4 _ hp
        simp only at hmig hst
        generalize (((migrateColumn d S s T u).toOption).getD []) = ms at hmig hst
        have hp' := H.mem_conv.1 hp
        have hcn : s.name ∈ convNames d S T := List.mem_map_of_mem (f := fun p : Column × Column => p.1.name) hp
        have hkinds : (put db S.name (mkT d (colsA d σ S T) S.primaryKey (consR d E S T))).kinds = db.kinds :=
          put_kinds h0 hpk rfl
        have hsrc : (put db S.name (mkT d (colsA d σ S T) S.primaryKey (consR d E S T))).hasColumn S.name.key
            (deletedName s.name) = true := by
          rw [hasColumn_table (put_objs _)]
          simp only [mkT, H.colsA_deleted hcn]
          obtain ⟨c, hc, _⟩ := H.cols1_conv hcn
          simp [hc]
        have htgt : (put db S.name (mkT d (colsA d σ S T) S.primaryKey (consR d E S T))).hasColumn S.name.key
            u.name = true := by
          rw [hasColumn_table (put_objs _), ← hp'.2.2.1]
          simp only [mkT, colsA]
          rw [over_mem (List.mem_append_left _ hcn)]
          simp [tabCols, hp'.2.1]
        have hlook : ∀ r, T.getConstraint u.name = .ok r →
            (put db S.name (mkT d (colsA d σ S T) S.primaryKey (consR d E S T))).isTable r.table.key = true := by
          intro r hr
          obtain ⟨pk, hk⟩ := H.lookup hr
          exact isTable_of_kind (by rw [hkinds]; exact hk)
        unfold migrateColumn at hmig
        split at hmig
        · cases hr : T.getConstraint u.name with
          | error e => simp [hr, bind, Except.bind] at hmig
          | ok r =>
            simp only [hr, bind, Except.bind, pure, Except.pure, Except.ok.injEq] at hmig
            subst hmig
            simp only [List.mem_singleton] at hst
            subst hst
            simp [step, hsrc, htgt, hlook r hr]
        · cases hr : T.getConstraint u.name with
          | error e => simp [hr, bind, Except.bind] at hmig
          | ok r =>
            simp only [hr, bind, Except.bind, pure, Except.pure, Except.ok.injEq] at hmig
            subst hmig
            simp only [List.mem_append, List.mem_singleton] at hst
            rcases hst with hst | hst
            · split at hst
              · simp only [List.mem_singleton] at hst; subst hst; simp [step, hlook r hr]
              · simp only [List.mem_singleton] at hst; subst hst; simp [step, hlook r hr, hsrc]
              · cases hst
            · subst hst
              simp [step, hsrc, htgt, hlook r hr]
        · simp only [Except.ok.injEq] at hmig
          subst hmig
          cases hst
      have hT : mkT d (tabCols d T) S.primaryKey (tabCons E T) = mkT d (tabCols d T) S.primaryKey (tabCons E T) := rfl
      exact runs_append (runs_append (runs_append s1 s2) s4) s5
    have hTv : Valid (put db S.name (Spec.Table.state d E T)) := by rw [hTs]; exact put_valid v h0 hpk gT
    have hTtab : (put db S.name (Spec.Table.state d E T)).isTable T.name.key = true := by
      rw [← hname]; simp [Db.isTable, put_objs]
    by_cases hms : d = .mssql
    · subst hms
      simp only [Except.ok.injEq] at h
      rw [← h]
      refine runs_append ?_ hbase
      have r0 := H.run_defaults rfl (hid rfl)
      have := runs_alterStmt' v h0 hpk S rfl (r0.mono (fun _ h => .inr h)) (d := .mssql) g1
      rw [← hdb] at this
      exact this
    · rw [cols1_ne hms, ← hdb] at hbase
      cases d with
      | mssql => exact absurd rfl hms
      | mysql =>
        simp only [Except.ok.injEq] at h
        rw [← h]
        refine runs_append hbase (runs_skips ?_ hTv)
        intro st hst
        have : ∃ x, st = .commentTable T.name x := by
          split at hst
          · simp only [List.mem_singleton] at hst; exact ⟨_, hst⟩
          · cases hst
          · simp only [List.mem_singleton] at hst; exact ⟨_, hst⟩
          · split at hst
            · simp only [List.mem_singleton] at hst; exact ⟨_, hst⟩
            · cases hst
        obtain ⟨x, rfl⟩ := this
        simp [step, hTtab]
      | postgresql =>
        simp only [Except.ok.injEq] at h
        rw [← h, List.append_assoc]
        have hcc : ∀ (a b : Option Text) (mk : Option Text → Stmt) st, st ∈ commentChange a b mk → ∃ x, st = mk x := by
          intro a b mk st hst
          unfold commentChange at hst
          split at hst
          · split at hst
            · simp only [List.mem_singleton] at hst; exact ⟨_, hst⟩
            · cases hst
          · split at hst
            · simp only [List.mem_singleton] at hst; exact ⟨_, hst⟩
            · cases hst
        refine runs_append hbase (runs_skips ?_ hTv)
        intro st hst
        rcases List.mem_append.1 hst with hst | hst
        · obtain ⟨c, hc, hst⟩ := List.mem_flatMap.1 hst
          obtain ⟨x, rfl⟩ := hcc _ _ _ _ hst
          have hg : T.columns.get c.name = some c := (ODict.get_eq_some_iff H.wfT.columns).2 ⟨hc, rfl⟩
          have : (put db S.name (Spec.Table.state .postgresql E T)).hasColumn T.name.key c.name = true := by
            rw [← hname, hasColumn_table (put_objs _)]
            simp [Spec.Table.state, hg]
          simp [step, this]
        · obtain ⟨x, rfl⟩ := hcc _ _ _ _ hst
          simp [step, hTtab]
      | _ =>
        simp only [Except.ok.injEq] at h
        rw [← h]
        exact hbase

end
end PySqlSync
