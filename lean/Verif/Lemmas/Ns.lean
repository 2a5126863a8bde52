/-
Helper lemmas: the objects of one namespace within a database.
-/
import Verif.Lemmas.Db

set_option autoImplicit false

namespace PySqlSync
open Spec

/-- The database with the objects of one schema replaced. -/
def withNs (db : Db) (N : Text) (f : Text → Option Obj) : Db :=
  { db with objs := fun k => if k.1 = N then f k.2 else db.objs k }

section
variable {E : Engine} {db : Db} {N : Text} {f : Text → Option Obj}

theorem withNs_in (n : Text) : (withNs db N f).objs (N, n) = f n := by simp [withNs]
theorem withNs_in' {k : Key} (h : k.1 = N) : (withNs db N f).objs k = f k.2 := by simp [withNs, h]
theorem withNs_out {k : Key} (h : k.1 ≠ N) : (withNs db N f).objs k = db.objs k := by simp [withNs, h]
theorem withNs_set (n : Text) (o : Option Obj) : (withNs db N f).set (N, n) o = withNs db N (upd f n o) := by
  simp only [withNs, Db.set, Db.mk.injEq, true_and]
  funext ⟨a, b⟩
  simp only [upd, Prod.mk.injEq]
  by_cases h1 : a = N <;> by_cases h2 : b = n <;> simp [h1, h2]
theorem withNs_self (h : ∀ n, db.objs (N, n) = f n) : withNs db N f = db := by
  cases db
  simp only [withNs, Db.mk.injEq, true_and]
  funext ⟨a, b⟩
  simp only
  split
  · rename_i e; subst e; exact (h b).symm
  · rfl
theorem withNs_withNs (g : Text → Option Obj) : withNs (withNs db N f) N g = withNs db N g := by
  simp only [withNs, Db.mk.injEq, true_and]
  funext ⟨a, b⟩
  simp only
  split <;> rfl

theorem kinds_in (n : Text) : (withNs db N f).kinds (N, n) = (f n).map Obj.kind := by simp [Db.kinds, withNs]
theorem kinds_in' {k : Key} (h : k.1 = N) : (withNs db N f).kinds k = (f k.2).map Obj.kind := by
  simp [Db.kinds, withNs, h]
theorem kinds_out {k : Key} (h : k.1 ≠ N) : (withNs db N f).kinds k = db.kinds k := by simp [Db.kinds, withNs, h]

theorem kle_withNs {g : Text → Option Obj} (h : ∀ n o, f n = some o → ∃ o', g n = some o' ∧ o'.kind = o.kind) :
    KLe (withNs db N f).kinds (withNs db N g).kinds := by
  intro k x hx
  by_cases e : k.1 = N
  · rw [kinds_in' e] at hx ⊢
    rw [Option.map_eq_some_iff] at hx ⊢
    obtain ⟨o, ho, rfl⟩ := hx
    obtain ⟨o', ho', hk⟩ := h _ _ ho
    exact ⟨o', ho', hk⟩
  · rw [kinds_out e] at hx ⊢; exact hx

theorem withNs_schemas : (withNs db N f).schemas = db.schemas := rfl

/-- What it takes for the database to be valid. -/
theorem valid_withNs (hsch : ∀ n o, f n = some o → db.schemas N = true)
    (hout : ∀ k o, k.1 ≠ N → db.objs k = some o → db.schemas k.1 = true)
    (h1 : ∀ n o, f n = some o → o.Fits (withNs db N f).kinds)
    (h2 : ∀ k o, k.1 ≠ N → db.objs k = some o → o.Fits (withNs db N f).kinds) : Valid (withNs db N f) := by
  refine ⟨?_, ?_⟩
  · intro k o ho
    by_cases e : k.1 = N
    · rw [withNs_in' e] at ho; rw [withNs_schemas, e]; exact hsch _ _ ho
    · rw [withNs_out e] at ho; exact hout k o e ho
  · intro k o ho
    by_cases e : k.1 = N
    · rw [withNs_in' e] at ho; exact h1 _ _ ho
    · rw [withNs_out e] at ho; exact h2 k o e ho

/-- Adding an object. -/
theorem valid_create (v : Valid (withNs db N f)) (hs : db.schemas N = true) {n : Text} (hn : f n = none) (o : Obj)
    (ho : o.Fits (withNs db N (upd f n (some o))).kinds) : Valid (withNs db N (upd f n (some o))) := by
  have hle : KLe (withNs db N f).kinds (withNs db N (upd f n (some o))).kinds := by
    apply kle_withNs
    intro m x hx
    have e : m ≠ n := by rintro rfl; rw [hn] at hx; cases hx
    exact ⟨x, by rw [upd_ne _ _ _ _ e]; exact hx, rfl⟩
  apply valid_withNs
  · intros; exact hs
  · intro k x hk hx
    exact v.schema k x (by rw [withNs_out hk]; exact hx)
  · intro m x hx
    by_cases e : m = n
    · subst e; rw [upd_same] at hx; cases hx; exact ho
    · rw [upd_ne _ _ _ _ e] at hx
      exact objFits_mono hle (v.fits (N, m) x (by rw [withNs_in]; exact hx))
  · intro k x hk hx
    exact objFits_mono hle (v.fits k x (by rw [withNs_out hk]; exact hx))

/-- Replacing an object by one of the same kind. -/
theorem valid_change (v : Valid (withNs db N f)) {n : Text} {o o' : Obj} (hn : f n = some o) (hk : o'.kind = o.kind)
    (ho : o'.Fits (withNs db N f).kinds) : Valid (withNs db N (upd f n (some o'))) := by
  rw [← withNs_set]
  exact valid_replace v (by rw [withNs_in]; exact hn) hk ho

theorem kinds_change {n : Text} {o o' : Obj} (hn : f n = some o) (hk : o'.kind = o.kind) :
    (withNs db N (upd f n (some o'))).kinds = (withNs db N f).kinds := by
  rw [← withNs_set]
  exact kinds_set_same _ _ _ _ (by rw [withNs_in]; exact hn) hk

/-- Removing an object. -/
theorem valid_remove (v : Valid (withNs db N f)) {n : Text}
    (h1 : ∀ m o, m ≠ n → f m = some o → o.Fits (withNs db N (upd f n none)).kinds)
    (h2 : ∀ k o, k.1 ≠ N → db.objs k = some o → o.Fits (withNs db N (upd f n none)).kinds) :
    Valid (withNs db N (upd f n none)) := by
  have hne : ∀ m o, upd f n none m = some o → m ≠ n ∧ f m = some o := by
    intro m o h
    by_cases e : m = n
    · subst e; rw [upd_same] at h; cases h
    · rw [upd_ne _ _ _ _ e] at h; exact ⟨e, h⟩
  apply valid_withNs
  · intro m o h
    exact v.schema (N, m) o (by rw [withNs_in]; exact (hne m o h).2)
  · intro k o hk ho
    exact v.schema k o (by rw [withNs_out hk]; exact ho)
  · intro m o h; exact h1 m o (hne m o h).1 (hne m o h).2
  · exact h2

/-- One phase of a script: items taken one after the other, each affecting the object of its name only. -/
theorem runs_phase {α : Type} (l : List α) (nm : α → Text) (stm : α → List Stmt) (X Y : Text → Option Obj)
    (hnd : (l.map nm).Nodup) (v : Valid (withNs db N X))
    (hstep : ∀ p a s, l = p ++ a :: s → nm a ∉ p.map nm → Valid (withNs db N (over X Y (p.map nm))) →
      Runs E (withNs db N (over X Y (p.map nm))) (stm a)
        (withNs db N (upd (over X Y (p.map nm)) (nm a) (Y (nm a))))) :
    Runs E (withNs db N X) (l.flatMap stm) (withNs db N (over X Y (l.map nm))) := by
  have := runs_flatMap (E := E) stm (fun p => withNs db N (over X Y (p.map nm))) l ?_ ?_
  · simpa only [List.map_nil, over_nil] using this
  · intro p a s hl hv
    have := hstep p a s hl (notMem_prefix nm hnd hl) hv
    simpa only [List.map_append, List.map_cons, List.map_nil, over_snoc] using this
  · simpa only [List.map_nil, over_nil] using v

/-! ### Creating -/

theorem runs_createEnums (hs : db.schemas N = true) (X Y : Text → Option Obj) (v : Valid (withNs db N X))
    (l : List EnumType) (hnd : (l.map key).Nodup)
    (hname : ∀ e ∈ l, e.name.key.1 = N) (hval : ∀ e ∈ l, e.values.Nodup)
    (hX : ∀ e ∈ l, X (key e) = none) (hY : ∀ e ∈ l, Y (key e) = some (EnumType.obj e)) :
    Runs E (withNs db N X) (l.flatMap PySqlSync.EnumType.createStmt) (withNs db N (over X Y (l.map key))) := by
  apply runs_phase l key _ X Y hnd v
  intro p a s hl hnot hv
  have ha := mem_of_split hl
  have hk : a.name.key = (N, key a) := Prod.ext (hname a ha) rfl
  have hfree : over X Y (p.map key) (key a) = none := by rw [over_notMem hnot]; exact hX a ha
  rw [hY a ha]
  apply runs_single
  · simp only [step, hval a ha, if_true, Db.create, hk, withNs_in, hfree, withNs_schemas, hs]
    simp only [Option.isSome_none, Bool.not_true, Bool.or_self, Bool.false_eq_true, if_false, withNs_set]
    rfl
  · exact valid_create hv hs hfree _ trivial

theorem runs_createStructs (d : Dialect) (hs : db.schemas N = true) (X Y : Text → Option Obj)
    (v : Valid (withNs db N X)) (l : List StructType) (hnd : (l.map key).Nodup)
    (hname : ∀ e ∈ l, e.name.key.1 = N) (hmem : ∀ e ∈ l, Distinct e.members)
    (hX : ∀ e ∈ l, X (key e) = none) (hY : ∀ e ∈ l, Y (key e) = some (StructType.obj e))
    (hfit : ∀ p a s, l = p ++ a :: s → (StructType.obj a).Fits (withNs db N (over X Y (p.map key))).kinds)
    (hself : ∀ a ∈ l, ∀ m ∈ a.members.items, a.name.key ∉ m.ty.refs) :
    Runs E (withNs db N X) (l.flatMap (PySqlSync.StructType.createStmt d)) (withNs db N (over X Y (l.map key))) := by
  apply runs_phase l key _ X Y hnd v
  intro p a s hl hnot hv
  have ha := mem_of_split hl
  have hk : a.name.key = (N, key a) := Prod.ext (hname a ha) rfl
  have hfree : over X Y (p.map key) (key a) = none := by rw [over_notMem hnot]; exact hX a ha
  have hobj : (Obj.struct fun n => ((a.members.items.map (fun m => (m.name, m.ty))).find? (fun p => p.1 = n)).map Prod.snd)
      = StructType.obj a := by
    unfold StructType.obj
    congr 1
    funext n
    rw [ODict.get, List.find?_map, Option.map_map]
    rfl
  have hnd' : ((a.members.items.map (fun m => (m.name, m.ty))).map Prod.fst).Nodup := by
    rw [List.map_map]; exact hmem a ha
  have hnew : Valid (withNs db N (upd (over X Y (p.map key)) (key a) (some (StructType.obj a)))) := by
    refine valid_create hv hs hfree _ (objFits_mono ?_ (hfit p a s hl))
    apply kle_withNs
    intro m x hx
    have e : m ≠ key a := by rintro rfl; rw [hfree] at hx; cases hx
    exact ⟨x, by rw [upd_ne _ _ _ _ e]; exact hx, rfl⟩
  have hin : (withNs db N (upd (over X Y (p.map key)) (key a) (some (StructType.obj a)))).objs a.name.key
      = some (StructType.obj a) := by rw [hk, withNs_in, upd_same]
  rw [hY a ha]
  unfold PySqlSync.StructType.createStmt
  refine .cons ?_ hnew (runs_skips ?_ hnew)
  · have hse : ∀ p ∈ a.members.items.map (fun m => (m.name, m.ty)), a.name.key ∉ p.2.refs := by
      intro p hp
      obtain ⟨m, hm, rfl⟩ := List.mem_map.1 hp
      exact hself a ha m hm
    simp only [step]
    rw [if_pos ⟨hnd', hse⟩]
    simp only [Db.create, hk, withNs_in, hfree, withNs_schemas, hs]
    simp only [Option.isSome_none, Bool.not_true, Bool.or_self, Bool.false_eq_true, if_false, withNs_set]
    rw [hobj]
  · intro st hst
    split at hst
    · rcases List.mem_append.1 hst with hst | hst
      · split at hst
        · simp only [List.mem_singleton] at hst; subst hst; simp [step, hin]
        · cases hst
      · obtain ⟨m, hm, hst⟩ := List.mem_flatMap.1 hst
        split at hst
        · simp only [List.mem_singleton] at hst
          subst hst
          have hg : a.members.get m.name = some m := (ODict.get_eq_some_iff (hmem a ha)).2 ⟨hm, rfl⟩
          have hcol : (withNs db N (upd (over X Y (p.map key)) (key a) (some (StructType.obj a)))).hasColumn
              a.name.key m.name = true := by
            unfold Db.hasColumn
            rw [hin]
            simp [StructType.obj, hg]
          simp [step, hcol]
        · cases hst
    · cases hst

/-- A table before its constraints are added. -/
noncomputable def bare (d : Dialect) (tb : Table) : TableState := mkT d (tabCols d tb) tb.primaryKey (fun _ => none)

theorem find_congr {α : Type} {l : List α} {p q : α → Bool} (h : ∀ a ∈ l, p a = q a) : l.find? p = l.find? q := by
  induction l with
  | nil => rfl
  | cons a l ih =>
    simp only [List.find?]
    rw [h a (by simp), ih (fun x hx => h x (by simp [hx]))]

theorem mapM_specs {d : Dialect} {l : List Column} {r : List (Text × ColSpec)}
    (h : l.mapM (fun c => do return (c.name, ← c.dataSpec d)) = Except.ok r) :
    ∃ spec : Column → ColSpec, r = l.map (fun c => (c.name, spec c)) ∧ ∀ c ∈ l, c.dataSpec d = .ok (spec c) := by
  have : Inhabited (Text × ColSpec) := ⟨([], ⟨.date, false, none, none, false, none⟩)⟩
  obtain ⟨h1, h2⟩ := mapM_ok h
  refine ⟨fun c => (((c.dataSpec d).toOption).getD ⟨.date, false, none, none, false, none⟩), ?_, ?_⟩
  · rw [h1]
    apply List.map_congr_left
    intro c hc
    have := h2 c hc
    cases hs : c.dataSpec d with
    | error e => simp [hs, bind, Except.bind] at this
    | ok sp => simp [hs, bind, Except.bind, pure, Except.pure, Except.toOption]
  · intro c hc
    have := h2 c hc
    cases hs : c.dataSpec d with
    | error e => simp [hs, bind, Except.bind] at this
    | ok sp => simp [hs, Except.toOption]

/-- A new table. -/
theorem newTable_eq {d : Dialect} {tb : Table} {spec : Column → ColSpec} (wf : TableWF d tb)
    (hok : ∀ c ∈ tb.columns.items, (Spec.Column.state d c).Ok)
    (h : ∀ c ∈ tb.columns.items, c.dataSpec d = .ok (spec c)) :
    newTable (tb.columns.items.map (fun c => (c.name, spec c))) tb.primaryKey = bare d tb := by
  have hs := fun c hc => dataSpec_ok (h c hc) (hok c hc) (fun e => wf.delta e c hc)
  apply mkT_ext
  · funext n
    simp only [newTable, tabCols, ODict.get]
    rw [List.find?_map, Option.map_map]
    have : (fun p : Text × ColSpec => decide (p.1 = n)) ∘ (fun c : Column => (c.name, spec c))
        = fun c : Column => decide (key c = n) := rfl
    rw [this]
    cases hf : tb.columns.items.find? (fun c : Column => decide (key c = n)) with
    | none => rfl
    | some c =>
      simp only [Option.map_some, Function.comp]
      rw [(hs c (List.mem_of_find?_eq_some hf)).1]
  · rfl
  · rfl
  · rw [← dfs_state d ⟨false, fun _ => []⟩ tb wf.columns]
    funext n
    simp only [newTable, Spec.Table.state]
    rw [List.find?_map, Option.map_map]
    by_cases hd : d = .mssql
    · subst hd
      simp only
      have : tb.columns.items.find? ((fun p : Text × ColSpec => decide (p.2.defaultName = some n)) ∘ fun c => (c.name, spec c))
          = tb.columns.items.find? (fun c => c.default.isSome && decide (defaultConstraintName c.name = n)) := by
        apply find_congr
        intro c hc
        have h1 := hs c hc
        have h2 : (spec c).default = c.default := by
          have := congrArg ColState.default h1.1
          simp only [Spec.ColSpec.state, Spec.Column.state] at this
          rw [this]; cases c.default <;> rfl
        simp only [Function.comp, h1.2, if_true, h2]
        cases c.default with
        | none => simp
        | some e => simp
      rw [this]
      rfl
    · have : tb.columns.items.find? ((fun p : Text × ColSpec => decide (p.2.defaultName = some n)) ∘ fun c => (c.name, spec c))
          = none := by
        rw [List.find?_eq_none]
        intro c hc
        have h1 := hs c hc
        simp [Function.comp, h1.2, hd]
      rw [this]
      cases d <;> first | rfl | exact absurd rfl hd

theorem bare_fits {d : Dialect} {tb : Table} {K : Kinds}
    (h1 : ∀ c ∈ tb.columns.items, (Spec.Column.state d c).Ok ∧ TypeFits K c.ty)
    (h2 : ∀ n ∈ tb.primaryKey, ∃ c, tabCols d tb n = some c ∧ c.nullable = false) : (bare d tb).Fits K := by
  apply mkT_fits
  · intro n c hc
    simp only [tabCols, Option.map_eq_some_iff] at hc
    obtain ⟨x, hx, rfl⟩ := hc
    exact h1 x (ODict.get_some_mem hx).1
  · exact h2
  · intro n c hc; cases hc

/-- Creating tables, without their constraints. -/
theorem runs_createTables (d : Dialect) (hs : db.schemas N = true) (X Y : Text → Option Obj)
    (v : Valid (withNs db N X)) (l : List Table) (hnd : (l.map key).Nodup)
    (hname : ∀ e ∈ l, e.name.key.1 = N) (hwf : ∀ e ∈ l, TableWF d e)
    (hX : ∀ e ∈ l, X (key e) = none) (hY : ∀ e ∈ l, Y (key e) = some (.table (bare d e)))
    (hfit : ∀ e ∈ l, (bare d e).Fits (withNs db N X).kinds)
    {stmts : List (List Stmt)} (h : l.mapM (fun tb => tb.createStmt d) = .ok stmts) :
    Runs E (withNs db N X) stmts.flatten (withNs db N (over X Y (l.map key))) := by
  obtain ⟨e1, k1⟩ := mapM_flatten h
  rw [e1]
  apply runs_phase l key _ X Y hnd v
  intro p a s hl hnot hv
  have ha := mem_of_split hl
  have hk : a.name.key = (N, key a) := Prod.ext (hname a ha) rfl
  have hfree : over X Y (p.map key) (key a) = none := by rw [over_notMem hnot]; exact hX a ha
  have hwfa := hwf a ha
  have hfa := hfit a ha
  have hle : KLe (withNs db N X).kinds (withNs db N (upd (over X Y (p.map key)) (key a) (some (.table (bare d a))))).kinds := by
    apply kle_withNs
    intro m x hx
    by_cases e : m = key a
    · subst e; rw [hX a ha] at hx; cases hx
    · rw [upd_ne _ _ _ _ e]
      by_cases hm : m ∈ p.map key
      · obtain ⟨b, hb, rfl⟩ := List.mem_map.1 hm
        rw [hX b (by rw [hl]; simp [hb])] at hx; cases hx
      · rw [over_notMem hm]; exact ⟨x, hx, rfl⟩
  have hnew : Valid (withNs db N (upd (over X Y (p.map key)) (key a) (some (.table (bare d a))))) :=
    valid_create hv hs hfree _ (tabFits_mono hle hfa)
  have hin : (withNs db N (upd (over X Y (p.map key)) (key a) (some (.table (bare d a))))).objs a.name.key
      = some (.table (bare d a)) := by rw [hk, withNs_in, upd_same]
  have htab : (withNs db N (upd (over X Y (p.map key)) (key a) (some (.table (bare d a))))).isTable a.name.key = true := by
    simp only [Db.isTable, hin]
  have hcol : ∀ c ∈ a.columns.items, (withNs db N (upd (over X Y (p.map key)) (key a) (some (.table (bare d a))))).hasColumn
      a.name.key c.name = true := by
    intro c hc
    have hg : a.columns.get c.name = some c := (ODict.get_eq_some_iff hwfa.columns).2 ⟨hc, rfl⟩
    rw [hasColumn_table hin]
    simp [bare, mkT, tabCols, hg]
  have hok : ∀ c ∈ a.columns.items, (Spec.Column.state d c).Ok := by
    intro c hc
    have hg : a.columns.get c.name = some c := (ODict.get_eq_some_iff hwfa.columns).2 ⟨hc, rfl⟩
    exact (hfa.cols c.name _ (by simp [bare, mkT, tabCols, hg])).1
  rw [hY a ha]
  have hstm := k1 a ha
  generalize (((a.createStmt d).toOption).getD []) = ss at hstm
  unfold Table.createStmt at hstm
  cases hm : a.columns.items.mapM (fun c => do return (c.name, ← c.dataSpec d) : Column → Except Err (Text × ColSpec)) with
  | error e =>
    simp only [bind, Except.bind, pure, Except.pure] at hm hstm
    rw [hm] at hstm
    cases hstm
  | ok cols =>
    obtain ⟨spec, hcols, hspec⟩ := mapM_specs hm
    simp only [bind, Except.bind, pure, Except.pure] at hm hstm
    rw [hm] at hstm
    simp only [Except.ok.injEq] at hstm
    rw [← hstm]
    refine .cons (db1 := withNs db N (upd (over X Y (p.map key)) (key a) (some (.table (bare d a))))) ?_ hnew
      (runs_skips ?_ hnew)
    · have c1 : (cols.map Prod.fst).Nodup := by
        rw [hcols, List.map_map]; exact hwfa.columns
      have c2 : (cols.filterMap (fun p => p.2.defaultName)).Nodup := by
        rw [hcols, List.filterMap_map]
        have hs := fun c hc => dataSpec_ok (hspec c hc) (hok c hc) (fun e => hwfa.delta e c hc)
        have : ∀ l' : List Column, (∀ c ∈ l', c ∈ a.columns.items) → (l'.map Column.name).Nodup →
            (l'.filterMap ((fun p : Text × ColSpec => p.2.defaultName) ∘ fun c => (c.name, spec c))).Nodup ∧
            ∀ x ∈ l'.filterMap ((fun p : Text × ColSpec => p.2.defaultName) ∘ fun c => (c.name, spec c)),
              ∃ c ∈ l', x = defaultConstraintName c.name := by
          intro l'
          induction l' with
          | nil => intro _ _; simp
          | cons c l' ih =>
            intro hsub hnd
            rw [List.map_cons, List.nodup_cons] at hnd
            obtain ⟨i1, i2⟩ := ih (fun x hx => hsub x (by simp [hx])) hnd.2
            have hdn := (hs c (hsub c (by simp))).2
            cases hx : (spec c).defaultName with
            | none =>
              simp only [List.filterMap_cons, Function.comp, hx]
              exact ⟨i1, fun x hx => by obtain ⟨c', hc', e⟩ := i2 x hx; exact ⟨c', by simp [hc'], e⟩⟩
            | some n =>
              have hn : n = defaultConstraintName c.name := by
                rw [hx] at hdn
                split at hdn
                · cases hsd : (spec c).default with
                  | none => simp [hsd] at hdn
                  | some e => simpa [hsd] using hdn
                · cases hdn
              simp only [List.filterMap_cons, Function.comp, hx]
              refine ⟨List.nodup_cons.2 ⟨?_, i1⟩, ?_⟩
              · intro hmem
                obtain ⟨c', hc', e⟩ := i2 n hmem
                rw [hn] at e
                exact hnd.1 (df_inj e ▸ List.mem_map_of_mem (f := Column.name) hc')
              · intro x hx
                rcases List.mem_cons.1 hx with rfl | hx
                · exact ⟨c, by simp, hn⟩
                · obtain ⟨c', hc', e⟩ := i2 x hx; exact ⟨c', by simp [hc'], e⟩
        exact (this a.columns.items (fun c h => h) hwfa.columns).1
      have c3 := hwfa.key
      simp only [step, c1, c2, c3, ne_eq, not_false_eq_true, and_self, if_true, Db.create, hk, withNs_in, hfree,
        withNs_schemas, hs]
      simp only [Option.isSome_none, Bool.not_true, Bool.or_self, Bool.false_eq_true, if_false, withNs_set]
      rw [hcols, newTable_eq hwfa hok hspec]
    · intro st hst
      rcases List.mem_append.1 hst with hst | hst
      · split at hst
        · rcases List.mem_append.1 hst with hst | hst
          · split at hst
            · simp only [List.mem_singleton] at hst; subst hst; simp [step, htab]
            · cases hst
          · obtain ⟨c, hc, hst⟩ := List.mem_flatMap.1 hst
            split at hst
            · simp only [List.mem_singleton] at hst; subst hst; simp [step, hcol c hc]
            · cases hst
        · cases hst
      · split at hst
        · simp only [List.mem_singleton] at hst
          subst hst
          have : (a.valueColumns.map Column.name).all
              ((withNs db N (upd (over X Y (p.map key)) (key a) (some (.table (bare d a))))).hasColumn a.name.key) = true := by
            rw [List.all_eq_true]
            intro n hn
            obtain ⟨c, hc, rfl⟩ := List.mem_map.1 hn
            exact hcol c ((List.mem_filter.1 hc).1)
          simp [step, htab, this]
        · cases hst

end
end PySqlSync
