/-
Helper lemmas: the whole sequence of actions emitted for one table.
-/
import Verif.Lemmas.TableRun

set_option autoImplicit false

namespace PySqlSync
open Spec

namespace ODict
variable {α : Type} [Named α]

theorem intersection_fst (d op : ODict α) :
    (d.intersection op).map Prod.fst = d.items.filter (fun a => (op.get (key a)).isSome) := by
  unfold intersection
  induction d.items with
  | nil => rfl
  | cons a l ih =>
    cases h : op.get (key a) with
    | none => simp [h, ih]
    | some b => simp [h, ih]

theorem intersection_nodup {d : ODict α} (hd : d.Inv) (op : ODict α) :
    ((d.intersection op).map (fun p => key p.1)).Nodup := by
  have : (d.intersection op).map (fun p => key p.1) = ((d.intersection op).map Prod.fst).map key := by simp
  rw [this, intersection_fst]
  exact List.Nodup.sublist (List.Sublist.map _ List.filter_sublist) hd

theorem difference_nodup {d : ODict α} (hd : d.Inv) (op : ODict α) : ((d.difference op).map key).Nodup :=
  List.Nodup.sublist (List.Sublist.map _ List.filter_sublist) hd

theorem mem_intersection_get {d op : ODict α} (hd : d.Inv) (hop : op.Inv) {a b : α} :
    (a, b) ∈ d.intersection op ↔ d.get (key a) = some a ∧ op.get (key a) = some b ∧ key a = key b := by
  rw [mem_intersection hop, get_eq_some_iff hd, get_eq_some_iff hop]
  constructor
  · rintro ⟨h1, h2, h3⟩; exact ⟨⟨h1, rfl⟩, ⟨h2, h3.symm⟩, h3⟩
  · rintro ⟨⟨h1, _⟩, ⟨h2, _⟩, h3⟩; exact ⟨h1, h2, h3⟩

theorem mem_difference_get {d op : ODict α} (hd : d.Inv) {a : α} :
    a ∈ d.difference op ↔ d.get (key a) = some a ∧ op.get (key a) = none := by
  rw [mem_difference, get_eq_some_iff hd, get_none_iff]
  constructor
  · rintro ⟨h1, h2⟩; exact ⟨⟨h1, rfl⟩, h2⟩
  · rintro ⟨⟨h1, _⟩, h2⟩; exact ⟨h1, h2⟩

end ODict

theorem isColumnMigrated_iff (d : Dialect) (s u : Column) : isColumnMigrated d s u = true ↔ Converted d s u := by
  unfold isColumnMigrated Converted
  by_cases h : s.ty = u.ty
  · simp [h]
  · have hsu : s ≠ u := fun e => h (by rw [e])
    by_cases hi : u.ty.isInteger
    · simp [h, hsu, hi, or_assoc]
    · simp [h, hsu, hi]

/-- The database's view of a source column, given how user-defined types were renamed. -/
def srcState (d : Dialect) (σ : SqlType → SqlType) (c : Column) : ColState :=
  { Spec.Column.state d c with ty := σ c.ty }

def srcCols (d : Dialect) (σ : SqlType → SqlType) (S : Table) : Text → Option ColState :=
  fun n => (S.columns.get n).map (srcState d σ)

def tabCols (d : Dialect) (T : Table) : Text → Option ColState :=
  fun n => (T.columns.get n).map (Spec.Column.state d)

def tabCons (E : Engine) (T : Table) : Text → Option ConState :=
  fun n => (T.constraints.get n).bind (Spec.Constraint.state E)

/-- The default constraints that a table describes are those of its columns. -/
theorem dfs_state (d : Dialect) (E : Engine) (T : Table) (h : Distinct T.columns) :
    (Spec.Table.state d E T).dfs = dfsOf d (tabCols d T) := by
  by_cases hd : d = .mssql
  · subst hd
    simp only [Spec.Table.state]
    apply dfs_ext
    · intro h; exact absurd rfl h
    · intro _ m hm
      simp only [Option.map_eq_none_iff, List.find?_eq_none]
      intro c _ hc
      simp at hc
      exact hm c.name hc.2.symm
    · intro _ n
      cases hg : T.columns.get n with
      | none =>
        simp only [tabCols, hg, Option.map_none, Option.bind_none, Option.map_eq_none_iff, List.find?_eq_none]
        intro c hc hcc
        simp at hcc
        rw [ODict.get_none_iff] at hg
        exact hg (by rw [← df_inj hcc.2]; exact List.mem_map_of_mem (f := key) hc)
      | some c =>
        have hc := (ODict.get_eq_some_iff h).1 hg
        simp only [tabCols, hg, Option.map_some, Option.bind_some]
        cases hdef : c.default with
        | none =>
          simp only [Spec.Column.state, hdef, Option.map_none, Option.isSome_none, Bool.false_eq_true, if_false,
            Option.map_eq_none_iff, List.find?_eq_none]
          intro c' hc' hcc
          simp at hcc
          have : c' = c := by
            have h1 := ODict.get_eq_of_mem h hc'
            have : key c' = n := df_inj hcc.2
            rw [this, hg] at h1
            exact (Option.some.inj h1).symm
          subst this
          simp [hdef] at hcc
        | some e =>
          simp only [Spec.Column.state, hdef, Option.map_some, Option.isSome_some, if_true]
          cases hf : T.columns.items.find? (fun c => c.default.isSome &&
              decide (defaultConstraintName c.name = defaultConstraintName n)) with
          | none =>
            rw [List.find?_eq_none] at hf
            have := hf c hc.1
            have hk : c.name = n := hc.2
            simp [hdef, hk] at this
          | some c' =>
            have := List.find?_some hf
            simp at this
            simp [df_inj this.2]
  · funext m
    rw [dfsOf_ne _ _ _ hd]
    cases d <;> first | rfl | exact absurd rfl hd

theorem state_eq (d : Dialect) (E : Engine) (T : Table) (h : Distinct T.columns) :
    Spec.Table.state d E T = mkT d (tabCols d T) T.primaryKey (tabCons E T) :=
  mkT_ext rfl rfl rfl (dfs_state d E T h)

theorem dfs_src (d : Dialect) (σ : SqlType → SqlType) (S : Table) : dfsOf d (srcCols d σ S) = dfsOf d (tabCols d S) := by
  apply dfs_ext
  · intro h m; exact dfsOf_ne _ _ _ h
  · intro _ m hm; exact dfsOf_other _ _ _ hm
  · intro h n
    subst h
    rw [dfsOf_df]
    simp only [srcCols, tabCols]
    cases S.columns.get n <;> rfl

/-- Everything assumed about the two versions of a table and the database around it. -/
structure TabHyp (d : Dialect) (E : Engine) (K : Kinds) (σ : SqlType → SqlType) (S T : Table) : Prop where
  wfS : TableWF d S
  wfT : TableWF d T
  safe : TableSafe d E S T
  fitS : (mkT d (srcCols d σ S) S.primaryKey (tabCons E S)).Fits K
  fitT : (mkT d (tabCols d T) T.primaryKey (tabCons E T)).Fits K
  hσ : ∀ s ∈ S.columns.items, ∀ u ∈ T.columns.items, s.name = u.name → s.ty = u.ty → σ s.ty = s.ty
  hE : d = .mysql → E.cascadeDrop = false

section
variable {d : Dialect} {E : Engine} {K : Kinds} {σ : SqlType → SqlType} {S T : Table}

/-- The columns after the default constraints were adapted (SQL Server). -/
def cols1 (d : Dialect) (σ : SqlType → SqlType) (S T : Table) : Text → Option ColState := fun n =>
  (S.columns.get n).map (fun s =>
    match T.columns.get n with
    | some u => if d = .mssql then { srcState d σ s with default := (Spec.Column.state d u).default } else srcState d σ s
    | none => srcState d σ s)

def convNames (d : Dialect) (S T : Table) : List Text := (migratedPairs d S T).map (fun p => p.1.name)

def commonNames (S T : Table) : List Text := (S.columns.intersection T.columns).map (fun p => p.1.name)

def createdCols (S T : Table) : List Column := T.columns.difference S.columns
def droppedCols (S T : Table) : List Column := S.columns.difference T.columns

theorem TabHyp.mem_common (H : TabHyp d E K σ S T) {s u : Column} :
    (s, u) ∈ S.columns.intersection T.columns ↔
      S.columns.get s.name = some s ∧ T.columns.get s.name = some u ∧ s.name = u.name :=
  ODict.mem_intersection_get H.wfS.columns H.wfT.columns

theorem TabHyp.get_mem (H : TabHyp d E K σ S T) {n : Text} {s u : Column} (hs : S.columns.get n = some s)
    (hu : T.columns.get n = some u) : s.name = n ∧ u.name = n ∧ s ∈ S.columns.items ∧ u ∈ T.columns.items := by
  have h1 := (ODict.get_eq_some_iff H.wfS.columns).1 hs
  have h2 := (ODict.get_eq_some_iff H.wfT.columns).1 hu
  exact ⟨h1.2, h2.2, h1.1, h2.1⟩

theorem TabHyp.mem_commonNames (H : TabHyp d E K σ S T) {n : Text} :
    n ∈ commonNames S T ↔ ∃ s u, S.columns.get n = some s ∧ T.columns.get n = some u := by
  unfold commonNames
  rw [List.mem_map]
  constructor
  · rintro ⟨⟨s, u⟩, h, rfl⟩
    exact ⟨s, u, (H.mem_common.1 h).1, (H.mem_common.1 h).2.1⟩
  · rintro ⟨s, u, hs, hu⟩
    obtain ⟨e1, e2, _, _⟩ := H.get_mem hs hu
    refine ⟨(s, u), H.mem_common.2 ⟨?_, ?_, ?_⟩, e1⟩
    · rw [e1]; exact hs
    · rw [e1]; exact hu
    · rw [e1, e2]

theorem TabHyp.mem_conv (H : TabHyp d E K σ S T) {s u : Column} :
    (s, u) ∈ migratedPairs d S T ↔
      S.columns.get s.name = some s ∧ T.columns.get s.name = some u ∧ s.name = u.name ∧ Converted d s u := by
  unfold migratedPairs
  rw [List.mem_filter, H.mem_common]
  simp only [isColumnMigrated_iff]
  constructor
  · rintro ⟨⟨a, b, c⟩, e⟩; exact ⟨a, b, c, e⟩
  · rintro ⟨a, b, c, e⟩; exact ⟨⟨a, b, c⟩, e⟩

theorem TabHyp.mem_convNames (H : TabHyp d E K σ S T) {n : Text} :
    n ∈ convNames d S T ↔ ∃ s u, S.columns.get n = some s ∧ T.columns.get n = some u ∧ Converted d s u := by
  unfold convNames
  rw [List.mem_map]
  constructor
  · rintro ⟨⟨s, u⟩, h, rfl⟩
    have := H.mem_conv.1 h
    exact ⟨s, u, this.1, this.2.1, this.2.2.2⟩
  · rintro ⟨s, u, hs, hu, hc⟩
    obtain ⟨e1, e2, _, _⟩ := H.get_mem hs hu
    refine ⟨(s, u), H.mem_conv.2 ⟨?_, ?_, ?_, hc⟩, e1⟩
    · rw [e1]; exact hs
    · rw [e1]; exact hu
    · rw [e1, e2]

theorem TabHyp.mem_created (H : TabHyp d E K σ S T) {u : Column} :
    u ∈ createdCols S T ↔ T.columns.get u.name = some u ∧ S.columns.get u.name = none :=
  ODict.mem_difference_get H.wfT.columns

theorem TabHyp.mem_createdNames (H : TabHyp d E K σ S T) {n : Text} :
    n ∈ (createdCols S T).map Column.name ↔ (∃ u, T.columns.get n = some u) ∧ S.columns.get n = none := by
  rw [List.mem_map]
  constructor
  · rintro ⟨u, h, rfl⟩; have := H.mem_created.1 h; exact ⟨⟨u, this.1⟩, this.2⟩
  · rintro ⟨⟨u, hu⟩, hs⟩
    have e : u.name = n := ((ODict.get_eq_some_iff H.wfT.columns).1 hu).2
    exact ⟨u, H.mem_created.2 ⟨by rw [e]; exact hu, by rw [e]; exact hs⟩, e⟩

theorem TabHyp.mem_dropped (H : TabHyp d E K σ S T) {s : Column} :
    s ∈ droppedCols S T ↔ S.columns.get s.name = some s ∧ T.columns.get s.name = none :=
  ODict.mem_difference_get H.wfS.columns

theorem TabHyp.mem_droppedNames (H : TabHyp d E K σ S T) {n : Text} :
    n ∈ (droppedCols S T).map Column.name ↔ (∃ s, S.columns.get n = some s) ∧ T.columns.get n = none := by
  rw [List.mem_map]
  constructor
  · rintro ⟨u, h, rfl⟩; have := H.mem_dropped.1 h; exact ⟨⟨u, this.1⟩, this.2⟩
  · rintro ⟨⟨u, hu⟩, hs⟩
    have e : u.name = n := ((ODict.get_eq_some_iff H.wfS.columns).1 hu).2
    exact ⟨u, H.mem_dropped.2 ⟨by rw [e]; exact hu, by rw [e]; exact hs⟩, e⟩

theorem TabHyp.get_deleted_S (H : TabHyp d E K σ S T) (n : Text) : S.columns.get (deletedName n) = none := by
  cases h : S.columns.get (deletedName n) with
  | none => rfl
  | some s =>
    have := (ODict.get_eq_some_iff H.wfS.columns).1 h
    exact absurd this.2 (H.wfS.names s this.1 n)

theorem TabHyp.get_deleted_T (H : TabHyp d E K σ S T) (n : Text) : T.columns.get (deletedName n) = none := by
  cases h : T.columns.get (deletedName n) with
  | none => rfl
  | some s =>
    have := (ODict.get_eq_some_iff H.wfT.columns).1 h
    exact absurd this.2 (H.wfT.names s this.1 n)

theorem TabHyp.conv_nodup (H : TabHyp d E K σ S T) : (convNames d S T).Nodup := by
  unfold convNames migratedPairs
  exact List.Nodup.sublist (List.Sublist.map _ List.filter_sublist)
    (ODict.intersection_nodup H.wfS.columns T.columns)

theorem TabHyp.common_nodup (H : TabHyp d E K σ S T) : (commonNames S T).Nodup :=
  ODict.intersection_nodup H.wfS.columns T.columns

theorem TabHyp.cons_df (H : TabHyp d E K σ S T) (hd : d = .mssql) (n : Text) :
    tabCons E S (defaultConstraintName n) = none := by
  unfold tabCons
  cases h : S.constraints.get (defaultConstraintName n) with
  | none => rfl
  | some c =>
    have := (ODict.get_eq_some_iff H.wfS.constraints).1 h
    exact absurd this.2 (H.wfS.mssql hd c this.1 n)

theorem TabHyp.cons_iff (H : TabHyp d E K σ S T) {m : Text} {x : ConState} (h : tabCons E S m = some x) :
    ∃ c ∈ S.constraints.items, c.name = m ∧ Spec.Constraint.state E c = some x := by
  unfold tabCons at h
  cases hg : S.constraints.get m with
  | none => simp [hg] at h
  | some c =>
    have := (ODict.get_eq_some_iff H.wfS.constraints).1 hg
    exact ⟨c, this.1, this.2, by simpa [hg] using h⟩

/-- A converted column is not in the primary key. -/
theorem TabHyp.conv_key (H : TabHyp d E K σ S T) {n : Text} (h : n ∈ convNames d S T) : n ∉ S.primaryKey := by
  obtain ⟨s, u, hs, hu, hc⟩ := H.mem_convNames.1 h
  obtain ⟨e1, e2, m1, m2⟩ := H.get_mem hs hu
  have := H.safe.converted s m1 u m2 (by rw [e1, e2]) hc
  rw [e1] at this
  exact this.1

/-- A converted column is involved in no constraint (MySQL: that stays). -/
theorem TabHyp.conv_free (H : TabHyp d E K σ S T) {n m : Text} {x : ConState} (h : n ∈ convNames d S T)
    (hx : tabCons E S m = some x) (hm : d = .mysql → (T.constraints.get m).isSome) : n ∉ x.cols := by
  obtain ⟨s, u, hs, hu, hc⟩ := H.mem_convNames.1 h
  obtain ⟨e1, e2, m1, m2⟩ := H.get_mem hs hu
  have := H.safe.converted s m1 u m2 (by rw [e1, e2]) hc
  rw [e1] at this
  obtain ⟨c, hc, hn, hst⟩ := H.cons_iff hx
  refine this.2.1 c hc ?_ x hst
  intro hd
  obtain ⟨c', hc'⟩ := Option.isSome_iff_exists.1 (hm hd)
  have := (ODict.get_eq_some_iff H.wfT.constraints).1 hc'
  exact ⟨c', this.1, by rw [hn]; exact this.2⟩

/-- The constraints after the converted columns were renamed. -/
def consR (d : Dialect) (E : Engine) (S T : Table) : Text → Option ConState :=
  consRen (tabCons E S) (convNames d S T)

theorem TabHyp.consR_eq (H : TabHyp d E K σ S T) {m : Text} (hm : d = .mysql → (T.constraints.get m).isSome) :
    consR d E S T m = tabCons E S m := by
  unfold consR consRen
  cases hx : tabCons E S m with
  | none => rfl
  | some x =>
    simp only [Option.map_some, Option.some.injEq]
    apply mapCols_eq_self
    intro n hn
    exact if_neg (fun h => H.conv_free h hx hm hn)

theorem TabHyp.consR_same (H : TabHyp d E K σ S T) (hd : d ≠ .mysql) : consR d E S T = tabCons E S :=
  funext (fun _ => H.consR_eq (fun h => absurd h hd))

theorem consR_isSome (m : Text) : (consR d E S T m).isSome = (tabCons E S m).isSome := by
  unfold consR consRen
  cases tabCons E S m <;> rfl

theorem consR_none {m : Text} (h : tabCons E S m = none) : consR d E S T m = none := by
  unfold consR consRen
  rw [h]; rfl

theorem TabHyp.srcOk (H : TabHyp d E K σ S T) {n : Text} {s : Column} (hs : S.columns.get n = some s) :
    (srcState d σ s).Ok ∧ TypeFits K (σ s.ty) := by
  have := H.fitS.cols n (srcState d σ s) (by simp [mkT, srcCols, hs])
  exact this

theorem TabHyp.tgtGood (H : TabHyp d E K σ S T) {n : Text} {u : Column} (hu : T.columns.get n = some u) :
    ColGood K S.primaryKey n (Spec.Column.state d u) := by
  have h1 : (mkT d (tabCols d T) T.primaryKey (tabCons E T)).cols n = some (Spec.Column.state d u) := by
    simp [mkT, tabCols, hu]
  have h2 := H.fitT.cols n _ h1
  refine ⟨h2.1, h2.2, ?_⟩
  intro hn
  rw [H.safe.key] at hn
  obtain ⟨c, hc, hnn⟩ := H.fitT.pk n hn
  rw [h1] at hc
  cases hc
  exact hnn

theorem TabHyp.srcGood (H : TabHyp d E K σ S T) {n : Text} {s : Column} (hs : S.columns.get n = some s) :
    ColGood K S.primaryKey n (srcState d σ s) := by
  have h2 := H.srcOk hs
  refine ⟨h2.1, h2.2, ?_⟩
  intro hn
  obtain ⟨c, hc, hnn⟩ := H.fitS.pk n hn
  simp only [mkT, srcCols, hs, Option.map_some, Option.some.injEq] at hc
  subst hc
  exact hnn

theorem TabHyp.good0 (H : TabHyp d E K σ S T) :
    Good K S.primaryKey (mkT d (srcCols d σ S) S.primaryKey (tabCons E S)) := ⟨H.fitS, rfl⟩

/-! #### SQL Server: default constraints -/

theorem cols1_ne (hd : d ≠ .mssql) : cols1 d σ S T = srcCols d σ S := by
  funext n
  simp only [cols1, srcCols]
  cases S.columns.get n with
  | none => rfl
  | some s => cases T.columns.get n <;> simp [hd]

theorem TabHyp.over_cols1 (H : TabHyp d E K σ S T) : over (srcCols d σ S) (cols1 d σ S T) (commonNames S T) = cols1 d σ S T := by
  funext n
  unfold over
  split
  · rfl
  · rename_i h
    rw [H.mem_commonNames] at h
    simp only [srcCols, cols1]
    cases hs : S.columns.get n with
    | none => rfl
    | some s =>
      cases hu : T.columns.get n with
      | none => rfl
      | some u => exact absurd ⟨s, u, hs, hu⟩ h

/-- Adapting the default constraints. `hid`: the identity property of common columns is unchanged. -/
theorem TabHyp.run_defaults (H : TabHyp d E K σ S T) (hd : d = .mssql)
    (hid : ∀ s u, (s, u) ∈ S.columns.intersection T.columns → s.identity = u.identity) :
    ActRun E (Good K S.primaryKey) (mkT d (srcCols d σ S) S.primaryKey (tabCons E S)) (mssqlDefaults S T)
      (mkT d (cols1 d σ S T) S.primaryKey (tabCons E S)) := by
  subst hd
  have key := ActRun.flatMap (E := E) (P := Good K S.primaryKey)
    (fun p : Column × Column => if p.1.default = p.2.default then []
      else (if p.1.default.isSome then [Action.dropConstraint (defaultConstraintName p.1.name)] else [])
        ++ (match p.2.default with
          | some e => [Action.addDefault (defaultConstraintName p.1.name) e p.1.name]
          | none => []))
    (fun p => mkT .mssql (over (srcCols .mssql σ S) (cols1 .mssql σ S T) (p.map (fun p => p.1.name))) S.primaryKey
      (tabCons E S))
    (S.columns.intersection T.columns) ?_ (by simp only [List.map_nil, over_nil]; exact H.good0)
  · simp only [List.map_nil, over_nil] at key
    have e := H.over_cols1
    simp only [commonNames] at e
    rw [e] at key
    exact key
  · rintro p ⟨s, u⟩ q hl hg
    have hmem := mem_of_split hl
    have hsu := H.mem_common.1 hmem
    have hnot : s.name ∉ p.map (fun p => p.1.name) :=
      notMem_prefix (fun p : Column × Column => p.1.name) H.common_nodup hl
    have hsame := hid s u hmem
    rw [List.map_append, List.map_cons, List.map_nil, over_snoc]
    simp only
    generalize hX : over (srcCols .mssql σ S) (cols1 .mssql σ S T) (p.map (fun p => p.1.name)) = X at hg ⊢
    have hXs : X s.name = some (srcState .mssql σ s) := by
      rw [← hX, over_notMem hnot]; simp [srcCols, hsu.1]
    have hY : cols1 .mssql σ S T s.name =
        some { srcState .mssql σ s with default := (Spec.Column.state .mssql u).default } := by
      simp [cols1, hsu.1, hsu.2.1]
    have hst : (Spec.Column.state .mssql u).default = u.default := by
      simp only [Spec.Column.state]; cases u.default <;> rfl
    have hss : (srcState .mssql σ s).default = s.default := by
      simp only [srcState, Spec.Column.state]; cases s.default <;> rfl
    rw [hY, hst]
    have hgs := H.srcGood hsu.1
    have hgu := H.tgtGood hsu.2.1
    have hok : ∀ e, (e = none ∨ e = u.default) →
        ColGood K S.primaryKey s.name { srcState .mssql σ s with default := e } := by
      intro e he
      refine ⟨?_, hgs.ty, hgs.pk⟩
      intro hi
      refine ⟨(hgs.ok hi).1, ?_⟩
      rcases he with rfl | rfl
      · rfl
      · have : u.identity = true := by rw [← hsame]; exact hi
        have := (hgu.ok this).2
        rwa [hst] at this
    by_cases hdef : s.default = u.default
    · rw [if_pos hdef]
      have : { srcState .mssql σ s with default := u.default } = srcState .mssql σ s := by
        rw [← hdef, ← hss]
      rw [this, upd_self _ _ _ hXs]
      exact .nil _
    · rw [if_neg hdef]
      let c1 : ColState := { srcState .mssql σ s with default := none }
      have r1 : ActRun E (Good K S.primaryKey) (mkT .mssql X S.primaryKey (tabCons E S))
          (if s.default.isSome then [Action.dropConstraint (defaultConstraintName s.name)] else [])
          (mkT .mssql (upd X s.name (some c1)) S.primaryKey (tabCons E S)) := by
        split
        · rename_i h
          apply ActRun.single
          · exact step_dropDf s.name _ hXs (by rw [hss]; exact h) rfl
          · exact ⟨fits_setCol hg.1 _ _ (hok none (.inl rfl)).ok (hok none (.inl rfl)).ty (hok none (.inl rfl)).pk, rfl⟩
        · rename_i h
          have : s.default = none := by simpa using h
          have : c1 = srcState .mssql σ s := by
            simp only [c1]; rw [← this, ← hss]
          rw [this, upd_self _ _ _ hXs]
          exact .nil _
      refine r1.append ?_
      cases hud : u.default with
      | none => exact .nil _
      | some e =>
        have hi : s.identity = false := by
          cases h : s.identity with
          | false => rfl
          | true =>
            have h' : u.identity = true := by rw [← hsame]; exact h
            have h2 : (Spec.Column.state .mssql u).default = none := (hgu.ok h').2
            rw [hst, hud] at h2
            cases h2
        have e1 := step_addDf (E := E) (cols := upd X s.name (some c1)) (pk := S.primaryKey) (cons := tabCons E S)
          s.name e c1 (upd_same _ _ _) rfl (by simpa [c1, srcState, Spec.Column.state] using hi) rfl (H.cons_df rfl _)
        rw [upd_upd] at e1
        apply ActRun.single
        · exact e1
        · have := hok u.default (.inr rfl)
          rw [hud] at this
          exact ⟨fits_setCol hg.1 _ _ this.ok this.ty this.pk, rfl⟩

/-- The state before the base class's statements. -/
theorem TabHyp.good1 (H : TabHyp d E K σ S T)
    (hid : d = .mssql → ∀ s u, (s, u) ∈ S.columns.intersection T.columns → s.identity = u.identity) :
    Good K S.primaryKey (mkT d (cols1 d σ S T) S.primaryKey (tabCons E S)) := by
  by_cases hd : d = .mssql
  · exact (H.run_defaults hd (hid hd)).good H.good0
  · rw [cols1_ne hd]; exact H.good0

end
end PySqlSync
