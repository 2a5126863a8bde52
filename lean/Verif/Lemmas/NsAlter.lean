/-
Helper lemmas: the phases of a namespace's script after the creation of objects.
-/
import Verif.Lemmas.Ns

set_option autoImplicit false

namespace PySqlSync
open Spec

section
variable {E : Engine} {db : Db} {N : Text}

/-- Values agree in kind. -/
theorem kinds_over {X Y : Text → Option Obj} {p : List Text}
    (h : ∀ n ∈ p, (X n).map Obj.kind = (Y n).map Obj.kind) :
    (withNs db N (over X Y p)).kinds = (withNs db N X).kinds := by
  funext k
  by_cases e : k.1 = N
  · rw [kinds_in' e, kinds_in' e]
    by_cases hm : k.2 ∈ p
    · rw [over_mem hm, h _ hm]
    · rw [over_notMem hm]
  · rw [kinds_out e, kinds_out e]

theorem mem_tableConstraints {tb : Table} {n : Text} {sp : ConSpec} :
    (n, sp) ∈ tb.tableConstraints ↔ ∃ c ∈ tb.constraints.items, c.spec = some sp ∧ c.name = n := by
  simp only [Table.tableConstraints, List.mem_filterMap, Option.map_eq_some_iff, Prod.mk.injEq]
  constructor
  · rintro ⟨c, hc, sp', h1, h2, h3⟩
    subst h3; exact ⟨c, hc, h1, h2⟩
  · rintro ⟨c, hc, h1, h2⟩
    exact ⟨c, hc, sp, h1, h2, rfl⟩

theorem tableConstraints_nodup {tb : Table} (h : Distinct tb.constraints) : (tb.tableConstraints.map Prod.fst).Nodup := by
  refine List.Nodup.sublist ?_ h
  unfold Table.tableConstraints
  generalize tb.constraints.items = l
  induction l with
  | nil => simp
  | cons c l ih =>
    cases hsp : c.spec with
    | none => simp only [List.filterMap_cons, hsp, Option.map_none, List.map_cons]; exact ih.cons _
    | some sp => simp only [List.filterMap_cons, hsp, Option.map_some, List.map_cons]; exact ih.cons_cons _

/-- The database's constraints of a table are those written down. -/
theorem over_tableConstraints {tb : Table} (h : Distinct tb.constraints) :
    over (fun _ => none) (tabCons E tb) (tb.tableConstraints.map Prod.fst) = tabCons E tb := by
  funext n
  by_cases hm : n ∈ tb.tableConstraints.map Prod.fst
  · rw [over_mem hm]
  · rw [over_notMem hm]
    cases hg : tb.constraints.get n with
    | none => simp [tabCons, hg]
    | some c =>
      have hc := (ODict.get_eq_some_iff h).1 hg
      cases hsp : c.spec with
      | none => simp [tabCons, hg, conState_none hsp]
      | some sp =>
        exact absurd (List.mem_map_of_mem (f := Prod.fst) (mem_tableConstraints.2 ⟨c, hc.1, hsp, hc.2⟩)) hm

theorem over_tableConstraints_none {tb : Table} (h : Distinct tb.constraints) :
    over (tabCons E tb) (fun _ => none) (tb.tableConstraints.map Prod.fst) = fun _ => none := by
  have h1 := congrFun (over_tableConstraints (E := E) h)
  funext n
  by_cases hm : n ∈ tb.tableConstraints.map Prod.fst
  · rw [over_mem hm]
  · rw [over_notMem hm, ← h1 n, over_notMem hm]

theorem tabCons_of_mem {tb : Table} (h : Distinct tb.constraints) {n : Text} {sp : ConSpec}
    (hm : (n, sp) ∈ tb.tableConstraints) : tabCons E tb n = some (conState E sp) := by
  obtain ⟨c, hc, hsp, hn⟩ := mem_tableConstraints.1 hm
  have : tb.constraints.get n = some c := (ODict.get_eq_some_iff h).2 ⟨hc, hn⟩
  simp [tabCons, this, conState_spec hsp]

theorem run_constraints {d : Dialect} {K : Kinds} {tb : Table} (wf : TableWF d tb)
    (hb : (bare d tb).Fits K) (hfit : (Spec.Table.state d E tb).Fits K) :
    ActRun E (Good K tb.primaryKey) (bare d tb)
      (tb.tableConstraints.map (fun c => Action.addConstraint c.1 c.2)) (Spec.Table.state d E tb) := by
  rw [state_eq d E tb wf.columns] at hfit ⊢
  have nd := tableConstraints_nodup wf.constraints
  have := ActRun.map (E := E) (P := Good K tb.primaryKey)
    (fun p : Text × ConSpec => Action.addConstraint p.1 p.2)
    (fun p => mkT d (tabCols d tb) tb.primaryKey (over (fun _ => none) (tabCons E tb) (p.map Prod.fst)))
    tb.tableConstraints ?_ ?_
  · simp only [List.map_nil, over_nil] at this
    rw [over_tableConstraints wf.constraints] at this
    exact this
  · intro p a s hl hg
    have ha := mem_of_split hl
    have hap : a.1 ∉ p.map Prod.fst := notMem_prefix Prod.fst nd hl
    have hY := tabCons_of_mem (E := E) wf.constraints ha
    rw [List.map_append, List.map_cons, List.map_nil, over_snoc, hY]
    apply ActRun.single
    · have := step_addConstraint (d := d) (E := E) (cols := tabCols d tb) (pk := tb.primaryKey)
        (cons := over (fun _ => none) (tabCons E tb) (p.map Prod.fst)) a.1 a.2 (by rw [over_notMem hap]) ?_
      · rw [this]
        cases h : a.2 <;> simp [conState]
      · intro hd x
        obtain ⟨c, hc, _, hn⟩ := mem_tableConstraints.1 ha
        rw [← hn]
        exact wf.mssql hd c hc x
    · refine ⟨fits_setCon hg.1 _ _ ?_, rfl⟩
      intro x hx
      cases hx
      exact hfit.cons a.1 _ hY
  · simp only [List.map_nil, over_nil]; exact ⟨hb, rfl⟩

/-- Adding the constraints of new tables. -/
theorem runs_addConstraints (d : Dialect) (X Y : Text → Option Obj)
    (v : Valid (withNs db N X)) (l : List Table) (hnd : (l.map key).Nodup)
    (hname : ∀ e ∈ l, e.name.key.1 = N) (hwf : ∀ e ∈ l, TableWF d e)
    (hX : ∀ e ∈ l, X (key e) = some (.table (bare d e)))
    (hY : ∀ e ∈ l, Y (key e) = some (.table (Spec.Table.state d E e)))
    (hfit : ∀ e ∈ l, (Spec.Table.state d E e).Fits (withNs db N X).kinds) :
    Runs E (withNs db N X) (l.flatMap (Table.addConstraintsStmt d)) (withNs db N (over X Y (l.map key))) := by
  apply runs_phase l key _ X Y hnd v
  intro p a s hl hnot hv
  have ha := mem_of_split hl
  have hk : a.name.key = (N, key a) := Prod.ext (hname a ha) rfl
  have hkinds : (withNs db N (over X Y (p.map key))).kinds = (withNs db N X).kinds := by
    apply kinds_over
    intro n hn
    obtain ⟨b, hb, rfl⟩ := List.mem_map.1 hn
    have hb' : b ∈ l := by rw [hl]; simp [hb]
    rw [hX b hb', hY b hb']; rfl
  have h0 : (withNs db N (over X Y (p.map key))).objs a.name.key = some (.table (bare d a)) := by
    rw [hk, withNs_in, over_notMem hnot, hX a ha]
  have hfa := hfit a ha
  rw [← hkinds] at hfa
  have hb : (bare d a).Fits (withNs db N (over X Y (p.map key))).kinds := hv.fits _ _ h0
  have r := run_constraints (hwf a ha) hb hfa
  have hend : put (withNs db N (over X Y (p.map key))) a.name (Spec.Table.state d E a)
      = withNs db N (upd (over X Y (p.map key)) (key a) (Y (key a))) := by
    unfold put
    rw [hk, withNs_set, hY a ha]
  have hstart : put (withNs db N (over X Y (p.map key))) a.name (bare d a) = withNs db N (over X Y (p.map key)) :=
    set_self _ _ _ h0
  unfold Table.addConstraintsStmt
  split
  · rename_i e
    rw [e] at r
    have e2 : Spec.Table.state d E a = bare d a := by
      have := r.steps
      simpa [stepActions] using this.symm
    rw [← hend, e2, hstart]
    exact .nil _
  · have gend : Good (withNs db N (over X Y (p.map key))).kinds a.primaryKey (Spec.Table.state d E a) := ⟨hfa, rfl⟩
    by_cases hd : d = .mssql
    · subst hd
      simp only
      rw [← hend]
      refine runs_single ?_ (put_valid hv h0 (pk := a.primaryKey) rfl gend)
      have := put_step (E := E) (db := withNs db N (over X Y (p.map key))) (q := a.name) r.steps
      rw [hstart] at this
      exact this
    · have := runs_alterStmt hv h0 (pk := a.primaryKey) rfl a rfl (r.mono (fun _ h => Or.inr (a := d = .mysql) h)) gend
      rw [hstart, hend] at this
      cases d <;> first | exact this | exact absurd rfl hd

/-! ### Renaming types -/

mutual
theorem mapRef_refs (f : QId → QId) (g : Key → Key) (h : ∀ q, q.isGlobal = false → (f q).key = g q.key)
    (hg : ∀ q, (f q).isGlobal = q.isGlobal) :
    (ty : SqlType) → (ty.mapRef f).refs = ty.refs.map g
  | .user q => by
    simp only [SqlType.mapRef, SqlType.refs, hg]
    cases hq : q.isGlobal with
    | true => simp
    | false => simp [h q hq]
  | .array e => by simp only [SqlType.mapRef, SqlType.refs]; exact mapRef_refs f g h hg e
  | .struct fs => by simp only [SqlType.mapRef, SqlType.refs]; exact mapRefs_refs f g h hg fs
  | .uuid | .boolean _ | .integer .. | .float _ | .real _ | .double _ | .decimal .. | .fixedBinary .. | .varBinary ..
  | .fixedChar _ | .varChar .. | .timestamp .. | .date | .time .. | .interval | .json _ | .enum _ => rfl
theorem mapRefs_refs (f : QId → QId) (g : Key → Key) (h : ∀ q, q.isGlobal = false → (f q).key = g q.key)
    (hg : ∀ q, (f q).isGlobal = q.isGlobal) :
    (fs : StructFields) → (fs.mapRef f).refs = fs.refs.map g
  | .nil => rfl
  | .cons n ty b rest => by
    simp only [StructFields.mapRef, StructFields.refs, List.map_append]
    rw [mapRef_refs f g h hg ty, mapRefs_refs f g h hg rest]
end

mutual
theorem mapRef_id (f : QId → QId) (hg : ∀ q, q.isGlobal = true → f q = q) : (ty : SqlType) → (∀ q, q.key ∈ ty.refs → f q = q) → ty.mapRef f = ty
  | .user q, h => by
    cases hq : q.isGlobal with
    | true => simp [SqlType.mapRef, hg q hq]
    | false => simp [SqlType.mapRef, h q (by simp [SqlType.refs, hq])]
  | .array e, h => by simp only [SqlType.mapRef]; rw [mapRef_id f hg e (fun q hq => h q (by simpa [SqlType.refs] using hq))]
  | .struct fs, h => by
    simp only [SqlType.mapRef]; rw [mapRefs_id f hg fs (fun q hq => h q (by simpa [SqlType.refs] using hq))]
  | .uuid, _ | .boolean _, _ | .integer .., _ | .float _, _ | .real _, _ | .double _, _ | .decimal .., _
  | .fixedBinary .., _ | .varBinary .., _
  | .fixedChar _, _ | .varChar .., _ | .timestamp .., _ | .date, _ | .time .., _ | .interval, _ | .json _, _ | .enum _, _ => rfl
theorem mapRefs_id (f : QId → QId) (hg : ∀ q, q.isGlobal = true → f q = q) : (fs : StructFields) → (∀ q, q.key ∈ fs.refs → f q = q) → fs.mapRef f = fs
  | .nil, _ => rfl
  | .cons n ty b rest, h => by
    simp only [StructFields.mapRef]
    rw [mapRef_id f hg ty (fun q hq => h q (by simp [StructFields.refs, hq])),
      mapRefs_id f hg rest (fun q hq => h q (by simp [StructFields.refs, hq]))]
end

mutual
theorem mapRef_comp (f g : QId → QId) : (ty : SqlType) → (ty.mapRef f).mapRef g = ty.mapRef (g ∘ f)
  | .user q => rfl
  | .array e => by simp only [SqlType.mapRef]; rw [mapRef_comp f g e]
  | .struct fs => by simp only [SqlType.mapRef]; rw [mapRefs_comp f g fs]
  | .uuid | .boolean _ | .integer .. | .float _ | .real _ | .double _ | .decimal .. | .fixedBinary .. | .varBinary ..
  | .fixedChar _ | .varChar .. | .timestamp .. | .date | .time .. | .interval | .json _ | .enum _ => rfl
theorem mapRefs_comp (f g : QId → QId) : (fs : StructFields) → (fs.mapRef f).mapRef g = fs.mapRef (g ∘ f)
  | .nil => rfl
  | .cons n ty b rest => by
    simp only [StructFields.mapRef]; rw [mapRef_comp f g ty, mapRefs_comp f g rest]
end

theorem obj_mapRef_comp (f g : QId → QId) (o : Obj) : (o.mapRef f).mapRef g = o.mapRef (g ∘ f) := by
  cases o with
  | enum vs => rfl
  | struct a =>
    simp only [Obj.mapRef, Obj.struct.injEq]
    funext n
    rw [Option.map_map]
    congr 1
    funext ty
    exact mapRef_comp f g ty
  | table ts =>
    simp only [Obj.mapRef, Obj.table.injEq, TableState.mk.injEq, and_self, and_true]
    funext n
    rw [Option.map_map]
    congr 1
    funext c
    simp only [Function.comp]
    rw [mapRef_comp f g]

theorem obj_mapRef_kind (f : QId → QId) (o : Obj) : (o.mapRef f).kind = o.kind := by cases o <;> rfl

/-- An object that mentions none of the renamed types. -/
theorem obj_mapRef_id {f : QId → QId} {K : Kinds} {o : Obj} (h : o.Fits K) (hg : ∀ q, q.isGlobal = true → f q = q)
    (hf : ∀ q, K q.key = some .enum ∨ K q.key = some .struct → f q = q) : o.mapRef f = o := by
  cases o with
  | enum vs => rfl
  | struct a =>
    simp only [Obj.mapRef, Obj.struct.injEq]
    funext n
    cases ha : a n with
    | none => rfl
    | some ty =>
      simp only [Option.map_some]
      rw [mapRef_id f hg ty (fun q hq => hf q (h n ty ha _ hq))]
  | table ts =>
    simp only [Obj.mapRef, Obj.table.injEq]
    cases ts with
    | mk cols pk cons dfs =>
      simp only [TableState.mk.injEq, and_self, and_true]
      funext n
      cases ha : cols n with
      | none => rfl
      | some c =>
        have := (h.cols n c ha).2
        simp only [Option.map_some]
        rw [mapRef_id f hg c.ty (fun q hq => hf q (this _ hq))]

theorem renameRef_key (k : Key) (new : Text) (q : QId) (hq : q.isGlobal = false) :
    (renameRef k new q).key = if q.key = k then (k.1, new) else q.key := by
  unfold renameRef
  simp only [hq, true_and]
  split
  · rename_i e
    simp only [QId.key, QId.scopeId, QId.localId]
    rw [← e]; rfl
  · rfl

theorem renameRef_global (k : Key) (new : Text) (q : QId) : (renameRef k new q).isGlobal = q.isGlobal := by
  unfold renameRef
  split
  · rename_i e
    rw [e.1]; rfl
  · rfl

/-- After a type was renamed, everything that fitted still fits. -/
theorem obj_rename_fits {K : Kinds} {k : Key} {new : Text} (hk : K k = some .enum ∨ K k = some .struct)
    (hnew : K (k.1, new) = none) {o : Obj} (h : o.Fits K) :
    (o.mapRef (renameRef k new)).Fits (upd (upd K k none) (k.1, new) (K k)) := by
  have hty : ∀ ty, TypeFits K ty → TypeFits (upd (upd K k none) (k.1, new) (K k)) (ty.mapRef (renameRef k new)) := by
    intro ty hf x hx
    rw [mapRef_refs _ (fun x => if x = k then (k.1, new) else x) (renameRef_key k new)
      (renameRef_global k new)] at hx
    obtain ⟨y, hy, rfl⟩ := List.mem_map.1 hx
    by_cases e : y = k
    · rw [if_pos e, upd_same]; exact hk
    · rw [if_neg e]
      have hyn : y ≠ (k.1, new) := by
        rintro rfl
        rcases hf _ hy with h | h <;> (rw [hnew] at h; cases h)
      rw [upd_ne _ _ _ _ hyn, upd_ne _ _ _ _ e]
      exact hf y hy
  cases o with
  | enum vs => trivial
  | struct a =>
    intro n ty hn
    simp only [Option.map_eq_some_iff] at hn
    obtain ⟨ty', hn', rfl⟩ := hn
    exact hty _ (h n ty' hn')
  | table ts =>
    refine ⟨?_, ?_, ?_, ?_⟩
    · intro n c hc
      simp only [Option.map_eq_some_iff] at hc
      obtain ⟨c', hc', rfl⟩ := hc
      have := h.cols n c' hc'
      exact ⟨this.1, hty _ this.2⟩
    · intro n hn
      obtain ⟨c, hc, h2⟩ := h.pk n hn
      exact ⟨{ c with ty := c.ty.mapRef (renameRef k new) }, by simp [hc], h2⟩
    · intro n c hc
      have := h.cons n c hc
      refine ⟨fun m hm => by simpa using this.1 m hm, ?_⟩
      have h2 := this.2
      cases c <;> simp only at h2 ⊢
      rename_i cols x rs
      have e1 : x ≠ k := by rintro rfl; rcases hk with h | h <;> (rw [h2] at h; cases h)
      have e2 : x ≠ (k.1, new) := by rintro rfl; rw [h2] at hnew; cases hnew
      rw [upd_ne _ _ _ _ e2, upd_ne _ _ _ _ e1]
      exact h2
    · intro n m hm
      obtain ⟨c, hc, h2⟩ := h.dfs n m hm
      exact ⟨{ c with ty := c.ty.mapRef (renameRef k new) }, by simp [hc], h2⟩

theorem valid_rename {db : Db} (v : Valid db) {k : Key} {new : Text} {o : Obj} (ho : db.objs k = some o)
    (hk : o.kind = .enum ∨ o.kind = .struct) (hnew : db.objs (k.1, new) = none) :
    Valid { db with objs := fun x =>
      (upd (upd db.objs k none) (k.1, new) (some o) x).map (Obj.mapRef (renameRef k new)) } := by
  have hK : Db.kinds { db with objs := fun x =>
      (upd (upd db.objs k none) (k.1, new) (some o) x).map (Obj.mapRef (renameRef k new)) } =
      upd (upd db.kinds k none) (k.1, new) (db.kinds k) := by
    funext x
    simp only [Db.kinds, Option.map_map, upd]
    split
    · simp [ho, Function.comp, obj_mapRef_kind]
    · split
      · rfl
      · cases db.objs x <;> simp [obj_mapRef_kind]
  refine ⟨?_, ?_⟩
  · intro x y hy
    simp only [Option.map_eq_some_iff] at hy
    obtain ⟨y', hy', rfl⟩ := hy
    by_cases e : x = (k.1, new)
    · subst e; exact v.schema k o ho
    · rw [upd_ne _ _ _ _ e] at hy'
      by_cases e2 : x = k
      · subst e2; rw [upd_same] at hy'; cases hy'
      · rw [upd_ne _ _ _ _ e2] at hy'; exact v.schema x y' hy'
  · intro x y hy
    rw [hK]
    simp only [Option.map_eq_some_iff] at hy
    obtain ⟨y', hy', rfl⟩ := hy
    apply obj_rename_fits
    · simp only [Db.kinds, ho, Option.map_some, Option.some.injEq]; exact hk
    · simp [Db.kinds, hnew]
    · by_cases e : x = (k.1, new)
      · subst e; rw [upd_same] at hy'; cases hy'; exact v.fits k o ho
      · rw [upd_ne _ _ _ _ e] at hy'
        by_cases e2 : x = k
        · subst e2; rw [upd_same] at hy'; cases hy'
        · rw [upd_ne _ _ _ _ e2] at hy'; exact v.fits x y' hy'

end
end PySqlSync
