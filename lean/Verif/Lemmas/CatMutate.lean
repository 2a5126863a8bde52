/-
Helper lemmas: the script of a catalog.
-/
import Verif.Lemmas.Cat

set_option autoImplicit false
set_option linter.unusedSectionVars false

namespace PySqlSync
open Spec

section
variable {d : Dialect} {E : Engine}

theorem runs_cast {a a' b b' : Db} {l : List Stmt} (h : Runs E a l b) (ha : a = a') (hb : b = b') : Runs E a' l b' := by
  subst ha; subst hb; exact h

theorem nsGet_some {l : List Namespace} (h : (l.map key).Nodup) {k : Text} {n : Namespace} :
    nsGet l k = some n ↔ n ∈ l ∧ n.name = k := ODict.get_eq_some_iff (d := ⟨l⟩) h

theorem nsGet_ext {l1 l2 : List Namespace} (h1 : (l1.map key).Nodup) (h2 : (l2.map key).Nodup)
    (h : ∀ n, n ∈ l1 ↔ n ∈ l2) (k : Text) : nsGet l1 k = nsGet l2 k := by
  cases hg : nsGet l1 k with
  | some n =>
    have := (nsGet_some h1).1 hg
    exact ((nsGet_some h2).2 ⟨(h n).1 this.1, this.2⟩).symm
  | none =>
    cases hg2 : nsGet l2 k with
    | none => rfl
    | some n =>
      have := (nsGet_some h2).1 hg2
      rw [(nsGet_some h1).2 ⟨(h n).2 this.1, this.2⟩] at hg; cases hg

theorem dbOf_mid {a x y b : List Namespace} (h : ∀ k, nsGet x k = nsGet y k) :
    dbOf d E (a ++ x ++ b) = dbOf d E (a ++ y ++ b) := by
  apply dbOf_congr
  intro k
  rw [nsGet_append, nsGet_append, nsGet_append, nsGet_append, h]

theorem kinds_dbOf (l : List Namespace) (k : Key) :
    (dbOf d E l).kinds k = (nsGet l k.1).bind (fun n => (Spec.Namespace.obj d E n k.2).map Obj.kind) := by
  unfold Db.kinds
  rw [dbOf_objs]
  cases nsGet l k.1 <;> rfl

theorem nsGet_map {l : List Namespace} {g : Namespace → Namespace} (hg : ∀ n, (g n).name = n.name) (k : Text) :
    nsGet (l.map g) k = (nsGet l k).map g := by
  unfold nsGet
  rw [List.find?_map]
  congr 2
  funext n
  show decide ((g n).name = k) = decide (n.name = k)
  rw [hg]

theorem kinds_map {a l b : List Namespace} {g : Namespace → Namespace} (hg : ∀ n, (g n).name = n.name)
    (hk : ∀ n ∈ l, ∀ k, (Spec.Namespace.obj d E (g n) k).map Obj.kind = (Spec.Namespace.obj d E n k).map Obj.kind) :
    (dbOf d E (a ++ l.map g ++ b)).kinds = (dbOf d E (a ++ l ++ b)).kinds := by
  funext k
  rw [kinds_dbOf, kinds_dbOf, nsGet_append, nsGet_append, nsGet_append, nsGet_append, nsGet_map hg]
  cases nsGet a k.1 with
  | some n => rfl
  | none =>
    cases hl : nsGet l k.1 with
    | none => rfl
    | some n =>
      simp only [Option.none_or, Option.map_some, Option.some_or, Option.bind_some]
      exact hk n (List.mem_of_find?_eq_some hl) k.2

/-- Empty namespaces add no objects. -/
theorem objs_empties {a s b : List Namespace} (h : ∀ n ∈ s, n.name ∉ b.map key) :
    (dbOf d E (a ++ s.map emptyNs ++ b)).objs = (dbOf d E (a ++ b)).objs := by
  funext k
  rw [dbOf_objs, dbOf_objs, nsGet_append, nsGet_append, nsGet_append, nsGet_map (g := emptyNs) (fun _ => rfl)]
  cases nsGet a k.1 with
  | some n => rfl
  | none =>
    cases hl : nsGet s k.1 with
    | none => rfl
    | some n =>
      have hn : n.name = k.1 := by
        have := List.find?_some hl
        simpa [key] using this
      have hb : nsGet b k.1 = none := nsGet_none.2 (hn ▸ h n (List.mem_of_find?_eq_some hl))
      simp [hb, obj_emptyNs]

theorem valid_same {db db' : Db} (v : Valid db) (h : db'.objs = db.objs)
    (hs : ∀ n, db.schemas n = true → db'.schemas n = true) : Valid db' := by
  have hk : db'.kinds = db.kinds := by unfold Db.kinds; rw [h]
  refine ⟨?_, ?_⟩
  · intro k o ho; rw [h] at ho; exact hs _ (v.schema k o ho)
  · intro k o ho; rw [h] at ho; rw [hk]; exact v.fits k o ho

theorem valid_empties {a s b : List Namespace} (h : ∀ n ∈ s, n.name ∉ b.map key) :
    Valid (dbOf d E (a ++ s.map emptyNs ++ b)) ↔ Valid (dbOf d E (a ++ b)) := by
  have ho := objs_empties (d := d) (E := E) (a := a) h
  constructor
  · intro v
    have hk : (dbOf d E (a ++ b)).kinds = (dbOf d E (a ++ s.map emptyNs ++ b)).kinds := by unfold Db.kinds; rw [ho]
    refine ⟨?_, ?_⟩
    · intro k o hk
      rw [dbOf_objs] at hk
      rw [dbOf_schemas]
      cases hg : nsGet (a ++ b) k.1 with
      | none => simp [hg] at hk
      | some n => simp
    · intro k o h'
      rw [hk]; rw [← ho] at h'; exact v.fits k o h'
  · intro v
    refine valid_same v ho ?_
    intro n hn
    rw [dbOf_schemas, nsGet_append] at hn
    rw [dbOf_schemas, nsGet_append, nsGet_append]
    rw [Bool.or_eq_true] at hn ⊢
    rcases hn with hn | hn
    · exact .inl hn
    · right
      cases h1 : nsGet a n with
      | some x => rfl
      | none =>
        rw [h1, Option.none_or] at hn
        cases nsGet (s.map emptyNs) n with
        | some x => rfl
        | none => simpa using hn

theorem db_ext {a b : Db} (h1 : a.schemas = b.schemas) (h2 : a.objs = b.objs) : a = b := by
  cases a; cases b; simp only at h1 h2; rw [h1, h2]

/-! ### Schemas -/

theorem run_createSchema {a b : List Namespace} {n : Namespace} (ha : n.name ∉ a.map key) (hb : n.name ∉ b.map key)
    (v : Valid (dbOf d E (a ++ b))) :
    Runs E (dbOf d E (a ++ b)) (n.createSchemaStmt d) (dbOf d E (a ++ emptyNs n :: b)) := by
  have ho : (dbOf d E (a ++ emptyNs n :: b)).objs = (dbOf d E (a ++ b)).objs := by
    have := objs_empties (d := d) (E := E) (a := a) (s := [n]) (b := b) (by simpa using hb)
    simpa using this
  have v' : Valid (dbOf d E (a ++ emptyNs n :: b)) := by
    have := (valid_empties (d := d) (E := E) (a := a) (s := [n]) (b := b) (by simpa using hb)).2 v
    simpa using this
  have hsch : ∀ m, m ≠ n.name → (dbOf d E (a ++ emptyNs n :: b)).schemas m = (dbOf d E (a ++ b)).schemas m := by
    intro m hm
    rw [dbOf_schemas, dbOf_schemas, nsGet_append, nsGet_append]
    have : nsGet (emptyNs n :: b) m = nsGet b m := by
      have e : ¬ n.name = m := fun h => hm h.symm
      simp [nsGet, List.find?, key, emptyNs, e]
    rw [this]
  have hin : (dbOf d E (a ++ emptyNs n :: b)).schemas n.name = true := dbOf_sch (n := emptyNs n) ha
  by_cases hn : n.name = []
  · have e : dbOf d E (a ++ emptyNs n :: b) = dbOf d E (a ++ b) := by
      refine db_ext ?_ ho
      funext m
      by_cases hm : m = n.name
      · subst hm; rw [hin, dbOf_schemas, hn]; rfl
      · exact hsch m hm
    rw [e]
    unfold Namespace.createSchemaStmt
    rw [if_pos hn]
    exact .nil _
  · have hfree : (dbOf d E (a ++ b)).schemas n.name = false := by
      rw [dbOf_schemas, nsGet_append, nsGet_none.2 ha, nsGet_none.2 hb]
      simp [hn]
    have hst : ∀ f, step E (dbOf d E (a ++ b)) (.createSchema n.name f) = some (dbOf d E (a ++ emptyNs n :: b)) := by
      intro f
      simp only [step, hfree, Bool.false_eq_true, if_false, Option.some.injEq]
      refine db_ext ?_ ho.symm
      funext m
      by_cases hm : m = n.name
      · subst hm; rw [hin]; simp [upd]
      · simp only [upd, hm, if_false]; exact (hsch m hm).symm
    unfold Namespace.createSchemaStmt
    rw [if_neg hn]
    split <;> exact runs_single (hst _) v'

theorem run_dropSchema {a b : List Namespace} {n : Namespace} (ha : n.name ∉ a.map key) (hb : n.name ∉ b.map key)
    (v : Valid (dbOf d E (a ++ b))) :
    Runs E (dbOf d E (a ++ emptyNs n :: b)) (n.dropSchemaStmt d) (dbOf d E (a ++ b)) := by
  have ho : (dbOf d E (a ++ emptyNs n :: b)).objs = (dbOf d E (a ++ b)).objs := by
    have := objs_empties (d := d) (E := E) (a := a) (s := [n]) (b := b) (by simpa using hb)
    simpa using this
  have hsch : ∀ m, m ≠ n.name → (dbOf d E (a ++ emptyNs n :: b)).schemas m = (dbOf d E (a ++ b)).schemas m := by
    intro m hm
    rw [dbOf_schemas, dbOf_schemas, nsGet_append, nsGet_append]
    have : nsGet (emptyNs n :: b) m = nsGet b m := by
      have e : ¬ n.name = m := fun h => hm h.symm
      simp [nsGet, List.find?, key, emptyNs, e]
    rw [this]
  have hin : (dbOf d E (a ++ emptyNs n :: b)).schemas n.name = true := dbOf_sch (n := emptyNs n) ha
  have hnone : nsGet (a ++ b) n.name = none := by
    rw [nsGet_append, nsGet_none.2 ha, nsGet_none.2 hb]; rfl
  by_cases hn : n.name = []
  · have e : dbOf d E (a ++ emptyNs n :: b) = dbOf d E (a ++ b) := by
      refine db_ext ?_ ho
      funext m
      by_cases hm : m = n.name
      · subst hm; rw [hin, dbOf_schemas, hn]; rfl
      · exact hsch m hm
    rw [e]
    unfold Namespace.dropSchemaStmt
    rw [if_pos hn]
    exact .nil _
  · have hst : ∀ f, step E (dbOf d E (a ++ emptyNs n :: b)) (.dropSchema n.name f) = some (dbOf d E (a ++ b)) := by
      intro f
      simp only [step, hin, if_true, Option.some.injEq]
      refine db_ext ?_ ?_
      · funext m
        by_cases hm : m = n.name
        · subst hm; rw [dbOf_schemas, hnone]; simp [upd, hn]
        · simp only [upd, hm, if_false]; exact hsch m hm
      · simp only
        rw [ho]
        split
        · funext k
          split
          · rename_i hk
            rw [dbOf_objs, hk, hnone]; rfl
          · rfl
        · rfl
    unfold Namespace.dropSchemaStmt
    rw [if_neg hn]
    split <;> exact runs_single (hst _) v

/-! ### Constraints -/

theorem dbOf_withNs {l1 l2 : List Namespace} {n : Namespace} (hn : n.name ∉ l1.map key) :
    withNs (dbOf d E (l1 ++ n :: l2)) n.name (Spec.Namespace.obj d E n) = dbOf d E (l1 ++ n :: l2) :=
  dbOf_replace rfl hn

theorem unc_over {n : Namespace} :
    over (Spec.Namespace.obj d E (unconstrained n)) (Spec.Namespace.obj d E n) (n.tables.items.map key)
      = Spec.Namespace.obj d E n := by
  funext k
  by_cases h : k ∈ n.tables.items.map key
  · rw [over_mem h]
  · rw [over_notMem h, obj_unc_other ((ODict.get_none_iff _ _).2 h)]

theorem over_unc {n : Namespace} :
    over (Spec.Namespace.obj d E n) (Spec.Namespace.obj d E (unconstrained n)) (n.tables.items.map key)
      = Spec.Namespace.obj d E (unconstrained n) := by
  funext k
  by_cases h : k ∈ n.tables.items.map key
  · rw [over_mem h]
  · rw [over_notMem h, obj_unc_other ((ODict.get_none_iff _ _).2 h)]

theorem run_addConstraintsNs {l1 l2 : List Namespace} {n : Namespace} (w : NsWF d n) (hn : n.name ∉ l1.map key)
    (v : Valid (dbOf d E (l1 ++ unconstrained n :: l2)))
    (hfit : ∀ tb ∈ n.tables.items, (Spec.Table.state d E tb).Fits (dbOf d E (l1 ++ unconstrained n :: l2)).kinds) :
    Runs E (dbOf d E (l1 ++ unconstrained n :: l2)) (n.addConstraintsStmt d) (dbOf d E (l1 ++ n :: l2)) := by
  have e0 : withNs (dbOf d E (l1 ++ unconstrained n :: l2)) n.name (Spec.Namespace.obj d E (unconstrained n))
      = dbOf d E (l1 ++ unconstrained n :: l2) := dbOf_withNs (n := unconstrained n) hn
  have e1 : withNs (dbOf d E (l1 ++ unconstrained n :: l2)) n.name (Spec.Namespace.obj d E n) = dbOf d E (l1 ++ n :: l2) :=
    dbOf_replace (n := unconstrained n) (n' := n) rfl hn
  have := runs_addConstraints (E := E) (db := dbOf d E (l1 ++ unconstrained n :: l2)) (N := n.name) d
    (Spec.Namespace.obj d E (unconstrained n)) (Spec.Namespace.obj d E n) (by rw [e0]; exact v) n.tables.items w.tables
    w.tableScope w.wf (fun e he => obj_unc_table w (get_of_mem w.tables he))
    (fun e he => obj_table w (get_of_mem w.tables he)) (by rw [e0]; exact hfit)
  rw [unc_over, e0, e1] at this
  exact this

theorem run_dropConstraintsTable {d : Dialect} {K : Kinds} {tb : Table} (wf : TableWF d tb)
    (hfit : (Spec.Table.state d E tb).Fits K) :
    ActRun E (Good K tb.primaryKey) (Spec.Table.state d E tb)
      (tb.tableConstraints.map (fun c => Action.dropConstraint c.1)) (bare d tb) := by
  rw [state_eq d E tb wf.columns] at hfit ⊢
  have nd := tableConstraints_nodup wf.constraints
  have := ActRun.map (E := E) (P := Good K tb.primaryKey)
    (fun p : Text × ConSpec => Action.dropConstraint p.1)
    (fun p => mkT d (tabCols d tb) tb.primaryKey (over (tabCons E tb) (fun _ => none) (p.map Prod.fst)))
    tb.tableConstraints ?_ ?_
  · simp only [List.map_nil, over_nil] at this
    rw [over_tableConstraints_none wf.constraints] at this
    exact this
  · intro p a s hl hg
    have ha := mem_of_split hl
    have hap : a.1 ∉ p.map Prod.fst := notMem_prefix Prod.fst nd hl
    have hY := tabCons_of_mem (E := E) wf.constraints ha
    rw [List.map_append, List.map_cons, List.map_nil, over_snoc]
    apply ActRun.single
    · exact step_dropConstraint a.1 _ (by rw [over_notMem hap]; exact hY) (by
        intro hd x
        obtain ⟨c, hc, _, hn⟩ := mem_tableConstraints.1 ha
        rw [← hn]
        exact wf.mssql hd c hc x)
    · exact ⟨fits_setCon hg.1 _ _ (by simp), rfl⟩
  · simp only [List.map_nil, over_nil]; exact ⟨hfit, rfl⟩

theorem run_dropConstraintsNs {l1 l2 : List Namespace} {n : Namespace} (w : NsWF d n) (hn : n.name ∉ l1.map key)
    (v : Valid (dbOf d E (l1 ++ n :: l2))) :
    Runs E (dbOf d E (l1 ++ n :: l2)) n.dropConstraintsStmt (dbOf d E (l1 ++ unconstrained n :: l2)) := by
  have e0 : withNs (dbOf d E (l1 ++ n :: l2)) n.name (Spec.Namespace.obj d E n) = dbOf d E (l1 ++ n :: l2) := dbOf_withNs hn
  have e1 : withNs (dbOf d E (l1 ++ n :: l2)) n.name (Spec.Namespace.obj d E (unconstrained n))
      = dbOf d E (l1 ++ unconstrained n :: l2) := dbOf_replace rfl hn
  have := runs_phase (E := E) (db := dbOf d E (l1 ++ n :: l2)) (N := n.name) n.tables.items key
    Table.dropConstraintsStmt (Spec.Namespace.obj d E n) (Spec.Namespace.obj d E (unconstrained n)) w.tables
    (by rw [e0]; exact v) ?_
  · rw [over_unc, e0, e1] at this
    exact this
  · intro p a s hl hnot hv
    have ha := mem_of_split hl
    have hk : a.name.key = (n.name, key a) := Prod.ext (w.tableScope a ha) rfl
    have hg := get_of_mem w.tables ha
    have h0 : (withNs (dbOf d E (l1 ++ n :: l2)) n.name (over (Spec.Namespace.obj d E n)
        (Spec.Namespace.obj d E (unconstrained n)) (p.map key))).objs a.name.key = some (.table (Spec.Table.state d E a)) := by
      rw [hk, withNs_in, over_notMem hnot, obj_table w hg]
    rw [obj_unc_table w hg]
    have hfit := hv.fits _ _ h0
    have r := run_dropConstraintsTable (E := E) (w.wf a ha) hfit
    have hgood := r.good ⟨hfit, rfl⟩
    unfold Table.dropConstraintsStmt
    split
    · rename_i e
      rw [e] at r
      have e2 : bare d a = Spec.Table.state d E a := by
        have := r.steps
        simpa [stepActions] using this.symm
      rw [e2, upd_self]
      · exact .nil _
      · rw [over_notMem hnot, obj_table w hg]
    · have hs := put_step (E := E) (db := withNs (dbOf d E (l1 ++ n :: l2)) n.name (over (Spec.Namespace.obj d E n)
        (Spec.Namespace.obj d E (unconstrained n)) (p.map key))) (q := a.name) r.steps
      have e3 : ∀ ts, put (withNs (dbOf d E (l1 ++ n :: l2)) n.name (over (Spec.Namespace.obj d E n)
        (Spec.Namespace.obj d E (unconstrained n)) (p.map key))) a.name ts = withNs (dbOf d E (l1 ++ n :: l2)) n.name
          (upd (over (Spec.Namespace.obj d E n) (Spec.Namespace.obj d E (unconstrained n)) (p.map key)) (key a)
            (some (.table ts))) := by
        intro ts; unfold put; rw [hk, withNs_set]
      rw [show put (withNs (dbOf d E (l1 ++ n :: l2)) n.name (over (Spec.Namespace.obj d E n)
        (Spec.Namespace.obj d E (unconstrained n)) (p.map key))) a.name (Spec.Table.state d E a) = _ from set_self _ _ _ h0,
        e3] at hs
      refine runs_single hs ?_
      rw [← e3]
      exact put_valid hv h0 (pk := a.primaryKey) rfl hgood

/-! ### The whole catalog -/

theorem mem_interFst {A B : ODict Namespace} {n : Namespace} : n ∈ (A.intersection B).map Prod.fst ↔
    n ∈ A.items ∧ (B.get n.name).isSome := by
  rw [ODict.intersection_fst, List.mem_filter]; rfl

theorem src_split {A B : ODict Namespace} (hA : Distinct A) (k : Text) :
    nsGet ((A.intersection B).map Prod.fst ++ A.difference B) k = nsGet A.items k := by
  have hp : ((A.intersection B).map Prod.fst ++ A.difference B).Perm A.items := by
    rw [ODict.intersection_fst]
    have : A.difference B = A.items.filter (fun a => !(fun a => (B.get (key a)).isSome) a) := by
      unfold ODict.difference
      apply List.filter_congr
      intro a _
      congr 1
      rw [Bool.eq_iff_iff, ODict.contains_iff, ODict.get_isSome_iff]
    rw [this]
    exact List.filter_append_perm _ _
  refine nsGet_ext ?_ hA (fun n => hp.mem_iff) k
  exact ((hp.map key).nodup_iff).2 hA

theorem interSnd_keys {A B : ODict Namespace} (hA : Distinct A) (hB : Distinct B) :
    (A.intersection B).map (fun p => key p.2) = (A.intersection B).map (fun p => key p.1) := by
  apply List.map_congr_left
  rintro ⟨a, b⟩ h
  exact ((ODict.mem_intersection_get hA hB).1 h).2.2.symm

theorem tgt_split {A B : ODict Namespace} (hA : Distinct A) (hB : Distinct B) (k : Text) :
    nsGet (B.difference A ++ (A.intersection B).map Prod.snd) k = nsGet B.items k := by
  refine nsGet_ext ?_ hB ?_ k
  · rw [List.map_append, List.nodup_append]
    refine ⟨ODict.difference_nodup hB A, ?_, ?_⟩
    · rw [List.map_map]
      show ((A.intersection B).map (fun p => key p.2)).Nodup
      rw [interSnd_keys hA hB]
      exact ODict.intersection_nodup hA B
    · intro x hx y hy e
      subst e
      obtain ⟨n, hn, rfl⟩ := List.mem_map.1 hx
      obtain ⟨m, hm, e⟩ := List.mem_map.1 hy
      obtain ⟨⟨a, b⟩, hab, rfl⟩ := List.mem_map.1 hm
      have h1 := (ODict.mem_difference_get hB).1 hn
      have h2 := (ODict.mem_intersection_get hA hB).1 hab
      rw [← e, ← h2.2.2, h2.1] at h1
      cases h1.2
  · intro n
    rw [List.mem_append, List.mem_map]
    constructor
    · rintro (h | ⟨⟨a, b⟩, hab, rfl⟩)
      · exact (ODict.mem_difference.1 h).1
      · exact ((ODict.mem_intersection hB).1 hab).2.1
    · intro h
      cases hg : A.get n.name with
      | none => exact .inl ((ODict.mem_difference_get hB).2 ⟨get_of_mem hB h, hg⟩)
      | some a =>
        have hm := mem_of_get hg
        refine .inr ⟨(a, n), (ODict.mem_intersection hB).2 ⟨hm.1, h, hm.2⟩, rfl⟩

theorem drop_split {α : Type} {l p s : List α} {a : α} (h : l = p ++ a :: s) : l.drop p.length = a :: s := by
  rw [h]; simp

theorem drop_split' {α : Type} {l p s : List α} {a : α} (h : l = p ++ a :: s) : l.drop (p ++ [a]).length = s := by
  rw [h]
  rw [List.length_append, ← List.drop_drop]
  simp

/-- What the library does once both catalogs are sorted (mutation.py:346-374). -/
def mutateSorted (d : Dialect) (opts : MutatorOptions) (source target : Catalog) : Except Err (List Stmt) := do
  let nsCreate := target.namespaces.difference source.namespaces
  let nsDrop := source.namespaces.difference target.namespaces
  let creates ← nsCreate.mapM (Namespace.createObjectsStmt d)
  let mutates ← (source.namespaces.intersection target.namespaces).mapM (fun p => mutateNamespace d opts p.1 p.2)
  return nsCreate.flatMap (Namespace.createSchemaStmt d)
    ++ creates.flatten
    ++ nsCreate.flatMap (Namespace.addConstraintsStmt d)
    ++ mutates.flatten
    ++ nsDrop.flatMap Namespace.dropConstraintsStmt
    ++ (if opts.allowDropNamespace then
          nsDrop.flatMap Namespace.dropObjectsStmt ++ nsDrop.flatMap (Namespace.dropSchemaStmt d)
        else [])

theorem run_mutateSorted {S T : Catalog} (hE : d = .mysql → E.cascadeDrop = false) (wS : CatWF d S) (wT : CatWF d T)
    (safe : CatSafe d E S T) {stmts : List Stmt} (h : mutateSorted d {} S T = .ok stmts) :
    Runs E (Spec.Catalog.db d E S) stmts (Spec.Catalog.db d E T) := by
  unfold mutateSorted at h
  cases h1 : (T.namespaces.difference S.namespaces).mapM (Namespace.createObjectsStmt d) with
  | error e => simp [h1, bind, Except.bind] at h
  | ok creates =>
  cases h2 : (S.namespaces.intersection T.namespaces).mapM (fun p => mutateNamespace d {} p.1 p.2) with
  | error e => simp [h1, h2, bind, Except.bind] at h
  | ok mutates =>
  simp only [h1, h2, bind, Except.bind, pure, Except.pure, Except.ok.injEq, if_true] at h
  rw [← h]
  have cr := safe.created
  have ky := safe.keys
  have od := safe.order
  have ch := safe.changed
  have sf := safe.safe
  have dr := safe.dropped
  have dro := safe.dropOrder
  have sp := src_split (A := S.namespaces) (B := T.namespaces) wS.names
  have tp := tgt_split (A := S.namespaces) (B := T.namespaces) wS.names wT.names
  have cK : ((T.namespaces.difference S.namespaces).map key).Nodup := ODict.difference_nodup wT.names _
  have dK : ((S.namespaces.difference T.namespaces).map key).Nodup := ODict.difference_nodup wS.names _
  have mK : ((S.namespaces.intersection T.namespaces).map (fun p => key p.1)).Nodup := ODict.intersection_nodup wS.names _
  have mK2 := interSnd_keys wS.names wT.names
  have cS : ∀ n ∈ T.namespaces.difference S.namespaces, n.name ∉ S.namespaces.items.map key :=
    fun n hn => (ODict.mem_difference.1 hn).2
  have cW : ∀ n ∈ T.namespaces.difference S.namespaces, NsWF d n := fun n hn => wT.wf n (ODict.mem_difference.1 hn).1
  have dW : ∀ n ∈ S.namespaces.difference T.namespaces, NsWF d n := fun n hn => wS.wf n (ODict.mem_difference.1 hn).1
  have dT' : ∀ n ∈ S.namespaces.difference T.namespaces, n.name ∉ T.namespaces.items.map key :=
    fun n hn => (ODict.mem_difference.1 hn).2
  have mG : ∀ a ∈ S.namespaces.intersection T.namespaces, a.1 ∈ S.namespaces.items ∧ a.2 ∈ T.namespaces.items ∧
      a.1.name = a.2.name := fun a ha => (ODict.mem_intersection wT.names).1 ha
  generalize T.namespaces.difference S.namespaces = cs at *
  generalize S.namespaces.difference T.namespaces = ds at *
  generalize S.namespaces.intersection T.namespaces = ms at *
  -- schemas
  have r1 : Runs E (dbOf d E S.namespaces.items) (cs.flatMap (Namespace.createSchemaStmt d))
      (dbOf d E (cs.map emptyNs ++ S.namespaces.items)) := by
    have v0 : Valid (dbOf d E S.namespaces.items) := by simpa using cr [] cs rfl
    have := runs_flatMap (E := E) (Namespace.createSchemaStmt d)
      (fun p => dbOf d E (p.map emptyNs ++ S.namespaces.items)) cs ?_ v0
    · exact this
    · intro p a s hl v
      have ha := mem_of_split hl
      have := run_createSchema (d := d) (E := E) (a := p.map emptyNs) (b := S.namespaces.items) (n := a)
        (by rw [map_key_empty]; exact notMem_prefix key cK hl) (cS a ha) v
      simpa using this
  have v0 : Valid (dbOf d E S.namespaces.items) := by simpa using cr [] cs rfl
  have v1 := runs_valid r1 v0
  -- objects of new namespaces
  have r2 : Runs E (dbOf d E (cs.map emptyNs ++ S.namespaces.items)) creates.flatten
      (dbOf d E (cs.map unconstrained ++ S.namespaces.items)) := by
    obtain ⟨e1, k1⟩ := mapM_flatten h1
    rw [e1]
    have := runs_flatMap (E := E) (fun n => ((n.createObjectsStmt d).toOption).getD [])
      (fun p => dbOf d E (p.map unconstrained ++ (cs.drop p.length).map emptyNs ++ S.namespaces.items)) cs ?_
      (by simpa using v1)
    · refine runs_cast this ?_ ?_ <;> simp
    · intro p a s hl v
      have ha := mem_of_split hl
      rw [drop_split hl] at v
      simp only [drop_split hl, drop_split' hl]
      have e1 : p.map unconstrained ++ (a :: s).map emptyNs ++ S.namespaces.items
          = p.map unconstrained ++ emptyNs a :: (s.map emptyNs ++ S.namespaces.items) := by simp
      have e2 : (p ++ [a]).map unconstrained ++ s.map emptyNs ++ S.namespaces.items
          = p.map unconstrained ++ unconstrained a :: (s.map emptyNs ++ S.namespaces.items) := by simp
      rw [e1] at v ⊢
      rw [e2]
      refine run_createObjects hE (cW a ha) (od a ha) (by rw [map_key_unconstrained]; exact notMem_prefix key cK hl) v ?_
        (k1 a ha)
      rw [← e2]
      refine (valid_empties ?_).2 (cr (p ++ [a]) s (by rw [hl]; simp))
      intro n hn
      exact cS n (by rw [hl]; simp [hn])
  have v2 := runs_valid r2 v1
  -- their constraints
  have r3 : Runs E (dbOf d E (cs.map unconstrained ++ S.namespaces.items)) (cs.flatMap (Namespace.addConstraintsStmt d))
      (dbOf d E (cs ++ S.namespaces.items)) := by
    have := runs_flatMap (E := E) (Namespace.addConstraintsStmt d)
      (fun p => dbOf d E (p ++ (cs.drop p.length).map unconstrained ++ S.namespaces.items)) cs ?_ (by simpa using v2)
    · refine runs_cast this ?_ ?_ <;> simp
    · intro p a s hl v
      have ha := mem_of_split hl
      rw [drop_split hl] at v
      simp only [drop_split hl, drop_split' hl]
      have e1 : p ++ (a :: s).map unconstrained ++ S.namespaces.items
          = p ++ unconstrained a :: (s.map unconstrained ++ S.namespaces.items) := by simp
      have e2 : (p ++ [a]) ++ s.map unconstrained ++ S.namespaces.items
          = p ++ a :: (s.map unconstrained ++ S.namespaces.items) := by simp
      have hk : (dbOf d E (p ++ (a :: s).map unconstrained ++ S.namespaces.items)).kinds
          = (dbOf d E (cs ++ S.namespaces.items)).kinds := by
        rw [hl, kinds_map unconstrained_name]
        intro n hn k
        exact obj_unc_kind (cW n (by rw [hl]; simp [List.mem_cons.1 hn])) k
      rw [e1] at v hk ⊢
      rw [e2]
      refine run_addConstraintsNs (cW a ha) (notMem_prefix key cK hl) v ?_
      intro tb htb
      rw [hk]
      have hob : (dbOf d E (cs ++ S.namespaces.items)).objs (a.name, key tb) = some (.table (Spec.Table.state d E tb)) := by
        rw [hl, List.append_assoc, List.cons_append, dbOf_at (notMem_prefix key cK hl),
          obj_table (cW a ha) (get_of_mem (cW a ha).tables htb)]
      exact ky.fits _ _ hob
  have v3 := runs_valid r3 v2
  -- namespaces in both
  have keys1 : ∀ p s, ms = p ++ s → (p.map Prod.snd).map key = p.map (fun x => key x.1) := by
    intro p s hl
    rw [List.map_map]
    apply List.map_congr_left
    intro x hx
    exact (mG x (by rw [hl]; simp [hx])).2.2.symm
  have e3 : dbOf d E (cs ++ S.namespaces.items) = dbOf d E (cs ++ ms.map Prod.fst ++ ds) := by
    apply dbOf_congr
    intro k
    rw [List.append_assoc, nsGet_append, nsGet_append, sp]
  have r4 : Runs E (dbOf d E (cs ++ ms.map Prod.fst ++ ds)) mutates.flatten (dbOf d E (cs ++ ms.map Prod.snd ++ ds)) := by
    obtain ⟨e1, k1⟩ := mapM_flatten h2
    rw [e1]
    have := runs_flatMap (E := E) (fun p : Namespace × Namespace => ((mutateNamespace d {} p.1 p.2).toOption).getD [])
      (fun p => dbOf d E (cs ++ p.map Prod.snd ++ (ms.drop p.length).map Prod.fst ++ ds)) ms ?_
      (by have := ch [] ms rfl; simpa using this)
    · refine runs_cast this ?_ ?_ <;> simp
    · rintro p ⟨a, b⟩ s hl v
      have ha := mem_of_split hl
      rw [drop_split hl] at v
      simp only [drop_split hl, drop_split' hl]
      have f1 : cs ++ p.map Prod.snd ++ ((a, b) :: s).map Prod.fst ++ ds
          = (cs ++ p.map Prod.snd) ++ a :: (s.map Prod.fst ++ ds) := by simp
      have f2 : cs ++ (p ++ [(a, b)]).map Prod.snd ++ s.map Prod.fst ++ ds
          = (cs ++ p.map Prod.snd) ++ b :: (s.map Prod.fst ++ ds) := by simp
      have hm := mG _ ha
      have hnot : a.name ∉ (cs ++ p.map Prod.snd).map key := by
        rw [List.map_append, List.mem_append, not_or]
        refine ⟨?_, ?_⟩
        · intro hmem
          obtain ⟨n, hn, e⟩ := List.mem_map.1 hmem
          exact cS n hn (by rw [show n.name = a.name from e]; exact List.mem_map_of_mem (f := key) hm.1)
        · rw [keys1 p ((a, b) :: s) hl]
          exact notMem_prefix (fun x : Namespace × Namespace => key x.1) mK hl
      have v' := ch (p ++ [(a, b)]) s (by rw [hl]; simp)
      rw [f2] at v'
      rw [f1] at v ⊢
      rw [f2]
      have e := dbOf_replace (d := d) (E := E) (l1 := cs ++ p.map Prod.snd) (l2 := s.map Prod.fst ++ ds) (n := a) (n' := b)
        hm.2.2.symm hnot
      rw [← e] at v' ⊢
      exact run_mutateNamespace ⟨v, v', dbOf_at hnot, dbOf_sch hnot, rfl, hm.2.2.symm, wS.wf a hm.1, wT.wf b hm.2.1,
        sf _ ha, hE⟩ (k1 _ ha)
  have v4 := runs_valid r4 (by rw [← e3]; exact v3)
  -- removed namespaces
  have e4 : ∀ l, dbOf d E (cs ++ ms.map Prod.snd ++ l) = dbOf d E (T.namespaces.items ++ l) := by
    intro l
    apply dbOf_congr
    intro k
    rw [nsGet_append (cs ++ ms.map Prod.snd) l, nsGet_append T.namespaces.items l, tp]
  rw [e4] at r4 v4
  have dN : ∀ p a s, ds = p ++ a :: s → a.name ∉ (T.namespaces.items ++ p).map key := by
    intro p a s hl
    rw [List.map_append, List.mem_append, not_or]
    exact ⟨dT' a (mem_of_split hl), notMem_prefix key dK hl⟩
  have r5 : Runs E (dbOf d E (T.namespaces.items ++ ds)) (ds.flatMap Namespace.dropConstraintsStmt)
      (dbOf d E (T.namespaces.items ++ ds.map unconstrained)) := by
    have := runs_flatMap (E := E) Namespace.dropConstraintsStmt
      (fun p => dbOf d E (T.namespaces.items ++ p.map unconstrained ++ ds.drop p.length)) ds ?_ (by simpa using v4)
    · refine runs_cast this ?_ ?_ <;> simp
    · intro p a s hl v
      have ha := mem_of_split hl
      rw [drop_split hl] at v
      simp only [drop_split hl, drop_split' hl]
      have f2 : T.namespaces.items ++ (p ++ [a]).map unconstrained ++ s
          = (T.namespaces.items ++ p.map unconstrained) ++ unconstrained a :: s := by simp
      rw [f2]
      refine run_dropConstraintsNs (dW a ha) ?_ v
      have := dN p a s hl
      rw [List.map_append] at this ⊢
      rw [map_key_unconstrained]; exact this
  have v5 := runs_valid r5 v4
  have r6 : Runs E (dbOf d E (T.namespaces.items ++ ds.map unconstrained)) (ds.flatMap Namespace.dropObjectsStmt)
      (dbOf d E (T.namespaces.items ++ ds.map emptyNs)) := by
    have := runs_flatMap (E := E) Namespace.dropObjectsStmt
      (fun p => dbOf d E (T.namespaces.items ++ p.map emptyNs ++ (ds.drop p.length).map unconstrained)) ds ?_
      (by simpa using v5)
    · refine runs_cast this ?_ ?_ <;> simp
    · intro p a s hl v
      have ha := mem_of_split hl
      rw [drop_split hl] at v
      simp only [drop_split hl, drop_split' hl]
      have f1 : T.namespaces.items ++ p.map emptyNs ++ (a :: s).map unconstrained
          = (T.namespaces.items ++ p.map emptyNs) ++ unconstrained a :: s.map unconstrained := by simp
      have f2 : T.namespaces.items ++ (p ++ [a]).map emptyNs ++ s.map unconstrained
          = (T.namespaces.items ++ p.map emptyNs) ++ emptyNs a :: s.map unconstrained := by simp
      rw [f1] at v ⊢
      rw [f2]
      refine run_dropObjects hE (dW a ha) (dro a ha) ?_ v ?_
      · have := dN p a s hl
        rw [List.map_append] at this ⊢
        rw [map_key_empty]; exact this
      · rw [← f2]
        refine (valid_empties ?_).2 (dr (p ++ [a]) s (by rw [hl]; simp))
        intro n hn hmem
        rw [map_key_unconstrained] at hmem
        rw [hl, show p ++ a :: s = (p ++ [a]) ++ s by simp, List.map_append, List.nodup_append] at dK
        exact dK.2.2 _ (List.mem_map_of_mem (f := key) hn) _ hmem rfl
  have v6 := runs_valid r6 v5
  have vT : Valid (dbOf d E T.namespaces.items) := by simpa using dr ds [] (by simp)
  have r7 : Runs E (dbOf d E (T.namespaces.items ++ ds.map emptyNs)) (ds.flatMap (Namespace.dropSchemaStmt d))
      (dbOf d E T.namespaces.items) := by
    have := runs_flatMap (E := E) (Namespace.dropSchemaStmt d)
      (fun p => dbOf d E (T.namespaces.items ++ (ds.drop p.length).map emptyNs)) ds ?_ (by simpa using v6)
    · refine runs_cast this ?_ ?_ <;> simp
    · intro p a s hl v
      have ha := mem_of_split hl
      simp only [drop_split hl, drop_split' hl, List.map_cons]
      refine run_dropSchema (dT' a ha) ?_ ?_
      · rw [map_key_empty]
        rw [hl, List.map_append, List.nodup_append, List.map_cons, List.nodup_cons] at dK
        exact dK.2.1.1
      · have := (valid_empties (d := d) (E := E) (a := T.namespaces.items) (s := s) (b := []) (by simp)).2 (by simpa using vT)
        simpa using this
  rw [← e3] at r4
  have := runs_append (runs_append (runs_append (runs_append (runs_append r1 r2) r3) r4) r5) (runs_append r6 r7)
  exact this

end
end PySqlSync
