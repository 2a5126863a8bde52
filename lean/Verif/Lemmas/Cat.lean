/-
Helper lemmas: databases described by lists of namespaces.
-/
import Verif.Lemmas.NsDrop

set_option autoImplicit false
set_option linter.unusedSectionVars false

namespace PySqlSync
open Spec

section
variable {d : Dialect} {E : Engine}

/-- The namespace of a name in a list. -/
def nsGet (l : List Namespace) (k : Text) : Option Namespace := l.find? (fun n => key n = k)

theorem nsGet_append (l1 l2 : List Namespace) (k : Text) : nsGet (l1 ++ l2) k = (nsGet l1 k).or (nsGet l2 k) := by
  simp [nsGet, List.find?_append]

theorem nsGet_none {l : List Namespace} {k : Text} : nsGet l k = none ↔ k ∉ l.map key := ODict.get_none_iff ⟨l⟩ k

theorem dbOf_objs (l : List Namespace) (k : Key) :
    (dbOf d E l).objs k = (nsGet l k.1).bind (fun n => Spec.Namespace.obj d E n k.2) := by
  show (match (nsGet l k.1) with | some n => Spec.Namespace.obj d E n k.2 | none => none) = _
  cases nsGet l k.1 <;> rfl

theorem dbOf_schemas (l : List Namespace) (n : Text) :
    (dbOf d E l).schemas n = (decide (n = []) || (nsGet l n).isSome) := by
  show (decide (n = []) || (ODict.contains (⟨l⟩ : ODict Namespace) n)) = _
  congr 1
  rw [Bool.eq_iff_iff, ODict.contains_iff]
  exact (ODict.get_isSome_iff ⟨l⟩ n).symm

theorem dbOf_congr {l1 l2 : List Namespace} (h : ∀ k, nsGet l1 k = nsGet l2 k) : dbOf d E l1 = dbOf d E l2 := by
  have h1 : (dbOf d E l1).schemas = (dbOf d E l2).schemas := by funext n; rw [dbOf_schemas, dbOf_schemas, h]
  have h2 : (dbOf d E l1).objs = (dbOf d E l2).objs := by funext n; rw [dbOf_objs, dbOf_objs, h]
  cases hx : dbOf d E l1; cases hy : dbOf d E l2
  rw [hx, hy] at h1 h2
  simp only at h1 h2
  rw [h1, h2]

/-- Replacing one namespace. -/
theorem dbOf_replace {l1 l2 : List Namespace} {n n' : Namespace} (hname : n'.name = n.name)
    (h1 : n.name ∉ l1.map key) :
    withNs (dbOf d E (l1 ++ n :: l2)) n.name (Spec.Namespace.obj d E n') = dbOf d E (l1 ++ n' :: l2) := by
  have hl : nsGet l1 n.name = none := nsGet_none.2 h1
  have hs : (dbOf d E (l1 ++ n :: l2)).schemas = (dbOf d E (l1 ++ n' :: l2)).schemas := by
    funext m
    rw [dbOf_schemas, dbOf_schemas, nsGet_append, nsGet_append]
    congr 1
    by_cases e : n.name = m
    · subst e
      rw [hl]
      simp [nsGet, key, hname]
    · have e' : ¬ n'.name = m := by rw [hname]; exact e
      simp [nsGet, List.find?, key, e, e']
  unfold withNs
  rw [show dbOf d E (l1 ++ n' :: l2) = ⟨(dbOf d E (l1 ++ n' :: l2)).schemas, (dbOf d E (l1 ++ n' :: l2)).objs⟩ from rfl]
  congr 1
  funext k
  rw [dbOf_objs, dbOf_objs, nsGet_append, nsGet_append]
  split
  · rename_i e
    rw [e, hl]
    simp [nsGet, List.find?, key, hname]
  · rename_i e
    have e1 : ¬ n.name = k.1 := fun h => e h.symm
    have e2 : ¬ n'.name = k.1 := by rw [hname]; exact e1
    simp [nsGet, List.find?, key, e1, e2]

theorem dbOf_at {l1 l2 : List Namespace} {n : Namespace} (h1 : n.name ∉ l1.map key) (m : Text) :
    (dbOf d E (l1 ++ n :: l2)).objs (n.name, m) = Spec.Namespace.obj d E n m := by
  rw [dbOf_objs, nsGet_append, nsGet_none.2 h1]
  simp [nsGet, List.find?, key]

theorem dbOf_sch {l1 l2 : List Namespace} {n : Namespace} (h1 : n.name ∉ l1.map key) :
    (dbOf d E (l1 ++ n :: l2)).schemas n.name = true := by
  rw [dbOf_schemas, nsGet_append, nsGet_none.2 h1]
  simp [nsGet, List.find?, key]

/-- A namespace without objects. -/
def emptyNs (n : Namespace) : Namespace := { name := n.name }

theorem unconstrained_name (n : Namespace) : (unconstrained n).name = n.name := rfl

theorem map_key_unconstrained (l : List Namespace) : (l.map unconstrained).map key = l.map key := by
  rw [List.map_map]; rfl
theorem map_key_empty (l : List Namespace) : (l.map emptyNs).map key = l.map key := by
  rw [List.map_map]; rfl

theorem obj_emptyNs (n : Namespace) (k : Text) : Spec.Namespace.obj d E (emptyNs n) k = none := rfl

theorem wf_emptyNs (n : Namespace) : NsWF d (emptyNs n) := by
  constructor <;> simp [emptyNs, Distinct]

theorem unc_tables_get (n : Namespace) (k : Text) : (unconstrained n).tables.get k =
    (n.tables.get k).map (fun tb => { tb with constraints := ⟨[]⟩ }) := by
  simp only [unconstrained, ODict.get, List.find?_map]
  rfl

theorem mem_unc {n : Namespace} {tb : Table} (h : tb ∈ (unconstrained n).tables.items) :
    ∃ tb' ∈ n.tables.items, tb = { tb' with constraints := ⟨[]⟩ } := by
  simp only [unconstrained, List.mem_map] at h
  obtain ⟨a, ha, rfl⟩ := h
  exact ⟨a, ha, rfl⟩

theorem wf_unc_table {tb : Table} (h : TableWF d tb) : TableWF d { tb with constraints := ⟨[]⟩ } :=
  ⟨h.columns, by simp [Distinct], h.key, h.names, by simp, h.delta, h.snowflake⟩

theorem wf_unconstrained {n : Namespace} (h : NsWF d n) : NsWF d (unconstrained n) where
  enums := h.enums
  structs := h.structs
  tables := by
    have := h.tables
    unfold Distinct unconstrained at *
    rw [List.map_map]; exact this
  enumScope := h.enumScope
  structScope := h.structScope
  tableScope := by rintro tb htb; obtain ⟨a, ha, rfl⟩ := mem_unc htb; exact h.tableScope a ha
  enumStruct := h.enumStruct
  enumTable := by rintro e he tb htb; obtain ⟨a, ha, rfl⟩ := mem_unc htb; exact h.enumTable e he a ha
  structTable := by rintro e he tb htb; obtain ⟨a, ha, rfl⟩ := mem_unc htb; exact h.structTable e he a ha
  enumNames := h.enumNames
  structNames := h.structNames
  tableNames := by rintro tb htb; obtain ⟨a, ha, rfl⟩ := mem_unc htb; exact h.tableNames a ha
  values := h.values
  members := h.members
  wf := by rintro tb htb; obtain ⟨a, ha, rfl⟩ := mem_unc htb; exact wf_unc_table (h.wf a ha)

theorem unc_state {tb : Table} (h : Distinct tb.columns) :
    Spec.Table.state d E { tb with constraints := ⟨[]⟩ } = bare d tb := by
  rw [state_eq d E { tb with constraints := ⟨[]⟩ } h]
  rfl

theorem obj_unc_table {n : Namespace} (w : NsWF d n) {k : Text} {tb : Table} (h : n.tables.get k = some tb) :
    Spec.Namespace.obj d E (unconstrained n) k = some (.table (bare d tb)) := by
  have := obj_table (d := d) (E := E) (wf_unconstrained w) (k := k) (tb := { tb with constraints := ⟨[]⟩ })
    (by rw [unc_tables_get, h]; rfl)
  rw [this, unc_state (w.wf tb (mem_of_get h).1).columns]

theorem obj_unc_other {n : Namespace} {k : Text} (h : n.tables.get k = none) :
    Spec.Namespace.obj d E (unconstrained n) k = Spec.Namespace.obj d E n k := by
  have h' : (unconstrained n).tables.get k = none := by rw [unc_tables_get, h]; rfl
  unfold Spec.Namespace.obj
  rw [h, h']
  rfl

theorem obj_unc_kind {n : Namespace} (w : NsWF d n) (k : Text) :
    (Spec.Namespace.obj d E (unconstrained n) k).map Obj.kind = (Spec.Namespace.obj d E n k).map Obj.kind := by
  cases h : n.tables.get k with
  | none => rw [obj_unc_other h]
  | some tb => rw [obj_unc_table w h, obj_table w h]; rfl

/-! ### Creating the objects of a namespace -/

theorem createStmt_unc (tb : Table) : Table.createStmt d { tb with constraints := ⟨[]⟩ } = tb.createStmt d := rfl

theorem diff_empty {α : Type} [Named α] (x : ODict α) : x.difference ⟨[]⟩ = x.items := by
  simp [ODict.difference, ODict.contains]
theorem empty_diff {α : Type} [Named α] (x : ODict α) : ODict.difference ⟨[]⟩ x = ([] : List α) := rfl
theorem empty_inter {α : Type} [Named α] (x : ODict α) : ODict.intersection ⟨[]⟩ x = ([] : List (α × α)) := rfl
theorem inter_empty {α : Type} [Named α] (x : ODict α) : x.intersection ⟨[]⟩ = [] := by
  simp [ODict.intersection, ODict.get]

theorem mapM_map' {α β γ : Type} (g : α → β) (f : β → Except Err γ) (l : List α) :
    (l.map g).mapM f = l.mapM (fun a => f (g a)) := by
  induction l with
  | nil => rfl
  | cons a l ih => simp only [List.map_cons, List.mapM_cons, ih]

theorem create_as_mutate (n : Namespace) :
    mutateNamespace d {} (emptyNs n) (unconstrained n) = n.createObjectsStmt d := by
  unfold mutateNamespace Namespace.createObjectsStmt emptyNs unconstrained softPairs
  simp only [diff_empty, empty_diff, empty_inter, mapM_map', createStmt_unc]
  cases n.tables.items.mapM (fun tb => tb.createStmt d) with
  | error e => simp [bind, Except.bind]
  | ok l =>
    have hnone : (n.tables.items.map (fun tb => ({ tb with constraints := ⟨[]⟩ } : Table))).flatMap (Table.addConstraintsStmt d)
        = [] := by
      rw [List.flatMap_eq_nil_iff]
      intro tb htb
      obtain ⟨a, _, rfl⟩ := List.mem_map.1 htb
      rfl
    simp only [bind, Except.bind, pure, Except.pure, ne_eq, not_true_eq_false, if_false, List.flatMap_nil, List.mapM_nil,
      List.flatten_nil, List.append_nil, if_true, hnone]

theorem safe_create {n : Namespace} (h : StructsInOrder n.structs.items) : NsSafe d E (emptyNs n) (unconstrained n) := by
  refine ⟨by simp [emptyNs], by simp [emptyNs], by simp [emptyNs], by simp [emptyNs], ?_, ?_, ?_, by simp [emptyNs]⟩
  · show StructsInOrder (n.structs.difference ⟨[]⟩)
    rw [diff_empty]; exact h
  · intro p a s hl; simp [emptyNs, empty_diff] at hl
  · intro p a s hl; simp [emptyNs, empty_diff] at hl

theorem run_createObjects {l1 l2 : List Namespace} {n : Namespace} (hE : d = .mysql → E.cascadeDrop = false)
    (wf : NsWF d n) (ho : StructsInOrder n.structs.items) (hn : n.name ∉ l1.map key)
    (v : Valid (dbOf d E (l1 ++ emptyNs n :: l2))) (v' : Valid (dbOf d E (l1 ++ unconstrained n :: l2)))
    {stmts : List Stmt} (h : n.createObjectsStmt d = .ok stmts) :
    Runs E (dbOf d E (l1 ++ emptyNs n :: l2)) stmts (dbOf d E (l1 ++ unconstrained n :: l2)) := by
  have e := dbOf_replace (d := d) (E := E) (l1 := l1) (l2 := l2) (n := emptyNs n) (n' := unconstrained n) rfl hn
  rw [← e]
  refine run_mutateNamespace (S := emptyNs n) (T := unconstrained n) (N := n.name) ?_ (by rw [create_as_mutate]; exact h)
  exact ⟨v, by rw [show n.name = (emptyNs n).name from rfl, e]; exact v', dbOf_at hn, dbOf_sch hn, rfl, rfl, wf_emptyNs n,
    wf_unconstrained wf, safe_create ho, hE⟩

/-! ### Dropping the objects of a namespace -/

/-- The namespace with everything listed the other way round. -/
def revNs (n : Namespace) : Namespace :=
  { n with enums := ⟨n.enums.items.reverse⟩, structs := ⟨n.structs.items.reverse⟩, tables := ⟨n.tables.items.reverse⟩ }

theorem nodup_rev {α : Type} {l : List α} : l.reverse.Nodup ↔ l.Nodup := (List.reverse_perm l).nodup_iff

theorem rev_get {α : Type} [Named α] {x : ODict α} (h : Distinct x) (k : Text) :
    ODict.get (⟨x.items.reverse⟩ : ODict α) k = x.get k := by
  have hr : Distinct (⟨x.items.reverse⟩ : ODict α) := by
    show (x.items.reverse.map key).Nodup
    rw [List.map_reverse, nodup_rev]; exact h
  cases hg : x.get k with
  | none =>
    rw [ODict.get_none_iff] at hg ⊢
    simpa using hg
  | some a =>
    rw [ODict.get_eq_some_iff hr]
    rw [ODict.get_eq_some_iff h] at hg
    simpa using hg

theorem obj_revNs {n : Namespace} (w : NsWF d n) (k : Text) :
    Spec.Namespace.obj d E (revNs n) k = Spec.Namespace.obj d E n k := by
  unfold Spec.Namespace.obj revNs
  simp only [rev_get w.enums, rev_get w.structs, rev_get w.tables]

theorem wf_revNs {n : Namespace} (h : NsWF d n) : NsWF d (revNs n) where
  enums := by have := h.enums; unfold Distinct revNs at *; simp only [List.map_reverse, nodup_rev]; exact this
  structs := by have := h.structs; unfold Distinct revNs at *; simp only [List.map_reverse, nodup_rev]; exact this
  tables := by have := h.tables; unfold Distinct revNs at *; simp only [List.map_reverse, nodup_rev]; exact this
  enumScope := by simpa [revNs] using h.enumScope
  structScope := by simpa [revNs] using h.structScope
  tableScope := by simpa [revNs] using h.tableScope
  enumStruct := by simpa [revNs] using h.enumStruct
  enumTable := by simpa [revNs] using h.enumTable
  structTable := by simpa [revNs] using h.structTable
  enumNames := by simpa [revNs] using h.enumNames
  structNames := by simpa [revNs] using h.structNames
  tableNames := by simpa [revNs] using h.tableNames
  values := by simpa [revNs] using h.values
  members := by simpa [revNs] using h.members
  wf := by simpa [revNs] using h.wf

theorem drop_as_mutate (n : Namespace) :
    mutateNamespace d {} (revNs (unconstrained n)) (emptyNs n) = .ok n.dropObjectsStmt := by
  unfold mutateNamespace Namespace.dropObjectsStmt emptyNs unconstrained softPairs revNs
  simp only [diff_empty, empty_diff, inter_empty]
  simp only [bind, Except.bind, pure, Except.pure, ne_eq, not_true_eq_false, if_false, List.flatMap_nil, List.mapM_nil,
      List.flatten_nil, if_true, List.filter_nil, List.map_nil, Except.ok.injEq, List.append_assoc, List.nil_append]
  have : (n.enums.items.reverse.flatMap fun _ : EnumType => ([] : List (EnumType × Table))) = [] := by
    rw [List.flatMap_eq_nil_iff]; intros; rfl
  rw [this]
  simp only [List.flatMap_nil, List.nil_append, List.map_nil, List.contains_nil, Bool.false_eq_true, if_false]
  congr 1
  rw [← List.map_reverse, List.flatMap_map]; rfl

theorem structs_drop {l : List StructType} (h : StructsInOrder l) : StructsInDropOrder l.reverse := by
  intro p a s hl b hb m hm hr
  have e : l = s.reverse ++ a :: p.reverse := by
    have := congrArg List.reverse hl
    simpa using this
  obtain ⟨s1, s2, hs⟩ := List.append_of_mem (List.mem_reverse.2 hb)
  rw [hs] at e
  refine h s1 b (s2 ++ a :: p.reverse) (by rw [e]; simp) a (by simp) m hm hr

theorem safe_drop {n : Namespace} (h : StructsInDropOrder n.structs.items.reverse) :
    NsSafe d E (revNs (unconstrained n)) (emptyNs n) := by
  refine ⟨by simp [emptyNs], by simp [emptyNs], by simp [emptyNs], by simp [emptyNs], ?_, ?_, ?_, by simp [emptyNs]⟩
  · intro p a s hl; simp [emptyNs, empty_diff] at hl
  · show StructsInDropOrder (ODict.difference ⟨n.structs.items.reverse⟩ ⟨[]⟩)
    rw [diff_empty]; exact h
  · intro p a s hl b hb c hc
    have : b ∈ (revNs (unconstrained n)).tables.items := by
      have : b ∈ (revNs (unconstrained n)).tables.difference (emptyNs n).tables := by rw [hl]; simp [hb]
      rw [show (emptyNs n).tables = ⟨[]⟩ from rfl, diff_empty] at this
      exact this
    have : b ∈ (unconstrained n).tables.items := by simpa [revNs] using this
    obtain ⟨x, _, rfl⟩ := mem_unc this
    simp at hc

theorem dbOf_obj_congr {l1 l2 : List Namespace} {n n' : Namespace} (hname : n'.name = n.name)
    (h : ∀ k, Spec.Namespace.obj d E n' k = Spec.Namespace.obj d E n k) :
    dbOf d E (l1 ++ n :: l2) = dbOf d E (l1 ++ n' :: l2) := by
  by_cases hn : n.name ∈ l1.map key
  · apply dbOf_congr
    intro k
    rw [nsGet_append, nsGet_append]
    by_cases hk : nsGet l1 k = none
    · have e : ¬ n.name = k := by
        rintro rfl; exact nsGet_none.1 hk hn
      have e' : ¬ n'.name = k := by rw [hname]; exact e
      simp [nsGet, List.find?, key, e, e']
    · cases hg : nsGet l1 k with
      | none => exact absurd hg hk
      | some x => rfl
  · rw [← dbOf_replace (n := n) (n' := n') hname hn]
    rw [withNs_self]
    intro m
    rw [dbOf_at hn, h]

theorem run_dropObjects {l1 l2 : List Namespace} {n : Namespace} (hE : d = .mysql → E.cascadeDrop = false)
    (wf : NsWF d n) (ho : StructsInDropOrder n.structs.items.reverse) (hn : n.name ∉ l1.map key)
    (v : Valid (dbOf d E (l1 ++ unconstrained n :: l2))) (v' : Valid (dbOf d E (l1 ++ emptyNs n :: l2))) :
    Runs E (dbOf d E (l1 ++ unconstrained n :: l2)) n.dropObjectsStmt (dbOf d E (l1 ++ emptyNs n :: l2)) := by
  have e0 := dbOf_obj_congr (d := d) (E := E) (l1 := l1) (l2 := l2) (n := unconstrained n) (n' := revNs (unconstrained n)) rfl
    (obj_revNs (wf_unconstrained wf))
  have e := dbOf_replace (d := d) (E := E) (l1 := l1) (l2 := l2) (n := revNs (unconstrained n)) (n' := emptyNs n) rfl hn
  rw [e0] at v ⊢
  rw [← e]
  refine run_mutateNamespace (S := revNs (unconstrained n)) (T := emptyNs n) (N := n.name) ?_ (drop_as_mutate n)
  exact ⟨v, by rw [show n.name = (revNs (unconstrained n)).name from rfl, e]; exact v',
    dbOf_at (n := revNs (unconstrained n)) hn, dbOf_sch (n := revNs (unconstrained n)) hn, rfl, rfl,
    wf_revNs (wf_unconstrained wf), wf_emptyNs n, safe_drop ho, hE⟩

end
end PySqlSync
