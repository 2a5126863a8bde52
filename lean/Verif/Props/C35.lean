/-
C35: every restriction that is declared on a field yields a constraint.
-/
import Verif.Props.C33
import Verif.Props.C34

set_option autoImplicit false
set_option linter.unusedSectionVars false
set_option linter.unusedSimpArgs false

namespace PySqlSync
open Spec

namespace Spec

/-- The table of an entity in a catalog. -/
def EntityTable (o : ConvOptions) (C : Catalog) (c : ClassDecl) (tb : Table) : Prop :=
  (∃ s, InCatalog C s tb) ∧ o.qualifiedId c.name = .ok tb.name

/-- The data types that an engine substitutes for Python types have no range. -/
def PlainIntegers (o : ConvOptions) : Prop :=
  ∀ p cls w s lo hi, o.substitution p = some (.integer cls w s lo hi) → lo = none ∧ hi = none

end Spec

namespace C35
open Conv

variable {o : ConvOptions} {defs : PyDefs} {depth : Nat} {refs : List ClassDecl} {enumRefs : List EnumDecl}

/-! ### What the constraints of a field are -/

def Uq (pre : Text) (f : FieldDecl) (x : Constraint) : Prop := f.unique = true ∧ x = .unique (uqName pre f.name) [f.name]

def Fk (o : ConvOptions) (defs : PyDefs) (pre : Text) (f : FieldDecl) (x : Constraint) : Prop :=
  ∃ r, x = .foreign (fkName pre f.name) [f.name] r ∧
    ((∃ n, f.ty = .cls n ∧ o.keyRef defs n = .ok r) ∨
     (f.ty.isExtensible = true ∧ ∃ e q, f.ty.extensibleEnum = .ok e ∧ o.qualifiedId e = .ok q ∧ r = ⟨q, [t "id"]⟩) ∨
     (∃ e q, f.ty = .enum e ∧ o.qualifiedId e = .ok q ∧ r = ⟨q, [t "id"]⟩))

def Dk (o : ConvOptions) (defs : PyDefs) (pre : Text) (f : FieldDecl) (x : Constraint) : Prop :=
  ∃ ms rs, f.ty = .union ms ∧ ms.toList.mapM (fun m => do o.keyRef defs (← ConvOptions.classOf m)) = .ok rs ∧
    x = .discriminated (dkName pre f.name) [f.name] rs

def Ec (o : ConvOptions) (defs : PyDefs) (pre : Text) (f : FieldDecl) (x : Constraint) : Prop :=
  o.enumMode = .check ∧ ∃ n e, f.ty = .enum n ∧ defs.enum n = some e ∧
    x = .check (chName pre f.name) ((LocalId.mk f.name).quoted ++ t " IN (" ++ joinWith (t ", ") e.constants ++ t ")")

def Rc (o : ConvOptions) (defs : PyDefs) (depth : Nat) (pre : Text) (f : FieldDecl) (x : Constraint) : Prop :=
  ∃ ty, o.memberType defs depth f.ty = .ok ty ∧ ∃ col : Column, col.name = f.name ∧ col.ty = ty ∧ x ∈ ConvOptions.rangeCheck pre col

theorem foreign_inv {pre : Text} {f : FieldDecl} {cs : List Constraint} (h : o.foreignConstraint defs pre f = .ok cs) {x : Constraint}
    (hx : x ∈ cs) : Fk o defs pre f x ∨ Dk o defs pre f x := by
  unfold ConvOptions.foreignConstraint at h
  split at h
  · rename_i n hty
    split at h
    · simp only [bind_ok, pure_ok] at h
      obtain ⟨r, hr, rfl⟩ := h
      rw [List.mem_singleton] at hx
      exact .inl ⟨r, hx, .inl ⟨n, hty, hr⟩⟩
    · cases h; cases hx
  · rename_i ms hty
    split at h
    · simp only [bind_ok, pure_ok] at h
      obtain ⟨rs, hrs, rfl⟩ := h
      rw [List.mem_singleton] at hx
      exact .inr ⟨ms, rs, hty, by simpa [bind_ok] using hrs, hx⟩
    · cases h; cases hx
  · cases h; cases hx

/-- Each generated constraint belongs to a field. -/
theorem generated_inv {c : ClassDecl} {columns : List Column} {pre : Text} {keys : List Constraint} {ext rel chk : List (List Constraint)}
    (h1 : o.tableColumns defs depth c = .ok columns) (h3 : o.keyConstraints defs pre c = .ok keys)
    (h4 : c.fields.mapM (o.extensibleConstraint pre) = .ok ext) (h5 : o.enumConstraints pre c = .ok rel) (h6 : o.enumChecks defs pre c = .ok chk)
    {x : Constraint} (hx : x ∈ keys ++ ext.flatten ++ rel.flatten ++ chk.flatten ++ columns.flatMap (ConvOptions.rangeCheck pre)) :
    ∃ f ∈ c.fields, Uq pre f x ∨ Fk o defs pre f x ∨ Dk o defs pre f x ∨ Ec o defs pre f x ∨ Rc o defs depth pre f x := by
  simp only [List.mem_append] at hx
  rcases hx with (((hx | hx) | hx) | hx) | hx
  · unfold ConvOptions.keyConstraints at h3
    split at h3
    · rename_i hfc
      unfold ConvOptions.dataclassConstraints at h3
      simp only [bind_ok, pure_ok] at h3
      obtain ⟨fks, hf, rfl⟩ := h3
      rcases List.mem_append.1 hx with hx | hx
      · unfold ConvOptions.uniqueConstraints at hx
        obtain ⟨f, hf, rfl⟩ := List.mem_map.1 hx
        obtain ⟨hf, hu⟩ := List.mem_filter.1 hf
        exact ⟨f, hf, .inl ⟨hu, rfl⟩⟩
      · obtain ⟨cs, hcs, hx⟩ := List.mem_flatten.1 hx
        unfold ConvOptions.foreignKeys at hf
        rw [if_pos hfc] at hf
        obtain ⟨f, hff, hb⟩ := mapM_back hf cs hcs
        rcases foreign_inv hb hx with h | h
        · exact ⟨f, hff, .inr (.inl h)⟩
        · exact ⟨f, hff, .inr (.inr (.inl h))⟩
    · cases h3; cases hx
  · obtain ⟨cs, hcs, hx⟩ := List.mem_flatten.1 hx
    obtain ⟨f, hf, hb⟩ := mapM_back h4 cs hcs
    unfold ConvOptions.extensibleConstraint at hb
    split at hb
    · rename_i hext
      simp only [bind_ok, pure_ok] at hb
      obtain ⟨e, he, q, hq, rfl⟩ := hb
      rw [List.mem_singleton] at hx
      exact ⟨f, hf, .inr (.inl ⟨_, hx, .inr (.inl ⟨hext, e, q, he, hq, rfl⟩)⟩)⟩
    · cases hb; cases hx
  · unfold ConvOptions.enumConstraints at h5
    split at h5
    · obtain ⟨cs, hcs, hx⟩ := List.mem_flatten.1 hx
      obtain ⟨f, hf, hb⟩ := mapM_back h5 cs hcs
      unfold ConvOptions.enumConstraint at hb
      split at hb
      · rename_i e hty
        simp only [bind_ok, pure_ok] at hb
        obtain ⟨q, hq, rfl⟩ := hb
        rw [List.mem_singleton] at hx
        exact ⟨f, hf, .inr (.inl ⟨_, hx, .inr (.inr ⟨e, q, hty, hq, rfl⟩)⟩)⟩
      · cases hb; cases hx
    · cases h5; cases hx
  · have hm : o.enumMode = .check := by
      unfold ConvOptions.enumChecks at h6
      split at h6
      · rename_i h; exact h.2
      · cases h6; cases hx
    obtain ⟨f, hf, n, e, h1, h2, h3⟩ := C32.enum_checks h6 x hx
    exact ⟨f, hf, .inr (.inr (.inr (.inl ⟨hm, n, e, h1, h2, h3⟩)))⟩
  · obtain ⟨col, hcol, hx⟩ := List.mem_flatMap.1 hx
    obtain ⟨f, hf, hb⟩ := mapM_back h1 col hcol
    unfold ConvOptions.memberColumn at hb
    simp only [bind_ok, pure_ok] at hb
    obtain ⟨ty, hty, rfl⟩ := hb
    exact ⟨f, (List.mem_filter.1 hf).1, .inr (.inr (.inr (.inr ⟨ty, hty, _, rfl, rfl, hx⟩)))⟩

theorem append_inj {a b : Text} (p : Text) (pre : Text) (h : p ++ pre ++ t "_" ++ a = p ++ pre ++ t "_" ++ b) : a = b := List.append_cancel_left h

theorem fk_functional {pre : Text} {f : FieldDecl} {x y : Constraint} (hx : Fk o defs pre f x) (hy : Fk o defs pre f y) : x = y := by
  obtain ⟨r, rfl, hx⟩ := hx
  obtain ⟨r', rfl, hy⟩ := hy
  have : r = r' := by
    rcases hx with ⟨n, h1, h2⟩ | ⟨h1, e, q, h2, h3, h4⟩ | ⟨e, q, h1, h2, h3⟩
    · rcases hy with ⟨n', h1', h2'⟩ | ⟨h1', e', q', h2', h3', h4'⟩ | ⟨e', q', h1', h2', h3'⟩
      · rw [h1] at h1'; cases h1'; rw [h2] at h2'; exact Except.ok.inj h2'
      · rw [h1] at h1'; simp [PyType.isExtensible] at h1'
      · rw [h1] at h1'; cases h1'
    · rcases hy with ⟨n', h1', h2'⟩ | ⟨h1', e', q', h2', h3', h4'⟩ | ⟨e', q', h1', h2', h3'⟩
      · rw [h1'] at h1; simp [PyType.isExtensible] at h1
      · rw [h2] at h2'; cases h2'; rw [h3] at h3'; cases h3'; rw [h4, h4']
      · rw [h1'] at h1; simp [PyType.isExtensible] at h1
    · rcases hy with ⟨n', h1', h2'⟩ | ⟨h1', e', q', h2', h3', h4'⟩ | ⟨e', q', h1', h2', h3'⟩
      · rw [h1] at h1'; cases h1'
      · rw [h1] at h1'; simp [PyType.isExtensible] at h1'
      · rw [h1] at h1'; cases h1'; rw [h2] at h2'; cases h2'; rw [h3, h3']
  rw [this]

theorem range_functional {pre : Text} {c c' : Column} (hn : c.name = c'.name) (ht : c.ty = c'.ty) : ConvOptions.rangeCheck pre c = ConvOptions.rangeCheck pre c' := by
  unfold ConvOptions.rangeCheck ConvOptions.rangeConditions
  rw [hn, ht]

/-- A column of an enumeration has no range. -/
theorem enum_no_range (hp : PlainIntegers o) {pre : Text} {f : FieldDecl} {x y : Constraint} (hx : Ec o defs pre f x) (hy : Rc o defs depth pre f y) : False := by
  obtain ⟨hm, n, e, hty, he, _⟩ := hx
  obtain ⟨ty, hmt, col, _, hct, hr⟩ := hy
  have hprim : ∀ p cls w s lo hi, o.primType p = .integer cls w s lo hi → lo = none ∧ hi = none := by
    intro p cls w s lo hi h
    unfold ConvOptions.primType at h
    cases hs : o.substitution p with
    | some ty => rw [hs] at h; dsimp only at h; subst h; exact hp p cls w s lo hi hs
    | none =>
      rw [hs] at h
      cases p <;> dsimp only at h <;> (try split at h) <;> cases h <;> exact ⟨rfl, rfl⟩
  have hint : ∀ cls w s lo hi, ty = .integer cls w s lo hi → lo = none ∧ hi = none := by
    intro cls w s lo hi hti
    subst hti
    rw [hty] at hmt
    cases depth with
    | zero => simp [ConvOptions.memberType] at hmt
    | succ d =>
      have hmt : o.enumType e = .ok (.integer cls w s lo hi) := by simpa [ConvOptions.memberType, ConvOptions.simpleType, he] using hmt
      unfold ConvOptions.enumType at hmt
      rw [hm] at hmt
      have lab : o.labelType = .ok (.integer cls w s lo hi) → False := by
        intro h
        unfold ConvOptions.labelType ConvOptions.annotatedType at h
        cases hb : o.annotatedBase .str with
        | none => rw [hb] at h; simp [parseMetas] at h
        | some b =>
          rw [hb] at h
          cases b <;> simp [parseMetas, SqlType.parseMeta] at h
      cases hk : e.kind with
      | int => rw [hk] at hmt; simp at hmt; exact hprim _ _ _ _ _ _ hmt
      | str => rw [hk] at hmt; simp at hmt; exact (lab hmt).elim
      | struct _ => rw [hk] at hmt; simp at hmt
      | empty => rw [hk] at hmt; simp at hmt
      | mixed => rw [hk] at hmt; simp at hmt
      | other => rw [hk] at hmt; simp at hmt
  unfold ConvOptions.rangeCheck ConvOptions.rangeConditions at hr
  rw [hct] at hr
  cases ty with
  | integer cls w s lo hi =>
    obtain ⟨rfl, rfl⟩ := hint cls w s lo hi rfl
    simp at hr
  | _ => simp at hr

/-- Generated constraints of the same name are the same. -/
theorem generated_unique (hp : PlainIntegers o) {c : ClassDecl} (hnd : (c.fields.map FieldDecl.name).Nodup) {pre : Text} {f g : FieldDecl} (hf : f ∈ c.fields)
    (hg : g ∈ c.fields) {x y : Constraint}
    (hx : Uq pre f x ∨ Fk o defs pre f x ∨ Dk o defs pre f x ∨ Ec o defs pre f x ∨ Rc o defs depth pre f x)
    (hy : Uq pre g y ∨ Fk o defs pre g y ∨ Dk o defs pre g y ∨ Ec o defs pre g y ∨ Rc o defs depth pre g y)
    (h : x.name = y.name) : x = y := by
  have kind : ∀ {f : FieldDecl} {x : Constraint},
      (Uq pre f x ∨ Fk o defs pre f x ∨ Dk o defs pre f x ∨ Ec o defs pre f x ∨ Rc o defs depth pre f x) →
      (Uq pre f x ∧ x.name = uqName pre f.name) ∨ (Fk o defs pre f x ∧ x.name = fkName pre f.name) ∨ (Dk o defs pre f x ∧ x.name = dkName pre f.name) ∨
        ((Ec o defs pre f x ∨ Rc o defs depth pre f x) ∧ x.name = chName pre f.name) := by
    rintro f x (hx | hx | hx | hx | hx)
    · refine .inl ⟨hx, ?_⟩; obtain ⟨_, rfl⟩ := hx; rfl
    · refine .inr (.inl ⟨hx, ?_⟩); obtain ⟨_, rfl, _⟩ := hx; rfl
    · refine .inr (.inr (.inl ⟨hx, ?_⟩)); obtain ⟨_, _, _, _, rfl⟩ := hx; rfl
    · refine .inr (.inr (.inr ⟨.inl hx, ?_⟩)); obtain ⟨_, _, _, _, _, rfl⟩ := hx; rfl
    · refine .inr (.inr (.inr ⟨.inr hx, ?_⟩))
      obtain ⟨_, _, col, hcn, _, hr⟩ := hx
      obtain ⟨_, rfl⟩ := C32.range_check x hr
      rw [hcn]; rfl
  have same : ∀ p : Text, p ++ pre ++ t "_" ++ f.name = p ++ pre ++ t "_" ++ g.name → f = g := by
    intro p e
    exact C32.nodup_field hnd hf hg (append_inj p pre e)
  rcases kind hx with ⟨hx, ex⟩ | ⟨hx, ex⟩ | ⟨hx, ex⟩ | ⟨hx, ex⟩ <;> rcases kind hy with ⟨hy, ey⟩ | ⟨hy, ey⟩ | ⟨hy, ey⟩ | ⟨hy, ey⟩ <;> rw [ex, ey] at h
  case inl.inl =>
    cases same _ h
    rw [hx.2, hy.2]
  case inr.inl.inr.inl =>
    cases same _ h
    exact fk_functional hx hy
  case inr.inr.inl.inr.inr.inl =>
    cases same _ h
    obtain ⟨ms, rs, h1, h2, rfl⟩ := hx
    obtain ⟨ms', rs', h1', h2', rfl⟩ := hy
    rw [h1] at h1'
    cases h1'
    rw [h2] at h2'
    cases h2'
    rfl
  case inr.inr.inr.inr.inr.inr =>
    cases same _ h
    rcases hx with hx | hx <;> rcases hy with hy | hy
    · obtain ⟨_, n, e, h1, h2, rfl⟩ := hx
      obtain ⟨_, n', e', h1', h2', rfl⟩ := hy
      rw [h1] at h1'
      cases h1'
      rw [h2] at h2'
      cases h2'
      rfl
    · exact (enum_no_range hp hx hy).elim
    · exact (enum_no_range hp hy hx).elim
    · obtain ⟨ty, h1, col, hcn, hct, hr⟩ := hx
      obtain ⟨ty', h1', col', hcn', hct', hr'⟩ := hy
      rw [h1] at h1'
      cases h1'
      rw [range_functional (hcn.trans hcn'.symm) (hct.trans hct'.symm)] at hr
      unfold ConvOptions.rangeCheck at hr hr'
      split at hr
      · cases hr
      · rename_i hne
        rw [List.mem_singleton] at hr
        split at hr'
        · cases hr'
        · rw [List.mem_singleton] at hr'
          rw [hr, hr']
  all_goals simp [uqName, fkName, dkName, chName, t] at h

/-- The table of an entity with all its constraints. -/
theorem entity_constraints (hp : PlainIntegers o) (hw : WellFormed defs refs) (hn : NoClash o defs refs)
    {topo : List ClassDecl → Except Err (List ClassDecl)} {C : Catalog} (h : o.toCatalog defs depth topo refs enumRefs = .ok C)
    {c : ClassDecl} (hc : c ∈ refs) (hk : c.key.isSome = true) {tb : Table} (htb : EntityTable o C c tb) :
    ∃ columns pre keys ext rel chk, o.tableColumns defs depth c = .ok columns ∧ o.namePrefix c.name = .ok pre ∧
      o.keyConstraints defs pre c = .ok keys ∧ c.fields.mapM (o.extensibleConstraint pre) = .ok ext ∧ o.enumConstraints pre c = .ok rel ∧
      o.enumChecks defs pre c = .ok chk ∧ tb.columns = ODict.ofList columns ∧
      ∀ x, x ∈ tb.constraints.items ↔ x ∈ keys ++ ext.flatten ++ rel.flatten ++ chk.flatten ++ columns.flatMap (ConvOptions.rangeCheck pre) := by
  obtain ⟨⟨s, hin⟩, hq⟩ := htb
  obtain ⟨src, hm, hB, _⟩ := (C32.catalog_tables hw hn h s tb).1 hin
  have hq' := C32.built_name hB
  cases hn.tables src (.entity c.name) hm (.entity c hc hk) _ _ hq' hq rfl
  obtain ⟨c', hc', hcn, _, hb⟩ := hB
  cases C32.wf_unique hw hc' hc hcn
  obtain ⟨columns, pre, keys, ext, rel, chk, name, k, h1, h2, h3, h4, h5, h6, h7, hk, rfl⟩ := C32.dataclassTable_inv hb
  refine ⟨columns, pre, keys, ext, rel, chk, h1, h2, h3, h4, h5, h6, rfl, ?_⟩
  intro x
  refine mem_ofList ?_
  intro a ha b hb hab
  obtain ⟨f, hf, hfa⟩ := generated_inv h1 h3 h4 h5 h6 ha
  obtain ⟨g, hg, hgb⟩ := generated_inv h1 h3 h4 h5 h6 hb
  exact generated_unique hp (hw.fields c hc) hf hg hfa hgb hab

end C35

section
variable (o : ConvOptions) (defs : PyDefs) (depth : Nat) (topo : List ClassDecl → Except Err (List ClassDecl)) (refs : List ClassDecl)
  (enumRefs : List EnumDecl) (C : Catalog) (hp : PlainIntegers o) (hw : WellFormed defs refs) (hn : NoClash o defs refs)
  (h : o.toCatalog defs depth topo refs enumRefs = .ok C)
  (c : ClassDecl) (hc : c ∈ refs) (hk : c.key.isSome = true) (tb : Table) (htb : EntityTable o C c tb) (f : FieldDecl) (hf : f ∈ c.fields)
include hp hw hn h hc hk htb hf

/-- **C35**, uniqueness: a field that is declared unique is unique in the table, if the engine has foreign keys (sic). -/
theorem C35_unique (hfc : o.foreignConstraints = true) (hu : f.unique = true) : ∃ name, Constraint.unique name [f.name] ∈ tb.constraints.items := by
  obtain ⟨columns, pre, keys, ext, rel, chk, h1, h2, h3, h4, h5, h6, _, hx⟩ := C35.entity_constraints hp hw hn h hc hk htb
  refine ⟨uqName pre f.name, (hx _).2 ?_⟩
  simp only [List.mem_append]
  refine .inl (.inl (.inl (.inl ?_)))
  unfold ConvOptions.keyConstraints at h3
  rw [if_pos hfc] at h3
  unfold ConvOptions.dataclassConstraints at h3
  simp only [Conv.bind_ok, Conv.pure_ok] at h3
  obtain ⟨fks, _, rfl⟩ := h3
  exact List.mem_append.2 (.inl (List.mem_map.2 ⟨f, List.mem_filter.2 ⟨hf, hu⟩, rfl⟩))

omit hp hf in
/-- On the other engines declared uniqueness is always lost: no table of an entity has a uniqueness constraint. -/
theorem C35_unique_lost (hfc : o.foreignConstraints = false) : ∀ name cols, Constraint.unique name cols ∉ tb.constraints.items := by
  intro name cols hmem
  obtain ⟨⟨s, hin⟩, hq⟩ := htb
  obtain ⟨src, hm, hB, _⟩ := (C32.catalog_tables hw hn h s tb).1 hin
  have hq' := C32.built_name hB
  cases hn.tables src (.entity c.name) hm (.entity c hc hk) _ _ hq' hq rfl
  obtain ⟨c', hc', hcn, _, hb⟩ := hB
  obtain ⟨columns, pre, keys, ext, rel, chk, qn, k, h1, h2, h3, h4, h5, h6, h7, hk, rfl⟩ := C32.dataclassTable_inv hb
  obtain ⟨g, _, hg⟩ := C35.generated_inv h1 h3 h4 h5 h6 (Conv.of_mem_ofList hmem)
  rcases hg with hg | ⟨_, hg, _⟩ | ⟨_, _, _, _, hg⟩ | ⟨_, _, _, _, _, hg⟩ | ⟨_, _, col, _, _, hg⟩
  · have hmem := Conv.of_mem_ofList hmem
    simp only [List.mem_append] at hmem
    unfold ConvOptions.keyConstraints at h3
    rw [if_neg (by simp [hfc])] at h3
    cases h3
    rcases hmem with (((hm | hm) | hm) | hm) | hm
    · cases hm
    · obtain ⟨cs, hcs, hx⟩ := List.mem_flatten.1 hm
      obtain ⟨f, hf, hb⟩ := Conv.mapM_back h4 cs hcs
      unfold ConvOptions.extensibleConstraint at hb
      split at hb
      · simp only [Conv.bind_ok, Conv.pure_ok] at hb
        obtain ⟨e, he, q, hq, rfl⟩ := hb
        simp at hx
      · cases hb; cases hx
    · unfold ConvOptions.enumConstraints at h5
      split at h5
      · obtain ⟨cs, hcs, hx⟩ := List.mem_flatten.1 hm
        obtain ⟨f, hf, hb⟩ := Conv.mapM_back h5 cs hcs
        unfold ConvOptions.enumConstraint at hb
        split at hb
        · simp only [Conv.bind_ok, Conv.pure_ok] at hb
          obtain ⟨q, hq, rfl⟩ := hb
          simp at hx
        · cases hb; cases hx
      · cases h5; cases hm
    · obtain ⟨_, _, _, _, _, _, hx⟩ := C32.enum_checks h6 _ hm
      cases hx
    · obtain ⟨col, _, hx⟩ := List.mem_flatMap.1 hm
      obtain ⟨_, hx⟩ := C32.range_check _ hx
      cases hx
  · cases hg
  · cases hg
  · cases hg
  · obtain ⟨_, hx⟩ := C32.range_check _ hg
    cases hx

/-- A field of an entity type has a foreign key to the primary key of the table of that entity, unless foreign keys are switched off. -/
theorem C35_foreign (hfc : o.foreignConstraints = true) (n : PyName) (hty : f.ty = .cls n) (c' : ClassDecl) (k' : FieldDecl)
    (hd : defs.cls n = some c') (hk' : c'.key = some k') :
    ∃ name q, o.qualifiedId n = .ok q ∧ Constraint.foreign name [f.name] ⟨q, [k'.name]⟩ ∈ tb.constraints.items := by
  obtain ⟨columns, pre, keys, ext, rel, chk, h1, h2, h3, h4, h5, h6, _, hx⟩ := C35.entity_constraints hp hw hn h hc hk htb
  unfold ConvOptions.keyConstraints at h3
  rw [if_pos hfc] at h3
  unfold ConvOptions.dataclassConstraints at h3
  simp only [Conv.bind_ok, Conv.pure_ok] at h3
  obtain ⟨fks, hfks, rfl⟩ := h3
  unfold ConvOptions.foreignKeys at hfks
  rw [if_pos hfc] at hfks
  obtain ⟨cs, hcs, hb⟩ := Conv.mapM_fwd hfks f hf
  unfold ConvOptions.foreignConstraint at hb
  rw [hty] at hb
  dsimp only at hb
  rw [if_pos (by simp [PyDefs.isEntity, hd, hk'])] at hb
  simp only [Conv.bind_ok, Conv.pure_ok] at hb
  obtain ⟨r, hr, rfl⟩ := hb
  unfold ConvOptions.keyRef at hr
  rw [hd, Option.bind_some, hk'] at hr
  simp only [Conv.bind_ok, Conv.pure_ok] at hr
  obtain ⟨q, hq, rfl⟩ := hr
  refine ⟨fkName pre f.name, q, hq, (hx _).2 ?_⟩
  simp only [List.mem_append]
  exact .inl (.inl (.inl (.inl (.inr (List.mem_flatten.2 ⟨_, hcs, List.mem_singleton.2 rfl⟩)))))

/-- A field that is a union of entity types has a discriminated key with a reference for each member of the union. -/
theorem C35_union (hfc : o.foreignConstraints = true) (ms : PyTypes) (hty : f.ty = .union ms) (hall : ms.toList.all defs.isEntity = true) :
    ∃ name rs, Constraint.discriminated name [f.name] rs ∈ tb.constraints.items ∧ rs.length = ms.toList.length ∧
      ∀ n ∈ ms.toList, ∃ m c' k' q, n = .cls m ∧ defs.cls m = some c' ∧ c'.key = some k' ∧ o.qualifiedId m = .ok q ∧ ⟨q, [k'.name]⟩ ∈ rs := by
  obtain ⟨columns, pre, keys, ext, rel, chk, h1, h2, h3, h4, h5, h6, _, hx⟩ := C35.entity_constraints hp hw hn h hc hk htb
  unfold ConvOptions.keyConstraints at h3
  rw [if_pos hfc] at h3
  unfold ConvOptions.dataclassConstraints at h3
  simp only [Conv.bind_ok, Conv.pure_ok] at h3
  obtain ⟨fks, hfks, rfl⟩ := h3
  unfold ConvOptions.foreignKeys at hfks
  rw [if_pos hfc] at hfks
  obtain ⟨cs, hcs, hb⟩ := Conv.mapM_fwd hfks f hf
  unfold ConvOptions.foreignConstraint at hb
  rw [hty] at hb
  dsimp only at hb
  rw [if_pos hall] at hb
  simp only [Conv.bind_ok, Conv.pure_ok] at hb
  obtain ⟨rs, hrs, rfl⟩ := hb
  refine ⟨dkName pre f.name, rs, (hx _).2 ?_, C21.mapM_length hrs, ?_⟩
  · simp only [List.mem_append]
    exact .inl (.inl (.inl (.inl (.inr (List.mem_flatten.2 ⟨_, hcs, List.mem_singleton.2 rfl⟩)))))
  · intro n hn'
    obtain ⟨m, c', rfl, hd, hk'⟩ := C32.entity_inv (List.all_eq_true.1 hall n hn')
    obtain ⟨r, hr, hb⟩ := Conv.mapM_fwd hrs _ hn'
    obtain ⟨k', hk'⟩ := Option.isSome_iff_exists.1 hk'
    simp only [Conv.bind_ok, ConvOptions.classOf, Except.ok.injEq, exists_eq_left'] at hb
    unfold ConvOptions.keyRef at hb
    rw [hd, Option.bind_some, hk'] at hb
    simp only [Conv.bind_ok, Conv.pure_ok] at hb
    obtain ⟨q, hq, rfl⟩ := hb
    exact ⟨m, c', k', q, rfl, hd, hk', hq, hr⟩

/-- A field `E | str` has a foreign key to the table of the enumeration, whatever the options. -/
theorem C35_extensible (hext : f.ty.isExtensible = true) :
    ∃ name e q, f.ty.extensibleEnum = .ok e ∧ o.qualifiedId e = .ok q ∧ Constraint.foreign name [f.name] ⟨q, [t "id"]⟩ ∈ tb.constraints.items := by
  obtain ⟨columns, pre, keys, ext, rel, chk, h1, h2, h3, h4, h5, h6, _, hx⟩ := C35.entity_constraints hp hw hn h hc hk htb
  obtain ⟨cs, hcs, hb⟩ := Conv.mapM_fwd h4 f hf
  unfold ConvOptions.extensibleConstraint at hb
  rw [if_pos hext] at hb
  simp only [Conv.bind_ok, Conv.pure_ok] at hb
  obtain ⟨e, he, q, hq, rfl⟩ := hb
  refine ⟨fkName pre f.name, e, q, he, hq, (hx _).2 ?_⟩
  simp only [List.mem_append]
  exact .inl (.inl (.inl (.inr (List.mem_flatten.2 ⟨_, hcs, List.mem_singleton.2 rfl⟩))))

/-- A field of an enumeration has a foreign key to the table of the enumeration if enumerations become relations. -/
theorem C35_enum_relation (hm : o.enumMode = .relation) (e : PyName) (hty : f.ty = .enum e) :
    ∃ name q, o.qualifiedId e = .ok q ∧ Constraint.foreign name [f.name] ⟨q, [t "id"]⟩ ∈ tb.constraints.items := by
  obtain ⟨columns, pre, keys, ext, rel, chk, h1, h2, h3, h4, h5, h6, _, hx⟩ := C35.entity_constraints hp hw hn h hc hk htb
  unfold ConvOptions.enumConstraints at h5
  rw [if_pos hm] at h5
  obtain ⟨cs, hcs, hb⟩ := Conv.mapM_fwd h5 f hf
  unfold ConvOptions.enumConstraint at hb
  rw [hty] at hb
  simp only [Conv.bind_ok, Conv.pure_ok] at hb
  obtain ⟨q, hq, rfl⟩ := hb
  refine ⟨fkName pre f.name, q, hq, (hx _).2 ?_⟩
  simp only [List.mem_append]
  exact .inl (.inl (.inr (List.mem_flatten.2 ⟨_, hcs, List.mem_singleton.2 rfl⟩)))

/-- A field of an enumeration has a check that lists the values of the enumeration if enumerations become checks and the engine has checks. -/
theorem C35_enum_check (hm : o.enumMode = .check) (hcc : o.checkConstraints = true) (n : PyName) (hty : f.ty = .enum n) :
    ∃ name e, defs.enum n = some e ∧
      Constraint.check name ((LocalId.mk f.name).quoted ++ t " IN (" ++ joinWith (t ", ") e.constants ++ t ")") ∈ tb.constraints.items := by
  obtain ⟨columns, pre, keys, ext, rel, chk, h1, h2, h3, h4, h5, h6, _, hx⟩ := C35.entity_constraints hp hw hn h hc hk htb
  unfold ConvOptions.enumChecks at h6
  rw [if_pos ⟨hcc, hm⟩] at h6
  obtain ⟨cs, hcs, hb⟩ := Conv.mapM_fwd h6 f hf
  unfold ConvOptions.enumCheck at hb
  rw [hty] at hb
  dsimp only at hb
  cases he : defs.enum n with
  | none => rw [he] at hb; cases hb
  | some e =>
    rw [he] at hb
    cases hb
    refine ⟨chName pre f.name, e, rfl, (hx _).2 ?_⟩
    simp only [List.mem_append]
    exact .inl (.inr (List.mem_flatten.2 ⟨_, hcs, List.mem_singleton.2 rfl⟩))

omit hf in
/-- Every column with a range has a check of both ends of the range. -/
theorem C35_range (col : Column) (hcol : col ∈ tb.columns.items) (cls : Cls) (w : Nat) (s : Bool) (lo hi : Int)
    (hty : col.ty = .integer cls w s (some lo) (some hi)) :
    ∃ name, Constraint.check name (t "(" ++ ((LocalId.mk col.name).quoted ++ t " >= " ++ intText lo) ++ t ")" ++ t " AND " ++
      (t "(" ++ ((LocalId.mk col.name).quoted ++ t " <= " ++ intText hi) ++ t ")")) ∈ tb.constraints.items := by
  obtain ⟨columns, pre, keys, ext, rel, chk, h1, h2, h3, h4, h5, h6, hcols, hx⟩ := C35.entity_constraints hp hw hn h hc hk htb
  rw [hcols] at hcol
  refine ⟨chName pre col.name, (hx _).2 ?_⟩
  simp only [List.mem_append]
  refine .inr (List.mem_flatMap.2 ⟨col, Conv.of_mem_ofList hcol, ?_⟩)
  simp [ConvOptions.rangeCheck, ConvOptions.rangeConditions, hty, joinWith]

/-- A uniqueness constraint that is declared on a list or set of entities refers to a column that does not exist. -/
theorem C35_unique_list_fails (hfc : o.foreignConstraints = true) (hu : f.unique = true) (hr : (o.relationship defs f.ty).isSome = true) :
    (∃ name, Constraint.unique name [f.name] ∈ tb.constraints.items) ∧ ¬ HasColumn tb f.name := by
  refine ⟨C35_unique o defs depth topo refs enumRefs C hp hw hn h c hc hk tb htb f hf hfc hu, ?_⟩
  obtain ⟨columns, pre, keys, ext, rel, chk, h1, h2, h3, h4, h5, h6, hcols, hx⟩ := C35.entity_constraints hp hw hn h hc hk htb
  rintro ⟨col, hcol, hcn⟩
  rw [hcols] at hcol
  obtain ⟨g, hg, hb⟩ := Conv.mapM_back h1 col (Conv.of_mem_ofList hcol)
  obtain ⟨hg, hgr⟩ := List.mem_filter.1 hg
  unfold ConvOptions.memberColumn at hb
  simp only [Conv.bind_ok, Conv.pure_ok] at hb
  obtain ⟨ty, hty, rfl⟩ := hb
  cases C32.nodup_field (hw.fields c hc) hg hf hcn
  cases hrel : o.relationship defs f.ty with
  | none => rw [hrel] at hr; cases hr
  | some _ => rw [hrel] at hgr; cases hgr

end

/-- An annotation `IntegerRange(lo, hi)` on an integer field gives its column a range, if it is the last one. -/
theorem C35_range_annotation (o : ConvOptions) (defs : PyDefs) (depth : Nat) (pre post : List Meta) (lo hi : Int) (ty : SqlType)
    (hpost : ∀ m ∈ post, ∀ a b, m ≠ .integerRange a b)
    (h0 : o.memberType defs depth (.annotated .int (pre ++ .integerRange lo hi :: post)) = .ok ty) :
    ∃ cls w s, ty = .integer cls w s (some lo) (some hi) := by
  have h : o.annotatedType .int (pre ++ .integerRange lo hi :: post) = .ok ty := by
    cases depth with
    | zero => simp [ConvOptions.memberType] at h0
    | succ d => simpa [ConvOptions.memberType, ConvOptions.simpleType] using h0
  unfold ConvOptions.annotatedType at h
  have hpm : parseMetas (o.annotatedBase .int) (pre ++ .integerRange lo hi :: post) = .ok (some ty) := by
    split at h
    · rename_i ty' hty; cases h; exact hty
    · cases h
    · cases h
  clear h h0
  have tail : ∀ (post : List Meta), (∀ m ∈ post, ∀ a b, m ≠ .integerRange a b) → ∀ cls w s, parseMetas (some (.integer cls w s (some lo) (some hi))) post = .ok (some ty) →
      ∃ cls w s, ty = .integer cls w s (some lo) (some hi) := by
    intro post
    induction post with
    | nil => intro _ cls w s h; simp only [parseMetas] at h; cases h; exact ⟨cls, w, s, rfl⟩
    | cons m post ih =>
      intro hp cls w s h
      have ih := ih (fun m hm => hp m (List.mem_cons_of_mem _ hm))
      cases m with
      | skipped => simp only [parseMetas] at h; exact ih _ _ _ h
      | integerRange a b => exact absurd rfl (hp _ (List.mem_cons_self ..) a b)
      | signed b => simp only [parseMetas, SqlType.parseMeta] at h; exact ih _ _ _ h
      | storage n => simp only [parseMetas, SqlType.parseMeta] at h; exact ih _ _ _ h
      | _ => simp [parseMetas, SqlType.parseMeta] at h
  generalize o.annotatedBase .int = b at hpm
  induction pre generalizing b with
  | nil =>
    rw [List.nil_append] at hpm
    cases b with
    | none => simp [parseMetas] at hpm
    | some b =>
      cases b with
      | integer cls w s _ _ => simp only [parseMetas, SqlType.parseMeta] at hpm; exact tail post hpost _ _ _ hpm
      | _ => simp [parseMetas, SqlType.parseMeta] at hpm
  | cons m pre ih =>
    rw [List.cons_append] at hpm
    cases b with
    | none =>
      cases m with
      | skipped => simp only [parseMetas] at hpm; exact ih _ hpm
      | _ => simp [parseMetas] at hpm
    | some b =>
      by_cases hm : m = .skipped
      · subst hm; simp only [parseMetas] at hpm; exact ih _ hpm
      · have : parseMetas (some b) (m :: (pre ++ .integerRange lo hi :: post)) =
            (match b.parseMeta m with
              | .ok ty' => parseMetas (some ty') (pre ++ .integerRange lo hi :: post)
              | .error e => .error e) := by
          cases m <;> first | rfl | exact absurd rfl hm
        rw [this] at hpm
        split at hpm
        · exact ih _ hpm
        · cases hpm

/-- The condition on integers holds for every engine. -/
theorem C35_engines (e : Engine) (g : GenOptions) (o : ConvOptions) (h : e.options g = .ok o) : PlainIntegers o := by
  unfold Engine.options at h
  split at h
  · cases h
    intro p cls w s lo hi hs
    have hs : e.substitution p = some (.integer cls w s lo hi) := hs
    cases e <;> cases p <;> simp [Engine.substitution] at hs <;> exact ⟨hs.2.2.2.1.symm, hs.2.2.2.2.symm⟩
  · cases h

namespace C35

/-- The constraints of a table of the example program. -/
def shown (e : Engine) (q : Text) : Option (List Constraint) :=
  (Program.catalog e Program.gen0 Program.defs0 Program.refs0 Program.enums0).bind (fun C =>
    (C.namespaces.items.flatMap (fun n => n.tables.items)).findSome? (fun tb => if tb.name.key.2 = q then some tb.constraints.items else none))

end C35

/-- The hypotheses are met by the example program for every engine; here, the union of `Order.party`. -/
example (e : Engine) (hfc : (Program.opts e Program.gen0).foreignConstraints = true) : ∃ C tb name rs,
    (Program.opts e Program.gen0).toCatalog Program.defs0 10 .ok Program.refs0 Program.enums0 = .ok C ∧
    EntityTable (Program.opts e Program.gen0) C Program.order tb ∧ Constraint.discriminated name [t "party"] rs ∈ tb.constraints.items ∧ rs.length = 2 := by
  obtain ⟨C, h⟩ := Program.accepted0 e
  obtain ⟨o, ho⟩ : ∃ o, e.options Program.gen0 = .ok o := by cases e <;> exact ⟨_, rfl⟩
  have heq : Program.opts e Program.gen0 = o := by unfold Program.opts; rw [ho]; rfl
  have hp : PlainIntegers (Program.opts e Program.gen0) := by rw [heq]; exact C35_engines e Program.gen0 o ho
  obtain ⟨q, hq⟩ : ∃ q, (Program.opts e Program.gen0).qualifiedId Program.order.name = .ok q :=
    Program.ok_of_toOption (by cases e <;> decide +kernel)
  obtain ⟨tb, hin, hn⟩ := (C32_tables _ _ _ _ _ _ C Program.wf0 (Program.noClash0 e) h q).2
    ⟨.entity Program.order.name, .entity Program.order (by decide) (by decide), hq⟩
  have htb : EntityTable (Program.opts e Program.gen0) C Program.order tb := ⟨⟨_, hin⟩, by rw [hn]; exact hq⟩
  obtain ⟨name, rs, h1, h2, _⟩ := C35_union _ _ _ _ _ _ C hp Program.wf0 (Program.noClash0 e) h Program.order (by decide) (by decide) tb htb
    { name := t "party", ty := .union (.cons (.cls Program.person.name) (.cons (.cls Program.company.name) .nil)) } (by decide +kernel) hfc _ rfl (by decide +kernel)
  exact ⟨C, tb, name, rs, h, htb, h1, h2⟩

/-- The names of the constraints of the example program. -/
example : (C35.shown .mssql (t "Order")).map (·.map (fun c => String.ofList c.name)) = some ["dk_shop_Order_party", "fk_shop_Order_status"] := by decide +kernel
example : (C35.shown .mssql (t "Person")).map (·.map (fun c => String.ofList c.name)) =
    some ["uq_crm_Person_email", "fk_crm_Person_boss", "fk_crm_Person_country"] := by decide +kernel
example : (C35.shown .trino (t "Order")).map (·.map (fun c => String.ofList c.name)) = some ["dk_shop_Order_party", "ch_shop_Order_status"] := by decide +kernel
example : (C35.shown .trino (t "Product")).map (·.map (fun c => String.ofList c.name)) = some ["ch_shop_Product_price"] := by decide +kernel

namespace C35

/-- `A_b.c` and `A.b_c` are both unique. -/
def ab : ClassDecl := { name := (t "m", t "A_b"), fields := [C34.key, { name := t "c", ty := .prim .int64, unique := true }] }
def a : ClassDecl := { name := (t "m", t "A"), fields := [C34.key, { name := t "b_c", ty := .prim .int64, unique := true }] }

/-- Two tables of the same schema have constraints of the same name. -/
def sharedNameB (C : Catalog) : Bool :=
  C.namespaces.items.any (fun n => n.tables.items.any (fun x => n.tables.items.any (fun y =>
    decide (x.name ≠ y.name) && x.constraints.items.any (fun u => y.constraints.items.any (fun v => decide (u.name = v.name))))))

end C35

/-- Names of constraints are not unique in a schema, though the names of tables are: with SQL Server, MySQL, Oracle, in which they must be. -/
theorem C35_names_across_tables_fails (e : Engine) (he : e = .mssql ∨ e = .mysql ∨ e = .oracle) : ∃ (defs : PyDefs) (refs : List ClassDecl), WellFormed defs refs ∧
    NoClash (Program.opts e Program.gen0) defs refs ∧ (Program.opts e Program.gen0).uniqueNames = true ∧
    ∃ C s x y u v, (Program.opts e Program.gen0).toCatalog defs 10 .ok refs [] = .ok C ∧ InCatalog C s x ∧ InCatalog C s y ∧ x.name ≠ y.name ∧
      u ∈ x.constraints.items ∧ v ∈ y.constraints.items ∧ u.name = v.name := by
  refine ⟨⟨[C35.ab, C35.a], []⟩, [C35.ab, C35.a], Program.wellFormedB_ok (by decide +kernel), Program.noClashB_ok ?_, ?_, ?_⟩
  · cases e <;> decide +kernel
  · rcases he with rfl | rfl | rfl <;> rfl
  · have h : (Program.catalog e Program.gen0 ⟨[C35.ab, C35.a], []⟩ [C35.ab, C35.a] []).any C35.sharedNameB = true := by
      rcases he with rfl | rfl | rfl <;> decide +kernel
    unfold Program.catalog at h
    cases hC : (Program.opts e Program.gen0).toCatalog ⟨[C35.ab, C35.a], []⟩ 10 .ok [C35.ab, C35.a] [] with
    | error _ => rw [hC] at h; cases h
    | ok C =>
      rw [hC] at h
      have h : C35.sharedNameB C = true := h
      unfold C35.sharedNameB at h
      simp only [List.any_eq_true, Bool.and_eq_true, decide_eq_true_eq] at h
      obtain ⟨n, hn, x, hx, y, hy, hne, u, hu, v, hv, huv⟩ := h
      exact ⟨C, n.name, x, y, u, v, rfl, ⟨n, hn, rfl, hx⟩, ⟨n, hn, rfl, hy⟩, hne, hu, hv, huv⟩

section
variable (e : Engine) (g : GenOptions) (o : ConvOptions) (ho : e.options g = .ok o)
  (defs : PyDefs) (depth : Nat) (topo : List ClassDecl → Except Err (List ClassDecl)) (refs : List ClassDecl)
  (enumRefs : List EnumDecl) (C : Catalog) (hw : WellFormed defs refs) (hn : NoClash o defs refs)
  (h : o.toCatalog defs depth topo refs enumRefs = .ok C)
  (c : ClassDecl) (hc : c ∈ refs) (hk : c.key.isSome = true) (tb : Table) (htb : EntityTable o C c tb) (f : FieldDecl) (hf : f ∈ c.fields)
include ho hw hn h hc hk htb hf

/-- **C35** for the engines: with PostgreSQL, MySQL, Oracle, SQL Server and Trino, references to entities are foreign keys and unique fields are unique, unless
    foreign keys are turned off. -/
theorem C35_references_enforced (he : e ≠ .redshift ∧ e ≠ .delta ∧ e ≠ .snowflake) (hg : g.foreignConstraints = true) :
    (∀ n c' k', f.ty = .cls n → defs.cls n = some c' → c'.key = some k' →
      ∃ name q, o.qualifiedId n = .ok q ∧ Constraint.foreign name [f.name] ⟨q, [k'.name]⟩ ∈ tb.constraints.items) ∧
    (f.unique = true → ∃ name, Constraint.unique name [f.name] ∈ tb.constraints.items) := by
  have hp := C35_engines e g o ho
  have hfc : o.foreignConstraints = true := by
    unfold Engine.options at ho
    split at ho
    · cases ho
      show (if e = .redshift ∨ e = .delta ∨ e = .snowflake then false else g.foreignConstraints) = true
      rw [if_neg (by simp [he.1, he.2.1, he.2.2]), hg]
    · cases ho
  exact ⟨fun n c' k' h1 h2 h3 => C35_foreign o defs depth topo refs enumRefs C hp hw hn h c hc hk tb htb f hf hfc n h1 c' k' h2 h3,
    fun hu => C35_unique o defs depth topo refs enumRefs C hp hw hn h c hc hk tb htb f hf hfc hu⟩

/-- **C35** for the engines: with all but Delta and Snowflake, a column for an enumeration of strings or integers is restricted to the members: by its data type, which is the
    type of the enumeration or lists the members, by a foreign key to the table of the members, or by a check that lists the members. -/
theorem C35_enum_enforced (he : e ≠ .delta ∧ e ≠ .snowflake) (n : PyName) (d : EnumDecl) (hty : f.ty = .enum n) (hd : defs.enum n = some d) (hs : d.kind = .str ∨ d.kind = .int) :
    (∃ q col, o.qualifiedId d.name = .ok q ∧ col ∈ tb.columns.items ∧ col.name = f.name ∧ col.ty = .user q) ∨
    (∃ col, col ∈ tb.columns.items ∧ col.name = f.name ∧ col.ty = .enum d.labels) ∨
    (∃ name q, o.qualifiedId n = .ok q ∧ Constraint.foreign name [f.name] ⟨q, [t "id"]⟩ ∈ tb.constraints.items) ∨
    (∃ name, Constraint.check name ((LocalId.mk f.name).quoted ++ t " IN (" ++ joinWith (t ", ") d.constants ++ t ")") ∈ tb.constraints.items) := by
  have hp := C35_engines e g o ho
  have hcc : o.checkConstraints = true := by
    unfold Engine.options at ho
    split at ho
    · cases ho
      show (!(e == .delta || e == .snowflake)) = true
      simp [he.1, he.2]
    · cases ho
  have column : ∃ col, col ∈ tb.columns.items ∧ col.name = f.name ∧ o.enumType d = .ok col.ty := by
    obtain ⟨columns, pre, keys, ext, rel, chk, h1, h2, h3, h4, h5, h6, hcols, hx⟩ := C35.entity_constraints hp hw hn h hc hk htb
    unfold ConvOptions.tableColumns at h1
    obtain ⟨col, hcol, hb⟩ := Conv.mapM_fwd h1 f (List.mem_filter.2 ⟨hf, by rw [hty]; rfl⟩)
    have key : ∀ {x : Column} {f' : FieldDecl}, o.memberColumn defs depth f' = .ok x → x.name = f'.name ∧ o.memberType defs depth f'.ty = .ok x.ty := by
      intro x f' hb
      unfold ConvOptions.memberColumn at hb
      simp only [Conv.bind_ok, Conv.pure_ok] at hb
      obtain ⟨ty, hty, rfl⟩ := hb
      exact ⟨rfl, hty⟩
    refine ⟨col, ?_, (key hb).1, ?_⟩
    · rw [hcols]
      refine (Conv.mem_ofList ?_).2 hcol
      intro a ha b hb' hab
      obtain ⟨fa, hfa, ha⟩ := Conv.mapM_back h1 a ha
      obtain ⟨fb, hfb, hb'⟩ := Conv.mapM_back h1 b hb'
      have : fa = fb := C32.nodup_field (hw.fields c hc) (List.mem_filter.1 hfa).1 (List.mem_filter.1 hfb).1 (by
        rw [← (key ha).1, ← (key hb').1]; exact hab)
      subst this
      rw [ha] at hb'
      exact Except.ok.inj hb'
    · have := (key hb).2
      rw [hty] at this
      cases depth with
      | zero => cases this
      | succ k => simpa [ConvOptions.memberType, ConvOptions.simpleType, hd] using this
  cases hm : o.enumMode with
  | relation =>
    exact .inr (.inr (.inl (C35_enum_relation o defs depth topo refs enumRefs C hp hw hn h c hc hk tb htb f hf hm n hty)))
  | check =>
    obtain ⟨name, d', hd', hx⟩ := C35_enum_check o defs depth topo refs enumRefs C hp hw hn h c hc hk tb htb f hf hm hcc n hty
    rw [hd] at hd'
    cases hd'
    exact .inr (.inr (.inr ⟨name, hx⟩))
  | type =>
    obtain ⟨col, h1, h2, h3⟩ := column
    unfold ConvOptions.enumType at h3
    rcases hs with hs | hs <;> rw [hs, hm] at h3 <;> simp only [Conv.bind_ok, Conv.pure_ok] at h3 <;>
      (obtain ⟨q, hq, h3⟩ := h3; exact .inl ⟨q, col, hq, h1, h2, h3.symm⟩)
  | inline =>
    obtain ⟨col, h1, h2, h3⟩ := column
    unfold ConvOptions.enumType at h3
    rcases hs with hs | hs <;> rw [hs, hm] at h3 <;> exact .inr (.inl ⟨col, h1, h2, (Except.ok.inj h3).symm⟩)

end

end PySqlSync
