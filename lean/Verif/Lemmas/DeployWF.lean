/-
Lemmas for C47: the catalog of a deployable program can be written down.
-/
import Verif.Lemmas.Deploy
import Verif.Lemmas.NsObj

set_option autoImplicit false
set_option linter.unusedSectionVars false

namespace PySqlSync
open Spec

namespace Dep
open Conv

variable {o : ConvOptions} {defs : PyDefs} {depth : Nat} {refs : List ClassDecl} {enumRefs : List EnumDecl} {d : Dialect}

/-! ### Names -/

theorem not_reserved {s : Text} (h : '$' ∉ s) (x : Text) : s ≠ t "pysqlsync$" ++ x := by
  rintro rfl
  apply h
  rw [List.mem_append]
  exact .inl (by decide)

theorem no_dollar : '$' ∉ t "_" ∧ '$' ∉ t "__" ∧ '$' ∉ t "id" ∧ '$' ∉ t "value" ∧ '$' ∉ t "uuid" := by decide

/-- Enumerations that become tables are known. -/
def Known (o : ConvOptions) (defs : PyDefs) (refs : List ClassDecl) : Prop := ∀ n, Makes o defs refs (.enum n) → ∃ e, defs.enum n = some e

section
variable {topo : List ClassDecl → Except Err (List ClassDecl)} {C : Catalog}

theorem known (h : o.toCatalog defs depth topo refs enumRefs = .ok C) : Known o defs refs := by
  obtain ⟨_, _, tables, _, _, h3, _⟩ := C32.toCatalog_inv h
  intro n hn
  obtain ⟨_, _, e, he, _⟩ := C32.allTables_fwd h3 hn
  exact ⟨e, he⟩

theorem makes_name (hd : Deployable o defs refs enumRefs d) (hk : Known o defs refs) {s : TableSource} (hs : Makes o defs refs s) {tb : Table}
    (h : C32.Built o defs depth refs s tb) : '$' ∉ s.pyName.2 := by
  cases s with
  | entity n =>
    obtain ⟨c, hc, rfl, _⟩ := h
    exact hd.classNames c hc
  | enum n =>
    obtain ⟨e, he, _⟩ := h
    exact hd.enumNames n e he
  | join owner f i =>
    obtain ⟨c, hc, rfl, hkc, fd, hf, rfl, isList, item, hr, hi, hb⟩ := h
    have h1 := hd.classNames c hc
    have h2 := hd.fieldNames c.name.1 fd (.inl ⟨c, hc, rfl, hf⟩)
    have h3 : '$' ∉ i.2 := by
      rcases hi with rfl | rfl
      · have hmem : i ∈ typeClasses fd.ty := by
          rcases (C32.relationship_inv hr).1 with h | h <;> simp [h, typeClasses]
        obtain ⟨c', hc', rfl⟩ := hd.wellFormed.closed c hc fd hf i hmem
        exact hd.classNames c' hc'
      · obtain ⟨_, x, _, _, _, _, _, _, hx, _⟩ := C32.joinTable_inv hb
        rcases C32.joinItem_inv hx with ⟨hit, _⟩ | ⟨hit, hm, _⟩
        · cases hit
        · have : Makes o defs refs (.enum i) := by
            refine .enumeration c hc hkc fd hf i hm ?_
            rcases (C32.relationship_inv hr).1 with h | h <;> simp [h]
          obtain ⟨e, he⟩ := hk i this
          exact hd.enumNames i e he
    simp only [TableSource.pyName, List.mem_append, not_or]
    exact ⟨⟨⟨⟨h1, no_dollar.1⟩, h2⟩, no_dollar.1⟩, h3⟩

theorem localId_name {n : PyName} {q : QId} (h : o.qualifiedId n = .ok q) (hn : '$' ∉ n.2) (hs : ∀ s, o.mapping n.1 = .ok (some s) → '$' ∉ s) :
    '$' ∉ q.localId := by
  unfold ConvOptions.qualifiedId at h
  simp only [bind_ok, pure_ok] at h
  obtain ⟨s, hm, rfl⟩ := h
  split
  · exact hn
  · cases s with
    | none => exact hn
    | some s =>
      simp only [QId.localId, List.mem_append, not_or]
      exact ⟨⟨hs s hm, no_dollar.2.1⟩, hn⟩

theorem table_name (hd : Deployable o defs refs enumRefs d) (hk : Known o defs refs) {s : TableSource} (hs : Makes o defs refs s) {tb : Table}
    (h : C32.Built o defs depth refs s tb) : '$' ∉ tb.name.localId :=
  localId_name (C32.built_name h) (makes_name hd hk hs h) (fun x hx => hd.schemaNames s.pyName.1 x ⟨s, hs, rfl⟩ hx)

theorem column_name (hd : Deployable o defs refs enumRefs d) (hk : Known o defs refs) {s : TableSource} (hs : Makes o defs refs s) {tb : Table}
    (h : C32.Built o defs depth refs s tb) {col : Column} (hcol : col ∈ tb.columns.items) : '$' ∉ col.name := by
  rcases built_column hd.wellFormed hs h hcol with ⟨f, hf, hb⟩ | ⟨_, _, _, h1 | h1 | h1 | ⟨c, hc, f, hf, h1⟩ | ⟨n, hn, h1⟩⟩
  · unfold ConvOptions.memberColumn at hb
    simp only [bind_ok, pure_ok] at hb
    obtain ⟨_, _, rfl⟩ := hb
    exact hd.fieldNames _ f hf
  · rw [h1]; exact no_dollar.2.2.1
  · rw [h1]; exact no_dollar.2.2.2.1
  · rw [h1]; exact no_dollar.2.2.2.2
  · rw [h1]
    simp only [List.mem_append, not_or]
    exact ⟨⟨hd.classNames c hc, no_dollar.1⟩, hd.fieldNames _ f (.inl ⟨c, hc, rfl, hf⟩)⟩
  · rw [h1]
    obtain ⟨e, he⟩ := hk n hn
    simp only [List.mem_append, not_or]
    exact ⟨⟨hd.enumNames n e he, no_dollar.1⟩, no_dollar.2.2.1⟩

/-! ### Tables -/

theorem df_ne {p : Text} (h : p.take 2 ≠ ['d', 'f']) (hl : 2 ≤ p.length) (y x : Text) : p ++ y ≠ t "df_" ++ x := by
  intro he
  have := congrArg (List.take 2) he
  rw [List.take_append_of_le_length hl] at this
  exact h this

theorem built_parts {s : TableSource} {tb : Table} (h : C32.Built o defs depth refs s tb) :
    tb.columns.Inv ∧ tb.constraints.Inv ∧ tb.primaryKey ≠ [] ∧ ∀ c ∈ tb.constraints.items, ∀ x, c.name ≠ t "df_" ++ x := by
  cases s with
  | entity n =>
    obtain ⟨c, hc, rfl, _, hb⟩ := h
    obtain ⟨columns, pre, keys, ext, rel, chk, _, _, h1, _, h3, h4, h5, h6, _, _, rfl⟩ := C32.dataclassTable_inv hb
    refine ⟨ODict.ofList_inv _, ODict.ofList_inv _, by simp, ?_⟩
    intro y hy x
    obtain ⟨f, _, hg⟩ := C35.generated_inv h1 h3 h4 h5 h6 (of_mem_ofList hy)
    rcases hg with ⟨_, rfl⟩ | ⟨r, rfl, _⟩ | ⟨ms, rs, _, _, rfl⟩ | ⟨_, n, e, _, _, rfl⟩ | ⟨_, _, col, _, _, hr⟩
    · simp only [Constraint.name, uqName, List.append_assoc]; exact df_ne (by decide) (by decide) _ _
    · simp only [Constraint.name, fkName, List.append_assoc]; exact df_ne (by decide) (by decide) _ _
    · simp only [Constraint.name, dkName, List.append_assoc]; exact df_ne (by decide) (by decide) _ _
    · simp only [Constraint.name, chName, List.append_assoc]; exact df_ne (by decide) (by decide) _ _
    · obtain ⟨s, rfl⟩ := C32.range_check y hr
      simp only [Constraint.name, chName, List.append_assoc]; exact df_ne (by decide) (by decide) _ _
  | enum n =>
    obtain ⟨e, he, hb⟩ := h
    unfold ConvOptions.enumTable at hb
    simp only [bind_ok] at hb
    obtain ⟨name, hname, hb⟩ := hb
    have key : ∀ (c : Constraint), c ∈ (ODict.ofList [Constraint.unique (t "uq_" ++ e.name.2) [t "value"]]).items → ∀ x, c.name ≠ t "df_" ++ x := by
      intro c hc x
      have := of_mem_ofList hc
      rw [List.mem_singleton] at this
      subst this
      exact df_ne (by decide) (by decide) _ _
    cases hk : e.kind with
    | int =>
      rw [hk] at hb
      simp only [bind_ok, pure_ok] at hb
      obtain ⟨label, hl, rfl⟩ := hb
      exact ⟨ODict.ofList_inv _, ODict.ofList_inv _, by simp, key⟩
    | str =>
      rw [hk] at hb
      simp only [bind_ok, pure_ok] at hb
      obtain ⟨label, hl, rfl⟩ := hb
      exact ⟨ODict.ofList_inv _, ODict.ofList_inv _, by simp, key⟩
    | struct fields =>
      rw [hk] at hb
      simp only [bind_ok, pure_ok] at hb
      obtain ⟨cols, hcols, rfl⟩ := hb
      refine ⟨ODict.ofList_inv _, by simp [ODict.Inv], by simp, ?_⟩
      intro c hc; cases hc
    | empty => rw [hk] at hb; cases hb
    | mixed => rw [hk] at hb; cases hb
    | other => rw [hk] at hb; cases hb
  | join owner f i =>
    obtain ⟨c, hc, rfl, hkc, fd, hf, rfl, isList, item, hr, hi, hb⟩ := h
    obtain ⟨k, x, lt, _, _, _, _, hk, hx, hlt, _, _, _, h1, rfl⟩ := C32.joinTable_inv hb
    refine ⟨ODict.ofList_inv _, ODict.ofList_inv _, by simp, ?_⟩
    intro y hy z
    have := of_mem_ofList hy
    simp only [List.mem_append, List.mem_cons, List.not_mem_nil, or_false] at this
    rcases this with (rfl | rfl) | h
    · simp only [Constraint.name]; exact df_ne (by decide) (by decide) _ _
    · simp only [Constraint.name]; exact df_ne (by decide) (by decide) _ _
    · cases isList with
      | true => cases h
      | false =>
        rw [if_neg (by simp), List.mem_singleton] at h
        subst h
        simp only [Constraint.name]; exact df_ne (by decide) (by decide) _ _

theorem member_default {f : FieldDecl} {col : Column} (h : o.memberColumn defs depth f = .ok col) :
    col.name = f.name ∧ col.default = f.default ∧ col.nullable = f.nullable ∧ col.identity = f.identity ∧ o.memberType defs depth f.ty = .ok col.ty := by
  unfold ConvOptions.memberColumn at h
  simp only [bind_ok, pure_ok] at h
  obtain ⟨ty, hty, rfl⟩ := h
  exact ⟨rfl, rfl, rfl, rfl, hty⟩

theorem table_wf (hd : Deployable o defs refs enumRefs d) (hk : Known o defs refs) {s : TableSource} (hs : Makes o defs refs s) {tb : Table}
    (h : C32.Built o defs depth refs s tb) : TableWF d tb := by
  obtain ⟨h1, h2, h3, h4⟩ := built_parts h
  constructor
  · exact h1
  · exact h2
  · exact h3
  · exact fun c hc => not_reserved (column_name hd hk hs h hc)
  · exact fun _ => h4
  · intro hdl c hc
    rcases built_column hd.wellFormed hs h hc with ⟨f, hf, hb⟩ | ⟨hn, _⟩
    · rw [(member_default hb).2.1]; exact hd.delta hdl _ f hf
    · exact hn
  · intro hdl c hc e he
    rcases built_column hd.wellFormed hs h hc with ⟨f, hf, hb⟩ | ⟨hn, _⟩
    · rw [(member_default hb).2.1] at he
      rw [hdl]
      simp [defaultExpr, hd.snowflake hdl _ f hf e he]
    · rw [hn] at he; cases he

/-! ### Namespaces -/

theorem key_eq {q q' : QId} (h1 : q.key.1 = q'.key.1) (h2 : q.localId = q'.localId) : q.key = q'.key := Prod.ext h1 h2

theorem wf (hd : Deployable o defs refs enumRefs d) (htopo : ∀ l l', topo l = .ok l' → l'.Perm l)
    (h : o.toCatalog defs depth topo refs enumRefs = .ok C) : CatWF d C := by
  refine ⟨names_distinct h, fun n hn => ?_⟩
  have hk := known h
  obtain ⟨i1, i2, i3⟩ := ns_distinct h hn
  have table : ∀ tb ∈ n.tables.items, ∃ s, Makes o defs refs s ∧ C32.Built o defs depth refs s tb ∧ tb.name.key.1 = n.name :=
    fun tb => ns_table hd.wellFormed hd.noClash h hn
  have enum := fun et => ns_enum hd.declared h hn (et := et)
  have struct := fun st => ns_struct hd.declared htopo h hn (st := st)
  refine ⟨i1, i2, i3, ?_, ?_, ?_, ?_, ?_, ?_, ?_, ?_, ?_, ?_, ?_, ?_⟩
  · intro e he; obtain ⟨_, _, _, _, _, _, _, h⟩ := enum e he; exact h
  · intro e he; obtain ⟨_, _, _, _, _, _, _, h⟩ := struct e he; exact h
  · intro tb ht; obtain ⟨_, _, _, h⟩ := table tb ht; exact h
  · intro e he s hs hne
    obtain ⟨m1, e', he', h2, ht, hq, _, hs1⟩ := enum e he
    obtain ⟨m2, c, hc, hst, htc, hq', _, hs2⟩ := struct s hs
    exact hd.enumStruct e' he' c hc hst (same_name hd.noClash (hd.declared.qualified (.inl m1)) ht htc hq hq' (key_eq (hs1.trans hs2.symm) hne))
  · intro e he tb htb hne
    obtain ⟨m1, e', he', h2, ht, hq, _, hs1⟩ := enum e he
    obtain ⟨s, hs, hb, hs2⟩ := table tb htb
    exact hd.typeTable e'.name (.inl ⟨m1, e', he', rfl, h2⟩) s hs
      (same_name hd.noClash (hd.declared.qualified (.inl m1)) ht ⟨s, hs, rfl⟩ hq (C32.built_name hb) (key_eq (hs1.trans hs2.symm) hne))
  · intro st hst tb htb hne
    obtain ⟨m2, c, hc, hcs, htc, hq, _, hs1⟩ := struct st hst
    obtain ⟨s, hs, hb, hs2⟩ := table tb htb
    exact hd.typeTable c.name (.inr ⟨m2, c, hc, rfl, hcs⟩) s hs
      (same_name hd.noClash (hd.declared.qualified (.inr m2)) htc ⟨s, hs, rfl⟩ hq (C32.built_name hb) (key_eq (hs1.trans hs2.symm) hne))
  · intro e he
    obtain ⟨m1, e', he', h2, ht, hq, _, hs1⟩ := enum e he
    exact not_reserved (localId_name hq (hd.enumNames _ e' (hd.declared.known e' he')) (fun x hx => hd.schemaNames _ x ht hx))
  · intro e he
    obtain ⟨m2, c, hc, hcs, htc, hq, _, hs1⟩ := struct e he
    exact not_reserved (localId_name hq (hd.classNames c hc) (fun x hx => hd.schemaNames _ x htc hx))
  · intro tb htb
    obtain ⟨s, hs, hb, _⟩ := table tb htb
    exact not_reserved (table_name hd hk hs hb)
  · intro e he
    obtain ⟨m1, e', he', h2, ht, hq, hv, hs1⟩ := enum e he
    rw [hv]; exact hd.labels e' he'
  · intro e he
    obtain ⟨m2, c, hc, hcs, htc, hq, hb, hs1⟩ := struct e he
    unfold ConvOptions.dataclassStruct at hb
    simp only [bind_ok, pure_ok] at hb
    obtain ⟨_, _, _, _, rfl⟩ := hb
    exact ODict.ofList_inv _
  · intro tb htb
    obtain ⟨s, hs, hb, _⟩ := table tb htb
    exact table_wf hd hk hs hb

end

end Dep
end PySqlSync
