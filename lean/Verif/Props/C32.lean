/-
C32: in the catalog made from data-classes, foreign keys resolve and primary keys exist.
-/
import Verif.Lemmas.MemberType
import Verif.Examples.Program

set_option autoImplicit false

namespace PySqlSync
open Spec
namespace C32
open Conv

variable {o : ConvOptions} {defs : PyDefs} {depth : Nat} {refs : List ClassDecl}

/-- How the table of a source is made. -/
def Built (o : ConvOptions) (defs : PyDefs) (depth : Nat) (refs : List ClassDecl) : TableSource → Table → Prop
  | .entity n, tb => ∃ c ∈ refs, c.name = n ∧ c.key.isSome = true ∧ o.dataclassTable defs depth c = .ok tb
  | .enum n, tb => ∃ e, defs.enum n = some e ∧ o.enumTable defs depth e = .ok tb
  | .join owner f i, tb => ∃ c ∈ refs, c.name = owner ∧ c.key.isSome = true ∧ ∃ fd ∈ c.fields, fd.name = f ∧ ∃ isList item,
      o.relationship defs fd.ty = some (isList, item) ∧ (item = .cls i ∨ item = .enum i) ∧ o.joinTable defs depth c fd isList item = .ok tb

/-- The name of the key column. -/
def keyOf (defs : PyDefs) : TableSource → Text
  | .entity n => (((defs.cls n).bind ClassDecl.key).map FieldDecl.name).getD []
  | .enum _ => t "id"
  | .join .. => t "uuid"

/-! ### Inversion -/

theorem dataclassTable_inv {c : ClassDecl} {tb : Table} (h : o.dataclassTable defs depth c = .ok tb) :
    ∃ columns pre keys ext rel chk name k, o.tableColumns defs depth c = .ok columns ∧ o.namePrefix c.name = .ok pre ∧
      o.keyConstraints defs pre c = .ok keys ∧
      c.fields.mapM (o.extensibleConstraint pre) = .ok ext ∧
      o.enumConstraints pre c = .ok rel ∧
      o.enumChecks defs pre c = .ok chk ∧
      o.qualifiedId c.name = .ok name ∧ c.key = some k ∧
      tb = { name := name, columns := ODict.ofList columns, primaryKey := [k.name],
             constraints := ODict.ofList (keys ++ ext.flatten ++ rel.flatten ++ chk.flatten ++ columns.flatMap (ConvOptions.rangeCheck pre)) } := by
  unfold ConvOptions.dataclassTable at h
  simp only [bind_ok] at h
  obtain ⟨columns, h1, pre, h2, keys, h3, ext, h4, rel, h5, chk, h6, name, h7, h8⟩ := h
  cases hk : c.key with
  | none => rw [hk] at h8; cases h8
  | some k =>
    rw [hk] at h8
    refine ⟨columns, pre, keys, ext, rel, chk, name, k, h1, h2, h3, h4, h5, h6, h7, rfl, ?_⟩
    exact (pure_ok.1 h8).symm

theorem enumTable_inv {e : EnumDecl} {tb : Table} (h : o.enumTable defs depth e = .ok tb) :
    o.qualifiedId e.name = .ok tb.name ∧ tb.primaryKey = [t "id"] ∧ HasColumn tb (t "id") ∧ ∀ c ∈ tb.constraints.items, links c = [] := by
  unfold ConvOptions.enumTable at h
  rw [bind_ok] at h
  obtain ⟨name, h1, h2⟩ := h
  let idc : Column := { name := t "id", ty := o.enumKeyType, nullable := false, identity := true }
  have hid : ∀ cols : List Column, ∃ c ∈ (ODict.ofList (idc :: cols)).items, c.name = t "id" := by
    intro cols
    obtain ⟨b, hb, hk⟩ := ofList_has (List.mem_cons_self (a := idc) (l := cols))
    exact ⟨b, hb, hk⟩
  dsimp only at h2
  cases hk : e.kind with
  | int =>
    rw [hk] at h2
    simp only [bind_ok, pure_ok] at h2
    obtain ⟨label, _, rfl⟩ := h2
    refine ⟨h1, rfl, hid _, ?_⟩
    intro c hc
    have := of_mem_ofList hc
    simp at this; subst this; rfl
  | str =>
    rw [hk] at h2
    simp only [bind_ok, pure_ok] at h2
    obtain ⟨label, _, rfl⟩ := h2
    refine ⟨h1, rfl, hid _, ?_⟩
    intro c hc
    have := of_mem_ofList hc
    simp at this; subst this; rfl
  | struct fields =>
    rw [hk] at h2
    simp only [bind_ok, pure_ok] at h2
    obtain ⟨cols, _, rfl⟩ := h2
    refine ⟨h1, rfl, hid _, ?_⟩
    intro c hc
    cases hc
  | empty => rw [hk] at h2; cases h2
  | mixed => rw [hk] at h2; cases h2
  | other => rw [hk] at h2; cases h2

theorem joinItem_inv {item : PyType} {x : PyName × Text × SqlType} (h : o.joinItem defs depth item = .ok x) :
    (item = .cls x.1 ∧ ∃ k, (defs.cls x.1).bind ClassDecl.key = some k ∧ k.name = x.2.1 ∧ o.memberType defs depth k.ty = .ok x.2.2) ∨
    (item = .enum x.1 ∧ o.enumMode = .relation ∧ x.2.1 = t "id" ∧ x.2.2 = o.enumKeyType) := by
  unfold ConvOptions.joinItem at h
  cases item with
  | cls n =>
    dsimp only at h
    cases hk : (defs.cls n).bind ClassDecl.key with
    | none => rw [hk] at h; cases h
    | some k =>
      rw [hk] at h
      simp only [bind_ok, pure_ok] at h
      obtain ⟨ty, h1, rfl⟩ := h
      exact .inl ⟨rfl, k, hk, rfl, h1⟩
  | enum n =>
    dsimp only at h
    split at h
    · rename_i hm
      cases h
      exact .inr ⟨rfl, hm, rfl, rfl⟩
    · cases h
  | prim _ => cases h
  | annotated _ _ => cases h
  | list _ => cases h
  | set _ => cases h
  | literal _ => cases h
  | union _ => cases h
  | other _ => cases h

/-- The two sides of a join table. -/
theorem joinTable_inv {c : ClassDecl} {f : FieldDecl} {isList : Bool} {item : PyType} {tb : Table}
    (h : o.joinTable defs depth c f isList item = .ok tb) :
    ∃ k x leftType pre leftRef rightRef name, c.key = some k ∧ o.joinItem defs depth item = .ok x ∧
      o.memberType defs depth k.ty = .ok leftType ∧ o.namePrefix c.name = .ok pre ∧ o.qualifiedId c.name = .ok leftRef ∧
      o.qualifiedId x.1 = .ok rightRef ∧ o.qualifiedId (c.name.1, c.name.2 ++ t "_" ++ f.name ++ t "_" ++ x.1.2) = .ok name ∧
      tb = {
        name := name
        columns := ODict.ofList [
          { name := t "uuid", ty := o.primType .uuid, nullable := false },
          { name := c.name.2 ++ t "_" ++ f.name, ty := leftType, nullable := false },
          { name := x.1.2 ++ t "_" ++ x.2.1, ty := x.2.2, nullable := false }]
        primaryKey := [t "uuid"]
        constraints := ODict.ofList ([
          .foreign (t "jk_" ++ (pre ++ t "_" ++ f.name)) [c.name.2 ++ t "_" ++ f.name] ⟨leftRef, [k.name]⟩,
          .foreign (t "jk_" ++ (pre ++ t "_" ++ f.name ++ t "_" ++ x.1.2)) [x.1.2 ++ t "_" ++ x.2.1] ⟨rightRef, [x.2.1]⟩] ++
          (if isList then [] else [.unique (t "uq_" ++ (pre ++ t "_" ++ f.name ++ t "_" ++ x.1.2)) [x.1.2 ++ t "_" ++ x.2.1]])) } := by
  unfold ConvOptions.joinTable at h
  simp only [bind_ok] at h
  obtain ⟨k, h1, x, h2, leftType, h3, pre, h4, leftRef, h5, rightRef, h6, name, h7, h8⟩ := h
  refine ⟨k, x, leftType, pre, leftRef, rightRef, name, ?_, h2, h3, h4, h5, h6, h7, ?_⟩
  · unfold ClassDecl.keyField at h1
    cases hk : c.key with
    | none => rw [hk] at h1; cases h1
    | some k' => rw [hk] at h1; cases h1; rfl
  · exact (pure_ok.1 h8).symm

/-! ### Sources and tables -/

theorem relationship_inv {ty : PyType} {isList : Bool} {item : PyType} (h : o.relationship defs ty = some (isList, item)) :
    (ty = .list item ∨ ty = .set item) ∧ (o.arrayMode = .relation ∨ defs.isEntity item = true) := by
  cases ty <;> simp [ConvOptions.relationship] at h
  · obtain ⟨h1, h2, rfl⟩ := h; exact ⟨.inl rfl, h1⟩
  · obtain ⟨h1, h2, rfl⟩ := h; exact ⟨.inr rfl, h1⟩

theorem relationship_of {ty item : PyType} (h : ty = .list item ∨ ty = .set item) (hr : o.arrayMode = .relation ∨ defs.isEntity item = true) :
    ∃ isList, o.relationship defs ty = some (isList, item) := by
  rcases h with rfl | rfl
  · exact ⟨true, by simp [ConvOptions.relationship, hr]⟩
  · exact ⟨false, by simp [ConvOptions.relationship, hr]⟩

theorem regularEnum_iff {ty : PyType} {e : PyName} : ConvOptions.regularEnum ty = some e ↔
    ty = .enum e ∨ ty = .list (.enum e) ∨ ty = .set (.enum e) := by
  unfold ConvOptions.regularEnum
  split <;> simp_all

/-- The entities in the order in which their tables are made. -/
def entities (refs : List ClassDecl) : List ClassDecl := sortBy (fun c => c.name.2) (refs.filter (fun c => c.key.isSome))

theorem mem_entities {c : ClassDecl} : c ∈ entities refs ↔ c ∈ refs ∧ c.key.isSome = true := by
  simp [entities, mem_sortBy]

theorem allTables_inv {l : List (Text × Table)} (h : o.allTables defs depth refs = .ok l) :
    ∃ tables regular ext extTables joins,
      (entities refs).mapM (o.entityEntry defs depth) = .ok tables ∧
      (sortBy Prod.snd (o.regularEnums ((entities refs).flatMap ClassDecl.fields))).mapM (o.enumEntry defs depth) = .ok regular ∧
      (((entities refs).flatMap ClassDecl.fields).filter (fun f => f.ty.isExtensible)).mapM (fun f => f.ty.extensibleEnum) = .ok ext ∧
      (sortBy Prod.snd ext.eraseDups).mapM (o.enumEntry defs depth) = .ok extTables ∧
      (entities refs).mapM (fun c => c.fields.mapM (o.joinEntry defs depth c)) = .ok joins ∧
      l = tables ++ regular ++ extTables ++ joins.flatten.flatten := by
  unfold ConvOptions.allTables at h
  simp only [bind_ok, pure_ok] at h
  obtain ⟨tables, h1, regular, h2, ext, h3, extTables, h4, joins, h5, h6⟩ := h
  exact ⟨tables, regular, ext, extTables, joins, h1, h2, h3, h4, h5, h6.symm⟩

theorem joinItem_name {item : PyType} {x : PyName × Text × SqlType} (h : o.joinItem defs depth item = .ok x) :
    item = .cls x.1 ∨ item = .enum x.1 := by
  rcases joinItem_inv h with h | h
  · exact .inl h.1
  · exact .inr h.1

/-- Every table comes from a source. -/
theorem allTables_back {l : List (Text × Table)} (h : o.allTables defs depth refs = .ok l) {m : Text} {tb : Table} (ht : (m, tb) ∈ l) :
    ∃ s, Makes o defs refs s ∧ Built o defs depth refs s tb ∧ m = s.pyName.1 := by
  obtain ⟨tables, regular, ext, extTables, joins, h1, h2, h3, h4, h5, rfl⟩ := allTables_inv h
  have henum : ∀ e : PyName, Makes o defs refs (.enum e) → o.enumEntry defs depth e = .ok (m, tb) →
      ∃ s, Makes o defs refs s ∧ Built o defs depth refs s tb ∧ m = s.pyName.1 := by
    intro e hm he
    unfold ConvOptions.enumEntry at he
    cases hd : defs.enum e with
    | none => rw [hd] at he; cases he
    | some d =>
      rw [hd] at he
      simp only [bind_ok, pure_ok] at he
      obtain ⟨tb', h6, h7⟩ := he
      cases h7
      exact ⟨.enum e, hm, ⟨d, hd, h6⟩, rfl⟩
  simp only [List.mem_append] at ht
  rcases ht with ((ht | ht) | ht) | ht
  · obtain ⟨c, hc, hb⟩ := mapM_back h1 _ ht
    obtain ⟨hc, hk⟩ := mem_entities.1 hc
    unfold ConvOptions.entityEntry at hb
    simp only [bind_ok, pure_ok] at hb
    obtain ⟨tb', h6, h7⟩ := hb
    cases h7
    exact ⟨.entity c.name, .entity c hc hk, ⟨c, hc, rfl, hk, h6⟩, rfl⟩
  · obtain ⟨e, he, hb⟩ := mapM_back h2 _ ht
    rw [mem_sortBy] at he
    unfold ConvOptions.regularEnums at he
    split at he
    · rename_i hm
      rw [C36.mem_eraseDups, List.mem_filterMap] at he
      obtain ⟨f, hf, hfe⟩ := he
      obtain ⟨c, hc, hf⟩ := List.mem_flatMap.1 hf
      obtain ⟨hc, hk⟩ := mem_entities.1 hc
      exact henum e (.enumeration c hc hk f hf e hm (regularEnum_iff.1 hfe)) hb
    · cases he
  · obtain ⟨e, he, hb⟩ := mapM_back h4 _ ht
    rw [mem_sortBy, C36.mem_eraseDups] at he
    obtain ⟨f, hf, hfe⟩ := mapM_back h3 _ he
    obtain ⟨hf, hx⟩ := List.mem_filter.1 hf
    obtain ⟨c, hc, hf⟩ := List.mem_flatMap.1 hf
    obtain ⟨hc, hk⟩ := mem_entities.1 hc
    exact henum e (.extensible c hc hk f hf e hx hfe) hb
  · obtain ⟨y, hy, ht⟩ := List.mem_flatten.1 ht
    obtain ⟨x, hx, hy⟩ := List.mem_flatten.1 hy
    obtain ⟨c, hc, hb⟩ := mapM_back h5 _ hx
    obtain ⟨hc, hk⟩ := mem_entities.1 hc
    obtain ⟨f, hf, hb⟩ := mapM_back hb _ hy
    unfold ConvOptions.joinEntry at hb
    cases hr : o.relationship defs f.ty with
    | none => rw [hr] at hb; cases hb; cases ht
    | some p =>
      obtain ⟨isList, item⟩ := p
      rw [hr] at hb
      simp only [bind_ok, pure_ok] at hb
      obtain ⟨tb', h6, rfl⟩ := hb
      simp only [List.mem_singleton, Prod.mk.injEq] at ht
      obtain ⟨rfl, rfl⟩ := ht
      obtain ⟨_, x', _, _, _, _, _, _, hj, _⟩ := joinTable_inv h6
      have hn := joinItem_name hj
      obtain ⟨h7, h8⟩ := relationship_inv hr
      exact ⟨.join c.name f.name x'.1, .join c hc hk f hf item x'.1 h7 h8 hn,
        ⟨c, hc, rfl, hk, f, hf, rfl, isList, item, hr, hn, h6⟩, rfl⟩

/-- Every source has its table. -/
theorem allTables_fwd {l : List (Text × Table)} (h : o.allTables defs depth refs = .ok l) {s : TableSource} (hs : Makes o defs refs s) :
    ∃ tb, (s.pyName.1, tb) ∈ l ∧ Built o defs depth refs s tb := by
  obtain ⟨tables, regular, ext, extTables, joins, h1, h2, h3, h4, h5, rfl⟩ := allTables_inv h
  have henum : ∀ e : PyName, ∀ p, o.enumEntry defs depth e = .ok p → ∃ tb, p = (e.1, tb) ∧ Built o defs depth refs (.enum e) tb := by
    intro e p he
    unfold ConvOptions.enumEntry at he
    cases hd : defs.enum e with
    | none => rw [hd] at he; cases he
    | some d =>
      rw [hd] at he
      simp only [bind_ok, pure_ok] at he
      obtain ⟨tb', h6, rfl⟩ := he
      exact ⟨tb', rfl, d, hd, h6⟩
  simp only [List.mem_append]
  cases hs with
  | entity c hc hk =>
    obtain ⟨b, hb, he⟩ := mapM_fwd h1 c (mem_entities.2 ⟨hc, hk⟩)
    unfold ConvOptions.entityEntry at he
    simp only [bind_ok, pure_ok] at he
    obtain ⟨tb', h6, rfl⟩ := he
    exact ⟨tb', .inl (.inl (.inl hb)), c, hc, rfl, hk, h6⟩
  | enumeration c hc hk f hf e hm he =>
    have hin : e ∈ sortBy Prod.snd (o.regularEnums ((entities refs).flatMap ClassDecl.fields)) := by
      rw [mem_sortBy]
      unfold ConvOptions.regularEnums
      rw [if_pos hm, C36.mem_eraseDups, List.mem_filterMap]
      exact ⟨f, List.mem_flatMap.2 ⟨c, mem_entities.2 ⟨hc, hk⟩, hf⟩, regularEnum_iff.2 he⟩
    obtain ⟨b, hb, he⟩ := mapM_fwd h2 e hin
    obtain ⟨tb, rfl, hB⟩ := henum e b he
    exact ⟨tb, .inl (.inl (.inr hb)), hB⟩
  | extensible c hc hk f hf e hx he =>
    obtain ⟨e', he', heq⟩ := mapM_fwd h3 f (List.mem_filter.2 ⟨List.mem_flatMap.2 ⟨c, mem_entities.2 ⟨hc, hk⟩, hf⟩, hx⟩)
    rw [he] at heq; cases heq
    obtain ⟨b, hb, he⟩ := mapM_fwd h4 e (by rw [mem_sortBy, C36.mem_eraseDups]; exact he')
    obtain ⟨tb, rfl, hB⟩ := henum e b he
    exact ⟨tb, .inl (.inr hb), hB⟩
  | join c hc hk f hf item n hl hr hn =>
    obtain ⟨isList, hrel⟩ := relationship_of (o := o) (defs := defs) hl hr
    obtain ⟨x, hx, hc'⟩ := mapM_fwd h5 c (mem_entities.2 ⟨hc, hk⟩)
    obtain ⟨y, hy, hf'⟩ := mapM_fwd hc' f hf
    unfold ConvOptions.joinEntry at hf'
    rw [hrel] at hf'
    simp only [bind_ok, pure_ok] at hf'
    obtain ⟨tb', h6, rfl⟩ := hf'
    refine ⟨tb', .inr ?_, c, hc, rfl, hk, f, hf, rfl, isList, item, hrel, hn, h6⟩
    exact List.mem_flatten.2 ⟨_, List.mem_flatten.2 ⟨x, hx, hy⟩, List.mem_singleton.2 rfl⟩

/-! ### Properties of the tables -/

theorem wf_unique (hw : WellFormed defs refs) {c c' : ClassDecl} (hc : c ∈ refs) (hc' : c' ∈ refs) (h : c.name = c'.name) : c = c' := by
  have h1 := hw.known c hc
  have h2 := hw.known c' hc'
  rw [h, h2] at h1
  exact (Option.some.inj h1).symm

theorem nodup_field {l : List FieldDecl} (h : (l.map FieldDecl.name).Nodup) {f g : FieldDecl} (hf : f ∈ l) (hg : g ∈ l)
    (e : f.name = g.name) : f = g := by
  induction l with
  | nil => cases hf
  | cons a l ih =>
    simp only [List.map_cons, List.nodup_cons] at h
    rcases List.mem_cons.1 hf with rfl | hf'
    · rcases List.mem_cons.1 hg with rfl | hg'
      · rfl
      · exact absurd (e ▸ List.mem_map_of_mem hg') h.1
    · rcases List.mem_cons.1 hg with rfl | hg'
      · exact absurd (e ▸ List.mem_map_of_mem hf') h.1
      · exact ih h.2 hf' hg'

theorem built_det (hw : WellFormed defs refs) {s : TableSource} {tb tb' : Table} (h : Built o defs depth refs s tb)
    (h' : Built o defs depth refs s tb') : tb = tb' := by
  cases s with
  | entity n =>
    obtain ⟨c, hc, hn, _, hb⟩ := h
    obtain ⟨c', hc', hn', _, hb'⟩ := h'
    cases wf_unique hw hc hc' (hn.trans hn'.symm)
    rw [hb] at hb'; exact Except.ok.inj hb'
  | enum n =>
    obtain ⟨e, he, hb⟩ := h
    obtain ⟨e', he', hb'⟩ := h'
    rw [he] at he'; cases he'
    rw [hb] at hb'; exact Except.ok.inj hb'
  | join owner f i =>
    obtain ⟨c, hc, hn, _, fd, hf, hfn, isList, item, hr, _, hb⟩ := h
    obtain ⟨c', hc', hn', _, fd', hf', hfn', isList', item', hr', _, hb'⟩ := h'
    cases wf_unique hw hc hc' (hn.trans hn'.symm)
    cases nodup_field (hw.fields c hc) hf hf' (hfn.trans hfn'.symm)
    rw [hr] at hr'; cases hr'
    rw [hb] at hb'; exact Except.ok.inj hb'

theorem enum_name {n : PyName} {e : EnumDecl} (h : defs.enum n = some e) : e.name = n := by
  have := List.find?_some h
  simpa using this

/-- The name of a table. -/
theorem built_name {s : TableSource} {tb : Table} (h : Built o defs depth refs s tb) : o.qualifiedId s.pyName = .ok tb.name := by
  cases s with
  | entity n =>
    obtain ⟨c, hc, rfl, _, hb⟩ := h
    obtain ⟨_, _, _, _, _, _, _, _, _, _, _, _, _, _, h1, _, rfl⟩ := dataclassTable_inv hb
    exact h1
  | enum n =>
    obtain ⟨e, he, hb⟩ := h
    have := (enumTable_inv hb).1
    rw [enum_name he] at this
    exact this
  | join owner f i =>
    obtain ⟨c, hc, rfl, _, fd, hf, rfl, isList, item, hr, hi, hb⟩ := h
    obtain ⟨_, x, _, _, _, _, _, _, hx, _, _, _, _, h1, rfl⟩ := joinTable_inv hb
    have : x.1 = i := by
      rcases joinItem_name hx with h | h <;> rcases hi with h' | h' <;> rw [h] at h' <;> cases h' <;> rfl
    rw [this] at h1
    exact h1

theorem entity_inv {ty : PyType} (h : defs.isEntity ty = true) : ∃ n c, ty = .cls n ∧ defs.cls n = some c ∧ c.key.isSome = true := by
  cases ty <;> simp [PyDefs.isEntity] at h
  rename_i n
  cases hc : defs.cls n with
  | none => rw [hc] at h; cases h
  | some c => rw [hc] at h; exact ⟨n, c, rfl, hc, h⟩

/-- No primary key becomes a table of its own. -/
def ScalarKeys (o : ConvOptions) (defs : PyDefs) (refs : List ClassDecl) : Prop :=
  ∀ c ∈ refs, ∀ k, c.key = some k → o.relationship defs k.ty = none

/-- Such a primary key makes the conversion fail. -/
theorem scalar_keys {l : List (Text × Table)} (h : o.allTables defs depth refs = .ok l) : ScalarKeys o defs refs := by
  intro c hc k hk
  obtain ⟨tables, regular, ext, extTables, joins, _, _, _, _, h5, _⟩ := allTables_inv h
  have hkf : k ∈ c.fields := by unfold ClassDecl.key at hk; exact List.mem_of_find?_eq_some hk
  obtain ⟨js, _, hj⟩ := mapM_fwd h5 c (mem_entities.2 ⟨hc, by simp [hk]⟩)
  obtain ⟨tb, _, hj⟩ := mapM_fwd hj k hkf
  cases hr : o.relationship defs k.ty with
  | none => rfl
  | some p =>
    obtain ⟨isList, item⟩ := p
    exfalso
    unfold ConvOptions.joinEntry at hj
    rw [hr] at hj
    simp only [bind_ok, pure_ok] at hj
    obtain ⟨tb', hj, _⟩ := hj
    obtain ⟨k', x, lt, _, _, _, _, hk', _, hm, _⟩ := joinTable_inv hj
    rw [hk] at hk'
    cases hk'
    obtain ⟨h1, h2⟩ := relationship_inv hr
    have ha : o.arrayType defs item = .ok lt := by
      cases depth with
      | zero => simp [ConvOptions.memberType] at hm
      | succ d => rcases h1 with h1 | h1 <;> (rw [h1] at hm; simpa [ConvOptions.memberType] using hm)
    unfold ConvOptions.arrayType at ha
    rcases h2 with h2 | h2
    · rw [h2] at ha
      split at ha
      · cases ha
      · split at ha
        · cases ha
        · split at ha <;> cases ha
    · obtain ⟨n, c', rfl, _, _⟩ := entity_inv h2
      rw [if_neg (by simp [PyType.isSimple]), if_pos h2] at ha
      cases ha

/-- The primary key of a table is one column, which exists. -/
theorem built_key (hw : WellFormed defs refs) (hs : ScalarKeys o defs refs) {s : TableSource} {tb : Table} (h : Built o defs depth refs s tb) :
    tb.primaryKey = [keyOf defs s] ∧ HasColumn tb (keyOf defs s) := by
  cases s with
  | entity n =>
    obtain ⟨c, hc, rfl, _, hb⟩ := h
    obtain ⟨columns, _, _, _, _, _, _, k, h1, _, _, _, _, _, _, hk, rfl⟩ := dataclassTable_inv hb
    have hkey : keyOf defs (.entity c.name) = k.name := by simp [keyOf, hw.known c hc, hk]
    refine ⟨by rw [hkey], ?_⟩
    rw [hkey]
    have hkf : k ∈ c.fields := by unfold ClassDecl.key at hk; exact List.mem_of_find?_eq_some hk
    have hrel := hs c hc k hk
    obtain ⟨col, hcol, hmc⟩ := mapM_fwd h1 k (List.mem_filter.2 ⟨hkf, by simp [hrel]⟩)
    unfold ConvOptions.memberColumn at hmc
    simp only [bind_ok, pure_ok] at hmc
    obtain ⟨ty, _, rfl⟩ := hmc
    obtain ⟨b, hb, hbk⟩ := ofList_has hcol
    exact ⟨b, hb, hbk⟩
  | enum n =>
    obtain ⟨e, he, hb⟩ := h
    obtain ⟨_, h2, h3, _⟩ := enumTable_inv hb
    exact ⟨h2, h3⟩
  | join owner f i =>
    obtain ⟨c, hc, rfl, _, fd, hf, rfl, isList, item, hr, hi, hb⟩ := h
    obtain ⟨_, x, lt, _, _, _, _, _, hx, _, _, _, _, h1, rfl⟩ := joinTable_inv hb
    refine ⟨rfl, ?_⟩
    obtain ⟨b, hb, hbk⟩ := ofList_has (α := Column) (a := { name := t "uuid", ty := o.primType .uuid, nullable := false })
      (l := [{ name := t "uuid", ty := o.primType .uuid, nullable := false },
          { name := c.name.2 ++ t "_" ++ fd.name, ty := lt, nullable := false },
          { name := x.1.2 ++ t "_" ++ x.2.1, ty := x.2.2, nullable := false }]) (List.mem_cons_self ..)
    exact ⟨b, hb, hbk⟩

theorem mem_typesClasses {m : PyType} {n : PyName} (hn : n ∈ typeClasses m) : ∀ {ms : PyTypes}, m ∈ ms.toList → n ∈ typesClasses ms
  | .nil, h => by cases h
  | .cons ty rest, h => by
    simp only [PyTypes.toList] at h
    simp only [typesClasses, List.mem_append]
    rcases List.mem_cons.1 h with rfl | h
    · exact .inl hn
    · exact .inr (mem_typesClasses hn h)

/-- A reference to the key of a table that is made. -/
def Target (o : ConvOptions) (defs : PyDefs) (refs : List ClassDecl) (r : Ref) : Prop :=
  ∃ s, Makes o defs refs s ∧ o.qualifiedId s.pyName = .ok r.table ∧ r.columns = [keyOf defs s]

theorem target_entity (hw : WellFormed defs refs) {c : ClassDecl} (hc : c ∈ refs) {f : FieldDecl} (hf : f ∈ c.fields) {n : PyName}
    (hn : n ∈ typeClasses f.ty) {r : Ref} (h : o.keyRef defs n = .ok r) : Target o defs refs r := by
  obtain ⟨c', hc', rfl⟩ := hw.closed c hc f hf n hn
  unfold ConvOptions.keyRef at h
  rw [hw.known c' hc'] at h
  cases hk : c'.key with
  | none => simp [hk] at h
  | some k =>
    simp only [Option.bind_some, hk, bind_ok, pure_ok] at h
    obtain ⟨q, h1, rfl⟩ := h
    exact ⟨.entity c'.name, .entity c' hc' (by simp [hk]), h1, by simp [keyOf, hw.known c' hc', hk]⟩

/-- The keys that are declared by a field (851-889). -/
theorem foreign_links (hw : WellFormed defs refs) {c : ClassDecl} (hc : c ∈ refs) {f : FieldDecl} (hf : f ∈ c.fields) {pre : Text}
    {cs : List Constraint} (h : o.foreignConstraint defs pre f = .ok cs) :
    ∀ x ∈ cs, ∀ l ∈ links x, l.1 = [f.name] ∧ Target o defs refs l.2 ∧ o.relationship defs f.ty = none := by
  intro x hx l hl
  unfold ConvOptions.foreignConstraint at h
  cases hty : f.ty with
  | cls n =>
    rw [hty] at h
    dsimp only at h
    split at h
    · simp only [bind_ok, pure_ok] at h
      obtain ⟨r, h1, rfl⟩ := h
      simp only [List.mem_singleton] at hx
      subst hx
      simp only [links, List.mem_singleton] at hl
      subst hl
      exact ⟨rfl, target_entity hw hc hf (by rw [hty]; simp [typeClasses]) h1, rfl⟩
    · cases h; cases hx
  | union ms =>
    rw [hty] at h
    dsimp only at h
    split at h
    · rename_i hall
      simp only [bind_ok, pure_ok] at h
      obtain ⟨rs, h1, rfl⟩ := h
      simp only [List.mem_singleton] at hx
      subst hx
      simp only [links, List.mem_map] at hl
      obtain ⟨r, hr, rfl⟩ := hl
      obtain ⟨m, hm, h2⟩ := mapM_back h1 r hr
      rw [bind_ok] at h2
      obtain ⟨n, h3, h4⟩ := h2
      obtain ⟨n', _, rfl, _⟩ := entity_inv (List.all_eq_true.1 hall m hm)
      cases h3
      refine ⟨rfl, target_entity hw hc hf ?_ h4, rfl⟩
      rw [hty]
      exact mem_typesClasses (by simp [typeClasses]) hm
    · cases h; cases hx
  | prim _ => rw [hty] at h; cases h; cases hx
  | annotated _ _ => rw [hty] at h; cases h; cases hx
  | enum _ => rw [hty] at h; cases h; cases hx
  | list _ => rw [hty] at h; cases h; cases hx
  | set _ => rw [hty] at h; cases h; cases hx
  | literal _ => rw [hty] at h; cases h; cases hx
  | other _ => rw [hty] at h; cases h; cases hx

theorem key_links (hw : WellFormed defs refs) {c : ClassDecl} (hc : c ∈ refs) {pre : Text} {cs : List Constraint}
    (h : o.keyConstraints defs pre c = .ok cs) :
    ∀ x ∈ cs, ∀ l ∈ links x, ∃ f ∈ c.fields, o.relationship defs f.ty = none ∧ l.1 = [f.name] ∧ Target o defs refs l.2 := by
  intro x hx l hl
  unfold ConvOptions.keyConstraints at h
  split at h
  · rename_i hfc
    unfold ConvOptions.dataclassConstraints at h
    simp only [bind_ok, pure_ok] at h
    obtain ⟨fks, h1, rfl⟩ := h
    rcases List.mem_append.1 hx with hx | hx
    · simp only [ConvOptions.uniqueConstraints, List.mem_map] at hx
      obtain ⟨f, _, rfl⟩ := hx
      cases hl
    · unfold ConvOptions.foreignKeys at h1
      rw [if_pos hfc] at h1
      obtain ⟨xs, hxs, hx⟩ := List.mem_flatten.1 hx
      obtain ⟨f, hf, h2⟩ := mapM_back h1 xs hxs
      obtain ⟨h3, h4, h5⟩ := foreign_links hw hc hf h2 x hx l hl
      exact ⟨f, hf, h5, h3, h4⟩
  · cases h; cases hx

theorem extensible_links {c : ClassDecl} (hc : c ∈ refs) (hk : c.key.isSome = true) {pre : Text} {css : List (List Constraint)}
    (h : c.fields.mapM (o.extensibleConstraint pre) = .ok css) :
    ∀ x ∈ css.flatten, ∀ l ∈ links x, ∃ f ∈ c.fields, o.relationship defs f.ty = none ∧ l.1 = [f.name] ∧ Target o defs refs l.2 := by
  intro x hx l hl
  obtain ⟨xs, hxs, hx⟩ := List.mem_flatten.1 hx
  obtain ⟨f, hf, h2⟩ := mapM_back h xs hxs
  unfold ConvOptions.extensibleConstraint at h2
  split at h2
  · rename_i hext
    simp only [bind_ok, pure_ok] at h2
    obtain ⟨e, he, q, hq, rfl⟩ := h2
    simp only [List.mem_singleton] at hx
    subst hx
    simp only [links, List.mem_singleton] at hl
    subst hl
    refine ⟨f, hf, ?_, rfl, .enum e, .extensible c hc hk f hf e hext he, hq, rfl⟩
    cases hty : f.ty <;> rw [hty] at hext <;> simp [PyType.isExtensible] at hext
    rfl
  · cases h2; cases hx

theorem enum_links {c : ClassDecl} (hc : c ∈ refs) (hk : c.key.isSome = true) {pre : Text} {css : List (List Constraint)}
    (h : o.enumConstraints pre c = .ok css) :
    ∀ x ∈ css.flatten, ∀ l ∈ links x, ∃ f ∈ c.fields, o.relationship defs f.ty = none ∧ l.1 = [f.name] ∧ Target o defs refs l.2 := by
  intro x hx l hl
  unfold ConvOptions.enumConstraints at h
  split at h
  · rename_i hm
    obtain ⟨xs, hxs, hx⟩ := List.mem_flatten.1 hx
    obtain ⟨f, hf, h2⟩ := mapM_back h xs hxs
    unfold ConvOptions.enumConstraint at h2
    cases hty : f.ty with
    | enum e =>
      rw [hty] at h2
      simp only [bind_ok, pure_ok] at h2
      obtain ⟨q, hq, rfl⟩ := h2
      simp only [List.mem_singleton] at hx
      subst hx
      simp only [links, List.mem_singleton] at hl
      subst hl
      exact ⟨f, hf, by rw [hty]; rfl, rfl, .enum e, .enumeration c hc hk f hf e hm (.inl hty), hq, rfl⟩
    | cls _ => rw [hty] at h2; cases h2; cases hx
    | union _ => rw [hty] at h2; cases h2; cases hx
    | prim _ => rw [hty] at h2; cases h2; cases hx
    | annotated _ _ => rw [hty] at h2; cases h2; cases hx
    | list _ => rw [hty] at h2; cases h2; cases hx
    | set _ => rw [hty] at h2; cases h2; cases hx
    | literal _ => rw [hty] at h2; cases h2; cases hx
    | other _ => rw [hty] at h2; cases h2; cases hx
  · cases h; cases hx

theorem enum_checks {c : ClassDecl} {pre : Text} {css : List (List Constraint)} (h : o.enumChecks defs pre c = .ok css) :
    ∀ x ∈ css.flatten, ∃ f ∈ c.fields, ∃ n e, f.ty = .enum n ∧ defs.enum n = some e ∧
      x = .check (chName pre f.name) ((LocalId.mk f.name).quoted ++ t " IN (" ++ joinWith (t ", ") e.constants ++ t ")") := by
  intro x hx
  unfold ConvOptions.enumChecks at h
  split at h
  · obtain ⟨xs, hxs, hx⟩ := List.mem_flatten.1 hx
    obtain ⟨f, hf, h2⟩ := mapM_back h xs hxs
    unfold ConvOptions.enumCheck at h2
    cases hty : f.ty with
    | enum n =>
      rw [hty] at h2
      dsimp only at h2
      cases he : defs.enum n with
      | none => rw [he] at h2; cases h2
      | some e =>
        rw [he] at h2
        cases h2
        simp only [List.mem_singleton] at hx
        exact ⟨f, hf, n, e, hty, he, hx⟩
    | cls _ => rw [hty] at h2; cases h2; cases hx
    | union _ => rw [hty] at h2; cases h2; cases hx
    | prim _ => rw [hty] at h2; cases h2; cases hx
    | annotated _ _ => rw [hty] at h2; cases h2; cases hx
    | list _ => rw [hty] at h2; cases h2; cases hx
    | set _ => rw [hty] at h2; cases h2; cases hx
    | literal _ => rw [hty] at h2; cases h2; cases hx
    | other _ => rw [hty] at h2; cases h2; cases hx
  · cases h; cases hx

theorem range_check {pre : Text} {c : Column} : ∀ x ∈ ConvOptions.rangeCheck pre c, ∃ s, x = .check (chName pre c.name) s := by
  intro x hx
  unfold ConvOptions.rangeCheck at hx
  split at hx
  · cases hx
  · simp only [List.mem_singleton] at hx
    exact ⟨_, hx⟩

theorem column_of {c : ClassDecl} {columns : List Column} (h : o.tableColumns defs depth c = .ok columns) {f : FieldDecl} (hf : f ∈ c.fields)
    (hr : o.relationship defs f.ty = none) : ∃ col ∈ (ODict.ofList columns).items, col.name = f.name := by
  obtain ⟨col, hcol, hmc⟩ := mapM_fwd h f (List.mem_filter.2 ⟨hf, by simp [hr]⟩)
  unfold ConvOptions.memberColumn at hmc
  simp only [bind_ok, pure_ok] at hmc
  obtain ⟨ty, _, rfl⟩ := hmc
  obtain ⟨b, hb, hbk⟩ := ofList_has hcol
  exact ⟨b, hb, hbk⟩

/-- Foreign keys start from a column of the table and refer to the key of a table that is made. -/
theorem built_links (hw : WellFormed defs refs) {s : TableSource} (hs : Makes o defs refs s) {tb : Table} (h : Built o defs depth refs s tb) :
    ∀ x ∈ tb.constraints.items, ∀ l ∈ links x, ∃ col, l.1 = [col] ∧ HasColumn tb col ∧ Target o defs refs l.2 := by
  intro x hx l hl
  cases s with
  | entity n =>
    obtain ⟨c, hc, rfl, hk, hb⟩ := h
    obtain ⟨columns, pre, keys, ext, rel, chk, name, k, h1, h2, h3, h4, h5, h6, h7, h8, rfl⟩ := dataclassTable_inv hb
    have hx := of_mem_ofList hx
    simp only [List.mem_append] at hx
    have hmain : ∃ f ∈ c.fields, o.relationship defs f.ty = none ∧ l.1 = [f.name] ∧ Target o defs refs l.2 := by
      rcases hx with (((hx | hx) | hx) | hx) | hx
      · exact key_links hw hc h3 x hx l hl
      · exact extensible_links hc hk h4 x hx l hl
      · exact enum_links hc hk h5 x hx l hl
      · obtain ⟨_, _, _, _, _, _, rfl⟩ := enum_checks h6 x hx
        cases hl
      · obtain ⟨col, _, hx⟩ := List.mem_flatMap.1 hx
        obtain ⟨_, rfl⟩ := range_check x hx
        cases hl
    obtain ⟨f, hf, hr, hl1, ht⟩ := hmain
    exact ⟨f.name, hl1, column_of h1 hf hr, ht⟩
  | enum n =>
    obtain ⟨e, he, hb⟩ := h
    rw [(enumTable_inv hb).2.2.2 x hx] at hl
    cases hl
  | join owner f i =>
    obtain ⟨c, hc, rfl, hk, fd, hf, rfl, isList, item, hr, hi, hb⟩ := h
    obtain ⟨k, y, lt, pre, lr, rr, name, hkey, hy, hlt, hpre, hlr, hrr, h1, rfl⟩ := joinTable_inv hb
    have hcol : ∀ col ∈ [{ name := t "uuid", ty := o.primType .uuid, nullable := false },
          { name := c.name.2 ++ t "_" ++ fd.name, ty := lt, nullable := false },
          ({ name := y.1.2 ++ t "_" ++ y.2.1, ty := y.2.2, nullable := false } : Column)],
        ∃ b ∈ (ODict.ofList [{ name := t "uuid", ty := o.primType .uuid, nullable := false },
          { name := c.name.2 ++ t "_" ++ fd.name, ty := lt, nullable := false },
          ({ name := y.1.2 ++ t "_" ++ y.2.1, ty := y.2.2, nullable := false } : Column)]).items, b.name = col.name := by
      intro col hcol
      obtain ⟨b, hb, hbk⟩ := ofList_has hcol
      exact ⟨b, hb, hbk⟩
    have hx := of_mem_ofList hx
    simp only [List.mem_append, List.mem_cons, List.not_mem_nil, or_false] at hx
    rcases hx with (rfl | rfl) | hx
    · simp only [links, List.mem_singleton] at hl
      subst hl
      exact ⟨_, rfl, hcol _ (List.mem_cons_of_mem _ (List.mem_cons_self ..)), .entity c.name, .entity c hc hk, hlr,
        by simp [keyOf, hw.known c hc, hkey]⟩
    · simp only [links, List.mem_singleton] at hl
      subst hl
      refine ⟨_, rfl, hcol _ (List.mem_cons_of_mem _ (List.mem_cons_of_mem _ (List.mem_cons_self ..))), ?_⟩
      obtain ⟨hrl, _⟩ := relationship_inv hr
      rcases joinItem_inv hy with ⟨hit, k', hk', hkn, _⟩ | ⟨hit, hm, hid, _⟩
      · have hn : y.1 ∈ typeClasses fd.ty := by
          rcases hrl with e | e <;> rw [e, hit] <;> simp [typeClasses]
        obtain ⟨c', hc', hcn⟩ := hw.closed c hc fd hf _ hn
        have hkn' := hw.known c' hc'
        rw [hcn] at hkn'
        refine ⟨.entity y.1, ?_, hrr, ?_⟩
        · rw [← hcn]
          refine .entity c' hc' ?_
          rw [hkn'] at hk'
          simp at hk'
          simp [hk']
        · simp [keyOf, hk', hkn]
      · refine ⟨.enum y.1, .enumeration c hc hk fd hf y.1 hm ?_, hrr, by simp [keyOf, hid]⟩
        rcases hrl with e | e <;> rw [e, hit] <;> simp
    · split at hx
      · cases hx
      · simp only [List.mem_singleton] at hx
        subst hx
        cases hl

/-! ### The catalog -/

theorem mem_ofModule {α : Type} {m : Text} {entries : List (Text × α)} {a : α} : a ∈ ofModule m entries ↔ (m, a) ∈ entries := by
  simp only [ofModule, List.mem_map, List.mem_filter, decide_eq_true_eq]
  constructor
  · rintro ⟨⟨m', a'⟩, ⟨h, rfl⟩, rfl⟩; exact h
  · intro h; exact ⟨(m, a), ⟨h, rfl⟩, rfl⟩

theorem mem_byModule {α : Type} {entries : List (Text × α)} {a : α} : a ∈ byModule entries ↔ ∃ m, (m, a) ∈ entries := by
  simp only [byModule, List.mem_flatMap, C36.mem_eraseDups, List.mem_map, mem_ofModule]
  constructor
  · rintro ⟨m, _, h⟩; exact ⟨m, h⟩
  · rintro ⟨m, h⟩; exact ⟨m, ⟨(m, a), h, rfl⟩, h⟩

theorem qualified_key {n : PyName} {q : QId} (h : o.qualifiedId n = .ok q) :
    (o.qualified = true → ∃ s, o.mapping n.1 = .ok s ∧ q.key = (s.getD [], n.2)) ∧ (o.qualified = false → q.key.1 = []) := by
  unfold ConvOptions.qualifiedId at h
  simp only [bind_ok, pure_ok] at h
  obtain ⟨s, h1, rfl⟩ := h
  constructor
  · intro hq; exact ⟨s, h1, by simp [hq, QId.key, QId.scopeId, QId.localId]⟩
  · intro hq; simp [hq, QId.key, QId.scopeId]

theorem toCatalog_inv {topo : List ClassDecl → Except Err (List ClassDecl)} {enumRefs : List EnumDecl} {C : Catalog}
    (h : o.toCatalog defs depth topo refs enumRefs = .ok C) :
    ∃ enums structs tables, o.allEnums enumRefs = .ok enums ∧ o.allStructs defs depth topo refs = .ok structs ∧
      o.allTables defs depth refs = .ok tables ∧
      ((o.qualified = true ∧ ∃ nss, (tables.map Prod.fst).eraseDups.mapM (o.moduleNamespace enums structs tables) = .ok nss ∧ C = ⟨ODict.ofList nss⟩) ∨
       (o.qualified = false ∧ C = ⟨ODict.ofList [{
          name := []
          enums := ODict.ofList (byModule enums)
          structs := ODict.ofList (byModule structs)
          tables := ODict.ofList (byModule tables) }]⟩)) := by
  unfold ConvOptions.toCatalog at h
  simp only [bind_ok] at h
  obtain ⟨enums, h1, structs, h2, tables, h3, h4⟩ := h
  refine ⟨enums, structs, tables, h1, h2, h3, ?_⟩
  by_cases hq : o.qualified = true
  · rw [if_pos hq] at h4
    simp only [bind_ok, pure_ok] at h4
    obtain ⟨nss, h5, rfl⟩ := h4
    exact .inl ⟨hq, nss, h5, rfl⟩
  · rw [if_neg hq] at h4
    exact .inr ⟨by simpa using hq, (pure_ok.1 h4).symm⟩

theorem moduleNamespace_inv {enums : List (Text × EnumType)} {structs : List (Text × StructType)} {tables : List (Text × Table)} {m : Text}
    {n : Namespace} (h : o.moduleNamespace enums structs tables m = .ok n) :
    ∃ s, o.mapping m = .ok s ∧ n.name = s.getD [] ∧ n.enums = ODict.ofList (ofModule m enums) ∧
      n.structs = ODict.ofList (ofModule m structs) ∧ n.tables = ODict.ofList (ofModule m tables) := by
  unfold ConvOptions.moduleNamespace at h
  simp only [bind_ok, pure_ok] at h
  obtain ⟨s, h1, rfl⟩ := h
  exact ⟨s, h1, rfl, rfl, rfl, rfl⟩

/-- The catalog has exactly the tables that are called for, each in the schema that its name tells. -/
theorem catalog_tables (hw : WellFormed defs refs) (hn : NoClash o defs refs) {topo : List ClassDecl → Except Err (List ClassDecl)}
    {enumRefs : List EnumDecl} {C : Catalog} (h : o.toCatalog defs depth topo refs enumRefs = .ok C) (schema : Text) (tb : Table) :
    InCatalog C schema tb ↔ ∃ s, Makes o defs refs s ∧ Built o defs depth refs s tb ∧ schema = tb.name.key.1 := by
  obtain ⟨enums, structs, tables, h1, h2, h3, h4⟩ := toCatalog_inv h
  -- tables of the same name are the same
  have hkey : ∀ m a m' b, (m, a) ∈ tables → (m', b) ∈ tables → a.name.key = b.name.key → a = b := by
    intro m a m' b ha hb e
    obtain ⟨s, hs, hB, _⟩ := allTables_back h3 ha
    obtain ⟨s', hs', hB', _⟩ := allTables_back h3 hb
    cases hn.tables s s' hs hs' _ _ (built_name hB) (built_name hB') e
    exact built_det hw hB hB'
  rcases h4 with ⟨hq, nss, h5, rfl⟩ | ⟨hq, rfl⟩
  · -- schemas of different modules are different
    have hmod : ∀ m ∈ (tables.map Prod.fst).eraseDups, ∃ s, Makes o defs refs s ∧ m = s.pyName.1 := by
      intro m hm
      rw [C36.mem_eraseDups, List.mem_map] at hm
      obtain ⟨⟨m', tb⟩, hm, rfl⟩ := hm
      obtain ⟨s, hs, _, e⟩ := allTables_back h3 hm
      exact ⟨s, hs, e⟩
    have hns : ∀ n ∈ nss, ∀ n' ∈ nss, Named.key n = Named.key n' → n = n' := by
      intro n hn1 n' hn2 e
      obtain ⟨m, hm, hb⟩ := mapM_back h5 n hn1
      obtain ⟨m', hm', hb'⟩ := mapM_back h5 n' hn2
      obtain ⟨s, hs, rfl⟩ := hmod m hm
      obtain ⟨s', hs', rfl⟩ := hmod m' hm'
      obtain ⟨a, ha, hna, _⟩ := moduleNamespace_inv hb
      obtain ⟨a', ha', hna', _⟩ := moduleNamespace_inv hb'
      have e' : n.name = n'.name := e
      rw [hna, hna'] at e'
      have := hn.schemas hq s s' hs hs' a a' ha ha' e'
      rw [this, hb'] at hb
      exact (Except.ok.inj hb).symm
    constructor
    · rintro ⟨n, hnc, rfl, htb⟩
      have hnc := (mem_ofList hns).1 hnc
      obtain ⟨m, hm, hb⟩ := mapM_back h5 n hnc
      obtain ⟨a, ha, hna, _, _, ht⟩ := moduleNamespace_inv hb
      rw [ht] at htb
      have htb := mem_ofModule.1 (of_mem_ofList htb)
      obtain ⟨s, hs, hB, hms⟩ := allTables_back h3 htb
      refine ⟨s, hs, hB, ?_⟩
      obtain ⟨s', hs', hk⟩ := (qualified_key (built_name hB)).1 hq
      rw [← hms, ha] at hs'
      cases hs'
      rw [hk, hna]
    · rintro ⟨s, hs, hB, rfl⟩
      obtain ⟨tb', hin, hB'⟩ := allTables_fwd h3 hs
      cases built_det hw hB hB'
      have hm : s.pyName.1 ∈ (tables.map Prod.fst).eraseDups := by
        rw [C36.mem_eraseDups, List.mem_map]; exact ⟨_, hin, rfl⟩
      obtain ⟨n, hnn, hb⟩ := mapM_fwd h5 _ hm
      obtain ⟨a, ha, hna, _, _, ht⟩ := moduleNamespace_inv hb
      obtain ⟨s', hs', hk⟩ := (qualified_key (built_name hB)).1 hq
      rw [ha] at hs'; cases hs'
      refine ⟨n, (mem_ofList hns).2 hnn, by rw [hk, hna], ?_⟩
      rw [ht, mem_ofList]
      · exact mem_ofModule.2 hin
      · intro x hx y hy e
        have hx := mem_ofModule.1 hx
        have hy := mem_ofModule.1 hy
        refine hkey _ x _ y hx hy ?_
        obtain ⟨sx, hsx, hBx, hmx⟩ := allTables_back h3 hx
        obtain ⟨sy, hsy, hBy, hmy⟩ := allTables_back h3 hy
        obtain ⟨a1, ha1, hk1⟩ := (qualified_key (built_name hBx)).1 hq
        obtain ⟨a2, ha2, hk2⟩ := (qualified_key (built_name hBy)).1 hq
        rw [← hmx, ha] at ha1
        rw [← hmy, ha] at ha2
        cases ha1; cases ha2
        have e' : x.name.key.2 = y.name.key.2 := e
        exact Prod.ext (by rw [hk1, hk2]) e'
  · have hall : ∀ x ∈ byModule tables, ∀ y ∈ byModule tables, Named.key x = Named.key y → x = y := by
      intro x hx y hy e
      obtain ⟨m, hx⟩ := mem_byModule.1 hx
      obtain ⟨m', hy⟩ := mem_byModule.1 hy
      refine hkey _ x _ y hx hy ?_
      obtain ⟨sx, hsx, hBx, hmx⟩ := allTables_back h3 hx
      obtain ⟨sy, hsy, hBy, hmy⟩ := allTables_back h3 hy
      have e' : x.name.key.2 = y.name.key.2 := e
      exact Prod.ext (by rw [(qualified_key (built_name hBx)).2 hq, (qualified_key (built_name hBy)).2 hq]) e'
    constructor
    · rintro ⟨n, hnc, rfl, htb⟩
      have hnc := of_mem_ofList hnc
      simp only [List.mem_singleton] at hnc
      subst hnc
      obtain ⟨m, htb⟩ := mem_byModule.1 (of_mem_ofList htb)
      obtain ⟨s, hs, hB, hms⟩ := allTables_back h3 htb
      exact ⟨s, hs, hB, ((qualified_key (built_name hB)).2 hq).symm⟩
    · rintro ⟨s, hs, hB, rfl⟩
      obtain ⟨tb', hin, hB'⟩ := allTables_fwd h3 hs
      cases built_det hw hB hB'
      refine ⟨_, (mem_ofList (α := Namespace) ?_).2 (List.mem_singleton.2 rfl), ((qualified_key (built_name hB)).2 hq).symm, ?_⟩
      · intro a ha b hb _
        rw [List.mem_singleton] at ha hb
        rw [ha, hb]
      · exact (mem_ofList hall).2 (mem_byModule.2 ⟨_, hin⟩)

end C32

/-- **C32**: whenever data-classes are converted, every primary key column exists, every foreign (and discriminated) key starts from columns
    of its table, and refers to the primary key of a table that is in the catalog under the name of the reference.  For all data-classes of
    which the referenced ones are included, and for all options, provided that no two tables
    get the same name (`C32_name_clash_fails`). -/
theorem C32_resolves (o : ConvOptions) (defs : PyDefs) (depth : Nat) (topo : List ClassDecl → Except Err (List ClassDecl)) (refs : List ClassDecl)
    (enumRefs : List EnumDecl) (C : Catalog) (hw : WellFormed defs refs) (hn : NoClash o defs refs)
    (h : o.toCatalog defs depth topo refs enumRefs = .ok C) : KeysResolve C := by
  have hcat := C32.catalog_tables hw hn h
  obtain ⟨_, _, _, _, _, hall, _⟩ := C32.toCatalog_inv h
  have hs := C32.scalar_keys hall
  refine ⟨?_, ?_, ?_⟩
  · intro s tb htb
    obtain ⟨src, hm, hB, _⟩ := (hcat s tb).1 htb
    obtain ⟨h1, h2⟩ := C32.built_key hw hs hB
    rw [h1]
    refine ⟨by simp, ?_⟩
    intro col hcol
    rw [List.mem_singleton] at hcol
    rw [hcol]; exact h2
  · intro s tb htb c hc l hl
    obtain ⟨src, hm, hB, _⟩ := (hcat s tb).1 htb
    obtain ⟨col, h1, h2, _⟩ := C32.built_links hw hm hB c hc l hl
    rw [h1]
    refine ⟨by simp, ?_⟩
    intro col' hcol
    rw [List.mem_singleton] at hcol
    rw [hcol]; exact h2
  · intro s tb htb c hc l hl
    obtain ⟨src, hm, hB, _⟩ := (hcat s tb).1 htb
    obtain ⟨col, h1, h2, src', hm', hq, hcols⟩ := C32.built_links hw hm hB c hc l hl
    obtain ⟨enums, structs, tables, _, _, h3, _⟩ := C32.toCatalog_inv h
    obtain ⟨tb', hin, hB'⟩ := C32.allTables_fwd h3 hm'
    have hname := C32.built_name hB'
    rw [hq] at hname
    have hname : l.2.table = tb'.name := Except.ok.inj hname
    refine ⟨by rw [h1, hcols]; rfl, tb', ?_, hname.symm, ?_⟩
    · rw [hname]
      exact (hcat _ tb').2 ⟨src', hm', hB', rfl⟩
    · rw [hcols, (C32.built_key hw hs hB').1]

/-- Each of the tables that the data-classes call for is in the catalog, and no other. -/
theorem C32_tables (o : ConvOptions) (defs : PyDefs) (depth : Nat) (topo : List ClassDecl → Except Err (List ClassDecl)) (refs : List ClassDecl)
    (enumRefs : List EnumDecl) (C : Catalog) (hw : WellFormed defs refs) (hn : NoClash o defs refs)
    (h : o.toCatalog defs depth topo refs enumRefs = .ok C) (q : QId) :
    (∃ tb, InCatalog C q.key.1 tb ∧ tb.name = q) ↔ ∃ s, Makes o defs refs s ∧ o.qualifiedId s.pyName = .ok q := by
  have hcat := C32.catalog_tables hw hn h
  obtain ⟨_, _, _, _, _, hall, _⟩ := C32.toCatalog_inv h
  have hs := C32.scalar_keys hall
  constructor
  · rintro ⟨tb, hin, rfl⟩
    obtain ⟨s, hm, hB, _⟩ := (hcat _ tb).1 hin
    exact ⟨s, hm, C32.built_name hB⟩
  · rintro ⟨s, hm, hq⟩
    obtain ⟨enums, structs, tables, _, _, h3, _⟩ := C32.toCatalog_inv h
    obtain ⟨tb', hin, hB'⟩ := C32.allTables_fwd h3 hm
    have hname := C32.built_name hB'
    rw [hq] at hname
    have hname : q = tb'.name := Except.ok.inj hname
    subst hname
    exact ⟨tb', (hcat _ tb').2 ⟨s, hm, hB', rfl⟩, rfl⟩

namespace C32
open Conv
variable {o : ConvOptions} {defs : PyDefs} {depth : Nat} {refs : List ClassDecl}

/-- The data type of the key of a table. -/
def KeyType (o : ConvOptions) (defs : PyDefs) (depth : Nat) : TableSource → SqlType → Prop
  | .entity n, ty => ∃ c k, defs.cls n = some c ∧ c.key = some k ∧ o.memberType defs depth k.ty = .ok ty
  | .enum _, ty => ty = o.enumKeyType
  | .join .., _ => False

/-- A reference to the key of a table that is made, of this data type. -/
def TypedTarget (o : ConvOptions) (defs : PyDefs) (depth : Nat) (refs : List ClassDecl) (r : Ref) (ty : SqlType) : Prop :=
  ∃ s, Makes o defs refs s ∧ o.qualifiedId s.pyName = .ok r.table ∧ KeyType o defs depth s ty

theorem column_type (hw : WellFormed defs refs) {c : ClassDecl} (hc : c ∈ refs) {columns : List Column}
    (h : o.tableColumns defs depth c = .ok columns) {f : FieldDecl} (hf : f ∈ c.fields) {col : Column}
    (hcol : col ∈ (ODict.ofList columns).items) (hn : col.name = f.name) : o.memberType defs depth f.ty = .ok col.ty := by
  obtain ⟨g, hg, hm⟩ := mapM_back h col (of_mem_ofList hcol)
  unfold ConvOptions.memberColumn at hm
  simp only [bind_ok, pure_ok] at hm
  obtain ⟨ty, h1, rfl⟩ := hm
  cases nodup_field (hw.fields c hc) hf (List.mem_filter.1 hg).1 hn.symm
  exact h1

theorem typed_entity (hw : WellFormed defs refs) {c : ClassDecl} (hc : c ∈ refs) {f : FieldDecl} (hf : f ∈ c.fields) {n : PyName}
    (hn : n ∈ typeClasses f.ty) {r : Ref} (h : o.keyRef defs n = .ok r) {ty : SqlType}
    (hty : ∀ c' k, defs.cls n = some c' → c'.key = some k → o.memberType defs depth k.ty = .ok ty) :
    TypedTarget o defs depth refs r ty := by
  obtain ⟨c', hc', rfl⟩ := hw.closed c hc f hf n hn
  unfold ConvOptions.keyRef at h
  rw [hw.known c' hc'] at h
  cases hk : c'.key with
  | none => simp [hk] at h
  | some k =>
    simp only [Option.bind_some, hk, bind_ok, pure_ok] at h
    obtain ⟨q, h1, rfl⟩ := h
    exact ⟨.entity c'.name, .entity c' hc' (by simp [hk]), h1, c', k, hw.known c' hc', hk, hty c' k (hw.known c' hc') hk⟩

theorem not_extensible {ms : PyTypes} {n : PyName} (h : PyType.cls n ∈ ms.toList) : (PyType.union ms).isExtensible = false := by
  simp only [PyType.isExtensible]
  rw [List.all_eq_false]
  exact ⟨_, h, by simp⟩

theorem foreign_typed (hw : WellFormed defs refs) {c : ClassDecl} (hc : c ∈ refs) {f : FieldDecl} (hf : f ∈ c.fields) {pre : Text}
    {cs : List Constraint} (h : o.foreignConstraint defs pre f = .ok cs) {ty : SqlType} (hty : o.memberType defs depth f.ty = .ok ty) :
    ∀ x ∈ cs, ∀ l ∈ links x, l.1 = [f.name] ∧ TypedTarget o defs depth refs l.2 ty := by
  intro x hx l hl
  unfold ConvOptions.foreignConstraint at h
  cases hf' : f.ty with
  | cls n =>
    rw [hf'] at h hty
    dsimp only at h
    split at h
    · simp only [bind_ok, pure_ok] at h
      obtain ⟨r, h1, rfl⟩ := h
      simp only [List.mem_singleton] at hx
      subst hx
      simp only [links, List.mem_singleton] at hl
      subst hl
      exact ⟨rfl, typed_entity hw hc hf (by rw [hf']; simp [typeClasses]) h1 (fun c' k h2 h3 => memberType_entity h2 h3 hty)⟩
    · cases h; cases hx
  | union ms =>
    rw [hf'] at h hty
    dsimp only at h
    split at h
    · rename_i hall
      simp only [bind_ok, pure_ok] at h
      obtain ⟨rs, h1, rfl⟩ := h
      simp only [List.mem_singleton] at hx
      subst hx
      simp only [links, List.mem_map] at hl
      obtain ⟨r, hr, rfl⟩ := hl
      obtain ⟨m, hm, h2⟩ := mapM_back h1 r hr
      rw [bind_ok] at h2
      obtain ⟨n, h3, h4⟩ := h2
      obtain ⟨n', _, rfl, _⟩ := entity_inv (List.all_eq_true.1 hall m hm)
      cases h3
      refine ⟨rfl, typed_entity hw hc hf ?_ h4 (fun c' k h5 h6 => memberType_union (not_extensible hm) hall hm h5 h6 hty)⟩
      rw [hf']
      exact mem_typesClasses (by simp [typeClasses]) hm
    · cases h; cases hx
  | prim _ => rw [hf'] at h; cases h; cases hx
  | annotated _ _ => rw [hf'] at h; cases h; cases hx
  | enum _ => rw [hf'] at h; cases h; cases hx
  | list _ => rw [hf'] at h; cases h; cases hx
  | set _ => rw [hf'] at h; cases h; cases hx
  | literal _ => rw [hf'] at h; cases h; cases hx
  | other _ => rw [hf'] at h; cases h; cases hx

/-- Foreign keys of an entity start from a field that has the type of the key. -/
theorem entity_typed (hw : WellFormed defs refs) {c : ClassDecl} (hc : c ∈ refs) (hk : c.key.isSome = true) {tb : Table}
    (h : o.dataclassTable defs depth c = .ok tb) : ∀ x ∈ tb.constraints.items, ∀ l ∈ links x, ∀ col ∈ tb.columns.items, l.1 = [col.name] →
      TypedTarget o defs depth refs l.2 col.ty := by
  intro x hx l hl col hcol hlc
  obtain ⟨columns, pre, keys, ext, rel, chk, name, k, h1, h2, h3, h4, h5, h6, h7, h8, rfl⟩ := dataclassTable_inv h
  have hx := of_mem_ofList hx
  simp only [List.mem_append] at hx
  rcases hx with (((hx | hx) | hx) | hx) | hx
  · obtain ⟨f, hf, hrel, hl1, _⟩ := key_links hw hc h3 x hx l hl
    have hcf : col.name = f.name := by rw [hl1] at hlc; simpa using hlc.symm
    have hty := column_type hw hc h1 hf hcol hcf
    unfold ConvOptions.keyConstraints at h3
    split at h3
    · rename_i hfc
      unfold ConvOptions.dataclassConstraints at h3
      simp only [bind_ok, pure_ok] at h3
      obtain ⟨fks, h9, rfl⟩ := h3
      rcases List.mem_append.1 hx with hx | hx
      · simp only [ConvOptions.uniqueConstraints, List.mem_map] at hx
        obtain ⟨f, _, rfl⟩ := hx
        cases hl
      · unfold ConvOptions.foreignKeys at h9
        rw [if_pos hfc] at h9
        obtain ⟨xs, hxs, hx⟩ := List.mem_flatten.1 hx
        obtain ⟨g, hg, h10⟩ := mapM_back h9 xs hxs
        have hlg := (foreign_links hw hc hg h10 x hx l hl).1
        have hcg : col.name = g.name := by rw [hlg] at hlc; simpa using hlc.symm
        exact (foreign_typed hw hc hg h10 (column_type hw hc h1 hg hcol hcg) x hx l hl).2
    · cases h3; cases hx
  · obtain ⟨xs, hxs, hx⟩ := List.mem_flatten.1 hx
    obtain ⟨f, hf, h9⟩ := mapM_back h4 xs hxs
    unfold ConvOptions.extensibleConstraint at h9
    split at h9
    · rename_i hext
      simp only [bind_ok, pure_ok] at h9
      obtain ⟨e, he, q, hq, rfl⟩ := h9
      simp only [List.mem_singleton] at hx
      subst hx
      simp only [links, List.mem_singleton] at hl
      subst hl
      have hcf : col.name = f.name := by simpa using hlc.symm
      exact ⟨.enum e, .extensible c hc hk f hf e hext he, hq, memberType_extensible hext (column_type hw hc h1 hf hcol hcf)⟩
    · cases h9; cases hx
  · unfold ConvOptions.enumConstraints at h5
    split at h5
    · rename_i hm
      obtain ⟨xs, hxs, hx⟩ := List.mem_flatten.1 hx
      obtain ⟨f, hf, h9⟩ := mapM_back h5 xs hxs
      unfold ConvOptions.enumConstraint at h9
      cases hty : f.ty with
      | enum e =>
        rw [hty] at h9
        simp only [bind_ok, pure_ok] at h9
        obtain ⟨q, hq, rfl⟩ := h9
        simp only [List.mem_singleton] at hx
        subst hx
        simp only [links, List.mem_singleton] at hl
        subst hl
        have hcf : col.name = f.name := by simpa using hlc.symm
        have := column_type hw hc h1 hf hcol hcf
        rw [hty] at this
        exact ⟨.enum e, .enumeration c hc hk f hf e hm (.inl hty), hq, memberType_enum hm this⟩
      | cls _ => rw [hty] at h9; cases h9; cases hx
      | union _ => rw [hty] at h9; cases h9; cases hx
      | prim _ => rw [hty] at h9; cases h9; cases hx
      | annotated _ _ => rw [hty] at h9; cases h9; cases hx
      | list _ => rw [hty] at h9; cases h9; cases hx
      | set _ => rw [hty] at h9; cases h9; cases hx
      | literal _ => rw [hty] at h9; cases h9; cases hx
      | other _ => rw [hty] at h9; cases h9; cases hx
    · cases h5; cases hx
  · obtain ⟨_, _, _, _, _, _, rfl⟩ := enum_checks h6 x hx
    cases hl
  · obtain ⟨col, _, hx⟩ := List.mem_flatMap.1 hx
    obtain ⟨_, rfl⟩ := range_check x hx
    cases hl

theorem uuid_ne (a b : Text) : t "uuid" ≠ a ++ t "_" ++ b := by
  intro h
  have : '_' ∈ t "uuid" := by rw [h]; simp [t]
  revert this
  decide

/-- The columns of a join table, if their names differ. -/
theorem join_columns {a b c : Column} (h1 : a.name = t "uuid") {x y z w : Text} (h2 : b.name = x ++ t "_" ++ y) (h3 : c.name = z ++ t "_" ++ w)
    (h : b.name ≠ c.name) : (ODict.ofList [a, b, c]).items = [a, b, c] := by
  apply ODict.ofList_of_nodup
  have e1 : a.name ≠ b.name := by rw [h1, h2]; exact uuid_ne _ _
  have e2 : a.name ≠ c.name := by rw [h1, h3]; exact uuid_ne _ _
  simp [Named.key, e1, e2, h]

theorem join_typed (hw : WellFormed defs refs) (hcc : NoColumnClash o defs refs) {c : ClassDecl} (hc : c ∈ refs) (hk : c.key.isSome = true)
    {f : FieldDecl} (hf : f ∈ c.fields) {isList : Bool} {item : PyType} (hr : o.relationship defs f.ty = some (isList, item)) {tb : Table}
    (h : o.joinTable defs depth c f isList item = .ok tb) : ∀ x ∈ tb.constraints.items, ∀ l ∈ links x, ∀ col ∈ tb.columns.items,
      l.1 = [col.name] → TypedTarget o defs depth refs l.2 col.ty := by
  intro x hx l hl col hcol hlc
  obtain ⟨k, y, lt, pre, lr, rr, name, hkey, hy, hlt, hpre, hlr, hrr, h1, rfl⟩ := joinTable_inv h
  obtain ⟨hrl, hre⟩ := relationship_inv hr
  have hne : c.name.2 ++ t "_" ++ f.name ≠ y.1.2 ++ t "_" ++ y.2.1 := by
    refine hcc.joins c hc f hf item y.1 y.2.1 hrl ?_
    rcases joinItem_inv hy with ⟨hit, k', hk', hkn, _⟩ | ⟨hit, hm, hid, _⟩
    · left
      refine ⟨hit, ?_⟩
      cases hd : defs.cls y.1 with
      | none => rw [hd] at hk'; cases hk'
      | some c' => rw [hd] at hk'; exact ⟨c', k', rfl, hk', hkn.symm⟩
    · exact .inr ⟨hit, hid⟩
  rw [join_columns rfl rfl rfl hne] at hcol
  have hx := of_mem_ofList hx
  simp only [List.mem_append, List.mem_cons, List.not_mem_nil, or_false] at hx hcol
  rcases hx with (rfl | rfl) | hx
  · simp only [links, List.mem_singleton] at hl
    subst hl
    rcases hcol with rfl | rfl | rfl
    · exact absurd (by simpa using hlc.symm) (uuid_ne c.name.2 f.name)
    · exact ⟨.entity c.name, .entity c hc hk, hlr, c, k, hw.known c hc, hkey, hlt⟩
    · exact absurd (List.singleton_inj.1 hlc) hne
  · simp only [links, List.mem_singleton] at hl
    subst hl
    rcases hcol with rfl | rfl | rfl
    · exact absurd (by simpa using hlc.symm) (uuid_ne y.1.2 y.2.1)
    · exact absurd (List.singleton_inj.1 hlc).symm hne
    · rcases joinItem_inv hy with ⟨hit, k', hk', hkn, hty⟩ | ⟨hit, hm, hid, hty⟩
      · have hn : y.1 ∈ typeClasses f.ty := by
          rcases hrl with e | e <;> rw [e, hit] <;> simp [typeClasses]
        obtain ⟨c', hc', hcn⟩ := hw.closed c hc f hf _ hn
        have hkn' := hw.known c' hc'
        rw [hcn] at hkn'
        rw [hkn'] at hk'
        simp only [Option.bind_some] at hk'
        refine ⟨.entity y.1, ?_, hrr, c', k', hkn', hk', hty⟩
        rw [← hcn]
        exact .entity c' hc' (by simp [hk'])
      · refine ⟨.enum y.1, .enumeration c hc hk f hf y.1 hm ?_, hrr, hty⟩
        rcases hrl with e | e <;> rw [e, hit] <;> simp
  · split at hx
    · cases hx
    · simp only [List.mem_singleton] at hx
      subst hx
      cases hl

theorem built_typed (hw : WellFormed defs refs) (hcc : NoColumnClash o defs refs) {s : TableSource} {tb : Table}
    (h : Built o defs depth refs s tb) : ∀ x ∈ tb.constraints.items, ∀ l ∈ links x, ∀ col ∈ tb.columns.items,
      l.1 = [col.name] → TypedTarget o defs depth refs l.2 col.ty := by
  cases s with
  | entity n =>
    obtain ⟨c, hc, rfl, hk, hb⟩ := h
    exact entity_typed hw hc hk hb
  | enum n =>
    obtain ⟨e, he, hb⟩ := h
    intro x hx l hl
    rw [(enumTable_inv hb).2.2.2 x hx] at hl
    cases hl
  | join owner f i =>
    obtain ⟨c, hc, rfl, hk, fd, hf, rfl, isList, item, hr, hi, hb⟩ := h
    exact join_typed hw hcc hc hk hf hr hb

theorem enum_id {e : EnumDecl} {tb : Table} (h : o.enumTable defs depth e = .ok tb)
    (hcc : ∀ fields, e.kind = .struct fields → ∀ f ∈ fields, f.name ≠ t "id") : ∀ col ∈ tb.columns.items, col.name = t "id" → col.ty = o.enumKeyType := by
  intro col hcol hn
  unfold ConvOptions.enumTable at h
  rw [bind_ok] at h
  obtain ⟨name, h1, h2⟩ := h
  dsimp only at h2
  have hv : (t "value") ≠ t "id" := by decide
  cases hk : e.kind with
  | int =>
    rw [hk] at h2
    simp only [bind_ok, pure_ok] at h2
    obtain ⟨label, _, rfl⟩ := h2
    have := of_mem_ofList hcol
    simp only [List.mem_cons, List.not_mem_nil, or_false] at this
    rcases this with rfl | rfl
    · rfl
    · exact absurd hn hv
  | str =>
    rw [hk] at h2
    simp only [bind_ok, pure_ok] at h2
    obtain ⟨label, _, rfl⟩ := h2
    have := of_mem_ofList hcol
    simp only [List.mem_cons, List.not_mem_nil, or_false] at this
    rcases this with rfl | rfl
    · rfl
    · exact absurd hn hv
  | struct fields =>
    rw [hk] at h2
    simp only [bind_ok, pure_ok] at h2
    obtain ⟨cols, hcols, rfl⟩ := h2
    have := of_mem_ofList hcol
    rcases List.mem_cons.1 this with rfl | this
    · rfl
    · obtain ⟨f, hf, hm⟩ := mapM_back hcols col this
      unfold ConvOptions.memberColumn at hm
      simp only [bind_ok, pure_ok] at hm
      obtain ⟨_, _, rfl⟩ := hm
      exact absurd hn (hcc fields hk f hf)
  | empty => rw [hk] at h2; cases h2
  | mixed => rw [hk] at h2; cases h2
  | other => rw [hk] at h2; cases h2

/-- The key column of a table has the type of the key. -/
theorem key_typed (hw : WellFormed defs refs) (hcc : NoColumnClash o defs refs) {s : TableSource} {tb : Table} (h : Built o defs depth refs s tb)
    {ty : SqlType} (hty : KeyType o defs depth s ty) : ∀ col ∈ tb.columns.items, col.name = keyOf defs s → col.ty = ty := by
  intro col hcol hn
  cases s with
  | entity n =>
    obtain ⟨c, hc, rfl, hk, hb⟩ := h
    obtain ⟨columns, _, _, _, _, _, _, k, h1, _, _, _, _, _, _, hk, rfl⟩ := dataclassTable_inv hb
    obtain ⟨c', k', hc', hk', hm⟩ := hty
    rw [hw.known c hc] at hc'
    cases hc'
    rw [hk] at hk'
    cases hk'
    have hkf : k ∈ c.fields := by unfold ClassDecl.key at hk; exact List.mem_of_find?_eq_some hk
    have hname : col.name = k.name := by rw [hn]; simp [keyOf, hw.known c hc, hk]
    have := column_type hw hc h1 hkf hcol hname
    rw [hm] at this
    exact (Except.ok.inj this).symm
  | enum n =>
    obtain ⟨e, he, hb⟩ := h
    rw [show ty = o.enumKeyType from hty]
    exact enum_id hb (fun fields hf => hcc.enums n e fields he hf) col hcol hn
  | join _ _ _ => exact hty.elim

end C32

/-- **C32**, types: a column that refers to a key has the same data type as the key, if no two columns of a table get the same name. -/
theorem C32_types (o : ConvOptions) (defs : PyDefs) (depth : Nat) (topo : List ClassDecl → Except Err (List ClassDecl)) (refs : List ClassDecl)
    (enumRefs : List EnumDecl) (C : Catalog) (hw : WellFormed defs refs) (hn : NoClash o defs refs) (hcc : NoColumnClash o defs refs)
    (h : o.toCatalog defs depth topo refs enumRefs = .ok C) : SameTypes C := by
  intro s tb htb c hc l hl tb' hto col hcol col' hcol' h1 h2
  have hcat := C32.catalog_tables hw hn h
  obtain ⟨_, _, _, _, _, hall, _⟩ := C32.toCatalog_inv h
  have hs := C32.scalar_keys hall
  obtain ⟨src, hm, hB, _⟩ := (hcat s tb).1 htb
  obtain ⟨src', hm', hq, hkt⟩ := C32.built_typed hw hcc hB c hc l hl col hcol h1
  obtain ⟨hin, hname, hpk⟩ := hto
  obtain ⟨src'', hm'', hB', _⟩ := (hcat _ tb').1 hin
  have hq' := C32.built_name hB'
  rw [hname] at hq'
  cases hn.tables src' src'' hm' hm'' _ _ hq hq' rfl
  refine (C32.key_typed hw hcc hB' hkt col' hcol' ?_).symm
  rw [(C32.built_key hw hs hB').1, h2] at hpk
  simpa using hpk

/-- The hypotheses of the theorems are met, for every engine, by a program with two modules, self-references, unions of entities, lists and
    sets of entities, and both kinds of enumerations. -/
example (e : Engine) : ∃ C, (Program.opts e Program.gen0).toCatalog Program.defs0 10 .ok Program.refs0 Program.enums0 = .ok C ∧
    KeysResolve C ∧ SameTypes C := by
  obtain ⟨C, h⟩ := Program.accepted0 e
  exact ⟨C, h, C32_resolves _ _ _ _ _ _ C Program.wf0 (Program.noClash0 e) h,
    C32_types _ _ _ _ _ _ C Program.wf0 (Program.noClash0 e) (Program.columns0 _) h⟩

/-- The tables of the program for SQL Server, where enumerations become relations. -/
example : ((Program.catalog .mssql Program.gen0 Program.defs0 Program.refs0 Program.enums0).map (fun C =>
    C.namespaces.items.map (fun n => (String.ofList n.name, n.tables.items.map (fun tb => (String.ofList tb.name.key.2, tb.constraints.items.length))))))
    = some [("crm", [("Company", 0), ("Person", 3), ("Country", 1)]),
      ("shop", [("Order", 2), ("Product", 1), ("Status", 1), ("Order_items_Product", 2), ("Order_labels_Person", 3)])] := by decide +kernel

namespace C32

/-- Classes `A` with a field `b: list[B]`, `B`, `A_b_B`, and `D` with a field of type `A_b_B`. -/
def clashing : List ClassDecl := [
  { name := (t "m", t "A"), fields := [{ name := t "id", ty := .prim .int64, primary := true }, { name := t "b", ty := .list (.cls (t "m", t "B")) }] },
  { name := (t "m", t "B"), fields := [{ name := t "id", ty := .prim .int64, primary := true }] },
  { name := (t "m", t "A_b_B"), fields := [{ name := t "id", ty := .prim .int64, primary := true }] },
  { name := (t "m", t "D"), fields := [{ name := t "id", ty := .prim .int64, primary := true }, { name := t "r", ty := .cls (t "m", t "A_b_B") }] }]

end C32

/-- A join table replaces the table of a class that has the same name, without any error; references to that class do not resolve. -/
theorem C32_name_clash_fails : ∃ (o : ConvOptions) (defs : PyDefs) (refs : List ClassDecl) (C : Catalog),
    WellFormed defs refs ∧ o.toCatalog defs 10 .ok refs [] = .ok C ∧ ¬ KeysResolve C := by
  obtain ⟨C, h⟩ := Program.ok_of_toOption (x := (Program.opts .postgresql Program.gen0).toCatalog ⟨C32.clashing, []⟩ 10 .ok C32.clashing [])
    (by decide +kernel)
  refine ⟨Program.opts .postgresql Program.gen0, ⟨C32.clashing, []⟩, C32.clashing, C, Program.wellFormedB_ok (by decide +kernel), h, ?_⟩
  intro hres
  have hC : Program.catalog .postgresql Program.gen0 ⟨C32.clashing, []⟩ C32.clashing [] = some C := by
    unfold Program.catalog; rw [h]; rfl
  have hbad : (Program.catalog .postgresql Program.gen0 ⟨C32.clashing, []⟩ C32.clashing []).any (fun C =>
      C.namespaces.items.any (fun n => n.tables.items.any (fun tb => tb.constraints.items.any (fun c => (links c).any (fun l =>
        C.namespaces.items.all (fun n' => n'.tables.items.all (fun tb' => decide (tb'.name = l.2.table → tb'.primaryKey ≠ l.2.columns)))))))) = true := by
    decide +kernel
  rw [hC] at hbad
  simp only [Option.any_some, List.any_eq_true, List.all_eq_true, decide_eq_true_eq] at hbad
  obtain ⟨n, hn, tb, htb, c, hc, l, hl, hall⟩ := hbad
  obtain ⟨_, tb', ⟨n', hn', _, htb'⟩, hname, hpk⟩ := hres.other n.name tb ⟨n, hn, rfl, htb⟩ c hc l hl
  exact hall n' hn' tb' htb' hname hpk.symm

end PySqlSync
