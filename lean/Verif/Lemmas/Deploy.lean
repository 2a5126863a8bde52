/-
Lemmas for C47: where the types of generated columns come from, and what generated tables contain.
-/
import Verif.Spec.Deploy
import Verif.Props.C35

set_option autoImplicit false
set_option linter.unusedSectionVars false
set_option linter.unusedSimpArgs false

namespace PySqlSync
open Spec

namespace Dep
open Conv

variable {o : ConvOptions} {defs : PyDefs} {depth : Nat} {refs : List ClassDecl} {enumRefs : List EnumDecl} {d : Dialect}

theorem isField {m : Text} {f : FieldDecl} (h : FieldIn o defs refs m f) : IsField o defs refs f := by
  rcases h with ⟨c, hc, _, hf⟩ | ⟨n, e, fields, h1, _, h2, h3, h4⟩
  · exact .inl ⟨c, hc, hf⟩
  · exact .inr ⟨n, e, fields, h1, h2, h3, h4⟩

/-! ### Types -/

mutual
theorem refs_user : ∀ {ty : SqlType} {k : Key}, k ∈ ty.refs → ∃ q ∈ userTypes ty, q.isGlobal = false ∧ q.key = k
  | .user q, k, h => by
    simp only [SqlType.refs] at h
    split at h
    · cases h
    · rename_i hg
      rw [List.mem_singleton] at h
      exact ⟨q, by simp [userTypes], by simpa using hg, h.symm⟩
  | .array e, k, h => by simp only [SqlType.refs] at h; simpa [userTypes] using refs_user h
  | .struct fs, k, h => by simp only [SqlType.refs] at h; simpa [userTypes] using fields_user h
  | .boolean .., k, h | .integer .., k, h | .real .., k, h | .double .., k, h | .float .., k, h | .decimal .., k, h
  | .timestamp .., k, h | .date .., k, h | .time .., k, h | .interval .., k, h | .fixedChar .., k, h | .varChar .., k, h
  | .fixedBinary .., k, h | .varBinary .., k, h | .uuid, k, h | .json .., k, h | .enum .., k, h => by simp [SqlType.refs] at h
theorem fields_user : ∀ {fs : StructFields} {k : Key}, k ∈ fs.refs → ∃ q ∈ structUserTypes fs, q.isGlobal = false ∧ q.key = k
  | .nil, k, h => by simp [StructFields.refs] at h
  | .cons _ ty _ rest, k, h => by
    simp only [StructFields.refs, List.mem_append] at h
    rcases h with h | h
    · obtain ⟨q, h1, h2⟩ := refs_user h
      exact ⟨q, by simp [structUserTypes, h1], h2⟩
    · obtain ⟨q, h1, h2⟩ := fields_user h
      exact ⟨q, by simp [structUserTypes, h1], h2⟩
end

theorem compatible_mem {ts : List SqlType} {r : SqlType} (h : compatibleType ts = .ok r) {q : QId} (hq : q ∈ userTypes r) : r ∈ ts := by
  have two : ∀ {a b r : SqlType}, compatible2 a b = .ok r → q ∈ userTypes r → r = a := by
    intro a b r h hq
    unfold compatible2 at h
    split at h
    · cases h; rfl
    · split at h <;> (try split at h) <;> cases h <;> simp [userTypes] at hq
  cases ts with
  | nil => cases h
  | cons ty rest =>
    suffices r = ty by rw [this]; exact List.mem_cons_self ..
    change rest.foldlM compatible2 ty = .ok r at h
    induction rest generalizing ty with
    | nil => cases h; rfl
    | cons b rest ih =>
      rw [List.foldlM_cons] at h
      obtain ⟨x, hx, h⟩ := bind_ok.1 h
      have := ih x h
      subst this
      exact two hx hq

theorem primType_plain (hs : C34.PlainSubst o) {p : Prim} {q : QId} (h : q ∈ userTypes (o.primType p)) : q.isGlobal = true := by
  obtain ⟨x, rfl⟩ := C34.primType_user hs p q h
  rfl

/-- Where a user-defined type in the type of a member comes from. -/
def Origin (o : ConvOptions) (defs : PyDefs) (refs : List ClassDecl) (ty : PyType) (r : SqlType) (q : QId) : Prop :=
  (r = .user q ∨ ∃ n ∈ itemNames defs ty, o.qualifiedId n = .ok q) ∧
  ((o.enumMode = .type ∧ ∃ n, (n ∈ typeEnums ty ∨ ∃ c ∈ refs, ∃ k, c.key = some k ∧ n ∈ typeEnums k.ty) ∧ o.qualifiedId n = .ok q) ∨
   ∃ n ∈ typeClasses ty, o.qualifiedId n = .ok q)

theorem enum_origin (hs : C34.PlainSubst o) {e : EnumDecl} {r : SqlType} (h : o.enumType e = .ok r) {q : QId} (hq : q ∈ userTypes r)
    (hg : q.isGlobal = false) : r = .user q ∧ o.enumMode = .type ∧ o.qualifiedId e.name = .ok q := by
  rcases C34.enum_user hs h q hq with ⟨x, rfl⟩ | ⟨hm, hqe⟩
  · cases hg
  · refine ⟨?_, hm, hqe⟩
    unfold ConvOptions.enumType at h
    cases hk : e.kind <;> rw [hk] at h <;> simp [hm, hqe, bind, Except.bind, pure, Except.pure] at h <;> exact h.symm

theorem simple_origin (hs : C34.PlainSubst o) {ty : PyType} {r : SqlType} (h : o.simpleType defs ty = .ok r) {q : QId} (hq : q ∈ userTypes r)
    (hg : q.isGlobal = false) : r = .user q ∧ o.enumMode = .type ∧ ∃ n e, ty = .enum n ∧ defs.enum n = some e ∧ o.qualifiedId n = .ok q := by
  unfold ConvOptions.simpleType at h
  split at h
  · cases h; rw [primType_plain hs hq] at hg; cases hg
  · obtain ⟨x, rfl⟩ := C34.annotated_user hs h q hq; cases hg
  · rename_i n
    cases he : defs.enum n with
    | none => rw [he] at h; cases h
    | some e =>
      rw [he] at h
      obtain ⟨h1, h2, h3⟩ := enum_origin hs h hq hg
      rw [C32.enum_name he] at h3
      exact ⟨h1, h2, n, e, rfl, he, h3⟩
  · cases h

theorem array_origin (hs : C34.PlainSubst o) {item : PyType} {r : SqlType} (h : o.arrayType defs item = .ok r) {q : QId} (hq : q ∈ userTypes r)
    (hg : q.isGlobal = false) (ho : hasOther item = false) {ty : PyType} (hty : ty = .list item ∨ ty = .set item) : Origin o defs refs ty r q := by
  unfold ConvOptions.arrayType at h
  split at h
  · split at h
    · simp only [bind_ok, pure_ok] at h
      obtain ⟨ty', hty', rfl⟩ := h
      obtain ⟨h1, h2, n, e, rfl, he, hn⟩ := simple_origin hs hty' (by simpa [userTypes] using hq) hg
      refine ⟨.inr ⟨n, ?_, hn⟩, .inl ⟨h2, n, .inl ?_, hn⟩⟩
      · rcases hty with rfl | rfl <;> simp [itemNames]
      · rcases hty with rfl | rfl <;> simp [typeEnums]
    · cases h; rw [primType_plain hs hq] at hg; cases hg
    · cases h
  · split at h
    · cases h
    · rename_i hent
      cases item with
      | cls n =>
        dsimp only at h
        split at h
        · simp only [bind_ok, pure_ok] at h
          obtain ⟨q', hq', rfl⟩ := h
          simp only [userTypes, List.mem_singleton] at hq
          subst hq
          refine ⟨.inr ⟨n, ?_, hq'⟩, .inr ⟨n, ?_, hq'⟩⟩
          · rcases hty with rfl | rfl <;> simp [itemNames, hent]
          · rcases hty with rfl | rfl <;> simp [typeClasses]
        · cases h; rw [primType_plain hs hq] at hg; cases hg
        · cases h
      | other n => simp [hasOther] at ho
      | prim _ => cases h
      | annotated _ _ => cases h
      | enum _ => cases h
      | list _ => cases h
      | set _ => cases h
      | literal _ => cases h
      | union _ => cases h

theorem mem_itemsNames {m : PyType} {n : PyName} (hn : n ∈ itemNames defs m) : ∀ {ms : PyTypes}, m ∈ ms.toList → n ∈ itemsNames defs ms
  | .nil, h => by cases h
  | .cons ty rest, h => by
    simp only [PyTypes.toList] at h
    simp only [itemsNames, List.mem_append]
    rcases List.mem_cons.1 h with rfl | h
    · exact .inl hn
    · exact .inr (mem_itemsNames hn h)

theorem hasOther_member {m : PyType} : ∀ {ms : PyTypes}, someOther ms = false → m ∈ ms.toList → hasOther m = false
  | .nil, _, h => by cases h
  | .cons ty rest, ho, h => by
    simp only [PyTypes.toList] at h
    simp only [someOther, Bool.or_eq_false_iff] at ho
    rcases List.mem_cons.1 h with rfl | h
    · exact ho.1
    · exact hasOther_member ho.2 h

/-- A key is a scalar. -/
def Keys (defs : PyDefs) (ty : PyType) (refs : List ClassDecl) : Prop :=
  (∀ n ∈ typeClasses ty, ∃ c ∈ refs, c.name = n ∧ defs.cls n = some c) ∧ ∀ c ∈ refs, ∀ k, c.key = some k → k.ty.isSimple = true

theorem simple_member {fuel : Nat} {ty : PyType} (h : ty.isSimple = true) {r : SqlType} (hm : o.memberType defs fuel ty = .ok r) :
    o.simpleType defs ty = .ok r := by
  cases fuel with
  | zero => simp [ConvOptions.memberType] at hm
  | succ fuel => cases ty <;> simp [PyType.isSimple] at h <;> simpa [ConvOptions.memberType] using hm

theorem simple_key (hs : C34.PlainSubst o) {fuel : Nat} {ty ty' : PyType} (h : ty.isSimple = true) {r : SqlType} (hm : o.memberType defs fuel ty = .ok r)
    {q : QId} (hq : q ∈ userTypes r) (hg : q.isGlobal = false) (hk : ty' = ty ∨ ∃ c ∈ refs, ∃ k, c.key = some k ∧ k.ty = ty) : Origin o defs refs ty' r q := by
  obtain ⟨h1, h2, n, e, rfl, he, hn⟩ := simple_origin hs (simple_member h hm) hq hg
  refine ⟨.inl h1, .inl ⟨h2, n, ?_, hn⟩⟩
  rcases hk with rfl | ⟨c, hc, k, hk, hkt⟩
  · exact .inl (by simp [typeEnums])
  · exact .inr ⟨c, hc, k, hk, by simp [hkt, typeEnums]⟩

theorem mem_typesEnums {m : PyType} {n : PyName} (hn : n ∈ typeEnums m) : ∀ {ms : PyTypes}, m ∈ ms.toList → n ∈ typesEnums ms
  | .nil, h => by cases h
  | .cons ty rest, h => by
    simp only [PyTypes.toList] at h
    simp only [typesEnums, List.mem_append]
    rcases List.mem_cons.1 h with rfl | h
    · exact .inl hn
    · exact .inr (mem_typesEnums hn h)

theorem member_origin (hs : C34.PlainSubst o) (hi : o.structMode ≠ .inline) : ∀ (fuel : Nat) {ty : PyType} {r : SqlType}, Keys defs ty refs →
    hasOther ty = false → o.memberType defs fuel ty = .ok r → ∀ q ∈ userTypes r, q.isGlobal = false → Origin o defs refs ty r q
  | 0, _, _, _, _, h => by simp [ConvOptions.memberType] at h
  | fuel + 1, ty, r, hk, ho, h => by
    intro q hq hg
    have h0 := h
    unfold ConvOptions.memberType at h
    cases ty with
    | prim p => exact simple_key hs (by rfl) h0 hq hg (.inl rfl)
    | annotated p ms => exact simple_key hs (by rfl) h0 hq hg (.inl rfl)
    | enum n => exact simple_key hs (by rfl) h0 hq hg (.inl rfl)
    | other n => simp [hasOther] at ho
    | literal vs =>
      dsimp only at h
      obtain ⟨ty, hty, hq'⟩ := C34.compatible_user h q hq
      obtain ⟨v, _, rfl⟩ := List.mem_map.1 hty
      simp [userTypes] at hq'
    | list item => exact array_origin hs h hq hg (by simpa [hasOther] using ho) (.inl rfl)
    | set item => exact array_origin hs h hq hg (by simpa [hasOther] using ho) (.inr rfl)
    | cls n =>
      dsimp only at h
      obtain ⟨c, hc, hcn, hdc⟩ := hk.1 n (by simp [typeClasses])
      rw [hdc] at h
      dsimp only at h
      cases hkey : c.key with
      | some k => rw [hkey] at h; exact simple_key hs (hk.2 c hc k hkey) h hq hg (.inr ⟨c, hc, k, hkey, rfl⟩)
      | none =>
        rw [hkey] at h
        dsimp only at h
        split at h
        · simp only [bind_ok, pure_ok] at h
          obtain ⟨q', hq', rfl⟩ := h
          simp only [userTypes, List.mem_singleton] at hq
          subst hq
          exact ⟨.inl rfl, .inr ⟨n, by simp [typeClasses], hq'⟩⟩
        · rename_i hm; exact absurd hm hi
        · cases h; rw [primType_plain hs hq] at hg; cases hg
    | union ms =>
      dsimp only at h
      have hmem : ∀ m ∈ ms.toList, Keys defs m refs ∧ hasOther m = false := by
        intro m hm
        refine ⟨⟨fun n hn => hk.1 n ?_, hk.2⟩, hasOther_member (by simpa [hasOther] using ho) hm⟩
        simp only [typeClasses]
        exact C32.mem_typesClasses hn hm
      cases hx : (PyType.union ms).isExtensible with
      | true => rw [hx] at h; cases h; rw [primType_plain hs hq] at hg; cases hg
      | false =>
        rw [hx] at h
        simp only [Bool.false_eq_true, if_false] at h
        split at h
        · rename_i hall
          split at h
          · rename_i kty hkt
            have hkm : kty ∈ defs.keyTypes ms.toList := C36.mem_eraseDups.1 (by rw [hkt]; exact List.mem_cons_self ..)
            unfold PyDefs.keyTypes at hkm
            obtain ⟨m, hm, he⟩ := List.mem_filterMap.1 hkm
            obtain ⟨n, c, rfl, hdc, hck⟩ := C32.entity_inv (List.all_eq_true.1 hall m hm)
            obtain ⟨c', hc', _, hdc'⟩ := (hmem _ hm).1.1 n (by simp [typeClasses])
            rw [hdc] at hdc'
            cases hdc'
            cases hkey : c.key with
            | none => rw [hkey] at hck; cases hck
            | some k =>
              simp [hdc, hkey] at he
              subst he
              exact simple_key hs (hk.2 c hc' k hkey) h hq hg (.inr ⟨c, hc', k, hkey, rfl⟩)
          · cases h
        · obtain ⟨types, htypes, h⟩ := bind_ok.1 h
          split at h
          · rename_i r' hr'
            cases h
            have hmem' := compatible_mem hr' hq
            obtain ⟨m, hm, hmt⟩ := mapM_back htypes r hmem'
            obtain ⟨h1, h2⟩ := member_origin hs hi fuel (hmem m hm).1 (hmem m hm).2 hmt q hq hg
            refine ⟨?_, ?_⟩
            · rcases h1 with h1 | ⟨n, hn, hqn⟩
              · exact .inl h1
              · exact .inr ⟨n, by simp only [itemNames]; exact mem_itemsNames hn hm, hqn⟩
            · rcases h2 with ⟨h2, n, hn, hqn⟩ | ⟨n, hn, hqn⟩
              · refine .inl ⟨h2, n, ?_, hqn⟩
                rcases hn with hn | hn
                · left
                  simp only [typeEnums, hx, Bool.false_eq_true, if_false]
                  exact mem_typesEnums hn hm
                · exact .inr hn
              · exact .inr ⟨n, by simp only [typeClasses]; exact C32.mem_typesClasses hn hm, hqn⟩
          · cases h

/-! ### Columns -/

/-- Where the column of a generated table comes from. -/
theorem built_column (hw : WellFormed defs refs) {s : TableSource} (hs : Makes o defs refs s) {tb : Table} (h : C32.Built o defs depth refs s tb)
    {col : Column} (hcol : col ∈ tb.columns.items) :
    (∃ f, FieldIn o defs refs s.pyName.1 f ∧ o.memberColumn defs depth f = .ok col) ∨
    (col.default = none ∧ col.nullable = false ∧
      ((∃ p, col.ty = o.primType p) ∨ (∃ p ms, o.annotatedType p ms = .ok col.ty) ∨
       ∃ c ∈ refs, ∃ k, c.key = some k ∧ o.memberType defs depth k.ty = .ok col.ty) ∧
      (col.name = t "id" ∨ col.name = t "value" ∨ col.name = t "uuid" ∨
       (∃ c ∈ refs, ∃ f ∈ c.fields, col.name = c.name.2 ++ t "_" ++ f.name) ∨
       (∃ n, Makes o defs refs (.enum n) ∧ col.name = n.2 ++ t "_" ++ t "id"))) := by
  cases s with
  | entity n =>
    obtain ⟨c, hc, rfl, hk, hb⟩ := h
    obtain ⟨columns, _, _, _, _, _, _, k, h1, _, _, _, _, _, _, hk, rfl⟩ := C32.dataclassTable_inv hb
    obtain ⟨f, hf, hb⟩ := mapM_back h1 col (of_mem_ofList hcol)
    exact .inl ⟨f, .inl ⟨c, hc, rfl, (List.mem_filter.1 hf).1⟩, hb⟩
  | enum n =>
    obtain ⟨e, he, hb⟩ := h
    unfold ConvOptions.enumTable at hb
    simp only [bind_ok] at hb
    obtain ⟨name, hname, hb⟩ := hb
    cases hk : e.kind with
    | int =>
      rw [hk] at hb
      simp only [bind_ok, pure_ok] at hb
      obtain ⟨label, hl, rfl⟩ := hb
      have := of_mem_ofList hcol
      simp only [List.mem_cons, List.not_mem_nil, or_false] at this
      rcases this with rfl | rfl
      · exact .inr ⟨rfl, rfl, .inl ⟨_, rfl⟩, .inl rfl⟩
      · exact .inr ⟨rfl, rfl, .inr (.inl ⟨_, _, hl⟩), .inr (.inl rfl)⟩
    | str =>
      rw [hk] at hb
      simp only [bind_ok, pure_ok] at hb
      obtain ⟨label, hl, rfl⟩ := hb
      have := of_mem_ofList hcol
      simp only [List.mem_cons, List.not_mem_nil, or_false] at this
      rcases this with rfl | rfl
      · exact .inr ⟨rfl, rfl, .inl ⟨_, rfl⟩, .inl rfl⟩
      · exact .inr ⟨rfl, rfl, .inr (.inl ⟨_, _, hl⟩), .inr (.inl rfl)⟩
    | struct fields =>
      rw [hk] at hb
      simp only [bind_ok, pure_ok] at hb
      obtain ⟨cols, hcols, rfl⟩ := hb
      rcases List.mem_cons.1 (of_mem_ofList hcol) with rfl | hc
      · exact .inr ⟨rfl, rfl, .inl ⟨_, rfl⟩, .inl rfl⟩
      · obtain ⟨f, hf, hb⟩ := mapM_back hcols col hc
        exact .inl ⟨f, .inr ⟨n, e, fields, hs, rfl, he, hk, hf⟩, hb⟩
    | empty => rw [hk] at hb; cases hb
    | mixed => rw [hk] at hb; cases hb
    | other => rw [hk] at hb; cases hb
  | join owner f i =>
    obtain ⟨c, hc, rfl, hkc, fd, hf, rfl, isList, item, hr, hi, hb⟩ := h
    obtain ⟨k, x, lt, _, _, _, _, hk, hx, hlt, _, _, _, h1, rfl⟩ := C32.joinTable_inv hb
    have := of_mem_ofList hcol
    simp only [List.mem_cons, List.not_mem_nil, or_false] at this
    rcases this with rfl | rfl | rfl
    · exact .inr ⟨rfl, rfl, .inl ⟨_, rfl⟩, .inr (.inr (.inl rfl))⟩
    · exact .inr ⟨rfl, rfl, .inr (.inr ⟨c, hc, k, hk, hlt⟩), .inr (.inr (.inr (.inl ⟨c, hc, fd, hf, rfl⟩)))⟩
    · rcases C32.joinItem_inv hx with ⟨hit, k', hk', hkn, hty⟩ | ⟨hit, hm, hid, hty⟩
      · have hmem : x.1 ∈ typeClasses fd.ty := by
          rcases (C32.relationship_inv hr).1 with h | h <;> simp [h, hit, typeClasses]
        obtain ⟨c'', hc'', hcn⟩ := hw.closed c hc fd hf x.1 hmem
        have hkn' := hw.known c'' hc''
        rw [hcn] at hkn'
        rw [hkn'] at hk'
        have hk' : c''.key = some k' := hk'
        have hkf : k' ∈ c''.fields := by unfold ClassDecl.key at hk'; exact List.mem_of_find?_eq_some hk'
        refine .inr ⟨rfl, rfl, .inr (.inr ⟨c'', hc'', k', hk', hty⟩), .inr (.inr (.inr (.inl ⟨c'', hc'', k', hkf, ?_⟩)))⟩
        rw [hcn, hkn]
      · refine .inr ⟨rfl, rfl, .inl ⟨_, hty⟩, .inr (.inr (.inr (.inr ⟨x.1, ?_, by rw [hid]⟩)))⟩
        refine .enumeration c hc hkc fd hf x.1 hm ?_
        rcases (C32.relationship_inv hr).1 with h | h <;> simp [h, hit]

/-! ### The parts of a namespace -/

section
variable {topo : List ClassDecl → Except Err (List ClassDecl)} {C : Catalog}

theorem names_distinct (h : o.toCatalog defs depth topo refs enumRefs = .ok C) : C.namespaces.Inv := by
  obtain ⟨_, _, _, _, _, _, ⟨_, nss, _, rfl⟩ | ⟨_, rfl⟩⟩ := C32.toCatalog_inv h
  · exact ODict.ofList_inv _
  · exact ODict.ofList_inv _

/-- How a namespace is made. -/
theorem ns_made (h : o.toCatalog defs depth topo refs enumRefs = .ok C) {n : Namespace} (hn : n ∈ C.namespaces.items) :
    ∃ enums structs tables, o.allEnums enumRefs = .ok enums ∧ o.allStructs defs depth topo refs = .ok structs ∧ o.allTables defs depth refs = .ok tables ∧
      ((o.qualified = true ∧ ∃ m s, HasTable o defs refs m ∧ o.mapping m = .ok s ∧ n.name = s.getD [] ∧ n.enums = ODict.ofList (ofModule m enums) ∧
          n.structs = ODict.ofList (ofModule m structs) ∧ n.tables = ODict.ofList (ofModule m tables)) ∨
       (o.qualified = false ∧ n.name = [] ∧ n.enums = ODict.ofList (byModule enums) ∧ n.structs = ODict.ofList (byModule structs) ∧
          n.tables = ODict.ofList (byModule tables))) := by
  obtain ⟨enums, structs, tables, h1, h2, h3, ⟨hq, nss, h5, rfl⟩ | ⟨hq, rfl⟩⟩ := C32.toCatalog_inv h
  · refine ⟨enums, structs, tables, h1, h2, h3, .inl ⟨hq, ?_⟩⟩
    obtain ⟨m, hm, hb⟩ := mapM_back h5 n (of_mem_ofList hn)
    obtain ⟨s, hs, h6, h7, h8, h9⟩ := C32.moduleNamespace_inv hb
    rw [C36.mem_eraseDups, List.mem_map] at hm
    obtain ⟨⟨m', tb⟩, hm, rfl⟩ := hm
    obtain ⟨src, hsrc, _, e⟩ := C32.allTables_back h3 hm
    exact ⟨m', s, ⟨src, hsrc, e.symm⟩, hs, h6, h7, h8, h9⟩
  · have := of_mem_ofList hn
    rw [List.mem_singleton] at this
    subst this
    exact ⟨enums, structs, tables, h1, h2, h3, .inr ⟨hq, rfl, rfl, rfl, rfl⟩⟩

theorem ns_distinct (h : o.toCatalog defs depth topo refs enumRefs = .ok C) {n : Namespace} (hn : n ∈ C.namespaces.items) :
    n.enums.Inv ∧ n.structs.Inv ∧ n.tables.Inv := by
  obtain ⟨_, _, _, _, _, _, ⟨_, _, _, _, _, _, h1, h2, h3⟩ | ⟨_, _, h1, h2, h3⟩⟩ := ns_made h hn <;> rw [h1, h2, h3] <;>
    exact ⟨ODict.ofList_inv _, ODict.ofList_inv _, ODict.ofList_inv _⟩

/-- The enumeration types of a namespace. -/
theorem ns_enum (hd : TypesDeclared o defs refs enumRefs) (h : o.toCatalog defs depth topo refs enumRefs = .ok C) {n : Namespace}
    (hn : n ∈ C.namespaces.items) {et : EnumType} (he : et ∈ n.enums.items) :
    o.enumMode = .type ∧ ∃ e ∈ enumRefs, 2 ≤ e.labels.length ∧ HasTable o defs refs e.name.1 ∧ o.qualifiedId e.name = .ok et.name ∧
      et.values = e.labels ∧ et.name.key.1 = n.name := by
  obtain ⟨enums, structs, tables, h1, h2, h3, h4⟩ := ns_made h hn
  have hm : o.enumMode = .type := by
    refine Classical.byContradiction fun hm => ?_
    unfold ConvOptions.allEnums at h1
    rw [if_neg hm] at h1
    cases h1
    rcases h4 with ⟨_, m, s, _, _, _, h5, _⟩ | ⟨_, _, h5, _⟩
    · rw [h5] at he; cases C32.mem_ofModule.1 (of_mem_ofList he)
    · rw [h5] at he; obtain ⟨_, hx⟩ := C32.mem_byModule.1 (of_mem_ofList he); cases hx
  have hq := hd.qualified (.inl hm)
  rcases h4 with ⟨_, m, s, hmt, hms, hnn, h5, _⟩ | ⟨hq', _⟩
  · rw [h5] at he
    obtain ⟨e, he', h2', rfl, s', hs', rfl⟩ := (C34.allEnums_iff hm h1).1 (C32.mem_ofModule.1 (of_mem_ofList he))
    rw [hms] at hs'
    cases hs'
    refine ⟨hm, e, he', h2', hmt, ?_, rfl, ?_⟩
    · simp [ConvOptions.qualifiedId, hms, hq, bind, Except.bind, pure, Except.pure]
    · rw [hnn]; rfl
  · rw [hq] at hq'; cases hq'

/-- The struct types of a namespace. -/
theorem ns_struct (hd : TypesDeclared o defs refs enumRefs) (htopo : ∀ l l', topo l = .ok l' → l'.Perm l)
    (h : o.toCatalog defs depth topo refs enumRefs = .ok C) {n : Namespace}
    (hn : n ∈ C.namespaces.items) {st : StructType} (he : st ∈ n.structs.items) :
    o.structMode = .type ∧ ∃ c ∈ refs, c.isStruct = true ∧ HasTable o defs refs c.name.1 ∧ o.qualifiedId c.name = .ok st.name ∧
      o.dataclassStruct defs depth c = .ok st ∧ st.name.key.1 = n.name := by
  obtain ⟨enums, structs, tables, h1, h2, h3, h4⟩ := ns_made h hn
  have hm : o.structMode = .type := by
    refine Classical.byContradiction fun hm => ?_
    unfold ConvOptions.allStructs at h2
    rw [if_neg hm] at h2
    cases h2
    rcases h4 with ⟨_, m, s, _, _, _, _, h5, _⟩ | ⟨_, _, _, h5, _⟩
    · rw [h5] at he; cases C32.mem_ofModule.1 (of_mem_ofList he)
    · rw [h5] at he; obtain ⟨_, hx⟩ := C32.mem_byModule.1 (of_mem_ofList he); cases hx
  have hq := hd.qualified (.inr hm)
  rcases h4 with ⟨_, m, s, hmt, hms, hnn, _, h5, _⟩ | ⟨hq', _⟩
  · rw [h5] at he
    obtain ⟨c, hc, hst, rfl, hb⟩ := (C34.allStructs_iff hm htopo h2).1 (C32.mem_ofModule.1 (of_mem_ofList he))
    have hb' := hb
    unfold ConvOptions.dataclassStruct at hb'
    simp only [bind_ok, pure_ok] at hb'
    obtain ⟨_, _, q, hqn, rfl⟩ := hb'
    refine ⟨hm, c, hc, hst, hmt, hqn, hb, ?_⟩
    obtain ⟨s', hs', rfl⟩ := C34.qualified_eq hq hqn
    rw [hms] at hs'
    cases hs'
    rw [hnn]; rfl
  · rw [hq] at hq'; cases hq'

/-- The tables of a namespace. -/
theorem ns_table (hw : WellFormed defs refs) (hn : NoClash o defs refs) (h : o.toCatalog defs depth topo refs enumRefs = .ok C) {n : Namespace}
    (hns : n ∈ C.namespaces.items) {tb : Table} (ht : tb ∈ n.tables.items) :
    ∃ s, Makes o defs refs s ∧ C32.Built o defs depth refs s tb ∧ tb.name.key.1 = n.name := by
  obtain ⟨s, h1, h2, h3⟩ := (C32.catalog_tables hw hn h n.name tb).1 ⟨n, hns, rfl, ht⟩
  exact ⟨s, h1, h2, h3.symm⟩

end

/-- Names of types and tables are told apart by their keys. -/
theorem same_name (hn : NoClash o defs refs) (hq : o.qualified = true) {a b : PyName} (ha : HasTable o defs refs a.1) (hb : HasTable o defs refs b.1)
    {qa qb : QId} (hqa : o.qualifiedId a = .ok qa) (hqb : o.qualifiedId b = .ok qb) (h : qa.key = qb.key) : a = b := by
  obtain ⟨sa, hsa, ka⟩ := (C32.qualified_key hqa).1 hq
  obtain ⟨sb, hsb, kb⟩ := (C32.qualified_key hqb).1 hq
  rw [ka, kb, Prod.mk.injEq] at h
  obtain ⟨ta, hta, ea⟩ := ha
  obtain ⟨tb, htb, eb⟩ := hb
  rw [← ea] at hsa
  rw [← eb] at hsb
  have := hn.schemas hq ta tb hta htb sa sb hsa hsb h.1
  exact Prod.ext (by rw [← ea, ← eb, this]) h.2

end Dep
end PySqlSync
