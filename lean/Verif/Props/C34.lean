/-
C34: user-defined types that generated columns refer to are created.
-/
import Verif.Props.C32
import Verif.Spec.UserTypes

set_option autoImplicit false
set_option linter.unusedSectionVars false
set_option linter.unusedSimpArgs false

namespace PySqlSync
open Spec

namespace C34
open Conv

variable {o : ConvOptions} {defs : PyDefs} {depth : Nat} {refs : List ClassDecl} {enumRefs : List EnumDecl}

/-- The substitutions of an engine refer to predefined types only. -/
def PlainSubst (o : ConvOptions) : Prop := ∀ p ty, o.substitution p = some ty → ∀ q ∈ userTypes ty, Predefined q

/-- A type for which the converter makes a definition. -/
def Declared (o : ConvOptions) (defs : PyDefs) (refs : List ClassDecl) (enumRefs : List EnumDecl) (q : QId) : Prop :=
  (∃ e ∈ enumRefs, o.enumMode = .type ∧ 2 ≤ e.labels.length ∧ HasTable o defs refs e.name.1 ∧ o.qualifiedId e.name = .ok q) ∨
  (∃ c ∈ refs, c.isStruct = true ∧ o.structMode = .type ∧ HasTable o defs refs c.name.1 ∧ o.qualifiedId c.name = .ok q)

/-- What is required of a type. -/
structure Good (o : ConvOptions) (defs : PyDefs) (refs : List ClassDecl) (enumRefs : List EnumDecl) (ty : PyType) : Prop where
  classes : ∀ n ∈ typeClasses ty, ∃ c ∈ refs, c.name = n
  enums : o.enumMode = .type → ∀ n ∈ typeEnums ty, (∃ e ∈ enumRefs, e.name = n ∧ 2 ≤ e.labels.length) ∧ HasTable o defs refs n.1
  arrays : o.arrayMode = .array → o.structMode ≠ .type → ∀ n ∈ listClasses ty, defs.isEntity (.cls n) = true
  others : hasOther ty = false

theorem good_field (hd : TypesDeclared o defs refs enumRefs) {f : FieldDecl} (hf : IsField o defs refs f) : Good o defs refs enumRefs f.ty :=
  ⟨hd.classes f hf, fun hm n hn => ⟨hd.enums hm f hf n hn, hd.enumModules hm f hf n hn⟩, fun h1 h2 => hd.arrays h1 h2 f hf, hd.others f hf⟩

theorem primType_user (hs : PlainSubst o) (p : Prim) : ∀ q ∈ userTypes (o.primType p), Predefined q := by
  intro q hq
  unfold ConvOptions.primType at hq
  cases h : o.substitution p with
  | some ty => rw [h] at hq; exact hs p ty h q hq
  | none =>
    rw [h] at hq
    cases p <;> dsimp only at hq <;> (try split at hq) <;> simp [userTypes] at hq <;> exact ⟨_, hq⟩

theorem parseMeta_user {ty ty' : SqlType} {m : Meta} (h : ty.parseMeta m = .ok ty') : userTypes ty' = [] := by
  unfold SqlType.parseMeta at h
  split at h <;> cases h <;> rfl

theorem parseMetas_user : ∀ {ms : List Meta} {b : Option SqlType} {r : SqlType}, parseMetas b ms = .ok (some r) →
    ∀ q ∈ userTypes r, ∃ ty, b = some ty ∧ q ∈ userTypes ty
  | [], b, r, h, q, hq => by simp only [parseMetas] at h; exact ⟨r, by cases h; rfl, hq⟩
  | m :: ms, b, r, h, q, hq => by
    unfold parseMetas at h
    split at h
    · cases ‹_ :: _ = []›
    · injection ‹_ :: _ = _ :: _› with _ e; subst e; exact parseMetas_user h q hq
    · cases h
    · rename_i ty m' rest _ hne e
      injection e with e1 e2
      subst e1 e2
      split at h
      · rename_i ty' hty
        obtain ⟨ty'', e, hq'⟩ := parseMetas_user h q hq
        cases e
        rw [parseMeta_user hty] at hq'
        cases hq'
      · cases h

theorem annotated_user (hs : PlainSubst o) {p : Prim} {ms : List Meta} {r : SqlType} (h : o.annotatedType p ms = .ok r) :
    ∀ q ∈ userTypes r, Predefined q := by
  intro q hq
  unfold ConvOptions.annotatedType at h
  split at h
  · rename_i ty hty
    cases h
    obtain ⟨b, hb, hq'⟩ := parseMetas_user hty q hq
    unfold ConvOptions.annotatedBase at hb
    cases hsub : o.substitution p with
    | some ty => rw [hsub] at hb; cases hb; exact hs p _ hsub q hq'
    | none =>
      rw [hsub] at hb
      cases p <;> simp at hb <;> subst hb <;> simp [userTypes] at hq'
  · cases h
  · cases h

theorem compatible2_user {a b r : SqlType} (h : compatible2 a b = .ok r) : ∀ q ∈ userTypes r, q ∈ userTypes a := by
  intro q hq
  unfold compatible2 at h
  split at h
  · cases h; exact hq
  · split at h <;> (try split at h) <;> cases h <;> simp [userTypes] at hq

theorem compatible_user {ts : List SqlType} {r : SqlType} (h : compatibleType ts = .ok r) : ∀ q ∈ userTypes r, ∃ ty ∈ ts, q ∈ userTypes ty := by
  intro q hq
  cases ts with
  | nil => cases h
  | cons ty rest =>
    refine ⟨ty, List.mem_cons_self .., ?_⟩
    change rest.foldlM compatible2 ty = .ok r at h
    induction rest generalizing ty with
    | nil => cases h; exact hq
    | cons b rest ih =>
      rw [List.foldlM_cons] at h
      obtain ⟨x, hx, h⟩ := bind_ok.1 h
      exact compatible2_user hx q (ih x h)

theorem enum_user (hs : PlainSubst o) {e : EnumDecl} {r : SqlType} (h : o.enumType e = .ok r) : ∀ q ∈ userTypes r,
    Predefined q ∨ (o.enumMode = .type ∧ o.qualifiedId e.name = .ok q) := by
  intro q hq
  unfold ConvOptions.enumType at h
  have rel : o.enumMode = .relation → .ok o.enumKeyType = (.ok r : Except Err SqlType) → Predefined q := by
    intro _ he
    cases he
    exact primType_user hs _ q hq
  have lab : ∀ k : EnumKind, (match o.enumMode with
      | .type => do pure (.user (← o.qualifiedId e.name))
      | .inline => .ok (.enum e.labels)
      | .relation => .ok o.enumKeyType
      | .check => if k = .int then .ok (o.primType .int) else o.labelType) = (.ok r : Except Err SqlType) →
      Predefined q ∨ (o.enumMode = .type ∧ o.qualifiedId e.name = .ok q) := by
    intro k h
    split at h
    · rename_i hm
      simp only [bind_ok, pure_ok] at h
      obtain ⟨q', hq', rfl⟩ := h
      simp only [userTypes, List.mem_singleton] at hq
      subst hq
      exact .inr ⟨hm, hq'⟩
    · cases h; simp [userTypes] at hq
    · rename_i hm; exact .inl (rel hm h)
    · split at h
      · cases h; exact .inl (primType_user hs _ q hq)
      · exact .inl (annotated_user hs h q hq)
  have oth : (if o.enumMode = .relation then .ok o.enumKeyType else .error .type) = (.ok r : Except Err SqlType) →
      Predefined q ∨ (o.enumMode = .type ∧ o.qualifiedId e.name = .ok q) := by
    intro h
    split at h
    · rename_i hm; exact .inl (rel hm h)
    · cases h
  cases hk : e.kind with
  | empty => rw [hk] at h; cases h
  | mixed => rw [hk] at h; cases h
  | int => rw [hk] at h; exact lab .int h
  | str => rw [hk] at h; exact lab .str h
  | struct _ => rw [hk] at h; exact oth h
  | other => rw [hk] at h; exact oth h

theorem simple_user (hs : PlainSubst o) (hd : TypesDeclared o defs refs enumRefs) {ty : PyType} (hg : Good o defs refs enumRefs ty) {r : SqlType}
    (h : o.simpleType defs ty = .ok r) : ∀ q ∈ userTypes r, Predefined q ∨ Declared o defs refs enumRefs q := by
  intro q hq
  unfold ConvOptions.simpleType at h
  split at h
  · cases h; exact .inl (primType_user hs _ q hq)
  · exact .inl (annotated_user hs h q hq)
  · rename_i n
    cases he : defs.enum n with
    | none => rw [he] at h; cases h
    | some e =>
      rw [he] at h
      rcases enum_user hs h q hq with h | ⟨hm, hqe⟩
      · exact .inl h
      · obtain ⟨⟨e', he', h1, h2⟩, h3⟩ := hg.enums hm n (by simp [typeEnums])
        have := hd.known e' he'
        rw [h1, he] at this
        cases this
        exact .inr (.inl ⟨e, he', hm, h2, by rw [h1]; exact h3, hqe⟩)
  · cases h

theorem struct_declared (hw : WellFormed defs refs) (hd : TypesDeclared o defs refs enumRefs) {n : PyName} (hc : ∃ c ∈ refs, c.name = n)
    (hne : defs.isEntity (.cls n) = false) (hm : o.structMode = .type) {q : QId} (hq : o.qualifiedId n = .ok q) :
    Declared o defs refs enumRefs q := by
  obtain ⟨c, hc, rfl⟩ := hc
  have hs : c.isStruct = true := by
    simp only [PyDefs.isEntity, hw.known c hc] at hne
    cases hk : c.key with
    | none => simp [ClassDecl.isStruct, hk]
    | some k => rw [hk] at hne; cases hne
  exact .inr ⟨c, hc, hs, hm, hd.structModules hm c hc hs, hq⟩

theorem array_user (hs : PlainSubst o) (hw : WellFormed defs refs) (hd : TypesDeclared o defs refs enumRefs) {item : PyType}
    (hc : ∀ n ∈ typeClasses item, ∃ c ∈ refs, c.name = n)
    (he : o.enumMode = .type → ∀ n ∈ typeEnums item, (∃ e ∈ enumRefs, e.name = n ∧ 2 ≤ e.labels.length) ∧ HasTable o defs refs n.1)
    (ha : o.arrayMode = .array → o.structMode ≠ .type → ∀ n, item = .cls n → defs.isEntity (.cls n) = true)
    (ho : hasOther item = false) {r : SqlType}
    (h : o.arrayType defs item = .ok r) : ∀ q ∈ userTypes r, Predefined q ∨ Declared o defs refs enumRefs q := by
  intro q hq
  unfold ConvOptions.arrayType at h
  split at h
  · rename_i hsimple
    split at h
    · simp only [bind_ok, pure_ok] at h
      obtain ⟨ty, hty, rfl⟩ := h
      refine simple_user hs hd ⟨hc, he, ?_, ho⟩ hty q (by simpa [userTypes] using hq)
      intro _ _ n hn
      cases item <;> simp [PyType.isSimple, listClasses] at hsimple hn
    · cases h; exact .inl (primType_user hs _ q hq)
    · cases h
  · split at h
    · cases h
    · rename_i hent
      cases item with
      | cls n =>
        dsimp only at h
        split at h
        · rename_i hm
          simp only [bind_ok, pure_ok] at h
          obtain ⟨q', hq', rfl⟩ := h
          simp only [userTypes, List.mem_singleton] at hq
          subst hq
          by_cases hst : o.structMode = .type
          · exact .inr (struct_declared hw hd (hc n (by simp [typeClasses])) (by simpa using hent) hst hq')
          · exact absurd (ha hm hst n rfl) hent
        · cases h; exact .inl (primType_user hs _ q hq)
        · cases h
      | other n => simp [hasOther] at ho
      | prim _ => cases h
      | annotated _ _ => cases h
      | enum _ => cases h
      | list _ => cases h
      | set _ => cases h
      | literal _ => cases h
      | union _ => cases h

theorem good_member {ms : PyTypes} (hx : (PyType.union ms).isExtensible = false) (hg : Good o defs refs enumRefs (.union ms)) :
    ∀ m ∈ ms.toList, Good o defs refs enumRefs m := by
  have hc := hg.classes
  have he := hg.enums
  have ha := hg.arrays
  have ho := hg.others
  simp only [typeClasses, typeEnums, hx, listClasses, hasOther, Bool.false_eq_true, if_false] at hc he ha ho
  clear hx hg
  induction ms using PyTypes.rec (motive_1 := fun _ => True) with
  | nil => intro m hm; cases hm
  | cons ty rest _ ih =>
    simp only [typesClasses, typesEnums, listsClasses, someOther, List.mem_append, Bool.or_eq_false_iff] at hc he ha ho
    intro m hm
    rcases List.mem_cons.1 hm with rfl | hm
    · exact ⟨fun n hn => hc n (.inl hn), fun h n hn => he h n (.inl hn), fun h h' n hn => ha h h' n (.inl hn), ho.1⟩
    · exact ih (fun n hn => hc n (.inr hn)) (fun h h' n hn => ha h h' n (.inr hn)) ho.2 (fun h n hn => he h n (.inr hn)) m hm
  | _ => trivial

theorem structFields_user : ∀ {l : List (Text × SqlType × Bool)} {q : QId}, q ∈ structUserTypes (structFields l) → ∃ x ∈ l, q ∈ userTypes x.2.1
  | [], q, h => by cases h
  | (_, ty, _) :: rest, q, h => by
    simp only [structFields, structUserTypes, List.mem_append] at h
    rcases h with h | h
    · exact ⟨_, List.mem_cons_self .., h⟩
    · obtain ⟨x, hx, hq⟩ := structFields_user h
      exact ⟨x, List.mem_cons_of_mem _ hx, hq⟩

/-- Every user-defined type of a member is predefined or declared. -/
theorem member_user (hs : PlainSubst o) (hw : WellFormed defs refs) (hd : TypesDeclared o defs refs enumRefs) : ∀ (fuel : Nat) {ty : PyType}
    {r : SqlType}, Good o defs refs enumRefs ty → o.memberType defs fuel ty = .ok r → ∀ q ∈ userTypes r, Predefined q ∨ Declared o defs refs enumRefs q
  | 0, _, _, _, h => by simp [ConvOptions.memberType] at h
  | fuel + 1, ty, r, hg, h => by
    intro q hq
    have hcls : ∀ n ∈ typeClasses ty, ∃ c ∈ refs, c.name = n ∧ defs.cls n = some c := by
      intro n hn
      obtain ⟨c, hc, rfl⟩ := hg.classes n hn
      exact ⟨c, hc, rfl, hw.known c hc⟩
    unfold ConvOptions.memberType at h
    cases ty with
    | prim p => exact simple_user hs hd hg h q hq
    | annotated p ms => exact simple_user hs hd hg h q hq
    | enum n => exact simple_user hs hd hg h q hq
    | other n => have := hg.others; simp [hasOther] at this
    | literal vs =>
      dsimp only at h
      obtain ⟨ty, hty, hq'⟩ := compatible_user h q hq
      obtain ⟨v, _, rfl⟩ := List.mem_map.1 hty
      simp [userTypes] at hq'
    | list item =>
      dsimp only at h
      refine array_user (item := item) hs hw hd hg.classes hg.enums ?_ hg.others h q hq
      intro h1 h2 n hn
      subst hn
      exact hg.arrays h1 h2 n (by simp [listClasses])
    | set item =>
      dsimp only at h
      refine array_user (item := item) hs hw hd hg.classes hg.enums ?_ hg.others h q hq
      intro h1 h2 n hn
      subst hn
      exact hg.arrays h1 h2 n (by simp [listClasses])
    | cls n =>
      dsimp only at h
      obtain ⟨c, hc, hcn, hdc⟩ := hcls n (by simp [typeClasses])
      rw [hdc] at h
      dsimp only at h
      cases hk : c.key with
      | some k =>
        rw [hk] at h
        have hkf : k ∈ c.fields := by unfold ClassDecl.key at hk; exact List.mem_of_find?_eq_some hk
        exact member_user hs hw hd fuel (good_field hd (.inl ⟨c, hc, hkf⟩)) h q hq
      | none =>
        rw [hk] at h
        dsimp only at h
        split at h
        · rename_i hm
          simp only [bind_ok, pure_ok] at h
          obtain ⟨q', hq', rfl⟩ := h
          simp only [userTypes, List.mem_singleton] at hq
          subst hq
          exact .inr (struct_declared hw hd (hg.classes n (by simp [typeClasses])) (by simp [PyDefs.isEntity, hdc, hk]) hm hq')
        · simp only [bind_ok, pure_ok] at h
          obtain ⟨fields, hfields, rfl⟩ := h
          simp only [userTypes] at hq
          obtain ⟨x, hx, hqx⟩ := structFields_user hq
          obtain ⟨f, hf, hfx⟩ := mapM_back hfields x hx
          simp only [bind_ok, pure_ok] at hfx
          obtain ⟨fty, hfty, rfl⟩ := hfx
          exact member_user hs hw hd fuel (good_field hd (.inl ⟨c, hc, hf⟩)) hfty q hqx
        · cases h; exact .inl (primType_user hs _ q hq)
    | union ms =>
      dsimp only at h
      cases hx : (PyType.union ms).isExtensible with
      | true => rw [hx] at h; cases h; exact .inl (primType_user hs _ q hq)
      | false =>
        rw [hx] at h
        simp only [Bool.false_eq_true, if_false] at h
        have hgm := good_member hx hg
        split at h
        · rename_i hall
          split at h
          · rename_i kty hkt
            have hmem : kty ∈ defs.keyTypes ms.toList := C36.mem_eraseDups.1 (by rw [hkt]; exact List.mem_cons_self ..)
            unfold PyDefs.keyTypes at hmem
            obtain ⟨m, hm, he⟩ := List.mem_filterMap.1 hmem
            obtain ⟨n, c, rfl, hdc, hck⟩ := C32.entity_inv (List.all_eq_true.1 hall m hm)
            obtain ⟨c', hc', hcn'⟩ := (hgm _ hm).classes n (by simp [typeClasses])
            have := hw.known c' hc'
            rw [hcn', hdc] at this
            cases this
            cases hk : c.key with
            | none => rw [hk] at hck; cases hck
            | some k =>
              simp [hdc, hk] at he
              subst he
              have hkf : k ∈ c.fields := by unfold ClassDecl.key at hk; exact List.mem_of_find?_eq_some hk
              exact member_user hs hw hd fuel (good_field hd (.inl ⟨c, hc', hkf⟩)) h q hq
          · cases h
        · obtain ⟨types, htypes, h⟩ := bind_ok.1 h
          split at h
          · rename_i r' hr'
            cases h
            obtain ⟨ty, hty, hqt⟩ := compatible_user hr' q hq
            obtain ⟨m, hm, hmt⟩ := mapM_back htypes ty hty
            exact member_user hs hw hd fuel (hgm m hm) hmt q hqt
          · cases h

theorem allEnums_iff (hm : o.enumMode = .type) {l : List (Text × EnumType)} (h : o.allEnums enumRefs = .ok l) {m : Text} {et : EnumType} :
    (m, et) ∈ l ↔ ∃ e ∈ enumRefs, 2 ≤ e.labels.length ∧ m = e.name.1 ∧ ∃ s, o.mapping m = .ok s ∧ et = { name := .qualified s e.name.2, values := e.labels } := by
  unfold ConvOptions.allEnums at h
  rw [if_pos hm] at h
  constructor
  · intro hin
    obtain ⟨e, he, hb⟩ := mapM_back h _ hin
    rw [List.mem_filter, mem_sortBy] at he
    simp only [bind_ok, pure_ok] at hb
    obtain ⟨s, hs, hb⟩ := hb
    cases hb
    exact ⟨e, he.1, of_decide_eq_true he.2, rfl, s, hs, rfl⟩
  · rintro ⟨e, he, h2, rfl, s, hs, rfl⟩
    obtain ⟨x, hx, hb⟩ := mapM_fwd h e (by rw [List.mem_filter, mem_sortBy]; exact ⟨he, decide_eq_true h2⟩)
    simp only [bind_ok, pure_ok] at hb
    obtain ⟨s', hs', rfl⟩ := hb
    rw [hs] at hs'
    cases hs'
    exact hx

theorem allStructs_iff (hm : o.structMode = .type) {topo : List ClassDecl → Except Err (List ClassDecl)}
    (ht : ∀ l l', topo l = .ok l' → l'.Perm l) {l : List (Text × StructType)} (h : o.allStructs defs depth topo refs = .ok l) {m : Text} {st : StructType} :
    (m, st) ∈ l ↔ ∃ c ∈ refs, c.isStruct = true ∧ m = c.name.1 ∧ o.dataclassStruct defs depth c = .ok st := by
  unfold ConvOptions.allStructs at h
  rw [if_pos hm] at h
  obtain ⟨l', hl', h⟩ := bind_ok.1 h
  have hp := ht _ _ hl'
  constructor
  · intro hin
    obtain ⟨c, hc, hb⟩ := mapM_back h _ hin
    rw [hp.mem_iff, mem_sortBy, List.mem_filter] at hc
    simp only [bind_ok, pure_ok] at hb
    obtain ⟨s, hs, hb⟩ := hb
    cases hb
    exact ⟨c, hc.1, hc.2, rfl, hs⟩
  · rintro ⟨c, hc, h2, rfl, hs⟩
    obtain ⟨x, hx, hb⟩ := mapM_fwd h c (by rw [hp.mem_iff, mem_sortBy, List.mem_filter]; exact ⟨hc, h2⟩)
    simp only [bind_ok, pure_ok] at hb
    obtain ⟨s', hs', rfl⟩ := hb
    rw [hs] at hs'
    cases hs'
    exact hx

/-- The namespace of a module that has a table. -/
theorem module_namespace (hn : NoClash o defs refs) {topo : List ClassDecl → Except Err (List ClassDecl)} {C : Catalog}
    (h : o.toCatalog defs depth topo refs enumRefs = .ok C) (hq : o.qualified = true) {m : Text} (hm : HasTable o defs refs m) :
    ∃ enums structs s, o.allEnums enumRefs = .ok enums ∧ o.allStructs defs depth topo refs = .ok structs ∧ o.mapping m = .ok s ∧
      ∃ n ∈ C.namespaces.items, n.name = s.getD [] ∧ n.enums = ODict.ofList (ofModule m enums) ∧ n.structs = ODict.ofList (ofModule m structs) := by
  obtain ⟨enums, structs, tables, h1, h2, h3, h4⟩ := C32.toCatalog_inv h
  rcases h4 with ⟨_, nss, h5, rfl⟩ | ⟨hq', _⟩
  · have hmod : ∀ m ∈ (tables.map Prod.fst).eraseDups, ∃ s, Makes o defs refs s ∧ m = s.pyName.1 := by
      intro m hm
      rw [C36.mem_eraseDups, List.mem_map] at hm
      obtain ⟨⟨m', tb⟩, hm, rfl⟩ := hm
      obtain ⟨s, hs, _, e⟩ := C32.allTables_back h3 hm
      exact ⟨s, hs, e⟩
    have hns : ∀ n ∈ nss, ∀ n' ∈ nss, Named.key n = Named.key n' → n = n' := by
      intro n hn1 n' hn2 e
      obtain ⟨m, hm, hb⟩ := mapM_back h5 n hn1
      obtain ⟨m', hm', hb'⟩ := mapM_back h5 n' hn2
      obtain ⟨s, hs, rfl⟩ := hmod m hm
      obtain ⟨s', hs', rfl⟩ := hmod m' hm'
      obtain ⟨a, ha, hna, _⟩ := C32.moduleNamespace_inv hb
      obtain ⟨a', ha', hna', _⟩ := C32.moduleNamespace_inv hb'
      have e' : n.name = n'.name := e
      rw [hna, hna'] at e'
      have := hn.schemas hq s s' hs hs' a a' ha ha' e'
      rw [this, hb'] at hb
      exact (Except.ok.inj hb).symm
    obtain ⟨src, hsrc, rfl⟩ := hm
    obtain ⟨tb, hin, _⟩ := C32.allTables_fwd h3 hsrc
    have hm : src.pyName.1 ∈ (tables.map Prod.fst).eraseDups := by
      rw [C36.mem_eraseDups, List.mem_map]; exact ⟨_, hin, rfl⟩
    obtain ⟨n, hnn, hb⟩ := mapM_fwd h5 _ hm
    obtain ⟨a, ha, hna, he, hst, _⟩ := C32.moduleNamespace_inv hb
    exact ⟨enums, structs, a, h1, h2, ha, n, (mem_ofList hns).2 hnn, hna, he, hst⟩
  · rw [hq] at hq'; cases hq'

theorem qualified_eq {q : QId} {n : PyName} (hq : o.qualified = true) (h : o.qualifiedId n = .ok q) : ∃ s, o.mapping n.1 = .ok s ∧ q = .qualified s n.2 := by
  unfold ConvOptions.qualifiedId at h
  simp only [bind_ok, pure_ok, hq, if_true] at h
  obtain ⟨s, hs, rfl⟩ := h
  exact ⟨s, hs, rfl⟩

theorem enum_created (hn : NoClash o defs refs) (hd : TypesKnown o defs enumRefs) {topo : List ClassDecl → Except Err (List ClassDecl)}
    {C : Catalog} (h : o.toCatalog defs depth topo refs enumRefs = .ok C) (hm : o.enumMode = .type) {e : EnumDecl} (he : e ∈ enumRefs)
    (h2 : 2 ≤ e.labels.length) (ht : HasTable o defs refs e.name.1) {q : QId} (hq : o.qualifiedId e.name = .ok q) :
    ∃ n ∈ C.namespaces.items, n.name = q.key.1 ∧ { name := q, values := e.labels } ∈ n.enums.items := by
  have hqual := hd.qualified (.inl hm)
  obtain ⟨s, hs, rfl⟩ := qualified_eq hqual hq
  obtain ⟨enums, structs, s', h1, _, hs', n, hnc, hnn, hne, _⟩ := module_namespace hn h hqual ht
  rw [hs] at hs'
  cases hs'
  refine ⟨n, hnc, hnn, ?_⟩
  rw [hne, mem_ofList]
  · exact C32.mem_ofModule.2 ((allEnums_iff hm h1).2 ⟨e, he, h2, rfl, s, hs, rfl⟩)
  · intro a ha b hb hab
    obtain ⟨x, hx, _, hmx, sx, hsx, rfl⟩ := (allEnums_iff hm h1).1 (C32.mem_ofModule.1 ha)
    obtain ⟨y, hy, _, hmy, sy, hsy, rfl⟩ := (allEnums_iff hm h1).1 (C32.mem_ofModule.1 hb)
    have hab : x.name.2 = y.name.2 := hab
    have hn : x.name = y.name := Prod.ext (by rw [← hmx, hmy]) hab
    have hkx := hd.known x hx
    rw [hn, hd.known y hy] at hkx
    cases hkx
    rw [hsx] at hsy
    cases hsy
    rfl

theorem struct_created (hw : WellFormed defs refs) (hn : NoClash o defs refs) (hd : TypesKnown o defs enumRefs)
    {topo : List ClassDecl → Except Err (List ClassDecl)} (htopo : ∀ l l', topo l = .ok l' → l'.Perm l)
    {C : Catalog} (h : o.toCatalog defs depth topo refs enumRefs = .ok C) (hm : o.structMode = .type) {c : ClassDecl} (hc : c ∈ refs)
    (hst : c.isStruct = true) (ht : HasTable o defs refs c.name.1) {q : QId} (hq : o.qualifiedId c.name = .ok q) :
    ∃ n ∈ C.namespaces.items, n.name = q.key.1 ∧ ∃ st ∈ n.structs.items, st.name = q ∧ o.dataclassStruct defs depth c = .ok st := by
  have hqual := hd.qualified (.inr hm)
  obtain ⟨s, hs, rfl⟩ := qualified_eq hqual hq
  obtain ⟨enums, structs, s', _, h1, hs', n, hnc, hnn, _, hne⟩ := module_namespace hn h hqual ht
  rw [hs] at hs'
  cases hs'
  have hname : ∀ {c : ClassDecl} {st : StructType}, o.dataclassStruct defs depth c = .ok st → o.qualifiedId c.name = .ok st.name := by
    intro c st h
    unfold ConvOptions.dataclassStruct at h
    simp only [bind_ok, pure_ok] at h
    obtain ⟨_, _, q, hq, rfl⟩ := h
    exact hq
  have hall : ∃ st, (c.name.1, st) ∈ structs ∧ o.dataclassStruct defs depth c = .ok st := by
    have h1' := h1
    unfold ConvOptions.allStructs at h1'
    rw [if_pos hm] at h1'
    obtain ⟨l', hl', h1'⟩ := bind_ok.1 h1'
    obtain ⟨x, hx, hb⟩ := mapM_fwd h1' c (by rw [(htopo _ _ hl').mem_iff, mem_sortBy, List.mem_filter]; exact ⟨hc, hst⟩)
    simp only [bind_ok, pure_ok] at hb
    obtain ⟨st, hst, rfl⟩ := hb
    exact ⟨st, hx, hst⟩
  obtain ⟨st, hin, hb⟩ := hall
  refine ⟨n, hnc, hnn, st, ?_, ?_, hb⟩
  · rw [hne, mem_ofList]
    · exact C32.mem_ofModule.2 hin
    · intro a ha b hb hab
      obtain ⟨x, hx, _, hmx, hbx⟩ := (allStructs_iff hm htopo h1).1 (C32.mem_ofModule.1 ha)
      obtain ⟨y, hy, _, hmy, hby⟩ := (allStructs_iff hm htopo h1).1 (C32.mem_ofModule.1 hb)
      obtain ⟨sx, _, hxn⟩ := qualified_eq hqual (hname hbx)
      obtain ⟨sy, _, hyn⟩ := qualified_eq hqual (hname hby)
      have hab : a.name.key.2 = b.name.key.2 := hab
      rw [hxn, hyn] at hab
      have hab : x.name.2 = y.name.2 := hab
      have hn : x.name = y.name := Prod.ext (by rw [← hmx, hmy]) hab
      have := C32.wf_unique hw hx hy hn
      subst this
      rw [hbx] at hby
      exact Except.ok.inj hby
  · have := hname hb
    rw [hq] at this
    exact (Except.ok.inj this).symm

theorem declared_created (hw : WellFormed defs refs) (hn : NoClash o defs refs) (hd : TypesKnown o defs enumRefs)
    {topo : List ClassDecl → Except Err (List ClassDecl)} (htopo : ∀ l l', topo l = .ok l' → l'.Perm l)
    {C : Catalog} (h : o.toCatalog defs depth topo refs enumRefs = .ok C) {q : QId} (hq : Declared o defs refs enumRefs q) : Creates C q := by
  rcases hq with ⟨e, he, hm, h2, ht, hq⟩ | ⟨c, hc, hst, hm, ht, hq⟩
  · obtain ⟨n, h1, h2, h3⟩ := enum_created hn hd h hm he h2 ht hq
    exact ⟨n, h1, h2, .inl ⟨_, h3, rfl⟩⟩
  · obtain ⟨n, h1, h2, st, h3, h4, _⟩ := struct_created hw hn hd htopo h hm hc hst ht hq
    exact ⟨n, h1, h2, .inr ⟨st, h3, h4⟩⟩

theorem column_user (hs : PlainSubst o) (hw : WellFormed defs refs) (hd : TypesDeclared o defs refs enumRefs) {f : FieldDecl}
    (hf : IsField o defs refs f) {col : Column} (h : o.memberColumn defs depth f = .ok col) :
    ∀ q ∈ userTypes col.ty, Predefined q ∨ Declared o defs refs enumRefs q := by
  unfold ConvOptions.memberColumn at h
  simp only [bind_ok, pure_ok] at h
  obtain ⟨ty, hty, rfl⟩ := h
  exact member_user hs hw hd depth (good_field hd hf) hty

theorem built_user (hs : PlainSubst o) (hw : WellFormed defs refs) (hd : TypesDeclared o defs refs enumRefs) {s : TableSource}
    (hmk : Makes o defs refs s) {tb : Table} (h : C32.Built o defs depth refs s tb) : ∀ col ∈ tb.columns.items, ∀ q ∈ userTypes col.ty,
      Predefined q ∨ Declared o defs refs enumRefs q := by
  intro col hcol q hq
  cases s with
  | entity n =>
    obtain ⟨c, hc, rfl, hk, hb⟩ := h
    obtain ⟨columns, _, _, _, _, _, _, k, h1, _, _, _, _, _, _, hk, rfl⟩ := C32.dataclassTable_inv hb
    obtain ⟨f, hf, hb⟩ := mapM_back h1 col (of_mem_ofList hcol)
    exact column_user hs hw hd (.inl ⟨c, hc, (List.mem_filter.1 hf).1⟩) hb q hq
  | enum n =>
    obtain ⟨e, he, hb⟩ := h
    unfold ConvOptions.enumTable at hb
    simp only [bind_ok] at hb
    obtain ⟨name, hname, hb⟩ := hb
    cases hk : e.kind with
    | int =>
      rw [hk] at hb
      simp only [bind_ok, pure_ok] at hb
      obtain ⟨label, hl, rfl⟩ := hb
      have := of_mem_ofList hcol
      simp only [List.mem_cons, List.not_mem_nil, or_false] at this
      rcases this with rfl | rfl
      · exact .inl (primType_user hs _ q hq)
      · exact .inl (annotated_user hs hl q hq)
    | str =>
      rw [hk] at hb
      simp only [bind_ok, pure_ok] at hb
      obtain ⟨label, hl, rfl⟩ := hb
      have := of_mem_ofList hcol
      simp only [List.mem_cons, List.not_mem_nil, or_false] at this
      rcases this with rfl | rfl
      · exact .inl (primType_user hs _ q hq)
      · exact .inl (annotated_user hs hl q hq)
    | struct fields =>
      rw [hk] at hb
      simp only [bind_ok, pure_ok] at hb
      obtain ⟨cols, hcols, rfl⟩ := hb
      rcases List.mem_cons.1 (of_mem_ofList hcol) with rfl | hc
      · exact .inl (primType_user hs _ q hq)
      · obtain ⟨f, hf, hb⟩ := mapM_back hcols col hc
        exact column_user hs hw hd (.inr ⟨n, e, fields, hmk, he, hk, hf⟩) hb q hq
    | empty => rw [hk] at hb; cases hb
    | mixed => rw [hk] at hb; cases hb
    | other => rw [hk] at hb; cases hb
  | join owner f i =>
    obtain ⟨c, hc, rfl, _, fd, hf, rfl, isList, item, hr, hi, hb⟩ := h
    obtain ⟨k, x, lt, _, _, _, _, hk, hx, hlt, _, _, _, h1, rfl⟩ := C32.joinTable_inv hb
    have hkf : k ∈ c.fields := by unfold ClassDecl.key at hk; exact List.mem_of_find?_eq_some hk
    have := of_mem_ofList hcol
    simp only [List.mem_cons, List.not_mem_nil, or_false] at this
    rcases this with rfl | rfl | rfl
    · exact .inl (primType_user hs _ q hq)
    · exact member_user hs hw hd depth (good_field hd (.inl ⟨c, hc, hkf⟩)) hlt q hq
    · rcases C32.joinItem_inv hx with ⟨hit, k', hk', hkn, hty⟩ | ⟨hit, hm, hid, hty⟩
      · cases hd' : defs.cls x.1 with
        | none => rw [hd'] at hk'; cases hk'
        | some c' =>
          rw [hd'] at hk'
          have hmem : x.1 ∈ typeClasses fd.ty := by
            rcases (C32.relationship_inv hr).1 with h | h <;> simp [h, hit, typeClasses]
          obtain ⟨c'', hc'', hcn⟩ := hw.closed c hc fd hf x.1 hmem
          have := hw.known c'' hc''
          rw [hcn, hd'] at this
          cases this
          have hkf' : k' ∈ c'.fields := by
            have hk' : c'.key = some k' := hk'
            unfold ClassDecl.key at hk'
            exact List.mem_of_find?_eq_some hk'
          exact member_user hs hw hd depth (good_field hd (.inl ⟨c', hc'', hkf'⟩)) hty q hq
      · rw [show x.2.2 = o.enumKeyType from hty] at hq
        exact .inl (primType_user hs _ q hq)

end C34

/-- **C34**: every user-defined type that a column of a table or a member of a struct type refers to is created, with this name, in the schema
    that the name tells; for every program that meets `TypesDeclared`, and all options. -/
theorem C34_types_resolve (o : ConvOptions) (defs : PyDefs) (depth : Nat) (topo : List ClassDecl → Except Err (List ClassDecl))
    (refs : List ClassDecl) (enumRefs : List EnumDecl) (C : Catalog) (htopo : ∀ l l', topo l = .ok l' → l'.Perm l)
    (hs : ∀ p ty, o.substitution p = some ty → ∀ q ∈ userTypes ty, Predefined q)
    (hw : WellFormed defs refs) (hn : NoClash o defs refs) (hd : TypesDeclared o defs refs enumRefs)
    (h : o.toCatalog defs depth topo refs enumRefs = .ok C) : TypesResolve C := by
  constructor
  · intro s tb htb col hcol q hq
    obtain ⟨src, hm, hB, _⟩ := (C32.catalog_tables hw hn h s tb).1 htb
    rcases C34.built_user hs hw hd hm hB col hcol q hq with h' | h'
    · exact .inl h'
    · exact .inr (C34.declared_created hw hn ⟨hd.known, hd.qualified⟩ htopo h h')
  · intro n hnc st hst m hm q hq
    obtain ⟨enums, structs, tables, h1, h2, h3, h4⟩ := C32.toCatalog_inv h
    have hin : ∃ m, (m, st) ∈ structs := by
      rcases h4 with ⟨hqual, nss, h5, rfl⟩ | ⟨hqual, rfl⟩
      · obtain ⟨m, hm, hb⟩ := Conv.mapM_back h5 n (Conv.of_mem_ofList hnc)
        obtain ⟨_, _, _, _, hss, _⟩ := C32.moduleNamespace_inv hb
        rw [hss] at hst
        exact ⟨m, C32.mem_ofModule.1 (Conv.of_mem_ofList hst)⟩
      · have := Conv.of_mem_ofList hnc
        rw [List.mem_singleton] at this
        subst this
        exact C32.mem_byModule.1 (Conv.of_mem_ofList hst)
    obtain ⟨mo, hin⟩ := hin
    by_cases hmode : o.structMode = .type
    · obtain ⟨c, hc, hstr, _, hb⟩ := (C34.allStructs_iff hmode htopo h2).1 hin
      unfold ConvOptions.dataclassStruct at hb
      simp only [Conv.bind_ok, Conv.pure_ok] at hb
      obtain ⟨members, hmem, name, _, rfl⟩ := hb
      obtain ⟨f, hf, hfm⟩ := Conv.mapM_back hmem m (Conv.of_mem_ofList hm)
      simp only [Conv.bind_ok, Conv.pure_ok] at hfm
      obtain ⟨ty, hty, rfl⟩ := hfm
      rcases C34.member_user hs hw hd depth (C34.good_field hd (.inl ⟨c, hc, hf⟩)) hty q hq with h' | h'
      · exact .inl h'
      · exact .inr (C34.declared_created hw hn ⟨hd.known, hd.qualified⟩ htopo h h')
    · unfold ConvOptions.allStructs at h2
      rw [if_neg hmode] at h2
      cases h2
      cases hin

/-- What is created is what was declared: an enumeration that a field mentions becomes a type with exactly its labels, in order, and a
    data-class without a key a type with a member for each field, in order. -/
theorem C34_contents (o : ConvOptions) (defs : PyDefs) (depth : Nat) (topo : List ClassDecl → Except Err (List ClassDecl))
    (refs : List ClassDecl) (enumRefs : List EnumDecl) (C : Catalog) (htopo : ∀ l l', topo l = .ok l' → l'.Perm l)
    (hw : WellFormed defs refs) (hn : NoClash o defs refs) (hd : TypesDeclared o defs refs enumRefs)
    (h : o.toCatalog defs depth topo refs enumRefs = .ok C) :
    (o.enumMode = .type → ∀ f, IsField o defs refs f → ∀ n ∈ typeEnums f.ty, ∀ q, o.qualifiedId n = .ok q →
      ∃ e ns, defs.enum n = some e ∧ ns ∈ C.namespaces.items ∧ ns.name = q.key.1 ∧ { name := q, values := e.labels } ∈ ns.enums.items) ∧
    (o.structMode = .type → ∀ c ∈ refs, c.isStruct = true → ∀ q, o.qualifiedId c.name = .ok q →
      ∃ ns ∈ C.namespaces.items, ns.name = q.key.1 ∧ ∃ st ∈ ns.structs.items, st.name = q ∧
        st.members.items.map StructMember.name = c.fields.map FieldDecl.name ∧
        ∀ f ∈ c.fields, ∃ m ∈ st.members.items, m.name = f.name ∧ o.memberType defs depth f.ty = .ok m.ty) := by
  constructor
  · intro hm f hf n hnn q hq
    obtain ⟨e, he, rfl, h2⟩ := hd.enums hm f hf n hnn
    obtain ⟨ns, h1, h3, h4⟩ := C34.enum_created hn ⟨hd.known, hd.qualified⟩ h hm he h2 (hd.enumModules hm f hf _ hnn) hq
    exact ⟨e, ns, hd.known e he, h1, h3, h4⟩
  · intro hm c hc hst q hq
    obtain ⟨ns, h1, h2, st, h3, h4, h5⟩ := C34.struct_created hw hn ⟨hd.known, hd.qualified⟩ htopo h hm hc hst (hd.structModules hm c hc hst) hq
    refine ⟨ns, h1, h2, st, h3, h4, ?_⟩
    unfold ConvOptions.dataclassStruct at h5
    simp only [Conv.bind_ok, Conv.pure_ok] at h5
    obtain ⟨members, hmem, name, _, rfl⟩ := h5
    have hnames : members.map StructMember.name = c.fields.map FieldDecl.name := by
      clear h3 h4 hst hq h1 h2
      have : ∀ (l : List FieldDecl) (r : List StructMember), l.mapM (fun f => do
          let ty ← o.memberType defs depth f.ty
          pure { name := f.name, ty := ty : StructMember }) = .ok r → r.map StructMember.name = l.map FieldDecl.name := by
        intro l
        induction l with
        | nil => intro r hr; cases hr; rfl
        | cons f rest ih =>
          intro r hr
          obtain ⟨b, rs, hb, hrs, rfl⟩ := Conv.mapM_cons_ok.1 hr
          simp only [Conv.bind_ok, Conv.pure_ok] at hb
          obtain ⟨ty, _, rfl⟩ := hb
          rw [List.map_cons, List.map_cons, ih rs hrs]
      exact this _ _ hmem
    have hnd : (members.map Named.key).Nodup := by
      have : members.map Named.key = members.map StructMember.name := rfl
      rw [this, hnames]
      exact hw.fields c hc
    dsimp only
    rw [ODict.ofList_of_nodup _ hnd]
    refine ⟨hnames, ?_⟩
    intro f hf
    obtain ⟨m, hm, hb⟩ := Conv.mapM_fwd hmem f hf
    simp only [Conv.bind_ok, Conv.pure_ok] at hb
    obtain ⟨ty, hty, rfl⟩ := hb
    exact ⟨_, hm, rfl, hty⟩

namespace C34

/-- Decides that all user-defined types of a substitution are predefined. -/
def plainB (ty : SqlType) : Bool := (userTypes ty).all (fun q => match q with | .global _ => true | _ => false)

theorem plainB_ok {ty : SqlType} (h : plainB ty = true) : ∀ q ∈ userTypes ty, Predefined q := by
  intro q hq
  have := List.all_eq_true.1 h q hq
  cases q with
  | global x => exact ⟨x, rfl⟩
  | _ => cases this

end C34

/-- The conditions on options hold for every engine, and every choice of options that its generator accepts. -/
theorem C34_engines (e : Engine) (g : GenOptions) (o : ConvOptions) (h : e.options g = .ok o) :
    (∀ p ty, o.substitution p = some ty → ∀ q ∈ userTypes ty, Predefined q) ∧ (o.enumMode = .type ∨ o.structMode = .type → o.qualified = true) := by
  unfold Engine.options at h
  split at h
  · rename_i hm
    cases h
    constructor
    · intro p ty hty
      have : ((e.substitution p).all C34.plainB) = true := by
        clear hty hm
        cases e <;> cases p <;> decide
      have hty : e.substitution p = some ty := hty
      rw [hty] at this
      exact C34.plainB_ok this
    · intro hmode
      obtain ⟨em, sm, am, map, fc, it⟩ := g
      cases e <;> cases em <;> cases sm <;> simp_all [Engine.modesOk, checkMode]
  · cases h

namespace C34

/-- Decides `TypesDeclared`, with a list of all fields and the modules that have tables. -/
def typesDeclaredB (o : ConvOptions) (defs : PyDefs) (refs : List ClassDecl) (enumRefs : List EnumDecl) : Bool :=
  let fields := refs.flatMap ClassDecl.fields ++ defs.enums.flatMap (fun e => match e.kind with | .struct fs => fs | _ => [])
  let modules := (refs.filter (fun c => c.key.isSome)).map (fun c => c.name.1)
  enumRefs.all (fun e => decide (defs.enum e.name = some e)) &&
  fields.all (fun f =>
    (typeClasses f.ty).all (fun n => refs.any (fun c => decide (c.name = n))) &&
    (decide (o.enumMode ≠ .type) || (typeEnums f.ty).all (fun n => enumRefs.any (fun e => decide (e.name = n) && decide (2 ≤ e.labels.length)) &&
      modules.contains n.1)) &&
    (decide (o.arrayMode ≠ .array) || decide (o.structMode = .type) || (listClasses f.ty).all (fun n => defs.isEntity (.cls n))) &&
    !hasOther f.ty) &&
  (decide (o.structMode ≠ .type) || (refs.filter ClassDecl.isStruct).all (fun c => modules.contains c.name.1)) &&
  (decide (o.enumMode ≠ .type) && decide (o.structMode ≠ .type) || o.qualified)

theorem typesDeclaredB_ok {o : ConvOptions} {defs : PyDefs} {refs : List ClassDecl} {enumRefs : List EnumDecl}
    (h : typesDeclaredB o defs refs enumRefs = true) : TypesDeclared o defs refs enumRefs := by
  unfold typesDeclaredB at h
  simp only [Bool.and_eq_true] at h
  obtain ⟨⟨⟨h1, h2⟩, h3⟩, h4⟩ := h
  have hfield : ∀ f, IsField o defs refs f → f ∈ refs.flatMap ClassDecl.fields ++ defs.enums.flatMap (fun e => match e.kind with | .struct fs => fs | _ => []) := by
    intro f hf
    rcases hf with ⟨c, hc, hf⟩ | ⟨n, e, fields, _, he, hk, hf⟩
    · exact List.mem_append.2 (.inl (List.mem_flatMap.2 ⟨c, hc, hf⟩))
    · refine List.mem_append.2 (.inr (List.mem_flatMap.2 ⟨e, List.mem_of_find?_eq_some he, ?_⟩))
      rw [hk]; exact hf
  have hmod : ∀ m, ((refs.filter (fun c => c.key.isSome)).map (fun c => c.name.1)).contains m = true → HasTable o defs refs m := by
    intro m hm
    rw [List.contains_iff_mem] at hm
    obtain ⟨c, hc, rfl⟩ := List.mem_map.1 hm
    obtain ⟨hc, hk⟩ := List.mem_filter.1 hc
    exact ⟨.entity c.name, .entity c hc hk, rfl⟩
  rw [List.all_eq_true] at h1 h2
  refine ⟨?_, ?_, ?_, ?_, ?_, ?_, ?_, ?_⟩
  · intro f hf n hn
    have := h2 f (hfield f hf)
    simp only [Bool.and_eq_true] at this
    have := List.all_eq_true.1 this.1.1.1 n hn
    obtain ⟨c, hc, he⟩ := List.any_eq_true.1 this
    exact ⟨c, hc, of_decide_eq_true he⟩
  · intro e he; exact of_decide_eq_true (h1 e he)
  · intro hm f hf n hn
    have := h2 f (hfield f hf)
    simp only [Bool.and_eq_true, hm, ne_eq, not_true_eq_false, decide_false, Bool.false_or] at this
    have := List.all_eq_true.1 this.1.1.2 n hn
    rw [Bool.and_eq_true] at this
    obtain ⟨e, he, h'⟩ := List.any_eq_true.1 this.1
    rw [Bool.and_eq_true] at h'
    exact ⟨e, he, of_decide_eq_true h'.1, of_decide_eq_true h'.2⟩
  · intro hm
    rcases hm with hm | hm <;> simpa [hm] using h4
  · intro hm f hf n hn
    have := h2 f (hfield f hf)
    simp only [Bool.and_eq_true, hm, ne_eq, not_true_eq_false, decide_false, Bool.false_or] at this
    have := List.all_eq_true.1 this.1.1.2 n hn
    rw [Bool.and_eq_true] at this
    exact hmod _ this.2
  · intro hm c hc hs
    simp only [hm, ne_eq, not_true_eq_false, decide_false, Bool.false_or] at h3
    exact hmod _ (List.all_eq_true.1 h3 c (List.mem_filter.2 ⟨hc, hs⟩))
  · intro ha hst f hf n hn
    have := h2 f (hfield f hf)
    simp only [Bool.and_eq_true, ha, hst, ne_eq, not_true_eq_false, decide_false, Bool.false_or] at this
    exact List.all_eq_true.1 this.1.2 n hn
  · intro f hf
    have := h2 f (hfield f hf)
    simp only [Bool.and_eq_true, Bool.not_eq_true'] at this
    exact this.2

/-- The program of `Examples/Program.lean` meets the conditions for every engine. -/
theorem declared0 (e : Engine) : TypesDeclared (Program.opts e Program.gen0) Program.defs0 Program.refs0 Program.enums0 := by
  refine typesDeclaredB_ok ?_
  cases e <;> decide +kernel

/-- Some column refers to a type that is not created. -/
def danglingB (C : Catalog) : Bool :=
  C.namespaces.items.any (fun n => n.tables.items.any (fun tb => tb.columns.items.any (fun col => (userTypes col.ty).any (fun q =>
    (match q with | .global _ => false | _ => true) &&
    C.namespaces.items.all (fun n' => n'.enums.items.all (fun e => decide (e.name ≠ q)) && n'.structs.items.all (fun s => decide (s.name ≠ q)))))))

theorem danglingB_ok {C : Catalog} (h : danglingB C = true) : ¬ TypesResolve C := by
  intro hr
  unfold danglingB at h
  simp only [List.any_eq_true, Bool.and_eq_true, List.all_eq_true, decide_eq_true_eq] at h
  obtain ⟨n, hn, tb, htb, col, hcol, q, hq, hg, hall⟩ := h
  rcases hr.columns n.name tb ⟨n, hn, rfl, htb⟩ col hcol q hq with ⟨x, rfl⟩ | ⟨n', hn', _, ⟨e, he, h1⟩ | ⟨s, hs, h1⟩⟩
  · cases hg
  · exact (hall n' hn').1 e he h1
  · exact (hall n' hn').2 s hs h1

/-- A program whose types do not resolve. -/
theorem fails {e : Engine} {defs : PyDefs} {refs : List ClassDecl} {enums : List EnumDecl} (hw : Program.wellFormedB defs refs = true)
    (hn : Program.noClashB (Program.opts e Program.gen0) defs refs = true)
    (h : (Program.catalog e Program.gen0 defs refs enums).any danglingB = true) :
    WellFormed defs refs ∧ NoClash (Program.opts e Program.gen0) defs refs ∧
      ∃ C, (Program.opts e Program.gen0).toCatalog defs 10 .ok refs enums = .ok C ∧ ¬ TypesResolve C := by
  refine ⟨Program.wellFormedB_ok hw, Program.noClashB_ok hn, ?_⟩
  unfold Program.catalog at h
  cases hC : (Program.opts e Program.gen0).toCatalog defs 10 .ok refs enums with
  | error _ => rw [hC] at h; cases h
  | ok C => rw [hC] at h; exact ⟨C, rfl, danglingB_ok h⟩

def key : FieldDecl := { name := t "id", ty := .prim .int64, primary := true }
def one : EnumDecl := { name := (t "m", t "One"), kind := .str, labels := [t "a"], constants := [t "'a'"] }
def far : EnumDecl := { name := (t "far", t "Far"), kind := .str, labels := [t "a", t "b"], constants := [t "'a'", t "'b'"] }
/-- An entity with a field of an enumeration. -/
def uses (e : EnumDecl) : ClassDecl := { name := (t "m", t "A"), fields := [key, { name := t "x", ty := .enum e.name }] }
def point : ClassDecl := { name := (t "m", t "Point"), fields := [{ name := t "x", ty := .prim .int64 }] }
/-- An entity with a list of structs. -/
def path : ClassDecl := { name := (t "m", t "Path"), fields := [key, { name := t "points", ty := .list (.cls point.name) }] }
/-- An entity with a field of a class that is not a data-class. -/
def odd : ClassDecl := { name := (t "m", t "Odd"), fields := [key, { name := t "x", ty := .other (t "m", t "Money") }] }

end C34

/-- The hypotheses are met by the example program for every engine. -/
example (e : Engine) : ∃ C, (Program.opts e Program.gen0).toCatalog Program.defs0 10 .ok Program.refs0 Program.enums0 = .ok C ∧ TypesResolve C := by
  obtain ⟨C, h⟩ := Program.accepted0 e
  obtain ⟨o, ho⟩ : ∃ o, e.options Program.gen0 = .ok o := by cases e <;> exact ⟨_, rfl⟩
  have heq : Program.opts e Program.gen0 = o := by unfold Program.opts; rw [ho]; rfl
  refine ⟨C, h, C34_types_resolve _ _ _ _ _ _ C (fun l l' h => ?_) ?_ Program.wf0 (Program.noClash0 e) (C34.declared0 e) h⟩
  · cases h; exact List.Perm.refl _
  · rw [heq]; exact (C34_engines e Program.gen0 o ho).1

/-- The types that are created for PostgreSQL. -/
example : ((Program.catalog .postgresql Program.gen0 Program.defs0 Program.refs0 Program.enums0).map (fun C =>
    C.namespaces.items.map (fun n => (String.ofList n.name, n.enums.items.map (fun e => String.ofList e.name.key.2),
      n.structs.items.map (fun s => String.ofList s.name.key.2)))))
    = some [("crm", ["Country"], ["Address"]), ("shop", ["Status"], [])] := by decide +kernel

/-- On PostgreSQL an enumeration with a single member is not created, but columns refer to it. -/
theorem C34_single_member_fails : ∃ (defs : PyDefs) (refs : List ClassDecl) (enums : List EnumDecl), WellFormed defs refs ∧
    NoClash (Program.opts .postgresql Program.gen0) defs refs ∧
    ∃ C, (Program.opts .postgresql Program.gen0).toCatalog defs 10 .ok refs enums = .ok C ∧ ¬ TypesResolve C :=
  ⟨⟨[C34.uses C34.one], [C34.one]⟩, [C34.uses C34.one], [C34.one], C34.fails (by decide +kernel) (by decide +kernel) (by decide +kernel)⟩

/-- On PostgreSQL an enumeration of a module that has no entities is not created, but columns of other modules refer to it. -/
theorem C34_module_without_table_fails : ∃ (defs : PyDefs) (refs : List ClassDecl) (enums : List EnumDecl), WellFormed defs refs ∧
    NoClash (Program.opts .postgresql Program.gen0) defs refs ∧ (∀ e ∈ enums, 2 ≤ e.labels.length) ∧
    ∃ C, (Program.opts .postgresql Program.gen0).toCatalog defs 10 .ok refs enums = .ok C ∧ ¬ TypesResolve C := by
  obtain ⟨h1, h2, h3⟩ := C34.fails (e := .postgresql) (defs := ⟨[C34.uses C34.far], [C34.far]⟩) (refs := [C34.uses C34.far]) (enums := [C34.far])
    (by decide +kernel) (by decide +kernel) (by decide +kernel)
  exact ⟨_, _, _, h1, h2, by decide, h3⟩

/-- On Delta, a list of structs becomes an array of a user-defined type although structs are inlined, so that the type is never created. -/
theorem C34_inline_list_fails : ∃ (defs : PyDefs) (refs : List ClassDecl), WellFormed defs refs ∧
    NoClash (Program.opts .delta Program.gen0) defs refs ∧
    ∃ C, (Program.opts .delta Program.gen0).toCatalog defs 10 .ok refs [] = .ok C ∧ ¬ TypesResolve C :=
  ⟨⟨[C34.path, C34.point], []⟩, [C34.path, C34.point], C34.fails (by decide +kernel) (by decide +kernel) (by decide +kernel)⟩

/-- A field of a class that is not a data-class is accepted on every engine, and its column refers to a type that is never created. -/
theorem C34_other_class_fails (e : Engine) : ∃ (defs : PyDefs) (refs : List ClassDecl), WellFormed defs refs ∧
    NoClash (Program.opts e Program.gen0) defs refs ∧
    ∃ C, (Program.opts e Program.gen0).toCatalog defs 10 .ok refs [] = .ok C ∧ ¬ TypesResolve C :=
  ⟨⟨[C34.odd], []⟩, [C34.odd], C34.fails (by decide +kernel) (by cases e <;> decide +kernel) (by cases e <;> decide +kernel)⟩

end PySqlSync
