/-
C34: the programs whose user-defined types are all created, exactly.
-/
import Verif.Props.C34

set_option autoImplicit false
set_option linter.unusedSectionVars false
set_option linter.unusedSimpArgs false

namespace PySqlSync
open Spec

namespace C34
open Conv

variable {o : ConvOptions} {defs : PyDefs} {depth : Nat} {refs : List ClassDecl} {enumRefs : List EnumDecl}

theorem not_predefined {n : PyName} {q : QId} (h : o.qualifiedId n = .ok q) : ¬ Predefined q := by
  unfold ConvOptions.qualifiedId at h
  simp only [bind_ok, pure_ok] at h
  obtain ⟨s, _, rfl⟩ := h
  rintro ⟨x, hx⟩
  split at hx <;> cases hx

theorem compatible2_back {a b r : SqlType} (h : compatible2 a b = .ok r) {q : QId} (hq : q ∈ userTypes a ∨ q ∈ userTypes b) : q ∈ userTypes r := by
  unfold compatible2 at h
  split at h
  · rename_i e
    cases h
    subst e
    exact hq.elim id id
  · split at h <;> (try split at h) <;> cases h <;> simp [userTypes] at hq

theorem fold_back {q : QId} : ∀ (rest : List SqlType) {a r : SqlType}, rest.foldlM compatible2 a = .ok r →
    (q ∈ userTypes a ∨ ∃ ty ∈ rest, q ∈ userTypes ty) → q ∈ userTypes r
  | [], a, r, h, hq => by
    cases h
    rcases hq with hq | ⟨_, ht, _⟩
    · exact hq
    · cases ht
  | b :: rest, a, r, h, hq => by
    rw [List.foldlM_cons] at h
    obtain ⟨x, hx, h'⟩ := bind_ok.1 h
    refine fold_back rest h' ?_
    rcases hq with hq | ⟨ty, ht, hq⟩
    · exact .inl (compatible2_back hx (.inl hq))
    · rcases List.mem_cons.1 ht with rfl | ht
      · exact .inl (compatible2_back hx (.inr hq))
      · exact .inr ⟨ty, ht, hq⟩

theorem compatible_back {ts : List SqlType} {r : SqlType} (h : compatibleType ts = .ok r) {ty : SqlType} (ht : ty ∈ ts) {q : QId}
    (hq : q ∈ userTypes ty) : q ∈ userTypes r := by
  cases ts with
  | nil => cases ht
  | cons a rest =>
    change rest.foldlM compatible2 a = .ok r at h
    refine fold_back rest h ?_
    rcases List.mem_cons.1 ht with rfl | ht
    · exact .inl hq
    · exact .inr ⟨ty, ht, hq⟩

theorem enum_needed {e : EnumDecl} {r : SqlType} (h : o.enumType e = .ok r) (hm : o.enumMode = .type) :
    ∃ q ∈ userTypes r, o.qualifiedId e.name = .ok q := by
  unfold ConvOptions.enumType at h
  cases hk : e.kind <;> rw [hk] at h <;> simp only [hm, reduceCtorEq, if_false] at h
  case int =>
    simp only [bind_ok, pure_ok] at h
    obtain ⟨q, hq, rfl⟩ := h
    exact ⟨q, by simp [userTypes], hq⟩
  case str =>
    simp only [bind_ok, pure_ok] at h
    obtain ⟨q, hq, rfl⟩ := h
    exact ⟨q, by simp [userTypes], hq⟩

/-- What a type refers to is predefined or called for. -/
theorem simple_exact (hs : PlainSubst o) {ty : PyType} {r : SqlType} (h : o.simpleType defs ty = .ok r) : ∀ q ∈ userTypes r,
    Predefined q ∨ ∃ n, NeedsType o defs ty n ∧ o.qualifiedId n = .ok q := by
  intro q hq
  unfold ConvOptions.simpleType at h
  split at h
  · cases h; exact .inl (primType_user hs _ q hq)
  · exact .inl (annotated_user hs h q hq)
  · rename_i n
    cases he : defs.enum n with
    | none => rw [he] at h; cases h
    | some e =>
      rw [he] at h
      rcases enum_user hs h q hq with h | ⟨hm, hqe⟩
      · exact .inl h
      · rw [C32.enum_name he] at hqe
        exact .inr ⟨n, .enum n hm, hqe⟩
  · cases h

theorem array_exact (hs : PlainSubst o) {item ty : PyType} (ht : ty = .list item ∨ ty = .set item) {r : SqlType}
    (h : o.arrayType defs item = .ok r) : ∀ q ∈ userTypes r, Predefined q ∨ ∃ n, NeedsType o defs ty n ∧ o.qualifiedId n = .ok q := by
  intro q hq
  unfold ConvOptions.arrayType at h
  split at h
  · rename_i hsimple
    split at h
    · rename_i ha
      simp only [bind_ok, pure_ok] at h
      obtain ⟨ity, hity, rfl⟩ := h
      rcases simple_exact hs hity q (by simpa [userTypes] using hq) with h | ⟨n, hn, hqn⟩
      · exact .inl h
      · cases hn with
        | enum _ hm => exact .inr ⟨n, .enums ty n ht ha hm, hqn⟩
        | other => simp [PyType.isSimple] at hsimple
        | struct => simp [PyType.isSimple] at hsimple
        | inline => simp [PyType.isSimple] at hsimple
        | entity => simp [PyType.isSimple] at hsimple
        | union => simp [PyType.isSimple] at hsimple
        | enums _ _ ht' => rcases ht' with rfl | rfl <;> simp [PyType.isSimple] at hsimple
        | structs _ _ ht' => rcases ht' with rfl | rfl <;> simp [PyType.isSimple] at hsimple
        | others _ _ ht' => rcases ht' with rfl | rfl <;> simp [PyType.isSimple] at hsimple
    · cases h; exact .inl (primType_user hs _ q hq)
    · cases h
  · split at h
    · cases h
    · rename_i hent
      cases item with
      | cls n =>
        dsimp only at h
        split at h
        · rename_i ha
          simp only [bind_ok, pure_ok] at h
          obtain ⟨q', hq', rfl⟩ := h
          simp only [userTypes, List.mem_singleton] at hq
          subst hq
          exact .inr ⟨n, .structs ty n ht ha (by simpa using hent), hq'⟩
        · cases h; exact .inl (primType_user hs _ q hq)
        · cases h
      | other n =>
        dsimp only at h
        split at h
        · rename_i ha
          simp only [bind_ok, pure_ok] at h
          obtain ⟨q', hq', rfl⟩ := h
          simp only [userTypes, List.mem_singleton] at hq
          subst hq
          exact .inr ⟨n, .others ty n ht ha, hq'⟩
        · cases h; exact .inl (primType_user hs _ q hq)
        · cases h
      | prim _ => cases h
      | annotated _ _ => cases h
      | enum _ => cases h
      | list _ => cases h
      | set _ => cases h
      | literal _ => cases h
      | union _ => cases h

theorem member_exact (hs : PlainSubst o) : ∀ (fuel : Nat) {ty : PyType} {r : SqlType}, o.memberType defs fuel ty = .ok r → ∀ q ∈ userTypes r,
    Predefined q ∨ ∃ n, NeedsType o defs ty n ∧ o.qualifiedId n = .ok q
  | 0, _, _, h => by simp [ConvOptions.memberType] at h
  | fuel + 1, ty, r, h => by
    intro q hq
    unfold ConvOptions.memberType at h
    cases ty with
    | prim p => exact simple_exact hs h q hq
    | annotated p ms => exact simple_exact hs h q hq
    | enum n => exact simple_exact hs h q hq
    | other n =>
      simp only [bind_ok, pure_ok] at h
      obtain ⟨q', hq', rfl⟩ := h
      simp only [userTypes, List.mem_singleton] at hq
      subst hq
      exact .inr ⟨n, .other n, hq'⟩
    | literal vs =>
      dsimp only at h
      obtain ⟨ty, hty, hq'⟩ := compatible_user h q hq
      obtain ⟨v, _, rfl⟩ := List.mem_map.1 hty
      simp [userTypes] at hq'
    | list item => exact array_exact hs (.inl rfl) h q hq
    | set item => exact array_exact hs (.inr rfl) h q hq
    | cls n =>
      dsimp only at h
      cases hc : defs.cls n with
      | none => rw [hc] at h; cases h
      | some c =>
        rw [hc] at h
        dsimp only at h
        cases hk : c.key with
        | some k =>
          rw [hk] at h
          rcases member_exact hs fuel h q hq with h' | ⟨m, hm, hqm⟩
          · exact .inl h'
          · exact .inr ⟨m, .entity n m c k hc hk hm, hqm⟩
        | none =>
          rw [hk] at h
          dsimp only at h
          split at h
          · rename_i hm
            simp only [bind_ok, pure_ok] at h
            obtain ⟨q', hq', rfl⟩ := h
            simp only [userTypes, List.mem_singleton] at hq
            subst hq
            exact .inr ⟨n, .struct n c hc hk hm, hq'⟩
          · rename_i hsm
            simp only [bind_ok, pure_ok] at h
            obtain ⟨fields, hfields, rfl⟩ := h
            simp only [userTypes] at hq
            obtain ⟨x, hx, hqx⟩ := structFields_user hq
            obtain ⟨f, hf, hfx⟩ := mapM_back hfields x hx
            simp only [bind_ok, pure_ok] at hfx
            obtain ⟨fty, hfty, rfl⟩ := hfx
            rcases member_exact hs fuel hfty q hqx with h' | ⟨m, hm, hqm⟩
            · exact .inl h'
            · exact .inr ⟨m, .inline n m c f hc hk hsm hf hm, hqm⟩
          · cases h; exact .inl (primType_user hs _ q hq)
    | union ms =>
      dsimp only at h
      cases hx : (PyType.union ms).isExtensible with
      | true => rw [hx] at h; cases h; exact .inl (primType_user hs _ q hq)
      | false =>
        rw [hx] at h
        simp only [Bool.false_eq_true, if_false] at h
        split at h
        · rename_i hall
          split at h
          · rename_i kty hkt
            have hmem : kty ∈ defs.keyTypes ms.toList := C36.mem_eraseDups.1 (by rw [hkt]; exact List.mem_cons_self ..)
            unfold PyDefs.keyTypes at hmem
            obtain ⟨m, hm, he⟩ := List.mem_filterMap.1 hmem
            obtain ⟨n, c, rfl, hdc, hck⟩ := C32.entity_inv (List.all_eq_true.1 hall m hm)
            cases hk : c.key with
            | none => rw [hk] at hck; cases hck
            | some k =>
              simp [hdc, hk] at he
              subst he
              rcases member_exact hs fuel h q hq with h' | ⟨m', hm', hqm⟩
              · exact .inl h'
              · exact .inr ⟨m', .union ms _ m' hx hm (.entity n m' c k hdc hk hm'), hqm⟩
          · cases h
        · obtain ⟨types, htypes, h⟩ := bind_ok.1 h
          split at h
          · rename_i r' hr'
            cases h
            obtain ⟨ty, hty, hqt⟩ := compatible_user hr' q hq
            obtain ⟨m, hm, hmt⟩ := mapM_back htypes ty hty
            rcases member_exact hs fuel hmt q hqt with h' | ⟨m', hm', hqm⟩
            · exact .inl h'
            · exact .inr ⟨m', .union ms m m' hx hm hm', hqm⟩
          · cases h

theorem structFields_has : ∀ {l : List (Text × SqlType × Bool)} {x : Text × SqlType × Bool}, x ∈ l → ∀ {q : QId}, q ∈ userTypes x.2.1 →
    q ∈ structUserTypes (structFields l)
  | [], _, h, _, _ => by cases h
  | (_, ty, _) :: rest, x, h, q, hq => by
    simp only [structFields, structUserTypes, List.mem_append]
    rcases List.mem_cons.1 h with rfl | h
    · exact .inl hq
    · exact .inr (structFields_has h hq)

theorem array_needed {item : PyType} {r : SqlType} (h : o.arrayType defs item = .ok r) {n : PyName} (ha : o.arrayMode = .array)
    (hn : (item = .enum n ∧ o.enumMode = .type) ∨ (item = .cls n ∧ defs.isEntity (.cls n) = false) ∨ item = .other n) :
    ∃ q ∈ userTypes r, o.qualifiedId n = .ok q := by
  unfold ConvOptions.arrayType at h
  rcases hn with ⟨rfl, hm⟩ | ⟨rfl, hne⟩ | rfl
  · simp only [PyType.isSimple, if_true, ha, bind_ok, pure_ok] at h
    obtain ⟨ity, hity, rfl⟩ := h
    unfold ConvOptions.simpleType at hity
    dsimp only at hity
    cases he : defs.enum n with
    | none => rw [he] at hity; cases hity
    | some e =>
      rw [he] at hity
      obtain ⟨q, hq, hqe⟩ := enum_needed hity hm
      rw [C32.enum_name he] at hqe
      exact ⟨q, by simpa [userTypes] using hq, hqe⟩
  · simp only [PyType.isSimple, Bool.false_eq_true, if_false, hne, ha, bind_ok, pure_ok] at h
    obtain ⟨q, hq, rfl⟩ := h
    exact ⟨q, by simp [userTypes], hq⟩
  · simp only [PyType.isSimple, Bool.false_eq_true, if_false, PyDefs.isEntity, ha, bind_ok, pure_ok] at h
    obtain ⟨q, hq, rfl⟩ := h
    exact ⟨q, by simp [userTypes], hq⟩

/-- What is called for is referred to. -/
theorem member_needed : ∀ (fuel : Nat) {ty : PyType} {r : SqlType}, o.memberType defs fuel ty = .ok r → ∀ {n : PyName}, NeedsType o defs ty n →
    ∃ q ∈ userTypes r, o.qualifiedId n = .ok q
  | 0, _, _, h, _, _ => by simp [ConvOptions.memberType] at h
  | fuel + 1, ty, r, h, n, hn => by
    unfold ConvOptions.memberType at h
    cases hn with
    | enum _ hm =>
      dsimp only at h
      unfold ConvOptions.simpleType at h
      dsimp only at h
      cases he : defs.enum n with
      | none => rw [he] at h; cases h
      | some e =>
        rw [he] at h
        obtain ⟨q, hq, hqe⟩ := enum_needed h hm
        rw [C32.enum_name he] at hqe
        exact ⟨q, hq, hqe⟩
    | other _ =>
      simp only [bind_ok, pure_ok] at h
      obtain ⟨q, hq, rfl⟩ := h
      exact ⟨q, by simp [userTypes], hq⟩
    | struct _ c hc hk hm =>
      simp only [hc, hk, hm, bind_ok, pure_ok] at h
      obtain ⟨q, hq, rfl⟩ := h
      exact ⟨q, by simp [userTypes], hq⟩
    | inline x _ c f hc hk hm hf h' =>
      simp only [hc, hk, hm, bind_ok, pure_ok] at h
      obtain ⟨fields, hfields, rfl⟩ := h
      obtain ⟨y, hy, hfy⟩ := mapM_fwd hfields f hf
      simp only [bind_ok, pure_ok] at hfy
      obtain ⟨fty, hfty, rfl⟩ := hfy
      obtain ⟨q, hq, hqn⟩ := member_needed fuel hfty h'
      exact ⟨q, by simp only [userTypes]; exact structFields_has hy hq, hqn⟩
    | entity x _ c k hc hk h' =>
      simp only [hc, hk] at h
      exact member_needed fuel h h'
    | enums _ _ ht ha hm =>
      rcases ht with rfl | rfl <;> exact array_needed h ha (.inl ⟨rfl, hm⟩)
    | structs _ _ ht ha he =>
      rcases ht with rfl | rfl <;> exact array_needed h ha (.inr (.inl ⟨rfl, he⟩))
    | others _ _ ht ha =>
      rcases ht with rfl | rfl <;> exact array_needed h ha (.inr (.inr rfl))
    | union ms m _ hx hm h' =>
      dsimp only at h
      rw [hx] at h
      simp only [Bool.false_eq_true, if_false] at h
      split at h
      · rename_i hall
        split at h
        · rename_i kty hkt
          obtain ⟨x, c, rfl, hdc, hck⟩ := C32.entity_inv (List.all_eq_true.1 hall m hm)
          cases hk : c.key with
          | none => rw [hk] at hck; cases hck
          | some k =>
            have hmem : k.ty ∈ (defs.keyTypes ms.toList).eraseDups := by
              rw [C36.mem_eraseDups]
              unfold PyDefs.keyTypes
              exact List.mem_filterMap.2 ⟨_, hm, by simp [hdc, hk]⟩
            rw [hkt, List.mem_singleton] at hmem
            subst hmem
            cases h' with
            | struct _ c' hc' hk' _ => rw [hdc] at hc'; cases hc'; rw [hk] at hk'; cases hk'
            | inline _ _ c' f hc' hk' _ _ _ => rw [hdc] at hc'; cases hc'; rw [hk] at hk'; cases hk'
            | entity _ _ c' k' hc' hk' h'' =>
              rw [hdc] at hc'; cases hc'; rw [hk] at hk'; cases hk'
              exact member_needed fuel h h''
            | enums _ _ ht => rcases ht with ht | ht <;> cases ht
            | structs _ _ ht => rcases ht with ht | ht <;> cases ht
            | others _ _ ht => rcases ht with ht | ht <;> cases ht
        · cases h
      · obtain ⟨types, htypes, h⟩ := bind_ok.1 h
        split at h
        · rename_i r' hr'
          cases h
          obtain ⟨ty, hty, hmt⟩ := mapM_fwd htypes m hm
          obtain ⟨q, hq, hqn⟩ := member_needed fuel hmt h'
          exact ⟨q, compatible_back hr' hty hq, hqn⟩
        · cases h

/-- A name that is given last is in the dictionary. -/
theorem setItem_self {α : Type} [Named α] (items : List α) (a : α) : a ∈ ODict.setItem items a := by
  induction items with
  | nil => exact List.mem_cons_self ..
  | cons b rest ih =>
    unfold ODict.setItem
    split
    · exact List.mem_cons_self ..
    · exact List.mem_cons_of_mem _ ih

theorem setItem_other {α : Type} [Named α] {items : List α} {a b : α} (h : b ∈ items) (hk : Named.key b ≠ Named.key a) : b ∈ ODict.setItem items a := by
  induction items with
  | nil => cases h
  | cons c rest ih =>
    unfold ODict.setItem
    rcases List.mem_cons.1 h with rfl | h
    · rw [if_neg hk]; exact List.mem_cons_self ..
    · split
      · exact List.mem_cons_of_mem _ h
      · exact List.mem_cons_of_mem _ (ih h)

theorem foldl_last {α : Type} [Named α] : ∀ {l : List α} (acc : List α), (l.map Named.key).Nodup → ∀ {a : α}, a ∈ l → a ∈ l.foldl ODict.setItem acc
  | [], _, _, _, h => by cases h
  | b :: rest, acc, hn, a, h => by
    rw [List.map_cons, List.nodup_cons] at hn
    rw [List.foldl_cons]
    rcases List.mem_cons.1 h with rfl | h
    · exact keep rest _ (fun c hc e => hn.1 (List.mem_map.2 ⟨c, hc, e⟩)) (setItem_self acc a)
    · exact foldl_last _ hn.2 h
where
  keep {α : Type} [Named α] {a : α} : ∀ (rest : List α) (acc : List α), (∀ c ∈ rest, Named.key c ≠ Named.key a) → a ∈ acc → a ∈ rest.foldl ODict.setItem acc
  | [], _, _, h => h
  | b :: rest, acc, hn, h => by
    rw [List.foldl_cons]
    exact keep rest _ (fun c hc => hn c (List.mem_cons_of_mem _ hc)) (setItem_other h (Ne.symm (hn b (List.mem_cons_self ..))))

/-- The names of columns are those of the fields. -/
theorem column_names : ∀ {l : List FieldDecl} {cols : List Column}, l.mapM (o.memberColumn defs depth) = .ok cols →
    cols.map Named.key = l.map FieldDecl.name
  | [], cols, h => by cases h; rfl
  | f :: rest, cols, h => by
    obtain ⟨b, bs, hb, hbs, rfl⟩ := mapM_cons_ok.1 h
    rw [List.map_cons, List.map_cons, column_names hbs]
    unfold ConvOptions.memberColumn at hb
    simp only [bind_ok, pure_ok] at hb
    obtain ⟨ty, _, rfl⟩ := hb
    rfl

theorem members_names : ∀ {l : List FieldDecl} {ms : List StructMember}, l.mapM (fun f => do
      let ty ← o.memberType defs depth f.ty
      pure { name := f.name, ty := ty : StructMember }) = .ok ms → ms.map Named.key = l.map FieldDecl.name
  | [], ms, h => by cases h; rfl
  | f :: rest, ms, h => by
    obtain ⟨b, bs, hb, hbs, rfl⟩ := mapM_cons_ok.1 h
    rw [List.map_cons, List.map_cons, members_names hbs]
    simp only [bind_ok, pure_ok] at hb
    obtain ⟨ty, _, rfl⟩ := hb
    rfl

theorem not_relationship {ty : PyType} : o.relationship defs ty = none ↔
    ¬ ∃ item, (ty = .list item ∨ ty = .set item) ∧ (o.arrayMode = .relation ∨ defs.isEntity item = true) := by
  constructor
  · rintro h ⟨item, ht, hr⟩
    rcases ht with rfl | rfl <;> rcases hr with hr | hr <;> simp [ConvOptions.relationship, hr] at h
  · intro h
    cases hr : o.relationship defs ty with
    | none => rfl
    | some p => exact absurd ⟨p.2, C32.relationship_inv (isList := p.1) (item := p.2) hr⟩ h

/-- A column or member of this type. -/
def Occurs (C : Catalog) (r : SqlType) : Prop :=
  (∃ s tb, InCatalog C s tb ∧ ∃ col ∈ tb.columns.items, col.ty = r) ∨
  (∃ n ∈ C.namespaces.items, ∃ s ∈ n.structs.items, ∃ m ∈ s.members.items, m.ty = r)

theorem resolve_iff {C : Catalog} : TypesResolve C ↔ ∀ r, Occurs C r → ∀ q ∈ userTypes r, Predefined q ∨ Creates C q := by
  constructor
  · rintro h r (⟨s, tb, htb, col, hcol, rfl⟩ | ⟨n, hn, s, hs, m, hm, rfl⟩)
    · exact h.columns s tb htb col hcol
    · exact h.members n hn s hs m hm
  · intro h
    exact ⟨fun s tb htb col hcol => h _ (.inl ⟨s, tb, htb, col, hcol, rfl⟩), fun n hn s hs m hm => h _ (.inr ⟨n, hn, s, hs, m, hm, rfl⟩)⟩

/-- The modules of the namespaces have tables. -/
theorem namespace_module {topo : List ClassDecl → Except Err (List ClassDecl)} {C : Catalog}
    (h : o.toCatalog defs depth topo refs enumRefs = .ok C) (hq : o.qualified = true) {n : Namespace} (hn : n ∈ C.namespaces.items) :
    ∃ enums structs m, o.allEnums enumRefs = .ok enums ∧ o.allStructs defs depth topo refs = .ok structs ∧ HasTable o defs refs m ∧
      n.enums = ODict.ofList (ofModule m enums) ∧ n.structs = ODict.ofList (ofModule m structs) := by
  obtain ⟨enums, structs, tables, h1, h2, h3, h4⟩ := C32.toCatalog_inv h
  rcases h4 with ⟨_, nss, h5, rfl⟩ | ⟨hq', _⟩
  · obtain ⟨m, hm, hb⟩ := mapM_back h5 n (of_mem_ofList hn)
    rw [C36.mem_eraseDups, List.mem_map] at hm
    obtain ⟨⟨m', tb⟩, hm, rfl⟩ := hm
    obtain ⟨s, hs, _, e⟩ := C32.allTables_back h3 hm
    obtain ⟨_, _, _, he, hst, _⟩ := C32.moduleNamespace_inv hb
    exact ⟨enums, structs, m', h1, h2, ⟨s, hs, e.symm⟩, he, hst⟩
  · rw [hq] at hq'; cases hq'

/-- Nothing else is created. -/
theorem created_declared (hd : TypesKnown o defs enumRefs) {topo : List ClassDecl → Except Err (List ClassDecl)}
    (htopo : ∀ l l', topo l = .ok l' → l'.Perm l) {C : Catalog} (h : o.toCatalog defs depth topo refs enumRefs = .ok C) {q : QId}
    (hq : Creates C q) : MakesType o defs refs enumRefs q := by
  obtain ⟨n, hn, _, hq⟩ := hq
  have empty : ∀ {α : Type} [Named α] {a : α}, a ∈ (ODict.ofList (byModule ([] : List (Text × α)))).items → False := by
    intro α _ a ha
    obtain ⟨m, hm⟩ := C32.mem_byModule.1 (of_mem_ofList ha)
    cases hm
  by_cases hqual : o.qualified = true
  · obtain ⟨enums, structs, m, h1, h2, ht, he, hst⟩ := namespace_module h hqual hn
    rcases hq with ⟨et, hmem, rfl⟩ | ⟨st, hmem, rfl⟩
    · rw [he] at hmem
      have hin := C32.mem_ofModule.1 (of_mem_ofList hmem)
      by_cases hm : o.enumMode = .type
      · obtain ⟨e, hee, h2, rfl, s, hs, rfl⟩ := (allEnums_iff hm h1).1 hin
        refine .inl ⟨e, hee, hm, h2, ht, ?_⟩
        unfold ConvOptions.qualifiedId
        simp only [bind_ok, pure_ok, hqual, if_true]
        exact ⟨s, hs, rfl⟩
      · unfold ConvOptions.allEnums at h1
        rw [if_neg hm] at h1
        cases h1
        cases hin
    · rw [hst] at hmem
      have hin := C32.mem_ofModule.1 (of_mem_ofList hmem)
      by_cases hm : o.structMode = .type
      · obtain ⟨c, hc, hs, rfl, hb⟩ := (allStructs_iff hm htopo h2).1 hin
        unfold ConvOptions.dataclassStruct at hb
        simp only [bind_ok, pure_ok] at hb
        obtain ⟨_, _, q', hq', rfl⟩ := hb
        exact .inr ⟨c, hc, by simpa [ClassDecl.isStruct] using hs, hm, ht, hq'⟩
      · unfold ConvOptions.allStructs at h2
        rw [if_neg hm] at h2
        cases h2
        cases hin
  · obtain ⟨enums, structs, tables, h1, h2, h3, h4⟩ := C32.toCatalog_inv h
    have hm1 : o.enumMode ≠ .type := fun e => hqual (hd.qualified (.inl e))
    have hm2 : o.structMode ≠ .type := fun e => hqual (hd.qualified (.inr e))
    unfold ConvOptions.allEnums at h1
    unfold ConvOptions.allStructs at h2
    rw [if_neg hm1] at h1
    rw [if_neg hm2] at h2
    cases h1
    cases h2
    rcases h4 with ⟨hq', _⟩ | ⟨_, rfl⟩
    · exact absurd hq' hqual
    · have := of_mem_ofList hn
      rw [List.mem_singleton] at this
      subst this
      rcases hq with ⟨et, hmem, rfl⟩ | ⟨st, hmem, rfl⟩
      · exact (empty hmem).elim
      · exact (empty hmem).elim

theorem creates_iff (hw : WellFormed defs refs) (hn : NoClash o defs refs) (hd : TypesKnown o defs enumRefs)
    {topo : List ClassDecl → Except Err (List ClassDecl)} (htopo : ∀ l l', topo l = .ok l' → l'.Perm l)
    {C : Catalog} (h : o.toCatalog defs depth topo refs enumRefs = .ok C) {q : QId} : Creates C q ↔ MakesType o defs refs enumRefs q := by
  constructor
  · exact created_declared hd htopo h
  · rintro (hq | ⟨c, hc, hk, hm, ht, hq⟩)
    · exact declared_created hw hn hd htopo h (.inl hq)
    · exact declared_created hw hn hd htopo h (.inr ⟨c, hc, by simp [ClassDecl.isStruct, hk], hm, ht, hq⟩)

/-- The type of each column and member is predefined or that of a field. -/
theorem occurs_back (hs : PlainSubst o) (hw : WellFormed defs refs) (hn : NoClash o defs refs) (hd : TypesKnown o defs enumRefs)
    {topo : List ClassDecl → Except Err (List ClassDecl)} (htopo : ∀ l l', topo l = .ok l' → l'.Perm l)
    {C : Catalog} (h : o.toCatalog defs depth topo refs enumRefs = .ok C) {r : SqlType} (hr : Occurs C r) :
    (∀ q ∈ userTypes r, Predefined q) ∨ ∃ f, ColumnField o defs refs f ∧ o.memberType defs depth f.ty = .ok r := by
  obtain ⟨enums, structs, tables, h1, h2, h3, h4⟩ := C32.toCatalog_inv h
  have hscal := C32.scalar_keys h3
  have hkey : ∀ c ∈ refs, ∀ k, c.key = some k → ColumnField o defs refs k := by
    intro c hc k hk
    refine .inl ⟨c, hc, by simp [hk], ?_, not_relationship.1 (hscal c hc k hk)⟩
    unfold ClassDecl.key at hk
    exact List.mem_of_find?_eq_some hk
  have hcol : ∀ {f : FieldDecl} {col : Column}, o.memberColumn defs depth f = .ok col → o.memberType defs depth f.ty = .ok col.ty := by
    intro f col hb
    unfold ConvOptions.memberColumn at hb
    simp only [bind_ok, pure_ok] at hb
    obtain ⟨ty, hty, rfl⟩ := hb
    exact hty
  rcases hr with ⟨s, tb, htb, col, hc, rfl⟩ | ⟨n, hnc, st, hst, m, hm, rfl⟩
  · obtain ⟨src, hmk, hB, _⟩ := (C32.catalog_tables hw hn h s tb).1 htb
    cases src with
    | entity n =>
      obtain ⟨c, hcr, rfl, hk, hb⟩ := hB
      obtain ⟨columns, _, _, _, _, _, _, k, h1, _, _, _, _, _, _, hk', rfl⟩ := C32.dataclassTable_inv hb
      obtain ⟨f, hf, hb⟩ := mapM_back h1 col (of_mem_ofList hc)
      obtain ⟨hf, hrel⟩ := List.mem_filter.1 hf
      exact .inr ⟨f, .inl ⟨c, hcr, hk, hf, not_relationship.1 (by simpa using hrel)⟩, hcol hb⟩
    | enum n =>
      obtain ⟨e, he, hb⟩ := hB
      unfold ConvOptions.enumTable at hb
      simp only [bind_ok] at hb
      obtain ⟨name, hname, hb⟩ := hb
      cases hk : e.kind with
      | int =>
        rw [hk] at hb
        simp only [bind_ok, pure_ok] at hb
        obtain ⟨label, hl, rfl⟩ := hb
        have := of_mem_ofList hc
        simp only [List.mem_cons, List.not_mem_nil, or_false] at this
        rcases this with rfl | rfl
        · exact .inl (primType_user hs _)
        · exact .inl (annotated_user hs hl)
      | str =>
        rw [hk] at hb
        simp only [bind_ok, pure_ok] at hb
        obtain ⟨label, hl, rfl⟩ := hb
        have := of_mem_ofList hc
        simp only [List.mem_cons, List.not_mem_nil, or_false] at this
        rcases this with rfl | rfl
        · exact .inl (primType_user hs _)
        · exact .inl (annotated_user hs hl)
      | struct fields =>
        rw [hk] at hb
        simp only [bind_ok, pure_ok] at hb
        obtain ⟨cols, hcols, rfl⟩ := hb
        rcases List.mem_cons.1 (of_mem_ofList hc) with rfl | hc
        · exact .inl (primType_user hs _)
        · obtain ⟨f, hf, hb⟩ := mapM_back hcols col hc
          exact .inr ⟨f, .inr (.inl ⟨n, e, fields, hmk, he, hk, hf⟩), hcol hb⟩
      | empty => rw [hk] at hb; cases hb
      | mixed => rw [hk] at hb; cases hb
      | other => rw [hk] at hb; cases hb
    | join owner f i =>
      obtain ⟨c, hcr, rfl, _, fd, hf, rfl, isList, item, hr, hi, hb⟩ := hB
      obtain ⟨k, x, lt, _, _, _, _, hk, hx, hlt, _, _, _, h1, rfl⟩ := C32.joinTable_inv hb
      have := of_mem_ofList hc
      simp only [List.mem_cons, List.not_mem_nil, or_false] at this
      rcases this with rfl | rfl | rfl
      · exact .inl (primType_user hs _)
      · exact .inr ⟨k, hkey c hcr k hk, hlt⟩
      · rcases C32.joinItem_inv hx with ⟨hit, k', hk', hkn, hty⟩ | ⟨hit, hm, hid, hty⟩
        · cases hd' : defs.cls x.1 with
          | none => rw [hd'] at hk'; cases hk'
          | some c' =>
            rw [hd'] at hk'
            have hmem : x.1 ∈ typeClasses fd.ty := by
              rcases (C32.relationship_inv hr).1 with h | h <;> simp [h, hit, typeClasses]
            obtain ⟨c'', hc'', hcn⟩ := hw.closed c hcr fd hf x.1 hmem
            have := hw.known c'' hc''
            rw [hcn, hd'] at this
            cases this
            exact .inr ⟨k', hkey c' hc'' k' hk', hty⟩
        · refine .inl ?_
          show ∀ q ∈ userTypes x.2.2, Predefined q
          rw [show x.2.2 = o.enumKeyType from hty]
          exact primType_user hs _
  · by_cases hmode : o.structMode = .type
    · have hqual := hd.qualified (.inr hmode)
      obtain ⟨_, structs', mo, _, h2', ht, _, hss⟩ := namespace_module h hqual hnc
      rw [hss] at hst
      obtain ⟨c, hc, hstr, rfl, hb⟩ := (allStructs_iff hmode htopo h2').1 (C32.mem_ofModule.1 (of_mem_ofList hst))
      unfold ConvOptions.dataclassStruct at hb
      simp only [bind_ok, pure_ok] at hb
      obtain ⟨members, hmem, name, _, rfl⟩ := hb
      obtain ⟨f, hf, hfm⟩ := mapM_back hmem m (of_mem_ofList hm)
      simp only [bind_ok, pure_ok] at hfm
      obtain ⟨ty, hty, rfl⟩ := hfm
      exact .inr ⟨f, .inr (.inr ⟨hmode, c, hc, by simpa [ClassDecl.isStruct] using hstr, ht, hf⟩), hty⟩
    · exfalso
      unfold ConvOptions.allStructs at h2
      rw [if_neg hmode] at h2
      cases h2
      rcases h4 with ⟨_, nss, h5, rfl⟩ | ⟨_, rfl⟩
      · obtain ⟨_, _, hb⟩ := mapM_back h5 n (of_mem_ofList hnc)
        obtain ⟨_, _, _, _, hss, _⟩ := C32.moduleNamespace_inv hb
        rw [hss] at hst
        cases C32.mem_ofModule.1 (of_mem_ofList hst)
      · have := of_mem_ofList hnc
        rw [List.mem_singleton] at this
        subst this
        obtain ⟨_, hx⟩ := C32.mem_byModule.1 (of_mem_ofList hst)
        cases hx

/-- Each of those fields becomes a column or a member. -/
theorem occurs_fwd (hw : WellFormed defs refs) (hn : NoClash o defs refs) (hd : TypesKnown o defs enumRefs) (hfields : EnumFields defs)
    {topo : List ClassDecl → Except Err (List ClassDecl)} (htopo : ∀ l l', topo l = .ok l' → l'.Perm l)
    {C : Catalog} (h : o.toCatalog defs depth topo refs enumRefs = .ok C) {f : FieldDecl} (hf : ColumnField o defs refs f) :
    ∃ r, o.memberType defs depth f.ty = .ok r ∧ Occurs C r := by
  obtain ⟨enums, structs, tables, h1, h2, h3, h4⟩ := C32.toCatalog_inv h
  have hcol : ∀ {f : FieldDecl} {col : Column}, o.memberColumn defs depth f = .ok col → o.memberType defs depth f.ty = .ok col.ty := by
    intro f col hb
    unfold ConvOptions.memberColumn at hb
    simp only [bind_ok, pure_ok] at hb
    obtain ⟨ty, hty, rfl⟩ := hb
    exact hty
  have htab : ∀ {s : TableSource}, Makes o defs refs s → ∃ tb, C32.Built o defs depth refs s tb ∧ InCatalog C tb.name.key.1 tb := by
    intro s hs
    obtain ⟨tb, _, hB⟩ := C32.allTables_fwd h3 hs
    exact ⟨tb, hB, (C32.catalog_tables hw hn h _ _).2 ⟨s, hs, hB, rfl⟩⟩
  rcases hf with ⟨c, hc, hk, hf, hrel⟩ | ⟨n, e, fields, hmk, he, hk, hf⟩ | ⟨hm, c, hc, hk, ht, hf⟩
  · obtain ⟨tb, hB, hin⟩ := htab (.entity c hc hk)
    obtain ⟨c', hc', hcn, _, hb⟩ := hB
    cases C32.wf_unique hw hc' hc hcn
    obtain ⟨columns, _, _, _, _, _, _, k, h1, _, _, _, _, _, _, _, rfl⟩ := C32.dataclassTable_inv hb
    obtain ⟨col, hmem, hb⟩ := mapM_fwd h1 f (List.mem_filter.2 ⟨hf, by rw [not_relationship.2 hrel]; rfl⟩)
    refine ⟨col.ty, hcol hb, .inl ⟨_, _, hin, col, ?_, rfl⟩⟩
    refine foldl_last [] ?_ hmem
    rw [column_names h1]
    exact ((hw.fields c hc).sublist (List.Sublist.map _ List.filter_sublist))
  · obtain ⟨tb, hB, hin⟩ := htab hmk
    obtain ⟨e', he', hb⟩ := hB
    rw [he] at he'
    cases he'
    unfold ConvOptions.enumTable at hb
    simp only [bind_ok, hk, pure_ok] at hb
    obtain ⟨name, hname, cols, hcols, rfl⟩ := hb
    obtain ⟨col, hmem, hb⟩ := mapM_fwd hcols f hf
    refine ⟨col.ty, hcol hb, .inl ⟨_, _, hin, col, ?_, rfl⟩⟩
    show col ∈ (_ :: cols).foldl ODict.setItem []
    rw [List.foldl_cons]
    refine foldl_last _ ?_ hmem
    rw [column_names hcols]
    exact hfields n e fields he hk
  · obtain ⟨q, hq⟩ : ∃ q, o.qualifiedId c.name = .ok q := by
      have h2' := h2
      unfold ConvOptions.allStructs at h2'
      rw [if_pos hm] at h2'
      obtain ⟨l', hl', h2'⟩ := bind_ok.1 h2'
      obtain ⟨x, hx, hb⟩ := mapM_fwd h2' c (by rw [(htopo _ _ hl').mem_iff, mem_sortBy, List.mem_filter]; exact ⟨hc, by simp [ClassDecl.isStruct, hk]⟩)
      simp only [bind_ok, pure_ok] at hb
      obtain ⟨st, hst, _⟩ := hb
      unfold ConvOptions.dataclassStruct at hst
      simp only [bind_ok, pure_ok] at hst
      obtain ⟨_, _, q, hq, _⟩ := hst
      exact ⟨q, hq⟩
    obtain ⟨ns, hns, _, st, hst, _, hb⟩ := struct_created hw hn hd htopo h hm hc (by simp [ClassDecl.isStruct, hk]) ht hq
    unfold ConvOptions.dataclassStruct at hb
    simp only [bind_ok, pure_ok] at hb
    obtain ⟨members, hmem, _, _, rfl⟩ := hb
    obtain ⟨m, hmm, hb⟩ := mapM_fwd hmem f hf
    refine ⟨m.ty, ?_, .inr ⟨ns, hns, _, hst, m, ?_, rfl⟩⟩
    · simp only [bind_ok, pure_ok] at hb
      obtain ⟨ty, hty, rfl⟩ := hb
      exact hty
    · refine foldl_last [] ?_ hmm
      rw [members_names hmem]
      exact hw.fields c hc

end C34

/-- **C34**: the user-defined types that columns of tables and members of struct types refer to are all created if and only if each
    type that a field calls for is made; for every program, and all options. -/
theorem C34_exact_criterion (o : ConvOptions) (defs : PyDefs) (depth : Nat) (topo : List ClassDecl → Except Err (List ClassDecl))
    (refs : List ClassDecl) (enumRefs : List EnumDecl) (C : Catalog) (htopo : ∀ l l', topo l = .ok l' → l'.Perm l)
    (hs : ∀ p ty, o.substitution p = some ty → ∀ q ∈ userTypes ty, Predefined q)
    (hw : WellFormed defs refs) (hn : NoClash o defs refs) (hd : TypesKnown o defs enumRefs) (hf : EnumFields defs)
    (h : o.toCatalog defs depth topo refs enumRefs = .ok C) :
    TypesResolve C ↔ ∀ f, ColumnField o defs refs f → ∀ n, NeedsType o defs f.ty n → ∃ q, o.qualifiedId n = .ok q ∧ MakesType o defs refs enumRefs q := by
  rw [C34.resolve_iff]
  constructor
  · intro hr f hff n hneed
    obtain ⟨r, hty, hocc⟩ := C34.occurs_fwd hw hn hd hf htopo h hff
    obtain ⟨q, hq, hqn⟩ := C34.member_needed depth hty hneed
    refine ⟨q, hqn, ?_⟩
    rcases hr r hocc q hq with hp | hc
    · exact absurd hp (C34.not_predefined hqn)
    · exact (C34.creates_iff hw hn hd htopo h).1 hc
  · intro hall r hocc q hq
    rcases C34.occurs_back hs hw hn hd htopo h hocc with hp | ⟨f, hff, hty⟩
    · exact .inl (hp q hq)
    · rcases C34.member_exact hs depth hty q hq with hp | ⟨n, hneed, hqn⟩
      · exact .inl hp
      · obtain ⟨q', hq', hm⟩ := hall f hff n hneed
        rw [hqn] at hq'
        cases hq'
        exact .inr ((C34.creates_iff hw hn hd htopo h).2 hm)

/-- The types that are created are exactly those that are made. -/
theorem C34_created_types (o : ConvOptions) (defs : PyDefs) (depth : Nat) (topo : List ClassDecl → Except Err (List ClassDecl))
    (refs : List ClassDecl) (enumRefs : List EnumDecl) (C : Catalog) (htopo : ∀ l l', topo l = .ok l' → l'.Perm l)
    (hw : WellFormed defs refs) (hn : NoClash o defs refs) (hd : TypesKnown o defs enumRefs)
    (h : o.toCatalog defs depth topo refs enumRefs = .ok C) (q : QId) : Creates C q ↔ MakesType o defs refs enumRefs q :=
  C34.creates_iff hw hn hd htopo h

/-- For every engine and all options that its generator accepts. -/
theorem C34_engine_criterion (e : Engine) (g : GenOptions) (o : ConvOptions) (ho : e.options g = .ok o) (defs : PyDefs) (depth : Nat)
    (topo : List ClassDecl → Except Err (List ClassDecl)) (refs : List ClassDecl) (enumRefs : List EnumDecl) (C : Catalog)
    (htopo : ∀ l l', topo l = .ok l' → l'.Perm l) (hw : WellFormed defs refs) (hn : NoClash o defs refs)
    (hk : ∀ e ∈ enumRefs, defs.enum e.name = some e) (hf : EnumFields defs) (h : o.toCatalog defs depth topo refs enumRefs = .ok C) :
    TypesResolve C ↔ ∀ f, ColumnField o defs refs f → ∀ n, NeedsType o defs f.ty n → ∃ q, o.qualifiedId n = .ok q ∧ MakesType o defs refs enumRefs q :=
  C34_exact_criterion o defs depth topo refs enumRefs C htopo (C34_engines e g o ho).1 hw hn ⟨hk, (C34_engines e g o ho).2⟩ hf h

/-- The hypotheses are met by the example program for every engine, and each type that a field calls for is made. -/
example (e : Engine) : ∃ C, (Program.opts e Program.gen0).toCatalog Program.defs0 10 .ok Program.refs0 Program.enums0 = .ok C ∧
    ∀ f, ColumnField (Program.opts e Program.gen0) Program.defs0 Program.refs0 f → ∀ n, NeedsType (Program.opts e Program.gen0) Program.defs0 f.ty n →
      ∃ q, (Program.opts e Program.gen0).qualifiedId n = .ok q ∧ MakesType (Program.opts e Program.gen0) Program.defs0 Program.refs0 Program.enums0 q := by
  obtain ⟨C, h⟩ := Program.accepted0 e
  obtain ⟨o, ho⟩ : ∃ o, e.options Program.gen0 = .ok o := by cases e <;> exact ⟨_, rfl⟩
  have heq : Program.opts e Program.gen0 = o := by unfold Program.opts; rw [ho]; rfl
  have ht : ∀ l l' : List ClassDecl, (.ok l : Except Err _) = .ok l' → l'.Perm l := fun l l' h => by cases h; exact List.Perm.refl _
  have hd := C34.declared0 e
  have hs : ∀ p ty, (Program.opts e Program.gen0).substitution p = some ty → ∀ q ∈ userTypes ty, Predefined q := by
    rw [heq]; exact (C34_engines e Program.gen0 o ho).1
  refine ⟨C, h, (C34_exact_criterion _ _ _ _ _ _ C ht hs Program.wf0 (Program.noClash0 e) ⟨hd.known, hd.qualified⟩ ?_ h).1
    (C34_types_resolve _ _ _ _ _ _ C ht hs Program.wf0 (Program.noClash0 e) hd h)⟩
  intro n d fields hd hk
  have hm : d ∈ Program.defs0.enums := List.mem_of_find?_eq_some hd
  have hall : Program.defs0.enums.all (fun d => match d.kind with | .struct fs => decide ((fs.map FieldDecl.name).Nodup) | _ => true) = true := by
    decide +kernel
  have := List.all_eq_true.1 hall d hm
  rw [hk] at this
  exact of_decide_eq_true this

/-- On PostgreSQL the column of an enumeration with a single member calls for a type that is not made. -/
example : ∃ f n, ColumnField (Program.opts .postgresql Program.gen0) ⟨[C34.uses C34.one], [C34.one]⟩ [C34.uses C34.one] f ∧
    NeedsType (Program.opts .postgresql Program.gen0) ⟨[C34.uses C34.one], [C34.one]⟩ f.ty n ∧
    ∀ q, ¬ MakesType (Program.opts .postgresql Program.gen0) ⟨[C34.uses C34.one], [C34.one]⟩ [C34.uses C34.one] [C34.one] q := by
  refine ⟨{ name := t "x", ty := .enum C34.one.name }, C34.one.name, .inl ⟨C34.uses C34.one, List.mem_cons_self .., by decide +kernel, ?_, ?_⟩,
    .enum _ rfl, ?_⟩
  · exact List.mem_cons_of_mem _ (List.mem_cons_self ..)
  · rintro ⟨item, h | h, _⟩ <;> cases h
  · rintro q (⟨e, he, _, h2, _⟩ | ⟨c, hc, hk, _⟩)
    · rw [List.mem_singleton] at he
      subst he
      exact absurd h2 (by decide)
    · rw [List.mem_singleton] at hc
      subst hc
      cases hk

end PySqlSync
