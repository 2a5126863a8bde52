/-
Lemmas for C47: the types of the catalog of a deployable program can be created one after the other.
-/
import Verif.Lemmas.DeployValid
import Verif.Spec.Stable

set_option autoImplicit false
set_option linter.unusedSectionVars false

namespace PySqlSync
open Spec

namespace Dep
open Conv

variable {o : ConvOptions} {defs : PyDefs} {depth : Nat} {refs : List ClassDecl} {enumRefs : List EnumDecl} {d : Dialect}
variable {topo : List ClassDecl → Except Err (List ClassDecl)} {C : Catalog}

/-! ### References across schemas -/

theorem keys_of (hd : Deployable o defs refs enumRefs d) {f : FieldDecl} (hf : IsField o defs refs f) : Keys defs f.ty refs := by
  refine ⟨fun n hn => ?_, fun c hc k hk => (hd.keys c hc k hk).1⟩
  obtain ⟨c, hc, rfl⟩ := hd.declared.classes f hf n hn
  exact ⟨c, hc, rfl, hd.wellFormed.known c hc⟩

/-- A user-defined type in the type of a member comes from a type of the program. -/
theorem member_declared (hd : Deployable o defs refs enumRefs d) (hs : C34.PlainSubst o) {m : Text} {f : FieldDecl}
    (hf : FieldIn o defs refs m f) {r : SqlType} (hm : o.memberType defs depth f.ty = .ok r) {q : QId} (hq : q ∈ userTypes r) (hg : q.isGlobal = false) :
    C34.Declared o defs refs enumRefs q ∧ Origin o defs refs f.ty r q := by
  have hf' := isField hf
  have hdecl : C34.Declared o defs refs enumRefs q := by
    rcases C34.member_user hs hd.wellFormed hd.declared depth (C34.good_field hd.declared hf') hm q hq with ⟨x, rfl⟩ | h
    · cases hg
    · exact h
  refine ⟨hdecl, ?_⟩
  have hi : o.structMode ≠ .inline := by
    intro hi
    rcases hdecl with ⟨_, _, h, _⟩ | ⟨_, _, _, h, _⟩
    · exact hd.inlined hi h
    · rw [hi] at h; cases h
  exact member_origin hs hi depth (keys_of hd hf') (hd.declared.others f hf') hm q hq hg

theorem declared_name {q : QId} (h : C34.Declared o defs refs enumRefs q) :
    ∃ n, BecomesType o refs enumRefs n ∧ HasTable o defs refs n.1 ∧ o.qualifiedId n = .ok q := by
  rcases h with ⟨e, he, hm, h2, ht, hq⟩ | ⟨c, hc, hst, hm, ht, hq⟩
  · exact ⟨e.name, .inl ⟨hm, e, he, rfl, h2⟩, ht, hq⟩
  · exact ⟨c.name, .inr ⟨hm, c, hc, rfl, hst⟩, ht, hq⟩

theorem becomes_qualified (hd : Deployable o defs refs enumRefs d) {n : PyName} (h : BecomesType o refs enumRefs n) : o.qualified = true := by
  rcases h with ⟨h, _⟩ | ⟨h, _⟩
  · exact hd.declared.qualified (.inl h)
  · exact hd.declared.qualified (.inr h)

/-- A type of another schema is given with its schema, and is not the type of the items of a list. -/
theorem other_schema (hd : Deployable o defs refs enumRefs d) {m schema : Text} (hm : HasTable o defs refs m)
    (hschema : o.qualified = true → ∃ s, o.mapping m = .ok s ∧ s.getD [] = schema) {q : QId} (hdecl : C34.Declared o defs refs enumRefs q)
    (hne : q.key.1 ≠ schema) {r : SqlType} (ho : r = .user q ∨ ∃ n : PyName, n.1 = m ∧ o.qualifiedId n = .ok q) :
    r = .user q ∧ q.scopeId = some q.key.1 := by
  obtain ⟨n, hb, ht, hqn⟩ := declared_name hdecl
  have hqual := becomes_qualified hd hb
  obtain ⟨s, hs, hsn⟩ := hschema hqual
  obtain ⟨s', hs', rfl⟩ := C34.qualified_eq hqual hqn
  have hmod : m ≠ n.1 := by
    rintro rfl
    rw [hs] at hs'
    cases hs'
    exact hne hsn
  constructor
  · rcases ho with h | ⟨n', rfl, hq'⟩
    · exact h
    · obtain ⟨s'', h1, h2⟩ := C34.qualified_eq hqual hq'
      rw [hs] at h1
      cases h1
      simp only [QId.qualified.injEq] at h2
      rw [h2.1] at hne
      exact absurd hsn hne
  · cases s' with
    | none => exact absurd hs' (hd.schemas n hb m hm hmod)
    | some x => rfl

theorem table_schema {s : TableSource} {tb : Table} (h : C32.Built o defs depth refs s tb) (hq : o.qualified = true) :
    ∃ x, o.mapping s.pyName.1 = .ok x ∧ x.getD [] = tb.name.key.1 := by
  obtain ⟨x, hx, hk⟩ := (C32.qualified_key (C32.built_name h)).1 hq
  exact ⟨x, hx, by rw [hk]⟩

theorem direct (hd : Deployable o defs refs enumRefs d) (hs : C34.PlainSubst o) (htopo : ∀ l l', topo l = .ok l' → l'.Perm l)
    (h : o.toCatalog defs depth topo refs enumRefs = .ok C) {n : Namespace} (hn : n ∈ C.namespaces.items) {k : Key} (hk : MentionsType n k)
    (hne : k.1 ≠ n.name) : MentionsDirectly n k := by
  have fin : ∀ {m : Text} (hm : HasTable o defs refs m) (hschema : o.qualified = true → ∃ s, o.mapping m = .ok s ∧ s.getD [] = n.name) {f : FieldDecl}
      (hf : FieldIn o defs refs m f) {r : SqlType} (hmt : o.memberType defs depth f.ty = .ok r) (hk : k ∈ r.refs),
      ∃ q, r = .user q ∧ q.key = k ∧ q.scopeId = some k.1 := by
    intro m hm hschema f hf r hmt hk
    obtain ⟨q, hq, hg, rfl⟩ := refs_user hk
    obtain ⟨hdecl, ho, _⟩ := member_declared hd hs hf hmt hq hg
    obtain ⟨h1, h2⟩ := other_schema hd hm hschema hdecl hne (by
      rcases ho with h | ⟨n', hn', hq'⟩
      · exact .inl h
      · exact .inr ⟨n', hd.lists m f hf n' hn', hq'⟩)
    exact ⟨q, h1, rfl, h2⟩
  rcases hk with ⟨st, hst, mem, hmem, hk⟩ | ⟨tb, htb, col, hcol, hk⟩
  · obtain ⟨m2, c, hc, hcs, htc, hq, hb, hsc⟩ := ns_struct hd.declared htopo h hn hst
    unfold ConvOptions.dataclassStruct at hb
    simp only [bind_ok, pure_ok] at hb
    obtain ⟨mems, hmems, q', hq', rfl⟩ := hb
    obtain ⟨f, hf, hfm⟩ := mapM_back hmems mem (of_mem_ofList hmem)
    simp only [bind_ok, pure_ok] at hfm
    obtain ⟨ty, hty, rfl⟩ := hfm
    obtain ⟨q, h1, h2, h3⟩ := fin (m := c.name.1) htc (fun hqual => by
      obtain ⟨s, hs, hk⟩ := (C32.qualified_key hq).1 hqual
      exact ⟨s, hs, by rw [← hsc, hk]⟩) (.inl ⟨c, hc, rfl, hf⟩) hty hk
    exact .inl ⟨_, hst, _, hmem, q, h1, h2, h3⟩
  · obtain ⟨s, hmk, hb, hsc⟩ := ns_table hd.wellFormed hd.noClash h hn htb
    suffices ∃ q, col.ty = .user q ∧ q.key = k ∧ q.scopeId = some k.1 by
      obtain ⟨q, h⟩ := this
      exact .inr ⟨tb, htb, col, hcol, q, h⟩
    have hsch : o.qualified = true → ∃ x, o.mapping s.pyName.1 = .ok x ∧ x.getD [] = n.name := fun hq => by
      obtain ⟨x, h1, h2⟩ := table_schema hb hq
      exact ⟨x, h1, h2.trans hsc⟩
    rcases built_column hd.wellFormed hmk hb hcol with ⟨f, hf, hb⟩ | ⟨_, _, hty, _⟩
    · exact fin ⟨s, hmk, rfl⟩ hsch hf (member_default hb).2.2.2.2 hk
    · obtain ⟨q, hq, hg, rfl⟩ := refs_user hk
      rcases hty with ⟨p, hp⟩ | ⟨p, ms, hp⟩ | ⟨c, hc, k', hk', hp⟩
      · rw [hp] at hq; rw [primType_plain hs hq] at hg; cases hg
      · obtain ⟨x, rfl⟩ := C34.annotated_user hs hp q hq; cases hg
      · have hkf : k' ∈ c.fields := by unfold ClassDecl.key at hk'; exact List.mem_of_find?_eq_some hk'
        obtain ⟨hdecl, _⟩ := member_declared hd hs (.inl ⟨c, hc, rfl, hkf⟩) hp hq hg
        obtain ⟨h1, _⟩ := simple_origin hs (simple_member (hd.keys c hc k' hk').1 hp) hq hg
        obtain ⟨h1, h2⟩ := other_schema hd ⟨s, hmk, rfl⟩ hsch hdecl hne (.inl h1)
        exact ⟨q, h1, rfl, h2⟩

/-! ### The order of struct types -/

theorem ofList_snoc {α : Type} [Named α] (l : List α) (x : α) : (ODict.ofList (l ++ [x])).items = ODict.setItem (ODict.ofList l).items x := by
  simp [ODict.ofList, List.foldl_append]

theorem setItem_same {α : Type} [Named α] {x : α} : ∀ {l : List α}, (∃ a ∈ l, Named.key a = Named.key x) → (∀ a ∈ l, Named.key a = Named.key x → a = x) →
    ODict.setItem l x = l
  | [], h, _ => by obtain ⟨_, h, _⟩ := h; cases h
  | b :: rest, h, he => by
    unfold ODict.setItem
    by_cases hb : Named.key b = Named.key x
    · rw [if_pos hb, he b (List.mem_cons_self ..) hb]
    · rw [if_neg hb, setItem_same (l := rest)]
      · obtain ⟨a, ha, hk⟩ := h
        rcases List.mem_cons.1 ha with rfl | ha
        · exact absurd hk hb
        · exact ⟨a, ha, hk⟩
      · exact fun a ha => he a (List.mem_cons_of_mem _ ha)

/-- A collection is in the order of the list that it is made from. -/
theorem ofList_order {α : Type} [Named α] : ∀ (l' : List α), (∀ a ∈ l', ∀ b ∈ l', Named.key a = Named.key b → a = b) → ∀ {p s : List α} {a : α},
    (ODict.ofList l').items = p ++ a :: s → ∃ p' s', l' = p' ++ a :: s' ∧ ∀ b ∈ s, b ∈ s' := by
  intro l'
  suffices ∀ r : List α, (∀ a ∈ r, ∀ b ∈ r, Named.key a = Named.key b → a = b) → ∀ {p s : List α} {a : α},
      (ODict.ofList r.reverse).items = p ++ a :: s → ∃ p' s', r.reverse = p' ++ a :: s' ∧ ∀ b ∈ s, b ∈ s' by
    intro hinj p s a h
    have := this l'.reverse (fun a ha b hb => hinj a (List.mem_reverse.1 ha) b (List.mem_reverse.1 hb)) (p := p) (s := s) (a := a)
    rw [List.reverse_reverse] at this
    exact this h
  intro r
  induction r with
  | nil =>
    intro _ p s a h
    have h : ([] : List α) = p ++ a :: s := h
    cases p <;> cases h
  | cons x r ih =>
    intro hinj p s a h
    have hinj' : ∀ a ∈ r, ∀ b ∈ r, Named.key a = Named.key b → a = b :=
      fun a ha b hb => hinj a (List.mem_cons_of_mem _ ha) b (List.mem_cons_of_mem _ hb)
    rw [List.reverse_cons, ofList_snoc] at h
    rw [List.reverse_cons]
    by_cases hx : ∃ a ∈ (ODict.ofList r.reverse).items, Named.key a = Named.key x
    · rw [setItem_same hx (fun a ha hk => hinj a (List.mem_cons_of_mem _ (List.mem_reverse.1 (of_mem_ofList ha))) x (List.mem_cons_self ..) hk)] at h
      obtain ⟨p', s', h1, h2⟩ := ih hinj' h
      exact ⟨p', s' ++ [x], by rw [h1]; simp, fun b hb => List.mem_append.2 (.inl (h2 b hb))⟩
    · rw [ODict.setItem_of_notMem _ _ (by
        intro hm
        obtain ⟨a, ha, hk⟩ := List.mem_map.1 hm
        exact hx ⟨a, ha, hk⟩)] at h
      rcases List.eq_nil_or_concat s with rfl | ⟨s0, y, rfl⟩
      · obtain ⟨h1, h2⟩ := List.append_inj' h (by simp)
        cases h2
        exact ⟨r.reverse, [], rfl, fun b hb => by cases hb⟩
      · have h' : (ODict.ofList r.reverse).items ++ [x] = (p ++ a :: s0) ++ [y] := by rw [h]; simp
        obtain ⟨h1, h2⟩ := List.append_inj' h' (by simp)
        cases h2
        obtain ⟨p', s', h3, h4⟩ := ih hinj' h1
        refine ⟨p', s' ++ [x], by rw [h3]; simp, fun b hb => ?_⟩
        rw [List.concat_eq_append] at hb
        rcases List.mem_append.1 hb with hb | hb
        · exact List.mem_append.2 (.inl (h4 b hb))
        · exact List.mem_append.2 (.inr hb)

theorem mapM_split {α β : Type} {f : α → Except Err β} : ∀ {l : List α} {p s : List β} {b : β}, l.mapM f = .ok (p ++ b :: s) →
    ∃ p0 a s0, l = p0 ++ a :: s0 ∧ f a = .ok b ∧ s0.mapM f = .ok s
  | [], p, s, b, h => by
    have h : (Except.ok [] : Except Err (List β)) = .ok (p ++ b :: s) := h
    cases p <;> cases h
  | x :: l, p, s, b, h => by
    rw [mapM_cons_ok] at h
    obtain ⟨y, ys, h1, h2, h3⟩ := h
    cases p with
    | nil =>
      cases h3
      exact ⟨[], x, l, rfl, h1, h2⟩
    | cons z p =>
      cases h3
      obtain ⟨p0, a, s0, rfl, h4, h5⟩ := mapM_split h2
      exact ⟨x :: p0, a, s0, rfl, h4, h5⟩

theorem ofModule_split {α : Type} {m : Text} {entries : List (Text × α)} {p s : List α} {a : α} (h : ofModule m entries = p ++ a :: s) :
    ∃ p' s', entries = p' ++ (m, a) :: s' ∧ ∀ b ∈ s, (m, b) ∈ s' := by
  unfold ofModule at h
  rw [List.map_eq_append_iff] at h
  obtain ⟨l1, l2, h1, rfl, h2⟩ := h
  rw [List.map_eq_cons_iff] at h2
  obtain ⟨⟨m', a'⟩, l3, rfl, rfl, rfl⟩ := h2
  rw [List.filter_eq_append_iff] at h1
  obtain ⟨e1, e2, rfl, _, h3⟩ := h1
  rw [List.filter_eq_cons_iff] at h3
  obtain ⟨e3, e4, rfl, _, h4, h5⟩ := h3
  have h4 : m' = m := by simpa using h4
  subst h4
  refine ⟨e1 ++ e3, e4, by simp, fun b hb => ?_⟩
  obtain ⟨⟨m'', b'⟩, hm, rfl⟩ := List.mem_map.1 hb
  rw [← h5] at hm
  obtain ⟨hm1, he⟩ := List.mem_filter.1 hm
  have he : m'' = m' := by simpa using he
  subst he
  exact hm1

theorem order (hd : Deployable o defs refs enumRefs d) (hs : C34.PlainSubst o) (ht : OrdersClasses topo)
    (h : o.toCatalog defs depth topo refs enumRefs = .ok C) {n : Namespace} (hn : n ∈ C.namespaces.items) : StructsInOrder n.structs.items := by
  intro p a s hl b hb mem hmem hk
  have hin : ∀ x ∈ a :: s, x ∈ n.structs.items := fun x hx => by rw [hl]; exact List.mem_append.2 (.inr hx)
  obtain ⟨hm, ca0, hca0, _⟩ := ns_struct hd.declared ht.perm h hn (hin a (List.mem_cons_self ..))
  have hqual := hd.declared.qualified (.inr hm)
  obtain ⟨enums, structs, tables, h1, h2, h3, h4⟩ := ns_made h hn
  rcases h4 with ⟨_, m, sc, hmt, hms, hnn, _, h5, _⟩ | ⟨hq', _⟩
  · unfold ConvOptions.allStructs at h2
    rw [if_pos hm] at h2
    simp only [bind_ok] at h2
    obtain ⟨classes, hcl, h2⟩ := h2
    have hclass : ∀ c ∈ classes, c ∈ refs ∧ c.isStruct = true := by
      intro c hc
      have := (ht.perm _ _ hcl).mem_iff.1 hc
      rw [mem_sortBy, List.mem_filter] at this
      exact this
    have hentry : ∀ {m : Text} {st : StructType} {c : ClassDecl}, (do pure (c.name.1, ← o.dataclassStruct defs depth c)) = (Except.ok (m, st) : Except Err _) →
        m = c.name.1 ∧ o.dataclassStruct defs depth c = .ok st ∧ o.qualifiedId c.name = .ok st.name := by
      intro m st c hc
      simp only [bind_ok, pure_ok] at hc
      obtain ⟨st', hst', he⟩ := hc
      cases he
      refine ⟨rfl, hst', ?_⟩
      unfold ConvOptions.dataclassStruct at hst'
      simp only [bind_ok, pure_ok] at hst'
      obtain ⟨_, _, q, hq, rfl⟩ := hst'
      exact hq
    have hsame : ∀ {c c' : ClassDecl} {q q' : QId}, c ∈ refs → c' ∈ refs → c.isStruct = true → c'.isStruct = true → o.qualifiedId c.name = .ok q →
        o.qualifiedId c'.name = .ok q' → q.key = q'.key → c = c' := fun hc hc' hst hst' hq hq' hkey =>
      C32.wf_unique hd.wellFormed hc hc' (same_name hd.noClash hqual (hd.declared.structModules hm _ hc hst) (hd.declared.structModules hm _ hc' hst') hq hq' hkey)
    have hinj : ∀ x ∈ ofModule m structs, ∀ y ∈ ofModule m structs, Named.key x = Named.key y → x = y := by
      intro x hx y hy hkey
      obtain ⟨cx, hcx, hxe⟩ := mapM_back h2 _ (C32.mem_ofModule.1 hx)
      obtain ⟨cy, hcy, hye⟩ := mapM_back h2 _ (C32.mem_ofModule.1 hy)
      obtain ⟨mx, hx1, hx2⟩ := hentry hxe
      obtain ⟨my, hy1, hy2⟩ := hentry hye
      obtain ⟨s1, hs1, k1⟩ := (C32.qualified_key hx2).1 hqual
      obtain ⟨s2, hs2, k2⟩ := (C32.qualified_key hy2).1 hqual
      rw [← mx] at hs1
      rw [← my, hs1] at hs2
      cases hs2
      have hkey : x.name.localId = y.name.localId := hkey
      have : cx = cy := hsame (hclass cx hcx).1 (hclass cy hcy).1 (hclass cx hcx).2 (hclass cy hcy).2 hx2 hy2
        (Prod.ext (by rw [k1, k2]) hkey)
      subst this
      rw [hx1] at hy1
      exact Except.ok.inj hy1
    rw [h5] at hl
    obtain ⟨p1, s1, h6, h7⟩ := ofList_order _ hinj hl
    obtain ⟨p2, s2, h8, h9⟩ := ofModule_split h6
    rw [h8] at h2
    obtain ⟨p3, ca, s3, h10, h11, h12⟩ := mapM_split h2
    -- the class of `b` comes with or after that of `a`
    have hbc : ∃ cb ∈ ca :: s3, o.dataclassStruct defs depth cb = .ok b ∧ o.qualifiedId cb.name = .ok b.name := by
      rcases List.mem_cons.1 hb with rfl | hb
      · exact ⟨ca, List.mem_cons_self .., (hentry h11).2⟩
      · obtain ⟨cb, hcb, he⟩ := mapM_back h12 _ (h9 b (h7 b hb))
        exact ⟨cb, List.mem_cons_of_mem _ hcb, (hentry he).2⟩
    obtain ⟨cb, hcb, hbs, hbq⟩ := hbc
    obtain ⟨_, has, haq⟩ := hentry h11
    have hcar := hclass ca (by rw [h10]; exact List.mem_append.2 (.inr (List.mem_cons_self ..)))
    have hcbr := hclass cb (by rw [h10]; exact List.mem_append.2 (.inr hcb))
    unfold ConvOptions.dataclassStruct at has
    simp only [bind_ok, pure_ok] at has
    obtain ⟨mems, hmems, qa, hqa, rfl⟩ := has
    obtain ⟨f, hf, hfm⟩ := mapM_back hmems mem (of_mem_ofList hmem)
    simp only [bind_ok, pure_ok] at hfm
    obtain ⟨ty, hty, rfl⟩ := hfm
    obtain ⟨q, hq, hg, hqk⟩ := refs_user hk
    obtain ⟨hdecl, _, ho⟩ := member_declared hd hs (.inl ⟨ca, hcar.1, rfl, hf⟩) hty hq hg
    have htb := hd.declared.structModules hm cb hcbr.1 hcbr.2
    rcases ho with ⟨hem, n', hn', hqn⟩ | ⟨n', hn', hqn⟩
    · have hfield : ∃ f', IsField o defs refs f' ∧ n' ∈ typeEnums f'.ty := by
        rcases hn' with hn' | ⟨c, hc, k, hkey, hn'⟩
        · exact ⟨f, .inl ⟨ca, hcar.1, hf⟩, hn'⟩
        · exact ⟨k, .inl ⟨c, hc, by unfold ClassDecl.key at hkey; exact List.mem_of_find?_eq_some hkey⟩, hn'⟩
      obtain ⟨f', hf', hn'⟩ := hfield
      obtain ⟨e, he, rfl, _⟩ := hd.declared.enums hem f' hf' n' hn'
      have hte := hd.declared.enumModules hem f' hf' _ hn'
      exact hd.enumStruct e he cb hcbr.1 hcbr.2 (same_name hd.noClash hqual hte htb hqn hbq hqk)
    · obtain ⟨c', hc', rfl⟩ := hd.wellFormed.closed ca hcar.1 f hf n' hn'
      have htc : HasTable o defs refs c'.name.1 := by
        cases hk' : c'.key with
        | some k => exact ⟨.entity c'.name, .entity c' hc' (by rw [hk']; rfl), rfl⟩
        | none => exact hd.declared.structModules hm c' hc' (by simp [ClassDecl.isStruct, hk'])
      have := same_name hd.noClash hqual htc htb hqn hbq hqk
      rw [this] at hn'
      exact ht.order _ _ hcl p3 ca s3 h10 cb hcb f hf hn'
  · rw [hqual] at hq'; cases hq'

end Dep
end PySqlSync
