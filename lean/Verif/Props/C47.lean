/-
C47: creating the objects of a program in an empty database succeeds and results in the database that the program describes.
-/
import Verif.Lemmas.DeployOrder
import Verif.Props.C01
import Verif.Examples.Deploy
import Verif.Lemmas.Exec
import Verif.Props.C33

set_option autoImplicit false
set_option linter.unusedSectionVars false

namespace PySqlSync
open Spec

namespace Dep
open Conv

variable {o : ConvOptions} {defs : PyDefs} {depth : Nat} {refs : List ClassDecl} {enumRefs : List EnumDecl} {d : Dialect}
variable {topo : List ClassDecl → Except Err (List ClassDecl)} {C : Catalog}

/-- The table of a source. -/
theorem table_of (hd : Deployable o defs refs enumRefs d) (h : o.toCatalog defs depth topo refs enumRefs = .ok C) {s : TableSource} (hs : Makes o defs refs s)
    {q : QId} (hq : o.qualifiedId s.pyName = .ok q) : ∃ tb n, n ∈ C.namespaces.items ∧ tb ∈ n.tables.items ∧ C32.Built o defs depth refs s tb ∧ tb.name = q := by
  obtain ⟨_, _, tables, _, _, h3, _⟩ := C32.toCatalog_inv h
  obtain ⟨tb, _, hb⟩ := C32.allTables_fwd h3 hs
  obtain ⟨n, hn, _, ht⟩ := (C32.catalog_tables hd.wellFormed hd.noClash h tb.name.key.1 tb).2 ⟨s, hs, hb, rfl⟩
  have := C32.built_name hb
  rw [hq] at this
  exact ⟨tb, n, hn, ht, hb, (Except.ok.inj this).symm⟩

/-- The table of an enumeration. -/
theorem lookup {E : Spec.Engine} (hcc : NoColumnClash o defs refs) {n : PyName} {e : EnumDecl} (he : defs.enum n = some e) {tb : Table} (hb : o.enumTable defs depth e = .ok tb) :
    IsLookupTable o defs d depth e (Spec.Table.state d E tb) := by
  have isSome : ∀ name, ((Spec.Table.state d E tb).cols name).isSome = true ↔ name ∈ tb.columns.items.map Column.name := by
    intro name
    show (Option.map _ (tb.columns.get name)).isSome = true ↔ _
    rw [Option.isSome_map, ODict.get_isSome_iff]; rfl
  unfold ConvOptions.enumTable at hb
  simp only [bind_ok] at hb
  obtain ⟨name, hname, hb⟩ := hb
  have plain : ∀ label, o.labelType = .ok label → tb = { name := name, columns := ODict.ofList [{ name := t "id", ty := o.enumKeyType, nullable := false, identity := true }, { name := t "value", ty := label, nullable := false }], primaryKey := [t "id"], constraints := ODict.ofList [.unique (t "uq_" ++ e.name.2) [t "value"]], enumValues := if o.initializeTables then some (ConvOptions.enumRows e) else none } →
      (∀ f, e.kind ≠ .struct f) → IsLookupTable o defs d depth e (Spec.Table.state d E tb) := by
    rintro label hl rfl hk
    refine ⟨rfl, ⟨_, rfl, rfl, rfl, rfl, rfl⟩, fun _ => ⟨fun name => ?_, ⟨_, rfl, hl, rfl, rfl, rfl⟩, ⟨t "uq_" ++ e.name.2, ?_⟩⟩, fun f hf => absurd hf (hk f)⟩
    · rw [isSome]
      show name ∈ [t "id", t "value"] ↔ _
      simp
    · simp [Spec.Table.state, ODict.ofList, ODict.setItem, ODict.get, Named.key, Constraint.name, Spec.Constraint.state]
  cases hk : e.kind with
  | int =>
    simp only [hk, bind_ok, pure_ok] at hb
    obtain ⟨label, hl, hb⟩ := hb
    exact plain label hl hb.symm (fun f => by rw [hk]; exact fun h => by cases h)
  | str =>
    simp only [hk, bind_ok, pure_ok] at hb
    obtain ⟨label, hl, hb⟩ := hb
    exact plain label hl hb.symm (fun f => by rw [hk]; exact fun h => by cases h)
  | struct fields =>
    simp only [hk, bind_ok, pure_ok] at hb
    obtain ⟨columns, hc, rfl⟩ := hb
    have back : ∀ col ∈ columns, ∃ f ∈ fields, f.name = col.name ∧ IsColumn o defs d depth f (Spec.Column.state d col) := by
      intro col hcol
      obtain ⟨f, hf, hfc⟩ := mapM_back hc col hcol
      obtain ⟨e1, e2, e3, e4, e5⟩ := member_default hfc
      exact ⟨f, hf, e1.symm, e5, e3, e4, by simp [Spec.Column.state, e2]⟩
    have noid : ∀ col ∈ columns, col.name ≠ t "id" := by
      intro col hcol
      obtain ⟨f, hf, hn, _⟩ := back col hcol
      rw [← hn]; exact hcc.enums n e fields he hk f hf
    have key : (ODict.ofList (({ name := t "id", ty := o.enumKeyType, nullable := false, identity := true } : Column) :: columns)).get (t "id") =
        some { name := t "id", ty := o.enumKeyType, nullable := false, identity := true } := by
      obtain ⟨y, hy, hky⟩ := ofList_has (a := ({ name := t "id", ty := o.enumKeyType, nullable := false, identity := true } : Column)) List.mem_cons_self
      rcases List.mem_cons.1 (of_mem_ofList hy) with rfl | hy'
      · exact get_of_mem (ODict.ofList_inv _) hy
      · exact absurd hky (noid y hy')
    refine ⟨rfl, ⟨_, (congrArg (Option.map _) key), rfl, rfl, rfl, rfl⟩, (fun h => absurd h (by rw [hk]; simp)), fun fs hfs => ?_⟩
    rw [hk] at hfs; cases hfs
    constructor
    · intro name
      rw [isSome, List.mem_map]
      constructor
      · rintro ⟨col, hcol, rfl⟩
        rcases List.mem_cons.1 (of_mem_ofList hcol) with rfl | hcol
        · exact .inl rfl
        · obtain ⟨f, hf, hn, _⟩ := back col hcol
          exact .inr ⟨f, hf, hn⟩
      · rintro (rfl | ⟨f, hf, rfl⟩)
        · obtain ⟨hm, hn⟩ := mem_of_get key
          exact ⟨_, hm, hn⟩
        · obtain ⟨col, hcol, hfc⟩ := mapM_fwd hc f hf
          obtain ⟨y, hy, hky⟩ := ofList_has (List.mem_cons_of_mem ({ name := t "id", ty := o.enumKeyType, nullable := false, identity := true } : Column) hcol)
          exact ⟨y, hy, hky.trans (member_default hfc).1⟩
    · intro name cs hne hcs
      obtain ⟨col, hcol, rfl⟩ := Option.map_eq_some_iff.1 hcs
      obtain ⟨hm, rfl⟩ := mem_of_get hcol
      rcases List.mem_cons.1 (of_mem_ofList hm) with rfl | hm
      · exact absurd rfl hne
      · exact back col hm
  | empty => simp [hk] at hb
  | mixed => simp [hk] at hb
  | other => simp [hk] at hb

theorem deployed (hd : Deployable o defs refs enumRefs d) (hs : C34.PlainSubst o) (hp : PlainIntegers o) (ht : OrdersClasses topo)
    {condCols : Text → List Text} (hr : ReadsConditions defs condCols)
    (h : o.toCatalog defs depth topo refs enumRefs = .ok C) : Deployed o defs refs d depth (Catalog.db d (engine d condCols) C) := by
  have w := wf hd ht.perm h
  have ent : ∀ c ∈ refs, c.key.isSome = true → ∀ q, o.qualifiedId c.name = .ok q → ∀ ts, (Catalog.db d (engine d condCols) C).objs q.key = some (.table ts) →
      ∃ tb n, n ∈ C.namespaces.items ∧ tb ∈ n.tables.items ∧ o.dataclassTable defs depth c = .ok tb ∧ tb.name = q ∧
        ts = Spec.Table.state d (engine d condCols) tb := by
    intro c hc hk q hq ts hts
    obtain ⟨tb, n, hn, htb, hb, rfl⟩ := table_of hd h (.entity c hc hk) hq
    rw [objs_table w hn htb] at hts
    cases hts
    obtain ⟨c', hc', hcn, _, hb⟩ := hb
    rw [C32.wf_unique hd.wellFormed hc' hc hcn] at hb
    exact ⟨tb, n, hn, htb, hb, rfl, rfl⟩
  have con : ∀ {c : ClassDecl} {tb : Table} {x : Constraint}, o.dataclassTable defs depth c = .ok tb → x ∈ tb.constraints.items →
      (Spec.Table.state d (engine d condCols) tb).cons x.name = Spec.Constraint.state (engine d condCols) x := by
    intro c tb x hb hx
    obtain ⟨columns, pre, keys, ext, rel, chk, _, _, _, _, _, _, _, _, _, _, rfl⟩ := C32.dataclassTable_inv hb
    have := get_of_mem (ODict.ofList_inv _) hx
    show Option.bind _ _ = _
    exact (congrArg (fun z => Option.bind z _) this)
  constructor
  · exact valid hd hs ht.perm hr h
  · intro k ts hk
    obtain ⟨n, hn, hname, hobj⟩ := objs_some hk
    rcases obj_some hobj with ⟨e, _, he⟩ | ⟨st, _, he⟩ | ⟨tb, htb, he⟩
    · cases he
    · cases he
    · obtain ⟨hmem, hkey⟩ := mem_of_get htb
      obtain ⟨s, hs, hb, hsc⟩ := ns_table hd.wellFormed hd.noClash h hn hmem
      exact ⟨s, tb.name, hs, C32.built_name hb, Prod.ext (hsc.trans hname) hkey⟩
  · intro s q hs hq
    obtain ⟨tb, n, hn, htb, _, rfl⟩ := table_of hd h hs hq
    exact ⟨_, objs_table w hn htb⟩
  · intro c hc k hk q hq ts hts
    obtain ⟨tb, n, hn, htb, hb, rfl, rfl⟩ := ent c hc (by rw [hk]; rfl) q hq ts hts
    obtain ⟨_, _, _, _, _, _, _, k', _, _, _, _, _, _, _, hk', rfl⟩ := C32.dataclassTable_inv hb
    rw [hk] at hk'
    cases hk'
    rfl
  · intro c hc hk q hq ts hts n cs
    obtain ⟨tb, ns, hn, htb, hb, rfl, rfl⟩ := ent c hc hk q hq ts hts
    have hbuilt : C32.Built o defs depth refs (.entity c.name) tb := ⟨c, hc, rfl, hk, hb⟩
    obtain ⟨columns, _, _, _, _, _, _, _, h1, _, _, _, _, _, _, _, rfl⟩ := C32.dataclassTable_inv hb
    have hinj : ∀ a ∈ columns, ∀ b ∈ columns, Named.key a = Named.key b → a = b := by
      intro a ha b hb hkey
      obtain ⟨f, hf, hfa⟩ := mapM_back h1 a ha
      obtain ⟨g, hg, hgb⟩ := mapM_back h1 b hb
      have : f = g := C32.nodup_field (hd.wellFormed.fields c hc) (List.mem_filter.1 hf).1 (List.mem_filter.1 hg).1 (by
        rw [← (member_default hfa).1, ← (member_default hgb).1]; exact hkey)
      subst this
      rw [hfa] at hgb
      exact Except.ok.inj hgb
    constructor
    · intro hcs
      obtain ⟨col, hcol, rfl, rfl⟩ := (column_state hbuilt).1 cs hcs
      obtain ⟨f, hf, hfc⟩ := mapM_back h1 col (of_mem_ofList hcol)
      obtain ⟨hf, hrel⟩ := List.mem_filter.1 hf
      obtain ⟨e1, e2, e3, e4, e5⟩ := member_default hfc
      exact ⟨f, hf, e1.symm, by simpa using hrel, e5, e3, e4, by simp [Spec.Column.state, e2]⟩
    · rintro ⟨f, hf, rfl, hrel, hty, hnul, hid, hdef⟩
      obtain ⟨col, hcol, hfc⟩ := mapM_fwd h1 f (List.mem_filter.2 ⟨hf, by simp [hrel]⟩)
      obtain ⟨e1, e2, e3, e4, e5⟩ := member_default hfc
      have hget : (ODict.ofList columns).get f.name = some col := by
        rw [← e1]; exact get_of_mem (ODict.ofList_inv _) ((mem_ofList hinj).2 hcol)
      have : cs = Spec.Column.state d col := by
        rw [hty] at e5
        obtain ⟨ty, nul, df, ident⟩ := cs
        cases (Except.ok.inj e5)
        simp only at hnul hid hdef
        simp [Spec.Column.state, e2, e3, e4, hnul, hid, hdef]
      rw [this]
      simp [Spec.Table.state, hget]
  · intro hfc c hc hk q hq ts hts f hf n c' k' q' hty hdc hk' hq'
    obtain ⟨tb, ns, hn, htb, hb, rfl, rfl⟩ := ent c hc hk q hq ts hts
    obtain ⟨name, q'', hq'', hx⟩ := C35_foreign o defs depth topo refs enumRefs C hp hd.wellFormed hd.noClash h c hc hk tb
      ⟨⟨ns.name, ns, hn, rfl, htb⟩, hq⟩ f hf hfc n hty c' k' hdc hk'
    rw [hq'] at hq''
    cases hq''
    exact ⟨name, con hb hx⟩
  · intro hfc c hc hk q hq ts hts f hf hu
    obtain ⟨tb, ns, hn, htb, hb, rfl, rfl⟩ := ent c hc hk q hq ts hts
    obtain ⟨name, hx⟩ := C35_unique o defs depth topo refs enumRefs C hp hd.wellFormed hd.noClash h c hc hk tb
      ⟨⟨ns.name, ns, hn, rfl, htb⟩, hq⟩ f hf hfc hu
    exact ⟨name, con hb hx⟩
  · intro c hc k hk f hf item hty n key hi q qo qi hq hqo hqi ts hts
    have hset : ∃ isList : Bool, f.ty = (if isList then .list item else .set item) := by
      rcases hty with e | e
      · exact ⟨true, e⟩
      · exact ⟨false, e⟩
    obtain ⟨isList, hl⟩ := hset
    obtain ⟨tb, ⟨ns, hns, _, htb⟩, hname, hne, hcols, hnull, hkey, n1, n2, u, hcons⟩ := C33.shape hd.wellFormed hd.noClash hd.noColumnClash h hc hk hf hl hi hqo hqi
    rw [hq] at hname
    cases hname
    rw [objs_table w hns htb] at hts
    cases hts
    have wt := (w.wf ns hns).wf tb htb
    have get : ∀ x ∈ tb.constraints.items, (Spec.Table.state d (engine d condCols) tb).cons x.name = Spec.Constraint.state (engine d condCols) x := by
      intro x hx
      have := get_of_mem wt.constraints hx
      show Option.bind _ _ = _
      exact (congrArg (fun z => Option.bind z _) this)
    refine ⟨fun name => ?_, hne, ?_, hkey, ?_, ?_, ?_⟩
    · show (Option.map _ (tb.columns.get name)).isSome = true ↔ _
      rw [Option.isSome_map, ODict.get_isSome_iff]
      show name ∈ tb.columns.items.map Column.name ↔ _
      rw [hcols]; simp
    · intro name cs hcs
      obtain ⟨col, hcol, rfl⟩ := Option.map_eq_some_iff.1 hcs
      exact hnull col (mem_of_get hcol).1
    · exact ⟨n1, get (.foreign n1 [c.name.2 ++ t "_" ++ f.name] ⟨qo, [k.name]⟩) (hcons ▸ List.mem_cons_self)⟩
    · exact ⟨n2, get (.foreign n2 [n.2 ++ t "_" ++ key] ⟨qi, [key]⟩) (hcons ▸ List.mem_cons_of_mem _ List.mem_cons_self)⟩
    · intro hs'
      cases isList with
      | true => rw [hl] at hs'; cases hs'
      | false => exact ⟨u, get (.unique u [n.2 ++ t "_" ++ key]) (hcons ▸ List.mem_cons_of_mem _ (List.mem_cons_of_mem _ List.mem_cons_self))⟩
  · intro n hn e q he hq ts hts
    obtain ⟨tb, ns, hns, htb, ⟨e', he', hb⟩, rfl⟩ := table_of hd h hn hq
    rw [he] at he'
    cases he'
    rw [objs_table w hns htb] at hts
    cases hts
    exact lookup hd.noColumnClash he hb
  · intro k ts name a k' b ts' ca cb hts hcon hts' hca hcb
    obtain ⟨n, hn, hname, hobj⟩ := objs_some hts
    rcases obj_some hobj with ⟨e, _, he⟩ | ⟨st, _, he⟩ | ⟨tb, htb, he⟩
    · cases he
    · cases he
    · cases he
      obtain ⟨hmem, _⟩ := mem_of_get htb
      obtain ⟨x, hx, hxs⟩ := Option.bind_eq_some_iff.1 hcon
      obtain ⟨hxm, _⟩ := mem_of_get hx
      obtain ⟨col, hcol, rfl⟩ := Option.map_eq_some_iff.1 hca
      cases x with
      | foreign nm cs r =>
        simp only [Spec.Constraint.state, Option.some.injEq, ConState.foreign.injEq] at hxs
        obtain ⟨rfl, rfl, hrc⟩ := hxs
        have hin : InCatalog C n.name tb := ⟨n, hn, rfl, hmem⟩
        obtain ⟨_, tb', hr'⟩ := (C32_resolves o defs depth topo refs enumRefs C hd.wellFormed hd.noClash h).other _ tb hin _ hxm ([a], r) (by simp [links])
        obtain ⟨⟨n', hn', _, hmem'⟩, hnm, _⟩ := id hr'
        rw [← hnm, objs_table w hn' hmem'] at hts'
        cases hts'
        obtain ⟨col', hcol', rfl⟩ := Option.map_eq_some_iff.1 hcb
        obtain ⟨m1, e1⟩ := mem_of_get hcol
        obtain ⟨m2, e2⟩ := mem_of_get hcol'
        exact C32_types o defs depth topo refs enumRefs C hd.wellFormed hd.noClash hd.noColumnClash h _ tb hin _ hxm ([a], r) (by simp [links]) tb' hr' col m1 col' m2
          (by rw [← e1]; rfl) (by rw [hrc, ← e2]; rfl)
      | _ => simp [Spec.Constraint.state] at hxs
  · intro hm f hf n hn e q he hq
    obtain ⟨e', ns, he', hns, hname, hmem⟩ := (C34_contents o defs depth topo refs enumRefs C ht.perm hd.wellFormed hd.noClash hd.declared h).1 hm f hf n hn q hq
    rw [he] at he'
    cases he'
    refine ⟨_, ?_, fun v => List.contains_iff_mem⟩
    have h1 : q.key = (ns.name, q.localId) := Prod.ext hname.symm rfl
    rw [h1, objs_ns w hns]
    exact obj_enum (get_of_mem (w.wf ns hns).enums hmem)
  · intro hm c hc hst q hq
    obtain ⟨ns, hns, hname, st, hmem, hsn, hb⟩ := C34.struct_created hd.wellFormed hd.noClash ⟨hd.declared.known, hd.declared.qualified⟩ ht.perm h hm hc hst
      (hd.declared.structModules hm c hc hst) hq
    refine ⟨fun n => (st.members.get n).map StructMember.ty, ?_, ?_⟩
    · have h1 : q.key = (ns.name, st.name.localId) := Prod.ext hname.symm (by rw [hsn]; rfl)
      rw [h1, objs_ns w hns]
      exact obj_struct (w.wf ns hns) (get_of_mem (w.wf ns hns).structs hmem)
    · unfold ConvOptions.dataclassStruct at hb
      simp only [bind_ok, pure_ok] at hb
      obtain ⟨mems, hmems, q', hq', rfl⟩ := hb
      have hinj : ∀ a ∈ mems, ∀ b ∈ mems, Named.key a = Named.key b → a = b := by
        intro a ha b hb hkey
        obtain ⟨f, hf, hfa⟩ := mapM_back hmems a ha
        obtain ⟨g, hg, hgb⟩ := mapM_back hmems b hb
        simp only [bind_ok, pure_ok] at hfa hgb
        obtain ⟨ta, hta, rfl⟩ := hfa
        obtain ⟨tb, htb, rfl⟩ := hgb
        have : f = g := C32.nodup_field (hd.wellFormed.fields c hc) hf hg hkey
        subst this
        rw [hta] at htb
        cases htb
        rfl
      intro n ty
      dsimp only
      rw [Option.map_eq_some_iff]
      constructor
      · rintro ⟨m, hm', rfl⟩
        obtain ⟨hmm, rfl⟩ := mem_of_get hm'
        obtain ⟨f, hf, hfm⟩ := mapM_back hmems m (of_mem_ofList hmm)
        simp only [bind_ok, pure_ok] at hfm
        obtain ⟨ty, hty, rfl⟩ := hfm
        exact ⟨f, hf, rfl, hty⟩
      · rintro ⟨f, hf, rfl, hty⟩
        obtain ⟨m, hm', hfm⟩ := mapM_fwd hmems f hf
        simp only [bind_ok, pure_ok] at hfm
        obtain ⟨ty', hty', rfl⟩ := hfm
        rw [hty] at hty'
        cases hty'
        exact ⟨_, get_of_mem (ODict.ofList_inv _) ((mem_ofList hinj).2 hm'), rfl⟩

end Dep

/-- **C47**, deployment from scratch.  For each engine and options, and for every program with the properties listed in `Deployable`: if the objects of
    the program are created in an empty database then the database executes all statements, and the result is what the program describes: there are the
    tables that the program calls for and no others, their columns are the fields, with the types, defaults and nullability of the fields; keys, unique
    fields, references, enumerations and structs are as declared; and everything that is referred to exists.
    Programs that do not satisfy `Deployable` are in `C47Fails` (and in C32, C33, C34, C35, C39): for those the property is false. -/
theorem C47_deploy (e : Engine) (g : GenOptions) (o : ConvOptions) (ho : e.options g = .ok o) (defs : PyDefs) (depth : Nat)
    (topoClasses : List ClassDecl → Except Err (List ClassDecl)) (ht : OrdersClasses topoClasses) (topo : List (Text × List Text) → Except Err (List Text)) (hs : Sorts topo)
    (condCols : Text → List Text) (hr : ReadsConditions defs condCols)
    (refs : List ClassDecl) (enumRefs : List EnumDecl) (hd : Deployable o defs refs enumRefs e.dialect) (C : Catalog)
    (h : o.toCatalog defs depth topoClasses refs enumRefs = .ok C) (stmts : List Stmt) (hm : mutateCatalog topo e.dialect {} ⟨⟨[]⟩⟩ C = .ok stmts) :
    ∃ db, Runs (engine e.dialect condCols) ⟨fun n => n = [], fun _ => none⟩ stmts db ∧ Deployed o defs refs e.dialect depth db := by
  have hsub : C34.PlainSubst o := (C34_engines e g o ho).1
  refine ⟨Catalog.db e.dialect (engine e.dialect condCols) C, ?_, Dep.deployed hd hsub (C35_engines e g o ho) ht hr h⟩
  have := C01_create_if_direct hs e.dialect condCols (Dep.wf hd ht.perm h) (Dep.valid hd hsub ht.perm hr h)
    (fun n hn k hk hne => Dep.direct hd hsub ht.perm h hn hk hne) (fun n hn => Dep.order hd hsub ht h hn) hm
  have he : Catalog.db e.dialect (engine e.dialect condCols) ⟨⟨[]⟩⟩ = ⟨fun n => n = [], fun _ => none⟩ := by
    unfold Catalog.db
    congr 1
    funext n
    show (decide (n = []) || false) = _
    rw [Bool.or_false]
  rw [he] at this
  exact this

/-- The example program: two modules, one of which refers to the other, nested data-classes, enumerations, lists of entities, a range, a default. -/
example (e : Engine) : ∃ C stmts db, (Program.opts e Program.gen0).toCatalog (Program.defs1 e) 10 Program.sortClasses (Program.refs1 e) Program.enums1 = .ok C ∧
    mutateCatalog Example.topo e.dialect {} ⟨⟨[]⟩⟩ C = .ok stmts ∧ 12 ≤ stmts.length ∧
    Runs (engine e.dialect namesIn) ⟨fun n => n = [], fun _ => none⟩ stmts db ∧
    Deployed (Program.opts e Program.gen0) (Program.defs1 e) (Program.refs1 e) e.dialect 10 db := by
  obtain ⟨C, stmts, h1, h2, h3⟩ := Program.accepted1 e
  obtain ⟨db, h4, h5⟩ := C47_deploy e Program.gen0 (Program.opts e Program.gen0) (by cases e <;> rfl) _ _ _ Program.sortClasses_orders _ Example.topo_sorts _
    (Program.reads1 e) _ _ (Program.deployable1 e) C h1 stmts h2
  exact ⟨C, stmts, db, h1, h2, h3, h4, h5⟩

namespace C47

/-- A field `Size | str`. -/
def size : EnumDecl := { name := (t "shop", t "Size"), kind := .str, labels := [t "small", t "large"], constants := [t "'small'", t "'large'"] }
def shirt : ClassDecl := { name := (t "shop", t "Shirt"), fields := [
  { name := t "id", ty := .prim .int64, primary := true },
  { name := t "size", ty := .union (.cons (.enum size.name) (.cons (.prim .str) .nil)) }] }

def catalog : Option Catalog :=
  ((Program.opts .postgresql Program.gen0).toCatalog { classes := [shirt], enums := [size] } 10 Program.sortClasses [shirt] [size]).toOption
def script : List Stmt := ((catalog.bind (fun C => (mutateCatalog Example.topo .postgresql {} ⟨⟨[]⟩⟩ C).toOption))).getD []

end C47

/-- A field of type `E | str` is a lookup table of the name of the enumeration; with PostgreSQL, an enumeration with two members is also a type of that name.
    Types and tables share names: the script that creates the objects is refused. -/
theorem C47_extensible_enum_fails : ∃ C stmts, (Program.opts .postgresql Program.gen0).toCatalog { classes := [C47.shirt], enums := [C47.size] } 10
      Program.sortClasses [C47.shirt] [C47.size] = .ok C ∧
    mutateCatalog Example.topo .postgresql {} ⟨⟨[]⟩⟩ C = .ok stmts ∧
    ∀ condCols db, ¬ Runs (engine .postgresql condCols) ⟨fun n => n = [], fun _ => none⟩ stmts db := by
  have h : (C47.catalog.bind (fun C => (mutateCatalog Example.topo .postgresql {} ⟨⟨[]⟩⟩ C).toOption)).isSome = true := by decide +kernel
  cases hc : (Program.opts .postgresql Program.gen0).toCatalog { classes := [C47.shirt], enums := [C47.size] } 10 Program.sortClasses [C47.shirt] [C47.size] with
  | error x => simp [C47.catalog, hc, Except.toOption] at h
  | ok C =>
    cases hm : mutateCatalog Example.topo .postgresql {} ⟨⟨[]⟩⟩ C with
    | error x => simp [C47.catalog, hc, Except.toOption, hm] at h
    | ok stmts =>
      refine ⟨C, stmts, rfl, hm, ?_⟩
      have : stmts = C47.script := by simp [C47.script, C47.catalog, hc, Except.toOption, hm]
      subst this
      intro condCols db hr
      have h1 := runs_exec hr
      have : (exec (engine .postgresql condCols) ⟨fun n => n = [], fun _ => none⟩ C47.script).isSome = false := by rfl
      rw [h1] at this
      cases this

end PySqlSync
