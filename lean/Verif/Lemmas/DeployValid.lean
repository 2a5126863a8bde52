/-
Lemmas for C47: the database that the catalog of a deployable program describes is one in which everything that is referred to exists.
-/
import Verif.Lemmas.DeployWF

set_option autoImplicit false
set_option linter.unusedSectionVars false

namespace PySqlSync
open Spec

namespace Dep
open Conv

variable {o : ConvOptions} {defs : PyDefs} {depth : Nat} {refs : List ClassDecl} {enumRefs : List EnumDecl} {d : Dialect}
variable {topo : List ClassDecl → Except Err (List ClassDecl)} {C : Catalog} {E : Spec.Engine}

/-! ### Looking things up -/

theorem objs_ns (w : CatWF d C) {n : Namespace} (hn : n ∈ C.namespaces.items) (k : Text) :
    (Catalog.db d E C).objs (n.name, k) = Spec.Namespace.obj d E n k := by
  have : C.namespaces.get n.name = some n := get_of_mem w.names hn
  simp [Catalog.db, this]

theorem objs_some {k : Key} {x : Obj} (h : (Catalog.db d E C).objs k = some x) :
    ∃ n ∈ C.namespaces.items, n.name = k.1 ∧ Spec.Namespace.obj d E n k.2 = some x := by
  simp only [Catalog.db] at h
  cases hn : C.namespaces.get k.1 with
  | none => rw [hn] at h; cases h
  | some n =>
    rw [hn] at h
    obtain ⟨h1, h2⟩ := mem_of_get hn
    exact ⟨n, h1, h2, h⟩

theorem objs_table (w : CatWF d C) {n : Namespace} (hn : n ∈ C.namespaces.items) {tb : Table} (ht : tb ∈ n.tables.items) :
    (Catalog.db d E C).objs tb.name.key = some (.table (Spec.Table.state d E tb)) := by
  have wn := w.wf n hn
  have h1 : tb.name.key = (n.name, tb.name.localId) := Prod.ext (wn.tableScope tb ht) rfl
  rw [h1, objs_ns w hn]
  exact obj_table wn (get_of_mem wn.tables ht)

theorem kinds_table (w : CatWF d C) {s : Text} {tb : Table} (h : InCatalog C s tb) :
    (Catalog.db d E C).kinds tb.name.key = some (.table tb.primaryKey) := by
  obtain ⟨n, hn, _, ht⟩ := h
  simp [Db.kinds, objs_table w hn ht, Obj.kind, Spec.Table.state]

theorem kinds_type (w : CatWF d C) {q : QId} (h : Creates C q) :
    (Catalog.db d E C).kinds q.key = some .enum ∨ (Catalog.db d E C).kinds q.key = some .struct := by
  obtain ⟨n, hn, hname, ⟨e, he, rfl⟩ | ⟨s, hs, rfl⟩⟩ := h
  · have wn := w.wf n hn
    left
    have h1 : e.name.key = (n.name, e.name.localId) := Prod.ext hname.symm rfl
    unfold Db.kinds
    rw [h1, objs_ns w hn]
    exact congrArg (Option.map Obj.kind) (obj_enum (get_of_mem wn.enums he))
  · have wn := w.wf n hn
    right
    have h1 : s.name.key = (n.name, s.name.localId) := Prod.ext hname.symm rfl
    unfold Db.kinds
    rw [h1, objs_ns w hn]
    exact congrArg (Option.map Obj.kind) (obj_struct wn (get_of_mem wn.structs hs))

/-! ### Columns -/

theorem relationship_refused {fuel : Nat} {ty : PyType} {p : Bool × PyType} (h : o.relationship defs ty = some p) {r : SqlType} :
    o.memberType defs fuel ty ≠ .ok r := by
  intro hm
  obtain ⟨isList, item⟩ := p
  obtain ⟨h1, h2⟩ := C32.relationship_inv h
  have ha : o.arrayType defs item = .ok r := by
    cases fuel with
    | zero => simp [ConvOptions.memberType] at hm
    | succ fuel => rcases h1 with h1 | h1 <;> (rw [h1] at hm; simpa [ConvOptions.memberType] using hm)
  unfold ConvOptions.arrayType at ha
  rcases h2 with h2 | h2
  · rw [h2] at ha
    split at ha
    · cases ha
    · split at ha
      · cases ha
      · split at ha <;> cases ha
  · obtain ⟨n, c', rfl, _, _⟩ := C32.entity_inv h2
    rw [if_neg (by simp [PyType.isSimple]), if_pos h2] at ha
    cases ha

theorem column_state {s : TableSource} {tb : Table} (h : C32.Built o defs depth refs s tb) {n : Text} :
    (∀ cs, (Spec.Table.state d E tb).cols n = some cs → ∃ col ∈ tb.columns.items, col.name = n ∧ cs = Spec.Column.state d col) ∧
    (HasColumn tb n → ((Spec.Table.state d E tb).cols n).isSome = true) := by
  have hi := (built_parts h).1
  constructor
  · intro cs hcs
    simp only [Spec.Table.state, Option.map_eq_some_iff] at hcs
    obtain ⟨col, hcol, rfl⟩ := hcs
    obtain ⟨h1, h2⟩ := mem_of_get hcol
    exact ⟨col, h1, h2, rfl⟩
  · rintro ⟨col, hcol, rfl⟩
    have : tb.columns.get col.name = some col := get_of_mem hi hcol
    simp [Spec.Table.state, this]

/-- Keys have values. -/
theorem key_not_null (hd : Deployable o defs refs enumRefs d) {s : TableSource} {tb : Table} (h : C32.Built o defs depth refs s tb) {col : Column}
    (hcol : col ∈ tb.columns.items) (hk : col.name ∈ tb.primaryKey) : col.nullable = false := by
  cases s with
  | entity n =>
    obtain ⟨c, hc, rfl, _, hb⟩ := h
    obtain ⟨columns, _, _, _, _, _, _, k, h1, _, _, _, _, _, _, hkey, rfl⟩ := C32.dataclassTable_inv hb
    rw [List.mem_singleton] at hk
    obtain ⟨f, hf, hb⟩ := mapM_back h1 col (of_mem_ofList hcol)
    have hkf : k ∈ c.fields := by unfold ClassDecl.key at hkey; exact List.mem_of_find?_eq_some hkey
    obtain ⟨hn, _, hnul, _⟩ := member_default hb
    have : f = k := C32.nodup_field (hd.wellFormed.fields c hc) (List.mem_filter.1 hf).1 hkf (by rw [← hn, hk])
    rw [hnul, this]
    exact (hd.keys c hc k hkey).2
  | enum n =>
    obtain ⟨e, he, hb⟩ := h
    have hpk := (C32.enumTable_inv hb).2.1
    rw [hpk, List.mem_singleton] at hk
    unfold ConvOptions.enumTable at hb
    simp only [bind_ok] at hb
    obtain ⟨name, hname, hb⟩ := hb
    cases hki : e.kind with
    | int =>
      rw [hki] at hb
      simp only [bind_ok, pure_ok] at hb
      obtain ⟨label, hl, rfl⟩ := hb
      have := of_mem_ofList hcol
      simp only [List.mem_cons, List.not_mem_nil, or_false] at this
      rcases this with rfl | rfl <;> rfl
    | str =>
      rw [hki] at hb
      simp only [bind_ok, pure_ok] at hb
      obtain ⟨label, hl, rfl⟩ := hb
      have := of_mem_ofList hcol
      simp only [List.mem_cons, List.not_mem_nil, or_false] at this
      rcases this with rfl | rfl <;> rfl
    | struct fields =>
      rw [hki] at hb
      simp only [bind_ok, pure_ok] at hb
      obtain ⟨cols, hcols, rfl⟩ := hb
      rcases List.mem_cons.1 (of_mem_ofList hcol) with rfl | hc
      · rfl
      · obtain ⟨f, hf, hb⟩ := mapM_back hcols col hc
        exact absurd ((member_default hb).1.symm.trans hk) (hd.noColumnClash.enums n e fields he hki f hf)
    | empty => rw [hki] at hb; cases hb
    | mixed => rw [hki] at hb; cases hb
    | other => rw [hki] at hb; cases hb
  | join owner f i =>
    obtain ⟨c, hc, rfl, hkc, fd, hf, rfl, isList, item, hr, hi, hb⟩ := h
    obtain ⟨k, x, lt, _, _, _, _, hk, hx, hlt, _, _, _, h1, rfl⟩ := C32.joinTable_inv hb
    have := of_mem_ofList hcol
    simp only [List.mem_cons, List.not_mem_nil, or_false] at this
    rcases this with rfl | rfl | rfl <;> rfl

theorem column_ok (hd : Deployable o defs refs enumRefs d) {s : TableSource} (hs : Makes o defs refs s) {tb : Table}
    (h : C32.Built o defs depth refs s tb) {col : Column} (hcol : col ∈ tb.columns.items) : (Spec.Column.state d col).Ok := by
  intro hid
  have hid : col.identity = true := hid
  rcases built_column hd.wellFormed hs h hcol with ⟨f, hf, hb⟩ | ⟨hn, hnul, _⟩
  · obtain ⟨_, h2, h3, h4, _⟩ := member_default hb
    obtain ⟨h5, h6⟩ := hd.identity _ f hf (by rw [← h4, hid])
    exact ⟨h3.trans h5, by simp [Spec.Column.state, h2, h6]⟩
  · exact ⟨hnul, by simp [Spec.Column.state, hn]⟩

theorem type_fits (w : CatWF d C) {ty : SqlType} (h : ∀ q ∈ userTypes ty, Predefined q ∨ Creates C q) : TypeFits (Catalog.db d E C).kinds ty := by
  intro k hk
  obtain ⟨q, hq, hg, rfl⟩ := refs_user hk
  rcases h q hq with ⟨x, rfl⟩ | hc
  · cases hg
  · exact kinds_type w hc

/-! ### Constraints -/

theorem range_columns {condCols : Text → List Text} (hr : ReadsConditions defs condCols) {pre : Text} {col : Column} {x : Constraint}
    (hx : x ∈ ConvOptions.rangeCheck pre col) : ∃ name cond, x = .check name cond ∧ ∀ c ∈ condCols cond, c = col.name := by
  unfold ConvOptions.rangeCheck at hx
  have key : ∀ conds, ConvOptions.rangeConditions col = conds →
      x ∈ (match conds with
        | [] => []
        | conds => [Constraint.check (chName pre col.name) (joinWith (t " AND ") (conds.map (fun s => t "(" ++ s ++ t ")")))]) →
      ∃ name cond, x = .check name cond ∧ ∀ c ∈ condCols cond, c = col.name := by
    intro conds hc hx
    unfold ConvOptions.rangeConditions at hc
    cases hty : col.ty <;> rw [hty] at hc <;> try (subst hc; cases hx; done)
    rename_i lo hi
    cases lo with
    | none =>
      cases hi with
      | none => subst hc; cases hx
      | some m =>
        subst hc
        simp only [List.nil_append, List.map_cons, List.map_nil, List.mem_singleton] at hx
        refine ⟨_, _, hx, fun c hc => ?_⟩
        have h1 := hr.high col.name m
        simp only [joinWith] at hc
        rw [h1] at hc
        exact List.mem_singleton.1 hc
    | some n =>
      cases hi with
      | none =>
        subst hc
        simp only [List.append_nil, List.map_cons, List.map_nil, List.mem_singleton] at hx
        refine ⟨_, _, hx, fun c hc => ?_⟩
        have h1 := hr.low col.name n
        simp only [joinWith] at hc
        rw [h1] at hc
        exact List.mem_singleton.1 hc
      | some m =>
        subst hc
        simp only [List.cons_append, List.nil_append, List.map_cons, List.map_nil, List.mem_singleton] at hx
        refine ⟨_, _, hx, fun c hc => ?_⟩
        have h1 := hr.both col.name n m
        simp only [joinWith] at hc
        rw [h1] at hc
        simpa using hc
  exact key _ rfl hx

/-- The columns of a constraint exist. -/
theorem own_columns (hd : Deployable o defs refs enumRefs d) {condCols : Text → List Text} (hr : ReadsConditions defs condCols)
    {s : TableSource} (hs : Makes o defs refs s) {tb : Table} (h : C32.Built o defs depth refs s tb) {x : Constraint} (hx : x ∈ tb.constraints.items)
    {st : ConState} (hst : Spec.Constraint.state (engine d condCols) x = some st) : ∀ n ∈ st.cols, HasColumn tb n := by
  have links : ∀ name cols r, x = .foreign name cols r → ∀ n ∈ cols, HasColumn tb n := by
    intro name cols r hxe n hn
    obtain ⟨col, h1, h2, _⟩ := C32.built_links hd.wellFormed hs h x hx (cols, r) (by rw [hxe]; simp [Spec.links])
    dsimp only at h1
    rw [h1, List.mem_singleton] at hn
    rw [hn]; exact h2
  have hxf : ∀ name cols r, x = .foreign name cols r → ∀ n ∈ st.cols, HasColumn tb n := by
    intro name cols r hxe n hn
    rw [hxe] at hst
    cases hst
    exact links name cols r hxe n hn
  cases s with
  | entity n =>
    obtain ⟨c, hc, rfl, _, hb⟩ := h
    obtain ⟨columns, pre, keys, ext, rel, chk, _, _, h1, _, h3, h4, h5, h6, _, _, rfl⟩ := C32.dataclassTable_inv hb
    obtain ⟨f, hf, hg⟩ := C35.generated_inv h1 h3 h4 h5 h6 (of_mem_ofList hx)
    have hcol : o.relationship defs f.ty = none → ∀ n ∈ [f.name], ∃ col ∈ (ODict.ofList columns).items, col.name = n := by
      intro hr n hn
      rw [List.mem_singleton] at hn
      subst hn
      exact C32.column_of h1 hf hr
    have hsome : ∀ ty : PyType, (∀ item, ty ≠ .list item ∧ ty ≠ .set item) → o.relationship defs ty = none := by
      intro ty hty
      cases hrel : o.relationship defs ty with
      | none => rfl
      | some p =>
        rcases (C32.relationship_inv (item := p.2) (isList := p.1) hrel).1 with h | h
        · exact absurd h (hty _).1
        · exact absurd h (hty _).2
    rcases hg with ⟨hu, rfl⟩ | ⟨r, hxe, _⟩ | ⟨ms, rs, _, _, rfl⟩ | ⟨_, n, e, hty, he, rfl⟩ | ⟨ty, hty, col, hn, _, hrc⟩
    · cases hst
      exact hcol (hsome f.ty (hd.unique _ f (.inl ⟨c, hc, rfl, hf⟩) hu))
    · exact hxf _ _ r hxe
    · cases hst
    · cases hst
      intro n hn
      have h7 := hr.members _ e he f.name
      change n ∈ condCols _ at hn
      rw [h7] at hn
      exact hcol (hsome f.ty (fun item => by rw [hty]; exact ⟨nofun, nofun⟩)) n hn
    · obtain ⟨name, cond, rfl, hcc⟩ := range_columns hr hrc
      cases hst
      intro n hn'
      have := hcc n hn'
      refine hcol ?_ n (by rw [this, hn]; exact List.mem_singleton.2 rfl)
      cases hrel : o.relationship defs f.ty with
      | none => rfl
      | some p => exact absurd hty (relationship_refused hrel)
  | enum n =>
    obtain ⟨e, he, hb⟩ := h
    unfold ConvOptions.enumTable at hb
    simp only [bind_ok] at hb
    obtain ⟨name, hname, hb⟩ := hb
    have val : ∀ (idc : Column) (ty : SqlType), HasColumn { name := name, columns := ODict.ofList [idc, { name := t "value", ty := ty, nullable := false }], primaryKey := [] } (t "value") := by
      intro idc ty
      obtain ⟨b, hb, hk⟩ := ofList_has (α := Column) (l := [idc, { name := t "value", ty := ty, nullable := false }])
        (a := { name := t "value", ty := ty, nullable := false }) (by simp)
      exact ⟨b, hb, hk⟩
    cases hk : e.kind with
    | int =>
      rw [hk] at hb
      simp only [bind_ok, pure_ok] at hb
      obtain ⟨label, hl, rfl⟩ := hb
      have := of_mem_ofList hx
      rw [List.mem_singleton] at this
      subst this
      cases hst
      intro n hn
      rw [List.mem_singleton.1 hn]
      exact val _ _
    | str =>
      rw [hk] at hb
      simp only [bind_ok, pure_ok] at hb
      obtain ⟨label, hl, rfl⟩ := hb
      have := of_mem_ofList hx
      rw [List.mem_singleton] at this
      subst this
      cases hst
      intro n hn
      rw [List.mem_singleton.1 hn]
      exact val _ _
    | struct fields =>
      rw [hk] at hb
      simp only [bind_ok, pure_ok] at hb
      obtain ⟨cols, hcols, rfl⟩ := hb
      cases hx
    | empty => rw [hk] at hb; cases hb
    | mixed => rw [hk] at hb; cases hb
    | other => rw [hk] at hb; cases hb
  | join owner f i =>
    obtain ⟨c, hc, rfl, hkc, fd, hf, rfl, isList, item, hrel, hi, hb⟩ := h
    obtain ⟨k, y, lt, _, _, _, _, hk, hy, hlt, _, _, _, h1, rfl⟩ := C32.joinTable_inv hb
    have := of_mem_ofList hx
    simp only [List.mem_append, List.mem_cons, List.not_mem_nil, or_false] at this
    rcases this with (hxe | hxe) | h
    · exact hxf _ _ _ hxe
    · exact hxf _ _ _ hxe
    · cases isList with
      | true => cases h
      | false =>
        rw [if_neg (by simp), List.mem_singleton] at h
        subst h
        cases hst
        intro n hn
        have hn : n ∈ [y.1.2 ++ t "_" ++ y.2.1] := hn
        rw [List.mem_singleton.1 hn]
        obtain ⟨b, hb, hbk⟩ := ofList_has (α := Column) (a := { name := y.1.2 ++ t "_" ++ y.2.1, ty := y.2.2, nullable := false })
          (l := [{ name := t "uuid", ty := o.primType .uuid, nullable := false },
              { name := c.name.2 ++ t "_" ++ fd.name, ty := lt, nullable := false },
              { name := y.1.2 ++ t "_" ++ y.2.1, ty := y.2.2, nullable := false }]) (by simp)
        exact ⟨b, hb, hbk⟩

/-! ### The database -/

theorem valid (hd : Deployable o defs refs enumRefs d) (hs : C34.PlainSubst o) (htopo : ∀ l l', topo l = .ok l' → l'.Perm l)
    {condCols : Text → List Text} (hr : ReadsConditions defs condCols)
    (h : o.toCatalog defs depth topo refs enumRefs = .ok C) : Valid (Catalog.db d (engine d condCols) C) := by
  have w := wf hd htopo h
  have ht := C34_types_resolve o defs depth topo refs enumRefs C htopo hs hd.wellFormed hd.noClash hd.declared h
  have hkr := C32_resolves o defs depth topo refs enumRefs C hd.wellFormed hd.noClash h
  constructor
  · intro k x hx
    obtain ⟨n, hn, hname, _⟩ := objs_some hx
    have : C.namespaces.contains k.1 = true := by
      unfold ODict.contains
      rw [List.any_eq_true]
      exact ⟨n, hn, decide_eq_true hname⟩
    simp [Catalog.db, this]
  · intro k x hx
    obtain ⟨n, hn, hname, hobj⟩ := objs_some hx
    have wn := w.wf n hn
    rcases obj_some hobj with ⟨e, _, rfl⟩ | ⟨st, hst, rfl⟩ | ⟨tb, htb, rfl⟩
    · trivial
    · obtain ⟨hmem, _⟩ := mem_of_get hst
      intro m ty hm
      rw [Option.map_eq_some_iff] at hm
      obtain ⟨mem, hmm, rfl⟩ := hm
      exact type_fits w (ht.members n hn st hmem mem (mem_of_get hmm).1)
    · obtain ⟨hmem, _⟩ := mem_of_get htb
      have hin : InCatalog C n.name tb := ⟨n, hn, rfl, hmem⟩
      obtain ⟨s, hs, hb, _⟩ := ns_table hd.wellFormed hd.noClash h hn hmem
      constructor
      · intro c cs hcs
        obtain ⟨col, hcol, rfl, rfl⟩ := column_state hb |>.1 cs hcs
        exact ⟨column_ok hd hs hb hcol, type_fits w (ht.columns _ tb hin col hcol)⟩
      · intro c hc
        have hc : c ∈ tb.primaryKey := hc
        obtain ⟨col, hcol, rfl⟩ := (hkr.key _ tb hin).2 c hc
        have hget : tb.columns.get col.name = some col := get_of_mem (built_parts hb).1 hcol
        refine ⟨Spec.Column.state d col, by simp [Spec.Table.state, hget], ?_⟩
        exact key_not_null hd hb hcol hc
      · intro c cs hcs
        simp only [Spec.Table.state, Option.bind_eq_some_iff] at hcs
        obtain ⟨x, hx, hst⟩ := hcs
        obtain ⟨hxm, _⟩ := mem_of_get hx
        constructor
        · intro m hm
          exact (column_state hb).2 (own_columns hd hr hs hb hxm hst m hm)
        · cases x with
          | unique _ _ => cases hst; trivial
          | check _ _ => cases hst; trivial
          | discriminated _ _ _ => cases hst
          | foreign name cols r =>
            cases hst
            obtain ⟨_, tb', hin', hn', hc'⟩ := hkr.other _ tb hin _ hxm (cols, r) (by simp [links])
            have := kinds_table (E := engine d condCols) w hin'
            rw [hn', ← hc'] at this
            exact this
      · intro df m hdf
        cases d with
        | mssql =>
          simp only [Spec.Table.state, Option.map_eq_some_iff] at hdf
          obtain ⟨col, hf, rfl⟩ := hdf
          have hcol := List.mem_of_find?_eq_some hf
          have hp := List.find?_some hf
          simp only [Bool.and_eq_true, decide_eq_true_eq] at hp
          have hget : tb.columns.get col.name = some col := get_of_mem (built_parts hb).1 hcol
          refine ⟨Spec.Column.state .mssql col, by simp [Spec.Table.state, hget], ?_⟩
          cases hdd : col.default with
          | none => rw [hdd] at hp; cases hp.1
          | some e => simp [Spec.Column.state, hdd]
        | _ => cases hdf

end Dep
end PySqlSync
