/-
Helper lemmas: the rows of a new lookup table.
-/
import Verif.Spec.Members
import Verif.Lemmas.DataLookup

set_option autoImplicit false

namespace PySqlSync.Dat
open Spec

variable {R : RowEngine} {d : Dialect} {o : MutatorOptions} {topo : List (Text × List Text) → Except Err (List Text)}

/-- Statements that spare all columns of a table only add rows. -/
theorem run_same {grow : Bool} {k : Key} {l : List Stmt} (h : ∀ s ∈ l, ∀ m, Spares grow k m none s) {D D' : Data} (hr : rowRun R D l = some D') :
    ∃ ext, D' k = D k ++ ext ∧ (grow = false → ext = []) := by
  have hset : Settled R none := by intro u hu; cases hu
  have key : ∀ m, ∃ kept ext, D' k = kept ++ ext ∧ Each (SameValue m) (D k) kept ∧ (grow = false → ext = []) := by
    intro m
    obtain ⟨kept, ext, e, hk, g⟩ := run_w hset (fun s hs => h s hs m) hr
    refine ⟨kept, ext, e, each_mono ?_ hk, g⟩
    rintro x y (h | ⟨u, hu, _⟩)
    · exact h
    · cases hu
  obtain ⟨kept, ext, e, hk, g⟩ := key []
  refine ⟨ext, ?_, g⟩
  rw [e]
  congr 1
  refine List.ext_getElem? fun i => ?_
  by_cases hi : i < (D k).length
  · have hi' : i < kept.length := by rw [hk.1]; exact hi
    rw [List.getElem?_eq_getElem hi, List.getElem?_eq_getElem hi']
    refine congrArg some (funext fun m => ?_)
    obtain ⟨kept', ext', e', hk', g'⟩ := key m
    have hi'' : i < kept'.length := by rw [hk'.1]; exact hi
    have h1 : (D' k)[i]? = some kept[i] := by rw [e, List.getElem?_append_left hi', List.getElem?_eq_getElem hi']
    have h2 : (D' k)[i]? = some kept'[i] := by rw [e', List.getElem?_append_left hi'', List.getElem?_eq_getElem hi'']
    rw [h1] at h2
    rw [Option.some.inj h2]
    exact hk'.2 i _ _ (List.getElem?_eq_getElem hi) (List.getElem?_eq_getElem hi'')
  · rw [List.getElem?_eq_none (show kept.length ≤ i by rw [hk.1]; omega), List.getElem?_eq_none (by omega)]

/-- The row of a text. -/
def rowOf (R : RowEngine) (cols : List Text) (acc : List Row) (text : Text) : Row := fun n =>
  match (cols.zip (R.literal text)).find? (fun p => p.1 = n) with
  | some p => p.2
  | none => if n = t "id" then .int (R.fresh acc) else .null

theorem find_zip_nth {a : Text} : ∀ {cols : List Text} {vs : List Val} (_ : cols.Nodup) {j : Nat} {v : Val}, cols[j]? = some a → vs[j]? = some v →
    (cols.zip vs).find? (fun p => decide (p.1 = a)) = some (a, v)
  | [], _, _, j, v, h, _ => by simp at h
  | c :: cols, [], _, j, v, _, h => by simp at h
  | c :: cols, w :: vs, hn, 0, v, h1, h2 => by
    simp only [List.getElem?_cons_zero, Option.some.injEq] at h1 h2
    subst h1; subst h2
    simp
  | c :: cols, w :: vs, hn, j + 1, v, h1, h2 => by
    simp only [List.getElem?_cons_succ] at h1 h2
    have hne : c ≠ a := by
      intro e
      subst e
      exact (List.nodup_cons.1 hn).1 (List.mem_of_getElem? h1)
    rw [List.zip_cons_cons, List.find?_cons]
    simp only [hne, decide_false]
    exact find_zip_nth (List.nodup_cons.1 hn).2 h1 h2

theorem rowOf_id {cols : List Text} (hid : t "id" ∉ cols) (acc : List Row) (text : Text) : rowOf R cols acc text (t "id") = .int (R.fresh acc) := by
  unfold rowOf
  have : (cols.zip (R.literal text)).find? (fun p => decide (p.1 = t "id")) = none := by
    rw [List.find?_eq_none]
    intro p hp e
    exact hid ((of_decide_eq_true e) ▸ (List.of_mem_zip hp).1)
  rw [this]
  exact if_pos rfl

theorem fold_filled {cols : List Text} (hn : cols.Nodup) (hid : t "id" ∉ cols) : ∀ (texts : List Text) (acc : List Row),
    ∃ ext, texts.foldl (fun acc x => acc ++ [rowOf R cols acc x]) acc = acc ++ ext ∧ Filled R cols texts ext
      ∧ (FreshIds R → DistinctIds acc → DistinctIds (acc ++ ext))
  | [], acc => ⟨[], by simp, ⟨rfl, by intro i text r h; simp at h⟩, fun _ h => by simpa using h⟩
  | x :: texts, acc => by
    obtain ⟨ext, e, ⟨hl, hf⟩, hd⟩ := fold_filled hn hid texts (acc ++ [rowOf R cols acc x])
    refine ⟨rowOf R cols acc x :: ext, ?_, ⟨by simp [hl], ?_⟩, ?_⟩
    · rw [List.foldl_cons, e, List.append_assoc]; rfl
    · intro i text r h1 h2
      cases i with
      | zero =>
        simp only [List.getElem?_cons_zero, Option.some.injEq] at h1 h2
        subst h1; subst h2
        refine ⟨?_, _, rowOf_id hid acc x⟩
        intro j name v h3 h4
        unfold rowOf
        rw [find_zip_nth hn h3 h4]
      | succ i =>
        simp only [List.getElem?_cons_succ] at h1 h2
        exact hf i text r h1 h2
    · intro hfr hdi
      have := hd hfr (by
        unfold DistinctIds at hdi ⊢
        rw [List.map_append, List.nodup_append]
        refine ⟨hdi, by simp, ?_⟩
        intro a ha b hb
        simp only [List.map_cons, List.map_nil, List.mem_singleton] at hb
        subst hb
        obtain ⟨r, hr, rfl⟩ := List.mem_map.1 ha
        rw [rowOf_id hid]
        exact hfr acc r hr)
      rw [List.append_assoc] at this
      exact this

/-- The statements of a new table fill it. -/
theorem create_filled {tb : Table} (wt : TableWF d tb) {l : List Stmt} (h : tb.createStmt d = .ok l) {vs : List Text} (hv : tb.enumValues = some vs)
    (hid : t "id" ∈ tb.primaryKey) {D D' : Data} (hr : rowRun R D l = some D') :
    Filled R (tb.valueColumns.map Column.name) vs (D' tb.name.key) ∧ (FreshIds R → DistinctIds (D' tb.name.key)) := by
  unfold Table.createStmt at h
  simp only [Conv.bind_ok, Conv.pure_ok] at h
  obtain ⟨cols, hcols, rfl⟩ := h
  simp only [rowRun, rowStep, Option.bind_eq_some_iff] at hr
  obtain ⟨D0, h0, hr⟩ := hr
  cases h0
  obtain ⟨D1, r1, r2⟩ := rowRun_append_some hr
  have e1 : D1 tb.name.key = [] := by
    have := run_same (R := R) (grow := false) (k := tb.name.key) (D := upd D tb.name.key []) (D' := D1) (l := _) ?_ r1
    · obtain ⟨ext, e, g⟩ := this
      rw [e, g rfl, updR_eq]; rfl
    · intro st hst m
      have : (∃ x, st = .commentTable tb.name x) ∨ ∃ c x, st = .commentColumn tb.name c x := by
        split at hst
        · rcases List.mem_append.1 hst with hst | hst
          · split at hst
            · exact .inl ⟨_, List.mem_singleton.1 hst⟩
            · cases hst
          · obtain ⟨c, _, hst⟩ := List.mem_flatMap.1 hst
            split at hst
            · exact .inr ⟨_, _, List.mem_singleton.1 hst⟩
            · cases hst
        · cases hst
      rcases this with ⟨_, rfl⟩ | ⟨_, _, rfl⟩ <;> exact trivial
  simp only [hv, rowRun, rowStep, Option.bind_some, Option.some.injEq] at r2
  subst r2
  rw [updR_eq, e1]
  have hnot : t "id" ∉ tb.valueColumns.map Column.name := by
    intro hm
    obtain ⟨c, hc, e⟩ := List.mem_map.1 hm
    simp only [Table.valueColumns, List.mem_filter, Bool.and_eq_true, Bool.not_eq_true', List.contains_eq_mem, decide_eq_false_iff_not] at hc
    rw [e] at hc
    exact hc.2.1 hid
  have hnd : (tb.valueColumns.map Column.name).Nodup := by
    have h1 : (tb.columns.items.map Column.name).Nodup := wt.columns
    exact h1.sublist (List.filter_sublist.map _)
  obtain ⟨ext, e, hf, hdi⟩ := fold_filled (R := R) hnd hnot vs []
  have e' : vs.foldl (fun acc x => acc ++ [rowOf R (tb.valueColumns.map Column.name) acc x]) [] = ext := by rw [e, List.nil_append]
  show Filled R _ vs (vs.foldl (fun acc x => acc ++ [rowOf R (tb.valueColumns.map Column.name) acc x]) []) ∧
    (FreshIds R → DistinctIds (vs.foldl (fun acc x => acc ++ [rowOf R (tb.valueColumns.map Column.name) acc x]) []))
  rw [e']
  exact ⟨hf, fun h => by simpa using hdi h (by simp [DistinctIds])⟩

/-- The statements of a new table in the script of a common namespace. -/
theorem namespace_new {grow : Bool} {a b : Namespace} (wb : NsWF d b) {l : List Stmt} (h : mutateNamespace d o a b = .ok l)
    {tb : Table} (htb : tb ∈ b.tables.difference a.tables)
    (hg : grow = true ∨ ((∀ e ∈ a.enums.items, e.name ≠ tb.name) ∧
      ∀ x ∈ a.tables.items, ∀ y ∈ b.tables.items, x.name.localId = y.name.localId → Unfed d x y tb.name.key)) :
    ∃ P lx Q, l = P ++ (lx ++ Q) ∧ tb.createStmt d = .ok lx ∧ ∀ s ∈ Q, ∀ m, Spares grow tb.name.key m none s := by
  obtain ⟨r, em, sm, tm, hr, hem, hsm, htm, rfl⟩ := Rem.mutateNamespace_inv h
  obtain ⟨p, lx, s, h1, h2, h3⟩ := Rem.split_mapM (key := fun tb : Table => tb.name.localId) hr (ODict.difference_nodup wb.tables _) htb
  refine ⟨(b.enums.difference a.enums).flatMap EnumType.createStmt ++ (b.structs.difference a.structs).flatMap (StructType.createStmt d)
      ++ (softPairs a b).flatMap (fun p => p.1.softDropStmt) ++ p, lx, s ++ (b.tables.difference a.tables).flatMap (Table.addConstraintsStmt d)
        ++ (softPairs a b).flatMap (fun p => migrateEnum d p.1 p.2) ++ em.flatten ++ sm.flatten ++ tm.flatten
        ++ (if o.allowDropTable then (a.tables.difference b.tables).flatMap Table.dropStmt else [])
        ++ (if o.allowDropStruct then (a.structs.difference b.structs).flatMap StructType.dropStmt else [])
        ++ (if o.allowDropEnum then (a.enums.difference b.enums).flatMap (fun e =>
          if ((softPairs a b).map Prod.fst).contains e then e.hardDropStmt else e.dropStmt) else []), ?_, h1, ?_⟩
  · rw [h2]; simp only [List.append_assoc]
  · intro st hst m
    simp only [List.mem_append] at hst
    rcases hst with (((((((hs | hs) | hs) | hs) | hs) | hs) | hs) | hs) | hs
    · obtain ⟨y, hy, hk, ly, hly, hm⟩ := h3 st (List.mem_append_right _ hs)
      exact create_spares hly (fun e : y.name.key = tb.name.key => hk (congrArg Prod.snd e)) hm
    · obtain ⟨y, _, hs⟩ := List.mem_flatMap.1 hs
      exact addConstraints_spares hs
    · obtain ⟨q, hq, hs⟩ := List.mem_flatMap.1 hs
      rw [List.mem_singleton.1 (show st ∈ [_] from hs)]
      simp only [softPairs, List.mem_flatMap, List.mem_map, List.mem_filter] at hq
      obtain ⟨e, he, tb', ⟨htb', hen⟩, rfl⟩ := hq
      refine hg.imp id fun hg hk => ?_
      have : tb' = tb := eq_of_key wb.tables (mem_diff htb').1 (mem_diff htb).1 (congrArg Prod.snd hk)
      subst this
      exact hg.1 e (mem_diff he).1 (by simpa using hen)
    · obtain ⟨e, _, l, hl, hs⟩ := mem_of_mapM hem hs
      obtain ⟨v, rfl⟩ := mutateEnum_mem hl hs; trivial
    · obtain ⟨e, _, l, hl, hs⟩ := mem_of_mapM hsm hs
      rcases mutateStruct_mem hl hs with ⟨_, rfl⟩ | ⟨_, rfl⟩ <;> trivial
    · obtain ⟨z, hz, lz, hlz, hm⟩ := mem_of_mapM htm hs
      have hi := mem_inter (x := z.1) (y := z.2) hz
      exact table_other hlz (fun e => (mem_diff htb).2 z.1 hi.1 (congrArg Prod.snd e.symm)) (hg.imp id fun hg => hg.2 z.1 hi.1 z.2 hi.2.1 hi.2.2) hm
    · split at hs
      · obtain ⟨tb', htb', hs⟩ := List.mem_flatMap.1 hs
        rw [List.mem_singleton.1 (show st ∈ [_] from hs)]
        intro e
        exact (mem_diff htb).2 tb' (mem_diff htb').1 (congrArg Prod.snd e.symm)
      · cases hs
    · split at hs
      · obtain ⟨tb, htb, hs⟩ := List.mem_flatMap.1 hs
        rw [List.mem_singleton.1 (show st ∈ [_] from hs)]; trivial
      · cases hs
    · split at hs
      · obtain ⟨tb, htb, hs⟩ := List.mem_flatMap.1 hs
        split at hs <;> (rw [List.mem_singleton.1 (show st ∈ [_] from hs)]; trivial)
      · cases hs

/-- The statements of a new table in a script. -/
theorem catalog_new {grow : Bool} (ht : Sorts topo) {S T : Catalog} (wS : CatWF d S) (wT : CatWF d T) {stmts : List Stmt}
    (h : mutateCatalog topo d o S T = .ok stmts) {n : Namespace} (hn : n ∈ T.namespaces.items) {tb : Table} (htb : tb ∈ n.tables.items)
    (hnew : ∀ a, IsTable S a → a.name.key ≠ tb.name.key)
    (hg : grow = true ∨ ((∀ a ∈ S.namespaces.items, ∀ e ∈ a.enums.items, e.name ≠ tb.name) ∧
      ∀ x y, IsTable S x → IsTable T y → x.name.key = y.name.key → Unfed d x y tb.name.key)) :
    ∃ P lx Q, stmts = P ++ (lx ++ Q) ∧ tb.createStmt d = .ok lx ∧ ∀ s ∈ Q, ∀ m, Spares grow tb.name.key m none s := by
  by_cases hc : ∃ a ∈ S.namespaces.items, a.name = n.name
  · obtain ⟨a, ha, hab⟩ := hc
    obtain ⟨P, l, Q, rfl, hl, hX⟩ := catalog_around ht wS wT h ha hn hab
    have hd : tb ∈ n.tables.difference a.tables := by
      rw [ODict.mem_difference]
      refine ⟨htb, fun hm => ?_⟩
      obtain ⟨x, hx, e⟩ := List.mem_map.1 hm
      refine hnew x ⟨a, ha, hx⟩ (Prod.ext ?_ e)
      exact ((wS.wf a ha).tableScope x hx).trans (hab.trans ((wT.wf n hn).tableScope tb htb).symm)
    obtain ⟨P', lx, Q', rfl, h1, h2⟩ := namespace_new (grow := grow) (wT.wf n hn) hl hd (hg.imp id fun hg => ⟨hg.1 a ha, fun x hx y hy hxy =>
      hg.2 x y ⟨a, ha, hx⟩ ⟨n, hn, hy⟩ (Prod.ext (((wS.wf a ha).tableScope x hx).trans (hab.trans ((wT.wf n hn).tableScope y hy).symm)) hxy)⟩)
    refine ⟨P ++ P', lx, Q' ++ Q, by simp only [List.append_assoc], h1, ?_⟩
    intro s hs m
    rcases List.mem_append.1 hs with hs | hs
    · exact h2 s hs m
    · exact hX s (List.mem_append_right _ hs) _ ((wT.wf n hn).tableScope tb htb) grow m none (hg.imp id fun hg => hg.2)
  · obtain ⟨S', T', h1, h2, h3⟩ := mutateCatalog_sorted h
    have kS := sort_mem ht wS.names h1
    have kT := sort_mem ht wT.names h2
    have hn' := (kT.2.1 n).2 hn
    have wS' : ∀ n ∈ S'.namespaces.items, n ∈ S.namespaces.items := fun n hn => (kS.2.1 n).1 hn
    have wT' : ∀ n ∈ T'.namespaces.items, n ∈ T.namespaces.items := fun n hn => (kT.2.1 n).1 hn
    have dT : Distinct T'.namespaces := (wf_sort ht wT h2).names
    obtain ⟨cr, mu, hcr, hmu, rfl⟩ := Rem.mutateSorted_inv h3
    have hd : n ∈ T'.namespaces.difference S'.namespaces := by
      rw [ODict.mem_difference]
      refine ⟨hn', fun hm => ?_⟩
      obtain ⟨x, hx, e⟩ := List.mem_map.1 hm
      exact hc ⟨x, wS' x hx, e⟩
    obtain ⟨p, lx, s, e1, e2, e3⟩ := Rem.split_mapM (key := fun n : Namespace => n.name) hcr (ODict.difference_nodup dT _) hd
    unfold Namespace.createObjectsStmt at e1
    simp only [Conv.bind_ok, Conv.pure_ok] at e1
    obtain ⟨ts, hts, rfl⟩ := e1
    obtain ⟨p', ly, s', f1, f2, f3⟩ := Rem.split_mapM (key := fun tb : Table => tb.name.localId) hts (wT.wf n hn).tables htb
    refine ⟨(T'.namespaces.difference S'.namespaces).flatMap (Namespace.createSchemaStmt d) ++ p ++ n.enums.items.flatMap EnumType.createStmt
        ++ n.structs.items.flatMap (StructType.createStmt d) ++ p', ly, s' ++ s ++ (T'.namespaces.difference S'.namespaces).flatMap (Namespace.addConstraintsStmt d)
        ++ mu.flatten ++ (S'.namespaces.difference T'.namespaces).flatMap Namespace.dropConstraintsStmt
        ++ (if o.allowDropNamespace then (S'.namespaces.difference T'.namespaces).flatMap Namespace.dropObjectsStmt
            ++ (S'.namespaces.difference T'.namespaces).flatMap (Namespace.dropSchemaStmt d) else []), ?_, f1, ?_⟩
    · rw [e2, f2]; simp only [List.append_assoc]
    · intro st hst m
      have hsc := (wT.wf n hn).tableScope tb htb
      simp only [List.mem_append] at hst
      rcases hst with ((((hs | hs) | hs) | hs) | hs) | hs
      · obtain ⟨y, hy, hk, ly, hly, hm⟩ := f3 st (List.mem_append_right _ hs)
        exact create_spares hly (fun e : y.name.key = tb.name.key => hk (congrArg Prod.snd e)) hm
      · obtain ⟨y, hy, hk, ly, hly, hm⟩ := e3 st (List.mem_append_right _ hs)
        have hy' := wT' y (mem_diff hy).1
        rcases createObjects_mem hly hm with ⟨e, he, h⟩ | ⟨e, he, h⟩ | ⟨tb', htb', x, hx, h⟩
        · rw [List.mem_singleton.1 (show st ∈ [_] from h)]; trivial
        · exact structCreate_spares h
        · refine create_spares hx ?_ h
          intro e
          refine hk ?_
          rw [← (wT.wf y hy').tableScope tb' htb', e, hsc]
      · obtain ⟨y, _, hs⟩ := List.mem_flatMap.1 hs
        obtain ⟨tb', _, hs⟩ := List.mem_flatMap.1 hs
        exact addConstraints_spares hs
      · obtain ⟨z, hz, lz, hlz, hm⟩ := mem_of_mapM hmu hs
        have hi := mem_inter (x := z.1) (y := z.2) hz
        have hz1 := wS' _ hi.1
        have hz2 := wT' _ hi.2.1
        refine namespace_other (wS.wf _ hz1) (wT.wf _ hz2) hlz hi.2.2 ?_ (hg.imp id fun hg => ?_) hm
        · intro e
          exact hc ⟨z.1, hz1, by rw [← hsc, e]; exact hi.2.2⟩
        · intro x' hx' y' hy' hxy
          refine hg.2 x' y' ⟨_, hz1, hx'⟩ ⟨_, hz2, hy'⟩ ?_
          exact Prod.ext ((wS.wf _ hz1).tableScope x' hx' |>.trans (hi.2.2.trans ((wT.wf _ hz2).tableScope y' hy').symm)) hxy
      · obtain ⟨y, _, hs⟩ := List.mem_flatMap.1 hs
        obtain ⟨tb', _, hs⟩ := List.mem_flatMap.1 hs
        exact dropConstraints_spares hs
      · split at hs
        · rcases List.mem_append.1 hs with hs | hs
          · obtain ⟨y, hy, hs⟩ := List.mem_flatMap.1 hs
            rcases dropObjects_mem hs with ⟨tb', htb', rfl⟩ | ⟨e, _, rfl⟩ | ⟨e, _, rfl⟩
            · exact hnew tb' ⟨y, wS' y (mem_diff hy).1, htb'⟩
            · trivial
            · trivial
          · obtain ⟨y, hy, hs⟩ := List.mem_flatMap.1 hs
            obtain ⟨c, rfl⟩ := dropSchema_mem hs
            intro e
            exact (mem_diff hy).2 n hn' (e.trans hsc)
        · cases hs

end PySqlSync.Dat
