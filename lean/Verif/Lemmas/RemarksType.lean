/-
Helper lemmas: the comments of composite types.
-/
import Verif.Lemmas.RemarksCat

set_option autoImplicit false

namespace PySqlSync.Rem
open Spec

variable {d : Dialect} {o : MutatorOptions}

def Own (x : Option Text) (r : Remarks) : Prop := r.own = stored x

theorem change_type {q : QId} (x y : Option Text) (c : Key → Remarks) :
    (remarks d c (commentChange x y (Stmt.commentType q)) q.key).own = (if x = y then (c q.key).own else stored y) := by
  unfold commentChange
  cases y with
  | none =>
    cases x with
    | none => simp [remarks]
    | some x => simp [remarks, remark, upd]
  | some y =>
    by_cases h : x = some y
    · simp [h, remarks]
    · simp [h, remarks, remark, upd]

theorem own_members {q : QId} {f : StructMember → List Stmt} (hf : ∀ m, f m = [] ∨ ∃ x, f m = [Stmt.commentColumn q m.name x]) :
    ∀ (l : List StructMember) (c : Key → Remarks), (remarks d c (l.flatMap f) q.key).own = (c q.key).own
  | [], _ => rfl
  | m :: l, c => by
    rw [List.flatMap_cons, remarks_append, own_members hf l]
    rcases hf m with h | ⟨x, h⟩
    · rw [h]; rfl
    · rw [h]; simp [remarks, remark, upd]

theorem struct_create_block (s : StructType) : Block .postgresql s.name.key (fun _ => True) (Own s.description) (s.createStmt .postgresql) := by
  intro c _
  unfold StructType.createStmt Own
  rw [← List.singleton_append, remarks_append, remarks_append, own_members (q := s.name) (by
    intro m
    cases m.description with
    | none => exact .inl rfl
    | some x => exact .inr ⟨_, rfl⟩)]
  cases s.description with
  | none => simp [remarks, remark, upd, noRemarks, stored]
  | some x => simp [remarks, remark, upd]

theorem attrs_own (l : List AttrAction) (r : Remarks) : (l.foldl remarkAttr r).own = r.own := by
  induction l generalizing r with
  | nil => rfl
  | cons a l ih => rw [List.foldl_cons, ih]; cases a <;> rfl

theorem struct_change_block {a b : StructType} {l : List Stmt} (h : mutateStruct .postgresql a b = .ok l) :
    Block .postgresql b.name.key (Own a.description) (Own b.description) l := by
  intro c hc
  have hn := mutateStruct_name h
  unfold mutateStruct at h
  simp only [Conv.bind_ok, Conv.pure_ok] at h
  obtain ⟨_, _, rfl⟩ := h
  unfold Own at *
  rw [remarks_append, change_type]
  split
  · next e =>
    rw [← e, ← hc]
    split
    · rfl
    · simp [remarks, remark, hn, upd_same, attrs_own]
  · rfl

theorem split_flatMap {α : Type} {key : α → Text} {f : α → List Stmt} : ∀ {l : List α}, (l.map key).Nodup → ∀ {x : α}, x ∈ l →
    ∃ p s, l.flatMap f = p ++ (f x ++ s) ∧ ∀ st ∈ p ++ s, ∃ y ∈ l, key y ≠ key x ∧ st ∈ f y
  | [], _, _, hx => by cases hx
  | a :: l, hn, x, hx => by
    simp only [List.map_cons, List.nodup_cons] at hn
    rcases List.mem_cons.mp hx with rfl | hx
    · refine ⟨[], l.flatMap f, by simp, ?_⟩
      intro st hst
      obtain ⟨z, hz, hm⟩ := List.mem_flatMap.1 (List.nil_append _ ▸ hst)
      exact ⟨z, List.mem_cons_of_mem _ hz, fun e => hn.1 (e ▸ List.mem_map_of_mem hz), hm⟩
    · obtain ⟨p, s, h2, h3⟩ := split_flatMap (f := f) hn.2 hx
      refine ⟨f a ++ p, s, by simp [h2], ?_⟩
      intro st hst
      rw [List.append_assoc] at hst
      rcases List.mem_append.mp hst with hst | hst
      · exact ⟨a, List.mem_cons_self .., fun e => hn.1 (e ▸ List.mem_map_of_mem hx), hst⟩
      · obtain ⟨z, hz, hk, hr⟩ := h3 st hst
        exact ⟨z, List.mem_cons_of_mem _ hz, hk, hr⟩

/-- A new namespace. -/
theorem struct_objects_block {n : Namespace} (w : NsWF .postgresql n) {l : List Stmt} (h : n.createObjectsStmt .postgresql = .ok l)
    {s : StructType} (hs : s ∈ n.structs.items) : Block .postgresql s.name.key (fun _ => True) (Own s.description) l := by
  unfold Namespace.createObjectsStmt at h
  simp only [Conv.bind_ok, Conv.pure_ok] at h
  obtain ⟨r, hr, rfl⟩ := h
  obtain ⟨p, q, h2, h3⟩ := split_flatMap (key := key) (f := StructType.createStmt .postgresql) w.structs hs
  refine Block.after (Block.anyway ?_ _) ?_
  · rw [h2]
    refine Block.anyway (Block.after (struct_create_block s) ?_) _
    intro x hx
    obtain ⟨y, hy, hk, hm⟩ := h3 x (List.mem_append_right _ hx)
    exact quiet_structCreate (key_ne_of_local hk) hm
  · intro x hx
    obtain ⟨y, hy, ly, hly, hm⟩ := mem_of_mapM hr hx
    exact quiet_create hly (key_ne_of_local (Ne.symm (w.structTable s hs y hy))) hm

/-- The statements about other kinds of objects. -/
theorem struct_quiet {a b : Namespace} (wb : NsWF .postgresql b) (hk : StructKindsKept a b)
    (hlook : KindsKept a b)
    {l : List Stmt} (h : mutateNamespace .postgresql o a b = .ok l) {s : StructType} (hs : s ∈ b.structs.items) :
    ∃ sm pre mid post, (a.structs.intersection b.structs).mapM (fun p => mutateStruct .postgresql p.1 p.2) = .ok sm ∧
      l = pre ++ (((b.structs.difference a.structs).flatMap (StructType.createStmt .postgresql)) ++ (mid ++ (sm.flatten ++ post))) ∧
      ∀ x ∈ pre ++ (mid ++ post), Quiet .postgresql s.name.key x := by
  obtain ⟨r, em, sm, tm, hr, hem, hsm, htm, rfl⟩ := mutateNamespace_inv h
  refine ⟨sm, _, (softPairs a b).flatMap (fun p => p.1.softDropStmt) ++ (r.flatten ++ ((b.tables.difference a.tables).flatMap (Table.addConstraintsStmt .postgresql)
        ++ ((softPairs a b).flatMap (fun p => migrateEnum .postgresql p.1 p.2) ++ em.flatten))), _, hsm, by simp only [List.append_assoc]; rfl, ?_⟩
  have hE := fun e he => key_ne_of_local (Ne.symm ((hk s hs).1 e he))
  intro x hx
  simp only [List.mem_append] at hx
  rcases hx with hx | (hx | (hx | (hx | (hx | hx)))) | (hx | (hx | (hx | hx)))
  · obtain ⟨y, hy, hm⟩ := List.mem_flatMap.1 hx
    exact quiet_enumCreate (key_ne_of_local (wb.enumStruct y (mem_diff hy).1 s hs)) hm
  · obtain ⟨y, hy, hm⟩ := List.mem_flatMap.1 hx
    rw [List.mem_singleton.1 (show x ∈ [_] from hm)]
    simp only [softPairs, List.mem_flatMap, List.mem_map, List.mem_filter] at hy
    obtain ⟨e, he, tb', _, rfl⟩ := hy
    refine quiet_rename (Ne.symm (hE e (mem_diff he).1)) ?_
    intro e'
    exact wb.structNames s hs _ (congrArg Prod.snd e')
  · obtain ⟨y, hy, ly, hly, hm⟩ := mem_of_mapM hr hx
    exact quiet_create hly (key_ne_of_local (Ne.symm (wb.structTable s hs y (mem_diff hy).1))) hm
  · obtain ⟨y, _, hm⟩ := List.mem_flatMap.1 hx
    exact quiet_addConstraints hm
  · obtain ⟨y, _, hm⟩ := List.mem_flatMap.1 hx
    exact quiet_migrateEnum hm
  · obtain ⟨y, _, ly, hly, hm⟩ := mem_of_mapM hem hx
    exact quiet_mutateEnum hly hm
  · obtain ⟨y, hy, ly, hly, hm⟩ := mem_of_mapM htm hx
    exact quiet_mutateTable hly (key_ne_of_local (Ne.symm (wb.structTable s hs y.2 (mem_inter hy).2.1))) hm
  · split at hx
    · obtain ⟨y, hy, hm⟩ := List.mem_flatMap.1 hx
      rw [List.mem_singleton.1 (show x ∈ [_] from hm)]
      exact quiet_dropTable (key_ne_of_local (Ne.symm ((hk s hs).2 y (mem_diff hy).1)))
    · cases hx
  · split at hx
    · obtain ⟨y, hy, hm⟩ := List.mem_flatMap.1 hx
      rw [List.mem_singleton.1 (show x ∈ [_] from hm)]
      exact quiet_dropType (key_ne_of_local ((mem_diff hy).2 s hs))
    · cases hx
  · split at hx
    · obtain ⟨e, he, hm⟩ := List.mem_flatMap.1 hx
      split at hm
      · next hc =>
        rw [List.mem_singleton.1 (show x ∈ [_] from hm)]
        have hm' : e ∈ (softPairs a b).map Prod.fst := by simpa using hc
        obtain ⟨p, hp, rfl⟩ := List.mem_map.1 hm'
        simp only [softPairs, List.mem_flatMap, List.mem_map, List.mem_filter] at hp
        obtain ⟨e, he', tb', ⟨htb', hname'⟩, rfl⟩ := hp
        have hname' : e.name = tb'.name := by simpa using hname'
        have := (hlook.enums tb' (mem_diff htb').1 e (mem_diff he').1 (by rw [hname'])).2
        refine quiet_dropType ?_
        rw [this]
        intro e'
        have := congrArg Prod.snd e'
        exact wb.structNames s hs _ this.symm
      · rw [List.mem_singleton.1 (show x ∈ [_] from hm)]
        exact quiet_dropType (hE e (mem_diff he).1)
    · cases hx

theorem struct_created_block {a b : Namespace} (wa : NsWF .postgresql a) (wb : NsWF .postgresql b) (hk : StructKindsKept a b)
    (hlook : KindsKept a b)
    {l : List Stmt} (h : mutateNamespace .postgresql o a b = .ok l) {s : StructType} (hs : s ∈ b.structs.items)
    (hnew : ∀ x ∈ a.structs.items, x.name.localId ≠ s.name.localId) :
    Block .postgresql s.name.key (fun _ => True) (Own s.description) l := by
  have hdiff : s ∈ b.structs.difference a.structs := by
    refine (ODict.mem_difference).mpr ⟨hs, ?_⟩
    intro hm
    obtain ⟨x, hx, e⟩ := List.mem_map.mp hm
    exact hnew x hx e
  obtain ⟨sm, pre, mid, post, hsm, rfl, hq⟩ := struct_quiet wb hk hlook h hs
  obtain ⟨p, q, h2, h3⟩ := split_flatMap (key := key) (f := StructType.createStmt .postgresql) (ODict.difference_nodup wb.structs _) hdiff
  refine Block.anyway (Block.after ?_ ?_) _
  · rw [h2]
    refine Block.anyway (Block.after (struct_create_block s) ?_) _
    intro x hx
    obtain ⟨y, hy, hk, hm⟩ := h3 x (List.mem_append_right _ hx)
    exact quiet_structCreate (key_ne_of_local hk) hm
  · intro x hx
    rcases List.mem_append.1 hx with hx | hx
    · exact hq x (List.mem_append_right _ (List.mem_append_left _ hx))
    rcases List.mem_append.1 hx with hx | hx
    · obtain ⟨y, hy, ly, hly, hm⟩ := mem_of_mapM hsm hx
      have hi := mem_inter hy
      exact quiet_mutateStruct hly (key_ne_of_local (fun e => hnew y.1 hi.1 (hi.2.2.trans e))) hm
    · exact hq x (List.mem_append_right _ (List.mem_append_right _ hx))

theorem struct_changed_block {a b : Namespace} (wa : NsWF .postgresql a) (wb : NsWF .postgresql b) (hk : StructKindsKept a b)
    (hlook : KindsKept a b)
    {l : List Stmt} (h : mutateNamespace .postgresql o a b = .ok l) {x s : StructType} (hx : x ∈ a.structs.items) (hs : s ∈ b.structs.items)
    (hname : x.name.localId = s.name.localId) :
    Block .postgresql s.name.key (Own x.description) (Own s.description) l := by
  have hint : (x, s) ∈ a.structs.intersection b.structs := mem_inter_intro wb.structs hx hs hname
  obtain ⟨sm, pre, mid, post, hsm, rfl, hq⟩ := struct_quiet wb hk hlook h hs
  obtain ⟨p, lx, q, h1, h2, h3⟩ := split_mapM (key := fun p => key p.1) hsm (ODict.intersection_nodup wa.structs _) hint
  have hother : ∀ y ∈ p ++ q, Quiet .postgresql s.name.key y := by
    intro y hy
    obtain ⟨z, hz, hkz, ly, hly, hm⟩ := h3 y hy
    have hi := mem_inter hz
    refine quiet_mutateStruct hly (key_ne_of_local ?_) hm
    intro e
    exact hkz (hi.2.2.trans (e.trans hname.symm))
  refine Block.before (Block.before (Block.before (Block.after ?_ ?_) ?_) ?_) ?_
  · rw [h2]
    exact Block.before (Block.after (struct_change_block h1) (fun y hy => hother y (List.mem_append_right _ hy)))
      (fun y hy => hother y (List.mem_append_left _ hy))
  · exact fun y hy => hq y (List.mem_append_right _ (List.mem_append_right _ hy))
  · exact fun y hy => hq y (List.mem_append_right _ (List.mem_append_left _ hy))
  · intro y hy
    obtain ⟨z, hz, hm⟩ := List.mem_flatMap.1 hy
    exact quiet_structCreate (key_ne_of_local (fun e => (mem_diff hz).2 x hx (e.trans hname.symm))) hm
  · exact fun y hy => hq y (List.mem_append_left _ hy)

/-- The statements about other namespaces. -/
theorem catalog_around {S T : Catalog} (wS : CatWF .postgresql S) (wT : CatWF .postgresql T) {l : List Stmt}
    (h : mutateSorted .postgresql o S T = .ok l) {b : Namespace} (hb : b ∈ T.namespaces.items) {k : Key} (hscope : k.1 = b.name) :
    (∃ a ∈ S.namespaces.items, a.name = b.name ∧ ∃ pre lx post, mutateNamespace .postgresql o a b = .ok lx ∧ l = pre ++ (lx ++ post) ∧
      ∀ x ∈ pre ++ post, Quiet .postgresql k x) ∨
    ∃ pre lx post, b.createObjectsStmt .postgresql = .ok lx ∧ l = pre ++ (lx ++ post) ∧ ∀ x ∈ post, Quiet .postgresql k x := by
  obtain ⟨cr, mu, hcr, hmu, rfl⟩ := mutateSorted_inv h
  have hkd : ∀ n ∈ S.namespaces.difference T.namespaces, k.1 ≠ n.name := by
    intro n hn e
    rw [hscope] at e
    exact (mem_diff hn).2 b hb e.symm
  have hlast1 : ∀ s ∈ (S.namespaces.difference T.namespaces).flatMap Namespace.dropConstraintsStmt, Quiet .postgresql k s := by
    intro s hs
    obtain ⟨n, hn, hm⟩ := List.mem_flatMap.1 hs
    obtain ⟨x, _, hm⟩ := List.mem_flatMap.1 hm
    exact quiet_dropConstraints hm
  have hlast2 : ∀ s ∈ (if o.allowDropNamespace then (S.namespaces.difference T.namespaces).flatMap Namespace.dropObjectsStmt
            ++ (S.namespaces.difference T.namespaces).flatMap (Namespace.dropSchemaStmt .postgresql) else []), Quiet .postgresql k s := by
    intro s hs
    split at hs
    · rcases List.mem_append.1 hs with hs | hs
      · obtain ⟨n, hn, hm⟩ := List.mem_flatMap.1 hs
        exact quiet_dropObjects (wS.wf n (mem_diff hn).1) (hkd n hn) hm
      · obtain ⟨n, hn, hm⟩ := List.mem_flatMap.1 hs
        exact quiet_dropSchema (hkd n hn) hm
    · cases hs
  have hadd : ∀ x ∈ (T.namespaces.difference S.namespaces).flatMap (Namespace.addConstraintsStmt .postgresql), Quiet .postgresql k x := by
    intro x hx
    obtain ⟨n, _, hm⟩ := List.mem_flatMap.1 hx
    obtain ⟨y, _, hm⟩ := List.mem_flatMap.1 hm
    exact quiet_addConstraints hm
  by_cases hex : ∃ a ∈ S.namespaces.items, a.name = b.name
  · obtain ⟨a, ha, hab⟩ := hex
    have hint := mem_inter_intro wT.names ha hb hab
    obtain ⟨p, lx, s, h1, h2, h3⟩ := split_mapM (key := fun p => key p.1) hmu (ODict.intersection_nodup wS.names _) hint
    have hquiet : ∀ x ∈ p ++ s, Quiet .postgresql k x := by
      intro x hx
      obtain ⟨y, hy, hky, ly, hly, hm⟩ := h3 x hx
      have hi := mem_inter hy
      refine quiet_namespace (wS.wf _ hi.1) (wT.wf _ hi.2.1) hly hi.2.2 ?_ hm
      rw [hscope]
      intro e
      exact hky (hi.2.2.trans (e.symm.trans hab.symm))
    refine .inl ⟨a, ha, hab, (T.namespaces.difference S.namespaces).flatMap (Namespace.createSchemaStmt .postgresql) ++ (cr.flatten
        ++ ((T.namespaces.difference S.namespaces).flatMap (Namespace.addConstraintsStmt .postgresql) ++ p)), lx, s ++ ((S.namespaces.difference T.namespaces).flatMap Namespace.dropConstraintsStmt
        ++ (if o.allowDropNamespace then (S.namespaces.difference T.namespaces).flatMap Namespace.dropObjectsStmt
            ++ (S.namespaces.difference T.namespaces).flatMap (Namespace.dropSchemaStmt .postgresql) else [])), h1, by rw [h2]; simp only [List.append_assoc], ?_⟩
    intro x hx
    rcases List.mem_append.1 hx with hx | hx
    · rcases List.mem_append.1 hx with hx | hx
      · obtain ⟨n, _, hm⟩ := List.mem_flatMap.1 hx
        exact quiet_createSchema hm
      rcases List.mem_append.1 hx with hx | hx
      · obtain ⟨n, hn, ly, hly, hm⟩ := mem_of_mapM hcr hx
        refine quiet_objects (wT.wf n (mem_diff hn).1) hly ?_ hm
        rw [hscope]
        intro e
        exact (mem_diff hn).2 a ha (e.symm.trans hab.symm)
      rcases List.mem_append.1 hx with hx | hx
      · exact hadd x hx
      · exact hquiet x (List.mem_append_left _ hx)
    · rcases List.mem_append.1 hx with hx | hx
      · exact hquiet x (List.mem_append_right _ hx)
      rcases List.mem_append.1 hx with hx | hx
      · exact hlast1 x hx
      · exact hlast2 x hx
  · have hdiff : b ∈ T.namespaces.difference S.namespaces := by
      refine (ODict.mem_difference).mpr ⟨hb, ?_⟩
      intro hm
      obtain ⟨x, hx, e⟩ := List.mem_map.mp hm
      exact hex ⟨x, hx, e⟩
    obtain ⟨p, lx, s, h1, h2, h3⟩ := split_mapM (key := key) hcr (ODict.difference_nodup wT.names _) hdiff
    refine .inr ⟨(T.namespaces.difference S.namespaces).flatMap (Namespace.createSchemaStmt .postgresql) ++ p, lx, s
        ++ ((T.namespaces.difference S.namespaces).flatMap (Namespace.addConstraintsStmt .postgresql) ++ (mu.flatten ++ ((S.namespaces.difference T.namespaces).flatMap Namespace.dropConstraintsStmt
        ++ (if o.allowDropNamespace then (S.namespaces.difference T.namespaces).flatMap Namespace.dropObjectsStmt
            ++ (S.namespaces.difference T.namespaces).flatMap (Namespace.dropSchemaStmt .postgresql) else [])))), h1, by rw [h2]; simp only [List.append_assoc], ?_⟩
    intro x hx
    rcases List.mem_append.1 hx with hx | hx
    · obtain ⟨y, hy, hky, ly, hly, hm⟩ := h3 x (List.mem_append_right _ hx)
      refine quiet_objects (wT.wf y (mem_diff hy).1) hly ?_ hm
      rw [hscope]
      exact Ne.symm hky
    rcases List.mem_append.1 hx with hx | hx
    · exact hadd x hx
    rcases List.mem_append.1 hx with hx | hx
    · obtain ⟨p, hp, ly, hly, hm⟩ := mem_of_mapM hmu hx
      have hi := mem_inter hp
      refine quiet_namespace (wS.wf _ hi.1) (wT.wf _ hi.2.1) hly hi.2.2 ?_ hm
      rw [hscope]
      intro e
      exact hex ⟨p.1, hi.1, hi.2.2.trans e.symm⟩
    rcases List.mem_append.1 hx with hx | hx
    · exact hlast1 x hx
    · exact hlast2 x hx

theorem struct_catalog {S T : Catalog} (wS : CatWF .postgresql S) (wT : CatWF .postgresql T) {l : List Stmt}
    (h : mutateSorted .postgresql o S T = .ok l)
    (hk : ∀ a ∈ S.namespaces.items, ∀ b ∈ T.namespaces.items, a.name = b.name → KindsKept a b ∧ StructKindsKept a b)
    (c : Key → Remarks) (hc : ∀ s, IsStruct S s → (c s.name.key).own = stored s.description) {s : StructType} (hs : IsStruct T s) :
    (remarks .postgresql c l s.name.key).own = stored s.description := by
  obtain ⟨b, hb, hs⟩ := hs
  have wb := wT.wf b hb
  rcases catalog_around wS wT h hb (wb.structScope s hs) with ⟨a, ha, hab, pre, lx, post, h1, rfl, hq⟩ | ⟨pre, lx, post, h1, rfl, hq⟩
  · have wa := wS.wf a ha
    have hpre := fun x hx => hq x (List.mem_append_left _ hx)
    have hpost := fun x hx => hq x (List.mem_append_right _ hx)
    by_cases hold : ∃ x ∈ a.structs.items, x.name.localId = s.name.localId
    · obtain ⟨x, hx, hname⟩ := hold
      have hkey : x.name.key = s.name.key := by
        refine Prod.ext ?_ hname
        rw [wa.structScope x hx, wb.structScope s hs, hab]
      refine Block.before (Block.after (struct_changed_block wa wb (hk a ha b hb hab).2 (hk a ha b hb hab).1 h1 hx hs hname) hpost) hpre c ?_
      unfold Own
      rw [← hkey]
      exact hc x ⟨a, ha, hx⟩
    · exact Block.before (Block.after (struct_created_block wa wb (hk a ha b hb hab).2 (hk a ha b hb hab).1 h1 hs (fun x hx e => hold ⟨x, hx, e⟩)) hpost) hpre c trivial
  · exact Block.anyway (Block.after (struct_objects_block wb h1 hs) hq) _ c trivial

end PySqlSync.Rem
