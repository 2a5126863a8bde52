/-
C09 — Enumeration-to-lookup-table conversion is safe at every step.
-/
import Verif.Props.C03
import Verif.Props.C01
import Verif.Lemmas.Exec
import Verif.Lemmas.NsDrop

set_option autoImplicit false

namespace PySqlSync
open Spec

namespace C09

variable {d : Dialect} {S T : Namespace}

/-- Executing a statement that does not address it leaves an enumeration as it is. -/
theorem step_keeps_enum {E : Engine} {db db' : Db} {s : Stmt} {k : Key} {vs : Text → Bool}
    (h : step E db s = some db') (hs : ¬ Addresses s k) (ho : db.objs k = some (.enum vs)) :
    db'.objs k = some (.enum vs) := by
  have hset : ∀ {q : QId} {o : Option Obj}, q.key ≠ k → (db.set q.key o).objs k = some (.enum vs) := by
    intro q o hq
    simp only [Db.set, upd]
    rw [if_neg (fun e => hq e.symm)]; exact ho
  have hcreate : ∀ {q : QId} {o : Obj} {r : Db}, q.key ≠ k → db.create q.key o = some r → r.objs k = some (.enum vs) := by
    intro q o r hq hr
    unfold Db.create at hr
    split at hr
    · cases hr
    · cases hr; exact hset hq
  cases s with
  | createSchema n b =>
    simp only [step] at h
    split at h
    · split at h
      · cases h; exact ho
      · cases h
    · cases h; exact ho
  | dropSchema n b =>
    simp only [step] at h
    simp only [Addresses] at hs
    split at h
    · cases h
      show (if b = true then _ else _ : Key → Option Obj) k = _
      split
      · show (if k.1 = n then none else db.objs k) = _
        rw [if_neg (fun e => hs e.symm)]; exact ho
      · exact ho
    · split at h
      · cases h; exact ho
      · cases h
  | createEnum q l => simp only [step] at h; split at h; · exact hcreate hs h
                      · cases h
  | createStruct q l => simp only [step] at h; split at h; · exact hcreate hs h
                        · cases h
  | createTable q c n p m => simp only [step] at h; split at h; · exact hcreate hs h
                             · cases h
  | alterTable q l =>
    simp only [step] at h
    split at h
    · rw [Option.map_eq_some_iff] at h
      obtain ⟨x, _, rfl⟩ := h; exact hset hs
    · cases h
  | addValue q v =>
    simp only [step] at h
    split at h
    · split at h
      · cases h
      · cases h; exact hset hs
    · cases h
  | alterStruct q l =>
    simp only [step] at h
    split at h
    · rw [Option.map_eq_some_iff] at h
      obtain ⟨x, _, rfl⟩ := h; exact hset hs
    · cases h
  | renameType q new =>
    simp only [step] at h
    simp only [Addresses, not_or] at hs
    split at h
    · cases h
    · cases h
    · split at h
      · cases h
      · cases h
        show Option.map _ (upd (upd db.objs q.key none) (q.key.1, new) _ k) = _
        simp only [upd]
        rw [if_neg (fun e => hs.2 e.symm), if_neg (fun e => hs.1 e.symm), ho]
        rfl
  | dropType q =>
    simp only [step] at h
    split at h
    · cases h
    · cases h
    · cases h; exact hset hs
  | dropTable q =>
    simp only [step] at h
    split at h
    · cases h; exact hset hs
    · cases h
  | commentTable q x => simp only [step] at h; split at h <;> cases h; exact ho
  | commentType q x => simp only [step] at h; split at h <;> cases h; exact ho
  | commentColumn q c x => simp only [step] at h; split at h <;> cases h; exact ho
  | insertRows q c x => simp only [step] at h; split at h <;> cases h; exact ho
  | insertLabels q c x => simp only [step] at h; split at h <;> cases h; exact ho
  | insertDistinct q c x => simp only [step] at h; split at h <;> cases h; exact ho
  | updateKeys q c x y => simp only [step] at h; split at h <;> cases h; exact ho

theorem runs_keeps_enum {E : Engine} {db db' : Db} {l : List Stmt} {k : Key} {vs : Text → Bool}
    (h : Runs E db l db') (hs : ∀ s ∈ l, ¬ Addresses s k) (ho : db.objs k = some (.enum vs)) :
    db'.objs k = some (.enum vs) := by
  induction h with
  | nil => exact ho
  | cons h1 _ _ ih =>
    exact ih (fun s hs' => hs s (List.mem_cons_of_mem _ hs')) (step_keeps_enum h1 (hs _ List.mem_cons_self) ho)

/-- The parts of a namespace's script. -/
theorem parts {o : MutatorOptions} {stmts : List Stmt} (h : mutateNamespace d o S T = .ok stmts) :
    ∃ cr em sm tm, (T.tables.difference S.tables).mapM (fun tb => tb.createStmt d) = .ok cr
      ∧ (S.enums.intersection T.enums).mapM (fun p => mutateEnum p.1 p.2) = .ok em
      ∧ (S.structs.intersection T.structs).mapM (fun p => mutateStruct d p.1 p.2) = .ok sm
      ∧ (S.tables.intersection T.tables).mapM (fun p => mutateTable d p.1 p.2) = .ok tm
      ∧ stmts = (T.enums.difference S.enums).flatMap PySqlSync.EnumType.createStmt
        ++ (T.structs.difference S.structs).flatMap (PySqlSync.StructType.createStmt d)
        ++ (softPairs S T).flatMap (fun p => p.1.softDropStmt)
        ++ cr.flatten
        ++ (T.tables.difference S.tables).flatMap (Table.addConstraintsStmt d)
        ++ (softPairs S T).flatMap (fun p => migrateEnum d p.1 p.2)
        ++ em.flatten ++ sm.flatten ++ tm.flatten
        ++ (if o.allowDropTable then (S.tables.difference T.tables).flatMap Table.dropStmt else [])
        ++ (if o.allowDropStruct then (S.structs.difference T.structs).flatMap PySqlSync.StructType.dropStmt else [])
        ++ (if o.allowDropEnum then (S.enums.difference T.enums).flatMap (fun e =>
          if ((softPairs S T).map Prod.fst).contains e then e.hardDropStmt else e.dropStmt) else []) := by
  unfold mutateNamespace at h
  simp only [bind, Except.bind] at h
  split at h
  · cases h
  · split at h
    · cases h
    · rename_i cr hcr
      split at h
      · cases h
      · rename_i em hem
        split at h
        · cases h
        · rename_i sm hsm
          split at h
          · cases h
          · rename_i tm htm
            simp only [pure, Except.pure, Except.ok.injEq] at h
            exact ⟨cr, em, sm, tm, hcr, hem, hsm, htm, h.symm⟩

section
variable (wS : NsWF d S) (wT : NsWF d T) {x : Text} {M : Text}
include wS wT

omit wS in
/-- No statement about a created table addresses a reserved name or touches a table that both have. -/
theorem created_quiet {tb : Table} (htb : tb ∈ T.tables.difference S.tables) {s : Stmt}
    (hs : (∃ c k p m, s = .createTable tb.name c k p m) ∨ (∃ x, s = .commentTable tb.name x)
      ∨ (∃ n x, s = .commentColumn tb.name n x) ∨ (∃ c r, s = .insertRows tb.name c r)
      ∨ (∃ l, s = .alterTable tb.name l) ∨ ∃ l i, s = .insertLabels tb.name l i) :
    ¬ Addresses s (M, deletedName x) ∧ ∀ a ∈ S.tables.items, ¬ Touches s a.name := by
  have h := mem_diff htb
  have h1 : tb.name.key ≠ (M, deletedName x) := fun e => wT.tableNames tb h.1 x (congrArg Prod.snd e)
  have h2 : ∀ a ∈ S.tables.items, tb.name ≠ a.name := fun a ha e => h.2 a ha (congrArg QId.localId e)
  rcases hs with ⟨c, k, p, m, rfl⟩ | ⟨y, rfl⟩ | ⟨n, y, rfl⟩ | ⟨c, r, rfl⟩ | ⟨l, rfl⟩ | ⟨l, i, rfl⟩
  · exact ⟨h1, h2⟩
  · exact ⟨fun h => h, h2⟩
  · exact ⟨fun h => h, fun _ _ h => h⟩
  · exact ⟨fun h => h, h2⟩
  · exact ⟨h1, h2⟩
  · exact ⟨fun h => h, h2⟩

omit wS in
theorem enumCreate_quiet {s : Stmt} (hs : s ∈ (T.enums.difference S.enums).flatMap PySqlSync.EnumType.createStmt) :
    ¬ Addresses s (M, deletedName x) ∧ ∀ a ∈ S.tables.items, ¬ Touches s a.name := by
  obtain ⟨e, he, hm⟩ := List.mem_flatMap.1 hs
  cases List.mem_singleton.1 hm
  exact ⟨fun h => wT.enumNames e (mem_diff he).1 x (congrArg Prod.snd h), fun _ _ h => h⟩

omit wS in
theorem structCreate_quiet {s : Stmt}
    (hs : s ∈ (T.structs.difference S.structs).flatMap (PySqlSync.StructType.createStmt d)) :
    ¬ Addresses s (M, deletedName x) ∧ ∀ a ∈ S.tables.items, ¬ Touches s a.name := by
  obtain ⟨e, he, hm⟩ := List.mem_flatMap.1 hs
  rcases structCreate_mem hm with ⟨a, rfl⟩ | ⟨y, rfl⟩ | ⟨n, y, rfl⟩
  · exact ⟨fun h => wT.structNames e (mem_diff he).1 x (congrArg Prod.snd h), fun _ _ h => h⟩
  · exact ⟨fun h => h, fun _ _ h => h⟩
  · exact ⟨fun h => h, fun _ _ h => h⟩

omit wT in
theorem enumMutate_quiet {em : List (List Stmt)}
    (hem : (S.enums.intersection T.enums).mapM (fun p => mutateEnum p.1 p.2) = .ok em) {s : Stmt}
    (hs : s ∈ em.flatten) : ¬ Addresses s (M, deletedName x) := by
  obtain ⟨p, hp, l, hl, hm⟩ := mem_of_mapM hem hs
  obtain ⟨v, rfl⟩ := mutateEnum_mem hl hm
  exact fun h => wS.enumNames p.1 (mem_inter (x := p.1) (y := p.2) hp).1 x (congrArg Prod.snd h)

omit wT in
theorem structMutate_quiet {em : List (List Stmt)}
    (hem : (S.structs.intersection T.structs).mapM (fun p => mutateStruct d p.1 p.2) = .ok em) {s : Stmt}
    (hs : s ∈ em.flatten) : ¬ Addresses s (M, deletedName x) := by
  obtain ⟨p, hp, l, hl, hm⟩ := mem_of_mapM hem hs
  rcases mutateStruct_mem hl hm with ⟨v, rfl⟩ | ⟨v, rfl⟩
  · exact fun h => wS.structNames p.1 (mem_inter (x := p.1) (y := p.2) hp).1 x (congrArg Prod.snd h)
  · exact fun h => h

omit wT in
theorem tableMutate_quiet {em : List (List Stmt)}
    (hem : (S.tables.intersection T.tables).mapM (fun p => mutateTable d p.1 p.2) = .ok em) {s : Stmt}
    (hs : s ∈ em.flatten) : ¬ Addresses s (M, deletedName x) := by
  obtain ⟨p, hp, l, hl, hm⟩ := mem_of_mapM hem hs
  have hn := wS.tableNames p.1 (mem_inter (x := p.1) (y := p.2) hp).1 x
  have ha : ∀ {acts : List Action}, s ∈ p.1.alterStmt d acts → ¬ Addresses s (M, deletedName x) := by
    intro acts h
    obtain ⟨l, rfl, _⟩ := mem_alterStmt h
    exact fun h => hn (congrArg Prod.snd h)
  cases tabOrigin hl hm with
  | defaults h => exact ha h
  | rename _ _ _ _ h => exact ha h
  | add _ _ h => exact ha h
  | migrate _ _ _ hl h =>
    obtain ⟨r, _, ⟨v, i, rfl⟩ | ⟨c, rfl⟩ | ⟨u, v, rfl⟩⟩ := migrateColumn_mem hl h
    all_goals exact fun h => h
  | alter _ _ h => exact ha h
  | comment h =>
    rcases h with ⟨y, rfl⟩ | ⟨c, y, rfl⟩
    all_goals exact fun h => h

omit wT in
theorem tableDrop_quiet {s : Stmt} (hs : s ∈ (S.tables.difference T.tables).flatMap Table.dropStmt) :
    ¬ Addresses s (M, deletedName x) := by
  obtain ⟨tb, htb, hm⟩ := List.mem_flatMap.1 hs
  cases List.mem_singleton.1 hm
  exact fun h => wS.tableNames tb (mem_diff htb).1 x (congrArg Prod.snd h)

omit wT in
theorem structDrop_quiet {s : Stmt} (hs : s ∈ (S.structs.difference T.structs).flatMap PySqlSync.StructType.dropStmt) :
    ¬ Addresses s (M, deletedName x) := by
  obtain ⟨tb, htb, hm⟩ := List.mem_flatMap.1 hs
  cases List.mem_singleton.1 hm
  exact fun h => wS.structNames tb (mem_diff htb).1 x (congrArg Prod.snd h)

end
end C09

/-- An enumeration type whose name a new table takes: the script first renames the type, then creates the table, then
    fills it with every value of the enumeration, and drops the renamed type after that.  Nothing in between addresses
    the renamed type, and all statements that touch tables which stay lie between the filling of the lookup table and
    the drop of the type: the type and the lookup table both exist while data is converted. -/
theorem C09_rename_create_fill_convert_drop {d : Dialect} {S T : Namespace} (wS : NsWF d S) (wT : NsWF d T)
    {e : EnumType} {tb : Table} (he : e ∈ S.enums.items) (htb : tb ∈ T.tables.items) (hn : e.name = tb.name)
    (hq : ∀ e ∈ S.enums.items, ∀ x, (e.name.rename x).key = (e.name.key.1, x))
    {stmts : List Stmt} (h : mutateNamespace d {} S T = .ok stmts) :
    ∃ (new : Text) (old : QId) (A B C D F : List Stmt) (cols : List (Text × ColSpec)) (kn : Text)
        (comment : Option Text) (ignore : Bool),
      stmts = A ++ .renameType e.name new :: (B ++ .createTable tb.name cols kn tb.primaryKey comment ::
        (C ++ .insertLabels tb.name e.values ignore :: (D ++ .dropType old :: F)))
      ∧ old.key = (e.name.key.1, new) ∧ new ≠ e.name.localId
      ∧ (∀ s ∈ A, ¬ Addresses s e.name.key) ∧ (∀ s ∈ B ++ C ++ D, ¬ Addresses s old.key)
      ∧ ∀ s ∈ A ++ B ++ C ++ F, ∀ a ∈ S.tables.items, ∀ b ∈ T.tables.items, a.name = b.name → ¬ Touches s a.name := by
  obtain ⟨cr, em, sm, tm, hcr, hem, hsm, htm, hst⟩ := C09.parts h
  have hkey : key e = key tb := congrArg QId.localId hn
  have heT : e ∈ S.enums.difference T.enums := by
    simp only [ODict.difference, List.mem_filter, Bool.not_eq_true']
    refine ⟨he, (ODict.contains_false_iff _ _).2 ?_⟩
    intro hm
    obtain ⟨e', he', hk⟩ := List.mem_map.1 hm
    exact wT.enumTable e' he' tb htb (hk.trans hkey)
  have htS : tb ∈ T.tables.difference S.tables := by
    simp only [ODict.difference, List.mem_filter, Bool.not_eq_true']
    refine ⟨htb, (ODict.contains_false_iff _ _).2 ?_⟩
    intro hm
    obtain ⟨tb', htb', hk⟩ := List.mem_map.1 hm
    exact wS.enumTable e he tb' htb' (hkey.trans hk.symm)
  have hsoft : (e, tb) ∈ softPairs S T := mem_softPairs.2 ⟨heT, htS, hn⟩
  obtain ⟨p, s, hps⟩ := List.append_of_mem hsoft
  have hnd := softNames_nodup wS wT
  unfold softNames at hnd
  rw [hps, List.map_append, List.map_cons] at hnd
  have hne : ∀ p' ∈ s, key p'.1 ≠ key e := by
    intro p' hp' e'
    have := (List.nodup_append.1 hnd).2.1
    rw [List.nodup_cons] at this
    exact this.1 (e' ▸ List.mem_map_of_mem (f := fun p : EnumType × Table => key p.1) hp')
  -- the creation
  obtain ⟨cp, cs, hcps⟩ := List.append_of_mem htS
  obtain ⟨crp, crs, c, hc, hcrs⟩ : ∃ crp crs c, tb.createStmt d = .ok c ∧ cr = crp ++ c :: crs := by
    rw [hcps] at hcr
    rw [List.mapM_append] at hcr
    simp only [bind, Except.bind] at hcr
    split at hcr
    · cases hcr
    · rename_i a ha
      rw [List.mapM_cons] at hcr
      simp only [bind, Except.bind] at hcr
      cases hcc : tb.createStmt d with
      | error e => rw [hcc] at hcr; cases hcr
      | ok c =>
        rw [hcc] at hcr
        cases hss : cs.mapM (fun tb => tb.createStmt d) with
        | error e => simp only [hss] at hcr; cases hcr
        | ok b =>
          simp only [hss, pure, Except.pure, Except.ok.injEq] at hcr
          exact ⟨a, b, c, rfl, hcr.symm⟩
  obtain ⟨cols, kn, cm, crest, hc'⟩ : ∃ cols kn cm rest, c = .createTable tb.name cols kn tb.primaryKey cm :: rest := by
    unfold Table.createStmt at hc
    simp only [bind, Except.bind] at hc
    split at hc
    · cases hc
    · cases hc; exact ⟨_, _, _, _, rfl⟩
  -- the drop
  obtain ⟨dp, ds, hdps⟩ := List.append_of_mem heT
  have hdnd : ((S.enums.difference T.enums).map key).Nodup := ODict.difference_nodup wS.enums _
  have hdne : ∀ e' ∈ dp, key e' ≠ key e := by
    intro e' he' ee
    rw [hdps, List.map_append, List.map_cons] at hdnd
    exact (List.nodup_append.1 hdnd).2.2 _ (List.mem_map_of_mem he') _ List.mem_cons_self ee
  have hcont : ((softPairs S T).map Prod.fst).contains e = true := by
    rw [List.contains_iff_mem]; exact List.mem_map.2 ⟨_, hsoft, rfl⟩
  let g : EnumType → List Stmt := fun e =>
    if ((softPairs S T).map Prod.fst).contains e then e.hardDropStmt else e.dropStmt
  have hg : g e = [.dropType (e.name.rename (deletedName e.name.localId))] := by
    simp only [g, hcont, if_true]; rfl
  have hgk : ∀ e' ∈ S.enums.items, ∀ s ∈ g e', key e' ≠ key e →
      ¬ Addresses s (e.name.key.1, deletedName e.name.localId) := by
    intro e' he' s hs hk
    simp only [g] at hs
    split at hs
    · rename_i hcc
      cases List.mem_singleton.1 hs
      have hm : e' ∈ (softPairs S T).map Prod.fst := by simpa using hcc
      intro hA
      have h2 : deletedName e'.name.localId = deletedName e.name.localId :=
        (congrArg Prod.snd (hq e' he' _)).symm.trans (congrArg Prod.snd hA)
      exact hk (deletedName_inj h2)
    · cases List.mem_singleton.1 hs
      exact fun hA => wS.enumNames e' he' _ (congrArg Prod.snd hA)
  have hren : ∀ p' ∈ softPairs S T, key p'.1 ≠ key e → ∀ s ∈ p'.1.softDropStmt,
      ¬ Addresses s (e.name.key.1, deletedName e.name.localId) := by
    intro p' hp' hk s hs
    have hm := (mem_diff (mem_softPairs (e := p'.1) (tb := p'.2).1 hp').1).1
    cases List.mem_singleton.1 hs
    rintro (hA | hA)
    · exact wS.enumNames p'.1 hm _ (congrArg Prod.snd hA)
    · exact hk (deletedName_inj (congrArg Prod.snd hA))
  have hrenT : ∀ p' ∈ softPairs S T, ∀ s ∈ p'.1.softDropStmt, ∀ a : Table, ¬ Touches s a.name := by
    intro p' hp' s hs a
    cases List.mem_singleton.1 hs
    exact fun h => h
  have hgT : ∀ e', ∀ s ∈ g e', ∀ a : Table, ¬ Touches s a.name := by
    intro e' s hs a
    simp only [g] at hs
    split at hs <;> cases List.mem_singleton.1 hs <;> exact fun h => h
  have hcrq : ∀ s ∈ cr.flatten, ¬ Addresses s (e.name.key.1, deletedName e.name.localId)
      ∧ ∀ a ∈ S.tables.items, ¬ Touches s a.name := by
    intro s hs
    obtain ⟨tb', htb', l, hl, hm⟩ := mem_of_mapM hcr hs
    refine C09.created_quiet wT htb' ?_
    rcases table_create_mem hl hm with h | h | h | h
    · exact .inl h
    · exact .inr (.inl h)
    · exact .inr (.inr (.inl h))
    · exact .inr (.inr (.inr (.inl h)))
  have hacq : ∀ s ∈ (T.tables.difference S.tables).flatMap (Table.addConstraintsStmt d),
      ¬ Addresses s (e.name.key.1, deletedName e.name.localId) ∧ ∀ a ∈ S.tables.items, ¬ Touches s a.name := by
    intro s hs
    obtain ⟨tb', htb', hm⟩ := List.mem_flatMap.1 hs
    obtain ⟨l, hl, _⟩ := addConstraints_mem hm
    exact C09.created_quiet wT htb' (.inr (.inr (.inr (.inr (.inl ⟨l, hl⟩)))))
  have hmig : ∀ p' ∈ softPairs S T, ∀ s ∈ migrateEnum d p'.1 p'.2,
      ¬ Addresses s (e.name.key.1, deletedName e.name.localId) ∧ ∀ a ∈ S.tables.items, ¬ Touches s a.name := by
    intro p' hp' s hs
    exact C09.created_quiet wT (mem_softPairs (e := p'.1) (tb := p'.2).1 hp').2.1
      (.inr (.inr (.inr (.inr (.inr ⟨_, _, List.mem_singleton.1 hs⟩)))))
  have hsub : ∀ p' ∈ p ++ s, p' ∈ softPairs S T := by
    intro p' hp'
    rw [hps]
    rcases List.mem_append.1 hp' with h | h
    · exact List.mem_append_left _ h
    · exact List.mem_append_right _ (List.mem_cons_of_mem _ h)
  refine ⟨deletedName e.name.localId, e.name.rename (deletedName e.name.localId),
    (T.enums.difference S.enums).flatMap PySqlSync.EnumType.createStmt
      ++ (T.structs.difference S.structs).flatMap (PySqlSync.StructType.createStmt d)
      ++ p.flatMap (fun p => p.1.softDropStmt),
    s.flatMap (fun p => p.1.softDropStmt) ++ crp.flatten,
    crest ++ crs.flatten ++ (T.tables.difference S.tables).flatMap (Table.addConstraintsStmt d)
      ++ p.flatMap (fun p => migrateEnum d p.1 p.2),
    s.flatMap (fun p => migrateEnum d p.1 p.2) ++ em.flatten ++ sm.flatten ++ tm.flatten
      ++ (S.tables.difference T.tables).flatMap Table.dropStmt
      ++ (S.structs.difference T.structs).flatMap PySqlSync.StructType.dropStmt ++ dp.flatMap g,
    ds.flatMap g, cols, kn, cm, decide (d = .postgresql), ?_, hq e he _, ?_, ?_, ?_, ?_⟩
  · have e1 : (softPairs S T).flatMap (fun p => p.1.softDropStmt)
        = p.flatMap (fun p => p.1.softDropStmt) ++ .renameType e.name (deletedName e.name.localId) ::
          s.flatMap (fun p => p.1.softDropStmt) := by
      rw [hps, List.flatMap_append, List.flatMap_cons]; rfl
    have e2 : (softPairs S T).flatMap (fun p => migrateEnum d p.1 p.2)
        = p.flatMap (fun p => migrateEnum d p.1 p.2) ++ .insertLabels tb.name e.values (decide (d = .postgresql)) ::
          s.flatMap (fun p => migrateEnum d p.1 p.2) := by
      rw [hps, List.flatMap_append, List.flatMap_cons]; rfl
    have e3 : (S.enums.difference T.enums).flatMap g
        = dp.flatMap g ++ .dropType (e.name.rename (deletedName e.name.localId)) :: ds.flatMap g := by
      rw [hdps, List.flatMap_append, List.flatMap_cons, hg]; rfl
    have e4 : cr.flatten = crp.flatten ++ .createTable tb.name cols kn tb.primaryKey cm :: (crest ++ crs.flatten) := by
      rw [hcrs, List.flatten_append, List.flatten_cons, hc']; rfl
    rw [hst, e1, e2, e4]
    simp only [if_true]
    rw [show List.flatMap (fun e => if ((softPairs S T).map Prod.fst).contains e then e.hardDropStmt else e.dropStmt)
      (S.enums.difference T.enums) = (S.enums.difference T.enums).flatMap g from rfl, e3]
    simp only [List.append_assoc, List.cons_append]
  · intro hh
    exact wS.enumNames e he e.name.localId hh.symm
  · intro s' hs'
    simp only [List.mem_append] at hs'
    rcases hs' with (hs' | hs') | hs'
    · obtain ⟨e', he', hm⟩ := List.mem_flatMap.1 hs'
      cases List.mem_singleton.1 hm
      exact fun hA => wT.enumTable e' (mem_diff he').1 tb htb ((congrArg Prod.snd hA).trans hkey)
    · obtain ⟨e', he', hm⟩ := List.mem_flatMap.1 hs'
      rcases structCreate_mem hm with ⟨a, rfl⟩ | ⟨y, rfl⟩ | ⟨n, y, rfl⟩
      · exact fun hA => wT.structTable e' (mem_diff he').1 tb htb ((congrArg Prod.snd hA).trans hkey)
      · exact fun h => h
      · exact fun h => h
    · obtain ⟨p', hp', hm⟩ := List.mem_flatMap.1 hs'
      cases List.mem_singleton.1 hm
      rintro (hA | hA)
      · refine (List.nodup_append.1 hnd).2.2 _ (List.mem_map_of_mem hp') _ List.mem_cons_self ?_
        exact congrArg Prod.snd hA
      · exact wS.enumNames e he p'.1.name.localId (congrArg Prod.snd hA).symm
  · rw [hq e he]
    intro s' hs'
    simp only [List.mem_append] at hs'
    rcases hs' with ((hs' | hs') | (((hs' | hs') | hs') | hs')) | ((((((hs' | hs') | hs') | hs') | hs') | hs') | hs')
    · obtain ⟨p', hp', hm⟩ := List.mem_flatMap.1 hs'
      exact hren p' (hsub p' (List.mem_append_right _ hp')) (hne p' hp') s' hm
    · exact (hcrq s' (by rw [hcrs, List.flatten_append]; exact List.mem_append_left _ hs')).1
    · exact (hcrq s' (by
        rw [hcrs, List.flatten_append, List.flatten_cons, hc']
        exact List.mem_append_right _ (List.mem_append_left _ (List.mem_cons_of_mem _ hs')))).1
    · exact (hcrq s' (by
        rw [hcrs, List.flatten_append, List.flatten_cons]
        exact List.mem_append_right _ (List.mem_append_right _ hs'))).1
    · exact (hacq s' hs').1
    · obtain ⟨p', hp', hm⟩ := List.mem_flatMap.1 hs'
      exact (hmig p' (hsub p' (List.mem_append_left _ hp')) s' hm).1
    · obtain ⟨p', hp', hm⟩ := List.mem_flatMap.1 hs'
      exact (hmig p' (hsub p' (List.mem_append_right _ hp')) s' hm).1
    · exact C09.enumMutate_quiet wS hem hs'
    · exact C09.structMutate_quiet wS hsm hs'
    · exact C09.tableMutate_quiet wS htm hs'
    · exact C09.tableDrop_quiet wS hs'
    · exact C09.structDrop_quiet wS hs'
    · obtain ⟨e', he', hm⟩ := List.mem_flatMap.1 hs'
      refine hgk e' ?_ s' hm (hdne e' he')
      exact (mem_diff (b := T.enums) (by rw [hdps]; exact List.mem_append_left _ he')).1
  · intro s' hs' a ha b hb hab
    simp only [List.mem_append] at hs'
    rcases hs' with ((((hs' | hs') | hs') | (hs' | hs')) | (((hs' | hs') | hs') | hs')) | hs'
    · exact (C09.enumCreate_quiet wT (M := []) (x := []) hs').2 a ha
    · exact (C09.structCreate_quiet wT (M := []) (x := []) hs').2 a ha
    · obtain ⟨p', hp', hm⟩ := List.mem_flatMap.1 hs'
      exact hrenT p' (hsub p' (List.mem_append_left _ hp')) s' hm a
    · obtain ⟨p', hp', hm⟩ := List.mem_flatMap.1 hs'
      exact hrenT p' (hsub p' (List.mem_append_right _ hp')) s' hm a
    · exact (hcrq s' (by rw [hcrs, List.flatten_append]; exact List.mem_append_left _ hs')).2 a ha
    · exact (hcrq s' (by
        rw [hcrs, List.flatten_append, List.flatten_cons, hc']
        exact List.mem_append_right _ (List.mem_append_left _ (List.mem_cons_of_mem _ hs')))).2 a ha
    · exact (hcrq s' (by
        rw [hcrs, List.flatten_append, List.flatten_cons]
        exact List.mem_append_right _ (List.mem_append_right _ hs'))).2 a ha
    · exact (hacq s' hs').2 a ha
    · obtain ⟨p', hp', hm⟩ := List.mem_flatMap.1 hs'
      exact (hmig p' (hsub p' (List.mem_append_left _ hp')) s' hm).2 a ha
    · obtain ⟨e', he', hm⟩ := List.mem_flatMap.1 hs'
      exact hgT e' s' hm a


namespace C09

/-- Executing a statement that does not drop it leaves a table in place. -/
theorem step_keeps_table {E : Engine} {db db' : Db} {s : Stmt} {k : Key}
    (h : step E db s = some db') (h1 : ∀ q, s = .dropTable q → q.key ≠ k) (h2 : ∀ n b, s ≠ .dropSchema n b)
    (ho : ∃ ts, db.objs k = some (.table ts)) : ∃ ts, db'.objs k = some (.table ts) := by
  obtain ⟨ts, ho⟩ := ho
  have hset : ∀ {q : QId} {o : Option Obj}, q.key ≠ k → ∃ ts, (db.set q.key o).objs k = some (.table ts) := by
    intro q o hq
    simp only [Db.set, upd]
    rw [if_neg (fun e => hq e.symm)]; exact ⟨ts, ho⟩
  have hcreate : ∀ {q : QId} {o : Obj} {r : Db}, db.create q.key o = some r → ∃ ts, r.objs k = some (.table ts) := by
    intro q o r hr
    have hq : q.key ≠ k := by
      intro e
      unfold Db.create at hr
      rw [e, ho] at hr
      simp at hr
    unfold Db.create at hr
    split at hr
    · cases hr
    · cases hr; exact hset hq
  cases s with
  | createSchema n b =>
    simp only [step] at h
    split at h
    · split at h
      · cases h; exact ⟨ts, ho⟩
      · cases h
    · cases h; exact ⟨ts, ho⟩
  | dropSchema n b => exact absurd rfl (h2 n b)
  | createEnum q l => simp only [step] at h; split at h; · exact hcreate h
                      · cases h
  | createStruct q l => simp only [step] at h; split at h; · exact hcreate h
                        · cases h
  | createTable q c n p m => simp only [step] at h; split at h; · exact hcreate h
                             · cases h
  | alterTable q l =>
    simp only [step] at h
    split at h
    · rw [Option.map_eq_some_iff] at h
      obtain ⟨x, _, rfl⟩ := h
      by_cases hq : q.key = k
      · subst hq; exact ⟨x, by simp [Db.set, upd]⟩
      · exact hset hq
    · cases h
  | addValue q v =>
    simp only [step] at h
    split at h
    · rename_i hq
      split at h
      · cases h
      · cases h; exact hset (fun e => by rw [e, ho] at hq; cases hq)
    · cases h
  | alterStruct q l =>
    simp only [step] at h
    split at h
    · rename_i hq
      rw [Option.map_eq_some_iff] at h
      obtain ⟨x, _, rfl⟩ := h; exact hset (fun e => by rw [e, ho] at hq; cases hq)
    · cases h
  | renameType q new =>
    simp only [step] at h
    split at h
    · cases h
    · cases h
    · rename_i o h3 h4
      split at h
      · cases h
      · rename_i h5
        cases h
        show ∃ ts, Option.map _ (upd (upd db.objs q.key none) (q.key.1, new) _ k) = _
        simp only [upd]
        rw [if_neg (fun e => by rw [← e, ho] at h5; simp at h5), if_neg (fun e => by
          rw [← e, ho] at h4; cases h4; exact h3 _ rfl), ho]
        exact ⟨_, rfl⟩
  | dropType q =>
    simp only [step] at h
    split at h
    · cases h
    · cases h
    · rename_i o h3 h4
      cases h
      exact hset (fun e => by rw [e, ho] at h4; cases h4; exact h3 _ rfl)
  | dropTable q =>
    simp only [step] at h
    split at h
    · cases h; exact hset (h1 q rfl)
    · cases h
  | commentTable q x => simp only [step] at h; split at h <;> cases h; exact ⟨ts, ho⟩
  | commentType q x => simp only [step] at h; split at h <;> cases h; exact ⟨ts, ho⟩
  | commentColumn q c x => simp only [step] at h; split at h <;> cases h; exact ⟨ts, ho⟩
  | insertRows q c x => simp only [step] at h; split at h <;> cases h; exact ⟨ts, ho⟩
  | insertLabels q c x => simp only [step] at h; split at h <;> cases h; exact ⟨ts, ho⟩
  | insertDistinct q c x => simp only [step] at h; split at h <;> cases h; exact ⟨ts, ho⟩
  | updateKeys q c x y => simp only [step] at h; split at h <;> cases h; exact ⟨ts, ho⟩

theorem runs_keeps_table {E : Engine} {db db' : Db} {l : List Stmt} {k : Key}
    (h : Runs E db l db') (h1 : ∀ s ∈ l, ∀ q, s = .dropTable q → q.key ≠ k) (h2 : ∀ s ∈ l, ∀ n b, s ≠ .dropSchema n b)
    (ho : ∃ ts, db.objs k = some (.table ts)) : ∃ ts, db'.objs k = some (.table ts) := by
  induction h with
  | nil => exact ho
  | cons h3 _ _ ih =>
    exact ih (fun s hs' => h1 s (List.mem_cons_of_mem _ hs')) (fun s hs' => h2 s (List.mem_cons_of_mem _ hs'))
      (step_keeps_table h3 (h1 _ List.mem_cons_self) (h2 _ List.mem_cons_self) ho)

theorem runs_split {E : Engine} {db db' : Db} {l1 l2 : List Stmt} (h : Runs E db (l1 ++ l2) db') (v : Valid db) :
    ∃ db1, Runs E db l1 db1 ∧ Valid db1 ∧ Runs E db1 l2 db' := by
  obtain ⟨db1, a, b, c⟩ := runs_take h v l1.length
  exact ⟨db1, by simpa using a, b, by simpa using c⟩

/-- A namespace's script drops no table of the target and no schema. -/
theorem keeps_target {d : Dialect} {S T : Namespace} {stmts : List Stmt}
    (h : mutateNamespace d {} S T = .ok stmts) {tb : Table} (htb : tb ∈ T.tables.items) :
    ∀ s ∈ stmts, (∀ q, s = .dropTable q → q.key ≠ tb.name.key) ∧ ∀ n b, s ≠ .dropSchema n b := by
  intro s hs
  have alt : ∀ {a : Table} {acts : List Action}, s ∈ a.alterStmt d acts →
      (∀ q, s = .dropTable q → q.key ≠ tb.name.key) ∧ ∀ n b, s ≠ .dropSchema n b := by
    intro a acts h
    obtain ⟨l, rfl, _⟩ := mem_alterStmt h
    exact ⟨fun q e => (by cases e), fun n b e => (by cases e)⟩
  cases nsOrigin h hs with
  | enumCreate e _ h => cases List.mem_singleton.1 h; exact ⟨fun q e => (by cases e), fun n b e => (by cases e)⟩
  | structCreate e _ h =>
    rcases structCreate_mem h with ⟨a, rfl⟩ | ⟨y, rfl⟩ | ⟨n, y, rfl⟩ <;>
      exact ⟨fun q e => (by cases e), fun n b e => (by cases e)⟩
  | enumSoft e _ h => cases List.mem_singleton.1 h; exact ⟨fun q e => (by cases e), fun n b e => (by cases e)⟩
  | tableCreate e _ l hl h =>
    rcases table_create_mem hl h with ⟨c, k, p, m, rfl⟩ | ⟨y, rfl⟩ | ⟨n, y, rfl⟩ | ⟨c, r, rfl⟩ <;>
      exact ⟨fun q e => (by cases e), fun n b e => (by cases e)⟩
  | tableConstraints e _ h =>
    obtain ⟨l, rfl, _⟩ := addConstraints_mem h
    exact ⟨fun q e => (by cases e), fun n b e => (by cases e)⟩
  | enumMigrate e _ h => cases List.mem_singleton.1 h; exact ⟨fun q e => (by cases e), fun n b e => (by cases e)⟩
  | enumMutate x y _ l hl h =>
    obtain ⟨v, rfl⟩ := mutateEnum_mem hl h
    exact ⟨fun q e => (by cases e), fun n b e => (by cases e)⟩
  | structMutate x y _ l hl h =>
    rcases mutateStruct_mem hl h with ⟨v, rfl⟩ | ⟨v, rfl⟩ <;>
      exact ⟨fun q e => (by cases e), fun n b e => (by cases e)⟩
  | tableMutate x y _ l hl h =>
    cases tabOrigin hl h with
    | defaults h => exact alt h
    | rename _ _ _ _ h => exact alt h
    | add _ _ h => exact alt h
    | migrate _ _ _ hl h =>
      obtain ⟨r, _, ⟨v, i, rfl⟩ | ⟨c, rfl⟩ | ⟨u, v, rfl⟩⟩ := migrateColumn_mem hl h <;>
        exact ⟨fun q e => (by cases e), fun n b e => (by cases e)⟩
    | alter _ _ h => exact alt h
    | comment h =>
      rcases h with ⟨y, rfl⟩ | ⟨c, y, rfl⟩ <;>
        exact ⟨fun q e => (by cases e), fun n b e => (by cases e)⟩
  | tableDrop a _ ha h =>
    cases List.mem_singleton.1 h
    refine ⟨fun q e => ?_, fun n b e => (by cases e)⟩
    cases e
    exact fun e => (mem_diff ha).2 tb htb (congrArg Prod.snd e)
  | structDrop a _ ha h => cases List.mem_singleton.1 h; exact ⟨fun q e => (by cases e), fun n b e => (by cases e)⟩
  | enumDrop a _ ha h =>
    rcases h with ⟨h, _⟩ | ⟨h, _⟩ <;> cases List.mem_singleton.1 h <;>
      exact ⟨fun q e => (by cases e), fun n b e => (by cases e)⟩

end C09

/-- Executed on a database with the source schema, from the renaming of the type until its drop the database is
    consistent after each statement and has the type, with all its values, under its other name; once the lookup table
    is created it is there under the former name of the type. -/
theorem C09_type_and_table_coexist (d : Dialect) (condCols : Text → List Text)
    {S T : Namespace} (hN : S.name = T.name) (wS : NsWF d S) (wT : NsWF d T)
    (vS : Valid (Catalog.db d (engine d condCols) ⟨⟨[S]⟩⟩)) (vT : Valid (Catalog.db d (engine d condCols) ⟨⟨[T]⟩⟩))
    (safe : NsSafe d (engine d condCols) S T)
    {e : EnumType} {tb : Table} (he : e ∈ S.enums.items) (htb : tb ∈ T.tables.items) (hn : e.name = tb.name)
    (hq : ∀ e ∈ S.enums.items, ∀ x, (e.name.rename x).key = (e.name.key.1, x))
    {stmts : List Stmt} (h : mutateNamespace d {} S T = .ok stmts) :
    ∃ (new : Text) (old : QId) (A B C F : List Stmt) (cols : List (Text × ColSpec)) (kn : Text) (comment : Option Text),
      stmts = A ++ .renameType e.name new :: (B ++ .createTable tb.name cols kn tb.primaryKey comment ::
        (C ++ .dropType old :: F))
      ∧ (∀ P Q, B = P ++ Q → ∃ db, Runs (engine d condCols) (Catalog.db d (engine d condCols) ⟨⟨[S]⟩⟩)
          (A ++ .renameType e.name new :: P) db ∧ Valid db ∧ db.objs old.key = some (EnumType.obj e))
      ∧ ∀ P Q, C = P ++ Q → ∃ db, Runs (engine d condCols) (Catalog.db d (engine d condCols) ⟨⟨[S]⟩⟩)
          (A ++ .renameType e.name new :: (B ++ .createTable tb.name cols kn tb.primaryKey comment :: P)) db ∧ Valid db
          ∧ db.objs old.key = some (EnumType.obj e) ∧ ∃ ts, db.objs e.name.key = some (.table ts) := by
  obtain ⟨new, old, A, B, C, D, F, cols, kn, cm, ig, hst, hold, hnew, hbefore, hquiet, _⟩ :=
    C09_rename_create_fill_convert_drop wS wT he htb hn hq h
  have hr := C01_synchronize_one_namespace_if_safe d condCols hN wS wT vS vT safe h
  have hfin : ∀ s ∈ stmts, _ := C09.keeps_target h htb
  refine ⟨new, old, A, B, C ++ .insertLabels tb.name e.values ig :: D, F, cols, kn, cm, by simp [hst], ?_⟩
  rw [hst] at hr hfin
  obtain ⟨db1, r1, v1, r1'⟩ := C09.runs_split hr vS
  obtain ⟨db2, r2, v2, r2'⟩ := C09.runs_split (l1 := [.renameType e.name new]) r1' v1
  -- before the renaming the type is there, hence afterwards under its new name
  have ho : db1.objs e.name.key = some (EnumType.obj e) := by
    refine C09.runs_keeps_enum r1 hbefore ?_
    simp only [Catalog.db]
    have hx : (⟨[S]⟩ : ODict Namespace).get e.name.key.1 = some S := by
      rw [wS.enumScope e he]; simp [ODict.get, key]
    rw [hx]
    exact obj_enum (get_of_mem wS.enums he)
  have ho2 : db2.objs old.key = some (EnumType.obj e) := by
    cases r2 with
    | cons h1 _ h2 =>
      cases h2
      simp only [step, ho, EnumType.obj] at h1
      split at h1
      · cases h1
      · cases h1
        show Option.map _ (upd (upd db1.objs e.name.key none) (e.name.key.1, new) _ old.key) = _
        rw [hold]
        simp [upd, Obj.mapRef, EnumType.obj]
  refine ⟨?_, ?_⟩
  · intro P Q hPQ
    rw [hPQ] at r2'
    obtain ⟨db3, r3, v3, _⟩ := C09.runs_split (l1 := P) (by simpa using r2') v2
    refine ⟨db3, ?_, v3, ?_⟩
    · have := runs_append r1 (runs_append r2 r3)
      simpa using this
    · refine C09.runs_keeps_enum r3 (fun s hs => hquiet s ?_) ho2
      rw [hPQ]; simp [hs]
  · intro P Q hPQ
    obtain ⟨db3, r3, v3, r3'⟩ := C09.runs_split (l1 := B) r2' v2
    have ho3 := C09.runs_keeps_enum r3 (fun s hs => hquiet s (by simp [hs])) ho2
    obtain ⟨db4, r4, v4, r4'⟩ := C09.runs_split (l1 := [.createTable tb.name cols kn tb.primaryKey cm]) r3' v3
    have htk : tb.name.key ≠ old.key := by
      rw [hold]; intro e'
      exact hnew ((congrArg Prod.snd e').symm.trans (congrArg QId.localId hn).symm)
    have ho4 : db4.objs old.key = some (EnumType.obj e) :=
      C09.runs_keeps_enum r4 (fun s hs => by cases List.mem_singleton.1 hs; exact htk) ho3
    have ht4 : ∃ ts, db4.objs tb.name.key = some (.table ts) := by
      cases r4 with
      | cons h1 _ h2 =>
        cases h2
        simp only [step, Db.create] at h1
        split at h1
        · split at h1
          · cases h1
          · cases h1
            exact ⟨newTable cols tb.primaryKey, by simp [Db.set, upd]⟩
        · cases h1
    have hsplit : C ++ .insertLabels tb.name e.values ig :: (D ++ .dropType old :: F)
        = P ++ (Q ++ .dropType old :: F) := by
      have : (C ++ .insertLabels tb.name e.values ig :: D) ++ .dropType old :: F = (P ++ Q) ++ .dropType old :: F := by
        rw [hPQ]
      simpa using this
    have r4'' : Runs (engine d condCols) db4 (P ++ (Q ++ .dropType old :: F))
        (Catalog.db d (engine d condCols) ⟨⟨[T]⟩⟩) := by
      rw [← hsplit]; exact r4'
    obtain ⟨db5, r5, v5, _⟩ := C09.runs_split r4'' v4
    have hsub : ∀ s ∈ P, s ∈ C ∨ s = .insertLabels tb.name e.values ig ∨ s ∈ D := by
      intro s hs
      have : s ∈ C ++ .insertLabels tb.name e.values ig :: D := by rw [hPQ]; simp [hs]
      simpa using this
    refine ⟨db5, ?_, v5, ?_, ?_⟩
    · have := runs_append r1 (runs_append r2 (runs_append r3 (runs_append r4 r5)))
      simpa using this
    · refine C09.runs_keeps_enum r5 (fun s hs => ?_) ho4
      rcases hsub s hs with h | rfl | h
      · exact hquiet s (by simp [h])
      · exact fun h => h
      · exact hquiet s (by simp [h])
    · rw [hn]
      have hin : ∀ s ∈ P, s ∈ A ++ .renameType e.name new :: (B ++ .createTable tb.name cols kn tb.primaryKey cm ::
          (C ++ .insertLabels tb.name e.values ig :: (D ++ .dropType old :: F))) := by
        intro s hs
        rcases hsub s hs with h | h | h <;> simp [h]
      exact C09.runs_keeps_table r5 (fun s hs => (hfin s (hin s hs)).1) (fun s hs => (hfin s (hin s hs)).2) ht4

/-- The hypotheses are met by the example: the type `status` becomes a lookup table. -/
example : ∃ stmts, mutateNamespace .postgresql {} Example.shop0 Example.shop1 = .ok stmts
    ∧ stmts.any (fun s => s matches .renameType ..) ∧ stmts.any (fun s => s matches .updateKeys ..) := by
  have h : ((mutateNamespace .postgresql {} Example.shop0 Example.shop1).toOption.map (fun stmts =>
    stmts.any (fun s => s matches .renameType ..) && stmts.any (fun s => s matches .updateKeys ..))) = some true := by
    decide +kernel
  cases hm : mutateNamespace .postgresql {} Example.shop0 Example.shop1 with
  | error e => rw [hm] at h; cases h
  | ok stmts =>
    rw [hm] at h
    simp only [Except.toOption, Option.map_some, Option.some.injEq, Bool.and_eq_true] at h
    exact ⟨stmts, rfl, h.1, h.2⟩

example : NsWF .postgresql Example.shop0 ∧ NsWF .postgresql Example.shop1
    ∧ NsSafe .postgresql Example.E Example.shop0 Example.shop1 :=
  ⟨nsWFB_ok (by decide +kernel), nsWFB_ok (by decide +kernel), nsSafeB_ok (by decide +kernel)⟩

end PySqlSync
