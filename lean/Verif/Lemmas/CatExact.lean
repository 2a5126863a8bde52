/-
Helper lemmas: what it implies for two catalogs that the script between them was accepted and did what it should.
-/
import Verif.Lemmas.NsExact
import Verif.Lemmas.CatSort
import Verif.Lemmas.CatStable
import Verif.Props.C14

set_option autoImplicit false

namespace PySqlSync
open Spec

namespace Xct
open Frm

variable {d : Dialect} {E : Engine} {db db' : Db} {N : Text}

/-! ### Schemas -/

def AboutSchema : Stmt → Prop
  | .createSchema _ _ => True
  | .dropSchema _ _ => True
  | _ => False

theorem step_schemas {a b : Db} {s : Stmt} (h : step E a s = some b) (hs : ¬ AboutSchema s) : b.schemas = a.schemas := by
  have cr : ∀ {k o}, a.create k o = some b → b.schemas = a.schemas := by
    intro k o h; rw [(create_ok h).2]; rfl
  cases s with
  | createSchema n b => exact absurd trivial hs
  | dropSchema n b => exact absurd trivial hs
  | createEnum q l => simp only [step] at h; split at h; exact cr h; cases h
  | createStruct q l => simp only [step] at h; split at h; exact cr h; cases h
  | createTable q c n p m => simp only [step] at h; split at h; exact cr h; cases h
  | alterTable q l =>
    simp only [step] at h; split at h
    · rw [Option.map_eq_some_iff] at h; obtain ⟨x, _, rfl⟩ := h; rfl
    · cases h
  | addValue q v =>
    simp only [step] at h; split at h
    · split at h
      · cases h
      · cases h; rfl
    · cases h
  | alterStruct q l =>
    simp only [step] at h; split at h
    · rw [Option.map_eq_some_iff] at h; obtain ⟨x, _, rfl⟩ := h; rfl
    · cases h
  | renameType q new =>
    simp only [step] at h; split at h
    · cases h
    · cases h
    · split at h
      · cases h
      · cases h; rfl
  | dropType q =>
    simp only [step] at h; split at h
    · cases h
    · cases h
    · cases h; rfl
  | dropTable q => simp only [step] at h; split at h; cases h; rfl; cases h
  | commentTable q x => simp only [step] at h; split at h <;> cases h; rfl
  | commentType q x => simp only [step] at h; split at h <;> cases h; rfl
  | commentColumn q c x => simp only [step] at h; split at h <;> cases h; rfl
  | insertRows q c x => simp only [step] at h; split at h <;> cases h; rfl
  | insertLabels q c x => simp only [step] at h; split at h <;> cases h; rfl
  | insertDistinct q c x => simp only [step] at h; split at h <;> cases h; rfl
  | updateKeys q c x y => simp only [step] at h; split at h <;> cases h; rfl

theorem run_schemas {l : List Stmt} (h : Runs E db l db') (hs : ∀ s ∈ l, ¬ AboutSchema s) : db'.schemas = db.schemas :=
  along (P := fun x => x.schemas = db.schemas) h (fun s m _ _ e h0 => (step_schemas e (hs s m)).trans h0) rfl

theorem block_schemas {S T : Namespace} {l : List Stmt} (h : mutateNamespace d {} S T = .ok l) : ∀ s ∈ l, ¬ AboutSchema s := by
  intro s hs
  cases nsOrigin h hs with
  | enumCreate e _ he => rw [List.mem_singleton.1 (show s ∈ [_] from he)]; exact id
  | structCreate e _ he => rcases structCreate_mem he with ⟨_, rfl⟩ | ⟨_, rfl⟩ | ⟨_, _, rfl⟩ <;> exact id
  | enumSoft p _ he => rw [List.mem_singleton.1 (show s ∈ [_] from he)]; exact id
  | tableCreate tb _ x hx he =>
    rcases table_create_mem hx he with ⟨_, _, _, _, rfl⟩ | ⟨_, rfl⟩ | ⟨_, _, rfl⟩ | ⟨_, _, rfl⟩ <;> exact id
  | tableConstraints tb _ he => obtain ⟨l, rfl, _⟩ := addConstraints_mem he; exact id
  | enumMigrate p _ he => rw [List.mem_singleton.1 (show s ∈ [_] from he)]; exact id
  | enumMutate x y _ l hl he => obtain ⟨v, rfl⟩ := mutateEnum_mem hl he; exact id
  | structMutate x y _ l hl he => rcases mutateStruct_mem hl he with ⟨_, rfl⟩ | ⟨_, rfl⟩ <;> exact id
  | tableMutate x y _ l hl he =>
    cases tabOrigin hl he with
    | defaults h => obtain ⟨_, rfl, _⟩ := mem_alterStmt h; exact id
    | rename p _ r _ h => obtain ⟨_, rfl, _⟩ := mem_alterStmt h; exact id
    | add acts _ h => obtain ⟨_, rfl, _⟩ := mem_alterStmt h; exact id
    | migrate p _ l hl h =>
      obtain ⟨r, _, h⟩ := migrateColumn_mem hl h
      rcases h with ⟨_, _, rfl⟩ | ⟨_, rfl⟩ | ⟨_, _, rfl⟩ <;> exact id
    | alter acts _ h => obtain ⟨_, rfl, _⟩ := mem_alterStmt h; exact id
    | comment h => rcases h with ⟨_, rfl⟩ | ⟨_, _, rfl⟩ <;> exact id
  | tableDrop tb _ htb he => rw [List.mem_singleton.1 (show s ∈ [_] from he)]; exact id
  | structDrop tb _ htb he => rw [List.mem_singleton.1 (show s ∈ [_] from he)]; exact id
  | enumDrop tb _ htb he =>
    rcases he with ⟨he, _⟩ | ⟨he, _⟩ <;> (rw [List.mem_singleton.1 (show s ∈ [_] from he)]; exact id)

/-- The part of the script for one namespace. -/
theorem block {l1 l2 : List Namespace} {n n' : Namespace} {stmts : List Stmt} {X : Db} {condCols : Text → List Text}
    (hE : E = engine d condCols) (hname : n'.name = n.name) (h1 : n.name ∉ l1.map key)
    (h : mutateNamespace d {} n n' = .ok stmts) (run : Runs E (dbOf d E (l1 ++ n :: l2)) stmts X)
    (v : Valid (dbOf d E (l1 ++ n :: l2))) (wf : NsWF d n) (wf' : NsWF d n')
    (hT : ∀ m, X.objs (n.name, m) = Spec.Namespace.obj d E n' m) :
    X = dbOf d E (l1 ++ n' :: l2) ∧ NsSafe d E n n' := by
  obtain ⟨r, em, sm, tm, R⟩ := nsRun h run v (fun m => dbOf_at h1 m) hT rfl hname wf wf'
  refine ⟨?_, R.safe hE⟩
  rw [← dbOf_replace hname h1]
  refine db_ext ?_ ?_
  · rw [run_schemas run (block_schemas h)]; rfl
  · funext k
    by_cases hk : k.1 = n.name
    · obtain ⟨k1, k2⟩ := k
      simp only at hk
      subst hk
      rw [hT, withNs_in]
    · rw [R.outside hk, withNs_out hk]

/-! ### Stage after stage -/

/-- A stage of the script: one part after the other. -/
theorem chain {α : Type} (f : α → List Stmt) (G : List α → Db) (Q : α → Prop) (l : List α) {tail : List Stmt} {X : Db}
    (hstep : ∀ p a s Y, l = p ++ a :: s → Valid (G p) → Runs E (G p) (f a) Y → Runs E Y (s.flatMap f ++ tail) X →
      Y = G (p ++ [a]) ∧ Q a) (v : Valid (G [])) (run : Runs E (G []) (l.flatMap f ++ tail) X) :
    (∀ p s, l = p ++ s → Valid (G p)) ∧ (∀ a ∈ l, Q a) ∧ Runs E (G l) tail X := by
  suffices H : ∀ s p, l = p ++ s → Valid (G p) → Runs E (G p) (s.flatMap f ++ tail) X →
      (∀ p' s', s = p' ++ s' → Valid (G (p ++ p'))) ∧ (∀ a ∈ s, Q a) ∧ Runs E (G l) tail X by
    have := H l [] rfl v run
    simpa using this
  intro s
  induction s with
  | nil =>
    intro p hp v run
    simp only [List.append_nil] at hp
    subst hp
    refine ⟨?_, by simp, by simpa using run⟩
    intro p' s' h
    have := (List.append_eq_nil_iff.1 h.symm).1
    subst this
    simpa using v
  | cons a s ih =>
    intro p hp v run
    rw [List.flatMap_cons, List.append_assoc] at run
    obtain ⟨Y, r1, vY, r2⟩ := split run v
    obtain ⟨e, q⟩ := hstep p a s Y hp v r1 r2
    subst e
    obtain ⟨i1, i2, i3⟩ := ih (p ++ [a]) (by simp [hp]) vY r2
    refine ⟨?_, ?_, i3⟩
    · intro p' s' h
      cases p' with
      | nil => simpa using v
      | cons b p' =>
        rw [List.cons_append] at h
        have hh := List.cons.inj h
        have := i1 p' s' hh.2
        rw [← hh.1]
        simpa using this
    · intro b hb
      rcases List.mem_cons.1 hb with rfl | hb
      · exact q
      · exact i2 b hb

/-! ### The objects of a new namespace -/

/-- What was created and not addressed afterwards. -/
theorem made {pre post : List Stmt} {s : Stmt} {k : Key} {o : Obj} (h : Runs E db (pre ++ s :: post) db') (v : Valid db)
    (hs : ∀ a b, step E a s = some b → b.objs k = some o) (hp : ∀ s ∈ post, ¬ Addresses s k)
    (hr : ∀ s ∈ post, ∀ x, ¬ Renames s x) : db'.objs k = some o := by
  obtain ⟨a, b, _, _, h2, _, h3⟩ := split1 h v
  rw [still h3 hp hr]
  exact hs a b h2

theorem tableCreate_inv {tb : Table} {l : List Stmt} (w : TableWF d tb) (hok : ∀ c ∈ tb.columns.items, (Spec.Column.state d c).Ok)
    (h : tb.createStmt d = .ok l) : ∃ cols n m rest, l = .createTable tb.name cols n tb.primaryKey m :: rest
      ∧ newTable cols tb.primaryKey = bare d tb := by
  unfold Table.createStmt at h
  cases hm : tb.columns.items.mapM (fun c => do return (c.name, ← c.dataSpec d) : Column → Except Err (Text × ColSpec)) with
  | error e =>
    simp only [bind, Except.bind, pure, Except.pure] at hm h
    rw [hm] at h
    cases h
  | ok cols =>
    obtain ⟨spec, hcols, hspec⟩ := mapM_specs hm
    simp only [bind, Except.bind, pure, Except.pure] at hm h
    rw [hm] at h
    simp only [Except.ok.injEq] at h
    exact ⟨cols, _, _, _, h.symm, by rw [hcols]; exact newTable_eq w hok hspec⟩

theorem created {n : Namespace} {stmts : List Stmt} (w : NsWF d n) (h : n.createObjectsStmt d = .ok stmts)
    (hok : ∀ tb ∈ n.tables.items, ∀ c ∈ tb.columns.items, (Spec.Column.state d c).Ok)
    (run : Runs E db stmts db') (v : Valid db) (h0 : ∀ m, db.objs (n.name, m) = none) (m : Text) :
    db'.objs (n.name, m) = Spec.Namespace.obj d E (unconstrained n) m := by
  unfold Namespace.createObjectsStmt at h
  cases hm : n.tables.items.mapM (fun tb => tb.createStmt d) with
  | error e => rw [hm] at h; cases h
  | ok ts =>
    rw [hm] at h
    simp only [bind, Except.bind, pure, Except.pure, Except.ok.injEq] at h
    subst h
    have q1 : ∀ st ∈ n.enums.items.flatMap EnumType.createStmt, ∃ e ∈ n.enums.items, Tame st e.name.key := by
      intro st hst
      obtain ⟨e, he, hst⟩ := List.mem_flatMap.1 hst
      rw [List.mem_singleton.1 (show st ∈ [_] from hst)]
      exact ⟨e, he, tame_createEnum⟩
    have q2 : ∀ st ∈ n.structs.items.flatMap (StructType.createStmt d), ∃ e ∈ n.structs.items, Tame st e.name.key := by
      intro st hst
      obtain ⟨e, he, hst⟩ := List.mem_flatMap.1 hst
      exact ⟨e, he, structCreate_tame hst⟩
    have q3 : ∀ st ∈ ts.flatten, ∃ e ∈ n.tables.items, Tame st e.name.key := by
      intro st hst
      obtain ⟨tb, htb, l, hl, hs⟩ := mem_of_mapM hm hst
      exact ⟨tb, htb, tableCreate_tame hl hs⟩
    cases ho : Spec.Namespace.obj d E (unconstrained n) m with
    | none =>
      refine absent_run run ?_ (h0 m)
      intro st hst hmk
      have nope : ∀ {q : QId}, Tame st q.key → q.localId = m := fun ht => (congrArg Prod.snd (ht.1 _ (makes_addr hmk))).symm
      have some_e : ∀ e ∈ n.enums.items, e.name.localId ≠ m := fun e he hl => by
        have := obj_enum (d := d) (E := E) (n := unconstrained n) (k := m) (e := e) (by rw [← hl]; exact get_of_mem w.enums he)
        rw [this] at ho; cases ho
      have some_s : ∀ e ∈ n.structs.items, e.name.localId ≠ m := fun e he hl => by
        have := obj_struct (d := d) (E := E) (wf_unconstrained w) (k := m) (s := e) (by rw [← hl]; exact get_of_mem w.structs he)
        rw [this] at ho; cases ho
      have some_t : ∀ e ∈ n.tables.items, e.name.localId ≠ m := fun e he hl => by
        have := obj_unc_table (d := d) (E := E) w (k := m) (tb := e) (by rw [← hl]; exact get_of_mem w.tables he)
        rw [this] at ho; cases ho
      simp only [List.mem_append] at hst
      rcases hst with (h | h) | h
      · obtain ⟨e, he, ht⟩ := q1 st h; exact some_e e he (nope ht)
      · obtain ⟨e, he, ht⟩ := q2 st h; exact some_s e he (nope ht)
      · obtain ⟨e, he, ht⟩ := q3 st h; exact some_t e he (nope ht)
    | some o =>
      have ren : ∀ st ∈ n.enums.items.flatMap EnumType.createStmt ++ n.structs.items.flatMap (StructType.createStmt d) ++ ts.flatten,
          ∀ x, ¬ Renames st x := by
        intro st hst x
        simp only [List.mem_append] at hst
        rcases hst with (h | h) | h
        · obtain ⟨e, he, ht⟩ := q1 st h; exact tame_no_rename ht x
        · obtain ⟨e, he, ht⟩ := q2 st h; exact tame_no_rename ht x
        · obtain ⟨e, he, ht⟩ := q3 st h; exact tame_no_rename ht x
      rcases obj_some ho with ⟨e, hg, rfl⟩ | ⟨e, hg, rfl⟩ | ⟨tb', hg, rfl⟩
      · obtain ⟨he, hk⟩ := mem_of_get hg
        have he : e ∈ n.enums.items := he
        have hkey : e.name.key = (n.name, m) := Prod.ext (w.enumScope e he) hk
        obtain ⟨p, s, hl⟩ := List.append_of_mem he
        have nd := w.enums
        unfold Distinct at nd
        rw [hl, List.map_append, List.map_cons, List.nodup_append, List.nodup_cons] at nd
        have er : n.enums.items.flatMap EnumType.createStmt = p.flatMap EnumType.createStmt
            ++ .createEnum e.name e.values :: s.flatMap EnumType.createStmt := by
          rw [hl, List.flatMap_append, List.flatMap_cons]; rfl
        rw [er, List.append_assoc, List.append_assoc, List.cons_append] at run ren
        refine made run v ?_ ?_ (fun st h => ren st (List.mem_append_right _ (List.mem_cons_of_mem _ h)))
        · intro a b hab
          simp only [step] at hab
          split at hab
          · rw [(create_ok hab).2, hkey]
            simp [Db.set, upd, EnumType.obj]
          · cases hab
        · intro st hst hk'
          rw [← hkey] at hk'
          simp only [List.mem_append] at hst
          rcases hst with h | h | h
          · obtain ⟨e', he', hst⟩ := List.mem_flatMap.1 h
            rw [List.mem_singleton.1 (show st ∈ [_] from hst)] at hk'
            exact nd.2.1.1 (by rw [show key e = key e' from congrArg Prod.snd (tame_createEnum.1 _ hk')]; exact List.mem_map_of_mem he')
          · obtain ⟨e', he', ht⟩ := q2 st h
            exact w.enumStruct e he e' he' (congrArg Prod.snd (ht.1 _ hk'))
          · obtain ⟨e', he', ht⟩ := q3 st h
            exact w.enumTable e he e' he' (congrArg Prod.snd (ht.1 _ hk'))
      · obtain ⟨he, hk⟩ := mem_of_get hg
        have he : e ∈ n.structs.items := he
        have hkey : e.name.key = (n.name, m) := Prod.ext (w.structScope e he) hk
        obtain ⟨p, s, hl⟩ := List.append_of_mem he
        have nd := w.structs
        unfold Distinct at nd
        rw [hl, List.map_append, List.map_cons, List.nodup_append, List.nodup_cons] at nd
        obtain ⟨rest, hrest⟩ : ∃ rest, e.createStmt d = .createStruct e.name (e.members.items.map (fun m => (m.name, m.ty))) :: rest :=
          ⟨_, rfl⟩
        have hq : ∀ st ∈ rest, ∀ x, ¬ Addresses st x := by
          intro st hst x hx
          obtain ⟨rest', e1⟩ : ∃ r, e.createStmt d = r := ⟨_, rfl⟩
          unfold StructType.createStmt at hrest
          have := (List.cons.inj hrest).2
          subst this
          split at hst
          · rcases List.mem_append.1 hst with hst | hst
            · split at hst
              · rw [List.mem_singleton.1 hst] at hx; exact hx
              · cases hst
            · obtain ⟨c, _, hst⟩ := List.mem_flatMap.1 hst
              split at hst
              · rw [List.mem_singleton.1 hst] at hx; exact hx
              · cases hst
          · cases hst
        have er : n.structs.items.flatMap (StructType.createStmt d) = p.flatMap (StructType.createStmt d)
            ++ .createStruct e.name (e.members.items.map (fun m => (m.name, m.ty))) :: (rest ++ s.flatMap (StructType.createStmt d)) := by
          rw [hl, List.flatMap_append, List.flatMap_cons, hrest]; rfl
        have e1 : ∀ A P M Q X, A ++ (P ++ M :: Q) ++ X = (A ++ P) ++ (M :: (Q ++ X) : List Stmt) := by intros; simp
        rw [er, e1] at run ren
        refine made run v ?_ ?_ (fun st h => ren st (List.mem_append_right _ (List.mem_cons_of_mem _ h)))
        · intro a b hab
          simp only [step] at hab
          split at hab
          · rw [(create_ok hab).2, hkey]
            simp only [Db.set, upd, if_true]
            unfold StructType.obj
            congr 2
            funext x
            rw [ODict.get, List.find?_map, Option.map_map]
            rfl
          · cases hab
        · intro st hst hk'
          rw [← hkey] at hk'
          simp only [List.mem_append] at hst
          rcases hst with (h | h) | h
          · exact hq st h _ hk'
          · obtain ⟨e', he', hst⟩ := List.mem_flatMap.1 h
            exact nd.2.1.1 (by rw [show key e = key e' from congrArg Prod.snd ((structCreate_tame hst).1 _ hk')]; exact List.mem_map_of_mem he')
          · obtain ⟨e', he', ht⟩ := q3 st h
            exact w.structTable e he e' he' (congrArg Prod.snd (ht.1 _ hk'))
      · obtain ⟨he', hk'⟩ := mem_of_get hg
        obtain ⟨e, he, rfl⟩ := mem_unc he'
        have hk : key e = m := hk'
        have hkey : e.name.key = (n.name, m) := Prod.ext (w.tableScope e he) hk
        rw [unc_state (w.wf e he).columns]
        obtain ⟨P, lx, Q, h1, h2, h3⟩ := Rem.split_mapM (key := fun tb : Table => tb.name.localId) hm w.tables he
        obtain ⟨cols, kn, cm, rest, rfl, hbare⟩ := tableCreate_inv (w.wf e he) (hok e he) h1
        have hq : ∀ st ∈ rest, ∀ x, ¬ Addresses st x := by
          have hm' := h1
          unfold Table.createStmt at hm'
          simp only [bind, Except.bind] at hm'
          split at hm'
          · cases hm'
          · simp only [pure, Except.pure, Except.ok.injEq] at hm'
            have := (List.cons.inj hm').2
            intro st hst x hx
            rw [← this] at hst
            rcases List.mem_append.1 hst with hst | hst
            · split at hst
              · rcases List.mem_append.1 hst with hst | hst
                · split at hst
                  · rw [List.mem_singleton.1 hst] at hx; exact hx
                  · cases hst
                · obtain ⟨c, _, hst⟩ := List.mem_flatMap.1 hst
                  split at hst
                  · rw [List.mem_singleton.1 hst] at hx; exact hx
                  · cases hst
              · cases hst
            · split at hst
              · rw [List.mem_singleton.1 hst] at hx; exact hx
              · cases hst
        have e1 : ∀ A P M Q X, A ++ (P ++ (M :: Q ++ X)) = (A ++ P) ++ (M :: (Q ++ X) : List Stmt) := by intros; simp
        rw [h2, e1] at run ren
        refine made run v ?_ ?_ (fun st h => ren st (List.mem_append_right _ (List.mem_cons_of_mem _ h)))
        · intro a b hab
          simp only [step] at hab
          split at hab
          · rw [(create_ok hab).2, hkey, hbare]
            simp [Db.set, upd]
          · cases hab
        · intro st hst hk'
          rw [← hkey] at hk'
          simp only [List.mem_append] at hst
          rcases hst with h | h
          · exact hq st h _ hk'
          · obtain ⟨y, hy, hky, ly, hly, hmem⟩ := h3 st (List.mem_append_right _ h)
            exact hky (congrArg Prod.snd ((tableCreate_tame hly hmem).1 _ hk')).symm

/-! ### The objects of a removed namespace -/

theorem dropped {n : Namespace} (w : NsWF d n) (run : Runs E db n.dropObjectsStmt db') (v : Valid db)
    (h0 : ∀ m, db.objs (n.name, m) = Spec.Namespace.obj d E (unconstrained n) m) (m : Text) : db'.objs (n.name, m) = none := by
  have lame : ∀ st ∈ n.dropObjectsStmt, ∀ x, ¬ Makes st x := by
    intro st hst x
    rcases dropObjects_mem hst with ⟨_, _, rfl⟩ | ⟨_, _, rfl⟩ | ⟨_, _, rfl⟩ <;> exact id
  have gone : ∀ s, s ∈ n.dropObjectsStmt → Drops s (n.name, m) → db'.objs (n.name, m) = none := by
    intro s hs hd
    obtain ⟨p, q, hl⟩ := List.append_of_mem hs
    rw [hl] at run lame
    obtain ⟨a, b, _, _, h2, _, h3⟩ := split1 run v
    exact absent_run h3 (fun st h => lame st (List.mem_append_right _ (List.mem_cons_of_mem _ h)) _) (drops_gone h2 hd).1
  cases ho : Spec.Namespace.obj d E (unconstrained n) m with
  | none => exact absent_run run (fun st h => lame st h _) (by rw [h0, ho])
  | some o =>
    rcases obj_some ho with ⟨e, hg, _⟩ | ⟨e, hg, _⟩ | ⟨tb', hg, _⟩
    · obtain ⟨he, hk⟩ := mem_of_get hg
      have he : e ∈ n.enums.items := he
      refine gone (.dropType e.name) ?_ (Prod.ext (w.enumScope e he) hk)
      unfold Namespace.dropObjectsStmt
      refine List.mem_append_right _ (List.mem_flatMap.2 ⟨e, List.mem_reverse.2 he, List.mem_singleton.2 rfl⟩)
    · obtain ⟨he, hk⟩ := mem_of_get hg
      have he : e ∈ n.structs.items := he
      refine gone (.dropType e.name) ?_ (Prod.ext (w.structScope e he) hk)
      unfold Namespace.dropObjectsStmt
      refine List.mem_append_left _ (List.mem_append_right _ (List.mem_flatMap.2 ⟨e, List.mem_reverse.2 he, List.mem_singleton.2 rfl⟩))
    · obtain ⟨he', hk⟩ := mem_of_get hg
      obtain ⟨e, he, rfl⟩ := mem_unc he'
      refine gone (.dropTable e.name) ?_ (Prod.ext (w.tableScope e he) hk)
      unfold Namespace.dropObjectsStmt
      refine List.mem_append_left _ (List.mem_append_left _ (List.mem_flatMap.2 ⟨e, List.mem_reverse.2 he, List.mem_singleton.2 rfl⟩))

/-! ### What the part for a namespace addresses -/

theorem rename_scope' (q : QId) (x : Text) : (q.rename x).key.1 = q.key.1 := by cases q <;> rfl

theorem block_inside {a b : Namespace} {l : List Stmt} (h : mutateNamespace d {} a b = .ok l) (wa : NsWF d a) (wb : NsWF d b)
    (hname : a.name = b.name) {s : Stmt} (hs : s ∈ l) {k : Key} (hk : Addresses s k) : k.1 = a.name := by
  have ea : ∀ {e : EnumType}, e ∈ a.enums.items → e.name.key.1 = a.name := fun he => wa.enumScope _ he
  have sa : ∀ {e : StructType}, e ∈ a.structs.items → e.name.key.1 = a.name := fun he => wa.structScope _ he
  have ta : ∀ {e : Table}, e ∈ a.tables.items → e.name.key.1 = a.name := fun he => wa.tableScope _ he
  have eb : ∀ {e : EnumType}, e ∈ b.enums.items → e.name.key.1 = a.name := fun he => (wb.enumScope _ he).trans hname.symm
  have sb : ∀ {e : StructType}, e ∈ b.structs.items → e.name.key.1 = a.name := fun he => (wb.structScope _ he).trans hname.symm
  have tb' : ∀ {e : Table}, e ∈ b.tables.items → e.name.key.1 = a.name := fun he => (wb.tableScope _ he).trans hname.symm
  cases nsOrigin h hs with
  | enumCreate e he hm =>
    rw [List.mem_singleton.1 (show s ∈ [_] from hm)] at hk
    rw [tame_createEnum.1 _ hk]; exact eb (mem_diff he).1
  | structCreate e he hm => rw [(structCreate_tame hm).1 _ hk]; exact sb (mem_diff he).1
  | enumSoft p hp hm =>
    rw [List.mem_singleton.1 (show s ∈ [_] from hm)] at hk
    have := ea (mem_diff (mem_softPairs.1 (show (p.1, p.2) ∈ _ from hp)).1).1
    rcases hk with hk | hk <;> rw [← hk] <;> exact this
  | tableCreate tb he x hx hm => rw [(tableCreate_tame hx hm).1 _ hk]; exact tb' (mem_diff he).1
  | tableConstraints tb he hm =>
    obtain ⟨l, rfl, _⟩ := addConstraints_mem hm
    rw [← show tb.name.key = k from hk]; exact tb' (mem_diff he).1
  | enumMigrate p hp hm => rw [List.mem_singleton.1 (show s ∈ [_] from hm)] at hk; exact absurd hk id
  | enumMutate x y hp l hl hm =>
    obtain ⟨v, rfl⟩ := mutateEnum_mem hl hm
    rw [← show x.name.key = k from hk]; exact ea (mem_inter hp).1
  | structMutate x y hp l hl hm =>
    rcases mutateStruct_mem hl hm with ⟨_, rfl⟩ | ⟨_, rfl⟩
    · rw [← show x.name.key = k from hk]; exact sa (mem_inter hp).1
    · exact absurd hk id
  | tableMutate x y hp l hl hm => rw [(mutateTable_tame hl hm).1.1 _ hk]; exact ta (mem_inter hp).1
  | tableDrop tb _ he hm =>
    rw [List.mem_singleton.1 (show s ∈ [_] from hm)] at hk
    rw [← show tb.name.key = k from hk]; exact ta (mem_diff he).1
  | structDrop tb _ he hm =>
    rw [List.mem_singleton.1 (show s ∈ [_] from hm)] at hk
    rw [← show tb.name.key = k from hk]; exact sa (mem_diff he).1
  | enumDrop e _ he hm =>
    rcases hm with ⟨hm, _⟩ | ⟨hm, _⟩
    · rw [List.mem_singleton.1 (show s ∈ [_] from hm)] at hk
      rw [← show e.name.key = k from hk]; exact ea (mem_diff he).1
    · rw [List.mem_singleton.1 (show s ∈ [_] from hm)] at hk
      rw [← show (e.name.rename (deletedName e.name.localId)).key = k from hk, rename_scope']; exact ea (mem_diff he).1

theorem block_renames {a b : Namespace} {l : List Stmt} (h : mutateNamespace d {} a b = .ok l) {q : QId} {new : Text}
    (hs : .renameType q new ∈ l) : ∃ z, new = deletedName z := by
  have key : ∀ {k}, Tame (.renameType q new) k → ∃ z, new = deletedName z := fun ht => absurd rfl (tame_no_rename ht q.key)
  cases nsOrigin h hs with
  | enumCreate e he hm => exact absurd (List.mem_singleton.1 (show _ ∈ [_] from hm)) (by intro h; cases h)
  | structCreate e he hm => exact key (structCreate_tame hm)
  | enumSoft p hp hm =>
    have := List.mem_singleton.1 (show Stmt.renameType q new ∈ [Stmt.renameType p.1.name (deletedName p.1.name.localId)] from hm)
    injection this with _ h2
    exact ⟨_, h2⟩
  | tableCreate tb he x hx hm => exact key (tableCreate_tame hx hm)
  | tableConstraints tb he hm => obtain ⟨l, h, _⟩ := addConstraints_mem hm; cases h
  | enumMigrate p hp hm => exact absurd (List.mem_singleton.1 (show _ ∈ [_] from hm)) (by intro h; cases h)
  | enumMutate x y hp l hl hm => obtain ⟨v, h⟩ := mutateEnum_mem hl hm; cases h
  | structMutate x y hp l hl hm => rcases mutateStruct_mem hl hm with ⟨_, h⟩ | ⟨_, h⟩ <;> cases h
  | tableMutate x y hp l hl hm => exact key (mutateTable_tame hl hm).1
  | tableDrop tb _ he hm => exact absurd (List.mem_singleton.1 (show _ ∈ [_] from hm)) (by intro h; cases h)
  | structDrop tb _ he hm => exact absurd (List.mem_singleton.1 (show _ ∈ [_] from hm)) (by intro h; cases h)
  | enumDrop e _ he hm =>
    rcases hm with ⟨hm, _⟩ | ⟨hm, _⟩ <;>
      exact absurd (List.mem_singleton.1 (show _ ∈ [_] from hm)) (by intro h; cases h)

/-- What is not addressed any more is as it ends up. -/
theorem settled {T : List Namespace} (wT : ∀ n ∈ T, NsWF d n) (vT : Valid (dbOf d E T)) {X : Db} {l : List Stmt} {k : Key}
    (h : Runs E X l (dbOf d E T)) (ha : ∀ s ∈ l, ¬ Addresses s k)
    (hr : ∀ q new, .renameType q new ∈ l → ∃ z, new = deletedName z) : X.objs k = (dbOf d E T).objs k := by
  refine (back h ha ?_).symm
  rintro s hs q new rfl o ho hsay
  obtain ⟨z, rfl⟩ := hr q new hs
  have := says_some vT ho hsay
  rw [dbOf_objs] at this
  cases hn : nsGet T q.key.1 with
  | none => simp [hn] at this
  | some n =>
    simp only [hn, Option.bind_some] at this
    rw [obj_deleted (wT n (ODict.get_some_mem (d := ⟨T⟩) hn).1)] at this
    cases this

/-! ### The whole script -/

theorem exact {S T : Catalog} {condCols : Text → List Text} (hE : E = engine d condCols) (wS : CatWF d S) (wT : CatWF d T)
    {stmts : List Stmt} (h : mutateSorted d {} S T = .ok stmts) (vS : Valid (Spec.Catalog.db d E S))
    (run : Runs E (Spec.Catalog.db d E S) stmts (Spec.Catalog.db d E T)) : CatSafe d E S T := by
  have vT := runs_valid run vS
  have vT : Valid (dbOf d E T.namespaces.items) := vT
  have v0 : Valid (dbOf d E S.namespaces.items) := vS
  have run : Runs E (dbOf d E S.namespaces.items) stmts (dbOf d E T.namespaces.items) := run
  unfold mutateSorted at h
  cases h1 : (T.namespaces.difference S.namespaces).mapM (Namespace.createObjectsStmt d) with
  | error e => simp [h1, bind, Except.bind] at h
  | ok creates =>
  cases h2 : (S.namespaces.intersection T.namespaces).mapM (fun p => mutateNamespace d {} p.1 p.2) with
  | error e => simp [h1, h2, bind, Except.bind] at h
  | ok mutates =>
  simp only [h1, h2, bind, Except.bind, pure, Except.pure, Except.ok.injEq, if_true] at h
  rw [← h] at run
  have sp := src_split (A := S.namespaces) (B := T.namespaces) wS.names
  have tp := tgt_split (A := S.namespaces) (B := T.namespaces) wS.names wT.names
  have cK : ((T.namespaces.difference S.namespaces).map key).Nodup := ODict.difference_nodup wT.names _
  have dK : ((S.namespaces.difference T.namespaces).map key).Nodup := ODict.difference_nodup wS.names _
  have mK : ((S.namespaces.intersection T.namespaces).map (fun p => key p.1)).Nodup := ODict.intersection_nodup wS.names _
  have cS : ∀ n ∈ T.namespaces.difference S.namespaces, n.name ∉ S.namespaces.items.map key :=
    fun n hn => (ODict.mem_difference.1 hn).2
  have cM : ∀ n ∈ T.namespaces.difference S.namespaces, n ∈ T.namespaces.items := fun n hn => (ODict.mem_difference.1 hn).1
  have cW : ∀ n ∈ T.namespaces.difference S.namespaces, NsWF d n := fun n hn => wT.wf n (ODict.mem_difference.1 hn).1
  have dM : ∀ n ∈ S.namespaces.difference T.namespaces, n ∈ S.namespaces.items := fun n hn => (ODict.mem_difference.1 hn).1
  have dW : ∀ n ∈ S.namespaces.difference T.namespaces, NsWF d n := fun n hn => wS.wf n (ODict.mem_difference.1 hn).1
  have dT' : ∀ n ∈ S.namespaces.difference T.namespaces, n.name ∉ T.namespaces.items.map key :=
    fun n hn => (ODict.mem_difference.1 hn).2
  have mG : ∀ a ∈ S.namespaces.intersection T.namespaces, a.1 ∈ S.namespaces.items ∧ a.2 ∈ T.namespaces.items ∧
      a.1.name = a.2.name := fun a ha => (ODict.mem_intersection wT.names).1 ha
  suffices H : (∀ p s, T.namespaces.difference S.namespaces = p ++ s → Valid (dbOf d E (p.map unconstrained ++ S.namespaces.items)))
      ∧ Valid (dbOf d E (T.namespaces.difference S.namespaces ++ S.namespaces.items))
      ∧ (∀ n ∈ T.namespaces.difference S.namespaces, StructsInOrder n.structs.items)
      ∧ (∀ p s, S.namespaces.intersection T.namespaces = p ++ s → Valid (dbOf d E (T.namespaces.difference S.namespaces
          ++ p.map Prod.snd ++ s.map Prod.fst ++ S.namespaces.difference T.namespaces)))
      ∧ (∀ a ∈ S.namespaces.intersection T.namespaces, NsSafe d E a.1 a.2)
      ∧ (∀ p s, S.namespaces.difference T.namespaces = p ++ s → Valid (dbOf d E (T.namespaces.items ++ s.map unconstrained)))
      ∧ (∀ n ∈ S.namespaces.difference T.namespaces, StructsInDropOrder n.structs.items.reverse) from
    ⟨H.1, H.2.1, H.2.2.1, H.2.2.2.1, H.2.2.2.2.1, H.2.2.2.2.2.1, H.2.2.2.2.2.2⟩
  generalize T.namespaces.difference S.namespaces = cs at *
  generalize S.namespaces.difference T.namespaces = ds at *
  generalize S.namespaces.intersection T.namespaces = ms at *
  have e0 : ∀ A B C D F G H : List Stmt, A ++ B ++ C ++ D ++ F ++ (G ++ H) = A ++ (B ++ (C ++ (D ++ (F ++ (G ++ H))))) := by
    intros; simp
  rw [e0] at run
  -- what the later parts address
  have addD : ∀ s ∈ ds.flatMap Namespace.dropConstraintsStmt ++ (ds.flatMap Namespace.dropObjectsStmt
      ++ ds.flatMap (Namespace.dropSchemaStmt d)), (∀ q new, s ≠ .renameType q new) ∧ ∀ k, Addresses s k → ∃ n ∈ ds, k.1 = n.name := by
    intro s hs
    simp only [List.mem_append, List.mem_flatMap] at hs
    rcases hs with ⟨n, hn, hs⟩ | ⟨n, hn, hs⟩ | ⟨n, hn, hs⟩
    · unfold Namespace.dropConstraintsStmt at hs
      obtain ⟨tb, htb, hs⟩ := List.mem_flatMap.1 hs
      obtain ⟨l, rfl, _⟩ := dropConstraints_mem hs
      refine ⟨(by intro _ _ h; cases h), fun k hk => ⟨n, hn, ?_⟩⟩
      rw [← show tb.name.key = k from hk]
      exact (dW n hn).tableScope tb htb
    · rcases dropObjects_mem hs with ⟨e, he, rfl⟩ | ⟨e, he, rfl⟩ | ⟨e, he, rfl⟩ <;>
        refine ⟨(by intro _ _ h; cases h), fun k hk => ⟨n, hn, ?_⟩⟩ <;> rw [← show e.name.key = k from hk]
      · exact (dW n hn).tableScope e he
      · exact (dW n hn).structScope e he
      · exact (dW n hn).enumScope e he
    · obtain ⟨b, rfl⟩ := dropSchema_mem hs
      exact ⟨(by intro _ _ h; cases h), fun k hk => ⟨n, hn, (show n.name = k.1 from hk).symm⟩⟩
  obtain ⟨em, km⟩ := mapM_flatten h2
  have addM : ∀ p ∈ ms, ∀ s ∈ ((mutateNamespace d {} p.1 p.2).toOption).getD [], (∀ k, Addresses s k → k.1 = p.1.name)
      ∧ ∀ q new, s = .renameType q new → ∃ z, new = deletedName z := by
    intro p hp s hs
    have hm := mG p hp
    refine ⟨fun k hk => block_inside (km p hp) (wS.wf _ hm.1) (wT.wf _ hm.2.1) hm.2.2 hs hk, ?_⟩
    rintro q new rfl
    exact block_renames (km p hp) hs
  -- schemas
  have r1 : Runs E (dbOf d E S.namespaces.items) (cs.flatMap (Namespace.createSchemaStmt d))
      (dbOf d E (cs.map emptyNs ++ S.namespaces.items)) := by
    have := runs_flatMap (E := E) (Namespace.createSchemaStmt d)
      (fun p => dbOf d E (p.map emptyNs ++ S.namespaces.items)) cs ?_ v0
    · exact this
    · intro p a s hl v
      have ha := mem_of_split hl
      have := run_createSchema (d := d) (E := E) (a := p.map emptyNs) (b := S.namespaces.items) (n := a)
        (by rw [map_key_empty]; exact notMem_prefix key cK hl) (cS a ha) v
      simpa using this
  obtain ⟨X1, x1, v1, run⟩ := split run v0
  have e := C14.runs_det x1 r1
  subst e
  -- objects of new namespaces
  obtain ⟨ec, kc⟩ := mapM_flatten h1
  rw [ec] at run
  have st2 := chain (E := E) (fun n => ((n.createObjectsStmt d).toOption).getD [])
    (fun p => dbOf d E (p.map unconstrained ++ (cs.drop p.length).map emptyNs ++ S.namespaces.items))
    (fun a => NsSafe d E (emptyNs a) (unconstrained a)) cs ?_ (by simpa using v1) (by simpa using run)
  swap
  · intro p a s Y hl v ry _
    have ha := mem_of_split hl
    rw [drop_split hl] at v
    simp only [drop_split hl] at ry
    simp only [drop_split' hl]
    have e1 : p.map unconstrained ++ (a :: s).map emptyNs ++ S.namespaces.items
        = p.map unconstrained ++ emptyNs a :: (s.map emptyNs ++ S.namespaces.items) := by simp
    have e2 : (p ++ [a]).map unconstrained ++ s.map emptyNs ++ S.namespaces.items
        = p.map unconstrained ++ unconstrained a :: (s.map emptyNs ++ S.namespaces.items) := by simp
    rw [e1] at v ry
    rw [e2]
    have hn : (emptyNs a).name ∉ (p.map unconstrained).map key := by
      rw [map_key_unconstrained]; exact (show a.name ∉ p.map key from notMem_prefix key cK hl)
    refine block hE (n := emptyNs a) (n' := unconstrained a) rfl hn (by rw [create_as_mutate]; exact kc a ha) ry v
      (wf_emptyNs a) (wf_unconstrained (cW a ha)) ?_
    refine created (cW a ha) (kc a ha) ?_ ry v ?_
    · intro tb htb c hc
      have hob : (dbOf d E T.namespaces.items).objs (a.name, key tb) = some (.table (Spec.Table.state d E tb)) := by
        rw [dbOf_objs, (nsGet_some wT.names).2 ⟨cM a ha, rfl⟩]
        exact obj_table (cW a ha) (get_of_mem (cW a ha).tables htb)
      have f := (vT.fits _ _ hob).cols c.name (Spec.Column.state d c) (by
        have := get_of_mem ((cW a ha).wf tb htb).columns hc
        unfold Spec.Table.state
        simp only
        rw [show tb.columns.get c.name = some c from this]; rfl)
      exact f.1
    · intro m
      have := dbOf_at (d := d) (E := E) (l2 := s.map emptyNs ++ S.namespaces.items) hn m
      rw [show (a.name, m) = ((emptyNs a).name, m) from rfl, this]
      rfl
  obtain ⟨g2, q2, run⟩ := st2
  have v2 := g2 cs [] (by simp)
  have e2 : dbOf d E (cs.map unconstrained ++ (cs.drop cs.length).map emptyNs ++ S.namespaces.items)
      = dbOf d E (cs.map unconstrained ++ S.namespaces.items) := by simp
  rw [e2] at v2 run
  -- their constraints
  obtain ⟨X3, x3, v3, run⟩ := split run v2
  have addC : ∀ s ∈ cs.flatMap (Namespace.addConstraintsStmt d), ¬ AboutSchema s ∧ (∀ x, ¬ Renames s x) ∧
      ∀ k, Addresses s k → ∃ n ∈ cs, k.1 = n.name := by
    intro s hs
    obtain ⟨n, hn, hs⟩ := List.mem_flatMap.1 hs
    unfold Namespace.addConstraintsStmt at hs
    obtain ⟨tb, htb, hs⟩ := List.mem_flatMap.1 hs
    obtain ⟨l, rfl, _⟩ := addConstraints_mem hs
    refine ⟨id, fun _ => id, fun k hk => ⟨n, hn, ?_⟩⟩
    rw [← show tb.name.key = k from hk]
    exact (cW n hn).tableScope tb htb
  have hX3 : X3 = dbOf d E (cs ++ S.namespaces.items) := by
    refine db_ext ?_ ?_
    · rw [run_schemas x3 (fun s hs => (addC s hs).1)]
      funext n
      rw [dbOf_schemas, dbOf_schemas, nsGet_append, nsGet_append, nsGet_map (g := unconstrained) (fun _ => rfl)]
      cases nsGet cs n <;> rfl
    · funext k
      by_cases hk : k.1 ∈ cs.map key
      · obtain ⟨n, hn, hnk⟩ := List.mem_map.1 hk
        rw [settled wT.wf vT run ?_ ?_]
        · rw [dbOf_objs, dbOf_objs, ← tp, nsGet_append, nsGet_append, (nsGet_some cK).2 ⟨hn, hnk⟩]
          rfl
        · intro s hs ha
          rw [em] at hs
          rcases List.mem_append.1 hs with hs | hs
          · obtain ⟨p, hp, hs⟩ := List.mem_flatMap.1 hs
            refine cS n hn ?_
            rw [show n.name = p.1.name from hnk.trans ((addM p hp s hs).1 k ha)]
            exact List.mem_map_of_mem (f := key) (mG p hp).1
          · obtain ⟨m, hm, e⟩ := (addD s hs).2 k ha
            refine dT' m hm ?_
            rw [← e, ← hnk]
            exact List.mem_map_of_mem (f := key) (cM n hn)
        · intro q new hs
          rw [em] at hs
          rcases List.mem_append.1 hs with hs | hs
          · obtain ⟨p, hp, hs⟩ := List.mem_flatMap.1 hs
            exact (addM p hp _ hs).2 q new rfl
          · exact absurd rfl ((addD _ hs).1 q new)
      · rw [still x3 ?_ (fun s hs => (addC s hs).2.1)]
        · rw [dbOf_objs, dbOf_objs, nsGet_append, nsGet_append, nsGet_map (g := unconstrained) (fun _ => rfl),
            nsGet_none.2 hk]
          rfl
        · intro s hs ha
          obtain ⟨n, hn, e⟩ := (addC s hs).2.2 k ha
          exact hk (by rw [e]; exact List.mem_map_of_mem (f := key) hn)
  subst hX3
  -- namespaces in both
  have keys1 : ∀ p s, ms = p ++ s → (p.map Prod.snd).map key = p.map (fun x => key x.1) := by
    intro p s hl
    rw [List.map_map]
    apply List.map_congr_left
    intro x hx
    exact (mG x (by rw [hl]; simp [hx])).2.2.symm
  have e3 : dbOf d E (cs ++ S.namespaces.items) = dbOf d E (cs ++ ms.map Prod.fst ++ ds) := by
    apply dbOf_congr
    intro k
    rw [List.append_assoc, nsGet_append, nsGet_append, sp]
  have v3' := v3
  rw [e3] at v3' run
  rw [em] at run
  have st4 := chain (E := E) (fun p : Namespace × Namespace => ((mutateNamespace d {} p.1 p.2).toOption).getD [])
    (fun p => dbOf d E (cs ++ p.map Prod.snd ++ (ms.drop p.length).map Prod.fst ++ ds))
    (fun a => NsSafe d E a.1 a.2) ms ?_ (by simpa using v3') (by simpa using run)
  swap
  · rintro p ⟨a, b⟩ s Y hl v ry rt
    have ha := mem_of_split hl
    rw [drop_split hl] at v
    simp only [drop_split hl] at ry
    simp only [drop_split' hl]
    have f1 : cs ++ p.map Prod.snd ++ ((a, b) :: s).map Prod.fst ++ ds
        = (cs ++ p.map Prod.snd) ++ a :: (s.map Prod.fst ++ ds) := by simp
    have f2 : cs ++ (p ++ [(a, b)]).map Prod.snd ++ s.map Prod.fst ++ ds
        = (cs ++ p.map Prod.snd) ++ b :: (s.map Prod.fst ++ ds) := by simp
    have hm := mG _ ha
    have hnot : a.name ∉ (cs ++ p.map Prod.snd).map key := by
      rw [List.map_append, List.mem_append, not_or]
      refine ⟨?_, ?_⟩
      · intro hmem
        obtain ⟨n, hn, e⟩ := List.mem_map.1 hmem
        exact cS n hn (by rw [show n.name = a.name from e]; exact List.mem_map_of_mem (f := key) hm.1)
      · rw [keys1 p ((a, b) :: s) hl]
        exact notMem_prefix (fun x : Namespace × Namespace => key x.1) mK hl
    rw [f1] at v ry
    rw [f2]
    refine block hE hm.2.2.symm hnot (km _ ha) ry v (wS.wf a hm.1) (wT.wf b hm.2.1) ?_
    intro m
    rw [settled wT.wf vT rt ?_ ?_]
    · rw [dbOf_objs, (nsGet_some wT.names).2 ⟨hm.2.1, hm.2.2.symm⟩]
      rfl
    · intro st hs had
      rcases List.mem_append.1 hs with hs | hs
      · obtain ⟨p', hp', hs⟩ := List.mem_flatMap.1 hs
        have e := (addM p' (by rw [hl]; simp [hp']) st hs).1 _ had
        rw [hl, List.map_append, List.nodup_append, List.map_cons, List.nodup_cons] at mK
        exact mK.2.1.1 (by
          rw [show key (a, b).1 = key p'.1 from e]
          exact List.mem_map_of_mem (f := fun x : Namespace × Namespace => key x.1) hp')
      · obtain ⟨n, hn, e⟩ := (addD st hs).2 _ had
        exact dT' n hn (by rw [← e, hm.2.2]; exact List.mem_map_of_mem (f := key) hm.2.1)
    · intro q new hs
      rcases List.mem_append.1 hs with hs | hs
      · obtain ⟨p', hp', hs⟩ := List.mem_flatMap.1 hs
        exact (addM p' (by rw [hl]; simp [hp']) _ hs).2 q new rfl
      · exact absurd rfl ((addD _ hs).1 q new)
  obtain ⟨g4, q4, run⟩ := st4
  have v4 := g4 ms [] (by simp)
  -- removed namespaces
  have e4 : dbOf d E (cs ++ ms.map Prod.snd ++ (ms.drop ms.length).map Prod.fst ++ ds) = dbOf d E (T.namespaces.items ++ ds) := by
    apply dbOf_congr
    intro k
    rw [List.drop_length, List.map_nil, List.append_nil, nsGet_append (cs ++ ms.map Prod.snd) ds,
      nsGet_append T.namespaces.items ds, tp]
  rw [e4] at run v4
  have dN : ∀ p a s, ds = p ++ a :: s → a.name ∉ (T.namespaces.items ++ p).map key := by
    intro p a s hl
    rw [List.map_append, List.mem_append, not_or]
    exact ⟨dT' a (mem_of_split hl), notMem_prefix key dK hl⟩
  have r5 : Runs E (dbOf d E (T.namespaces.items ++ ds)) (ds.flatMap Namespace.dropConstraintsStmt)
      (dbOf d E (T.namespaces.items ++ ds.map unconstrained)) := by
    have := runs_flatMap (E := E) Namespace.dropConstraintsStmt
      (fun p => dbOf d E (T.namespaces.items ++ p.map unconstrained ++ ds.drop p.length)) ds ?_ (by simpa using v4)
    · refine runs_cast this ?_ ?_ <;> simp
    · intro p a s hl v
      have ha := mem_of_split hl
      rw [drop_split hl] at v
      simp only [drop_split hl, drop_split' hl]
      have f2 : T.namespaces.items ++ (p ++ [a]).map unconstrained ++ s
          = (T.namespaces.items ++ p.map unconstrained) ++ unconstrained a :: s := by simp
      rw [f2]
      refine run_dropConstraintsNs (dW a ha) ?_ v
      have := dN p a s hl
      rw [List.map_append] at this ⊢
      rw [map_key_unconstrained]; exact this
  obtain ⟨X5, x5, v5, run⟩ := split run v4
  have e := C14.runs_det x5 r5
  subst e
  have st6 := chain (E := E) Namespace.dropObjectsStmt
    (fun p => dbOf d E (T.namespaces.items ++ p.map emptyNs ++ (ds.drop p.length).map unconstrained))
    (fun a => NsSafe d E (revNs (unconstrained a)) (emptyNs a)) ds ?_ (by simpa using v5) (by simpa using run)
  swap
  · intro p a s Y hl v ry _
    have ha := mem_of_split hl
    rw [drop_split hl] at v
    simp only [drop_split hl] at ry
    simp only [drop_split' hl]
    have f1 : T.namespaces.items ++ p.map emptyNs ++ (a :: s).map unconstrained
        = (T.namespaces.items ++ p.map emptyNs) ++ unconstrained a :: s.map unconstrained := by simp
    have f2 : T.namespaces.items ++ (p ++ [a]).map emptyNs ++ s.map unconstrained
        = (T.namespaces.items ++ p.map emptyNs) ++ emptyNs a :: s.map unconstrained := by simp
    rw [f1] at v ry
    rw [f2]
    have hn : (revNs (unconstrained a)).name ∉ (T.namespaces.items ++ p.map emptyNs).map key := by
      have := dN p a s hl
      rw [List.map_append] at this ⊢
      rw [map_key_empty]; exact this
    have hd := dropped (dW a ha) ry v (fun m => dbOf_at (n := unconstrained a) hn m)
    have e0 := dbOf_obj_congr (d := d) (E := E) (l1 := T.namespaces.items ++ p.map emptyNs) (l2 := s.map unconstrained)
      (n := unconstrained a) (n' := revNs (unconstrained a)) rfl (obj_revNs (wf_unconstrained (dW a ha)))
    rw [e0] at v ry
    exact block hE (n := revNs (unconstrained a)) (n' := emptyNs a) rfl hn (drop_as_mutate a) ry v
      (wf_revNs (wf_unconstrained (dW a ha))) (wf_emptyNs a) hd
  obtain ⟨g6, q6, _⟩ := st6
  refine ⟨?_, v3, ?_, ?_, q4, ?_, ?_⟩
  · intro p s hl
    have := g2 p s hl
    rw [hl, List.drop_left] at this
    exact (valid_empties (fun n hn => cS n (by rw [hl]; simp [hn]))).1 this
  · intro n hn
    have := (q2 n hn).createOrder
    rw [show (emptyNs n).structs = ⟨[]⟩ from rfl, diff_empty] at this
    exact this
  · intro p s hl
    have := g4 p s hl
    rw [hl, List.drop_left] at this
    exact this
  · intro p s hl
    have := g6 p s hl
    rw [hl, List.drop_left] at this
    refine (valid_empties ?_).1 this
    intro n hn hmem
    rw [map_key_unconstrained] at hmem
    rw [hl, List.map_append, List.nodup_append] at dK
    exact dK.2.2 _ (List.mem_map_of_mem (f := key) hn) _ hmem rfl
  · intro n hn
    have := (q6 n hn).dropOrder
    rw [show (emptyNs n).structs = ⟨[]⟩ from rfl, diff_empty] at this
    exact this

/-! ### Creation -/

/-- A creation script that is accepted creates what it should. -/
theorem creation {T : Catalog} {condCols : Text → List Text} (hE : E = engine d condCols) (wT : CatWF d T)
    {stmts : List Stmt} (h : mutateSorted d {} ⟨⟨[]⟩⟩ T = .ok stmts) (vT : Valid (Spec.Catalog.db d E T)) {X : Db}
    (run : Runs E (Spec.Catalog.db d E ⟨⟨[]⟩⟩) stmts X) : X = Spec.Catalog.db d E T := by
  have vT : Valid (dbOf d E T.namespaces.items) := vT
  have v0 : Valid (dbOf d E []) := ⟨fun k o ho => (by cases ho), fun k o ho => (by cases ho)⟩
  have run : Runs E (dbOf d E []) stmts X := run
  show X = dbOf d E T.namespaces.items
  unfold mutateSorted at h
  simp only [diff_empty, empty_diff, empty_inter] at h
  cases h1 : T.namespaces.items.mapM (Namespace.createObjectsStmt d) with
  | error e => simp [h1, bind, Except.bind] at h
  | ok creates =>
  simp only [h1, bind, Except.bind, pure, Except.pure, Except.ok.injEq, if_true, List.mapM_nil, List.flatten_nil,
    List.flatMap_nil, List.append_nil] at h
  rw [← h, List.append_assoc] at run
  have cK : (T.namespaces.items.map key).Nodup := wT.names
  have cW := wT.wf
  generalize T.namespaces.items = cs at *
  have r1 : Runs E (dbOf d E []) (cs.flatMap (Namespace.createSchemaStmt d)) (dbOf d E (cs.map emptyNs)) := by
    have := runs_flatMap (E := E) (Namespace.createSchemaStmt d) (fun p => dbOf d E (p.map emptyNs)) cs ?_ v0
    · exact this
    · intro p a s hl v
      have := run_createSchema (d := d) (E := E) (a := p.map emptyNs) (b := []) (n := a)
        (by rw [map_key_empty]; exact notMem_prefix key cK hl) (by simp) (by simpa using v)
      simpa using this
  obtain ⟨X1, x1, v1, run⟩ := split run v0
  have e := C14.runs_det x1 r1
  subst e
  obtain ⟨ec, kc⟩ := mapM_flatten h1
  rw [ec] at run
  have st2 := chain (E := E) (fun n => ((n.createObjectsStmt d).toOption).getD [])
    (fun p => dbOf d E (p.map unconstrained ++ (cs.drop p.length).map emptyNs))
    (fun a => NsSafe d E (emptyNs a) (unconstrained a)) cs ?_ (by simpa using v1) (by simpa using run)
  swap
  · intro p a s Y hl v ry _
    have ha := mem_of_split hl
    rw [drop_split hl] at v
    simp only [drop_split hl] at ry
    simp only [drop_split' hl]
    have e1 : p.map unconstrained ++ (a :: s).map emptyNs = p.map unconstrained ++ emptyNs a :: s.map emptyNs := by simp
    have e2 : (p ++ [a]).map unconstrained ++ s.map emptyNs = p.map unconstrained ++ unconstrained a :: s.map emptyNs := by simp
    rw [e1] at v ry
    rw [e2]
    have hn : (emptyNs a).name ∉ (p.map unconstrained).map key := by
      rw [map_key_unconstrained]; exact (show a.name ∉ p.map key from notMem_prefix key cK hl)
    refine block hE (n := emptyNs a) (n' := unconstrained a) rfl hn (by rw [create_as_mutate]; exact kc a ha) ry v
      (wf_emptyNs a) (wf_unconstrained (cW a ha)) ?_
    refine created (cW a ha) (kc a ha) ?_ ry v ?_
    · intro tb htb c hc
      have hob : (dbOf d E cs).objs (a.name, key tb) = some (.table (Spec.Table.state d E tb)) := by
        rw [dbOf_objs, (nsGet_some cK).2 ⟨ha, rfl⟩]
        exact obj_table (cW a ha) (get_of_mem (cW a ha).tables htb)
      have f := (vT.fits _ _ hob).cols c.name (Spec.Column.state d c) (by
        have := get_of_mem ((cW a ha).wf tb htb).columns hc
        unfold Spec.Table.state
        simp only
        rw [show tb.columns.get c.name = some c from this]; rfl)
      exact f.1
    · intro m
      have := dbOf_at (d := d) (E := E) (l2 := s.map emptyNs) hn m
      rw [show (a.name, m) = ((emptyNs a).name, m) from rfl, this]
      rfl
  obtain ⟨g2, _, run⟩ := st2
  have v2 := g2 cs [] (by simp)
  have e2 : dbOf d E (cs.map unconstrained ++ (cs.drop cs.length).map emptyNs) = dbOf d E (cs.map unconstrained) := by simp
  rw [e2] at v2 run
  have r3 : Runs E (dbOf d E (cs.map unconstrained)) (cs.flatMap (Namespace.addConstraintsStmt d)) (dbOf d E cs) := by
    have := runs_flatMap (E := E) (Namespace.addConstraintsStmt d)
      (fun p => dbOf d E (p ++ (cs.drop p.length).map unconstrained)) cs ?_ (by simpa using v2)
    · refine runs_cast this ?_ ?_ <;> simp
    · intro p a s hl v
      have ha := mem_of_split hl
      rw [drop_split hl] at v
      simp only [drop_split hl, drop_split' hl]
      have e1 : p ++ (a :: s).map unconstrained = p ++ unconstrained a :: s.map unconstrained := by simp
      have e2 : (p ++ [a]) ++ s.map unconstrained = p ++ a :: s.map unconstrained := by simp
      have hk : (dbOf d E (p ++ (a :: s).map unconstrained)).kinds = (dbOf d E cs).kinds := by
        have := kinds_map (d := d) (E := E) (g := unconstrained) (a := p) (l := a :: s) (b := []) unconstrained_name ?_
        · simpa [hl] using this
        · intro n hn k
          exact obj_unc_kind (cW n (by rw [hl]; simp [List.mem_cons.1 hn])) k
      rw [e1] at v hk ⊢
      rw [e2]
      refine run_addConstraintsNs (cW a ha) (notMem_prefix key cK hl) v ?_
      intro tb htb
      rw [hk]
      have hob : (dbOf d E cs).objs (a.name, key tb) = some (.table (Spec.Table.state d E tb)) := by
        rw [hl, dbOf_at (notMem_prefix key cK hl), obj_table (cW a ha) (get_of_mem (cW a ha).tables htb)]
      exact vT.fits _ _ hob
  exact C14.runs_det run r3

/-- Some of the namespaces of a consistent database, constraints left out, are a consistent database iff they mention
    types of one another only. -/
theorem closed {L l : List Namespace} (hL : (L.map key).Nodup) (w : ∀ n ∈ L, NsWF d n) (v : Valid (dbOf d E L))
    (hs : ∀ x ∈ l, x ∈ L) : Valid (dbOf d E (l.map unconstrained)) ↔
      ∀ a ∈ l, ∀ k, MentionsType a k → ∃ n ∈ l, n.name = k.1 := by
  have gm : ∀ k, nsGet (l.map unconstrained) k = (nsGet l k).map unconstrained := fun k =>
    nsGet_map (g := unconstrained) (fun _ => rfl) k
  constructor
  · intro v' a ha k hk
    obtain ⟨m, hm⟩ := mentions_exist v' (wf_unconstrained (w a (hs a ha))) (x := a.name)
      (by rw [gm, nsGet_mem_sub hL hs ha]; rfl) (.inl (mentionsType_unc.2 hk))
    rw [gm] at hm
    cases hg : nsGet l k.1 with
    | none => rw [hg] at hm; cases hm
    | some n => exact ⟨n, ODict.get_some_mem (d := ⟨l⟩) hg⟩
  · intro h
    apply valid_pieces
    intro k n hn
    rw [gm] at hn
    cases hg : nsGet l k with
    | none => rw [hg] at hn; cases hn
    | some n0 =>
      rw [hg] at hn
      cases hn
      refine ⟨L, n0, nsGet_sub hL hs hg, v, .inr ⟨rfl, ?_⟩⟩
      intro r hr
      have hx := ODict.get_some_mem (d := ⟨l⟩) hg
      obtain ⟨m, hm, e⟩ := h n0 hx.1 r hr
      have h1 := nsGet_mem_sub hL hs hm
      have h2 := nsGet_sub hL hs h1
      rw [e] at h1 h2
      rw [kinds_get (n := unconstrained m) (by rw [gm, h1]; rfl), kinds_get h2]
      exact obj_unc_kind (w m (hs m hm)) _

end Xct

end PySqlSync
