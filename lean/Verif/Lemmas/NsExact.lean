/-
Helper lemmas: what it implies for two versions of a namespace that the script between them was accepted and did what it
should.
-/
import Verif.Lemmas.Frame
import Verif.Lemmas.CatMutate
import Verif.Props.C03
import Verif.Props.C06Exact
import Verif.Lemmas.RemarksCat

set_option autoImplicit false

namespace PySqlSync
open Spec

namespace Xct
open Frm

variable {d : Dialect} {E : Engine} {db db' : Db} {N : Text} {S T : Namespace}

theorem takes_addr {s : Stmt} {k : Key} (h : Takes s k) : Addresses s k := by
  cases s <;> first | exact h | exact Or.inl h | exact absurd h id

theorem makes_addr {s : Stmt} {k : Key} (h : Makes s k) : Addresses s k := by
  cases s <;> first | exact h | exact Or.inr h | exact absurd h id

theorem renames_takes {s : Stmt} {k : Key} (h : Renames s k) : Takes s k := by
  cases s <;> first | exact h | exact absurd h id

/-- A statement that addresses at most the object with that name, and does not free the name. -/
def Tame (s : Stmt) (k : Key) : Prop := (∀ x, Addresses s x → x = k) ∧ ∀ x, ¬ Takes s x
/-- A statement that addresses at most the object with that name, and does not create it. -/
def Lame (s : Stmt) (k : Key) : Prop := (∀ x, Addresses s x → x = k) ∧ (∀ x, ¬ Makes s x) ∧ ∀ x, ¬ Renames s x

theorem quiet_tame {s : Stmt} (h : ∀ x, ¬ Addresses s x) (k : Key) : Tame s k ∧ Lame s k :=
  ⟨⟨fun x hx => absurd hx (h x), fun x hx => h x (takes_addr hx)⟩,
    fun x hx => absurd hx (h x), fun x hx => h x (makes_addr hx), fun x hx => h x (takes_addr (renames_takes hx))⟩

theorem tame_createEnum {q : QId} {l : List Text} : Tame (.createEnum q l) q.key := ⟨fun _ h => h.symm, fun _ h => h⟩
theorem tame_createStruct {q : QId} {l : List (Text × SqlType)} : Tame (.createStruct q l) q.key := ⟨fun _ h => h.symm, fun _ h => h⟩
theorem tame_createTable {q : QId} {c : List (Text × ColSpec)} {n : Text} {p : List Text} {m : Option Text} :
    Tame (.createTable q c n p m) q.key := ⟨fun _ h => h.symm, fun _ h => h⟩
theorem tame_alterTable {q : QId} {l : List Action} : Tame (.alterTable q l) q.key ∧ Lame (.alterTable q l) q.key :=
  ⟨⟨fun _ h => h.symm, fun _ h => h⟩, fun _ h => h.symm, fun _ h => h, fun _ h => h⟩
theorem tame_addValue {q : QId} {l : Text} : Tame (.addValue q l) q.key ∧ Lame (.addValue q l) q.key :=
  ⟨⟨fun _ h => h.symm, fun _ h => h⟩, fun _ h => h.symm, fun _ h => h, fun _ h => h⟩
theorem tame_alterStruct {q : QId} {l : List AttrAction} : Tame (.alterStruct q l) q.key ∧ Lame (.alterStruct q l) q.key :=
  ⟨⟨fun _ h => h.symm, fun _ h => h⟩, fun _ h => h.symm, fun _ h => h, fun _ h => h⟩
theorem lame_dropType {q : QId} : Lame (.dropType q) q.key := ⟨fun _ h => h.symm, fun _ h => h, fun _ h => h⟩
theorem lame_dropTable {q : QId} : Lame (.dropTable q) q.key := ⟨fun _ h => h.symm, fun _ h => h, fun _ h => h⟩

theorem tame_no_rename {s : Stmt} {k : Key} (h : Tame s k) (x : Key) : ¬ Renames s x := fun hx => h.2 x (renames_takes hx)

/-! ### The parts of the script -/

def a1 (S T : Namespace) : List Stmt := (T.enums.difference S.enums).flatMap EnumType.createStmt
def a2 (d : Dialect) (S T : Namespace) : List Stmt := (T.structs.difference S.structs).flatMap (StructType.createStmt d)
def a3 (S T : Namespace) : List Stmt := (softPairs S T).flatMap (fun p => p.1.softDropStmt)
def a5 (d : Dialect) (S T : Namespace) : List Stmt := (T.tables.difference S.tables).flatMap (Table.addConstraintsStmt d)
def a6 (d : Dialect) (S T : Namespace) : List Stmt := (softPairs S T).flatMap (fun p => migrateEnum d p.1 p.2)
def a10 (S T : Namespace) : List Stmt := (S.tables.difference T.tables).flatMap Table.dropStmt
def a11 (S T : Namespace) : List Stmt := (S.structs.difference T.structs).flatMap StructType.dropStmt
def a12 (S T : Namespace) : List Stmt := (S.enums.difference T.enums).flatMap (fun e =>
  if ((softPairs S T).map Prod.fst).contains e then e.hardDropStmt else e.dropStmt)

theorem m1 {s : Stmt} (h : s ∈ a1 S T) : ∃ e ∈ T.enums.difference S.enums, Tame s e.name.key := by
  obtain ⟨e, he, h⟩ := List.mem_flatMap.1 h
  rw [List.mem_singleton.1 (show s ∈ [_] from h)]
  exact ⟨e, he, tame_createEnum⟩

theorem structCreate_tame {e : StructType} {s : Stmt} (h : s ∈ e.createStmt d) : Tame s e.name.key := by
  rcases structCreate_mem h with ⟨_, rfl⟩ | ⟨_, rfl⟩ | ⟨_, _, rfl⟩
  · exact tame_createStruct
  · exact (quiet_tame (by intro _ h; exact h) _).1
  · exact (quiet_tame (by intro _ h; exact h) _).1

theorem m2 {s : Stmt} (h : s ∈ a2 d S T) : ∃ e ∈ T.structs.difference S.structs, Tame s e.name.key := by
  obtain ⟨e, he, h⟩ := List.mem_flatMap.1 h
  exact ⟨e, he, structCreate_tame h⟩

theorem m3 {s : Stmt} (h : s ∈ a3 S T) : ∃ p ∈ softPairs S T, s = .renameType p.1.name (deletedName p.1.name.localId) := by
  obtain ⟨e, he, h⟩ := List.mem_flatMap.1 h
  exact ⟨e, he, List.mem_singleton.1 (show s ∈ [_] from h)⟩

theorem tableCreate_tame {tb : Table} {l : List Stmt} (hl : tb.createStmt d = .ok l) {s : Stmt} (h : s ∈ l) : Tame s tb.name.key := by
  rcases table_create_mem hl h with ⟨_, _, _, _, rfl⟩ | ⟨_, rfl⟩ | ⟨_, _, rfl⟩ | ⟨_, _, rfl⟩
  · exact tame_createTable
  · exact (quiet_tame (by intro _ h; exact h) _).1
  · exact (quiet_tame (by intro _ h; exact h) _).1
  · exact (quiet_tame (by intro _ h; exact h) _).1

theorem m4 {r : List (List Stmt)} (hr : (T.tables.difference S.tables).mapM (fun tb => tb.createStmt d) = .ok r) {s : Stmt}
    (h : s ∈ r.flatten) : ∃ e ∈ T.tables.difference S.tables, Tame s e.name.key := by
  obtain ⟨tb, htb, l, hl, hs⟩ := mem_of_mapM hr h
  exact ⟨tb, htb, tableCreate_tame hl hs⟩

theorem m5 {s : Stmt} (h : s ∈ a5 d S T) : ∃ e ∈ T.tables.difference S.tables, Tame s e.name.key ∧ Lame s e.name.key := by
  obtain ⟨e, he, h⟩ := List.mem_flatMap.1 h
  obtain ⟨l, rfl, _⟩ := addConstraints_mem h
  exact ⟨e, he, tame_alterTable⟩

theorem m6 {s : Stmt} (h : s ∈ a6 d S T) (x : Key) : ¬ Addresses s x := by
  obtain ⟨e, he, h⟩ := List.mem_flatMap.1 h
  rw [List.mem_singleton.1 (show s ∈ [_] from h)]
  exact id

theorem m7 {em : List (List Stmt)} (hr : (S.enums.intersection T.enums).mapM (fun p => mutateEnum p.1 p.2) = .ok em) {s : Stmt}
    (h : s ∈ em.flatten) : ∃ p ∈ S.enums.intersection T.enums, Tame s p.1.name.key ∧ Lame s p.1.name.key := by
  obtain ⟨p, hp, l, hl, hs⟩ := mem_of_mapM hr h
  obtain ⟨v, rfl⟩ := mutateEnum_mem hl hs
  exact ⟨p, hp, tame_addValue⟩

theorem m8 {em : List (List Stmt)} (hr : (S.structs.intersection T.structs).mapM (fun p => mutateStruct d p.1 p.2) = .ok em)
    {s : Stmt} (h : s ∈ em.flatten) : ∃ p ∈ S.structs.intersection T.structs, Tame s p.1.name.key ∧ Lame s p.1.name.key := by
  obtain ⟨p, hp, l, hl, hs⟩ := mem_of_mapM hr h
  rcases mutateStruct_mem hl hs with ⟨v, rfl⟩ | ⟨v, rfl⟩
  · exact ⟨p, hp, tame_alterStruct⟩
  · exact ⟨p, hp, quiet_tame (by intro _ h; exact h) _⟩

theorem mutateTable_tame {a b : Table} {l : List Stmt} (hl : mutateTable d a b = .ok l) {s : Stmt} (h : s ∈ l) :
    Tame s a.name.key ∧ Lame s a.name.key := by
  cases tabOrigin hl h with
  | defaults h => obtain ⟨_, rfl, _⟩ := mem_alterStmt h; exact tame_alterTable
  | rename p _ r _ h => obtain ⟨_, rfl, _⟩ := mem_alterStmt h; exact tame_alterTable
  | add acts _ h => obtain ⟨_, rfl, _⟩ := mem_alterStmt h; exact tame_alterTable
  | migrate p _ l hl h =>
    obtain ⟨r, _, h⟩ := migrateColumn_mem hl h
    rcases h with ⟨_, _, rfl⟩ | ⟨_, rfl⟩ | ⟨_, _, rfl⟩ <;> exact quiet_tame (by intro _ h; exact h) _
  | alter acts _ h => obtain ⟨_, rfl, _⟩ := mem_alterStmt h; exact tame_alterTable
  | comment h => rcases h with ⟨_, rfl⟩ | ⟨_, _, rfl⟩ <;> exact quiet_tame (by intro _ h; exact h) _

theorem m9 {em : List (List Stmt)} (hr : (S.tables.intersection T.tables).mapM (fun p => mutateTable d p.1 p.2) = .ok em)
    {s : Stmt} (h : s ∈ em.flatten) : ∃ p ∈ S.tables.intersection T.tables, Tame s p.1.name.key ∧ Lame s p.1.name.key := by
  obtain ⟨p, hp, l, hl, hs⟩ := mem_of_mapM hr h
  exact ⟨p, hp, mutateTable_tame hl hs⟩

theorem m10 {s : Stmt} (h : s ∈ a10 S T) : ∃ e ∈ S.tables.difference T.tables, s = .dropTable e.name := by
  obtain ⟨e, he, h⟩ := List.mem_flatMap.1 h
  exact ⟨e, he, List.mem_singleton.1 (show s ∈ [_] from h)⟩

theorem m11 {s : Stmt} (h : s ∈ a11 S T) : ∃ e ∈ S.structs.difference T.structs, s = .dropType e.name := by
  obtain ⟨e, he, h⟩ := List.mem_flatMap.1 h
  exact ⟨e, he, List.mem_singleton.1 (show s ∈ [_] from h)⟩

theorem m12 {s : Stmt} (h : s ∈ a12 S T) : ∃ e ∈ S.enums.difference T.enums, s = .dropType e.name ∨
    (s = .dropType (e.name.rename (deletedName e.name.localId)) ∧ ∃ tb, (e, tb) ∈ softPairs S T) := by
  obtain ⟨e, he, h⟩ := List.mem_flatMap.1 h
  split at h
  · rename_i hc
    refine ⟨e, he, .inr ⟨List.mem_singleton.1 (show s ∈ [_] from h), ?_⟩⟩
    obtain ⟨p, hp, e1⟩ := List.mem_map.1 (List.contains_iff_mem.1 hc)
    subst e1
    exact ⟨p.2, hp⟩
  · exact ⟨e, he, .inl (List.mem_singleton.1 (show s ∈ [_] from h))⟩

/-- A script between two versions of a namespace that was accepted and did what it should to the namespace. -/
structure NsRun (d : Dialect) (E : Engine) (db db' : Db) (N : Text) (S T : Namespace) (r em sm tm : List (List Stmt)) : Prop where
  run : Runs E db (a1 S T ++ (a2 d S T ++ (a3 S T ++ (r.flatten ++ (a5 d S T ++ (a6 d S T ++ (em.flatten ++ (sm.flatten
    ++ (tm.flatten ++ (a10 S T ++ (a11 S T ++ a12 S T))))))))))) db'
  hr : (T.tables.difference S.tables).mapM (fun tb => tb.createStmt d) = .ok r
  hem : (S.enums.intersection T.enums).mapM (fun p => mutateEnum p.1 p.2) = .ok em
  hsm : (S.structs.intersection T.structs).mapM (fun p => mutateStruct d p.1 p.2) = .ok sm
  htm : (S.tables.intersection T.tables).mapM (fun p => mutateTable d p.1 p.2) = .ok tm
  v : Valid db
  hS : ∀ n, db.objs (N, n) = Spec.Namespace.obj d E S n
  hT : ∀ n, db'.objs (N, n) = Spec.Namespace.obj d E T n
  nameS : S.name = N
  nameT : T.name = N
  wfS : NsWF d S
  wfT : NsWF d T

theorem nsRun {l : List Stmt} (h : mutateNamespace d {} S T = .ok l) (run : Runs E db l db') (v : Valid db)
    (hS : ∀ n, db.objs (N, n) = Spec.Namespace.obj d E S n) (hT : ∀ n, db'.objs (N, n) = Spec.Namespace.obj d E T n)
    (nameS : S.name = N) (nameT : T.name = N) (wfS : NsWF d S) (wfT : NsWF d T) : ∃ r em sm tm, NsRun d E db db' N S T r em sm tm := by
  obtain ⟨r, em, sm, tm, hr, hem, hsm, htm, rfl⟩ := Rem.mutateNamespace_inv h
  refine ⟨r, em, sm, tm, ?_, hr, hem, hsm, htm, v, hS, hT, nameS, nameT, wfS, wfT⟩
  simp only [List.append_assoc, if_true] at run
  exact run

section
variable {r em sm tm : List (List Stmt)} (R : NsRun d E db db' N S T r em sm tm)
include R

theorem NsRun.keyS {e : EnumType} (he : e ∈ S.enums.items) : e.name.key = (N, e.name.localId) :=
  Prod.ext ((R.wfS.enumScope e he).trans R.nameS) rfl
theorem NsRun.keyT {e : EnumType} (he : e ∈ T.enums.items) : e.name.key = (N, e.name.localId) :=
  Prod.ext ((R.wfT.enumScope e he).trans R.nameT) rfl
theorem NsRun.skeyS {e : StructType} (he : e ∈ S.structs.items) : e.name.key = (N, e.name.localId) :=
  Prod.ext ((R.wfS.structScope e he).trans R.nameS) rfl
theorem NsRun.skeyT {e : StructType} (he : e ∈ T.structs.items) : e.name.key = (N, e.name.localId) :=
  Prod.ext ((R.wfT.structScope e he).trans R.nameT) rfl
theorem NsRun.tkeyS {e : Table} (he : e ∈ S.tables.items) : e.name.key = (N, e.name.localId) :=
  Prod.ext ((R.wfS.tableScope e he).trans R.nameS) rfl
theorem NsRun.tkeyT {e : Table} (he : e ∈ T.tables.items) : e.name.key = (N, e.name.localId) :=
  Prod.ext ((R.wfT.tableScope e he).trans R.nameT) rfl

theorem NsRun.enumS {e : EnumType} (he : e ∈ S.enums.items) : db.objs e.name.key = some (EnumType.obj e) := by
  rw [R.keyS he, R.hS]
  exact obj_enum (get_of_mem R.wfS.enums he)
theorem NsRun.structS {e : StructType} (he : e ∈ S.structs.items) : db.objs e.name.key = some (StructType.obj e) := by
  rw [R.skeyS he, R.hS]
  exact obj_struct R.wfS (get_of_mem R.wfS.structs he)
theorem NsRun.tableS {e : Table} (he : e ∈ S.tables.items) : db.objs e.name.key = some (.table (Spec.Table.state d E e)) := by
  rw [R.tkeyS he, R.hS]
  exact obj_table R.wfS (get_of_mem R.wfS.tables he)

/-- New enumerations do not clash. -/
theorem NsRun.enumFree {e : EnumType} (he : e ∈ T.enums.difference S.enums) : db.objs e.name.key = none := by
  cases ho : db.objs e.name.key with
  | none => rfl
  | some o =>
    exfalso
    obtain ⟨p, s, hl⟩ := List.append_of_mem he
    have run := R.run
    rw [show a1 S T = p.flatMap EnumType.createStmt ++ ([.createEnum e.name e.values] ++ s.flatMap EnumType.createStmt) by
      unfold a1; rw [hl]; simp [EnumType.createStmt]] at run
    simp only [List.append_assoc, List.singleton_append] at run
    refine clash run R.v (show Creates _ e.name.key from rfl) (by rw [ho]; rfl) ?_
    intro st hst
    obtain ⟨e', _, ht⟩ := m1 (S := S) (T := T) (s := st) (by unfold a1; rw [hl, List.flatMap_append]; exact List.mem_append_left _ hst)
    exact ht.2 _

theorem NsRun.structFree {e : StructType} (he : e ∈ T.structs.difference S.structs) : db.objs e.name.key = none := by
  cases ho : db.objs e.name.key with
  | none => rfl
  | some o =>
    exfalso
    obtain ⟨p, s, hl⟩ := List.append_of_mem he
    have run := R.run
    obtain ⟨a, rest, he⟩ : ∃ a rest, e.createStmt d = .createStruct e.name a :: rest := ⟨_, _, rfl⟩
    rw [show a2 d S T = p.flatMap (StructType.createStmt d) ++ (.createStruct e.name a :: (rest ++ s.flatMap (StructType.createStmt d))) by
      unfold a2; rw [hl, List.flatMap_append, List.flatMap_cons, he]; rfl] at run
    rw [List.append_assoc, ← List.append_assoc, List.cons_append] at run
    refine clash run R.v (show Creates _ e.name.key from rfl) (by rw [ho]; rfl) ?_
    intro st hst
    rcases List.mem_append.1 hst with hst | hst
    · obtain ⟨e', _, ht⟩ := m1 hst; exact ht.2 _
    · obtain ⟨e', _, ht⟩ := m2 (d := d) (S := S) (T := T) (s := st) (by unfold a2; rw [hl, List.flatMap_append]; exact List.mem_append_left _ hst)
      exact ht.2 _

/-- A new table takes a name that is free, or that of an enumeration it replaces. -/
theorem NsRun.tableFree {e : Table} (he : e ∈ T.tables.difference S.tables) :
    db.objs e.name.key = none ∨ ∃ p ∈ softPairs S T, p.1.name.key = e.name.key := by
  cases ho : db.objs e.name.key with
  | none => exact .inl rfl
  | some o =>
    refine .inr (Classical.byContradiction fun hno => ?_)
    obtain ⟨p, s, hl⟩ := List.append_of_mem he
    have hr := R.hr
    rw [hl] at hr
    obtain ⟨rp, y, rq, h1, h2, _, rfl⟩ := mapM_split hr
    obtain ⟨c, n, k, m, rest, hy⟩ : ∃ c n k m rest, y = .createTable e.name c n k m :: rest := by
      unfold Table.createStmt at h2
      simp only [bind, Except.bind] at h2
      split at h2
      · cases h2
      · simp only [pure, Except.pure, Except.ok.injEq] at h2
        exact ⟨_, _, _, _, _, h2.symm⟩
    have run := R.run
    subst hy
    rw [List.flatten_append, List.flatten_cons] at run
    have e1 : ∀ X, a1 S T ++ (a2 d S T ++ (a3 S T ++ ((rp.flatten ++ ((.createTable e.name c n k m :: rest) ++ rq.flatten)) ++ X)))
        = (a1 S T ++ (a2 d S T ++ (a3 S T ++ rp.flatten))) ++ .createTable e.name c n k m :: (rest ++ (rq.flatten ++ X)) := by
      intro X; simp
    rw [e1] at run
    refine clash run R.v (show Creates _ e.name.key from rfl) (by rw [ho]; rfl) ?_
    intro st hst
    rcases List.mem_append.1 hst with hst | hst
    · obtain ⟨e', _, ht⟩ := m1 hst; exact ht.2 _
    rcases List.mem_append.1 hst with hst | hst
    · obtain ⟨e', _, ht⟩ := m2 hst; exact ht.2 _
    rcases List.mem_append.1 hst with hst | hst
    · obtain ⟨q, hq, rfl⟩ := m3 hst
      exact fun ht => hno ⟨q, hq, ht⟩
    · obtain ⟨e', _, ht⟩ := m4 R.hr (s := st) (by rw [List.flatten_append]; exact List.mem_append_left _ hst)
      exact ht.2 _

theorem NsRun.enumKind {e : EnumType} (he : e ∈ T.enums.items) : (∀ s ∈ S.structs.items, e.name.localId ≠ s.name.localId)
    ∧ (∀ tb ∈ S.tables.items, e.name.localId ≠ tb.name.localId) := by
  constructor
  · intro s hs hl
    have hd : e ∈ T.enums.difference S.enums := ODict.mem_difference.2 ⟨he, fun hm => by
      obtain ⟨e', he', hk⟩ := List.mem_map.1 hm
      exact R.wfS.enumStruct e' he' s hs (show key e' = _ from hk.trans hl)⟩
    have := R.enumFree hd
    rw [R.keyT he, hl, ← R.skeyS hs, R.structS hs] at this
    cases this
  · intro s hs hl
    have hd : e ∈ T.enums.difference S.enums := ODict.mem_difference.2 ⟨he, fun hm => by
      obtain ⟨e', he', hk⟩ := List.mem_map.1 hm
      exact R.wfS.enumTable e' he' s hs (show key e' = _ from hk.trans hl)⟩
    have := R.enumFree hd
    rw [R.keyT he, hl, ← R.tkeyS hs, R.tableS hs] at this
    cases this

theorem NsRun.structKind {e : StructType} (he : e ∈ T.structs.items) : (∀ s ∈ S.enums.items, e.name.localId ≠ s.name.localId)
    ∧ (∀ tb ∈ S.tables.items, e.name.localId ≠ tb.name.localId) := by
  constructor
  · intro s hs hl
    have hd : e ∈ T.structs.difference S.structs := ODict.mem_difference.2 ⟨he, fun hm => by
      obtain ⟨e', he', hk⟩ := List.mem_map.1 hm
      exact R.wfS.enumStruct s hs e' he' (show _ = key e' from (hk.trans hl).symm)⟩
    have := R.structFree hd
    rw [R.skeyT he, hl, ← R.keyS hs, R.enumS hs] at this
    cases this
  · intro s hs hl
    have hd : e ∈ T.structs.difference S.structs := ODict.mem_difference.2 ⟨he, fun hm => by
      obtain ⟨e', he', hk⟩ := List.mem_map.1 hm
      exact R.wfS.structTable e' he' s hs (show key e' = _ from hk.trans hl)⟩
    have := R.structFree hd
    rw [R.skeyT he, hl, ← R.tkeyS hs, R.tableS hs] at this
    cases this

theorem NsRun.tableKind {e : Table} (he : e ∈ T.tables.items) {s : StructType} (hs : s ∈ S.structs.items) :
    e.name.localId ≠ s.name.localId := by
  intro hl
  have hd : e ∈ T.tables.difference S.tables := ODict.mem_difference.2 ⟨he, fun hm => by
    obtain ⟨e', he', hk⟩ := List.mem_map.1 hm
    exact R.wfS.structTable s hs e' he' (show _ = key e' from (hk.trans hl).symm)⟩
  rcases R.tableFree hd with h | ⟨p, hp, h⟩
  · rw [R.tkeyT he, hl, ← R.skeyS hs, R.structS hs] at h
    cases h
  · have hp1 := (ODict.mem_difference.1 (mem_softPairs.1 (show (p.1, p.2) ∈ _ from hp)).1).1
    exact R.wfS.enumStruct p.1 hp1 s hs ((congrArg Prod.snd h).trans hl)

theorem NsRun.sameName {tb : Table} (ht : tb ∈ T.tables.items) {e : EnumType} (he : e ∈ S.enums.items)
    (hl : e.name.localId = tb.name.localId) : (e, tb) ∈ softPairs S T ∧ e.name = tb.name := by
  have hd : tb ∈ T.tables.difference S.tables := ODict.mem_difference.2 ⟨ht, fun hm => by
    obtain ⟨e', he', hk⟩ := List.mem_map.1 hm
    exact R.wfS.enumTable e he e' he' (show _ = key e' from (hk.trans hl.symm).symm)⟩
  rcases R.tableFree hd with h | ⟨p, hp, h⟩
  · rw [R.tkeyT ht, ← hl, ← R.keyS he, R.enumS he] at h
    cases h
  · obtain ⟨h1, h2, h3⟩ := mem_softPairs.1 (show (p.1, p.2) ∈ _ from hp)
    have e1 : p.1 = e := eq_of_key R.wfS.enums (ODict.mem_difference.1 h1).1 he ((congrArg Prod.snd h).trans hl.symm)
    have e2 : p.2 = tb := eq_of_key R.wfT.tables (ODict.mem_difference.1 h2).1 ht (by
      show p.2.name.localId = _
      rw [← h3]
      exact congrArg Prod.snd h)
    rw [e1, e2] at h3
    exact ⟨by rw [← e1, ← e2]; exact hp, h3⟩

/-- What the statements of the script address. -/
theorem NsRun.inside {s : Stmt} (hs : s ∈ a1 S T ++ (a2 d S T ++ (a3 S T ++ (r.flatten ++ (a5 d S T ++ (a6 d S T ++ (em.flatten
    ++ (sm.flatten ++ (tm.flatten ++ (a10 S T ++ (a11 S T ++ a12 S T))))))))))) {k : Key} (hk : Addresses s k) : k.1 = N := by
  simp only [List.mem_append] at hs
  rcases hs with h | h | h | h | h | h | h | h | h | h | h | h
  · obtain ⟨e, he, ht⟩ := m1 h
    rw [ht.1 k hk, R.keyT (mem_diff he).1]
  · obtain ⟨e, he, ht⟩ := m2 h
    rw [ht.1 k hk, R.skeyT (mem_diff he).1]
  · obtain ⟨p, hp, rfl⟩ := m3 h
    have := R.keyS (mem_diff (mem_softPairs.1 (show (p.1, p.2) ∈ _ from hp)).1).1
    rcases hk with hk | hk <;> rw [← hk, this]
  · obtain ⟨e, he, ht⟩ := m4 R.hr h
    rw [ht.1 k hk, R.tkeyT (mem_diff he).1]
  · obtain ⟨e, he, ht⟩ := m5 h
    rw [ht.1.1 k hk, R.tkeyT (mem_diff he).1]
  · exact absurd hk (m6 h k)
  · obtain ⟨p, hp, ht⟩ := m7 R.hem h
    rw [ht.1.1 k hk, R.keyS (mem_inter (x := p.1) (y := p.2) hp).1]
  · obtain ⟨p, hp, ht⟩ := m8 R.hsm h
    rw [ht.1.1 k hk, R.skeyS (mem_inter (x := p.1) (y := p.2) hp).1]
  · obtain ⟨p, hp, ht⟩ := m9 R.htm h
    rw [ht.1.1 k hk, R.tkeyS (mem_inter (x := p.1) (y := p.2) hp).1]
  · obtain ⟨e, he, rfl⟩ := m10 h
    rw [lame_dropTable.1 k hk, R.tkeyS (mem_diff he).1]
  · obtain ⟨e, he, rfl⟩ := m11 h
    rw [lame_dropType.1 k hk, R.skeyS (mem_diff he).1]
  · obtain ⟨e, he, h⟩ := m12 h
    have hkey := R.keyS (mem_diff he).1
    rcases h with rfl | ⟨rfl, _⟩
    · rw [lame_dropType.1 k hk, hkey]
    · rw [lame_dropType.1 k hk]
      have h1 : e.name.key.1 = N := by rw [hkey]
      rw [← h1]
      cases e.name <;> rfl

omit R in
theorem rename_made {a b : Db} {q : QId} {new : Text} (h : step E a (.renameType q new) = some b) :
    (b.objs (q.key.1, new)).isSome := by
  simp only [step] at h
  split at h
  · cases h
  · cases h
  · split at h
    · cases h
    · cases h
      show (Option.map _ (upd (upd a.objs q.key none) (q.key.1, new) _ (q.key.1, new))).isSome
      rw [Option.isSome_map]
      simp [upd]

omit R in
theorem reserved {ns z rest : Text} (h : t "pysqlsync$" ++ z = ns ++ (t "__" ++ rest)) : ∃ w, ns = t "pysqlsync$" ++ w := by
  rcases List.append_eq_append_iff.1 h with ⟨w, h1, _⟩ | ⟨c, h1, h2⟩
  · exact ⟨w, h1⟩
  · cases c with
    | nil => exact ⟨[], by rw [h1]; simp⟩
    | cons x c =>
      exfalso
      have hx : x = '_' := by
        have e : t "__" ++ rest = '_' :: ('_' :: rest) := rfl
        rw [e, List.cons_append] at h2
        exact (List.cons.inj h2).1.symm
      have hm : '_' ∈ t "pysqlsync$" := by rw [h1, hx]; simp
      revert hm
      decide +kernel

/-- An enumeration that is replaced by a table does not have a name with a namespace prefix. -/
theorem NsRun.law {e : EnumType} {tb : Table} (hp : (e, tb) ∈ softPairs S T) (x : Text) :
    (e.name.rename x).key = (e.name.key.1, x) := by
  have gen : ∀ q : QId, (∃ ns id, q = .prefixed (some ns) id) ∨ (q.rename x).key = (q.key.1, x) := by
    intro q
    cases q with
    | qualified ns id => exact .inr rfl
    | global id => exact .inr rfl
    | «prefixed» ns id =>
      cases ns with
      | none => exact .inr rfl
      | some ns => exact .inl ⟨ns, id, rfl⟩
  rcases gen e.name with ⟨ns, id, hname⟩ | h
  · exfalso
    have he := (mem_diff (mem_softPairs.1 hp).1).1
    obtain ⟨p, s, hl⟩ := List.append_of_mem hp
    have run := R.run
    have ea : a3 S T = p.flatMap (fun p => p.1.softDropStmt) ++ .renameType e.name (deletedName e.name.localId)
        :: s.flatMap (fun p => p.1.softDropStmt) := by
      unfold a3
      rw [hl, List.flatMap_append, List.flatMap_cons]; rfl
    rw [ea] at run
    have e1 : ∀ P M Q X, a1 S T ++ (a2 d S T ++ ((P ++ M :: Q) ++ X)) = (a1 S T ++ (a2 d S T ++ P)) ++ M :: (Q ++ X) := by
      intro P M Q X; simp
    rw [e1] at run
    obtain ⟨a, b, _, _, h2, _, h3⟩ := split1 run R.v
    have hb := rename_made h2
    rw [R.keyS he] at hb
    have hend : db'.objs (N, deletedName e.name.localId) = none := by rw [R.hT]; exact obj_deleted R.wfT _
    have : (db'.objs (N, deletedName e.name.localId)).isSome := by
      refine present_run h3 ?_ hb
      intro st hst htk
      have other : ∀ {k : Key}, Tame st k → False := fun ht => ht.2 _ htk
      simp only [List.mem_append] at hst
      rcases hst with h | h | h | h | h | h | h | h | h | h
      · obtain ⟨q, hq, rfl⟩ := m3 (S := S) (T := T) (s := st) (by rw [ea]; exact List.mem_append_right _ (List.mem_cons_of_mem _ h))
        have hq1 := (mem_diff (mem_softPairs.1 (show (q.1, q.2) ∈ _ from hq)).1).1
        exact R.wfS.enumNames q.1 hq1 _ (congrArg Prod.snd htk)
      · obtain ⟨_, _, ht⟩ := m4 R.hr h; exact other ht
      · obtain ⟨_, _, ht⟩ := m5 h; exact other ht.1
      · exact m6 h _ (takes_addr htk)
      · obtain ⟨_, _, ht⟩ := m7 R.hem h; exact other ht.1
      · obtain ⟨_, _, ht⟩ := m8 R.hsm h; exact other ht.1
      · obtain ⟨_, _, ht⟩ := m9 R.htm h; exact other ht.1
      · obtain ⟨q, hq, rfl⟩ := m10 h
        exact R.wfS.tableNames q (mem_diff hq).1 _ (congrArg Prod.snd htk)
      · obtain ⟨q, hq, rfl⟩ := m11 h
        exact R.wfS.structNames q (mem_diff hq).1 _ (congrArg Prod.snd htk)
      · obtain ⟨q, hq, h⟩ := m12 h
        rcases h with rfl | ⟨rfl, _⟩
        · exact R.wfS.enumNames q (mem_diff hq).1 _ (congrArg Prod.snd htk)
        · have hk : (q.name.rename (deletedName q.name.localId)).localId = deletedName e.name.localId := congrArg Prod.snd htk
          have hne : ∀ hh : q.name.localId = e.name.localId, q = e :=
            fun hh => eq_of_key R.wfS.enums (mem_diff hq).1 he hh
          have plain : (q.name.rename (deletedName q.name.localId)).localId = deletedName q.name.localId →
              q.name ≠ .prefixed (some ns) id → False := by
            intro h1 h2
            rw [h1] at hk
            have := hne (List.append_cancel_left hk)
            rw [this] at h2
            exact h2 hname
          cases hqn : q.name with
          | qualified ns' id' => exact plain (by rw [hqn]; rfl) (by rw [hqn]; intro e; cases e)
          | global id' => exact plain (by rw [hqn]; rfl) (by rw [hqn]; intro e; cases e)
          | «prefixed» ns' id' =>
            cases ns' with
            | none => exact plain (by rw [hqn]; rfl) (by rw [hqn]; intro e; cases e)
            | some ns' =>
              rw [hqn] at hk
              have hk' : t "pysqlsync$" ++ e.name.localId = ns' ++ (t "__" ++ deletedName (QId.prefixed (some ns') id').localId) := by
                rw [← List.append_assoc]; exact hk.symm
              obtain ⟨w, hw⟩ := reserved hk'
              refine R.wfS.enumNames q (mem_diff hq).1 (w ++ t "__" ++ id') ?_
              rw [hqn]
              show ns' ++ t "__" ++ id' = _
              rw [hw]
              simp only [List.append_assoc]
    rw [hend] at this
    cases this
  · exact h

/-- New composite types are created in order of reference. -/
theorem NsRun.createOrder : StructsInOrder (T.structs.difference S.structs) := by
  intro p a s hl b hb m hm hr
  have hbd : b ∈ T.structs.difference S.structs := by rw [hl]; exact List.mem_append_right _ hb
  have hbT := (mem_diff hbd).1
  have hfree := R.structFree hbd
  have run := R.run
  obtain ⟨rest, he⟩ : ∃ rest, a.createStmt d = .createStruct a.name (a.members.items.map (fun m => (m.name, m.ty))) :: rest :=
    ⟨_, rfl⟩
  have ea : a2 d S T = p.flatMap (StructType.createStmt d) ++ (.createStruct a.name (a.members.items.map (fun m => (m.name, m.ty)))
      :: (rest ++ s.flatMap (StructType.createStmt d))) := by
    unfold a2; rw [hl, List.flatMap_append, List.flatMap_cons, he]; rfl
  rw [ea, List.append_assoc, ← List.append_assoc, List.cons_append] at run
  refine early_struct run R.v (p := (m.name, m.ty)) (List.mem_map_of_mem (f := fun m : StructMember => (m.name, m.ty)) hm) hr hfree ?_
  intro st hst hmk
  rcases List.mem_append.1 hst with hst | hst
  · obtain ⟨e', he', ht⟩ := m1 hst
    exact R.wfT.enumStruct e' (mem_diff he').1 b hbT (congrArg Prod.snd (ht.1 _ (makes_addr hmk))).symm
  · obtain ⟨e', he', hst⟩ := List.mem_flatMap.1 hst
    have hk := (structCreate_tame hst).1 _ (makes_addr hmk)
    have nd : ((T.structs.difference S.structs).map key).Nodup := ODict.difference_nodup R.wfT.structs _
    rw [hl, List.map_append, List.nodup_append] at nd
    exact nd.2.2 _ (List.mem_map_of_mem (f := key) he') _ (List.mem_map_of_mem (f := key) hb) (congrArg Prod.snd hk).symm

omit R in
theorem says_struct {b : StructType} (w : Distinct b.members) {m : StructMember} (hm : m ∈ b.members.items) {k : Key}
    (hk : k ∈ m.ty.refs) : Says (StructType.obj b) k := by
  refine ⟨m.ty, ⟨m.name, ?_⟩, hk⟩
  have := get_of_mem w hm
  show (b.members.get m.name).map StructMember.ty = _
  rw [show b.members.get m.name = some m from this]; rfl

/-- Composite types are dropped in order of reference. -/
theorem NsRun.dropOrder : StructsInDropOrder (S.structs.difference T.structs) := by
  intro p a s hl b hb m hm hr
  have hbd : b ∈ S.structs.difference T.structs := by rw [hl]; exact List.mem_append_right _ (List.mem_cons_of_mem _ hb)
  have had : a ∈ S.structs.difference T.structs := by rw [hl]; simp
  have hbS := (mem_diff hbd).1
  have haS := (mem_diff had).1
  have nd : ((S.structs.difference T.structs).map key).Nodup := ODict.difference_nodup R.wfS.structs _
  rw [hl, List.map_append, List.map_cons, List.nodup_append, List.nodup_cons] at nd
  have hne : b.name.key ≠ a.name.key := fun e => nd.2.1.1 (by
    rw [show key a = key b from (congrArg Prod.snd e).symm]; exact List.mem_map_of_mem hb)
  have run := R.run
  have ea : a11 S T = p.flatMap StructType.dropStmt ++ .dropType a.name :: s.flatMap StructType.dropStmt := by
    unfold a11
    rw [hl, List.flatMap_append, List.flatMap_cons]; rfl
  rw [ea] at run
  have e1 : ∀ A B C D F G H I J K P M Q X, A ++ (B ++ (C ++ (D ++ (F ++ (G ++ (H ++ (I ++ (J ++ (K ++ ((P ++ M :: Q) ++ X))))))))))
      = (A ++ (B ++ (C ++ (D ++ (F ++ (G ++ (H ++ (I ++ (J ++ (K ++ P)))))))))) ++ (M :: (Q ++ X) : List Stmt) := by
    intros; simp
  rw [e1] at run
  have hall : ∀ st ∈ a1 S T ++ (a2 d S T ++ (a3 S T ++ (r.flatten ++ (a5 d S T ++ (a6 d S T ++ (em.flatten ++ (sm.flatten
    ++ (tm.flatten ++ (a10 S T ++ p.flatMap StructType.dropStmt))))))))), ¬ Addresses st b.name.key ∧ ¬ Renames st a.name.key := by
    intro st hst
    simp only [List.mem_append] at hst
    rcases hst with h | h | h | h | h | h | h | h | h | h | h
    · obtain ⟨e, he, ht⟩ := m1 h
      exact ⟨fun hk => (R.enumKind (mem_diff he).1).1 b hbS (congrArg Prod.snd (ht.1 _ hk)).symm, tame_no_rename ht _⟩
    · obtain ⟨e, he, ht⟩ := m2 h
      exact ⟨fun hk => (mem_diff he).2 b hbS (congrArg Prod.snd (ht.1 _ hk)).symm, tame_no_rename ht _⟩
    · obtain ⟨q, hq, rfl⟩ := m3 h
      have hq1 := (mem_diff (mem_softPairs.1 (show (q.1, q.2) ∈ _ from hq)).1).1
      refine ⟨fun hk => ?_, fun hk => R.wfS.enumStruct q.1 hq1 a haS (congrArg Prod.snd hk)⟩
      rcases hk with hk | hk
      · exact R.wfS.enumStruct q.1 hq1 b hbS (congrArg Prod.snd hk)
      · exact R.wfS.structNames b hbS _ (congrArg Prod.snd hk).symm
    · obtain ⟨e, he, ht⟩ := m4 R.hr h
      exact ⟨fun hk => R.tableKind (mem_diff he).1 hbS (congrArg Prod.snd (ht.1 _ hk)).symm, tame_no_rename ht _⟩
    · obtain ⟨e, he, ht⟩ := m5 h
      exact ⟨fun hk => R.tableKind (mem_diff he).1 hbS (congrArg Prod.snd (ht.1.1 _ hk)).symm, tame_no_rename ht.1 _⟩
    · exact ⟨m6 h _, fun hk => m6 h _ (takes_addr (renames_takes hk))⟩
    · obtain ⟨q, hq, ht⟩ := m7 R.hem h
      exact ⟨fun hk => R.wfS.enumStruct q.1 (mem_inter (x := q.1) (y := q.2) hq).1 b hbS (congrArg Prod.snd (ht.1.1 _ hk)).symm, tame_no_rename ht.1 _⟩
    · obtain ⟨q, hq, ht⟩ := m8 R.hsm h
      have hi := mem_inter (x := q.1) (y := q.2) hq
      refine ⟨fun hk => (mem_diff hbd).2 q.2 hi.2.1 ?_, tame_no_rename ht.1 _⟩
      exact (congrArg Prod.snd (ht.1.1 _ hk)).trans hi.2.2
    · obtain ⟨q, hq, ht⟩ := m9 R.htm h
      exact ⟨fun hk => R.wfS.structTable b hbS q.1 (mem_inter (x := q.1) (y := q.2) hq).1 (congrArg Prod.snd (ht.1.1 _ hk)), tame_no_rename ht.1 _⟩
    · obtain ⟨q, hq, rfl⟩ := m10 h
      exact ⟨fun hk => R.wfS.structTable b hbS q (mem_diff hq).1 (congrArg Prod.snd (lame_dropTable.1 _ hk)), fun h => h⟩
    · obtain ⟨q, hq, h⟩ := List.mem_flatMap.1 h
      rw [List.mem_singleton.1 (show st ∈ [_] from h)]
      refine ⟨fun hk => nd.2.2 _ (List.mem_map_of_mem (f := key) hq) _ (List.mem_cons_of_mem _ (List.mem_map_of_mem (f := key) hb)) ?_, fun h => h⟩
      exact (congrArg Prod.snd (lame_dropType.1 _ hk)).symm
  exact late run R.v (show Drops (.dropType a.name) a.name.key from rfl) hne
    ⟨_, R.structS hbS, says_struct (R.wfS.members b hbS) hm hr⟩ (fun st h => (hall st h).1) (fun st h => (hall st h).2)

/-- Tables are dropped in order of reference. -/
theorem NsRun.tableOrder : TablesInDropOrder (S.tables.difference T.tables) := by
  intro p a s hl b hb c hc n cols rf hcf hr
  have hbd : b ∈ S.tables.difference T.tables := by rw [hl]; exact List.mem_append_right _ (List.mem_cons_of_mem _ hb)
  have had : a ∈ S.tables.difference T.tables := by rw [hl]; simp
  have hbS := (mem_diff hbd).1
  have haS := (mem_diff had).1
  have nd : ((S.tables.difference T.tables).map key).Nodup := ODict.difference_nodup R.wfS.tables _
  rw [hl, List.map_append, List.map_cons, List.nodup_append, List.nodup_cons] at nd
  have hne : b.name.key ≠ a.name.key := fun e => nd.2.1.1 (by
    rw [show key a = key b from (congrArg Prod.snd e).symm]; exact List.mem_map_of_mem hb)
  have run := R.run
  have ea : a10 S T = p.flatMap Table.dropStmt ++ .dropTable a.name :: s.flatMap Table.dropStmt := by
    unfold a10
    rw [hl, List.flatMap_append, List.flatMap_cons]; rfl
  rw [ea] at run
  have e1 : ∀ A B C D F G H I J P M Q X, A ++ (B ++ (C ++ (D ++ (F ++ (G ++ (H ++ (I ++ (J ++ ((P ++ M :: Q) ++ X)))))))))
      = (A ++ (B ++ (C ++ (D ++ (F ++ (G ++ (H ++ (I ++ (J ++ P))))))))) ++ (M :: (Q ++ X) : List Stmt) := by
    intros; simp
  rw [e1] at run
  have hall : ∀ st ∈ a1 S T ++ (a2 d S T ++ (a3 S T ++ (r.flatten ++ (a5 d S T ++ (a6 d S T ++ (em.flatten ++ (sm.flatten
    ++ (tm.flatten ++ p.flatMap Table.dropStmt)))))))), ¬ Addresses st b.name.key := by
    intro st hst hk
    simp only [List.mem_append] at hst
    rcases hst with h | h | h | h | h | h | h | h | h | h
    · obtain ⟨e, he, ht⟩ := m1 h
      exact (R.enumKind (mem_diff he).1).2 b hbS (congrArg Prod.snd (ht.1 _ hk)).symm
    · obtain ⟨e, he, ht⟩ := m2 h
      exact (R.structKind (mem_diff he).1).2 b hbS (congrArg Prod.snd (ht.1 _ hk)).symm
    · obtain ⟨q, hq, rfl⟩ := m3 h
      have hq1 := (mem_diff (mem_softPairs.1 (show (q.1, q.2) ∈ _ from hq)).1).1
      rcases hk with hk | hk
      · exact R.wfS.enumTable q.1 hq1 b hbS (congrArg Prod.snd hk)
      · exact R.wfS.tableNames b hbS _ (congrArg Prod.snd hk).symm
    · obtain ⟨e, he, ht⟩ := m4 R.hr h
      exact (mem_diff he).2 b hbS (congrArg Prod.snd (ht.1 _ hk)).symm
    · obtain ⟨e, he, ht⟩ := m5 h
      exact (mem_diff he).2 b hbS (congrArg Prod.snd (ht.1.1 _ hk)).symm
    · exact m6 h _ hk
    · obtain ⟨q, hq, ht⟩ := m7 R.hem h
      exact R.wfS.enumTable q.1 (mem_inter (x := q.1) (y := q.2) hq).1 b hbS (congrArg Prod.snd (ht.1.1 _ hk)).symm
    · obtain ⟨q, hq, ht⟩ := m8 R.hsm h
      exact R.wfS.structTable q.1 (mem_inter (x := q.1) (y := q.2) hq).1 b hbS (congrArg Prod.snd (ht.1.1 _ hk)).symm
    · obtain ⟨q, hq, ht⟩ := m9 R.htm h
      have hi := mem_inter (x := q.1) (y := q.2) hq
      exact (mem_diff hbd).2 q.2 hi.2.1 ((congrArg Prod.snd (ht.1.1 _ hk)).trans hi.2.2)
    · obtain ⟨q, hq, h⟩ := List.mem_flatMap.1 h
      rw [List.mem_singleton.1 (show st ∈ [_] from h)] at hk
      exact nd.2.2 _ (List.mem_map_of_mem (f := key) hq) _ (List.mem_cons_of_mem _ (List.mem_map_of_mem (f := key) hb))
        (congrArg Prod.snd (lame_dropTable.1 _ hk)).symm
  refine late_target run R.v (show Drops (.dropTable a.name) a.name.key from rfl) hne ⟨_, R.tableS hbS, ?_⟩ hall
  refine ⟨c.name, cols, rf.columns, ?_⟩
  rw [Need.state_con (R.wfS.wf b hbS) hc, hcf, ← hr]
  rfl

omit R in
theorem table_mapRef (ρ : QId → QId) (ts : TableState) : Obj.mapRef ρ (.table ts) = .table (Need.retyped ρ ts) := rfl

/-- Tables are altered within what the library can do. -/
theorem NsRun.tables {condCols : Text → List Text} (hE : E = engine d condCols) {a b : Table} (ha : a ∈ S.tables.items)
    (hb : b ∈ T.tables.items) (hl : a.name.localId = b.name.localId) : TableSafe d E a b := by
  have hi : (a, b) ∈ S.tables.intersection T.tables := (ODict.mem_intersection R.wfT.tables).2 ⟨ha, hb, hl⟩
  obtain ⟨P, lx, Q, h1, h2, h3⟩ := Rem.split_mapM (key := fun p : Table × Table => key p.1) R.htm
    (ODict.intersection_nodup R.wfS.tables _) hi
  have run := R.run
  rw [h2] at run
  have e1 : ∀ A B C D F G H I P M Q X, A ++ (B ++ (C ++ (D ++ (F ++ (G ++ (H ++ (I ++ ((P ++ (M ++ Q)) ++ X))))))))
      = (A ++ (B ++ (C ++ (D ++ (F ++ (G ++ (H ++ (I ++ P)))))))) ++ (M ++ (Q ++ X) : List Stmt) := by
    intros; simp
  rw [e1] at run
  obtain ⟨db1, r1, v1, run⟩ := split run R.v
  obtain ⟨db2, r2, v2, r3⟩ := split run v1
  have own : ∀ st ∈ P ++ Q, ¬ Addresses st a.name.key ∧ ∀ x, ¬ Renames st x := by
    intro st hst
    obtain ⟨y, hy, hk, ly, hly, hm⟩ := h3 st hst
    obtain ⟨h4, h5⟩ := mutateTable_tame hly hm
    exact ⟨fun hk' => hk (congrArg Prod.snd (h4.1 _ hk')).symm, h5.2.2⟩
  have pre : ∀ st ∈ a1 S T ++ (a2 d S T ++ (a3 S T ++ (r.flatten ++ (a5 d S T ++ (a6 d S T ++ (em.flatten ++ (sm.flatten
    ++ P))))))), ¬ Addresses st a.name.key := by
    intro st hst hk
    simp only [List.mem_append] at hst
    rcases hst with h | h | h | h | h | h | h | h | h
    · obtain ⟨e, he, ht⟩ := m1 h
      exact (R.enumKind (mem_diff he).1).2 a ha (congrArg Prod.snd (ht.1 _ hk)).symm
    · obtain ⟨e, he, ht⟩ := m2 h
      exact (R.structKind (mem_diff he).1).2 a ha (congrArg Prod.snd (ht.1 _ hk)).symm
    · obtain ⟨q, hq, rfl⟩ := m3 h
      have hq1 := (mem_diff (mem_softPairs.1 (show (q.1, q.2) ∈ _ from hq)).1).1
      rcases hk with hk | hk
      · exact R.wfS.enumTable q.1 hq1 a ha (congrArg Prod.snd hk)
      · exact R.wfS.tableNames a ha _ (congrArg Prod.snd hk).symm
    · obtain ⟨e, he, ht⟩ := m4 R.hr h
      exact (mem_diff he).2 a ha (congrArg Prod.snd (ht.1 _ hk)).symm
    · obtain ⟨e, he, ht⟩ := m5 h
      exact (mem_diff he).2 a ha (congrArg Prod.snd (ht.1.1 _ hk)).symm
    · exact m6 h _ hk
    · obtain ⟨q, hq, ht⟩ := m7 R.hem h
      exact R.wfS.enumTable q.1 (mem_inter (x := q.1) (y := q.2) hq).1 a ha (congrArg Prod.snd (ht.1.1 _ hk)).symm
    · obtain ⟨q, hq, ht⟩ := m8 R.hsm h
      exact R.wfS.structTable q.1 (mem_inter (x := q.1) (y := q.2) hq).1 a ha (congrArg Prod.snd (ht.1.1 _ hk)).symm
    · exact (own st (List.mem_append_left _ h)).1 hk
  have post : ∀ st ∈ Q ++ (a10 S T ++ (a11 S T ++ a12 S T)), ¬ Addresses st a.name.key ∧ ∀ x, ¬ Renames st x := by
    intro st hst
    simp only [List.mem_append] at hst
    rcases hst with h | h | h | h
    · exact own st (List.mem_append_right _ h)
    · obtain ⟨q, hq, rfl⟩ := m10 h
      exact ⟨fun hk => (mem_diff hq).2 b hb ((congrArg Prod.snd (lame_dropTable.1 _ hk)).symm.trans hl), lame_dropTable.2.2⟩
    · obtain ⟨q, hq, rfl⟩ := m11 h
      exact ⟨fun hk => R.wfS.structTable q (mem_diff hq).1 a ha (congrArg Prod.snd (lame_dropType.1 _ hk)).symm, lame_dropType.2.2⟩
    · obtain ⟨q, hq, h⟩ := m12 h
      rcases h with rfl | ⟨rfl, tb, hs⟩
      · exact ⟨fun hk => R.wfS.enumTable q (mem_diff hq).1 a ha (congrArg Prod.snd (lame_dropType.1 _ hk)).symm, lame_dropType.2.2⟩
      · refine ⟨fun hk => ?_, lame_dropType.2.2⟩
        have := lame_dropType.1 _ hk
        rw [R.law hs] at this
        exact R.wfS.tableNames a ha _ (congrArg Prod.snd this)
  obtain ⟨ρ, hρ⟩ := frame_run r1 pre
  rw [R.tableS ha, Option.map_some, table_mapRef] at hρ
  have hend : db2.objs a.name.key = some (.table (Spec.Table.state d E b)) := by
    rw [← still r3 (fun st h => (post st h).1) (fun st h => (post st h).2), R.tkeyS ha, hl, R.hT]
    exact obj_table R.wfT (get_of_mem R.wfT.tables hb)
  obtain ⟨_, _, _, _, _, _, _, _, Rn⟩ := Need.ran (R.wfS.wf a ha) (R.wfT.wf b hb) hρ hend h1 r2
  subst hE
  exact Rn.safe (R.wfS.wf a ha) (R.wfT.wf b hb) (v1.fits _ _ hρ) (v2.fits _ _ hend)

/-- The script is within what the library can do. -/
theorem NsRun.safe {condCols : Text → List Text} (hE : E = engine d condCols) : NsSafe d E S T where
  enumKind := fun _ he => R.enumKind he
  structKind := fun _ he => R.structKind he
  tableKind := fun _ he _ hs => R.tableKind he hs
  lookup := fun _ ht _ he hl => ⟨(R.sameName ht he hl).2, R.law (R.sameName ht he hl).1⟩
  createOrder := R.createOrder
  dropOrder := R.dropOrder
  tableOrder := R.tableOrder
  tables := fun _ ha _ hb hl => R.tables hE ha hb hl

/-- Objects of other namespaces stay as they are. -/
theorem NsRun.outside {k : Key} (hk : k.1 ≠ N) : db'.objs k = db.objs k := by
  have addr : ∀ st ∈ a1 S T ++ (a2 d S T ++ (a3 S T ++ (r.flatten ++ (a5 d S T ++ (a6 d S T ++ (em.flatten
    ++ (sm.flatten ++ (tm.flatten ++ (a10 S T ++ (a11 S T ++ a12 S T)))))))))), ¬ Addresses st k :=
    fun st hst h => hk (R.inside hst h)
  have ren : ∀ st ∈ a1 S T ++ (a2 d S T ++ (a3 S T ++ (r.flatten ++ (a5 d S T ++ (a6 d S T ++ (em.flatten
    ++ (sm.flatten ++ (tm.flatten ++ (a10 S T ++ (a11 S T ++ a12 S T)))))))))), ∀ x, Renames st x → st ∈ a3 S T := by
    intro st hst x hx
    simp only [List.mem_append] at hst
    rcases hst with h | h | h | h | h | h | h | h | h | h | h | h
    · obtain ⟨_, _, ht⟩ := m1 h; exact absurd hx (tame_no_rename ht _)
    · obtain ⟨_, _, ht⟩ := m2 h; exact absurd hx (tame_no_rename ht _)
    · exact h
    · obtain ⟨_, _, ht⟩ := m4 R.hr h; exact absurd hx (tame_no_rename ht _)
    · obtain ⟨_, _, ht⟩ := m5 h; exact absurd hx (tame_no_rename ht.1 _)
    · exact absurd (takes_addr (renames_takes hx)) (m6 h _)
    · obtain ⟨_, _, ht⟩ := m7 R.hem h; exact absurd hx (tame_no_rename ht.1 _)
    · obtain ⟨_, _, ht⟩ := m8 R.hsm h; exact absurd hx (tame_no_rename ht.1 _)
    · obtain ⟨_, _, ht⟩ := m9 R.htm h; exact absurd hx (tame_no_rename ht.1 _)
    · obtain ⟨_, _, rfl⟩ := m10 h; exact absurd hx id
    · obtain ⟨_, _, rfl⟩ := m11 h; exact absurd hx id
    · obtain ⟨_, _, h⟩ := m12 h
      rcases h with rfl | ⟨rfl, _⟩ <;> exact absurd hx id
  refine clear R.run addr ?_
  intro st hst x hx o ho hsay
  obtain ⟨⟨e, tb⟩, hp, rfl⟩ := m3 (ren st hst x hx)
  have hx : e.name.key = x := hx
  subst hx
  have he := (mem_diff (mem_softPairs.1 hp).1).1
  obtain ⟨p, s, hl⟩ := List.append_of_mem hp
  have ea : a3 S T = p.flatMap (fun p => p.1.softDropStmt) ++ .renameType e.name (deletedName e.name.localId)
      :: s.flatMap (fun p => p.1.softDropStmt) := by
    unfold a3
    rw [hl, List.flatMap_append, List.flatMap_cons]; rfl
  have e1 : ∀ P M Q X, a1 S T ++ (a2 d S T ++ ((P ++ M :: Q) ++ X)) = (a1 S T ++ (a2 d S T ++ P)) ++ M :: (Q ++ X) := by
    intro P M Q X; simp
  have run := R.run
  rw [ea, e1] at run addr ren
  obtain ⟨x1, x2, r1, w1, st1, w2, r2⟩ := split1 run R.v
  have nd := softNames_nodup (d := d) R.wfS R.wfT
  unfold softNames at nd
  rw [hl, List.map_append, List.nodup_append] at nd
  have c1 := carry (x := k) (k := e.name.key) r1 (fun st h => addr st (List.mem_append_left _ h)) (by
    intro st h hren
    have := ren st (List.mem_append_left _ h) _ hren
    simp only [List.mem_append] at h
    rcases h with h | h | h
    · obtain ⟨_, _, ht⟩ := m1 h; exact tame_no_rename ht _ hren
    · obtain ⟨_, _, ht⟩ := m2 h; exact tame_no_rename ht _ hren
    · obtain ⟨q, hq, h⟩ := List.mem_flatMap.1 h
      rw [List.mem_singleton.1 (show st ∈ [_] from h)] at hren
      exact nd.2.2 _ (List.mem_map_of_mem (f := fun p : EnumType × Table => key p.1) hq) _ (List.mem_map_of_mem (f := fun p : EnumType × Table => key p.1) (List.mem_cons_self))
        (congrArg Prod.snd hren)) ⟨o, ho, hsay⟩
  obtain ⟨o1, h1, h2⟩ := c1
  have c2 : ∃ o, x2.objs k = some o ∧ Says o (e.name.key.1, deletedName e.name.localId) := by
    refine ⟨o1.mapRef (renameRef e.name.key (deletedName e.name.localId)), ?_, ?_⟩
    · rw [Frm.frame st1 (addr _ (by simp)), h1]; rfl
    · have := says_rename (x := e.name.key) (new := deletedName e.name.localId) h2
      rw [ren1, if_pos rfl] at this
      exact this
  have c3 := carry (x := k) (k := (e.name.key.1, deletedName e.name.localId)) r2
    (fun st h => addr st (List.mem_append_right _ (List.mem_cons_of_mem _ h))) (by
    intro st h hren
    have := ren st (List.mem_append_right _ (List.mem_cons_of_mem _ h)) _ hren
    rw [← ea] at this
    obtain ⟨q, hq, rfl⟩ := m3 this
    have hq1 := (mem_diff (mem_softPairs.1 (show (q.1, q.2) ∈ _ from hq)).1).1
    exact R.wfS.enumNames q.1 hq1 _ (congrArg Prod.snd hren)) c2
  obtain ⟨o2, h3, h4⟩ := c3
  have := says_some (runs_valid R.run R.v) h3 h4
  rw [R.keyS he, R.hT, obj_deleted R.wfT] at this
  cases this

end

end Xct

end PySqlSync
