/-
Helper lemmas: what a statement leaves alone, and what an accepted script implies about the order of its statements.
-/
import Verif.Lemmas.NsDrop
import Verif.Lemmas.Exec
import Verif.Spec.Foot

set_option autoImplicit false

namespace PySqlSync
open Spec

namespace Frm

variable {E : Engine}

/-- The statement gives the name to an object. -/
def Makes : Stmt → Key → Prop
  | .createEnum q _, k => q.key = k
  | .createStruct q _, k => q.key = k
  | .createTable q _ _ _ _, k => q.key = k
  | .renameType q new, k => (q.key.1, new) = k
  | _, _ => False

/-- The statement frees the name. -/
def Takes : Stmt → Key → Prop
  | .dropType q, k => q.key = k
  | .dropTable q, k => q.key = k
  | .renameType q _, k => q.key = k
  | .dropSchema n _, k => n = k.1
  | _, _ => False

/-- How a statement changes references. -/
def rho : Stmt → QId → QId
  | .renameType q new => renameRef q.key new
  | _ => id

/-- The statement renames the object with that name. -/
def Renames : Stmt → Key → Prop
  | .renameType q _, k => q.key = k
  | _, _ => False

theorem mapRef_self (o : Obj) : o.mapRef id = o := by
  cases o with
  | enum vs => rfl
  | struct a =>
    simp only [Obj.mapRef, Obj.struct.injEq]
    funext n
    cases a n with
    | none => rfl
    | some ty => simp only [Option.map_some, mapRef_id id (fun _ _ => rfl) ty (fun _ _ => rfl)]
  | table ts =>
    cases ts with
    | mk cols pk cons dfs =>
      simp only [Obj.mapRef, Obj.table.injEq, TableState.mk.injEq, and_true]
      funext n
      cases cols n with
      | none => rfl
      | some c => simp only [Option.map_some, mapRef_id id (fun _ _ => rfl) c.ty (fun _ _ => rfl)]

theorem map_self (o : Option Obj) : o.map (Obj.mapRef id) = o := by
  cases o with
  | none => rfl
  | some o => rw [Option.map_some, mapRef_self]

theorem set_ne {db : Db} {k k' : Key} {o : Option Obj} (h : k' ≠ k) : (db.set k' o).objs k = db.objs k := by
  simp only [Db.set, upd]
  rw [if_neg (fun e => h e.symm)]

theorem create_ok {db db' : Db} {k : Key} {o : Obj} (h : db.create k o = some db') :
    db.objs k = none ∧ db' = db.set k (some o) := by
  unfold Db.create at h
  split at h
  · cases h
  · rename_i hn
    simp only [Bool.or_eq_true, not_or] at hn
    refine ⟨?_, (Option.some.inj h).symm⟩
    cases ho : db.objs k with
    | none => rfl
    | some o => rw [ho] at hn; exact absurd rfl hn.1

/-- An object that a statement does not address changes only in how it calls renamed types. -/
theorem frame {db db' : Db} {s : Stmt} {k : Key} (h : step E db s = some db') (hs : ¬ Addresses s k) :
    db'.objs k = (db.objs k).map (Obj.mapRef (rho s)) := by
  have same : rho s = id → db'.objs k = db.objs k → db'.objs k = (db.objs k).map (Obj.mapRef (rho s)) := by
    intro h1 h2
    rw [h1, map_self, h2]
  cases s with
  | createSchema n b =>
    refine same rfl ?_
    simp only [step] at h
    split at h
    · split at h
      · cases h; rfl
      · cases h
    · cases h; rfl
  | dropSchema n b =>
    refine same rfl ?_
    simp only [step] at h
    simp only [Addresses] at hs
    split at h
    · cases h
      show (if b = true then _ else _ : Key → Option Obj) k = _
      split
      · show (if k.1 = n then none else db.objs k) = _
        rw [if_neg (fun e => hs e.symm)]
      · rfl
    · split at h
      · cases h; rfl
      · cases h
  | createEnum q l =>
    refine same rfl ?_
    simp only [step] at h
    split at h
    · rw [(create_ok h).2]; exact set_ne hs
    · cases h
  | createStruct q l =>
    refine same rfl ?_
    simp only [step] at h
    split at h
    · rw [(create_ok h).2]; exact set_ne hs
    · cases h
  | createTable q c n p m =>
    refine same rfl ?_
    simp only [step] at h
    split at h
    · rw [(create_ok h).2]; exact set_ne hs
    · cases h
  | alterTable q l =>
    refine same rfl ?_
    simp only [step] at h
    split at h
    · rw [Option.map_eq_some_iff] at h
      obtain ⟨x, _, rfl⟩ := h; exact set_ne hs
    · cases h
  | addValue q v =>
    refine same rfl ?_
    simp only [step] at h
    split at h
    · split at h
      · cases h
      · cases h; exact set_ne hs
    · cases h
  | alterStruct q l =>
    refine same rfl ?_
    simp only [step] at h
    split at h
    · rw [Option.map_eq_some_iff] at h
      obtain ⟨x, _, rfl⟩ := h; exact set_ne hs
    · cases h
  | renameType q new =>
    simp only [step] at h
    simp only [Addresses, not_or] at hs
    split at h
    · cases h
    · cases h
    · split at h
      · cases h
      · cases h
        show Option.map _ (upd (upd db.objs q.key none) (q.key.1, new) _ k) = _
        simp only [upd]
        rw [if_neg (fun e => hs.2 e.symm), if_neg (fun e => hs.1 e.symm)]
        rfl
  | dropType q =>
    refine same rfl ?_
    simp only [step] at h
    split at h
    · cases h
    · cases h
    · cases h; exact set_ne hs
  | dropTable q =>
    refine same rfl ?_
    simp only [step] at h
    split at h
    · cases h; exact set_ne hs
    · cases h
  | commentTable q x => refine same rfl ?_; simp only [step] at h; split at h <;> cases h; rfl
  | commentType q x => refine same rfl ?_; simp only [step] at h; split at h <;> cases h; rfl
  | commentColumn q c x => refine same rfl ?_; simp only [step] at h; split at h <;> cases h; rfl
  | insertRows q c x => refine same rfl ?_; simp only [step] at h; split at h <;> cases h; rfl
  | insertLabels q c x => refine same rfl ?_; simp only [step] at h; split at h <;> cases h; rfl
  | insertDistinct q c x => refine same rfl ?_; simp only [step] at h; split at h <;> cases h; rfl
  | updateKeys q c x y => refine same rfl ?_; simp only [step] at h; split at h <;> cases h; rfl

theorem map_none {f : Obj → Obj} {o : Option Obj} (h : o = none) : o.map f = none := by rw [h]; rfl

/-- A name not in use stays unused until a statement gives it to an object. -/
theorem absent {db db' : Db} {s : Stmt} {k : Key} (h : step E db s = some db') (hs : ¬ Makes s k)
    (h0 : db.objs k = none) : db'.objs k = none := by
  by_cases ha : Addresses s k
  · cases s with
    | dropSchema n b =>
      simp only [step] at h
      split at h
      · cases h
        show (if b = true then _ else _ : Key → Option Obj) k = _
        split
        · show (if k.1 = n then none else db.objs k) = _
          split
          · rfl
          · exact h0
        · exact h0
      · split at h
        · cases h; exact h0
        · cases h
    | createEnum q l => exact absurd ha hs
    | createStruct q l => exact absurd ha hs
    | createTable q c n p m => exact absurd ha hs
    | alterTable q l =>
      have e : q.key = k := ha
      simp only [step, e, h0] at h; cases h
    | addValue q v =>
      have e : q.key = k := ha
      simp only [step, e, h0] at h; cases h
    | alterStruct q l =>
      have e : q.key = k := ha
      simp only [step, e, h0] at h; cases h
    | renameType q new =>
      rcases ha with e | e
      · simp only [step, e, h0] at h; cases h
      · exact absurd e hs
    | dropType q =>
      have e : q.key = k := ha
      simp only [step, e, h0] at h; cases h
    | dropTable q =>
      have e : q.key = k := ha
      simp [step, e, Db.isTable, h0] at h
    | createSchema n b => exact absurd ha id
    | commentTable q x => exact absurd ha id
    | commentType q x => exact absurd ha id
    | commentColumn q c x => exact absurd ha id
    | insertRows q c x => exact absurd ha id
    | insertLabels q c x => exact absurd ha id
    | insertDistinct q c x => exact absurd ha id
    | updateKeys q c x y => exact absurd ha id
  · rw [frame h ha]; exact map_none h0

/-- A name in use stays in use until a statement frees it. -/
theorem present {db db' : Db} {s : Stmt} {k : Key} (h : step E db s = some db') (hs : ¬ Takes s k)
    (h0 : (db.objs k).isSome) : (db'.objs k).isSome := by
  by_cases ha : Addresses s k
  · have own : ∀ {o : Option Obj}, o.isSome → ((db.set k o).objs k).isSome := by
      intro o ho; simpa [Db.set, upd] using ho
    cases s with
    | dropSchema n b => exact absurd ha hs
    | createEnum q l =>
      have e : q.key = k := ha
      simp only [step] at h
      split at h
      · rw [(create_ok h).2, e]; exact own rfl
      · cases h
    | createStruct q l =>
      have e : q.key = k := ha
      simp only [step] at h
      split at h
      · rw [(create_ok h).2, e]; exact own rfl
      · cases h
    | createTable q c n p m =>
      have e : q.key = k := ha
      simp only [step] at h
      split at h
      · rw [(create_ok h).2, e]; exact own rfl
      · cases h
    | alterTable q l =>
      have e : q.key = k := ha
      simp only [step] at h
      split at h
      · rw [Option.map_eq_some_iff] at h
        obtain ⟨x, _, rfl⟩ := h; rw [e]; exact own rfl
      · cases h
    | addValue q v =>
      have e : q.key = k := ha
      simp only [step] at h
      split at h
      · split at h
        · cases h
        · cases h; rw [e]; exact own rfl
      · cases h
    | alterStruct q l =>
      have e : q.key = k := ha
      simp only [step] at h
      split at h
      · rw [Option.map_eq_some_iff] at h
        obtain ⟨x, _, rfl⟩ := h; rw [e]; exact own rfl
      · cases h
    | renameType q new =>
      rcases ha with e | e
      · exact absurd e hs
      · simp only [step] at h
        split at h
        · cases h
        · cases h
        · split at h
          · cases h
          · cases h
            show (Option.map _ (upd (upd db.objs q.key none) (q.key.1, new) _ k)).isSome
            rw [Option.isSome_map, e]
            simp [upd]
    | dropType q => exact absurd ha hs
    | dropTable q => exact absurd ha hs
    | createSchema n b => exact absurd ha id
    | commentTable q x => exact absurd ha id
    | commentType q x => exact absurd ha id
    | commentColumn q c x => exact absurd ha id
    | insertRows q c x => exact absurd ha id
    | insertLabels q c x => exact absurd ha id
    | insertDistinct q c x => exact absurd ha id
    | updateKeys q c x y => exact absurd ha id
  · rw [frame h ha, Option.isSome_map]; exact h0

/-! ### Along a run -/

/-- A property kept by every statement of a run. -/
theorem along {P : Db → Prop} {db db' : Db} {l : List Stmt} (h : Runs E db l db')
    (hk : ∀ s ∈ l, ∀ a b, step E a s = some b → P a → P b) (h0 : P db) : P db' := by
  induction h with
  | nil => exact h0
  | cons h1 _ _ ih =>
    exact ih (fun s hs => hk s (List.mem_cons_of_mem _ hs)) (hk _ List.mem_cons_self _ _ h1 h0)

theorem absent_run {db db' : Db} {l : List Stmt} {k : Key} (h : Runs E db l db') (hs : ∀ s ∈ l, ¬ Makes s k)
    (h0 : db.objs k = none) : db'.objs k = none :=
  along (P := fun db => db.objs k = none) h (fun s m _ _ e => absent e (hs s m)) h0

theorem present_run {db db' : Db} {l : List Stmt} {k : Key} (h : Runs E db l db') (hs : ∀ s ∈ l, ¬ Takes s k)
    (h0 : (db.objs k).isSome) : (db'.objs k).isSome :=
  along (P := fun db => (db.objs k).isSome) h (fun s m _ _ e => present e (hs s m)) h0

theorem frame_run {db db' : Db} {l : List Stmt} {k : Key} (h : Runs E db l db') (hs : ∀ s ∈ l, ¬ Addresses s k) :
    ∃ ρ, db'.objs k = (db.objs k).map (Obj.mapRef ρ) := by
  induction h with
  | nil => exact ⟨id, (map_self _).symm⟩
  | @cons db db1 db' s rest h1 _ _ ih =>
    obtain ⟨ρ, e⟩ := ih (fun s m => hs s (List.mem_cons_of_mem _ m))
    rw [e, frame h1 (hs _ List.mem_cons_self), Option.map_map]
    refine ⟨ρ ∘ rho s, ?_⟩
    congr 1
    funext o
    exact obj_mapRef_comp _ _ o

theorem rho_id {s : Stmt} (h : ∀ k, ¬ Renames s k) : rho s = id := by
  cases s with
  | renameType q new => exact absurd rfl (h q.key)
  | _ => rfl

theorem still {db db' : Db} {l : List Stmt} {k : Key} (h : Runs E db l db') (hs : ∀ s ∈ l, ¬ Addresses s k)
    (hr : ∀ s ∈ l, ∀ x, ¬ Renames s x) : db'.objs k = db.objs k := by
  induction h with
  | nil => rfl
  | cons h1 _ _ ih =>
    rw [ih (fun s m => hs s (List.mem_cons_of_mem _ m)) (fun s m => hr s (List.mem_cons_of_mem _ m)),
      frame h1 (hs _ List.mem_cons_self), rho_id (hr _ List.mem_cons_self), map_self]

/-! ### References -/

/-- A data type that the object's definition mentions. -/
def Says (o : Obj) (k : Key) : Prop := ∃ ty, Obj.types o ty ∧ k ∈ ty.refs

/-- How renaming changes the names of types. -/
def ren1 (s new : Key) (k : Key) : Key := if k = s then new else k

theorem refs_rename (k : Key) (new : Text) (ty : SqlType) :
    (ty.mapRef (renameRef k new)).refs = ty.refs.map (ren1 k (k.1, new)) := by
  apply mapRef_refs
  · intro q hq
    unfold renameRef ren1
    by_cases e : q.key = k
    · rw [if_pos ⟨hq, e⟩, if_pos e, ← e]; rfl
    · rw [if_neg (fun h => e h.2), if_neg e]
  · intro q
    unfold renameRef
    split
    · rename_i h; rw [h.1]; rfl
    · rfl

theorem types_map {f : QId → QId} {o : Obj} {ty : SqlType} (h : Obj.types o ty) : Obj.types (o.mapRef f) (ty.mapRef f) := by
  cases o with
  | enum vs => exact h
  | struct a => obtain ⟨n, e⟩ := h; exact ⟨n, by show (a n).map _ = _; rw [e]; rfl⟩
  | table ts => obtain ⟨n, c, e, rfl⟩ := h; exact ⟨n, { c with ty := c.ty.mapRef f }, by show (ts.cols n).map _ = _; rw [e]; rfl, rfl⟩

theorem types_unmap {f : QId → QId} {o : Obj} {ty : SqlType} (h : Obj.types (o.mapRef f) ty) :
    ∃ ty0, Obj.types o ty0 ∧ ty = ty0.mapRef f := by
  cases o with
  | enum vs => exact absurd h id
  | struct a =>
    obtain ⟨n, e⟩ := h
    rw [Option.map_eq_some_iff] at e
    obtain ⟨ty0, e1, e2⟩ := e
    exact ⟨ty0, ⟨n, e1⟩, e2.symm⟩
  | table ts =>
    obtain ⟨n, c, e, rfl⟩ := h
    simp only [Obj.mapRef, Option.map_eq_some_iff] at e
    obtain ⟨c0, e1, e2⟩ := e
    exact ⟨c0.ty, ⟨n, c0, e1, rfl⟩, by rw [← e2]⟩

theorem says_rename {o : Obj} {k x : Key} {new : Text} (h : Says o k) :
    Says (o.mapRef (renameRef x new)) (ren1 x (x.1, new) k) := by
  obtain ⟨ty, h1, h2⟩ := h
  exact ⟨_, types_map h1, by rw [refs_rename]; exact List.mem_map_of_mem h2⟩

/-- Renaming a type that an object does not mention leaves it as it is. -/
theorem rename_idle {o : Obj} {x : Key} {new : Text} (h : ¬ Says o x) : o.mapRef (renameRef x new) = o := by
  have key : ∀ ty, Obj.types o ty → ty.mapRef (renameRef x new) = ty := by
    intro ty hty
    apply mapRef_id
    · intro q hq
      unfold renameRef
      rw [if_neg (by simp [hq])]
    · intro q hq
      unfold renameRef
      by_cases e : q.key = x
      · exact absurd ⟨ty, hty, e ▸ hq⟩ h
      · rw [if_neg (fun h => e h.2)]
  cases o with
  | enum vs => rfl
  | struct a =>
    simp only [Obj.mapRef, Obj.struct.injEq]
    funext n
    cases ha : a n with
    | none => rfl
    | some ty => simp only [Option.map_some, key ty ⟨n, ha⟩]
  | table ts =>
    cases ts with
    | mk cols pk cons dfs =>
      simp only [Obj.mapRef, Obj.table.injEq, TableState.mk.injEq, and_true]
      funext n
      cases ha : cols n with
      | none => rfl
      | some c => simp only [Option.map_some, key c.ty ⟨n, c, ha, rfl⟩]

/-- What a consistent database's objects mention are types of it. -/
theorem says_type {db : Db} (v : Valid db) {x k : Key} {o : Obj} (h : db.objs x = some o) (hs : Says o k) :
    db.kinds k = some .enum ∨ db.kinds k = some .struct := by
  obtain ⟨ty, h1, h2⟩ := hs
  have f := v.fits x o h
  cases o with
  | enum vs => exact absurd h1 id
  | struct a => obtain ⟨n, e⟩ := h1; exact f n ty e k h2
  | table ts => obtain ⟨n, c, e, rfl⟩ := h1; exact (f.cols n c e).2 k h2

theorem says_some {db : Db} (v : Valid db) {x k : Key} {o : Obj} (h : db.objs x = some o) (hs : Says o k) :
    (db.objs k).isSome := by
  have := says_type v h hs
  unfold Db.kinds at this
  cases ho : db.objs k with
  | none => rw [ho] at this; rcases this with h | h <;> cases h
  | some o => rfl

theorem target_some {db : Db} (v : Valid db) {x k : Key} {o : Obj} (h : db.objs x = some o) (hs : Obj.targets o k) :
    (db.objs k).isSome := by
  have f := v.fits x o h
  cases o with
  | enum vs => exact absurd hs id
  | struct a => exact absurd hs id
  | table ts =>
    obtain ⟨n, cs, rs, e⟩ := hs
    have := (f.cons n _ e).2
    simp only [Db.kinds] at this
    cases ho : db.objs k with
    | none => rw [ho] at this; cases this
    | some o => rfl

/-- An object keeps mentioning a type as long as neither is addressed. -/
theorem carry {db db' : Db} {l : List Stmt} {x k : Key} (h : Runs E db l db') (hs : ∀ s ∈ l, ¬ Addresses s x)
    (hr : ∀ s ∈ l, ¬ Renames s k) (h0 : ∃ o, db.objs x = some o ∧ Says o k) : ∃ o, db'.objs x = some o ∧ Says o k := by
  refine along (P := fun db => ∃ o, db.objs x = some o ∧ Says o k) h ?_ h0
  rintro s m a b e ⟨o, h1, h2⟩
  refine ⟨o.mapRef (rho s), by rw [frame e (hs s m), h1]; rfl, ?_⟩
  by_cases hq : ∃ q new, s = .renameType q new
  · obtain ⟨q, new, rfl⟩ := hq
    have := says_rename (x := q.key) (new := new) h2
    rw [ren1, if_neg (fun e => hr _ m e.symm)] at this
    exact this
  · rw [rho_id (fun y hy => by cases s <;> first | exact hy | exact hq ⟨_, _, rfl⟩), mapRef_self]; exact h2

theorem carry_target {db db' : Db} {l : List Stmt} {x k : Key} (h : Runs E db l db') (hs : ∀ s ∈ l, ¬ Addresses s x)
    (h0 : ∃ o, db.objs x = some o ∧ Obj.targets o k) : ∃ o, db'.objs x = some o ∧ Obj.targets o k := by
  refine along (P := fun db => ∃ o, db.objs x = some o ∧ Obj.targets o k) h ?_ h0
  rintro s m a b e ⟨o, h1, h2⟩
  refine ⟨o.mapRef (rho s), by rw [frame e (hs s m), h1]; rfl, ?_⟩
  cases o <;> exact h2

/-- Renaming what an object does not mention leaves it as it is. -/
theorem clear {db db' : Db} {l : List Stmt} {k : Key} (h : Runs E db l db') (hs : ∀ s ∈ l, ¬ Addresses s k)
    (hr : ∀ s ∈ l, ∀ x, Renames s x → ∀ o, db.objs k = some o → ¬ Says o x) : db'.objs k = db.objs k := by
  refine along (P := fun b => b.objs k = db.objs k) h ?_ rfl
  intro s m a b e ha
  rw [frame e (hs s m), ha]
  cases ho : db.objs k with
  | none => rfl
  | some o =>
    rw [Option.map_some]
    by_cases hq : ∃ q new, s = .renameType q new
    · obtain ⟨q, new, rfl⟩ := hq
      exact congrArg some (rename_idle (hr _ m _ rfl o ho))
    · rw [rho_id (fun y hy => by cases s <;> first | exact hy | exact hq ⟨_, _, rfl⟩), mapRef_self]

/-- The new name of a renamed type. -/
theorem back {db db' : Db} {l : List Stmt} {k : Key} (h : Runs E db l db') (hs : ∀ s ∈ l, ¬ Addresses s k)
    (hr : ∀ s ∈ l, ∀ q new, s = .renameType q new → ∀ o, db'.objs k = some o → ¬ Says o (q.key.1, new)) :
    db'.objs k = db.objs k := by
  induction h with
  | nil => rfl
  | @cons db db1 db' s rest h1 _ _ ih =>
    have e1 := ih (fun s m => hs s (List.mem_cons_of_mem _ m)) (fun s m => hr s (List.mem_cons_of_mem _ m))
    have e2 := frame h1 (hs _ List.mem_cons_self)
    by_cases hq : ∃ q new, s = .renameType q new
    · obtain ⟨q, new, rfl⟩ := hq
      cases ho : db.objs k with
      | none => rw [ho] at e2; rw [e1, e2]; rfl
      | some o =>
        rw [ho, Option.map_some] at e2
        have e3 : db'.objs k = some (o.mapRef (renameRef q.key new)) := by rw [e1, e2]; rfl
        by_cases hsay : Says o q.key
        · have := says_rename (x := q.key) (new := new) hsay
          rw [ren1, if_pos rfl] at this
          exact absurd this (hr _ List.mem_cons_self q new rfl _ e3)
        · rw [e3, rename_idle hsay]
    · rw [e1, e2, rho_id (fun y hy => by cases s <;> first | exact hy | exact hq ⟨_, _, rfl⟩), map_self]

/-! ### What an accepted script implies -/

theorem split {db db' : Db} {l1 l2 : List Stmt} (h : Runs E db (l1 ++ l2) db') (v : Valid db) :
    ∃ db1, Runs E db l1 db1 ∧ Valid db1 ∧ Runs E db1 l2 db' := by
  obtain ⟨db1, a, b, c⟩ := runs_take h v l1.length
  exact ⟨db1, by simpa using a, b, by simpa using c⟩

theorem split1 {db db' : Db} {l1 l2 : List Stmt} {s : Stmt} (h : Runs E db (l1 ++ s :: l2) db') (v : Valid db) :
    ∃ a b, Runs E db l1 a ∧ Valid a ∧ step E a s = some b ∧ Valid b ∧ Runs E b l2 db' := by
  obtain ⟨a, h1, h2, h3⟩ := split h v
  cases h3 with
  | cons h4 h5 h6 => exact ⟨a, _, h1, h2, h4, h5, h6⟩

/-- A statement that creates an object. -/
def Creates : Stmt → Key → Prop
  | .createEnum q _, k => q.key = k
  | .createStruct q _, k => q.key = k
  | .createTable q _ _ _ _, k => q.key = k
  | _, _ => False

theorem creates_free {db db' : Db} {s : Stmt} {k : Key} (h : step E db s = some db') (hs : Creates s k) :
    db.objs k = none := by
  cases s with
  | createEnum q l =>
    have e : q.key = k := hs
    simp only [step] at h
    split at h
    · rw [← e]; exact (create_ok h).1
    · cases h
  | createStruct q l =>
    have e : q.key = k := hs
    simp only [step] at h
    split at h
    · rw [← e]; exact (create_ok h).1
    · cases h
  | createTable q c n p m =>
    have e : q.key = k := hs
    simp only [step] at h
    split at h
    · rw [← e]; exact (create_ok h).1
    · cases h
  | _ => exact absurd hs id

/-- An object is not created under a name in use. -/
theorem clash {db db' : Db} {pre post : List Stmt} {s : Stmt} {k : Key} (h : Runs E db (pre ++ s :: post) db') (v : Valid db)
    (hs : Creates s k) (h0 : (db.objs k).isSome) (hp : ∀ s ∈ pre, ¬ Takes s k) : False := by
  obtain ⟨a, b, h1, _, h2, _, _⟩ := split1 h v
  have := present_run h1 hp h0
  rw [creates_free h2 hs] at this
  cases this

/-- A composite type is created with an attribute of a type only if the type is there. -/
theorem early_struct {db db' : Db} {pre post : List Stmt} {q : QId} {attrs : List (Text × SqlType)} {k : Key}
    (h : Runs E db (pre ++ .createStruct q attrs :: post) db') (v : Valid db) {p : Text × SqlType} (hp : p ∈ attrs)
    (hk : k ∈ p.2.refs) (h0 : db.objs k = none) (hm : ∀ s ∈ pre, ¬ Makes s k) : False := by
  obtain ⟨a, b, h1, _, h2, v2, _⟩ := split1 h v
  have ha := absent_run h1 hm h0
  simp only [step] at h2
  split at h2
  · rename_i hc
    have hne : q.key ≠ k := fun e => hc.2 p hp (e ▸ hk)
    obtain ⟨_, e⟩ := create_ok h2
    have hobj : b.objs q.key = some (.struct (fun n => (attrs.find? (fun p => p.1 = n)).map Prod.snd)) := by
      rw [e]; simp [Db.set, upd]
    have hf : attrs.find? (fun y => decide (y.1 = p.1)) = some p := by
      obtain ⟨l1, l2, e1⟩ := List.append_of_mem hp
      rw [e1, List.find?_append]
      have hnd := hc.1
      rw [e1, List.map_append, List.map_cons, List.nodup_append] at hnd
      have : l1.find? (fun y => decide (y.1 = p.1)) = none := by
        rw [List.find?_eq_none]
        intro y hy
        simp only [decide_eq_true_eq]
        exact hnd.2.2 y.1 (List.mem_map_of_mem hy) p.1 (by simp)
      rw [this]
      simp
    have := says_some v2 hobj ⟨p.2, ⟨p.1, by show (attrs.find? (fun y => decide (y.1 = p.1))).map Prod.snd = _; rw [hf]; rfl⟩, hk⟩
    rw [e, set_ne hne, ha] at this
    cases this
  · cases h2

/-- A table is created with a column of a type only if the type is there. -/
theorem early_table {db db' : Db} {pre post : List Stmt} {q : QId} {cols : List (Text × ColSpec)} {pn : Text} {pk : List Text}
    {cm : Option Text} {k : Key}
    (h : Runs E db (pre ++ .createTable q cols pn pk cm :: post) db') (v : Valid db) {p : Text × ColSpec} (hp : p ∈ cols)
    (hk : k ∈ p.2.ty.refs) (h0 : db.objs k = none) (hm : ∀ s ∈ pre, ¬ Makes s k) : False := by
  obtain ⟨a, b, h1, _, h2, v2, _⟩ := split1 h v
  have ha := absent_run h1 hm h0
  simp only [step] at h2
  split at h2
  · rename_i hc
    obtain ⟨_, e⟩ := create_ok h2
    have hobj : b.objs q.key = some (.table (newTable cols pk)) := by
      rw [e]; simp [Db.set, upd]
    have hf : cols.find? (fun y => decide (y.1 = p.1)) = some p := by
      obtain ⟨l1, l2, e1⟩ := List.append_of_mem hp
      rw [e1, List.find?_append]
      have hnd := hc.1
      rw [e1, List.map_append, List.map_cons, List.nodup_append] at hnd
      have : l1.find? (fun y => decide (y.1 = p.1)) = none := by
        rw [List.find?_eq_none]
        intro y hy
        simp only [decide_eq_true_eq]
        exact hnd.2.2 y.1 (List.mem_map_of_mem hy) p.1 (by simp)
      rw [this]
      simp
    have hsay : Says (.table (newTable cols pk)) k :=
      ⟨p.2.ty, ⟨p.1, ColSpec.state p.2, by simp only [newTable, hf, Option.map_some], rfl⟩, hk⟩
    have ht := says_type v2 hobj hsay
    by_cases hne : q.key = k
    · subst hne
      simp only [Db.kinds, hobj, Option.map_some] at ht
      rcases ht with h | h <;> cases h
    · have := says_some v2 hobj hsay
      rw [e, set_ne hne, ha] at this
      cases this
  · cases h2

/-- A statement that drops an object. -/
def Drops : Stmt → Key → Prop
  | .dropType q, k => q.key = k
  | .dropTable q, k => q.key = k
  | _, _ => False

theorem drops_gone {db db' : Db} {s : Stmt} {k : Key} (h : step E db s = some db') (hs : Drops s k) :
    db'.objs k = none ∧ ∀ x, x ≠ k → db'.objs x = db.objs x := by
  cases s with
  | dropType q =>
    have e : q.key = k := hs
    simp only [step] at h
    split at h
    · cases h
    · cases h
    · cases h; subst e; exact ⟨by simp [Db.set, upd], fun x hx => set_ne (fun e => hx e.symm)⟩
  | dropTable q =>
    have e : q.key = k := hs
    simp only [step] at h
    split at h
    · cases h; subst e; exact ⟨by simp [Db.set, upd], fun x hx => set_ne (fun e => hx e.symm)⟩
    · cases h
  | _ => exact absurd hs id

/-- A type is not dropped while another object mentions it. -/
theorem late {db db' : Db} {pre post : List Stmt} {s : Stmt} {x k : Key} (h : Runs E db (pre ++ s :: post) db') (v : Valid db)
    (hs : Drops s k) (hne : x ≠ k) (h0 : ∃ o, db.objs x = some o ∧ Says o k) (hp : ∀ s ∈ pre, ¬ Addresses s x)
    (hr : ∀ s ∈ pre, ¬ Renames s k) : False := by
  obtain ⟨a, b, h1, _, h2, v2, _⟩ := split1 h v
  obtain ⟨o, e1, e2⟩ := carry h1 hp hr h0
  obtain ⟨g1, g2⟩ := drops_gone h2 hs
  have := says_some v2 ((g2 x hne).trans e1) e2
  rw [g1] at this
  cases this

/-- A table is not dropped while another one has a foreign key to it. -/
theorem late_target {db db' : Db} {pre post : List Stmt} {s : Stmt} {x k : Key} (h : Runs E db (pre ++ s :: post) db')
    (v : Valid db) (hs : Drops s k) (hne : x ≠ k) (h0 : ∃ o, db.objs x = some o ∧ Obj.targets o k)
    (hp : ∀ s ∈ pre, ¬ Addresses s x) : False := by
  obtain ⟨a, b, h1, _, h2, v2, _⟩ := split1 h v
  obtain ⟨o, e1, e2⟩ := carry_target h1 hp h0
  obtain ⟨g1, g2⟩ := drops_gone h2 hs
  have := target_some v2 ((g2 x hne).trans e1) e2
  rw [g1] at this
  cases this

end Frm

end PySqlSync
