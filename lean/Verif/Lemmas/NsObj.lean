/-
Helper lemmas: the objects a namespace describes, and the names its script deals with.
-/
import Verif.Lemmas.TypeMutate

set_option autoImplicit false
set_option linter.unusedSectionVars false

namespace PySqlSync
open Spec

section
variable {d : Dialect} {E : Engine} {n : Namespace}

theorem obj_enum {e : EnumType} {k : Text} (h : n.enums.get k = some e) :
    Spec.Namespace.obj d E n k = some (EnumType.obj e) := by
  simp [Spec.Namespace.obj, h]

theorem get_of_mem {α : Type} [Named α] {D : ODict α} (h : Distinct D) {a : α} (ha : a ∈ D.items) : D.get (key a) = some a :=
  (ODict.get_eq_some_iff h).2 ⟨ha, rfl⟩

theorem mem_of_get {α : Type} [Named α] {D : ODict α} {k : Text} {a : α} (h : D.get k = some a) :
    a ∈ D.items ∧ key a = k := ODict.get_some_mem h

theorem get_none {α : Type} [Named α] {D : ODict α} {k : Text} (h : ∀ a ∈ D.items, key a ≠ k) : D.get k = none := by
  rw [ODict.get_none_iff]
  intro hm
  obtain ⟨a, ha, e⟩ := List.mem_map.1 hm
  exact h a ha e

theorem obj_struct (w : NsWF d n) {s : StructType} {k : Text} (h : n.structs.get k = some s) :
    Spec.Namespace.obj d E n k = some (StructType.obj s) := by
  obtain ⟨hs, e⟩ := mem_of_get h
  have : n.enums.get k = none := get_none (fun x hx hk => w.enumStruct x hx s hs (by
    show key x = key s; rw [hk, e]))
  simp [Spec.Namespace.obj, h, this]

theorem obj_table (w : NsWF d n) {tb : Table} {k : Text} (h : n.tables.get k = some tb) :
    Spec.Namespace.obj d E n k = some (.table (Spec.Table.state d E tb)) := by
  obtain ⟨hs, e⟩ := mem_of_get h
  have h1 : n.enums.get k = none := get_none (fun x hx hk => w.enumTable x hx tb hs (by
    show key x = key tb; rw [hk, e]))
  have h2 : n.structs.get k = none := get_none (fun x hx hk => w.structTable x hx tb hs (by
    show key x = key tb; rw [hk, e]))
  simp [Spec.Namespace.obj, h, h1, h2]

theorem obj_none {k : Text} (h1 : n.enums.get k = none) (h2 : n.structs.get k = none) (h3 : n.tables.get k = none) :
    Spec.Namespace.obj d E n k = none := by simp [Spec.Namespace.obj, h1, h2, h3]

theorem obj_some {k : Text} {o : Obj} (h : Spec.Namespace.obj d E n k = some o) :
    (∃ e, n.enums.get k = some e ∧ o = EnumType.obj e) ∨ (∃ s, n.structs.get k = some s ∧ o = StructType.obj s)
      ∨ (∃ tb, n.tables.get k = some tb ∧ o = .table (Spec.Table.state d E tb)) := by
  unfold Spec.Namespace.obj at h
  cases h1 : n.enums.get k with
  | some e => simp only [h1, Option.some.injEq] at h; exact .inl ⟨e, rfl, h.symm⟩
  | none =>
    cases h2 : n.structs.get k with
    | some s => simp only [h1, h2, Option.some.injEq] at h; exact .inr (.inl ⟨s, rfl, h.symm⟩)
    | none =>
      simp only [h1, h2, Option.map_eq_some_iff] at h
      obtain ⟨tb, h3, rfl⟩ := h
      exact .inr (.inr ⟨tb, h3, rfl⟩)

theorem obj_deleted (w : NsWF d n) (k : Text) : Spec.Namespace.obj d E n (deletedName k) = none := by
  apply obj_none
  · exact get_none (fun x hx => w.enumNames x hx k)
  · exact get_none (fun x hx => w.structNames x hx k)
  · exact get_none (fun x hx => w.tableNames x hx k)

end

theorem over_same {β : Type} {X Y : Text → β} {p : List Text} {n : Text} (h : X n = Y n) : over X Y p n = Y n := by
  unfold over; split
  · rfl
  · exact h

/-- Everything assumed about the two versions of a namespace and the database around it. -/
structure NsHyp (d : Dialect) (E : Engine) (db : Db) (N : Text) (S T : Namespace) : Prop where
  v : Valid db
  vT : Valid (withNs db N (Spec.Namespace.obj d E T))
  hS : ∀ n, db.objs (N, n) = Spec.Namespace.obj d E S n
  sch : db.schemas N = true
  nameS : S.name = N
  nameT : T.name = N
  wfS : NsWF d S
  wfT : NsWF d T
  safe : NsSafe d E S T
  hE : d = .mysql → E.cascadeDrop = false

section
variable {d : Dialect} {E : Engine} {db : Db} {N : Text} {S T : Namespace}

/-! ### The enumerations that are replaced by tables -/

theorem mem_softPairs {e : EnumType} {tb : Table} :
    (e, tb) ∈ softPairs S T ↔ e ∈ S.enums.difference T.enums ∧ tb ∈ T.tables.difference S.tables ∧ e.name = tb.name := by
  simp only [softPairs, List.mem_flatMap, List.mem_map, List.mem_filter, decide_eq_true_eq, Prod.mk.injEq]
  constructor
  · rintro ⟨e', he, tb', ⟨htb, hn⟩, rfl, rfl⟩; exact ⟨he, htb, hn⟩
  · rintro ⟨he, htb, hn⟩; exact ⟨e, he, tb, ⟨htb, hn⟩, rfl, rfl⟩

def softNames (S T : Namespace) : List Text := (softPairs S T).map (fun p => key p.1)

theorem softNames_nodup (wfS : NsWF d S) (wfT : NsWF d T) : (softNames S T).Nodup := by
  unfold softNames softPairs
  have h1 : ((S.enums.difference T.enums).map key).Nodup := ODict.difference_nodup wfS.enums _
  have h2 : ((T.tables.difference S.tables).map key).Nodup := ODict.difference_nodup wfT.tables _
  generalize T.tables.difference S.tables = tl at h2
  generalize S.enums.difference T.enums = l at h1
  have hone : ∀ e : EnumType, ((tl.filter (fun tb => decide (e.name = tb.name))).map (fun tb => ((e, tb) : EnumType × Table))).map
      (fun p => key p.1) = if tl.any (fun tb => decide (e.name = tb.name)) then [key e] else [] := by
    intro e
    induction tl with
    | nil => rfl
    | cons a tl ih =>
      rw [List.map_cons, List.nodup_cons] at h2
      by_cases ha : e.name = a.name
      · have hnone : tl.filter (fun tb => decide (e.name = tb.name)) = [] := by
          rw [List.filter_eq_nil_iff]
          intro b hb
          simp only [decide_eq_true_eq]
          intro hbe
          apply h2.1
          rw [show key a = a.name.localId from rfl, ← ha, hbe]
          exact List.mem_map_of_mem (f := key) hb
        rw [List.filter_cons_of_pos (by simp [ha]), hnone]
        simp [ha]
      · rw [List.filter_cons_of_neg (by simp [ha]), ih h2.2]
        simp [ha]
  rw [List.map_flatMap]
  simp only [hone]
  induction l with
  | nil => simp
  | cons e l ih =>
    rw [List.map_cons, List.nodup_cons] at h1
    rw [List.flatMap_cons, List.nodup_append]
    refine ⟨by split <;> simp, ih h1.2, ?_⟩
    intro x hx y hy hxy
    subst hxy
    split at hx
    · simp only [List.mem_singleton] at hx
      subst hx
      obtain ⟨e', he', hy⟩ := List.mem_flatMap.1 hy
      split at hy
      · simp only [List.mem_singleton] at hy
        exact h1.1 (hy ▸ List.mem_map_of_mem (f := key) he')
      · cases hy
    · cases hx

theorem mem_softNames {k : Text} : k ∈ softNames S T ↔ ∃ e tb, (e, tb) ∈ softPairs S T ∧ key e = k := by
  simp only [softNames, List.mem_map, Prod.exists]

namespace NsHyp
variable (H : NsHyp d E db N S T)
include H

theorem soft_get {k : Text} (h : k ∈ softNames S T) : ∃ e tb, S.enums.get k = some e ∧ T.enums.get k = none ∧
    T.tables.get k = some tb ∧ S.tables.get k = none ∧ e.name = tb.name := by
  obtain ⟨e, tb, hp, rfl⟩ := mem_softNames.1 h
  obtain ⟨h1, h2, h3⟩ := mem_softPairs.1 hp
  have a := (ODict.mem_difference_get H.wfS.enums).1 h1
  have b := (ODict.mem_difference_get H.wfT.tables).1 h2
  have hk : key tb = key e := by show tb.name.localId = e.name.localId; rw [h3]
  rw [hk] at b
  exact ⟨e, tb, a.1, a.2, b.1, b.2, h3⟩

/-- If an enumeration's name becomes a table's then the enumeration is renamed. -/
theorem soft_of {k : Text} {e : EnumType} {tb : Table} (h1 : S.enums.get k = some e) (h2 : T.tables.get k = some tb) :
    k ∈ softNames S T := by
  obtain ⟨m1, k1⟩ := mem_of_get h1
  obtain ⟨m2, k2⟩ := mem_of_get h2
  have hname := (H.safe.lookup tb m2 e m1 (by show key e = key tb; rw [k1, k2])).1
  rw [mem_softNames]
  refine ⟨e, tb, mem_softPairs.2 ⟨(ODict.mem_difference_get H.wfS.enums).2 ⟨get_of_mem H.wfS.enums m1, ?_⟩,
    (ODict.mem_difference_get H.wfT.tables).2 ⟨get_of_mem H.wfT.tables m2, ?_⟩, hname⟩, k1⟩
  · exact get_none (fun x hx hk => H.wfT.enumTable x hx tb m2 (by show key x = key tb; rw [hk, k1, k2]))
  · exact get_none (fun x hx hk => H.wfS.enumTable e m1 x hx (by show key e = key x; rw [hk, k1, k2]))

/-- Names and kinds of the target's objects in the source. -/
theorem src_of_enum {k : Text} {e : EnumType} (h : T.enums.get k = some e) :
    S.structs.get k = none ∧ S.tables.get k = none := by
  obtain ⟨m, hk⟩ := mem_of_get h
  have := H.safe.enumKind e m
  exact ⟨get_none (fun x hx hkx => this.1 x hx (by show key e = key x; rw [hk, hkx])),
    get_none (fun x hx hkx => this.2 x hx (by show key e = key x; rw [hk, hkx]))⟩

theorem src_of_struct {k : Text} {s : StructType} (h : T.structs.get k = some s) :
    S.enums.get k = none ∧ S.tables.get k = none := by
  obtain ⟨m, hk⟩ := mem_of_get h
  have := H.safe.structKind s m
  exact ⟨get_none (fun x hx hkx => this.1 x hx (by show key s = key x; rw [hk, hkx])),
    get_none (fun x hx hkx => this.2 x hx (by show key s = key x; rw [hk, hkx]))⟩

theorem src_of_table {k : Text} {tb : Table} (h : T.tables.get k = some tb) : S.structs.get k = none := by
  obtain ⟨m, hk⟩ := mem_of_get h
  exact get_none (fun x hx hkx => H.safe.tableKind tb m x hx (by show key tb = key x; rw [hk, hkx]))

theorem tgt_enum {k : Text} {e : EnumType} (h : T.enums.get k = some e) : T.structs.get k = none ∧ T.tables.get k = none := by
  obtain ⟨m, hk⟩ := mem_of_get h
  exact ⟨get_none (fun x hx hkx => H.wfT.enumStruct e m x hx (by show key e = key x; rw [hk, hkx])),
    get_none (fun x hx hkx => H.wfT.enumTable e m x hx (by show key e = key x; rw [hk, hkx]))⟩

theorem tgt_struct {k : Text} {s : StructType} (h : T.structs.get k = some s) : T.enums.get k = none ∧ T.tables.get k = none := by
  obtain ⟨m, hk⟩ := mem_of_get h
  exact ⟨get_none (fun x hx hkx => H.wfT.enumStruct x hx s m (by show key x = key s; rw [hk, hkx])),
    get_none (fun x hx hkx => H.wfT.structTable s m x hx (by show key s = key x; rw [hk, hkx]))⟩

theorem tgt_table {k : Text} {tb : Table} (h : T.tables.get k = some tb) : T.enums.get k = none ∧ T.structs.get k = none := by
  obtain ⟨m, hk⟩ := mem_of_get h
  exact ⟨get_none (fun x hx hkx => H.wfT.enumTable x hx tb m (by show key x = key tb; rw [hk, hkx])),
    get_none (fun x hx hkx => H.wfT.structTable x hx tb m (by show key x = key tb; rw [hk, hkx]))⟩

end NsHyp

/-! ### The states between the phases -/

def cE (S T : Namespace) : List Text := (T.enums.difference S.enums).map key
def cS (S T : Namespace) : List Text := (T.structs.difference S.structs).map key
def cT (S T : Namespace) : List Text := (T.tables.difference S.tables).map key
def mE (S T : Namespace) : List Text := (S.enums.intersection T.enums).map (fun p => key p.1)
def mS (S T : Namespace) : List Text := (S.structs.intersection T.structs).map (fun p => key p.1)
def mT (S T : Namespace) : List Text := (S.tables.intersection T.tables).map (fun p => key p.1)
def dT (S T : Namespace) : List Text := (S.tables.difference T.tables).map key
def dS (S T : Namespace) : List Text := (S.structs.difference T.structs).map key

theorem mem_diff_keys {α : Type} [Named α] {D D' : ODict α} (h : Distinct D) {k : Text} :
    k ∈ (D.difference D').map key ↔ (∃ a, D.get k = some a) ∧ D'.get k = none := by
  rw [List.mem_map]
  constructor
  · rintro ⟨a, ha, rfl⟩
    have := (ODict.mem_difference_get h).1 ha
    exact ⟨⟨a, this.1⟩, this.2⟩
  · rintro ⟨⟨a, ha⟩, h2⟩
    have hk := (mem_of_get ha).2
    exact ⟨a, (ODict.mem_difference_get h).2 ⟨by rw [hk]; exact ha, by rw [hk]; exact h2⟩, hk⟩

theorem mem_inter_keys {α : Type} [Named α] {D D' : ODict α} (h : Distinct D) (h' : Distinct D') {k : Text} :
    k ∈ (D.intersection D').map (fun p => key p.1) ↔ ∃ a b, D.get k = some a ∧ D'.get k = some b := by
  rw [List.mem_map]
  constructor
  · rintro ⟨⟨a, b⟩, ha, rfl⟩
    have := (ODict.mem_intersection_get h h').1 ha
    exact ⟨a, b, this.1, this.2.1⟩
  · rintro ⟨a, b, ha, hb⟩
    have hk := (mem_of_get ha).2
    have hk' := (mem_of_get hb).2
    exact ⟨(a, b), (ODict.mem_intersection_get h h').2 ⟨by rw [hk]; exact ha, by rw [hk]; exact hb, by rw [hk, hk']⟩, hk⟩

/-- How references to renamed enumerations change. -/
def ren (N : Text) (p : List Text) (q : QId) : QId :=
  if q.isGlobal = false ∧ q.key.1 = N ∧ q.localId ∈ p then .qualified q.scopeId (deletedName q.localId) else q

theorem ren_global {N : Text} {p : List Text} (q : QId) (h : q.isGlobal = true) : ren N p q = q := by
  unfold ren
  rw [if_neg (by simp [h])]

theorem ren_isGlobal {N : Text} {p : List Text} (q : QId) : (ren N p q).isGlobal = q.isGlobal := by
  unfold ren
  split
  · rename_i h; rw [h.1]; rfl
  · rfl

noncomputable def f1 (d : Dialect) (E : Engine) (S T : Namespace) : Text → Option Obj :=
  over (over (Spec.Namespace.obj d E S) (Spec.Namespace.obj d E T) (cE S T)) (Spec.Namespace.obj d E T) (cS S T)

/-- The objects after some enumerations were renamed. -/
def renF (N : Text) (X : Text → Option Obj) (p : List Text) : Text → Option Obj := fun n =>
  (over (over X (fun _ => none) p) (fun n => X (n.drop 10)) (p.map deletedName) n).map (Obj.mapRef (ren N p))

noncomputable def f2 (d : Dialect) (E : Engine) (N : Text) (S T : Namespace) : Text → Option Obj :=
  renF N (f1 d E S T) (softNames S T)

noncomputable def bareY (d : Dialect) (T : Namespace) : Text → Option Obj := fun n =>
  (T.tables.get n).map (fun tb => .table (bare d tb))

noncomputable def f3 (d : Dialect) (E : Engine) (N : Text) (S T : Namespace) : Text → Option Obj :=
  over (f2 d E N S T) (bareY d T) (cT S T)
noncomputable def f4 (d : Dialect) (E : Engine) (N : Text) (S T : Namespace) : Text → Option Obj :=
  over (f3 d E N S T) (Spec.Namespace.obj d E T) (cT S T)
noncomputable def f5 (d : Dialect) (E : Engine) (N : Text) (S T : Namespace) : Text → Option Obj :=
  over (f4 d E N S T) (Spec.Namespace.obj d E T) (mE S T)
noncomputable def f6 (d : Dialect) (E : Engine) (N : Text) (S T : Namespace) : Text → Option Obj :=
  over (f5 d E N S T) (Spec.Namespace.obj d E T) (mS S T)
noncomputable def f7 (d : Dialect) (E : Engine) (N : Text) (S T : Namespace) : Text → Option Obj :=
  over (f6 d E N S T) (Spec.Namespace.obj d E T) (mT S T)

namespace NsHyp
variable (H : NsHyp d E db N S T)
include H

theorem mem_cE {k : Text} : k ∈ cE S T ↔ (∃ e, T.enums.get k = some e) ∧ S.enums.get k = none := mem_diff_keys H.wfT.enums
theorem mem_cS {k : Text} : k ∈ cS S T ↔ (∃ e, T.structs.get k = some e) ∧ S.structs.get k = none := mem_diff_keys H.wfT.structs
theorem mem_cT {k : Text} : k ∈ cT S T ↔ (∃ e, T.tables.get k = some e) ∧ S.tables.get k = none := mem_diff_keys H.wfT.tables
theorem mem_dT {k : Text} : k ∈ dT S T ↔ (∃ e, S.tables.get k = some e) ∧ T.tables.get k = none := mem_diff_keys H.wfS.tables
theorem mem_dS {k : Text} : k ∈ dS S T ↔ (∃ e, S.structs.get k = some e) ∧ T.structs.get k = none := mem_diff_keys H.wfS.structs
theorem mem_mE {k : Text} : k ∈ mE S T ↔ ∃ a b, S.enums.get k = some a ∧ T.enums.get k = some b :=
  mem_inter_keys H.wfS.enums H.wfT.enums
theorem mem_mS {k : Text} : k ∈ mS S T ↔ ∃ a b, S.structs.get k = some a ∧ T.structs.get k = some b :=
  mem_inter_keys H.wfS.structs H.wfT.structs
theorem mem_mT {k : Text} : k ∈ mT S T ↔ ∃ a b, S.tables.get k = some a ∧ T.tables.get k = some b :=
  mem_inter_keys H.wfS.tables H.wfT.tables

theorem f0_created {k : Text} (h : k ∈ cE S T ∨ k ∈ cS S T) : Spec.Namespace.obj d E S k = none := by
  rcases h with h | h
  · obtain ⟨⟨e, he⟩, hs⟩ := H.mem_cE.1 h
    have := H.src_of_enum he
    exact obj_none hs this.1 this.2
  · obtain ⟨⟨e, he⟩, hs⟩ := H.mem_cS.1 h
    have := H.src_of_struct he
    exact obj_none this.1 hs this.2

theorem f1_created {k : Text} (h : k ∈ cE S T ∨ k ∈ cS S T) : f1 d E S T k = Spec.Namespace.obj d E T k := by
  unfold f1
  by_cases h2 : k ∈ cS S T
  · rw [over_mem h2]
  · rw [over_notMem h2, over_mem (h.resolve_right h2)]

theorem f1_other {k : Text} (h1 : k ∉ cE S T) (h2 : k ∉ cS S T) : f1 d E S T k = Spec.Namespace.obj d E S k := by
  unfold f1; rw [over_notMem h2, over_notMem h1]

/-- What exists in the source exists unchanged. -/
theorem f1_src {k : Text} {o : Obj} (h : Spec.Namespace.obj d E S k = some o) : f1 d E S T k = some o := by
  by_cases hc : k ∈ cE S T ∨ k ∈ cS S T
  · rw [H.f0_created hc] at h; cases h
  · rw [not_or] at hc; rw [H.f1_other hc.1 hc.2, h]

theorem f1_deleted (k : Text) : f1 d E S T (deletedName k) = none := by
  rw [H.f1_other]
  · exact obj_deleted H.wfS k
  · intro h
    obtain ⟨⟨e, he⟩, _⟩ := H.mem_cE.1 h
    have := obj_enum (d := d) (E := E) he
    rw [obj_deleted H.wfT] at this; cases this
  · intro h
    obtain ⟨⟨e, he⟩, _⟩ := H.mem_cS.1 h
    have := obj_struct (d := d) (E := E) H.wfT he
    rw [obj_deleted H.wfT] at this; cases this

/-- The target's types are not renamed. -/
theorem ren_fix {q : QId} (h : (withNs db N (Spec.Namespace.obj d E T)).kinds q.key = some .enum ∨
    (withNs db N (Spec.Namespace.obj d E T)).kinds q.key = some .struct) {p : List Text}
    (hp : ∀ x ∈ p, x ∈ softNames S T) : ren N p q = q := by
  unfold ren
  rw [if_neg]
  rintro ⟨_, h1, h2⟩
  obtain ⟨e, tb, _, _, h3, _⟩ := H.soft_get (hp _ h2)
  rw [kinds_in' h1, show q.key.2 = q.localId from rfl, obj_table H.wfT h3] at h
  simp [Obj.kind] at h

theorem fixT {o : Obj} (h : o.Fits (withNs db N (Spec.Namespace.obj d E T)).kinds) {p : List Text}
    (hp : ∀ x ∈ p, x ∈ softNames S T) : o.mapRef (ren N p) = o :=
  obj_mapRef_id h ren_global (fun _ hq => H.ren_fix hq hp)

theorem soft_not_deleted {k : Text} (h : k ∈ softNames S T) (x : Text) : k ≠ deletedName x := by
  obtain ⟨e, tb, he, _⟩ := H.soft_get h
  intro hk
  have := obj_enum (d := d) (E := E) he
  rw [hk, obj_deleted H.wfS] at this
  cases this

/-- Not affected by the renaming of enumerations, except for references. -/
theorem f2_plain {k : Text} (h1 : k ∉ softNames S T) (h2 : ∀ x ∈ softNames S T, k ≠ deletedName x) :
    f2 d E N S T k = (f1 d E S T k).map (Obj.mapRef (ren N (softNames S T))) := by
  unfold f2 renF
  rw [over_notMem, over_notMem h1]
  intro h
  obtain ⟨x, hx, e⟩ := List.mem_map.1 h
  exact h2 x hx e.symm

theorem f2_soft {k : Text} (h : k ∈ softNames S T) : f2 d E N S T k = none := by
  unfold f2 renF
  rw [over_notMem, over_mem h]
  · rfl
  · intro hm
    obtain ⟨x, _, e⟩ := List.mem_map.1 hm
    exact H.soft_not_deleted h x e.symm

theorem f2_deleted {k : Text} (h : k ∈ softNames S T) : ∃ e, S.enums.get k = some e ∧
    f2 d E N S T (deletedName k) = some (EnumType.obj e) := by
  obtain ⟨e, tb, he, _⟩ := H.soft_get h
  refine ⟨e, he, ?_⟩
  unfold f2 renF
  rw [over_mem (List.mem_map_of_mem h), deletedName_drop, H.f1_src (obj_enum he)]
  rfl

theorem kle_T {f : Text → Option Obj}
    (h : ∀ n o, Spec.Namespace.obj d E T n = some o → ∃ o', f n = some o' ∧ o'.kind = o.kind) :
    KLe (withNs db N (Spec.Namespace.obj d E T)).kinds (withNs db N f).kinds := kle_withNs h

theorem fitsT {n : Text} {o : Obj} (h : Spec.Namespace.obj d E T n = some o) :
    o.Fits (withNs db N (Spec.Namespace.obj d E T)).kinds :=
  H.vT.fits (N, n) o (by rw [withNs_in]; exact h)

theorem fitsOut {k : Key} {o : Obj} (hk : k.1 ≠ N) (h : db.objs k = some o) :
    o.Fits (withNs db N (Spec.Namespace.obj d E T)).kinds :=
  H.vT.fits k o (by rw [withNs_out hk]; exact h)

/-- The target's types exist as soon as the types are created and the replaced enumerations renamed. -/
theorem f2_types {n : Text} {o : Obj} (h : Spec.Namespace.obj d E T n = some o) (hk : o.kind = .enum ∨ o.kind = .struct) :
    ∃ o', f2 d E N S T n = some o' ∧ o'.kind = o.kind := by
  have hns : n ∉ softNames S T := by
    intro hm
    obtain ⟨e, tb, _, _, h3, _⟩ := H.soft_get hm
    rw [obj_table H.wfT h3] at h
    cases h
    simp [Obj.kind] at hk
  have hnd : ∀ x ∈ softNames S T, n ≠ deletedName x := by
    rintro x _ rfl
    rw [obj_deleted H.wfT] at h
    cases h
  rw [H.f2_plain hns hnd]
  rcases obj_some h with ⟨e, he, rfl⟩ | ⟨s, hs, rfl⟩ | ⟨tb, htb, rfl⟩
  · cases hS : S.enums.get n with
    | some e' => rw [H.f1_src (obj_enum hS)]; exact ⟨_, rfl, rfl⟩
    | none => rw [H.f1_created (.inl (H.mem_cE.2 ⟨⟨e, he⟩, hS⟩)), h]; exact ⟨_, rfl, rfl⟩
  · cases hS : S.structs.get n with
    | some e' => rw [H.f1_src (obj_struct H.wfS hS)]; exact ⟨_, rfl, rfl⟩
    | none => rw [H.f1_created (.inr (H.mem_cS.2 ⟨⟨s, hs⟩, hS⟩)), h]; exact ⟨_, rfl, rfl⟩
  · simp [Obj.kind] at hk

theorem cT_free {k : Text} (h : k ∈ cT S T) : f2 d E N S T k = none := by
  obtain ⟨⟨tb, htb⟩, hs⟩ := H.mem_cT.1 h
  cases he : S.enums.get k with
  | some e => exact H.f2_soft (H.soft_of he htb)
  | none =>
    have hobj : Spec.Namespace.obj d E S k = none := obj_none he (H.src_of_table htb) hs
    have hns : k ∉ softNames S T := by
      intro hm
      obtain ⟨e, _, he', _⟩ := H.soft_get hm
      rw [he] at he'; cases he'
    have hnd : ∀ x ∈ softNames S T, k ≠ deletedName x := by
      rintro x _ rfl
      have := obj_table (d := d) (E := E) H.wfT htb
      rw [obj_deleted H.wfT] at this
      cases this
    rw [H.f2_plain hns hnd, H.f1_other, hobj]
    · rfl
    · intro hc
      obtain ⟨⟨e, he⟩, _⟩ := H.mem_cE.1 hc
      rw [(H.tgt_table htb).1] at he; cases he
    · intro hc
      obtain ⟨⟨e, he⟩, _⟩ := H.mem_cS.1 hc
      rw [(H.tgt_table htb).2] at he; cases he

theorem f4_T {n : Text} {o : Obj} (h : Spec.Namespace.obj d E T n = some o) :
    ∃ o', f4 d E N S T n = some o' ∧ o'.kind = o.kind := by
  unfold f4
  by_cases hc : n ∈ cT S T
  · rw [over_mem hc]; exact ⟨o, h, rfl⟩
  · rw [over_notMem hc]
    unfold f3
    rw [over_notMem hc]
    rcases obj_some h with ⟨e, he, rfl⟩ | ⟨s, hs, rfl⟩ | ⟨tb, htb, rfl⟩
    · exact H.f2_types h (.inl rfl)
    · exact H.f2_types h (.inr rfl)
    · cases hS : S.tables.get n with
      | none => exact absurd (H.mem_cT.2 ⟨⟨tb, htb⟩, hS⟩) hc
      | some tb' =>
        have hns : n ∉ softNames S T := by
          intro hm
          obtain ⟨e, _, _, _, _, h4, _⟩ := H.soft_get hm
          rw [hS] at h4; cases h4
        have hnd : ∀ x ∈ softNames S T, n ≠ deletedName x := by
          rintro x _ rfl
          rw [obj_deleted H.wfT] at h
          cases h
        rw [H.f2_plain hns hnd, H.f1_src (obj_table H.wfS hS)]
        refine ⟨_, rfl, ?_⟩
        obtain ⟨m1, k1⟩ := mem_of_get hS
        obtain ⟨m2, k2⟩ := mem_of_get htb
        have := (H.safe.tables tb' m1 tb m2 (by show key tb' = key tb; rw [k1, k2])).key
        simp only [Obj.kind, Obj.mapRef, Spec.Table.state, this]

theorem kle_f4 : KLe (withNs db N (Spec.Namespace.obj d E T)).kinds (withNs db N (f4 d E N S T)).kinds :=
  kle_withNs (fun _ _ h => H.f4_T h)

end NsHyp
end
end PySqlSync
