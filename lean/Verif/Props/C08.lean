/-
C08 — Composite type alteration is exact.
-/
import Verif.Lemmas.TypeMutate
import Verif.Examples.Shop

set_option autoImplicit false

namespace PySqlSync
open Spec

/-- Executed on a consistent database with the source's type, the script turns it into the target's type and changes
    nothing else. -/
theorem C08_alter_struct_exact {E : Engine} {db : Db} (v : Valid db) (d : Dialect) {s u : StructType}
    (hs : Distinct s.members) (hu : Distinct u.members)
    (h0 : db.objs s.name.key = some (.struct (fun n => (s.members.get n).map StructMember.ty)))
    (hfit : ∀ m ∈ u.members.items, TypeFits db.kinds m.ty)
    {stmts : List Stmt} (h : mutateStruct d s u = .ok stmts) :
    Runs E db stmts ({ db with
      objs := upd db.objs s.name.key (some (.struct (fun n => (u.members.get n).map StructMember.ty))) }) := by
  refine runs_mutateStruct (σ := id) v h hs hu (fun _ _ _ _ => rfl) h0 ?_
  intro n ty hty
  simp only [Option.map_eq_some_iff] at hty
  obtain ⟨m, hm, rfl⟩ := hty
  exact hfit m (ODict.get_some_mem hm).1

/-- An error is raised for types of different names only. -/
theorem C08_refused_iff (d : Dialect) {s u : StructType} :
    (∃ e, mutateStruct d s u = .error e) ↔ s.name ≠ u.name := by
  unfold mutateStruct checkIdentity
  by_cases e : s.name = u.name <;> simp [e, bind, Except.bind, pure, Except.pure]

/-- Nothing is emitted iff the types have the same members (and, on PostgreSQL, which stores it, description). -/
theorem C08_nothing_emitted_iff (d : Dialect) {s u : StructType} (hn : s.name = u.name)
    (hu : Distinct u.members) :
    mutateStruct d s u = .ok [] ↔
      (∀ m, m ∈ s.members.items ↔ m ∈ u.members.items) ∧ (d = .postgresql → s.description = u.description) := by
  have hact : structActions s u = [] ↔ ∀ m, m ∈ s.members.items ↔ m ∈ u.members.items := by
    unfold structActions
    simp only [List.append_eq_nil_iff, List.map_eq_nil_iff, List.filterMap_eq_nil_iff]
    constructor
    · rintro ⟨⟨h1, h2⟩, h3⟩ m
      have common : ∀ a b, a ∈ s.members.items → b ∈ u.members.items → key a = key b → a = b := by
        intro a b ha hb hk
        have := h2 (a, b) ((ODict.mem_intersection hu).2 ⟨ha, hb, hk⟩)
        apply Classical.byContradiction
        intro hne
        simp [hne] at this
      constructor
      · intro hm
        have : m ∉ s.members.difference u.members := by rw [h1]; simp
        rw [ODict.mem_difference] at this
        have hk : key m ∈ u.members.items.map key := Classical.byContradiction (fun h => this ⟨hm, h⟩)
        obtain ⟨b, hb, hbk⟩ := List.mem_map.1 hk
        rw [common m b hm hb hbk.symm]; exact hb
      · intro hm
        have : m ∉ u.members.difference s.members := by rw [h3]; simp
        rw [ODict.mem_difference] at this
        have hk : key m ∈ s.members.items.map key := Classical.byContradiction (fun h => this ⟨hm, h⟩)
        obtain ⟨b, hb, hbk⟩ := List.mem_map.1 hk
        rw [← common b m hb hm hbk]; exact hb
    · intro h
      refine ⟨⟨?_, ?_⟩, ?_⟩
      · apply List.eq_nil_iff_forall_not_mem.2
        intro a ha
        obtain ⟨h1, h2⟩ := ODict.mem_difference.1 ha
        exact h2 (List.mem_map_of_mem ((h a).1 h1))
      · intro p hp
        obtain ⟨h1, h2, h3⟩ := (ODict.mem_intersection (a := p.1) (b := p.2) hu).1 hp
        have e1 := ODict.get_eq_of_mem hu ((h p.1).1 h1)
        rw [h3, ODict.get_eq_of_mem hu h2] at e1
        simp [Option.some.inj e1]
      · apply List.eq_nil_iff_forall_not_mem.2
        intro a ha
        obtain ⟨h1, h2⟩ := ODict.mem_difference.1 ha
        exact h2 (List.mem_map_of_mem ((h a).2 h1))
  have hcom : commentChange s.description u.description (Stmt.commentType u.name) = [] ↔
      s.description = u.description := by
    unfold commentChange
    cases hs : s.description <;> cases hu : u.description <;> simp
  unfold mutateStruct checkIdentity
  simp only [hn, if_true, bind, Except.bind, pure, Except.pure, Except.ok.injEq, List.append_eq_nil_iff]
  refine and_congr ?_ ?_
  · rw [← hact]
    by_cases e : structActions s u = [] <;> simp [e]
  · cases d <;> simp [hcom]

/-- A case in which an attribute goes, one changes and one comes. -/
example : mutateStruct .postgresql
      { name := Example.q "s" "a", members := ⟨[⟨t "x", Example.int4, none⟩, ⟨t "y", Example.int4, none⟩]⟩ }
      { name := Example.q "s" "a", members := ⟨[⟨t "y", Example.int8, none⟩, ⟨t "z", Example.text, none⟩]⟩ }
    = .ok [.alterStruct (Example.q "s" "a")
        [.drop (t "x"), .setDataType (t "y") Example.int8, .add (t "z") Example.text]] :=
  Example.ok_of_toOption (by decide +kernel)

end PySqlSync
