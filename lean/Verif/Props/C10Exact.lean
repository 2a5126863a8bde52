/-
C10 — Data survives the conversion of labels to keys: exactly when.
-/
import Verif.Props.C10Catalog

set_option autoImplicit false

namespace PySqlSync
open Spec

namespace C10

variable {R : RowEngine} {d : Dialect} {a b : Table}

/-- PostgreSQL's statements for the migrated columns update the table, and no other. -/
theorem postgres_others {p : List (Column × Column)} : ∀ {mg : List (List Stmt)},
    p.mapM (fun p => migrateColumn .postgresql a p.1 b p.2) = .ok mg →
    ∀ {D D' : Data}, rowRun R D mg.flatten = some D' → ∀ k, k ≠ a.name.key → D' k = D k := by
  induction p with
  | nil =>
    intro mg h D D' hr k hk
    simp [pure, Except.pure] at h; subst h
    cases hr; rfl
  | cons x l ih =>
    intro mg h D D' hr k hk
    obtain ⟨rp, y, rq, hrp, hy, hrq, e⟩ := mapM_split (P := []) h
    simp [pure, Except.pure] at hrp
    subst hrp; subst e
    simp only [List.nil_append, List.flatten_cons] at hr
    obtain ⟨Da, h1, h2⟩ := rowRun_append_some hr
    rw [ih hrq h2 k hk]
    obtain ⟨nm, ref, ins, _, e, hi⟩ := migrate_ok (d := .postgresql) (.inl rfl) hy
    rcases hi with ⟨rfl, _⟩ | ⟨_, h, _⟩ | ⟨h, _⟩
    · subst e
      simp only [List.nil_append, rowRun, rowStep] at h1
      cases h1
      exact updR_ne (fun e => hk e)
    · cases h
    · cases h

/-- PostgreSQL's script for a table changes no row of another table. -/
theorem postgres_lookup (wa : TableWF .postgresql a) (wb : TableWF .postgresql b) {stmts : List Stmt}
    (h : mutateTable .postgresql a b = .ok stmts) {s u : Column} (hs : s ∈ a.columns.items)
    (hu : u ∈ b.columns.items) (hn : s.name = u.name) (hc : Converted .postgresql s u) {D D' : Data}
    (hr : rowRun R D stmts = some D') {k : Key} (hk : k ≠ a.name.key) : D' k = D k := by
  obtain ⟨base, D0, hb, hr0, hk0, _, _⟩ := to_base h hr
  obtain ⟨mg, D2, D3, hmg, h3, hother, _⟩ := phases hb wa wb hs hu hn hc hr0
  rw [(hother k hk).2, postgres_others hmg h3 k hk, (hother k hk).1, hk0 k hk]

/-- The script for a table changes the number of its rows as little as any other script does. -/
theorem count (wa : TableWF d a) (wb : TableWF d b) {stmts : List Stmt} (h : mutateTable d a b = .ok stmts)
    {s u : Column} (hs : s ∈ a.columns.items) (hu : u ∈ b.columns.items) (hn : s.name = u.name) (hc : Converted d s u)
    (hself : ∀ x ∈ a.columns.items, ∀ y ∈ b.columns.items, x.name = y.name → Converted d x y →
      ∀ nm' r, Constraint.foreign nm' [y.name] r ∈ b.constraints.items → r.table.key ≠ a.name.key)
    (hcast : ∀ v, v = .null ∨ (∃ i, v = .int i) → R.cast u.ty v = some v) {D D' : Data}
    (hr : rowRun R D stmts = some D') : (D' a.name.key).length = (D a.name.key).length := by
  obtain ⟨base, D0, hb, hr0, hk0, hE0, _⟩ := to_base h hr
  obtain ⟨mg, D2, D3, hmg, h3, hother, hren, hz, _, hkeep⟩ := phases hb wa wb hs hu hn hc hr0
  have e1 := (hkeep hcast).1
  have e2 := hren.1
  have e0 := (hE0 []).1
  have e3 : (D3 a.name.key).length = (D2 a.name.key).length := by
    by_cases hd : d = .postgresql ∨ d = .mysql
    · exact (migrates_keep hd (m := deletedName s.name) hmg (fun p hp =>
          hself p.1 (migrated_spec hp).1 p.2 (migrated_spec hp).2.1 (migrated_spec hp).2.2.1 (migrated_spec hp).2.2.2)
          (fun p hp e => wb.names p.2 (migrated_spec hp).2.1 _ e.symm) h3).1.1
    · have e : mg.flatten = [] := by
        refine C10.mapM_nil (α := Column × Column) (l := migratedPairs d a b) ?_
        rw [← hmg]
        congr 1
        funext p
        unfold migrateColumn
        split
        · exact absurd (.inl rfl) hd
        · exact absurd (.inr rfl) hd
        · rfl
      rw [e] at h3
      cases h3
      rfl
  omega

end C10

open C10 in
/-- **C10.**  Exactly when the labels survive.  A column of labels becomes a nullable key, or a required key in a
    database without implicit values; the script for the table runs.  Then every label of every row is resolved by the
    row's new key if and only if the lookup table lists them all (PostgreSQL), always (MySQL), or there is no label at
    all (other dialects); and in each case rows without a label get no key. -/
theorem C10_exact_criterion {d : Dialect} {R : RowEngine} {a b : Table}
    (wa : TableWF d a) (wb : TableWF d b) {stmts : List Stmt} (h : mutateTable d a b = .ok stmts)
    {s u : Column} (hs : s ∈ a.columns.items) (hu : u ∈ b.columns.items) (hn : s.name = u.name)
    (hc : Converted d s u) {nm : Text} {ref : Ref} (hfk : Constraint.foreign nm [u.name] ref ∈ b.constraints.items)
    (huniq : ∀ nm' ref', Constraint.foreign nm' [u.name] ref' ∈ b.constraints.items → ref' = ref)
    (hself : ∀ x ∈ a.columns.items, ∀ y ∈ b.columns.items, x.name = y.name → Converted d x y →
      ∀ nm' r, Constraint.foreign nm' [y.name] r ∈ b.constraints.items → r.table.key ≠ a.name.key)
    (hi : u.identity = false) (hdef : u.default = none) (himp : u.nullable = false → R.implicit u.ty = none)
    {D D' : Data} (hid : ∀ l ∈ D ref.table.key, ∃ i, l (t "id") = .int i) (htyped : EnumTyped s (D a.name.key))
    (hcast : ∀ v, v = .null ∨ (∃ i, v = .int i) → R.cast u.ty v = some v) (hr : rowRun R D stmts = some D') :
    (Each (fun r r' => r s.name ≠ .null → ResolvesTo (D' ref.table.key) (r' u.name) (r s.name))
        (D a.name.key) (D' a.name.key)
      ↔ LabelsKept d (D ref.table.key) (D a.name.key) s.name)
    ∧ Each (fun r r' => r s.name = .null → r' u.name = .null) (D a.name.key) (D' a.name.key) := by
  have hlen := count wa wb h hs hu hn hc hself hcast hr
  by_cases hrows : D a.name.key = []
  · have hlen : D' a.name.key = [] := List.eq_nil_of_length_eq_zero (by rw [hlen, hrows]; rfl)
    rw [hrows, hlen]
    refine ⟨⟨fun _ => ?_, fun _ => ⟨rfl, fun i r r' hi => by simp at hi⟩⟩, ⟨rfl, fun i r r' hi => by simp at hi⟩⟩
    unfold LabelsKept
    split <;> simp
  have hnullable : u.nullable = true := by
    cases hz : u.nullable with
    | true => rfl
    | false =>
      have := C10_not_null_column_refused wa wb h hs hu hn hc hi hdef hz (himp hz) hrows
      rw [hr] at this; cases this
  have hk : ref.table.key ≠ a.name.key := hself s hs u hu hn hc nm ref hfk
  have at_index : ∀ r ∈ D a.name.key, ∃ (i : Nat) (r' : Row), (D a.name.key)[i]? = some r ∧ (D' a.name.key)[i]? = some r' := by
    intro r hr
    obtain ⟨i, hi⟩ := List.mem_iff_getElem?.1 hr
    obtain ⟨hlt, _⟩ := List.getElem?_eq_some_iff.1 hi
    exact ⟨i, (D' a.name.key)[i]'(by omega), hi, List.getElem?_eq_getElem (by omega)⟩
  by_cases hp : d = .postgresql
  · subst hp
    have hfix : D' ref.table.key = D ref.table.key := postgres_lookup wa wb h hs hu hn hc hr hk
    have hlab : Each (fun r r' => r s.name = .null → r' u.name = .null) (D a.name.key) (D' a.name.key) := by
      exact each_mono (fun x y h e => h.2 e hi hdef hnullable)
        (C10.resolved (.inl rfl) wa wb h hs hu hn hc hfk huniq hself hid hcast hr)
    refine ⟨⟨fun hE r hr hv => ?_, fun hl => ?_⟩, hlab⟩
    · obtain ⟨i, r', h1, h2⟩ := at_index r hr
      obtain ⟨l, hl, e, _⟩ := hE.2 i r r' h1 h2 hv
      rw [hfix] at hl
      exact ⟨l, hl, e⟩
    · exact each_mono (fun x y h => h.1) (C10_labels_become_keys (.inl rfl) wa wb h hs hu hn hc hfk huniq hself hid hcast
        (fun r hr hv => .inl (hl r hr hv)) hr)
  by_cases hm : d = .mysql
  · subst hm
    have hE := C10_labels_become_keys (.inr rfl) wa wb h hs hu hn hc hfk huniq hself hid hcast
        (fun r hr hv => .inr (by
          rcases hc.2.2 with h1 | h1 | ⟨h1, _⟩
          · refine .inr ⟨rfl, ?_⟩
            cases hty : s.ty with
            | enum vs => exact ⟨vs, rfl, htyped vs hty r hr hv⟩
            | _ => simp [hty, SqlType.isEnum] at h1
          · exact .inl ⟨rfl, h1⟩
          · cases h1)) hr
    exact ⟨⟨fun _ => trivial, fun _ => each_mono (fun x y h => h.1) hE⟩,
      each_mono (fun x y h e => h.2 e hi hdef hnullable) hE⟩
  · have hE := C10_other_dialects_forget hp hm wa wb h hs hu hn hc hi hdef hnullable hcast hr
    have hL : LabelsKept d (D ref.table.key) (D a.name.key) s.name ↔ ∀ r ∈ D a.name.key, r s.name = .null := by
      unfold LabelsKept
      split
      · exact absurd rfl hp
      · exact absurd rfl hm
      · exact Iff.rfl
    rw [hL]
    refine ⟨⟨fun hR r hr => ?_, fun hn => ⟨hlen, fun i r r' h1 _ hv => ?_⟩⟩, ⟨hE.1, fun i r r' h1 h2 _ => hE.2 i r r' h1 h2⟩⟩
    · obtain ⟨i, r', h1, h2⟩ := at_index r hr
      refine Classical.byContradiction fun hv => ?_
      obtain ⟨l, _, _, _, e⟩ := hR.2 i r r' h1 h2 hv
      exact e (hE.2 i r r' h1 h2)
    · exact absurd (hn r (List.mem_iff_getElem?.2 ⟨i, h1⟩)) hv

namespace C10.Example
open PySqlSync.Example

/-- The same orders, one of them with a label that the lookup table does not list. -/
def D₂ : Data := fun k =>
  if k = order0.name.key then [row (.int 1) (.text (t "paid")), row (.int 2) .null, row (.int 3) (.text (t "lost"))]
  else if k = status1.name.key then [label 7 "open", label 9 "paid"] else []

/-- The script runs on both contents. -/
example : (rowRun R D (script order0 order2)).isSome ∧ (rowRun R D₂ (script order0 order2)).isSome := by decide +kernel

/-- The criterion applied to them: the labels of the first contents are kept, those of the second are not. -/
theorem both {D₀ D' : Data} (hl : D₀ status1.name.key = [label 7 "open", label 9 "paid"])
    (hr : rowRun R D₀ (script order0 order2) = some D') :
    Each (fun r r' => r (t "status") ≠ .null → ResolvesTo (D' status1.name.key) (r' (t "status")) (r (t "status")))
        (D₀ order0.name.key) (D' order0.name.key)
      ↔ ∀ r ∈ D₀ order0.name.key, r (t "status") ≠ .null → ∃ l ∈ D₀ status1.name.key, l (t "value") = r (t "status") := by
  have hs : mutateTable .postgresql order0 order2 = .ok (script order0 order2) :=
    ok_of_toOption (by decide +kernel)
  exact (C10_exact_criterion (d := .postgresql) (R := R) (a := order0) (b := order2)
    (tableWFB_ok (by decide +kernel)) (tableWFB_ok (by decide +kernel)) hs
    (s := col "status" (.user (q "shop" "status")) false) (u := col "status" int8)
    (by decide +kernel) (by decide +kernel) rfl ⟨by decide, by decide, by decide⟩
    (nm := t "fk_status") (ref := ⟨q "shop" "status", [t "id"]⟩) (by decide +kernel)
    (by intro nm' ref' h
        simp only [order2, order1, List.mem_cons, Constraint.foreign.injEq, List.not_mem_nil, or_false] at h
        rcases h with ⟨_, h, _⟩ | ⟨_, _, h⟩
        · exact absurd h (by decide)
        · exact h)
    (by intro _ _ c _ _ _ nm' r h
        simp only [order2, order1, List.mem_cons, Constraint.foreign.injEq, List.not_mem_nil, or_false] at h
        rcases h with ⟨_, _, rfl⟩ | ⟨_, _, rfl⟩ <;> decide +kernel)
    rfl rfl (fun _ => rfl) (D := D₀) (by
      intro l hl'
      have e : D₀ (q "shop" "status").key = [label 7 "open", label 9 "paid"] := hl
      rw [e] at hl'
      rcases List.mem_cons.1 hl' with rfl | hl'
      · exact ⟨7, by decide +kernel⟩
      · rw [List.mem_singleton.1 hl']; exact ⟨9, by decide +kernel⟩)
    (fun vs h => by cases h) (fun v _ => rfl) hr).1

example {D' : Data} (hr : rowRun R D₂ (script order0 order2) = some D') :
    ¬ Each (fun r r' => r (t "status") ≠ .null → ResolvesTo (D' status1.name.key) (r' (t "status")) (r (t "status")))
        (D₂ order0.name.key) (D' order0.name.key) := by
  rw [both rfl hr]
  intro h
  obtain ⟨l, hl, e⟩ := h (row (.int 3) (.text (t "lost"))) (by
    show _ ∈ [row (.int 1) (.text (t "paid")), row (.int 2) .null, row (.int 3) (.text (t "lost"))]; simp) (by decide +kernel)
  have : l ∈ [label 7 "open", label 9 "paid"] := hl
  rcases List.mem_cons.1 this with rfl | h
  · exact absurd e (by decide +kernel)
  · rw [List.mem_singleton.1 h] at e; exact absurd e (by decide +kernel)

end C10.Example

end PySqlSync
