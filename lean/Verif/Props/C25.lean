/-
C25 — Upsert changes only the supplied columns.
-/
import Verif.Props.C24

set_option autoImplicit false

namespace PySqlSync
open Spec

variable {V : Type} [DecidableEq V]

/-- The k-th row is still the k-th row, and has the same values in all columns but those listed. -/
def KeepsOthers (cols : List Text) (rows rows' : List (DataRow V)) : Prop :=
  ∀ (k : Nat) (m : DataRow V), rows[k]? = some m → ∃ m', rows'[k]? = some m' ∧ ∀ c, c ∉ cols → m' c = m c

namespace C25

omit [DecidableEq V] in
theorem keeps_refl (cols : List Text) (rows : List (DataRow V)) : KeepsOthers cols rows rows :=
  fun _ m h => ⟨m, h, fun _ _ => rfl⟩

omit [DecidableEq V] in
theorem keeps_append (cols : List Text) (rows l : List (DataRow V)) : KeepsOthers cols rows (rows ++ l) := by
  intro k m h
  refine ⟨m, ?_, fun _ _ => rfl⟩
  rw [List.getElem?_append_left (List.getElem?_eq_some_iff.1 h).1, h]

omit [DecidableEq V] in
theorem keeps_trans {cols : List Text} {a b c : List (DataRow V)} (h : KeepsOthers cols a b) (h' : KeepsOthers cols b c) :
    KeepsOthers cols a c := by
  intro k m hm
  obtain ⟨m1, h1, e1⟩ := h k m hm
  obtain ⟨m2, h2, e2⟩ := h' k m1 h1
  exact ⟨m2, h2, fun x hx => by rw [e2 x hx, e1 x hx]⟩

omit [DecidableEq V] in
theorem overwrite_other {cols updates : List Text} (hsub : ∀ c ∈ updates, c ∈ cols) (r m : DataRow V) (c : Text) (hc : c ∉ cols) :
    overwrite updates r m c = m c := by
  unfold overwrite
  rw [if_neg]
  intro h
  exact hc (hsub c (by simpa using h))

omit [DecidableEq V] in
theorem keeps_map {cols updates : List Text} (hsub : ∀ c ∈ updates, c ∈ cols) (r : DataRow V) (p : DataRow V → Bool)
    (rows : List (DataRow V)) : KeepsOthers cols rows (rows.map (fun m => if p m then overwrite updates r m else m)) := by
  intro k m hm
  refine ⟨_, by rw [List.getElem?_map, hm]; rfl, ?_⟩
  intro c hc
  dsimp only
  split
  · exact overwrite_other hsub r m c hc
  · rfl

omit [DecidableEq V] in
theorem keeps_updateFirst {cols updates : List Text} (hsub : ∀ c ∈ updates, c ∈ cols) (r : DataRow V) (p : DataRow V → Bool) :
    ∀ (rows : List (DataRow V)), KeepsOthers cols rows (updateFirst p (overwrite updates r) rows) := by
  intro rows
  induction rows with
  | nil => exact keeps_refl _ _
  | cons x rest ih =>
    unfold updateFirst
    intro k m hm
    split
    · cases k with
      | zero =>
        simp at hm
        subst hm
        exact ⟨_, rfl, fun c hc => overwrite_other hsub r x c hc⟩
      | succ k => exact ⟨m, by simpa using hm, fun _ _ => rfl⟩
    · cases k with
      | zero => simp at hm; subst hm; exact ⟨x, rfl, fun _ _ => rfl⟩
      | succ k =>
        obtain ⟨m', h1, h2⟩ := ih k m (by simpa using hm)
        exact ⟨m', by simpa using h1, h2⟩

theorem checked_keeps {tb : Table} {cols : List Text} {rows l rows' : List (DataRow V)} (h : checked tb l = some rows')
    (hk : KeepsOthers cols rows l) : KeepsOthers cols rows rows' := by
  obtain ⟨rfl, _⟩ := checked_some h; exact hk

theorem exec_keeps {w : Writer} {tb : Table} {order : Option (List Text)} {s : Dml} (hs : upsertStmt w tb order = .ok s)
    (hw : w = .base ∨ (tb.valueColumns ≠ [] ∨ ∀ k ∈ tb.primaryKey, k ∈ s.params) ∧
      ∀ c ∈ tb.valueColumns, c.name ∈ s.params) {dflt : DataRow V} {gen : Text → V}
    {rows rows' : List (DataRow V)} {values : Record V} (h : exec tb dflt gen rows s values = some rows') :
    KeepsOthers s.params rows rows' := by
  unfold upsertStmt at hs
  simp only [bind, Except.bind] at hs
  split at hs
  · cases hs
  · rename_i columns hcols
    unfold exec at h
    split at h
    · cases h
    · cases w <;> dsimp only [pure, Except.pure] at hs
      · split at hs
        · cases hs
        · rename_i on hon
          split at hs
          · cases hs
          · rename_i lookup hlk
            cases hs
            dsimp only at h
            split at h
            · cases h
            · split at h
              · split at h
                · cases h; exact keeps_refl _ _
                · refine checked_keeps h (keeps_map ?_ _ _ _)
                  intro c hc
                  obtain ⟨x, hx, rfl⟩ := List.mem_map.1 hc
                  exact List.mem_map_of_mem (List.mem_filter.1 (List.mem_filter.1 hx).1).1
              · split at h
                · cases h; exact keeps_refl _ _
                · exact checked_keeps h (keeps_append _ _ _)
      · rcases hw with hw | ⟨hk, hw⟩
        · cases hw
        · have hsub : ∀ c ∈ tb.valueColumns.map Column.name, c ∈ s.params := by
            intro c hc
            obtain ⟨x, hx, rfl⟩ := List.mem_map.1 hc
            exact hw x hx
          split at hs <;> cases hs <;> dsimp only at h <;> split at h
          · split at h
            · cases h; exact keeps_refl _ _
            · cases h
          · exact checked_keeps h (keeps_append _ _ _)
          · split at h
            · exact checked_keeps h (keeps_updateFirst hsub _ _ _)
            · cases h
          · exact checked_keeps h (keeps_append _ _ _)
      · rcases hw with hw | ⟨hk, hw⟩
        · cases hw
        · have hsub : ∀ c ∈ tb.valueColumns.map Column.name, c ∈ s.params := by
            intro c hc
            obtain ⟨x, hx, rfl⟩ := List.mem_map.1 hc
            exact hw x hx
          split at hs <;> cases hs <;> dsimp only at h <;> split at h
          · split at h
            · refine checked_keeps h (keeps_updateFirst ?_ _ _ _)
              rcases hk with hk | hk
              · exact absurd (by assumption) hk
              · exact hk
            · cases h
          · exact checked_keeps h (keeps_append _ _ _)
          · split at h
            · exact checked_keeps h (keeps_updateFirst hsub _ _ _)
            · cases h
          · exact checked_keeps h (keeps_append _ _ _)

end C25

/-- **C25.**  The `MERGE` statement of the base class (all dialects but PostgreSQL and MySQL), executed for any records:
    the rows there were keep their values in all columns that were not supplied.
    For PostgreSQL and MySQL see the next theorems. -/
theorem C25_merge {tb : Table} {order : Option (List Text)} {s : Dml} (hs : upsertStmt .base tb order = .ok s)
    {dflt : DataRow V} {rows rows' : List (DataRow V)} {records : List (Record V)}
    (h : ExecAll tb dflt s rows records rows') : KeepsOthers s.params rows rows' := by
  induction h with
  | nil => exact C25.keeps_refl _ _
  | cons gen he _ ih => exact C25.keeps_trans (C25.exec_keeps hs (.inl rfl) he) ih

/-- **C25.**  For PostgreSQL and MySQL the same holds if all columns are supplied that are neither in the primary key nor
    identity columns (and those of the primary key, if there are no others). -/
theorem C25_value_columns_supplied {w : Writer} {tb : Table} {order : Option (List Text)} {s : Dml}
    (hs : upsertStmt w tb order = .ok s) (hv : ∀ c ∈ tb.valueColumns, c.name ∈ s.params)
    (hk : tb.valueColumns = [] → ∀ k ∈ tb.primaryKey, k ∈ s.params) {dflt : DataRow V} {rows rows' : List (DataRow V)}
    {records : List (Record V)} (h : ExecAll tb dflt s rows records rows') : KeepsOthers s.params rows rows' := by
  induction h with
  | nil => exact C25.keeps_refl _ _
  | cons gen he _ ih =>
    refine C25.keeps_trans (C25.exec_keeps hs (.inr ⟨?_, hv⟩) he) ih
    by_cases e : tb.valueColumns = []
    · exact .inr (hk e)
    · exact .inl e

/-- **C25 fails** for PostgreSQL and MySQL otherwise: each column that is not supplied, and is neither in the primary key
    nor an identity column, is set to its default in the row whose key is supplied.  For every table (without other
    unique keys), every content and every record that is accepted. -/
theorem C25_unsupplied_column_reset {w : Writer} (hw : w ≠ .base) {tb : Table} {order : Option (List Text)} {s : Dml}
    (hs : upsertStmt w tb order = .ok s) (hu : ∀ c ∈ tb.constraints.items, ∀ n l, c ≠ .unique n l)
    {col : Column} (hcol : tb.columns.get col.name = some col) (hv : col ∈ tb.valueColumns) (hns : col.name ∉ s.params)
    {dflt : DataRow V} {gen : Text → V} {rows rows' : List (DataRow V)} {values : Record V}
    (h : exec tb dflt gen rows s values = some rows') {k : Nat} {m : DataRow V} (hm : rows[k]? = some m)
    (hmk : agreeOn tb.primaryKey (newRow tb dflt gen s.params values) m = true)
    (hfirst : ∀ (j : Nat) (m' : DataRow V), j < k → rows[j]? = some m' → ¬ agreeOn tb.primaryKey (newRow tb dflt gen s.params values) m') :
    ∃ m', rows'[k]? = some m' ∧ m' col.name = dflt col.name := by
  have hsup : ∀ (cols : List Text) (values : Record V), col.name ∉ cols → supplied cols values col.name = none := by
    intro cols
    induction cols with
    | nil => intro values _; rfl
    | cons x cols ih =>
      intro values hn
      cases values with
      | nil => rfl
      | cons v values =>
        rw [List.mem_cons, not_or] at hn
        unfold supplied
        rw [List.zip_cons_cons, List.lookup_cons]
        have : (col.name == x) = false := by simpa using hn.1
        rw [this]
        exact ih values hn.2
  have hid : col.identity = false := by
    unfold Table.valueColumns at hv
    have := (List.mem_filter.1 hv).2
    simp only [Bool.and_eq_true, Bool.not_eq_true'] at this
    exact this.2
  have hnew : newRow tb dflt gen s.params values col.name = dflt col.name := by
    unfold newRow
    rw [hsup _ _ hns, hcol]
    simp [hid]
  have hupd : ∀ (p : DataRow V → Bool) (rows : List (DataRow V)) (k : Nat), rows[k]? = some m → p m = true →
      (∀ (j : Nat) (m' : DataRow V), j < k → rows[j]? = some m' → ¬ p m' = true) →
      ∃ m', (updateFirst p (overwrite (tb.valueColumns.map Column.name) (newRow tb dflt gen s.params values)) rows)[k]? = some m' ∧
        m' col.name = dflt col.name := by
    intro p rows
    induction rows with
    | nil => intro k hk; simp at hk
    | cons x rest ih =>
      intro k hk hp hf
      unfold updateFirst
      cases k with
      | zero =>
        simp at hk; subst hk
        rw [if_pos hp]
        refine ⟨_, rfl, ?_⟩
        unfold overwrite
        rw [if_pos, hnew]
        have : col.name ∈ tb.valueColumns.map Column.name := List.mem_map_of_mem hv
        simpa using this
      | succ k =>
        rw [if_neg (hf 0 x (by omega) rfl)]
        obtain ⟨m', h1, h2⟩ := ih k (by simpa using hk) hp (fun j m' hj hjm => hf (j + 1) m' (by omega) (by simpa using hjm))
        exact ⟨m', by simpa using h1, h2⟩
  have hvne : tb.valueColumns ≠ [] := by intro e; rw [e] at hv; cases hv
  have hmem : m ∈ rows := List.mem_of_getElem? hm
  unfold upsertStmt at hs
  simp only [bind, Except.bind] at hs
  split at hs
  · cases hs
  · unfold exec at h
    split at h
    · cases h
    · cases w <;> dsimp only [pure, Except.pure] at hs
      · exact absurd rfl hw
      · rw [if_neg hvne] at hs
        cases hs
        dsimp only at h
        split at h
        · split at h
          · obtain ⟨rfl, _⟩ := checked_some h
            exact hupd _ rows k hm hmk hfirst
          · cases h
        · rename_i hany
          exact absurd (List.any_eq_true.2 ⟨m, hmem, hmk⟩) hany
      · rw [if_neg hvne] at hs
        cases hs
        dsimp only at h
        simp only [C24.clash_eq hu] at h
        split at h
        · split at h
          · obtain ⟨rfl, _⟩ := checked_some h
            exact hupd _ rows k hm hmk hfirst
          · cases h
        · rename_i hany
          exact absurd (List.any_eq_true.2 ⟨m, hmem, hmk⟩) hany

namespace C25
open Example

/-- A table of people. -/
def person : Table :=
  { name := q "hr" "person"
    columns := ⟨[col "id" int8 false, col "name" text true, col "city" text true]⟩
    primaryKey := [t "id"], constraints := ⟨[]⟩, description := none }

/-- A row of the table. -/
def row (id : Nat) (name city : Option Nat) : DataRow Nat :=
  fun c => if c = t "id" then some id else if c = t "name" then name else if c = t "city" then city else none

/-- `MERGE` with two of three columns: the third column is kept. -/
example : ∃ s rows', upsertStmt .base person (some [t "id", t "name"]) = .ok s ∧
    ExecAll person (fun _ => none) s [row 1 (some 7) (some 8)] [[some 1, some 9]] rows' ∧
    rows'.map (fun r => (r (t "id"), r (t "name"), r (t "city"))) = [(some 1, some 9, some 8)] :=
  ⟨.merge person.name [t "id", t "name"] [t "id"] [t "name"] [t "id", t "name"], _, by rfl,
    .cons (fun _ => 0) (by rfl) (.nil _), by decide +kernel⟩

end C25

open C25 Example in
/-- **C25 fails** (an instance): upserting the name of a person into PostgreSQL or MySQL erases the city. -/
theorem C25_city_erased {w : Writer} (hw : w ≠ .base) :
    ∃ s rows', upsertStmt w person (some [t "id", t "name"]) = .ok s ∧ t "city" ∉ s.params ∧
      ExecAll person (fun _ => none) s [row 1 (some 7) (some 8)] [[some 1, some 9]] rows' ∧
      rows'.map (fun r => (r (t "id"), r (t "name"), r (t "city"))) = [(some 1, some 9, none)] := by
  cases w
  · exact absurd rfl hw
  · exact ⟨.insertOrUpdateOn person.name [t "id", t "name"] [t "id"] [t "name", t "city"], _, by rfl, by decide +kernel,
      .cons (fun _ => 0) (by rfl) (.nil _), by decide +kernel⟩
  · exact ⟨.insertOrUpdate person.name [t "id", t "name"] [t "name", t "city"], _, by rfl, by decide +kernel,
      .cons (fun _ => 0) (by rfl) (.nil _), by decide +kernel⟩

end PySqlSync
