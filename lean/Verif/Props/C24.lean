/-
C24 — Upsert behaves like a map update.
-/
import Verif.Lemmas.Dml
import Verif.Props.C26
import Verif.Examples.Shop

set_option autoImplicit false

namespace PySqlSync
open Spec

variable {V : Type} [DecidableEq V]

namespace Spec

/-- Two rows have the same value in every column of the table. -/
def SameOn (tb : Table) (a b : DataRow V) : Prop := ∀ c ∈ tb.columns.items, a c.name = b c.name

/-- Both have no row, or rows with the same values. -/
def SameEntry (tb : Table) : Option (DataRow V) → Option (DataRow V) → Prop
  | none, none => True
  | some a, some b => SameOn tb a b
  | _, _ => False

/-- The record has this key. -/
def hasKey (tb : Table) (cols : List Text) (key : List V) (values : Record V) : Bool :=
  tb.primaryKey.map (recordRow cols values) = key.map some

/-- What a map has for a key after it was updated with the records: the last record with the key, if there is one. -/
def updated (tb : Table) (cols : List Text) (records : List (Record V)) (key : List V) (before : Option (DataRow V)) :
    Option (DataRow V) :=
  match records.reverse.find? (hasKey tb cols key) with
  | some values => some (recordRow cols values)
  | none => before

end Spec

/-- The tables and statements for which an upsert is a map update: all columns of the table are supplied; the columns
    of the primary key exist and cannot be NULL; identity columns are in the primary key.  MySQL's `ON DUPLICATE KEY` and
    the base class' `MERGE` have to match by the primary key only: no uniqueness constraints, and for `MERGE`, a key that
    is supplied. -/
structure Upsertable (w : Writer) (tb : Table) (cols : List Text) : Prop where
  all : ∀ c ∈ tb.columns.items, c.name ∈ cols
  key : ∀ k ∈ tb.primaryKey, ∃ c ∈ tb.columns.items, c.name = k ∧ c.nullable = false
  identity : ∀ c ∈ tb.columns.items, c.identity = true → c.name ∈ tb.primaryKey
  unique : w ≠ .postgresql → ∀ c ∈ tb.constraints.items, ∀ n l, c ≠ .unique n l
  supplied : w = .base → ∀ c ∈ tb.columns.items, c.identity = false

namespace C24

omit [DecidableEq V] in
theorem newRow_all {tb : Table} {dflt : DataRow V} {gen : Text → V} {cols : List Text} {values : Record V}
    (hall : ∀ c ∈ tb.columns.items, c.name ∈ cols) (hl : cols.length = values.length) :
    SameOn tb (newRow tb dflt gen cols values) (recordRow cols values) := by
  intro c hc
  have hm := hall c hc
  unfold newRow recordRow
  have : ∃ v, supplied cols values c.name = some v := by
    unfold supplied
    clear hall hc
    revert values
    induction cols with
    | nil => cases hm
    | cons x cols ih =>
      intro values hl
      cases values with
      | nil => simp at hl
      | cons v values =>
        rw [List.zip_cons_cons, List.lookup_cons]
        by_cases e : c.name = x
        · exact ⟨v, by simp [e]⟩
        · have : (c.name == x) = false := by simpa using e
          rw [this]
          have hm' : c.name ∈ cols := by
            rcases List.mem_cons.1 hm with e' | h
            · exact absurd e' e
            · exact h
          exact ih hm' (by simpa using hl)
  obtain ⟨v, hv⟩ := this
  rw [hv]; rfl

/-- What an accepted upsert of a record does to the rows. -/
structure Upserted (tb : Table) (r : DataRow V) (rows rows' : List (DataRow V)) : Prop where
  present : ∀ k ∈ tb.primaryKey, (r k).isSome
  change : (∃ m ∈ rows, agreeOn tb.primaryKey r m = true) ∧
      (∃ f : DataRow V → DataRow V, rows' = rows.map (fun m => if agreeOn tb.primaryKey r m then f m else m) ∧
        ∀ m ∈ rows, agreeOn tb.primaryKey r m = true → SameOn tb (f m) r) ∨
    (¬ ∃ m ∈ rows, agreeOn tb.primaryKey r m = true) ∧ ∃ r', rows' = rows ++ [r'] ∧ SameOn tb r' r

theorem find_key {tb : Table} {rows : List (DataRow V)} {key : List V} {m : DataRow V}
    (h : rowWith tb rows key = some m) : tb.primaryKey.map m = key.map some := by
  have := List.find?_some h
  simpa using this

omit [DecidableEq V] in
/-- `find?` after `map`. -/
theorem find_map {p : DataRow V → Bool} {f : DataRow V → DataRow V} : ∀ {rows : List (DataRow V)},
    (∀ m ∈ rows, p (f m) = p m) → (rows.map f).find? p = (rows.find? p).map f := by
  intro rows
  induction rows with
  | nil => intro _; rfl
  | cons r rest ih =>
    intro h
    rw [List.map_cons, List.find?_cons, List.find?_cons, h r List.mem_cons_self]
    cases p r
    · exact ih (fun m hm => h m (List.mem_cons_of_mem _ hm))
    · rfl

theorem agree_of_keys {tb : Table} {r m : DataRow V} {key : List V} (hr : tb.primaryKey.map r = key.map some)
    (hm : tb.primaryKey.map m = key.map some) : agreeOn tb.primaryKey r m = true := by
  rw [agreeOn_iff]
  intro c hc
  have he : tb.primaryKey.map r = tb.primaryKey.map m := by rw [hr, hm]
  have h1 : r c = m c := (List.map_inj_left.1 he) c hc
  have : r c ∈ key.map some := by rw [← hr]; exact List.mem_map_of_mem hc
  obtain ⟨v, _, hv⟩ := List.mem_map.1 this
  exact ⟨v, hv.symm, by rw [← h1, hv]⟩

theorem keys_of_agree {tb : Table} {r m : DataRow V} (h : agreeOn tb.primaryKey r m = true) :
    tb.primaryKey.map m = tb.primaryKey.map r := by
  rw [agreeOn_iff] at h
  refine List.map_congr_left ?_
  intro c hc
  obtain ⟨v, h1, h2⟩ := h c hc
  rw [h1, h2]

omit [DecidableEq V] in
theorem sameOn_keys {tb : Table} (hk : ∀ k ∈ tb.primaryKey, ∃ c ∈ tb.columns.items, c.name = k ∧ c.nullable = false)
    {a b : DataRow V} (h : SameOn tb a b) : tb.primaryKey.map a = tb.primaryKey.map b := by
  refine List.map_congr_left ?_
  intro c hc
  obtain ⟨x, hx, rfl, _⟩ := hk c hc
  exact h x hx

omit [DecidableEq V] in
theorem sameEntry_refl {tb : Table} (a : Option (DataRow V)) : SameEntry tb a a := by
  cases a
  · trivial
  · intro c _; rfl

omit [DecidableEq V] in
theorem sameEntry_trans {tb : Table} {a b c : Option (DataRow V)} (h : SameEntry tb a b) (h' : SameEntry tb b c) :
    SameEntry tb a c := by
  cases a <;> cases b <;> cases c <;> first | trivial | exact h.elim | exact h'.elim | skip
  intro x hx; rw [h x hx, h' x hx]

omit [DecidableEq V] in
theorem sameEntry_symm {tb : Table} {a b : Option (DataRow V)} (h : SameEntry tb a b) : SameEntry tb b a := by
  cases a <;> cases b <;> first | trivial | exact h.elim | skip
  intro x hx; exact (h x hx).symm

/-- One record: the map is updated at its key. -/
theorem upserted_map {tb : Table} {r : DataRow V} {rows rows' : List (DataRow V)} (h : Upserted tb r rows rows')
    (hk : ∀ k ∈ tb.primaryKey, ∃ c ∈ tb.columns.items, c.name = k ∧ c.nullable = false)
    (key : List V) :
    SameEntry tb (rowWith tb rows' key)
      (if tb.primaryKey.map r = key.map some then some r else rowWith tb rows key) := by
  rcases h.change with ⟨⟨m0, hm0, ha0⟩, f, rfl, hf⟩ | ⟨hno, r', rfl, hs⟩
  · unfold rowWith
    rw [find_map]
    · split
      · rename_i hkey
        cases hfd : rows.find? (fun r => decide (tb.primaryKey.map r = key.map some)) with
        | none =>
          exfalso
          have := List.find?_eq_none.1 hfd m0 hm0
          simp only [decide_eq_true_eq] at this
          exact this (by rw [keys_of_agree ha0, hkey])
        | some m =>
          have hmk := find_key (tb := tb) (rows := rows) (key := key) hfd
          have hag := agree_of_keys hkey hmk
          rw [Option.map_some]
          rw [if_pos hag]
          exact hf m (List.mem_of_find?_eq_some hfd) hag
      · rename_i hkey
        cases hfd : rows.find? (fun r => decide (tb.primaryKey.map r = key.map some)) with
        | none => trivial
        | some m =>
          have hmk := find_key (tb := tb) (rows := rows) (key := key) hfd
          rw [Option.map_some]
          rw [if_neg]
          · exact fun c _ => rfl
          · intro hag
            exact hkey (by rw [← keys_of_agree hag, hmk])
    · intro m hm
      by_cases hag : agreeOn tb.primaryKey r m = true
      · rw [if_pos hag]
        rw [sameOn_keys hk (hf m hm hag), keys_of_agree hag]
      · rw [if_neg hag]
  · unfold rowWith
    rw [List.find?_append]
    split
    · rename_i hkey
      have : rows.find? (fun r => decide (tb.primaryKey.map r = key.map some)) = none := by
        rw [List.find?_eq_none]
        intro m hm hmk
        simp only [decide_eq_true_eq] at hmk
        exact hno ⟨m, hm, agree_of_keys hkey hmk⟩
      rw [this]
      simp only [Option.none_or, List.find?_cons, List.find?_nil]
      rw [sameOn_keys hk hs, hkey]
      simp only [decide_true]
      exact hs
    · rename_i hkey
      have : [r'].find? (fun r => decide (tb.primaryKey.map r = key.map some)) = none := by
        rw [List.find?_cons, sameOn_keys hk hs]
        simp [hkey]
      rw [this, Option.or_none]
      exact sameEntry_refl _

theorem agree_congr {tb : Table} {a b : DataRow V} (h : tb.primaryKey.map a = tb.primaryKey.map b) (m : DataRow V) :
    agreeOn tb.primaryKey a m = agreeOn tb.primaryKey b m := by
  have h' := List.map_inj_left.1 h
  rw [Bool.eq_iff_iff, agreeOn_iff, agreeOn_iff]
  constructor <;> intro hh c hc <;> obtain ⟨v, h1, h2⟩ := hh c hc
  · exact ⟨v, by rw [← h' c hc, h1], h2⟩
  · exact ⟨v, by rw [h' c hc, h1], h2⟩

omit [DecidableEq V] in
theorem key_present {tb : Table} (hk : ∀ k ∈ tb.primaryKey, ∃ c ∈ tb.columns.items, c.name = k ∧ c.nullable = false)
    {r : DataRow V} (h : notNull tb r = true) : ∀ k ∈ tb.primaryKey, (r k).isSome := by
  intro k hkk
  obtain ⟨c, hc, rfl, hn⟩ := hk k hkk
  unfold notNull at h
  have := List.all_eq_true.1 h c hc
  simpa [hn] using this

theorem any_iff {tb : Table} {r : DataRow V} {rows : List (DataRow V)} :
    rows.any (fun m => agreeOn tb.primaryKey r m) = true ↔ ∃ m ∈ rows, agreeOn tb.primaryKey r m = true := by
  rw [List.any_eq_true]

theorem clash_eq {tb : Table} (hu : ∀ c ∈ tb.constraints.items, ∀ n l, c ≠ .unique n l) (a b : DataRow V) :
    clash tb a b = agreeOn tb.primaryKey a b := by
  have : uniqueSets tb = [tb.primaryKey] := by
    unfold uniqueSets
    congr 1
    rw [List.filterMap_eq_nil_iff]
    intro c hc
    cases c with
    | unique n l => exact absurd rfl (hu _ hc n l)
    | _ => rfl
  unfold clash
  rw [this]
  simp

/-- Insertion. -/
theorem upserted_insert {tb : Table} {r r' : DataRow V} {rows rows' : List (DataRow V)}
    (hk : ∀ k ∈ tb.primaryKey, ∃ c ∈ tb.columns.items, c.name = k ∧ c.nullable = false) (hs : SameOn tb r' r)
    (hno : ¬ ∃ m ∈ rows, agreeOn tb.primaryKey r m = true) (h : checked tb (rows ++ [r']) = some rows') :
    Upserted tb r rows rows' := by
  obtain ⟨rfl, hc⟩ := checked_some h
  refine ⟨?_, .inr ⟨hno, r', rfl, hs⟩⟩
  intro k hkk
  have := key_present hk ((consistent_iff.1 hc).1 r' (by simp)) k hkk
  obtain ⟨c, hcc, rfl, _⟩ := hk k hkk
  rw [← hs c hcc]; exact this

/-- Update. -/
theorem upserted_update {tb : Table} {r : DataRow V} {rows : List (DataRow V)} {f : DataRow V → DataRow V}
    (hyes : ∃ m ∈ rows, agreeOn tb.primaryKey r m = true)
    (hf : ∀ m ∈ rows, agreeOn tb.primaryKey r m = true → SameOn tb (f m) r) :
    Upserted tb r rows (rows.map (fun m => if agreeOn tb.primaryKey r m then f m else m)) := by
  refine ⟨?_, .inl ⟨hyes, f, rfl, hf⟩⟩
  intro k hk
  obtain ⟨m, _, hm⟩ := hyes
  obtain ⟨v, hv, _⟩ := agreeOn_iff.1 hm k hk
  rw [hv]; rfl

omit [DecidableEq V] in
theorem overwrite_nil (r m : DataRow V) : overwrite [] r m = m := by funext c; simp [overwrite]

theorem overwrite_same {tb : Table} {cols : List Text} {r r' m : DataRow V} (hs : SameOn tb r' r)
    (ha : agreeOn tb.primaryKey r m = true)
    (hcov : ∀ c ∈ tb.columns.items, c.name ∈ cols ∨ c.name ∈ tb.primaryKey) : SameOn tb (overwrite cols r' m) r := by
  intro c hc
  unfold overwrite
  split
  · exact hs c hc
  · rename_i hn
    rcases hcov c hc with h | h
    · exact absurd (List.elem_eq_true_of_mem h) hn
    · obtain ⟨v, h1, h2⟩ := agreeOn_iff.1 ha _ h
      rw [h1, h2]

theorem lookup_flags {tb : Table} : ∀ {cols : List Column} {flags : List Bool},
    cols.mapM (fun c => tb.isLookupColumn c) = .ok flags →
    ((cols.zip flags).filter Prod.snd).map Prod.fst
      = cols.filter (fun c => tb.primaryKey.contains c.name || tb.isUniqueColumn c) := by
  intro cols
  induction cols with
  | nil => intro flags _; rfl
  | cons c cols ih =>
    intro flags h
    rw [List.mapM_cons] at h
    simp only [bind, Except.bind, pure, Except.pure] at h
    split at h
    · cases h
    · rename_i b hb
      split at h
      · cases h
      · rename_i bs hbs
        cases h
        have hb' : b = (tb.primaryKey.contains c.name || tb.isUniqueColumn c) := by
          unfold Table.isLookupColumn at hb
          simp only [bind, Except.bind, pure, Except.pure] at hb
          split at hb
          · cases hb
          · cases hb; rfl
        rw [List.zip_cons_cons, List.filter_cons, List.filter_cons, ← hb']
        cases b
        · exact ih hbs
        · simp only [if_true, List.map_cons]; rw [ih hbs]

theorem lookup_eq {tb : Table} {cols l : List Column} (h : tb.lookupColumns cols = .ok l) :
    l = cols.filter (fun c => tb.primaryKey.contains c.name || tb.isUniqueColumn c) := by
  unfold Table.lookupColumns at h
  simp only [bind, Except.bind, pure, Except.pure] at h
  split at h
  · cases h
  · rename_i flags hf
    cases h
    exact lookup_flags hf

/-- If there is at least one column, the primary key is a single one. -/
theorem lookup_single {tb : Table} {cols l : List Column} (h : tb.lookupColumns cols = .ok l) (hne : cols ≠ []) :
    tb.primaryKey.length = 1 := by
  cases cols with
  | nil => exact absurd rfl hne
  | cons c cols =>
    unfold Table.lookupColumns at h
    simp only [bind, Except.bind, pure, Except.pure] at h
    split at h
    · cases h
    · rename_i flags hf
      rw [List.mapM_cons] at hf
      simp only [bind, Except.bind] at hf
      split at hf
      · cases hf
      · rename_i b hb
        unfold Table.isLookupColumn Table.checkPrimary at hb
        simp only [bind, Except.bind] at hb
        split at hb
        · cases hb
        · rename_i e
          split at e
          · assumption
          · cases e

theorem unique_none {tb : Table} (hu : ∀ c ∈ tb.constraints.items, ∀ n l, c ≠ .unique n l) (c : Column) :
    tb.isUniqueColumn c = false := by
  unfold Table.isUniqueColumn
  rw [List.any_eq_false]
  intro x hx
  cases x with
  | unique n l => exact absurd rfl (hu _ hx n l)
  | _ => simp

theorem getColumns_mem {tb : Table} {order : Option (List Text)} {cols : List Column} (h : tb.getColumns order = .ok cols) :
    ∀ c ∈ cols, c ∈ tb.columns.items := by
  cases order with
  | none => cases h; intro c hc; exact hc
  | some names =>
    intro c hc
    obtain ⟨i, hi⟩ := List.getElem?_of_mem hc
    have hl := C21.mapM_length h
    have hlt : i < names.length := by
      have := (List.getElem?_eq_some_iff.1 hi).1
      omega
    have hfb := C22.mapM_get h (List.getElem?_eq_getElem hlt) hi
    split at hfb
    · rename_i c' hg
      cases hfb
      exact (ODict.get_some_mem hg).1
    · cases hfb

/-- The effect of an accepted upsert statement. -/
theorem exec_upserted {w : Writer} {tb : Table} {order : Option (List Text)} {s : Dml} (hs : upsertStmt w tb order = .ok s)
    (hu : Upsertable w tb s.params) {dflt : DataRow V} {gen : Text → V} {rows rows' : List (DataRow V)} {values : Record V}
    (hc : consistent tb rows = true) (h : exec tb dflt gen rows s values = some rows') :
    Upserted tb (recordRow s.params values) rows rows' := by
  have hcovv : ∀ c ∈ tb.columns.items, c.name ∈ tb.valueColumns.map Column.name ∨ c.name ∈ tb.primaryKey := by
    intro c hcc
    by_cases hp : c.name ∈ tb.primaryKey
    · exact .inr hp
    · left
      refine List.mem_map_of_mem ?_
      unfold Table.valueColumns
      rw [List.mem_filter]
      refine ⟨hcc, ?_⟩
      have : c.identity = false := by
        cases hi : c.identity
        · rfl
        · exact absurd (hu.identity c hcc hi) hp
      simp [this, hp]
  unfold upsertStmt at hs
  simp only [bind, Except.bind] at hs
  split at hs
  · cases hs
  · rename_i columns hcols
    unfold exec at h
    split at h
    · cases h
    · rename_i hlen
      simp only [ne_eq, Decidable.not_not] at hlen
      have hnew := newRow_all (dflt := dflt) (gen := gen) hu.all hlen
      have hag : ∀ m, agreeOn tb.primaryKey (newRow tb dflt gen s.params values) m
          = agreeOn tb.primaryKey (recordRow s.params values) m := agree_congr (sameOn_keys hu.key hnew)
      have hamo := at_most_one hc (primary_unique tb) (recordRow s.params values)
      cases w <;> dsimp only [pure, Except.pure] at hs
      · -- base
        split at hs
        · cases hs
        · rename_i on hon
          split at hs
          · cases hs
          · rename_i lookup hlk
            cases hs
            have hnid : ∀ c ∈ columns, c.identity = false := fun c hcc => hu.supplied rfl c (getColumns_mem hcols c hcc)
            have hins : columns.filter (fun c => !c.identity) = columns := by
              rw [List.filter_eq_self]; intro c hcc; simp [hnid c hcc]
            have hun := unique_none (hu.unique (by simp))
            have hon' := lookup_eq hon
            rw [hins] at hlk
            have hlk' := lookup_eq hlk
            simp only [hun, Bool.or_false] at hon' hlk'
            rw [hins] at h hnew hag hamo
            dsimp only [Dml.params] at h hnew hag hamo hlen ⊢
            have hall := hu.all
            have hkey := hu.key
            dsimp only [Dml.params] at hall
            split at h
            · cases h
            · rename_i honne
              have hcne : columns ≠ [] := by
                intro e; rw [e] at hon'; rw [hon'] at honne; exact honne rfl
              have hsing := lookup_single hon hcne
              obtain ⟨k, hk⟩ := List.length_eq_one_iff.1 hsing
              have honmem : ∀ x, x ∈ on.map Column.name ↔ x = k := by
                intro x
                rw [List.mem_map]
                constructor
                · rintro ⟨c, hcm, rfl⟩
                  rw [hon', List.mem_filter, hk] at hcm
                  simpa using hcm.2
                · rintro rfl
                  obtain ⟨c, hcc, hcn, _⟩ := hkey x (by rw [hk]; simp)
                  have hcin := hall c hcc
                  obtain ⟨c', hc', hcn'⟩ := List.mem_map.1 hcin
                  refine ⟨c', ?_, by rw [hcn', hcn]⟩
                  rw [hon', List.mem_filter]
                  exact ⟨hc', by rw [hcn', hcn, hk]; simp⟩
              have hmatch : ∀ m : DataRow V, (on.map Column.name).any (fun c => agreeOn [c]
                  (fun c => (supplied (columns.map Column.name) values c).getD none) m)
                  = agreeOn tb.primaryKey (recordRow (columns.map Column.name) values) m := by
                intro m
                rw [hk, Bool.eq_iff_iff, List.any_eq_true]
                constructor
                · rintro ⟨x, hx, hax⟩
                  rw [honmem x] at hx
                  subst hx
                  exact hax
                · intro hax
                  exact ⟨k, (honmem k).2 rfl, hax⟩
              simp only [hmatch] at h
              split at h
              · rename_i hany
                have hex := any_iff.1 hany
                have hcov : ∀ c ∈ tb.columns.items,
                    c.name ∈ (columns.filter (fun c => !lookup.contains c)).map Column.name ∨ c.name ∈ tb.primaryKey := by
                  intro c hcc
                  by_cases hp : c.name ∈ tb.primaryKey
                  · exact .inr hp
                  · left
                    obtain ⟨c', hc', hcn'⟩ := List.mem_map.1 (hall c hcc)
                    rw [← hcn']
                    refine List.mem_map_of_mem ?_
                    rw [List.mem_filter]
                    refine ⟨hc', ?_⟩
                    have : c' ∉ lookup := by
                      rw [hlk', List.mem_filter]
                      rintro ⟨_, hx⟩
                      rw [hcn'] at hx
                      exact hp (by simpa using hx)
                    simpa using this
                split at h
                · rename_i hupd
                  cases h
                  rw [hupd] at hcov
                  have := upserted_update (f := id) hex (fun m _ ha => by
                    have := overwrite_same (cols := []) (r' := recordRow (columns.map Column.name) values)
                      (r := recordRow (columns.map Column.name) values) (fun c _ => rfl) ha hcov
                    rw [overwrite_nil] at this; exact this)
                  simpa using this
                · obtain ⟨rfl, _⟩ := checked_some h
                  exact upserted_update (f := overwrite _ (recordRow (columns.map Column.name) values)) hex
                    (fun m _ ha => overwrite_same (fun c _ => rfl) ha hcov)
              · rename_i hany
                have hex : ¬ ∃ m ∈ rows, agreeOn tb.primaryKey (recordRow (columns.map Column.name) values) m = true := by
                  rw [← any_iff]; exact hany
                split at h
                · rename_i e
                  rw [List.map_eq_nil_iff] at e
                  exact absurd e hcne
                · refine upserted_insert hkey ?_ hex h
                  intro c hcc
                  have := newRow_all (dflt := dflt) (gen := gen) (values := (columns.map Column.name).map
                    (fun c => (supplied (columns.map Column.name) values c).getD none)) hall (by simp) c hcc
                  rw [this]
                  unfold recordRow
                  have hm := hall c hcc
                  generalize columns.map Column.name = names at hm
                  have key : ∀ (g : DataRow V) (names : List Text), c.name ∈ names →
                      (supplied names (names.map g) c.name) = some (g c.name) := by
                    intro g names
                    induction names with
                    | nil => intro h; cases h
                    | cons x names ih =>
                      intro h
                      unfold supplied
                      rw [List.map_cons, List.zip_cons_cons, List.lookup_cons]
                      by_cases e : c.name = x
                      · simp [e]
                      · have e' : (c.name == x) = false := by simpa using e
                        rw [e']
                        rcases List.mem_cons.1 h with h | h
                        · exact absurd h e
                        · exact ih h
                  rw [key _ _ hm]; rfl
      · -- postgresql
        split at hs
        · rename_i hval
          cases hs
          dsimp only [Dml.params] at h hnew hag hamo hlen ⊢
          simp only [hag] at h
          rw [hval] at hcovv
          split at h
          · rename_i hany
            split at h
            · cases h
              have := upserted_update (tb := tb) (r := recordRow (columns.map Column.name) values) (f := id)
                (any_iff.1 hany) (fun m _ ha => by
                  have := overwrite_same (cols := []) (r' := recordRow (columns.map Column.name) values)
                    (r := recordRow (columns.map Column.name) values) (fun c _ => rfl) ha hcovv
                  rw [overwrite_nil] at this; exact this)
              simpa using this
            · cases h
          · rename_i hany
            exact upserted_insert hu.key hnew (by rw [← any_iff]; exact hany) h
        · cases hs
          dsimp only [Dml.params] at h hnew hag hamo hlen ⊢
          simp only [hag] at h
          split at h
          · rename_i hany
            split at h
            · obtain ⟨rfl, _⟩ := checked_some h
              rw [updateFirst_eq_map hamo]
              exact upserted_update (any_iff.1 hany) (fun m _ ha => overwrite_same hnew ha hcovv)
            · cases h
          · rename_i hany
            exact upserted_insert hu.key hnew (by rw [← any_iff]; exact hany) h
      · -- mysql
        have hcl := clash_eq (V := V) (hu.unique (by simp))
        have hcov' : ∀ c ∈ tb.columns.items, tb.valueColumns = [] → c.name ∈ tb.primaryKey := by
          intro c hcc e
          rcases hcovv c hcc with hh | hh
          · rw [e] at hh; cases hh
          · exact hh
        split at hs
        · rename_i hval
          cases hs
          dsimp only [Dml.params] at h hnew hag hamo hlen ⊢
          simp only [hcl, hag] at h
          split at h
          · rename_i hany
            split at h
            · obtain ⟨rfl, _⟩ := checked_some h
              rw [updateFirst_eq_map hamo]
              exact upserted_update (any_iff.1 hany) (fun m _ ha => overwrite_same hnew ha (fun c hcc => .inr (hcov' c hcc hval)))
            · cases h
          · rename_i hany
            exact upserted_insert hu.key hnew (by rw [← any_iff]; exact hany) h
        · cases hs
          dsimp only [Dml.params] at h hnew hag hamo hlen ⊢
          simp only [hcl, hag] at h
          split at h
          · rename_i hany
            split at h
            · obtain ⟨rfl, _⟩ := checked_some h
              rw [updateFirst_eq_map hamo]
              exact upserted_update (any_iff.1 hany) (fun m _ ha => overwrite_same hnew ha hcovv)
            · cases h
          · rename_i hany
            exact upserted_insert hu.key hnew (by rw [← any_iff]; exact hany) h

omit [DecidableEq V] in
theorem updated_congr {tb : Table} {cols : List Text} {records : List (Record V)} {key : List V}
    [DecidableEq V] {a b : Option (DataRow V)} (h : SameEntry tb a b) :
    SameEntry tb (updated tb cols records key a) (updated tb cols records key b) := by
  unfold updated
  split
  · exact sameEntry_refl _
  · exact h

theorem updated_cons {tb : Table} {cols : List Text} {values : Record V} {rest : List (Record V)} {key : List V}
    {before : Option (DataRow V)} :
    updated tb cols (values :: rest) key before =
      updated tb cols rest key (if tb.primaryKey.map (recordRow cols values) = key.map some then some (recordRow cols values)
        else before) := by
  unfold updated
  rw [List.reverse_cons, List.find?_append]
  cases rest.reverse.find? (hasKey tb cols key) with
  | some v => rfl
  | none =>
    simp only [Option.none_or, List.find?_cons, List.find?_nil]
    by_cases e : tb.primaryKey.map (recordRow cols values) = key.map some
    · have : hasKey tb cols key values = true := by unfold hasKey; simpa using e
      rw [this, if_pos e]
    · have : hasKey tb cols key values = false := by unfold hasKey; simpa using e
      rw [this, if_neg e]

/-- Without uniqueness constraints a table stays consistent if keys do not change. -/
theorem consistent_map {tb : Table} (hu : ∀ c ∈ tb.constraints.items, ∀ n l, c ≠ .unique n l) {rows : List (DataRow V)}
    (hc : consistent tb rows = true) {f : DataRow V → DataRow V}
    (hk : ∀ m ∈ rows, tb.primaryKey.map (f m) = tb.primaryKey.map m) (hn : ∀ m ∈ rows, notNull tb (f m) = true) :
    consistent tb (rows.map f) = true := by
  rw [consistent_iff] at hc ⊢
  refine ⟨?_, ?_⟩
  · intro r hr
    obtain ⟨m, hm, rfl⟩ := List.mem_map.1 hr
    exact hn m hm
  · rw [List.pairwise_map]
    refine List.Pairwise.imp_of_mem ?_ hc.2
    intro a b ha hb hab
    have swap : ∀ {x y : DataRow V}, agreeOn tb.primaryKey x y = agreeOn tb.primaryKey y x := by
      intro x y; rw [Bool.eq_iff_iff]; exact ⟨agreeOn_symm, agreeOn_symm⟩
    have : agreeOn tb.primaryKey (f a) (f b) = agreeOn tb.primaryKey a b := by
      rw [agree_congr (hk a ha), swap, agree_congr (hk b hb), swap]
    rw [clash_eq hu, clash_eq hu] at hab ⊢
    exact ⟨by rw [this]; exact hab.1, by rw [swap, this]; exact hab.1⟩

theorem consistent_append {tb : Table} (hu : ∀ c ∈ tb.constraints.items, ∀ n l, c ≠ .unique n l) {rows : List (DataRow V)}
    (hc : consistent tb rows = true) {r : DataRow V} (hno : ¬ ∃ m ∈ rows, agreeOn tb.primaryKey r m = true)
    (hn : notNull tb r = true) : consistent tb (rows ++ [r]) = true := by
  rw [consistent_iff] at hc ⊢
  refine ⟨?_, ?_⟩
  · intro m hm
    rcases List.mem_append.1 hm with hm | hm
    · exact hc.1 m hm
    · rw [List.mem_singleton.1 hm]; exact hn
  · rw [List.pairwise_append]
    refine ⟨hc.2, List.pairwise_singleton _ _, ?_⟩
    intro a ha b hb
    rw [List.mem_singleton] at hb
    subst hb
    rw [clash_eq hu, clash_eq hu]
    constructor
    · cases h : agreeOn tb.primaryKey a b
      · rfl
      · exact absurd ⟨a, ha, agreeOn_symm h⟩ hno
    · cases h : agreeOn tb.primaryKey b a
      · rfl
      · exact absurd ⟨a, ha, h⟩ hno

omit [DecidableEq V] in
theorem notNull_congr {tb : Table} {a b : DataRow V} (h : SameOn tb a b) : notNull tb a = notNull tb b := by
  unfold notNull
  rw [Bool.eq_iff_iff, List.all_eq_true, List.all_eq_true]
  constructor <;> intro hh c hc <;> have := hh c hc
  · rw [h c hc] at this; exact this
  · rw [h c hc]; exact this

theorem consistent_update {tb : Table} (hu : ∀ c ∈ tb.constraints.items, ∀ n l, c ≠ .unique n l) {rows : List (DataRow V)}
    (hkey : ∀ k ∈ tb.primaryKey, ∃ c ∈ tb.columns.items, c.name = k ∧ c.nullable = false)
    (hc : consistent tb rows = true) {r : DataRow V} (hn : notNull tb r = true) {f : DataRow V → DataRow V}
    (hf : ∀ m ∈ rows, agreeOn tb.primaryKey r m = true → SameOn tb (f m) r) :
    consistent tb (rows.map (fun m => if agreeOn tb.primaryKey r m then f m else m)) = true := by
  refine consistent_map hu hc ?_ ?_
  · intro m hm
    split
    · rename_i ha
      rw [sameOn_keys hkey (hf m hm ha), keys_of_agree ha]
    · rfl
  · intro m hm
    split
    · rename_i ha
      rw [notNull_congr (hf m hm ha), hn]
    · exact (consistent_iff.1 hc).1 m hm

theorem refused {tb : Table} {rows : List (DataRow V)} (h : checked tb rows = none) (hc : consistent tb rows = true) : False := by
  unfold checked at h
  rw [if_pos hc] at h
  cases h

theorem refused_insert {tb : Table} (hu : ∀ c ∈ tb.constraints.items, ∀ n l, c ≠ .unique n l) {rows : List (DataRow V)}
    (hc : consistent tb rows = true) {r r' : DataRow V} (hs : SameOn tb r' r)
    (hno : ¬ ∃ m ∈ rows, agreeOn tb.primaryKey r m = true) (hn : notNull tb r = true)
    (hk : ∀ k ∈ tb.primaryKey, ∃ c ∈ tb.columns.items, c.name = k ∧ c.nullable = false)
    (h : checked tb (rows ++ [r']) = none) : False := by
  refine refused h (consistent_append hu hc ?_ (by rw [notNull_congr hs, hn]))
  rintro ⟨m, hm, ha⟩
  exact hno ⟨m, hm, by rw [← agree_congr (sameOn_keys hk hs)]; exact ha⟩

/-- Without uniqueness constraints no record is refused unless it lacks a value or has a forbidden NULL. -/
theorem exec_accepted {w : Writer} {tb : Table} {order : Option (List Text)} {s : Dml} (hs : upsertStmt w tb order = .ok s)
    (hu : Upsertable w tb s.params) {dflt : DataRow V} {gen : Text → V} {rows : List (DataRow V)} {values : Record V}
    (hc : consistent tb rows = true) (hnu : ∀ c ∈ tb.constraints.items, ∀ n l, c ≠ .unique n l)
    (hpk : tb.primaryKey ≠ []) (hlen : s.params.length = values.length) (hn : notNull tb (recordRow s.params values) = true)
    (h : exec tb dflt gen rows s values = none) : False := by
  have hcovv : ∀ c ∈ tb.columns.items, c.name ∈ tb.valueColumns.map Column.name ∨ c.name ∈ tb.primaryKey := by
    intro c hcc
    by_cases hp : c.name ∈ tb.primaryKey
    · exact .inr hp
    · left
      refine List.mem_map_of_mem ?_
      unfold Table.valueColumns
      rw [List.mem_filter]
      refine ⟨hcc, ?_⟩
      have : c.identity = false := by
        cases hi : c.identity
        · rfl
        · exact absurd (hu.identity c hcc hi) hp
      simp [this, hp]
  unfold upsertStmt at hs
  simp only [bind, Except.bind] at hs
  split at hs
  · cases hs
  · rename_i columns hcols
    unfold exec at h
    split at h
    · contradiction
    · have hnew := newRow_all (dflt := dflt) (gen := gen) hu.all hlen
      have hag : ∀ m, agreeOn tb.primaryKey (newRow tb dflt gen s.params values) m
          = agreeOn tb.primaryKey (recordRow s.params values) m := agree_congr (sameOn_keys hu.key hnew)
      have hnn := notNull_congr hnew
      rw [hn] at hnn
      have hamo := at_most_one hc (primary_unique tb) (recordRow s.params values)
      cases w <;> dsimp only [pure, Except.pure] at hs
      · -- base
        split at hs
        · cases hs
        · rename_i on hon
          split at hs
          · cases hs
          · rename_i lookup hlk
            cases hs
            have hnid : ∀ c ∈ columns, c.identity = false := fun c hcc => hu.supplied rfl c (getColumns_mem hcols c hcc)
            have hins : columns.filter (fun c => !c.identity) = columns := by
              rw [List.filter_eq_self]; intro c hcc; simp [hnid c hcc]
            have hun := unique_none (hu.unique (by simp))
            have hon' := lookup_eq hon
            rw [hins] at hlk
            have hlk' := lookup_eq hlk
            simp only [hun, Bool.or_false] at hon' hlk'
            rw [hins] at h hnew hag hamo
            dsimp only [Dml.params] at h hnew hag hamo hlen ⊢
            have hall := hu.all
            have hkey := hu.key
            dsimp only [Dml.params] at hall
            split at h
            · rename_i hon0
              obtain ⟨k, hk⟩ := List.exists_mem_of_ne_nil _ hpk
              obtain ⟨c, hcc, hcn, _⟩ := hkey k hk
              obtain ⟨c', hc', hcn'⟩ := List.mem_map.1 (hall c hcc)
              have : c' ∈ on := by
                rw [hon', List.mem_filter]
                exact ⟨hc', by rw [hcn', hcn]; simpa using hk⟩
              rw [List.map_eq_nil_iff] at hon0
              rw [hon0] at this
              cases this
            · rename_i honne
              have hcne : columns ≠ [] := by
                intro e; rw [e] at hon'; rw [hon'] at honne; exact honne rfl
              have hsing := lookup_single hon hcne
              obtain ⟨k, hk⟩ := List.length_eq_one_iff.1 hsing
              have honmem : ∀ x, x ∈ on.map Column.name ↔ x = k := by
                intro x
                rw [List.mem_map]
                constructor
                · rintro ⟨c, hcm, rfl⟩
                  rw [hon', List.mem_filter, hk] at hcm
                  simpa using hcm.2
                · rintro rfl
                  obtain ⟨c, hcc, hcn, _⟩ := hkey x (by rw [hk]; simp)
                  have hcin := hall c hcc
                  obtain ⟨c', hc', hcn'⟩ := List.mem_map.1 hcin
                  refine ⟨c', ?_, by rw [hcn', hcn]⟩
                  rw [hon', List.mem_filter]
                  exact ⟨hc', by rw [hcn', hcn, hk]; simp⟩
              have hmatch : ∀ m : DataRow V, (on.map Column.name).any (fun c => agreeOn [c]
                  (fun c => (supplied (columns.map Column.name) values c).getD none) m)
                  = agreeOn tb.primaryKey (recordRow (columns.map Column.name) values) m := by
                intro m
                rw [hk, Bool.eq_iff_iff, List.any_eq_true]
                constructor
                · rintro ⟨x, hx, hax⟩
                  rw [honmem x] at hx
                  subst hx
                  exact hax
                · intro hax
                  exact ⟨k, (honmem k).2 rfl, hax⟩
              simp only [hmatch] at h
              split at h
              · rename_i hany
                have hex := any_iff.1 hany
                have hcov : ∀ c ∈ tb.columns.items,
                    c.name ∈ (columns.filter (fun c => !lookup.contains c)).map Column.name ∨ c.name ∈ tb.primaryKey := by
                  intro c hcc
                  by_cases hp : c.name ∈ tb.primaryKey
                  · exact .inr hp
                  · left
                    obtain ⟨c', hc', hcn'⟩ := List.mem_map.1 (hall c hcc)
                    rw [← hcn']
                    refine List.mem_map_of_mem ?_
                    rw [List.mem_filter]
                    refine ⟨hc', ?_⟩
                    have : c' ∉ lookup := by
                      rw [hlk', List.mem_filter]
                      rintro ⟨_, hx⟩
                      rw [hcn'] at hx
                      exact hp (by simpa using hx)
                    simpa using this
                split at h
                · cases h
                · refine refused h (consistent_update hnu hkey hc hn ?_)
                  exact fun m _ ha => overwrite_same (fun c _ => rfl) ha hcov
              · rename_i hany
                have hex : ¬ ∃ m ∈ rows, agreeOn tb.primaryKey (recordRow (columns.map Column.name) values) m = true := by
                  rw [← any_iff]; exact hany
                split at h
                · rename_i e
                  rw [List.map_eq_nil_iff] at e
                  exact absurd e hcne
                · refine refused_insert hnu hc ?_ hex hn hkey h
                  intro c hcc
                  have := newRow_all (dflt := dflt) (gen := gen) (values := (columns.map Column.name).map
                    (fun c => (supplied (columns.map Column.name) values c).getD none)) hall (by simp) c hcc
                  rw [this]
                  unfold recordRow
                  have hm := hall c hcc
                  generalize columns.map Column.name = names at hm
                  have key : ∀ (g : DataRow V) (names : List Text), c.name ∈ names →
                      (supplied names (names.map g) c.name) = some (g c.name) := by
                    intro g names
                    induction names with
                    | nil => intro h; cases h
                    | cons x names ih =>
                      intro h
                      unfold supplied
                      rw [List.map_cons, List.zip_cons_cons, List.lookup_cons]
                      by_cases e : c.name = x
                      · simp [e]
                      · have e' : (c.name == x) = false := by simpa using e
                        rw [e']
                        rcases List.mem_cons.1 h with h | h
                        · exact absurd h e
                        · exact ih h
                  rw [key _ _ hm]; rfl
      · -- postgresql
        split at hs
        · rename_i hval
          cases hs
          dsimp only [Dml.params] at h hnew hag hamo hlen ⊢
          simp only [hag] at h
          rw [hval] at hcovv
          split at h
          · rename_i hany
            split at h
            · cases h
            · rename_i hx; exact hx hnn
          · rename_i hany
            exact refused_insert hnu hc hnew (by rw [← any_iff]; exact hany) hn hu.key h
        · cases hs
          dsimp only [Dml.params] at h hnew hag hamo hlen ⊢
          simp only [hag] at h
          split at h
          · rename_i hany
            split at h
            · rw [updateFirst_eq_map hamo] at h
              exact refused h (consistent_update hnu hu.key hc hn <| fun m _ ha => overwrite_same hnew ha hcovv)
            · rename_i hx; exact hx hnn
          · rename_i hany
            exact refused_insert hnu hc hnew (by rw [← any_iff]; exact hany) hn hu.key h
      · -- mysql
        have hcl := clash_eq (V := V) (hu.unique (by simp))
        have hcov' : ∀ c ∈ tb.columns.items, tb.valueColumns = [] → c.name ∈ tb.primaryKey := by
          intro c hcc e
          rcases hcovv c hcc with hh | hh
          · rw [e] at hh; cases hh
          · exact hh
        split at hs
        · rename_i hval
          cases hs
          dsimp only [Dml.params] at h hnew hag hamo hlen ⊢
          simp only [hcl, hag] at h
          split at h
          · rename_i hany
            split at h
            · rw [updateFirst_eq_map hamo] at h
              exact refused h (consistent_update hnu hu.key hc hn <| fun m _ ha => overwrite_same hnew ha (fun c hcc => .inr (hcov' c hcc hval)))
            · rename_i hx; exact hx hnn
          · rename_i hany
            exact refused_insert hnu hc hnew (by rw [← any_iff]; exact hany) hn hu.key h
        · cases hs
          dsimp only [Dml.params] at h hnew hag hamo hlen ⊢
          simp only [hcl, hag] at h
          split at h
          · rename_i hany
            split at h
            · rw [updateFirst_eq_map hamo] at h
              exact refused h (consistent_update hnu hu.key hc hn <| fun m _ ha => overwrite_same hnew ha hcovv)
            · rename_i hx; exact hx hnn
          · rename_i hany
            exact refused_insert hnu hc hnew (by rw [← any_iff]; exact hany) hn hu.key h

end C24

/-- **C24.**  The upsert statement of each dialect is executed for each record in turn, and none is refused.  Then the
    table has, for each key, the last record with that key, and what it had before if there is no such record.
    See `Upsertable` for the tables and statements covered; the theorems below show what happens beyond. -/
theorem C24_upsert {w : Writer} {tb : Table} {order : Option (List Text)} {s : Dml}
    (hs : upsertStmt w tb order = .ok s) (hu : Upsertable w tb s.params) {dflt : DataRow V}
    {rows rows' : List (DataRow V)} {records : List (Record V)} (hc : consistent tb rows = true)
    (h : ExecAll tb dflt s rows records rows') (key : List V) :
    SameEntry tb (rowWith tb rows' key) (updated tb s.params records key (rowWith tb rows key)) := by
  induction h with
  | nil rows => exact C24.sameEntry_refl _
  | cons gen he _ ih =>
    have hup := C24.exec_upserted hs hu hc he
    refine C24.sameEntry_trans (ih (exec_consistent hc he)) ?_
    rw [C24.updated_cons]
    exact C24.updated_congr (C24.upserted_map hup hu.key key)

/-- **C24.**  Upserting the same records again changes nothing. -/
theorem C24_idempotent {w : Writer} {tb : Table} {order : Option (List Text)} {s : Dml}
    (hs : upsertStmt w tb order = .ok s) (hu : Upsertable w tb s.params) {dflt : DataRow V}
    {rows rows' rows'' : List (DataRow V)} {records : List (Record V)} (hc : consistent tb rows = true)
    (h : ExecAll tb dflt s rows records rows') (h' : ExecAll tb dflt s rows' records rows'') (key : List V) :
    SameEntry tb (rowWith tb rows'' key) (rowWith tb rows' key) := by
  have h1 := C24_upsert hs hu hc h key
  have h2 := C24_upsert hs hu (execAll_consistent hc h) h' key
  refine C24.sameEntry_trans h2 ?_
  unfold updated at h1 ⊢
  split
  · rename_i v hv
    rw [hv] at h1
    exact C24.sameEntry_symm h1
  · exact C24.sameEntry_refl _

/-- **C24.**  Without uniqueness constraints an upsert is refused only because of a record that has not one value for each
    column, or no value for a column that cannot be NULL. -/
theorem C24_accepted {w : Writer} {tb : Table} {order : Option (List Text)} {s : Dml}
    (hs : upsertStmt w tb order = .ok s) (hu : Upsertable w tb s.params)
    (hnu : ∀ c ∈ tb.constraints.items, ∀ n l, c ≠ .unique n l) (hpk : tb.primaryKey ≠ []) {dflt : DataRow V} (gen : Text → V) :
    ∀ (records : List (Record V)) (rows : List (DataRow V)), consistent tb rows = true →
      (∀ values ∈ records, s.params.length = values.length ∧ notNull tb (recordRow s.params values) = true) →
      ∃ rows', ExecAll tb dflt s rows records rows' := by
  intro records
  induction records with
  | nil => intro rows _ _; exact ⟨rows, .nil _⟩
  | cons values rest ih =>
    intro rows hc hr
    obtain ⟨hl, hn⟩ := hr values List.mem_cons_self
    cases he : exec tb dflt gen rows s values with
    | none => exact (C24.exec_accepted hs hu hc hnu hpk hl hn he).elim
    | some rows1 =>
      obtain ⟨rows', h⟩ := ih rows1 (exec_consistent hc he) (fun v hv => hr v (List.mem_cons_of_mem _ hv))
      exact ⟨rows', .cons gen he h⟩

/-- **C24.**  The rows of the table are those of a map: no key occurs twice. -/
theorem C24_one_row_per_key {tb : Table} {s : Dml} {dflt : DataRow V} {rows rows' : List (DataRow V)}
    {records : List (Record V)} (hc : consistent tb rows = true) (h : ExecAll tb dflt s rows records rows')
    {a b : DataRow V} (ha : a ∈ rows') (hb : b ∈ rows') {key : List V} (hak : tb.primaryKey.map a = key.map some)
    (hbk : tb.primaryKey.map b = key.map some) : a = b :=
  same_row (execAll_consistent hc h) (primary_unique tb) ha hb (C24.agree_of_keys hak hbk)

namespace C24
open Example

/-- A table of cities with an integer key and a name. -/
def city : Table :=
  { name := q "geo" "city"
    columns := ⟨[col "id" int8 false, col "name" text true]⟩
    primaryKey := [t "id"], constraints := ⟨[]⟩, description := none }

/-- The same with an identity key. -/
def city' : Table :=
  { city with columns := ⟨[{ col "id" int8 false with identity := true }, col "name" text true]⟩ }

/-- The same with unique names. -/
def city'' : Table := { city with constraints := ⟨[.unique (t "uq_name") [t "name"]]⟩ }

/-- A row of the table. -/
def row (id : Nat) (name : Option Nat) : DataRow Nat :=
  fun c => if c = t "id" then some id else if c = t "name" then name else none

theorem city_upsertable (w : Writer) : Upsertable w city [t "id", t "name"] where
  all := by decide +kernel
  key := by decide +kernel
  identity := by decide +kernel
  unique := fun _ c hc => by cases hc
  supplied := fun _ => by decide +kernel

/-- The statements that the theorems are about exist for every dialect. -/
example (w : Writer) : ∃ s, upsertStmt w city none = .ok s ∧ s.params = [t "id", t "name"] ∧ Upsertable w city s.params := by
  cases w
  · exact ⟨.merge city.name [t "id", t "name"] [t "id"] [t "name"] [t "id", t "name"], by rfl, rfl, city_upsertable _⟩
  · exact ⟨.insertOrUpdateOn city.name [t "id", t "name"] [t "id"] [t "name"], by rfl, rfl, city_upsertable _⟩
  · exact ⟨.insertOrUpdate city.name [t "id", t "name"] [t "name"], by rfl, rfl, city_upsertable _⟩

/-- Three records, two of them with the same key, are accepted; one row is changed and one is new. -/
example : ∃ rows', ExecAll city (fun _ => none) (.merge city.name [t "id", t "name"] [t "id"] [t "name"] [t "id", t "name"])
      [row 1 none, row 2 (some 5)] [[some 2, some 6], [some 3, none], [some 2, some 7]] rows' ∧ rows'.length = 3 ∧
      rows'.map (fun r => (r (t "id"), r (t "name"))) = [(some 1, none), (some 2, some 7), (some 3, none)] := by
  refine ⟨_, .cons (fun _ => 0) (by rfl) (.cons (fun _ => 0) (by rfl) (.cons (fun _ => 0) (by rfl) (.nil _))), ?_, ?_⟩
  · rfl
  · decide +kernel

end C24

open C24 Example in
/-- **C24 fails** for `MERGE` (all dialects but PostgreSQL and MySQL) if the key is an identity column: the key supplied
    only serves to look up a row.  If there is none, the row inserted gets another key, so that there is still no row
    with the key supplied, and repeating the call adds a second row. -/
theorem C24_identity_key_fails :
    ∃ (s : Dml) (rows' rows'' : List (DataRow Nat)), upsertStmt .base city' none = .ok s ∧
      ExecAll city' (fun _ => none) s [] [[some 5, some 9]] rows' ∧ rowWith city' rows' [5] = none ∧ rows'.length = 1 ∧
      ExecAll city' (fun _ => none) s rows' [[some 5, some 9]] rows'' ∧ rows''.length = 2 := by
  refine ⟨.merge city.name [t "id", t "name"] [t "id"] [t "name"] [t "name"], _, _, by rfl,
    .cons (fun _ => 1) (by rfl) (.nil _), ?_, rfl, .cons (fun _ => 2) (by rfl) (.nil _), rfl⟩
  have : rowWith city' [newRow city' (fun _ => none) (fun _ => 1) [t "name"] [some 9]] [5] = none ↔
      (rowWith city' [newRow city' (fun _ => none) (fun _ => 1) [t "name"] [some 9]] [5]).isNone = true := by simp
  exact this.2 (by decide +kernel)

open C24 Example in
/-- **C24 fails** for MySQL if there is another unique key: a record with a new primary key changes the row with the same
    unique value, and there is no row with the key supplied. -/
theorem C24_mysql_other_key_fails :
    ∃ (s : Dml) (rows' : List (DataRow Nat)), upsertStmt .mysql city'' none = .ok s ∧
      ExecAll city'' (fun _ => none) s [row 1 (some 9)] [[some 2, some 9]] rows' ∧ (rowWith city'' rows' [2]).isNone = true := by
  refine ⟨.insertOrUpdate city.name [t "id", t "name"] [t "name"], _, by rfl, .cons (fun _ => 1) (by rfl) (.nil _), ?_⟩
  decide +kernel

open C24 Example in
/-- **C24 fails** for `MERGE` if there is another unique key: a record with a new primary key is not inserted, and a
    record for an existing key does not change the unique value. -/
theorem C24_merge_other_key_fails :
    ∃ (s : Dml) (rows' : List (DataRow Nat)), upsertStmt .base city'' none = .ok s ∧
      ExecAll city'' (fun _ => none) s [row 1 (some 9)] [[some 2, some 9], [some 1, some 4]] rows' ∧
      rows'.map (fun r => (r (t "id"), r (t "name"))) = [(some 1, some 9)] := by
  refine ⟨.merge city.name [t "id", t "name"] [t "id", t "name"] [] [t "id", t "name"], _, by rfl,
    .cons (fun _ => 1) (by rfl) (.cons (fun _ => 1) (by rfl) (.nil _)), ?_⟩
  decide +kernel

open C24 Example in
/-- **C24 fails** for PostgreSQL in one respect if there is another unique key: a call that was accepted may be refused
    when it is repeated. -/
theorem C24_repeated_call_refused :
    ∃ (s : Dml) (rows' : List (DataRow Nat)), upsertStmt .postgresql city'' none = .ok s ∧
      ExecAll city'' (fun _ => none) s [] [[some 1, some 8], [some 1, some 9], [some 2, some 8]] rows' ∧
      ¬ ∃ rows'', ExecAll city'' (fun _ => none) s rows' [[some 1, some 8], [some 1, some 9], [some 2, some 8]] rows'' := by
  refine ⟨.insertOrUpdateOn city.name [t "id", t "name"] [t "id"] [t "name"], _, by rfl,
    .cons (fun _ => 1) (by rfl) (.cons (fun _ => 1) (by rfl) (.cons (fun _ => 1) (by rfl) (.nil _))), ?_⟩
  rintro ⟨rows'', h⟩
  cases h with
  | cons gen he hr => cases he

end PySqlSync
