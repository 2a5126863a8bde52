/-
C33: lists and sets of entities become join tables that can hold every assignment.
-/
import Verif.Props.C32
import Verif.Spec.Joins
import Verif.Lemmas.Dml

set_option autoImplicit false
set_option linter.unusedSectionVars false
set_option linter.unusedSimpArgs false

namespace PySqlSync
open Spec

namespace C33
open Conv

variable {o : ConvOptions} {defs : PyDefs} {depth : Nat} {refs : List ClassDecl}

/-- The exact shape of the join table. -/
def Shape (tb : Table) (left right : Text) (owner item : Ref) (isList : Bool) : Prop :=
  tb.columns.items.map Column.name = [t "uuid", left, right] ∧ (∀ c ∈ tb.columns.items, c.nullable = false) ∧ tb.primaryKey = [t "uuid"] ∧
  ∃ n n' u, tb.constraints.items = [.foreign n [left] owner, .foreign n' [right] item] ++ (if isList then [] else [.unique u [right]])

theorem app_ne (a b : Text) (c : Char) : a ++ c :: b ≠ a := by
  intro h
  have := congrArg List.length h
  simp at this

theorem shape (hw : WellFormed defs refs) (hn : NoClash o defs refs) (hcc : NoColumnClash o defs refs)
    {topo : List ClassDecl → Except Err (List ClassDecl)} {enumRefs : List EnumDecl} {C : Catalog}
    (h : o.toCatalog defs depth topo refs enumRefs = .ok C) {c : ClassDecl} (hc : c ∈ refs) {k : FieldDecl} (hk : c.key = some k)
    {f : FieldDecl} (hf : f ∈ c.fields) {isList : Bool} {item : PyType} (hty : f.ty = if isList then .list item else .set item)
    {n : PyName} {key : Text} (hi : ItemType o defs item n key) {qo qi : QId} (hqo : o.qualifiedId c.name = .ok qo)
    (hqi : o.qualifiedId n = .ok qi) :
    ∃ tb, InCatalog C tb.name.key.1 tb ∧ o.qualifiedId (c.name.1, c.name.2 ++ t "_" ++ f.name ++ t "_" ++ n.2) = .ok tb.name ∧
      c.name.2 ++ t "_" ++ f.name ≠ n.2 ++ t "_" ++ key ∧
      Shape tb (c.name.2 ++ t "_" ++ f.name) (n.2 ++ t "_" ++ key) ⟨qo, [k.name]⟩ ⟨qi, [key]⟩ isList := by
  have hks : c.key.isSome = true := by simp [hk]
  have hty' : f.ty = .list item ∨ f.ty = .set item := by cases isList <;> simp_all
  have hre : o.arrayMode = .relation ∨ defs.isEntity item = true := by
    rcases hi with ⟨rfl, c', k', h1, h2, _⟩ | ⟨_, h, _⟩
    · right; simp [PyDefs.isEntity, h1, h2]
    · exact .inl h
  have hin : item = .cls n ∨ item = .enum n := by
    rcases hi with ⟨h, _⟩ | ⟨h, _⟩
    · exact .inl h
    · exact .inr h
  have hmk : Makes o defs refs (.join c.name f.name n) := .join c hc hks f hf item n hty' hre hin
  obtain ⟨enums, structs, tables, _, _, h3, _⟩ := C32.toCatalog_inv h
  obtain ⟨tb, hmem, hB⟩ := C32.allTables_fwd h3 hmk
  refine ⟨tb, (C32.catalog_tables hw hn h _ tb).2 ⟨_, hmk, hB, rfl⟩, C32.built_name hB, ?_⟩
  obtain ⟨c', hc', hcn, _, f', hf', hfn, isList', item', hr, hi', hb⟩ := hB
  cases C32.wf_unique hw hc' hc hcn
  cases C32.nodup_field (hw.fields c hc) hf' hf hfn
  have hrel : o.relationship defs f.ty = some (isList, item) := by
    rcases hre with h | h <;> cases isList <;> simp [hty, ConvOptions.relationship, h]
  rw [hrel] at hr
  cases hr
  obtain ⟨k', x, lt, pre, lr, rr, name, hkey, hx, hlt, hpre, hlr, hrr, h1, rfl⟩ := C32.joinTable_inv hb
  rw [hk] at hkey
  cases hkey
  have hxx : x.1 = n ∧ x.2.1 = key := by
    rcases C32.joinItem_inv hx with ⟨e1, k'', e2, e3, _⟩ | ⟨e1, e2, e3, _⟩
    · rcases hi with ⟨e4, c'', k''', e5, e6, e7⟩ | ⟨e4, _⟩
      · rw [e4] at e1
        cases e1
        rw [e5, Option.bind_some, e6] at e2
        cases e2
        exact ⟨rfl, by rw [e7, e3]⟩
      · rw [e4] at e1; cases e1
    · rcases hi with ⟨e4, _⟩ | ⟨e4, _, _, e5⟩
      · rw [e4] at e1; cases e1
      · rw [e4] at e1; cases e1
        exact ⟨rfl, by rw [e5, e3]⟩
  obtain ⟨rfl, rfl⟩ := hxx
  rw [hqo] at hlr
  cases hlr
  rw [hqi] at hrr
  cases hrr
  have hne : c.name.2 ++ t "_" ++ f.name ≠ x.1.2 ++ t "_" ++ x.2.1 := by
    refine hcc.joins c hc f hf item x.1 x.2.1 hty' ?_
    rcases hi with h | ⟨h1, _, _, h2⟩
    · exact .inl h
    · exact .inr ⟨h1, h2⟩
  refine ⟨hne, ?_, ?_, rfl, t "jk_" ++ (pre ++ t "_" ++ f.name), t "jk_" ++ (pre ++ t "_" ++ f.name ++ t "_" ++ x.1.2),
    t "uq_" ++ (pre ++ t "_" ++ f.name ++ t "_" ++ x.1.2), ?_⟩
  · dsimp only
    rw [C32.join_columns rfl rfl rfl hne]
    rfl
  · dsimp only
    rw [C32.join_columns rfl rfl rfl hne]
    intro col hcol
    simp only [List.mem_cons, List.not_mem_nil, or_false] at hcol
    rcases hcol with rfl | rfl | rfl <;> rfl
  · dsimp only
    apply ODict.ofList_of_nodup
    have e1 : t "jk_" ++ (pre ++ t "_" ++ f.name) ≠ t "jk_" ++ (pre ++ t "_" ++ f.name ++ t "_" ++ x.1.2) := by
      intro e
      have := List.append_cancel_left e
      rw [List.append_assoc (pre ++ t "_" ++ f.name) (t "_") x.1.2] at this
      exact app_ne (pre ++ t "_" ++ f.name) x.1.2 '_' this.symm
    have e2 : ∀ a b : Text, t "jk_" ++ a ≠ t "uq_" ++ b := by intro a b e; simp [t] at e
    cases isList
    · simp only [Bool.false_eq_true, if_false, List.cons_append, List.nil_append, List.map_cons, List.map_nil, Named.key, Constraint.name,
        List.nodup_cons, List.mem_cons, List.not_mem_nil, or_false, not_or, not_false_eq_true, List.nodup_nil, and_true, true_and]
      exact ⟨⟨e1, e2 _ _⟩, e2 _ _⟩
    · simp only [if_true, List.append_nil, List.map_cons, List.map_nil, Named.key, Constraint.name,
        List.nodup_cons, List.mem_cons, List.not_mem_nil, or_false, not_or, not_false_eq_true, List.nodup_nil, and_true, true_and]
      exact e1

/-! ### Rows for an assignment -/

variable {V : Type} [DecidableEq V]

/-- A row of a join table. -/
def mk (left right : Text) (u l r : V) : DataRow V :=
  fun c => if c = t "uuid" then some u else if c = left then some l else if c = right then some r else none

/-- Rows for pairs of owner and item, with new keys. -/
def rowsFrom (left right : Text) (fresh : Nat → V) : Nat → List (V × V) → List (DataRow V)
  | _, [] => []
  | i, p :: rest => mk left right (fresh i) p.1 p.2 :: rowsFrom left right fresh (i + 1) rest

variable {left right : Text} {fresh : Nat → V}

theorem mem_rowsFrom {r : DataRow V} : ∀ {ps : List (V × V)} {i : Nat}, r ∈ rowsFrom left right fresh i ps →
    ∃ j, i ≤ j ∧ ∃ p ∈ ps, r = mk left right (fresh j) p.1 p.2
  | [], _, h => by cases h
  | p :: ps, i, h => by
    rcases List.mem_cons.1 h with rfl | h
    · exact ⟨i, Nat.le_refl _, p, List.mem_cons_self .., rfl⟩
    · obtain ⟨j, hj, q, hq, rfl⟩ := mem_rowsFrom h
      exact ⟨j, by omega, q, List.mem_cons_of_mem _ hq, rfl⟩

theorem filter_rowsFrom (h1 : t "uuid" ≠ left) (h2 : t "uuid" ≠ right) (h3 : left ≠ right) (w : V) : ∀ (ps : List (V × V)) (i : Nat),
    ((rowsFrom left right fresh i ps).filter (fun r => r left = some w)).map (fun r => r right) =
      ((ps.filter (fun p => p.1 = w)).map Prod.snd).map some
  | [], _ => rfl
  | p :: ps, i => by
    have ih := filter_rowsFrom h1 h2 h3 w ps (i + 1)
    have hl : (mk left right (fresh i) p.1 p.2) left = some p.1 := by simp [mk, h1.symm]
    have hr : (mk left right (fresh i) p.1 p.2) right = some p.2 := by simp [mk, h2.symm, h3.symm]
    unfold rowsFrom
    by_cases hp : p.1 = w
    · rw [List.filter_cons_of_pos (by rw [hl, hp]; exact decide_eq_true rfl), List.filter_cons_of_pos (by simp [hp]), List.map_cons, List.map_cons, List.map_cons, hr, ih]
    · rw [List.filter_cons_of_neg (by simp [hl, hp]), List.filter_cons_of_neg (by simp [hp]), ih]

/-- Owners with their items. -/
def pairs (owners : List V) (items : V → List V) : List (V × V) := owners.flatMap (fun w => (items w).map (fun x => (w, x)))

theorem mem_pairs {owners : List V} {items : V → List V} {p : V × V} : p ∈ pairs owners items ↔ p.1 ∈ owners ∧ p.2 ∈ items p.1 := by
  unfold pairs
  simp only [List.mem_flatMap, List.mem_map]
  constructor
  · rintro ⟨w, hw, x, hx, rfl⟩; exact ⟨hw, hx⟩
  · rintro ⟨h1, h2⟩; exact ⟨p.1, h1, p.2, h2, rfl⟩

theorem filter_pairs {items : V → List V} {w : V} : ∀ {owners : List V}, owners.Nodup → w ∈ owners →
    ((pairs owners items).filter (fun p => p.1 = w)).map Prod.snd = items w
  | [], _, h => by cases h
  | a :: rest, hnd, hw => by
    rw [List.nodup_cons] at hnd
    unfold pairs
    rw [List.flatMap_cons, List.filter_append, List.map_append]
    have hrest : w ∉ rest → ((pairs rest items).filter (fun p => p.1 = w)) = [] := by
      intro hn
      rw [List.filter_eq_nil_iff]
      intro p hp
      have := (mem_pairs.1 hp).1
      simp only [decide_eq_true_eq]
      rintro rfl
      exact hn this
    by_cases ha : a = w
    · subst ha
      have e := hrest hnd.1
      unfold pairs at e
      rw [e, List.filter_eq_self.2 (by intro p hp; obtain ⟨x, _, rfl⟩ := List.mem_map.1 hp; simp)]
      simp [Function.comp_def]
    · have hw' : w ∈ rest := by
        rcases List.mem_cons.1 hw with h | h
        · exact absurd h.symm ha
        · exact h
      rw [List.filter_eq_nil_iff.2 (by intro p hp; obtain ⟨x, _, rfl⟩ := List.mem_map.1 hp; simp [ha])]
      have := filter_pairs (items := items) hnd.2 hw'
      unfold pairs at this
      simpa using this

theorem uniqueSets_shape {tb : Table} {owner item : Ref} {isList : Bool} (hs : Shape tb left right owner item isList) :
    uniqueSets tb = [t "uuid"] :: (if isList then [] else [[right]]) := by
  obtain ⟨_, _, hk, n, n', u, hc⟩ := hs
  unfold uniqueSets
  rw [hk, hc]
  cases isList <;> simp

/-- The rows of pairs are accepted. -/
theorem accepts {tb : Table} {owner item : Ref} {isList : Bool} (hs : Shape tb left right owner item isList)
    (h1 : t "uuid" ≠ left) (h2 : t "uuid" ≠ right) (h3 : left ≠ right) (hfresh : ∀ i j, fresh i = fresh j → i = j)
    {keys : Ref → List (List V)} : ∀ {ps : List (V × V)} (i : Nat), (∀ p ∈ ps, [p.1] ∈ keys owner ∧ [p.2] ∈ keys item) →
      (isList = false → ps.Pairwise (fun p q => p.2 ≠ q.2)) → TableAccepts tb keys (rowsFrom left right fresh i ps) := by
  intro ps i hps hpw
  have hu (a b c : V) : mk left right a b c (t "uuid") = some a := by simp [mk]
  have hl (a b c : V) : mk left right a b c left = some b := by simp [mk, h1.symm]
  have hr (a b c : V) : mk left right a b c right = some c := by simp [mk, h2.symm, h3.symm]
  have huniq := uniqueSets_shape hs
  obtain ⟨hcols, hreq, hk, n, n', u, hc⟩ := hs
  constructor
  · rw [consistent_iff]
    constructor
    · intro r hr'
      obtain ⟨j, _, p, _, rfl⟩ := mem_rowsFrom hr'
      unfold notNull
      rw [List.all_eq_true]
      intro c hc
      have : c.name ∈ tb.columns.items.map Column.name := List.mem_map.2 ⟨c, hc, rfl⟩
      rw [hcols] at this
      simp only [List.mem_cons, List.not_mem_nil, or_false] at this
      rcases this with e | e | e <;> simp [e, hu, hl, hr]
    · clear hps
      induction ps generalizing i with
      | nil => exact List.Pairwise.nil
      | cons p ps ih =>
        unfold rowsFrom
        rw [List.pairwise_cons]
        refine ⟨?_, ih (i + 1) (fun h => (List.pairwise_cons.1 (hpw h)).2)⟩
        intro s hs
        obtain ⟨j, hj, q, hq, rfl⟩ := mem_rowsFrom hs
        have huu : fresh i ≠ fresh j := fun e => by have := hfresh _ _ e; omega
        unfold clash
        rw [huniq]
        cases hL : isList with
        | true => simp [agreeOn, hu, huu, huu.symm]
        | false =>
          have hpq := (List.pairwise_cons.1 (hpw hL)).1 q hq
          simp [agreeOn, hu, hr, huu, huu.symm, hpq, Ne.symm hpq]
  · intro c hc' l hl' r hr' vs hvs
    obtain ⟨j, _, p, hp, rfl⟩ := mem_rowsFrom hr'
    rw [hc] at hc'
    have hcases : (c = .foreign n [left] owner) ∨ (c = .foreign n' [right] item) ∨ links c = [] := by
      cases isList <;> simp at hc' <;> rcases hc' with h | h | h <;> simp_all [links]
    rcases hcases with rfl | rfl | h
    · simp only [links, List.mem_singleton] at hl'
      subst hl'
      have : vs = [p.1] := by
        have : [some p.1] = vs.map some := by simpa [hl] using hvs
        cases vs with
        | nil => cases this
        | cons v rest =>
          cases rest with
          | nil => simpa using this.symm
          | cons => simp at this
      rw [this]; exact (hps p hp).1
    · simp only [links, List.mem_singleton] at hl'
      subst hl'
      have : vs = [p.2] := by
        have : [some p.2] = vs.map some := by simpa [hr] using hvs
        cases vs with
        | nil => cases this
        | cons v rest =>
          cases rest with
          | nil => simpa using this.symm
          | cons => simp at this
      rw [this]; exact (hps p hp).2
    · rw [h] at hl'; cases hl'

theorem represents (h1 : t "uuid" ≠ left) (h2 : t "uuid" ≠ right) (h3 : left ≠ right) {owners : List V} (hnd : owners.Nodup) (items : V → List V) :
    Represents left right (rowsFrom left right fresh 0 (pairs owners items)) owners items := by
  constructor
  · intro r hr
    obtain ⟨j, _, p, hp, rfl⟩ := mem_rowsFrom hr
    exact ⟨p.1, (mem_pairs.1 hp).1, by simp [mk, h1.symm]⟩
  · intro w hw
    rw [filter_rowsFrom h1 h2 h3, filter_pairs hnd hw]

theorem pairwise_pairs {items : V → List V} : ∀ {owners : List V}, owners.Nodup → (∀ w ∈ owners, (items w).Nodup) →
    (∀ w ∈ owners, ∀ w' ∈ owners, w ≠ w' → ∀ x ∈ items w, x ∉ items w') → (pairs owners items).Pairwise (fun p q => p.2 ≠ q.2)
  | [], _, _, _ => List.Pairwise.nil
  | a :: rest, hnd, h1, h2 => by
    rw [List.nodup_cons] at hnd
    unfold pairs
    rw [List.flatMap_cons, List.pairwise_append]
    refine ⟨?_, pairwise_pairs hnd.2 (fun w hw => h1 w (List.mem_cons_of_mem _ hw))
      (fun w hw w' hw' => h2 w (List.mem_cons_of_mem _ hw) w' (List.mem_cons_of_mem _ hw')), ?_⟩
    · rw [List.pairwise_map]
      exact h1 a (List.mem_cons_self ..)
    · intro p hp q hq
      obtain ⟨x, hx, rfl⟩ := List.mem_map.1 hp
      have hq : q ∈ pairs rest items := hq
      obtain ⟨hq1, hq2⟩ := mem_pairs.1 hq
      have : a ≠ q.1 := fun e => hnd.1 (e ▸ hq1)
      have := h2 a (List.mem_cons_self ..) q.1 (List.mem_cons_of_mem _ hq1) this x hx
      dsimp only
      rintro rfl
      exact this hq2

end C33

section
variable (o : ConvOptions) (defs : PyDefs) (depth : Nat) (topo : List ClassDecl → Except Err (List ClassDecl)) (refs : List ClassDecl)
  (enumRefs : List EnumDecl) (C : Catalog) (hw : WellFormed defs refs) (hn : NoClash o defs refs) (hcc : NoColumnClash o defs refs)
  (h : o.toCatalog defs depth topo refs enumRefs = .ok C)
  (c : ClassDecl) (hc : c ∈ refs) (k : FieldDecl) (hk : c.key = some k) (f : FieldDecl) (hf : f ∈ c.fields)
  (item : PyType) (n : PyName) (key : Text) (hi : ItemType o defs item n key)
  (qo qi : QId) (hqo : o.qualifiedId c.name = .ok qo) (hqi : o.qualifiedId n = .ok qi)
include hw hn hcc h hc hk hf hi hqo hqi

/-- **C33**, lists: a field `list[E]` of an entity becomes a join table with a key of its own and a reference to the key of either side, and
    for every set of owners, and every list of existing items for each of them (items may be repeated and shared), the table accepts rows that
    represent these lists, up to the order of the items.  (`fresh` are the keys that the database or the user makes up.) -/
theorem C33_lists (hty : f.ty = .list item) :
    ∃ tb, InCatalog C tb.name.key.1 tb ∧ o.qualifiedId (c.name.1, c.name.2 ++ t "_" ++ f.name ++ t "_" ++ n.2) = .ok tb.name ∧
      Joins tb (c.name.2 ++ t "_" ++ f.name) (n.2 ++ t "_" ++ key) ⟨qo, [k.name]⟩ ⟨qi, [key]⟩ ∧
      ∀ (V : Type) [DecidableEq V] (fresh : Nat → V) (keys : Ref → List (List V)) (owners : List V) (items : V → List V),
        (∀ i j, fresh i = fresh j → i = j) → owners.Nodup →
        (∀ w ∈ owners, [w] ∈ keys ⟨qo, [k.name]⟩ ∧ ∀ x ∈ items w, [x] ∈ keys ⟨qi, [key]⟩) →
        ∃ rows, TableAccepts tb keys rows ∧ Represents (c.name.2 ++ t "_" ++ f.name) (n.2 ++ t "_" ++ key) rows owners items := by
  obtain ⟨tb, hin, hname, hne, hs⟩ := C33.shape hw hn hcc h hc hk hf (isList := true) (by simpa using hty) hi hqo hqi
  refine ⟨tb, hin, hname, ?_, ?_⟩
  · obtain ⟨h1, h2, h3, a, b, u, h4⟩ := hs
    exact ⟨h1, h2, h3, a, b, [], by simpa using h4, by simp⟩
  · intro V _ fresh keys owners items hf hnd hkeys
    refine ⟨_, C33.accepts hs (C32.uuid_ne _ _) (C32.uuid_ne _ _) hne hf 0 (ps := C33.pairs owners items) ?_ (by simp),
      C33.represents (C32.uuid_ne _ _) (C32.uuid_ne _ _) hne hnd items⟩
    intro p hp
    obtain ⟨h1, h2⟩ := C33.mem_pairs.1 hp
    exact ⟨(hkeys p.1 h1).1, (hkeys p.1 h1).2 p.2 h2⟩

/-- **C33**, sets: a field `set[E]` becomes a join table that can represent the sets of items of the owners exactly if no item
    is in the sets of two owners: the table requires that every item occurs once. -/
theorem C33_sets (hty : f.ty = .set item) :
    ∃ tb, InCatalog C tb.name.key.1 tb ∧ o.qualifiedId (c.name.1, c.name.2 ++ t "_" ++ f.name ++ t "_" ++ n.2) = .ok tb.name ∧
      Joins tb (c.name.2 ++ t "_" ++ f.name) (n.2 ++ t "_" ++ key) ⟨qo, [k.name]⟩ ⟨qi, [key]⟩ ∧
      ∀ (V : Type) [DecidableEq V] (fresh : Nat → V) (keys : Ref → List (List V)) (owners : List V) (items : V → List V),
        (∀ i j, fresh i = fresh j → i = j) → owners.Nodup →
        (∀ w ∈ owners, [w] ∈ keys ⟨qo, [k.name]⟩ ∧ ∀ x ∈ items w, [x] ∈ keys ⟨qi, [key]⟩) → (∀ w ∈ owners, (items w).Nodup) →
        ((∃ rows, TableAccepts tb keys rows ∧ Represents (c.name.2 ++ t "_" ++ f.name) (n.2 ++ t "_" ++ key) rows owners items) ↔
          ∀ w ∈ owners, ∀ w' ∈ owners, w ≠ w' → ∀ x ∈ items w, x ∉ items w') := by
  obtain ⟨tb, hin, hname, hne, hs⟩ := C33.shape hw hn hcc h hc hk hf (isList := false) (by simpa using hty) hi hqo hqi
  refine ⟨tb, hin, hname, ?_, ?_⟩
  · obtain ⟨h1, h2, h3, a, b, u, h4⟩ := hs
    exact ⟨h1, h2, h3, a, b, [.unique u [n.2 ++ t "_" ++ key]], by simpa using h4, by simp [links]⟩
  · intro V _ fresh keys owners items hf hnd hkeys hsets
    constructor
    · rintro ⟨rows, hacc, hrep⟩ w hw' w' hw'' hww x hx hx'
      have get : ∀ w ∈ owners, x ∈ items w → ∃ r ∈ rows, r (c.name.2 ++ t "_" ++ f.name) = some w ∧ r (n.2 ++ t "_" ++ key) = some x := by
        intro w hw hx
        have := (hrep.items w hw).mem_iff.2 (List.mem_map.2 ⟨x, hx, rfl⟩)
        obtain ⟨r, hr, he⟩ := List.mem_map.1 this
        obtain ⟨h1, h2⟩ := List.mem_filter.1 hr
        exact ⟨r, h1, by simpa using h2, he⟩
      obtain ⟨r, hr, hrl, hrr⟩ := get w hw' hx
      obtain ⟨r', hr', hrl', hrr'⟩ := get w' hw'' hx'
      have hu : [n.2 ++ t "_" ++ key] ∈ uniqueSets tb := by rw [C33.uniqueSets_shape hs]; simp
      have := same_row hacc.consistent hu hr hr' (agreeOn_iff.2 (by
        intro col hcol
        rw [List.mem_singleton] at hcol
        exact ⟨x, by rw [hcol, hrr], by rw [hcol, hrr']⟩))
      subst this
      rw [hrl] at hrl'
      exact hww (Option.some.inj hrl')
    · intro hdis
      refine ⟨_, C33.accepts hs (C32.uuid_ne _ _) (C32.uuid_ne _ _) hne hf 0 (ps := C33.pairs owners items) ?_
        (fun _ => C33.pairwise_pairs hnd hsets hdis), C33.represents (C32.uuid_ne _ _) (C32.uuid_ne _ _) hne hnd items⟩
      intro p hp
      obtain ⟨h1, h2⟩ := C33.mem_pairs.1 hp
      exact ⟨(hkeys p.1 h1).1, (hkeys p.1 h1).2 p.2 h2⟩

/-- The full claim fails for sets: whenever two owners share an item, no rows of the table represent their sets. -/
theorem C33_shared_item_fails (hty : f.ty = .set item) :
    ∃ tb, InCatalog C tb.name.key.1 tb ∧ o.qualifiedId (c.name.1, c.name.2 ++ t "_" ++ f.name ++ t "_" ++ n.2) = .ok tb.name ∧
      ∀ (V : Type) [DecidableEq V] (keys : Ref → List (List V)) (owners : List V) (items : V → List V) (w w' x : V),
        w ∈ owners → w' ∈ owners → w ≠ w' → x ∈ items w → x ∈ items w' →
        ¬ ∃ rows, TableAccepts tb keys rows ∧ Represents (c.name.2 ++ t "_" ++ f.name) (n.2 ++ t "_" ++ key) rows owners items := by
  obtain ⟨tb, hin, hname, hne, hs⟩ := C33.shape hw hn hcc h hc hk hf (isList := false) (by simpa using hty) hi hqo hqi
  refine ⟨tb, hin, hname, ?_⟩
  rintro V _ keys owners items w w' x hw' hw'' hww hx hx' ⟨rows, hacc, hrep⟩
  have get : ∀ w ∈ owners, x ∈ items w → ∃ r ∈ rows, r (c.name.2 ++ t "_" ++ f.name) = some w ∧ r (n.2 ++ t "_" ++ key) = some x := by
    intro w hw hx
    have := (hrep.items w hw).mem_iff.2 (List.mem_map.2 ⟨x, hx, rfl⟩)
    obtain ⟨r, hr, he⟩ := List.mem_map.1 this
    obtain ⟨h1, h2⟩ := List.mem_filter.1 hr
    exact ⟨r, h1, by simpa using h2, he⟩
  obtain ⟨r, hr, hrl, hrr⟩ := get w hw' hx
  obtain ⟨r', hr', hrl', hrr'⟩ := get w' hw'' hx'
  have hu : [n.2 ++ t "_" ++ key] ∈ uniqueSets tb := by rw [C33.uniqueSets_shape hs]; simp
  have := same_row hacc.consistent hu hr hr' (agreeOn_iff.2 (by
    intro col hcol
    rw [List.mem_singleton] at hcol
    exact ⟨x, by rw [hcol, hrr], by rw [hcol, hrr']⟩))
  subst this
  rw [hrl] at hrl'
  exact hww (Option.some.inj hrl')

end

/-- The hypotheses are met for every engine by the field `items: list[Product]` of `Order` (`Examples/Program.lean`), and all orders may share
    all products. -/
example (e : Engine) : ∃ C, (Program.opts e Program.gen0).toCatalog Program.defs0 10 .ok Program.refs0 Program.enums0 = .ok C ∧
    ∃ tb, InCatalog C tb.name.key.1 tb ∧ ∃ (keys : Ref → List (List Nat)) (rows : List (DataRow Nat)), TableAccepts tb keys rows ∧
      Represents (t "Order_items") (t "Product_code") rows [1, 2, 3] (fun _ => [7, 8, 7]) := by
  obtain ⟨C, h⟩ := Program.accepted0 e
  have hq : ∀ n, ∃ q, (Program.opts e Program.gen0).qualifiedId n = .ok q := by
    intro n
    cases e <;> exact ⟨_, rfl⟩
  obtain ⟨qo, hqo⟩ := hq Program.order.name
  obtain ⟨qi, hqi⟩ := hq Program.product.name
  obtain ⟨tb, hin, _, _, hrep⟩ := C33_lists _ _ _ _ _ _ C Program.wf0 (Program.noClash0 e) (Program.columns0 _) h Program.order
    (by decide +kernel) { name := t "id", ty := .prim .uuid, primary := true } (by decide +kernel)
    { name := t "items", ty := .list (.cls Program.product.name) } (by decide +kernel) (.cls Program.product.name) Program.product.name (t "code")
    (.inl ⟨rfl, Program.product, { name := t "code", ty := .annotated .str [.maxLength 10], primary := true }, by decide +kernel,
      by decide +kernel, rfl⟩) qo qi hqo hqi rfl
  obtain ⟨rows, h1, h2⟩ := hrep Nat (fun i => i) (fun _ => [[1], [2], [3], [7], [8]]) [1, 2, 3] (fun _ => [7, 8, 7])
    (fun _ _ e => e) (by decide) (by decide)
  exact ⟨C, h, tb, hin, _, rows, h1, h2⟩

/-- The same for the field `labels: set[Person]`, with sets that do not overlap. -/
example (e : Engine) : ∃ C, (Program.opts e Program.gen0).toCatalog Program.defs0 10 .ok Program.refs0 Program.enums0 = .ok C ∧
    ∃ tb, InCatalog C tb.name.key.1 tb ∧ ∃ (keys : Ref → List (List Nat)) (rows : List (DataRow Nat)), TableAccepts tb keys rows ∧
      Represents (t "Order_labels") (t "Person_id") rows [1, 2] (fun w => if w = 1 then [7, 8] else [9]) := by
  obtain ⟨C, h⟩ := Program.accepted0 e
  have hq : ∀ n, ∃ q, (Program.opts e Program.gen0).qualifiedId n = .ok q := by
    intro n
    cases e <;> exact ⟨_, rfl⟩
  obtain ⟨qo, hqo⟩ := hq Program.order.name
  obtain ⟨qi, hqi⟩ := hq Program.person.name
  obtain ⟨tb, hin, _, _, hrep⟩ := C33_sets _ _ _ _ _ _ C Program.wf0 (Program.noClash0 e) (Program.columns0 _) h Program.order
    (by decide +kernel) { name := t "id", ty := .prim .uuid, primary := true } (by decide +kernel)
    { name := t "labels", ty := .set (.cls Program.person.name) } (by decide +kernel) (.cls Program.person.name) Program.person.name (t "id")
    (.inl ⟨rfl, Program.person, { name := t "id", ty := .prim .int64, primary := true }, by decide +kernel,
      by decide +kernel, rfl⟩) qo qi hqo hqi rfl
  obtain ⟨rows, h1, h2⟩ := (hrep Nat (fun i => i) (fun _ => [[1], [2], [7], [8], [9]]) [1, 2] (fun w => if w = 1 then [7, 8] else [9])
    (fun _ _ e => e) (by decide) (by decide) (by decide)).2 (by decide)
  exact ⟨C, h, tb, hin, _, rows, h1, h2⟩

namespace C33

/-- Class `A` with a field `b_id: list[A_b]`, and class `A_b` with the key `id`: both references get the name `A_b_id`. -/
def clashing : List ClassDecl := [
  { name := (t "m", t "A"), fields := [{ name := t "id", ty := .prim .int64, primary := true }, { name := t "b_id", ty := .list (.cls (t "m", t "A_b")) }] },
  { name := (t "m", t "A_b"), fields := [{ name := t "id", ty := .prim .str, primary := true }] }]

end C33

/-- Without the condition on column names the claim fails: the table has one column for both sides, so it accepts no rows for any owner that
    has an item with another key (`C32_types` fails for it, too: the keys have different types). -/
theorem C33_column_clash_fails : ∃ (o : ConvOptions) (defs : PyDefs) (refs : List ClassDecl) (C : Catalog) (tb : Table),
    WellFormed defs refs ∧ NoClash o defs refs ∧ o.toCatalog defs 10 .ok refs [] = .ok C ∧ InCatalog C (t "m") tb ∧
    tb.name = .qualified (some (t "m")) (t "A_b_id_A_b") ∧ tb.columns.items.map Column.name = [t "uuid", t "A_b_id"] ∧ ¬ SameTypes C ∧
    ∀ (V : Type) [DecidableEq V] (rows : List (DataRow V)) (owners : List V) (items : V → List V) (w x : V), w ∈ owners → x ∈ items w → x ≠ w →
      ¬ Represents (t "A_b_id") (t "A_b_id") rows owners items := by
  obtain ⟨C, h⟩ := Program.ok_of_toOption (x := (Program.opts .postgresql Program.gen0).toCatalog ⟨C33.clashing, []⟩ 10 .ok C33.clashing [])
    (by decide +kernel)
  have hC : Program.catalog .postgresql Program.gen0 ⟨C33.clashing, []⟩ C33.clashing [] = some C := by
    unfold Program.catalog; rw [h]; rfl
  have hbad : (Program.catalog .postgresql Program.gen0 ⟨C33.clashing, []⟩ C33.clashing []).any (fun C =>
      C.namespaces.items.any (fun n => decide (n.name = t "m") && n.tables.items.any (fun tb =>
        decide (tb.name = .qualified (some (t "m")) (t "A_b_id_A_b")) && decide (tb.columns.items.map Column.name = [t "uuid", t "A_b_id"]) &&
        tb.constraints.items.any (fun c => (links c).any (fun l => tb.columns.items.any (fun col => decide (l.1 = [col.name]) &&
          n.tables.items.any (fun tb' => decide (tb'.name = l.2.table) && decide (l.2.columns = tb'.primaryKey) && decide (l.2.table.key.1 = n.name) &&
            tb'.columns.items.any (fun col' => decide (l.2.columns = [col'.name]) && decide (col.ty ≠ col'.ty))))))))) = true := by
    decide +kernel
  rw [hC] at hbad
  simp only [Option.any_some, List.any_eq_true, Bool.and_eq_true, decide_eq_true_eq] at hbad
  obtain ⟨n, hn, hns, tb, htb, ⟨h1, h2⟩, c, hc, l, hl, col, hcol, h3, tb', htb', ⟨⟨h4, h5⟩, h6⟩, col', hcol', h7, h8⟩ := hbad
  refine ⟨Program.opts .postgresql Program.gen0, ⟨C33.clashing, []⟩, C33.clashing, C, tb, Program.wellFormedB_ok (by decide +kernel),
    Program.noClashB_ok (by decide +kernel), h, ⟨n, hn, hns, htb⟩, h1, h2, ?_, ?_⟩
  · intro hs
    exact h8 (hs n.name tb ⟨n, hn, rfl, htb⟩ c hc l hl tb' ⟨⟨n, hn, h6.symm, htb'⟩, h4, h5⟩ col hcol col' hcol' h3 h7)
  · intro V _ rows owners items w x hw hx hne hrep
    have := (hrep.items w hw).mem_iff.2 (List.mem_map.2 ⟨x, hx, rfl⟩)
    obtain ⟨r, hr, he⟩ := List.mem_map.1 this
    have := (List.mem_filter.1 hr).2
    rw [decide_eq_true_eq, he] at this
    exact hne (Option.some.inj this)

end PySqlSync
