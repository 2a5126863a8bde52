/-
C51 — Exploring a schema of PostgreSQL yields the description that it was created from.
-/
import Verif.Lemmas.Explore
import Verif.Props.C30
import Verif.Props.C36
import Verif.Props.C14
import Verif.Props.C11
import Verif.Props.C05
import Verif.Lemmas.Url

set_option autoImplicit false

namespace PySqlSync
open Spec

namespace C51

variable {expr : SqlType → Text → Text}

theorem textOrNone_remark (d : Option Text) : textOrNone (Pg.remark d) = Pg.remark d := by
  match d with
  | none => rfl
  | some [] => rfl
  | some (c :: s) => rfl

theorem remark_eq {d : Option Text} : Pg.remark d = d ↔ d ≠ some [] := by
  match d with
  | none => exact ⟨fun _ h => (by cases h), fun _ => rfl⟩
  | some [] => exact ⟨fun h => (by cases h), fun h => absurd rfl h⟩
  | some (c :: s) => exact ⟨fun _ h => (by cases h), fun _ => rfl⟩

theorem ite_some {α : Type} {c : Prop} [Decidable c] {x y : Option α} {a : α} (h : (if c then x else y) = some a) : x = some a ∨ y = some a := by
  split at h
  · exact .inl h
  · exact .inr h

/-- A type from a specification is never an array. -/
theorem not_array {spec : TypeSpec} {ty e : SqlType} (h : typeFromSpec Engine.postgresql.discovered spec = .ok ty) : ty ≠ .array e := by
  unfold typeFromSpec at h
  have key : ∀ a b, refineType spec a = b → b = .array e → a = .array e := by
    intro a b h1 h2
    subst h2
    cases a <;> simp only [refineType] at h1 <;> first | exact h1 | cases h1
  have k1 : ∀ a, substitutedType Engine.postgresql.discovered spec = some a → a ≠ .array e := by
    intro a ha
    unfold substitutedType at ha
    split at ha
    · simp only [Engine.discovered] at ha
      split at ha
      · cases ha; intro h; cases h
      · split at ha
        · cases ha; intro h; cases h
        · cases ha
    · cases ha
  have k2 : ∀ s a, typeFromDef s = some a → a ≠ .array e := by
    intro s a ha
    unfold typeFromDef at ha
    repeat' split at ha
    all_goals first | (cases ha; intro h; cases h) | cases ha
  have k3 : ∀ n s a, typeFromName n s = some a → a ≠ .array e := by
    intro n s a ha
    unfold typeFromName at ha
    split at ha
    · rename_i ty hty
      cases ha
      unfold namedType at hty
      repeat (rcases ite_some hty with h | hty; · cases h; intro h; cases h)
      cases hty
    · cases s with
      | none => cases ha
      | some s => cases ha; intro h; cases h
  intro hty
  dsimp only at h
  split at h
  · rename_i a ha
    injection h with h
    have := key _ _ h hty
    split at ha
    · rename_i x hx
      cases ha
      exact k1 _ hx this
    · split at ha
      · rename_i x hx
        cases ha
        cases hd : spec.definition with
        | none => rw [hd] at hx; cases hx
        | some s => rw [hd] at hx; exact k2 _ _ hx this
      · exact k3 _ _ _ ha this
  · cases h

theorem column_iff {c : Column} {r : PgColumnRow} (h : Pg.columnRow expr c = some r) : pgReadColumn r = .ok c ↔ Pg.ReadableColumn expr c := by
  unfold Pg.columnRow at h
  cases hrow : Pg.row c.ty with
  | none => rw [hrow] at h; cases h
  | some p =>
    obtain ⟨text, rep⟩ := p
    rw [hrow] at h
    simp only [Option.map_some, Option.some.injEq] at h
    subst h
    have hk := (C30_exactly_kept (e := .postgresql) (ty := c.ty) (text := text) (r := rep) hrow).2
    unfold pgReadColumn
    dsimp only
    rw [textOrNone_remark]
    constructor
    · intro h
      obtain ⟨ty, h1, h⟩ := Conv.bind_ok.1 h
      obtain ⟨d, h2, h⟩ := Conv.bind_ok.1 h
      have h := Conv.pure_ok.1 h
      refine ⟨?_, ?_, ?_⟩
      · apply hk.1
        unfold readColumn
        rw [h1]
        have := congrArg Column.ty h
        exact congrArg Except.ok this
      · intro x hx
        rw [hx] at h2
        have hd := congrArg Column.default h
        dsimp only at hd
        rw [hx] at hd
        subst hd
        exact (Expl.default_iff _ _).1 h2
      · exact remark_eq.1 (congrArg Column.description h)
    · rintro ⟨h1, h2, h3⟩
      have ht := hk.2 h1
      unfold readColumn at ht
      obtain ⟨ty, e1, e2⟩ := Conv.bind_ok.1 ht
      have e2 := Conv.pure_ok.1 e2
      refine Conv.bind_ok.2 ⟨ty, e1, Conv.bind_ok.2 ⟨c.default, ?_, ?_⟩⟩
      · cases hd : c.default with
        | none => rfl
        | some x => exact (Expl.default_iff _ _).2 (h2 x hd)
      · apply Conv.pure_ok.2
        rw [remark_eq.2 h3, e2]

theorem member_iff {m : StructMember} {r : PgMemberRow} (h : Pg.memberRow m = some r) : pgReadMember r = .ok m ↔ Pg.ReadableMember m := by
  unfold Pg.memberRow at h
  cases hrow : Pg.row m.ty with
  | none => rw [hrow] at h; cases h
  | some p =>
    obtain ⟨text, rep⟩ := p
    rw [hrow] at h
    simp only [Option.map_some, Option.some.injEq] at h
    subst h
    have hk := (C30_exactly_kept (e := .postgresql) (ty := m.ty) (text := text) (r := rep) hrow).2
    have harr : (∀ e, m.ty ≠ .array e) → rep.isArray = false := by
      intro hn
      unfold Pg.row at hrow
      split at hrow
      · rename_i e he; exact absurd he (hn e)
      · unfold Pg.scalar Pg.builtin at hrow
        split at hrow <;> (try split at hrow) <;> (try split at hrow) <;> first | (cases hrow; rfl) | cases hrow
    unfold pgReadMember
    dsimp only
    rw [textOrNone_remark]
    constructor
    · intro h
      obtain ⟨ty, h1, h⟩ := Conv.bind_ok.1 h
      have h := Conv.pure_ok.1 h
      have hty : ty = m.ty := congrArg StructMember.ty h
      have hna : ∀ e, m.ty ≠ .array e := fun e => hty ▸ not_array h1
      refine ⟨?_, hna, ?_⟩
      · apply hk.1
        unfold readColumn
        rw [h1, harr hna]
        exact congrArg Except.ok hty
      · exact remark_eq.1 (congrArg StructMember.description h)
    · rintro ⟨h1, h2, h3⟩
      have ht := hk.2 h1
      unfold readColumn at ht
      obtain ⟨ty, e1, e2⟩ := Conv.bind_ok.1 ht
      have e2 := Conv.pure_ok.1 e2
      rw [harr h2] at e2
      refine Conv.bind_ok.2 ⟨ty, e1, Conv.pure_ok.2 ?_⟩
      rw [remark_eq.2 h3, show ty = m.ty from e2]

/-! ### Constraints -/

def uniqueOf : Constraint → Option (Text × List Text)
  | .unique n cs => some (n, cs)
  | _ => none

def foreignOf : Constraint → Option ForeignKey
  | .foreign n cs r => some ⟨n, cs, r.table, r.columns, []⟩
  | _ => none

theorem unique_mem {c : Constraint} {p : Text × List Text} (h : uniqueOf c = some p) : c = .unique p.1 p.2 := by
  cases c <;> simp only [uniqueOf, Option.some.injEq] at h <;> first | (subst h; rfl) | cases h

theorem foreign_mem {c : Constraint} {k : ForeignKey} (h : foreignOf c = some k) : c = k.constraint ∧ c = .foreign k.name k.source ⟨k.table, k.target⟩ := by
  cases c <;> simp only [foreignOf, Option.some.injEq] at h <;> first | (subst h; exact ⟨rfl, rfl⟩) | cases h

theorem parts_perm : ∀ {l : List Constraint}, (∀ c ∈ l, Pg.ReadableConstraint c) →
    ((l.filterMap uniqueOf).map (fun p => Constraint.unique p.1 p.2) ++ (l.filterMap foreignOf).map ForeignKey.constraint).Perm l := by
  intro l
  induction l with
  | nil => intro _; exact .refl _
  | cons c l ih =>
    intro h
    have ih' := ih (fun x hx => h x (List.mem_cons_of_mem _ hx))
    have hc := h c List.mem_cons_self
    cases c with
    | unique n cs =>
      simp only [List.filterMap_cons, uniqueOf, foreignOf, List.map_cons, List.cons_append]
      exact ih'.cons _
    | foreign n cs r =>
      simp only [List.filterMap_cons, uniqueOf, foreignOf, List.map_cons]
      refine List.Perm.trans List.perm_middle ?_
      exact ih'.cons _
    | discriminated => exact hc.elim
    | check => exact hc.elim

theorem names_filterMap {β : Type} {f : Constraint → Option β} {nm : β → Text} (hf : ∀ c b, f c = some b → nm b = c.name) :
    ∀ {l : List Constraint}, (l.map key).Nodup → ((l.filterMap f).map nm).Nodup := by
  intro l
  induction l with
  | nil => intro _; simp
  | cons c l ih =>
    intro h
    rw [List.map_cons, List.nodup_cons] at h
    rw [List.filterMap_cons]
    cases hc : f c with
    | none => exact ih h.2
    | some b =>
      simp only [List.map_cons, List.nodup_cons]
      refine ⟨?_, ih h.2⟩
      intro hm
      obtain ⟨b', hb', e⟩ := List.mem_map.1 hm
      obtain ⟨c', hc', e'⟩ := List.mem_filterMap.1 hb'
      apply h.1
      refine List.mem_map.2 ⟨c', hc', ?_⟩
      show c'.name = c.name
      rw [← hf _ _ e', e, hf _ _ hc]

/-- The rows about the constraints of a table. -/
structure ConRows (rows : List PgConstraintRow) (tb : Table) : Prop where
  primary : (rows.filter (fun r => r.kind = 'p')).map PgConstraintRow.source = tb.primaryKey
  each : ∀ c ∈ tb.constraints.items, rows.filter (fun r => r.kind ≠ 'p' ∧ r.name = c.name) = Pg.constraintRows c
  noOther : ∀ r ∈ rows, r.kind = 'p' ∨ ∃ c ∈ tb.constraints.items, r ∈ Pg.constraintRows c

theorem rows_kind {c : Constraint} {r : PgConstraintRow} (h : r ∈ Pg.constraintRows c) :
    r.name = c.name ∧ ((r.kind = 'u' ∧ (uniqueOf c).isSome) ∨ (r.kind = 'f' ∧ (foreignOf c).isSome ∧ r.targetNamespace ≠ none)) := by
  cases c with
  | unique n cs =>
    obtain ⟨x, _, rfl⟩ := List.mem_map.1 h
    exact ⟨rfl, .inl ⟨rfl, rfl⟩⟩
  | foreign n cs ref =>
    obtain ⟨x, _, rfl⟩ := List.mem_map.1 h
    exact ⟨rfl, .inr ⟨rfl, rfl, by simp⟩⟩
  | discriminated => cases h
  | check => cases h

theorem filter_kind {rows : List PgConstraintRow} {tb : Table} (hr : ConRows rows tb) {c : Constraint} (hc : c ∈ tb.constraints.items) {k : Char}
    (hk : k ≠ 'p') (hall : ∀ r ∈ Pg.constraintRows c, r.kind = k) :
    (rows.filter (fun r => r.kind = k)).filter (fun r => r.name = c.name) = Pg.constraintRows c := by
  rw [← hr.each c hc] at hall ⊢
  rw [List.filter_filter]
  apply List.filter_congr
  intro r hrm
  have hiff : (r.kind ≠ 'p' ∧ r.name = c.name) ↔ (r.name = c.name ∧ r.kind = k) := by
    constructor
    · rintro ⟨h1, h2⟩
      exact ⟨h2, hall r (List.mem_filter.2 ⟨hrm, by simpa using ⟨h1, h2⟩⟩)⟩
    · rintro ⟨h1, h2⟩
      exact ⟨h2 ▸ hk, h1⟩
  rw [decide_eq_decide.2 hiff, Bool.decide_and]

/-- Readable constraints are read as they are. -/
theorem constraints_ok {rows : List PgConstraintRow} {tb : Table} (hr : ConRows rows tb) (hd : Distinct tb.constraints)
    (h : ∀ c ∈ tb.constraints.items, Pg.ReadableConstraint c) :
    ∃ cs, pgReadConstraints rows = .ok (tb.primaryKey, cs) ∧ cs.Perm tb.constraints.items := by
  have hu := C36_unique_round_trip (cons := tb.constraints.items.filterMap uniqueOf)
    (rows := (rows.filter (fun r => r.kind = 'u')).map (fun r => (r.name, r.source)))
    (names_filterMap (nm := Prod.fst) (fun c b hb => by rw [unique_mem hb]; rfl) hd)
    (by
      intro p hp
      obtain ⟨c, hc, e⟩ := List.mem_filterMap.1 hp
      have := h c hc
      rw [unique_mem e] at this
      exact this)
    (by
      intro r hrm
      obtain ⟨x, hx, rfl⟩ := List.mem_map.1 hrm
      obtain ⟨hx1, hx2⟩ := List.mem_filter.1 hx
      simp only [decide_eq_true_eq] at hx2
      rcases hr.noOther x hx1 with e | ⟨c, hc, hxc⟩
      · rw [e] at hx2; exact absurd hx2 (by decide)
      · obtain ⟨en, ⟨_, hs⟩ | ⟨ek, _⟩⟩ := rows_kind hxc
        · obtain ⟨p, hp⟩ := Option.isSome_iff_exists.1 hs
          refine List.mem_map.2 ⟨p, List.mem_filterMap.2 ⟨c, hc, hp⟩, ?_⟩
          show p.1 = x.name
          rw [en, unique_mem hp]; rfl
        · rw [ek] at hx2; exact absurd hx2 (by decide))
    (by
      intro p hp
      obtain ⟨c, hc, e⟩ := List.mem_filterMap.1 hp
      have ec := unique_mem e
      have hf := filter_kind hr hc (k := 'u') (by decide) (by
        intro r hrm
        rw [ec] at hrm
        obtain ⟨x, _, rfl⟩ := List.mem_map.1 hrm
        rfl)
      unfold columnsOf
      rw [List.filter_map, List.map_map]
      have : (fun r : Text × Text => decide (r.1 = p.1)) ∘ (fun r : PgConstraintRow => (r.name, r.source)) = fun r => decide (r.name = c.name) := by
        funext r
        rw [ec]; rfl
      rw [this, hf, ec]
      simp only [Pg.constraintRows, List.map_map]
      exact List.map_id _)
  obtain ⟨d, hf1, hf2⟩ := C36_foreign_round_trip (keys := tb.constraints.items.filterMap foreignOf)
    (rows := (rows.filter (fun r => r.kind = 'f')).map PgConstraintRow.foreign)
    (names_filterMap (nm := ForeignKey.name) (fun c b hb => by rw [(foreign_mem hb).2]; rfl) hd)
    (by
      intro p hp
      obtain ⟨c, hc, e⟩ := List.mem_filterMap.1 hp
      have := h c hc
      rw [(foreign_mem e).2] at this
      exact ⟨this.1, this.2.1⟩)
    (by
      intro r hrm
      obtain ⟨x, hx, rfl⟩ := List.mem_map.1 hrm
      obtain ⟨hx1, hx2⟩ := List.mem_filter.1 hx
      simp only [decide_eq_true_eq] at hx2
      rcases hr.noOther x hx1 with e | ⟨c, hc, hxc⟩
      · rw [e] at hx2; exact absurd hx2 (by decide)
      · obtain ⟨en, ⟨ek, _⟩ | ⟨_, hs, _⟩⟩ := rows_kind hxc
        · rw [ek] at hx2; exact absurd hx2 (by decide)
        · obtain ⟨p, hp⟩ := Option.isSome_iff_exists.1 hs
          refine List.mem_map.2 ⟨p, List.mem_filterMap.2 ⟨c, hc, hp⟩, ?_⟩
          show p.name = x.name
          rw [en, (foreign_mem hp).2]; rfl)
    (by
      intro p hp
      obtain ⟨c, hc, e⟩ := List.mem_filterMap.1 hp
      have ec := (foreign_mem e).2
      have hrd := h c hc
      rw [ec] at hrd
      obtain ⟨_, _, ns, id, eq⟩ := hrd
      have eq : p.table = .qualified (some ns) id := eq
      have hf := filter_kind hr hc (k := 'f') (by decide) (by
        intro r hrm
        rw [ec] at hrm
        obtain ⟨x, _, rfl⟩ := List.mem_map.1 hrm
        rfl)
      rw [List.filter_map]
      have : (fun r : ForeignRow => decide (r.name = p.name)) ∘ PgConstraintRow.foreign = fun r => decide (r.name = c.name) := by
        funext r
        rw [ec]; rfl
      rw [this, hf, ec]
      simp only [Pg.constraintRows, List.map_map, ForeignKey.rowsPaired]
      rw [eq]
      rfl)
  refine ⟨_, ?_, (hu.append hf2).trans (parts_perm h)⟩
  unfold pgReadConstraints
  rw [hf1, hr.primary]
  rfl

/-- What is read is readable. -/
theorem constraints_back {rows : List PgConstraintRow} {tb : Table} (hr : ConRows rows tb) {pk : List Text} {cs : List Constraint}
    (h : pgReadConstraints rows = .ok (pk, cs)) : ∀ c ∈ cs, Pg.ReadableConstraint c := by
  unfold pgReadConstraints at h
  obtain ⟨d, h1, h2⟩ := Conv.bind_ok.1 h
  have h2 := Conv.pure_ok.1 h2
  injection h2 with h2 h3
  subst h3
  intro c hc
  rcases List.mem_append.1 hc with hc | hc
  · rw [C36_unique] at hc
    obtain ⟨n, hn, rfl⟩ := List.mem_map.1 hc
    unfold namesOf at hn
    rw [List.mem_eraseDups] at hn
    obtain ⟨x, hx, e⟩ := List.mem_map.1 hn
    intro hnil
    have : x.2 ∈ columnsOf (List.map (fun r => (r.name, r.source)) (List.filter (fun r => decide (r.kind = 'u')) rows)) n := by
      unfold columnsOf
      exact List.mem_map_of_mem (List.mem_filter.2 ⟨hx, by simp [e]⟩)
    rw [hnil] at this
    cases this
  · obtain ⟨g1, g2⟩ := C36_foreign h1
    obtain ⟨n, table, rfl, ht⟩ := g2 c hc
    have hn : n ∈ ((rows.filter (fun r => r.kind = 'f')).map PgConstraintRow.foreign).map ForeignRow.name := by
      have : n ∈ (foreignFetch d).map Constraint.name := List.mem_map.2 ⟨_, hc, rfl⟩
      rw [g1, List.mem_eraseDups] at this
      exact this
    obtain ⟨x, hx, e⟩ := List.mem_map.1 hn
    refine ⟨?_, by simp only [List.length_map], ?_⟩
    · intro hnil
      have hxm := List.mem_map_of_mem (f := ForeignRow.source) (List.mem_filter (p := fun r : ForeignRow => decide (r.name = n)).2 ⟨hx, by simp [e]⟩)
      rw [hnil] at hxm
      cases hxm
    · have ht' := ht x hx e
      obtain ⟨y, hy, rfl⟩ := List.mem_map.1 hx
      obtain ⟨hy1, hy2⟩ := List.mem_filter.1 hy
      simp only [decide_eq_true_eq] at hy2
      rcases hr.noOther y hy1 with e | ⟨c', hc', hyc⟩
      · rw [e] at hy2; exact absurd hy2 (by decide)
      · obtain ⟨_, ⟨ek, _⟩ | ⟨_, _, hns⟩⟩ := rows_kind hyc
        · rw [ek] at hy2; exact absurd hy2 (by decide)
        · cases hns' : y.targetNamespace with
          | none => exact absurd hns' hns
          | some ns =>
            refine ⟨ns, y.targetTable, ?_⟩
            rw [← ht']
            unfold PgConstraintRow.foreign
            rw [hns']

/-! ### Tables, types, namespaces -/

section rows
variable {A R : Type} {f : R → Except Err A} {g : A → Option R} {nm : A → Text} {P : A → Prop}

theorem read_all : ∀ {items : List A} {rows : List R}, items.map g = rows.map some →
    (∀ a ∈ items, ∀ r, g a = some r → (f r = .ok a ↔ P a)) → (∀ a ∈ items, P a) → rows.mapM f = .ok items := by
  intro items
  induction items with
  | nil =>
    intro rows h _ _
    cases rows with
    | nil => rfl
    | cons => cases h
  | cons a items ih =>
    intro rows h h1 h2
    cases rows with
    | nil => cases h
    | cons r rows =>
      rw [List.map_cons, List.map_cons] at h
      injection h with e1 e2
      refine Conv.mapM_cons_ok.2 ⟨a, items, (h1 a List.mem_cons_self r e1).2 (h2 a List.mem_cons_self), ?_, rfl⟩
      exact ih e2 (fun x hx => h1 x (List.mem_cons_of_mem _ hx)) (fun x hx => h2 x (List.mem_cons_of_mem _ hx))

theorem read_names : ∀ {items : List A} {rows : List R} {bs : List A}, items.map g = rows.map some →
    (∀ a ∈ items, ∀ r b, g a = some r → f r = .ok b → nm b = nm a) → rows.mapM f = .ok bs → bs.map nm = items.map nm := by
  intro items
  induction items with
  | nil =>
    intro rows bs h _ hm
    cases rows with
    | nil => simp only [List.mapM_nil, pure, Except.pure, Except.ok.injEq] at hm; subst hm; rfl
    | cons => cases h
  | cons a items ih =>
    intro rows bs h h1 hm
    cases rows with
    | nil => cases h
    | cons r rows =>
      rw [List.map_cons, List.map_cons] at h
      injection h with e1 e2
      obtain ⟨b, bs', k1, k2, rfl⟩ := Conv.mapM_cons_ok.1 hm
      rw [List.map_cons, List.map_cons, h1 a List.mem_cons_self r b e1 k1, ih e2 (fun x hx => h1 x (List.mem_cons_of_mem _ hx)) k2]

theorem inj_of_nodup : ∀ {l : List A}, (l.map nm).Nodup → ∀ a ∈ l, ∀ b ∈ l, nm a = nm b → a = b := by
  intro l
  induction l with
  | nil => intro _ a ha; cases ha
  | cons x l ih =>
    intro h a ha b hb e
    rw [List.map_cons, List.nodup_cons] at h
    rcases List.mem_cons.1 ha with rfl | ha' <;> rcases List.mem_cons.1 hb with rfl | hb'
    · rfl
    · exact absurd (List.mem_map.2 ⟨b, hb', e.symm⟩) h.1
    · exact absurd (List.mem_map.2 ⟨a, ha', e⟩) h.1
    · exact ih h.2 a ha' b hb' e

theorem read_back {items : List A} {rows : List R} {bs : List A} (h : items.map g = rows.map some)
    (h1 : ∀ a ∈ items, ∀ r, g a = some r → (f r = .ok a ↔ P a)) (h2 : ∀ a ∈ items, ∀ r b, g a = some r → f r = .ok b → nm b = nm a)
    (hd : (items.map nm).Nodup) (hm : rows.mapM f = .ok bs) (hp : bs.Perm items) : ∀ a ∈ items, P a := by
  intro a ha
  have hga : g a ∈ rows.map some := h ▸ List.mem_map_of_mem ha
  obtain ⟨r, hr, e⟩ := List.mem_map.1 hga
  obtain ⟨b, hb, hf⟩ := Conv.mapM_fwd hm r hr
  have hn := h2 a ha r b e.symm hf
  have : b = a := inj_of_nodup hd b (hp.mem_iff.1 hb) a ha hn
  subst this
  exact (h1 b ha r e.symm).1 hf

end rows

theorem column_name {c : Column} {r : PgColumnRow} {b : Column} (h : Pg.columnRow expr c = some r) (hb : pgReadColumn r = .ok b) : b.name = c.name := by
  unfold Pg.columnRow at h
  obtain ⟨p, _, rfl⟩ := Option.map_eq_some_iff.1 h
  unfold pgReadColumn at hb
  obtain ⟨ty, _, hb⟩ := Conv.bind_ok.1 hb
  obtain ⟨d, _, hb⟩ := Conv.bind_ok.1 hb
  rw [← Conv.pure_ok.1 hb]

theorem member_name {c : StructMember} {r : PgMemberRow} {b : StructMember} (h : Pg.memberRow c = some r) (hb : pgReadMember r = .ok b) :
    b.name = c.name := by
  unfold Pg.memberRow at h
  obtain ⟨p, _, rfl⟩ := Option.map_eq_some_iff.1 h
  unfold pgReadMember at hb
  obtain ⟨ty, _, hb⟩ := Conv.bind_ok.1 hb
  rw [← Conv.pure_ok.1 hb]

theorem firstRow_one {α : Type} {a b : α} : firstRow [a] = .ok b ↔ a = b := by
  unfold firstRow
  constructor
  · intro h; injection h
  · intro h; rw [h]

theorem table_iff {s : PgServer} {n : Namespace} (w : NsWF .postgresql n) (h : Pg.Holds expr s n) {tb : Table} (ht : tb ∈ n.tables.items) :
    (∃ found, pgReadTable s n.name tb.name.localId = .ok found ∧ SameTable found tb) ↔ Pg.ReadableTable expr n.name tb := by
  have hr : ConRows (s.constraints n.name tb.name.localId) tb := ⟨h.primary tb ht, h.constraints tb ht, h.noOther tb ht⟩
  have wt := w.wf tb ht
  have hcol : ∀ c ∈ tb.columns.items, ∀ r, Pg.columnRow expr c = some r → (pgReadColumn r = .ok c ↔ Pg.ReadableColumn expr c) :=
    fun c _ r e => column_iff e
  have hnm : ∀ c ∈ tb.columns.items, ∀ r b, Pg.columnRow expr c = some r → pgReadColumn r = .ok b → b.name = c.name :=
    fun c _ r b e1 e2 => column_name e1 e2
  unfold pgReadTable
  rw [h.tableInfo tb ht]
  constructor
  · rintro ⟨found, hf, same⟩
    obtain ⟨desc, e1, hf⟩ := Conv.bind_ok.1 hf
    obtain ⟨cols, e2, hf⟩ := Conv.bind_ok.1 hf
    obtain ⟨⟨pk, cons⟩, e3, hf⟩ := Conv.bind_ok.1 hf
    have hf := Conv.pure_ok.1 hf
    have e1 := firstRow_one.1 e1
    subst e1
    subst hf
    have hcn := read_names (nm := Column.name) (h.columns tb ht) hnm e2
    have hcd : (cols.map key).Nodup := by
      show (cols.map Column.name).Nodup
      rw [hcn]; exact wt.columns
    refine ⟨⟨_, same.name.symm⟩, ?_, ?_, ?_⟩
    · have hp := same.columns
      dsimp only at hp
      rw [ODict.ofList_of_nodup _ hcd] at hp
      exact read_back (nm := Column.name) (h.columns tb ht) hcol hnm wt.columns e2 hp
    · intro c hc
      have := same.constraints.mem_iff.2 hc
      exact constraints_back hr e3 c (Conv.of_mem_ofList this)
    · exact remark_eq.1 same.description
  · rintro ⟨⟨id, en⟩, h1, h2, h3⟩
    obtain ⟨cs, hcs, hp⟩ := constraints_ok hr wt.constraints h2
    have hcols := read_all (h.columns tb ht) hcol h1
    refine ⟨{ name := .qualified (some n.name) tb.name.localId, columns := .ofList tb.columns.items, primaryKey := tb.primaryKey
              constraints := .ofList cs, description := Pg.remark tb.description }, ?_, ?_⟩
    · refine Conv.bind_ok.2 ⟨_, firstRow_one.2 rfl, Conv.bind_ok.2 ⟨_, hcols, Conv.bind_ok.2 ⟨_, hcs, Conv.pure_ok.2 rfl⟩⟩⟩
    · refine ⟨?_, ?_, rfl, ?_, remark_eq.2 h3⟩
      · show QId.qualified (some n.name) tb.name.localId = tb.name
        rw [en]; rfl
      · show (ODict.ofList tb.columns.items).items.Perm _
        rw [ODict.ofList_of_nodup _ wt.columns]
      · show (ODict.ofList cs).items.Perm _
        rw [ODict.ofList_of_nodup _ (((hp.map key).nodup_iff).2 wt.constraints)]
        exact hp

theorem struct_iff {s : PgServer} {n : Namespace} (w : NsWF .postgresql n) (h : Pg.Holds expr s n) {st : StructType} (ht : st ∈ n.structs.items) :
    (∃ found, pgReadStruct s n.name st.name.localId = .ok found ∧ SameStruct found st) ↔ Pg.ReadableStruct n.name st := by
  have hcol : ∀ c ∈ st.members.items, ∀ r, Pg.memberRow c = some r → (pgReadMember r = .ok c ↔ Pg.ReadableMember c) :=
    fun c _ r e => member_iff e
  have hnm : ∀ c ∈ st.members.items, ∀ r b, Pg.memberRow c = some r → pgReadMember r = .ok b → b.name = c.name :=
    fun c _ r b e1 e2 => member_name e1 e2
  unfold pgReadStruct
  rw [h.structInfo st ht]
  constructor
  · rintro ⟨found, hf, same⟩
    obtain ⟨desc, e1, hf⟩ := Conv.bind_ok.1 hf
    obtain ⟨cols, e2, hf⟩ := Conv.bind_ok.1 hf
    have hf := Conv.pure_ok.1 hf
    have e1 := firstRow_one.1 e1
    subst e1
    subst hf
    have hcn := read_names (nm := StructMember.name) (h.members st ht) hnm e2
    have hcd : (cols.map key).Nodup := by
      show (cols.map StructMember.name).Nodup
      rw [hcn]; exact w.members st ht
    refine ⟨⟨_, same.name.symm⟩, ?_, ?_⟩
    · have hp := same.members
      dsimp only at hp
      rw [ODict.ofList_of_nodup _ hcd] at hp
      exact read_back (nm := StructMember.name) (h.members st ht) hcol hnm (w.members st ht) e2 hp
    · exact remark_eq.1 same.description
  · rintro ⟨⟨id, en⟩, h1, h3⟩
    have hcols := read_all (h.members st ht) hcol h1
    refine ⟨{ name := .qualified (some n.name) st.name.localId, members := .ofList st.members.items, description := Pg.remark st.description }, ?_, ?_⟩
    · exact Conv.bind_ok.2 ⟨_, firstRow_one.2 rfl, Conv.bind_ok.2 ⟨_, hcols, Conv.pure_ok.2 rfl⟩⟩
    · refine ⟨?_, ?_, remark_eq.2 h3⟩
      · show QId.qualified (some n.name) st.name.localId = st.name
        rw [en]; rfl
      · show (ODict.ofList st.members.items).items.Perm _
        rw [ODict.ofList_of_nodup _ (w.members st ht)]

theorem exists_mapM {α β : Type} {f : α → Except Err β} : ∀ {l : List α}, (∀ a ∈ l, ∃ b, f a = .ok b) → ∃ bs, l.mapM f = .ok bs := by
  intro l
  induction l with
  | nil => intro _; exact ⟨[], rfl⟩
  | cons a l ih =>
    intro h
    obtain ⟨b, hb⟩ := h a List.mem_cons_self
    obtain ⟨bs, hbs⟩ := ih (fun x hx => h x (List.mem_cons_of_mem _ hx))
    exact ⟨b :: bs, Conv.mapM_cons_ok.2 ⟨b, bs, hb, hbs, rfl⟩⟩

theorem mapM_keys {A : Type} [Named A] {read : Text → Except Err A} (hkey : ∀ k f, read k = .ok f → key f = k) :
    ∀ {names : List Text} {fs : List A}, names.mapM read = .ok fs → fs.map key = names := by
  intro names
  induction names with
  | nil => intro fs h; simp only [List.mapM_nil, pure, Except.pure, Except.ok.injEq] at h; subst h; rfl
  | cons k names ih =>
    intro fs h
    obtain ⟨b, bs, h1, h2, rfl⟩ := Conv.mapM_cons_ok.1 h
    rw [List.map_cons, hkey _ _ h1, ih h2]

theorem read_dict {A : Type} [Named A] {names : List Text} {read : Text → Except Err A} {d : ODict A} {Same : A → A → Prop} (hd : Distinct d)
    (hp : names.Perm (d.items.map key)) (hkey : ∀ k f, read k = .ok f → key f = k) :
    (∃ fs, names.mapM read = .ok fs ∧ ∀ k, OptRel Same ((ODict.ofList fs).get k) (d.get k)) ↔ ∀ a ∈ d.items, ∃ f, read (key a) = .ok f ∧ Same f a := by
  constructor
  · rintro ⟨fs, h1, h2⟩ a ha
    have hrel := h2 (key a)
    rw [ODict.get_eq_of_mem hd ha] at hrel
    cases hg : (ODict.ofList fs).get (key a) with
    | none => rw [hg] at hrel; exact hrel.elim
    | some f =>
      rw [hg] at hrel
      obtain ⟨hm, hk⟩ := ODict.get_some_mem hg
      obtain ⟨k, _, hr⟩ := Conv.mapM_back h1 f (Conv.of_mem_ofList hm)
      have := hkey _ _ hr
      rw [hk] at this
      subst this
      exact ⟨f, hr, hrel⟩
  · intro h
    have hn : ∀ k ∈ names, ∃ a ∈ d.items, key a = k := fun k hk => List.mem_map.1 (hp.mem_iff.1 hk)
    obtain ⟨fs, hfs⟩ := exists_mapM (f := read) (l := names) (fun k hk => by
      obtain ⟨a, ha, rfl⟩ := hn k hk
      obtain ⟨f, hf, _⟩ := h a ha
      exact ⟨f, hf⟩)
    refine ⟨fs, hfs, fun k => ?_⟩
    have hkeys := mapM_keys hkey hfs
    have hnd : (fs.map key).Nodup := by rw [hkeys]; exact hp.nodup_iff.2 hd
    have hitems := ODict.ofList_of_nodup fs hnd
    cases hg : d.get k with
    | some a =>
      obtain ⟨ha, rfl⟩ := ODict.get_some_mem hg
      obtain ⟨f, hf, hs⟩ := h a ha
      obtain ⟨b, hb, hb'⟩ := Conv.mapM_fwd hfs (key a) (hp.mem_iff.2 (List.mem_map_of_mem ha))
      rw [hf] at hb'
      cases hb'
      have : (ODict.ofList fs).get (key f) = some f := ODict.get_eq_of_mem (ODict.ofList_inv fs) (by rw [hitems]; exact hb)
      rw [hkey _ _ hf] at this
      rw [this]
      exact hs
    | none =>
      have : (ODict.ofList fs).get k = none := by
        rw [ODict.get_none_iff, hitems, hkeys]
        intro hk
        exact (ODict.get_none_iff d k).1 hg (hp.mem_iff.1 hk)
      rw [this]
      trivial

theorem rel_nonempty {A : Type} [Named A] {l : List A} {d : ODict A} {Same : A → A → Prop} (h : ∀ k, OptRel Same ((ODict.ofList l).get k) (d.get k))
    (hl : l ≠ []) : d.items ≠ [] := by
  cases l with
  | nil => exact absurd rfl hl
  | cons a l =>
    obtain ⟨b, hb, _⟩ := Conv.ofList_has (l := a :: l) (a := a) List.mem_cons_self
    have hrel := h (key b)
    rw [ODict.get_eq_of_mem (ODict.ofList_inv _) hb] at hrel
    cases hg : d.get (key b) with
    | none => rw [hg] at hrel; exact hrel.elim
    | some c =>
      intro hnil
      have := (ODict.get_some_mem hg).1
      rw [hnil] at this
      cases this

theorem rel_empty {A : Type} [Named A] {d : ODict A} {Same : A → A → Prop} (h : ∀ k, OptRel Same ((⟨[]⟩ : ODict A).get k) (d.get k)) : d.items = [] := by
  cases hd : d.items with
  | nil => rfl
  | cons a l =>
    exfalso
    have hrel := h (key a)
    cases hg : d.get (key a) with
    | none =>
      exact (ODict.get_none_iff d (key a)).1 hg (by rw [hd]; exact List.mem_map_of_mem List.mem_cons_self)
    | some c => rw [hg] at hrel; exact hrel.elim

theorem empty_rel {A : Type} [Named A] {d : ODict A} {Same : A → A → Prop} (h : d.items = []) (k : Text) :
    OptRel Same ((⟨[]⟩ : ODict A).get k) (d.get k) := by
  have : d = ⟨[]⟩ := by cases d; cases h; rfl
  subst this
  trivial

theorem table_key {s : PgServer} {ns k : Text} {f : Table} (h : pgReadTable s ns k = .ok f) : key f = k := by
  unfold pgReadTable at h
  obtain ⟨desc, e1, h⟩ := Conv.bind_ok.1 h
  obtain ⟨cols, e2, h⟩ := Conv.bind_ok.1 h
  obtain ⟨⟨pk, cons⟩, e3, h⟩ := Conv.bind_ok.1 h
  rw [← Conv.pure_ok.1 h]
  rfl

theorem struct_key {s : PgServer} {ns k : Text} {f : StructType} (h : pgReadStruct s ns k = .ok f) : key f = k := by
  unfold pgReadStruct at h
  obtain ⟨desc, e1, h⟩ := Conv.bind_ok.1 h
  obtain ⟨cols, e2, h⟩ := Conv.bind_ok.1 h
  rw [← Conv.pure_ok.1 h]
  rfl

theorem enums_iff {s : PgServer} {n : Namespace} (w : NsWF .postgresql n) (h : Pg.Holds expr s n) :
    (∀ k, OptRel SameEnum ((ODict.ofList (pgReadEnums s n.name)).get k) (n.enums.get k)) ↔ ∀ e ∈ n.enums.items, Pg.ReadableEnum n.name e := by
  obtain ⟨es, hp, hes⟩ := h.enums
  have hnd : (es.map key).Nodup := (hp.map key).nodup_iff.2 w.enums
  constructor
  · intro hrel e he
    have hk := hrel (key e)
    rw [ODict.get_eq_of_mem w.enums he] at hk
    cases hg : (ODict.ofList (pgReadEnums s n.name)).get (key e) with
    | none => rw [hg] at hk; exact hk.elim
    | some f =>
      rw [hg] at hk
      have hf := Conv.of_mem_ofList (ODict.get_some_mem hg).1
      unfold pgReadEnums at hf
      obtain ⟨g, hgm, rfl⟩ := List.mem_map.1 hf
      refine ⟨⟨g.1, hk.name.symm⟩, ?_⟩
      intro hnil
      have hv := hk.values
      rw [hnil] at hv
      exact (Expl.groupRows_facts g hgm).1 hv.eq_nil
  · intro hr
    have hread : pgReadEnums s n.name = es := by
      unfold pgReadEnums
      rw [hes, Expl.groupRows_flatMap hnd (fun e he => (hr e (hp.mem_iff.1 he)).values), List.map_map]
      have : ∀ e ∈ es, ((fun g : Text × List Text => (⟨.qualified (some n.name) g.1, g.2⟩ : EnumType)) ∘ fun e : EnumType => (e.name.localId, e.values)) e = id e := by
        intro e he
        obtain ⟨id, hid⟩ := (hr e (hp.mem_iff.1 he)).name
        obtain ⟨nm, vs⟩ := e
        simp only at hid
        subst hid
        rfl
      rw [List.map_congr_left this, List.map_id]
    intro k
    rw [hread]
    have hitems := ODict.ofList_of_nodup es hnd
    cases hg : n.enums.get k with
    | some e =>
      obtain ⟨he, rfl⟩ := ODict.get_some_mem hg
      rw [ODict.get_eq_of_mem (ODict.ofList_inv es) (by rw [hitems]; exact hp.mem_iff.2 he)]
      exact ⟨rfl, .refl _⟩
    | none =>
      have : (ODict.ofList es).get k = none := by
        rw [ODict.get_none_iff, hitems]
        intro hk
        exact (ODict.get_none_iff _ k).1 hg ((hp.map key).mem_iff.1 hk)
      rw [this]
      trivial

end C51
open C51

/-- **C51.**  A schema of PostgreSQL that has what a namespace describes is explored as that namespace, up to the order in which things are listed, if
    and only if the namespace is one of `Spec.Pg.Readable`. -/
theorem C51_exactly_readable {expr : SqlType → Text → Text} {s : PgServer} {n : Namespace} (w : NsWF .postgresql n) (h : Pg.Holds expr s n) :
    (∃ found, pgReadNamespace s n.name = .ok found ∧ SameNs found n) ↔ Pg.Readable expr n := by
  have hst := read_dict (names := s.structs n.name) (read := pgReadStruct s n.name) (d := n.structs) (Same := SameStruct) w.structs h.structs
    (fun k f => struct_key)
  have htb := read_dict (names := s.tables n.name) (read := pgReadTable s n.name) (d := n.tables) (Same := SameTable) w.tables h.tables
    (fun k f => table_key)
  have hst' : (∀ a ∈ n.structs.items, ∃ f, pgReadStruct s n.name (key a) = .ok f ∧ SameStruct f a) ↔ ∀ a ∈ n.structs.items, Pg.ReadableStruct n.name a :=
    forall_congr' fun a => forall_congr' fun ha => struct_iff w h ha
  have htb' : (∀ a ∈ n.tables.items, ∃ f, pgReadTable s n.name (key a) = .ok f ∧ SameTable f a) ↔ ∀ a ∈ n.tables.items, Pg.ReadableTable expr n.name a :=
    forall_congr' fun a => forall_congr' fun ha => table_iff w h ha
  rw [hst'] at hst
  rw [htb'] at htb
  have hen := enums_iff w h
  unfold pgReadNamespace
  constructor
  · rintro ⟨found, hf, same⟩
    obtain ⟨fs, e1, hf⟩ := Conv.bind_ok.1 hf
    obtain ⟨ft, e2, hf⟩ := Conv.bind_ok.1 hf
    have hf := Conv.pure_ok.1 hf
    split at hf
    · subst hf
      have i1 := rel_empty same.enums
      have i2 := rel_empty same.structs
      have i3 := rel_empty same.tables
      have i4 := same.name
      refine ⟨?_, ?_, ?_, fun hn => absurd i4.symm hn⟩
      · intro e he; rw [i1] at he; cases he
      · intro e he; rw [i2] at he; cases he
      · intro e he; rw [i3] at he; cases he
    · rename_i hne
      subst hf
      refine ⟨hen.1 same.enums, hst.1 ⟨fs, e1, same.structs⟩, htb.1 ⟨ft, e2, same.tables⟩, ?_⟩
      intro _
      by_cases h1 : pgReadEnums s n.name = []
      · by_cases h2 : fs = []
        · by_cases h3 : ft = []
          · subst h2 h3
            rw [h1] at hne
            exact absurd rfl hne
          · exact .inr (.inr (rel_nonempty same.tables h3))
        · exact .inr (.inl (rel_nonempty same.structs h2))
      · exact .inl (rel_nonempty same.enums h1)
  · intro hr
    obtain ⟨fs, e1, r1⟩ := hst.2 hr.structs
    obtain ⟨ft, e2, r2⟩ := htb.2 hr.tables
    have r0 := hen.2 hr.enums
    refine ⟨_, Conv.bind_ok.2 ⟨fs, e1, Conv.bind_ok.2 ⟨ft, e2, Conv.pure_ok.2 rfl⟩⟩, ?_⟩
    split
    · rename_i hem
      simp only [Bool.and_eq_true, List.isEmpty_iff] at hem
      obtain ⟨⟨m1, m2⟩, m3⟩ := hem
      have i1 : n.enums.items = [] := by
        rw [m1] at r0
        exact rel_empty (d := n.enums) r0
      have i2 : n.structs.items = [] := by
        rw [m2] at r1
        exact rel_empty (d := n.structs) r1
      have i3 : n.tables.items = [] := by
        rw [m3] at r2
        exact rel_empty (d := n.tables) r2
      refine ⟨?_, empty_rel i1, empty_rel i2, empty_rel i3⟩
      apply Classical.byContradiction
      intro hn
      rcases hr.inhabited (fun e => hn e.symm) with h | h | h
      · exact h i1
      · exact h i2
      · exact h i3
    · exact ⟨rfl, r0, r1, r2⟩

namespace C51

theorem constraints_dist {s : PgServer} {ns k : Text} {f : Table} (h : pgReadTable s ns k = .ok f) : Distinct f.columns ∧ Distinct f.constraints := by
  unfold pgReadTable at h
  obtain ⟨_, _, h⟩ := Conv.bind_ok.1 h
  obtain ⟨_, _, h⟩ := Conv.bind_ok.1 h
  obtain ⟨_, _, h⟩ := Conv.bind_ok.1 h
  have h := Conv.pure_ok.1 h
  subst h
  exact ⟨ODict.ofList_inv _, ODict.ofList_inv _⟩

theorem members_dist {s : PgServer} {ns k : Text} {f : StructType} (h : pgReadStruct s ns k = .ok f) : Distinct f.members := by
  unfold pgReadStruct at h
  obtain ⟨_, _, h⟩ := Conv.bind_ok.1 h
  obtain ⟨_, _, h⟩ := Conv.bind_ok.1 h
  have h := Conv.pure_ok.1 h
  subst h
  exact ODict.ofList_inv _

/-- What is read is a dictionary of dictionaries. -/
theorem distinct {s : PgServer} {k : Text} {n : Namespace} (h : pgReadNamespace s k = .ok n) : NsDistinct n := by
  unfold pgReadNamespace at h
  obtain ⟨fs, e1, h⟩ := Conv.bind_ok.1 h
  obtain ⟨ft, e2, h⟩ := Conv.bind_ok.1 h
  have h := Conv.pure_ok.1 h
  split at h
  · subst h; exact C14.empty_distinct
  · subst h
    refine ⟨ODict.ofList_inv _, ODict.ofList_inv _, ODict.ofList_inv _, ?_, ?_, ?_⟩
    · intro x hx
      obtain ⟨a, _, ha⟩ := Conv.mapM_back e1 x (Conv.of_mem_ofList hx)
      exact members_dist ha
    · intro x hx
      obtain ⟨a, _, ha⟩ := Conv.mapM_back e2 x (Conv.of_mem_ofList hx)
      exact (constraints_dist ha).1
    · intro x hx
      obtain ⟨a, _, ha⟩ := Conv.mapM_back e2 x (Conv.of_mem_ofList hx)
      exact (constraints_dist ha).2

theorem partner {A : Type} [Named A] {a b : ODict A} {R : A → A → Prop} (da : Distinct a) (h : ∀ k, OptRel R (a.get k) (b.get k)) :
    ∀ x ∈ a.items, ∃ y ∈ b.items, key y = key x ∧ R x y := by
  intro x hx
  have := h (key x)
  rw [ODict.get_eq_of_mem da hx] at this
  cases hb : b.get (key x) with
  | none => rw [hb] at this; exact False.elim this
  | some y => rw [hb] at this; exact ⟨y, (ODict.get_some_mem hb).1, (ODict.get_some_mem hb).2, this⟩

/-- The same description in another order can be written down as well. -/
theorem wf_same {d : Dialect} {a b : Namespace} (da : NsDistinct a) (h : SameNs a b) (w : NsWF d b) : NsWF d a := by
  have pe := partner da.enums h.enums
  have ps := partner da.structs h.structs
  have pt := partner da.tables h.tables
  refine ⟨da.enums, da.structs, da.tables, ?_, ?_, ?_, ?_, ?_, ?_, ?_, ?_, ?_, ?_, da.members, ?_⟩
  · intro x hx; obtain ⟨y, hy, _, r⟩ := pe x hx; rw [r.name, h.name]; exact w.enumScope y hy
  · intro x hx; obtain ⟨y, hy, _, r⟩ := ps x hx; rw [r.name, h.name]; exact w.structScope y hy
  · intro x hx; obtain ⟨y, hy, _, r⟩ := pt x hx; rw [r.name, h.name]; exact w.tableScope y hy
  · intro x hx z hz
    obtain ⟨y, hy, _, r⟩ := pe x hx; obtain ⟨u, hu, _, q⟩ := ps z hz
    rw [r.name, q.name]; exact w.enumStruct y hy u hu
  · intro x hx z hz
    obtain ⟨y, hy, _, r⟩ := pe x hx; obtain ⟨u, hu, _, q⟩ := pt z hz
    rw [r.name, q.name]; exact w.enumTable y hy u hu
  · intro x hx z hz
    obtain ⟨y, hy, _, r⟩ := ps x hx; obtain ⟨u, hu, _, q⟩ := pt z hz
    rw [r.name, q.name]; exact w.structTable y hy u hu
  · intro x hx; obtain ⟨y, hy, _, r⟩ := pe x hx; rw [r.name]; exact w.enumNames y hy
  · intro x hx; obtain ⟨y, hy, _, r⟩ := ps x hx; rw [r.name]; exact w.structNames y hy
  · intro x hx; obtain ⟨y, hy, _, r⟩ := pt x hx; rw [r.name]; exact w.tableNames y hy
  · intro x hx; obtain ⟨y, hy, _, r⟩ := pe x hx; exact r.values.nodup_iff.2 (w.values y hy)
  · intro x hx
    obtain ⟨y, hy, _, r⟩ := pt x hx
    have wy := w.wf y hy
    refine ⟨da.columns x hx, da.constraints x hx, ?_, ?_, ?_, ?_, ?_⟩
    · rw [r.key]; exact wy.key
    · intro c hc; exact wy.names c (r.columns.mem_iff.1 hc)
    · intro e c hc; exact wy.mssql e c (r.constraints.mem_iff.1 hc)
    · intro e c hc; exact wy.delta e c (r.columns.mem_iff.1 hc)
    · intro e c hc; exact wy.snowflake e c (r.columns.mem_iff.1 hc)

/-- One namespace of the right kind for each of a list. -/
theorem each_found {P : Namespace → Namespace → Prop} : ∀ {l : List Namespace}, (∀ n ∈ l, ∃ f, P f n) →
    ∃ fs : List Namespace, fs.length = l.length ∧ ∀ p ∈ fs.zip l, P p.1 p.2
  | [], _ => ⟨[], rfl, by simp⟩
  | n :: l, h => by
    obtain ⟨f, hf⟩ := h n List.mem_cons_self
    obtain ⟨fs, e, hs⟩ := each_found (l := l) (fun x hx => h x (List.mem_cons_of_mem _ hx))
    refine ⟨f :: fs, by simp [e], ?_⟩
    intro p hp
    rw [List.zip_cons_cons, List.mem_cons] at hp
    rcases hp with rfl | hp
    · exact hf
    · exact hs p hp

theorem find_zip : ∀ {fs l : List Namespace}, fs.length = l.length → (∀ p ∈ fs.zip l, p.1.name = p.2.name) → ∀ k,
    ((⟨fs⟩ : ODict Namespace).get k = none ∧ (⟨l⟩ : ODict Namespace).get k = none)
    ∨ ∃ p ∈ fs.zip l, (⟨fs⟩ : ODict Namespace).get k = some p.1 ∧ (⟨l⟩ : ODict Namespace).get k = some p.2
  | [], [], _, _, k => .inl ⟨rfl, rfl⟩
  | [], _ :: _, h, _, _ => by simp at h
  | _ :: _, [], h, _, _ => by simp at h
  | f :: fs, n :: l, h, hn, k => by
    have e : f.name = n.name := hn (f, n) (by simp)
    by_cases hk : n.name = k
    · refine .inr ⟨(f, n), by simp, ?_, ?_⟩ <;> simp [ODict.get, key, e, hk]
    · have ih := find_zip (fs := fs) (l := l) (by simpa using h) (fun p hp => hn p (by simp [hp])) k
      have e1 : (⟨f :: fs⟩ : ODict Namespace).get k = (⟨fs⟩ : ODict Namespace).get k := by simp [ODict.get, key, e, hk]
      have e2 : (⟨n :: l⟩ : ODict Namespace).get k = (⟨l⟩ : ODict Namespace).get k := by simp [ODict.get, key, hk]
      rw [e1, e2]
      rcases ih with ih | ⟨p, hp, ih⟩
      · exact .inl ih
      · exact .inr ⟨p, by simp [hp], ih⟩

theorem zip_names : ∀ {fs l : List Namespace}, fs.length = l.length → (∀ p ∈ fs.zip l, p.1.name = p.2.name) →
    fs.map (fun n : Namespace => n.name) = l.map (fun n : Namespace => n.name)
  | [], [], _, _ => rfl
  | [], _ :: _, h, _ => by simp at h
  | _ :: _, [], h, _ => by simp at h
  | f :: fs, n :: l, h, hn => by
    rw [List.map_cons, List.map_cons, hn (f, n) (by simp), zip_names (fs := fs) (l := l) (by simpa using h) (fun p hp => hn p (by simp [hp]))]

theorem zip_left : ∀ {fs l : List Namespace}, fs.length = l.length → ∀ f ∈ fs, ∃ n, (f, n) ∈ fs.zip l
  | [], _, _, _, hf => by cases hf
  | _ :: _, [], h, _, _ => by simp at h
  | f :: fs, n :: l, h, x, hx => by
    rcases List.mem_cons.1 hx with rfl | hx
    · exact ⟨n, by simp⟩
    · obtain ⟨m, hm⟩ := zip_left (fs := fs) (l := l) (by simpa using h) x hx
      exact ⟨m, by simp [hm]⟩

end C51
open C51

/-- The explorer of the session is PostgreSQL's, on the server `srv` when the database is `db`. -/
def Explores (v : Env) (db : Db) (srv : PgServer) : Prop := ∀ k, v.explore db k = pgReadNamespace srv k

/-- **C51 (a whole database).**  If the schemas of a PostgreSQL server have what a catalog describes, and each is readable, then discovering them yields
    that catalog, in some order. -/
theorem C51_discovered {v : Env} {db : Db} {srv : PgServer} (hx : Explores v db srv) {expr : SqlType → Text → Text} {T : Catalog} (w : CatWF .postgresql T)
    (holds : ∀ n ∈ T.namespaces.items, Pg.Holds expr srv n) (readable : ∀ n ∈ T.namespaces.items, Pg.Readable expr n)
    {names : List Text} (hn : ∀ k, k ∈ names ↔ ∃ n ∈ T.namespaces.items, n.name = k) :
    ∃ found, discovered v db names = (found, true) ∧ SameCat found T ∧ CatWF .postgresql found := by
  obtain ⟨fs, hl, hz⟩ := each_found (P := fun f n => pgReadNamespace srv n.name = .ok f ∧ SameNs f n) (l := T.namespaces.items)
    (fun n h => (C51_exactly_readable (w.wf n h) (holds n h)).2 (readable n h))
  have hnm : ∀ p ∈ fs.zip T.namespaces.items, p.1.name = p.2.name := fun p hp => (hz p hp).2.name
  have hget := find_zip hl hnm
  have hSd : CatDistinct ⟨⟨fs⟩⟩ := by
    constructor
    · show (fs.map key).Nodup
      have : fs.map key = T.namespaces.items.map key := zip_names hl hnm
      rw [this]; exact w.names
    · intro f hf
      obtain ⟨n, hp⟩ := zip_left hl f hf
      exact distinct (hz _ hp).1
  have hexp : ∀ k ∈ names, (fun n => if n ∈ names then v.explore db n else .error .key) k = .ok (((⟨fs⟩ : ODict Namespace).get k).getD {}) := by
    intro k hk
    obtain ⟨n, hmem, rfl⟩ := (hn k).1 hk
    simp only [if_pos hk]
    rw [hx]
    rcases hget n.name with ⟨_, h2⟩ | ⟨p, hp, h1, h2⟩
    · have := ODict.get_eq_of_mem w.names hmem
      exact absurd (this.symm.trans h2) (by simp)
    · have h3 : T.namespaces.get n.name = some n := ODict.get_eq_of_mem w.names hmem
      have e : p.2 = n := by
        have := h2.symm.trans h3
        simpa using this
      rw [h1, ← e]
      exact (hz p hp).1
  have hin : ∀ n, (⟨fs⟩ : ODict Namespace).get n = none → n ∉ names := by
    intro k hk hm
    obtain ⟨n, hmem, rfl⟩ := (hn k).1 hm
    rcases hget n.name with ⟨_, h2⟩ | ⟨p, hp, h1, _⟩
    · have := ODict.get_eq_of_mem w.names hmem
      exact absurd (this.symm.trans h2) (by simp)
    · rw [hk] at h1; cases h1
  have hloop : ∀ {l : List Text} {c : Catalog}, (∀ n ∈ l, n ∈ names) →
      discoverLoop (fun n => if n ∈ names then v.explore db n else .error .key) c l = discoverLoop (v.explore db) c l := by
    intro l
    induction l with
    | nil => intro c _; rfl
    | cons n l ih =>
      intro c hl
      simp only [discoverLoop, if_pos (hl n List.mem_cons_self)]
      cases v.explore db n with
      | error _ => rfl
      | ok ns => simp only [ih (fun x hx => hl x (List.mem_cons_of_mem _ hx))]
  obtain ⟨c, h1, h2⟩ := C14.discoverLoop_found hSd (explore := fun n => if n ∈ names then v.explore db n else .error .key)
    (by
      intro n h hx
      rw [if_neg (hin n h)] at hx; cases hx)
    (c := ⟨⟨[]⟩⟩) (done := []) ⟨⟨by simp [Distinct], by simp⟩, fun k => .inl rfl, by simp⟩ hexp
  rw [hloop (fun _ h => h)] at h1
  have hall : ∀ k, c.namespaces.get k = (⟨fs⟩ : ODict Namespace).get k := by
    intro k
    cases hk : (⟨fs⟩ : ODict Namespace).get k with
    | some f =>
      have hm : k ∈ names := by
        refine (hn k).2 ?_
        rcases hget k with ⟨h3, _⟩ | ⟨p, hp, _, h4⟩
        · rw [hk] at h3; cases h3
        · exact ⟨p.2, (ODict.get_some_mem h4).1, (ODict.get_some_mem h4).2⟩
      rw [← hk]
      exact h2.all k (by simpa using hm) (by rw [hk]; rfl)
    | none =>
      rcases h2.part k with h | h | ⟨rfl, _, h⟩
      · exact h
      · exact h.trans hk
      · -- the nameless namespace is added for a schema that is not there only; there is none
        exfalso
        have hsub : ∀ {l : List Text} {c c' : Catalog}, (∀ n ∈ l, n ∈ names) → CatDistinct c → (∀ n ∈ c.namespaces.items, n ∈ fs) →
            discoverLoop (v.explore db) c l = (c', true) → ∀ n ∈ c'.namespaces.items, n ∈ fs := by
          intro l
          induction l with
          | nil => intro c c' _ _ h3 h4; cases h4; exact h3
          | cons a l ih =>
            intro c c' hl' hd h3 h4
            have ha := hexp a (hl' a List.mem_cons_self)
            simp only [if_pos (hl' a List.mem_cons_self)] at ha
            cases hg : (⟨fs⟩ : ODict Namespace).get a with
            | none => exact absurd (hl' a List.mem_cons_self) (hin a hg)
            | some f =>
              rw [hg] at ha
              have ha : v.explore db a = .ok f := ha
              have hf := ODict.get_some_mem hg
              have hc : c.namespaces.get f.name = none ∨ c.namespaces.get f.name = some f := by
                cases hcg : c.namespaces.get f.name with
                | none => exact .inl rfl
                | some g =>
                  have hg' := ODict.get_some_mem hcg
                  have e1 := ODict.get_eq_of_mem (d := (⟨fs⟩ : ODict Namespace)) hSd.names (h3 g hg'.1)
                  have e2 := ODict.get_eq_of_mem (d := (⟨fs⟩ : ODict Namespace)) hSd.names hf.1
                  have e3 : key g = key f := hg'.2
                  rw [e3, e2] at e1
                  exact .inr e1.symm
              obtain ⟨c'', hm, hd', hg'⟩ := C14.merge_one hd (hSd.each f hf.1) hc
              simp only [discoverLoop, ha, hm, if_true] at h4
              refine ih (fun x hx => hl' x (List.mem_cons_of_mem _ hx)) hd' ?_ h4
              intro x hx
              have e4 := ODict.get_eq_of_mem hd'.names hx
              rw [hg'] at e4
              split at e4
              · cases e4; exact hf.1
              · exact h3 x (ODict.get_some_mem e4).1
        have := hsub (fun _ h => h) ⟨by simp [Distinct], by simp⟩ (by simp) h1 {} (ODict.get_some_mem h).1
        have e5 : (⟨fs⟩ : ODict Namespace).get [] = some {} := ODict.get_eq_of_mem (d := (⟨fs⟩ : ODict Namespace)) hSd.names this
        rw [hk] at e5; cases e5
  have same : SameCat c T := by
    intro k
    rw [hall]
    rcases hget k with ⟨h3, h4⟩ | ⟨p, hp, h3, h4⟩
    · rw [h3, show T.namespaces.get k = none from h4]; trivial
    · rw [h3, show T.namespaces.get k = some p.2 from h4]; exact (hz p hp).2
  refine ⟨c, h1, same, h2.distinct.names, ?_⟩
  intro n hmem
  obtain ⟨m, hm, _, r⟩ := partner h2.distinct.names same n hmem
  exact wf_same (h2.distinct.each n hmem) r (w.wf m hm)

namespace C51

theorem bareTable_name (tb : Table) : key (Pg.bareTable tb) = key tb := rfl

theorem find_map {A : Type} [Named A] {f : A → A} (hf : ∀ a, key (f a) = key a) (k : Text) : ∀ l : List A,
    (⟨l.map f⟩ : ODict A).get k = ((⟨l⟩ : ODict A).get k).map f
  | [] => rfl
  | a :: l => by
    have ih := find_map hf k l
    simp only [ODict.get] at ih ⊢
    rw [List.map_cons, List.find?_cons, List.find?_cons, hf]
    split
    · rfl
    · exact ih

theorem bare_get (n : Namespace) (k : Text) : (Pg.bare n).tables.get k = (n.tables.get k).map Pg.bareTable :=
  find_map bareTable_name k _

theorem bare_mem {n : Namespace} {tb : Table} (h : tb ∈ (Pg.bare n).tables.items) : ∃ b ∈ n.tables.items, tb = Pg.bareTable b := by
  obtain ⟨b, hb, e⟩ := List.mem_map.1 h
  exact ⟨b, hb, e.symm⟩

theorem bareTable_wf {tb : Table} (w : TableWF .postgresql tb) : TableWF .postgresql (Pg.bareTable tb) := by
  refine ⟨?_, ?_, w.key, ?_, fun e => (by cases e), fun e => (by cases e), fun e => (by cases e)⟩
  · show ((tb.columns.items.map Pg.bareColumn).map key).Nodup
    rw [List.map_map]; exact w.columns
  · exact List.Nodup.sublist (List.Sublist.map _ List.filter_sublist) w.constraints
  · intro c hc
    obtain ⟨b, hb, rfl⟩ := List.mem_map.1 hc
    exact w.names b hb

theorem bare_wf {n : Namespace} (w : NsWF .postgresql n) : NsWF .postgresql (Pg.bare n) := by
  refine ⟨w.enums, w.structs, ?_, w.enumScope, w.structScope, ?_, w.enumStruct, ?_, ?_, w.enumNames, w.structNames, ?_, w.values, w.members, ?_⟩
  · show ((n.tables.items.map Pg.bareTable).map key).Nodup
    rw [List.map_map]
    exact w.tables
  · intro x hx; obtain ⟨b, hb, rfl⟩ := bare_mem hx; exact w.tableScope b hb
  · intro e he x hx; obtain ⟨b, hb, rfl⟩ := bare_mem hx; exact w.enumTable e he b hb
  · intro e he x hx; obtain ⟨b, hb, rfl⟩ := bare_mem hx; exact w.structTable e he b hb
  · intro x hx; obtain ⟨b, hb, rfl⟩ := bare_mem hx; exact w.tableNames b hb
  · intro x hx; obtain ⟨b, hb, rfl⟩ := bare_mem hx; exact bareTable_wf (w.wf b hb)

theorem invisible_rows {c : Constraint} (h : Pg.visible c = false) : Pg.constraintRows c = [] := by
  cases c <;> first | rfl | cases h

theorem row_forget (ty : SqlType) : Pg.row (Pg.forget ty) = Pg.row ty := by
  unfold Pg.forget
  split
  · rename_i c w _ _ _
    cases c <;> try rfl
    by_cases h2 : w = 2
    · subst h2; rfl
    · by_cases h4 : w = 4
      · subst h4; rfl
      · by_cases h8 : w = 8
        · subst h8; rfl
        · have none_ : ∀ s lo hi, Pg.row (.integer .base w s lo hi) = none := by
            intro s lo hi
            unfold Pg.row Pg.scalar
            dsimp only
            split <;> first | rfl | (rename_i heq; cases heq; first | exact absurd rfl h2 | exact absurd rfl h4 | exact absurd rfl h8) | (rename_i heq; cases heq)
          rw [none_, none_]
  · rfl

theorem column_bare {expr : SqlType → Text → Text} (hx : Pg.RangeFree expr) (c : Column) : Pg.columnRow expr (Pg.bareColumn c) = Pg.columnRow expr c := by
  unfold Pg.columnRow Pg.bareColumn
  dsimp only
  rw [row_forget, show expr (Pg.forget c.ty) = expr c.ty from funext (hx c.ty)]

/-- A server tells nothing about ranges and the constraints that are not asked for. -/
theorem bare_holds {expr : SqlType → Text → Text} (hx : Pg.RangeFree expr) {s : PgServer} {n : Namespace} (h : Pg.Holds expr s n) : Pg.Holds expr s (Pg.bare n) := by
  refine ⟨h.enums, h.structs, ?_, h.structInfo, h.members, ?_, ?_, ?_, ?_, ?_⟩
  · have : (Pg.bare n).tables.items.map (fun x => x.name.localId) = n.tables.items.map (fun x => x.name.localId) := by
      show (n.tables.items.map Pg.bareTable).map _ = _
      rw [List.map_map]; rfl
    rw [this]; exact h.tables
  · intro x hx; obtain ⟨b, hb, rfl⟩ := bare_mem hx; exact h.tableInfo b hb
  · intro x hx'
    obtain ⟨b, hb, rfl⟩ := bare_mem hx'
    show (b.columns.items.map Pg.bareColumn).map (Pg.columnRow expr) = _
    rw [List.map_map, show Pg.columnRow expr ∘ Pg.bareColumn = Pg.columnRow expr from funext (column_bare hx)]
    exact h.columns b hb
  · intro x hx; obtain ⟨b, hb, rfl⟩ := bare_mem hx; exact h.primary b hb
  · intro x hx c hc; obtain ⟨b, hb, rfl⟩ := bare_mem hx; exact h.constraints b hb c (List.mem_filter.1 hc).1
  · intro x hx r hr
    obtain ⟨b, hb, rfl⟩ := bare_mem hx
    rcases h.noOther b hb r hr with h1 | ⟨c, hc, h1⟩
    · exact .inl h1
    · refine .inr ⟨c, List.mem_filter.2 ⟨hc, ?_⟩, h1⟩
      cases hv : Pg.visible c with
      | true => rfl
      | false => rw [invisible_rows hv] at h1; cases h1

theorem ns_bare_get (T : Catalog) (k : Text) :
    (⟨⟨T.namespaces.items.map Pg.bare⟩⟩ : Catalog).namespaces.get k = (T.namespaces.get k).map Pg.bare :=
  find_map (f := Pg.bare) (fun _ => rfl) k _

theorem catalog_bare {T : Catalog} (w : CatWF .postgresql T) : CatWF .postgresql ⟨⟨T.namespaces.items.map Pg.bare⟩⟩ := by
  constructor
  · show ((T.namespaces.items.map Pg.bare).map key).Nodup
    rw [List.map_map]; exact w.names
  · intro n hn
    obtain ⟨m, hm, rfl⟩ := List.mem_map.1 hn
    exact bare_wf (w.wf m hm)

/-! ### The script -/

/-- The types that are set. -/
def changes (a b : Table) : List Action :=
  (a.columns.intersection b.columns).flatMap (fun p => if p.1.ty ≠ p.2.ty then [Action.setDataType p.1.name p.2.ty] else [])

/-- The constraints that are added. -/
def adds (a b : Table) : List Action :=
  (b.constraints.difference a.constraints).filterMap (fun c => c.spec.map (fun s => Action.addConstraint c.name s))

def acts (a b : Table) : List Action := changes a b ++ adds a b

def tableScript (a b : Table) : List Stmt := if acts a b = [] then [] else [.alterTable a.name (acts a b)]

theorem mapM_ok {α β : Type} {f : α → Except Err β} {g : α → β} : ∀ {l : List α}, (∀ a ∈ l, f a = .ok (g a)) → l.mapM f = .ok (l.map g)
  | [], _ => rfl
  | a :: l, h => by
    rw [List.mapM_cons, h a List.mem_cons_self, mapM_ok (l := l) (fun x hx => h x (List.mem_cons_of_mem _ hx))]
    rfl

theorem col_get (b : Table) (k : Text) : (Pg.bareTable b).columns.get k = (b.columns.get k).map Pg.bareColumn :=
  find_map (f := Pg.bareColumn) (fun _ => rfl) k _

/-- Two versions of a column that are found together. -/
theorem col_pair {a b : Table} (wa : TableWF .postgresql a) (wb : TableWF .postgresql b) (h : SameTable a (Pg.bareTable b)) {p : Column × Column}
    (hp : p ∈ a.columns.intersection b.columns) : p.1 = Pg.bareColumn p.2 ∧ p.1 ∈ a.columns.items ∧ p.2 ∈ b.columns.items := by
  simp only [ODict.intersection, List.mem_filterMap, Option.map_eq_some_iff] at hp
  obtain ⟨x, hx, y, hy, rfl⟩ := hp
  have g1 := perm_get wa.columns (bareTable_wf wb).columns h.columns (key x)
  rw [ODict.get_eq_of_mem (d := a.columns) wa.columns hx, col_get, hy] at g1
  exact ⟨g1, hx, (ODict.get_some_mem hy).1⟩

theorem forget_cases (ty : SqlType) : Pg.forget ty = ty ∨ (Pg.forget ty).isInteger = true := by
  unfold Pg.forget
  split
  · exact .inr rfl
  · exact .inl rfl

theorem table_script {a b : Table} (wa : TableWF .postgresql a) (wb : TableWF .postgresql b) (h : SameTable a (Pg.bareTable b)) :
    mutateTable .postgresql a b = .ok (tableScript a b) := by
  have hcon : a.constraints.items.Perm (b.constraints.items.filter Pg.visible) := h.constraints
  have hname : a.name = b.name := h.name
  have hdesc : a.description = b.description := h.description
  have g1 := perm_get wa.columns (bareTable_wf wb).columns h.columns
  have c1 : ∀ k, a.columns.contains k = b.columns.contains k := by
    intro k
    have e := optRel_contains g1 k
    rw [e, Bool.eq_iff_iff, ODict.contains_iff, ODict.contains_iff]
    show k ∈ (b.columns.items.map Pg.bareColumn).map key ↔ _
    rw [List.map_map]; exact Iff.rfl
  have d1 := diff_nil_of_contains c1
  have d1' := diff_nil_of_contains (fun k => (c1 k).symm)
  have hback : ∀ c ∈ a.constraints.items, c ∈ b.constraints.items := fun c hc => (List.mem_filter.1 (hcon.mem_iff.1 hc)).1
  have d2 : a.constraints.difference b.constraints = [] := by
    simp only [ODict.difference, List.filter_eq_nil_iff]
    intro c hc
    have : b.constraints.contains (key c) = true := (ODict.contains_iff _ _).2 (List.mem_map_of_mem (hback c hc))
    simp [this]
  have hm : migratedPairs .postgresql a b = [] := by
    simp only [migratedPairs, List.filter_eq_nil_iff]
    intro p hp
    have e := (col_pair wa wb h hp).1
    have et : p.1.ty = Pg.forget p.2.ty := congrArg Column.ty e
    unfold isColumnMigrated
    rcases forget_cases p.2.ty with h1 | h1
    · rw [et, h1]; simp
    · rw [← et] at h1
      cases ht : p.1.ty <;> rw [ht] at h1 <;> first | cases h1 | skip
      simp [SqlType.isEnum, SqlType.isVarChar, SqlType.isUser]
  have hr := mapM_ok (f := fun p : Column × Column => mutateColumn .postgresql p.1 p.2)
    (g := fun p => if p.1.ty ≠ p.2.ty then [Action.setDataType p.1.name p.2.ty] else [])
    (l := a.columns.intersection b.columns) (by
      intro p hp
      have e := (col_pair wa wb h hp).1
      obtain ⟨x, y⟩ := p
      dsimp only at e ⊢
      subst e
      by_cases ht : Pg.forget y.ty = y.ty
      · have : Pg.bareColumn y = y := by unfold Pg.bareColumn; rw [ht]
        rw [this, if_neg (fun h => h rfl)]
        exact mutateColumn_same (fun e => (by cases e))
      · have hne : Pg.bareColumn y ≠ y := fun e => ht (congrArg Column.ty e)
        unfold mutateColumn
        dsimp only
        rw [if_neg hne, if_pos (show (Pg.bareColumn y).ty ≠ y.ty from ht)]
        have e1 : (Pg.bareColumn y).nullable = y.nullable := rfl
        have e2 : (Pg.bareColumn y).default = y.default := rfl
        have e3 : (Pg.bareColumn y).identity = y.identity := rfl
        rw [e1, e2, e3]
        cases y.nullable <;> cases y.default <;> cases y.identity <;> simp)
  have hany : (a.constraints.intersection b.constraints).any (fun p => p.1 ≠ p.2) = false := by
    rw [List.any_eq_false]
    intro p hp
    simp only [ODict.intersection, List.mem_filterMap, Option.map_eq_some_iff] at hp
    obtain ⟨x, hx, y, hy, rfl⟩ := hp
    have e := ODict.get_eq_of_mem (d := b.constraints) wb.constraints (hback x hx)
    rw [e] at hy; cases hy; simp
  have halter : alterActions a b .postgresql = .ok (acts a b) := by
    unfold alterActions
    rw [hm, hr, d1, d2, hany]
    simp [wrapColumn, bind, Except.bind, pure, Except.pure, adds, acts, changes, List.flatMap_def]
  have hbase : mutateTableBase .postgresql a b = .ok (tableScript a b) := by
    unfold mutateTableBase
    rw [hm, d1', halter, hname]
    simp [checkIdentity, wrapColumn, bind, Except.bind, pure, Except.pure, tableScript, Table.alterStmt, Dialect.splits, hname]
  have hcom : (b.columns.items.flatMap (fun c => commentChange ((a.columns.get c.name).bind Column.description)
      c.description (Stmt.commentColumn b.name c.name))) = [] := by
    rw [List.flatMap_eq_nil_iff]
    intro c hcm
    have hm := h.columns.mem_iff.2 (show Pg.bareColumn c ∈ (Pg.bareTable b).columns.items from List.mem_map_of_mem hcm)
    have : a.columns.get c.name = some (Pg.bareColumn c) := (ODict.get_eq_some_iff (d := a.columns) wa.columns).2 ⟨hm, rfl⟩
    rw [this]
    exact commentChange_same _ _
  unfold mutateTable
  rw [hbase]
  simp [bind, Except.bind, pure, Except.pure, hcom, hdesc, commentChange_same]

theorem bare_contains (n : Namespace) (k : Text) : (Pg.bare n).tables.contains k = n.tables.contains k := by
  rw [Bool.eq_iff_iff, ODict.contains_iff, ODict.contains_iff]
  show k ∈ (n.tables.items.map Pg.bareTable).map key ↔ _
  rw [List.map_map]; exact Iff.rfl

/-- Two versions of a table that are found together. -/
theorem table_pair {a b : Namespace} (wa : NsWF .postgresql a) (h : SameNs a (Pg.bare b)) {p : Table × Table} (hp : p ∈ a.tables.intersection b.tables) :
    SameTable p.1 (Pg.bareTable p.2) ∧ p.1 ∈ a.tables.items ∧ p.2 ∈ b.tables.items := by
  simp only [ODict.intersection, List.mem_filterMap, Option.map_eq_some_iff] at hp
  obtain ⟨x, hx, y, hy, rfl⟩ := hp
  have := h.tables (key x)
  rw [ODict.get_eq_of_mem (d := a.tables) wa.tables hx, bare_get, hy] at this
  exact ⟨this, hx, (ODict.get_some_mem hy).1⟩

def nsScript (a b : Namespace) : List Stmt := (a.tables.intersection b.tables).flatMap (fun p => tableScript p.1 p.2)

theorem ns_script {o : MutatorOptions} {a b : Namespace} (wa : NsWF .postgresql a) (wb : NsWF .postgresql b) (h : SameNs a (Pg.bare b)) :
    mutateNamespace .postgresql o a b = .ok (nsScript a b) := by
  have he : ∀ k, OptRel SameEnum (a.enums.get k) (b.enums.get k) := h.enums
  have hs : ∀ k, OptRel SameStruct (a.structs.get k) (b.structs.get k) := h.structs
  have hname : a.name = b.name := h.name
  have ce := optRel_contains he
  have cs := optRel_contains hs
  have ct : ∀ k, a.tables.contains k = b.tables.contains k := fun k => (optRel_contains h.tables k).trans (bare_contains b k)
  have e1 := diff_nil_of_contains ce
  have e2 := diff_nil_of_contains (fun k => (ce k).symm)
  have s1 := diff_nil_of_contains cs
  have s2 := diff_nil_of_contains (fun k => (cs k).symm)
  have t1 := diff_nil_of_contains ct
  have t2 := diff_nil_of_contains (fun k => (ct k).symm)
  obtain ⟨r1, h1, f1⟩ := PySqlSync.mapM_nil (f := fun p : EnumType × EnumType => mutateEnum p.1 p.2)
    (l := a.enums.intersection b.enums) (fun p hp => mutateEnum_same (inter_rel wa.enums he hp).1)
  obtain ⟨r2, h2, f2⟩ := PySqlSync.mapM_nil (f := fun p : StructType × StructType => mutateStruct .postgresql p.1 p.2)
    (l := a.structs.intersection b.structs) (fun p hp => by
      have k := inter_rel wa.structs hs hp
      exact mutateStruct_same (wa.members _ k.2.1) (wb.members _ k.2.2) k.1)
  have h3 := mapM_ok (f := fun p : Table × Table => mutateTable .postgresql p.1 p.2) (g := fun p => tableScript p.1 p.2)
    (l := a.tables.intersection b.tables) (fun p hp => by
      have k := table_pair wa h hp
      exact table_script (wa.wf _ k.2.1) (wb.wf _ k.2.2) k.1)
  unfold mutateNamespace
  simp [hname, e1, e2, s1, s2, t1, t2, h1, h2, h3, f1, f2, softPairs, bind, Except.bind, pure, Except.pure, nsScript, List.flatMap_def]

/-- Two versions of a namespace that are found together. -/
theorem ns_pair {S T : Catalog} (dS : Distinct S.namespaces) (same : SameCat S ⟨⟨T.namespaces.items.map Pg.bare⟩⟩) {q : Namespace × Namespace}
    (hq : q ∈ S.namespaces.intersection T.namespaces) : SameNs q.1 (Pg.bare q.2) ∧ q.1 ∈ S.namespaces.items ∧ q.2 ∈ T.namespaces.items := by
  simp only [ODict.intersection, List.mem_filterMap, Option.map_eq_some_iff] at hq
  obtain ⟨x, hx, y, hy, rfl⟩ := hq
  have := same (key x)
  rw [ODict.get_eq_of_mem (d := S.namespaces) dS hx, ns_bare_get] at this
  have hy : (⟨T.namespaces.items⟩ : ODict Namespace).get (key x) = some y := hy
  rw [hy] at this
  exact ⟨this, hx, (ODict.get_some_mem hy).1⟩

/-- What the script is: the conditions, and nothing else. -/
theorem catalog_script {topo : List (Text × List Text) → Except Err (List Text)} (ht : Sorts topo) {S T : Catalog} {script : List Stmt}
    (wS : CatWF .postgresql S) (wT : CatWF .postgresql T) (same : SameCat S ⟨⟨T.namespaces.items.map Pg.bare⟩⟩)
    (h : mutateCatalog topo .postgresql {} S T = .ok script) :
    ∀ st, st ∈ script ↔ ∃ q ∈ S.namespaces.intersection T.namespaces, st ∈ nsScript q.1 q.2 := by
  obtain ⟨S', T', hS, hT, _⟩ := mutateCatalog_sorted h
  have kS := sort_mem ht wS.names hS
  have kT := sort_mem ht wT.names hT
  have gS : ∀ k, S'.namespaces.get k = S.namespaces.get k := fun k => nsGet_ext kS.1 wS.names kS.2.1 k
  have gT : ∀ k, T'.namespaces.get k = T.namespaces.get k := fun k => nsGet_ext kT.1 wT.names kT.2.1 k
  have hmem : ∀ q, q ∈ S'.namespaces.intersection T'.namespaces ↔ q ∈ S.namespaces.intersection T.namespaces := by
    intro q
    simp only [ODict.intersection, List.mem_filterMap, gT, kS.2.1]
  have con : ∀ (x : ODict Namespace) k, x.contains k = (x.get k).isSome := by
    intro x k
    rw [Bool.eq_iff_iff, ODict.contains_iff, ODict.get_isSome_iff]
  have cst : ∀ k, S'.namespaces.contains k = T'.namespaces.contains k := by
    intro k
    rw [con, con, gS, gT]
    have := same k
    rw [ns_bare_get] at this
    cases h1 : S.namespaces.get k <;> cases h2 : T.namespaces.get k <;> rw [h1, h2] at this <;> first | rfl | exact False.elim this
  have d1 := diff_nil_of_contains cst
  have d2 := diff_nil_of_contains (fun k => (cst k).symm)
  have hmap := mapM_ok (f := fun p : Namespace × Namespace => mutateNamespace .postgresql {} p.1 p.2) (g := fun q => nsScript q.1 q.2)
    (l := S'.namespaces.intersection T'.namespaces) (fun q hq => by
      have k := ns_pair wS.names same ((hmem q).1 hq)
      exact ns_script (wS.wf _ k.2.1) (wT.wf _ k.2.2) k.1)
  have : mutateCatalog topo .postgresql {} S T = .ok ((S'.namespaces.intersection T'.namespaces).map (fun q => nsScript q.1 q.2)).flatten := by
    unfold mutateCatalog
    simp [hS, hT, d1, d2, hmap, bind, Except.bind, pure, Except.pure]
  rw [this] at h
  cases h
  intro st
  rw [← List.flatMap_def, List.mem_flatMap]
  constructor
  · rintro ⟨q, hq, hst⟩; exact ⟨q, (hmem q).1 hq, hst⟩
  · rintro ⟨q, hq, hst⟩; exact ⟨q, (hmem q).2 hq, hst⟩

/-- Only conditions are added, and each of them. -/
theorem adds_iff {a b : Table} (wb : TableWF .postgresql b) (h : SameTable a (Pg.bareTable b)) (x : Action) :
    x ∈ adds a b ↔ ∃ name cond, Constraint.check name cond ∈ b.constraints.items ∧ x = .addConstraint name (.check cond) := by
  have hcon : a.constraints.items.Perm (b.constraints.items.filter Pg.visible) := h.constraints
  unfold adds
  rw [List.mem_filterMap]
  constructor
  · rintro ⟨c, hc, hx⟩
    obtain ⟨hcb, hk⟩ := ODict.mem_difference.1 hc
    have hv : Pg.visible c = false := by
      cases hv : Pg.visible c with
      | false => rfl
      | true =>
        have := hcon.mem_iff.2 (List.mem_filter.2 ⟨hcb, hv⟩)
        exact absurd (List.mem_map_of_mem this) hk
    cases c with
    | unique _ _ => cases hv
    | foreign _ _ _ => cases hv
    | discriminated _ _ _ => cases hx
    | check n cond => cases hx; exact ⟨n, cond, hcb, rfl⟩
  · rintro ⟨name, cond, hc, rfl⟩
    refine ⟨.check name cond, ODict.mem_difference.2 ⟨hc, ?_⟩, rfl⟩
    intro hk
    obtain ⟨c', hc', e⟩ := List.mem_map.1 hk
    have h1 := List.mem_filter.1 (hcon.mem_iff.1 hc')
    have e1 := ODict.get_eq_of_mem (d := b.constraints) wb.constraints h1.1
    have e2 := ODict.get_eq_of_mem (d := b.constraints) wb.constraints hc
    rw [e, e2] at e1
    cases e1
    cases h1.2

theorem changes_iff {a b : Table} (wa : TableWF .postgresql a) (wb : TableWF .postgresql b) (h : SameTable a (Pg.bareTable b)) (x : Action) (hx : x ∈ changes a b) :
    ∃ c ∈ b.columns.items, Pg.forget c.ty ≠ c.ty ∧ x = .setDataType c.name c.ty := by
  obtain ⟨p, hp, hx⟩ := List.mem_flatMap.1 hx
  have k := col_pair wa wb h hp
  split at hx
  · rename_i hne
    rw [List.mem_singleton] at hx
    refine ⟨p.2, k.2.2, ?_, ?_⟩
    · rw [show p.1.ty = Pg.forget p.2.ty from congrArg Column.ty k.1] at hne; exact hne
    · rw [hx, show p.1.name = p.2.name from (congrArg Column.name k.1).trans rfl]
  · cases hx

/-- Setting the types that columns have already changes nothing. -/
theorem retype {E : Spec.Engine} {b : Table} (wb : TableWF .postgresql b) : ∀ {l : List Action},
    (∀ x ∈ l, ∃ c ∈ b.columns.items, x = .setDataType c.name c.ty) →
    stepActions E (Table.state .postgresql E b) l = some (Table.state .postgresql E b) := by
  intro l
  induction l with
  | nil => intro _; rfl
  | cons x l ih =>
    intro h
    obtain ⟨c, hc, rfl⟩ := h x List.mem_cons_self
    have hg : (Table.state .postgresql E b).cols c.name = some (Column.state .postgresql c) := by
      show (b.columns.get c.name).map (Column.state .postgresql) = _
      have : b.columns.get c.name = some c := ODict.get_eq_of_mem wb.columns hc
      rw [this]; rfl
    have : stepAction E (Table.state .postgresql E b) (.setDataType c.name c.ty) = some (Table.state .postgresql E b) := by
      simp only [stepAction, TableState.onCol, hg, Option.map_some]
      exact congrArg some (setC_self hg)
    rw [stepActions, this, Option.bind_some]
    exact ih (fun x hx => h x (List.mem_cons_of_mem _ hx))

/-- A statement of the script is refused, or changes nothing. -/
theorem alter_effect {E : Spec.Engine} {T : Catalog} (w : CatWF .postgresql T) {n : Namespace} (hn : n ∈ T.namespaces.items) {a b : Table}
    (wa : TableWF .postgresql a) (hb : b ∈ n.tables.items) (h : SameTable a (Pg.bareTable b)) {st : Stmt} (hst : st ∈ tableScript a b) :
    step E (Catalog.db .postgresql E T) st = if adds a b = [] then some (Catalog.db .postgresql E T) else none := by
  have wb := (w.wf n hn).wf b hb
  unfold tableScript at hst
  split at hst
  · cases hst
  · rename_i hne
    rw [List.mem_singleton] at hst
    subst hst
    have hobj : (Catalog.db .postgresql E T).objs a.name.key = some (.table (Table.state .postgresql E b)) := by
      have ha : a.name = b.name := h.name
      rw [ha]
      have hsc : b.name.key.1 = n.name := (w.wf n hn).tableScope b hb
      have hg : T.namespaces.get b.name.key.1 = some n := by rw [hsc]; exact ODict.get_eq_of_mem w.names hn
      show (match T.namespaces.get b.name.key.1 with | some n => Namespace.obj .postgresql E n b.name.key.2 | none => none) = _
      rw [hg]
      exact obj_table (w.wf n hn) (ODict.get_eq_of_mem (w.wf n hn).tables hb)
    have hch := retype (E := E) wb (l := changes a b) (fun x hx => by
      obtain ⟨c, hc, _, e⟩ := changes_iff wa wb h x hx; exact ⟨c, hc, e⟩)
    have happ : stepActions E (Table.state .postgresql E b) (acts a b) = stepActions E (Table.state .postgresql E b) (adds a b) := stepActions_app hch
    cases hadds : adds a b with
    | nil =>
      rw [hadds] at happ
      simp only [step, hobj, happ, stepActions, Option.map_some, if_true]
      congr 1
      unfold Db.set
      have : upd (Catalog.db .postgresql E T).objs a.name.key (some (.table (Table.state .postgresql E b))) = (Catalog.db .postgresql E T).objs := by
        funext k
        unfold upd
        split
        · rename_i e; rw [e, hobj]
        · rfl
      rw [this]
    | cons x rest =>
      rw [hadds] at happ
      obtain ⟨name, cond, hc, rfl⟩ := (adds_iff wb h x).1 (by rw [hadds]; exact List.mem_cons_self)
      have hcons : (Table.state .postgresql E b).cons name = some (.check cond (E.condCols cond)) := by
        show (b.constraints.get name).bind (Constraint.state E) = _
        have : b.constraints.get name = some (.check name cond) := ODict.get_eq_of_mem (d := b.constraints) wb.constraints hc
        rw [this]; rfl
      simp only [step, hobj, happ, stepActions, stepAction, hcons, Option.isSome_some, Bool.true_or, if_true, Option.bind_none, Option.map_none]
      exact (if_neg (List.cons_ne_nil _ _)).symm

/-- The statements that change nothing. -/
theorem runs_idle {E : Spec.Engine} {db : Db} : ∀ {l : List Stmt} {db' : Db}, (∀ st ∈ l, step E db st = some db ∨ step E db st = none) →
    Runs E db l db' → db' = db ∧ ∀ st ∈ l, step E db st = some db := by
  intro l
  induction l with
  | nil => intro db' _ h; cases h; exact ⟨rfl, fun _ h => by cases h⟩
  | cons x l ih =>
    intro db' he h
    cases h with
    | cons h1 _ h3 =>
      rcases he x List.mem_cons_self with h4 | h4
      · rw [h4] at h1; cases h1
        obtain ⟨h5, h6⟩ := ih (fun st hs => he st (List.mem_cons_of_mem _ hs)) h3
        refine ⟨h5, fun st hs => ?_⟩
        rcases List.mem_cons.1 hs with rfl | hs
        · exact h4
        · exact h6 st hs
      · rw [h4] at h1; cases h1

theorem names_bare {T : Catalog} {names : List Text} (hn : ∀ k, k ∈ names ↔ ∃ n ∈ T.namespaces.items, n.name = k) :
    ∀ k, k ∈ names ↔ ∃ n ∈ T.namespaces.items.map Pg.bare, n.name = k := by
  intro k
  rw [hn]
  constructor
  · rintro ⟨n, h1, h2⟩; exact ⟨Pg.bare n, List.mem_map_of_mem h1, h2⟩
  · rintro ⟨_, h1, h2⟩; obtain ⟨n, h3, rfl⟩ := List.mem_map.1 h1; exact ⟨n, h3, h2⟩

end C51
open C51

/-- **C51 (a synchronized database).**  Synchronizing such a database with what it already is changes nothing: no statement reaches the database.
    Discriminated keys are not read, and not asked for. -/
theorem C51_settled {v : Env} (ht : Sorts v.topo) (hd : v.dialect = .postgresql) {s s' : Session} {srv : PgServer} (hx : Explores v s.db srv)
    {expr : SqlType → Text → Text} (hr : Pg.RangeFree expr) {T : Catalog} (w : CatWF .postgresql T)
    (holds : ∀ n ∈ T.namespaces.items, Pg.Holds expr srv n) (readable : ∀ n ∈ T.namespaces.items, Pg.Readable expr (Pg.bare n))
    (hc : ∀ n ∈ T.namespaces.items, ¬ Pg.Conditioned n ∧ ¬ Pg.Ranged n)
    {names : List Text} (hn : ∀ k, k ∈ names ↔ ∃ n ∈ T.namespaces.items, n.name = k) {atomic : Bool} {o : Outcome}
    (h : Step v atomic s (.synchronize T names) s' o) : o ≠ .failed ∧ s'.db = s.db := by
  obtain ⟨found, hf, same, wf⟩ := C51_discovered hx (expr := expr) (catalog_bare w)
    (by intro n h1; obtain ⟨m, hm, rfl⟩ := List.mem_map.1 h1; exact bare_holds hr (holds m hm))
    (by intro n h1; obtain ⟨m, hm, rfl⟩ := List.mem_map.1 h1; exact readable m hm) (names_bare hn)
  cases h with
  | syncTarget _ => exact ⟨(by decide), rfl⟩
  | syncDiscover _ _ => exact ⟨(by decide), rfl⟩
  | syncRaised _ _ _ => exact ⟨(by decide), rfl⟩
  | syncNothing _ h2 _ => exact ⟨(by decide), rfl⟩
  | syncExecuted _ h2 h3 hne _ =>
    rename_i script _ _ _
    rw [hf] at h2; cases h2
    rw [hd] at h3
    refine absurd (List.eq_nil_iff_forall_not_mem.2 ?_) hne
    intro st hst
    obtain ⟨q, hq, hst⟩ := (catalog_script ht wf w same h3 st).1 hst
    have k := ns_pair wf.names same hq
    obtain ⟨p, hp, hst⟩ := List.mem_flatMap.1 hst
    have k' := table_pair (wf.wf _ k.2.1) k.1 hp
    unfold tableScript at hst
    split at hst
    · cases hst
    · rename_i hne'
      refine hne' (List.append_eq_nil_iff.2 ⟨List.eq_nil_iff_forall_not_mem.2 ?_, List.eq_nil_iff_forall_not_mem.2 ?_⟩)
      · intro x hx
        obtain ⟨c, h4, h5, _⟩ := changes_iff ((wf.wf _ k.2.1).wf _ k'.2.1) ((w.wf _ k.2.2).wf _ k'.2.2) k'.1 x hx
        exact (hc _ k.2.2).2 ⟨p.2, k'.2.2, c, h4, h5⟩
      · intro x hx
        obtain ⟨name, cond, hcc, _⟩ := (adds_iff ((w.wf _ k.2.2).wf _ k'.2.2) k'.1 x).1 hx
        exact (hc _ k.2.2).1 ⟨p.2, k'.2.2, name, cond, hcc⟩

/-- **C51 (a finding).**  Conditions are not discovered.  A database that is just what is wanted, with a condition in it (such as the condition that the
    library creates for a range of integers), cannot be synchronized: the condition is added again, and the database refuses.  (The database stays as it
    is in any case; without conditions the types of columns with ranges are set again each time.) -/
theorem C51_condition_added_again {v : Env} (ht : Sorts v.topo) (hd : v.dialect = .postgresql) {s s' : Session} {srv : PgServer} (hx : Explores v s.db srv)
    {expr : SqlType → Text → Text} (hr : Pg.RangeFree expr) {T : Catalog} (w : CatWF .postgresql T) (hdb : s.db = Catalog.db .postgresql v.engine T)
    (holds : ∀ n ∈ T.namespaces.items, Pg.Holds expr srv n) (readable : ∀ n ∈ T.namespaces.items, Pg.Readable expr (Pg.bare n))
    {names : List Text} (hn : ∀ k, k ∈ names ↔ ∃ n ∈ T.namespaces.items, n.name = k) {atomic : Bool} {o : Outcome}
    (h : Step v atomic s (.synchronize T names) s' o) :
    s'.db = s.db ∧ ((∃ n ∈ T.namespaces.items, Pg.Conditioned n) → o ≠ .returned) := by
  obtain ⟨found, hf, same, wf⟩ := C51_discovered hx (expr := expr) (catalog_bare w)
    (by intro n h1; obtain ⟨m, hm, rfl⟩ := List.mem_map.1 h1; exact bare_holds hr (holds m hm))
    (by intro n h1; obtain ⟨m, hm, rfl⟩ := List.mem_map.1 h1; exact readable m hm) (names_bare hn)
  have each : ∀ script, mutateCatalog v.topo .postgresql {} found T = .ok script → ∀ st ∈ script,
      step v.engine s.db st = some s.db ∨ step v.engine s.db st = none := by
    intro script hsc st hst
    obtain ⟨q, hq, hst⟩ := (catalog_script ht wf w same hsc st).1 hst
    have k := ns_pair wf.names same hq
    obtain ⟨p, hp, hst⟩ := List.mem_flatMap.1 hst
    have k' := table_pair (wf.wf _ k.2.1) k.1 hp
    have e := alter_effect (E := v.engine) w k.2.2 ((wf.wf _ k.2.1).wf _ k'.2.1) k'.2.2 k'.1 hst
    rw [hdb, e]
    split
    · exact .inl rfl
    · exact .inr rfl
  have some_stmt : (∃ n ∈ T.namespaces.items, Pg.Conditioned n) → ∀ script, mutateCatalog v.topo .postgresql {} found T = .ok script →
      ∃ st ∈ script, step v.engine s.db st = none := by
    rintro hc script hsc
    obtain ⟨n, hmem, b, hb, name, cond, hcc⟩ := hc
    have g : T.namespaces.get n.name = some n := ODict.get_eq_of_mem w.names hmem
    have sg := same n.name
    rw [ns_bare_get, g] at sg
    cases hm : found.namespaces.get n.name with
    | none => rw [hm] at sg; exact False.elim sg
    | some m =>
      rw [hm] at sg
      have sg : SameNs m (Pg.bare n) := sg
      have hmm := ODict.get_some_mem hm
      have hq : (m, n) ∈ found.namespaces.intersection T.namespaces := by
        simp only [ODict.intersection, List.mem_filterMap, Option.map_eq_some_iff]
        exact ⟨m, hmm.1, n, by rw [hmm.2]; exact g, rfl⟩
      have tg := sg.tables (key b)
      have gb : n.tables.get (key b) = some b := ODict.get_eq_of_mem (w.wf n hmem).tables hb
      rw [bare_get, gb] at tg
      cases ha : m.tables.get (key b) with
      | none => rw [ha] at tg; exact False.elim tg
      | some a =>
        rw [ha] at tg
        have tg : SameTable a (Pg.bareTable b) := tg
        have haa := ODict.get_some_mem ha
        have hp : (a, b) ∈ m.tables.intersection n.tables := by
          simp only [ODict.intersection, List.mem_filterMap, Option.map_eq_some_iff]
          exact ⟨a, haa.1, b, by rw [haa.2]; exact gb, rfl⟩
        have hadd := (adds_iff ((w.wf n hmem).wf b hb) tg (.addConstraint name (.check cond))).2 ⟨name, cond, hcc, rfl⟩
        have hne : adds a b ≠ [] := fun e => by rw [e] at hadd; cases hadd
        have hne' : acts a b ≠ [] := fun e => hne (List.append_eq_nil_iff.1 e).2
        have hts : Stmt.alterTable a.name (acts a b) ∈ tableScript a b := by
          unfold tableScript; rw [if_neg hne']; exact List.mem_singleton.2 rfl
        refine ⟨.alterTable a.name (acts a b), (catalog_script ht wf w same hsc _).2 ⟨(m, n), hq, List.mem_flatMap.2 ⟨(a, b), hp, hts⟩⟩, ?_⟩
        rw [hdb, alter_effect w hmem ((wf.wf m hmm.1).wf a haa.1) hb tg hts, if_neg hne]
  cases h with
  | syncTarget _ => exact ⟨rfl, fun _ => (by decide)⟩
  | syncDiscover _ _ => exact ⟨rfl, fun _ => (by decide)⟩
  | syncRaised _ _ _ => exact ⟨rfl, fun _ => (by decide)⟩
  | syncNothing _ h2 h3 =>
    rw [hf] at h2; cases h2
    rw [hd] at h3
    refine ⟨rfl, fun hc => ?_⟩
    obtain ⟨st, hst, _⟩ := some_stmt hc _ h3
    cases hst
  | syncExecuted _ h2 h3 hne h5 =>
    rw [hf] at h2; cases h2
    rw [hd] at h3
    have ea := each _ h3
    cases h5 with
    | all hr =>
      obtain ⟨e1, e2⟩ := runs_idle ea hr
      refine ⟨e1, fun hc => ?_⟩
      obtain ⟨st, hst, he⟩ := some_stmt hc _ h3
      rw [e2 st hst] at he; cases he
    | undone _ => exact ⟨rfl, fun _ => (by decide)⟩
    | stopped _ hsp hr =>
      exact ⟨(runs_idle (fun st hst => ea st (by rw [hsp]; exact List.mem_append_left _ hst)) hr).1, fun _ => (by decide)⟩

namespace C51

theorem table_state {E : Spec.Engine} {a b : Table} (wa : TableWF .postgresql a) (wb : TableWF .postgresql b) (h : SameTable a b) :
    Table.state .postgresql E a = Table.state .postgresql E b := by
  unfold Table.state
  have g1 := perm_get wa.columns wb.columns h.columns
  have g2 := perm_get wa.constraints wb.constraints h.constraints
  have same : ∀ {A : Type} {x y : Option A}, OptRel Eq x y → x = y := by
    intro A x y h
    cases x <;> cases y <;> first | rfl | exact False.elim h | exact congrArg some h
  rw [show (fun n => (a.columns.get n).map (Column.state .postgresql)) = (fun n => (b.columns.get n).map (Column.state .postgresql)) from
      funext (fun n => by rw [same (g1 n)]),
    show (fun n => (a.constraints.get n).bind (Constraint.state E)) = (fun n => (b.constraints.get n).bind (Constraint.state E)) from
      funext (fun n => by rw [same (g2 n)]), h.key]

theorem struct_state {a b : StructType} (da : Distinct a.members) (db : Distinct b.members) (h : SameStruct a b) : StructType.obj a = StructType.obj b := by
  unfold StructType.obj
  have g := perm_get da db h.members
  congr 1
  funext n
  have := g n
  cases h1 : a.members.get n <;> cases h2 : b.members.get n <;> rw [h1, h2] at this <;> first | rfl | exact False.elim this | (have this : _ = _ := this; rw [this])

theorem enum_state {a b : EnumType} (h : SameEnum a b) : EnumType.obj a = EnumType.obj b := by
  unfold EnumType.obj
  congr 1
  funext v
  rw [Bool.eq_iff_iff, List.contains_iff_mem, List.contains_iff_mem]
  exact h.values.mem_iff

/-- Descriptions that differ in the order in which things are listed only describe the same database. -/
theorem same_db {E : Spec.Engine} {S T : Catalog} (wS : CatWF .postgresql S) (wT : CatWF .postgresql T) (h : SameCat S T) :
    Catalog.db .postgresql E S = Catalog.db .postgresql E T := by
  unfold Catalog.db
  have c := optRel_contains h
  rw [show (fun n => decide (n = []) || S.namespaces.contains n) = (fun n => decide (n = []) || T.namespaces.contains n) from
    funext (fun n => by rw [c n])]
  congr 1
  funext k
  have hk := h k.1
  cases h1 : S.namespaces.get k.1 with
  | none =>
    cases h2 : T.namespaces.get k.1 with
    | none => rfl
    | some y => rw [h1, h2] at hk; exact False.elim hk
  | some x =>
    cases h2 : T.namespaces.get k.1 with
    | none => rw [h1, h2] at hk; exact False.elim hk
    | some y =>
      rw [h1, h2] at hk
      have hk : SameNs x y := hk
      have wx := wS.wf x (ODict.get_some_mem h1).1
      have wy := wT.wf y (ODict.get_some_mem h2).1
      show Namespace.obj .postgresql E x k.2 = Namespace.obj .postgresql E y k.2
      unfold Namespace.obj
      have he := hk.enums k.2
      cases e1 : x.enums.get k.2 with
      | some e =>
        cases e2 : y.enums.get k.2 with
        | none => rw [e1, e2] at he; exact False.elim he
        | some f => rw [e1, e2] at he; exact congrArg some (enum_state he)
      | none =>
        cases e2 : y.enums.get k.2 with
        | some f => rw [e1, e2] at he; exact False.elim he
        | none =>
          have hs := hk.structs k.2
          cases e3 : x.structs.get k.2 with
          | some e =>
            cases e4 : y.structs.get k.2 with
            | none => rw [e3, e4] at hs; exact False.elim hs
            | some f =>
              rw [e3, e4] at hs
              exact congrArg some (struct_state (wx.members e (ODict.get_some_mem e3).1) (wy.members f (ODict.get_some_mem e4).1) hs)
          | none =>
            cases e4 : y.structs.get k.2 with
            | some f => rw [e3, e4] at hs; exact False.elim hs
            | none =>
              have ht := hk.tables k.2
              cases e5 : x.tables.get k.2 with
              | some e =>
                cases e6 : y.tables.get k.2 with
                | none => rw [e5, e6] at ht; exact False.elim ht
                | some f =>
                  rw [e5, e6] at ht
                  exact congrArg (fun z => some (Obj.table z)) (table_state (wx.wf e (ODict.get_some_mem e5).1) (wy.wf f (ODict.get_some_mem e6).1) ht)
              | none =>
                cases e6 : y.tables.get k.2 with
                | some f => rw [e5, e6] at ht; exact False.elim ht
                | none => rfl

end C51

/-- **C51 (what a connection believes).**  After `discover` on such a server the connection believes what the database is (compare C14, which takes this
    for granted). -/
theorem C51_discover_faithful {v : Env} (hd : v.dialect = .postgresql) {s s' : Session} {srv : PgServer} (hx : Explores v s.db srv)
    {expr : SqlType → Text → Text} {T : Catalog} (w : CatWF .postgresql T) (hdb : s.db = Catalog.db .postgresql v.engine T)
    (holds : ∀ n ∈ T.namespaces.items, Pg.Holds expr srv n) (readable : ∀ n ∈ T.namespaces.items, Pg.Readable expr n)
    {names : List Text} (hn : ∀ k, k ∈ names ↔ ∃ n ∈ T.namespaces.items, n.name = k) {atomic : Bool} {o : Outcome}
    (h : Step v atomic s (.discover names) s' o) : o = .returned ∧ s'.db = s.db ∧ Faithful v s' ∧ SameCat s'.state T := by
  obtain ⟨found, hf, same, wf⟩ := C51_discovered hx w holds readable hn
  cases h with
  | discover h1 =>
    rw [hf] at h1; cases h1
    refine ⟨rfl, rfl, ?_, same⟩
    unfold Faithful
    rw [hd, hdb]
    exact same_db wf w same

/-! ### Defaults -/

namespace C51

theorem cast_ne (x : Text) (y : Text) : x ++ t "::" ++ y ≠ x := by
  intro e
  have := congrArg List.length e
  have h2 : (t "::").length = 2 := by decide +kernel
  simp only [List.length_append, h2] at this
  omega

theorem not_stampLike {e : Text} {c : Char} {rest : Text} (h : e = c :: rest) (hc : c ≠ '\'') : ¬ Pg.StampLike e := by
  rintro ⟨l, hl, rfl⟩
  unfold isTimestampLiteral at hl
  split at hl
  · simp only [Bool.and_eq_true, decide_eq_true_eq] at hl
    injection h with h1 _
    subst h1
    simp_all
  · exact absurd hl (by simp)

theorem literal_head (m : Moment) : ∃ rest, m.literal = '\'' :: rest := ⟨_, Expl.literal_chars m⟩

end C51

/-- **C51 (defaults).**  A constant default is read as it is exactly if it is a number without a sign, or a point in time without fractions of a second.
    Truth values (`TRUE`), negative numbers and texts are not. -/
theorem C51_default_exact {k : Pg.Const} (hp : k.Proper) : Pg.DefaultKept k.reported (constant k.python) ↔ k.Plain := by
  cases k with
  | bool b =>
    have e0 : constant (Pg.Const.bool b).python = if b then t "TRUE" else t "FALSE" := by rw [Pg.Const.python, constant]
    rw [e0]
    have h1 : (Pg.Const.bool b).reported ≠ if b then t "TRUE" else t "FALSE" := by cases b <;> decide +kernel
    have h2 : (if b then t "TRUE" else t "FALSE").head? ≠ some '\'' := by cases b <;> decide +kernel
    constructor
    · rintro (⟨e, _⟩ | ⟨m, e, _⟩)
      · exact absurd e h1
      · obtain ⟨rest, hm⟩ := C51.literal_head m
        rw [e, hm] at h2
        exact absurd rfl h2
    · exact False.elim
  | nat n =>
    have e0 : constant (Pg.Const.nat n).python = natStr n := by rw [Pg.Const.python, constant]
    rw [e0]
    refine ⟨fun _ => trivial, fun _ => .inl ⟨rfl, ?_⟩⟩
    cases hn : natStr n with
    | nil => exact absurd hn (natStr_ne_nil n)
    | cons c rest =>
      refine C51.not_stampLike rfl ?_
      rintro rfl
      have := natStr_chars (n := n) (c := '\'') (by rw [hn]; exact List.mem_cons_self)
      exact absurd this (by decide)
  | negative n type =>
    have e0 : constant (Pg.Const.negative n type).python = '-' :: natStr (n + 1) := by rw [Pg.Const.python, constant]
    rw [e0]
    constructor
    · rintro (⟨e, _⟩ | ⟨m, e, _⟩)
      · have : (Pg.Const.negative n type).reported.head? = some '\'' := rfl
        rw [e] at this
        exact absurd (Option.some.inj this) (by decide)
      · obtain ⟨rest, hm⟩ := C51.literal_head m
        rw [hm] at e
        injection e with e _
        exact absurd e (by decide)
    · exact False.elim
  | text s type =>
    have e0 : constant (Pg.Const.text s type).python = quote s := by rw [Pg.Const.python, constant]
    rw [e0]
    constructor
    · rintro (⟨e, _⟩ | ⟨m, e, e2⟩)
      · exact absurd e (C51.cast_ne _ _)
      · have e2 : quote s ++ t "::" ++ type = quote s ++ t "::timestamp without time zone" := e2
        rw [List.append_assoc] at e2
        have e3 := List.append_cancel_left e2
        have e4 : t "::timestamp without time zone" = t "::" ++ t "timestamp without time zone" := by decide +kernel
        rw [e4] at e3
        exact absurd (List.append_cancel_left e3) hp
    · exact False.elim
  | datetime iso =>
    have e0 : constant (Pg.Const.datetime iso).python = quote iso := by rw [Pg.Const.python, constant]
    rw [e0]
    constructor
    · rintro (⟨e, _⟩ | ⟨m, e, _⟩)
      · have e : quote iso ++ t "::timestamp without time zone" = quote iso := e
        have e4 : t "::timestamp without time zone" = t "::" ++ t "timestamp without time zone" := by decide +kernel
        rw [e4, ← List.append_assoc] at e
        exact absurd e (C51.cast_ne _ _)
      · exact ⟨m, e⟩
    · rintro ⟨m, e⟩
      exact .inr ⟨m, e, rfl⟩

/-- **C51 (a finding).**  A table with a default that is not read as it is is altered each time it is synchronized with what it already is. -/
theorem C51_default_never_settles {expr : SqlType → Text → Text} {s : PgServer} {n : Namespace} (w : NsWF .postgresql n) (h : Pg.Holds expr s n)
    {tb : Table} (ht : tb ∈ n.tables.items) {c : Column} (hc : c ∈ tb.columns.items) {d : Text} (hd : c.default = some d)
    (lost : ¬ Pg.DefaultKept (expr c.ty d) d) {found : Table} (hf : pgReadTable s n.name tb.name.localId = .ok found) :
    mutateTable .postgresql found tb ≠ .ok [] := by
  intro silent
  have wt := w.wf tb ht
  unfold pgReadTable at hf
  obtain ⟨desc, e1, hf⟩ := Conv.bind_ok.1 hf
  obtain ⟨cols, e2, hf⟩ := Conv.bind_ok.1 hf
  obtain ⟨⟨pk, cons⟩, e3, hf⟩ := Conv.bind_ok.1 hf
  have hf := Conv.pure_ok.1 hf
  have hnm : ∀ c ∈ tb.columns.items, ∀ r b, Pg.columnRow expr c = some r → pgReadColumn r = .ok b → b.name = c.name :=
    fun c _ r b e1 e2 => column_name e1 e2
  have hcn := read_names (nm := Column.name) (h.columns tb ht) hnm e2
  have hcd : (cols.map key).Nodup := by
    show (cols.map Column.name).Nodup
    rw [hcn]; exact wt.columns
  have hcols : found.columns.items = cols := by
    rw [← hf]; exact ODict.ofList_of_nodup _ hcd
  have hpk : found.primaryKey = tb.primaryKey := by
    rw [← hf]
    have : pk = ((s.constraints n.name tb.name.localId).filter (fun r => r.kind = 'p')).map PgConstraintRow.source := by
      unfold pgReadConstraints at e3
      obtain ⟨_, _, e3⟩ := Conv.bind_ok.1 e3
      have e3 := Conv.pure_ok.1 e3
      exact (congrArg Prod.fst e3).symm
    rw [this]
    exact h.primary tb ht
  have wf : TableWF .postgresql found := by
    refine ⟨by rw [← hf]; exact ODict.ofList_inv _, by rw [← hf]; exact ODict.ofList_inv _, by rw [hpk]; exact wt.key, ?_,
      fun e => (by cases e), fun e => (by cases e), fun e => (by cases e)⟩
    intro c' hc' x e
    rw [hcols] at hc'
    have : c'.name ∈ tb.columns.items.map Column.name := by rw [← hcn]; exact List.mem_map_of_mem hc'
    obtain ⟨c'', h1, h2⟩ := List.mem_map.1 this
    exact wt.names c'' h1 x (h2.trans e)
  have agree := C11.table_silent wf wt silent
  have gb : tb.columns.get c.name = some c := ODict.get_eq_of_mem wt.columns hc
  have ac := agree.columns c.name
  rw [gb] at ac
  cases hfc : found.columns.get c.name with
  | none => rw [hfc] at ac; exact ac
  | some b =>
    rw [hfc] at ac
    have ac : AgreeColumn b c := ac
    have hb := ODict.get_some_mem hfc
    rw [hcols] at hb
    obtain ⟨r, hr, hrb⟩ := Conv.mapM_back e2 b hb.1
    have : some r ∈ tb.columns.items.map (Pg.columnRow expr) := by rw [h.columns tb ht]; exact List.mem_map_of_mem hr
    obtain ⟨c', hc', hr'⟩ := List.mem_map.1 this
    have hname : c'.name = c.name := (column_name hr' hrb).symm.trans hb.2
    have e := inj_of_nodup (nm := Column.name) wt.columns c' hc' c hc hname
    subst e
    unfold Pg.columnRow at hr'
    obtain ⟨p, _, rfl⟩ := Option.map_eq_some_iff.1 hr'
    unfold pgReadColumn at hrb
    obtain ⟨ty, _, hrb⟩ := Conv.bind_ok.1 hrb
    obtain ⟨d', k2, hrb⟩ := Conv.bind_ok.1 hrb
    have hrb := Conv.pure_ok.1 hrb
    have kd : d' = some d := by
      have := ac.default
      rw [← hrb, hd] at this
      exact this
    subst kd
    dsimp only at k2
    rw [hd] at k2
    exact lost ((Expl.default_iff _ _).1 k2)

/-! ### A concrete case -/

namespace C51.Ex
open Example

def expr (_ : SqlType) (d : Text) : Text := if isTimestampLiteral d then Pg.stamped d else d

def moment : Moment := ⟨2024, 2, 29, 12, 34, 56, by decide⟩

def state : EnumType := ⟨q "app" "state", [t "open", t "it's closed"]⟩
def address : StructType := { name := q "app" "address", members := ⟨[{ name := t "city", ty := text, description := some (t "City.") }, { name := t "zip", ty := int4 }]⟩ }

def person : Table where
  name := q "app" "person"
  columns := ⟨[key0 "id", { col "name" text false with description := some (t "The name.") }, col "home" (.user (q "app" "address")),
    col "state" (.user (q "app" "state")) false, col "since" (.timestamp .base none false) false (some moment.literal),
    col "tags" (.array text) false, col "age" (.integer .base 2 true none none) false (some (t "18"))]⟩
  primaryKey := [t "id"]
  constraints := ⟨[.unique (t "uq_name") [t "name", t "age"]]⟩
  description := some (t "People.")

def pet : Table where
  name := q "app" "pet"
  columns := ⟨[key0 "id", col "owner" int8, col "owner_name" text, col "legs" (.integer .base 2 true (some 0) (some 8))]⟩
  primaryKey := [t "id"]
  constraints := ⟨[.foreign (t "fk_owner") [t "owner"] ⟨q "app" "person", [t "id"]⟩, .check (t "ch_legs") (t "(\"legs\" >= 0) AND (\"legs\" <= 8)")]⟩

def app : Namespace := { name := t "app", enums := ⟨[state]⟩, structs := ⟨[address]⟩, tables := ⟨[person, pet]⟩ }
/-- ... without the range and the condition. -/
def calm : Namespace := { app with tables := ⟨[person, Pg.bareTable pet]⟩ }

/-- What PostgreSQL answers.  The rows about constraints come in some order. -/
def srv : PgServer where
  enums _ := [(t "state", t "open"), (t "state", t "it's closed")]
  structs _ := [t "address"]
  tables _ := [t "pet", t "person"]
  structInfo _ _ := [none]
  members _ _ := address.members.items.filterMap Pg.memberRow
  tableInfo _ k := if k = t "person" then [some (t "People.")] else [none]
  columns _ k := if k = t "person" then person.columns.items.filterMap (Pg.columnRow expr) else pet.columns.items.filterMap (Pg.columnRow expr)
  constraints _ k :=
    if k = t "person" then [⟨'u', t "uq_name", t "name", none, [], []⟩, ⟨'p', t "person_pkey", t "id", none, [], []⟩, ⟨'u', t "uq_name", t "age", none, [], []⟩]
    else [⟨'f', t "fk_owner", t "owner", some (t "app"), t "person", t "id"⟩, ⟨'p', t "pet_pkey", t "id", none, [], []⟩]

theorem wf : NsWF .postgresql app := nsWFB_ok (by decide +kernel)
theorem calm_wf : NsWF .postgresql calm := nsWFB_ok (by decide +kernel)

theorem range_free : Pg.RangeFree expr := fun _ _ => rfl

theorem holds : Pg.Holds expr srv app := by
  refine ⟨⟨_, .refl _, by decide +kernel⟩, by decide +kernel, ?_, by decide +kernel, by decide +kernel, by decide +kernel, by decide +kernel, by decide +kernel,
    by decide +kernel, by decide +kernel⟩
  exact List.Perm.swap _ _ _

theorem calm_holds : Pg.Holds expr srv calm := by
  refine ⟨⟨_, .refl _, by decide +kernel⟩, by decide +kernel, ?_, by decide +kernel, by decide +kernel, by decide +kernel, by decide +kernel, by decide +kernel,
    by decide +kernel, by decide +kernel⟩
  exact List.Perm.swap _ _ _

theorem kept_user (id : String) (h : lowerText (t id) ∉ Pg.standardNames) : Pg.Kept (.user (q "app" id)) := ⟨h, fun e => absurd e.1 (by decide +kernel)⟩

theorem plain_default {d : Text} (h : isTimestampLiteral d = false) (h' : ¬ Pg.StampLike d) (ty : SqlType) : Pg.DefaultKept (expr ty d) d := by
  unfold expr; rw [h]; exact .inl ⟨rfl, h'⟩

theorem moment_default (ty : SqlType) : Pg.DefaultKept (expr ty moment.literal) moment.literal := by
  unfold expr; rw [Expl.literal_like]; exact .inr ⟨moment, rfl, rfl⟩

theorem readable : Pg.Readable expr (Pg.bare app) := by
  refine ⟨?_, ?_, ?_, fun _ => .inl (by decide +kernel)⟩
  · intro e he
    simp only [Pg.bare, app, List.mem_singleton] at he
    subst he
    exact ⟨⟨_, rfl⟩, by decide +kernel⟩
  · intro x hx
    simp only [Pg.bare, app, List.mem_singleton] at hx
    subst hx
    refine ⟨⟨_, rfl⟩, ?_, by decide +kernel⟩
    intro m hm
    simp only [address, List.mem_cons, List.not_mem_nil, or_false] at hm
    rcases hm with rfl | rfl
    · exact ⟨trivial, fun e h => (by cases h), by decide +kernel⟩
    · exact ⟨⟨rfl, rfl, rfl⟩, fun e h => (by cases h), by decide +kernel⟩
  · intro x hx
    simp only [Pg.bare, app, List.map_cons, List.map_nil, List.mem_cons, List.not_mem_nil, or_false] at hx
    have nodef : ∀ {P : Text → Prop} {c : Column}, c.default = none → ∀ d, c.default = some d → P d := by
      intro P c h d h'; rw [h] at h'; cases h'
    rcases hx with rfl | rfl
    · refine ⟨⟨_, rfl⟩, ?_, ?_, by decide +kernel⟩
      · intro c hc
        simp only [Pg.bareTable, person, List.map_cons, List.map_nil, List.mem_cons, List.not_mem_nil, or_false] at hc
        rcases hc with rfl | rfl | rfl | rfl | rfl | rfl | rfl
        · exact ⟨⟨rfl, rfl, rfl⟩, nodef rfl, by decide +kernel⟩
        · exact ⟨trivial, nodef rfl, by decide +kernel⟩
        · exact ⟨kept_user "address" (by decide +kernel), nodef rfl, by decide +kernel⟩
        · exact ⟨kept_user "state" (by decide +kernel), nodef rfl, by decide +kernel⟩
        · refine ⟨.inr rfl, ?_, by decide +kernel⟩
          intro d hd
          cases hd
          exact moment_default _
        · refine ⟨?_, nodef rfl, by decide +kernel⟩
          exact ⟨trivial, rfl⟩
        · refine ⟨⟨rfl, rfl, rfl⟩, ?_, by decide +kernel⟩
          intro d hd
          cases hd
          exact plain_default (by decide +kernel) (C51.not_stampLike (c := '1') (rest := ['8']) (by decide +kernel) (by decide)) _
      · intro c hc
        simp only [Pg.bareTable, person, List.filter_cons, Pg.visible, if_true, List.filter_nil, List.mem_singleton] at hc
        subst hc
        exact List.cons_ne_nil _ _
    · refine ⟨⟨_, rfl⟩, ?_, ?_, by decide +kernel⟩
      · intro c hc
        simp only [Pg.bareTable, pet, List.map_cons, List.map_nil, List.mem_cons, List.not_mem_nil, or_false] at hc
        rcases hc with rfl | rfl | rfl | rfl
        · exact ⟨⟨rfl, rfl, rfl⟩, nodef rfl, by decide +kernel⟩
        · exact ⟨⟨rfl, rfl, rfl⟩, nodef rfl, by decide +kernel⟩
        · exact ⟨trivial, nodef rfl, by decide +kernel⟩
        · exact ⟨⟨rfl, rfl, rfl⟩, nodef rfl, by decide +kernel⟩
      · intro c hc
        simp only [Pg.bareTable, pet, List.filter_cons, Pg.visible, if_true, List.filter_nil, List.mem_singleton] at hc
        have : c = .foreign (t "fk_owner") [t "owner"] ⟨q "app" "person", [t "id"]⟩ := by simpa using hc
        subst this
        exact ⟨List.cons_ne_nil _ _, rfl, _, _, rfl⟩

/-- The schema without the range is read as it is ... -/
example : ∃ found, pgReadNamespace srv (t "app") = .ok found ∧ SameNs found calm :=
  (C51_exactly_readable calm_wf calm_holds).2 readable

/-- ... and the one with the range is not. -/
example : ¬ ∃ found, pgReadNamespace srv (t "app") = .ok found ∧ SameNs found app := by
  intro h
  have r := (C51_exactly_readable wf holds).1 h
  exact (r.tables pet (.tail _ (.head _))).constraints (.check (t "ch_legs") _) (.tail _ (.head _))

def T : Catalog := ⟨⟨[app]⟩⟩
def T0 : Catalog := ⟨⟨[calm]⟩⟩
def v : Env := { topo := topo, dialect := .postgresql, engine := E, explore := fun _ k => pgReadNamespace srv k }

theorem names_ok (k : Text) : k ∈ [t "app"] ↔ ∃ n ∈ T.namespaces.items, n.name = k := by
  simp only [List.mem_singleton, T]
  constructor
  · rintro rfl; exact ⟨app, rfl, rfl⟩
  · rintro ⟨n, rfl, rfl⟩; rfl

theorem names_ok0 (k : Text) : k ∈ [t "app"] ↔ ∃ n ∈ T0.namespaces.items, n.name = k := by
  simp only [List.mem_singleton, T0]
  constructor
  · rintro rfl; exact ⟨calm, rfl, rfl⟩
  · rintro ⟨n, rfl, rfl⟩; rfl

/-- The database with the range, and whatever a call of `synchronize` with what it is does: it does not return. -/
example {atomic : Bool} {s' : Session} {o : Outcome} {s : Catalog}
    (h : Step v atomic ⟨s, Catalog.db .postgresql E T⟩ (.synchronize T [t "app"]) s' o) : s'.db = Catalog.db .postgresql E T ∧ o ≠ .returned := by
  have := C51_condition_added_again (v := v) topo_sorts rfl (srv := srv) (fun _ => rfl) range_free (T := T)
    ⟨List.nodup_cons.2 ⟨List.not_mem_nil, List.nodup_nil⟩, fun n hn => by rw [List.mem_singleton.1 hn]; exact wf⟩ rfl (fun n hn => by rw [List.mem_singleton.1 hn]; exact holds)
    (fun n hn => by rw [List.mem_singleton.1 hn]; exact readable) names_ok h
  exact ⟨this.1, this.2 ⟨app, .head _, pet, .tail _ (.head _), _, _, .tail _ (.head _)⟩⟩

/-- Without the range nothing happens. -/
example {atomic : Bool} {s s' : Session} {o : Outcome} (h : Step v atomic s (.synchronize T0 [t "app"]) s' o) : o ≠ .failed ∧ s'.db = s.db := by
  refine C51_settled (v := v) topo_sorts rfl (srv := srv) (fun _ => rfl) range_free (T := T0)
    ⟨List.nodup_cons.2 ⟨List.not_mem_nil, List.nodup_nil⟩, fun n hn => by rw [List.mem_singleton.1 hn]; exact calm_wf⟩ (fun n hn => by rw [List.mem_singleton.1 hn]; exact calm_holds)
    (fun n hn => by rw [List.mem_singleton.1 hn]; exact readable) ?_ names_ok0 h
  intro n hn
  rw [List.mem_singleton.1 hn]
  constructor
  · rintro ⟨tb, htb, name, cond, hc⟩
    have : ∀ tb ∈ calm.tables.items, ∀ c ∈ tb.constraints.items, Pg.visible c = true := by decide +kernel
    cases this tb htb _ hc
  · rintro ⟨tb, htb, c, hc, hne⟩
    have : ∀ tb ∈ calm.tables.items, ∀ c ∈ tb.columns.items, Pg.forget c.ty = c.ty := by decide +kernel
    exact hne (this tb htb c hc)

/-- A default that is reported with its type. -/
example : Pg.DefaultKept (Pg.Const.text (t "it's") (t "text")).reported (constant (Pg.Const.text (t "it's") (t "text")).python) ↔ False := C51_default_exact (k := .text (t "it's") (t "text")) (show t "text" ≠ t "timestamp without time zone" by decide +kernel)

end C51.Ex

end PySqlSync
