/-
C60 — `drop_schema` removes a namespace with all of its objects, and nothing else.
-/
import Verif.Spec.DropSchema
import Verif.Props.C17
import Verif.Props.C14

set_option autoImplicit false

namespace PySqlSync
open Spec

namespace C60

theorem refs_kind {db : Db} (hv : Valid db) {k : Key} {ts : TableState} (h : db.objs k = some (.table ts)) {n : Text} {cs rs : List Text} {tgt : Key}
    (hc : ts.cons n = some (.foreign cs tgt rs)) : ∃ ts', db.objs tgt = some (.table ts') ∧ ts'.pk = rs := by
  have hf := ((hv.fits k _ h).cons n _ hc).2
  simp only [Db.kinds] at hf
  cases ho : db.objs tgt with
  | none => rw [ho] at hf; simp at hf
  | some o =>
    rw [ho] at hf
    cases o with
    | table ts' => simp [Obj.kind] at hf; exact ⟨ts', rfl, hf⟩
    | enum _ => simp [Obj.kind] at hf
    | struct _ => simp [Obj.kind] at hf

/-! ### Cascades -/

theorem usesAny_false {P : Key → Bool} {ty : SqlType} (h : usesAny P ty = false) : ∀ k ∈ ty.refs, P k = false := by
  intro k hk
  simp only [usesAny, List.any_eq_false] at h
  simpa using h k hk

theorem rest_kind_type {db : Db} {P : Key → Bool} {k : Key} (hk : P k = false)
    (h : db.kinds k = some .enum ∨ db.kinds k = some .struct) : (db.cascade P).kinds k = some .enum ∨ (db.cascade P).kinds k = some .struct := by
  simp only [Db.kinds, Db.cascade, hk] at h ⊢
  cases ho : db.objs k with
  | none => rw [ho] at h; simp at h
  | some o =>
    rw [ho] at h
    cases o <;> simp [Obj.kind, Obj.rest] at h ⊢

theorem typeFits {db : Db} {P : Key → Bool} {ty : SqlType} (h : TypeFits db.kinds ty) (hu : usesAny P ty = false) :
    TypeFits (db.cascade P).kinds ty := fun k hk => rest_kind_type (usesAny_false hu k hk) (h k hk)

theorem cascade_valid {db : Db} (hv : Valid db) (P : Key → Bool) : Valid (db.cascade P) := by
  constructor
  · intro k o h
    simp only [Db.cascade] at h
    by_cases hk : P k = true
    · simp [hk] at h
    · simp only [hk] at h
      cases ho : db.objs k with
      | none => rw [ho] at h; simp at h
      | some o' => exact hv.schema k o' ho
  · intro k o h
    simp only [Db.cascade] at h
    by_cases hk : P k = true
    · simp [hk] at h
    simp only [hk] at h
    cases ho : db.objs k with
    | none => rw [ho] at h; simp at h
    | some o' =>
      rw [ho] at h
      simp at h
      subst h
      have hf := hv.fits k o' ho
      cases o' with
      | enum vs => trivial
      | struct attrs =>
        intro n ty hty
        simp only [Option.filter_eq_some_iff] at hty
        exact typeFits (hf n ty hty.1) (by simpa using hty.2)
      | table ts =>
        have hf : ts.Fits db.kinds := hf
        show TableState.Fits _ _
        constructor
        · intro n c hc
          simp only [Option.filter_eq_some_iff] at hc
          exact ⟨(hf.cols n c hc.1).1, typeFits (hf.cols n c hc.1).2 (by simpa using hc.2)⟩
        · intro n hn
          by_cases hg : ts.pk.any (ts.goes P) = true
          · simp [hg] at hn
          · simp only [hg] at hn
            obtain ⟨c, hc, hnull⟩ := hf.pk n hn
            refine ⟨c, ?_, hnull⟩
            simp only [Option.filter_eq_some_iff]
            refine ⟨hc, ?_⟩
            have : ts.goes P n = false := by
              simp only [Bool.not_eq_true, List.any_eq_false] at hg
              simpa using hg n hn
            simpa [TableState.goes, hc] using this
        · intro n c hc
          simp only [Option.filter_eq_some_iff] at hc
          obtain ⟨hc, hg⟩ := hc
          have h1 := hf.cons n c hc
          simp only [ConState.goes, Bool.not_eq_true', Bool.or_eq_false_iff] at hg
          constructor
          · intro m hm
            have h2 := h1.1 m hm
            have h3 : ts.goes P m = false := by
              have := hg.1
              simp only [List.any_eq_false] at this
              simpa using this m hm
            cases hcol : ts.cols m with
            | none => rw [hcol] at h2; simp at h2
            | some cc =>
              simp [TableState.goes, hcol] at h3
              simp [hcol, Option.filter, h3]
          · cases c with
            | unique _ => trivial
            | check _ _ => trivial
            | foreign cs tgt rs =>
              obtain ⟨ts', ht, hpk⟩ := refs_kind hv ho hc
              have h4 := hg.2
              simp only [Bool.or_eq_false_iff] at h4
              simp only [Db.losesKey, ht] at h4
              have h5 : (db.cascade P).objs tgt = some (Obj.rest db P (.table ts')) := by simp [Db.cascade, h4.1, ht]
              show Option.map Obj.kind ((db.cascade P).objs tgt) = _
              rw [h5]
              simp only [Option.map_some, Obj.rest, Obj.kind, h4.2]
              simp [hpk]
        · intro n m hm
          simp only [Option.filter_eq_some_iff] at hm
          obtain ⟨c, hc, hd⟩ := hf.dfs n m hm.1
          refine ⟨c, ?_, hd⟩
          simp only [Option.filter_eq_some_iff]
          refine ⟨hc, ?_⟩
          have := hm.2
          simpa [TableState.goes, hc] using this

theorem filter_self {α : Type} (o : Option α) (p : α → Bool) : o.filter p = o ↔ ∀ a, o = some a → p a = true := by
  cases o with
  | none => simp
  | some a => simp [Option.filter]

theorem rest_self {db : Db} (hv : Valid db) {P : Key → Bool} {k : Key} {o : Obj} (ho : db.objs k = some o)
    (h1 : ¬ db.RefersTo k P) (h2 : ¬ db.UsesType k P) (hl : ∀ k', P k' = false → db.losesKey P k' = false) : o.rest db P = o := by
  cases o with
  | enum vs => rfl
  | struct attrs =>
    simp only [Obj.rest, Obj.struct.injEq]
    funext n
    rw [filter_self]
    intro ty hty
    rw [Bool.not_eq_true', Bool.eq_false_iff]
    exact fun hu => h2 (Or.inr ⟨attrs, n, ty, ho, hty, hu⟩)
  | table ts =>
    have hcol : ∀ n c, ts.cols n = some c → usesAny P c.ty = false := by
      intro n c hc
      rw [Bool.eq_false_iff]
      exact fun hu => h2 (Or.inl ⟨ts, n, c, ho, hc, hu⟩)
    have hgo : ∀ n, ts.goes P n = false := by
      intro n
      cases hc : ts.cols n with
      | none => simp [TableState.goes, hc]
      | some c => simp [TableState.goes, hc, hcol n c hc]
    have hany : ∀ l : List Text, l.any (ts.goes P) = false := by
      intro l; simp [hgo]
    simp only [Obj.rest, Obj.table.injEq]
    cases ts with
    | mk cols pk cons dfs =>
    simp only [TableState.mk.injEq]
    refine ⟨?_, ?_, ?_, ?_⟩
    · funext n
      rw [filter_self]
      intro c hc
      simp [hcol n c hc]
    · simp [hany]
    · funext n
      rw [filter_self]
      intro c hc
      simp only [ConState.goes, hany, Bool.false_or, Bool.not_eq_true']
      cases c with
      | unique _ => rfl
      | check _ _ => rfl
      | foreign cs tgt rs =>
        have hp : P tgt = false := by
          rw [Bool.eq_false_iff]
          exact fun hp => h1 ⟨_, n, cs, tgt, rs, ho, hc, hp⟩
        simp [hp, hl tgt hp]
    · funext n
      rw [filter_self]
      intro m _
      simp [hgo]

theorem rest_ne {db : Db} {P : Key → Bool} {k : Key} {o : Obj} (ho : db.objs k = some o) (h : o.rest db P = o) :
    ¬ db.RefersTo k P ∧ ¬ db.UsesType k P := by
  constructor
  · rintro ⟨ts, n, cs, tgt, rs, ht, hc, hp⟩
    rw [ho] at ht
    cases ht
    simp only [Obj.rest, Obj.table.injEq] at h
    have := congrFun (congrArg TableState.cons h) n
    rw [filter_self] at this
    have := this _ hc
    simp [ConState.goes, hp] at this
  · rintro (⟨ts, n, c, ht, hc, hu⟩ | ⟨attrs, n, ty, ht, hc, hu⟩)
    · rw [ho] at ht
      cases ht
      simp only [Obj.rest, Obj.table.injEq] at h
      have := congrFun (congrArg TableState.cols h) n
      rw [filter_self] at this
      have := this _ hc
      simp [hu] at this
    · rw [ho] at ht
      cases ht
      simp only [Obj.rest, Obj.struct.injEq] at h
      have := congrFun h n
      rw [filter_self] at this
      have := this _ hc
      simp [hu] at this

theorem cascade_same {db : Db} (hv : Valid db) (P : Key → Bool) :
    (∀ k, P k = false → (db.cascade P).objs k = db.objs k) ↔ db.SelfContained P := by
  constructor
  · intro h k hk
    have := h k hk
    simp only [Db.cascade, hk] at this
    cases ho : db.objs k with
    | none =>
      constructor
      · rintro ⟨ts, _, _, _, _, ht, _⟩; rw [ho] at ht; cases ht
      · rintro (⟨ts, _, _, ht, _⟩ | ⟨_, _, _, ht, _⟩) <;> (rw [ho] at ht; cases ht)
    | some o =>
      rw [ho] at this
      exact rest_ne ho (by simpa using this)
  · intro h k hk
    simp only [Db.cascade, hk]
    cases ho : db.objs k with
    | none => rfl
    | some o =>
      simp only [Option.map_some, Bool.false_eq_true, if_false, Option.some.injEq]
      refine rest_self hv ho (h k hk).1 (h k hk).2 ?_
      intro k' hk'
      simp only [Db.losesKey]
      cases ho' : db.objs k' with
      | none => rfl
      | some o' =>
        cases o' with
        | enum _ => rfl
        | struct _ => rfl
        | table ts =>
          rw [Bool.eq_false_iff]
          intro ha
          obtain ⟨n, _, hg⟩ := List.any_eq_true.1 ha
          cases hc : ts.cols n with
          | none => simp [TableState.goes, hc] at hg
          | some c =>
            simp [TableState.goes, hc] at hg
            exact (h k' hk').2 (Or.inl ⟨ts, n, c, ho', hc, hg⟩)

/-- With the schemas replaced. -/
theorem valid_schema {db : Db} (hv : Valid db) {n : Text} (he : ∀ k, k.1 = n → db.objs k = none) :
    Valid { db with schemas := upd db.schemas n false } := by
  constructor
  · intro k o h
    simp only [upd]
    by_cases hk : k.1 = n
    · rw [he k hk] at h; cases h
    · simp [hk, hv.schema k o h]
  · intro k o h
    exact hv.fits k o h

theorem talks_run {srv : DropServer} {db db' : Db} {c : DropCmd} {next : Talk} (h : Talks srv db (.run c next) db') :
    ∃ db1, Does srv db c db1 ∧ Talks srv db1 next db' := by
  cases h with
  | run h1 h2 => exact ⟨_, h1, h2⟩

theorem talks_ask {srv : DropServer} {db db' : Db} {q : DropQuery} {next : List (Text × Text) → Talk} (h : Talks srv db (.ask q next) db') :
    ∃ rows, rows.Nodup ∧ Answered srv db rows q ∧ Talks srv db (next rows) db' := by
  cases h with
  | ask h1 h2 h3 => exact ⟨_, h1, h2, h3⟩

theorem talks_done {srv : DropServer} {db db' : Db} (h : Talks srv db .done db') : db' = db := by
  cases h; rfl

theorem missing_schema {db : Db} (hv : Valid db) {n : Text} (hn : db.schemas n = false) {k : Key} (hk : k.1 = n) : db.objs k = none := by
  cases ho : db.objs k with
  | none => rfl
  | some o =>
    have := hv.schema k o ho
    rw [hk, hn] at this; cases this

theorem missing_selfContained {db : Db} (hv : Valid db) {n : Text} (hn : db.schemas n = false) : db.SelfContained (fun k => k.1 = n) := by
  intro k _
  constructor
  · rintro ⟨ts, m, cs, tgt, rs, ht, hc, hp⟩
    obtain ⟨ts', h', _⟩ := refs_kind hv ht hc
    rw [missing_schema hv hn (by simpa using hp)] at h'; cases h'
  · have key : ∀ ty : SqlType, TypeFits db.kinds ty → usesAny (fun k => decide (k.1 = n)) ty = true → False := by
      intro ty hf hu
      obtain ⟨r, hr, hp⟩ := List.any_eq_true.1 hu
      have := hf r hr
      simp [Db.kinds, missing_schema hv hn (show r.1 = n by simpa using hp)] at this
    rintro (⟨ts, m, c, ht, hc, hu⟩ | ⟨attrs, m, ty, ht, hc, hu⟩)
    · exact key _ ((hv.fits k _ ht : ts.Fits _).cols m c hc).2 hu
    · exact key _ (hv.fits k _ ht m ty hc) hu

end C60

/-- **C60**, engines that drop schemas with everything in it. It is never refused; then there is no such schema, and none of its objects, all others are
    there, and nothing refers to anything that is missing. The others are as before exactly if none of them refers to an object of the schema. -/
theorem C60_cascading {e : Engine} (he : e = .postgresql ∨ e = .redshift ∨ e = .delta) {srv : DropServer} (hs : IsServer e srv) {ns : Text} (hns : ns ≠ [])
    {db : Db} (hv : Valid db) :
    (∃ db', Talks srv db (e.dropSchema ns) db') ∧
    ∀ db', Talks srv db (e.dropSchema ns) db' →
      Valid db' ∧ db'.schemas = upd db.schemas ns false ∧ (∀ k, inNamespace e ns k = true → db'.objs k = none) ∧
      (∀ k, inNamespace e ns k = false → (db'.objs k).isSome = (db.objs k).isSome) ∧
      ((∀ k, inNamespace e ns k = false → db'.objs k = db.objs k) ↔ db.SelfContained (inNamespace e ns)) := by
  have hp : e.dropSchema ns = .run (.dropSchema ns true true) .done := by
    rcases he with rfl | rfl | rfl <;> simp [Engine.dropSchema, hns]
  have hi : inNamespace e ns = fun k => decide (k.1 = ns) := by
    rcases he with rfl | rfl | rfl <;> rfl
  have ha : srv.always = false := by
    have := hs.always
    rcases he with rfl | rfl | rfl <;> simpa using this
  rw [hp, hi]
  constructor
  · cases hsch : db.schemas ns with
    | true => exact ⟨_, .run (.dropCascade (Or.inl rfl) hsch) (.done _)⟩
    | false => exact ⟨_, .run (.dropMissing hsch) (.done _)⟩
  · intro db' h
    obtain ⟨db1, h1, h2⟩ := C60.talks_run h
    cases C60.talks_done h2
    cases h1 with
    | dropMissing hn =>
      refine ⟨hv, ?_, ?_, fun _ _ => rfl, fun _ => C60.missing_selfContained hv hn, fun _ _ _ => rfl⟩
      · funext x
        simp only [upd]
        split
        · rename_i hx; rw [hx, hn]
        · rfl
      · intro k hk
        exact C60.missing_schema hv hn (by simpa using hk)
    | dropCascade _ hn =>
      refine ⟨?_, rfl, ?_, ?_, ?_⟩
      · have := C60.valid_schema (C60.cascade_valid hv (fun k => decide (k.1 = ns))) (n := ns) (by
          intro k hk; simp [Db.cascade, hk])
        exact this
      · intro k hk
        simp only [Db.cascade]
        rw [if_pos hk]
      · intro k hk
        simp only [Db.cascade]
        rw [if_neg (by simp [hk])]
        cases db.objs k <;> rfl
      · exact C60.cascade_same hv (fun k => decide (k.1 = ns))

/-- Trino (where schemas are dropped as in the standard): it is refused unless the schema is there and empty. -/
theorem C60_trino_exact {srv : DropServer} (hs : IsServer .trino srv) {ns : Text} (hns : ns ≠ []) {db : Db} :
    ((∃ db', Talks srv db (Engine.trino.dropSchema ns) db') ↔ db.schemas ns = true ∧ ∀ k, k.1 = ns → db.objs k = none) ∧
    ∀ db', Talks srv db (Engine.trino.dropSchema ns) db' → db' = { db with schemas := upd db.schemas ns false } := by
  have hp : Engine.trino.dropSchema ns = .run (.dropSchema ns false false) .done := by simp [Engine.dropSchema, hns]
  have ha : srv.always = false := by simpa using hs.always
  rw [hp]
  have key : ∀ db', Talks srv db (.run (.dropSchema ns false false) .done) db' →
      (db.schemas ns = true ∧ ∀ k, k.1 = ns → db.objs k = none) ∧ db' = { db with schemas := upd db.schemas ns false } := by
    intro db' h
    obtain ⟨db1, h1, h2⟩ := C60.talks_run h
    cases C60.talks_done h2
    cases h1 with
    | dropEmpty _ h3 h4 => exact ⟨⟨h3, h4⟩, rfl⟩
    | dropCascade h3 _ => simp [ha] at h3
  refine ⟨⟨fun ⟨db', h⟩ => (key db' h).1, fun ⟨h1, h2⟩ => ⟨_, .run (.dropEmpty ha h1 h2) (.done _)⟩⟩, fun db' h => (key db' h).2⟩

namespace C60

/-! ### Rows of queries -/

theorem dedup {α : Type} (l : List α) : ∃ l' : List α, l'.Nodup ∧ ∀ a, a ∈ l' ↔ a ∈ l := by
  induction l with
  | nil => exact ⟨[], .nil, fun _ => Iff.rfl⟩
  | cons a l ih =>
    obtain ⟨l', hn, hm⟩ := ih
    by_cases h : a ∈ l'
    · refine ⟨l', hn, fun b => ?_⟩
      rw [hm, List.mem_cons]
      exact ⟨Or.inr, fun hb => hb.elim (fun e => e ▸ (hm a).1 h) id⟩
    · exact ⟨a :: l', List.nodup_cons.2 ⟨h, hn⟩, fun b => by simp [hm]⟩

open Classical in
theorem rows_exist {α : Type} (Q : α → Prop) (l : List α) (h : ∀ a, Q a → a ∈ l) : ∃ rows : List α, rows.Nodup ∧ ∀ a, a ∈ rows ↔ Q a := by
  obtain ⟨l', hn, hm⟩ := dedup (l.filter (fun a => decide (Q a)))
  refine ⟨l', hn, fun a => ?_⟩
  rw [hm, List.mem_filter]
  simp only [decide_eq_true_eq]
  exact ⟨fun x => x.2, fun x => ⟨h a x, x⟩⟩

theorem nodup_map_ne {α β : Type} {f : α → β} {l : List α} (h : (l.map f).Nodup) {a b : α} (ha : a ∈ l) (hb : b ∈ l) (hne : a ≠ b) : f a ≠ f b := by
  induction l with
  | nil => cases ha
  | cons x l ih =>
    rw [List.map_cons, List.nodup_cons] at h
    rcases List.mem_cons.1 ha with rfl | ha' <;> rcases List.mem_cons.1 hb with rfl | hb'
    · exact absurd rfl hne
    · exact fun e => h.1 (e ▸ List.mem_map.2 ⟨b, hb', rfl⟩)
    · exact fun e => h.1 (e ▸ List.mem_map.2 ⟨a, ha', rfl⟩)
    · exact ih h.2 ha' hb'

theorem isTable_some {db : Db} {k : Key} (h : db.isTable k = true) : ∃ ts, db.objs k = some (.table ts) := by
  unfold Db.isTable at h
  split at h
  · exact ⟨_, by assumption⟩
  · cases h

theorem isTable_of {db : Db} {k : Key} {ts : TableState} (h : db.objs k = some (.table ts)) : db.isTable k = true := by
  simp [Db.isTable, h]

theorem only_none {db : Db} (ho : db.OnlyTables) {k : Key} (h : db.isTable k = false) : db.objs k = none := by
  cases hk : db.objs k with
  | none => rfl
  | some o => rw [ho k o hk] at h; cases h

theorem no_types {db : Db} (hv : Valid db) (ho : db.OnlyTables) {ty : SqlType} (h : TypeFits db.kinds ty) (P : Key → Bool) : usesAny P ty = false := by
  rw [usesAny, List.any_eq_false]
  intro k hk
  exfalso
  have := h k hk
  simp only [Db.kinds] at this
  cases hob : db.objs k with
  | none => rw [hob] at this; simp at this
  | some o =>
    obtain ⟨ts, hts⟩ := isTable_some (ho k o hob)
    rw [hts] at this
    simp [Obj.kind] at this

theorem no_uses {db : Db} (hv : Valid db) (ho : db.OnlyTables) (P : Key → Bool) (k : Key) : ¬ db.UsesType k P := by
  rintro (⟨ts, n, c, ht, hc, hu⟩ | ⟨attrs, n, ty, ht, hc, hu⟩)
  · rw [no_types hv ho ((hv.fits k _ ht : ts.Fits _).cols n c hc).2 P] at hu; cases hu
  · rw [no_types hv ho (hv.fits k _ ht n ty hc) P] at hu; cases hu

theorem selfContained_iff {db : Db} (hv : Valid db) (ho : db.OnlyTables) (P : Key → Bool) :
    db.SelfContained P ↔ ∀ k, P k = false → ¬ db.RefersTo k P :=
  ⟨fun h k hk => (h k hk).1, fun h k hk => ⟨h k hk, no_uses hv ho P k⟩⟩

theorem finite_tables {db : Db} (hf : db.Finite) (scope : Text) (extra : List Key) :
    ∃ l : List (Text × Text), ∀ n, db.isTable (scope, n) = true ∨ (scope, n) ∈ extra → (n, ([] : Text)) ∈ l := by
  obtain ⟨keys, _, hk, _⟩ := hf
  refine ⟨(keys ++ extra).map (fun k => (k.2, [])), ?_⟩
  intro n h
  rw [List.mem_map]
  refine ⟨(scope, n), ?_, rfl⟩
  rcases h with h | h
  · obtain ⟨ts, ht⟩ := isTable_some h
    exact List.mem_append_left _ (hk _ _ ht)
  · exact List.mem_append_right _ h

theorem inPrefix {e : Engine} (he : e = .mysql ∨ e = .oracle) {ns : Text} {k : Key} :
    inNamespace e ns k = true ↔ k.1 = [] ∧ (ns ++ "__".toList) <+: k.2 := by
  have : inNamespace e ns k = (k.1 = [] && (ns ++ t "__").isPrefixOf k.2) := by rcases he with rfl | rfl <;> rfl
  rw [this]
  simp only [Bool.and_eq_true, decide_eq_true_eq, List.isPrefixOf_iff_prefix]

end C60

/-- MySQL (where a namespace is a prefix of names): it is refused exactly if a table outside of the namespace refers to one inside; otherwise the tables of
    the namespace are gone, and everything else is as before. -/
theorem C60_mysql_exact {srv : DropServer} (hs : IsServer .mysql srv) {ns : Text} (hb : '\\' ∉ ns) {db : Db} (hv : Valid db) (hf : db.Finite)
    (ho : db.OnlyTables) :
    ((∃ db', Talks srv db (Engine.mysql.dropSchema ns) db') ↔ db.SelfContained (inNamespace .mysql ns)) ∧
    ∀ db', Talks srv db (Engine.mysql.dropSchema ns) db' → db' = db.without (inNamespace .mysql ns) := by
  rw [C60.selfContained_iff hv ho]
  obtain ⟨pat, hread, hpat⟩ := C17_mysql_plain ns (t " ESCAPE '~';") hb (by decide)
  have hr : srv.read = readMySQL := by simpa using hs.read
  have hin : ∀ k, inNamespace .mysql ns k = true ↔ k.1 = [] ∧ (ns ++ "__".toList) <+: k.2 := fun k => C60.inPrefix (Or.inl rfl)
  -- what the query returns
  have hrows : ∀ rows, Answered srv db rows (.tablesLike (dropSchemaPattern ns)) ↔
      ∀ r, r ∈ rows ↔ r.2 = [] ∧ (ns ++ "__".toList) <+: r.1 ∧ (db.isTable ([], r.1) = true ∨ ([], r.1) ∈ srv.views) := by
    intro rows
    simp only [Answered, hr]
    constructor
    · rintro ⟨p, h1, h2⟩
      rw [hread] at h1
      cases h1
      intro r
      rw [h2 r, hpat]
    · intro h
      refine ⟨pat, hread, fun r => ?_⟩
      rw [h r, hpat]
  -- what follows
  have hcase : ∀ rows, Answered srv db rows (.tablesLike (dropSchemaPattern ns)) →
      (rows = [] → (∀ k, inNamespace .mysql ns k = true → db.objs k = none)) ∧
      ∀ k, ((rows.map (fun r => (([] : Text), r.1))).contains k && db.isTable k) = (inNamespace .mysql ns k && db.isTable k) := by
    intro rows h
    rw [hrows] at h
    constructor
    · rintro rfl k hk
      refine C60.only_none ho ?_
      rw [Bool.eq_false_iff]
      intro ht
      have hk' := (hin k).1 hk
      have := (h (k.2, [])).2 ⟨rfl, hk'.2, Or.inl (by rw [← hk'.1]; exact ht)⟩
      cases this
    · intro k
      cases ht : db.isTable k with
      | false => simp
      | true =>
        simp only [Bool.and_true]
        rw [Bool.eq_iff_iff, hin k, List.contains_iff_mem, List.mem_map]
        constructor
        · rintro ⟨r, hr1, rfl⟩
          exact ⟨rfl, ((h r).1 hr1).2.1⟩
        · rintro ⟨h1, h2⟩
          refine ⟨(k.2, []), (h _).2 ⟨rfl, h2, Or.inl (by rw [← h1]; exact ht)⟩, ?_⟩
          rw [← h1]
  have hwo : ∀ P : Key → Bool, (∀ k, (P k && db.isTable k) = (inNamespace .mysql ns k && db.isTable k)) →
      db.without (fun k => P k && db.isTable k) = db.without (inNamespace .mysql ns) := by
    intro P hP
    simp only [Db.without]
    congr 1
    funext k
    have hPk := hP k
    by_cases ht : db.isTable k = true
    · simp only [ht, Bool.and_true] at hPk; simp [hPk, ht]
    · simp [C60.only_none ho (by simpa using ht)]
  have hwn : (∀ k, inNamespace .mysql ns k = true → db.objs k = none) → db = db.without (inNamespace .mysql ns) := by
    intro h
    show db = { schemas := db.schemas, objs := _ }
    cases db with
    | mk sch objs =>
    simp only [Db.mk.injEq, true_and]
    funext k
    split
    · rename_i hk; exact h k hk
    · rfl
  have hiff : ∀ ks : List Key, (∀ k, (ks.contains k && db.isTable k) = (inNamespace .mysql ns k && db.isTable k)) →
      ((∀ k', ¬ (k' ∈ ks ∧ db.isTable k' = true) → ¬ db.RefersTo k' (fun k => ks.contains k)) ↔
        ∀ k, inNamespace .mysql ns k = false → ¬ db.RefersTo k (inNamespace .mysql ns)) := by
    intro ks hP
    constructor
    · rintro h k hk ⟨ts, n, cs, tgt, rs, ht, hc, hp⟩
      have hk2 := hP k
      simp only [hk, C60.isTable_of ht, Bool.and_true] at hk2
      refine h k (fun hx => ?_) ⟨ts, n, cs, tgt, rs, ht, hc, ?_⟩
      · rw [← List.contains_iff_mem, hk2] at hx; cases hx.1
      · obtain ⟨ts', ht', _⟩ := C60.refs_kind hv ht hc
        have := hP tgt
        simp only [C60.isTable_of ht', Bool.and_true] at this
        show ks.contains tgt = true
        rw [this]; exact hp
    · rintro h k hk ⟨ts, n, cs, tgt, rs, ht, hc, hp⟩
      have hk2 := hP k
      simp only [C60.isTable_of ht, Bool.and_true] at hk2
      refine h k ?_ ⟨ts, n, cs, tgt, rs, ht, hc, ?_⟩
      · rw [← hk2, Bool.eq_false_iff]
        intro hx
        exact hk ⟨List.contains_iff_mem.1 hx, C60.isTable_of ht⟩
      · obtain ⟨ts', ht', _⟩ := C60.refs_kind hv ht hc
        have := hP tgt
        simp only [C60.isTable_of ht', Bool.and_true] at this
        rw [← this]; exact hp
  have key : ∀ db', Talks srv db (Engine.mysql.dropSchema ns) db' →
      (∀ k, inNamespace .mysql ns k = false → ¬ db.RefersTo k (inNamespace .mysql ns)) ∧ db' = db.without (inNamespace .mysql ns) := by
    intro db' h
    obtain ⟨rows, _, ha, h⟩ := C60.talks_ask h
    obtain ⟨h1, h2⟩ := hcase rows ha
    by_cases he : rows = []
    · simp only [he, if_true] at h
      cases C60.talks_done h
      refine ⟨?_, hwn (h1 he)⟩
      rintro k _ ⟨ts, n, cs, tgt, rs, ht, hc, hp⟩
      obtain ⟨ts', ht', _⟩ := C60.refs_kind hv ht hc
      rw [h1 he tgt hp] at ht'; cases ht'
    · simp only [he, if_false] at h
      obtain ⟨db1, h3, h4⟩ := C60.talks_run h
      cases C60.talks_done h4
      cases h3 with
      | dropAtOnce _ h5 => exact ⟨(hiff _ h2).1 h5, hwo _ h2⟩
      | dropEach h5 _ => rw [hs.atOnce.2 rfl] at h5; cases h5
  refine ⟨⟨fun ⟨db', h⟩ => (key db' h).1, fun h => ?_⟩, fun db' h => (key db' h).2⟩
  obtain ⟨l, hl⟩ := C60.finite_tables hf [] srv.views
  obtain ⟨rows, hn, hm⟩ := C60.rows_exist (fun r : Text × Text => r.2 = [] ∧ (ns ++ "__".toList) <+: r.1 ∧ (db.isTable ([], r.1) = true ∨ ([], r.1) ∈ srv.views))
    l (by
      rintro ⟨a, b⟩ ⟨hb, _, h⟩
      simp only at hb h
      subst hb
      exact hl a h)
  have ha := (hrows rows).2 hm
  obtain ⟨h1, h2⟩ := hcase rows ha
  by_cases he : rows = []
  · exact ⟨db, .ask hn ha (by simp only [he, if_true]; exact .done db)⟩
  · exact ⟨_, .ask hn ha (by simp only [he, if_false]; exact .run (.dropAtOnce (hs.atOnce.2 rfl) ((hiff _ h2).2 h)) (.done _))⟩

namespace C60

/-! ### Oracle -/

/-- Foreign keys to a set of tables removed. -/
def cutFks (P : Key → Bool) : Obj → Obj
  | .table ts => .table { ts with cons := fun n => (ts.cons n).filter (fun c => match c with | .foreign _ k _ => !P k | _ => true) }
  | o => o

theorem cascade_objs {db : Db} (hv : Valid db) (ho : db.OnlyTables) (P : Key → Bool) (k : Key) :
    (db.cascade P).objs k = if P k then none else (db.objs k).map (cutFks P) := by
  simp only [Db.cascade]
  split
  · rfl
  · cases hk : db.objs k with
    | none => rfl
    | some o =>
      obtain ⟨ts, ht⟩ := isTable_some (ho k o hk)
      rw [hk] at ht
      cases ht
      have hfit : ts.Fits db.kinds := hv.fits k _ hk
      have hcol : ∀ n c, ts.cols n = some c → usesAny P c.ty = false := fun n c hc => no_types hv ho (hfit.cols n c hc).2 P
      have hgo : ∀ n, ts.goes P n = false := by
        intro n
        cases hc : ts.cols n with
        | none => simp [TableState.goes, hc]
        | some c => simp [TableState.goes, hc, hcol n c hc]
      have hany : ∀ l : List Text, l.any (ts.goes P) = false := by
        intro l; simp [hgo]
      have hl : ∀ k', db.losesKey P k' = false := by
        intro k'
        simp only [Db.losesKey]
        cases ho' : db.objs k' with
        | none => rfl
        | some o' =>
          obtain ⟨ts', ht'⟩ := isTable_some (ho k' o' ho')
          rw [ho'] at ht'
          cases ht'
          rw [List.any_eq_false]
          intro n _
          cases hc : ts'.cols n with
          | none => simp [TableState.goes, hc]
          | some c => simp [TableState.goes, hc, no_types hv ho ((hv.fits k' _ ho' : ts'.Fits _).cols n c hc).2 P]
      simp only [Option.map_some, Obj.rest, cutFks, Option.some.injEq, Obj.table.injEq]
      congr 1
      · funext n
        rw [filter_self]
        intro c hc
        simp [hcol n c hc]
      · simp [hany]
      · funext n
        congr 1
        funext c
        simp only [ConState.goes, hany, Bool.false_or]
        cases c <;> simp [hl]
      · funext n
        rw [filter_self]
        intro m _
        simp [hgo]

theorem cascade_only {db : Db} (ho : db.OnlyTables) (P : Key → Bool) : (db.cascade P).OnlyTables := by
  intro k o h
  simp only [Db.cascade] at h
  split at h
  · cases h
  · rename_i hk
    cases hob : db.objs k with
    | none => rw [hob] at h; simp at h
    | some o' =>
      obtain ⟨ts, ht⟩ := isTable_some (ho k o' hob)
      simp [Db.isTable, Db.cascade, hk, ht, Obj.rest]

theorem cascade_isTable {db : Db} (P : Key → Bool) (k : Key) : (db.cascade P).isTable k = (!P k && db.isTable k) := by
  simp only [Db.isTable, Db.cascade]
  cases hk : P k with
  | true => simp
  | false =>
    cases db.objs k with
    | none => rfl
    | some o => cases o <;> rfl

theorem cut_cut (P Q : Key → Bool) (o : Obj) : cutFks Q (cutFks P o) = cutFks (fun k => P k || Q k) o := by
  cases o with
  | table ts =>
    simp only [cutFks, Obj.table.injEq]
    congr 1
    funext n
    cases ts.cons n with
    | none => rfl
    | some c =>
      cases c with
      | foreign _ k _ => cases hp : P k <;> cases hq : Q k <;> simp [Option.filter, hp, hq]
      | unique _ => simp [Option.filter]
      | check _ _ => simp [Option.filter]
  | enum _ => rfl
  | struct _ => rfl

theorem cascade_cascade {db : Db} (hv : Valid db) (ho : db.OnlyTables) (P Q : Key → Bool) :
    (db.cascade P).cascade Q = db.cascade (fun k => P k || Q k) := by
  have : ((db.cascade P).cascade Q).objs = (db.cascade (fun k => P k || Q k)).objs := by
    funext k
    rw [cascade_objs (cascade_valid hv P) (cascade_only ho P), cascade_objs hv ho, cascade_objs hv ho]
    cases hp : P k <;> cases hq : Q k <;> simp
    congr 1
    funext o
    exact cut_cut P Q o
  show Db.mk db.schemas _ = Db.mk db.schemas _
  exact congrArg _ this

theorem cascade_congr {db : Db} (hv : Valid db) (ho : db.OnlyTables) {P Q : Key → Bool} (h : ∀ k, db.isTable k = true → P k = Q k) :
    db.cascade P = db.cascade Q := by
  have : (db.cascade P).objs = (db.cascade Q).objs := by
    funext k
    rw [cascade_objs hv ho, cascade_objs hv ho]
    cases hk : db.objs k with
    | none => simp
    | some o =>
      obtain ⟨ts, ht⟩ := isTable_some (ho k o hk)
      rw [hk] at ht
      cases ht
      rw [h k (isTable_of hk)]
      split
      · rfl
      · simp only [Option.map_some, cutFks, Option.some.injEq, Obj.table.injEq]
        congr 1
        funext n
        cases hc : ts.cons n with
        | none => rfl
        | some c =>
          cases c with
          | foreign cs tgt rs =>
            obtain ⟨ts', ht', _⟩ := refs_kind hv hk hc
            simp [Option.filter, h tgt (isTable_of ht')]
          | unique _ => rfl
          | check _ _ => rfl
  show Db.mk db.schemas _ = Db.mk db.schemas _
  exact congrArg _ this

theorem cascade_none {db : Db} (hv : Valid db) : db.cascade (fun _ => false) = db := by
  have h := (cascade_same hv (fun _ => false)).2 (by
    intro k _
    constructor
    · rintro ⟨_, _, _, _, _, _, _, hp⟩; cases hp
    · rintro (⟨_, _, c, _, _, hu⟩ | ⟨_, _, ty, _, _, hu⟩) <;> simp [usesAny] at hu)
  show Db.mk db.schemas _ = Db.mk db.schemas db.objs
  congr 1
  funext k
  exact h k rfl

theorem drops_cascade {srv : DropServer} (ks : List Key) {db db' : Db} (hv : Valid db) (ho : db.OnlyTables) :
    Talks srv db (Talk.runAll (ks.map DropCmd.dropTableCascade) .done) db' ↔
      ks.Nodup ∧ (∀ k ∈ ks, db.isTable k = true) ∧ db' = db.cascade (fun k => ks.contains k) := by
  induction ks generalizing db with
  | nil =>
    constructor
    · intro h
      cases talks_done h
      exact ⟨.nil, by simp, by simpa using (cascade_none hv).symm⟩
    · rintro ⟨_, _, rfl⟩
      have : db.cascade (fun k => ([] : List Key).contains k) = db := by simpa using cascade_none hv
      rw [this]
      exact .done db
  | cons k ks ih =>
    have ih := @ih (db.cascade (fun x => x = k)) (cascade_valid hv _) (cascade_only ho _)
    have hcc : (db.cascade (fun x => x = k)).cascade (fun x => ks.contains x) = db.cascade (fun x => (k :: ks).contains x) := by
      rw [cascade_cascade hv ho]
      congr 1
      funext x
      by_cases hx : x = k <;> simp [hx]
    constructor
    · intro h
      obtain ⟨db1, h1, h2⟩ := talks_run h
      cases h1 with
      | dropTableCascade ht =>
        obtain ⟨h3, h4, h5⟩ := ih.1 h2
        refine ⟨List.nodup_cons.2 ⟨fun hk => ?_, h3⟩, ?_, by rw [h5, hcc]⟩
        · have := h4 k hk
          rw [cascade_isTable] at this
          simp at this
        · intro x hx
          rcases List.mem_cons.1 hx with rfl | hx
          · exact ht
          · have := h4 x hx
            rw [cascade_isTable] at this
            simp at this
            exact this.2
    · rintro ⟨h1, h2, rfl⟩
      rw [List.nodup_cons] at h1
      refine .run (.dropTableCascade (h2 k (by simp))) (ih.2 ⟨h1.2, ?_, hcc.symm⟩)
      intro x hx
      rw [cascade_isTable, h2 x (by simp [hx])]
      have : x ≠ k := fun e => h1.1 (e ▸ hx)
      simp [this]

end C60

/-- Oracle: tables of all users are looked up, so it is refused exactly if another user has a table with the prefix. Otherwise the tables of the namespace are
    gone, all others are there, and they are as before exactly if none of them refers to a table of the namespace. -/
theorem C60_oracle_exact {srv : DropServer} (hs : IsServer .oracle srv) {ns : Text} {db : Db} (hv : Valid db) (hf : db.Finite) (ho : db.OnlyTables) :
    ((∃ db', Talks srv db (Engine.oracle.dropSchema ns) db') ↔ ∀ r ∈ srv.foreign, ¬ (ns ++ t "__") <+: r.1) ∧
    ∀ db', Talks srv db (Engine.oracle.dropSchema ns) db' →
      Valid db' ∧ db'.schemas = db.schemas ∧ (∀ k, inNamespace .oracle ns k = true → db'.objs k = none) ∧
      (∀ k, inNamespace .oracle ns k = false → (db'.objs k).isSome = (db.objs k).isSome) ∧
      ((∀ k, inNamespace .oracle ns k = false → db'.objs k = db.objs k) ↔ db.SelfContained (inNamespace .oracle ns)) := by
  obtain ⟨pat, hread, hpat⟩ := C17_drop_schema_matches_prefix ns (t " ESCAPE '~'") (by decide)
  have hr : srv.read = readString := by simpa using hs.read
  have hin : ∀ k, inNamespace .oracle ns k = true ↔ k.1 = [] ∧ (ns ++ "__".toList) <+: k.2 := fun k => C60.inPrefix (Or.inr rfl)
  have hrows : ∀ rows, Answered srv db rows (.allTablesLike (dropSchemaPattern ns)) ↔
      ∀ r, r ∈ rows ↔ (ns ++ "__".toList) <+: r.1 ∧ ((r.2 = srv.me ∧ db.isTable ([], r.1) = true) ∨ r ∈ srv.foreign) := by
    intro rows
    simp only [Answered, hr]
    constructor
    · rintro ⟨p, h1, h2⟩
      rw [hread] at h1
      cases h1
      intro r
      rw [h2 r, hpat]
    · intro h
      refine ⟨pat, hread, fun r => ?_⟩
      rw [h r, hpat]
  have hmap : ∀ rows : List (Text × Text), rows.map (fun r => DropCmd.dropTableCascade (([] : Text), r.1)) =
      (rows.map (fun r => (([] : Text), r.1))).map DropCmd.dropTableCascade := by
    intro rows; rw [List.map_map]; rfl
  have key : ∀ db', Talks srv db (Engine.oracle.dropSchema ns) db' →
      (∀ r ∈ srv.foreign, ¬ (ns ++ t "__") <+: r.1) ∧ db' = db.cascade (inNamespace .oracle ns) := by
    intro db' h
    obtain ⟨rows, hn, ha, h⟩ := C60.talks_ask h
    rw [hrows] at ha
    rw [hmap, C60.drops_cascade _ hv ho] at h
    obtain ⟨h1, h2, rfl⟩ := h
    constructor
    · intro r hr1 hp
      have hmem := (ha r).2 ⟨hp, Or.inr hr1⟩
      have ht := h2 ([], r.1) (List.mem_map.2 ⟨r, hmem, rfl⟩)
      have hmem' := (ha (r.1, srv.me)).2 ⟨hp, Or.inl ⟨rfl, ht⟩⟩
      have hne : r ≠ (r.1, srv.me) := fun e => hs.foreign r hr1 (congrArg Prod.snd e)
      exact C60.nodup_map_ne h1 hmem hmem' hne rfl
    · apply C60.cascade_congr hv ho
      intro k ht
      rw [Bool.eq_iff_iff, hin k, List.contains_iff_mem, List.mem_map]
      constructor
      · rintro ⟨r, hr1, rfl⟩
        exact ⟨rfl, ((ha r).1 hr1).1⟩
      · rintro ⟨h3, h4⟩
        refine ⟨(k.2, srv.me), (ha _).2 ⟨h4, Or.inl ⟨rfl, by rw [← h3]; exact ht⟩⟩, ?_⟩
        rw [← h3]
  constructor
  · refine ⟨fun ⟨db', h⟩ => (key db' h).1, fun h => ?_⟩
    obtain ⟨l, hl⟩ := C60.finite_tables hf [] []
    obtain ⟨rows, hn, hm⟩ := C60.rows_exist (fun r : Text × Text => (ns ++ "__".toList) <+: r.1 ∧ ((r.2 = srv.me ∧ db.isTable ([], r.1) = true) ∨ r ∈ srv.foreign))
      (l.map (fun r => (r.1, srv.me)) ++ srv.foreign) (by
        rintro ⟨a, b⟩ ⟨_, ⟨hb, h1⟩ | h1⟩
        · simp only at hb h1
          subst hb
          exact List.mem_append_left _ (List.mem_map.2 ⟨(a, []), hl a (Or.inl h1), rfl⟩)
        · exact List.mem_append_right _ h1)
    have hown : ∀ r ∈ rows, r.2 = srv.me ∧ db.isTable ([], r.1) = true := by
      intro r hr1
      obtain ⟨hp, h1 | h1⟩ := (hm r).1 hr1
      · exact h1
      · exact absurd hp (h r h1)
    refine ⟨db.cascade (fun k => (rows.map (fun r => (([] : Text), r.1))).contains k), .ask hn ((hrows rows).2 hm) ?_⟩
    · rw [hmap, C60.drops_cascade _ hv ho]
      refine ⟨?_, ?_, rfl⟩
      · rw [List.Nodup, List.pairwise_map]
        refine (List.Pairwise.and_mem.1 hn).imp ?_
        rintro a b ⟨h1, h2, h3⟩ h4
        apply h3
        refine Prod.ext (by simpa using h4) ?_
        rw [(hown a h1).1, (hown b h2).1]
      · intro k hk
        obtain ⟨r, hr1, rfl⟩ := List.mem_map.1 hk
        exact (hown r hr1).2
  · intro db' h
    obtain ⟨_, rfl⟩ := key db' h
    refine ⟨C60.cascade_valid hv _, rfl, ?_, ?_, C60.cascade_same hv _⟩
    · intro k hk
      simp only [Db.cascade]
      rw [if_pos hk]
    · intro k hk
      simp only [Db.cascade]
      rw [if_neg (by simp [hk])]
      cases db.objs k <;> rfl

namespace C60

/-! ### SQL Server -/

/-- Given constraints of tables in a schema removed. -/
def dropCons (cs : List (Text × Text)) (k : Key) : Obj → Obj
  | .table ts => .table { ts with cons := fun n => if (k.2, n) ∈ cs then none else ts.cons n }
  | o => o

def noCons (db : Db) (ns : Text) (cs : List (Text × Text)) : Db :=
  { db with objs := fun k => if k.1 = ns then (db.objs k).map (dropCons cs k) else db.objs k }

theorem noCons_isTable (db : Db) (ns : Text) (cs : List (Text × Text)) (k : Key) : (noCons db ns cs).isTable k = db.isTable k := by
  simp only [Db.isTable, noCons]
  split
  · rename_i h
    split at h
    · cases ho : db.objs k with
      | none => rw [ho] at h; simp at h
      | some o => cases o <;> first | rfl | (rw [ho] at h; simp [dropCons] at h)
    · rw [h]
  · rename_i h
    split at h
    · cases ho : db.objs k with
      | none => rfl
      | some o =>
        cases o with
        | table ts => exact absurd (by rw [ho]; rfl) (h { ts with cons := fun n => if (k.2, n) ∈ cs then none else ts.cons n })
        | enum _ => rfl
        | struct _ => rfl
    · split
      · rename_i ts h'; exact absurd h' (h ts)
      · rfl

theorem noCons_nil (db : Db) (ns : Text) : noCons db ns [] = db := by
  show Db.mk db.schemas _ = Db.mk db.schemas db.objs
  congr 1
  funext k
  split
  · cases db.objs k with
    | none => rfl
    | some o => cases o <;> simp [dropCons]
  · rfl

theorem noCons_cons (db : Db) (ns : Text) (r : Text × Text) (cs : List (Text × Text)) :
    noCons (noCons db ns [r]) ns cs = noCons db ns (r :: cs) := by
  show Db.mk db.schemas _ = Db.mk db.schemas _
  congr 1
  funext k
  simp only [noCons]
  split
  · cases db.objs k with
    | none => rfl
    | some o =>
      cases o with
      | table ts =>
        simp only [Option.map_some, dropCons, Option.some.injEq, Obj.table.injEq]
        congr 1
        funext n
        by_cases h1 : (k.2, n) = r <;> by_cases h2 : (k.2, n) ∈ cs <;> simp [h1, h2]
      | enum _ => rfl
      | struct _ => rfl
  · rfl

theorem set_noCons {db : Db} {ns : Text} {r : Text × Text} {ts : TableState} (h : db.objs (ns, r.1) = some (.table ts)) :
    db.set (ns, r.1) (some (.table { ts with cons := upd ts.cons r.2 none })) = noCons db ns [r] := by
  show Db.mk db.schemas _ = Db.mk db.schemas _
  congr 1
  funext k
  simp only [upd]
  by_cases hk : k = (ns, r.1)
  · subst hk
    simp only [if_true, h, Option.map_some, dropCons, List.mem_singleton]
    congr 3
    funext n
    by_cases hn : n = r.2
    · subst hn; simp [upd]
    · have : ((r.1, n) : Text × Text) ≠ r := fun e => hn (congrArg Prod.snd e)
      simp [upd, hn, this]
  · simp only [hk, if_false]
    split
    · rename_i hns
      cases ho : db.objs k with
      | none => rfl
      | some o =>
        cases o with
        | table ts' =>
          simp only [Option.map_some, dropCons, Option.some.injEq, Obj.table.injEq]
          cases ts' with
          | mk cols pk cons dfs =>
          simp only [TableState.mk.injEq, true_and, and_true, List.mem_singleton]
          funext n
          have : ((k.2, n) : Text × Text) ≠ r := by
            intro e
            apply hk
            rw [← e]
            exact Prod.ext hns rfl
          simp [this]
        | enum _ => rfl
        | struct _ => rfl
    · rfl

/-- Dropping foreign keys is not refused, and does what it should. -/
theorem talks_fks {srv : DropServer} {ns : Text} {next : Talk} {db' : Db} (cs : List (Text × Text)) (hn : cs.Nodup) {db : Db}
    (hc : ∀ r ∈ cs, ∃ ts, db.objs (ns, r.1) = some (.table ts) ∧ (ts.cons r.2).isSome = true) :
    Talks srv db (Talk.runAll (cs.map (fun r => DropCmd.dropConstraint (ns, r.1) r.2)) next) db' ↔ Talks srv (noCons db ns cs) next db' := by
  induction cs generalizing db with
  | nil => rw [noCons_nil]; rfl
  | cons r cs ih =>
    rw [List.nodup_cons] at hn
    obtain ⟨ts, ht, hs⟩ := hc r (by simp)
    have hrest : ∀ r' ∈ cs, ∃ ts, (noCons db ns [r]).objs (ns, r'.1) = some (.table ts) ∧ (ts.cons r'.2).isSome = true := by
      intro r' hr'
      obtain ⟨ts', ht', hs'⟩ := hc r' (by simp [hr'])
      refine ⟨{ ts' with cons := fun n => if (r'.1, n) ∈ [r] then none else ts'.cons n }, by simp [noCons, ht', dropCons], ?_⟩
      have : r' ≠ r := fun e => hn.1 (e ▸ hr')
      simp only [List.mem_singleton]
      rw [if_neg (by exact this)]
      exact hs'
    rw [← noCons_cons, ← ih hn.2 hrest]
    constructor
    · intro h
      obtain ⟨db1, h1, h2⟩ := talks_run h
      cases h1 with
      | dropConstraint h3 _ =>
        rw [ht] at h3
        cases h3
        rw [set_noCons ht] at h2
        exact h2
    · intro h
      refine .run (.dropConstraint ht hs) ?_
      rw [set_noCons ht]
      exact h

theorem set_isTable {db : Db} {k x : Key} (h : x ≠ k) : (db.set k none).isTable x = db.isTable x := by
  simp [Db.isTable, Db.set, upd, h]

theorem set_refers {db : Db} {k x : Key} {P : Key → Bool} : (db.set k none).RefersTo x P ↔ x ≠ k ∧ db.RefersTo x P := by
  simp only [Db.RefersTo, Db.set, upd]
  constructor
  · rintro ⟨ts, n, cs, tgt, rs, h1, h2, h3⟩
    split at h1
    · cases h1
    · rename_i hx; exact ⟨hx, ts, n, cs, tgt, rs, h1, h2, h3⟩
  · rintro ⟨hx, ts, n, cs, tgt, rs, h1, h2, h3⟩
    exact ⟨ts, n, cs, tgt, rs, by simp [hx, h1], h2, h3⟩

/-- Dropping tables that have no foreign keys themselves. -/
theorem dropsEach_iff {views : List Key} (ks : List Key) (hn : ks.Nodup) {db db' : Db} (hno : ∀ k ∈ ks, ∀ P, ¬ db.RefersTo k P) :
    DropsEach views db ks db' ↔
      (∀ k ∈ ks, (db.isTable k = true ∧ ∀ k', ¬ db.RefersTo k' (fun x => x = k)) ∨ (db.isTable k = false ∧ k ∉ views)) ∧
      db' = db.without (fun k => ks.contains k && db.isTable k) := by
  induction ks generalizing db with
  | nil =>
    constructor
    · intro h
      cases h
      exact ⟨by simp, by simp [Db.without]⟩
    · rintro ⟨_, rfl⟩
      have : db.without (fun k => ([] : List Key).contains k && db.isTable k) = db := by simp [Db.without]
      rw [this]
      exact .nil db
  | cons k ks ih =>
    rw [List.nodup_cons] at hn
    have hself : ∀ k', db.RefersTo k' (fun x => x = k) → k' ≠ k := fun k' h e => hno k (by simp) _ (e ▸ h)
    cases htab : db.isTable k with
    | false =>
      have ih := @ih hn.2 db (fun x hx => hno x (by simp [hx]))
      have hsame : db.without (fun x => (k :: ks).contains x && db.isTable x) = db.without (fun x => ks.contains x && db.isTable x) := by
        congr 1
        funext x
        by_cases hx : x = k
        · subst hx; simp [htab]
        · simp [hx]
      rw [hsame]
      constructor
      · intro h
        cases h with
        | missing h1 h2 h3 =>
          obtain ⟨h4, h5⟩ := ih.1 h3
          refine ⟨?_, h5⟩
          intro x hx
          rcases List.mem_cons.1 hx with rfl | hx
          · exact Or.inr ⟨h1, h2⟩
          · exact h4 x hx
        | table h1 _ _ => rw [htab] at h1; cases h1
      · rintro ⟨h1, rfl⟩
        rcases h1 k (by simp) with h2 | h2
        · rw [htab] at h2; cases h2.1
        · exact .missing htab h2.2 (ih.2 ⟨fun x hx => h1 x (by simp [hx]), rfl⟩)
    | true =>
      have ih := @ih hn.2 (db.set k none) (fun x hx P h => hno x (by simp [hx]) P (set_refers.1 h).2)
      have hne : ∀ x ∈ ks, x ≠ k := fun x hx e => hn.1 (e ▸ hx)
      have hsame : (db.set k none).without (fun x => ks.contains x && (db.set k none).isTable x) =
          db.without (fun x => (k :: ks).contains x && db.isTable x) := by
        show Db.mk db.schemas _ = Db.mk db.schemas _
        congr 1
        funext x
        by_cases hx : x = k
        · subst hx
          simp [htab, Db.set, upd]
        · simp only [set_isTable hx]
          simp [Db.set, upd, hx]
      have hall : (∀ x ∈ ks, ((db.set k none).isTable x = true ∧ ∀ k', ¬ (db.set k none).RefersTo k' (fun y => y = x)) ∨
            ((db.set k none).isTable x = false ∧ x ∉ views)) ↔
          ∀ x ∈ ks, (db.isTable x = true ∧ ∀ k', ¬ db.RefersTo k' (fun y => y = x)) ∨ (db.isTable x = false ∧ x ∉ views) := by
        constructor
        · intro h x hx
          rcases h x hx with ⟨h1, h2⟩ | ⟨h1, h2⟩
          · rw [set_isTable (hne x hx)] at h1
            refine Or.inl ⟨h1, fun k' hk' => ?_⟩
            by_cases e : k' = k
            · subst e; exact hno k' (by simp) _ hk'
            · exact h2 k' (set_refers.2 ⟨e, hk'⟩)
          · rw [set_isTable (hne x hx)] at h1
            exact Or.inr ⟨h1, h2⟩
        · intro h x hx
          rw [set_isTable (hne x hx)]
          rcases h x hx with ⟨h1, h2⟩ | h1
          · exact Or.inl ⟨h1, fun k' hk' => h2 k' (set_refers.1 hk').2⟩
          · exact Or.inr h1
      rw [hall, hsame] at ih
      constructor
      · intro h
        cases h with
        | missing h1 _ _ => rw [htab] at h1; cases h1
        | table h1 h2 h3 =>
          obtain ⟨h4, h5⟩ := ih.1 h3
          refine ⟨?_, h5⟩
          intro x hx
          rcases List.mem_cons.1 hx with rfl | hx
          · exact Or.inl ⟨h1, fun k' hk' => h2 k' (hself k' hk') hk'⟩
          · exact h4 x hx
      · rintro ⟨h1, rfl⟩
        rcases h1 k (by simp) with h2 | h2
        · exact .table htab (fun k' _ => h2.2 k') (ih.2 ⟨fun x hx => h1 x (by simp [hx]), rfl⟩)
        · rw [htab] at h2; cases h2.1

end C60

/-- SQL Server: it is refused exactly if a table outside of the schema refers to one inside, or there is a view in the schema. Otherwise the schema and its tables are
    gone, and everything else is as before. -/
theorem C60_mssql_exact {srv : DropServer} (hs : IsServer .mssql srv) {ns : Text} {db : Db} (hv : Valid db) (hf : db.Finite) (ho : db.OnlyTables)
    (hview : ∀ k ∈ srv.views, db.isTable k = false) :
    ((∃ db', Talks srv db (Engine.mssql.dropSchema ns) db') ↔ db.SelfContained (inNamespace .mssql ns) ∧ ∀ k ∈ srv.views, k.1 ≠ ns) ∧
    ∀ db', Talks srv db (Engine.mssql.dropSchema ns) db' →
      db' = { db.without (inNamespace .mssql ns) with schemas := upd db.schemas ns false } := by
  rw [C60.selfContained_iff hv ho]
  have hr : srv.read = readString := by simpa using hs.read
  have hat : srv.atOnce = false := by
    have := hs.atOnce
    simpa using this
  have hal : srv.always = false := by
    have := hs.always
    simpa using this
  have hlit : readString (quote ns ++ t ";") = some (ns, t ";") := C16_quote_reads_back ns (t ";") (by decide)
  have hin : ∀ k, inNamespace .mssql ns k = decide (k.1 = ns) := fun _ => rfl
  have hfk : ∀ rows, Answered srv db rows (.foreignKeys (quote ns)) ↔
      ∀ r, r ∈ rows ↔ ∃ ts cs k rs, db.objs (ns, r.1) = some (.table ts) ∧ ts.cons r.2 = some (.foreign cs k rs) := by
    intro rows
    simp only [Answered, hr, hlit]
    constructor
    · rintro ⟨s, h1, h2⟩; cases h1; exact h2
    · intro h; exact ⟨ns, rfl, h⟩
  have htb : ∀ (db : Db) rows, Answered srv db rows (.tablesOf (quote ns)) ↔
      ∀ r, r ∈ rows ↔ r.2 = [] ∧ (db.isTable (ns, r.1) = true ∨ (ns, r.1) ∈ srv.views) := by
    intro db rows
    simp only [Answered, hr, hlit]
    constructor
    · rintro ⟨s, h1, h2⟩; cases h1; exact h2
    · intro h; exact ⟨ns, rfl, h⟩
  -- after the foreign keys are gone
  have hafter : ∀ rows, Answered srv db rows (.foreignKeys (quote ns)) → ∀ k, k.1 = ns → ∀ P, ¬ (C60.noCons db ns rows).RefersTo k P := by
    rintro rows h ⟨a, b⟩ hk P ⟨ts, n, cs, tgt, rs, h1, h2, h3⟩
    rw [hfk] at h
    simp only at hk
    subst hk
    simp only [C60.noCons, if_true] at h1
    cases hob : db.objs (a, b) with
    | none => rw [hob] at h1; simp at h1
    | some o =>
      rw [hob] at h1
      cases o with
      | enum _ => simp [C60.dropCons] at h1
      | struct _ => simp [C60.dropCons] at h1
      | table ts0 =>
        simp only [Option.map_some, C60.dropCons, Option.some.injEq, Obj.table.injEq] at h1
        subst h1
        simp only at h2
        split at h2
        · cases h2
        · rename_i hnot
          exact hnot ((h (b, n)).2 ⟨ts0, cs, tgt, rs, hob, h2⟩)
  have hout : ∀ rows k P, k.1 ≠ ns → ((C60.noCons db ns rows).RefersTo k P ↔ db.RefersTo k P) := by
    intro rows k P hk
    simp only [Db.RefersTo, C60.noCons, if_neg hk]
  -- tables
  have htables : ∀ rows, Answered srv db rows (.foreignKeys (quote ns)) → ∀ trows, trows.Nodup → Answered srv (C60.noCons db ns rows) trows (.tablesOf (quote ns)) →
      ∀ db2, DropsEach srv.views (C60.noCons db ns rows) (trows.map (fun r => (ns, r.1))) db2 ↔
        ((∀ k, inNamespace .mssql ns k = false → ¬ db.RefersTo k (inNamespace .mssql ns)) ∧ ∀ k ∈ srv.views, k.1 ≠ ns) ∧ db2 = db.without (inNamespace .mssql ns) := by
    intro rows hrows trows htn htrows db2
    have ha := hafter rows hrows
    rw [htb] at htrows
    simp only [C60.noCons_isTable] at htrows
    have hnd : (trows.map (fun r => (ns, r.1))).Nodup := by
      rw [List.Nodup, List.pairwise_map]
      refine (List.Pairwise.and_mem.1 htn).imp ?_
      rintro a b ⟨h1, h2, h3⟩ h4
      apply h3
      refine Prod.ext (by simpa using h4) ?_
      rw [((htrows a).1 h1).1, ((htrows b).1 h2).1]
    have hmem : ∀ k, k ∈ trows.map (fun r => (ns, r.1)) ↔ k.1 = ns ∧ (db.isTable k = true ∨ k ∈ srv.views) := by
      rintro ⟨a, b⟩
      rw [List.mem_map]
      constructor
      · rintro ⟨r, h1, h2⟩
        cases h2
        exact ⟨rfl, ((htrows r).1 h1).2⟩
      · rintro ⟨h1, h2⟩
        simp only at h1
        subst h1
        exact ⟨(b, []), (htrows _).2 ⟨rfl, h2⟩, rfl⟩
    rw [C60.dropsEach_iff _ hnd (fun k hk P => ha k ((hmem k).1 hk).1 P)]
    have hres : (C60.noCons db ns rows).without (fun k => (trows.map (fun r => (ns, r.1))).contains k && (C60.noCons db ns rows).isTable k) =
        db.without (inNamespace .mssql ns) := by
      show Db.mk db.schemas _ = Db.mk db.schemas _
      congr 1
      funext k
      by_cases hk : k.1 = ns
      · by_cases ht : db.isTable k = true
        · have := (hmem k).2 ⟨hk, Or.inl ht⟩
          simp [C60.noCons_isTable, ht, this, hin, hk]
        · have h0 : db.objs k = none := C60.only_none ho (by simpa using ht)
          have h1 : (C60.noCons db ns rows).objs k = none := by simp [C60.noCons, h0]
          simp only [h0, h1, ite_self]
      · have : k ∉ trows.map (fun r => (ns, r.1)) := fun h => hk ((hmem k).1 h).1
        have hc : (trows.map (fun r => (ns, r.1))).contains k = false := by
          rw [Bool.eq_false_iff]; exact fun h => this (List.contains_iff_mem.1 h)
        simp only [hc, hin, hk, C60.noCons]
        simp
    rw [hres]
    refine and_congr_left fun _ => ?_
    constructor
    · intro h
      constructor
      · rintro k hk ⟨ts, n, cs, tgt, rs, ht, hc, hp⟩
        obtain ⟨ts', ht', _⟩ := C60.refs_kind hv ht hc
        have hk' : k.1 ≠ ns := by simpa [hin] using hk
        have htgt : tgt.1 = ns := by simpa [hin] using hp
        rcases h tgt ((hmem tgt).2 ⟨htgt, Or.inl (C60.isTable_of ht')⟩) with h1 | h1
        · exact h1.2 k ((hout rows k _ hk').2 ⟨ts, n, cs, tgt, rs, ht, hc, by simp⟩)
        · rw [C60.noCons_isTable, C60.isTable_of ht'] at h1; cases h1.1
      · intro k hk hkn
        rcases h k ((hmem k).2 ⟨hkn, Or.inr hk⟩) with h1 | h1
        · rw [C60.noCons_isTable, hview k hk] at h1; cases h1.1
        · exact h1.2 hk
    · rintro ⟨h1, h2⟩ k hk
      obtain ⟨hkn, ht | ht⟩ := (hmem k).1 hk
      · refine Or.inl ⟨by rw [C60.noCons_isTable]; exact ht, fun k' hk' => ?_⟩
        by_cases hk2 : k'.1 = ns
        · exact ha k' hk2 _ hk'
        · obtain ⟨ts, n, cs, tgt, rs, h3, h4, h5⟩ := (hout rows k' _ hk2).1 hk'
          refine h1 k' (by simpa [hin] using hk2) ⟨ts, n, cs, tgt, rs, h3, h4, ?_⟩
          simp only [decide_eq_true_eq] at h5
          rw [h5]; simp [hin, hkn]
      · exact absurd hkn (h2 k ht)
  -- no tables
  have hempty : ∀ rows, Answered srv db rows (.foreignKeys (quote ns)) → Answered srv (C60.noCons db ns rows) [] (.tablesOf (quote ns)) →
      (∀ k, inNamespace .mssql ns k = false → ¬ db.RefersTo k (inNamespace .mssql ns)) ∧ (∀ k ∈ srv.views, k.1 ≠ ns) ∧ C60.noCons db ns rows = db.without (inNamespace .mssql ns) := by
    intro rows h1 h2
    have := (htables rows h1 [] .nil h2 (C60.noCons db ns rows)).1 (.nil _)
    exact ⟨this.1.1, this.1.2, this.2⟩
  have hlast : ∀ db', Talks srv (db.without (inNamespace .mssql ns)) (.run (.dropSchema ns true false) .done) db' ↔
      db' = { db.without (inNamespace .mssql ns) with schemas := upd db.schemas ns false } := by
    intro db'
    have hnone : ∀ k, k.1 = ns → (db.without (inNamespace .mssql ns)).objs k = none := by
      intro k hk; simp [Db.without, hin, hk]
    have hmiss : db.schemas ns = false → db.without (inNamespace .mssql ns) = { db.without (inNamespace .mssql ns) with schemas := upd db.schemas ns false } := by
      intro h
      show Db.mk db.schemas _ = Db.mk _ _
      congr 1
      funext x
      simp only [upd]
      split
      · rename_i hx; rw [hx, h]
      · rfl
    constructor
    · intro h
      obtain ⟨db1, h1, h2⟩ := C60.talks_run h
      cases C60.talks_done h2
      cases h1 with
      | dropMissing h3 => exact hmiss h3
      | dropEmpty _ _ _ => rfl
      | dropCascade h3 _ => simp [hal] at h3
    · rintro rfl
      cases hsch : db.schemas ns with
      | true => exact .run (.dropEmpty hal hsch hnone) (.done _)
      | false =>
        have : Does srv (db.without (inNamespace .mssql ns)) (.dropSchema ns true false) (db.without (inNamespace .mssql ns)) := .dropMissing hsch
        rw [← hmiss hsch]
        exact .run this (.done _)
  have hpres : ∀ rows, Answered srv db rows (.foreignKeys (quote ns)) →
      ∀ r ∈ rows, ∃ ts, db.objs (ns, r.1) = some (.table ts) ∧ (ts.cons r.2).isSome = true := by
    intro rows h r hr1
    rw [hfk] at h
    obtain ⟨ts, cs, k, rs, h1, h2⟩ := (h r).1 hr1
    exact ⟨ts, h1, by rw [h2]; rfl⟩
  have key : ∀ db', Talks srv db (Engine.mssql.dropSchema ns) db' →
      ((∀ k, inNamespace .mssql ns k = false → ¬ db.RefersTo k (inNamespace .mssql ns)) ∧ ∀ k ∈ srv.views, k.1 ≠ ns) ∧
      db' = { db.without (inNamespace .mssql ns) with schemas := upd db.schemas ns false } := by
    intro db' h
    obtain ⟨rows, hn, ha, h⟩ := C60.talks_ask h
    rw [C60.talks_fks rows hn (hpres rows ha)] at h
    obtain ⟨trows, htn, hta, h⟩ := C60.talks_ask h
    by_cases he : trows = []
    · subst he
      obtain ⟨h1, h2, h3⟩ := hempty rows ha hta
      rw [h3] at h
      exact ⟨⟨h1, h2⟩, (hlast db').1 h⟩
    · simp only [he, if_false] at h
      obtain ⟨db2, h1, h2⟩ := C60.talks_run h
      cases h1 with
      | dropAtOnce h3 _ => rw [hat] at h3; cases h3
      | dropEach _ h3 =>
        obtain ⟨h4, rfl⟩ := (htables rows ha trows htn hta db2).1 h3
        exact ⟨h4, (hlast db').1 h2⟩
  refine ⟨⟨fun ⟨db', h⟩ => (key db' h).1, fun h => ?_⟩, fun db' h => (key db' h).2⟩
  obtain ⟨keys, names, h1, h2⟩ := id hf
  obtain ⟨rows, hn, hm⟩ := C60.rows_exist (fun r : Text × Text => ∃ ts cs k rs, db.objs (ns, r.1) = some (.table ts) ∧ ts.cons r.2 = some (.foreign cs k rs))
    (keys.flatMap (fun k => names.map (fun n => (k.2, n)))) (by
      rintro ⟨a, b⟩ ⟨ts, cs, k, rs, h3, h4⟩
      exact List.mem_flatMap.2 ⟨(ns, a), h1 _ _ h3, List.mem_map.2 ⟨b, h2 _ _ _ _ h3 h4, rfl⟩⟩)
  have ha := (hfk rows).2 hm
  obtain ⟨l, hl⟩ := C60.finite_tables hf ns srv.views
  obtain ⟨trows, htn, htm⟩ := C60.rows_exist (fun r : Text × Text => r.2 = [] ∧ (db.isTable (ns, r.1) = true ∨ (ns, r.1) ∈ srv.views)) l (by
    rintro ⟨a, b⟩ ⟨hb, h1⟩
    simp only at hb h1
    subst hb
    exact hl a h1)
  have hta : Answered srv (C60.noCons db ns rows) trows (.tablesOf (quote ns)) := by
    rw [htb]
    simp only [C60.noCons_isTable]
    exact htm
  refine ⟨{ db.without (inNamespace .mssql ns) with schemas := upd db.schemas ns false },
    .ask hn ha ((C60.talks_fks rows hn (hpres rows ha)).2 (.ask htn hta ?_))⟩
  · by_cases he : trows = []
    · subst he
      obtain ⟨_, _, h3⟩ := hempty rows ha hta
      rw [h3]
      exact (hlast _).2 rfl
    · simp only [he, if_false]
      exact .run (.dropEach hat ((htables rows ha trows htn hta _).2 ⟨h, rfl⟩)) ((hlast _).2 rfl)

namespace C60.Example

def key : ColState := { ty := .integer .base 8 true none none, nullable := false, default := none, identity := false }
/-- A table with a key, and one foreign key if a target is given. -/
def tbl (ref : Option Key) : TableState where
  cols := fun n => if n = t "id" then some key else none
  pk := [t "id"]
  cons := fun n => if n = t "fk" then ref.map (fun k => .foreign [t "id"] k [t "id"]) else none
  dfs := fun _ => none

/-- Two tables that refer to each other in a schema, and another table outside. -/
def db (schema other : Text) (a b c : Text) (ref : Option Key) : Db where
  schemas := fun n => n = schema || n = other
  objs := fun k =>
    if k = (schema, a) then some (.table (tbl (some (schema, b))))
    else if k = (schema, b) then some (.table (tbl (some (schema, a))))
    else if k = (other, c) then some (.table (tbl ref))
    else none

def srv (e : Engine) : DropServer where
  read := if e = .mysql then readMySQL else readString
  atOnce := e = .mysql
  always := e = .snowflake
  views := []
  me := t "ME"
  foreign := [(t "report__x", t "YOU")]

theorem srv_is (e : Engine) : IsServer e (srv e) where
  read := rfl
  atOnce := by simp [srv]
  always := by simp [srv]
  foreign := by intro r hr; simp [srv] at hr; subst hr; show t "YOU" ≠ t "ME"; decide

theorem cases_of {s o a b c : Text} {ref : Option Key} {k : Key} {x : Obj} (h : (db s o a b c ref).objs k = some x) :
    ∃ r, x = .table (tbl r) ∧ ((k = (s, a) ∧ r = some (s, b)) ∨ (k = (s, b) ∧ r = some (s, a)) ∨ (k = (o, c) ∧ r = ref)) := by
  simp only [db] at h
  split at h
  · cases h; exact ⟨_, rfl, Or.inl ⟨by assumption, rfl⟩⟩
  · split at h
    · cases h; exact ⟨_, rfl, Or.inr (Or.inl ⟨by assumption, rfl⟩)⟩
    · split at h
      · cases h; exact ⟨_, rfl, Or.inr (Or.inr ⟨by assumption, rfl⟩)⟩
      · cases h

theorem only (s o a b c : Text) (ref : Option Key) : (db s o a b c ref).OnlyTables := by
  intro k x h
  obtain ⟨r, rfl, _⟩ := cases_of h
  simp [Db.isTable, h]

theorem finite (s o a b c : Text) (ref : Option Key) : (db s o a b c ref).Finite := by
  refine ⟨[(s, a), (s, b), (o, c)], [t "fk"], ?_, ?_⟩
  · intro k x h
    obtain ⟨r, _, ⟨rfl, _⟩ | ⟨rfl, _⟩ | ⟨rfl, _⟩⟩ := cases_of h <;> simp
  · intro k ts n x h hc
    obtain ⟨r, hr, _⟩ := cases_of h
    cases hr
    simp only [tbl] at hc
    split at hc
    · simp; assumption
    · cases hc

theorem valid (s o a b c : Text) (ref : Option Key) (href : ref = none ∨ ref = some (s, a)) : Valid (db s o a b c ref) := by
  have hkind : ∀ k, k = (s, a) ∨ k = (s, b) ∨ k = (o, c) → (db s o a b c ref).kinds k = some (.table [t "id"]) := by
    intro k hk
    simp only [Db.kinds, db]
    split
    · rfl
    · split
      · rfl
      · split
        · rfl
        · rename_i h1 h2 h3
          rcases hk with h | h | h
          · exact absurd h h1
          · exact absurd h h2
          · exact absurd h h3
  constructor
  · intro k x h
    obtain ⟨r, _, ⟨rfl, _⟩ | ⟨rfl, _⟩ | ⟨rfl, _⟩⟩ := cases_of h <;> simp [db]
  · intro k x h
    obtain ⟨r, rfl, hr⟩ := cases_of h
    refine ⟨?_, ?_, ?_, ?_⟩
    · intro n c' hc
      simp only [tbl] at hc
      split at hc
      · cases hc
        refine ⟨fun h => (by cases h), fun k hk => (by simp [key, SqlType.refs] at hk)⟩
      · cases hc
    · intro n hn
      simp only [tbl, List.mem_singleton] at hn
      subst hn
      exact ⟨key, by simp [tbl], rfl⟩
    · intro n c' hc
      simp only [tbl] at hc
      split at hc
      · have htgt : ∀ tgt, r = some tgt → tgt = (s, a) ∨ tgt = (s, b) ∨ tgt = (o, c) := by
          intro tgt e
          rcases hr with ⟨_, h2⟩ | ⟨_, h2⟩ | ⟨_, h2⟩
          · rw [h2] at e; cases e; exact Or.inr (Or.inl rfl)
          · rw [h2] at e; cases e; exact Or.inl rfl
          · rcases href with h3 | h3
            · rw [h2, h3] at e; cases e
            · rw [h2, h3] at e; cases e; exact Or.inl rfl
        cases r with
        | none => cases hc
        | some tgt =>
          simp at hc
          subst hc
          refine ⟨?_, hkind tgt (htgt tgt rfl)⟩
          intro m hm
          simp [ConState.cols] at hm
          subst hm
          simp [tbl]
      · cases hc
    · intro n m hm
      cases hm

theorem selfContained (e : Engine) (ns : Text) (s o a b c : Text) (ha : inNamespace e ns (s, a) = true) (hb : inNamespace e ns (s, b) = true) :
    (db s o a b c none).SelfContained (inNamespace e ns) := by
  intro k hk
  constructor
  · rintro ⟨ts, n, cs, tgt, rs, h1, h2, _⟩
    obtain ⟨r, hr, ⟨rfl, _⟩ | ⟨rfl, _⟩ | ⟨_, rfl⟩⟩ := cases_of h1
    · rw [ha] at hk; cases hk
    · rw [hb] at hk; cases hk
    · cases hr
      simp only [tbl] at h2
      split at h2 <;> simp at h2
  · rintro (⟨ts, n, cc, h1, h2, h3⟩ | ⟨_, _, _, h1, _⟩)
    · obtain ⟨r, hr, _⟩ := cases_of h1
      cases hr
      simp only [tbl] at h2
      split at h2
      · cases h2; simp [key, usesAny, SqlType.refs] at h3
      · cases h2
    · obtain ⟨r, hr, _⟩ := cases_of h1
      cases hr

/-- The hypotheses are met by databases with tables that refer to each other; nothing else is touched. -/
example : ∃ db', Talks (srv .mysql) (db [] [] (t "shop__a") (t "shop__b") (t "x") none) (Engine.mysql.dropSchema (t "shop")) db' ∧
    (db'.objs ([], t "x")).isSome = true ∧ db'.objs ([], t "shop__a") = none := by
  have hex := C60_mysql_exact (srv_is .mysql) (ns := t "shop") (by decide) (valid [] [] (t "shop__a") (t "shop__b") (t "x") none (Or.inl rfl)) (finite ..) (fun k x h => only _ _ _ _ _ _ k x h)
  obtain ⟨db', h⟩ := hex.1.2 (selfContained .mysql (t "shop") [] [] _ _ _ (by decide +kernel) (by decide +kernel))
  refine ⟨db', h, ?_, ?_⟩
  · rw [hex.2 db' h]
    decide +kernel
  · rw [hex.2 db' h]
    simp only [Db.without]
    rw [if_pos (by decide +kernel)]

example : ∃ db', Talks (srv .oracle) (db [] [] (t "shop__a") (t "shop__b") (t "x") (some ([], t "shop__a"))) (Engine.oracle.dropSchema (t "shop")) db' ∧
    db'.objs ([], t "shop__a") = none := by
  have hex := C60_oracle_exact (srv_is .oracle) (ns := t "shop")
    (valid [] [] (t "shop__a") (t "shop__b") (t "x") (some ([], t "shop__a")) (Or.inr rfl)) (finite ..) (fun k x h => only _ _ _ _ _ _ k x h)
  obtain ⟨db', h⟩ := hex.1.2 (by
    intro r hr
    simp only [srv, List.mem_singleton] at hr
    subst hr
    intro hp
    have := List.isPrefixOf_iff_prefix.2 hp
    revert this
    decide +kernel)
  exact ⟨db', h, (hex.2 db' h).2.2.1 _ (by decide +kernel)⟩

example : ∃ db', Talks (srv .mssql) (db (t "shop") (t "dbo") (t "a") (t "b") (t "x") none) (Engine.mssql.dropSchema (t "shop")) db' ∧
    (db'.objs (t "dbo", t "x")).isSome = true := by
  have hex := C60_mssql_exact (srv_is .mssql) (ns := t "shop") (valid (t "shop") (t "dbo") (t "a") (t "b") (t "x") none (Or.inl rfl)) (finite ..) (fun k x h => only _ _ _ _ _ _ k x h)
    (by intro k hk; cases hk)
  obtain ⟨db', h⟩ := hex.1.2 ⟨selfContained .mssql (t "shop") _ _ _ _ _ (by decide +kernel) (by decide +kernel), by intro k hk; cases hk⟩
  refine ⟨db', h, ?_⟩
  rw [hex.2 db' h]
  decide +kernel

end C60.Example

/-- `create_schema`: afterwards the schema is there, and nothing else has changed. If it is there already, the call is refused exactly on engines whose statement has no
    `IF NOT EXISTS`. -/
theorem C60_create_schema (e : Engine) (srv : DropServer) {ns : Text} (hns : ns ≠ []) (db : Db) :
    (∀ db', Talks srv db (e.createSchema ns) db' ↔ db' = { db with schemas := upd db.schemas ns true } ∧
      (db.schemas ns = true → e = .postgresql ∨ e = .redshift ∨ e = .delta ∨ e = .mssql)) := by
  have hsame : db.schemas ns = true → db = { db with schemas := upd db.schemas ns true } := by
    intro h
    show Db.mk db.schemas _ = Db.mk _ _
    congr 1
    funext x
    simp only [upd]
    split
    · rename_i hx; rw [hx, h]
    · rfl
  have key : ∀ (b : Bool) db', Talks srv db (.run (.createSchema ns b) .done) db' ↔
      db' = { db with schemas := upd db.schemas ns true } ∧ (db.schemas ns = true → b = true) := by
    intro b db'
    constructor
    · intro h
      obtain ⟨db1, h1, h2⟩ := C60.talks_run h
      cases C60.talks_done h2
      cases h1 with
      | createSchema h3 => exact ⟨rfl, fun h => by rw [h3] at h; cases h⟩
      | createExisting h3 => exact ⟨hsame h3, fun _ => rfl⟩
    · rintro ⟨rfl, h⟩
      cases hsch : db.schemas ns with
      | false => exact .run (.createSchema hsch) (.done _)
      | true =>
        cases h hsch
        have : Does srv db (.createSchema ns true) db := .createExisting hsch
        rw [← hsame hsch]
        exact .run this (.done _)
  intro db'
  have hT : ∀ b, e.createSchema ns = .run (.createSchema ns b) .done → (b = true ↔ e = .postgresql ∨ e = .redshift ∨ e = .delta ∨ e = .mssql) →
      (Talks srv db (e.createSchema ns) db' ↔ db' = { db with schemas := upd db.schemas ns true } ∧
        (db.schemas ns = true → e = .postgresql ∨ e = .redshift ∨ e = .delta ∨ e = .mssql)) := by
    intro b h1 h2
    rw [h1, key, h2]
  cases e with
  | postgresql => exact hT true (by simp [Engine.createSchema, hns, Engine.dialect]) (by decide)
  | redshift => exact hT true (by simp [Engine.createSchema, hns, Engine.dialect]) (by decide)
  | delta => exact hT true (by simp [Engine.createSchema, hns, Engine.dialect]) (by decide)
  | mssql => exact hT true (by simp [Engine.createSchema, hns, Engine.dialect]) (by decide)
  | mysql => exact hT false (by simp [Engine.createSchema, hns, Engine.dialect]) (by decide)
  | oracle => exact hT false (by simp [Engine.createSchema, hns, Engine.dialect]) (by decide)
  | snowflake => exact hT false (by simp [Engine.createSchema, hns, Engine.dialect]) (by decide)
  | trino => exact hT false (by simp [Engine.createSchema, hns, Engine.dialect]) (by decide)

/-- The empty name is the default namespace: creating it sends nothing on any engine, and neither does dropping it where namespaces are schemas (except SQL Server, which
    would drop the objects of its default schema one by one). -/
theorem C60_empty_name (e : Engine) (srv : DropServer) (db db' : Db) :
    (Talks srv db (e.createSchema []) db' ↔ db' = db) ∧
    (e = .postgresql ∨ e = .redshift ∨ e = .delta ∨ e = .snowflake ∨ e = .trino → (Talks srv db (e.dropSchema []) db' ↔ db' = db)) := by
  have key : Talks srv db .done db' ↔ db' = db := by
    constructor
    · intro h; exact (C60.talks_done h)
    · rintro rfl; exact .done _
  refine ⟨by rw [show e.createSchema [] = .done from by simp [Engine.createSchema]]; exact key, ?_⟩
  rintro (rfl | rfl | rfl | rfl | rfl) <;> exact key

/-- On MySQL, `drop_schema` does not undo `create_schema`: the latter creates a schema (a database of its own), the former drops tables with a prefix. -/
theorem C60_create_drop_fails {srv : DropServer} (hs : IsServer .mysql srv) {ns : Text} (hns : ns ≠ []) (hb : '\\' ∉ ns) {db : Db} (hv : Valid db) (hf : db.Finite)
    (ho : db.OnlyTables) {db1 db2 : Db} (h1 : Talks srv db (Engine.mysql.createSchema ns) db1) (h2 : Talks srv db1 (Engine.mysql.dropSchema ns) db2) :
    db2.schemas ns = true := by
  obtain ⟨rfl, _⟩ := (C60_create_schema .mysql srv hns db db1).1 h1
  have hv1 : Valid { db with schemas := upd db.schemas ns true } := by
    constructor
    · intro k o hk
      simp only [upd]
      split
      · rfl
      · exact hv.schema k o hk
    · intro k o hk
      exact hv.fits k o hk
  have := (C60_mysql_exact hs hb hv1 hf ho).2 db2 h2
  rw [this]
  simp [Db.without, upd]

/-- A namespace whose name begins with the name of another and two underscores: dropping the other one drops its tables, too. -/
theorem C60_prefix_fails : inNamespace .mysql (t "shop") ([], t "shop__archive" ++ t "__" ++ t "orders") = true ∧
    inNamespace .oracle (t "shop") ([], t "shop__archive" ++ t "__" ++ t "orders") = true := by decide +kernel

/-- A table of another namespace that refers to one of the schema: on PostgreSQL it loses its foreign key. -/
theorem C60_others_fail : ∃ db', Talks (C60.Example.srv .postgresql)
      (C60.Example.db (t "shop") (t "public") (t "a") (t "b") (t "x") (some (t "shop", t "a"))) (Engine.postgresql.dropSchema (t "shop")) db' ∧
    ∃ ts, db'.objs (t "public", t "x") = some (.table ts) ∧ ts.cons (t "fk") = none := by
  refine ⟨_, .run (.dropCascade (Or.inl rfl) (by decide +kernel)) (.done _), ?_⟩
  refine ⟨_, rfl, ?_⟩
  rfl

/-- The model that a connection keeps does not know of it: creating the same objects again does nothing, and the database remains without them. -/
theorem C60_forgotten_fails (v : Env) (ht : Sorts v.topo) {atomic : Bool} {T : Catalog} (w : CatWF v.dialect T) (hc : CommentsFit v.dialect T) {T' : Catalog}
    (hT : T.sort v.topo = .ok T') {e : Engine} {srv : DropServer} {ns : Text} {s : Session} (hs : s.state = T) {db' : Db}
    (_ : Talks srv s.db (e.dropSchema ns) db') {s' : Session} {o : Outcome} (h : Step v atomic ⟨s.state, db'⟩ (.createObjects T) s' o) :
    o = .returned ∧ s'.db = db' := by
  subst hs
  have hnil : mutateCatalog v.topo v.dialect {} s.state s.state = .ok [] :=
    C02_nothing_to_do ht v.dialect {} w w hT hT (C14.same_refl _) hc
  cases h with
  | create h =>
    cases h with
    | raised h1 => rw [hnil] at h1; cases h1
    | nothing _ => exact ⟨rfl, rfl⟩
    | executed h1 h2 _ => rw [hnil] at h1; cases h1; exact absurd rfl h2

end PySqlSync
