/-
C10 — Column data migration preserves labels.
-/
import Verif.Lemmas.Rows
import Verif.Examples.Shop

set_option autoImplicit false

namespace PySqlSync
open Spec

namespace C10

variable {d : Dialect} {R : RowEngine} {a b : Table}

/-- The action converts the values in a column to a type. -/
def Casts : Action → Text → SqlType → Prop
  | .setDataType n ty, m, ty' => n = m ∧ ty = ty'
  | .redefine n spec, m, ty' => n = m ∧ spec.ty = ty'
  | .modify n ty _ _ _, m, ty' => n = m ∧ ty = some ty'
  | .retype n ty _, m, ty' => n = m ∧ ty = ty'
  | _, _, _ => False

theorem casts_each {rows rows' : List Row} {x : Action} {n : Text} {ty : SqlType}
    (h : rowAction R rows x = some rows') (hx : Casts x n ty) :
    Each (fun r r' => ∃ v, R.cast ty (r n) = some v ∧ r' = upd r n v) rows rows' := by
  cases x with
  | setDataType n ty => obtain ⟨rfl, rfl⟩ := hx; exact castColumn_each h
  | redefine n ty => obtain ⟨rfl, rfl⟩ := hx; exact castColumn_each h
  | modify n ty x y z => obtain ⟨rfl, rfl⟩ := hx; exact castColumn_each h
  | retype n ty x => obtain ⟨rfl, rfl⟩ := hx; exact castColumn_each h
  | _ => exact absurd hx id

theorem casts_about {x : Action} {n m : Text} {ty : SqlType} (hx : Casts x n ty) (h : About x m) : m = n := by
  cases x with
  | setDataType n ty => exact h.symm.trans hx.1
  | redefine n ty => exact h.symm.trans hx.1
  | modify n ty x y z => exact h.1.symm.trans hx.1
  | retype n ty x => exact h.symm.trans hx.1
  | _ => exact absurd hx id

theorem dataSpec_ty {c : Column} {spec : ColSpec} (h : c.dataSpec d = .ok spec) : spec.ty = c.ty
    ∧ spec.identity = c.identity ∧ (c.default = none → spec.default = none)
    ∧ (c.nullable = true → spec.notNull = false)
    ∧ (c.nullable = false → c.identity = false → spec.notNull = true) := by
  unfold Column.dataSpec at h
  simp only [bind, Except.bind] at h
  split at h
  · cases h
  · cases h
    refine ⟨rfl, rfl, ?_, ?_, ?_⟩
    · intro e; simp only [e]; split <;> rfl
    · intro e; simp only [e]; split <;> simp
    · intro e e'; simp only [e, e']; split <;> simp

theorem mutateColumn_about {s u : Column} {acts : List Action} (h : mutateColumn d s u = .ok acts) :
    ∀ x ∈ acts, (∀ m, ¬ About x m) ∨ Casts x s.name u.ty := by
  intro x hx
  unfold mutateColumn at h
  split at h
  · simp only [bind, Except.bind] at h
    split at h
    · split at h
      · cases h
      · rename_i sp hsp
        cases h; rw [List.mem_singleton.1 hx]
        exact .inr ⟨rfl, (dataSpec_ty hsp).1⟩
    · split at h
      · cases h
      · split at h
        · cases h
        · split at h
          · split at h
            · cases h
            · rename_i sp hsp
              cases h; rw [List.mem_singleton.1 hx]
              exact .inr ⟨rfl, (dataSpec_ty hsp).1⟩
          · cases h; simp at hx
  · dsimp only at h
    generalize (if s.default ≠ u.default then some (u.default.map (defaultExpr Dialect.oracle u.ty)) else none) = df at h
    generalize (if s.nullable ≠ u.nullable then some u.nullable else none) = nl at h
    generalize (if s.identity ≠ u.identity then some u.identity else none) = idn at h
    by_cases hty : s.ty ≠ u.ty
    · rw [if_pos hty] at h
      split at h
      · cases h; rw [List.mem_singleton.1 hx]; exact .inr ⟨rfl, rfl⟩
      · cases h; simp at hx
    · rw [if_neg hty] at h
      split at h
      · cases h; rw [List.mem_singleton.1 hx]; exact .inl (fun m h => by simp [About] at h)
      · cases h; simp at hx
  · split at h
    · cases h
    · split at h
      · cases h; rw [List.mem_singleton.1 hx]; exact .inr ⟨rfl, rfl⟩
      · cases h; simp at hx
  · split at h
    · cases h; simp at hx
    · cases h
      simp only [List.mem_append] at hx
      rcases hx with ((hx | hx) | hx) | hx
      · split at hx
        · rw [List.mem_singleton.1 hx]; exact .inr ⟨rfl, rfl⟩
        · simp at hx
      · split at hx
        · rw [List.mem_singleton.1 hx]; exact .inl (fun m => id)
        · split at hx
          · rw [List.mem_singleton.1 hx]; exact .inl (fun m => id)
          · simp at hx
      · split at hx
        · rw [List.mem_singleton.1 hx]; exact .inl (fun m => id)
        · split at hx
          · rw [List.mem_singleton.1 hx]; exact .inl (fun m => id)
          · simp at hx
        · simp at hx
      · split at hx
        · rw [List.mem_singleton.1 hx]; exact .inl (fun m => id)
        · split at hx
          · rw [List.mem_singleton.1 hx]; exact .inl (fun m => id)
          · simp at hx

theorem mutateColumn_same {c : Column} : ∀ {acts : List Action}, mutateColumn d c c = .ok acts → acts = [] := by
  intro acts h
  unfold mutateColumn at h
  split at h
  · cases hc : c.comment .mysql with
    | error e => simp [hc, bind, Except.bind] at h
    | ok x =>
      simp [hc, bind, Except.bind, pure, Except.pure] at h
      exact h
  · simpa using h.symm
  · simpa using h.symm
  · simpa using h.symm

/-- What the last group of actions does to the values in a column of the target. -/
theorem alterActions_about {acts : List Action} (h : alterActions a b d = .ok acts) (wa : TableWF d a) (wb : TableWF d b)
    {u : Column} (hu : u ∈ b.columns.items) :
    ∀ x ∈ acts, ¬ About x u.name ∨ (Casts x u.name u.ty ∧ ∃ s ∈ a.columns.items, s.name = u.name ∧ s ≠ u) := by
  unfold alterActions at h
  simp only [bind, Except.bind] at h
  split at h
  · cases h
  · rename_i ch hch
    have hch := wrapColumn_ok' hch
    split at h
    · cases h
    · simp only [pure, Except.pure, Except.ok.injEq] at h
      subst h
      intro x hx
      simp only [List.mem_append] at hx
      rcases hx with (((hx | hx) | hx) | hx) | hx
      · obtain ⟨p, hp, rfl⟩ := List.mem_map.1 hx
        exact .inl (fun e => wb.names u hu _ (Eq.symm e))
      · obtain ⟨p, hp, y, hy, hm⟩ := mem_of_mapM hch hx
        obtain ⟨h1, h2, h3⟩ := mem_inter (x := p.1) (y := p.2) hp
        rcases mutateColumn_about hy x hm with h | h
        · exact .inl (h _)
        · by_cases e : p.1.name = u.name
          · have e2 : p.2 = u := eq_of_key wb.columns h2 hu (h3.symm.trans e)
            right
            refine ⟨by rw [← e2, e2, ← e]; rw [e2] at h; exact h, p.1, h1, e, ?_⟩
            intro e3
            rw [e2, ← e3] at hy
            rw [mutateColumn_same hy] at hm
            cases hm
          · exact .inl (fun hA => e (casts_about h hA).symm)
      · obtain ⟨c, hc, rfl⟩ := List.mem_map.1 hx
        have := (mem_diff hc).2 u hu
        left
        unfold Column.dropStmt
        split <;> exact this
      · obtain ⟨c, _, hc⟩ := List.mem_filterMap.1 hx
        rw [Option.map_eq_some_iff] at hc
        obtain ⟨_, _, rfl⟩ := hc
        exact .inl id
      · obtain ⟨c, _, hc⟩ := List.mem_filterMap.1 hx
        rw [Option.map_eq_some_iff] at hc
        obtain ⟨_, _, rfl⟩ := hc
        exact .inl id

/-- Conversions to the column's own type keep keys and `NULL`. -/
theorem actions_keep_keys {n : Text} {ty : SqlType}
    (hcast : ∀ v, v = .null ∨ (∃ i, v = .int i) → R.cast ty v = some v) : ∀ {l : List Action} {rows rows' : List Row},
    rowActions R rows l = some rows' → (∀ x ∈ l, ¬ About x n ∨ Casts x n ty) →
    Each (fun r r' => (r n = .null ∨ ∃ i, r n = .int i) → r' n = r n) rows rows' := by
  intro l
  induction l with
  | nil => intro rows rows' h _; cases h; exact each_refl (fun _ _ => rfl) rows
  | cons x l ih =>
    intro rows rows' h hl
    simp only [rowActions] at h
    cases hx : rowAction R rows x with
    | none => rw [hx] at h; cases h
    | some y =>
      rw [hx] at h
      refine each_trans (P := fun r r' => (r n = .null ∨ ∃ i, r n = .int i) → r' n = r n) ?_ ?_
        (ih h (fun a ha => hl a (List.mem_cons_of_mem _ ha)))
      · intro x y z h1 h2 h3
        have := h1 h3
        rw [← this]; exact h2 (by rw [this]; exact h3)
      · rcases hl x List.mem_cons_self with h1 | h1
        · exact each_mono (P := Kp n) (fun x y h => fun _ => h) (rowAction_keeps hx h1)
        · refine each_mono ?_ (casts_each hx h1)
          rintro r r' ⟨v, hv, rfl⟩ hr
          rw [hcast _ hr] at hv
          cases hv
          exact updR_eq

/-- The value of a new column in existing rows, if it is nullable and has no default. -/
theorem add_null {rows rows' : List Row} {n : Text} {spec : ColSpec} (h : rowAction R rows (.addColumn n spec) = some rows')
    (h1 : spec.identity = false) (h2 : spec.default = none) (h3 : spec.notNull = false) :
    Each (fun _ r' => r' n = .null) rows rows' := by
  simp only [rowAction, h1, h2, h3, Bool.false_eq_true, if_false, Bool.false_and] at h
  cases h
  exact each_map (fun r _ => updR_eq)

theorem migrated_nodup (wa : TableWF d a) : ((migratedPairs d a b).map (fun p => p.1.name)).Nodup := by
  have h : ((a.columns.intersection b.columns).map (fun p => key p.1)).Nodup := ODict.intersection_nodup wa.columns _
  exact (List.filter_sublist.map _).nodup h

theorem mem_migrated (wb : TableWF d b) {s u : Column} (hs : s ∈ a.columns.items)
    (hu : u ∈ b.columns.items) (hn : s.name = u.name) (hc : Converted d s u) : (s, u) ∈ migratedPairs d a b := by
  unfold migratedPairs
  rw [List.mem_filter]
  refine ⟨?_, (isColumnMigrated_iff d s u).2 hc⟩
  simp only [ODict.intersection, List.mem_filterMap, Option.map_eq_some_iff]
  refine ⟨s, hs, u, ?_, rfl⟩
  show b.columns.get s.name = some u
  rw [hn]; exact get_of_mem wb.columns hu

theorem migrated_spec {p : Column × Column} (hp : p ∈ migratedPairs d a b) :
    p.1 ∈ a.columns.items ∧ p.2 ∈ b.columns.items ∧ p.1.name = p.2.name ∧ Converted d p.1 p.2 := by
  unfold migratedPairs at hp
  rw [List.mem_filter] at hp
  obtain ⟨h1, h2, h3⟩ := mem_inter (x := p.1) (y := p.2) hp.1
  exact ⟨h1, h2, h3, (isColumnMigrated_iff d _ _).1 hp.2⟩

/-- The value that an added column has in existing rows. -/
theorem phases {stmts : List Stmt} (h : mutateTableBase d a b = .ok stmts) (wa : TableWF d a) (wb : TableWF d b)
    {s u : Column} (hs : s ∈ a.columns.items) (hu : u ∈ b.columns.items) (hn : s.name = u.name) (hc : Converted d s u)
    {D D' : Data} (hr : rowRun R D stmts = some D') :
    ∃ mg D2 D3, (migratedPairs d a b).mapM (fun p => migrateColumn d a p.1 b p.2) = .ok mg
      ∧ rowRun R D2 mg.flatten = some D3
      ∧ (∀ k, k ≠ a.name.key → D2 k = D k ∧ D' k = D3 k)
      ∧ Each (fun r r' => r' (deletedName s.name) = r s.name) (D a.name.key) (D2 a.name.key)
      ∧ (u.identity = false → u.default = none → u.nullable = true →
          Each (fun _ r' => r' u.name = .null) (D a.name.key) (D2 a.name.key))
      ∧ (u.identity = false → u.default = none → u.nullable = false → R.implicit u.ty = none → D a.name.key = [])
      ∧ ((∀ v, v = .null ∨ (∃ i, v = .int i) → R.cast u.ty v = some v) →
          Each (fun r r' => (r u.name = .null ∨ ∃ i, r u.name = .int i) → r' u.name = r u.name)
            (D3 a.name.key) (D' a.name.key)) := by
  obtain ⟨rn, am, an, mg, al, hrn, ham, han, hmg, hal, hst⟩ := table_parts h
  subst hst
  obtain ⟨D3, hr, h4⟩ := rowRun_append_some hr
  obtain ⟨D2, hr, h3⟩ := rowRun_append_some hr
  obtain ⟨D1, h1, h2⟩ := rowRun_append_some hr
  rw [rowRun_alters, Option.map_eq_some_iff] at h1
  obtain ⟨rows1, h1, rfl⟩ := h1
  rw [rowRun_alter', Option.map_eq_some_iff, updR_eq] at h2
  obtain ⟨rows2, h2, rfl⟩ := h2
  rw [rowRun_alter', Option.map_eq_some_iff] at h4
  obtain ⟨rows4, h4, rfl⟩ := h4
  rw [updR_upd] at h3
  obtain ⟨P, Q, hPQ⟩ := List.append_of_mem (mem_migrated wb hs hu hn hc)
  have hnd := migrated_nodup (b := b) wa
  have hmem : ∀ p ∈ P ++ Q, p ∈ migratedPairs d a b ∧ p.1.name ≠ s.name := by
    intro p hp
    rw [hPQ, List.map_append, List.map_cons, List.nodup_append] at hnd
    rcases List.mem_append.1 hp with hp | hp
    · refine ⟨by rw [hPQ]; simp [hp], fun e => ?_⟩
      exact hnd.2.2 _ (List.mem_map_of_mem hp) _ List.mem_cons_self e
    · refine ⟨by rw [hPQ]; simp [hp], fun e => ?_⟩
      have := (List.nodup_cons.1 hnd.2.1).1
      exact this (e ▸ List.mem_map_of_mem (f := fun p : Column × Column => p.1.name) hp)
  have hres : ∀ c ∈ a.columns.items, ∀ x, c.name ≠ deletedName x := fun c hc x => wa.names c hc x
  have hresb : ∀ c ∈ b.columns.items, ∀ x, c.name ≠ deletedName x := fun c hc x => wb.names c hc x
  have hlen1 : rows1.length = (D a.name.key).length :=
    (rowActions_keeps (m := deletedName (deletedName s.name)) h1 (by
      intro x hx
      obtain ⟨p, hp', hk⟩ := mem_mapM' hrn hx
      obtain ⟨sp, rfl⟩ := softDrop_ok hk
      rintro (e | e)
      · exact hres p.1 (migrated_spec hp').1 _ e
      · exact hres p.1 (migrated_spec hp').1 _ (deletedName_inj e))).1
  obtain ⟨spec, x1, x2, rest, hspec, hlen2, hx, h2', hrest⟩ : ∃ spec x1 x2 rest, u.dataSpec d = .ok spec
      ∧ x1.length = rows1.length ∧ rowAction R x1 (.addColumn u.name spec) = some x2
      ∧ rowActions R x2 rest = some rows2 ∧ (∀ x ∈ rest, ¬ About x u.name) := by
    have ham' := ham
    rw [hPQ] at ham'
    obtain ⟨rp, y, rq, hrp, hy, hrq, e⟩ := mapM_split ham'
    obtain ⟨spec, hspec, e'⟩ := createStmt_ok hy
    rw [e, e', List.append_assoc, rowActions_append] at h2
    cases hp : rowActions R rows1 rp with
    | none => rw [hp] at h2; cases h2
    | some x1 =>
      rw [hp] at h2
      simp only [Option.bind_some, List.cons_append, rowActions] at h2
      cases hx : rowAction R x1 (.addColumn u.name spec) with
      | none => rw [hx] at h2; cases h2
      | some x2 =>
        rw [hx] at h2
        simp only [Option.bind_some] at h2
        refine ⟨spec, x1, x2, _, hspec, ?_, hx, h2, ?_⟩
        · exact (rowActions_keeps (m := deletedName []) hp (by
            intro x hx
            obtain ⟨p, hp', hk⟩ := mem_mapM' hrp hx
            obtain ⟨sp, _, rfl⟩ := createStmt_ok hk
            exact fun e => hresb p.2 (migrated_spec (hmem p (List.mem_append_left _ hp')).1).2.1 _ e)).1
        · intro x hx
          rcases List.mem_append.1 hx with hx | hx
          · obtain ⟨p, hp', hk⟩ := mem_mapM' hrq hx
            obtain ⟨sp, _, rfl⟩ := createStmt_ok hk
            have hm := hmem p (List.mem_append_right _ hp')
            exact fun e => hm.2 ((migrated_spec hm.1).2.2.1.trans (Eq.trans e hn.symm))
          · obtain ⟨c, hc', hk⟩ := mem_mapM' han hx
            obtain ⟨sp, _, rfl⟩ := createStmt_ok hk
            exact fun e => (mem_diff hc').2 s hs (Eq.trans e hn.symm)
  obtain ⟨q1, q2, q3, q4, q5⟩ := dataSpec_ty hspec
  refine ⟨mg, _, D3, hmg, h3, fun k hk => ⟨updR_ne hk, updR_ne hk⟩, ?_, ?_, ?_, ?_⟩
  · -- the renamed column holds the former values
    rw [updR_eq]
    rw [hPQ] at hrn
    obtain ⟨rp, y, rq, hrp, hy, hrq, rfl⟩ := mapM_split hrn
    obtain ⟨spec, rfl⟩ := softDrop_ok hy
    rw [rowActions_append] at h1
    cases hp : rowActions R (D a.name.key) rp with
    | none => rw [hp] at h1; cases h1
    | some x1 =>
      rw [hp] at h1
      simp only [Option.bind_some, rowActions, rowAction] at h1
      have k1 : Each (Kp s.name) (D a.name.key) x1 := by
        refine rowActions_keeps hp ?_
        intro x hx
        obtain ⟨p, hp', hk⟩ := mem_mapM' hrp hx
        obtain ⟨sp, rfl⟩ := softDrop_ok hk
        have hm := hmem p (List.mem_append_left _ hp')
        rintro (e | e)
        · exact hm.2 e
        · exact hres s hs _ e.symm
      have k2 := each_map (rows := x1) (P := fun r r' => r' (deletedName s.name) = r s.name)
        (f := fun r => upd (upd r s.name .null) (deletedName s.name) (r s.name)) (fun r _ => updR_eq)
      have k3 : Each (Kp (deletedName s.name))
          (x1.map (fun r => upd (upd r s.name .null) (deletedName s.name) (r s.name))) rows1 := by
        refine rowActions_keeps h1 ?_
        intro x hx
        obtain ⟨p, hp', hk⟩ := mem_mapM' hrq hx
        obtain ⟨sp, rfl⟩ := softDrop_ok hk
        have hm := hmem p (List.mem_append_right _ hp')
        rintro (e | e)
        · exact hres p.1 (migrated_spec hm.1).1 _ e
        · exact hm.2 (deletedName_inj e)
      have k4 : Each (Kp (deletedName s.name)) rows1 rows2 := by
        refine rowActions_keeps h2 ?_
        intro x hx
        rcases List.mem_append.1 hx with hx | hx
        · obtain ⟨p, hp', hk⟩ := mem_mapM' ham hx
          obtain ⟨sp, _, rfl⟩ := createStmt_ok hk
          exact fun e => hresb p.2 (migrated_spec hp').2.1 _ e
        · obtain ⟨c, hc', hk⟩ := mem_mapM' han hx
          obtain ⟨sp, _, rfl⟩ := createStmt_ok hk
          exact fun e => hresb c (mem_diff hc').1 _ e
      have k12 := each_trans (S := fun r r' => r' (deletedName s.name) = r s.name)
        (fun x y z (h : y s.name = x s.name) (h' : z (deletedName s.name) = y s.name) => h'.trans h) k1 k2
      exact each_trans (fun x y z (h : y (deletedName s.name) = x s.name) (h' : Kp _ y z) => Eq.trans h' h)
        k12 (kp_trans k3 k4)
  · intro e1 e2 e3
    rw [updR_eq]
    have k2 := add_null hx (by rw [q2, e1]) (q3 e2) (q4 e3)
    have k3 : Each (Kp u.name) x2 rows2 := rowActions_keeps h2' hrest
    have k := each_trans (S := fun _ r' => r' u.name = .null)
      (fun x y z (h : y u.name = .null) (h' : Kp _ y z) => Eq.trans h' h) k2 k3
    refine ⟨by rw [k.1, hlen2, hlen1], fun i r r' hr hr' => ?_⟩
    have hi : i < x1.length := by
      rw [hlen2, hlen1]; exact (List.getElem?_eq_some_iff.1 hr).1
    exact k.2 i _ r' (List.getElem?_eq_getElem hi) hr'
  · intro e1 e2 e3 e4
    have hnn := q5 e3 e1
    simp only [rowAction, q2, e1, q3 e2, hnn, q1, e4, Bool.false_eq_true, if_false, Bool.true_and,
      Bool.not_eq_true', Option.map_none] at hx
    split at hx
    · cases hx
    · rename_i hemp
      simp only [Bool.not_eq_false, List.isEmpty_iff] at hemp
      rw [hemp] at hlen2
      rw [← hlen2] at hlen1
      exact List.eq_nil_of_length_eq_zero hlen1.symm
  · intro hcast
    rw [updR_eq]
    refine actions_keep_keys hcast h4 ?_
    intro x hx
    rcases alterActions_about hal wa wb hu x hx with h | h
    · exact .inl h
    · exact .inr h.1

/-! ### Lookup tables and the conversion -/

/-- Rows were only added, with numbers under `"id"`. -/
def Grown (x y : List Row) : Prop := ∃ ext, y = x ++ ext ∧ ∀ l ∈ ext, ∃ i, l (t "id") = .int i

theorem grown_refl (x : List Row) : Grown x x := ⟨[], by simp, by simp⟩
theorem grown_trans {x y z : List Row} (h1 : Grown x y) (h2 : Grown y z) : Grown x z := by
  obtain ⟨e1, rfl, k1⟩ := h1
  obtain ⟨e2, rfl, k2⟩ := h2
  refine ⟨e1 ++ e2, by simp, ?_⟩
  intro l hl
  rcases List.mem_append.1 hl with h | h
  · exact k1 l h
  · exact k2 l h

theorem insertAll_grown {ig : Bool} : ∀ {vs : List Val} {rows rows' : List Row},
    insertAll R ig rows vs = some rows' → Grown rows rows' ∧ ∀ v ∈ vs, ∃ l ∈ rows', l (t "value") = v := by
  intro vs
  induction vs with
  | nil => intro rows rows' h; cases h; exact ⟨grown_refl _, by simp⟩
  | cons v vs ih =>
    intro rows rows' h
    simp only [insertAll] at h
    split at h
    · rename_i hv
      split at h
      · obtain ⟨g, k⟩ := ih h
        refine ⟨g, ?_⟩
        intro w hw
        rcases List.mem_cons.1 hw with rfl | hw
        · rw [List.any_eq_true] at hv
          obtain ⟨l, hl, e⟩ := hv
          obtain ⟨ext, rfl, _⟩ := g
          exact ⟨l, List.mem_append_left _ hl, by simpa using e⟩
        · exact k w hw
      · cases h
    · obtain ⟨g, k⟩ := ih h
      have g0 : Grown rows (rows ++ [fun n => if n = t "value" then v else if n = t "id" then .int (R.fresh rows)
          else .null]) := by
        refine ⟨_, rfl, ?_⟩
        intro l hl
        rw [List.mem_singleton.1 hl]
        exact ⟨R.fresh rows, by
          show (if t "id" = t "value" then v else if t "id" = t "id" then Val.int (R.fresh rows) else Val.null) = _
          rw [if_neg (by decide), if_pos rfl]⟩
      refine ⟨grown_trans g0 g, ?_⟩
      intro w hw
      rcases List.mem_cons.1 hw with rfl | hw
      · obtain ⟨ext, e, _⟩ := g
        exact ⟨fun n => if n = t "value" then w else if n = t "id" then .int (R.fresh rows) else .null,
          by rw [e]; simp, if_pos rfl⟩
      · exact k w hw

theorem getConstraint_ok {n : Text} {r : Ref} (h : b.getConstraint n = .ok r) :
    ∃ nm, Constraint.foreign nm [n] r ∈ b.constraints.items := by
  unfold Table.getConstraint at h
  split at h
  · rename_i r' hr
    cases h
    obtain ⟨c, hc, e⟩ := List.exists_of_findSome?_eq_some hr
    split at e
    · rename_i nm cols r'
      split at e
      · cases e
      · rename_i hl
        split at e
        · rename_i hm
          cases e
          refine ⟨nm, ?_⟩
          have : cols = [n] := by
            match cols, hl, hm with
            | [], _, hm => simp at hm
            | [x], _, hm => simp at hm; rw [hm]
            | x :: y :: l, hl, _ => simp at hl
          rw [← this]; exact hc
        · cases e
    · cases e
  · cases h

/-- The statements that convert one column. -/
theorem migrate_ok (hd : d = .postgresql ∨ d = .mysql) {s u : Column} {l : List Stmt}
    (h : migrateColumn d a s b u = .ok l) :
    ∃ nm ref ins, Constraint.foreign nm [u.name] ref ∈ b.constraints.items
      ∧ l = ins ++ [.updateKeys a.name u.name (deletedName s.name) ref.table]
      ∧ ((ins = [] ∧ (d = .mysql → (∀ vs, s.ty ≠ .enum vs) ∧ s.ty.isVarChar = false))
        ∨ (∃ vs, d = .mysql ∧ s.ty = .enum vs ∧ ins = [.insertLabels ref.table vs true])
        ∨ (d = .mysql ∧ s.ty.isVarChar = true ∧ ins = [.insertDistinct ref.table (deletedName s.name) a.name])) := by
  unfold migrateColumn at h
  rcases hd with rfl | rfl
  · simp only [bind, Except.bind] at h
    split at h
    · cases h
    · rename_i r hr
      cases h
      obtain ⟨nm, hm⟩ := getConstraint_ok hr
      exact ⟨nm, r, [], hm, rfl, .inl ⟨rfl, fun h => by cases h⟩⟩
  · simp only [bind, Except.bind] at h
    split at h
    · cases h
    · rename_i r hr
      cases h
      obtain ⟨nm, hm⟩ := getConstraint_ok hr
      refine ⟨nm, r, _, hm, rfl, ?_⟩
      split
      · rename_i vs hv; exact .inr (.inl ⟨vs, rfl, hv, rfl⟩)
      · rename_i hv
        refine .inr (.inr ⟨rfl, ?_, rfl⟩)
        rw [hv]; rfl
      · rename_i h1 h2
        refine .inl ⟨rfl, fun _ => ⟨fun vs e => h1 vs e, ?_⟩⟩
        cases hty : s.ty with
        | varChar c n => exact absurd hty (h2 c n)
        | _ => rfl

/-- What the conversion of one column does to the data. -/
theorem migrate_effect (hd : d = .postgresql ∨ d = .mysql) {s u : Column} {l : List Stmt}
    (h : migrateColumn d a s b u = .ok l)
    (hself : ∀ nm r, Constraint.foreign nm [u.name] r ∈ b.constraints.items → r.table.key ≠ a.name.key)
    {D D' : Data} (hr : rowRun R D l = some D') :
    (∀ m, m ≠ u.name → Each (Kp m) (D a.name.key) (D' a.name.key))
    ∧ (∀ k, k ≠ a.name.key → Grown (D k) (D' k))
    ∧ ∃ nm ref, Constraint.foreign nm [u.name] ref ∈ b.constraints.items
      ∧ Each (fun r r' => match findLabel (D' ref.table.key) (r (deletedName s.name)) with
          | some x => r' u.name = x (t "id")
          | none => r' u.name = r u.name) (D a.name.key) (D' a.name.key)
      ∧ (∀ vs, d = .mysql → s.ty = .enum vs → ∀ v ∈ vs, ∃ x ∈ D' ref.table.key, x (t "value") = .text v)
      ∧ (d = .mysql → s.ty.isVarChar = true → ∀ r ∈ D a.name.key, r (deletedName s.name) ≠ .null
          ∧ ∃ x ∈ D' ref.table.key, x (t "value") = r (deletedName s.name)) := by
  obtain ⟨nm, ref, ins, hfk, rfl, hins⟩ := migrate_ok hd h
  have hk := hself nm ref hfk
  obtain ⟨D1, h1, h2⟩ := rowRun_append_some hr
  rw [rowRun_single] at h2
  simp only [rowStep, Option.some.injEq] at h2
  subst h2
  have hsame : D1 a.name.key = D a.name.key ∧ (∀ k, k ≠ a.name.key → Grown (D k) (D1 k))
      ∧ (∀ vs, d = .mysql → s.ty = .enum vs → ∀ v ∈ vs, ∃ x ∈ D1 ref.table.key, x (t "value") = .text v)
      ∧ (d = .mysql → s.ty.isVarChar = true → ∀ r ∈ D a.name.key, r (deletedName s.name) ≠ .null
          ∧ ∃ x ∈ D1 ref.table.key, x (t "value") = r (deletedName s.name)) := by
    rcases hins with ⟨rfl, hno⟩ | ⟨vs, hm, hty, rfl⟩ | ⟨hm, hty, rfl⟩
    · cases h1
      refine ⟨rfl, fun k _ => grown_refl _, fun vs hm hv => absurd hv ((hno hm).1 vs), fun hm hv => ?_⟩
      rw [(hno hm).2] at hv; cases hv
    · rw [rowRun_single] at h1
      simp only [rowStep, Option.map_eq_some_iff] at h1
      obtain ⟨rows, hi, rfl⟩ := h1
      obtain ⟨g, c⟩ := insertAll_grown hi
      refine ⟨updR_ne (fun e => hk e.symm), fun k _ => ?_, ?_, ?_⟩
      · by_cases e : k = ref.table.key
        · subst e; rw [updR_eq]; exact g
        · rw [updR_ne e]; exact grown_refl _
      · intro vs' _ hty' v hv
        rw [hty] at hty'; cases hty'
        rw [updR_eq]
        exact c _ (List.mem_map_of_mem hv)
      · intro _ hv; rw [hty] at hv; cases hv
    · rw [rowRun_single] at h1
      simp only [rowStep] at h1
      split at h1
      · cases h1
      · rename_i hnull
        simp only [Option.map_eq_some_iff] at h1
        obtain ⟨rows, hi, rfl⟩ := h1
        obtain ⟨g, c⟩ := insertAll_grown hi
        refine ⟨updR_ne (fun e => hk e.symm), fun k _ => ?_, ?_, ?_⟩
        · by_cases e : k = ref.table.key
          · subst e; rw [updR_eq]; exact g
          · rw [updR_ne e]; exact grown_refl _
        · intro vs' _ hty'; rw [hty'] at hty; cases hty
        · intro _ _ r hr'
          refine ⟨fun e => hnull ?_, ?_⟩
          · rw [List.any_eq_true]; exact ⟨r, hr', by simpa using e⟩
          · rw [updR_eq]
            exact c _ (List.mem_map_of_mem (f := fun r : Row => r (deletedName s.name)) hr')
  obtain ⟨e1, g1, c1, c2⟩ := hsame
  refine ⟨?_, ?_, nm, ref, hfk, ?_, ?_, ?_⟩
  · intro m hm
    rw [updR_eq, e1]
    refine each_map (fun r _ => ?_)
    cases hf : findLabel (D1 ref.table.key) (r (deletedName s.name)) with
    | none => rfl
    | some x => exact updR_ne hm
  · intro k hk'
    rw [updR_ne hk']; exact g1 k hk'
  · rw [updR_eq, e1, updR_ne hk]
    refine each_map (fun r _ => ?_)
    cases hf : findLabel (D1 ref.table.key) (r (deletedName s.name)) with
    | none => simp only
    | some x => simp only; exact updR_eq
  · rw [updR_ne hk]; exact c1
  · rw [updR_ne hk]; exact c2

/-- The conversion of several columns leaves another column alone. -/
theorem migrates_keep (hd : d = .postgresql ∨ d = .mysql) {m : Text} : ∀ {l : List (Column × Column)}
    {mg : List (List Stmt)}, l.mapM (fun p => migrateColumn d a p.1 b p.2) = .ok mg →
    (∀ p ∈ l, ∀ nm r, Constraint.foreign nm [p.2.name] r ∈ b.constraints.items → r.table.key ≠ a.name.key) →
    (∀ p ∈ l, m ≠ p.2.name) → ∀ {D D' : Data}, rowRun R D mg.flatten = some D' →
    Each (Kp m) (D a.name.key) (D' a.name.key) ∧ ∀ k, k ≠ a.name.key → Grown (D k) (D' k) := by
  intro l
  induction l with
  | nil =>
    intro mg h _ _ D D' hr
    simp [pure, Except.pure] at h
    subst h
    cases hr
    exact ⟨each_refl (P := Kp m) (fun _ => rfl) _, fun k _ => grown_refl _⟩
  | cons p l ih =>
    intro mg h h1 h2 D D' hr
    obtain ⟨rp, y, rq, hrp, hy, hrq, e⟩ := mapM_split (P := []) h
    simp [pure, Except.pure] at hrp
    subst hrp; subst e
    simp only [List.nil_append, List.flatten_cons] at hr
    obtain ⟨D1, r1, r2⟩ := rowRun_append_some hr
    obtain ⟨k1, k2, _⟩ := migrate_effect hd hy (h1 p List.mem_cons_self) r1
    obtain ⟨k3, k4⟩ := ih hrq (fun p hp => h1 p (List.mem_cons_of_mem _ hp))
      (fun p hp => h2 p (List.mem_cons_of_mem _ hp)) r2
    exact ⟨kp_trans (k1 m (h2 p List.mem_cons_self)) k3, fun k hk => grown_trans (k2 k hk) (k4 k hk)⟩

/-- Comments change no data. -/
theorem rowRun_comments {l : List Stmt} (h : ∀ s ∈ l, (∃ q x, s = .commentTable q x) ∨ ∃ q c x, s = .commentColumn q c x)
    {D : Data} : rowRun R D l = some D := by
  induction l generalizing D with
  | nil => rfl
  | cons s l ih =>
    have : rowStep R D s = some D := by
      rcases h s List.mem_cons_self with ⟨q, x, rfl⟩ | ⟨q, c, x, rfl⟩ <;> rfl
    simp only [rowRun, this, Option.bind_some]
    exact ih (fun s hs => h s (List.mem_cons_of_mem _ hs))

/-- Apart from SQL Server's default constraints the script is the base script and comments. -/
theorem mutateTable_base {stmts : List Stmt} (h : mutateTable d a b = .ok stmts) :
    ∃ pre base post, mutateTableBase d a b = .ok base ∧ stmts = pre ++ base ++ post
      ∧ (∀ s ∈ post, (∃ q x, s = .commentTable q x) ∨ ∃ q c x, s = .commentColumn q c x)
      ∧ (pre = [] ∨ (d = .mssql ∧ pre = a.alterStmt d (mssqlDefaults a b))) := by
  unfold mutateTable at h
  simp only [bind, Except.bind] at h
  split at h
  · cases h
  · rename_i base hb
    split at h
    · cases h
      refine ⟨if mssqlDefaults a b = [] then [] else a.alterStmt .mssql (mssqlDefaults a b), base, [], hb, ?_,
        by simp, ?_⟩
      · by_cases e : mssqlDefaults a b = [] <;> simp [e]
      · by_cases e : mssqlDefaults a b = []
        · exact .inl (if_pos e)
        · exact .inr ⟨rfl, if_neg e⟩
    · cases h
      refine ⟨[], base, _, hb, rfl, ?_, .inl rfl⟩
      intro s hs
      refine .inl ?_
      split at hs
      · exact ⟨_, _, List.mem_singleton.1 hs⟩
      · simp at hs
      · exact ⟨_, _, List.mem_singleton.1 hs⟩
      · split at hs
        · exact ⟨_, _, List.mem_singleton.1 hs⟩
        · simp at hs
    · cases h
      refine ⟨[], base, _, hb, by rw [List.nil_append, List.append_assoc], ?_, .inl rfl⟩
      intro s hs
      rcases List.mem_append.1 hs with hs | hs
      · obtain ⟨c, _, hm⟩ := List.mem_flatMap.1 hs
        obtain ⟨z, e⟩ := commentChange_mem hm
        exact .inr ⟨_, _, _, e⟩
      · obtain ⟨z, e⟩ := commentChange_mem hs
        exact .inl ⟨_, _, e⟩
    · cases h
      exact ⟨[], stmts, [], hb, by simp, by simp, .inl rfl⟩

/-- SQL Server's default constraints change no data. -/
theorem mssqlDefaults_about {x : Action} (hx : x ∈ mssqlDefaults a b) (m : Text) : ¬ About x m := by
  unfold mssqlDefaults at hx
  obtain ⟨p, _, hx⟩ := List.mem_flatMap.1 hx
  unfold mssqlDefault at hx
  split at hx
  · simp at hx
  · rcases List.mem_append.1 hx with hx | hx
    · split at hx
      · rw [List.mem_singleton.1 hx]; exact id
      · simp at hx
    · split at hx
      · rw [List.mem_singleton.1 hx]; exact id
      · simp at hx

/-- Reduction to the base script: the data before it agree (row by row and column by column) with the data at first,
    and the data after it are the final data. -/
theorem to_base {stmts : List Stmt} (h : mutateTable d a b = .ok stmts) {D D' : Data}
    (hr : rowRun R D stmts = some D') : ∃ base D0, mutateTableBase d a b = .ok base ∧ rowRun R D0 base = some D'
      ∧ (∀ k, k ≠ a.name.key → D0 k = D k) ∧ (∀ m, Each (Kp m) (D a.name.key) (D0 a.name.key))
      ∧ (d ≠ .mssql → D0 = D) := by
  obtain ⟨pre, base, post, hb, rfl, hpost, hpre⟩ := mutateTable_base h
  obtain ⟨D1, r1, r2⟩ := rowRun_append_some hr
  rw [rowRun_comments hpost] at r2
  cases r2
  obtain ⟨D0, r0, r1⟩ := rowRun_append_some r1
  refine ⟨base, D0, hb, r1, ?_⟩
  rcases hpre with rfl | ⟨hd, rfl⟩
  · cases r0
    exact ⟨fun k _ => rfl, fun m => each_refl (P := Kp m) (fun _ => rfl) _, fun _ => rfl⟩
  · rw [rowRun_alter, Option.map_eq_some_iff] at r0
    obtain ⟨rows, hrows, rfl⟩ := r0
    refine ⟨fun k hk => updR_ne hk, fun m => ?_, fun hn => absurd hd hn⟩
    rw [updR_eq]
    exact rowActions_keeps hrows (fun x hx => mssqlDefaults_about hx m)

/-- A lookup table still resolves a label after rows were added. -/
theorem findLabel_spec {lookup : List Row} {v : Val} (hv : v ≠ .null) (h : ∃ x ∈ lookup, x (t "value") = v) :
    ∃ x ∈ lookup, findLabel lookup v = some x ∧ x (t "value") = v := by
  unfold findLabel
  rw [if_neg hv]
  cases hf : lookup.find? (fun r => r (t "value") = v) with
  | none =>
    obtain ⟨x, hx, e⟩ := h
    exact absurd (List.find?_eq_none.1 hf x hx) (by simpa using e)
  | some x => exact ⟨x, List.mem_of_find?_eq_some hf, rfl, by simpa using List.find?_some hf⟩

theorem grown_ids {x y : List Row} (h : Grown x y) (hx : ∀ l ∈ x, ∃ i, l (t "id") = .int i) :
    ∀ l ∈ y, ∃ i, l (t "id") = .int i := by
  obtain ⟨e, rfl, k⟩ := h
  intro l hl
  rcases List.mem_append.1 hl with h | h
  · exact hx l h
  · exact k l h

theorem grown_mem {x y : List Row} (h : Grown x y) {l : Row} (hl : l ∈ x) : l ∈ y := by
  obtain ⟨e, rfl, k⟩ := h
  exact List.mem_append_left _ hl

end C10

open C10 in
/-- What the conversion does to each row, whether or not its label is known. -/
theorem C10.resolved {d : Dialect} (hd : d = .postgresql ∨ d = .mysql) {R : RowEngine} {a b : Table}
    (wa : TableWF d a) (wb : TableWF d b) {stmts : List Stmt} (h : mutateTable d a b = .ok stmts)
    {s u : Column} (hs : s ∈ a.columns.items) (hu : u ∈ b.columns.items) (hn : s.name = u.name)
    (hc : Converted d s u) {nm : Text} {ref : Ref} (hfk : Constraint.foreign nm [u.name] ref ∈ b.constraints.items)
    (huniq : ∀ nm' ref', Constraint.foreign nm' [u.name] ref' ∈ b.constraints.items → ref' = ref)
    (hself : ∀ x ∈ a.columns.items, ∀ y ∈ b.columns.items, x.name = y.name → Converted d x y →
      ∀ nm' r, Constraint.foreign nm' [y.name] r ∈ b.constraints.items → r.table.key ≠ a.name.key)
    {D D' : Data} (hid : ∀ l ∈ D ref.table.key, ∃ i, l (t "id") = .int i)
    (hcast : ∀ v, v = .null ∨ (∃ i, v = .int i) → R.cast u.ty v = some v)
    (hr : rowRun R D stmts = some D') :
    Each (fun r r' =>
      (r s.name ≠ .null →
        ((∃ l ∈ D ref.table.key, l (t "value") = r s.name)
        ∨ (d = .mysql ∧ s.ty.isVarChar = true)
        ∨ (d = .mysql ∧ ∃ vs, s.ty = .enum vs ∧ ∃ v ∈ vs, r s.name = .text v)) →
        ResolvesTo (D' ref.table.key) (r' u.name) (r s.name))
      ∧ (r s.name = .null → u.identity = false → u.default = none → u.nullable = true → r' u.name = .null))
      (D a.name.key) (D' a.name.key) := by
  obtain ⟨base, D0, hb, hr0, hk0, hE0, hD0⟩ := to_base h hr
  have e0 : D0 = D := hD0 (by rcases hd with rfl | rfl <;> decide)
  subst e0
  obtain ⟨mg, D2, D3, hmg, h3, hother, hren, hnull, _, hkeep⟩ := phases hb wa wb hs hu hn hc hr0
  have hkeep := hkeep hcast
  have hk : ref.table.key ≠ a.name.key := hself s hs u hu hn hc nm ref hfk
  obtain ⟨P, Q, hPQ⟩ := List.append_of_mem (mem_migrated wb hs hu hn hc)
  have hnd := migrated_nodup (b := b) wa
  have hmem : ∀ p ∈ P ++ Q, p ∈ migratedPairs d a b ∧ p.1.name ≠ s.name := by
    intro p hp
    rw [hPQ, List.map_append, List.map_cons, List.nodup_append] at hnd
    rcases List.mem_append.1 hp with hp | hp
    · refine ⟨by rw [hPQ]; simp [hp], fun e => ?_⟩
      exact hnd.2.2 _ (List.mem_map_of_mem hp) _ List.mem_cons_self e
    · refine ⟨by rw [hPQ]; simp [hp], fun e => ?_⟩
      have := (List.nodup_cons.1 hnd.2.1).1
      exact this (e ▸ List.mem_map_of_mem (f := fun p : Column × Column => p.1.name) hp)
  have hselfp : ∀ p ∈ migratedPairs d a b, ∀ nm r, Constraint.foreign nm [p.2.name] r ∈ b.constraints.items →
      r.table.key ≠ a.name.key := fun p hp =>
    hself p.1 (migrated_spec hp).1 p.2 (migrated_spec hp).2.1 (migrated_spec hp).2.2.1 (migrated_spec hp).2.2.2
  rw [hPQ] at hmg
  obtain ⟨rp, y, rq, hrp, hy, hrq, e⟩ := mapM_split hmg
  subst e
  simp only [List.flatten_append, List.flatten_cons] at h3
  obtain ⟨Da, h3a, h3⟩ := rowRun_append_some h3
  obtain ⟨Db, h3b, h3c⟩ := rowRun_append_some h3
  have hP : ∀ p ∈ P, p ∈ migratedPairs d a b ∧ p.1.name ≠ s.name := fun p hp => hmem p (List.mem_append_left _ hp)
  have hQ : ∀ p ∈ Q, p ∈ migratedPairs d a b ∧ p.1.name ≠ s.name := fun p hp => hmem p (List.mem_append_right _ hp)
  have hPn : ∀ p ∈ P, u.name ≠ p.2.name := fun p hp e =>
    (hP p hp).2 ((migrated_spec (hP p hp).1).2.2.1.trans (e.symm.trans hn.symm))
  have hQn : ∀ p ∈ Q, u.name ≠ p.2.name := fun p hp e =>
    (hQ p hp).2 ((migrated_spec (hQ p hp).1).2.2.1.trans (e.symm.trans hn.symm))
  have hPd : ∀ p ∈ P, deletedName s.name ≠ p.2.name := fun p hp e =>
    wb.names p.2 (migrated_spec (hP p hp).1).2.1 _ e.symm
  obtain ⟨ka1, ga⟩ := migrates_keep hd (m := deletedName s.name) hrp (fun p hp => hselfp p (hP p hp).1) hPd h3a
  obtain ⟨ka2, _⟩ := migrates_keep hd (m := u.name) hrp (fun p hp => hselfp p (hP p hp).1) hPn h3a
  obtain ⟨_, gb, nm', ref', hfk', heff, hen, hvc⟩ := migrate_effect hd hy (hself s hs u hu hn hc) h3b
  have er : ref' = ref := huniq nm' ref' hfk'
  subst er
  obtain ⟨kc, gc⟩ := migrates_keep hd (m := u.name) hrq (fun p hp => hselfp p (hQ p hp).1) hQn h3c
  -- the lookup table
  have gD : Grown (D0 ref'.table.key) (Db ref'.table.key) := by
    have := grown_trans (ga _ hk) (gb _ hk)
    rw [(hother _ hk).1] at this
    exact this
  have ids := grown_ids gD hid
  have gE : Grown (Db ref'.table.key) (D' ref'.table.key) := by
    rw [(hother _ hk).2]; exact gc _ hk
  -- the values
  have kA : Each (fun r r' => r' (deletedName s.name) = r s.name) (D0 a.name.key) (Da a.name.key) :=
    each_trans (fun x y z (h : y (deletedName s.name) = x s.name) (h' : Kp _ y z) => Eq.trans h' h) hren ka1
  have kB := each_and kA (⟨kA.1, fun i r r' hi _ => (List.mem_iff_getElem?.2 ⟨i, hi⟩ : r ∈ D0 a.name.key)⟩ :
    Each (fun r _ => r ∈ D0 a.name.key) (D0 a.name.key) (Da a.name.key))
  have kB := each_and kB (⟨kA.1, fun i r r' _ hi => (List.mem_iff_getElem?.2 ⟨i, hi⟩ : r' ∈ Da a.name.key)⟩ :
    Each (fun _ r' => r' ∈ Da a.name.key) (D0 a.name.key) (Da a.name.key))
  have kN : Each (fun _ r' => u.identity = false → u.default = none → u.nullable = true → r' u.name = .null)
      (D0 a.name.key) (Da a.name.key) := by
    refine ⟨kA.1, fun i r r' hi hi' e1 e2 e3 => ?_⟩
    have := each_trans (S := fun _ r' => r' u.name = .null)
      (fun x y z (h : y u.name = .null) (h' : Kp u.name y z) => Eq.trans h' h) (hnull e1 e2 e3) ka2
    exact this.2 i r r' hi hi'
  have kB := each_and kB kN
  have kC : Each (fun r r' =>
      (((∃ l ∈ D0 ref'.table.key, l (t "value") = r s.name)
        ∨ (d = .mysql ∧ s.ty.isVarChar = true)
        ∨ (d = .mysql ∧ ∃ vs, s.ty = .enum vs ∧ ∃ v ∈ vs, r s.name = .text v)) →
        (∃ l ∈ Db ref'.table.key, l (t "value") = r s.name ∧ r' u.name = l (t "id")) ∨ r s.name = .null)
      ∧ (r s.name = .null → u.identity = false → u.default = none → u.nullable = true → r' u.name = .null))
      (D0 a.name.key) (Db a.name.key) := by
    refine each_trans ?_ kB heff
    rintro x y z ⟨⟨⟨e1, hx⟩, hy'⟩, hnul⟩ hz
    rw [e1] at hz
    constructor
    · intro hlab
      by_cases hv : x s.name = .null
      · exact .inr hv
      · have hex : ∃ l ∈ Db ref'.table.key, l (t "value") = x s.name := by
          rcases hlab with ⟨l, hl, e⟩ | ⟨hm, hty⟩ | ⟨hm, vs, hty, v, hv', e⟩
          · exact ⟨l, grown_mem gD hl, e⟩
          · obtain ⟨_, w, hw, e⟩ := hvc hm hty y hy'
            exact ⟨w, hw, e.trans e1⟩
          · obtain ⟨w, hw, e'⟩ := hen vs hm hty v hv'
            exact ⟨w, hw, e'.trans e.symm⟩
        obtain ⟨w, hw, hf, e⟩ := findLabel_spec hv hex
        rw [hf] at hz
        exact .inl ⟨w, hw, e, hz⟩
    · intro hv i1 i2 i3
      rw [hv] at hz
      simp only [findLabel, if_true] at hz
      rw [hz]; exact hnul i1 i2 i3
  have kD := each_trans (S := fun r r' =>
      (((∃ l ∈ D0 ref'.table.key, l (t "value") = r s.name)
        ∨ (d = .mysql ∧ s.ty.isVarChar = true)
        ∨ (d = .mysql ∧ ∃ vs, s.ty = .enum vs ∧ ∃ v ∈ vs, r s.name = .text v)) →
        (∃ l ∈ Db ref'.table.key, l (t "value") = r s.name ∧ r' u.name = l (t "id")) ∨ r s.name = .null)
      ∧ (r s.name = .null → u.identity = false → u.default = none → u.nullable = true → r' u.name = .null))
      (by
        rintro x y z ⟨h1, h2⟩ (h3 : Kp u.name y z)
        refine ⟨?_, fun e1 e2 e3 e4 => Eq.trans h3 (h2 e1 e2 e3 e4)⟩
        intro hlab
        rcases h1 hlab with ⟨l, hl, e1, e2⟩ | h1
        · exact .inl ⟨l, hl, e1, Eq.trans h3 e2⟩
        · exact .inr h1) kC kc
  refine each_trans ?_ kD hkeep
  rintro x y z ⟨h1, h2⟩ h3
  constructor
  · intro hv hlab
    rcases h1 hlab with ⟨l, hl, e1, e2⟩ | h1
    · obtain ⟨i, hi⟩ := ids l hl
      rw [h3 (.inr ⟨i, e2.trans hi⟩), e2]
      exact ⟨l, grown_mem gE hl, e1, rfl, by rw [hi]; exact fun h => by cases h⟩
    · exact absurd h1 hv
  · intro hv e1 e2 e3
    have := h2 hv e1 e2 e3
    rw [h3 (.inl this)]; exact this

open C10 in
/-- **C10.**  A column of labels (an enumeration, or text) that becomes a foreign key to a lookup table: if the script
    runs, then in every row the new key resolves, in the lookup table, to the label the row had before, and a row
    without a label gets no key. -/
theorem C10_labels_become_keys {d : Dialect} (hd : d = .postgresql ∨ d = .mysql) {R : RowEngine} {a b : Table}
    (wa : TableWF d a) (wb : TableWF d b) {stmts : List Stmt} (h : mutateTable d a b = .ok stmts)
    {s u : Column} (hs : s ∈ a.columns.items) (hu : u ∈ b.columns.items) (hn : s.name = u.name)
    (hc : Converted d s u) {nm : Text} {ref : Ref} (hfk : Constraint.foreign nm [u.name] ref ∈ b.constraints.items)
    (huniq : ∀ nm' ref', Constraint.foreign nm' [u.name] ref' ∈ b.constraints.items → ref' = ref)
    (hself : ∀ x ∈ a.columns.items, ∀ y ∈ b.columns.items, x.name = y.name → Converted d x y →
      ∀ nm' r, Constraint.foreign nm' [y.name] r ∈ b.constraints.items → r.table.key ≠ a.name.key)
    {D D' : Data} (hid : ∀ l ∈ D ref.table.key, ∃ i, l (t "id") = .int i)
    (hcast : ∀ v, v = .null ∨ (∃ i, v = .int i) → R.cast u.ty v = some v)
    (hlab : ∀ r ∈ D a.name.key, r s.name ≠ .null →
      (∃ l ∈ D ref.table.key, l (t "value") = r s.name)
      ∨ (d = .mysql ∧ s.ty.isVarChar = true)
      ∨ (d = .mysql ∧ ∃ vs, s.ty = .enum vs ∧ ∃ v ∈ vs, r s.name = .text v))
    (hr : rowRun R D stmts = some D') :
    Each (fun r r' =>
      (r s.name ≠ .null → ResolvesTo (D' ref.table.key) (r' u.name) (r s.name))
      ∧ (r s.name = .null → u.identity = false → u.default = none → u.nullable = true → r' u.name = .null))
      (D a.name.key) (D' a.name.key) := by
  have hE := C10.resolved hd wa wb h hs hu hn hc hfk huniq hself hid hcast hr
  refine ⟨hE.1, fun i r r' h1 h2 => ?_⟩
  obtain ⟨k1, k2⟩ := hE.2 i r r' h1 h2
  exact ⟨fun hv => k1 hv (hlab r (List.mem_iff_getElem?.2 ⟨i, h1⟩) hv), k2⟩

open C10 in
/-- The part of C10 that fails: the new key column is added `NOT NULL` before it is filled, which a database that has
    no implicit values refuses if there is any row (`Mutator.mutate_table_stmt`, formation/mutation.py:173-194). -/
theorem C10_not_null_column_refused {d : Dialect} {R : RowEngine} {a b : Table}
    (wa : TableWF d a) (wb : TableWF d b) {stmts : List Stmt} (h : mutateTable d a b = .ok stmts)
    {s u : Column} (hs : s ∈ a.columns.items) (hu : u ∈ b.columns.items) (hn : s.name = u.name)
    (hc : Converted d s u) (hi : u.identity = false) (hdef : u.default = none) (hnull : u.nullable = false)
    (himp : R.implicit u.ty = none) {D : Data} (hrows : D a.name.key ≠ []) : rowRun R D stmts = none := by
  cases hr : rowRun R D stmts with
  | none => rfl
  | some D' =>
    obtain ⟨base, D0, hb, hr0, _, hE0, _⟩ := to_base h hr
    obtain ⟨mg, D2, D3, hmg, h3, hother, hren, _, hbad, hkeep⟩ := phases hb wa wb hs hu hn hc hr0
    have h1 := hbad hi hdef hnull himp
    have h2 := (hE0 []).1
    rw [h1] at h2
    exact absurd (List.eq_nil_of_length_eq_zero h2.symm) hrows

theorem C10.mapM_nil {α β : Type} : ∀ {l : List α} {r : List (List β)},
    l.mapM (fun _ => (Except.ok [] : Except Err (List β))) = .ok r → r.flatten = [] := by
  intro l
  induction l with
  | nil => intro r h; simp [pure, Except.pure] at h; subst h; rfl
  | cons x l ih =>
    intro r h
    obtain ⟨rp, y, rq, hrp, hy, hrq, e⟩ := mapM_split (P := []) h
    simp [pure, Except.pure] at hrp
    subst hrp; subst e; cases hy
    simpa using ih hrq

open C10 in
/-- The part of C10 that fails: with every other dialect the conversion forgets the values of the column. -/
theorem C10_other_dialects_forget {d : Dialect} (h1 : d ≠ .postgresql) (h2 : d ≠ .mysql) {R : RowEngine} {a b : Table}
    (wa : TableWF d a) (wb : TableWF d b) {stmts : List Stmt} (h : mutateTable d a b = .ok stmts)
    {s u : Column} (hs : s ∈ a.columns.items) (hu : u ∈ b.columns.items) (hn : s.name = u.name)
    (hc : Converted d s u) (hi : u.identity = false) (hdef : u.default = none) (hnull : u.nullable = true)
    (hcast : ∀ v, v = .null ∨ (∃ i, v = .int i) → R.cast u.ty v = some v)
    {D D' : Data} (hr : rowRun R D stmts = some D') :
    Each (fun _ r' => r' u.name = .null) (D a.name.key) (D' a.name.key) := by
  obtain ⟨base, D0, hb, hr0, _, hE0, _⟩ := to_base h hr
  obtain ⟨mg, D2, D3, hmg, h3, hother, hren, hz, _, hkeep⟩ := phases hb wa wb hs hu hn hc hr0
  have e : mg.flatten = [] := by
    refine C10.mapM_nil (α := Column × Column) (l := migratedPairs d a b) ?_
    rw [← hmg]
    congr 1
    funext p
    unfold migrateColumn
    split
    · exact absurd rfl h1
    · exact absurd rfl h2
    · rfl
  rw [e] at h3
  cases h3
  refine each_trans (fun x y z (_ : Kp u.name x y) (h' : z u.name = .null) => h') (hE0 u.name) ?_
  refine each_trans ?_ (hz hi hdef hnull) (hkeep hcast)
  intro x y z h h'
  rw [h' (.inl h)]; exact h

open C10 in
/-- **C10.**  The values of a column that is the same in both versions stay, whatever happens to other columns. -/
theorem C10_unchanged_column_keeps_data {d : Dialect} {R : RowEngine} {a b : Table}
    (wa : TableWF d a) (wb : TableWF d b) {stmts : List Stmt} (h : mutateTable d a b = .ok stmts)
    {c : Column} (ha : c ∈ a.columns.items) (hb : c ∈ b.columns.items)
    (hself : ∀ x ∈ a.columns.items, ∀ y ∈ b.columns.items, x.name = y.name → Converted d x y →
      ∀ nm r, Constraint.foreign nm [y.name] r ∈ b.constraints.items → r.table.key ≠ a.name.key)
    {D D' : Data} (hr : rowRun R D stmts = some D') :
    Each (fun r r' => r' c.name = r c.name) (D a.name.key) (D' a.name.key) := by
  obtain ⟨base, D0, hbase, hr0, _, hE0, _⟩ := to_base h hr
  refine kp_trans (m := c.name) (hE0 c.name) ?_
  obtain ⟨rn, am, an, mg, al, hrn, ham, han, hmg, hal, hst⟩ := table_parts hbase
  subst hst
  obtain ⟨D3, hr, h4⟩ := rowRun_append_some hr0
  obtain ⟨D2, hr, h3⟩ := rowRun_append_some hr
  obtain ⟨D1, h1, h2⟩ := rowRun_append_some hr
  rw [rowRun_alters, Option.map_eq_some_iff] at h1
  obtain ⟨rows1, h1, rfl⟩ := h1
  rw [rowRun_alter', Option.map_eq_some_iff, updR_eq] at h2
  obtain ⟨rows2, h2, rfl⟩ := h2
  rw [rowRun_alter', Option.map_eq_some_iff] at h4
  obtain ⟨rows4, h4, rfl⟩ := h4
  rw [updR_upd] at h3
  have hmig : ∀ p ∈ migratedPairs d a b, p.1.name ≠ c.name := by
    intro p hp e
    obtain ⟨p1, p2, p3, p4⟩ := migrated_spec hp
    have e1 : p.1 = c := eq_of_key wa.columns p1 ha e
    have e2 : p.2 = c := eq_of_key wb.columns p2 hb (p3.symm.trans e)
    rw [e1, e2] at p4
    exact p4.1 rfl
  have k1 : Each (Kp c.name) (D0 a.name.key) rows1 := by
    refine rowActions_keeps h1 ?_
    intro x hx
    obtain ⟨p, hp', hk⟩ := mem_mapM' hrn hx
    obtain ⟨sp, rfl⟩ := softDrop_ok hk
    rintro (e | e)
    · exact hmig p hp' e
    · exact wa.names c ha _ e.symm
  have k2 : Each (Kp c.name) rows1 rows2 := by
    refine rowActions_keeps h2 ?_
    intro x hx
    rcases List.mem_append.1 hx with hx | hx
    · obtain ⟨p, hp', hk⟩ := mem_mapM' ham hx
      obtain ⟨sp, _, rfl⟩ := createStmt_ok hk
      exact fun e => hmig p hp' ((migrated_spec hp').2.2.1.trans e)
    · obtain ⟨c', hc', hk⟩ := mem_mapM' han hx
      obtain ⟨sp, _, rfl⟩ := createStmt_ok hk
      exact fun e => (mem_diff hc').2 c ha e
  have k3 : Each (Kp c.name) rows2 (D3 a.name.key) := by
    by_cases hd : d = .postgresql ∨ d = .mysql
    · have := (migrates_keep hd (m := c.name) hmg (fun p hp =>
    hself p.1 (migrated_spec hp).1 p.2 (migrated_spec hp).2.1 (migrated_spec hp).2.2.1 (migrated_spec hp).2.2.2)
        (fun p hp e => hmig p hp ((migrated_spec hp).2.2.1.trans e.symm)) h3).1
      rw [updR_eq] at this
      exact this
    · have e : mg.flatten = [] := by
        refine C10.mapM_nil (α := Column × Column) (l := migratedPairs d a b) ?_
        rw [← hmg]
        congr 1
        funext p
        unfold migrateColumn
        split
        · exact absurd (.inl rfl) hd
        · exact absurd (.inr rfl) hd
        · rfl
      rw [e] at h3
      cases h3
      rw [updR_eq]
      exact each_refl (P := Kp c.name) (fun _ => rfl) _
  have k4 : Each (Kp c.name) (D3 a.name.key) rows4 := by
    refine rowActions_keeps h4 ?_
    intro x hx
    rcases alterActions_about hal wa wb hb x hx with h | ⟨_, s, hs, e1, e2⟩
    · exact h
    · exact absurd (eq_of_key wa.columns hs ha e1) e2
  rw [updR_eq]
  exact kp_trans (kp_trans (kp_trans k1 k2) k3) k4

namespace C10.Example
open PySqlSync.Example

/-- A database without implicit values that converts nothing. -/
def R : RowEngine where
  eval := fun _ => .null
  implicit := fun _ => none
  cast := fun _ v => some v
  number := fun i => i
  fresh := fun rows => rows.length + 1
  literal := fun _ => []

def order2 : Table := { order1 with
  columns := ⟨[key0 "id", col "customer" int8 false, col "status" int8, col "total" int8 false]⟩ }

def row (id status : Val) : Row := fun n => if n = t "id" then id else if n = t "status" then status else
  if n = t "total" then .int 5 else .null
def label (id : Int) (v : String) : Row := fun n => if n = t "id" then .int id else if n = t "value" then .text (t v) else .null

/-- Three orders, one without a status; the lookup table lists the labels in another order. -/
def D : Data := fun k =>
  if k = order0.name.key then [row (.int 1) (.text (t "paid")), row (.int 2) .null, row (.int 3) (.text (t "open"))]
  else if k = status1.name.key then [label 7 "open", label 9 "paid"] else []

def script (a b : Table) : List Stmt := ((mutateTable .postgresql a b).toOption).getD []

/-- The hypotheses of the theorems hold, the script runs, and the keys are those of the labels. -/
example : Converted .postgresql (col "status" (.user (q "shop" "status")) false) (col "status" int8)
    ∧ (rowRun R D (script order0 order2)).map (fun D' => (D' order0.name.key).map (fun r => (r (t "status"), r (t "total"))))
      = some [(.int 9, .int 5), (.null, .int 5), (.int 7, .int 5)] := by
  refine ⟨⟨by decide, by decide, by decide⟩, by decide +kernel⟩

/-- The theorem applied to it. -/
example {D' : Data} (hr : rowRun R D (script order0 order2) = some D') :
    Each (fun r r' => r (t "status") ≠ .null → ResolvesTo (D' status1.name.key) (r' (t "status")) (r (t "status")))
      (D order0.name.key) (D' order0.name.key) := by
  have hs : mutateTable .postgresql order0 order2 = .ok (script order0 order2) :=
    ok_of_toOption (by decide +kernel)
  have := C10_labels_become_keys (d := .postgresql) (.inl rfl) (R := R) (a := order0) (b := order2)
    (tableWFB_ok (by decide +kernel)) (tableWFB_ok (by decide +kernel)) hs
    (s := col "status" (.user (q "shop" "status")) false) (u := col "status" int8)
    (by decide +kernel) (by decide +kernel) rfl ⟨by decide, by decide, by decide⟩
    (nm := t "fk_status") (ref := ⟨q "shop" "status", [t "id"]⟩) (by decide +kernel)
    (by intro nm' ref' h
        simp only [order2, order1, List.mem_cons, Constraint.foreign.injEq, List.not_mem_nil, or_false] at h
        rcases h with ⟨_, h, _⟩ | ⟨_, _, h⟩
        · exact absurd h (by decide)
        · exact h)
    (by intro _ _ c _ _ _ nm' r h
        simp only [order2, order1, List.mem_cons, Constraint.foreign.injEq, List.not_mem_nil, or_false] at h
        rcases h with ⟨_, _, rfl⟩ | ⟨_, _, rfl⟩ <;> decide +kernel)
    (D := D) (by
      intro l hl
      have : D (q "shop" "status").key = [label 7 "open", label 9 "paid"] := rfl
      rw [this] at hl
      rcases List.mem_cons.1 hl with rfl | hl
      · exact ⟨7, by decide +kernel⟩
      · rw [List.mem_singleton.1 hl]; exact ⟨9, by decide +kernel⟩)
    (fun v _ => rfl)
    (by
      intro r hr hv
      left
      have : D order0.name.key = [row (.int 1) (.text (t "paid")), row (.int 2) .null, row (.int 3) (.text (t "open"))] :=
        rfl
      rw [this] at hr
      rcases List.mem_cons.1 hr with rfl | hr
      · exact ⟨label 9 "paid", by show _ ∈ [label 7 "open", label 9 "paid"]; simp, by decide +kernel⟩
      · rcases List.mem_cons.1 hr with rfl | hr
        · exact absurd (by decide +kernel) hv
        · rw [List.mem_singleton.1 hr]
          exact ⟨label 7 "open", by show _ ∈ [label 7 "open", label 9 "paid"]; simp, by decide +kernel⟩)
    hr
  exact each_mono (fun x y h => h.1) this

/-- With a key that is not nullable the script is refused. -/
example : (rowRun R D (script order0 order1)).isNone := by decide +kernel

end C10.Example
end PySqlSync
