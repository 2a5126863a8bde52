/-
Helper lemmas: what a script does to the rows of a lookup table.
-/
import Verif.Lemmas.Data

set_option autoImplicit false

namespace PySqlSync.Dat
open Spec

variable {R : RowEngine} {d : Dialect} {o : MutatorOptions} {topo : List (Text × List Text) → Except Err (List Text)}

/-- Every row keeps its `"id"` and `"value"`; rows are only added, with numbers under `"id"`. -/
def Lk (x y : List Row) : Prop :=
  ∃ kept ext, y = kept ++ ext ∧ Each (fun r r' => r' (t "id") = r (t "id") ∧ r' (t "value") = r (t "value")) x kept
    ∧ ∀ l ∈ ext, ∃ i, l (t "id") = .int i

theorem lk_of_grown {x y : List Row} (h : C10.Grown x y) : Lk x y := by
  obtain ⟨ext, rfl, k⟩ := h
  exact ⟨x, ext, rfl, each_refl (fun _ => ⟨rfl, rfl⟩) x, k⟩

theorem lk_refl (x : List Row) : Lk x x := lk_of_grown (C10.grown_refl x)

theorem each_mem_back {P : Row → Row → Prop} {x y : List Row} (h : Each P x y) {r' : Row} (hr : r' ∈ y) : ∃ r ∈ x, P r r' := by
  obtain ⟨i, hi⟩ := List.mem_iff_getElem?.1 hr
  have hlt : i < x.length := by rw [← h.1]; exact (List.getElem?_eq_some_iff.1 hi).1
  exact ⟨x[i], List.getElem_mem hlt, h.2 i _ _ (List.getElem?_eq_getElem hlt) hi⟩

theorem each_mem_fwd {P : Row → Row → Prop} {x y : List Row} (h : Each P x y) {r : Row} (hr : r ∈ x) : ∃ r' ∈ y, P r r' := by
  obtain ⟨i, hi⟩ := List.mem_iff_getElem?.1 hr
  have hlt : i < y.length := by rw [h.1]; exact (List.getElem?_eq_some_iff.1 hi).1
  exact ⟨y[i], List.getElem_mem hlt, h.2 i _ _ hi (List.getElem?_eq_getElem hlt)⟩

theorem lk_trans {x y z : List Row} (h1 : Lk x y) (h2 : Lk y z) : Lk x z := by
  obtain ⟨k1, e1, rfl, hk1, g1⟩ := h1
  obtain ⟨k2, e2, rfl, hk2, g2⟩ := h2
  have hall := hk2
  obtain ⟨p, q, rfl, hp, hq⟩ := each_append_left hk2
  refine ⟨p, q ++ e2, by simp, each_trans ?_ hk1 hp, ?_⟩
  · rintro a b c ⟨h1, h2⟩ ⟨h3, h4⟩
    exact ⟨h3.trans h1, h4.trans h2⟩
  · intro l hl
    rcases List.mem_append.1 hl with hl | hl
    · obtain ⟨i, hi⟩ := List.mem_iff_getElem?.1 hl
      have hi' : (p ++ q)[p.length + i]? = some l := by rw [List.getElem?_append_right (by omega)]; simpa using hi
      have hlt : p.length + i < (k1 ++ e1).length := by rw [← hall.1]; exact (List.getElem?_eq_some_iff.1 hi').1
      have h := hall.2 _ _ _ (List.getElem?_eq_getElem hlt) hi'
      have hm : (k1 ++ e1)[p.length + i] ∈ e1 := by
        rw [List.getElem_append_right (by rw [hp.1]; omega)]; exact List.getElem_mem _
      obtain ⟨j, hj⟩ := g1 _ hm
      exact ⟨j, h.1.trans hj⟩
    · exact g2 l hl

theorem lk_ids {x y : List Row} (h : Lk x y) (hx : ∀ l ∈ x, ∃ i, l (t "id") = .int i) : ∀ l ∈ y, ∃ i, l (t "id") = .int i := by
  obtain ⟨k, e, rfl, hk, g⟩ := h
  intro l hl
  rcases List.mem_append.1 hl with hl | hl
  · obtain ⟨r, hr, h1, _⟩ := each_mem_back hk hl
    obtain ⟨i, hi⟩ := hx r hr
    exact ⟨i, h1.trans hi⟩
  · exact g l hl

theorem lk_mem {x y : List Row} (h : Lk x y) {l : Row} (hl : l ∈ x) : ∃ l' ∈ y, l' (t "id") = l (t "id") ∧ l' (t "value") = l (t "value") := by
  obtain ⟨k, e, rfl, hk, g⟩ := h
  obtain ⟨r, hr, h⟩ := each_mem_fwd hk hl
  exact ⟨r, List.mem_append_left _ hr, h⟩

theorem lk_resolves {x y : List Row} (h : Lk x y) {k v : Val} (hr : ResolvesTo x k v) : ResolvesTo y k v := by
  obtain ⟨l, hl, h1, h2, h3⟩ := hr
  obtain ⟨l', hl', h4, h5⟩ := lk_mem h hl
  exact ⟨l', hl', h5.trans h1, h4.trans h2, h3⟩

/-- A statement that only adds rows with generated numbers to a lookup table. -/
def Tame (k : Key) (s : Stmt) : Prop :=
  (Spares true k (t "id") none s ∧ Spares true k (t "value") none s) ∨ ∃ q cols rows, s = .insertRows q cols rows ∧ t "id" ∉ cols

theorem tame_of_spares {k : Key} {s : Stmt} (h : ∀ m, Spares true k m none s) : Tame k s := .inl ⟨h _, h _⟩

theorem foldl_ids {α : Type} (g : List Row → α → Row) (hg : ∀ acc x, ∃ i, g acc x (t "id") = .int i) : ∀ (l : List α) (acc : List Row),
    C10.Grown acc (l.foldl (fun acc x => acc ++ [g acc x]) acc)
  | [], acc => C10.grown_refl acc
  | x :: l, acc => by
    rw [List.foldl_cons]
    refine C10.grown_trans ⟨[g acc x], rfl, ?_⟩ (foldl_ids g hg l (acc ++ [g acc x]))
    intro y hy
    rw [List.mem_singleton.1 hy]; exact hg acc x

theorem not_grown {k : Key} {m : Text} {s : Stmt} (h : Spares true k m none s) :
    Spares false k m none s ∨ (∃ q l i, s = .insertLabels q l i ∧ q.key = k) ∨ (∃ q c x, s = .insertDistinct q c x ∧ q.key = k) := by
  cases s
  case insertLabels q l i =>
    by_cases e : q.key = k
    · exact .inr (.inl ⟨q, l, i, rfl, e⟩)
    · exact .inl (.inr e)
  case insertDistinct q c x =>
    by_cases e : q.key = k
    · exact .inr (.inr ⟨q, c, x, rfl, e⟩)
    · exact .inl (.inr e)
  all_goals exact .inl h

theorem step_lk {k : Key} {s : Stmt} (h : Tame k s) {D D' : Data} (hr : rowStep R D s = some D') : Lk (D k) (D' k) := by
  rcases h with ⟨h1, h2⟩ | ⟨q, cols, rows, rfl, hid⟩
  · rcases not_grown h1 with h1' | ⟨q, l, i, rfl, e⟩ | ⟨q, c, x, rfl, e⟩
    · rcases not_grown h2 with h2' | ⟨q, l, i, rfl, e⟩ | ⟨q, c, x, rfl, e⟩
      · have hset : Settled R none := by intro u hu; cases hu
        obtain ⟨k1, e1, he1, hk1, g1⟩ := step_w hset h1' hr
        obtain ⟨k2, e2, he2, hk2, g2⟩ := step_w hset h2' hr
        have := g1 rfl; subst this
        have := g2 rfl; subst this
        rw [List.append_nil] at he1 he2
        subst he1
        subst he2
        refine ⟨_, [], (List.append_nil _).symm, ?_, by simp⟩
        refine each_mono ?_ (each_and hk1 hk2)
        rintro x y ⟨h | ⟨u, hu, _⟩, h' | ⟨u', hu', _⟩⟩
        · exact ⟨h, h'⟩
        · cases hu'
        · cases hu
        · cases hu
      · simp only [rowStep, Option.map_eq_some_iff] at hr
        obtain ⟨rows, hr, rfl⟩ := hr
        rw [← e, updR_eq]
        exact lk_of_grown (C10.insertAll_grown hr).1
      · simp only [rowStep] at hr
        split at hr
        · cases hr
        · rw [Option.map_eq_some_iff] at hr
          obtain ⟨rows, hr, rfl⟩ := hr
          rw [← e, updR_eq]
          exact lk_of_grown (C10.insertAll_grown hr).1
    · simp only [rowStep, Option.map_eq_some_iff] at hr
      obtain ⟨rows, hr, rfl⟩ := hr
      rw [← e, updR_eq]
      exact lk_of_grown (C10.insertAll_grown hr).1
    · simp only [rowStep] at hr
      split at hr
      · cases hr
      · rw [Option.map_eq_some_iff] at hr
        obtain ⟨rows, hr, rfl⟩ := hr
        rw [← e, updR_eq]
        exact lk_of_grown (C10.insertAll_grown hr).1
  · by_cases e : q.key = k
    · simp only [rowStep, Option.some.injEq] at hr
      subst hr
      rw [← e, updR_eq]
      refine lk_of_grown (foldl_ids (fun acc text n =>
        match (cols.zip (R.literal text)).find? (fun p => p.1 = n) with
        | some p => p.2
        | none => if n = t "id" then .int (R.fresh acc) else .null) ?_ rows (D q.key))
      intro acc text
      refine ⟨R.fresh acc, ?_⟩
      have : (cols.zip (R.literal text)).find? (fun p => decide (p.1 = t "id")) = none := by
        rw [List.find?_eq_none]
        intro p hp e
        exact hid ((of_decide_eq_true e) ▸ (List.of_mem_zip hp).1)
      simp only [this, if_true]
    · obtain ⟨ext, rfl⟩ := insertRows_prefix hr
      rw [updR_ne (fun h => e h.symm)]
      exact lk_refl _

theorem run_lk {k : Key} : ∀ {l : List Stmt} {D D' : Data}, (∀ s ∈ l, Tame k s) → rowRun R D l = some D' → Lk (D k) (D' k)
  | [], D, D', _, hr => by cases hr; exact lk_refl _
  | s :: l, D, D', h, hr => by
    simp only [rowRun, Option.bind_eq_some_iff] at hr
    obtain ⟨D1, h1, h2⟩ := hr
    exact lk_trans (step_lk (h s List.mem_cons_self) h1) (run_lk (fun x hx => h x (List.mem_cons_of_mem _ hx)) h2)

/-- After a new lookup table has been created, its rows have numbers under `"id"`, and it has the labels of the enumeration of its name. -/
theorem created_lookup {a b : Namespace} (wb : NsWF d b) {r : List (List Stmt)}
    (hr : (b.tables.difference a.tables).mapM (fun tb => tb.createStmt d) = .ok r) {tb : Table} (htb : tb ∈ b.tables.difference a.tables)
    (hid : t "id" ∈ tb.primaryKey) {D D' : Data} {X : List Stmt}
    (hrun : rowRun R D (X ++ r.flatten ++ (b.tables.difference a.tables).flatMap (Table.addConstraintsStmt d)
        ++ (softPairs a b).flatMap (fun p => migrateEnum d p.1 p.2)) = some D') :
    (∀ l ∈ D' tb.name.key, ∃ i, l (t "id") = .int i)
    ∧ ∀ e, (e, tb) ∈ softPairs a b → ∀ v ∈ e.values, ∃ l ∈ D' tb.name.key, l (t "value") = .text v := by
  obtain ⟨D3, hrun, hm⟩ := rowRun_append_some hrun
  obtain ⟨D2, hrun, hc⟩ := rowRun_append_some hrun
  obtain ⟨p, lx, s, h1, h2, h3⟩ := Rem.split_mapM (key := fun tb : Table => tb.name.localId) hr (ODict.difference_nodup wb.tables _) htb
  rw [h2] at hrun
  obtain ⟨D1, h4, hrun⟩ := rowRun_append_some hrun
  obtain ⟨D1', h5, hrun⟩ := rowRun_append_some hrun
  obtain ⟨D1'', h6, hrun⟩ := rowRun_append_some hrun
  have hother : ∀ st ∈ s, Tame tb.name.key st := by
    intro st hst
    obtain ⟨y, hy, hk, ly, hly, hm⟩ := h3 st (List.mem_append_right _ hst)
    refine tame_of_spares fun m => create_spares hly ?_ hm
    intro e
    exact hk (congrArg Prod.snd e)
  have hadd : ∀ st ∈ (b.tables.difference a.tables).flatMap (Table.addConstraintsStmt d), Tame tb.name.key st := by
    intro st hst
    obtain ⟨y, _, hst⟩ := List.mem_flatMap.1 hst
    exact tame_of_spares fun m => addConstraints_spares hst
  have hmig : ∀ st ∈ (softPairs a b).flatMap (fun p => migrateEnum d p.1 p.2), Tame tb.name.key st := by
    intro st hst
    obtain ⟨y, _, hst⟩ := List.mem_flatMap.1 hst
    rw [List.mem_singleton.1 (show st ∈ [_] from hst)]
    exact tame_of_spares fun m => .inl rfl
  have hown : ∀ l ∈ D1'' tb.name.key, ∃ i, l (t "id") = .int i := by
    unfold Table.createStmt at h1
    simp only [Conv.bind_ok, Conv.pure_ok] at h1
    obtain ⟨cols, hcols, rfl⟩ := h1
    simp only [rowRun, rowStep, Option.bind_eq_some_iff] at h6
    obtain ⟨D0, h0, h6⟩ := h6
    cases h0
    refine lk_ids (run_lk (k := tb.name.key) ?_ h6) ?_
    · intro st hst
      rcases List.mem_append.1 hst with hst | hst
      · have : (∃ x, st = .commentTable tb.name x) ∨ ∃ c x, st = .commentColumn tb.name c x := by
          split at hst
          · rcases List.mem_append.1 hst with hst | hst
            · split at hst
              · exact .inl ⟨_, List.mem_singleton.1 hst⟩
              · cases hst
            · obtain ⟨c, _, hst⟩ := List.mem_flatMap.1 hst
              split at hst
              · exact .inr ⟨_, _, List.mem_singleton.1 hst⟩
              · cases hst
          · cases hst
        rcases this with ⟨_, rfl⟩ | ⟨_, _, rfl⟩ <;> exact .inl ⟨trivial, trivial⟩
      · split at hst
        · rw [List.mem_singleton.1 hst]
          refine .inr ⟨_, _, _, rfl, ?_⟩
          intro hm
          obtain ⟨c, hc, e⟩ := List.mem_map.1 hm
          simp only [Table.valueColumns, List.mem_filter, Bool.and_eq_true, Bool.not_eq_true', List.contains_eq_mem, decide_eq_false_iff_not] at hc
          rw [e] at hc
          exact hc.2.1 hid
        · cases hst
    · intro l hl
      rw [updR_eq] at hl
      cases hl
  have k2 : ∀ l ∈ D2 tb.name.key, ∃ i, l (t "id") = .int i := lk_ids (run_lk hother hrun) hown
  have k3 : ∀ l ∈ D3 tb.name.key, ∃ i, l (t "id") = .int i := lk_ids (run_lk hadd hc) k2
  refine ⟨lk_ids (run_lk hmig hm) k3, ?_⟩
  intro e he v hv
  obtain ⟨A, B, hAB⟩ := List.append_of_mem he
  rw [hAB, List.flatMap_append, List.flatMap_cons] at hm hmig
  obtain ⟨D4, m1, m2⟩ := rowRun_append_some hm
  obtain ⟨D5, m2, m3⟩ := rowRun_append_some m2
  simp only [migrateEnum, rowRun, rowStep, Option.bind_eq_some_iff, Option.map_eq_some_iff] at m2
  obtain ⟨D6, ⟨rows, m2, rfl⟩, m4⟩ := m2
  cases m4
  obtain ⟨l, hl, e1⟩ := (C10.insertAll_grown m2).2 (.text v) (List.mem_map_of_mem hv)
  have := run_lk (k := tb.name.key) (fun st hst => hmig st (by simp [hst])) m3
  rw [updR_eq] at this
  obtain ⟨l', hl', _, e2⟩ := lk_mem this hl
  exact ⟨l', hl', e2.trans e1⟩

end PySqlSync.Dat
