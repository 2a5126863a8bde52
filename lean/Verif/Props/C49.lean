/-
C49 — Synchronization keeps the data of what both states share.
-/
import Verif.Lemmas.Data
import Verif.Examples.Shop

set_option autoImplicit false

namespace PySqlSync
open Spec

namespace C49
open Dat

variable {R : RowEngine} {d : Dialect} {o : MutatorOptions} {topo : List (Text × List Text) → Except Err (List Text)}

theorem unfed {S T : Catalog} {k : Key} (h : ¬ Fed d S T k) {x y : Table} (hx : IsTable S x) (hy : IsTable T y) (hxy : x.name.key = y.name.key) :
    Unfed d x y k := by
  intro hd s hs u hu hn hc nm r hf e
  exact h ⟨hd, x, y, hx, hy, hxy, s, hs, u, hu, hn, hc, nm, r, hf, e⟩

/-- All statements spare a column that is in both states and is not converted to keys. -/
theorem spares (ht : Sorts topo) {S T : Catalog} (wS : CatWF d S) (wT : CatWF d T) {stmts : List Stmt}
    (h : mutateCatalog topo d o S T = .ok stmts) {a b : Table} (ha : IsTable S a) (hb : IsTable T b) (hab : a.name.key = b.name.key)
    {c c' : Column} (hc : c ∈ a.columns.items) (hc' : c' ∈ b.columns.items) (hn : c.name = c'.name) (hconv : ¬ Converted d c c')
    {ty : Option SqlType} (hty : ty = some c'.ty ∨ c = c') {grow : Bool} (hg : grow = true ∨ ¬ Fed d S T a.name.key) :
    ∀ s ∈ stmts, Spares grow a.name.key c.name ty s := by
  intro s hs
  have hun : ∀ x y, IsTable S x → IsTable T y → x.name.key = y.name.key → grow = true ∨ Unfed d x y a.name.key :=
    fun x y hx hy hxy => hg.imp id fun h => unfed h hx hy hxy
  obtain ⟨n, hn', han⟩ := ha
  obtain ⟨n2, hn2, hbn⟩ := hb
  refine catalog_spares ht wS wT h ?_ ?_ ?_ ?_ hs
  · intro m hm e
    refine ⟨n2, hn2, ?_⟩
    rw [e, ← (wT.wf n2 hn2).tableScope b hbn, hab]
  · intro _ _ _; exact ⟨a, ⟨n, hn', han⟩, rfl⟩
  · intro _ _ _; exact ⟨b, ⟨n2, hn2, hbn⟩, hab.symm⟩
  · intro x y hx hy hxy l hl s hs
    by_cases e : x.name.key = a.name.key
    · obtain ⟨nx, hnx, hxn⟩ := hx
      obtain ⟨ny, hny, hyn⟩ := hy
      obtain ⟨_, rfl⟩ := table_unique wS hnx hn' hxn han e
      obtain ⟨_, rfl⟩ := table_unique wT hny hn2 hyn hbn (hxy.symm.trans hab)
      exact table_own hl ((wS.wf _ hn').wf _ han) ((wT.wf _ hn2).wf _ hbn) hc hc' hn hconv hty
        (hun _ _ ⟨nx, hnx, hxn⟩ ⟨ny, hny, hyn⟩ hxy) hs
    · exact table_other hl e (hun x y hx hy hxy) hs

theorem survives {grow : Bool} {P Q : Row → Row → Prop} {x y : List Row} (h : Sv grow P x y) (hPQ : ∀ r ∈ x, ∀ r', P r r' → Q r r') :
    Survives Q x y := by
  obtain ⟨k, e, rfl, hk, _⟩ := h
  exact ⟨k, e, rfl, hk.1, fun i r r' hr hr' => hPQ r (List.mem_of_getElem? hr) r' (hk.2 i r r' hr hr')⟩

theorem mutateColumn_casts {s u : Column} {acts : List Action} (h : mutateColumn d s u = .ok acts) (hty : s.ty ≠ u.ty) :
    ∃ x ∈ acts, C10.Casts x s.name u.ty := by
  have hne : s ≠ u := fun e => hty (congrArg Column.ty e)
  unfold mutateColumn at h
  split at h
  · simp only [hty, ne_eq, not_false_eq_true, decide_true, Bool.true_or, if_true, Conv.bind_ok, Conv.pure_ok] at h
    obtain ⟨sp, hsp, rfl⟩ := h
    exact ⟨_, List.mem_singleton_self _, rfl, (C10.dataSpec_ty hsp).1⟩
  · simp only [hty, ne_eq, not_false_eq_true, if_true, Option.isSome_some, Bool.true_or, Except.ok.injEq] at h
    subst h
    exact ⟨_, List.mem_singleton_self _, rfl, rfl⟩
  · split at h
    · cases h
    · simp only [hty, ne_eq, not_false_eq_true, decide_true, Bool.true_or, if_true, Except.ok.injEq] at h
      subst h
      exact ⟨_, List.mem_singleton_self _, rfl, rfl⟩
  · rw [if_neg hne] at h
    simp only [hty, ne_eq, not_false_eq_true, if_true, Except.ok.injEq] at h
    subst h
    exact ⟨.setDataType s.name u.ty, by simp, rfl, rfl⟩

theorem alterStmt_mem {a : Table} {acts : List Action} {x : Action} (hx : x ∈ acts) : ∃ l, x ∈ l ∧ Stmt.alterTable a.name l ∈ a.alterStmt d acts := by
  unfold Table.alterStmt
  split
  · exact ⟨[x], by simp, List.mem_map.2 ⟨x, hx, rfl⟩⟩
  · exact ⟨acts, hx, by simp⟩

/-- A column whose type changes is converted by a statement of the table's script. -/
theorem casts_mem {a b : Table} {l : List Stmt} (h : mutateTable d a b = .ok l) (wb : TableWF d b) {c c' : Column} (ha : c ∈ a.columns.items)
    (hb : c' ∈ b.columns.items) (hn : c.name = c'.name) (hty : c.ty ≠ c'.ty) :
    ∃ acts x, Stmt.alterTable a.name acts ∈ l ∧ x ∈ acts ∧ C10.Casts x c.name c'.ty := by
  obtain ⟨pre, base, post, hbase, rfl, hpost, hpre⟩ := C10.mutateTable_base h
  obtain ⟨rn, am, an, mg, al, hrn, ham, han, hmg, hal, rfl⟩ := table_parts hbase
  have hmem : ∃ x ∈ al, C10.Casts x c.name c'.ty := by
    unfold alterActions at hal
    simp only [bind, Except.bind] at hal
    split at hal
    · cases hal
    · rename_i ch hch
      have hch := wrapColumn_ok' hch
      split at hal
      · cases hal
      · simp only [pure, Except.pure, Except.ok.injEq] at hal
        subst hal
        obtain ⟨y, hy, hy'⟩ := Conv.mapM_fwd hch _ (Rem.mem_inter_intro wb.columns ha hb hn)
        obtain ⟨x, hx, hcast⟩ := mutateColumn_casts hy' hty
        refine ⟨x, ?_, hcast⟩
        simp only [List.mem_append, List.mem_flatten]
        exact .inl (.inl (.inl (.inr ⟨y, hy, hx⟩)))
  obtain ⟨x, hx, hcast⟩ := hmem
  have hne : al ≠ [] := fun e => by rw [e] at hx; cases hx
  obtain ⟨acts, hxa, hst⟩ := alterStmt_mem (d := d) (a := a) hx
  refine ⟨acts, x, ?_, hxa, hcast⟩
  rw [if_neg hne]
  simp only [List.mem_append]
  exact .inl (.inr (.inr hst))

theorem cast_actions {ty : SqlType} {m : Text} (hs : Settles R ty) {acts : List Action} {x : Action} (hx : x ∈ acts) (hcast : C10.Casts x m ty)
    (h : ∀ a ∈ acts, ¬ About a m ∨ CastsTo a m (some ty)) {rows rows' : List Row} (hr : rowActions R rows acts = some rows') :
    Each (ConvertedValue R ty m) rows rows' := by
  obtain ⟨p, q, rfl⟩ := List.append_of_mem hx
  rw [rowActions_append, Option.bind_eq_some_iff] at hr
  obtain ⟨r1, h1, h2⟩ := hr
  simp only [rowActions, Option.bind_eq_some_iff] at h2
  obtain ⟨r2, h2, h3⟩ := h2
  have hset : Settled R (some ty) := by intro u hu; cases hu; exact hs
  have k1 := actions_w hset (fun a ha => h a (by simp [ha])) h1
  have k3 := actions_w hset (fun a ha => h a (by simp [ha])) h3
  have k2 : Each (ConvertedValue R ty m) r1 r2 := by
    refine each_mono ?_ (C10.casts_each h2 hcast)
    rintro x y ⟨v, hv, rfl⟩
    show _ = some (upd x m v m)
    rw [updR_eq]; exact hv
  exact each_trans (P := W R (some ty) m) (Q := fun y u => ∃ z, R.cast ty (y m) = some (z m) ∧ W R (some ty) m z u) (S := ConvertedValue R ty m)
    (fun x y z h1 ⟨u, h2, h3⟩ => w_cast_w hs h1 h2 h3) k1
    (each_trans (P := ConvertedValue R ty m) (Q := W R (some ty) m) (fun x y z h1 h2 => ⟨y, h1, h2⟩) k2 k3)

end C49

open C49 Dat in
/-- **C49.**  A column that both states have, in a table that both states have, and that is of the same data type in both: whatever else
    changes, if the script runs then every row is still there and holds the value it held.  (If the definition of the column changes otherwise,
    e.g. whether it may be `NULL`, some databases convert the values to the same type again: they must be values of this type.) -/
theorem C49_data_kept {topo : List (Text × List Text) → Except Err (List Text)} {d : Dialect} {o : MutatorOptions} {R : RowEngine}
    (ht : Sorts topo) {S T : Catalog} (wS : CatWF d S) (wT : CatWF d T) {stmts : List Stmt}
    (h : mutateCatalog topo d o S T = .ok stmts) {a b : Table} (ha : IsTable S a) (hb : IsTable T b) (hab : a.name.key = b.name.key)
    {c c' : Column} (hc : c ∈ a.columns.items) (hc' : c' ∈ b.columns.items) (hn : c.name = c'.name) (hty : c.ty = c'.ty)
    {D D' : Data} (hval : c = c' ∨ (Settles R c.ty ∧ ∀ r ∈ D a.name.key, R.cast c.ty (r c.name) = some (r c.name)))
    (hr : rowRun R D stmts = some D') :
    Survives (SameValue c.name) (D a.name.key) (D' a.name.key) := by
  have hconv : ¬ Converted d c c' := fun e => e.1 hty
  rcases hval with hval | ⟨hs, hv⟩
  · refine survives (run_w (grow := true) (ty := none) (by intro u hu; cases hu)
      (spares ht wS wT h ha hb hab hc hc' hn hconv (.inr hval) (.inl rfl)) hr) ?_
    rintro r _ r' (h | ⟨u, hu, _⟩)
    · exact h
    · cases hu
  · refine survives (run_w (grow := true) (ty := some c.ty) (by intro u hu; cases hu; exact hs)
      (spares ht wS wT h ha hb hab hc hc' hn hconv (.inl (congrArg some hty)) (.inl rfl)) hr) ?_
    rintro r hr r' (h | ⟨u, hu, h⟩)
    · exact h
    · cases hu
      rw [hv r hr] at h
      exact (Option.some.inj h).symm

open C49 Dat in
/-- **C49.**  A column that both states have, in a table that both states have, and whose data type changes (other than from labels to keys):
    if the script runs then every row is still there and holds the value it held, converted to the new type. -/
theorem C49_data_converted {topo : List (Text × List Text) → Except Err (List Text)} {d : Dialect} {o : MutatorOptions} {R : RowEngine}
    (ht : Sorts topo) {S T : Catalog} (wS : CatWF d S) (wT : CatWF d T) {stmts : List Stmt}
    (h : mutateCatalog topo d o S T = .ok stmts) {a b : Table} (ha : IsTable S a) (hb : IsTable T b) (hab : a.name.key = b.name.key)
    {c c' : Column} (hc : c ∈ a.columns.items) (hc' : c' ∈ b.columns.items) (hn : c.name = c'.name) (hty : c.ty ≠ c'.ty)
    (hconv : ¬ Converted d c c') (hs : Settles R c'.ty) {D D' : Data} (hr : rowRun R D stmts = some D') :
    Survives (ConvertedValue R c'.ty c.name) (D a.name.key) (D' a.name.key) := by
  have hsp := spares ht wS wT h ha hb hab hc hc' hn hconv (ty := some c'.ty) (.inl rfl) (grow := true) (.inl rfl)
  obtain ⟨n, hna, han⟩ := ha
  obtain ⟨n', hnb, hbn⟩ := hb
  have hnn : n.name = n'.name := by
    rw [← (wS.wf n hna).tableScope a han, ← (wT.wf n' hnb).tableScope b hbn, hab]
  obtain ⟨P, l, Q, rfl, hl, _⟩ := catalog_around ht wS wT h hna hnb hnn
  obtain ⟨P2, lx, Q2, rfl, hlx, _⟩ := namespace_around (wS.wf n hna) (wT.wf n' hnb) hl han hbn (congrArg Prod.snd hab)
  obtain ⟨acts, x, hst, hx, hcast⟩ := casts_mem hlx ((wT.wf n' hnb).wf b hbn) hc hc' hn hty
  have hmem : Stmt.alterTable a.name acts ∈ P ++ (P2 ++ (lx ++ Q2) ++ Q) := by simp [hst]
  obtain ⟨p, q, e⟩ := List.append_of_mem hmem
  rw [e] at hr hsp
  have hset : Settled R (some c'.ty) := by intro u hu; cases hu; exact hs
  obtain ⟨D1, r1, r2⟩ := rowRun_append_some hr
  simp only [rowRun, Option.bind_eq_some_iff] at r2
  obtain ⟨D2, r2, r3⟩ := r2
  have k1 := run_w hset (fun s hs => hsp s (by simp [hs])) r1
  have k3 := run_w hset (fun s hs => hsp s (by simp [hs])) r3
  simp only [rowStep, Option.map_eq_some_iff] at r2
  obtain ⟨rows, r2, rfl⟩ := r2
  have k2 : Sv true (ConvertedValue R c'.ty c.name) (D1 a.name.key) (upd D1 a.name.key rows a.name.key) := by
    rw [updR_eq]
    have h0 := hsp (.alterTable a.name acts) (by simp)
    exact sv_of_each (cast_actions hs hx hcast (h0.resolve_left fun e => e rfl) r2)
  refine survives (grow := true) (P := ConvertedValue R c'.ty c.name) ?_ (fun _ _ _ h => h)
  · exact sv_trans (P := W R (some c'.ty) c.name) (Q := fun y u => ∃ z, R.cast c'.ty (y c.name) = some (z c.name) ∧ W R (some c'.ty) c.name z u)
      (S := ConvertedValue R c'.ty c.name) (fun x y z h1 ⟨u, h2, h3⟩ => w_cast_w hs h1 h2 h3) k1
      (sv_trans (P := ConvertedValue R c'.ty c.name) (Q := W R (some c'.ty) c.name) (fun x y z h1 h2 => ⟨y, h1, h2⟩) k2 k3)

open C49 Dat in
/-- **C49.**  A table that both states have neither loses nor gains rows; only on MySQL, a table to which the labels of a converted column are
    to refer may gain rows. -/
theorem C49_no_row_lost_or_added {topo : List (Text × List Text) → Except Err (List Text)} {d : Dialect} {o : MutatorOptions} {R : RowEngine}
    (ht : Sorts topo) {S T : Catalog} (wS : CatWF d S) (wT : CatWF d T) {stmts : List Stmt}
    (h : mutateCatalog topo d o S T = .ok stmts) {a b : Table} (ha : IsTable S a) (hb : IsTable T b) (hab : a.name.key = b.name.key)
    {c : Column} (hc : c ∈ a.columns.items) (hc' : c ∈ b.columns.items) (hfed : ¬ Fed d S T a.name.key)
    {D D' : Data} (hr : rowRun R D stmts = some D') :
    Each (SameValue c.name) (D a.name.key) (D' a.name.key) := by
  have hconv : ¬ Converted d c c := fun e => e.1 rfl
  obtain ⟨k, e, he, hk, hg⟩ := run_w (grow := false) (ty := none) (by intro u hu; cases hu)
      (spares ht wS wT h ha hb hab hc hc' rfl hconv (.inr rfl) (.inr hfed)) hr
  have := hg rfl
  subst this
  rw [he, List.append_nil]
  refine each_mono ?_ hk
  rintro r r' (h | ⟨u, hu, _⟩)
  · exact h
  · cases hu

open C49 Dat in
/-- **C49.**  The rows of a table that the library does not know about, in a schema that it does not drop, are not touched at all. -/
theorem C49_other_tables_untouched {topo : List (Text × List Text) → Except Err (List Text)} {d : Dialect} {o : MutatorOptions} {R : RowEngine}
    (ht : Sorts topo) {S T : Catalog} (wS : CatWF d S) (wT : CatWF d T) {stmts : List Stmt}
    (h : mutateCatalog topo d o S T = .ok stmts) {k : Key} (hS : ∀ a, IsTable S a → a.name.key ≠ k) (hT : ∀ b, IsTable T b → b.name.key ≠ k)
    (hschema : ∀ n ∈ S.namespaces.items, n.name = k.1 → ∃ n' ∈ T.namespaces.items, n'.name = n.name) (hfed : ¬ Fed d S T k)
    {D D' : Data} (hr : rowRun R D stmts = some D') : D' k = D k := by
  have key : ∀ m, Each (SameValue m) (D k) (D' k) := by
    intro m
    have hsp : ∀ s ∈ stmts, Spares false k m none s := fun s hs =>
      catalog_spares ht wS wT h hschema (fun b hb e => absurd e (hT b hb)) (fun a ha e => absurd e (hS a ha))
        (fun x y hx hy hxy l hl s hs => table_other hl (hS x hx) (.inr (unfed hfed hx hy hxy)) hs) hs
    obtain ⟨kp, e, he, hk, hg⟩ := run_w (grow := false) (ty := none) (by intro u hu; cases hu) hsp hr
    have := hg rfl
    subst this
    rw [he, List.append_nil]
    refine each_mono ?_ hk
    rintro r r' (h | ⟨u, hu, _⟩)
    · exact h
    · cases hu
  refine List.ext_getElem? fun i => ?_
  cases hi : (D k)[i]? with
  | none =>
    rw [List.getElem?_eq_none_iff] at hi ⊢
    rw [(key []).1]; exact hi
  | some r =>
    have hlt : i < (D' k).length := by
      rw [(key []).1]; exact (List.getElem?_eq_some_iff.1 hi).1
    rw [List.getElem?_eq_getElem hlt]
    refine congrArg some (funext fun m => ?_)
    exact (key m).2 i r _ hi (List.getElem?_eq_getElem hlt)

namespace C49.Example
open PySqlSync.Example

/-- A database without implicit values that cuts text to the length of the type. -/
def R : RowEngine where
  eval := fun _ => .text []
  implicit := fun _ => none
  cast := fun ty v =>
    match ty, v with
    | .varChar _ (some n), .text s => some (.text (s.take n))
    | _, v => some v
  number := fun i => i
  fresh := fun rows => rows.length + 1
  literal := fun _ => []

/-- The second version of the shop, where an order need not have a status. -/
def order2 : Table := { order1 with
  columns := ⟨[key0 "id", col "customer" int8 false, col "status" int8, col "total" int8 false]⟩ }
def target2 : Catalog := ⟨⟨[audit1, { shop1 with tables := ⟨[customer1, order2, status1]⟩ }]⟩⟩

def row (l : List (String × Val)) : Row := fun n => ((l.find? (fun p => t p.1 = n)).map Prod.snd).getD .null

/-- Two customers, two orders, and a table that was not created by the library. -/
def D : Data := fun k =>
  if k = customer0.name.key then
    [row [("id", .int 1), ("name", .text (t "Ann")), ("fax", .text (t "12"))],
      row [("id", .int 2), ("name", .text (List.replicate 99 'x'))]]
  else if k = order0.name.key then
    [row [("id", .int 1), ("customer", .int 2), ("status", .text (t "paid")), ("total", .int 5)],
      row [("id", .int 2), ("customer", .int 1), ("total", .int 7)]]
  else if k = (t "shop", t "notes") then [row [("note", .text (t "hello"))]] else []

def script2 : List Stmt := ((mutateCatalog topo .postgresql {} source target2).toOption).getD []

theorem script2_ok : mutateCatalog topo .postgresql {} source target2 = .ok script2 := ok_of_toOption (by decide +kernel)
theorem target2_wf : Spec.CatWF .postgresql target2 := catWFB_ok (by decide +kernel)

/-- The script runs; what both states share is as it was. -/
example : (rowRun R D script2).map (fun D' =>
      ((D' customer0.name.key).map (fun r => (r (t "id"), r (t "fax"))), (D' order0.name.key).map (fun r => (r (t "customer"), r (t "total"))),
        (D' (t "shop", t "notes")).map (fun r => r (t "note"))))
    = some ([(.int 1, .null), (.int 2, .null)], [(.int 2, .int 5), (.int 1, .int 7)], [.text (t "hello")]) := by decide +kernel

theorem settles (ty : SqlType) : Settles R ty := by
  intro v w h
  simp only [R] at h ⊢
  split at h
  · cases h
    simp [List.take_take]
  · cases h
    rename_i h'
    split
    · rename_i n s
      exact absurd rfl (h' _ _ _ rfl)
    · rfl

theorem customers : IsTable source customer0 := ⟨shop0, by decide +kernel, by decide +kernel⟩
theorem customers' : IsTable target2 customer1 := ⟨_, List.mem_cons_of_mem _ List.mem_cons_self, by decide +kernel⟩
theorem orders : IsTable source order0 := ⟨shop0, by decide +kernel, by decide +kernel⟩
theorem orders' : IsTable target2 order2 := ⟨_, List.mem_cons_of_mem _ List.mem_cons_self, by decide +kernel⟩
theorem unfed (k : Key) : ¬ Fed .postgresql source target2 k := fun h => absurd h.1 (by decide)

/-- The theorems applied to it: the customers of the orders, … -/
example {D' : Data} (hr : rowRun R D script2 = some D') :
    Each (SameValue (t "customer")) (D order0.name.key) (D' order0.name.key) :=
  C49_no_row_lost_or_added topo_sorts source_wf target2_wf script2_ok orders orders' rfl
    (c := col "customer" int8 false) (by decide +kernel) (by decide +kernel) (unfed _) hr

/-- …the names of the customers, … -/
example {D' : Data} (hr : rowRun R D script2 = some D') :
    Survives (ConvertedValue R (.varChar .base (some 80)) (t "name")) (D customer0.name.key) (D' customer0.name.key) :=
  C49_data_converted topo_sorts source_wf target2_wf script2_ok customers customers' rfl
    (c := col "name" text false) (c' := col "name" (.varChar .base (some 80)) false) (by decide +kernel) (by decide +kernel) rfl (by decide)
    (fun h => absurd h.2.1 (by decide)) (settles _) hr

/-- …and the other table. -/
example {D' : Data} (hr : rowRun R D script2 = some D') : D' (t "shop", t "notes") = D (t "shop", t "notes") := by
  refine C49_other_tables_untouched topo_sorts source_wf target2_wf script2_ok ?_ ?_ ?_ (unfed _) hr
  · rintro a ⟨n, hn, ha⟩
    have : ∀ n ∈ source.namespaces.items, ∀ a ∈ n.tables.items, a.name.key ≠ (t "shop", t "notes") := by decide +kernel
    exact this n hn a ha
  · rintro a ⟨n, hn, ha⟩
    have : ∀ n ∈ target2.namespaces.items, ∀ a ∈ n.tables.items, a.name.key ≠ (t "shop", t "notes") := by decide +kernel
    exact this n hn a ha
  · decide +kernel

end C49.Example
end PySqlSync
