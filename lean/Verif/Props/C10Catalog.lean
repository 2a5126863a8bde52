/-
C10 — Data survives the conversion of labels to keys: whole scripts.
-/
import Verif.Lemmas.DataLookup
import Verif.Props.C49

set_option autoImplicit false

namespace PySqlSync
open Spec

namespace C10
open Dat

variable {R : RowEngine} {d : Dialect} {o : MutatorOptions} {topo : List (Text × List Text) → Except Err (List Text)}

/-- What every row of a table whose column is converted holds afterwards. -/
abbrev Resolved (lookup : List Row) (s u : Column) : Row → Row → Prop := fun r r' =>
  (r s.name ≠ .null → ResolvesTo lookup (r' u.name) (r s.name))
  ∧ (r s.name = .null → u.identity = false → u.default = none → u.nullable = true → r' u.name = .null)

/-- From the statements of one table to the whole script. -/
theorem around {a b : Table} {Pre lx Post : List Stmt} {k : Key} {s u : Column} (hn : s.name = u.name)
    (hpre : ∀ st ∈ Pre, Spares false a.name.key s.name none st) (hpost : ∀ st ∈ Post, Spares false a.name.key s.name none st)
    (hl : ∀ st ∈ Post, Tame k st) {D D' : Data} (hr : rowRun R D (Pre ++ (lx ++ Post)) = some D')
    (hblock : ∀ D1 D2, rowRun R D Pre = some D1 → Each (Kp s.name) (D a.name.key) (D1 a.name.key) → rowRun R D1 lx = some D2 →
      Each (Resolved (D2 k) s u) (D1 a.name.key) (D2 a.name.key)) :
    Each (Resolved (D' k) s u) (D a.name.key) (D' a.name.key) := by
  obtain ⟨D1, r1, hr⟩ := rowRun_append_some hr
  obtain ⟨D2, r2, r3⟩ := rowRun_append_some hr
  have hset : Settled R none := by intro u hu; cases hu
  have keep : ∀ {l : List Stmt} {X Y : Data}, (∀ st ∈ l, Spares false a.name.key s.name none st) → rowRun R X l = some Y →
      Each (Kp s.name) (X a.name.key) (Y a.name.key) := by
    intro l X Y h hr
    obtain ⟨kp, e, he, hk, g⟩ := run_w hset h hr
    have := g rfl
    subst this
    rw [he, List.append_nil]
    refine each_mono ?_ hk
    rintro x y (h | ⟨u, hu, _⟩)
    · exact h
    · cases hu
  have k1 := keep hpre r1
  have k2 := hblock D1 D2 r1 k1 r2
  have k3 := keep hpost r3
  have kl := run_lk hl r3
  refine each_trans (P := Kp s.name) (Q := Resolved (D' k) s u) ?_ k1
    (each_trans (P := Resolved (D2 k) s u) (Q := Kp s.name) ?_ k2 k3)
  · rintro x y z (h : y s.name = x s.name) ⟨h1, h2⟩
    rw [h] at h1 h2
    exact ⟨h1, h2⟩
  · rintro x y z ⟨h1, h2⟩ (h : z s.name = y s.name)
    rw [hn] at h
    unfold Resolved
    rw [show z u.name = y u.name from h]
    exact ⟨fun e => lk_resolves kl (h1 e), h2⟩

theorem in_diff {α : Type} [Named α] {x y : ODict α} {a : α} (ha : a ∈ x.items) (h : ∀ b ∈ y.items, key b ≠ key a) :
    a ∈ x.difference y := by
  rw [ODict.mem_difference]
  refine ⟨ha, ?_⟩
  intro hm
  obtain ⟨b, hb, e⟩ := List.mem_map.1 hm
  exact h b hb e

/-- The script around the statements of a common table. -/
theorem split (ht : Sorts topo) {S T : Catalog} (wS : CatWF d S) (wT : CatWF d T) {stmts : List Stmt}
    (h : mutateCatalog topo d o S T = .ok stmts) {n n' : Namespace} (hnS : n ∈ S.namespaces.items) (hnT : n' ∈ T.namespaces.items)
    (hnn : n.name = n'.name) {a b : Table} (ha : a ∈ n.tables.items) (hb : b ∈ n'.tables.items) (hab : a.name.localId = b.name.localId)
    (hfed : ¬ Fed d S T a.name.key) :
    ∃ X P1 P2 lx Q1 Q r, stmts = (X ++ (P1 ++ P2)) ++ (lx ++ (Q1 ++ Q)) ∧ mutateTable d a b = .ok lx
      ∧ (∀ st ∈ X ++ (P1 ++ P2), ∀ m ty, Spares false a.name.key m ty st) ∧ (∀ st ∈ Q1 ++ Q, ∀ m ty, Spares false a.name.key m ty st)
      ∧ (n'.tables.difference n.tables).mapM (fun tb => tb.createStmt d) = .ok r
      ∧ P1 = (n'.enums.difference n.enums).flatMap EnumType.createStmt ++ (n'.structs.difference n.structs).flatMap (StructType.createStmt d)
          ++ (softPairs n n').flatMap (fun p => p.1.softDropStmt) ++ r.flatten ++ (n'.tables.difference n.tables).flatMap (Table.addConstraintsStmt d)
          ++ (softPairs n n').flatMap (fun p => migrateEnum d p.1 p.2)
      ∧ ∀ st ∈ P2 ++ (lx ++ (Q1 ++ Q)), ∀ tb ∈ n'.tables.difference n.tables, ∀ m ty, Spares true tb.name.key m ty st := by
  obtain ⟨X, l, Q, rfl, hl, hX⟩ := catalog_around ht wS wT h hnS hnT hnn
  obtain ⟨P, lx, Q1, rfl, hlx, hP, P1, P2, r, rfl, hr, hP1, hnew⟩ := namespace_around (wS.wf n hnS) (wT.wf n' hnT) hl ha hb hab
  have hak : a.name.key.1 = n'.name := ((wS.wf n hnS).tableScope a ha).trans hnn
  have hun : ∀ x y, IsTable S x → IsTable T y → x.name.key = y.name.key → Unfed d x y a.name.key := fun x y hx hy hxy => C49.unfed hfed hx hy hxy
  have hun' : ∀ x ∈ n.tables.items, ∀ y ∈ n'.tables.items, x.name.localId = y.name.localId → Unfed d x y a.name.key := by
    intro x hx y hy hxy
    refine hun x y ⟨n, hnS, hx⟩ ⟨n', hnT, hy⟩ (Prod.ext ?_ hxy)
    exact ((wS.wf n hnS).tableScope x hx).trans (hnn.trans ((wT.wf n' hnT).tableScope y hy).symm)
  refine ⟨X, P1, P2, lx, Q1, Q, r, by simp only [List.append_assoc], hlx, ?_, ?_, hr, hP1, ?_⟩
  · intro st hst m ty
    rcases List.mem_append.1 hst with hst | hst
    · exact hX st (List.mem_append_left _ hst) _ hak false m ty (.inr hun)
    · exact hP st (List.mem_append_left _ hst) false m ty (.inr hun')
  · intro st hst m ty
    rcases List.mem_append.1 hst with hst | hst
    · exact hP st (List.mem_append_right _ hst) false m ty (.inr hun')
    · exact hX st (List.mem_append_right _ hst) _ hak false m ty (.inr hun)
  · intro st hst tb htb m ty
    rcases List.mem_append.1 hst with h1 | h1
    · exact hnew st (List.mem_append_left _ h1) tb htb m ty
    · rcases List.mem_append.1 h1 with h2 | h2
      · exact hnew st (by simp [h2]) tb htb m ty
      · rcases List.mem_append.1 h2 with h3 | h3
        · exact hnew st (by simp [h3]) tb htb m ty
        · exact hX st (List.mem_append_right _ h3) _ ((wT.wf n' hnT).tableScope tb (mem_diff htb).1) true m ty (.inl rfl)

end C10

open C10 Dat in
/-- **C10.**  Whole scripts, with a new lookup table: a column of labels becomes a foreign key to a lookup table that is created by the same
    script in the same schema.  PostgreSQL: the labels are those of an enumeration type that the table replaces; MySQL: the labels are those
    of an inline enumeration, or any text.  If the script runs, then in every row the key resolves to the label the row had before, and rows
    without a label get no key, whatever else changes in the script. -/
theorem C10_new_lookup {d : Dialect} (hd : d = .postgresql ∨ d = .mysql) {R : RowEngine} {o : MutatorOptions}
    {topo : List (Text × List Text) → Except Err (List Text)} (ht : Sorts topo) {S T : Catalog} (wS : CatWF d S) (wT : CatWF d T)
    {stmts : List Stmt} (h : mutateCatalog topo d o S T = .ok stmts)
    {n n' : Namespace} (hnS : n ∈ S.namespaces.items) (hnT : n' ∈ T.namespaces.items) (hnn : n.name = n'.name)
    {a b : Table} (ha : a ∈ n.tables.items) (hb : b ∈ n'.tables.items) (hab : a.name.localId = b.name.localId)
    {s u : Column} (hs : s ∈ a.columns.items) (hu : u ∈ b.columns.items) (hn : s.name = u.name) (hc : Converted d s u)
    {tb : Table} (htb : tb ∈ n'.tables.items) (hnew : ∀ x ∈ n.tables.items, x.name.localId ≠ tb.name.localId) (hid : t "id" ∈ tb.primaryKey)
    {nm : Text} {ref : Ref} (hfk : Constraint.foreign nm [u.name] ref ∈ b.constraints.items) (href : ref.table.key = tb.name.key)
    (huniq : ∀ nm' ref', Constraint.foreign nm' [u.name] ref' ∈ b.constraints.items → ref' = ref)
    (hself : ∀ x ∈ a.columns.items, ∀ y ∈ b.columns.items, x.name = y.name → Converted d x y →
      ∀ nm' r, Constraint.foreign nm' [y.name] r ∈ b.constraints.items → r.table.key ≠ a.name.key)
    (hfed : ¬ Fed d S T a.name.key)
    (hcast : ∀ v, v = .null ∨ (∃ i, v = .int i) → R.cast u.ty v = some v)
    {D D' : Data}
    (hlab : ∀ r ∈ D a.name.key, r s.name ≠ .null →
      (d = .postgresql ∧ ∃ e ∈ n.enums.items, e.name = tb.name ∧ ∃ v ∈ e.values, r s.name = .text v)
      ∨ (d = .mysql ∧ s.ty.isVarChar = true)
      ∨ (d = .mysql ∧ ∃ vs, s.ty = .enum vs ∧ ∃ v ∈ vs, r s.name = .text v))
    (hr : rowRun R D stmts = some D') :
    Each (fun r r' =>
      (r s.name ≠ .null → ResolvesTo (D' tb.name.key) (r' u.name) (r s.name))
      ∧ (r s.name = .null → u.identity = false → u.default = none → u.nullable = true → r' u.name = .null))
      (D a.name.key) (D' a.name.key) := by
  obtain ⟨X, P1, P2, lx, Q1, Q, r, rfl, hlx, hpre, hpost, hmap, hP1, hspare⟩ := split ht wS wT h hnS hnT hnn ha hb hab hfed
  have htd : tb ∈ n'.tables.difference n.tables := in_diff htb hnew
  refine around (a := a) (b := b) hn (fun st hst => hpre st hst _ _) (fun st hst => hpost st hst _ _)
    (fun st hst => tame_of_spares fun m => hspare st (by simp [List.mem_append.1 hst]) tb htd m none) hr ?_
  intro D1 D2 r1 k1 r2
  obtain ⟨D0, r0, r1⟩ := rowRun_append_some r1
  obtain ⟨D0', r0', r1⟩ := rowRun_append_some r1
  rw [hP1] at r0'
  obtain ⟨hids, hlabels⟩ := created_lookup (wT.wf n' hnT) hmap htd hid r0'
  have kP2 := run_lk (k := tb.name.key) (fun st hst => tame_of_spares fun m => hspare st (by simp [hst]) tb htd m none) r1
  have := C10_labels_become_keys hd (R := R) ((wS.wf n hnS).wf a ha) ((wT.wf n' hnT).wf b hb) hlx hs hu hn hc hfk huniq hself
    (D := D1) (D' := D2) (by rw [href]; exact lk_ids kP2 hids) hcast ?_ r2
  · rw [href] at this
    exact this
  · intro r1 hr1 hv
    obtain ⟨r, hr, e⟩ := each_mem_back k1 hr1
    have e : r1 s.name = r s.name := e
    rw [e] at hv ⊢
    rcases hlab r hr hv with ⟨hd, e', he', hname, v, hv', hv''⟩ | h | h
    · left
      have hsoft : (e', tb) ∈ softPairs n n' := by
        simp only [softPairs, List.mem_flatMap, List.mem_map, List.mem_filter]
        refine ⟨e', ?_, tb, ⟨htd, by simpa using hname⟩, rfl⟩
        refine in_diff he' fun x hx hk => ?_
        exact (wT.wf n' hnT).enumTable x hx tb htb (hk.trans (congrArg QId.localId hname))
      obtain ⟨l, hl, e1⟩ := hlabels e' hsoft v hv'
      obtain ⟨l', hl', _, e2⟩ := lk_mem kP2 hl
      rw [href]
      exact ⟨l', hl', by rw [e2, e1, hv'']⟩
    · exact .inr (.inl h)
    · exact .inr (.inr h)

open C10 Dat in
/-- **C10.**  Whole scripts, with a lookup table that both states have (in any schema): a column of labels becomes a foreign key to it.
    PostgreSQL: the labels are those in the table; MySQL: they are in the table, or those of an inline enumeration, or any text.  If the script
    runs, then in every row the key resolves to the label the row had before, and rows without a label get no key, whatever else changes. -/
theorem C10_existing_lookup {d : Dialect} (hd : d = .postgresql ∨ d = .mysql) {R : RowEngine} {o : MutatorOptions}
    {topo : List (Text × List Text) → Except Err (List Text)} (ht : Sorts topo) {S T : Catalog} (wS : CatWF d S) (wT : CatWF d T)
    {stmts : List Stmt} (h : mutateCatalog topo d o S T = .ok stmts)
    {a b : Table} (ha : IsTable S a) (hb : IsTable T b) (hab : a.name.key = b.name.key)
    {s u : Column} (hs : s ∈ a.columns.items) (hu : u ∈ b.columns.items) (hn : s.name = u.name) (hc : Converted d s u)
    {x y : Table} (hx : IsTable S x) (hy : IsTable T y) (hxy : x.name.key = y.name.key)
    {ci cv : Column} (hi : ci ∈ x.columns.items) (hi' : ci ∈ y.columns.items) (hin : ci.name = t "id")
    (hv : cv ∈ x.columns.items) (hv' : cv ∈ y.columns.items) (hvn : cv.name = t "value")
    {nm : Text} {ref : Ref} (hfk : Constraint.foreign nm [u.name] ref ∈ b.constraints.items) (href : ref.table.key = x.name.key)
    (huniq : ∀ nm' ref', Constraint.foreign nm' [u.name] ref' ∈ b.constraints.items → ref' = ref)
    (hself : ∀ x ∈ a.columns.items, ∀ y ∈ b.columns.items, x.name = y.name → Converted d x y →
      ∀ nm' r, Constraint.foreign nm' [y.name] r ∈ b.constraints.items → r.table.key ≠ a.name.key)
    (hfed : ¬ Fed d S T a.name.key)
    (hcast : ∀ v, v = .null ∨ (∃ i, v = .int i) → R.cast u.ty v = some v)
    {D D' : Data} (hid : ∀ l ∈ D x.name.key, ∃ i, l (t "id") = .int i)
    (hlab : ∀ r ∈ D a.name.key, r s.name ≠ .null →
      (∃ l ∈ D x.name.key, l (t "value") = r s.name)
      ∨ (d = .mysql ∧ s.ty.isVarChar = true)
      ∨ (d = .mysql ∧ ∃ vs, s.ty = .enum vs ∧ ∃ v ∈ vs, r s.name = .text v))
    (hr : rowRun R D stmts = some D') :
    Each (fun r r' =>
      (r s.name ≠ .null → ResolvesTo (D' x.name.key) (r' u.name) (r s.name))
      ∧ (r s.name = .null → u.identity = false → u.default = none → u.nullable = true → r' u.name = .null))
      (D a.name.key) (D' a.name.key) := by
  have htame : ∀ st ∈ stmts, Tame x.name.key st := by
    intro st hst
    refine .inl ⟨?_, ?_⟩
    · rw [← hin]
      exact C49.spares ht wS wT h hx hy hxy hi hi' rfl (fun e => e.1 rfl) (.inr rfl) (.inl rfl) st hst
    · rw [← hvn]
      exact C49.spares ht wS wT h hx hy hxy hv hv' rfl (fun e => e.1 rfl) (.inr rfl) (.inl rfl) st hst
  obtain ⟨n, hnS, han⟩ := ha
  obtain ⟨n', hnT, hbn⟩ := hb
  have hnn : n.name = n'.name := by
    rw [← (wS.wf n hnS).tableScope a han, ← (wT.wf n' hnT).tableScope b hbn, hab]
  obtain ⟨X, P1, P2, lx, Q1, Q, r, rfl, hlx, hpre, hpost, _, _, _⟩ := split ht wS wT h hnS hnT hnn han hbn (congrArg Prod.snd hab) hfed
  refine around (a := a) (b := b) hn (fun st hst => hpre st hst _ _) (fun st hst => hpost st hst _ _)
    (fun st hst => htame st (List.mem_append_right _ (List.mem_append_right _ hst))) hr ?_
  intro D1 D2 r1 k1 r2
  have kl := run_lk (k := x.name.key) (fun st hst => htame st (List.mem_append_left _ hst)) r1
  have := C10_labels_become_keys hd (R := R) ((wS.wf n hnS).wf a han) ((wT.wf n' hnT).wf b hbn) hlx hs hu hn hc hfk huniq hself
    (D := D1) (D' := D2) (by rw [href]; exact lk_ids kl hid) hcast ?_ r2
  · rw [href] at this
    exact this
  · intro r1 hr1 hv
    obtain ⟨r, hr, e⟩ := each_mem_back k1 hr1
    have e : r1 s.name = r s.name := e
    rw [e] at hv ⊢
    rcases hlab r hr hv with ⟨l, hl, hv'⟩ | h | h
    · obtain ⟨l', hl', _, e2⟩ := lk_mem kl hl
      rw [href]
      exact .inl ⟨l', hl', e2.trans hv'⟩
    · exact .inr (.inl h)
    · exact .inr (.inr h)

namespace C10.Example
open PySqlSync.Example C49.Example

/-- The whole script of the shop on PostgreSQL, in which the enumeration type `status` becomes a lookup table. -/
example : (rowRun C49.Example.R C49.Example.D script2).map (fun D' =>
      ((D' order0.name.key).map (fun r => r (t "status")), (D' status1.name.key).map (fun r => (r (t "id"), r (t "value")))))
    = some ([.int 2, .null], [(.int 1, .text (t "open")), (.int 2, .text (t "paid"))]) := by decide +kernel

example {D' : Data} (hr : rowRun C49.Example.R C49.Example.D script2 = some D') :
    Each (fun r r' => r (t "status") ≠ .null → ResolvesTo (D' status1.name.key) (r' (t "status")) (r (t "status")))
      (C49.Example.D order0.name.key) (D' order0.name.key) := by
  have := C10_new_lookup (d := .postgresql) (.inl rfl) topo_sorts source_wf target2_wf script2_ok
    (n := shop0) (n' := { shop1 with tables := ⟨[customer1, C49.Example.order2, status1]⟩ })
    (by decide +kernel) (List.mem_cons_of_mem _ List.mem_cons_self) rfl (a := order0) (b := C49.Example.order2)
    (by decide +kernel) (by decide +kernel) rfl
    (s := col "status" (.user (q "shop" "status")) false) (u := col "status" int8)
    (by decide +kernel) (by decide +kernel) rfl ⟨by decide, by decide, by decide⟩
    (tb := status1) (by decide +kernel) (by decide +kernel) (by decide +kernel)
    (nm := t "fk_status") (ref := ⟨q "shop" "status", [t "id"]⟩) (by decide +kernel) rfl
    (by intro nm' ref' h
        simp only [C49.Example.order2, order1, List.mem_cons, Constraint.foreign.injEq, List.not_mem_nil, or_false] at h
        rcases h with ⟨_, h, _⟩ | ⟨_, _, h⟩
        · exact absurd h (by decide)
        · exact h)
    (by intro _ _ c _ _ _ nm' r h
        simp only [C49.Example.order2, order1, List.mem_cons, Constraint.foreign.injEq, List.not_mem_nil, or_false] at h
        rcases h with ⟨_, _, rfl⟩ | ⟨_, _, rfl⟩ <;> decide +kernel)
    (C49.Example.unfed _) (R := C49.Example.R)
    (by rintro v (rfl | ⟨i, rfl⟩) <;> rfl)
    (D := C49.Example.D)
    (by intro r hr hv
        left
        refine ⟨rfl, ⟨q "shop" "status", [t "open", t "paid"]⟩, by decide +kernel, rfl, ?_⟩
        have : C49.Example.D order0.name.key = [C49.Example.row [("id", .int 1), ("customer", .int 2), ("status", .text (t "paid")), ("total", .int 5)],
          C49.Example.row [("id", .int 2), ("customer", .int 1), ("total", .int 7)]] := rfl
        rw [this] at hr
        rcases List.mem_cons.1 hr with rfl | hr
        · exact ⟨t "paid", by decide +kernel, by decide +kernel⟩
        · rw [List.mem_singleton.1 hr] at hv
          exact absurd (by decide +kernel) hv)
    hr
  exact each_mono (fun x y h => h.1) this

/-! MySQL: the text in `item.color` becomes keys of the lookup table `color`, which both states have; `white` is not in it yet. -/

def p (n : String) : QId := .prefixed (some (t "shop")) (t n)
def item (c : Column) (cs : List Constraint) : Table where
  name := p "item"
  columns := ⟨[key0 "id", c, col "size" int4]⟩
  primaryKey := [t "id"]
  constraints := ⟨cs⟩
def colors : Table := { status1 with name := p "color" }
def mysqlSource : Catalog := ⟨⟨[{ name := [], tables := ⟨[item (col "color" text) [], colors]⟩ }]⟩⟩
def mysqlTarget : Catalog := ⟨⟨[{ name := [], tables := ⟨[item (col "color" int8) [.foreign (t "fk_color") [t "color"] ⟨p "color", [t "id"]⟩], colors]⟩ }]⟩⟩
def mysqlScript : List Stmt := ((mutateCatalog topo .mysql {} mysqlSource mysqlTarget).toOption).getD []
theorem mysqlScript_ok : mutateCatalog topo .mysql {} mysqlSource mysqlTarget = .ok mysqlScript := ok_of_toOption (by decide +kernel)
def mysqlData : Data := fun k =>
  if k = (p "item").key then
    [C49.Example.row [("id", .int 1), ("color", .text (t "red"))], C49.Example.row [("id", .int 2), ("color", .text (t "white"))]]
  else if k = (p "color").key then [label 7 "blue", label 9 "red"] else []

example : (rowRun C49.Example.R mysqlData mysqlScript).map (fun D' =>
      ((D' (p "item").key).map (fun r => r (t "color")), (D' (p "color").key).map (fun r => (r (t "id"), r (t "value")))))
    = some ([.int 9, .int 3], [(.int 7, .text (t "blue")), (.int 9, .text (t "red")), (.int 3, .text (t "white"))]) := by decide +kernel

example {D' : Data} (hr : rowRun C49.Example.R mysqlData mysqlScript = some D') :
    Each (fun r r' => r (t "color") ≠ .null → ResolvesTo (D' (p "color").key) (r' (t "color")) (r (t "color")))
      (mysqlData (p "item").key) (D' (p "item").key) := by
  have one : ∀ {nm' : Text} {ns : List Text} {ref' : Ref},
      Constraint.foreign nm' ns ref' ∈ [Constraint.foreign (t "fk_color") [t "color"] ⟨p "color", [t "id"]⟩] → ref' = ⟨p "color", [t "id"]⟩ := by
    intro nm' ns ref' h
    simp only [List.mem_singleton, Constraint.foreign.injEq] at h
    exact h.2.2
  have := C10_existing_lookup (d := .mysql) (.inr rfl) topo_sorts (S := mysqlSource) (T := mysqlTarget) (catWFB_ok (by decide +kernel))
    (catWFB_ok (by decide +kernel)) mysqlScript_ok
    (a := item (col "color" text) []) (b := item (col "color" int8) [.foreign (t "fk_color") [t "color"] ⟨p "color", [t "id"]⟩])
    ⟨_, List.mem_cons_self, List.mem_cons_self⟩ ⟨_, List.mem_cons_self, List.mem_cons_self⟩ rfl
    (s := col "color" text) (u := col "color" int8)
    (by decide +kernel) (by decide +kernel) rfl ⟨by decide, by decide, by decide⟩
    (x := colors) (y := colors) ⟨_, List.mem_cons_self, by decide +kernel⟩ ⟨_, List.mem_cons_self, by decide +kernel⟩ rfl
    (ci := key0 "id") (cv := col "value" text false) (by decide +kernel) (by decide +kernel) rfl (by decide +kernel) (by decide +kernel) rfl
    (nm := t "fk_color") (ref := ⟨p "color", [t "id"]⟩) List.mem_cons_self rfl
    (fun nm' ref' h => one h)
    (by intro _ _ c _ _ _ nm' r h
        rw [one h]
        decide +kernel)
    (by rintro ⟨_, x, y, ⟨n, hn, hx⟩, ⟨n', hn', hy⟩, hxy, s, hs, u, hu, hsu, hc, nm, r, hf, e⟩
        rw [List.mem_singleton.1 hn'] at hy
        rcases List.mem_cons.1 hy with rfl | hy
        · rw [one hf] at e
          exact absurd e (by decide +kernel)
        · rw [List.mem_singleton.1 hy, colors, status1] at hf
          simp at hf)
    (R := C49.Example.R)
    (by rintro v (rfl | ⟨i, rfl⟩) <;> rfl)
    (D := mysqlData)
    (by intro l hl
        have : mysqlData colors.name.key = [label 7 "blue", label 9 "red"] := rfl
        rw [this] at hl
        rcases List.mem_cons.1 hl with rfl | hl
        · exact ⟨7, by decide +kernel⟩
        · rw [List.mem_singleton.1 hl]; exact ⟨9, by decide +kernel⟩)
    (fun _ _ _ => .inr (.inl ⟨rfl, rfl⟩))
    hr
  exact each_mono (fun x y h => h.1) this

end C10.Example
end PySqlSync
