/-
C46: descriptions (docstrings) stay in sync as comments in the database.
-/
import Verif.Lemmas.RemarksType
import Verif.Props.C06
import Verif.Examples.Shop

set_option autoImplicit false

namespace PySqlSync
open Spec

variable {d : Dialect} {o : MutatorOptions} {topo : List (Text × List Text) → Except Err (List Text)}

/-- **C46.** PostgreSQL, MySQL: if the comments in the database are the descriptions of the tables and columns of the source, then after the
    script they are those of the target for each table that is new; and for a table that is in both, they are those of the target except that, on
    PostgreSQL, the comment of a converted column that keeps its description is gone. -/
theorem C46_comments_exact (hd : d = .postgresql ∨ d = .mysql) (ht : Sorts topo) {S T : Catalog} (wS : CatWF d S)
    (wT : CatWF d T) {script : List Stmt} (h : mutateCatalog topo d o S T = .ok script)
    (kinds : ∀ a ∈ S.namespaces.items, ∀ b ∈ T.namespaces.items, a.name = b.name → KindsKept a b)
    (c : Key → Remarks) (before : ∀ a, IsTable S a → Described d a (c a.name.key)) :
    ∀ b, IsTable T b → (∃ a, IsTable S a ∧ a.name.key = b.name.key ∧ Left d a b (remarks d c script b.name.key)) ∨
      ((∀ a, IsTable S a → a.name.key ≠ b.name.key) ∧ Described d b (remarks d c script b.name.key)) := by
  obtain ⟨S', T', h1, h2, h3⟩ := mutateCatalog_sorted h
  have kS := (sort_mem ht wS.names h1).2.1
  have kT := (sort_mem ht wT.names h2).2.1
  have iS : ∀ a, IsTable S' a → IsTable S a := fun a ⟨n, hn, ha⟩ => ⟨n, (kS n).1 hn, ha⟩
  have iS' : ∀ a, IsTable S a → IsTable S' a := fun a ⟨n, hn, ha⟩ => ⟨n, (kS n).2 hn, ha⟩
  intro b ⟨n, hn, hb⟩
  rcases Rem.catalog_block hd (wf_sort ht wS h1) (wf_sort ht wT h2) h3
    (fun x hx y hy => kinds x ((kS x).1 hx) y ((kT y).1 hy)) c (fun a ha => before a (iS a ha)) ⟨n, (kT n).2 hn, hb⟩ with ⟨a, ha, h⟩ | ⟨h, h'⟩
  · exact .inl ⟨a, iS a ha, h⟩
  · exact .inr ⟨fun a ha => h a (iS' a ha), h'⟩

/-- **C46.** The comments after the script are the descriptions of all tables and columns of the target, new, changed and unchanged ones, if and only
    if (on PostgreSQL) each converted column gets another description, or has none. -/
theorem C46_exact_criterion (hd : d = .postgresql ∨ d = .mysql) (ht : Sorts topo) {S T : Catalog} (wS : CatWF d S)
    (wT : CatWF d T) {script : List Stmt} (h : mutateCatalog topo d o S T = .ok script)
    (kinds : ∀ a ∈ S.namespaces.items, ∀ b ∈ T.namespaces.items, a.name = b.name → KindsKept a b)
    (c : Key → Remarks) (before : ∀ a, IsTable S a → Described d a (c a.name.key)) :
    (∀ b, IsTable T b → Described d b (remarks d c script b.name.key)) ↔
      ∀ a b, IsTable S a → IsTable T b → a.name.key = b.name.key → ConvertedChange d a b := by
  have hex := C46_comments_exact hd ht wS wT h kinds c before
  constructor
  · intro hall a b ha hb e
    rcases hex b hb with ⟨a', ha', e', hl⟩ | ⟨hn, _⟩
    · obtain ⟨n, hn, ha⟩ := ha
      obtain ⟨n', hn', ha'⟩ := ha'
      have := (table_unique wS hn hn' ha ha' (e.trans e'.symm)).2
      subst this
      exact (Rem.left_iff hl).1 (hall b hb)
    · exact absurd e (hn a ha)
  · intro hall b hb
    rcases hex b hb with ⟨a, ha, e, hl⟩ | ⟨_, hd⟩
    · exact (Rem.left_iff hl).2 (hall a b ha hb e)
    · exact hd

/-- In particular, if descriptions of converted columns change. -/
theorem C46_descriptions_in_sync (hd : d = .postgresql ∨ d = .mysql) (ht : Sorts topo) {S T : Catalog} (wS : CatWF d S)
    (wT : CatWF d T) {script : List Stmt} (h : mutateCatalog topo d o S T = .ok script)
    (kinds : ∀ a ∈ S.namespaces.items, ∀ b ∈ T.namespaces.items, a.name = b.name → KindsKept a b)
    (converted : ∀ a b, IsTable S a → IsTable T b → a.name.key = b.name.key → ConvertedChange d a b)
    (c : Key → Remarks) (before : ∀ a, IsTable S a → Described d a (c a.name.key)) :
    ∀ b, IsTable T b → Described d b (remarks d c script b.name.key) :=
  (C46_exact_criterion hd ht wS wT h kinds c before).2 converted

/-- PostgreSQL: the same for the comments of composite types (not of their members). -/
theorem C46_type_descriptions_in_sync (ht : Sorts topo) {S T : Catalog} (wS : CatWF .postgresql S)
    (wT : CatWF .postgresql T) {script : List Stmt} (h : mutateCatalog topo .postgresql o S T = .ok script)
    (kinds : ∀ a ∈ S.namespaces.items, ∀ b ∈ T.namespaces.items, a.name = b.name → KindsKept a b ∧ StructKindsKept a b)
    (c : Key → Remarks) (before : ∀ s, IsStruct S s → (c s.name.key).own = stored s.description) :
    ∀ s, IsStruct T s → (remarks .postgresql c script s.name.key).own = stored s.description := by
  obtain ⟨S', T', h1, h2, h3⟩ := mutateCatalog_sorted h
  have kS := (sort_mem ht wS.names h1).2.1
  have kT := (sort_mem ht wT.names h2).2.1
  intro s ⟨n, hn, hs⟩
  exact Rem.struct_catalog (wf_sort ht wS h1) (wf_sort ht wT h2) h3
    (fun x hx y hy => kinds x ((kS x).1 hx) y ((kT y).1 hy)) c
    (fun a ⟨m, hm, ha⟩ => before a ⟨m, (kS m).1 hm, ha⟩) ⟨n, (kT n).2 hn, hs⟩

/-- From an empty database. -/
theorem C46_descriptions_created (hd : d = .postgresql ∨ d = .mysql) (ht : Sorts topo) {T : Catalog} (wT : CatWF d T)
    {script : List Stmt} (h : mutateCatalog topo d o ⟨⟨[]⟩⟩ T = .ok script) (c : Key → Remarks) :
    ∀ b, IsTable T b → Described d b (remarks d c script b.name.key) := by
  refine C46_descriptions_in_sync hd ht ⟨by simp [Distinct], by simp⟩ wT h ?_ ?_ c ?_
  · intro a ha; cases ha
  · rintro a b ⟨n, hn, _⟩; cases hn
  · rintro a ⟨n, hn, _⟩; cases hn

namespace C46

/-- The comments of a database that agrees with a catalog. -/
def remarksOf (d : Dialect) (S : Catalog) (k : Key) : Remarks :=
  match (S.namespaces.items.flatMap (fun n => n.tables.items)).find? (fun tb => tb.name.key = k) with
  | some tb => ⟨stored (tb.description.map (keptText d)), fun n =>
      stored (((tb.columns.get n).bind Column.description).map (keptText d))⟩
  | none => noRemarks

/-- There is such a database for every catalog. -/
theorem described (S : Catalog) (wS : CatWF d S) (a : Table) (ha : IsTable S a) : Described d a (remarksOf d S a.name.key) := by
  obtain ⟨n, hn, ha⟩ := ha
  unfold remarksOf
  cases hf : (S.namespaces.items.flatMap (fun n => n.tables.items)).find? (fun tb => tb.name.key = a.name.key) with
  | none =>
    rw [List.find?_eq_none] at hf
    exact absurd (hf a (List.mem_flatMap.2 ⟨n, hn, ha⟩)) (by simp)
  | some tb =>
    have hm := List.mem_of_find?_eq_some hf
    have hp := List.find?_some hf
    obtain ⟨m, hm, htb⟩ := List.mem_flatMap.1 hm
    have := (table_unique wS hm hn htb ha (by simpa using hp)).2
    subst this
    refine ⟨rfl, ?_⟩
    intro c hc
    dsimp only
    have : tb.columns.get c.name = some c := ODict.get_eq_of_mem ((wS.wf m hm).wf tb htb).columns hc
    rw [this]
    rfl

def kindsB (a b : Namespace) : Bool :=
  b.tables.items.all (fun tb => a.structs.items.all (fun s => decide (tb.name.localId ≠ s.name.localId))) &&
  b.tables.items.all (fun tb => a.enums.items.all (fun e => decide (e.name.localId ≠ tb.name.localId) ||
    (decide (e.name = tb.name) && match e.name with | .prefixed (some _) _ => false | _ => true)))

theorem kindsB_ok {a b : Namespace} (h : kindsB a b = true) : KindsKept a b := by
  simp only [kindsB, Bool.and_eq_true, List.all_eq_true, decide_eq_true_eq, Bool.or_eq_true] at h
  refine ⟨h.1, fun tb htb e he hn => ?_⟩
  rcases h.2 tb htb e he with h | h
  · exact absurd hn h
  · refine ⟨h.1, fun x => ?_⟩
    have h2 := h.2
    revert h2
    cases e.name with
    | qualified ns id => exact fun _ => rfl
    | global id => exact fun _ => rfl
    | prefixed ns id =>
      cases ns with
      | none => exact fun _ => rfl
      | some ns => exact fun h => by cases h

open Example in
/-- The hypotheses are met: a change of a schema with changed, added and removed tables. -/
example : ∃ script, mutateCatalog Example.topo .postgresql {} source target = .ok script ∧
    (∀ b, IsTable target b → Described .postgresql b (remarks .postgresql (remarksOf .postgresql source) script b.name.key)) ∧
    (remarks .postgresql (remarksOf .postgresql source) script (t "shop", t "customer")).own = some (t "Those who 'buy'.") ∧
    (remarksOf .postgresql source (t "shop", t "customer")).own = some (t "Those who buy.") := by
  obtain ⟨script, h, _⟩ := script_ok
  have hall := C46_descriptions_in_sync (.inl rfl) topo_sorts source_wf target_wf h (c := remarksOf .postgresql source) ?_ ?_ (described source source_wf)
  · refine ⟨script, h, hall, ?_, by decide +kernel⟩
    exact (hall customer1 ⟨shop1, by simp [target], by simp [shop1]⟩).own
  · intro a ha b hb hn
    refine kindsB_ok ?_
    simp only [source, target, List.mem_cons, List.not_mem_nil, or_false] at ha hb
    rcases ha with rfl | rfl <;> rcases hb with rfl | rfl <;> first | decide +kernel | exact absurd hn (by decide)
  · rintro a b ⟨n, hn, ha⟩ ⟨m, hm, hb⟩ hk _ s hs u hu _ _ e
    have : ∀ n ∈ target.namespaces.items, ∀ b ∈ n.tables.items, ∀ u ∈ b.columns.items, stored u.description = none := by decide +kernel
    exact this m hm b hb u hu

end C46

/-! ### Where the claim fails -/

/-- PostgreSQL: a column that is converted from text to the key of a lookup table and keeps its description loses the
    comment: the column is created anew without one, and no statement restores it. -/
theorem C46_comment_of_converted_column_is_lost :
    ∃ S T : Table, ∃ script, TableWF .postgresql S ∧ TableWF .postgresql T ∧ mutateTable .postgresql S T = .ok script ∧
      ∀ c, Described .postgresql S (c S.name.key) → ¬ Described .postgresql T (remarks .postgresql c script T.name.key) := by
  let S : Table := { Example.order0 with columns := ⟨[Example.key0 "id", { Example.col "status" (.user (Example.q "shop" "status")) false with description := some (t "State.") }]⟩, constraints := ⟨[]⟩ }
  let T : Table := { Example.order0 with columns := ⟨[Example.key0 "id", { Example.col "status" Example.int8 false with description := some (t "State.") }]⟩, constraints := ⟨[.foreign (t "fk_status") [t "status"] ⟨Example.q "shop" "status", [t "id"]⟩]⟩ }
  refine ⟨S, T, ?_⟩
  have hs : ∃ script, mutateTable .postgresql S T = .ok script := by
    cases h : mutateTable .postgresql S T with
    | ok x => exact ⟨x, rfl⟩
    | error e =>
      have : (mutateTable .postgresql S T).toOption.isSome = true := by decide +kernel
      rw [h] at this; cases this
  obtain ⟨script, hs⟩ := hs
  refine ⟨script, tableWFB_ok (by decide +kernel), tableWFB_ok (by decide +kernel), hs, ?_⟩
  intro c _ hT
  have h1 := hT.cols { Example.col "status" Example.int8 false with description := some (t "State.") } (by decide +kernel)
  have h2 : ∀ c : Key → Remarks, ((mutateTable .postgresql S T).toOption.map (fun l => (remarks .postgresql c l T.name.key).cols (t "status"))) = some none := by
    intro c
    rfl
  have h3 := h2 c
  rw [hs] at h3
  simp only [Except.toOption, Option.map_some, Option.some.injEq] at h3
  have h4 : (remarks .postgresql c script T.name.key).cols (t "status") = some (t "State.") := h1
  rw [h3] at h4
  cases h4

/-- The comments of members of composite types are written at creation only: a changed description alters the type of
    the member instead (to what it is). -/
theorem C46_member_comments_fail (a : StructType) (m : StructMember) (x : Text) (hm : m.description ≠ some x) (ha : a.members = ⟨[m]⟩) :
    mutateStruct .postgresql a { a with members := ⟨[{ m with description := some x }]⟩ }
      = .ok [.alterStruct a.name [.setDataType m.name m.ty]] := by
  have hne : m ≠ { m with description := some x } := by
    intro e; exact hm (congrArg StructMember.description e)
  have h1 : structActions a { a with members := ⟨[{ m with description := some x }]⟩ } = [.setDataType m.name m.ty] := by
    unfold structActions
    rw [ha]
    simp [ODict.difference, ODict.intersection, ODict.contains, ODict.get, key, hne]
  have h2 : commentChange a.description a.description (Stmt.commentType a.name) = [] := by
    cases h : a.description <;> simp [commentChange]
  unfold mutateStruct
  simp [h1, h2, checkIdentity, bind, Except.bind, pure, Except.pure]

end PySqlSync
