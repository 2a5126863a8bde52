/-
C01 — The circumstances in which synchronization reaches the desired state, exactly.
C12 — ... and in which every statement finds what it needs.
C13 — ... and in which what was created can be dropped again.
-/
import Verif.Lemmas.CatExact
import Verif.Props.C01
import Verif.Props.C01Fails
import Verif.Props.C12
import Verif.Props.C13

set_option autoImplicit false

namespace PySqlSync
open Spec

variable {topo : List (Text × List Text) → Except Err (List Text)}

/-- The script for the change from one catalog to another, run on the (consistent) database described by the first, is
    accepted statement by statement and leaves the database described by the second exactly if `CatSafe` holds of the
    two, their namespaces listed in the order in which the library takes them. -/
theorem C01_exact_criterion (ht : Sorts topo) (d : Dialect) (condCols : Text → List Text)
    {S T S' T' : Catalog} {stmts : List Stmt} (wS : CatWF d S) (wT : CatWF d T)
    (vS : Valid (Catalog.db d (engine d condCols) S))
    (hS : S.sort topo = .ok S') (hT : T.sort topo = .ok T')
    (h : mutateCatalog topo d {} S T = .ok stmts) :
    Runs (engine d condCols) (Catalog.db d (engine d condCols) S) stmts (Catalog.db d (engine d condCols) T)
      ↔ CatSafe d (engine d condCols) S' T' := by
  constructor
  · intro run
    obtain ⟨S1, T1, e1, e2, hm⟩ := mutateCatalog_sorted h
    rw [hS] at e1; rw [hT] at e2
    cases e1; cases e2
    rw [← db_sort ht wS.names hS, ← db_sort ht wT.names hT] at run
    rw [← db_sort ht wS.names hS] at vS
    exact Xct.exact rfl (wf_sort ht wS hS) (wf_sort ht wT hT) hm vS run
  · intro safe
    exact C01_synchronize_if_safe ht d condCols wS wT hS hT safe h

/-- With a single schema (or none, in prefix mode) that both catalogs have: exactly if the schema's change is a permitted
    one. -/
theorem C01_one_namespace_criterion (d : Dialect) (condCols : Text → List Text)
    {a b : Namespace} {stmts : List Stmt} (hn : a.name = b.name) (wS : NsWF d a) (wT : NsWF d b)
    (vS : Valid (Catalog.db d (engine d condCols) ⟨⟨[a]⟩⟩)) (vT : Valid (Catalog.db d (engine d condCols) ⟨⟨[b]⟩⟩))
    (h : mutateNamespace d {} a b = .ok stmts) :
    Runs (engine d condCols) (Catalog.db d (engine d condCols) ⟨⟨[a]⟩⟩) stmts (Catalog.db d (engine d condCols) ⟨⟨[b]⟩⟩)
      ↔ NsSafe d (engine d condCols) a b := by
  constructor
  · intro run
    refine (Xct.block (l1 := []) (l2 := []) (n := a) (n' := b) rfl hn.symm (by simp) h run vS wS wT ?_).2
    intro m
    rw [hn]
    exact dbOf_at (n := b) (l1 := []) (by simp) m
  · intro safe
    exact C01_synchronize_one_namespace_if_safe d condCols hn wS wT vS vT safe h

/-- Creation, exactly: the script is accepted (and then creates what it should) iff every namespace uses types of itself
    and of those before it only, in the order in which the library takes them, and lists its composite types in order of
    reference. -/
theorem C01_create_criterion (ht : Sorts topo) (d : Dialect) (condCols : Text → List Text)
    {T T' : Catalog} {stmts : List Stmt} (wT : CatWF d T) (vT : Valid (Catalog.db d (engine d condCols) T))
    (hT : T.sort topo = .ok T') (h : mutateCatalog topo d {} ⟨⟨[]⟩⟩ T = .ok stmts) :
    ((∃ db, Runs (engine d condCols) (Catalog.db d (engine d condCols) ⟨⟨[]⟩⟩) stmts db) ↔
        (∀ p a s, T'.namespaces.items = p ++ a :: s → ∀ k, MentionsType a k → ∃ n ∈ p ++ [a], n.name = k.1)
        ∧ ∀ n ∈ T.namespaces.items, StructsInOrder n.structs.items)
      ∧ ∀ db, Runs (engine d condCols) (Catalog.db d (engine d condCols) ⟨⟨[]⟩⟩) stmts db →
          db = Catalog.db d (engine d condCols) T := by
  have w0 : CatWF d ⟨⟨[]⟩⟩ := ⟨by simp [Distinct], by simp⟩
  have v0 : Valid (Catalog.db d (engine d condCols) ⟨⟨[]⟩⟩) :=
    ⟨fun k o ho => (by cases ho), fun k o ho => (by cases ho)⟩
  obtain ⟨S1, T1, e1, e2, hm⟩ := mutateCatalog_sorted h
  have h0 : S1 = ⟨⟨[]⟩⟩ := by
    have hs := (sort_mem ht w0.names e1).2.1
    cases S1 with
    | mk x => cases x with
      | mk l => cases l with
        | nil => rfl
        | cons a l => exact absurd ((hs a).1 List.mem_cons_self) (by intro hx; cases hx)
  subst h0
  rw [hT] at e2; cases e2
  have wT' := wf_sort ht wT hT
  have vT' := vT
  rw [← db_sort ht wT.names hT] at vT'
  have reach : ∀ db, Runs (engine d condCols) (Catalog.db d (engine d condCols) ⟨⟨[]⟩⟩) stmts db →
      db = Catalog.db d (engine d condCols) T := by
    intro db run
    rw [Xct.creation rfl wT' hm vT' run, db_sort ht wT.names hT]
  refine ⟨?_, reach⟩
  have crit := C01_exact_criterion ht d condCols w0 wT v0 e1 hT h
  have mT := (sort_mem ht wT.names hT).2.1
  have hK : (T'.namespaces.items.map key).Nodup := wT'.names
  constructor
  · rintro ⟨db, run⟩
    rw [reach db run] at run
    have safe := crit.1 run
    refine ⟨?_, ?_⟩
    · intro p a s hl k hk
      have := safe.created (p ++ [a]) s (by rw [diff_empty, hl]; simp)
      rw [show (⟨⟨[]⟩⟩ : Catalog).namespaces.items = [] from rfl, List.append_nil] at this
      exact (Xct.closed hK wT'.wf vT' (l := p ++ [a]) (by
        intro x hx; rw [hl, show p ++ a :: s = (p ++ [a]) ++ s by simp]; exact List.mem_append_left _ hx)).1 this a (by simp) k hk
    · intro n hn
      exact safe.order n (by rw [diff_empty]; exact (mT n).2 hn)
  · rintro ⟨h1, h2⟩
    refine ⟨_, crit.2 ?_⟩
    have vT'' : Valid (dbOf d (engine d condCols) T'.namespaces.items) := vT'
    have pre : ∀ p s, T'.namespaces.items = p ++ s → Valid (dbOf d (engine d condCols) (p.map unconstrained)) := by
      intro p s hl
      refine (Xct.closed hK wT'.wf vT' (l := p) (by intro x hx; rw [hl]; simp [hx])).2 ?_
      intro a ha k hk
      obtain ⟨p1, p2, rfl⟩ := List.append_of_mem ha
      obtain ⟨n, hn, e⟩ := h1 p1 a (p2 ++ s) (by rw [hl]; simp) k hk
      exact ⟨n, by rw [show p1 ++ a :: p2 = (p1 ++ [a]) ++ p2 by simp]; exact List.mem_append_left _ hn, e⟩
    constructor
    · intro p s hl
      rw [diff_empty] at hl
      simpa using pre p s hl
    · rw [diff_empty]; simpa using vT''
    · intro n hn
      rw [diff_empty] at hn
      exact h2 n ((mT n).1 hn)
    · intro p s hl
      rw [show (⟨⟨[]⟩⟩ : Catalog).namespaces.intersection T'.namespaces = [] from rfl] at hl
      obtain ⟨rfl, rfl⟩ := List.append_eq_nil_iff.1 hl.symm
      rw [diff_empty]
      simpa [empty_diff] using vT''
    · intro a ha; cases ha
    · intro p s hl
      rw [show (⟨⟨[]⟩⟩ : Catalog).namespaces.difference T'.namespaces = [] from rfl] at hl
      obtain ⟨rfl, rfl⟩ := List.append_eq_nil_iff.1 hl.symm
      simpa using vT''
    · intro n hn; cases hn

/-- Each statement finds what it needs, whatever is left after it is consistent, and the target is reached, exactly if
    `CatSafe` holds. -/
theorem C12_exact_criterion (ht : Sorts topo) (d : Dialect) (condCols : Text → List Text)
    {S T S' T' : Catalog} {stmts : List Stmt} (wS : CatWF d S) (wT : CatWF d T)
    (vS : Valid (Catalog.db d (engine d condCols) S))
    (hS : S.sort topo = .ok S') (hT : T.sort topo = .ok T')
    (h : mutateCatalog topo d {} S T = .ok stmts) :
    ((∀ i, ∃ db, Runs (engine d condCols) (Catalog.db d (engine d condCols) S) (stmts.take i) db ∧ Valid db
        ∧ (∀ s, stmts[i]? = some s → ∃ db', step (engine d condCols) db s = some db' ∧ Valid db')
        ∧ (stmts.length ≤ i → db = Catalog.db d (engine d condCols) T))
      ↔ CatSafe d (engine d condCols) S' T') := by
  rw [← C01_exact_criterion ht d condCols wS wT vS hS hT h]
  constructor
  · intro hi
    obtain ⟨db, h1, _, _, h2⟩ := hi stmts.length
    rw [List.take_length, h2 (Nat.le_refl _)] at h1
    exact h1
  · intro hr i
    obtain ⟨db, h1, v, h2⟩ := runs_take hr vS i
    refine ⟨db, h1, v, ?_, ?_⟩
    · intro s hs
      have : stmts.drop i = s :: stmts.drop (i + 1) := by
        obtain ⟨hi, hx⟩ := List.getElem?_eq_some_iff.1 hs
        rw [← hx]; exact List.drop_eq_getElem_cons hi
      rw [this] at h2
      cases h2 with
      | cons a b _ => exact ⟨_, a, b⟩
    · intro hi
      rw [List.take_of_length_le hi] at h1
      exact C14.runs_det h1 hr

/-- Creating everything and dropping it again leaves an empty database exactly if no namespace uses a type of another
    one and composite types are listed in order of reference. -/
theorem C13_exact_criterion (ht : Sorts topo) (d : Dialect) (condCols : Text → List Text)
    {C : Catalog} {create drop : List Stmt} (w : CatWF d C) (v : Valid (Catalog.db d (engine d condCols) C))
    (h1 : mutateCatalog topo d {} ⟨⟨[]⟩⟩ C = .ok create) (h2 : mutateCatalog topo d {} C ⟨⟨[]⟩⟩ = .ok drop) :
    Runs (engine d condCols) emptyDb (create ++ drop) emptyDb ↔
      (∀ n ∈ C.namespaces.items, ∀ k, MentionsType n k → k.1 = n.name)
      ∧ ∀ n ∈ C.namespaces.items, StructsInOrder n.structs.items := by
  constructor
  · intro run
    have e : Catalog.db d (engine d condCols) ⟨⟨[]⟩⟩ = emptyDb := by
      unfold emptyDb Catalog.db
      simp [ODict.contains, ODict.get]
    rw [← e] at run
    have v0 : Valid (Catalog.db d (engine d condCols) ⟨⟨[]⟩⟩) :=
      ⟨fun k o ho => (by cases ho), fun k o ho => (by cases ho)⟩
    have w0 : CatWF d ⟨⟨[]⟩⟩ := ⟨by simp [Distinct], by simp⟩
    obtain ⟨X, r1, vX, r2⟩ := Frm.split run v0
    obtain ⟨C', Z, hC, hZ, _⟩ := mutateCatalog_sorted h2
    have hZ0 : Z = ⟨⟨[]⟩⟩ := by
      have hs := (sort_mem ht w0.names hZ).2.1
      cases Z with
      | mk x => cases x with
        | mk l => cases l with
          | nil => rfl
          | cons a l => exact absurd ((hs a).1 List.mem_cons_self) (by intro hx; cases hx)
    subst hZ0
    obtain ⟨cr, reach⟩ := C01_create_criterion ht d condCols w v hC h1
    obtain ⟨c1, c2⟩ := cr.1 ⟨X, r1⟩
    have hX := reach X r1
    subst hX
    have safe := (C01_exact_criterion ht d condCols w w0 v hC hZ h2).1 r2
    have mC := (sort_mem ht w.names hC).2.1
    have wC' := wf_sort ht w hC
    have vC' := v
    rw [← db_sort ht w.names hC] at vC'
    have hK : (C'.namespaces.items.map key).Nodup := wC'.names
    refine ⟨?_, c2⟩
    intro n hn k hk
    obtain ⟨p, s, hl⟩ := List.append_of_mem ((mC n).2 hn)
    obtain ⟨m, hm, em⟩ := c1 p n s hl k hk
    have vd := safe.dropped p (n :: s) (by rw [diff_empty]; exact hl)
    rw [show (⟨⟨[]⟩⟩ : Catalog).namespaces.items = [] from rfl, List.nil_append] at vd
    obtain ⟨m', hm', em'⟩ := (Xct.closed hK wC'.wf vC' (l := n :: s) (by intro x hx; rw [hl]; exact List.mem_append_right _ hx)).1
      vd n (by simp) k hk
    rcases List.mem_append.1 hm with hm | hm
    · exfalso
      rw [hl, List.map_append, List.nodup_append] at hK
      exact hK.2.2 _ (List.mem_map_of_mem (f := key) hm) _ (List.mem_map_of_mem (f := key) hm') (em.trans em'.symm)
    · rw [List.mem_singleton.1 hm] at em
      exact em.symm
  · rintro ⟨apart, order⟩
    exact C13_create_drop_if_apart ht d condCols w v apart order h1 h2

/-- The hypotheses are met by the example: the criterion decides it. -/
example : ∃ stmts, Example.script = .ok stmts ∧
    (Runs Example.E (Catalog.db .postgresql Example.E Example.source) stmts
      (Catalog.db .postgresql Example.E Example.target) ↔ CatSafe .postgresql Example.E Example.source' Example.target')
    ∧ CatSafe .postgresql Example.E Example.source' Example.target' := by
  obtain ⟨stmts, h, _⟩ := Example.script_ok
  have v : Valid (Catalog.db .postgresql Example.E Example.source) := catValidB_ok (by decide +kernel)
  exact ⟨stmts, h, C01_exact_criterion Example.topo_sorts .postgresql _ Example.source_wf Example.target_wf v
    Example.source_sort Example.target_sort h, Example.safe⟩

/-- Whatever fails (Props/C01Fails.lean has cases) is ruled out by the criterion. -/
theorem C01_failures_are_unsafe {d : Dialect} {S T : Catalog} (f : Fails.Fails d S T) :
    ∃ S' T', S.sort Example.topo = .ok S' ∧ T.sort Example.topo = .ok T' ∧ ¬ CatSafe d (engine d (fun _ => [])) S' T' := by
  obtain ⟨fine, stmts, h, nr⟩ := f
  obtain ⟨S', T', hS, hT, _⟩ := mutateCatalog_sorted h
  exact ⟨S', T', hS, hT, fun safe => nr ((C01_exact_criterion Example.topo_sorts d _ fine.wS fine.wT fine.vS hS hT h).2 safe)⟩

/-- Two schemas of which the second uses a type of the first. -/
def Fails.pair : Catalog := ⟨⟨[Fails.one "a" [] [⟨Example.q "a" "e", [t "v"]⟩],
  Fails.one "b" [Fails.table "b" "y" [Example.key0 "id", Example.col "x" (.user (Example.q "a" "e"))] ["id"]]]⟩⟩

/-- The criterion for dropping again is false of two schemas of which one uses a type of the other. -/
example : ∃ create drop, mutateCatalog Example.topo .postgresql {} ⟨⟨[]⟩⟩ Fails.pair = .ok create
    ∧ mutateCatalog Example.topo .postgresql {} Fails.pair ⟨⟨[]⟩⟩ = .ok drop
    ∧ ¬ Runs (engine .postgresql (fun _ => [])) emptyDb (create ++ drop) emptyDb := by
  have f : Fails.fineB .postgresql Fails.pair ⟨⟨[]⟩⟩ = true := by decide +kernel
  have fine := Fails.fineB_ok f
  have h1 : (mutateCatalog Example.topo .postgresql {} ⟨⟨[]⟩⟩ Fails.pair).toOption.isSome = true := by decide +kernel
  have h2 : (mutateCatalog Example.topo .postgresql {} Fails.pair ⟨⟨[]⟩⟩).toOption.isSome = true := by decide +kernel
  refine ⟨_, _, Fails.script_ok h1, Fails.script_ok h2, fun run => ?_⟩
  have := ((C13_exact_criterion Example.topo_sorts .postgresql (fun _ => []) fine.wS fine.vS (Fails.script_ok h1)
    (Fails.script_ok h2)).1 run).1 _ (List.mem_cons_of_mem _ List.mem_cons_self) (t "a", t "e") (.inr ⟨_, List.mem_cons_self, _,
    List.mem_cons_of_mem _ List.mem_cons_self, List.mem_cons_self⟩)
  revert this
  decide +kernel

end PySqlSync
