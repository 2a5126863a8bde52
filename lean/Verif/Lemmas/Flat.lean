/-
Exploring a database without schemas of its own: all tables, which are found by the prefixes of their names, belong to one namespace.
-/
import Verif.Lemmas.Settled
import Verif.Model.Session
import Verif.Props.C37
import Verif.Props.C51

set_option autoImplicit false

namespace PySqlSync
open Spec

namespace Flat

/-- Tables that are listed and read one by one. -/
def explore (sel : Text → List Text) (read : Text → Text → Except Err Table) (k : Text) : Except Err Namespace := do
  let tables ← (sel k).mapM (read k)
  return { tables := .ofList tables }

/-- Tables only. -/
structure Bare (M : Namespace) : Prop where
  name : M.name = []
  enums : M.enums = ⟨[]⟩
  structs : M.structs = ⟨[]⟩
  tables : Distinct M.tables

section
variable {sel : Text → List Text} {read : Text → Text → Except Err Table} {R : Text → Table}

theorem mapM_map {k : Text} : ∀ {l : List Text}, (∀ nm ∈ l, read k nm = .ok (R nm)) → l.mapM (read k) = .ok (l.map R)
  | [], _ => rfl
  | nm :: l, h => by
    rw [List.map_cons, Conv.mapM_cons_ok]
    exact ⟨_, _, h nm List.mem_cons_self, mapM_map (fun x hx => h x (List.mem_cons_of_mem _ hx)), rfl⟩

/-- What is found in a namespace. -/
theorem found {k : Text} (hs : (sel k).Nodup) (hr : ∀ nm ∈ sel k, read k nm = .ok (R nm) ∧ (R nm).name.localId = nm) :
    ∃ M, explore sel read k = .ok M ∧ Bare M ∧ ∀ nm f, M.tables.get nm = some f ↔ nm ∈ sel k ∧ f = R nm := by
  have hkeys : ∀ {l : List Text}, (∀ nm ∈ l, (R nm).name.localId = nm) → (l.map R).map key = l := by
    intro l
    induction l with
    | nil => intro _; rfl
    | cons a l ih =>
      intro h
      rw [List.map_cons, List.map_cons, ih (fun x hx => h x (List.mem_cons_of_mem _ hx))]
      exact congrArg (· :: l) (h a List.mem_cons_self)
  have hk := hkeys (fun nm h => (hr nm h).2)
  have hnd : (((sel k).map R).map key).Nodup := by rw [hk]; exact hs
  refine ⟨_, Conv.bind_ok.2 ⟨_, mapM_map (fun nm h => (hr nm h).1), Conv.pure_ok.2 rfl⟩, ⟨rfl, rfl, rfl, ODict.ofList_inv _⟩, ?_⟩
  intro nm f
  rw [ODict.get_eq_some_iff (ODict.ofList_inv _), ODict.ofList_of_nodup _ hnd]
  constructor
  · rintro ⟨h1, h2⟩
    obtain ⟨x, hx, rfl⟩ := List.mem_map.1 h1
    have : x = nm := (hr x hx).2.symm.trans h2
    subst this
    exact ⟨hx, rfl⟩
  · rintro ⟨h1, rfl⟩
    exact ⟨List.mem_map_of_mem h1, (hr nm h1).2⟩

theorem eqv_self {f : Table} (h1 : Distinct f.columns) (h2 : Distinct f.constraints) : f.eqv f = true :=
  (C37.table_eqv h1 h1 h2 h2).2 ⟨rfl, fun _ => rfl, rfl, fun _ => rfl, rfl, rfl⟩

theorem merge_bare {M M' : Namespace} (hM : Bare M) (hM' : Bare M')
    (h : ∀ nm f f', M.tables.get nm = some f → M'.tables.get nm = some f' → f.eqv f' = true) :
    ∃ P, (⟨⟨[M]⟩⟩ : Catalog).merge ⟨⟨[M']⟩⟩ = (⟨⟨[P]⟩⟩, true) ∧ Bare P ∧ ∀ nm, P.tables.get nm = (M.tables.get nm).or (M'.tables.get nm) := by
  have hconv : (mergeItems Table.eqv M.tables M'.tables.items).2 = true := by
    apply C37.mergeItems_conv hM'.tables
    intro a ha b hb
    exact h (key a) b a hb (ODict.get_eq_of_mem hM'.tables ha)
  have hok := (C37.mergeItems_ok hM'.tables hconv).2
  have hm : M.merge M' = ({ M with tables := (mergeItems Table.eqv M.tables M'.tables.items).1 }, true) := by
    unfold Namespace.merge
    rw [hM.enums, hM.structs, hM'.enums, hM'.structs]
    simp only [mergeItems, if_true]
    rw [hconv]
  refine ⟨{ M with tables := (mergeItems Table.eqv M.tables M'.tables.items).1 }, ?_, ⟨hM.name, hM.enums, hM.structs, C37.mergeItems_distinct hM.tables⟩, hok⟩
  have hget : (⟨[M]⟩ : ODict Namespace).get M'.name = some M := by
    show [M].find? _ = _
    rw [List.find?_cons_of_pos]
    exact decide_eq_true (hM.name.trans hM'.name.symm)
  unfold Catalog.merge
  simp only [mergeNamespaces, hget, hm, if_true]
  congr 1
  show (⟨⟨ODict.setItem [M] _⟩⟩ : Catalog) = _
  congr 2
  unfold ODict.setItem
  simp [key]

theorem merge_first {M : Namespace} : (⟨⟨[]⟩⟩ : Catalog).merge ⟨⟨[M]⟩⟩ = (⟨⟨[M]⟩⟩, true) := rfl

theorem loop_more {names done : List Text} {M : Namespace} (hs : ∀ k ∈ names, (sel k).Nodup)
    (hr : ∀ k ∈ names, ∀ nm ∈ sel k, read k nm = .ok (R nm) ∧ (R nm).name.localId = nm)
    (hd : ∀ nm, Distinct (R nm).columns ∧ Distinct (R nm).constraints) (hM : Bare M)
    (hg : ∀ nm f, M.tables.get nm = some f ↔ (∃ k ∈ done, nm ∈ sel k) ∧ f = R nm) :
    ∃ P, discoverLoop (explore sel read) ⟨⟨[M]⟩⟩ names = (⟨⟨[P]⟩⟩, true) ∧ Bare P ∧
      ∀ nm f, P.tables.get nm = some f ↔ (∃ k, (k ∈ done ∨ k ∈ names) ∧ nm ∈ sel k) ∧ f = R nm := by
  induction names generalizing done M with
  | nil => exact ⟨M, rfl, hM, by simpa using hg⟩
  | cons k names ih =>
    obtain ⟨M', e1, hM', hg'⟩ := found (hs k List.mem_cons_self) (hr k List.mem_cons_self)
    obtain ⟨P, e2, hP, hgP⟩ := merge_bare hM hM' (by
      intro nm f f' h1 h2
      rw [((hg nm f).1 h1).2, ((hg' nm f').1 h2).2]
      exact eqv_self (hd nm).1 (hd nm).2)
    obtain ⟨Q, e3, hQ, hgQ⟩ := ih (done := k :: done) (M := P) (fun x hx => hs x (List.mem_cons_of_mem _ hx))
      (fun x hx => hr x (List.mem_cons_of_mem _ hx)) hP (by
        intro nm f
        rw [hgP]
        constructor
        · intro h
          cases hm : M.tables.get nm with
          | some x =>
            rw [hm] at h
            cases h
            obtain ⟨⟨j, h1, h2⟩, h3⟩ := (hg nm f).1 hm
            exact ⟨⟨j, List.mem_cons_of_mem _ h1, h2⟩, h3⟩
          | none =>
            rw [hm] at h
            obtain ⟨h1, h2⟩ := (hg' nm f).1 h
            exact ⟨⟨k, List.mem_cons_self, h1⟩, h2⟩
        · rintro ⟨⟨j, h1, h2⟩, rfl⟩
          cases hm : M.tables.get nm with
          | some x => rw [((hg nm x).1 hm).2]; rfl
          | none =>
            rcases List.mem_cons.1 h1 with rfl | h1
            · exact (hg' nm _).2 ⟨h2, rfl⟩
            · rw [(hg nm (R nm)).2 ⟨⟨j, h1, h2⟩, rfl⟩] at hm
              cases hm)
    refine ⟨Q, ?_, hQ, ?_⟩
    · show (match explore sel read k with
        | .error _ => _
        | .ok ns => _) = _
      rw [e1]
      dsimp only
      rw [e2]
      exact e3
    · intro nm f
      rw [hgQ]
      constructor
      · rintro ⟨⟨j, h1, h2⟩, h3⟩
        refine ⟨⟨j, ?_, h2⟩, h3⟩
        rcases h1 with h1 | h1
        · rcases List.mem_cons.1 h1 with rfl | h1
          · exact .inr List.mem_cons_self
          · exact .inl h1
        · exact .inr (List.mem_cons_of_mem _ h1)
      · rintro ⟨⟨j, h1, h2⟩, h3⟩
        refine ⟨⟨j, ?_, h2⟩, h3⟩
        rcases h1 with h1 | h1
        · exact .inl (List.mem_cons_of_mem _ h1)
        · rcases List.mem_cons.1 h1 with rfl | h1
          · exact .inl List.mem_cons_self
          · exact .inr h1

/-- What is found in several namespaces. -/
theorem loop {names : List Text} (hne : names ≠ []) (hs : ∀ k ∈ names, (sel k).Nodup)
    (hr : ∀ k ∈ names, ∀ nm ∈ sel k, read k nm = .ok (R nm) ∧ (R nm).name.localId = nm)
    (hd : ∀ nm, Distinct (R nm).columns ∧ Distinct (R nm).constraints) :
    ∃ P, discoverLoop (explore sel read) ⟨⟨[]⟩⟩ names = (⟨⟨[P]⟩⟩, true) ∧ Bare P ∧
      ∀ nm f, P.tables.get nm = some f ↔ (∃ k ∈ names, nm ∈ sel k) ∧ f = R nm := by
  cases names with
  | nil => exact absurd rfl hne
  | cons k names =>
    obtain ⟨M, e1, hM, hg⟩ := found (hs k List.mem_cons_self) (hr k List.mem_cons_self)
    obtain ⟨P, e2, hP, hgP⟩ := loop_more (names := names) (done := [k]) (fun x hx => hs x (List.mem_cons_of_mem _ hx))
      (fun x hx => hr x (List.mem_cons_of_mem _ hx)) hd hM (by simpa using hg)
    refine ⟨P, ?_, hP, ?_⟩
    · show (match explore sel read k with
        | .error _ => _
        | .ok ns => _) = _
      rw [e1]
      exact e2
    · intro nm f
      rw [hgP]
      simp

theorem loop_reads : ∀ {names : List Text} {c found : Catalog}, discoverLoop (explore sel read) c names = (found, true) →
    ∀ k ∈ names, ∃ M, explore sel read k = .ok M
  | [], _, _, _, k, hk => by cases hk
  | n :: names, c, found, h, k, hk => by
    unfold discoverLoop at h
    cases he : explore sel read n with
    | error e => rw [he] at h; cases h
    | ok M =>
      rw [he] at h
      rcases List.mem_cons.1 hk with rfl | hk
      · exact ⟨M, he⟩
      · cases hm : c.merge ⟨⟨[M]⟩⟩ with
        | mk c' ok =>
          dsimp only at h
          rw [hm] at h
          cases ok with
          | false => cases h
          | true => exact loop_reads h k hk

theorem explore_reads {k : Text} {M : Namespace} (h : explore sel read k = .ok M) : ∀ nm ∈ sel k, ∃ f, read k nm = .ok f := by
  obtain ⟨ts, h1, _⟩ := Conv.bind_ok.1 h
  intro nm hnm
  obtain ⟨f, _, hf⟩ := Conv.mapM_fwd h1 nm hnm
  exact ⟨f, hf⟩

end

/-- A script for a single namespace. -/
theorem single {topo : List (Text × List Text) → Except Err (List Text)} (ht : Sorts topo) (hone : ∀ p, ∃ l, topo [p] = .ok l) {d : Dialect}
    {M N : Namespace} (e : M.name = N.name) :
    mutateCatalog topo d {} ⟨⟨[M]⟩⟩ ⟨⟨[N]⟩⟩ = .ok [] ↔ mutateNamespace d {} M N = .ok [] := by
  have hsort : ∀ (X : Namespace), (⟨⟨[X]⟩⟩ : Catalog).sort topo = .ok ⟨⟨[X]⟩⟩ := by
    intro X
    unfold Catalog.sort
    obtain ⟨l, hl⟩ := hone (X.name, X.referencedNamespaces.filter (fun r => (⟨[X]⟩ : ODict Namespace).contains r))
    have hp := ht.perm _ _ (by simp) hl
    have hp : l = [X.name] := List.perm_singleton.1 hp
    subst hp
    have hg : topo (⟨⟨[X]⟩⟩ : Catalog).graph = .ok [X.name] := hl
    rw [hg]
    have hre : (⟨[X]⟩ : ODict Namespace).reorder [X.name] = some ⟨[X]⟩ := by
      unfold ODict.reorder
      have : (⟨[X]⟩ : ODict Namespace).get X.name = some X := by
        show [X].find? _ = _
        rw [List.find?_cons_of_pos]
        exact decide_eq_true rfl
      simp only [List.mapM_cons, List.mapM_nil, this]
      rfl
    show (match (⟨[X]⟩ : ODict Namespace).reorder [X.name] with
      | some ns => _
      | none => _) = _
    rw [hre]
    rfl
  have hget : (⟨[N]⟩ : ODict Namespace).get M.name = some N := by
    show [N].find? _ = _
    rw [List.find?_cons_of_pos]
    exact decide_eq_true e.symm
  have d1 : (⟨[N]⟩ : ODict Namespace).difference ⟨[M]⟩ = [] := by
    simp [ODict.difference, ODict.contains, key, e]
  have d2 : (⟨[M]⟩ : ODict Namespace).difference ⟨[N]⟩ = [] := by
    simp [ODict.difference, ODict.contains, key, e]
  have d3 : (⟨[M]⟩ : ODict Namespace).intersection ⟨[N]⟩ = [(M, N)] := by
    have hget : (⟨[N]⟩ : ODict Namespace).get (key M) = some N := hget
    simp [ODict.intersection, hget]
  unfold mutateCatalog
  rw [hsort M, hsort N]
  simp only [bind, Except.bind, d1, d2, d3, List.mapM_cons, List.mapM_nil]
  cases hm : mutateNamespace d {} M N with
  | error x => simp [bind, Except.bind, pure, Except.pure]
  | ok l => simp [bind, Except.bind, pure, Except.pure]

/-- **Exactly** when a database without schemas needs no change. -/
theorem settled {topo : List (Text × List Text) → Except Err (List Text)} (ht : Sorts topo) (hone : ∀ p, ∃ l, topo [p] = .ok l) {d : Dialect}
    {sel : Text → List Text} {read : Text → Text → Except Err Table} {names : List Text} (hne : names ≠ []) (hs : ∀ k ∈ names, (sel k).Nodup)
    (hkey : ∀ k ∈ names, ∀ nm ∈ sel k, ∀ f, read k nm = .ok f → f.name.localId = nm ∧ Distinct f.columns ∧ Distinct f.constraints)
    (hagree : ∀ k ∈ names, ∀ k' ∈ names, ∀ nm, nm ∈ sel k → nm ∈ sel k' → read k nm = read k' nm) {N : Namespace} (hN : Bare N) :
    (∃ found, discoverLoop (explore sel read) ⟨⟨[]⟩⟩ names = (found, true) ∧ mutateCatalog topo d {} found ⟨⟨[N]⟩⟩ = .ok []) ↔
      (∀ tb ∈ N.tables.items, ∃ k ∈ names, tb.name.localId ∈ sel k ∧ ∃ f, read k tb.name.localId = .ok f ∧ mutateTable d f tb = .ok []) ∧
      ∀ k ∈ names, ∀ nm ∈ sel k, ∃ tb ∈ N.tables.items, tb.name.localId = nm := by
  have reduce : (∀ k ∈ names, ∀ nm ∈ sel k, ∃ f, read k nm = .ok f) →
      ((∃ found, discoverLoop (explore sel read) ⟨⟨[]⟩⟩ names = (found, true) ∧ mutateCatalog topo d {} found ⟨⟨[N]⟩⟩ = .ok []) ↔
      (∀ tb ∈ N.tables.items, ∃ k ∈ names, tb.name.localId ∈ sel k ∧ ∃ f, read k tb.name.localId = .ok f ∧ mutateTable d f tb = .ok []) ∧
      ∀ k ∈ names, ∀ nm ∈ sel k, ∃ tb ∈ N.tables.items, tb.name.localId = nm) := by
    intro hall
    have hR : ∃ R : Text → Table, (∀ k ∈ names, ∀ nm ∈ sel k, read k nm = .ok (R nm)) ∧ ∀ nm, Distinct (R nm).columns ∧ Distinct (R nm).constraints := by
      have : ∀ nm, ∃ f : Table, (∀ k ∈ names, nm ∈ sel k → read k nm = .ok f) ∧ Distinct f.columns ∧ Distinct f.constraints := by
        intro nm
        by_cases h : ∃ k ∈ names, nm ∈ sel k
        · obtain ⟨k, hk, hm⟩ := h
          obtain ⟨f, hf⟩ := hall k hk nm hm
          refine ⟨f, fun k' hk' hm' => (hagree k' hk' k hk nm hm' hm).trans hf, (hkey k hk nm hm f hf).2⟩
        · refine ⟨{ name := .global [], columns := ⟨[]⟩, primaryKey := [], constraints := ⟨[]⟩, description := none }, ?_, by exact List.nodup_nil, by exact List.nodup_nil⟩
          intro k hk hm
          exact absurd ⟨k, hk, hm⟩ h
      exact ⟨fun nm => (this nm).choose, fun k hk nm hm => (this nm).choose_spec.1 k hk hm, fun nm => (this nm).choose_spec.2⟩
    obtain ⟨R, h1, h2⟩ := hR
    obtain ⟨P, e1, hP, hg⟩ := loop hne hs (fun k hk nm hm => ⟨h1 k hk nm hm, (hkey k hk nm hm _ (h1 k hk nm hm)).1⟩) h2
    have hP' := (Set.namespace_iff (d := d) (a := P) (b := N) hN.tables hP.tables (by rw [hP.enums]) (by rw [hP.structs]) (by rw [hN.enums]) (by rw [hN.structs]))
    have e2 : (∃ found, discoverLoop (explore sel read) ⟨⟨[]⟩⟩ names = (found, true) ∧ mutateCatalog topo d {} found ⟨⟨[N]⟩⟩ = .ok []) ↔
        ∀ k, OptRel (fun x y => mutateTable d x y = .ok []) (P.tables.get k) (N.tables.get k) := by
      constructor
      · rintro ⟨found, f1, f2⟩
        rw [e1] at f1
        cases f1
        exact (hP'.1 ((single ht hone (hP.name.trans hN.name.symm)).1 f2)).2
      · intro h
        exact ⟨_, e1, (single ht hone (hP.name.trans hN.name.symm)).2 (hP'.2 ⟨hP.name.trans hN.name.symm, h⟩)⟩
    rw [e2]
    constructor
    · intro h
      refine ⟨?_, ?_⟩
      · intro tb htb
        have := h (key tb)
        rw [ODict.get_eq_of_mem (d := N.tables) hN.tables htb] at this
        cases hp : P.tables.get (key tb) with
        | none => rw [hp] at this; exact this.elim
        | some f =>
          rw [hp] at this
          obtain ⟨⟨k, k1, k2⟩, rfl⟩ := (hg _ _).1 hp
          exact ⟨k, k1, k2, _, h1 k k1 _ k2, this⟩
      · intro k hk nm hm
        have := h nm
        rw [(hg nm (R nm)).2 ⟨⟨k, hk, hm⟩, rfl⟩] at this
        cases hn : N.tables.get nm with
        | none => rw [hn] at this; exact this.elim
        | some tb =>
          obtain ⟨m1, m2⟩ := ODict.get_some_mem hn
          exact ⟨tb, m1, m2⟩
    · rintro ⟨g1, g2⟩ nm
      cases hn : N.tables.get nm with
      | none =>
        cases hp : P.tables.get nm with
        | none => trivial
        | some f =>
          obtain ⟨⟨k, k1, k2⟩, _⟩ := (hg _ _).1 hp
          obtain ⟨tb, t1, t2⟩ := g2 k k1 nm k2
          exact absurd (List.mem_map.2 ⟨tb, t1, t2⟩) ((ODict.get_none_iff _ _).1 hn)
      | some tb =>
        obtain ⟨m1, m2⟩ := ODict.get_some_mem hn
        have m2 : tb.name.localId = nm := m2
        subst m2
        obtain ⟨k, k1, k2, f, f1, f2⟩ := g1 tb m1
        have : f = R tb.name.localId := by
          have := h1 k k1 _ k2
          rw [f1] at this
          exact Except.ok.inj this
        rw [(hg tb.name.localId f).2 ⟨⟨k, k1, k2⟩, this⟩]
        exact f2
  by_cases hall : ∀ k ∈ names, ∀ nm ∈ sel k, ∃ f, read k nm = .ok f
  · exact reduce hall
  · constructor
    · rintro ⟨found, f1, _⟩
      exact absurd (fun k hk nm hm => (loop_reads f1 k hk).elim (fun M hM => explore_reads hM nm hm)) hall
    · rintro ⟨g1, g2⟩
      refine absurd (fun k hk nm hm => ?_) hall
      obtain ⟨tb, t1, t2⟩ := g2 k hk nm hm
      obtain ⟨k', k1, k2, f, f1, _⟩ := g1 tb t1
      rw [t2] at k2 f1
      exact ⟨f, (hagree k hk k' k1 nm hm k2).trans f1⟩

section
variable {sel : Text → List Text} {read : Text → Text → Except Err Table}

theorem eqv_name {a b : Table} (h : a.eqv b = true) : a.name = b.name := by
  unfold Table.eqv at h
  simp only [Bool.and_eq_true, decide_eq_true_eq] at h
  exact h.1.1.1.1.2

theorem merge_inv {M M' : Namespace} (hM : Bare M) (hM' : Bare M') {c : Catalog} (h : (⟨⟨[M]⟩⟩ : Catalog).merge ⟨⟨[M']⟩⟩ = (c, true)) :
    ∃ P, c = ⟨⟨[P]⟩⟩ ∧ Bare P ∧ (∀ nm, P.tables.get nm = (M.tables.get nm).or (M'.tables.get nm)) ∧
      ∀ nm f f', M.tables.get nm = some f → M'.tables.get nm = some f' → f.eqv f' = true := by
  have hget : (⟨[M]⟩ : ODict Namespace).get M'.name = some M := by
    show [M].find? _ = _
    rw [List.find?_cons_of_pos]
    exact decide_eq_true (hM.name.trans hM'.name.symm)
  have hm : M.merge M' = ({ M with tables := (mergeItems Table.eqv M.tables M'.tables.items).1 }, (mergeItems Table.eqv M.tables M'.tables.items).2) := by
    unfold Namespace.merge
    rw [hM.enums, hM.structs, hM'.enums, hM'.structs]
    simp only [mergeItems, if_true]
  have hconv : (mergeItems Table.eqv M.tables M'.tables.items).2 = true := by
    cases hc : (mergeItems Table.eqv M.tables M'.tables.items).2 with
    | true => rfl
    | false =>
      unfold Catalog.merge at h
      rw [hc] at hm
      simp [mergeNamespaces, hget, hm] at h
  have hagree : ∀ nm f f', M.tables.get nm = some f → M'.tables.get nm = some f' → f.eqv f' = true := by
    intro nm f f' h1 h2
    obtain ⟨m1, m2⟩ := ODict.get_some_mem h2
    exact (C37.mergeItems_ok hM'.tables hconv).1 f' m1 f (by rw [m2]; exact h1)
  obtain ⟨P, e1, e2, e3⟩ := merge_bare hM hM' hagree
  rw [h] at e1
  cases e1
  exact ⟨P, rfl, e2, e3, hagree⟩

/-- What is found in a namespace, if it can be read. -/
theorem found_any {k : Text} (hs : (sel k).Nodup) (hkey : ∀ nm ∈ sel k, ∀ f, read k nm = .ok f → f.name.localId = nm) {M : Namespace}
    (h : explore sel read k = .ok M) : Bare M ∧ ∀ nm ∈ sel k, ∃ f, read k nm = .ok f ∧ M.tables.get nm = some f := by
  have hr := explore_reads h
  have : ∀ nm, ∃ f : Table, nm ∈ sel k → read k nm = .ok f := by
    intro nm
    by_cases hm : nm ∈ sel k
    · obtain ⟨f, hf⟩ := hr nm hm
      exact ⟨f, fun _ => hf⟩
    · exact ⟨{ name := .global [], columns := ⟨[]⟩, primaryKey := [], constraints := ⟨[]⟩, description := none }, fun h => absurd h hm⟩
  have hR : ∀ nm ∈ sel k, read k nm = .ok (this nm).choose := fun nm hm => (this nm).choose_spec hm
  obtain ⟨M', e1, e2, e3⟩ := found (R := fun nm => (this nm).choose) hs (fun nm hm => ⟨hR nm hm, hkey nm hm _ (hR nm hm)⟩)
  rw [h] at e1
  cases e1
  exact ⟨e2, fun nm hm => ⟨_, hR nm hm, (e3 nm _).2 ⟨hm, rfl⟩⟩⟩

theorem names_more {names done : List Text} {M : Namespace} {c : Catalog} (hs : ∀ k ∈ names, (sel k).Nodup)
    (hkey : ∀ k ∈ names, ∀ nm ∈ sel k, ∀ f, read k nm = .ok f → f.name.localId = nm) (hM : Bare M)
    (hi : ∀ k ∈ done, ∀ nm ∈ sel k, ∃ f0 f, M.tables.get nm = some f0 ∧ read k nm = .ok f ∧ f0.name = f.name)
    (h : discoverLoop (explore sel read) ⟨⟨[M]⟩⟩ names = (c, true)) :
    ∃ P, c = ⟨⟨[P]⟩⟩ ∧ Bare P ∧
      ∀ k, k ∈ done ∨ k ∈ names → ∀ nm ∈ sel k, ∃ f0 f, P.tables.get nm = some f0 ∧ read k nm = .ok f ∧ f0.name = f.name := by
  induction names generalizing done M with
  | nil =>
    cases h
    exact ⟨M, rfl, hM, fun k hk => hi k (by simpa using hk)⟩
  | cons n names ih =>
    unfold discoverLoop at h
    cases he : explore sel read n with
    | error e => rw [he] at h; cases h
    | ok M' =>
      rw [he] at h
      obtain ⟨hM', hg⟩ := found_any (hs n List.mem_cons_self) (hkey n List.mem_cons_self) he
      cases hm : (⟨⟨[M]⟩⟩ : Catalog).merge ⟨⟨[M']⟩⟩ with
      | mk c' ok =>
        dsimp only at h
        rw [hm] at h
        cases ok with
        | false => cases h
        | true =>
          obtain ⟨P, rfl, hP, hPg, hag⟩ := merge_inv hM hM' hm
          obtain ⟨Q, e1, e2, e3⟩ := ih (done := n :: done) (M := P) (fun x hx => hs x (List.mem_cons_of_mem _ hx))
            (fun x hx => hkey x (List.mem_cons_of_mem _ hx)) hP (by
              intro k hk nm hnm
              rcases List.mem_cons.1 hk with rfl | hk
              · obtain ⟨f, f1, f2⟩ := hg nm hnm
                cases hM0 : M.tables.get nm with
                | none => exact ⟨f, f, by rw [hPg, hM0]; exact f2, f1, rfl⟩
                | some f0 => exact ⟨f0, f, by rw [hPg, hM0]; rfl, f1, eqv_name (hag nm f0 f hM0 f2)⟩
              · obtain ⟨f0, f, f1, f2, f3⟩ := hi k hk nm hnm
                exact ⟨f0, f, by rw [hPg, f1]; rfl, f2, f3⟩) h
          refine ⟨Q, e1, e2, fun k hk => e3 k ?_⟩
          rcases hk with hk | hk
          · exact .inl (List.mem_cons_of_mem _ hk)
          · rcases List.mem_cons.1 hk with rfl | hk
            · exact .inl List.mem_cons_self
            · exact .inr hk

/-- Each table that was read is among those found, under its name. -/
theorem loop_names {names : List Text} {c : Catalog} (hne : names ≠ []) (hs : ∀ k ∈ names, (sel k).Nodup)
    (hkey : ∀ k ∈ names, ∀ nm ∈ sel k, ∀ f, read k nm = .ok f → f.name.localId = nm)
    (h : discoverLoop (explore sel read) ⟨⟨[]⟩⟩ names = (c, true)) :
    ∃ P, c = ⟨⟨[P]⟩⟩ ∧ Bare P ∧ ∀ k ∈ names, ∀ nm ∈ sel k, ∃ f0 f, P.tables.get nm = some f0 ∧ read k nm = .ok f ∧ f0.name = f.name := by
  cases names with
  | nil => exact absurd rfl hne
  | cons n names =>
    unfold discoverLoop at h
    cases he : explore sel read n with
    | error e => rw [he] at h; cases h
    | ok M =>
      rw [he] at h
      obtain ⟨hM, hg⟩ := found_any (hs n List.mem_cons_self) (hkey n List.mem_cons_self) he
      obtain ⟨P, e1, e2, e3⟩ := names_more (names := names) (done := [n]) (M := M) (fun x hx => hs x (List.mem_cons_of_mem _ hx))
        (fun x hx => hkey x (List.mem_cons_of_mem _ hx)) hM (by
          intro k hk nm hnm
          rw [List.mem_singleton.1 hk] at hnm ⊢
          obtain ⟨f, f1, f2⟩ := hg nm hnm
          exact ⟨f, f, f2, f1, rfl⟩) h
      refine ⟨P, e1, e2, fun k hk => e3 k ?_⟩
      rcases List.mem_cons.1 hk with rfl | hk
      · exact .inl List.mem_cons_self
      · exact .inr hk

/-- What was found and is not wanted is dropped. -/
theorem drops {topo : List (Text × List Text) → Except Err (List Text)} (ht : Sorts topo) {d : Dialect} {names : List Text} {c : Catalog}
    (hs : ∀ k ∈ names, (sel k).Nodup) (hkey : ∀ k ∈ names, ∀ nm ∈ sel k, ∀ f, read k nm = .ok f → f.name.localId = nm)
    (h : discoverLoop (explore sel read) ⟨⟨[]⟩⟩ names = (c, true)) {k nm : Text} (hk : k ∈ names) (hnm : nm ∈ sel k) {N : Namespace}
    (hN : N.name = []) (hT : Distinct N.tables) (unwanted : ∀ tb ∈ N.tables.items, tb.name.localId ≠ nm) {script : List Stmt}
    (hm : mutateCatalog topo d {} c ⟨⟨[N]⟩⟩ = .ok script) : ∃ q : QId, Stmt.dropTable q ∈ script ∧ q.localId = nm := by
  obtain ⟨P, rfl, hP, hf⟩ := loop_names (by intro e; rw [e] at hk; cases hk) hs hkey h
  obtain ⟨f0, f, e1, e2, e3⟩ := hf k hk nm hnm
  obtain ⟨l, l1, l2⟩ := C11.catalog_namespace ht (m := P) (n := N) (S := ⟨⟨[P]⟩⟩) (T := ⟨⟨[N]⟩⟩) (by simp [Distinct]) (by simp [Distinct]) hm List.mem_cons_self
    List.mem_cons_self (hP.name.trans hN.symm)
  obtain ⟨_, _, _, _, _, _, _, _, p9⟩ := C11.namespace_parts l1
  obtain ⟨m1, m2⟩ := ODict.get_some_mem e1
  refine ⟨f0.name, l2 _ (p9 rfl f0 (ODict.mem_difference.2 ⟨m1, ?_⟩)), m2⟩
  rw [m2]
  intro hin
  obtain ⟨tb, h1, h2⟩ := List.mem_map.1 hin
  exact unwanted tb h1 h2

end

end Flat
end PySqlSync
