/-
Exploring a database with schemas.
-/
import Verif.Lemmas.Settled
import Verif.Model.Session
import Verif.Props.C14
import Verif.Lemmas.Flat

set_option autoImplicit false

namespace PySqlSync
open Spec

namespace Qual

theorem loop_reads {explore : Text → Except Err Namespace} : ∀ {names : List Text} {c found : Catalog}, discoverLoop explore c names = (found, true) →
    ∀ k ∈ names, ∃ M, explore k = .ok M
  | [], _, _, _, k, hk => by cases hk
  | n :: names, c, found, h, k, hk => by
    unfold discoverLoop at h
    cases he : explore n with
    | error e => rw [he] at h; cases h
    | ok M =>
      rw [he] at h
      rcases List.mem_cons.1 hk with rfl | hk
      · exact ⟨M, he⟩
      · cases hm : c.merge ⟨⟨[M]⟩⟩ with
        | mk c' ok =>
          dsimp only at h
          rw [hm] at h
          cases ok with
          | false => cases h
          | true => exact loop_reads h k hk

theorem loop_more {explore : Text → Except Err Namespace} {R : Text → Namespace} : ∀ {names done : List Text} {c : Catalog}, CatDistinct c →
    (∀ k, c.namespaces.get k = if k ∈ done then some (R k) else none) →
    (∀ k ∈ names, explore k = .ok (R k) ∧ (R k).name = k ∧ NsDistinct (R k)) →
    ∃ c', discoverLoop explore c names = (c', true) ∧ CatDistinct c' ∧ ∀ k, c'.namespaces.get k = if k ∈ done ∨ k ∈ names then some (R k) else none
  | [], done, c, hc, hg, _ => ⟨c, rfl, hc, by simpa using hg⟩
  | n :: names, done, c, hc, hg, h => by
    obtain ⟨h1, h2, h3⟩ := h n List.mem_cons_self
    obtain ⟨c', e1, hc', hg'⟩ := C14.merge_one (n := R n) hc h3 (by
      rw [h2, hg]
      by_cases hd : n ∈ done
      · rw [if_pos hd]; exact .inr rfl
      · rw [if_neg hd]; exact .inl rfl)
    obtain ⟨c'', e2, hc'', hg''⟩ := loop_more (explore := explore) (R := R) (names := names) (done := n :: done) hc' (by
      intro k
      rw [hg', h2, hg]
      by_cases e : k = n
      · subst e; rw [if_pos rfl, if_pos List.mem_cons_self]
      · rw [if_neg e]
        by_cases hd : k ∈ done
        · rw [if_pos hd, if_pos (List.mem_cons_of_mem _ hd)]
        · rw [if_neg hd, if_neg (by simp [e, hd])]) (fun k hk => h k (List.mem_cons_of_mem _ hk))
    refine ⟨c'', ?_, hc'', ?_⟩
    · show (match explore n with
        | .error _ => _
        | .ok ns => _) = _
      rw [h1]
      dsimp only
      rw [e1]
      exact e2
    · intro k
      rw [hg'']
      have : (k ∈ n :: done ∨ k ∈ names) ↔ (k ∈ done ∨ k ∈ n :: names) := by
        simp only [List.mem_cons]
        constructor
        · rintro ((h | h) | h)
          · exact .inr (.inl h)
          · exact .inl h
          · exact .inr (.inr h)
        · rintro (h | h | h)
          · exact .inl (.inr h)
          · exact .inl (.inl h)
          · exact .inr h
      simp only [this]

/-- **Exactly** when a database with schemas needs no change. -/
theorem settled {topo : List (Text × List Text) → Except Err (List Text)} (ht : Sorts topo) {d : Dialect} {explore : Text → Except Err Namespace}
    {T : Catalog} (hT : CatDistinct T) {names : List Text} (hn : ∀ k, k ∈ names ↔ ∃ n ∈ T.namespaces.items, n.name = k)
    (hkey : ∀ k ∈ names, ∀ f, explore k = .ok f → f.name = k ∧ NsDistinct f) (sortT : ∃ T', T.sort topo = .ok T')
    (sortF : ∀ found, discoverLoop explore ⟨⟨[]⟩⟩ names = (found, true) → ∃ F', found.sort topo = .ok F') :
    (∃ found, discoverLoop explore ⟨⟨[]⟩⟩ names = (found, true) ∧ mutateCatalog topo d {} found T = .ok []) ↔
      ∀ n ∈ T.namespaces.items, ∃ f, explore n.name = .ok f ∧ mutateNamespace d {} f n = .ok [] := by
  have loop : (∀ k ∈ names, ∃ f, explore k = .ok f) → ∃ (R : Text → Namespace) (c : Catalog), (∀ k ∈ names, explore k = .ok (R k)) ∧
      discoverLoop explore ⟨⟨[]⟩⟩ names = (c, true) ∧ CatDistinct c ∧ ∀ k, c.namespaces.get k = if k ∈ names then some (R k) else none := by
    intro h
    have : ∀ k, ∃ f : Namespace, k ∈ names → explore k = .ok f := by
      intro k
      by_cases hk : k ∈ names
      · obtain ⟨f, hf⟩ := h k hk
        exact ⟨f, fun _ => hf⟩
      · exact ⟨{}, fun h => absurd h hk⟩
    have hR : ∀ k ∈ names, explore k = .ok (this k).choose := fun k hk => (this k).choose_spec hk
    obtain ⟨c, e1, e2, e3⟩ := loop_more (explore := explore) (R := fun k => (this k).choose) (names := names) (done := []) (c := ⟨⟨[]⟩⟩)
      ⟨by simp [Distinct], by simp⟩ (fun k => by simp [ODict.get]) (fun k hk => ⟨hR k hk, hkey k hk _ (hR k hk)⟩)
    exact ⟨_, c, hR, e1, e2, by simpa using e3⟩
  constructor
  · rintro ⟨found, f1, f2⟩ n hmem
    obtain ⟨R, c, r1, r2, r3, r4⟩ := loop (loop_reads f1)
    rw [r2] at f1
    cases f1
    have hk : n.name ∈ names := (hn _).2 ⟨n, hmem, rfl⟩
    have hg := r4 n.name
    rw [if_pos hk] at hg
    obtain ⟨hm, _⟩ := ODict.get_some_mem hg
    obtain ⟨l, l1, l2⟩ := C11.catalog_namespace ht r3.names hT.names f2 hm hmem (hkey _ hk _ (r1 _ hk)).1
    refine ⟨_, r1 _ hk, ?_⟩
    rw [l1]
    cases l with
    | nil => rfl
    | cons x l => cases l2 x List.mem_cons_self
  · intro h
    obtain ⟨R, c, r1, r2, r3, r4⟩ := loop (fun k hk => by
      obtain ⟨n, hm, rfl⟩ := (hn k).1 hk
      obtain ⟨f, hf, _⟩ := h n hm
      exact ⟨f, hf⟩)
    refine ⟨c, r2, ?_⟩
    obtain ⟨F', hF⟩ := sortF c r2
    obtain ⟨T', hT'⟩ := sortT
    have kF := sort_mem ht r3.names hF
    have kT := sort_mem ht hT.names hT'
    have memF : ∀ m ∈ F'.namespaces.items, ∃ n ∈ T.namespaces.items, m.name = n.name ∧ mutateNamespace d {} m n = .ok [] := by
      intro m hm
      have hm := (kF.2.1 m).1 hm
      have hg := ODict.get_eq_of_mem (d := c.namespaces) r3.names hm
      rw [r4] at hg
      split at hg
      · rename_i hk
        obtain ⟨n, hmem, hnk⟩ := (hn _).1 hk
        obtain ⟨f, hf, hi⟩ := h n hmem
        have hnk : n.name = m.name := hnk
        refine ⟨n, hmem, hnk.symm, ?_⟩
        have := r1 _ hk
        rw [show key m = n.name from hnk.symm, hf] at this
        have e : f = m := by
          rw [Except.ok.inj this]
          rw [show key m = n.name from hnk.symm] at hg
          exact Option.some.inj hg
        rw [← e]
        exact hi
      · cases hg
    have d1 : T'.namespaces.difference F'.namespaces = [] := by
      apply List.eq_nil_iff_forall_not_mem.2
      intro n hmem
      obtain ⟨h1, h2⟩ := ODict.mem_difference.1 hmem
      have h1 := (kT.2.1 n).1 h1
      have hg := r4 n.name
      rw [if_pos ((hn _).2 ⟨n, h1, rfl⟩)] at hg
      obtain ⟨h3, h4⟩ := ODict.get_some_mem hg
      exact h2 (List.mem_map.2 ⟨_, (kF.2.1 _).2 h3, h4⟩)
    have d2 : F'.namespaces.difference T'.namespaces = [] := by
      apply List.eq_nil_iff_forall_not_mem.2
      intro m hmem
      obtain ⟨h1, h2⟩ := ODict.mem_difference.1 hmem
      obtain ⟨n, h3, h4, _⟩ := memF m h1
      exact h2 (List.mem_map.2 ⟨n, (kT.2.1 _).2 h3, h4.symm⟩)
    obtain ⟨r, hr, hrf⟩ := PySqlSync.mapM_nil (f := fun p : Namespace × Namespace => mutateNamespace d {} p.1 p.2)
      (l := F'.namespaces.intersection T'.namespaces) (fun p hp => by
        obtain ⟨h1, h2, h3⟩ := (ODict.mem_intersection (a := p.1) (b := p.2) kT.1).1 hp
        obtain ⟨n, h4, h5, h6⟩ := memF p.1 h1
        have : p.2 = n := by
          have g1 := ODict.get_eq_of_mem (d := T.namespaces) hT.names ((kT.2.1 _).1 h2)
          have g2 := ODict.get_eq_of_mem (d := T.namespaces) hT.names h4
          have e : key p.2 = key n := h3.symm.trans h5
          rw [e, g2] at g1
          exact (Option.some.inj g1).symm
        rw [this]
        exact h6)
    unfold mutateCatalog
    rw [hF, hT']
    simp [bind, Except.bind, pure, Except.pure, d1, d2, hr, hrf]

/-- Tables that are read one by one. -/
theorem tables_iff {names : List Text} {read : Text → Except Err Table} (hs : names.Nodup)
    (hkey : ∀ nm ∈ names, ∀ f, read nm = .ok f → f.name.localId = nm) {D : ODict Table} (hD : Distinct D) {Same : Table → Table → Prop} :
    (∃ ts, names.mapM read = .ok ts ∧ ∀ k, OptRel Same ((ODict.ofList ts).get k) (D.get k)) ↔
      (∀ tb ∈ D.items, tb.name.localId ∈ names ∧ ∃ f, read tb.name.localId = .ok f ∧ Same f tb) ∧
      ∀ nm ∈ names, ∃ tb ∈ D.items, tb.name.localId = nm := by
  have main : (∀ nm ∈ names, ∃ f, read nm = .ok f) → ∃ (R : Text → Table) (ts : List Table), (∀ nm ∈ names, read nm = .ok (R nm)) ∧
      names.mapM read = .ok ts ∧ ∀ nm f, (ODict.ofList ts).get nm = some f ↔ nm ∈ names ∧ f = R nm := by
    intro h
    have : ∀ nm, ∃ f : Table, nm ∈ names → read nm = .ok f := by
      intro k
      by_cases hk : k ∈ names
      · obtain ⟨f, hf⟩ := h k hk
        exact ⟨f, fun _ => hf⟩
      · exact ⟨{ name := .global [], columns := ⟨[]⟩, primaryKey := [], constraints := ⟨[]⟩, description := none }, fun h => absurd h hk⟩
    have hR : ∀ nm ∈ names, read nm = .ok (this nm).choose := fun k hk => (this k).choose_spec hk
    obtain ⟨M, e1, _, e3⟩ := Flat.found (sel := fun _ => names) (read := fun _ => read) (R := fun nm => (this nm).choose) (k := []) hs
      (fun nm hm => ⟨hR nm hm, hkey nm hm _ (hR nm hm)⟩)
    obtain ⟨ts, t1, t2⟩ := Conv.bind_ok.1 e1
    have t2 := Conv.pure_ok.1 t2
    subst t2
    exact ⟨_, ts, hR, t1, e3⟩
  constructor
  · rintro ⟨ts, h1, h2⟩
    obtain ⟨R, ts', r1, r2, r3⟩ := main (fun nm hm => by
      obtain ⟨f, _, hf⟩ := Conv.mapM_fwd h1 nm hm
      exact ⟨f, hf⟩)
    rw [r2] at h1
    cases h1
    refine ⟨fun tb htb => ?_, fun nm hm => ?_⟩
    · have := h2 (key tb)
      rw [ODict.get_eq_of_mem (d := D) hD htb] at this
      cases hg : (ODict.ofList ts).get (key tb) with
      | none => rw [hg] at this; exact this.elim
      | some f =>
        rw [hg] at this
        obtain ⟨k1, rfl⟩ := (r3 _ _).1 hg
        exact ⟨k1, _, r1 _ k1, this⟩
    · have := h2 nm
      rw [(r3 nm (R nm)).2 ⟨hm, rfl⟩] at this
      cases hn : D.get nm with
      | none => rw [hn] at this; exact this.elim
      | some tb =>
        obtain ⟨m1, m2⟩ := ODict.get_some_mem hn
        exact ⟨tb, m1, m2⟩
  · rintro ⟨g1, g2⟩
    obtain ⟨R, ts, r1, r2, r3⟩ := main (fun nm hm => by
      obtain ⟨tb, t1, rfl⟩ := g2 nm hm
      obtain ⟨_, f, hf, _⟩ := g1 tb t1
      exact ⟨f, hf⟩)
    refine ⟨ts, r2, fun nm => ?_⟩
    cases hn : D.get nm with
    | none =>
      cases hp : (ODict.ofList ts).get nm with
      | none => trivial
      | some f =>
        obtain ⟨k1, _⟩ := (r3 _ _).1 hp
        obtain ⟨tb, t1, t2⟩ := g2 nm k1
        exact absurd (List.mem_map.2 ⟨tb, t1, t2⟩) ((ODict.get_none_iff _ _).1 hn)
    | some tb =>
      obtain ⟨m1, m2⟩ := ODict.get_some_mem hn
      have m2 : tb.name.localId = nm := m2
      subst m2
      obtain ⟨k1, f, f1, f2⟩ := g1 tb m1
      have : f = R tb.name.localId := by
        have := r1 _ k1
        rw [f1] at this
        exact Except.ok.inj this
      rw [(r3 tb.name.localId f).2 ⟨k1, this⟩]
      exact f2

end Qual
end PySqlSync
