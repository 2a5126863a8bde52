/-
The depth-first search of Model/Topo.lean is a topological sort.
-/
import Verif.Model.Topo

set_option autoImplicit false

namespace PySqlSync
open Spec

variable {g : List (Text × List Text)}

/-- Everything a listed node refers to is listed earlier. -/
def TopoGood (g : List (Text × List Text)) (l : List Text) : Prop :=
  ∀ p x s, l = p ++ x :: s → ∀ m ∈ adjacent g x, m ≠ x → m ∈ p

structure TopoInv (g : List (Text × List Text)) (nodes : Text → Prop) (stack done : List Text) : Prop where
  nodup : done.Nodup
  good : TopoGood g done
  nodes : ∀ x ∈ done, nodes x
  off : ∀ x ∈ done, x ∉ stack

structure TopoStep (g : List (Text × List Text)) (nodes : Text → Prop) (stack done done' : List Text) : Prop where
  inv : TopoInv g nodes stack done'
  sub : ∀ x ∈ done, x ∈ done'

theorem good_snoc {l : List Text} {n : Text} (h : TopoGood g l) (hn : ∀ m ∈ adjacent g n, m ≠ n → m ∈ l) :
    TopoGood g (l ++ [n]) := by
  intro p x s e m hm hne
  rcases List.eq_nil_or_concat s with rfl | ⟨s', y, rfl⟩
  · have : p ++ [x] = l ++ [n] := e.symm
    have ⟨h1, h2⟩ := List.append_inj' this rfl
    subst h1; cases h2
    exact hn m hm hne
  · rw [show p ++ x :: s'.concat y = (p ++ x :: s') ++ [y] by simp] at e
    have ⟨h1, _⟩ := List.append_inj' e rfl
    exact h p x s' h1 m hm hne

variable {nodes : Text → Prop}

theorem foldlM_ok {stack : List Text} {f : List Text → Text → Except Err (List Text)}
    (hf : ∀ done n done', nodes n → TopoInv g nodes stack done → f done n = .ok done' →
      TopoStep g nodes stack done done' ∧ n ∈ done') :
    ∀ (ms : List Text) (done : List Text), (∀ m ∈ ms, nodes m) → TopoInv g nodes stack done → ∀ {done' : List Text},
      ms.foldlM f done = .ok done' → TopoStep g nodes stack done done' ∧ ∀ m ∈ ms, m ∈ done' := by
  intro ms
  induction ms with
  | nil =>
    intro done _ inv done' h
    cases h
    exact ⟨⟨inv, fun _ h => h⟩, by simp⟩
  | cons m ms ih =>
    intro done hms inv done' h
    rw [List.foldlM_cons] at h
    simp only [bind, Except.bind] at h
    split at h
    · cases h
    · rename_i d1 h1
      have ⟨r1, m1⟩ := hf done m d1 (hms m (by simp)) inv h1
      have ⟨r2, m2⟩ := ih d1 (fun x hx => hms x (by simp [hx])) r1.inv h
      refine ⟨⟨r2.inv, fun x hx => r2.sub x (r1.sub x hx)⟩, ?_⟩
      intro x hx
      rcases List.mem_cons.1 hx with rfl | hx
      · exact r2.sub _ m1
      · exact m2 x hx

theorem visit_ok (hadj : ∀ x, nodes x → ∀ m ∈ adjacent g x, nodes m) : ∀ (fuel : Nat) (stack done : List Text)
    (n : Text) (done' : List Text), nodes n → TopoInv g nodes stack done →
    visit g fuel stack done n = .ok done' → TopoStep g nodes stack done done' ∧ n ∈ done' := by
  intro fuel
  induction fuel with
  | zero => intro stack done n done' _ _ h; cases h
  | succ fuel ih =>
    intro stack done n done' hn inv h
    unfold visit at h
    split at h
    · rename_i hc
      cases h
      exact ⟨⟨inv, fun _ h => h⟩, by simpa using hc⟩
    · rename_i hc
      split at h
      · cases h
      · rename_i hs
        simp only [bind, Except.bind] at h
        split at h
        · cases h
        · rename_i d' hd'
          cases h
          have hc' : n ∉ done := by simpa using hc
          have hs' : n ∉ stack := by simpa using hs
          have inv' : TopoInv g nodes (n :: stack) done := by
            refine ⟨inv.nodup, inv.good, inv.nodes, ?_⟩
            intro x hx hmem
            rcases List.mem_cons.1 hmem with rfl | h'
            · exact hc' hx
            · exact inv.off x hx h'
          have ⟨r, hall⟩ := foldlM_ok (stack := n :: stack) (fun d m d' => ih (n :: stack) d m d')
            ((adjacent g n).filter (· ≠ n)) done
            (by intro m hm; exact hadj n hn m (List.mem_filter.1 hm).1) inv' hd'
          have hnd : n ∉ d' := fun hmem => r.inv.off n hmem (by simp)
          refine ⟨⟨⟨?_, ?_, ?_, ?_⟩, fun x hx => by simp [r.sub x hx]⟩, by simp⟩
          · rw [List.nodup_append]
            refine ⟨r.inv.nodup, by simp, ?_⟩
            intro a ha b hb
            rw [List.mem_singleton.1 hb]
            intro e; exact hnd (e ▸ ha)
          · apply good_snoc r.inv.good
            intro m hm hne
            exact hall m (List.mem_filter.2 ⟨hm, by simpa using hne⟩)
          · intro x hx
            rcases List.mem_append.1 hx with h' | h'
            · exact r.inv.nodes x h'
            · rw [List.mem_singleton.1 h']; exact hn
          · intro x hx
            rcases List.mem_append.1 hx with h' | h'
            · exact fun hm => r.inv.off x h' (by simp [hm])
            · rw [List.mem_singleton.1 h']; exact hs'

theorem adjacent_eq (hg : (g.map Prod.fst).Nodup) {p : Text × List Text} (hp : p ∈ g) : adjacent g p.1 = p.2 := by
  unfold adjacent
  induction g with
  | nil => cases hp
  | cons q g ih =>
    simp only [List.map_cons, List.nodup_cons] at hg
    by_cases e : q.1 = p.1
    · rcases List.mem_cons.1 hp with rfl | h
      · simp
      · exact absurd (List.mem_map.2 ⟨p, h, e.symm⟩) hg.1
    · rcases List.mem_cons.1 hp with rfl | h
      · exact absurd rfl e
      · rw [List.find?_cons, decide_eq_false e]
        exact ih hg.2 h

/-- The assumption made about the external function can be met.  (References to unknown nodes are left out, as
    Catalog.sort does before it calls the function.) -/
theorem topoSort_sorts : Sorts (fun g =>
    topoSort (g.map (fun p => (p.1, p.2.filter (fun m => (g.map Prod.fst).contains m))))) := by
  have main : ∀ g l, (g.map Prod.fst).Nodup → (∀ p ∈ g, ∀ m ∈ p.2, m ∈ g.map Prod.fst) → topoSort g = .ok l →
      l.Perm (g.map Prod.fst) ∧ TopoGood g l := by
    intro g l hg hc h
    have hadj : ∀ x, x ∈ g.map Prod.fst → ∀ m ∈ adjacent g x, m ∈ g.map Prod.fst := by
      intro x hx m hm
      obtain ⟨p, hp, rfl⟩ := List.mem_map.1 hx
      rw [adjacent_eq hg hp] at hm
      exact hc p hp m hm
    have ⟨r, hall⟩ := foldlM_ok (g := g) (nodes := fun x => x ∈ g.map Prod.fst) (stack := [])
      (fun d m d' => visit_ok hadj (g.length + 2) [] d m d') (g.map Prod.fst) [] (fun _ h => h) ⟨by simp, by intro p x s e; simp at e, by simp, by simp⟩ h
    refine ⟨?_, r.inv.good⟩
    exact (List.perm_ext_iff_of_nodup r.inv.nodup hg).2 (fun x => ⟨r.inv.nodes x, hall x⟩)
  have keys : ∀ (g : List (Text × List Text)) (f : Text × List Text → List Text),
      (g.map (fun p => (p.1, f p))).map Prod.fst = g.map Prod.fst := by
    intro g f; simp [List.map_map, Function.comp_def]
  have closed : ∀ (g : List (Text × List Text)), ∀ p ∈ g.map (fun p => (p.1, p.2.filter
      (fun m => (g.map Prod.fst).contains m))), ∀ m ∈ p.2, m ∈ g.map Prod.fst := by
    intro g p hp m hm
    obtain ⟨q, hq, rfl⟩ := List.mem_map.1 hp
    have := (List.mem_filter.1 hm).2
    simpa using this
  constructor
  · intro g l hg h
    have := (main _ l (by rw [keys]; exact hg) (by rw [keys]; exact closed g) h).1
    rwa [keys] at this
  · intro g l hg hc h p hp m hm hne
    have ⟨hperm, hgood⟩ := main _ l (by rw [keys]; exact hg) (by rw [keys]; exact closed g) h
    rw [keys] at hperm
    obtain ⟨a, b, e⟩ := List.append_of_mem (hperm.mem_iff.2 (List.mem_map_of_mem hp))
    have hm' : m ∈ adjacent (g.map (fun p => (p.1, p.2.filter (fun m => (g.map Prod.fst).contains m)))) p.1 := by
      have := adjacent_eq (g := g.map (fun p => (p.1, p.2.filter (fun m => (g.map Prod.fst).contains m))))
        (by rw [keys]; exact hg) (List.mem_map_of_mem hp)
      rw [this]
      exact List.mem_filter.2 ⟨hm, by simpa using hc p hp m hm⟩
    have hin := hgood a p.1 b e m hm' hne
    obtain ⟨a1, a2, e'⟩ := List.append_of_mem hin
    exact ⟨a1, a2, b, by rw [e, e']; simp⟩

end PySqlSync
