/-
C38 — Object collections behave like ordered maps.
-/
import Verif.Lemmas.ObjectDict
import Mathlib.Data.List.Perm.Subperm
import Mathlib.Logic.Basic

set_option autoImplicit false

namespace PySqlSync
open ODict

/-- Specification: an insertion-ordered map. -/
structure OrderedMap (α : Type) where
  order : List Text
  value : Text → Option α

namespace OrderedMap
variable {α : Type} [Named α]

/-- Specification of the operations; `none` means the operation is refused. -/
inductive Op (α : Type) where
  | add (a : α)
  | remove (k : Text)
  | reorder (order : List Text)
  | sort

/-- Keep the first occurrence of each key. -/
def firsts : List Text → List Text
  | [] => []
  | k :: ks => k :: (firsts ks).filter (fun x => x ≠ k)

def step (m : OrderedMap α) : Op α → Option (OrderedMap α)
  | .add a =>
    if (m.value (key a)).isSome then none
    else some { order := m.order ++ [key a], value := fun k => if k = key a then some a else m.value k }
  | .remove k =>
    if (m.value k).isSome then
      some { order := m.order.filter (fun x => x ≠ k), value := fun x => if x = k then none else m.value x }
    else none
  | .reorder order =>
    if order.all (fun k => (m.value k).isSome) then
      some { order := firsts order, value := fun k => if k ∈ order then m.value k else none }
    else none
  | .sort => some { m with order := m.order.mergeSort (fun a b => decide (a ≤ b)) }

/-- A history: refused operations change nothing. -/
def run (m : OrderedMap α) : List (Op α) → OrderedMap α × List Bool
  | [] => (m, [])
  | op :: ops =>
    match m.step op with
    | some m' => let r := m'.run ops; (r.1, true :: r.2)
    | none => let r := m.run ops; (r.1, false :: r.2)

end OrderedMap

open OrderedMap

variable {α : Type} [Named α]

/-- The model of the code, one operation. -/
def ODict.stepOp (d : ODict α) : Op α → Option (ODict α)
  | .add a => d.add a
  | .remove k => d.remove k
  | .reorder o => d.reorder o
  | .sort => some d.sort

/-- A history of calls on the collection; an exception leaves the collection as it was. -/
def ODict.runOps (d : ODict α) : List (Op α) → ODict α × List Bool
  | [] => (d, [])
  | op :: ops =>
    match d.stepOp op with
    | some d' => let r := d'.runOps ops; (r.1, true :: r.2)
    | none => let r := d.runOps ops; (r.1, false :: r.2)

/-- What a user of the collection can observe: the order of the keys and the lookups. -/
def ODict.view (d : ODict α) : OrderedMap α := { order := d.keys, value := d.get }

theorem foldl_setItem_get (l acc : List α) (k : Text) :
    (ODict.mk (l.foldl setItem acc)).get k =
      match (l.reverse.find? (fun a => key a = k)) with
      | some a => some a
      | none => (ODict.mk acc).get k := by
  induction l generalizing acc with
  | nil => simp
  | cons a l ih =>
    rw [List.foldl_cons, ih, List.reverse_cons, List.find?_append]
    cases h : l.reverse.find? (fun a => key a = k) with
    | some b => simp
    | none =>
      simp only [Option.none_or, setItem_get]
      by_cases hk : key a = k
      · simp [hk]
      · simp [hk, Ne.symm hk]

/-- Construction: looking up a name gives the last item supplied under it, and exactly the supplied names are
    present, each once. -/
theorem C38_construction (l : List α) (k : Text) :
    (ofList l).get k = l.reverse.find? (fun a => key a = k) ∧ (ofList l).keys.Nodup ∧
      (k ∈ (ofList l).keys ↔ ∃ a ∈ l, key a = k) := by
  have h1 : (ofList l).get k = l.reverse.find? (fun a => key a = k) := by
    have := foldl_setItem_get l [] k
    rw [ofList, this]
    cases l.reverse.find? (fun a => key a = k) <;> simp [ODict.get]
  refine ⟨h1, ofList_inv l, ?_⟩
  have := get_isSome_iff (ofList l) k
  rw [keys, ← this, h1]
  simp

theorem mapM_get_spec (d : ODict α) (order : List Text) :
    (order.mapM (fun k => d.get k) = none ∧ ∃ k ∈ order, d.get k = none) ∨
    (∃ l, order.mapM (fun k => d.get k) = some l ∧ l.map (fun a => some a) = order.map d.get) := by
  induction order with
  | nil => right; exact ⟨[], rfl, rfl⟩
  | cons k ks ih =>
    rw [List.mapM_cons]
    cases hk : d.get k with
    | none => left; exact ⟨rfl, k, by simp, hk⟩
    | some a =>
      rcases ih with ⟨h1, x, hx, h2⟩ | ⟨l, h1, h2⟩
      · left; simp only [h1]; exact ⟨rfl, x, by simp [hx], h2⟩
      · right; refine ⟨a :: l, ?_, ?_⟩
        · simp [h1]
        · simp [hk, h2]

theorem ofList_keys_firsts (l : List α) : (ofList l).keys = firsts (l.map key) := by
  have gen : ∀ (l acc : List α), ((l.foldl setItem acc).map key) =
      acc.map key ++ (firsts (l.map key)).filter (fun k => k ∉ acc.map key) := by
    intro l
    induction l with
    | nil => intro acc; simp [firsts]
    | cons a l ih =>
      intro acc
      rw [List.foldl_cons, ih, setItem_keys]
      by_cases h : key a ∈ acc.map key
      · simp only [h, if_true, List.map_cons, firsts]
        rw [List.filter_cons_of_neg (by simp only [decide_not, Bool.not_eq_true', decide_eq_false_iff_not, not_not]; exact h),
          List.filter_filter]
        congr 1
        apply List.filter_congr
        intro x _
        by_cases hx : x ∈ acc.map key
        · simp [hx]
        · have : x ≠ key a := fun e => hx (e ▸ h)
          simp [hx, this]
      · simp only [h, if_false, List.map_cons, firsts]
        rw [List.filter_cons_of_pos (by simpa using h), List.filter_filter]
        simp only [List.append_assoc, List.cons_append, List.nil_append]
        congr 2
        apply List.filter_congr
        intro x _
        simp only [List.mem_append, List.mem_singleton, not_or]
        rw [Bool.decide_and]
  have h := gen l []
  have h2 : (firsts (l.map key)).filter (fun k => k ∉ ([] : List α).map key) = firsts (l.map key) := by
    rw [List.filter_eq_self]; intro x _; simp
  rw [h2] at h
  simpa [ofList, keys] using h

/-- One operation: the code does what the ordered map does, and refuses exactly when it refuses. -/
theorem ODict.stepOp_refines (d : ODict α) (hd : d.Inv) (op : Op α) :
    ((d.stepOp op).map ODict.view) = d.view.step op ∧ (∀ d', d.stepOp op = some d' → d'.Inv) := by
  cases op with
  | add a =>
    simp only [stepOp, ODict.add, OrderedMap.step, view, get_isSome_iff, contains_iff]
    split
    · exact ⟨rfl, fun d' h => by simp at h⟩
    · rename_i hn
      refine ⟨?_, fun d' h => ?_⟩
      · simp only [Option.map_some, view, keys, setItem_keys, if_neg hn, Option.some.injEq, OrderedMap.mk.injEq, true_and]
        funext k
        exact setItem_get d.items a k
      · simp only [Option.some.injEq] at h
        subst h
        exact setItem_nodup _ _ hd
  | remove k =>
    simp only [stepOp, ODict.remove, OrderedMap.step, view, get_isSome_iff, contains_iff]
    split
    · refine ⟨?_, fun d' h => ?_⟩
      · simp only [Option.map_some, view, keys, Option.some.injEq, OrderedMap.mk.injEq]
        refine ⟨?_, ?_⟩
        · rw [List.filter_map]; rfl
        · funext x
          simp only [ODict.get, List.find?_filter]
          by_cases hx : x = k
          · subst hx
            simp
          · simp only [hx, if_false]
            congr 1
            funext a
            by_cases ha : key a = x
            · simp [ha, hx]
            · simp [ha]
      · simp only [Option.some.injEq] at h
        subst h
        unfold ODict.Inv at *
        exact List.Nodup.sublist (List.Sublist.map _ List.filter_sublist) hd
    · exact ⟨rfl, fun d' h => by simp at h⟩
  | reorder o =>
    simp only [stepOp, ODict.reorder, OrderedMap.step]
    rcases mapM_get_spec d o with ⟨h1, k, hk, h2⟩ | ⟨l, h1, h2⟩
    · have : ¬ (o.all (fun k => (d.view.value k).isSome) = true) := by
        simp only [List.all_eq_true, not_forall]
        exact ⟨k, hk, by simp [view, h2]⟩
      simp [h1, this]
    · have hl : l.map key = o := by
        have : ∀ (l : List α) (o : List Text), l.map (fun a => some a) = o.map d.get → l.map key = o := by
          intro l
          induction l with
          | nil => intro o h; cases o <;> simp_all
          | cons a l ih =>
            intro o h
            cases o with
            | nil => simp at h
            | cons k o =>
              simp only [List.map_cons, List.cons.injEq] at h ⊢
              exact ⟨(get_some_mem h.1.symm).2, ih o h.2⟩
        exact this l o h2
      have hmem : ∀ a ∈ l, a ∈ d.items := by
        intro a ha
        have : some a ∈ o.map d.get := by rw [← h2]; exact List.mem_map_of_mem ha
        obtain ⟨k, _, hk⟩ := List.mem_map.1 this
        exact (get_some_mem hk).1
      have hall : (o.all (fun k => (d.view.value k).isSome) = true) := by
        simp only [List.all_eq_true, view]
        intro k hk
        have : d.get k ∈ o.map d.get := List.mem_map_of_mem hk
        rw [← h2] at this
        obtain ⟨a, _, ha⟩ := List.mem_map.1 this
        rw [← ha]; rfl
      refine ⟨?_, fun d' h => ?_⟩
      · rw [if_pos hall]
        simp only [h1, Option.map_some, view, Option.some.injEq, OrderedMap.mk.injEq]
        refine ⟨by rw [ofList_keys_firsts, hl], ?_⟩
        funext k
        rw [(C38_construction l k).1]
        split
        · rename_i hk
          rw [← hl] at hk
          obtain ⟨a, ha, hak⟩ := List.mem_map.1 hk
          have h3 : d.get k = some a := hak ▸ get_eq_of_mem hd (hmem a ha)
          rw [h3]
          cases hf : l.reverse.find? (fun a => key a = k) with
          | none =>
            rw [List.find?_eq_none] at hf
            exact absurd hak (by simpa using hf a (by simpa using ha))
          | some b =>
            have hb1 : b ∈ l := by simpa using List.mem_of_find?_eq_some hf
            have hb2 : key b = k := by simpa using List.find?_some hf
            have := get_eq_of_mem hd (hmem b hb1)
            rw [hb2, h3] at this
            exact this.symm
        · rename_i hk
          rw [List.find?_eq_none]
          intro a ha
          simp only [decide_eq_true_eq]
          rintro rfl
          exact hk (hl ▸ List.mem_map_of_mem (by simpa using ha))
      · simp only [h1, Option.map_some, Option.some.injEq] at h
        subst h
        exact ofList_inv l
  | sort =>
    simp only [stepOp, OrderedMap.step, Option.map_some, view, Option.some.injEq, OrderedMap.mk.injEq, forall_eq']
    have hp := List.mergeSort_perm d.items (fun a b => keyLe (key a) (key b))
    have hinv : d.sort.Inv := (hp.map key).nodup_iff.2 hd
    refine ⟨⟨?_, ?_⟩, hinv⟩
    · exact List.map_mergeSort (fun a _ b _ => rfl)
    · funext k
      cases h : d.get k with
      | none =>
        rw [get_none_iff] at h ⊢
        intro hm
        exact h ((hp.map key).mem_iff.1 hm)
      | some a =>
        rw [get_eq_some_iff hd] at h
        rw [get_eq_some_iff hinv]
        exact ⟨hp.mem_iff.2 h.1, h.2⟩

/-- Any history of add/remove/reorder/sort on a collection behaves like the same history on an insertion-ordered
    map: same lookups and key order at the end, same operations refused; a refused operation changes nothing. -/
theorem C38_histories_behave_like_ordered_map (l : List α) (ops : List (Op α)) :
    ((ofList l).runOps ops).1.view = ((ofList l).view.run ops).1 ∧
    ((ofList l).runOps ops).2 = ((ofList l).view.run ops).2 ∧
    ((ofList l).runOps ops).1.keys.Nodup := by
  have gen : ∀ (d : ODict α), d.Inv → (d.runOps ops).1.view = (d.view.run ops).1 ∧
      (d.runOps ops).2 = (d.view.run ops).2 ∧ (d.runOps ops).1.keys.Nodup := by
    induction ops with
    | nil => intro d hd; exact ⟨rfl, rfl, hd⟩
    | cons op ops ih =>
      intro d hd
      obtain ⟨h1, h2⟩ := d.stepOp_refines hd op
      cases h : d.stepOp op with
      | none =>
        rw [h] at h1
        simp only [runOps, h, OrderedMap.run, ← h1, Option.map_none]
        have := ih d hd
        exact ⟨this.1, by rw [this.2.1], this.2.2⟩
      | some d' =>
        rw [h] at h1
        simp only [runOps, h, OrderedMap.run, ← h1, Option.map_some]
        have := ih d' (h2 d' h)
        exact ⟨this.1, by rw [this.2.1], this.2.2⟩
  exact gen _ (ofList_inv l)

/-- Adding an existing name is refused; adding a new one makes it findable and disturbs nothing else. -/
theorem C38_add (d : ODict α) (a : α) :
    (d.add a = none ↔ (d.get (key a)).isSome) ∧
    ∀ d', d.add a = some d' → d'.get (key a) = some a ∧ ∀ k ≠ key a, d'.get k = d.get k := by
  constructor
  · rw [get_isSome_iff, ← contains_iff]; simp [ODict.add]
  · intro d' h
    simp only [ODict.add] at h
    split at h
    · simp at h
    · simp only [Option.some.injEq] at h
      subst h
      refine ⟨by rw [setItem_get]; simp, fun k hk => by rw [setItem_get]; simp [hk]⟩

/-- Difference and intersection agree with set semantics on the names and keep the order of the left operand. -/
theorem C38_difference_intersection (d op : ODict α) (hop : op.keys.Nodup) :
    (∀ a, a ∈ d.difference op ↔ a ∈ d.items ∧ op.get (key a) = none) ∧
    (d.difference op).Sublist d.items ∧
    (∀ a b, (a, b) ∈ d.intersection op ↔ a ∈ d.items ∧ op.get (key a) = some b) ∧
    ((d.intersection op).map Prod.fst).Sublist d.items := by
  refine ⟨fun a => by rw [mem_difference, get_none_iff], List.filter_sublist, ?_, ?_⟩
  · intro a b
    rw [mem_intersection hop, get_eq_some_iff hop]
    constructor
    · rintro ⟨h1, h2, h3⟩; exact ⟨h1, h2, h3.symm⟩
    · rintro ⟨h1, h2, h3⟩; exact ⟨h1, h2, h3.symm⟩
  · obtain ⟨l⟩ := d
    simp only [intersection]
    induction l with
    | nil => simp
    | cons x l ih =>
      rw [List.filterMap_cons]
      cases op.get (key x) with
      | none => simpa using ih.cons x
      | some y => simpa using ih.cons_cons x

/-- Equality of collections ignores the order: equal iff the lookups agree everywhere. -/
theorem C38_equality_ignores_order [DecidableEq α] (d op : ODict α) (hd : d.keys.Nodup) (hop : op.keys.Nodup) :
    d.eqv op = true ↔ ∀ k, d.get k = op.get k := by
  have hd' : d.Inv := hd
  have hop' : op.Inv := hop
  simp only [eqv, Bool.and_eq_true, beq_iff_eq, List.all_eq_true, decide_eq_true_eq]
  constructor
  · rintro ⟨hlen, hall⟩
    have hsub : ∀ k ∈ d.keys, k ∈ op.keys := by
      intro k hk
      obtain ⟨a, ha, rfl⟩ := List.mem_map.1 hk
      rw [keys, ← get_isSome_iff, hall a ha]; rfl
    have hperm : d.keys.Perm op.keys := by
      apply List.Subperm.perm_of_length_le
      · exact List.subperm_of_subset hd hsub
      · simp [keys, hlen]
    intro k
    cases h : d.get k with
    | none =>
      symm
      rw [get_none_iff] at h ⊢
      exact fun hm => h (hperm.mem_iff.2 hm)
    | some a =>
      have := get_some_mem h
      rw [← this.2, hall a this.1]
  · intro h
    have hk : ∀ k, k ∈ d.keys ↔ k ∈ op.keys := by
      intro k
      rw [keys, keys, ← get_isSome_iff, ← get_isSome_iff, h k]
    have hperm : d.keys.Perm op.keys := (List.perm_ext_iff_of_nodup hd hop).2 hk
    refine ⟨by simpa [keys] using hperm.length_eq, fun a ha => ?_⟩
    rw [← h, get_eq_of_mem hd' ha]

/-- Sorting leaves the names in lexicographic order. -/
theorem C38_sort_sorted (d : ODict α) : d.sort.keys.Pairwise (fun a b => a ≤ b) := by
  have := List.pairwise_mergeSort (le := fun a b : α => keyLe (key a) (key b))
    (fun a b c => keyLe_trans _ _ _) (fun a b => keyLe_total _ _) d.items
  rw [keys, List.pairwise_map]
  refine this.imp ?_
  intro a b h
  simpa [keyLe] using h

/-- Non-vacuity: a concrete history, with a refused operation in it. -/
instance : Named (Text × Nat) := ⟨Prod.fst⟩

example : ((ofList [(t "b", 1), (t "a", 2)]).runOps
    [.add (t "c", 3), .add (t "a", 9), .remove (t "b"), .reorder [t "c", t "a"], .sort]).2
    = [true, false, true, true, true] := by decide +kernel

example : ((ofList [(t "b", 1), (t "a", 2)]).runOps
    [.add (t "c", 3), .add (t "a", 9), .remove (t "b"), .reorder [t "c", t "a"]]).1.items
    = [(t "c", 3), (t "a", 2)] := by decide +kernel

end PySqlSync
