/-
Helper lemmas about `ODict`.
-/
import Verif.Model.ObjectDict

set_option autoImplicit false

namespace PySqlSync
namespace ODict
variable {α : Type} [Named α]

/-- The invariant of every collection: one item per key. -/
def Inv (d : ODict α) : Prop := (d.items.map key).Nodup

theorem keyLe_trans (a b c : Text) : keyLe a b → keyLe b c → keyLe a c := by
  simp [keyLe]; exact List.le_trans
theorem keyLe_total (a b : Text) : keyLe a b || keyLe b a := by
  simp [keyLe]; exact List.le_total a b

theorem contains_iff (d : ODict α) (k : Text) : d.contains k = true ↔ k ∈ d.items.map key := by
  simp [contains]

theorem contains_false_iff (d : ODict α) (k : Text) : d.contains k = false ↔ k ∉ d.items.map key := by
  rw [← contains_iff]; simp

theorem get_none_iff (d : ODict α) (k : Text) : d.get k = none ↔ k ∉ d.items.map key := by
  simp [get]

theorem get_isSome_iff (d : ODict α) (k : Text) : (d.get k).isSome = true ↔ k ∈ d.items.map key := by
  rw [Option.isSome_iff_ne_none, ne_eq, get_none_iff]; simp

theorem get_some_mem {d : ODict α} {k : Text} {a : α} (h : d.get k = some a) : a ∈ d.items ∧ key a = k := by
  unfold get at h
  exact ⟨List.mem_of_find?_eq_some h, by simpa using List.find?_some h⟩

theorem get_eq_of_mem {d : ODict α} (hd : d.Inv) {a : α} (h : a ∈ d.items) : d.get (key a) = some a := by
  obtain ⟨l⟩ := d
  unfold Inv at hd
  simp only [get] at *
  induction l with
  | nil => simp at h
  | cons b l ih =>
    simp only [List.map_cons, List.nodup_cons] at hd
    rcases List.mem_cons.1 h with rfl | h
    · simp
    · have : key b ≠ key a := fun e => hd.1 (e ▸ List.mem_map_of_mem h)
      simp [this, ih hd.2 h]

theorem get_eq_some_iff {d : ODict α} (hd : d.Inv) {k : Text} {a : α} :
    d.get k = some a ↔ a ∈ d.items ∧ key a = k :=
  ⟨get_some_mem, fun ⟨h, e⟩ => e ▸ get_eq_of_mem hd h⟩

theorem setItem_of_notMem (l : List α) (a : α) (h : key a ∉ l.map key) : setItem l a = l ++ [a] := by
  induction l with
  | nil => rfl
  | cons b l ih =>
    simp only [List.map_cons, List.mem_cons, not_or] at h
    simp [setItem, Ne.symm h.1, ih h.2]

theorem setItem_keys (l : List α) (a : α) :
    (setItem l a).map key = if key a ∈ l.map key then l.map key else l.map key ++ [key a] := by
  induction l with
  | nil => simp [setItem]
  | cons b l ih =>
    by_cases h : key b = key a
    · simp [setItem, h]
    · simp only [setItem, h, if_false, List.map_cons, ih, List.mem_cons, Ne.symm h, false_or]
      split <;> simp

theorem setItem_get (l : List α) (a : α) (k : Text) :
    (ODict.mk (setItem l a)).get k = if k = key a then some a else (ODict.mk l).get k := by
  induction l with
  | nil =>
    by_cases h : k = key a
    · simp [setItem, get, h]
    · simp [setItem, get, h, Ne.symm h]
  | cons b l ih =>
    by_cases h : key b = key a
    · by_cases hk : k = key a
      · simp [setItem, get, h, hk]
      · simp [setItem, get, h, hk, Ne.symm hk]
    · simp only [setItem, h, if_false]
      by_cases hk : key b = k
      · subst hk
        simp [get, h]
      · have := ih
        simp only [get] at this
        simp [get, hk, this]

theorem setItem_nodup (l : List α) (a : α) (h : (l.map key).Nodup) : ((setItem l a).map key).Nodup := by
  rw [setItem_keys]
  split
  · exact h
  · rename_i hn
    rw [List.nodup_append]
    refine ⟨h, by simp, ?_⟩
    intro x hx y hy
    simp at hy
    subst hy
    rintro rfl
    exact hn hx

theorem foldl_setItem_nodup (l acc : List α) (h : (acc.map key).Nodup) : ((l.foldl setItem acc).map key).Nodup := by
  induction l generalizing acc with
  | nil => exact h
  | cons a l ih => exact ih _ (setItem_nodup acc a h)

theorem ofList_inv (l : List α) : (ofList l).Inv := foldl_setItem_nodup l [] (by simp)

theorem foldl_setItem_of_nodup (l acc : List α) (h : ((acc ++ l).map key).Nodup) :
    l.foldl setItem acc = acc ++ l := by
  induction l generalizing acc with
  | nil => simp
  | cons a l ih =>
    have hn : key a ∉ acc.map key := by
      rw [List.map_append, List.nodup_append] at h
      intro hm
      exact h.2.2 _ hm (key a) (by simp) rfl
    rw [List.foldl_cons, setItem_of_notMem _ _ hn, ih]
    · simp
    · simpa using h

/-- A list with distinct names is kept as it is. -/
theorem ofList_of_nodup (l : List α) (h : (l.map key).Nodup) : (ofList l).items = l := by
  have := foldl_setItem_of_nodup l [] (by simpa using h)
  simpa [ofList] using this

theorem mem_difference {d op : ODict α} {a : α} :
    a ∈ d.difference op ↔ a ∈ d.items ∧ key a ∉ op.items.map key := by
  simp [difference, ← contains_iff]

theorem mem_intersection {d op : ODict α} (hop : op.Inv) {a b : α} :
    (a, b) ∈ d.intersection op ↔ a ∈ d.items ∧ b ∈ op.items ∧ key a = key b := by
  simp only [intersection, List.mem_filterMap, Option.map_eq_some_iff, Prod.mk.injEq]
  constructor
  · rintro ⟨x, hx, y, hy, rfl, rfl⟩
    have := get_some_mem hy
    exact ⟨hx, this.1, this.2.symm⟩
  · rintro ⟨ha, hb, e⟩
    exact ⟨a, ha, b, by rw [e]; exact get_eq_of_mem hop hb, rfl, rfl⟩

end ODict
end PySqlSync
