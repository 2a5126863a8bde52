/-
C37 — Merging catalogs keeps everything or refuses.
-/
import Verif.Model.Merge
import Verif.Spec.Merge
import Verif.Props.C38
import Verif.Examples.Shop

set_option autoImplicit false

namespace PySqlSync
open Spec

namespace C37

variable {α : Type} [Named α]

theorem mergeItems_ok {eqv : α → α → Bool} : ∀ {l : List α} {self : ODict α}, (l.map key).Nodup →
    (mergeItems eqv self l).2 = true → (∀ a ∈ l, ∀ b, self.get (key a) = some b → eqv b a = true)
      ∧ ∀ k, (mergeItems eqv self l).1.get k = (self.get k).or ((⟨l⟩ : ODict α).get k) := by
  intro l
  induction l with
  | nil => intro self _ _; exact ⟨by simp, fun k => by simp [mergeItems, ODict.get]⟩
  | cons a l ih =>
    intro self hnd h
    simp only [List.map_cons, List.nodup_cons] at hnd
    have hget : ∀ k, (⟨a :: l⟩ : ODict α).get k = if k = key a then some a else (⟨l⟩ : ODict α).get k := by
      intro k
      by_cases e : k = key a
      · subst e; simp [ODict.get]
      · rw [if_neg e]; simp [ODict.get, Ne.symm e]
    simp only [mergeItems] at h ⊢
    cases hs : self.get (key a) with
    | some b =>
      simp only [hs] at h ⊢
      split at h
      · rename_i he
        rw [if_pos he]
        obtain ⟨h1, h2⟩ := ih hnd.2 h
        refine ⟨?_, ?_⟩
        · intro x hx y hy
          rcases List.mem_cons.1 hx with rfl | hx
          · rw [hs] at hy; cases hy; exact he
          · exact h1 x hx y hy
        · intro k
          rw [h2, hget]
          by_cases e : k = key a
          · subst e; rw [hs]; simp
          · rw [if_neg e]
      · cases h
    | none =>
      simp only [hs] at h ⊢
      obtain ⟨h1, h2⟩ := ih hnd.2 h
      refine ⟨?_, ?_⟩
      · intro x hx y hy
        rcases List.mem_cons.1 hx with rfl | hx
        · rw [hs] at hy; cases hy
        · refine h1 x hx y ?_
          rw [ODict.setItem_get, if_neg]
          · exact hy
          · intro e; exact hnd.1 (e ▸ List.mem_map_of_mem hx)
      · intro k
        rw [h2, hget, ODict.setItem_get]
        by_cases e : k = key a
        · subst e; rw [hs]; simp
        · rw [if_neg e, if_neg e]

theorem mergeItems_conv {eqv : α → α → Bool} : ∀ {l : List α} {self : ODict α}, (l.map key).Nodup →
    (∀ a ∈ l, ∀ b, self.get (key a) = some b → eqv b a = true) → (mergeItems eqv self l).2 = true := by
  intro l
  induction l with
  | nil => intro self _ _; rfl
  | cons a l ih =>
    intro self hnd h
    simp only [List.map_cons, List.nodup_cons] at hnd
    simp only [mergeItems]
    cases hs : self.get (key a) with
    | some b =>
      simp only [h a List.mem_cons_self b hs, if_true]
      exact ih hnd.2 (fun x hx => h x (List.mem_cons_of_mem _ hx))
    | none =>
      refine ih hnd.2 (fun x hx y hy => h x (List.mem_cons_of_mem _ hx) y ?_)
      rw [ODict.setItem_get, if_neg] at hy
      · exact hy
      · intro e; exact hnd.1 (e ▸ List.mem_map_of_mem hx)

theorem mergeItems_mem {eqv : α → α → Bool} {P : α → Prop} : ∀ {l : List α} {self : ODict α},
    (∀ a ∈ l, P a) → (∀ a ∈ self.items, P a) → ∀ a ∈ (mergeItems eqv self l).1.items, P a := by
  intro l
  induction l with
  | nil => intro self _ h; exact h
  | cons a l ih =>
    intro self h1 h2
    simp only [mergeItems]
    cases hs : self.get (key a) with
    | some b =>
      simp only
      split
      · exact ih (fun x hx => h1 x (List.mem_cons_of_mem _ hx)) h2
      · exact h2
    | none =>
      refine ih (fun x hx => h1 x (List.mem_cons_of_mem _ hx)) ?_
      rw [ODict.setItem_of_notMem _ _ ((ODict.get_none_iff _ _).1 hs)]
      intro x hx
      rcases List.mem_append.1 hx with hx | hx
      · exact h2 x hx
      · rw [List.mem_singleton.1 hx]; exact h1 a List.mem_cons_self

theorem mergeItems_distinct {eqv : α → α → Bool} : ∀ {l : List α} {self : ODict α},
    Distinct self → Distinct (mergeItems eqv self l).1 := by
  intro l
  induction l with
  | nil => intro self h; exact h
  | cons a l ih =>
    intro self h
    simp only [mergeItems]
    cases hs : self.get (key a) with
    | some b =>
      simp only
      split
      · exact ih h
      · exact h
    | none => exact ih (ODict.setItem_nodup _ _ h)

/-- If everything is there already, nothing changes. -/
theorem mergeItems_same {eqv : α → α → Bool} : ∀ {l : List α} {self : ODict α},
    (∀ a ∈ l, ∃ b, self.get (key a) = some b ∧ eqv b a = true) → mergeItems eqv self l = (self, true) := by
  intro l
  induction l with
  | nil => intro self _; rfl
  | cons a l ih =>
    intro self h
    obtain ⟨b, hb, he⟩ := h a List.mem_cons_self
    simp only [mergeItems, hb, he, if_true]
    exact ih (fun x hx => h x (List.mem_cons_of_mem _ hx))

theorem mergeItems_compat {eqv : α → α → Bool} {Same : α → α → Prop} {x y : ODict α}
    (hy : Distinct y) (hs : ∀ a ∈ x.items, ∀ b ∈ y.items, eqv a b = true ↔ Same a b) :
    ((mergeItems eqv x y.items).2 = true ↔ Compatible Same x y)
    ∧ ((mergeItems eqv x y.items).2 = true → Union x y (mergeItems eqv x y.items).1) := by
  refine ⟨⟨fun h => ?_, fun h => ?_⟩, fun h => (mergeItems_ok hy h).2⟩
  · intro k a b ha hb
    have h1 := (mergeItems_ok hy h).1
    have ha' := ODict.get_some_mem ha
    have hb' := ODict.get_some_mem hb
    exact (hs a ha'.1 b hb'.1).1 (h1 b hb'.1 a (by rw [hb'.2]; exact ha))
  · refine mergeItems_conv hy ?_
    intro b hb a ha
    exact (hs a (ODict.get_some_mem ha).1 b hb).2 (h (key b) a b ha (ODict.get_eq_of_mem hy hb))

theorem struct_eqv {a b : StructType} (ha : Distinct a.members) (hb : Distinct b.members) :
    a.eqv b = true ↔ SameStructDef a b := by
  simp only [StructType.eqv, SameStructDef, Bool.and_eq_true, decide_eq_true_eq,
    C38_equality_ignores_order a.members b.members ha hb, and_assoc]

theorem table_eqv {a b : Table} (ha : Distinct a.columns) (hb : Distinct b.columns) (ha' : Distinct a.constraints)
    (hb' : Distinct b.constraints) : a.eqv b = true ↔ SameTableDef a b := by
  simp only [Table.eqv, SameTableDef, Bool.and_eq_true, decide_eq_true_eq,
    C38_equality_ignores_order a.columns b.columns ha hb, C38_equality_ignores_order a.constraints b.constraints ha' hb']
  constructor
  · rintro ⟨⟨⟨⟨⟨h1, h2⟩, h3⟩, h4⟩, h5⟩, h6⟩; exact ⟨h2, h3, h4, h5, h6, h1⟩
  · rintro ⟨h2, h3, h4, h5, h6, h1⟩; exact ⟨⟨⟨⟨⟨h1, h2⟩, h3⟩, h4⟩, h5⟩, h6⟩

theorem merge_spec {m n : Namespace} (hm : NsDistinct m) (hn : NsDistinct n) :
    ((m.merge n).2 = true ↔ CompatibleNs m n) ∧ ((m.merge n).2 = true → UnionNs m n (m.merge n).1)
    ∧ NsDistinct (m.merge n).1 ∧ (m.merge n).1.name = m.name := by
  have e := mergeItems_compat (eqv := EnumType.eqv) (Same := Eq) (x := m.enums) hn.enums
    (fun a _ b _ => by simp [EnumType.eqv])
  have s := mergeItems_compat (eqv := StructType.eqv) (Same := SameStructDef) (x := m.structs) hn.structs
    (fun a ha b hb => struct_eqv (hm.members a ha) (hn.members b hb))
  have tt := mergeItems_compat (eqv := Table.eqv) (Same := SameTableDef) (x := m.tables) hn.tables
    (fun a ha b hb => table_eqv (hm.columns a ha) (hn.columns b hb) (hm.constraints a ha) (hn.constraints b hb))
  have d1 : Distinct (mergeItems EnumType.eqv m.enums n.enums.items).1 := mergeItems_distinct hm.enums
  have d2 : Distinct (mergeItems StructType.eqv m.structs n.structs.items).1 := mergeItems_distinct hm.structs
  have d3 : Distinct (mergeItems Table.eqv m.tables n.tables.items).1 := mergeItems_distinct hm.tables
  have p2 : ∀ s ∈ (mergeItems StructType.eqv m.structs n.structs.items).1.items, Distinct s.members :=
    mergeItems_mem hn.members hm.members
  have p3 : ∀ s ∈ (mergeItems Table.eqv m.tables n.tables.items).1.items, Distinct s.columns :=
    mergeItems_mem hn.columns hm.columns
  have p4 : ∀ s ∈ (mergeItems Table.eqv m.tables n.tables.items).1.items, Distinct s.constraints :=
    mergeItems_mem hn.constraints hm.constraints
  unfold Namespace.merge
  cases he : (mergeItems EnumType.eqv m.enums n.enums.items).2 with
  | false =>
    simp only [he, Bool.false_eq_true, if_false, false_iff]
    refine ⟨fun h => ?_, fun h => absurd h id, ⟨d1, hm.structs, hm.tables, hm.members, hm.columns, hm.constraints⟩, trivial⟩
    rw [e.1.2 h.enums] at he; cases he
  | true =>
    simp only [he, if_true]
    cases hs : (mergeItems StructType.eqv m.structs n.structs.items).2 with
    | false =>
      simp only [Bool.false_eq_true, if_false, false_iff]
      refine ⟨fun h => ?_, fun h => absurd h id, ⟨d1, d2, hm.tables, p2, hm.columns, hm.constraints⟩, trivial⟩
      rw [s.1.2 h.structs] at hs; cases hs
    | true =>
      simp only [if_true]
      refine ⟨⟨fun h => ⟨e.1.1 he, s.1.1 hs, tt.1.1 h⟩, fun h => tt.1.2 h.tables⟩,
        fun h => ⟨rfl, e.2 he, s.2 hs, tt.2 h⟩, ⟨d1, d2, d3, p2, p3, p4⟩, trivial⟩

theorem mergeNamespaces_spec : ∀ {l : List Namespace} {x : ODict Namespace}, (l.map key).Nodup → (∀ n ∈ l, NsDistinct n) →
    Distinct x → (∀ n ∈ x.items, NsDistinct n) →
    ((mergeNamespaces x l).2 = true ↔ ∀ n ∈ l, ∀ m, x.get n.name = some m → CompatibleNs m n)
    ∧ ((mergeNamespaces x l).2 = true → UnionCat ⟨x⟩ ⟨⟨l⟩⟩ ⟨(mergeNamespaces x l).1⟩)
    ∧ CatDistinct ⟨(mergeNamespaces x l).1⟩ := by
  intro l
  induction l with
  | nil =>
    intro x _ _ h1 h2
    refine ⟨by simp [mergeNamespaces], fun _ k => ?_, ⟨h1, h2⟩⟩
    simp only [mergeNamespaces]
    cases hx : x.get k <;> simp [ODict.get]
  | cons n l ih =>
    intro x hnd hl h1 h2
    simp only [List.map_cons, List.nodup_cons] at hnd
    have hget : ∀ k, (⟨n :: l⟩ : ODict Namespace).get k = if k = n.name then some n else (⟨l⟩ : ODict Namespace).get k := by
      intro k
      by_cases e : k = n.name
      · subst e; simp [ODict.get, key]
      · rw [if_neg e]; simp [ODict.get, key, Ne.symm e]
    have hkey : ∀ n' ∈ l, n'.name ≠ n.name := fun n' hn' e => hnd.1 (by
      have := List.mem_map_of_mem (f := key) hn'
      rw [show key n' = key n from e] at this; exact this)
    have hl0 : (⟨l⟩ : ODict Namespace).get n.name = none := (ODict.get_none_iff _ _).2 hnd.1
    simp only [mergeNamespaces]
    cases hx : x.get n.name with
    | some m =>
      have hm := ODict.get_some_mem hx
      obtain ⟨s1, s2, s3, s4⟩ := merge_spec (h2 m hm.1) (hl n List.mem_cons_self)
      have hd : Distinct (⟨ODict.setItem x.items (m.merge n).1⟩ : ODict Namespace) := ODict.setItem_nodup _ _ h1
      have hks : key (m.merge n).1 = n.name := s4.trans hm.2
      have hall : ∀ n' ∈ (⟨ODict.setItem x.items (m.merge n).1⟩ : ODict Namespace).items, NsDistinct n' := by
        intro n' hn'
        have := ODict.get_eq_of_mem (d := ⟨ODict.setItem x.items (m.merge n).1⟩) hd hn'
        rw [ODict.setItem_get] at this
        split at this
        · cases this; exact s3
        · exact h2 _ (ODict.get_some_mem this).1
      obtain ⟨i1, i2, i3⟩ := ih hnd.2 (fun a ha => hl a (List.mem_cons_of_mem _ ha)) hd hall
      cases hok : (m.merge n).2 with
      | false =>
        simp only [hok, Bool.false_eq_true, if_false, false_iff]
        refine ⟨fun h => ?_, fun h => absurd h id, ⟨hd, hall⟩⟩
        have := s1.2 (h n List.mem_cons_self m hx)
        rw [hok] at this; cases this
      | true =>
        simp only [hok, if_true]
        refine ⟨i1.trans ⟨fun h n' hn' m' hm' => ?_, fun h n' hn' m' hm' => ?_⟩, fun h k => ?_, i3⟩
        · rcases List.mem_cons.1 hn' with rfl | hn'
          · rw [hx] at hm'; cases hm'; exact s1.1 hok
          · refine h n' hn' m' ?_
            rw [ODict.setItem_get, hks, if_neg (hkey n' hn')]; exact hm'
        · refine h n' (List.mem_cons_of_mem _ hn') m' ?_
          rw [ODict.setItem_get, hks, if_neg (hkey n' hn')] at hm'; exact hm'
        · have := i2 h k
          simp only [hget, ODict.setItem_get, hks] at this ⊢
          by_cases e : k = n.name
          · subst e
            simp only [if_true, hl0, hx] at this ⊢
            exact ⟨_, this, s2 hok⟩
          · simpa only [if_neg e] using this
    | none =>
      have hd : Distinct (⟨ODict.setItem x.items n⟩ : ODict Namespace) := ODict.setItem_nodup _ _ h1
      have hall : ∀ n' ∈ (⟨ODict.setItem x.items n⟩ : ODict Namespace).items, NsDistinct n' := by
        intro n' hn'
        have := ODict.get_eq_of_mem (d := ⟨ODict.setItem x.items n⟩) hd hn'
        rw [ODict.setItem_get] at this
        split at this
        · cases this; exact hl n List.mem_cons_self
        · exact h2 _ (ODict.get_some_mem this).1
      obtain ⟨i1, i2, i3⟩ := ih hnd.2 (fun a ha => hl a (List.mem_cons_of_mem _ ha)) hd hall
      simp only
      refine ⟨i1.trans ⟨fun h n' hn' m' hm' => ?_, fun h n' hn' m' hm' => ?_⟩, fun h k => ?_, i3⟩
      · rcases List.mem_cons.1 hn' with rfl | hn'
        · rw [hx] at hm'; cases hm'
        · refine h n' hn' m' ?_
          rw [ODict.setItem_get, if_neg (show ¬ n'.name = key n from hkey n' hn')]; exact hm'
      · refine h n' (List.mem_cons_of_mem _ hn') m' ?_
        rw [ODict.setItem_get, if_neg (show ¬ n'.name = key n from hkey n' hn')] at hm'; exact hm'
      · have := i2 h k
        simp only [hget, ODict.setItem_get] at this ⊢
        by_cases e : k = n.name
        · subst e
          have e' : n.name = key n := rfl
          simp only [if_true, hl0, hx, ← e'] at this ⊢
          exact this
        · have e' : ¬ k = key n := e
          simpa only [if_neg e, if_neg e'] using this

end C37

open C37

/-- **C37.**  If the call returns, the catalog has exactly the objects of both. -/
theorem C37_merge_is_union {a b : Catalog} (ha : CatDistinct a) (hb : CatDistinct b) (h : (a.merge b).2 = true) :
    UnionCat a b (a.merge b).1 :=
  (mergeNamespaces_spec hb.names hb.each ha.names ha.each).2.1 h

/-- **C37.**  The call raises exactly if an object has different definitions in the two. -/
theorem C37_refused_iff_conflict {a b : Catalog} (ha : CatDistinct a) (hb : CatDistinct b) :
    (a.merge b).2 = false ↔
      ¬ ∀ k m n, a.namespaces.get k = some m → b.namespaces.get k = some n → CompatibleNs m n := by
  have := (mergeNamespaces_spec hb.names hb.each ha.names ha.each).1
  rw [← Bool.not_eq_true]
  refine not_congr (this.trans ⟨fun h k m n hm hn => ?_, fun h n hn m hm => ?_⟩)
  · have hn' := ODict.get_some_mem hn
    exact h n hn'.1 m (by rw [show n.name = k from hn'.2]; exact hm)
  · exact h n.name m n hm (ODict.get_eq_of_mem hb.names hn)

/-- **C37.**  Merging keeps collections free of duplicates. -/
theorem C37_merge_distinct {a b : Catalog} (ha : CatDistinct a) (hb : CatDistinct b) : CatDistinct (a.merge b).1 :=
  (mergeNamespaces_spec hb.names hb.each ha.names ha.each).2.2

theorem C37.merge_contained {m n : Namespace}
    (h1 : ∀ a ∈ n.enums.items, ∃ b, m.enums.get (key a) = some b ∧ b.eqv a = true)
    (h2 : ∀ a ∈ n.structs.items, ∃ b, m.structs.get (key a) = some b ∧ b.eqv a = true)
    (h3 : ∀ a ∈ n.tables.items, ∃ b, m.tables.get (key a) = some b ∧ b.eqv a = true) : m.merge n = (m, true) := by
  unfold Namespace.merge
  rw [mergeItems_same h1, mergeItems_same h2, mergeItems_same h3]
  simp

theorem C37.setItem_self {α : Type} [Named α] : ∀ {l : List α} {a : α}, (⟨l⟩ : ODict α).get (key a) = some a →
    ODict.setItem l a = l := by
  intro l
  induction l with
  | nil => intro a h; cases h
  | cons b l ih =>
    intro a h
    simp only [ODict.setItem]
    by_cases e : key b = key a
    · rw [if_pos e]
      simp only [ODict.get, List.find?_cons, e, decide_true, Option.some.injEq] at h
      rw [h]
    · rw [if_neg e, ih]
      simpa [ODict.get, e] using h

theorem C37.mergeNamespaces_same : ∀ {l : List Namespace} {x : ODict Namespace},
    (∀ n ∈ l, ∃ m, x.get n.name = some m ∧ m.merge n = (m, true)) → mergeNamespaces x l = (x, true) := by
  intro l
  induction l with
  | nil => intro x _; rfl
  | cons n l ih =>
    intro x h
    obtain ⟨m, hm, he⟩ := h n List.mem_cons_self
    have hk := (ODict.get_some_mem hm).2
    simp only [mergeNamespaces, hm, he, if_true]
    rw [C37.setItem_self (by rw [show key m = n.name from hk]; exact hm)]
    exact ih (fun n' hn' => h n' (List.mem_cons_of_mem _ hn'))

/-- **C37.**  Merging with itself changes nothing. -/
theorem C37_merge_self {a : Catalog} (ha : CatDistinct a) : a.merge a = (a, true) := by
  unfold Catalog.merge
  rw [C37.mergeNamespaces_same]
  intro n hn
  have d := ha.each n hn
  refine ⟨n, ODict.get_eq_of_mem ha.names hn, C37.merge_contained ?_ ?_ ?_⟩
  · intro e he; exact ⟨e, ODict.get_eq_of_mem d.enums he, by simp [EnumType.eqv]⟩
  · intro e he
    exact ⟨e, ODict.get_eq_of_mem d.structs he,
      (struct_eqv (d.members e he) (d.members e he)).2 ⟨rfl, fun _ => rfl, rfl⟩⟩
  · intro e he
    exact ⟨e, ODict.get_eq_of_mem d.tables he,
      (table_eqv (d.columns e he) (d.columns e he) (d.constraints e he) (d.constraints e he)).2
        ⟨rfl, fun _ => rfl, rfl, fun _ => rfl, rfl, rfl⟩⟩

/-- **C37.**  Merging the same catalog once more changes nothing. -/
theorem C37_merge_idempotent {a b : Catalog} (ha : CatDistinct a) (hb : CatDistinct b) (h : (a.merge b).2 = true) :
    (a.merge b).1.merge b = ((a.merge b).1, true) := by
  have hu := C37_merge_is_union ha hb h
  have hc := (mergeNamespaces_spec hb.names hb.each ha.names ha.each).1.1 h
  have hd := C37_merge_distinct ha hb
  generalize hz : (a.merge b).1 = z at hu hd ⊢
  have key : ∀ {α : Type} [Named α] {x y w : ODict α} {eqv : α → α → Bool} {Same : α → α → Prop},
      Distinct y → Union x y w → Compatible Same x y →
      (∀ u ∈ x.items, ∀ v ∈ y.items, eqv u v = true ↔ Same u v) → (∀ v ∈ y.items, eqv v v = true) →
      ∀ v ∈ y.items, ∃ u, w.get (Named.key v) = some u ∧ eqv u v = true := by
    intro α _ x y w eqv Same hy hU hC hE hR v hv
    have hg := ODict.get_eq_of_mem hy hv
    cases hx : x.get (Named.key v) with
    | none => exact ⟨v, by rw [hU, hx, hg]; rfl, hR v hv⟩
    | some u =>
      exact ⟨u, by rw [hU, hx]; rfl, (hE u (ODict.get_some_mem hx).1 v hv).2 (hC _ u v hx hg)⟩
  unfold Catalog.merge
  rw [C37.mergeNamespaces_same]
  intro n hn
  have dn := hb.each n hn
  have hg := ODict.get_eq_of_mem hb.names hn
  have := hu n.name
  rw [show b.namespaces.get n.name = some n from hg] at this
  have re : ∀ e ∈ n.enums.items, e.eqv e = true := fun e _ => by simp [EnumType.eqv]
  have rs : ∀ e ∈ n.structs.items, e.eqv e = true := fun e he =>
    (struct_eqv (dn.members e he) (dn.members e he)).2 ⟨rfl, fun _ => rfl, rfl⟩
  have rt : ∀ e ∈ n.tables.items, e.eqv e = true := fun e he =>
    (table_eqv (dn.columns e he) (dn.columns e he) (dn.constraints e he) (dn.constraints e he)).2
        ⟨rfl, fun _ => rfl, rfl, fun _ => rfl, rfl, rfl⟩
  cases hm : a.namespaces.get n.name with
  | none =>
    rw [hm] at this
    refine ⟨n, this, C37.merge_contained ?_ ?_ ?_⟩
    · intro e he; exact ⟨e, ODict.get_eq_of_mem dn.enums he, re e he⟩
    · intro e he; exact ⟨e, ODict.get_eq_of_mem dn.structs he, rs e he⟩
    · intro e he; exact ⟨e, ODict.get_eq_of_mem dn.tables he, rt e he⟩
  | some m =>
    rw [hm] at this
    obtain ⟨p, hp, hU⟩ := this
    have dm := ha.each m (ODict.get_some_mem hm).1
    have c := hc n hn m hm
    refine ⟨p, hp, C37.merge_contained ?_ ?_ ?_⟩
    · exact key dn.enums hU.enums c.enums (fun u _ v _ => by simp [EnumType.eqv]) re
    · exact key dn.structs hU.structs c.structs
        (fun u hu v hv => struct_eqv (dm.members u hu) (dn.members v hv)) rs
    · exact key dn.tables hU.tables c.tables (fun u hu v hv =>
        table_eqv (dm.columns u hu) (dn.columns v hv) (dm.constraints u hu) (dn.constraints v hv)) rt

/-! ### A concrete case -/

namespace C37

theorem distinct_of_wf {d : Dialect} {c : Catalog} (w : CatWF d c) : CatDistinct c :=
  ⟨w.names, fun n hn =>
    have h := w.wf n hn
    ⟨h.enums, h.structs, h.tables, h.members, fun tb htb => (h.wf tb htb).columns,
      fun tb htb => (h.wf tb htb).constraints⟩⟩

/-- What exploring two schemas, one of them twice, gives. -/
def second : Catalog := ⟨⟨[Example.audit1, { name := t "shop", tables := ⟨[Example.status1, Example.order0]⟩ }]⟩⟩

theorem second_distinct : CatDistinct second := distinct_of_wf (d := .postgresql) (catWFB_ok (by decide +kernel))

end C37

/-- Merging catalogs that share a schema and a table: a new schema and a new table are added, nothing is lost. -/
example : (Example.source.merge second).2 = true
    ∧ (Example.source.merge second).1.namespaces.items.map (fun n => n.tables.items.map (fun tb => tb.name.localId))
      = [[t "old"], [t "customer", t "order", t "status"], [t "log"]] := by
  constructor <;> decide +kernel

/-- Merging catalogs with two definitions of a table is refused. -/
example : (Example.source.merge Example.target).2 = false := by decide +kernel

/-- A finding: a merge that is refused is not undone.  The catalog keeps what was added before the conflict was noticed. -/
theorem C37_refused_merge_not_undone : ∃ a b : Catalog, CatDistinct a ∧ CatDistinct b ∧ (a.merge b).2 = false
    ∧ (a.merge b).1 ≠ a :=
  ⟨Example.source, Example.target, distinct_of_wf Example.source_wf, distinct_of_wf Example.target_wf,
    by decide +kernel, by decide +kernel⟩

end PySqlSync
