/-
C57: `make_entity`; C58: `flatten_dataclass`.
-/
import Verif.Props.C56

set_option autoImplicit false

namespace PySqlSync
open Spec Fld

namespace C57

theorem unwrap_primaryKey (ty : TyExp) : ty.primaryKey.unwrap = ty.unwrap ∧ ty.primaryKey.tags = ty.tags ++ [.primaryKey] := by
  cases ty <;> exact ⟨rfl, rfl⟩

theorem props_primaryKey (ty : TyExp) : fieldProps ty.primaryKey = { fieldProps ty with primary := true } := by
  unfold fieldProps
  simp only [(unwrap_primaryKey ty).1, (unwrap_primaryKey ty).2]
  simp [Tag.isConstraint]

theorem recognized (ty : TyExp) : isPrimaryKeyType ty.primaryKey = true := by
  unfold isPrimaryKeyType
  rw [(unwrap_primaryKey ty).2]
  simp

theorem accepts_iff (l : List RawField) : acceptsFields l = true ↔
    ∀ f g : RawField, [f, g].Sublist l → (f.default.isSome || f.factory.isSome) = true → (g.default.isSome || g.factory.isSome) = true := by
  induction l with
  | nil => simp [acceptsFields]
  | cons a l ih =>
    unfold acceptsFields
    rw [Bool.and_eq_true, ih]
    constructor
    · rintro ⟨h1, h2⟩ f g hs hf
      rcases C56.pair_sublist.1 hs with hs | ⟨rfl, hg⟩
      · exact h2 f g hs hf
      · rw [Bool.or_eq_true] at h1
        rcases h1 with h1 | h1
        · exfalso
          rw [Bool.or_eq_true] at hf
          rw [Bool.and_eq_true, Option.isNone_iff_eq_none, Option.isNone_iff_eq_none] at h1
          rw [h1.1, h1.2] at hf
          simp at hf
        · exact List.all_eq_true.1 h1 g hg
    · intro h
      refine ⟨?_, fun f g hs => h f g (hs.trans (List.sublist_cons_self _ _))⟩
      rw [Bool.or_eq_true]
      by_cases hd : (a.default.isSome || a.factory.isSome) = true
      · right
        rw [List.all_eq_true]
        exact fun g hg => h a g (C56.pair_sublist.2 (.inr ⟨rfl, hg⟩)) hd
      · left
        rw [Bool.not_eq_true, Bool.or_eq_false_iff] at hd
        rw [Bool.and_eq_true, Option.isNone_iff_eq_none, Option.isNone_iff_eq_none]
        exact ⟨by simpa using hd.1, by simpa using hd.2⟩

/-- The field of a name. -/
theorem the_field {fields : List RawField} (hn : (fields.map RawField.name).Nodup) {k : RawField} (hk : k ∈ fields) :
    fields.filter (fun f => f.name = k.name) = [k] := by
  induction fields with
  | nil => simp at hk
  | cons a fields ih =>
    have hn' := List.nodup_cons.1 hn
    rcases List.mem_cons.1 hk with rfl | hk
    · rw [List.filter_cons_of_pos (by simp), List.filter_eq_nil_iff.2]
      intro x hx
      rw [decide_eq_true_eq]
      exact fun he => hn'.1 (List.mem_map.2 ⟨x, hx, he⟩)
    · rw [List.filter_cons_of_neg, ih hn'.2 hk]
      rw [decide_eq_true_eq]
      exact fun he => hn'.1 (List.mem_map.2 ⟨k, hk, he.symm⟩)

/-- A field as it is copied. -/
def copied (f : RawField) : RawField := { name := f.name, ty := f.ty, default := f.default }

theorem unfolded {fields : List RawField} (hn : (fields.map RawField.name).Nodup) {k : RawField} (hk : k ∈ fields) :
    makeEntity fields k.name =
      (if acceptsFields ({ name := k.name, ty := k.ty.primaryKey, default := k.default } :: (fields.filter (fun f => f.name ≠ k.name)).map copied) then
        .ok ({ name := k.name, ty := k.ty.primaryKey, default := k.default } :: (fields.filter (fun f => f.name ≠ k.name)).map copied) else .error .type) := by
  unfold makeEntity keyValueFields
  rw [the_field hn hk]
  rfl

end C57
open C57

/-- **C57**, `make_entity`.  The new class has the fields of the old one, the key first and the others in their order, with the same defaults; the key of the new
    class is the chosen field, and the properties of all fields are as before, except that the chosen one is a key. -/
theorem C57_make_entity {fields : List RawField} (hn : (fields.map RawField.name).Nodup) {k : RawField} (hk : k ∈ fields) {out : List RawField}
    (h : makeEntity fields k.name = .ok out) :
    out.map RawField.name = k.name :: (fields.map RawField.name).filter (fun n => n ≠ k.name) ∧
    hasPrimaryKey out = true ∧ primaryKeyName out = .ok k.name ∧ primaryKeyType out = .ok (fieldProps k.ty).fieldType ∧
    ∀ f ∈ fields, ∃ g ∈ out, g.name = f.name ∧ g.default = f.default ∧
      fieldProps g.ty = { fieldProps f.ty with primary := decide (f.name = k.name) || (fieldProps f.ty).primary } := by
  rw [unfolded hn hk] at h
  split at h
  · cases h
    refine ⟨?_, ?_, ?_, ?_, ?_⟩
    · rw [List.map_cons, List.map_map, List.filter_map]
      congr 1
    · unfold hasPrimaryKey
      rw [List.any_cons, recognized]
      rfl
    · unfold primaryKeyName
      rw [List.find?_cons, recognized]
    · unfold primaryKeyType
      rw [List.find?_cons]
      have hp := props_primaryKey k.ty
      have h1 : (fieldProps k.ty.primaryKey).primary = true := by rw [hp]
      rw [show (fieldProps ({ name := k.name, ty := k.ty.primaryKey, default := k.default : RawField }).ty).primary = true from h1]
      show Except.ok (fieldProps k.ty.primaryKey).fieldType = _
      rw [hp]
      rfl
    · intro f hf
      by_cases hname : f.name = k.name
      · have : f = k := by
          have := the_field hn hk
          have hmem : f ∈ fields.filter (fun x => x.name = k.name) := List.mem_filter.2 ⟨hf, by simp [hname]⟩
          rw [this] at hmem
          simpa using hmem
        subst this
        refine ⟨_, List.mem_cons_self, rfl, rfl, ?_⟩
        rw [props_primaryKey]
        simp
      · refine ⟨copied f, List.mem_cons_of_mem _ (List.mem_map.2 ⟨f, List.mem_filter.2 ⟨hf, by simp [hname]⟩, rfl⟩), rfl, rfl, ?_⟩
        show fieldProps f.ty = _
        simp [hname]
  · cases h

/-- It succeeds exactly if there is such a field, all others have a default if it has one, and the others that have a default come last.  (Defaults from a
    factory do not count.) -/
theorem C57_accepted {fields : List RawField} (hn : (fields.map RawField.name).Nodup) (key : Text) :
    (∃ out, makeEntity fields key = .ok out) ↔ ∃ k ∈ fields, k.name = key ∧
      (k.default.isSome = true → ∀ f ∈ fields, f.default.isSome = true) ∧
      ∀ f g : RawField, [f, g].Sublist fields → f.name ≠ key → g.name ≠ key → f.default.isSome = true → g.default.isSome = true := by
  constructor
  · rintro ⟨out, h⟩
    have hex : ∃ k ∈ fields, k.name = key := by
      apply Classical.byContradiction
      intro hc
      have : fields.filter (fun f => f.name = key) = [] := by
        rw [List.filter_eq_nil_iff]
        intro f hf
        rw [decide_eq_true_eq]
        exact fun he => hc ⟨f, hf, he⟩
      unfold makeEntity keyValueFields at h
      rw [this] at h
      cases h
    obtain ⟨k, hk, rfl⟩ := hex
    rw [unfolded hn hk] at h
    split at h
    · rename_i hacc
      rw [accepts_iff] at hacc
      refine ⟨k, hk, rfl, ?_, ?_⟩
      · intro hd f hf
        by_cases hname : f.name = k.name
        · have hmem : f ∈ fields.filter (fun x => x.name = k.name) := List.mem_filter.2 ⟨hf, by simp [hname]⟩
          rw [the_field hn hk, List.mem_singleton] at hmem
          rw [hmem]
          exact hd
        · have := hacc { name := k.name, ty := k.ty.primaryKey, default := k.default } (copied f)
            (C56.pair_sublist.2 (.inr ⟨rfl, List.mem_map.2 ⟨f, List.mem_filter.2 ⟨hf, by simp [hname]⟩, rfl⟩⟩)) (by rw [Bool.or_eq_true]; exact .inl hd)
          simpa [copied] using this
      · intro f g hs hf hg hd
        have hsub : [copied f, copied g].Sublist ((fields.filter (fun f => f.name ≠ k.name)).map copied) := by
          have : [f, g] = [f, g].filter (fun f => f.name ≠ k.name) := by simp [hf, hg]
          have h2 : [f, g].Sublist (fields.filter (fun f => f.name ≠ k.name)) := by
            rw [this]
            exact hs.filter _
          exact h2.map copied
        have := hacc (copied f) (copied g) (C56.pair_sublist.2 (.inl hsub)) (by rw [Bool.or_eq_true]; exact .inl hd)
        simpa [copied] using this
    · cases h
  · rintro ⟨k, hk, rfl, h1, h2⟩
    refine ⟨{ name := k.name, ty := k.ty.primaryKey, default := k.default } :: (fields.filter (fun f => f.name ≠ k.name)).map copied, ?_⟩
    · rw [unfolded hn hk, if_pos]
      rw [accepts_iff]
      intro f g hs hd
      rcases C56.pair_sublist.1 hs with hs | ⟨rfl, hg⟩
      · obtain ⟨l, hl, he⟩ := List.sublist_map_iff.1 hs
        match l, he with
        | [a, b], he =>
          have hab : copied a = f ∧ copied b = g := by
            have := he.symm
            simpa using this
          obtain ⟨rfl, rfl⟩ := hab
          have ha := (List.mem_filter.1 (hl.subset (List.mem_cons_self (a := a) (l := [b])))).2
          have hb := (List.mem_filter.1 (hl.subset (List.mem_cons_of_mem a (List.mem_cons_self (a := b) (l := []))))).2
          rw [decide_eq_true_eq] at ha hb
          rw [Bool.or_eq_true]
          left
          exact h2 a b (hl.trans List.filter_sublist) ha hb (by simpa [copied] using hd)
      · obtain ⟨a, ha, rfl⟩ := List.mem_map.1 hg
        rw [Bool.or_eq_true]
        left
        exact h1 (by simpa using hd) a (List.mem_filter.1 ha).1

namespace C57.Example
def id : RawField := { name := t "id", ty := .base (t "int") }
def name : RawField := { name := t "name", ty := (TyExp.base (t "str")).optional, default := some (t "x") }
def code : RawField := { name := t "code", ty := (TyExp.base (t "str")).unique }
end C57.Example
open C57.Example in
/-- The last field but one becomes the key; a field that has a default cannot, because another has none. -/
example : (∃ out, makeEntity [id, code, name] (t "code") = .ok out ∧ out.map RawField.name = [t "code", t "id", t "name"]) ∧
    ¬ ∃ out, makeEntity [id, code, name] (t "name") = .ok out := by
  constructor
  · exact ⟨_, rfl, rfl⟩
  · rw [C57_accepted (by decide +kernel)]
    rintro ⟨k, hk, he, h, -⟩
    have : k = name := by
      simp only [List.mem_cons, List.not_mem_nil, or_false] at hk
      rcases hk with rfl | rfl | rfl
      · exact absurd he (by decide +kernel)
      · exact absurd he (by decide +kernel)
      · rfl
    subst this
    exact absurd (h rfl id (by simp)) (by decide)

/-- A default factory is lost: the field is required in the new class. -/
theorem C57_factory_fails : makeEntity [C57.Example.id, { name := t "tags", ty := .base (t "list[str]"), factory := some (t "list") }] (t "id") =
    .ok [{ name := t "id", ty := (TyExp.base (t "int")).primaryKey }, { name := t "tags", ty := .base (t "list[str]") }] := rfl

namespace C58

/-- A text begins with another one. -/
def flatName (f g : Text) : Text := f ++ t "__" ++ g

/-- There are two underscores next to each other. -/
def Doubled (s : Text) : Prop := ∃ a b, s = a ++ t "__" ++ b

theorem split_unique {f g f' g' : Text} (hf : ¬ Doubled f) (hf' : ¬ Doubled f') (he : f.getLast? ≠ some '_') (he' : f'.getLast? ≠ some '_')
    (h : flatName f g = flatName f' g') : f = f' ∧ g = g' := by
  unfold flatName at h
  have key : ∀ {f g f' g' : Text}, ¬ Doubled f' → f'.getLast? ≠ some '_' → f ++ t "__" ++ g = f' ++ t "__" ++ g' → f.length ≤ f'.length → f = f' ∧ g = g' := by
    intro f g f' g' hf' he' h hle
    rw [List.append_assoc, List.append_assoc] at h
    rcases List.append_eq_append_iff.1 h with ⟨c, rfl, hc⟩ | ⟨c, rfl, hc⟩
    · -- f' = f ++ c
      match c, hc with
      | [], hc =>
        rw [List.nil_append] at hc
        exact ⟨by simp, List.append_cancel_left hc⟩
      | [x], hc =>
        exfalso
        have : x = '_' := by
          have := (List.cons.inj (show '_' :: ('_' :: g) = x :: ([] ++ (t "__" ++ g')) from hc)).1
          exact this.symm
        subst this
        exact he' (by rw [List.getLast?_append]; rfl)
      | x :: y :: c, hc =>
        exfalso
        have h1 := List.cons.inj (show '_' :: ('_' :: g) = x :: ((y :: c) ++ (t "__" ++ g')) from hc)
        have h2 := List.cons.inj (show '_' :: g = y :: (c ++ (t "__" ++ g')) from h1.2)
        refine hf' ⟨f, c, ?_⟩
        rw [← h1.1, ← h2.1, List.append_assoc]
        rfl
    · have : c = [] := by
        rw [List.length_append] at hle
        exact List.eq_nil_of_length_eq_zero (by omega)
      subst this
      rw [List.nil_append] at hc
      exact ⟨by simp, (List.append_cancel_left hc).symm⟩
  rcases Nat.le_total f.length f'.length with hle | hle
  · exact key hf' he' h hle
  · obtain ⟨a, b⟩ := key hf he h.symm hle
    exact ⟨a.symm, b.symm⟩

end C58
open C58

/-- **C58**, `flatten_dataclass`.  A field of the flat class is a field of the class whose type is not a data-class without a key, or a field of such a data-class,
    under the joint name; in both cases with the type and default that it had; and all of these fields are there. -/
theorem C58_flat_fields (fieldsOf : TyExp → Option (List RawField)) (fields : List RawField) (n : Text) (ty : TyExp) (d : Option Text) :
    { name := n, ty := ty, default := d } ∈ flattenFields fieldsOf fields ↔
      (∃ f ∈ fields, fieldsOf (fieldProps f.ty).plain = none ∧ f.name = n ∧ f.ty = ty ∧ f.default = d) ∨
      (∃ f ∈ fields, ∃ nested, fieldsOf (fieldProps f.ty).plain = some nested ∧ ∃ g ∈ nested, f.name ++ t "__" ++ g.name = n ∧ g.ty = ty ∧ g.default = d) := by
  unfold flattenFields
  rw [List.mem_flatMap]
  constructor
  · rintro ⟨f, hf, h⟩
    split at h
    · rename_i nested hn
      obtain ⟨g, hg, he⟩ := List.mem_map.1 h
      cases he
      exact .inr ⟨f, hf, nested, hn, g, hg, rfl, rfl, rfl⟩
    · rename_i hn
      have he := List.mem_singleton.1 h
      cases he
      exact .inl ⟨f, hf, hn, rfl, rfl, rfl⟩
  · rintro (⟨f, hf, hn, rfl, rfl, rfl⟩ | ⟨f, hf, nested, hn, g, hg, rfl, rfl, rfl⟩)
    · refine ⟨f, hf, ?_⟩
      rw [hn]
      exact List.mem_singleton.2 rfl
    · refine ⟨f, hf, ?_⟩
      rw [hn]
      exact List.mem_map.2 ⟨g, hg, rfl⟩

/-- Fields of the flat class have different names if names of fields do not contain or end in two underscores (or end in one). -/
theorem C58_distinct (fieldsOf : TyExp → Option (List RawField)) (fields : List RawField) (hn : (fields.map RawField.name).Nodup)
    (hd : ∀ f ∈ fields, ¬ Doubled f.name ∧ f.name.getLast? ≠ some '_')
    (hin : ∀ f ∈ fields, ∀ nested, fieldsOf (fieldProps f.ty).plain = some nested → (nested.map RawField.name).Nodup) :
    ((flattenFields fieldsOf fields).map RawField.name).Nodup := by
  unfold flattenFields
  rw [List.map_flatMap]
  unfold List.Nodup
  rw [List.pairwise_flatMap]
  constructor
  · intro f hf
    split
    · rename_i nested hnest
      have := hin f hf nested hnest
      rw [List.map_map, List.pairwise_map]
      unfold List.Nodup at this
      rw [List.pairwise_map] at this
      refine this.imp ?_
      intro a b hab hc
      exact hab (List.append_cancel_left hc)
    · simp
  · have hn' : fields.Pairwise (fun a b => a.name ≠ b.name) := by
      unfold List.Nodup at hn
      rwa [List.pairwise_map] at hn
    refine List.Pairwise.imp_of_mem ?_ hn'
    intro f f' hf hf' hne x hx y hy hxy
    subst hxy
    obtain ⟨h1, h1'⟩ := hd f hf
    obtain ⟨h2, h2'⟩ := hd f' hf'
    split at hx <;> split at hy
    · rw [List.map_map] at hx hy
      obtain ⟨g, -, rfl⟩ := List.mem_map.1 hx
      obtain ⟨g', -, he⟩ := List.mem_map.1 hy
      exact hne (split_unique h1 h2 h1' h2' (g := g.name) (g' := g'.name) he.symm).1
    · rw [List.map_map] at hx
      obtain ⟨g, -, rfl⟩ := List.mem_map.1 hx
      rw [List.map_singleton, List.mem_singleton] at hy
      exact h2 ⟨f.name, g.name, hy.symm⟩
    · rw [List.map_map] at hy
      obtain ⟨g, -, rfl⟩ := List.mem_map.1 hy
      rw [List.map_singleton, List.mem_singleton] at hx
      exact h1 ⟨f'.name, g.name, hx.symm⟩
    · rw [List.map_singleton, List.mem_singleton] at hx hy
      exact hne (hx.symm.trans hy)

namespace C58.Example
def address : TyExp := .base (t "Address")
def fieldsOf (ty : TyExp) : Option (List RawField) := if ty = address then some [{ name := t "city", ty := .base (t "str") }, { name := t "zip", ty := .base (t "int") }] else none
def person : List RawField := [{ name := t "id", ty := (TyExp.base (t "int")).primaryKey }, { name := t "home", ty := address }, { name := t "work", ty := address.optional }]
end C58.Example
open C58.Example in
example : ((flattenFields fieldsOf person).map RawField.name).Nodup ∧
    (flattenFields fieldsOf person).map RawField.name = [t "id", t "home__city", t "home__zip", t "work__city", t "work__zip"] := by
  decide +kernel

/-- An optional field: the flat fields are not optional. -/
theorem C58_optional_fails : ∃ f ∈ C58.Example.person, (fieldProps f.ty).nullable = true ∧
    ∀ g ∈ flattenFields C58.Example.fieldsOf C58.Example.person, (fieldProps g.ty).nullable = false :=
  ⟨{ name := t "work", ty := C58.Example.address.optional }, by decide +kernel, by decide +kernel, by decide +kernel⟩

/-- Names that clash. -/
theorem C58_clash_fails : ¬ ((flattenFields C58.Example.fieldsOf [{ name := t "home", ty := C58.Example.address }, { name := t "home__zip", ty := .base (t "str") }]).map RawField.name).Nodup := by
  decide +kernel

end PySqlSync
