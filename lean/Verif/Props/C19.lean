/-
C19 — Qualified names never collide.
-/
import Verif.Props.C15

namespace PySqlSync
open Spec

/-- Engines with schemas: distinct (namespace, name) pairs have distinct SQL names. -/
theorem C19_qualified_names_distinct (ns ns' : Option Text) (id id' : Text)
    (h : (QId.qualified ns id).quoted = (QId.qualified ns' id').quoted) : ns = ns' ∧ id = id' := by
  have := C15_qualified_identifier_injective _ _ (by intro _ h; cases h) (by intro _ h; cases h) h
  cases ns <;> cases ns' <;> simp_all [denotedName]

/-- A text is free of a double underscore and does not end in an underscore. -/
def PlainPrefix (ns : Text) : Prop := ¬ (['_', '_'] <:+: ns) ∧ ¬ (['_'] <:+ ns)

theorem prefix_cancel (a b x y : Text) (ha : PlainPrefix a) (hb : PlainPrefix b)
    (h : a ++ '_' :: '_' :: x = b ++ '_' :: '_' :: y) : a = b ∧ x = y := by
  have aux : ∀ (a b x y : Text), PlainPrefix b → a ++ '_' :: '_' :: x = b ++ '_' :: '_' :: y →
      ∀ u, b = a ++ u → u = [] := by
    intro a b x y hb h u hu
    subst hu
    rw [List.append_assoc] at h
    have h := List.append_cancel_left h
    match u, h with
    | [], _ => rfl
    | [c], h =>
      simp at h
      obtain ⟨rfl, _⟩ := h
      exact absurd ⟨a, rfl⟩ hb.2
    | c :: d :: u, h =>
      simp at h
      obtain ⟨rfl, rfl, _⟩ := h
      exact absurd ⟨a, u, by simp⟩ hb.1
  rcases List.append_eq_append_iff.1 h with ⟨u, h1, _⟩ | ⟨u, h1, _⟩
  · have := aux a b x y hb h u h1
    subst this
    simp at h1; subst h1
    simp at h
    exact ⟨rfl, h⟩
  · have := aux b a y x ha h.symm u h1
    subst this
    simp at h1; subst h1
    simp at h
    exact ⟨rfl, h⟩

/-- Engines without schemas, exactly: two schemas never share a name of an object, whatever the objects are called, if
    and only if they are the same or neither prefix `<schema>__` begins with the other. -/
theorem C19_prefixed_exact (ns ns' : Text) :
    (∀ id id', (QId.prefixed (some ns) id).localId = (QId.prefixed (some ns') id').localId → ns = ns' ∧ id = id') ↔
      (ns = ns' ∨ (¬ (ns ++ t "__") <+: (ns' ++ t "__") ∧ ¬ (ns' ++ t "__") <+: (ns ++ t "__"))) := by
  have e : ∀ n id, (QId.prefixed (some n) id).localId = (n ++ t "__") ++ id := by
    intro n id; simp [QId.localId]
  constructor
  · intro h
    by_cases hn : ns = ns'
    · exact .inl hn
    · refine .inr ⟨?_, ?_⟩
      · rintro ⟨r, hr⟩
        exact hn (h r [] (by rw [e, e, List.append_nil, hr])).1
      · rintro ⟨r, hr⟩
        exact hn (h [] r (by rw [e, e, List.append_nil, hr])).1
  · rintro (rfl | ⟨h1, h2⟩) id id' h
    · rw [e, e] at h
      exact ⟨rfl, List.append_cancel_left h⟩
    · rw [e, e] at h
      rcases List.append_eq_append_iff.1 h with ⟨u, hu, _⟩ | ⟨u, hu, _⟩
      · exact absurd ⟨u, hu.symm⟩ h1
      · exact absurd ⟨u, hu.symm⟩ h2

/-- The SQL text is as distinct as the name. -/
theorem C19_prefixed_text (ns ns' id id' : Text) :
    (QId.prefixed (some ns) id).quoted = (QId.prefixed (some ns') id').quoted ↔
      (QId.prefixed (some ns) id).localId = (QId.prefixed (some ns') id').localId := by
  constructor
  · intro h
    have := C15_qualified_identifier_injective _ _ (by intro _ h; cases h) (by intro _ h; cases h) h
    simpa [denotedName, QId.localId, t_def] using this
  · intro h
    have e : ∀ n i : Text, (QId.prefixed (some n) i).quoted = t "\"" ++ quoteId (n ++ t "__" ++ i) ++ t "\"" := by
      intro n i
      have hu : quoteId (t "__") = t "__" := by decide +kernel
      simp only [QId.quoted]
      rw [show quoteId (n ++ t "__" ++ i) = quoteId n ++ quoteId (t "__") ++ quoteId i by
        simp only [quoteId, replaceChar_append], hu]
      simp only [List.append_assoc]
    simp only [QId.localId] at h
    rw [e, e, h]

/-- In particular, objects have distinct names if the names of schemas contain no double underscore and do not end in an
    underscore. -/
theorem C19_prefixed_plain (ns ns' id id' : Text) (h1 : PlainPrefix ns) (h2 : PlainPrefix ns')
    (h : (QId.prefixed (some ns) id).localId = (QId.prefixed (some ns') id').localId) : ns = ns' ∧ id = id' := by
  have h : ns ++ '_' :: '_' :: id = ns' ++ '_' :: '_' :: id' := by simpa [QId.localId, t_def] using h
  exact prefix_cancel ns ns' id id' h1 h2 h

/-- In general prefixed names do collide. -/
theorem C19_prefixed_names_collide :
    ∃ ns ns' id id' : Text, ns ≠ ns' ∧
      (QId.prefixed (some ns) id).localId = (QId.prefixed (some ns') id').localId ∧
      (QId.prefixed (some ns) id).quoted = (QId.prefixed (some ns') id').quoted :=
  ⟨t "a__b", t "a", t "c", t "b__c", by decide, by rfl, by rfl⟩

example : PlainPrefix (t "ab") ∧ PlainPrefix (t "a_c") := by
  unfold PlainPrefix
  exact ⟨⟨fun h => absurd h (by decide +kernel), fun h => absurd h (by decide +kernel)⟩,
    ⟨fun h => absurd h (by decide +kernel), fun h => absurd h (by decide +kernel)⟩⟩

/-- Schemas one of whose names begins with the other do not necessarily collide. -/
example : ¬ (t "shop" ++ t "__") <+: (t "shop_old" ++ t "__") ∧ ¬ (t "shop_old" ++ t "__") <+: (t "shop" ++ t "__") := by
  decide +kernel

end PySqlSync
