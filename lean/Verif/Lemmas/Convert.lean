/-
Helper lemmas about the conversion of data-classes.
-/
import Verif.Spec.Convert
import Verif.Lemmas.ObjectDict
import Verif.Props.C36

set_option autoImplicit false

namespace PySqlSync
open Spec
namespace Conv

theorem bind_ok {α β : Type} {x : Except Err α} {f : α → Except Err β} {r : β} :
    (x >>= f) = .ok r ↔ ∃ a, x = .ok a ∧ f a = .ok r := by
  cases x with
  | error e => simp [bind, Except.bind]
  | ok a => simp [bind, Except.bind]

theorem pure_ok {α : Type} {a b : α} : (pure a : Except Err α) = .ok b ↔ a = b := by simp [pure, Except.pure]

theorem mapM_cons_ok {α β : Type} {f : α → Except Err β} {a : α} {l : List α} {r : List β} :
    (a :: l).mapM f = .ok r ↔ ∃ b bs, f a = .ok b ∧ l.mapM f = .ok bs ∧ r = b :: bs := by
  rw [List.mapM_cons, bind_ok]
  constructor
  · rintro ⟨b, h1, h2⟩
    rw [bind_ok] at h2
    obtain ⟨bs, h3, h4⟩ := h2
    rw [pure_ok] at h4
    exact ⟨b, bs, h1, h3, h4.symm⟩
  · rintro ⟨b, bs, h1, h2, rfl⟩
    exact ⟨b, h1, bind_ok.2 ⟨bs, h2, rfl⟩⟩

/-- What a successful `mapM` has done. -/
theorem mapM_back {α β : Type} {f : α → Except Err β} : ∀ {l : List α} {r : List β}, l.mapM f = .ok r → ∀ b ∈ r, ∃ a ∈ l, f a = .ok b
  | [], r, h, b, hb => by
    simp [List.mapM_nil, pure, Except.pure] at h
    subst h; cases hb
  | a :: l, r, h, b, hb => by
    obtain ⟨b', bs, h1, h2, rfl⟩ := mapM_cons_ok.1 h
    rcases List.mem_cons.1 hb with rfl | hb
    · exact ⟨a, List.mem_cons_self .., h1⟩
    · obtain ⟨a', ha', h'⟩ := mapM_back h2 b hb
      exact ⟨a', List.mem_cons_of_mem _ ha', h'⟩

theorem mapM_fwd {α β : Type} {f : α → Except Err β} : ∀ {l : List α} {r : List β}, l.mapM f = .ok r → ∀ a ∈ l, ∃ b ∈ r, f a = .ok b
  | [], r, h, a, ha => by cases ha
  | x :: l, r, h, a, ha => by
    obtain ⟨b', bs, h1, h2, rfl⟩ := mapM_cons_ok.1 h
    rcases List.mem_cons.1 ha with rfl | ha
    · exact ⟨b', List.mem_cons_self .., h1⟩
    · obtain ⟨b, hb, h'⟩ := mapM_fwd h2 a ha
      exact ⟨b, List.mem_cons_of_mem _ hb, h'⟩

theorem mem_insertBy {α : Type} (f : α → Text) (a b : α) : ∀ (l : List α), b ∈ insertBy f a l ↔ b = a ∨ b ∈ l
  | [] => by simp [insertBy]
  | c :: l => by
    unfold insertBy
    split
    · simp
    · simp [mem_insertBy f a b l, or_left_comm]

theorem mem_sortBy {α : Type} (f : α → Text) (b : α) : ∀ (l : List α), b ∈ sortBy f l ↔ b ∈ l
  | [] => by simp [sortBy]
  | c :: l => by simp [sortBy, mem_insertBy, mem_sortBy f b l]

variable {α : Type} [Named α]

theorem mem_setItem {l : List α} {a b : α} (h : b ∈ ODict.setItem l a) : b = a ∨ b ∈ l := by
  induction l with
  | nil => simpa [ODict.setItem] using h
  | cons c l ih =>
    unfold ODict.setItem at h
    split at h
    · rcases List.mem_cons.1 h with rfl | h
      · exact .inl rfl
      · exact .inr (List.mem_cons_of_mem _ h)
    · rcases List.mem_cons.1 h with rfl | h
      · exact .inr (List.mem_cons_self ..)
      · rcases ih h with h | h
        · exact .inl h
        · exact .inr (List.mem_cons_of_mem _ h)

theorem mem_foldl {l : List α} : ∀ {acc : List α} {b : α}, b ∈ l.foldl ODict.setItem acc → b ∈ acc ∨ b ∈ l := by
  induction l with
  | nil => intro acc b h; exact .inl h
  | cons a l ih =>
    intro acc b h
    rcases ih h with h | h
    · rcases mem_setItem h with rfl | h
      · exact .inr (List.mem_cons_self ..)
      · exact .inl h
    · exact .inr (List.mem_cons_of_mem _ h)

/-- The items of a dictionary are among those it was made of. -/
theorem of_mem_ofList {l : List α} {b : α} (h : b ∈ (ODict.ofList l).items) : b ∈ l := by
  rcases mem_foldl h with h | h
  · cases h
  · exact h

theorem setItem_has (l : List α) (a : α) : ∃ b ∈ ODict.setItem l a, Named.key b = Named.key a := by
  induction l with
  | nil => exact ⟨a, by simp [ODict.setItem], rfl⟩
  | cons c l ih =>
    unfold ODict.setItem
    split
    · exact ⟨a, List.mem_cons_self .., rfl⟩
    · obtain ⟨b, hb, h⟩ := ih
      exact ⟨b, List.mem_cons_of_mem _ hb, h⟩

theorem setItem_keeps {l : List α} {a : α} {k : Text} (h : ∃ b ∈ l, Named.key b = k) : ∃ b ∈ ODict.setItem l a, Named.key b = k := by
  induction l with
  | nil => obtain ⟨b, hb, _⟩ := h; cases hb
  | cons c l ih =>
    obtain ⟨b, hb, hk⟩ := h
    unfold ODict.setItem
    split
    · rename_i hc
      rcases List.mem_cons.1 hb with rfl | hb
      · exact ⟨a, List.mem_cons_self .., by rw [← hc, hk]⟩
      · exact ⟨b, List.mem_cons_of_mem _ hb, hk⟩
    · rcases List.mem_cons.1 hb with rfl | hb
      · exact ⟨b, List.mem_cons_self .., hk⟩
      · obtain ⟨b', hb', h'⟩ := ih ⟨b, hb, hk⟩
        exact ⟨b', List.mem_cons_of_mem _ hb', h'⟩

theorem foldl_keeps (l : List α) : ∀ (acc : List α) (k : Text), (∃ b ∈ acc, Named.key b = k) ∨ (∃ b ∈ l, Named.key b = k) →
    ∃ b ∈ l.foldl ODict.setItem acc, Named.key b = k := by
  induction l with
  | nil => intro acc k h; simpa using h
  | cons a l ih =>
    intro acc k h
    apply ih
    rcases h with h | ⟨b, hb, hk⟩
    · exact .inl (setItem_keeps h)
    · rcases List.mem_cons.1 hb with rfl | hb
      · exact .inl (hk ▸ setItem_has acc b)
      · exact .inr ⟨b, hb, hk⟩

/-- Every key is in the dictionary. -/
theorem ofList_has {l : List α} {a : α} (h : a ∈ l) : ∃ b ∈ (ODict.ofList l).items, Named.key b = Named.key a :=
  foldl_keeps l [] (Named.key a) (.inr ⟨a, h, rfl⟩)

/-- If equal keys mean equal items then nothing is lost. -/
theorem mem_ofList {l : List α} (hl : ∀ a ∈ l, ∀ b ∈ l, Named.key a = Named.key b → a = b) {a : α} : a ∈ (ODict.ofList l).items ↔ a ∈ l := by
  constructor
  · exact of_mem_ofList
  · intro h
    obtain ⟨b, hb, hk⟩ := ofList_has h
    rw [← hl b (of_mem_ofList hb) a h hk]
    exact hb

end Conv
end PySqlSync
