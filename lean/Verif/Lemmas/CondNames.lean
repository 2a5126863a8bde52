/-
Reading the columns of generated conditions.
-/
import Verif.Spec.Deploy
import Verif.Lemmas.Url

set_option autoImplicit false

namespace PySqlSync
open Spec

namespace Dep

theorem names_name (f rest : Text) : ∀ a, namesFrom (.name a) (quoteId f ++ '"' :: rest) = namesFrom (.quote (a ++ f)) rest := by
  induction f with
  | nil => intro a; simp [quoteId, namesFrom]
  | cons c f ih =>
    intro a
    unfold quoteId at ih ⊢
    rw [replaceChar_cons]
    by_cases hc : c = '"'
    · subst hc
      have e : t "\"\"" = ['"', '"'] := rfl
      rw [e] at ih ⊢
      rw [if_pos rfl]
      simp only [List.cons_append, List.nil_append, namesFrom, if_true]
      rw [ih]
      simp
    · rw [if_neg hc]
      simp only [List.cons_append, List.nil_append, namesFrom, if_neg hc]
      rw [ih]
      simp

theorem names_quoted (f : Text) (c : Char) (h1 : c ≠ '"') (h2 : c ≠ '\'') (rest : Text) :
    namesIn ((LocalId.mk f).quoted ++ c :: rest) = f :: namesIn rest := by
  unfold LocalId.quoted namesIn
  have e : t "\"" = ['"'] := rfl
  rw [e]
  simp only [List.append_assoc, List.cons_append, List.nil_append, namesFrom, if_true]
  rw [names_name]
  simp [namesFrom, h1, h2]

theorem names_plain (s rest : Text) (h : ∀ c ∈ s, c ≠ '"' ∧ c ≠ '\'') : namesIn (s ++ rest) = namesIn rest := by
  unfold namesIn
  induction s with
  | nil => rfl
  | cons c s ih =>
    have hc := h c (List.mem_cons_self ..)
    simp only [List.cons_append, namesFrom, if_neg hc.1, if_neg hc.2]
    exact ih (fun c hc => h c (List.mem_cons_of_mem _ hc))

theorem natStr_plain (n : Nat) : ∀ c ∈ natStr n, c ≠ '"' ∧ c ≠ '\'' := by
  intro c hc
  have := natStr_chars hc
  constructor <;> (rintro rfl; revert this; decide)

theorem intText_plain (n : Int) : ∀ c ∈ intText n, c ≠ '"' ∧ c ≠ '\'' := by
  intro c hc
  unfold intText at hc
  split at hc
  · rcases List.mem_cons.1 hc with rfl | hc
    · decide
    · exact natStr_plain _ c hc
  · exact natStr_plain _ c hc

/-- The reader finds the columns of generated conditions, if the members of enumerations are written as literals. -/
theorem reads_names {defs : PyDefs} (h : ∀ n e, defs.enum n = some e → namesIn (t "IN (" ++ joinWith (t ", ") e.constants ++ t ")") = []) :
    ReadsConditions defs namesIn := by
  have paren : ∀ s, namesIn (t "(" ++ s) = namesIn s := fun s => names_plain _ s (by decide)
  have close : namesIn (t ")") = [] := by decide +kernel
  have ge : ∀ s, t " >= " ++ s = ' ' :: (t ">= " ++ s) := fun _ => rfl
  have le : ∀ s, t " <= " ++ s = ' ' :: (t "<= " ++ s) := fun _ => rfl
  have inn : ∀ s, t " IN (" ++ s = ' ' :: (t "IN (" ++ s) := fun _ => rfl
  have ge' : ∀ s, namesIn (t ">= " ++ s) = namesIn s := fun s => names_plain _ s (by decide)
  have le' : ∀ s, namesIn (t "<= " ++ s) = namesIn s := fun s => names_plain _ s (by decide)
  have close' : ∀ s, namesIn (t ")" ++ s) = namesIn s := fun s => names_plain _ s (by decide)
  have and' : ∀ s, namesIn (t " AND " ++ s) = namesIn s := fun s => names_plain _ s (by decide)
  have num : ∀ (n : Int) s, namesIn (intText n ++ s) = namesIn s := fun n s => names_plain _ s (intText_plain n)
  constructor
  · intro n e he f
    have := h n e he
    rw [List.append_assoc] at this
    rw [List.append_assoc, List.append_assoc, inn, names_quoted _ _ (by decide) (by decide), this]
  · intro f n
    simp only [List.append_assoc]
    rw [paren, ge, names_quoted _ _ (by decide) (by decide), ge', num, close]
  · intro f n
    simp only [List.append_assoc]
    rw [paren, le, names_quoted _ _ (by decide) (by decide), le', num, close]
  · intro f n m
    simp only [List.append_assoc]
    rw [paren, ge, names_quoted _ _ (by decide) (by decide), ge', num, close', and', paren, le, names_quoted _ _ (by decide) (by decide), le', num, close]

end Dep
end PySqlSync
