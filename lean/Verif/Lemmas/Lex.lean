/-
Helper lemmas about the lexical specification.
-/
import Verif.Spec.Lex
import Verif.Model.Literal

namespace PySqlSync
open Spec

theorem readQuoted_close (q : Char) (rest : Text) (h : rest.head? ≠ some q) :
    readQuoted q (q :: rest) = some ([], rest) := by
  cases rest with
  | nil => simp [readQuoted]
  | cons d r =>
    have : d ≠ q := by simpa using h
    simp [readQuoted, this]

theorem readQuoted_other (q c : Char) (rest : Text) (h : c ≠ q) :
    readQuoted q (c :: rest) = (readQuoted q rest).map (fun p => (c :: p.1, p.2)) := by
  cases rest <;> simp [readQuoted, h]

theorem readEscaped_other (esc : Char → Option Text) (c : Char) (rest : Text) (h : c ≠ '\\') (h' : c ≠ '\'') :
    readEscaped esc (c :: rest) = (readEscaped esc rest).map (fun p => (c :: p.1, p.2)) := by
  cases rest <;> simp [readEscaped, h, h']

theorem readEscaped_esc (esc : Char → Option Text) (c : Char) (e : Text) (rest : Text) (h : esc c = some e) :
    readEscaped esc ('\\' :: c :: rest) = (readEscaped esc rest).map (fun p => (e ++ p.1, p.2)) := by
  simp [readEscaped, h]

theorem readEscaped_dbl (esc : Char → Option Text) (rest : Text) :
    readEscaped esc ('\'' :: '\'' :: rest) = (readEscaped esc rest).map (fun p => ('\'' :: p.1, p.2)) := by
  simp [readEscaped]

theorem readEscaped_close (esc : Char → Option Text) (rest : Text) (h : rest.head? ≠ some '\'') :
    readEscaped esc ('\'' :: rest) = some ([], rest) := by
  cases rest with
  | nil => simp [readEscaped]
  | cons d r =>
    have : d ≠ '\'' := by simpa using h
    simp [readEscaped, this]

/-- Doubling the delimiter is undone by the lexer. -/
theorem readQuoted_replace (q : Char) (s rest : Text) (h : rest.head? ≠ some q) :
    readQuoted q (replaceChar q [q, q] s ++ q :: rest) = some (s, rest) := by
  induction s with
  | nil => simpa using readQuoted_close q rest h
  | cons c s ih =>
    by_cases hc : c = q
    · subst hc
      simp [readQuoted, ih]
    · simp [readQuoted_other, hc, ih]

/-- Doubling the quote is enough also under backslash rules if there is no backslash. -/
theorem readEscaped_replace (esc : Char → Option Text) (s rest : Text) (hs : '\\' ∉ s) (h : rest.head? ≠ some '\'') :
    readEscaped esc (replaceChar '\'' ['\'', '\''] s ++ '\'' :: rest) = some (s, rest) := by
  induction s with
  | nil => simpa using readEscaped_close _ rest h
  | cons c s ih =>
    have ih := ih (by intro hh; exact hs (List.mem_cons_of_mem _ hh))
    have hc : c ≠ '\\' := by rintro rfl; exact hs (List.mem_cons_self ..)
    by_cases hq : c = '\''
    · subst hq
      simp [readEscaped_dbl, ih]
    · simp [readEscaped_other, hc, hq, ih]

theorem quoteId_eq (s : Text) : quoteId s = replaceChar '"' ['"', '"'] s := rfl

theorem quoteId_append (a b : Text) : quoteId (a ++ b) = quoteId a ++ quoteId b := by
  simp [quoteId]

theorem readQuoted_quoteId (s rest : Text) (h : rest.head? ≠ some '"') :
    readQuoted '"' (quoteId s ++ '"' :: rest) = some (s, rest) := by
  rw [quoteId_eq]; exact readQuoted_replace _ s rest h

end PySqlSync
