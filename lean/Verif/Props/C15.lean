/-
C15 — Quoted identifiers denote themselves.
-/
import Verif.Lemmas.Lex

namespace PySqlSync
open Spec

/-- What a qualified identifier is supposed to denote: its name components. -/
def denotedName : QId → List Text
  | .qualified (some ns) id => [ns, id]
  | .qualified none id => [id]
  | .prefixed (some ns) id => [ns ++ "__".toList ++ id]
  | .prefixed none id => [id]
  | .global id => [id]

/-- `str()` of a local identifier, followed by any text that does not itself start with the delimiter,
    is read as exactly the original name and leaves exactly that text. -/
theorem C15_local_identifier_reads_back (i : LocalId) (rest : Text) (h : rest.head? ≠ some '"') :
    readIdent (i.quoted ++ rest) = some (i.id, rest) := by
  have := readQuoted_quoteId i.id rest h
  simpa [LocalId.quoted, readIdent, t_def] using this

/-- The same for qualified and prefixed identifiers: the name components are read back. -/
theorem C15_qualified_identifier_reads_back (q : QId) (rest : Text)
    (hq : ∀ id, q ≠ .global id) (h : rest.head? ≠ some '"') (hd : rest.head? ≠ some '.') :
    readName (q.quoted ++ rest) = some (denotedName q, rest) := by
  have two : ∀ (a b : Text), readName ('"' :: (quoteId a ++ '"' :: '.' :: '"' :: (quoteId b ++ '"' :: rest)))
      = some ([a, b], rest) := by
    intro a b
    have h1 := readQuoted_quoteId a ('.' :: '"' :: (quoteId b ++ '"' :: rest)) (by simp)
    have h2 := readQuoted_quoteId b rest h
    simp [readName, readIdent, h1, h2]
  have one : ∀ (a : Text), readName ('"' :: (quoteId a ++ '"' :: rest)) = some ([a], rest) := by
    intro a
    have h1 := readQuoted_quoteId a rest h
    cases rest with
    | nil => simp [readName, readIdent, h1]
    | cons c r =>
      have : c ≠ '.' := by simpa using hd
      simp only [readName, readIdent, h1]
      split
      · simp_all
      · simp_all
      · simp_all
  cases q with
  | qualified ns id =>
    cases ns with
    | none => simpa [QId.quoted, denotedName, t_def] using one id
    | some ns => simpa [QId.quoted, denotedName, t_def] using two ns id
  | prefixed ns id =>
    cases ns with
    | none => simpa [QId.quoted, denotedName, t_def] using one id
    | some ns =>
      have := one (ns ++ t "__" ++ id)
      simp only [quoteId_append] at this
      simpa [QId.quoted, denotedName, quoteId, t_def] using this
  | global id => exact absurd rfl (hq id)

/-- Distinct local names have distinct texts. -/
theorem C15_local_identifier_injective (a b : LocalId) (h : a.quoted = b.quoted) : a = b := by
  have ha := C15_local_identifier_reads_back a [] (by simp)
  have hb := C15_local_identifier_reads_back b [] (by simp)
  rw [h, hb] at ha
  cases a; cases b; simp_all

/-- Two qualified identifiers with the same text denote the same name components. -/
theorem C15_qualified_identifier_injective (a b : QId) (ha : ∀ id, a ≠ .global id) (hb : ∀ id, b ≠ .global id)
    (h : a.quoted = b.quoted) : denotedName a = denotedName b := by
  have h1 := C15_qualified_identifier_reads_back a [] ha (by simp) (by simp)
  have h2 := C15_qualified_identifier_reads_back b [] hb (by simp) (by simp)
  rw [h, h2] at h1
  simpa using h1.symm

/-- mysql/connection.py `quoted_id` (back-quotes) has the same guarantee. -/
theorem C15_mysql_backquoted_reads_back (s rest : Text) (h : rest.head? ≠ some '`') :
    ∃ body, mysqlQuotedId s ++ rest = '`' :: body ∧ readQuoted '`' body = some (s, rest) := by
  refine ⟨replaceChar '`' ['`', '`'] s ++ '`' :: rest, ?_, readQuoted_replace _ s rest h⟩
  simp [mysqlQuotedId, t_def]

/-- Non-vacuity: an identifier made of hostile characters, followed by more SQL. -/
example : readName ((QId.qualified (some (t "a\".\"b")) (t "x\"; DROP TABLE y; --")).quoted ++ t " (")
    = some ([t "a\".\"b", t "x\"; DROP TABLE y; --"], t " (") :=
  C15_qualified_identifier_reads_back _ _ (by intro _ h; cases h) (by decide) (by decide)

example : readIdent ((LocalId.mk (t "\"\"")).quoted ++ t ", ") = some (t "\"\"", t ", ") := by decide

end PySqlSync
