/-
Specification: which texts chosen by the user (or found in the database) a statement of Spec/Stmt.lean contains, besides column and constraint
names, and which of them the lexical rules of an engine are able to express the way pysqlsync writes them.
-/
import Verif.Spec.Token

set_option autoImplicit false

namespace PySqlSync.Spec

/-- The texts in a statement. -/
structure Parts where
  /-- names of tables and types -/
  names : List QId := []
  /-- labels of enumerations -/
  labels : List Text := []
  comments : List Text := []
  /-- pieces of SQL: defaults, conditions, rows of values -/
  given : List Text := []

def Parts.join (a b : Parts) : Parts :=
  ⟨a.names ++ b.names, a.labels ++ b.labels, a.comments ++ b.comments, a.given ++ b.given⟩
instance : Append Parts := ⟨Parts.join⟩

def Parts.all : List Parts → Parts
  | [] => {}
  | p :: ps => p ++ Parts.all ps

def nameParts (q : QId) : Parts := { names := [q] }

mutual
def typeParts : SqlType → Parts
  | .array e => typeParts e
  | .enum vs => { labels := vs }
  | .struct fs => fieldParts fs
  | .user q => nameParts q
  | _ => {}
def fieldParts : StructFields → Parts
  | .nil => {}
  | .cons _ ty _ rest => typeParts ty ++ fieldParts rest
end

def specParts (s : ColSpec) : Parts := typeParts s.ty ++ { comments := s.comment.toList, given := s.default.toList }

def conParts : ConSpec → Parts
  | .unique _ => {}
  | .foreign _ table _ => nameParts table
  | .check cond => { given := [cond] }

def actionParts : Action → Parts
  | .addColumn _ s => specParts s
  | .renameColumn _ _ s => specParts s
  | .setDataType _ ty => typeParts ty
  | .setDefault _ e => { given := [e] }
  | .redefine _ s => specParts s
  | .modify _ ty e _ _ => Parts.all (ty.toList.map typeParts) ++ { given := e.join.toList }
  | .retype _ ty _ => typeParts ty
  | .addDefault _ e _ => { given := [e] }
  | .addConstraint _ s => conParts s
  | _ => {}

def attrParts : AttrAction → Parts
  | .drop _ => {}
  | .setDataType _ ty => typeParts ty
  | .add _ ty => typeParts ty

def stmtParts : Stmt → Parts
  | .createSchema _ _ => {}
  | .dropSchema _ _ => {}
  | .createEnum q vs => nameParts q ++ { labels := vs }
  | .createStruct q attrs => nameParts q ++ Parts.all (attrs.map (fun a => typeParts a.2))
  | .createTable q cols _ _ c => nameParts q ++ Parts.all (cols.map (fun c => specParts c.2)) ++ { comments := c.toList }
  | .alterTable q actions => nameParts q ++ Parts.all (actions.map actionParts)
  | .addValue q v => nameParts q ++ { labels := [v] }
  | .alterStruct q actions => nameParts q ++ Parts.all (actions.map attrParts)
  | .renameType q _ => nameParts q
  | .dropType q => nameParts q
  | .dropTable q => nameParts q
  | .commentTable q c => nameParts q ++ { comments := c.toList }
  | .commentType q c => nameParts q ++ { comments := c.toList }
  | .commentColumn q _ c => nameParts q ++ { comments := c.toList }
  | .insertRows q _ rows => nameParts q ++ { given := rows }
  | .insertLabels q labels _ => nameParts q ++ { labels := labels }
  | .insertDistinct q _ data => nameParts q ++ nameParts data
  | .updateKeys data _ _ lookup => nameParts data ++ nameParts lookup

/-- A label can be written between quotes: no backslash is taken for an escape character. -/
def LabelFits (d : Dialect) (v : Text) : Prop :=
  (d = .mysql → NoActiveBackslash v) ∧ (d = .delta ∨ d = .snowflake → '\\' ∉ v)

/-- A comment can be written: no backslash is taken for an escape character (MySQL), and no NUL character for an octal escape
    (Delta Lake and Snowflake). -/
def CommentFits (d : Dialect) (c : Text) : Prop :=
  (d = .mysql → NoActiveBackslash c) ∧ (d = .delta ∨ d = .snowflake → NoOctalNul c)

/-- The texts are such that the engine's rules can express them:
    a name that is not delimited is a word; labels and comments fit (see above); each given piece of SQL consists of certain tokens, none of them a semicolon. -/
structure Clear (d : Dialect) (raw : Text → List Token) (p : Parts) : Prop where
  names : ∀ id, QId.global id ∈ p.names → id ≠ [] ∧ ∀ c ∈ id, isWordChar c = true
  labels : ∀ v ∈ p.labels, LabelFits d v
  comments : ∀ c ∈ p.comments, CommentFits d c
  given : ∀ e ∈ p.given, Lexes (literalOf d) e (raw e) ∧ semicolon ∉ raw e

end PySqlSync.Spec
