/-
Specification for C62: the tokens of the statements that insert, update and delete rows, and how MySQL's driver puts values into the text.
-/
import Verif.Model.DmlText
import Verif.Spec.Given

set_option autoImplicit false

namespace PySqlSync.Spec

/-- The tokens of the placeholder for a parameter, in the style that the driver of the engine takes (the number counts from 1). -/
def parameter (e : PySqlSync.Engine) (i : Nat) : List Token :=
  match e with
  | .postgresql => [.word (t "$" ++ natStr i)]
  | .mysql => [.sym '%', .word (t "s")]
  | .mssql => [.sym '?']
  | .oracle | .redshift | .delta | .snowflake | .trino => [.sym ':', num i]

/-- One placeholder for each of `n` parameters, in order. -/
def parameters (e : PySqlSync.Engine) (n : Nat) : List Token := parens (commas ((List.range n).map (fun i => parameter e (i + 1))))

/-- Items with a keyword between them. -/
def between (word : Text) : List (List Token) → List Token
  | [] => []
  | [x] => x
  | x :: y :: rest => x ++ .word word :: between word (y :: rest)

/-- `target."c" = source."c"` -/
def pairTokens (c : Text) : List Token := kws ["target"] ++ [.sym '.', .ident c, .sym '='] ++ kws ["source"] ++ [.sym '.', .ident c]

/-- `INSERT INTO t ("a", "b") VALUES (?, ?)` -/
def insertTokens (e : PySqlSync.Engine) (q : QId) (cols : List Text) : List Token :=
  kws ["INSERT", "INTO"] ++ nameTokens q ++ identList cols ++ kws ["VALUES"] ++ parameters e cols.length

/-- The tokens of a statement, up to the semicolon. -/
def dmlTokens (e : PySqlSync.Engine) (always : Bool) : Dml → List Token
  | .insert q cols => insertTokens e q cols
  | .insertOrNothing q cols => insertTokens e q cols ++ kws ["ON", "CONFLICT", "DO", "NOTHING"]
  | .insertOrNothingOn q cols keys => insertTokens e q cols ++ kws ["ON", "CONFLICT"] ++ identList keys ++ kws ["DO", "NOTHING"]
  | .insertOrUpdateOn q cols keys updates =>
    insertTokens e q cols ++ kws ["ON", "CONFLICT"] ++ identList keys ++ kws ["DO", "UPDATE", "SET"] ++
      commas (updates.map (fun c => [.ident c, .sym '='] ++ kws ["EXCLUDED"] ++ [.sym '.', .ident c]))
  | .insertOrSelf q cols keys =>
    insertTokens e q cols ++ kws ["ON", "DUPLICATE", "KEY", "UPDATE"] ++ commas (keys.map (fun c => [.ident c, .sym '=', .ident c]))
  | .insertOrUpdate q cols updates =>
    insertTokens e q cols ++ kws ["ON", "DUPLICATE", "KEY", "UPDATE"] ++
      commas (updates.map (fun c => [.ident c, .sym '='] ++ kws ["VALUES"] ++ parens [.ident c]))
  | .merge q cols on updates inserts =>
    kws ["MERGE", "INTO"] ++ nameTokens q ++ kws ["target", "USING"] ++ parens (kws ["VALUES"] ++ parameters e cols.length) ++ kws ["source"] ++ identList cols ++
      (if on = [] then [] else kws ["ON"] ++ parens (between (t "OR") (on.map pairTokens))) ++
      (if updates = [] then [] else kws ["WHEN", "MATCHED", "THEN", "UPDATE", "SET"] ++ commas (updates.map pairTokens)) ++
      (if inserts = [] ∧ always = false then [] else
        kws ["WHEN", "NOT", "MATCHED", "THEN", "INSERT"] ++ identList inserts ++ kws ["VALUES"] ++
          parens (commas (inserts.map (fun c => kws ["source"] ++ [.sym '.', .ident c]))))
  | .delete q key => kws ["DELETE", "FROM"] ++ nameTokens q ++ kws ["WHERE"] ++ [.ident key, .sym '='] ++ parameter e 1

/-- The table that a statement is for. -/
def _root_.PySqlSync.Dml.table : Dml → QId
  | .insert q _ | .insertOrNothing q _ | .insertOrNothingOn q _ _ | .insertOrUpdateOn q _ _ _ | .insertOrSelf q _ _ | .insertOrUpdate q _ _ | .merge q _ _ _ _ | .delete q _ => q

/-- What ends a statement: only the one that deletes has no semicolon. -/
def dmlEnd : Dml → List Token
  | .delete .. => []
  | _ => [semicolon]

/-! ### MySQL's driver -/

/-- Python's `text % args`, as MySQL's driver forms the statement: `%s` is replaced by the next of the values (escaped already), `%%` by `%`, anything else after `%` is an
    error, or takes one of the values; there must be as many values as are taken. -/
def percentFormat : Text → List Text → Option Text
  | [], [] => some []
  | [], _ :: _ => none
  | '%' :: 's' :: rest, a :: args => (percentFormat rest args).map (a ++ ·)
  | '%' :: '%' :: rest, args => (percentFormat rest args).map ('%' :: ·)
  | '%' :: _, _ => none
  | c :: rest, args => (percentFormat rest args).map (c :: ·)

/-- The names in a statement. -/
def dmlNames : Dml → List Text
  | .insert q cols | .insertOrNothing q cols => q.quoted :: cols
  | .insertOrNothingOn q cols keys | .insertOrSelf q cols keys => q.quoted :: cols ++ keys
  | .insertOrUpdateOn q cols keys updates => q.quoted :: cols ++ keys ++ updates
  | .insertOrUpdate q cols updates => q.quoted :: cols ++ updates
  | .merge q cols on updates inserts => q.quoted :: cols ++ on ++ updates ++ inserts
  | .delete q key => [q.quoted, key]

end PySqlSync.Spec
