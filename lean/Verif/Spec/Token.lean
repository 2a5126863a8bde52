/-
Specification (independent of pysqlsync): how a text is cut into tokens under the lexical rules of SQL, and which tokens the statements of
Spec/Stmt.lean consist of.

Sources: ISO/IEC 9075-2 §5.2 (tokens and separators); the rules for string literals are those of Spec/Lex.lean.  Comments are not tokens; a text
with a comment outside of quotes is not accepted here.
-/
import Verif.Spec.Lex
import Verif.Spec.Stmt
import Verif.Model.Objects

set_option autoImplicit false

namespace PySqlSync.Spec

inductive Token where
  /-- a keyword, a regular identifier or a number -/
  | word (w : Text)
  /-- a delimited identifier -/
  | ident (name : Text)
  /-- a string literal that denotes this value -/
  | str (value : Text)
  /-- a delimiter or operator character -/
  | sym (c : Char)
deriving DecidableEq, Repr

/-- Characters of regular identifiers and numbers. -/
def isWordChar (c : Char) : Bool := c.isAlphanum || c == '_' || c == '$' || decide (128 ≤ c.toNat)
/-- Characters that separate tokens. -/
def isBlank (c : Char) : Bool := c == ' ' || c == '\t' || c == '\n' || c == '\r' || c == '\x0c'
/-- Characters that are tokens by themselves. -/
def isSymChar (c : Char) : Bool := (t "(),.;:+-*/<>=%|&!~^?@").contains c

/-- `--` and `/*` begin a comment. -/
def beginsComment (c : Char) (rest : Text) : Bool :=
  (c == '-' && rest.head? == some '-') || (c == '/' && rest.head? == some '*')

/-- `Lexes R s ts`: the text consists of these tokens; `R` reads a string literal at the beginning of a text. -/
inductive Lexes (R : Text → Option (Text × Text)) : Text → List Token → Prop where
  | done : Lexes R [] []
  | blank {c : Char} {s : Text} {ts : List Token} : isBlank c = true → Lexes R s ts → Lexes R (c :: s) ts
  | ident {s s' name : Text} {ts : List Token} : readQuoted '"' s = some (name, s') → Lexes R s' ts →
      Lexes R ('"' :: s) (.ident name :: ts)
  | str {s s' value : Text} {ts : List Token} : R s = some (value, s') → Lexes R s' ts → Lexes R s (.str value :: ts)
  /-- a word ends where no more characters of words follow; one that is followed by a quote would be the prefix of a literal -/
  | word {w s : Text} {ts : List Token} : w ≠ [] → (∀ c ∈ w, isWordChar c = true) →
      (∀ c, s.head? = some c → isWordChar c = false ∧ c ≠ '\'') → Lexes R s ts → Lexes R (w ++ s) (.word w :: ts)
  | sym {c : Char} {s : Text} {ts : List Token} : isSymChar c = true → beginsComment c s = false → Lexes R s ts →
      Lexes R (c :: s) (.sym c :: ts)

/-- String literals of SQL Server: `'...'` or `N'...'`. -/
def readMSSQL : Text → Option (Text × Text)
  | '\'' :: rest => readQuoted '\'' rest
  | 'N' :: '\'' :: rest => readQuoted '\'' rest
  | _ => none

/-- String literals of a database engine. -/
def literalOf : Dialect → Text → Option (Text × Text)
  | .postgresql => readPostgres
  | .mysql => readMySQL
  | .mssql => readMSSQL
  | .delta => readDelta
  | .snowflake => readSnowflake
  | .ansi | .oracle => readString

/-! ### Tokens of the statements -/

/-- Keywords, in order. -/
def kws (l : List String) : List Token := l.map (fun s => .word (t s))
def num (n : Nat) : Token := .word (natStr n)
def comma : Token := .sym ','
def semicolon : Token := .sym ';'
/-- A list in parentheses. -/
def parens (ts : List Token) : List Token := .sym '(' :: ts ++ [.sym ')']
/-- Items with commas between them. -/
def commas : List (List Token) → List Token
  | [] => []
  | [x] => x
  | x :: y :: rest => x ++ comma :: commas (y :: rest)

/-- The name of an object: `"schema"."name"`, or `"name"`; names of global objects are not delimited. -/
def nameTokens : QId → List Token
  | .qualified (some ns) id => [.ident ns, .sym '.', .ident id]
  | .qualified none id => [.ident id]
  | .prefixed ns id => [.ident (QId.prefixed ns id).localId]
  | .global id => [.word id]

/-- `("a", "b")` -/
def identList (names : List Text) : List Token := parens (commas (names.map (fun n => [.ident n])))

/-- `(n)`, if present. -/
def sizeTokens : Option Nat → List Token
  | some n => parens [num n]
  | none => []

def zoneTokens (z : Bool) : List Token := if z then kws ["with", "time", "zone"] else []

mutual
/-- The tokens of a data type. -/
def typeTokens : SqlType → List Token
  | .array e => typeTokens e ++ kws ["ARRAY"]
  | .uuid => kws ["uuid"]
  | .boolean c => if c = .mssql then kws ["bit"] else kws ["boolean"]
  | .integer c w _ _ _ =>
    if c = .oracle then kws ["number"]
    else if w = 1 then kws ["tinyint"] else if w = 2 then kws ["smallint"] else if w = 4 then kws ["integer"] else kws ["bigint"]
  | .float p => kws ["float"] ++ sizeTokens (some (p.getD 53))
  | .real c => if c = .delta then kws ["float"] else kws ["real"]
  | .double c => if c = .delta then kws ["double"] else kws ["double", "precision"]
  | .decimal p s =>
    match p, s with
    | some p, some s => kws ["decimal"] ++ parens [num p, comma, num s]
    | some p, none => kws ["decimal"] ++ parens [num p]
    | none, _ => kws ["decimal"]
  | .fixedBinary c s => kws ["binary"] ++ (if c = .delta then [] else sizeTokens s)
  | .varBinary c s =>
    match c, s with
    | .mysql, some n => if n < 65536 then kws ["varbinary"] ++ sizeTokens s else if n < 16777216 then kws ["mediumblob"] else kws ["longblob"]
    | .mysql, none => kws ["mediumblob"]
    | .oracle, some n => if n ≤ 2000 then kws ["raw"] ++ sizeTokens s else kws ["blob"]
    | .redshift, _ => kws ["varbyte"] ++ sizeTokens s
    | .delta, _ => kws ["binary"]
    | _, some _ => kws ["varbinary"] ++ sizeTokens s
    | _, none => kws ["blob"]
  | .fixedChar l => kws ["char"] ++ sizeTokens l
  | .varChar c l =>
    match c, l with
    | .mysql, some n => if n < 65536 then kws ["varchar"] ++ sizeTokens l else if n < 16777216 then kws ["mediumtext"] else kws ["longtext"]
    | .mysql, none => kws ["mediumtext"]
    | .mssql, some n => if 0 < n ∧ n ≠ 2147483647 then kws ["varchar"] ++ sizeTokens l else kws ["varchar"] ++ parens (kws ["max"])
    | .mssql, none => kws ["varchar"] ++ parens (kws ["max"])
    | .oracle, some n => if n ≤ 4000 then kws ["varchar2"] ++ sizeTokens l else kws ["clob"]
    | .oracle, none => kws ["clob"]
    | .delta, _ => kws ["string"]
    | _, some _ => kws ["varchar"] ++ sizeTokens l
    | _, none => kws ["text"]
  | .timestamp c p z =>
    match c with
    | .mysql => kws ["datetime"] ++ sizeTokens p
    | .mssql => kws ["datetime2"]
    | .oracle => kws ["timestamp"] ++ (if p = some 6 then [] else sizeTokens p) ++ zoneTokens z
    | .snowflake => kws ["datetime"]
    | .delta => kws ["timestamp_ntz"]
    | _ => kws ["timestamp"] ++ sizeTokens p ++ zoneTokens z
  | .date => kws ["date"]
  | .time c p z => if c = .oracle then kws ["interval", "day", "to", "second"] else kws ["time"] ++ sizeTokens p ++ zoneTokens z
  | .interval => kws ["interval"]
  | .json c => if c = .postgresql then kws ["jsonb"] else if c = .snowflake then kws ["variant"] else kws ["json"]
  | .enum vs => kws ["ENUM"] ++ parens (commas (vs.map (fun v => [.str v])))
  | .struct fs => kws ["STRUCT"] ++ .sym '<' :: commas (fieldTokens fs) ++ [.sym '>']
  | .user q => nameTokens q
def fieldTokens : StructFields → List (List Token)
  | .nil => []
  | .cons n ty nullable rest => ([.ident n] ++ typeTokens ty ++ (if nullable then [] else kws ["NOT", "NULL"])) :: fieldTokens rest
end

section
/- `raw` says which tokens a piece of SQL consists of that pysqlsync was given as text: a default, a condition, a row of values. -/
variable (d : Dialect) (raw : Text → List Token)

def onlyIf (b : Bool) (ts : List Token) : List Token := if b then ts else []

def identityTokens : List Token :=
  match d with
  | .mysql => kws ["AUTO_INCREMENT"]
  | .mssql | .snowflake => kws ["IDENTITY"]
  | _ => kws ["GENERATED", "BY", "DEFAULT", "AS", "IDENTITY"]

/-- A default with the name of its constraint, if it has one. -/
def defaultTokens (s : ColSpec) : List Token :=
  match s.default with
  | none => []
  | some e =>
    (match s.defaultName with
     | some n => kws ["CONSTRAINT"] ++ [.ident n]
     | none => []) ++ kws ["DEFAULT"] ++ raw e

def specCommentTokens (s : ColSpec) : List Token :=
  match s.comment with
  | some c => kws ["COMMENT"] ++ [.str c]
  | none => []

/-- A column definition after the name of the column. -/
def specTokens (s : ColSpec) : List Token :=
  typeTokens s.ty ++ onlyIf (d == .mysql && s.ty.isEnum) (kws ["CHARACTER", "SET", "ascii", "COLLATE", "ascii_bin"]) ++
  (if d = .oracle then defaultTokens raw s ++ onlyIf s.notNull (kws ["NOT", "NULL"])
   else onlyIf s.notNull (kws ["NOT", "NULL"]) ++ defaultTokens raw s) ++
  onlyIf s.identity (identityTokens d) ++ specCommentTokens s

def conTokens (name : Text) : ConSpec → List Token
  | .unique cols => [.ident name] ++ kws ["UNIQUE"] ++ identList cols
  | .foreign cols table refCols => [.ident name] ++ kws ["FOREIGN", "KEY"] ++ identList cols ++ kws ["REFERENCES"] ++ nameTokens table ++ identList refCols
  | .check cond => [.ident name] ++ kws ["CHECK"] ++ parens (raw cond)

/-- `ALTER COLUMN name ...` -/
def alterColumn (name : Text) (ts : List Token) : List Token := kws ["ALTER", "COLUMN"] ++ [.ident name] ++ ts

def actionTokens : Action → List Token
  | .addColumn n s => (if d = .mssql then kws ["ADD"] else kws ["ADD", "COLUMN"]) ++ [.ident n] ++ specTokens d raw s
  | .dropColumn n => kws ["DROP", "COLUMN"] ++ [.ident n]
  | .dropDefaultAndColumn con n => kws ["DROP", "CONSTRAINT"] ++ [.ident con, comma] ++ kws ["COLUMN"] ++ [.ident n]
  | .renameColumn old new s =>
    if d = .mysql then kws ["CHANGE"] ++ [.ident old, .ident new] ++ specTokens d raw s
    else kws ["RENAME", "COLUMN"] ++ [.ident old] ++ kws ["TO"] ++ [.ident new]
  | .setDataType n ty => alterColumn n (kws ["SET", "DATA", "TYPE"] ++ typeTokens ty)
  | .setNotNull n => alterColumn n (kws ["SET", "NOT", "NULL"])
  | .dropNotNull n => alterColumn n (kws ["DROP", "NOT", "NULL"])
  | .setDefault n e => alterColumn n (kws ["SET", "DEFAULT"] ++ raw e)
  | .dropDefault n => alterColumn n (kws ["DROP", "DEFAULT"])
  | .addIdentity n => alterColumn n (kws ["ADD", "GENERATED", "BY", "DEFAULT", "AS", "IDENTITY"])
  | .dropIdentity n => alterColumn n (kws ["DROP", "IDENTITY"])
  | .redefine n s => kws ["MODIFY", "COLUMN"] ++ [.ident n] ++ specTokens d raw s
  | .modify n ty def_ nullable identity =>
    kws ["MODIFY"] ++ [.ident n] ++
      (match ty with | some ty => typeTokens ty | none => []) ++
      (match def_ with | some (some e) => kws ["DEFAULT"] ++ raw e | some none => kws ["DEFAULT", "NULL"] | none => []) ++
      (match nullable with | some true => kws ["NULL"] | some false => kws ["NOT", "NULL"] | none => []) ++
      (match identity with
       | some true => kws ["GENERATED", "BY", "DEFAULT", "AS", "IDENTITY"]
       | some false => kws ["DROP", "IDENTITY"]
       | none => [])
  | .retype n ty notNull => alterColumn n (typeTokens ty ++ onlyIf notNull (kws ["NOT", "NULL"]))
  | .addDefault con e n => kws ["ADD", "CONSTRAINT"] ++ [.ident con] ++ kws ["DEFAULT"] ++ raw e ++ kws ["FOR"] ++ [.ident n]
  | .addConstraint n s => kws ["ADD", "CONSTRAINT"] ++ conTokens raw n s
  | .dropConstraint n => kws ["DROP", "CONSTRAINT"] ++ [.ident n]

/-- The actions of one statement.  SQL Server has the verb (`ADD` or `DROP`) only once: `ADD CONSTRAINT a ..., CONSTRAINT b ...`. -/
def actionsTokens (actions : List Action) : List Token :=
  if d = .mssql then
    match actions.map (actionTokens d raw) with
    | [] => []
    | first :: rest => commas (first :: rest.map (List.drop 1))
  else commas (actions.map (actionTokens d raw))

def attrTokens : AttrAction → List Token
  | .drop n => kws ["DROP", "ATTRIBUTE"] ++ [.ident n]
  | .setDataType n ty => kws ["ALTER", "ATTRIBUTE"] ++ [.ident n] ++ kws ["SET", "DATA", "TYPE"] ++ typeTokens ty
  | .add n ty => kws ["ADD", "ATTRIBUTE"] ++ [.ident n] ++ typeTokens ty

def textOrNull : Option Text → List Token
  | some c => [.str c]
  | none => kws ["NULL"]

def tableCommentTokens : Option Text → List Token
  | none => []
  | some c => kws ["COMMENT"] ++ onlyIf (d != .delta) [.sym '='] ++ [.str c]

/-- The value of each label in parentheses. -/
def labelRows (labels : List Text) : List Token := commas (labels.map (fun l => parens [.str l]))

/-- The tokens of a statement without the semicolon that ends it. -/
def stmtTokens : Stmt → List Token
  | .createSchema n ifNotExists =>
    if d = .mssql then
      kws ["IF", "NOT", "EXISTS"] ++ parens (kws ["SELECT"] ++ [.sym '*'] ++ kws ["FROM", "sys"] ++ [.sym '.'] ++ kws ["schemas", "WHERE", "name"] ++ [.sym '=', .str n])
        ++ kws ["EXEC"] ++ parens [.str (t "CREATE SCHEMA " ++ (LocalId.mk n).quoted)]
    else kws ["CREATE", "SCHEMA"] ++ onlyIf ifNotExists (kws ["IF", "NOT", "EXISTS"]) ++ [.ident n]
  | .dropSchema n cascade =>
    kws ["DROP", "SCHEMA"] ++ onlyIf cascade (kws ["IF", "EXISTS"]) ++ [.ident n] ++ onlyIf cascade (kws ["CASCADE"])
  | .createEnum q vs => kws ["CREATE", "TYPE"] ++ nameTokens q ++ kws ["AS", "ENUM"] ++ parens (commas (vs.map (fun v => [.str v])))
  | .createStruct q attrs => kws ["CREATE", "TYPE"] ++ nameTokens q ++ kws ["AS"] ++ parens (commas (attrs.map (fun a => [.ident a.1] ++ typeTokens a.2)))
  | .createTable q cols keyName pk comment =>
    kws ["CREATE", "TABLE"] ++ nameTokens q ++
      parens (commas (cols.map (fun c => [.ident c.1] ++ specTokens d raw c.2) ++ [kws ["CONSTRAINT"] ++ [.ident keyName] ++ kws ["PRIMARY", "KEY"] ++ identList pk]))
      ++ tableCommentTokens d comment
  | .alterTable q actions => kws ["ALTER", "TABLE"] ++ nameTokens q ++ actionsTokens d raw actions
  | .addValue q v => kws ["ALTER", "TYPE"] ++ nameTokens q ++ kws ["ADD", "VALUE"] ++ [.str v]
  | .alterStruct q actions => kws ["ALTER", "TYPE"] ++ nameTokens q ++ commas (actions.map attrTokens)
  | .renameType q new => kws ["ALTER", "TYPE"] ++ nameTokens q ++ kws ["RENAME", "TO"] ++ [.ident new]
  | .dropType q => kws ["DROP", "TYPE"] ++ nameTokens q
  | .dropTable q => kws ["DROP", "TABLE"] ++ nameTokens q
  | .commentTable q c =>
    if d = .mysql then kws ["ALTER", "TABLE"] ++ nameTokens q ++ kws ["COMMENT"] ++ [.sym '='] ++ textOrNull c
    else kws ["COMMENT", "ON", "TABLE"] ++ nameTokens q ++ kws ["IS"] ++ textOrNull c
  | .commentType q c => kws ["COMMENT", "ON", "TYPE"] ++ nameTokens q ++ kws ["IS"] ++ textOrNull c
  | .commentColumn q col c => kws ["COMMENT", "ON", "COLUMN"] ++ nameTokens q ++ [.sym '.', .ident col] ++ kws ["IS"] ++ textOrNull c
  | .insertRows q cols rows => kws ["INSERT", "INTO"] ++ nameTokens q ++ identList cols ++ kws ["VALUES"] ++ commas (rows.map raw)
  | .insertLabels q labels ignore =>
    kws ["INSERT", "INTO"] ++ nameTokens q ++ identList [t "value"] ++ kws ["VALUES"] ++ labelRows labels ++
      onlyIf ignore
        (if d = .mysql then kws ["ON", "DUPLICATE", "KEY", "UPDATE"] ++ [.ident (t "value"), .sym '=', .ident (t "value")]
         else kws ["ON", "CONFLICT"] ++ identList [t "value"] ++ kws ["DO", "NOTHING"])
  | .insertDistinct q col data =>
    kws ["INSERT", "INTO"] ++ nameTokens q ++ identList [t "value"] ++ kws ["SELECT", "DISTINCT"] ++ [.ident col] ++ kws ["FROM"] ++ nameTokens data
      ++ kws ["ON", "DUPLICATE", "KEY", "UPDATE"] ++ [.ident (t "value"), .sym '=', .ident (t "value")]
  | .updateKeys data target source lookup =>
    if d = .mysql then
      kws ["UPDATE"] ++ nameTokens data ++ kws ["data_table", "JOIN"] ++ nameTokens lookup ++ kws ["enum_table", "ON", "data_table"] ++ [.sym '.', .ident source]
        ++ [.sym '='] ++ kws ["enum_table"] ++ [.sym '.', .ident (t "value")] ++ kws ["SET", "data_table"] ++ [.sym '.', .ident target]
        ++ [.sym '='] ++ kws ["enum_table"] ++ [.sym '.', .ident (t "id")]
    else
      kws ["UPDATE"] ++ nameTokens data ++ kws ["data_table", "SET"] ++ [.ident target] ++ [.sym '='] ++ kws ["enum_table"] ++ [.sym '.', .ident (t "id")]
        ++ kws ["FROM"] ++ nameTokens lookup ++ kws ["enum_table", "WHERE", "data_table"] ++ [.sym '.', .ident source] ++ [.sym ':', .sym ':']
        ++ kws ["VARCHAR"] ++ [.sym '='] ++ kws ["enum_table"] ++ [.sym '.', .ident (t "value")]

end

end PySqlSync.Spec
