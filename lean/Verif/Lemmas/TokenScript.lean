/-
Helper lemmas: the tokens of statements as pysqlsync writes them (continued).
-/
import Verif.Lemmas.TokenStmt

set_option autoImplicit false

namespace PySqlSync.Tok
open Spec

variable {d : Dialect} {raw : Text → List Token}

/-- The value of the argument of `EXEC(...)`. -/
theorem exec_ok {n : Text} (h : '\'' ∉ n) : LitOk readMSSQL (t "'CREATE SCHEMA " ++ (LocalId.mk n).quoted ++ t "'") (t "CREATE SCHEMA " ++ (LocalId.mk n).quoted) := by
  have hq : '\'' ∉ quoteId n := by
    rw [quoteId_eq]
    simp only [replaceChar, List.mem_flatMap, not_exists, not_and]
    intro c hc hm
    split at hm
    · simp at hm
    · simp only [List.mem_singleton] at hm; subst hm; exact h hc
  intro b hb
  have key : ∀ v : Text, '\'' ∉ v → readQuoted '\'' (v ++ '\'' :: b) = some (v, b) := by
    intro v hv
    have := readQuoted_replace '\'' v b hb
    rwa [replaceChar_notMem _ _ _ hv] at this
  have hmem : '\'' ∉ t "CREATE SCHEMA " ++ (LocalId.mk n).quoted := by
    simp only [LocalId.quoted, List.mem_append, not_or]
    refine ⟨by decide +kernel, ⟨by decide +kernel, hq⟩, by decide +kernel⟩
  have := key _ hmem
  have e : t "'CREATE SCHEMA " = '\'' :: t "CREATE SCHEMA " := by decide +kernel
  have e' : t "'" = ['\''] := by decide +kernel
  rw [e, e', List.cons_append, List.cons_append, List.cons_append, List.append_assoc (_ ++ _)]
  exact this

theorem nquote_ok (n : Text) : LitOk readMSSQL (t "N" ++ quote n) n := by
  intro b hb
  have := readQuoted_replace '\'' n b hb
  simpa [readMSSQL, quote, t] using this

theorem createSchema_pre (n : Text) (h : '\'' ∉ n) (b : Bool) :
    Pre (literalOf .mssql) (mssqlCreateSchema n) (stmtTokens .mssql raw (.createSchema n b) ++ [semicolon]) := by
  have h1 : Hard (literalOf .mssql) (t "IF NOT EXISTS ( SELECT * FROM sys.schemas WHERE name = ")
      (kws ["IF", "NOT", "EXISTS"] ++ [.sym '('] ++ kws ["SELECT"] ++ [.sym '*'] ++ kws ["FROM", "sys"] ++ [.sym '.'] ++ kws ["schemas", "WHERE", "name"] ++ [.sym '=']) :=
    kwH _ _
  have h2 := h1.app (nquote_ok n).pre
  have h3 := h2.kH (t " ) EXEC(") ([.sym ')'] ++ kws ["EXEC"] ++ [.sym '('])
  have h4 := (h3.app (exec_ok h).pre).k (t ");") [.sym ')', semicolon]
  refine h4.of_eq ?_ ?_
  · have e1 : t "IF NOT EXISTS ( SELECT * FROM sys.schemas WHERE name = N" = t "IF NOT EXISTS ( SELECT * FROM sys.schemas WHERE name = " ++ t "N" := by decide +kernel
    have e2 : t " ) EXEC('CREATE SCHEMA " = t " ) EXEC(" ++ t "'CREATE SCHEMA " := by decide +kernel
    have e3 : t "');" = t "'" ++ t ");" := by decide +kernel
    unfold mssqlCreateSchema
    rw [e1, e2, e3]
    generalize t "IF NOT EXISTS ( SELECT * FROM sys.schemas WHERE name = " = a1
    generalize t " ) EXEC(" = a2
    generalize t "'CREATE SCHEMA " = a3
    generalize t ");" = a4
    simp only [List.append_assoc]
  · simp only [stmtTokens, parens, if_pos, List.append_assoc, List.cons_append, List.nil_append]

theorem tableComment_pre (c : Option Text) (h : ∀ x ∈ c.toList, CommentFits d x) :
    Pre (literalOf d) (tableCommentText d c) (tableCommentTokens d c) := by
  cases c with
  | none => exact Pre.nil
  | some c =>
    have hc := comment_pre (d := d) (h c (by simp))
    by_cases hd : d = .delta
    · subst hd
      exact (kwH (t "\nCOMMENT ") (kws ["COMMENT"])).app hc
    · have hx : tableCommentText d (some c) = t "\nCOMMENT = " ++ commentLiteral d c := by
        cases d <;> first | rfl | exact absurd rfl hd
      rw [hx]
      exact ((kwH (t "\nCOMMENT = ") (kws ["COMMENT"] ++ [.sym '='])).app hc).of_eq rfl (by simp [tableCommentTokens, onlyIf, hd])
theorem tableComment_sep (c : Option Text) : sepHead (tableCommentText d c) = true := by
  cases c with
  | none => rfl
  | some c => cases d <;> rfl

theorem value_pre (R : Reader) : Pre R (t "\"value\"") [.ident (t "value")] := (ident_pre (t "value")).of_eq (by decide +kernel) rfl
theorem idCol_pre (R : Reader) : Pre R (t "\"id\"") [.ident (t "id")] := (ident_pre (t "id")).of_eq (by decide +kernel) rfl

theorem duplicate_pre (R : Reader) : Pre R (t "\nON DUPLICATE KEY UPDATE \"value\" = \"value\"")
    (kws ["ON", "DUPLICATE", "KEY", "UPDATE"] ++ [.ident (t "value"), .sym '=', .ident (t "value")]) :=
  (((kwH (t "\nON DUPLICATE KEY UPDATE ") (kws ["ON", "DUPLICATE", "KEY", "UPDATE"])).app (value_pre R)).kH (t " = ") [.sym '=']).app (value_pre R)
    |>.of_eq (by decide +kernel) (by simp)

theorem conflict_pre (R : Reader) : Pre R (t " ON CONFLICT (\"value\") DO NOTHING")
    (kws ["ON", "CONFLICT"] ++ identList [t "value"] ++ kws ["DO", "NOTHING"]) :=
  ((kwH (t " ON CONFLICT (") (kws ["ON", "CONFLICT"] ++ [.sym '('])).app (value_pre R)).k (t ") DO NOTHING") (.sym ')' :: kws ["DO", "NOTHING"])
    |>.of_eq (by decide +kernel) (by simp [identList, commas, parens])

set_option maxHeartbeats 4000000 in
/-- Every statement is written as the tokens it consists of, and a semicolon. -/
theorem stmt_pre (s : Stmt) {x : Text} (hx : s.text d = .ok x) (h : Clear d raw (stmtParts s))
    (hs : d = .mssql → ∀ n b, s = .createSchema n b → '\'' ∉ n) : Pre (literalOf d) x (stmtTokens d raw s ++ [semicolon]) := by
  cases s with
  | createSchema n b =>
    by_cases hd : d = .mssql
    · subst hd
      cases hx
      exact createSchema_pre n (hs rfl n b rfl) b
    · have hx' : x = t "CREATE SCHEMA " ++ (if b then t "IF NOT EXISTS " else []) ++ idText n ++ t ";" := by
        cases d <;> first | (cases hx; rfl) | exact absurd rfl hd
      subst hx'
      cases b
      · exact (((kwH (t "CREATE SCHEMA ") (kws ["CREATE", "SCHEMA"])).app (id_pre _ n)).k (t ";") [semicolon]).of_eq (by simp only [Bool.false_eq_true, if_false, List.append_nil]) (by simp [stmtTokens, hd, onlyIf])
      · have e : t "CREATE SCHEMA " ++ t "IF NOT EXISTS " = t "CREATE SCHEMA IF NOT EXISTS " := by decide +kernel
        rw [if_pos rfl, e]
        exact (((kwH (t "CREATE SCHEMA IF NOT EXISTS ") (kws ["CREATE", "SCHEMA", "IF", "NOT", "EXISTS"])).app (id_pre _ n)).k (t ";") [semicolon]).of_eq rfl
          (by simp [stmtTokens, hd, onlyIf, kws])
  | dropSchema n c =>
    cases hx
    cases c
    · exact (((kwH (t "DROP SCHEMA ") (kws ["DROP", "SCHEMA"])).app (id_pre _ n)).k (t ";") [semicolon]).of_eq rfl (by simp [stmtTokens, onlyIf])
    · exact (((kwH (t "DROP SCHEMA IF EXISTS ") (kws ["DROP", "SCHEMA", "IF", "EXISTS"])).app (id_pre _ n)).k (t " CASCADE;") (kws ["CASCADE"] ++ [semicolon])).of_eq
        rfl (by simp [stmtTokens, onlyIf, kws])
  | createEnum q vs =>
    cases hx
    have hc := Clear.split (p := nameParts q) h
    exact (((kwH (t "CREATE TYPE ") (kws ["CREATE", "TYPE"])).app (name_pre _ hc.1)).kH (t " AS ENUM (") (kws ["AS", "ENUM"] ++ [.sym '('])).app (labels_pre (vs := vs) hc.2.labels)
      |>.k (t ");") [.sym ')', semicolon] |>.of_eq rfl (by simp [stmtTokens, parens])
  | createStruct q attrs =>
    have hc := Clear.split (p := nameParts q) h
    simp only [Stmt.text] at hx
    cases hm : attrs.mapM memberText with
    | error e => rw [hm] at hx; cases hx
    | ok ms =>
      rw [hm] at hx; cases hx
      have hall : PreAll (literalOf d) ms (attrs.map (fun a => [.ident a.1] ++ typeTokens a.2)) := by
        refine preAll_mapM attrs memberText _ hm (fun a ha s hs => ?_)
        simp only [memberText] at hs
        cases hty : a.2.str with
        | error e => rw [hty] at hs; cases hs
        | ok y =>
          rw [hty] at hs; cases hs
          exact (((id_pre _ a.1).kH (t " ") []).app (type_pre a.2 hty (Clear.mem_map hc.2 a ha))).of_eq rfl (by simp)
      exact (((kwH (t "CREATE TYPE ") (kws ["CREATE", "TYPE"])).app (name_pre _ hc.1)).kH (t " AS (\n") (kws ["AS"] ++ [.sym '('])).app (commaLine hall)
        |>.k (t "\n);") [.sym ')', semicolon] |>.of_eq rfl (by simp [stmtTokens, parens])
  | createTable q cols keyName pk comment =>
    have hc := Clear.split (p := nameParts q ++ Parts.all (cols.map (fun c => specParts c.2))) h
    have hc' := Clear.split (p := nameParts q) hc.1
    simp only [Stmt.text] at hx
    cases hm : cols.mapM (fun c => columnText d c.1 c.2) with
    | error e => rw [hm] at hx; cases hx
    | ok defs =>
      rw [hm] at hx; cases hx
      have hall := preAll_mapM cols (fun c => columnText d c.1 c.2) (fun c => [.ident c.1] ++ specTokens d raw c.2) hm
        (fun c hmem s hs => column_pre c.1 c.2 hs (Clear.mem_map hc'.2 c hmem))
      have hkey : Pre (literalOf d) (t "CONSTRAINT " ++ idText keyName ++ t " PRIMARY KEY (" ++ idListText pk ++ t ")")
          (kws ["CONSTRAINT"] ++ [.ident keyName] ++ kws ["PRIMARY", "KEY"] ++ identList pk) :=
        (((kwH (t "CONSTRAINT ") (kws ["CONSTRAINT"])).app (id_pre _ keyName)).kH (t " PRIMARY KEY (") (kws ["PRIMARY", "KEY"] ++ [.sym '('])).app (idList_pre _ pk)
          |>.k (t ")") [.sym ')'] |>.of_eq rfl (by simp [identList, parens])
      have hdefs := preAll_append hall (bs := [_]) (tbs := [_]) ⟨hkey, trivial⟩
      have h1 := (((kwH (t "CREATE TABLE ") (kws ["CREATE", "TABLE"])).app (name_pre _ hc'.1)).kH (t " (\n") [.sym '(']).app (commaLine hdefs)
        |>.k (t "\n)") [.sym ')']
      have h2 := (h1.app (tableComment_pre comment hc.2.comments) (tableComment_sep comment)).k (t ";") [semicolon]
      exact h2.of_eq rfl (by simp [stmtTokens, parens])
  | alterTable q actions => exact alterText_pre q actions hx h
  | addValue q v =>
    cases hx
    have hc := Clear.split (p := nameParts q) h
    exact (((kwH (t "ALTER TYPE ") (kws ["ALTER", "TYPE"])).app (name_pre _ hc.1)).kH (t " ADD VALUE ") (kws ["ADD", "VALUE"])).app (quote_pre (hc.2.labels v (by simp)))
      |>.k (t ";") [semicolon]
  | alterStruct q actions =>
    have hc := Clear.split (p := nameParts q) h
    simp only [Stmt.text] at hx
    cases hm : actions.mapM AttrAction.text with
    | error e => rw [hm] at hx; cases hx
    | ok parts =>
      rw [hm] at hx; cases hx
      have hall := preAll_mapM actions AttrAction.text attrTokens hm (fun a ha s hs => attr_pre (d := d) (raw := raw) a hs (Clear.mem_map hc.2 a ha))
      exact (((kwH (t "ALTER TYPE ") (kws ["ALTER", "TYPE"])).app (name_pre _ hc.1)).kH (t "\n") []).app (commaLine hall)
        |>.k (t ";\n") [semicolon] |>.of_eq rfl (by simp [stmtTokens])
  | renameType q new =>
    cases hx
    exact (((kwH (t "ALTER TYPE ") (kws ["ALTER", "TYPE"])).app (name_pre _ h)).kH (t " RENAME TO ") (kws ["RENAME", "TO"])).app (id_pre _ new)
      |>.k (t ";") [semicolon]
  | dropType q => cases hx; exact ((kwH (t "DROP TYPE ") (kws ["DROP", "TYPE"])).app (name_pre _ h)).k (t ";") [semicolon]
  | dropTable q => cases hx; exact ((kwH (t "DROP TABLE ") (kws ["DROP", "TABLE"])).app (name_pre _ h)).k (t ";") [semicolon]
  | commentTable q c =>
    have hc := Clear.split (p := nameParts q) h
    have hcom := comment_or_null_pre (d := d) (c := c) hc.2.comments
    by_cases hd : d = .mysql
    · subst hd
      cases hx
      exact (((kwH (t "ALTER TABLE ") (kws ["ALTER", "TABLE"])).app (name_pre _ hc.1)).kH (t " COMMENT = ") (kws ["COMMENT"] ++ [.sym '='])).app hcom
        |>.k (t ";") [semicolon] |>.of_eq rfl (by simp [stmtTokens])
    · have hx' : x = t "COMMENT ON TABLE " ++ q.quoted ++ t " IS " ++ commentOrNull d c ++ t ";" := by
        cases d <;> first | (cases hx; rfl) | exact absurd rfl hd
      subst hx'
      exact (((kwH (t "COMMENT ON TABLE ") (kws ["COMMENT", "ON", "TABLE"])).app (name_pre _ hc.1)).kH (t " IS ") (kws ["IS"])).app hcom
        |>.k (t ";") [semicolon] |>.of_eq rfl (by simp [stmtTokens, hd])
  | commentType q c =>
    cases hx
    have hc := Clear.split (p := nameParts q) h
    exact (((kwH (t "COMMENT ON TYPE ") (kws ["COMMENT", "ON", "TYPE"])).app (name_pre _ hc.1)).kH (t " IS ") (kws ["IS"])).app (comment_or_null_pre (c := c) hc.2.comments)
      |>.k (t ";") [semicolon]
  | commentColumn q col c =>
    cases hx
    have hc := Clear.split (p := nameParts q) h
    exact (((((kwH (t "COMMENT ON COLUMN ") (kws ["COMMENT", "ON", "COLUMN"])).app (name_pre _ hc.1)).kH (t ".") [.sym '.']).app (id_pre _ col)).kH (t " IS ") (kws ["IS"])).app
      (comment_or_null_pre (c := c) hc.2.comments) |>.k (t ";") [semicolon] |>.of_eq rfl (by simp [stmtTokens])
  | insertRows q cols rows =>
    cases hx
    have hc := Clear.split (p := nameParts q) h
    have hall : PreAll (literalOf d) rows (rows.map raw) := by
      have := preAll_map (R := literalOf d) rows id raw (fun r hr => raw_pre hc.2 hr)
      simpa using this
    exact ((((kwH (t "INSERT INTO ") (kws ["INSERT", "INTO"])).app (name_pre _ hc.1)).kH (t " (") [.sym '(']).app (idList_pre _ cols)).kH (t ") VALUES ")
      (.sym ')' :: kws ["VALUES"]) |>.app (commaBlank hall) |>.k (t ";") [semicolon] |>.of_eq rfl (by simp [stmtTokens, identList, parens])
  | insertLabels q labels ignore =>
    have hc := Clear.split (p := nameParts q) h
    have h1 : Pre (literalOf d) (t "INSERT INTO " ++ q.quoted ++ t " (\"value\") VALUES " ++ labelRowsText labels)
        (kws ["INSERT", "INTO"] ++ nameTokens q ++ identList [t "value"] ++ kws ["VALUES"] ++ labelRows labels) :=
      ((((kwH (t "INSERT INTO ") (kws ["INSERT", "INTO"])).app (name_pre _ hc.1)).kH (t " (") [.sym '(']).app (value_pre _)).kH (t ") VALUES ")
        (.sym ')' :: kws ["VALUES"]) |>.app (labelRows_pre (labels := labels) hc.2.labels) |>.of_eq (by
          have e : t " (\"value\") VALUES " = t " (" ++ (t "\"value\"" ++ t ") VALUES ") := by decide +kernel
          rw [e]; simp only [List.append_assoc]) (by simp [identList, parens, commas])
    cases ignore
    · cases hx
      exact (h1.k (t ";") [semicolon]).of_eq (by simp only [Bool.false_eq_true, if_false, List.append_nil]) (by simp [stmtTokens, onlyIf])
    · by_cases hd : d = .mysql
      · subst hd
        cases hx
        exact ((h1.app (duplicate_pre _) (by decide +kernel)).k (t ";") [semicolon]).of_eq rfl (by simp [stmtTokens, onlyIf])
      · have hx' : x = t "INSERT INTO " ++ q.quoted ++ t " (\"value\") VALUES " ++ labelRowsText labels ++ t " ON CONFLICT (\"value\") DO NOTHING" ++ t ";" := by
          cases d <;> first | (cases hx; rfl) | exact absurd rfl hd
        subst hx'
        exact ((h1.app (conflict_pre _) (by decide +kernel)).k (t ";") [semicolon]).of_eq rfl (by simp [stmtTokens, onlyIf, hd])
  | insertDistinct q col data =>
    cases hx
    have hc := Clear.split (p := nameParts q) h
    have h1 := ((((kwH (t "INSERT INTO ") (kws ["INSERT", "INTO"])).app (name_pre (literalOf d) hc.1)).kH (t " (") [.sym '(']).app (value_pre _)).kH (t ") SELECT DISTINCT ")
        (.sym ')' :: kws ["SELECT", "DISTINCT"]) |>.app (id_pre _ col) |>.kH (t " FROM ") (kws ["FROM"]) |>.app (name_pre _ hc.2)
    exact ((h1.app (duplicate_pre _) (by decide +kernel)).k (t ";") [semicolon]).of_eq (by
      have e : t " (\"value\") SELECT DISTINCT " = t " (" ++ (t "\"value\"" ++ t ") SELECT DISTINCT ") := by decide +kernel
      have e' : t "\nON DUPLICATE KEY UPDATE \"value\" = \"value\";" = t "\nON DUPLICATE KEY UPDATE \"value\" = \"value\"" ++ t ";" := by decide +kernel
      rw [e, e']; simp only [List.append_assoc]) (by simp [stmtTokens, identList, parens, commas])
  | updateKeys data target source lookup =>
    have hc := Clear.split (p := nameParts data) h
    by_cases hd : d = .mysql
    · subst hd
      cases hx
      have h1 := (((kwH (t "UPDATE ") (kws ["UPDATE"])).app (name_pre (literalOf .mysql) hc.1)).kH (t " data_table\nJOIN ") (kws ["data_table", "JOIN"])).app (name_pre _ hc.2)
        |>.kH (t " enum_table ON data_table.") (kws ["enum_table", "ON", "data_table"] ++ [.sym '.']) |>.app (id_pre _ source)
        |>.kH (t " = enum_table.") ([.sym '='] ++ kws ["enum_table"] ++ [.sym '.']) |>.app (value_pre _)
        |>.kH (t "\nSET data_table.") (kws ["SET", "data_table"] ++ [.sym '.']) |>.app (id_pre _ target)
        |>.kH (t " = enum_table.") ([.sym '='] ++ kws ["enum_table"] ++ [.sym '.']) |>.app (idCol_pre _) |>.k (t ";") [semicolon]
      exact h1.of_eq (by
        have e : t " = enum_table.\"value\"\nSET data_table." = t " = enum_table." ++ (t "\"value\"" ++ t "\nSET data_table.") := by decide +kernel
        have e' : t " = enum_table.\"id\";" = t " = enum_table." ++ (t "\"id\"" ++ t ";") := by decide +kernel
        rw [e, e']; simp only [List.append_assoc]) (by simp [stmtTokens])
    · have hx' : x = t "UPDATE " ++ data.quoted ++ t " data_table\nSET " ++ idText target ++ t " = enum_table.\"id\"\nFROM " ++ lookup.quoted
          ++ t " enum_table\nWHERE data_table." ++ idText source ++ t "::VARCHAR = enum_table.\"value\";" := by
        cases d <;> first | (cases hx; rfl) | exact absurd rfl hd
      subst hx'
      have h1 := (((kwH (t "UPDATE ") (kws ["UPDATE"])).app (name_pre (literalOf d) hc.1)).kH (t " data_table\nSET ") (kws ["data_table", "SET"])).app (id_pre _ target)
        |>.kH (t " = enum_table.") ([.sym '='] ++ kws ["enum_table"] ++ [.sym '.']) |>.app (idCol_pre _)
        |>.kH (t "\nFROM ") (kws ["FROM"]) |>.app (name_pre _ hc.2)
        |>.kH (t " enum_table\nWHERE data_table.") (kws ["enum_table", "WHERE", "data_table"] ++ [.sym '.']) |>.app (id_pre _ source)
        |>.kH (t "::VARCHAR = enum_table.") ([.sym ':', .sym ':'] ++ kws ["VARCHAR"] ++ [.sym '='] ++ kws ["enum_table"] ++ [.sym '.'])
        |>.app (value_pre _) |>.k (t ";") [semicolon]
      exact h1.of_eq (by
        have e : t " = enum_table.\"id\"\nFROM " = t " = enum_table." ++ (t "\"id\"" ++ t "\nFROM ") := by decide +kernel
        have e' : t "::VARCHAR = enum_table.\"value\";" = t "::VARCHAR = enum_table." ++ (t "\"value\"" ++ t ";") := by decide +kernel
        rw [e, e']; simp only [List.append_assoc]) (by simp [stmtTokens, hd])

end PySqlSync.Tok
