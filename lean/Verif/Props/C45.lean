/-
C45 — SQL text means the statement.

`Lexes` (Spec/Token.lean) says how an engine cuts a text into tokens: white space, delimited identifiers, string literals by the rules of the
engine, words, and symbols.  `stmtTokens` lists the tokens of a statement; a name is one token `ident`, a label or comment one token `str`,
whatever characters it consists of.
-/
import Verif.Lemmas.TokenScript
import Verif.Lemmas.TokenRun
import Verif.Examples.Shop

set_option autoImplicit false

namespace PySqlSync.Spec

/-- The tokens of a constant; `raw` are the tokens of a number. -/
def constTokens (raw : Text → List Token) : PyConst → List Token
  | .str s => [.str s]
  | .bool b => if b then kws ["TRUE"] else kws ["FALSE"]
  | .num r => raw r
  | .datetime iso => [.str iso]
  | .tuple vs => parens (commas (vs.map (constTokens raw)))

/-- The strings in a constant, and the numbers. -/
def constStrings : PyConst → List Text
  | .str s => [s]
  | .datetime s => [s]
  | .tuple vs => vs.flatMap constStrings
  | _ => []
def constNumbers : PyConst → List Text
  | .num r => [r]
  | .tuple vs => vs.flatMap constNumbers
  | _ => []

/-- A list of tokens cut at each semicolon. -/
def cutAtSemicolons : List Token → List (List Token)
  | [] => []
  | k :: rest =>
    if k = semicolon then [] :: cutAtSemicolons rest
    else
      match cutAtSemicolons rest with
      | [] => [[k]]
      | s :: more => (k :: s) :: more

end PySqlSync.Spec

namespace PySqlSync
open Spec

namespace C45

variable {d : Dialect} {raw : Text → List Token}

/-! ### No statement contains a semicolon -/

theorem kws_clean (l : List String) : semicolon ∉ kws l := by
  simp [kws, semicolon]

theorem commas_clean {l : List (List Token)} (h : ∀ x ∈ l, semicolon ∉ x) : semicolon ∉ commas l := by
  induction l with
  | nil => simp [commas]
  | cons x l ih =>
    cases l with
    | nil => simpa [commas] using h x (by simp)
    | cons y l =>
      simp only [commas, List.mem_append, List.mem_cons, not_or]
      exact ⟨h x (by simp), by simp [semicolon, comma], ih (fun z hz => h z (List.mem_cons_of_mem _ hz))⟩

theorem parens_clean {l : List Token} (h : semicolon ∉ l) : semicolon ∉ parens l := by
  simp [parens, h]; simp [semicolon]

theorem name_clean (q : QId) : semicolon ∉ nameTokens q := by
  unfold nameTokens; split <;> simp [semicolon]

theorem identList_clean (l : List Text) : semicolon ∉ identList l :=
  parens_clean (commas_clean (by simp [semicolon]))

theorem size_clean (o : Option Nat) : semicolon ∉ sizeTokens o := by
  cases o <;> simp [sizeTokens, parens, num, semicolon]

theorem zone_clean (b : Bool) : semicolon ∉ zoneTokens b := by
  cases b <;> simp [zoneTokens, kws, semicolon]

theorem onlyIf_clean {b : Bool} {l : List Token} (h : semicolon ∉ l) : semicolon ∉ onlyIf b l := by
  cases b <;> simp [onlyIf, h]

theorem append_clean {a b : List Token} (ha : semicolon ∉ a) (hb : semicolon ∉ b) : semicolon ∉ a ++ b := by
  simp [ha, hb]

theorem labels_clean (vs : List Text) : semicolon ∉ commas (vs.map (fun v => [Token.str v])) :=
  commas_clean (by simp [semicolon])

mutual
theorem type_clean : ∀ ty : SqlType, semicolon ∉ typeTokens ty
  | .array e => by simpa [typeTokens] using ⟨type_clean e, kws_clean _⟩
  | .struct fs => by
    simp only [typeTokens]
    have := commas_clean (field_clean fs)
    simp [kws, this]; simp [semicolon]
  | .enum vs => by simpa [typeTokens] using ⟨kws_clean _, parens_clean (labels_clean vs)⟩
  | .user q => by simpa [typeTokens] using name_clean q
  | .uuid | .date | .interval => by simp [typeTokens, kws, semicolon]
  | .boolean c | .json c | .real c | .double c => by simp only [typeTokens]; repeat' split
                                                     all_goals exact kws_clean _
  | .integer c w _ _ _ => by simp only [typeTokens]; repeat' split
                             all_goals exact kws_clean _
  | .float p => by simpa [typeTokens] using ⟨kws_clean _, size_clean _⟩
  | .decimal p s => by
    simp only [typeTokens]; split
    all_goals simp [kws, parens, num, comma, semicolon]
  | .fixedBinary c s => by
    simp only [typeTokens]; split
    · simpa using kws_clean _
    · exact append_clean (kws_clean _) (size_clean _)
  | .varBinary c s => by
    simp only [typeTokens]
    repeat' split
    all_goals first | exact kws_clean _ | exact append_clean (kws_clean _) (size_clean _)
  | .fixedChar l => by simpa [typeTokens] using ⟨kws_clean _, size_clean _⟩
  | .varChar c l => by
    simp only [typeTokens]
    repeat' split
    all_goals first | exact kws_clean _ | exact append_clean (kws_clean _) (size_clean _) | exact append_clean (kws_clean _) (parens_clean (kws_clean _))
  | .timestamp c p z => by
    simp only [typeTokens]
    repeat' split
    all_goals
      first
      | exact kws_clean _
      | exact append_clean (kws_clean _) (size_clean _)
      | exact append_clean (append_clean (kws_clean _) (size_clean _)) (zone_clean _)
      | exact append_clean (append_clean (kws_clean _) (by simp)) (zone_clean _)
  | .time c p z => by
    simp only [typeTokens]; split
    · exact kws_clean _
    · exact append_clean (append_clean (kws_clean _) (size_clean _)) (zone_clean _)
theorem field_clean : ∀ fs : StructFields, ∀ x ∈ fieldTokens fs, semicolon ∉ x
  | .nil => by simp [fieldTokens]
  | .cons n ty nullable rest => by
    intro x hx
    simp only [fieldTokens, List.mem_cons] at hx
    rcases hx with rfl | hx
    · refine append_clean (append_clean (by simp [semicolon]) (type_clean ty)) ?_
      split
      · simp
      · exact kws_clean _
    · exact field_clean rest x hx
end

theorem given_clean {p : Parts} (h : Clear d raw p) {e : Text} (he : e ∈ p.given) : semicolon ∉ raw e := (h.given e he).2

theorem default_clean (s : ColSpec) (h : Clear d raw (specParts s)) : semicolon ∉ defaultTokens raw s := by
  have hc := Tok.Clear.split (p := typeParts s.ty) h
  unfold defaultTokens
  split
  · simp
  · next e he =>
    refine append_clean (append_clean ?_ (kws_clean _)) (given_clean hc.2 (by simp [he]))
    split
    · exact append_clean (kws_clean _) (by simp [semicolon])
    · simp

theorem identity_clean : semicolon ∉ identityTokens d := by
  unfold identityTokens; split <;> exact kws_clean _

theorem spec_clean (s : ColSpec) (h : Clear d raw (specParts s)) : semicolon ∉ specTokens d raw s := by
  have hn : semicolon ∉ onlyIf s.notNull (kws ["NOT", "NULL"]) := onlyIf_clean (kws_clean _)
  unfold specTokens
  refine append_clean (append_clean (append_clean (append_clean (type_clean _) (onlyIf_clean (kws_clean _))) ?_) (onlyIf_clean identity_clean)) ?_
  · split
    · exact append_clean (default_clean s h) hn
    · exact append_clean hn (default_clean s h)
  · unfold specCommentTokens
    split
    · exact append_clean (kws_clean _) (by simp [semicolon])
    · simp

theorem con_clean (n : Text) (s : ConSpec) (h : Clear d raw (conParts s)) : semicolon ∉ conTokens raw n s := by
  have hi : semicolon ∉ [Token.ident n] := by simp [semicolon]
  cases s with
  | unique cols => exact append_clean (append_clean hi (kws_clean _)) (identList_clean _)
  | foreign cols table refCols =>
    exact append_clean (append_clean (append_clean (append_clean (append_clean hi (kws_clean _)) (identList_clean _)) (kws_clean _)) (name_clean _)) (identList_clean _)
  | check cond => exact append_clean (append_clean hi (kws_clean _)) (parens_clean (given_clean h (by simp [conParts])))

theorem ident_clean (l : List Text) : semicolon ∉ l.map Token.ident := by simp [semicolon]

theorem action_clean (a : Action) (h : Clear d raw (actionParts a)) : semicolon ∉ actionTokens d raw a := by
  have hi : ∀ n, semicolon ∉ [Token.ident n] := fun n => by simp [semicolon]
  have hal : ∀ n l, semicolon ∉ l → semicolon ∉ alterColumn n l := fun n l hl => append_clean (append_clean (kws_clean _) (hi n)) hl
  cases a with
  | addColumn n s =>
    refine append_clean (append_clean ?_ (hi n)) (spec_clean s h)
    split <;> exact kws_clean _
  | dropColumn n => exact append_clean (kws_clean _) (hi n)
  | dropDefaultAndColumn con n =>
    exact append_clean (append_clean (append_clean (kws_clean _) (by simp [semicolon, comma])) (kws_clean _)) (hi n)
  | renameColumn old new s =>
    simp only [actionTokens]
    split
    · exact append_clean (append_clean (kws_clean _) (by simp [semicolon])) (spec_clean s h)
    · exact append_clean (append_clean (append_clean (kws_clean _) (hi _)) (kws_clean _)) (hi _)
  | setDataType n ty => exact hal _ _ (append_clean (kws_clean _) (type_clean _))
  | setNotNull n => exact hal _ _ (kws_clean _)
  | dropNotNull n => exact hal _ _ (kws_clean _)
  | setDefault n e => exact hal _ _ (append_clean (kws_clean _) (given_clean h (by simp [actionParts])))
  | dropDefault n => exact hal _ _ (kws_clean _)
  | addIdentity n => exact hal _ _ (kws_clean _)
  | dropIdentity n => exact hal _ _ (kws_clean _)
  | redefine n s => exact append_clean (append_clean (kws_clean _) (hi n)) (spec_clean s h)
  | modify n ty def_ nullable identity =>
    have hc := Tok.Clear.split (p := Parts.all (ty.toList.map typeParts)) h
    refine append_clean (append_clean (append_clean (append_clean (append_clean (kws_clean _) (hi n)) ?_) ?_) ?_) ?_
    · cases ty with
      | none => simp
      | some ty => exact type_clean ty
    · match def_, hc with
      | none, _ => simp
      | some none, _ => exact kws_clean _
      | some (some e), hc => exact append_clean (kws_clean _) (given_clean hc.2 (by simp))
    · match nullable with
      | none => simp
      | some true => exact kws_clean _
      | some false => exact kws_clean _
    · match identity with
      | none => simp
      | some true => exact kws_clean _
      | some false => exact kws_clean _
  | retype n ty notNull => exact hal _ _ (append_clean (type_clean _) (onlyIf_clean (kws_clean _)))
  | addDefault con e n =>
    exact append_clean (append_clean (append_clean (append_clean (append_clean (kws_clean _) (hi _)) (kws_clean _)) (given_clean h (by simp [actionParts]))) (kws_clean _)) (hi _)
  | addConstraint n s => exact append_clean (kws_clean _) (con_clean n s h)
  | dropConstraint n => exact append_clean (kws_clean _) (hi n)

theorem actions_clean (l : List Action) (h : Clear d raw (Parts.all (l.map actionParts))) : semicolon ∉ actionsTokens d raw l := by
  have hall : ∀ x ∈ l.map (actionTokens d raw), semicolon ∉ x := by
    intro x hx
    obtain ⟨a, ha, rfl⟩ := List.mem_map.mp hx
    exact action_clean a (Tok.Clear.mem_map h a ha)
  unfold actionsTokens
  split
  · split
    · simp
    · next first rest he =>
      rw [he] at hall
      refine commas_clean ?_
      intro x hx
      rcases List.mem_cons.mp hx with rfl | hx
      · exact hall _ (List.mem_cons_self ..)
      · obtain ⟨y, hy, rfl⟩ := List.mem_map.mp hx
        exact fun hm => hall y (List.mem_cons_of_mem _ hy) (List.mem_of_mem_drop hm)
  · exact commas_clean hall

theorem attr_clean (a : AttrAction) : semicolon ∉ attrTokens a := by
  have hi : ∀ n, semicolon ∉ [Token.ident n] := fun n => by simp [semicolon]
  cases a with
  | drop n => exact append_clean (kws_clean _) (hi n)
  | setDataType n ty => exact append_clean (append_clean (append_clean (kws_clean _) (hi n)) (kws_clean _)) (type_clean _)
  | add n ty => exact append_clean (append_clean (kws_clean _) (hi n)) (type_clean _)

theorem textOrNull_clean (c : Option Text) : semicolon ∉ textOrNull c := by
  cases c with
  | none => exact kws_clean _
  | some c => simp [textOrNull, semicolon]

theorem stmt_clean (s : Stmt) (h : Clear d raw (stmtParts s)) : semicolon ∉ stmtTokens d raw s := by
  have hi : ∀ n, semicolon ∉ [Token.ident n] := fun n => by simp [semicolon]
  have hk : ∀ l, semicolon ∉ kws l := kws_clean
  have hn : ∀ q, semicolon ∉ nameTokens q := name_clean
  cases s with
  | createSchema n b =>
    simp only [stmtTokens]
    split
    · simp [kws, parens, semicolon]
    · exact append_clean (append_clean (hk _) (onlyIf_clean (hk _))) (hi _)
  | dropSchema n c => exact append_clean (append_clean (append_clean (hk _) (onlyIf_clean (hk _))) (hi _)) (onlyIf_clean (hk _))
  | createEnum q vs => exact append_clean (append_clean (append_clean (hk _) (hn _)) (hk _)) (parens_clean (labels_clean vs))
  | createStruct q attrs =>
    refine append_clean (append_clean (append_clean (hk _) (hn _)) (hk _)) (parens_clean (commas_clean ?_))
    intro x hx
    obtain ⟨a, _, rfl⟩ := List.mem_map.mp hx
    exact append_clean (hi _) (type_clean _)
  | createTable q cols keyName pk comment =>
    have hc := Tok.Clear.split (p := nameParts q ++ Parts.all (cols.map (fun c => specParts c.2))) h
    have hc' := Tok.Clear.split (p := nameParts q) hc.1
    refine append_clean (append_clean (append_clean (hk _) (hn _)) (parens_clean (commas_clean ?_))) ?_
    · intro x hx
      rcases List.mem_append.mp hx with hx | hx
      · obtain ⟨c, hm, rfl⟩ := List.mem_map.mp hx
        exact append_clean (hi _) (spec_clean _ (Tok.Clear.mem_map hc'.2 c hm))
      · simp only [List.mem_singleton] at hx
        subst hx
        exact append_clean (append_clean (append_clean (hk _) (hi _)) (hk _)) (identList_clean _)
    · cases comment with
      | none => simp [tableCommentTokens]
      | some c => exact append_clean (append_clean (hk _) (onlyIf_clean (by simp [semicolon]))) (by simp [semicolon])
  | alterTable q actions =>
    exact append_clean (append_clean (hk _) (hn _)) (actions_clean actions (Tok.Clear.split (p := nameParts q) h).2)
  | addValue q v => exact append_clean (append_clean (append_clean (hk _) (hn _)) (hk _)) (by simp [semicolon])
  | alterStruct q actions =>
    refine append_clean (append_clean (hk _) (hn _)) (commas_clean ?_)
    intro x hx
    obtain ⟨a, _, rfl⟩ := List.mem_map.mp hx
    exact attr_clean a
  | renameType q new => exact append_clean (append_clean (append_clean (hk _) (hn _)) (hk _)) (hi _)
  | dropType q => exact append_clean (hk _) (hn _)
  | dropTable q => exact append_clean (hk _) (hn _)
  | commentTable q c =>
    simp only [stmtTokens]
    split
    · exact append_clean (append_clean (append_clean (append_clean (hk _) (hn _)) (hk _)) (by simp [semicolon])) (textOrNull_clean c)
    · exact append_clean (append_clean (append_clean (hk _) (hn _)) (hk _)) (textOrNull_clean c)
  | commentType q c => exact append_clean (append_clean (append_clean (hk _) (hn _)) (hk _)) (textOrNull_clean c)
  | commentColumn q col c =>
    exact append_clean (append_clean (append_clean (append_clean (hk _) (hn _)) (by simp [semicolon])) (hk _)) (textOrNull_clean c)
  | insertRows q cols rows =>
    refine append_clean (append_clean (append_clean (append_clean (hk _) (hn _)) (identList_clean _)) (hk _)) (commas_clean ?_)
    intro x hx
    obtain ⟨r, hr, rfl⟩ := List.mem_map.mp hx
    exact given_clean (Tok.Clear.split (p := nameParts q) h).2 hr
  | insertLabels q labels ignore =>
    refine append_clean (append_clean (append_clean (append_clean (append_clean (hk _) (hn _)) (identList_clean _)) (hk _)) (commas_clean ?_)) (onlyIf_clean ?_)
    · intro x hx
      obtain ⟨l, _, rfl⟩ := List.mem_map.mp hx
      exact parens_clean (by simp [semicolon])
    · split
      · exact append_clean (hk _) (by simp [semicolon])
      · exact append_clean (append_clean (hk _) (identList_clean _)) (hk _)
  | insertDistinct q col data =>
    exact append_clean (append_clean (append_clean (append_clean (append_clean (append_clean (append_clean (append_clean (hk _) (hn _)) (identList_clean _)) (hk _))
      (hi _)) (hk _)) (hn _)) (hk _)) (by simp [semicolon])
  | updateKeys data target source lookup =>
    have h1 := hn data
    have h2 := hn lookup
    simp only [semicolon] at h1 h2
    simp only [stmtTokens, semicolon]
    split
    all_goals simp [kws, h1, h2]

theorem cut_append {ts : List Token} (h : semicolon ∉ ts) (rest : List Token) :
    cutAtSemicolons (ts ++ semicolon :: rest) = ts :: cutAtSemicolons rest := by
  induction ts with
  | nil => simp [cutAtSemicolons]
  | cons k ts ih =>
    simp only [List.mem_cons, not_or] at h
    simp only [List.cons_append, cutAtSemicolons, ih h.2, if_neg (Ne.symm h.1)]

theorem const_pre {d : Dialect} {raw : Text → List Token} : ∀ c : PyConst, (∀ s ∈ constStrings c, LabelFits d s) →
    (∀ r ∈ constNumbers c, Lexes (literalOf d) r (raw r)) → Tok.Pre (literalOf d) (constant c) (constTokens raw c)
  | .str s, hs, _ => by
    simp only [constant, constTokens]
    exact Tok.quote_pre (hs s (by simp [constStrings]))
  | .bool true, _, _ => by
    simp only [constant, constTokens, if_true]
    exact Tok.kw (t "TRUE") (kws ["TRUE"])
  | .bool false, _, _ => by
    simp only [constant, constTokens, Bool.false_eq_true, if_false]
    exact Tok.kw (t "FALSE") (kws ["FALSE"])
  | .num r, _, hr => by
    simp only [constant, constTokens]
    exact Tok.lexes_pre (Tok.literalOf_ok d) (hr r (by simp [constNumbers]))
  | .datetime s, hs, _ => by
    simp only [constant, constTokens]
    exact Tok.quote_pre (hs s (by simp [constStrings]))
  | .tuple vs, hs, hr => by
    simp only [constant, constTokens]
    have hall : Tok.PreAll (literalOf d) (vs.map constant) (vs.map (constTokens raw)) :=
      Tok.preAll_map vs constant (constTokens raw) (fun v hv => const_pre v
        (fun s hm => hs s (by simp only [constStrings, List.mem_flatMap]; exact ⟨v, hv, hm⟩))
        (fun r hm => hr r (by simp only [constNumbers, List.mem_flatMap]; exact ⟨v, hv, hm⟩)))
    exact ((Tok.kwH (t "(") [.sym '(']).app (Tok.commaBlank hall)).k (t ")") [.sym ')'] |>.of_eq rfl (by simp [parens])
termination_by c => sizeOf c
decreasing_by
  have := List.sizeOf_lt_of_mem hv
  simp; omega

end C45

/-- A constant — a default, or a row of an enumeration table — is read as itself: each string in it is one literal with exactly that value,
    for tuples of any nesting. -/
theorem C45_constant (d : Dialect) (raw : Text → List Token) (c : PyConst) (hs : ∀ s ∈ constStrings c, LabelFits d s)
    (hr : ∀ r ∈ constNumbers c, Lexes (literalOf d) r (raw r)) (ts : List Token) :
    Lexes (literalOf d) (constant c) ts ↔ ts = constTokens raw c :=
  have h := (C45.const_pre c hs hr).lexes
  ⟨fun h' => Tok.lexes_unique (Tok.literalOf_ok d) h' h, fun e => e ▸ h⟩

/-- The text of a statement has just one reading: the tokens of the statement, and a semicolon. -/
theorem C45_statement (d : Dialect) (raw : Text → List Token) (s : Stmt) (x : Text) (hx : s.text d = .ok x) (h : Clear d raw (stmtParts s))
    (hs : d = .mssql → ∀ n b, s = .createSchema n b → '\'' ∉ n) (ts : List Token) :
    Lexes (literalOf d) x ts ↔ ts = stmtTokens d raw s ++ [semicolon] :=
  have h' := (Tok.stmt_pre s hx h hs).lexes
  ⟨fun h'' => Tok.lexes_unique (Tok.literalOf_ok d) h'' h', fun e => e ▸ h'⟩

/-- A script is read as its statements one after another, each ended by the only semicolon in it: no name, label, comment or constant adds a
    statement, removes one, or changes another. -/
theorem C45_script (d : Dialect) (raw : Text → List Token) (script : List Stmt) (x : Text) (hx : scriptText d script = .ok x)
    (h : ∀ s ∈ script, Clear d raw (stmtParts s)) (hs : d = .mssql → ∀ n b, Stmt.createSchema n b ∈ script → '\'' ∉ n) :
    (∃ ts, Lexes (literalOf d) x ts) ∧ ∀ ts, Lexes (literalOf d) x ts → cutAtSemicolons ts = script.map (stmtTokens d raw) := by
  unfold scriptText at hx
  cases hm : script.mapM (Stmt.text d) with
  | error e => rw [hm] at hx; cases hx
  | ok parts =>
    rw [hm] at hx; cases hx
    have hall := Tok.preAll_mapM script (Stmt.text d) (fun s => stmtTokens d raw s ++ [semicolon]) hm
      (fun s hmem y hy => Tok.stmt_pre s hy (h s hmem) (fun hd n b e => hs hd n b (e ▸ hmem)))
    have hp := (Tok.spaces_pre (Tok.kwH (t "\n") []) (by decide +kernel) (by decide) hall).lexes
    refine ⟨⟨_, hp⟩, fun ts hts => ?_⟩
    rw [Tok.lexes_unique (Tok.literalOf_ok d) hts hp]
    clear hall hp hm hts ts hs
    induction script with
    | nil => rfl
    | cons s script ih =>
      simp only [List.map_cons, List.flatten_cons, List.append_assoc, List.cons_append, List.nil_append]
      rw [C45.cut_append (C45.stmt_clean s (h s (List.mem_cons_self ..))), ih (fun s' hs' => h s' (List.mem_cons_of_mem _ hs'))]

/-! ### Where it fails -/

/-- A name of a schema with a quote is cut into other tokens on SQL Server: the code puts the quoted identifier into the literal that is the
    argument of `EXEC` as it is, so that a name may contain statements. -/
theorem C45_schema_name_fails :
    ∃ n x : Text, (Stmt.createSchema n true).text .mssql = .ok x ∧ Clear .mssql (fun _ => []) (stmtParts (.createSchema n true)) ∧
      ∃ ts, Lexes (literalOf .mssql) x ts ∧ kws ["DROP", "TABLE", "orders"] ∈ cutAtSemicolons ts := by
  refine ⟨t "x'); DROP TABLE orders; EXEC('z", _, rfl, ⟨by simp [stmtParts], by simp [stmtParts], by simp [stmtParts], by simp [stmtParts]⟩, ?_⟩
  refine ⟨_, Tok.lexRun_ok 200 _ (ts := Tok.rawRun .mssql (mssqlCreateSchema (t "x'); DROP TABLE orders; EXEC('z"))) ?_, ?_⟩
  · decide +kernel
  · decide +kernel

/-- On MySQL a label with a backslash is read as another text (and see `C16_quote_mysql_fails`: one that ends with a backslash does not end
    where pysqlsync ends it). -/
theorem C45_label_fails :
    ∃ (q : QId) (a b x : Text), a ≠ b ∧ (Stmt.insertLabels q [a] false).text .mysql = .ok x ∧
      ∀ ts, Lexes (literalOf .mysql) x ts ↔ ts = stmtTokens .mysql (fun _ => []) (.insertLabels q [b] false) ++ [semicolon] := by
  refine ⟨.qualified none (t "e"), t "a\\n", t "a\n", _, by decide, rfl, fun ts => ?_⟩
  have h : Lexes (literalOf .mysql) (t "INSERT INTO \"e\" (\"value\") VALUES ('a\\n');")
      (stmtTokens .mysql (fun _ => []) (.insertLabels (.qualified none (t "e")) [t "a\n"] false) ++ [semicolon]) :=
    Tok.lexRun_ok 60 _ (by decide +kernel)
  have e : t "INSERT INTO " ++ (QId.qualified none (t "e")).quoted ++ t " (\"value\") VALUES " ++ labelRowsText [t "a\\n"] ++ [] ++ t ";"
      = t "INSERT INTO \"e\" (\"value\") VALUES ('a\\n');" := by decide +kernel
  rw [if_neg (by decide), e]
  exact ⟨fun h' => Tok.lexes_unique (Tok.literalOf_ok .mysql) h' h, fun e => e ▸ h⟩

/-! ### Examples -/

namespace C45

/-- A script with every kind of character that means something to SQL. -/
def nasty : List Stmt :=
  [.createSchema (t "my \"schema\"; --") true,
   .createTable (.qualified (some (t "my \"schema\"; --")) (t "order's"))
     [(t "id", { ty := .integer .postgresql 8 true none none, notNull := true, default := none, identity := true, comment := none, defaultName := none }),
      (t "a\"b", { ty := .varChar .postgresql (some 80), notNull := false, default := some (quote (t "it's; /*")), identity := false, comment := none,
                   defaultName := none })]
     (t "pk_order's") [t "id"] none,
   .commentTable (.qualified (some (t "my \"schema\"; --")) (t "order's")) (some (t "line\n'; DROP TABLE x; --\\")),
   .createEnum (.qualified none (t "e;")) [t "';", t "--"],
   .alterTable (.qualified none (t "x")) [.dropColumn (t "y, DROP COLUMN z"), .addConstraint (t "c") (.check (t "\"a\" = 'x;' OR \"b\" > 1.5"))]]

theorem nasty_clear : ∀ s ∈ nasty, Clear .postgresql (Tok.rawRun .postgresql) (stmtParts s) := by
  have : nasty.all (fun s => Tok.clearB .postgresql (stmtParts s)) = true := by decide +kernel
  intro s hs
  exact Tok.clearB_ok (List.all_eq_true.mp this s hs)

example : ∃ x, scriptText .postgresql nasty = .ok x ∧ ∃ ts, Lexes (literalOf .postgresql) x ts ∧ (cutAtSemicolons ts).length = 5 := by
  have hok : (scriptText .postgresql nasty).toOption.isSome = true := by decide +kernel
  obtain ⟨x, hx⟩ : ∃ x, scriptText .postgresql nasty = .ok x := by
    cases h : scriptText .postgresql nasty with
    | ok x => exact ⟨x, rfl⟩
    | error e => simp [Except.toOption, h] at hok
  obtain ⟨⟨ts, ht⟩, hall⟩ := C45_script .postgresql (Tok.rawRun .postgresql) nasty x hx nasty_clear (fun h => nomatch h)
  exact ⟨x, hx, ts, ht, by rw [hall ts ht]; rfl⟩

/-- The script of Examples/Shop.lean. -/
example : ∃ stmts x, Example.script = .ok stmts ∧ scriptText .postgresql stmts = .ok x ∧
    ∃ ts, Lexes (literalOf .postgresql) x ts ∧ cutAtSemicolons ts = stmts.map (stmtTokens .postgresql (Tok.rawRun .postgresql)) := by
  obtain ⟨stmts, hs, _⟩ := Example.script_ok
  have hc : (Example.script.toOption.getD []).all (fun s => Tok.clearB .postgresql (stmtParts s)) = true := by decide +kernel
  have hx : ((scriptText .postgresql (Example.script.toOption.getD [])).toOption).isSome = true := by decide +kernel
  rw [hs] at hc hx
  obtain ⟨x, hx⟩ : ∃ x, scriptText .postgresql stmts = .ok x := by
    cases h : scriptText .postgresql stmts with
    | ok x => exact ⟨x, rfl⟩
    | error e => simp [Except.toOption, h] at hx
  obtain ⟨⟨ts, ht⟩, hall⟩ := C45_script .postgresql (Tok.rawRun .postgresql) stmts x hx
    (fun s hm => Tok.clearB_ok (List.all_eq_true.mp hc s hm)) (fun h => nomatch h)
  exact ⟨stmts, x, hs, hx, ts, ht, hall ts ht⟩

example : Lexes (literalOf .oracle) (constant (.tuple [.str (t "it's"), .tuple [.num (t "-1.5"), .bool true]]))
    (constTokens (Tok.rawRun .oracle) (.tuple [.str (t "it's"), .tuple [.num (t "-1.5"), .bool true]])) := by
  refine (C45_constant .oracle (Tok.rawRun .oracle) _ (by simp [LabelFits]) ?_ _).mpr rfl
  intro r hr
  simp only [constNumbers, List.flatMap_cons, List.flatMap_nil, List.append_nil, List.nil_append, List.mem_singleton] at hr
  subst hr
  exact Tok.lexRun_ok 10 _ (by decide +kernel)

end C45

end PySqlSync
