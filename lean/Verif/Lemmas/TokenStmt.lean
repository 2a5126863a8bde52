/-
Helper lemmas: the tokens of statements as pysqlsync writes them.
-/
import Verif.Lemmas.TokenType

set_option autoImplicit false

namespace PySqlSync.Tok
open Spec

variable {d : Dialect} {raw : Text → List Token}

theorem raw_pre {e : Text} {p : Parts} (h : Clear d raw p) (he : e ∈ p.given) : Pre (literalOf d) e (raw e) :=
  lexes_pre (literalOf_ok d) (h.given e he).1

/-- After a piece, one that is left out or begins with a blank. -/
theorem Pre.opt {R : Reader} {a b : Text} {ta tb : List Token} (ha : Pre R a ta) (hb : Pre R b tb) (hs : sepHead b = true) : Pre R (a ++ b) (ta ++ tb) :=
  ha.app hb hs

theorem notNull_pre (b : Bool) : Pre (literalOf d) (notNullText b) (onlyIf b (kws ["NOT", "NULL"])) := by
  cases b
  · exact Pre.nil
  · exact kw (t " NOT NULL") (kws ["NOT", "NULL"])
theorem notNull_sep (b : Bool) : sepHead (notNullText b) = true := by cases b <;> decide +kernel

theorem default_pre (s : ColSpec) (h : Clear d raw (specParts s)) : Pre (literalOf d) (defaultText s) (defaultTokens raw s) := by
  unfold defaultText defaultTokens
  cases he : s.default with
  | none => exact Pre.nil
  | some e =>
    have hr : Pre (literalOf d) e (raw e) := raw_pre h (by
      show e ∈ (typeParts s.ty).given ++ s.default.toList
      simp [he])
    cases s.defaultName with
    | none => exact (kwH (t " DEFAULT ") (kws ["DEFAULT"])).app hr
    | some n =>
      exact (((kwH (t " CONSTRAINT ") (kws ["CONSTRAINT"])).app (id_pre _ n)).kH (t " DEFAULT ") (kws ["DEFAULT"])).app hr
theorem default_sep (s : ColSpec) : sepHead (defaultText s) = true := by
  unfold defaultText
  split
  · rfl
  · split <;> rfl

theorem identity_pre (b : Bool) : Pre (literalOf d) (identityText d b) (onlyIf b (identityTokens d)) := by
  cases b
  · exact Pre.nil
  · cases d <;> exact kw _ _
theorem identity_sep (b : Bool) : sepHead (identityText d b) = true := by cases b <;> cases d <;> decide +kernel

theorem specComment_pre (s : ColSpec) (h : Clear d raw (specParts s)) : Pre (literalOf d) (specCommentText d s) (specCommentTokens s) := by
  unfold specCommentText specCommentTokens
  cases he : s.comment with
  | none => exact Pre.nil
  | some c =>
    refine (kwH (t " COMMENT ") (kws ["COMMENT"])).app (comment_pre (h.comments c ?_))
    show c ∈ (typeParts s.ty).comments ++ s.comment.toList
    simp [he]
theorem specComment_sep (s : ColSpec) : sepHead (specCommentText d s) = true := by
  unfold specCommentText
  split
  · rfl
  · rfl

theorem charset_pre (ty : SqlType) : Pre (literalOf d) (charsetText d ty) (onlyIf (d == .mysql && ty.isEnum) (kws ["CHARACTER", "SET", "ascii", "COLLATE", "ascii_bin"])) := by
  unfold charsetText onlyIf
  split
  · exact kw _ _
  · exact Pre.nil
theorem charset_sep (ty : SqlType) : sepHead (charsetText d ty) = true := by
  unfold charsetText
  split <;> decide +kernel

theorem spec_pre (s : ColSpec) {x : Text} (hx : s.text d = .ok x) (h : Clear d raw (specParts s)) : Pre (literalOf d) x (specTokens d raw s) := by
  unfold ColSpec.text at hx
  cases hty : s.ty.str with
  | error e => rw [hty] at hx; cases hx
  | ok ty =>
    rw [hty] at hx
    cases hx
    have h1 := type_pre s.ty hty (Clear.split (p := typeParts s.ty) h).1
    have h2 := h1.app (charset_pre (d := d) s.ty) (charset_sep s.ty)
    have h3 : Pre (literalOf d) (nullAndDefaultText d s)
        (if d = .oracle then defaultTokens raw s ++ onlyIf s.notNull (kws ["NOT", "NULL"])
         else onlyIf s.notNull (kws ["NOT", "NULL"]) ++ defaultTokens raw s) := by
      have ha := (default_pre s h).app (notNull_pre (d := d) s.notNull) (notNull_sep s.notNull)
      have hb := (notNull_pre (d := d) s.notNull).app (default_pre s h) (default_sep s)
      cases d
      case oracle => exact ha
      all_goals exact hb
    have h3s : sepHead (nullAndDefaultText d s) = true := by
      cases d
      case oracle => exact sepHead_append (default_sep s) (notNull_sep s.notNull)
      all_goals exact sepHead_append (notNull_sep s.notNull) (default_sep s)
    have h4 := ((h2.app h3 h3s).app (identity_pre s.identity) (identity_sep s.identity)).app (specComment_pre s h) (specComment_sep s)
    exact h4

theorem column_pre (n : Text) (s : ColSpec) {x : Text} (hx : columnText d n s = .ok x) (h : Clear d raw (specParts s)) :
    Pre (literalOf d) x ([.ident n] ++ specTokens d raw s) := by
  unfold columnText at hx
  cases hs : s.text d with
  | error e => rw [hs] at hx; cases hx
  | ok y =>
    rw [hs] at hx; cases hx
    exact (((id_pre _ n).kH (t " ") []).app (spec_pre s hs h)).of_eq rfl (by simp)

theorem con_pre (n : Text) (s : ConSpec) (h : Clear d raw (conParts s)) : Pre (literalOf d) (s.text n) (conTokens raw n s) := by
  cases s with
  | unique cols =>
    exact (((id_pre _ n).kH (t " UNIQUE (") (kws ["UNIQUE"] ++ [.sym '('])).app (idList_pre _ cols)).k (t ")") [.sym ')']
      |>.of_eq rfl (by simp [conTokens, identList, parens])
  | «foreign» cols table refCols =>
    exact ((((((id_pre _ n).kH (t " FOREIGN KEY (") (kws ["FOREIGN", "KEY"] ++ [.sym '('])).app (idList_pre _ cols)).kH (t ") REFERENCES ")
      (.sym ')' :: kws ["REFERENCES"])).app (name_pre _ h)).kH (t " (") [.sym '(']).app (idList_pre _ refCols) |>.k (t ")") [.sym ')']
      |>.of_eq rfl (by simp [conTokens, identList, parens])
  | check cond =>
    exact (((id_pre _ n).kH (t " CHECK (") (kws ["CHECK"] ++ [.sym '('])).app (raw_pre h (by simp [conParts]))).k (t ")") [.sym ')']
      |>.of_eq rfl (by simp [conTokens, parens])

theorem alter_pre (n : Text) : Hard (literalOf d) (t "ALTER COLUMN " ++ idText n ++ t " ") (kws ["ALTER", "COLUMN"] ++ [.ident n]) :=
  (((kwH (t "ALTER COLUMN ") (kws ["ALTER", "COLUMN"])).app (id_pre _ n)).kH (t " ") []).of_eq rfl (by simp)

theorem modify_pre (n : Text) (ty : Option SqlType) (e : Option (Option Text)) (nullable identity : Option Bool) {tyText : Option Text}
    (hty : optType ty = .ok tyText) (h : Clear d raw (actionParts (.modify n ty e nullable identity))) :
    Pre (literalOf d) (t "MODIFY " ++ idText n ++ t " " ++ joinWith (t " ") (modifyParts tyText e nullable identity))
      (actionTokens d raw (.modify n ty e nullable identity)) := by
  have hc := Clear.split (p := Parts.all (ty.toList.map typeParts)) h
  have hall : PreAll (literalOf d) (modifyParts tyText e nullable identity)
      ((ty.toList.map typeTokens) ++
       (match e with
        | some (some e) => [kws ["DEFAULT"] ++ raw e]
        | some none => [kws ["DEFAULT", "NULL"]]
        | none => []) ++
       (match nullable with
        | some true => [kws ["NULL"]]
        | some false => [kws ["NOT", "NULL"]]
        | none => []) ++
       (match identity with
        | some true => [kws ["GENERATED", "BY", "DEFAULT", "AS", "IDENTITY"]]
        | some false => [kws ["DROP", "IDENTITY"]]
        | none => [])) := by
    unfold modifyParts
    refine preAll_append (preAll_append (preAll_append ?_ ?_) ?_) ?_
    · cases ty with
      | none => cases hty; trivial
      | some ty =>
        simp only [optType] at hty
        cases hs : ty.str with
        | error x => rw [hs] at hty; cases hty
        | ok x =>
          rw [hs] at hty; cases hty
          exact ⟨type_pre ty hs (Clear.mem_map hc.1 ty (by simp)), trivial⟩
    · match e, hc.2 with
      | none, _ => trivial
      | some none, _ => exact ⟨kw _ _, trivial⟩
      | some (some e), hc => exact ⟨(kwH (t "DEFAULT ") (kws ["DEFAULT"])).app (raw_pre hc (by simp)), trivial⟩
    · match nullable with
      | none => trivial
      | some true => exact ⟨kw _ _, trivial⟩
      | some false => exact ⟨kw _ _, trivial⟩
    · match identity with
      | none => trivial
      | some true => exact ⟨kw _ _, trivial⟩
      | some false => exact ⟨kw _ _, trivial⟩
  have := (((kwH (t "MODIFY ") (kws ["MODIFY"])).app (id_pre (literalOf d) n)).kH (t " ") []).app
    (spaces_pre (kwH (t " ") []) (by decide +kernel) (by decide) hall)
  refine this.of_eq rfl ?_
  simp only [actionTokens]
  rcases ty with _ | ty <;> rcases e with _ | _ | e <;> rcases nullable with _ | _ | _ <;> rcases identity with _ | _ | _ <;> simp

theorem action_pre (a : Action) {x : Text} (hx : a.text d = .ok x) (h : Clear d raw (actionParts a)) : Pre (literalOf d) x (actionTokens d raw a) := by
  cases a with
  | addColumn n s =>
    simp only [Action.text] at hx
    cases hs : columnText d n s with
    | error e => rw [hs] at hx; cases hx
    | ok y =>
      rw [hs] at hx; cases hx
      have hc := column_pre n s hs h
      by_cases hd : d = .mssql
      · subst hd
        exact ((kwH (t "ADD ") (kws ["ADD"])).app hc).of_eq rfl (by simp [actionTokens])
      · have : (d == .mssql) = false := by simpa using hd
        rw [this]
        exact ((kwH (t "ADD COLUMN ") (kws ["ADD", "COLUMN"])).app hc).of_eq (by simp) (by simp [actionTokens, hd])
  | dropColumn n => cases hx; exact (kwH (t "DROP COLUMN ") (kws ["DROP", "COLUMN"])).app (id_pre _ n)
  | dropDefaultAndColumn con n =>
    cases hx
    exact (((kwH (t "DROP CONSTRAINT ") (kws ["DROP", "CONSTRAINT"])).app (id_pre _ con)).kH (t ", COLUMN ") (comma :: kws ["COLUMN"])).app (id_pre _ n)
      |>.of_eq rfl (by simp [actionTokens])
  | renameColumn old new s =>
    by_cases hd : d = .mysql
    · subst hd
      simp only [Action.text] at hx
      cases hs : s.text .mysql with
      | error e => rw [hs] at hx; cases hx
      | ok y =>
        rw [hs] at hx; cases hx
        exact ((((kwH (t "CHANGE ") (kws ["CHANGE"])).app (id_pre _ old)).kH (t " ") []).app (id_pre _ new)).kH (t " ") [] |>.app (spec_pre s hs h)
          |>.of_eq rfl (by simp [actionTokens])
    · have hx' : x = t "RENAME COLUMN " ++ idText old ++ t " TO " ++ idText new := by
        cases d <;> first | (cases hx; rfl) | exact absurd rfl hd
      subst hx'
      exact (((kwH (t "RENAME COLUMN ") (kws ["RENAME", "COLUMN"])).app (id_pre _ old)).kH (t " TO ") (kws ["TO"])).app (id_pre _ new)
        |>.of_eq rfl (by simp [actionTokens, hd])
  | setDataType n ty =>
    simp only [Action.text] at hx
    cases hs : ty.str with
    | error e => rw [hs] at hx; cases hx
    | ok y =>
      rw [hs] at hx; cases hx
      exact (((kwH (t "ALTER COLUMN ") (kws ["ALTER", "COLUMN"])).app (id_pre _ n)).kH (t " SET DATA TYPE ") (kws ["SET", "DATA", "TYPE"])).app (type_pre ty hs h)
        |>.of_eq rfl (by simp [actionTokens, alterColumn])
  | setNotNull n =>
    cases hx
    exact ((kwH (t "ALTER COLUMN ") (kws ["ALTER", "COLUMN"])).app (id_pre _ n)).k (t " SET NOT NULL") (kws ["SET", "NOT", "NULL"])
  | dropNotNull n =>
    cases hx
    exact ((kwH (t "ALTER COLUMN ") (kws ["ALTER", "COLUMN"])).app (id_pre _ n)).k (t " DROP NOT NULL") (kws ["DROP", "NOT", "NULL"])
  | setDefault n e =>
    cases hx
    exact (((kwH (t "ALTER COLUMN ") (kws ["ALTER", "COLUMN"])).app (id_pre _ n)).kH (t " SET DEFAULT ") (kws ["SET", "DEFAULT"])).app
      (raw_pre h (by simp [actionParts])) |>.of_eq rfl (by simp [actionTokens, alterColumn])
  | dropDefault n =>
    cases hx
    exact ((kwH (t "ALTER COLUMN ") (kws ["ALTER", "COLUMN"])).app (id_pre _ n)).k (t " DROP DEFAULT") (kws ["DROP", "DEFAULT"])
  | addIdentity n =>
    cases hx
    exact ((kwH (t "ALTER COLUMN ") (kws ["ALTER", "COLUMN"])).app (id_pre _ n)).k (t " ADD GENERATED BY DEFAULT AS IDENTITY")
      (kws ["ADD", "GENERATED", "BY", "DEFAULT", "AS", "IDENTITY"])
  | dropIdentity n =>
    cases hx
    exact ((kwH (t "ALTER COLUMN ") (kws ["ALTER", "COLUMN"])).app (id_pre _ n)).k (t " DROP IDENTITY") (kws ["DROP", "IDENTITY"])
  | redefine n s =>
    simp only [Action.text] at hx
    cases hs : columnText d n s with
    | error e => rw [hs] at hx; cases hx
    | ok y =>
      rw [hs] at hx; cases hx
      exact ((kwH (t "MODIFY COLUMN ") (kws ["MODIFY", "COLUMN"])).app (column_pre n s hs h)).of_eq rfl (by simp [actionTokens])
  | modify n ty e nullable identity =>
    simp only [Action.text] at hx
    cases hs : optType ty with
    | error e => rw [hs] at hx; cases hx
    | ok y =>
      rw [hs] at hx; cases hx
      exact modify_pre n ty e nullable identity hs h
  | retype n ty notNull =>
    simp only [Action.text] at hx
    cases hs : ty.str with
    | error e => rw [hs] at hx; cases hx
    | ok y =>
      rw [hs] at hx; cases hx
      exact ((alter_pre n).app (type_pre ty hs h)).app (notNull_pre notNull) (notNull_sep notNull)
        |>.of_eq rfl (by simp [actionTokens, alterColumn])
  | addDefault con e n =>
    cases hx
    exact ((((kwH (t "ADD CONSTRAINT ") (kws ["ADD", "CONSTRAINT"])).app (id_pre _ con)).kH (t " DEFAULT ") (kws ["DEFAULT"])).app
      (raw_pre h (by simp [actionParts]))).kH (t " FOR ") (kws ["FOR"]) |>.app (id_pre _ n)
  | addConstraint n s => cases hx; exact (kwH (t "ADD CONSTRAINT ") (kws ["ADD", "CONSTRAINT"])).app (con_pre n s h)
  | dropConstraint n => cases hx; exact (kwH (t "DROP CONSTRAINT ") (kws ["DROP", "CONSTRAINT"])).app (id_pre _ n)

theorem attr_pre (a : AttrAction) {x : Text} (hx : a.text = .ok x) (h : Clear d raw (attrParts a)) : Pre (literalOf d) x (attrTokens a) := by
  cases a with
  | drop n => cases hx; exact (kwH (t "DROP ATTRIBUTE ") (kws ["DROP", "ATTRIBUTE"])).app (id_pre _ n)
  | setDataType n ty =>
    simp only [AttrAction.text] at hx
    cases hs : ty.str with
    | error e => rw [hs] at hx; cases hx
    | ok y =>
      rw [hs] at hx; cases hx
      exact (((kwH (t "ALTER ATTRIBUTE ") (kws ["ALTER", "ATTRIBUTE"])).app (id_pre _ n)).kH (t " SET DATA TYPE ") (kws ["SET", "DATA", "TYPE"])).app (type_pre ty hs h)
  | add n ty =>
    simp only [AttrAction.text] at hx
    cases hs : ty.str with
    | error e => rw [hs] at hx; cases hx
    | ok y =>
      rw [hs] at hx; cases hx
      exact (((kwH (t "ADD ATTRIBUTE ") (kws ["ADD", "ATTRIBUTE"])).app (id_pre _ n)).kH (t " ") []).app (type_pre ty hs h)
        |>.of_eq rfl (by simp [attrTokens])

theorem comment_or_null_pre {c : Option Text} (h : ∀ x ∈ c.toList, CommentFits d x) :
    Pre (literalOf d) (commentOrNull d c) (textOrNull c) := by
  cases c with
  | none => exact kw (t "NULL") (kws ["NULL"])
  | some c => exact comment_pre (h c (by simp))

theorem labelRows_pre {labels : List Text} (h : ∀ v ∈ labels, LabelFits d v) :
    Pre (literalOf d) (labelRowsText labels) (labelRows labels) := by
  refine commaBlank (preAll_map labels _ (fun l => parens [.str l]) (fun v hv => ?_))
  exact ((kwH (t "(") [.sym '(']).app (quote_pre (h v hv))).k (t ")") [.sym ')']

/-- The head of `ALTER TABLE name ` -/
theorem alterTable_pre {q : QId} (h : Clear d raw (nameParts q)) : Pre (literalOf d) (t "ALTER TABLE " ++ q.quoted) (kws ["ALTER", "TABLE"] ++ nameTokens q) :=
  (kwH (t "ALTER TABLE ") (kws ["ALTER", "TABLE"])).app (name_pre _ h)

theorem mapM_added {actions : List Action} {cons : List (Text × ConSpec)} (h : actions.mapM Action.added = some cons) :
    actions = cons.map (fun c => Action.addConstraint c.1 c.2) := by
  induction actions generalizing cons with
  | nil => simp at h; subst h; rfl
  | cons a as ih =>
    rw [List.mapM_cons] at h
    cases ha : a.added with
    | none => rw [ha] at h; cases h
    | some c =>
      cases has : as.mapM Action.added with
      | none => rw [ha, has] at h; cases h
      | some cs =>
        rw [ha, has] at h; cases h
        cases a <;> simp only [Action.added, reduceCtorEq, Option.some.injEq] at ha
        subst ha
        rw [ih has]; rfl

theorem mapM_dropped {actions : List Action} {names : List Text} (h : actions.mapM Action.dropped = some names) :
    actions = names.map Action.dropConstraint := by
  induction actions generalizing names with
  | nil => simp at h; subst h; rfl
  | cons a as ih =>
    rw [List.mapM_cons] at h
    cases ha : a.dropped with
    | none => rw [ha] at h; cases h
    | some c =>
      cases has : as.mapM Action.dropped with
      | none => rw [ha, has] at h; cases h
      | some cs =>
        rw [ha, has] at h; cases h
        cases a <;> simp only [Action.dropped, reduceCtorEq, Option.some.injEq] at ha
        subst ha
        rw [ih has]; rfl

theorem commas_cons (a : List Token) (w : Token) (rest : List (List Token)) : commas ((w :: a) :: rest) = w :: commas (a :: rest) := by
  cases rest <;> simp [commas]

theorem alterText_pre (q : QId) (actions : List Action) {x : Text} (hx : alterText d q actions = .ok x)
    (h : Clear d raw (stmtParts (.alterTable q actions))) : Pre (literalOf d) x (stmtTokens d raw (.alterTable q actions) ++ [semicolon]) := by
  have hc := Clear.split (p := nameParts q) h
  have hn := alterTable_pre (d := d) (raw := raw) hc.1
  have ha := Clear.mem_map hc.2
  -- a single action
  have single : ∀ a ∈ actions, ∀ y, a.text d = .ok y →
      Pre (literalOf d) (t "ALTER TABLE " ++ q.quoted ++ t " " ++ y ++ t ";") (kws ["ALTER", "TABLE"] ++ nameTokens q ++ actionTokens d raw a ++ [semicolon]) := by
    intro a hm y hy
    exact (((hn.kH (t " ") []).app (action_pre a hy (ha a hm))).k (t ";") [semicolon]).of_eq rfl (by simp)
  -- the general case
  have general : d ≠ .mssql → (do
      let parts ← actions.mapM (Action.text d)
      let ending := if (actions.mapM Action.dropped).isSome && 1 < actions.length then t "\n;" else t ";"
      return t "ALTER TABLE " ++ q.quoted ++ t "\n" ++ joinWith (t ",\n") parts ++ ending : Except Err Text) = .ok x →
      Pre (literalOf d) x (stmtTokens d raw (.alterTable q actions) ++ [semicolon]) := by
    intro hd hx
    cases hp : actions.mapM (Action.text d) with
    | error e => rw [hp] at hx; cases hx
    | ok parts =>
      rw [hp] at hx
      cases hx
      have hall := preAll_mapM actions (Action.text d) (actionTokens d raw) hp (fun a hm s hs => action_pre a hs (ha a hm))
      have hbase := (hn.kH (t "\n") []).app (commaLine hall)
      have hend : ∀ b : Bool, Pre (literalOf d) (if b then t "\n;" else t ";") [semicolon] := by
        intro b; cases b <;> exact kw _ _
      have hsep : ∀ b : Bool, sepHead (if b then t "\n;" else t ";") = true := by decide +kernel
      exact (hbase.app (hend _) (hsep _)).of_eq rfl (by simp [stmtTokens, actionsTokens, hd])
  unfold alterText at hx
  split at hx
  · rename_i a
    cases hy : a.text .mssql with
    | error e => rw [hy] at hx; cases hx
    | ok y =>
      rw [hy] at hx; cases hx
      exact (single a (by simp) y hy).of_eq rfl (by simp [stmtTokens, actionsTokens, commas])
  · rename_i a
    cases hy : a.text .oracle with
    | error e => rw [hy] at hx; cases hx
    | ok y =>
      rw [hy] at hx; cases hx
      exact (single a (by simp) y hy).of_eq rfl (by simp [stmtTokens, actionsTokens, commas])
  · cases hx
  · rename_i _ hne
    split at hx
    · rename_i cons hadd
      cases hx
      have hact := mapM_added hadd
      subst hact
      have hall : PreAll (literalOf .mssql) (cons.map (fun c => t "CONSTRAINT " ++ c.2.text c.1)) (cons.map (fun c => kws ["CONSTRAINT"] ++ conTokens raw c.1 c.2)) := by
        refine preAll_map cons _ _ (fun c hm => ?_)
        exact (kwH (t "CONSTRAINT ") (kws ["CONSTRAINT"])).app (con_pre c.1 c.2 (ha (Action.addConstraint c.1 c.2) (List.mem_map_of_mem (f := fun c => Action.addConstraint c.1 c.2) hm)))
      refine (((hn.kH (t " ADD\n") (kws ["ADD"])).app (commaLine hall)).k (t ";") [semicolon]).of_eq rfl ?_
      cases cons with
      | nil => exact absurd rfl hne
      | cons c cons =>
        simp only [stmtTokens, actionsTokens, List.map_cons, if_pos, List.map_map]
        have h1 : actionTokens .mssql raw (Action.addConstraint c.1 c.2) = .word (t "ADD") :: (kws ["CONSTRAINT"] ++ conTokens raw c.1 c.2) := rfl
        rw [h1, commas_cons]
        have h2 : List.map (List.drop 1 ∘ actionTokens .mssql raw ∘ fun c => Action.addConstraint c.1 c.2) cons
            = List.map (fun c => kws ["CONSTRAINT"] ++ conTokens raw c.1 c.2) cons := by
          apply List.map_congr_left; intro c _; rfl
        rw [h2]
        simp [kws]
    · rename_i names _ hdrop
      cases hx
      have hact := mapM_dropped hdrop
      subst hact
      have hall : PreAll (literalOf .mssql) (names.map (fun n => t "CONSTRAINT " ++ idText n)) (names.map (fun n => kws ["CONSTRAINT"] ++ [.ident n])) := by
        refine preAll_map names _ _ (fun n _ => ?_)
        exact (kwH (t "CONSTRAINT ") (kws ["CONSTRAINT"])).app (id_pre _ n)
      refine (((hn.kH (t " DROP\n") (kws ["DROP"])).app (commaLine hall)).k (t "\n;") [semicolon]).of_eq rfl ?_
      cases names with
      | nil => exact absurd rfl hne
      | cons n names =>
        simp only [stmtTokens, actionsTokens, List.map_cons, if_pos, List.map_map]
        have h1 : actionTokens .mssql raw (Action.dropConstraint n) = .word (t "DROP") :: (kws ["CONSTRAINT"] ++ [.ident n]) := rfl
        rw [h1, commas_cons]
        have h2 : List.map (List.drop 1 ∘ actionTokens .mssql raw ∘ Action.dropConstraint) names
            = List.map (fun n => kws ["CONSTRAINT"] ++ [.ident n]) names := by
          apply List.map_congr_left; intro c _; rfl
        rw [h2]
        simp [kws]
    · cases hx
  · rename_i h0 _ _ _
    refine general ?_ hx
    rintro rfl
    exact h0 rfl

end PySqlSync.Tok
