/-
Helper lemmas: the tokens of names, literals and data types as pysqlsync writes them.
-/
import Verif.Lemmas.TokenReader
import Verif.Lemmas.Url
import Verif.Spec.Given
import Verif.Model.Render

set_option autoImplicit false

namespace PySqlSync.Tok
open Spec

theorem Pre.k {R : Reader} {a : Text} {ta : List Token} (ha : Pre R a ta) (s : Text) (ts : List Token) (h : plain s = some ts := by decide +kernel)
    (hs : sepHead s = true := by decide +kernel) : Pre R (a ++ s) (ta ++ ts) := ha.app (plain_pre h) hs
theorem Pre.kH {R : Reader} {a : Text} {ta : List Token} (ha : Pre R a ta) (s : Text) (ts : List Token) (h : plain s = some ts := by decide +kernel)
    (he : hardEnd s = true := by decide +kernel) (hs : sepHead s = true := by decide +kernel) (hn : s ≠ [] := by decide) : Hard R (a ++ s) (ta ++ ts) :=
  ha.appH (plain_hard h he) hs hn

/-! ### Clear texts -/

section
variable {d : Dialect} {raw : Text → List Token}

theorem Clear.split {p q : Parts} (h : Clear d raw (p ++ q)) : Clear d raw p ∧ Clear d raw q :=
  ⟨⟨fun i hi => h.names i (List.mem_append_left _ hi), fun i hi => h.labels i (List.mem_append_left _ hi),
    fun i hi => h.comments i (List.mem_append_left _ hi), fun i hi => h.given i (List.mem_append_left _ hi)⟩,
   ⟨fun i hi => h.names i (List.mem_append_right _ hi), fun i hi => h.labels i (List.mem_append_right _ hi),
    fun i hi => h.comments i (List.mem_append_right _ hi), fun i hi => h.given i (List.mem_append_right _ hi)⟩⟩

theorem Clear.mem {ps : List Parts} (h : Clear d raw (Parts.all ps)) : ∀ p ∈ ps, Clear d raw p := by
  induction ps with
  | nil => intro p hp; cases hp
  | cons x ps ih =>
    intro p hp
    have h' : Clear d raw x ∧ Clear d raw (Parts.all ps) := Clear.split (p := x) (q := Parts.all ps) h
    rcases List.mem_cons.mp hp with rfl | hp
    · exact h'.1
    · exact ih h'.2 p hp

theorem Clear.mem_map {α : Type} {l : List α} {f : α → Parts} (h : Clear d raw (Parts.all (l.map f))) : ∀ x ∈ l, Clear d raw (f x) :=
  fun x hx => Clear.mem h (f x) (List.mem_map_of_mem hx)

/-! ### Names, numbers, literals -/

theorem id_pre (R : Reader) (n : Text) : Pre R (idText n) [.ident n] := ident_pre n

theorem name_pre (R : Reader) {q : QId} (h : Clear d raw (nameParts q)) : Pre R q.quoted (nameTokens q) := by
  match q, h with
  | .qualified (some ns) id, _ =>
    refine ((ident_pre ns).kH (t ".") [.sym '.']).app (ident_pre id) |>.of_eq ?_ rfl
    simp [LocalId.quoted, QId.quoted]
  | .qualified none id, _ => exact ident_pre id
  | .prefixed (some ns) id, _ =>
    refine (ident_pre (ns ++ t "__" ++ id)).of_eq ?_ rfl
    have : quoteId (t "__") = t "__" := by decide
    simp [LocalId.quoted, QId.quoted, quoteId_append, this]
  | .prefixed none id, _ => exact ident_pre id
  | .global id, h =>
    have := h.names id (by simp [nameParts])
    exact word_pre this.1 this.2

theorem idList_pre (R : Reader) (names : List Text) : Pre R (idListText names) (commas (names.map (fun n => [.ident n]))) :=
  commaBlank (preAll_map names idText (fun n => [.ident n]) (fun n _ => id_pre R n))

theorem digit_word {c : Char} (h : c.isDigit = true) : isWordChar c = true := by
  simp [isWordChar, Char.isAlphanum, h]

theorem natStr_pre (R : Reader) (n : Nat) : Pre R (natStr n) [num n] :=
  word_pre (natStr_ne_nil n) (fun c hc => digit_word (natStr_chars hc))

theorem quote_ok {v : Text} (h : LabelFits d v) : LitOk (literalOf d) (quote v) v := by
  intro b hb
  have hq : quote v ++ b = '\'' :: (replaceChar '\'' ['\'', '\''] v ++ '\'' :: b) := by simp [quote, t]
  rw [hq]
  cases d
  · exact readQuoted_replace '\'' v b hb
  · exact readQuoted_replace '\'' v b hb
  · exact readEscaped_replace_mysql v b (h.1 rfl) hb
  · exact readQuoted_replace '\'' v b hb
  · exact readQuoted_replace '\'' v b hb
  · exact readEscapedOct_replace _ v b (h.2 (.inl rfl)) hb
  · exact readEscapedOct_replace _ v b (h.2 (.inr rfl)) hb

theorem quote_pre {v : Text} (h : LabelFits d v) : Pre (literalOf d) (quote v) [.str v] := (quote_ok h).pre

theorem comment_pre {c : Text} (h : CommentFits d c) :
    Pre (literalOf d) (commentLiteral d c) [.str c] := by
  cases d
  · exact (quote_ok (d := .ansi) ⟨nofun, nofun⟩).pre
  · exact LitOk.pre (fun b hb => C18_postgresql_comment_reads_back c b hb)
  · exact (quote_ok (d := .mysql) ⟨h.1, nofun⟩).pre
  · exact (quote_ok (d := .oracle) ⟨nofun, nofun⟩).pre
  · exact (quote_ok (d := .mssql) ⟨nofun, nofun⟩).pre
  · exact LitOk.pre (fun b hb => (C18_delta_exact c b hb).mpr (h.2 (Or.inl rfl)))
  · exact LitOk.pre (fun b hb => (C18_snowflake_exact c b hb).mpr (h.2 (Or.inr rfl)))

theorem labels_pre {vs : List Text} (h : ∀ v ∈ vs, LabelFits d v) :
    Pre (literalOf d) (joinWith (t ", ") (vs.map quote)) (commas (vs.map (fun v => [.str v]))) :=
  commaBlank (preAll_map vs quote (fun v => [.str v]) (fun v hv => quote_pre (h v hv)))

/-! ### Data types -/

theorem sized_pre (R : Reader) (w : Text) (n : Nat) (hw : plain (w ++ t "(") = some [.word w, .sym '('] := by decide +kernel)
    (he : hardEnd (w ++ t "(") = true := by decide +kernel) : Pre R (w ++ t "(" ++ natStr n ++ t ")") ([.word w] ++ sizeTokens (some n)) :=
  (((plain_hard (R := R) hw he).app (natStr_pre R n)).k (t ")") [.sym ')']).of_eq rfl (by simp [sizeTokens, parens])

theorem opt_pre (R : Reader) (w : Text) (o : Option Nat) (hw : plain (w ++ t "(") = some [.word w, .sym '('] := by decide +kernel)
    (he : hardEnd (w ++ t "(") = true := by decide +kernel) (hw' : plain w = some [.word w] := by decide +kernel) :
    Pre R (w ++ paren o) ([.word w] ++ sizeTokens o) := by
  cases o with
  | none => exact (plain_pre hw').of_eq (by simp [paren]) (by simp [sizeTokens])
  | some n => exact (sized_pre R w n hw he).of_eq (by simp [paren]) rfl

theorem zone_pre {R : Reader} {a : Text} {ta : List Token} (h : Pre R a ta) (z : Bool) : Pre R (a ++ tzSuffix z) (ta ++ zoneTokens z) := by
  cases z
  · exact h.of_eq (by simp [tzSuffix]) (by simp [zoneTokens])
  · exact h.k (t " with time zone") (kws ["with", "time", "zone"])

theorem varBinary_pre (R : Reader) (c : Cls) (o : Option Nat) {s : Text} (h : (SqlType.varBinary c o).str = .ok s) :
    Pre R s (typeTokens (.varBinary c o)) := by
  have hv : ∀ n, Pre R (t "varbinary(" ++ natStr n ++ t ")") (kws ["varbinary"] ++ sizeTokens (some n)) := fun n => sized_pre R (t "varbinary") n
  have hraw : ∀ n, Pre R (t "raw(" ++ natStr n ++ t ")") (kws ["raw"] ++ sizeTokens (some n)) := fun n => sized_pre R (t "raw") n
  cases o with
  | none =>
    cases c <;> cases h <;> exact kw _ _
  | some n =>
    cases c
    case mysql =>
      simp only [SqlType.str] at h
      simp only [typeTokens]
      by_cases h1 : n < 65536
      · rw [if_pos h1] at h ⊢; cases h; exact hv n
      · rw [if_neg h1] at h ⊢
        by_cases h2 : n < 16777216
        · rw [if_pos h2] at h ⊢; cases h; exact kw _ _
        · rw [if_neg h2] at h ⊢
          by_cases h3 : n < 4294967296
          · rw [if_pos h3] at h; cases h; exact kw _ _
          · rw [if_neg h3] at h; cases h
    case oracle =>
      simp only [SqlType.str] at h
      simp only [typeTokens]
      by_cases h1 : n ≤ 2000
      · rw [if_pos h1] at h ⊢; cases h; exact hraw n
      · rw [if_neg h1] at h ⊢; cases h; exact kw _ _
    case redshift => cases h; exact opt_pre R (t "varbyte") (some n)
    case delta => cases h; exact kw (t "binary") (kws ["binary"])
    all_goals (cases h; exact hv n)

theorem varChar_pre (R : Reader) (c : Cls) (o : Option Nat) {s : Text} (h : (SqlType.varChar c o).str = .ok s) :
    Pre R s (typeTokens (.varChar c o)) := by
  have hv : ∀ n, Pre R (t "varchar(" ++ natStr n ++ t ")") (kws ["varchar"] ++ sizeTokens (some n)) := fun n => sized_pre R (t "varchar") n
  have hv2 : ∀ n, Pre R (t "varchar2(" ++ natStr n ++ t ")") (kws ["varchar2"] ++ sizeTokens (some n)) := fun n => sized_pre R (t "varchar2") n
  cases o with
  | none =>
    cases c <;> cases h <;> exact kw _ _
  | some n =>
    cases c
    case mysql =>
      simp only [SqlType.str] at h
      simp only [typeTokens]
      by_cases h1 : n < 65536
      · rw [if_pos h1] at h ⊢; cases h; exact hv n
      · rw [if_neg h1] at h ⊢
        by_cases h2 : n < 16777216
        · rw [if_pos h2] at h ⊢; cases h; exact kw _ _
        · rw [if_neg h2] at h ⊢
          by_cases h3 : n < 4294967296
          · rw [if_pos h3] at h; cases h; exact kw _ _
          · rw [if_neg h3] at h; cases h
    case mssql =>
      simp only [SqlType.str] at h
      simp only [typeTokens]
      by_cases h1 : 0 < n ∧ n ≠ 2147483647
      · rw [if_pos h1] at h ⊢; cases h; exact hv n
      · rw [if_neg h1] at h ⊢; cases h; exact kw _ _
    case oracle =>
      simp only [SqlType.str] at h
      simp only [typeTokens]
      by_cases h1 : n ≤ 4000
      · rw [if_pos h1] at h ⊢; cases h; exact hv2 n
      · rw [if_neg h1] at h ⊢; cases h; exact kw _ _
    case delta => cases h; exact kw (t "string") (kws ["string"])
    all_goals (cases h; exact hv n)

theorem timestamp_pre (R : Reader) (c : Cls) (p : Option Nat) (z : Bool) {s : Text} (h : (SqlType.timestamp c p z).str = .ok s) :
    Pre R s (typeTokens (.timestamp c p z)) := by
  cases c
  case mysql => cases h; exact opt_pre R (t "datetime") p
  case mssql => cases h; exact kw (t "datetime2") (kws ["datetime2"])
  case snowflake => cases h; exact kw (t "datetime") (kws ["datetime"])
  case delta => cases h; exact kw (t "timestamp_ntz") (kws ["timestamp_ntz"])
  case oracle =>
    cases h
    refine zone_pre ?_ z
    by_cases hp : p = some 6
    · rw [if_pos hp, if_pos hp]
      exact (kw (t "timestamp") (kws ["timestamp"])).of_eq (by simp) (by simp)
    · rw [if_neg hp, if_neg hp]
      exact opt_pre R (t "timestamp") p
  all_goals (cases h; exact zone_pre (opt_pre R (t "timestamp") p) z)

theorem integer_pre (R : Reader) (c : Cls) (w : Nat) (sg : Bool) (lo hi : Option Int) {s : Text} (h : (SqlType.integer c w sg lo hi).str = .ok s) :
    Pre R s (typeTokens (.integer c w sg lo hi)) := by
  by_cases hc : c = .oracle
  · subst hc; cases h; exact kw (t "number") (kws ["number"])
  · have h' : (if w = 1 then .ok (t "tinyint") else if w = 2 then .ok (t "smallint") else if w = 4 then .ok (t "integer")
        else if w = 8 then .ok (t "bigint") else .error .type : Except Err Text) = .ok s := by
      rw [← h]; cases c <;> first | rfl | exact absurd rfl hc
    simp only [typeTokens, if_neg hc]
    by_cases h1 : w = 1
    · rw [if_pos h1] at h' ⊢; cases h'; exact kw _ _
    · rw [if_neg h1] at h' ⊢
      by_cases h2 : w = 2
      · rw [if_pos h2] at h' ⊢; cases h'; exact kw _ _
      · rw [if_neg h2] at h' ⊢
        by_cases h3 : w = 4
        · rw [if_pos h3] at h' ⊢; cases h'; exact kw _ _
        · rw [if_neg h3] at h' ⊢
          by_cases h4 : w = 8
          · rw [if_pos h4] at h'; cases h'; exact kw _ _
          · rw [if_neg h4] at h'; cases h'

mutual
theorem type_pre : ∀ (ty : SqlType) {s : Text}, ty.str = .ok s → Clear d raw (typeParts ty) → Pre (literalOf d) s (typeTokens ty)
  | .array e, s, h, hc => by
    simp only [SqlType.str] at h
    cases he : e.str with
    | error x => rw [he] at h; cases h
    | ok se =>
      rw [he] at h; cases h
      exact (type_pre e he hc).k (t " ARRAY") (kws ["ARRAY"])
  | .uuid, s, h, _ => by cases h; exact kw _ _
  | .boolean c, s, h, _ => by cases c <;> cases h <;> exact kw _ _
  | .integer c w sg lo hi, s, h, _ => integer_pre _ c w sg lo hi h
  | .float p, s, h, _ => by
    cases h
    exact sized_pre _ (t "float") (p.getD 53)
  | .real c, s, h, _ => by cases c <;> cases h <;> exact kw _ _
  | .double c, s, h, _ => by cases c <;> cases h <;> exact kw _ _
  | .decimal (some p) (some q), s, h, _ => by
    cases h
    exact ((((kwH (t "decimal(") [.word (t "decimal"), .sym '(']).app (natStr_pre _ p)).kH (t ", ") [comma]).app (natStr_pre _ q)).k (t ")") [.sym ')']
      |>.of_eq rfl (by simp [typeTokens, parens, kws])
  | .decimal (some p) none, s, h, _ => by
    cases h
    exact sized_pre _ (t "decimal") p
  | .decimal none _, s, h, _ => by cases h; exact kw (t "decimal") (kws ["decimal"])
  | .fixedBinary c o, s, h, _ => by
    cases c
    case delta => cases h; exact kw (t "binary") (kws ["binary"])
    all_goals (cases h; exact opt_pre _ (t "binary") o)
  | .varBinary c o, s, h, _ => varBinary_pre _ c o h
  | .fixedChar l, s, h, _ => by cases h; exact opt_pre _ (t "char") l
  | .varChar c o, s, h, _ => varChar_pre _ c o h
  | .timestamp c p z, s, h, _ => timestamp_pre _ c p z h
  | .date, s, h, _ => by cases h; exact kw _ _
  | .time c p z, s, h, _ => by
    cases c
    case oracle => cases h; exact kw (t "interval day to second") (kws ["interval", "day", "to", "second"])
    all_goals (cases h; exact zone_pre (opt_pre _ (t "time") p) z)
  | .interval, s, h, _ => by cases h; exact kw _ _
  | .json c, s, h, _ => by cases c <;> cases h <;> exact kw _ _
  | .enum vs, s, h, hc => by
    cases h
    exact ((kwH (t "ENUM (") (kws ["ENUM"] ++ [.sym '('])).app (labels_pre (vs := vs) hc.labels)).k (t ")") [.sym ')']
      |>.of_eq rfl (by simp [typeTokens, parens])
  | .struct fs, s, h, hc => by
    simp only [SqlType.str] at h
    cases he : fs.strs with
    | error x => rw [he] at h; cases h
    | ok ss =>
      rw [he] at h; cases h
      exact ((kwH (t "STRUCT <") (kws ["STRUCT"] ++ [.sym '<'])).app (commaBlank (fields_pre fs he hc))).k (t ">") [.sym '>']
        |>.of_eq rfl (by simp [typeTokens])
  | .user q, s, h, hc => by cases h; exact name_pre _ hc
theorem fields_pre : ∀ (fs : StructFields) {ss : List Text}, fs.strs = .ok ss → Clear d raw (fieldParts fs) → PreAll (literalOf d) ss (fieldTokens fs)
  | .nil, ss, h, _ => by cases h; trivial
  | .cons n ty nullable rest, ss, h, hc => by
    have hc : Clear d raw (typeParts ty) ∧ Clear d raw (fieldParts rest) := Clear.split (p := typeParts ty) (q := fieldParts rest) hc
    simp only [StructFields.strs] at h
    cases he : ty.str with
    | error x => rw [he] at h; cases h
    | ok s =>
      cases hr : rest.strs with
      | error x => rw [he, hr] at h; cases h
      | ok ss' =>
        rw [he, hr] at h; cases h
        refine ⟨?_, fields_pre rest hr hc.2⟩
        have h1 : Pre (literalOf d) ((LocalId.mk n).quoted ++ t " " ++ s) ([.ident n] ++ typeTokens ty) :=
          (((ident_pre n).kH (t " ") []).app (type_pre ty he hc.1)).of_eq rfl (by simp)
        cases nullable
        · exact h1.k (t " NOT NULL") (kws ["NOT", "NULL"])
        · exact h1.of_eq (by simp) (by simp)
end

end

end PySqlSync.Tok
