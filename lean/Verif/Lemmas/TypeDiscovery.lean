/-
Lemmas on how types are recognized (Model/TypeDiscovery.lean).
-/
import Verif.Spec.ServerTypes
import Verif.Lemmas.Url

set_option autoImplicit false

namespace PySqlSync
open Spec
namespace Disc

theorem takeNumber_natStr (n : Nat) (rest : Text) (h : rest.head?.all (fun c => !c.isDigit) = true) :
    takeNumber (natStr n ++ rest) = some (n, rest) := by
  have hall : ∀ c ∈ natStr n, Char.isDigit c = true := fun c hc => natStr_chars hc
  have hr : rest.takeWhile Char.isDigit = [] ∧ rest.dropWhile Char.isDigit = rest := by
    cases rest with
    | nil => exact ⟨rfl, rfl⟩
    | cons c r =>
      simp at h
      exact ⟨by simp [List.takeWhile_cons, h], by simp [List.dropWhile_cons, h]⟩
  have h1 : (natStr n ++ rest).takeWhile Char.isDigit = natStr n := by
    rw [List.takeWhile_append_of_pos hall, hr.1, List.append_nil]
  have h2 : (natStr n ++ rest).dropWhile Char.isDigit = rest := by
    rw [List.dropWhile_append_of_pos hall, hr.2]
  unfold takeNumber
  rw [h1, h2, digitsValue_natStr]
  simp [natStr_ne_nil]

theorem space_not_digit {c : Char} (h : c.isDigit = true) : isSpaceChar c = false := by
  cases hs : isSpaceChar c with
  | false => rfl
  | true =>
    simp only [isSpaceChar, Bool.or_eq_true, beq_iff_eq] at hs
    rcases hs with ((((rfl | rfl) | rfl) | rfl) | rfl) | rfl <;> exact absurd h (by decide)

theorem dropSpace_natStr (n : Nat) (rest : Text) : (natStr n ++ rest).dropWhile isSpaceChar = natStr n ++ rest := by
  cases h : natStr n with
  | nil => exact absurd h (natStr_ne_nil n)
  | cons c r =>
    have hc : c.isDigit = true := natStr_chars (n := n) (by rw [h]; exact List.mem_cons_self ..)
    simp [List.dropWhile_cons, space_not_digit hc]

theorem decimal_args (w : Text) (p s : Nat)
    (hw : ∀ X : Text, [t "decimal", t "number", t "numeric"].findSome? (fun v => dropPrefixCI (v ++ t "(") (w ++ t "(" ++ X)) = some X) :
    decimalArguments (w ++ t "(" ++ natStr p ++ t "," ++ natStr s ++ t ")") = some (p, s) := by
  unfold decimalArguments
  have e : w ++ t "(" ++ natStr p ++ t "," ++ natStr s ++ t ")" = w ++ t "(" ++ (natStr p ++ (t "," ++ (natStr s ++ t ")"))) := by
    simp only [List.append_assoc]
  rw [e, hw]
  simp only [Option.bind_eq_bind, Option.bind_some]
  rw [takeNumber_natStr _ _ rfl]
  have h2 : dropPrefixCI (t ",") (t "," ++ (natStr s ++ t ")")) = some (natStr s ++ t ")") := rfl
  simp only [Option.bind_some, h2, dropSpace_natStr]
  rw [takeNumber_natStr _ _ rfl]
  simp

theorem one_arg (words : List Text) (w : Text) (n : Nat)
    (hw : ∀ X : Text, words.findSome? (fun v => dropPrefixCI (v ++ t "(") (w ++ t "(" ++ X)) = some X) :
    oneArgument words (w ++ inParens n) = some n := by
  unfold oneArgument
  have e : w ++ inParens n = w ++ t "(" ++ (natStr n ++ t ")") := by simp only [inParens, List.append_assoc]
  rw [e, hw]
  simp only [Option.bind_eq_bind, Option.bind_some]
  rw [takeNumber_natStr _ _ rfl]
  simp

theorem ts_args (p : Nat) (z : Bool) : timestampArguments (t "timestamp" ++ inParens p ++ Pg.zone z) = some (p, z) := by
  unfold timestampArguments
  have e : t "timestamp" ++ inParens p ++ Pg.zone z = t "timestamp(" ++ (natStr p ++ (t ")" ++ Pg.zone z)) := by
    have : t "timestamp(" = t "timestamp" ++ t "(" := rfl
    simp only [inParens, this, List.append_assoc]
  have h1 : dropPrefixCI (t "timestamp(") (t "timestamp(" ++ (natStr p ++ (t ")" ++ Pg.zone z))) = some (natStr p ++ (t ")" ++ Pg.zone z)) := rfl
  rw [e, h1]
  simp only [Option.bind_eq_bind, Option.bind_some]
  rw [takeNumber_natStr _ _ rfl]
  have h2 : dropPrefixCI (t ")") (t ")" ++ Pg.zone z) = some (Pg.zone z) := rfl
  simp only [Option.bind_some, h2]
  cases z <;> rfl

/-! ### `sql_data_type_from_def` -/

theorem def_numeric (p s : Nat) : typeFromDef (t "numeric(" ++ natStr p ++ t "," ++ natStr s ++ t ")") = some (.decimal (some p) (some s)) := by
  have h := decimal_args (t "numeric") p s (fun X => rfl)
  unfold typeFromDef
  rw [show t "numeric(" = t "numeric" ++ t "(" from rfl, h]

theorem def_decimal (p s : Nat) : typeFromDef (t "decimal(" ++ natStr p ++ t "," ++ natStr s ++ t ")") = some (.decimal (some p) (some s)) := by
  have h := decimal_args (t "decimal") p s (fun X => rfl)
  unfold typeFromDef
  rw [show t "decimal(" = t "decimal" ++ t "(" from rfl, h]

theorem def_timestamp (p : Nat) (z : Bool) : typeFromDef (t "timestamp" ++ inParens p ++ Pg.zone z) = some (.timestamp .base (some p) z) := by
  have h := ts_args p z
  have h0 : decimalArguments (t "timestamp" ++ inParens p ++ Pg.zone z) = none := rfl
  unfold typeFromDef
  simp only [h0, h]

theorem def_character (n : Nat) : typeFromDef (t "character" ++ inParens n) = some (.fixedChar (some n)) := by
  have h := one_arg [t "character", t "char"] (t "character") n (fun X => rfl)
  have h0 : decimalArguments (t "character" ++ inParens n) = none := rfl
  have h1 : timestampArguments (t "character" ++ inParens n) = none := rfl
  unfold typeFromDef
  simp only [h0, h1, h]

theorem def_char (n : Nat) : typeFromDef (t "char" ++ inParens n) = some (.fixedChar (some n)) := by
  have h := one_arg [t "character", t "char"] (t "char") n (fun X => rfl)
  have h0 : decimalArguments (t "char" ++ inParens n) = none := rfl
  have h1 : timestampArguments (t "char" ++ inParens n) = none := rfl
  unfold typeFromDef
  simp only [h0, h1, h]

theorem def_varying (n : Nat) : typeFromDef (t "character varying" ++ inParens n) = some (.varChar .base (some n)) := by
  have h := one_arg [t "varchar", t "character varying"] (t "character varying") n (fun X => rfl)
  have h0 : decimalArguments (t "character varying" ++ inParens n) = none := rfl
  have h1 : timestampArguments (t "character varying" ++ inParens n) = none := rfl
  have h2 : oneArgument [t "character", t "char"] (t "character varying" ++ inParens n) = none := rfl
  unfold typeFromDef
  simp only [h0, h1, h2, h]

theorem def_binary (n : Nat) : typeFromDef (t "binary" ++ inParens n) = some (.fixedBinary .base (some n)) := by
  have h := one_arg [t "binary"] (t "binary") n (fun X => rfl)
  have h0 : decimalArguments (t "binary" ++ inParens n) = none := rfl
  have h1 : timestampArguments (t "binary" ++ inParens n) = none := rfl
  have h2 : oneArgument [t "character", t "char"] (t "binary" ++ inParens n) = none := rfl
  have h3 : oneArgument [t "varchar", t "character varying"] (t "binary" ++ inParens n) = none := rfl
  unfold typeFromDef
  simp only [h0, h1, h2, h3, h]

/-- A definition that begins as none of the patterns do. -/
theorem def_other (s : Text) (h : ∀ w ∈ [t "decimal", t "number", t "numeric", t "timestamp", t "character", t "char", t "varchar",
      t "character varying", t "binary", t "varbinary", t "binary varying", t "enum"], dropPrefixCI (w ++ t "(") s = none) : typeFromDef s = none := by
  simp only [List.mem_cons, List.not_mem_nil, or_false, forall_eq_or_imp, forall_eq] at h
  obtain ⟨a1, a2, a3, a4, a5, a6, a7, a8, a9, a10, a11, a12⟩ := h
  have a4' : dropPrefixCI (t "timestamp(") s = none := a4
  have a12' : dropPrefixCI (t "enum(") s = none := a12
  unfold typeFromDef decimalArguments timestampArguments oneArgument enumArguments
  simp [a1, a2, a3, a4', a5, a6, a7, a8, a9, a10, a11, a12', List.findSome?_cons]

theorem drop_none_of_quote (w : Text) (s : Text) (hw : w.head?.all (fun c => !(c == '"')) = true) (hne : w ≠ []) :
    dropPrefixCI (w ++ t "(") (t "\"" ++ s) = none := by
  cases w with
  | nil => exact absurd rfl hne
  | cons c r =>
    simp at hw
    show (if c = Char.toLower '"' then _ else none) = none
    rw [if_neg]
    intro hc
    exact hw (by rw [hc]; decide)

theorem toLower_eq {c d : Char} (h : d = c.toLower) (hd : d.val.toNat < 97) : c = d := by
  unfold Char.toLower at h
  split at h
  · rename_i hu
    exfalso
    have h1 : d.val = c.val + ('a'.val - 'A'.val) := by rw [h]
    have h5 : 65 ≤ c.val.toNat := hu.1
    have h6 : c.val.toNat ≤ 90 := hu.2
    have h3 : (c.val + ('a'.val - 'A'.val)).toNat = c.val.toNat + 32 := by
      rw [UInt32.toNat_add]
      have : ('a'.val - 'A'.val).toNat = 32 := by decide
      rw [this]
      omega
    have h4 := congrArg UInt32.toNat h1
    rw [h3] at h4
    omega
  · exact h.symm

theorem drop_none_of_dot : ∀ (w a b : Text), '.' ∉ w → '(' ∉ a → dropPrefixCI (w ++ t "(") (a ++ t "." ++ b) = none
  | [], [], b, _, _ => rfl
  | [], c :: a, b, _, ha => by
    show (if '(' = c.toLower then _ else none) = none
    rw [if_neg]
    intro hc
    have : c = '(' := toLower_eq hc (by decide)
    exact ha (by rw [this]; exact List.mem_cons_self ..)
  | k :: w, [], b, hw, _ => by
    show (if k = Char.toLower '.' then _ else none) = none
    rw [if_neg]
    intro hc
    exact hw (by rw [hc]; exact List.mem_cons_self ..)
  | k :: w, c :: a, b, hw, ha => by
    show (if k = c.toLower then dropPrefixCI (w ++ t "(") (a ++ t "." ++ b) else none) = none
    split
    · exact drop_none_of_dot w a b (fun h => hw (List.mem_cons_of_mem _ h)) (fun h => ha (List.mem_cons_of_mem _ h))
    · rfl

theorem def_user (ns b : Text) : typeFromDef (Pg.identifier ns ++ t "." ++ b) = none := by
  apply def_other
  intro w hw
  unfold Pg.identifier
  split
  · rename_i h
    apply drop_none_of_dot
    · revert w; decide +kernel
    · intro hm
      have := List.all_eq_true.mp h.2.1 _ hm
      revert this; decide
  · rw [List.append_assoc, List.append_assoc]
    apply drop_none_of_quote
    · revert w; decide +kernel
    · revert w; decide +kernel

/-! ### A definition that ends in a bracket -/

theorem drop_suffix : ∀ (w s r : Text), dropPrefixCI w s = some r → r <:+ s
  | [], s, r, h => by cases h; exact List.suffix_refl _
  | _ :: _, [], r, h => by cases h
  | k :: w, c :: s, r, h => by
    simp only [dropPrefixCI] at h
    split at h
    · exact (drop_suffix w s r h).trans (List.suffix_cons c s)
    · cases h

theorem take_suffix {s r : Text} {n : Nat} (h : takeNumber s = some (n, r)) : r <:+ s := by
  unfold takeNumber at h
  split at h
  · split at h
    · cases h
    · cases h; exact List.dropWhile_suffix _
  · cases h

theorem find_suffix {words : List Text} {s r : Text} (h : words.findSome? (fun v => dropPrefixCI (v ++ t "(") s) = some r) : r <:+ s := by
  obtain ⟨w, -, hw⟩ := List.exists_of_findSome?_eq_some h
  exact drop_suffix _ _ _ hw

theorem last_of_suffix {s r : Text} (h : r <:+ s) (hr : r ≠ []) : s.getLast? = r.getLast? := by
  obtain ⟨u, rfl⟩ := h
  rw [List.getLast?_append]
  cases hh : r.getLast? with
  | none => exact absurd (List.getLast?_eq_none_iff.mp hh) hr
  | some c => rfl

theorem oneArgument_last {words : List Text} {s : Text} {n : Nat} (h : oneArgument words s = some n) : s.getLast? = some ')' := by
  unfold oneArgument at h
  simp only [Option.bind_eq_bind, Option.bind_eq_some_iff] at h
  obtain ⟨r, hr, ⟨k, r'⟩, hk, h⟩ := h
  split at h
  · rename_i he
    have := (take_suffix hk).trans (find_suffix hr)
    have he : r' = t ")" := he
    rw [last_of_suffix this (by rw [he]; decide), he]; rfl
  · cases h

theorem decimalArguments_last {s : Text} {x : Nat × Nat} (h : decimalArguments s = some x) : s.getLast? = some ')' := by
  unfold decimalArguments at h
  simp only [Option.bind_eq_bind, Option.bind_eq_some_iff] at h
  obtain ⟨r, hr, ⟨k, r'⟩, hk, r2, h2, ⟨m, r3⟩, hm, h⟩ := h
  split at h
  · rename_i he
    have he : r3 = t ")" := he
    have := (take_suffix hm).trans ((List.dropWhile_suffix _).trans ((drop_suffix _ _ _ h2).trans ((take_suffix hk).trans (find_suffix hr))))
    rw [last_of_suffix this (by rw [he]; decide), he]; rfl
  · cases h

theorem enumArguments_last {s r : Text} (h : enumArguments s = some r) : s.getLast? = some ')' := by
  unfold enumArguments at h
  simp only [Option.bind_eq_bind, Option.bind_eq_some_iff] at h
  obtain ⟨r, hr, h⟩ := h
  split at h
  · rename_i he
    rw [last_of_suffix (drop_suffix _ _ _ hr) (by intro h0; rw [h0] at he; exact absurd he.1 (by decide)), he.1]
  · cases h

theorem timestampArguments_last {s : Text} {x : Nat × Bool} (h : timestampArguments s = some x) : s.getLast? ≠ some ']' := by
  unfold timestampArguments at h
  simp only [Option.bind_eq_bind, Option.bind_eq_some_iff] at h
  obtain ⟨r, hr, ⟨k, r'⟩, hk, r2, h2, h⟩ := h
  have hd : ∀ (u v : Text), dropPrefixCI (t ")") u = some v → u = (t ")") ++ v := by
    intro u v huv
    match u with
    | [] => cases huv
    | c :: u =>
      have : (if ')' = c.toLower then dropPrefixCI [] u else none) = some v := huv
      split at this
      · rename_i hc
        cases this
        have : c = ')' := toLower_eq hc (by decide)
        rw [this]; rfl
      · cases this
  have hs : (t ")" ++ r2) <:+ s := by
    have := (take_suffix hk).trans (drop_suffix _ _ _ hr)
    have h2' : r' = t ")" ++ r2 := hd _ _ h2
    rw [h2'] at this
    exact this
  rw [last_of_suffix hs (by simp [t])]
  split at h
  · rename_i he
    have hall : ∀ c ∈ r2, isSpaceChar c = true := by
      have : ∀ (l : Text), l.dropWhile isSpaceChar = [] → ∀ c ∈ l, isSpaceChar c = true := by
        intro l
        induction l with
        | nil => intro _ c hc; cases hc
        | cons a l ih =>
          intro hl c hc
          rw [List.dropWhile_cons] at hl
          split at hl
          · rename_i ha
            cases hc with
            | head => exact ha
            | tail _ hc => exact ih hl c hc
          · cases hl
      exact this r2 he
    rw [List.getLast?_append]
    cases hh : r2.getLast? with
    | none => decide
    | some c =>
      intro hc
      cases (show some c = some ']' from hc)
      exact absurd (hall _ (List.mem_of_getLast? hh)) (by decide)
  · split at h
    · rename_i he
      have hlast : (r2.dropWhile isSpaceChar).getLast? ≠ some ']' := by
        intro hc
        have hm : (lowerText (r2.dropWhile isSpaceChar)).getLast? = some ']' := by
          unfold lowerText
          rw [List.getLast?_map, hc]; rfl
        rcases he with he | he <;> · rw [he] at hm; revert hm; decide +kernel
      have hne : r2.dropWhile isSpaceChar ≠ [] := by assumption
      have : r2.dropWhile isSpaceChar <:+ t ")" ++ r2 := (List.dropWhile_suffix _).trans (List.suffix_append _ _)
      rw [last_of_suffix this hne]
      exact hlast
    · cases h

theorem def_brackets (s : Text) (h : s.getLast? = some ']') : typeFromDef s = none := by
  have hh : s.getLast? ≠ some ')' := by rw [h]; decide
  unfold typeFromDef
  cases h1 : decimalArguments s with
  | some x => exact absurd (decimalArguments_last h1) hh
  | none =>
    cases h2 : timestampArguments s with
    | some x => exact absurd h (timestampArguments_last h2)
    | none =>
      cases h3 : oneArgument [t "character", t "char"] s with
      | some x => exact absurd (oneArgument_last h3) hh
      | none =>
        cases h4 : oneArgument [t "varchar", t "character varying"] s with
        | some x => exact absurd (oneArgument_last h4) hh
        | none =>
          cases h5 : oneArgument [t "binary"] s with
          | some x => exact absurd (oneArgument_last h5) hh
          | none =>
            cases h6 : oneArgument [t "varbinary", t "binary varying"] s with
            | some x => exact absurd (oneArgument_last h6) hh
            | none =>
              cases h7 : enumArguments s with
              | some x => exact absurd (enumArguments_last h7) hh
              | none => rfl

/-! ### Enumerations -/

/-- Quotes are doubled. -/
abbrev dbl (v : Text) : Text := replaceChar '\'' (t "''") v

theorem enumValue_last : ∀ (v : Text), enumValue (dbl v ++ ['\'']) = some (dbl v, [])
  | [] => rfl
  | c :: v => by
    have ih := enumValue_last v
    by_cases hc : c = '\''
    · subst hc
      have e : dbl ('\'' :: v) ++ ['\''] = '\'' :: '\'' :: (dbl v ++ ['\'']) := rfl
      rw [e, enumValue, if_pos rfl, if_pos rfl, ih]; rfl
    · have e : dbl (c :: v) = c :: dbl v := by simp [dbl, hc]
      rw [e]
      cases h : dbl v ++ ['\''] with
      | nil => simp at h
      | cons d r =>
        rw [List.cons_append, h, enumValue, if_neg hc, ← h, ih]; rfl

theorem enumValue_comma (X : Text) : ∀ (v : Text), enumValue (dbl v ++ '\'' :: ',' :: X) = some (dbl v, X)
  | [] => rfl
  | c :: v => by
    have ih := enumValue_comma X v
    by_cases hc : c = '\''
    · subst hc
      have e : dbl ('\'' :: v) ++ '\'' :: ',' :: X = '\'' :: '\'' :: (dbl v ++ '\'' :: ',' :: X) := rfl
      rw [e, enumValue, if_pos rfl, if_pos rfl, ih]; rfl
    · have e : dbl (c :: v) = c :: dbl v := by simp [dbl, hc]
      rw [e]
      cases h : dbl v ++ '\'' :: ',' :: X with
      | nil => simp at h
      | cons d r =>
        rw [List.cons_append, h, enumValue, if_neg hc, ← h, ih]; rfl

theorem enumValues_join : ∀ (vs : List Text) (n : Nat), (joinWith (t ",") (vs.map quote)).length ≤ n →
    enumValues n (joinWith (t ",") (vs.map quote)) = vs.map dbl
  | [], n, _ => by cases n <;> rfl
  | [v], n, h => by
    have e : joinWith (t ",") ([v].map quote) = '\'' :: (dbl v ++ ['\'']) := rfl
    rw [e] at h ⊢
    cases n with
    | zero => simp at h
    | succ n =>
      rw [enumValues, if_pos rfl, enumValue_last]
      cases n <;> rfl
  | v :: w :: vs, n, h => by
    have e : joinWith (t ",") ((v :: w :: vs).map quote) = '\'' :: (dbl v ++ '\'' :: ',' :: joinWith (t ",") ((w :: vs).map quote)) := by
      show (t "'" ++ dbl v ++ t "'") ++ t "," ++ joinWith (t ",") ((w :: vs).map quote) = _
      simp only [List.append_assoc]; rfl
    rw [e] at h ⊢
    cases n with
    | zero => simp at h
    | succ n =>
      rw [enumValues, if_pos rfl, enumValue_comma]
      simp only
      rw [enumValues_join (w :: vs) n (by simp at h ⊢; omega)]
      rfl

theorem dbl_eq_iff (v : Text) : dbl v = v ↔ '\'' ∉ v := by
  constructor
  · intro h hm
    have : ∀ u : Text, u.length ≤ (dbl u).length ∧ ('\'' ∈ u → u.length < (dbl u).length) := by
      intro u
      induction u with
      | nil => exact ⟨Nat.le_refl _, fun h => by cases h⟩
      | cons c u ih =>
        by_cases hc : c = '\''
        · subst hc
          have e : dbl ('\'' :: u) = '\'' :: '\'' :: dbl u := rfl
          rw [e]; simp only [List.length_cons]
          exact ⟨by omega, fun _ => by omega⟩
        · have e : dbl (c :: u) = c :: dbl u := by simp [dbl, hc]
          rw [e]; simp only [List.length_cons]
          refine ⟨by omega, fun h => ?_⟩
          cases h with
          | head => exact absurd rfl hc
          | tail _ h => have := ih.2 h; omega
    have := (this v).2 hm
    rw [h] at this
    omega
  · intro h
    induction v with
    | nil => rfl
    | cons c v ih =>
      have hc : c ≠ '\'' := fun hc => h (by rw [hc]; exact List.mem_cons_self ..)
      have e : dbl (c :: v) = c :: dbl v := by simp [dbl, hc]
      rw [e, ih (fun hm => h (List.mem_cons_of_mem _ hm))]

theorem mem_dbl (c : Char) (hc : c ≠ '\'') (v : Text) : c ∈ dbl v ↔ c ∈ v := by
  induction v with
  | nil => exact Iff.rfl
  | cons d v ih =>
    by_cases hd : d = '\''
    · subst hd
      have e : dbl ('\'' :: v) = '\'' :: '\'' :: dbl v := rfl
      rw [e]; simp only [List.mem_cons, ih, hc, false_or]
    · have e : dbl (d :: v) = d :: dbl v := by simp [dbl, hd]
      rw [e]; simp only [List.mem_cons, ih]

theorem mem_join_quote (vs : List Text) : '\n' ∈ joinWith (t ",") (vs.map quote) ↔ ∃ v ∈ vs, '\n' ∈ v := by
  have hq : ∀ v, '\n' ∈ quote v ↔ '\n' ∈ v := by
    intro v
    show '\n' ∈ t "'" ++ dbl v ++ t "'" ↔ _
    rw [List.mem_append, List.mem_append, mem_dbl _ (by decide)]
    have h : '\n' ∉ t "'" := by decide
    simp [h]
  induction vs with
  | nil => simp
  | cons v vs ih =>
    cases vs with
    | nil => simp [hq]
    | cons w vs =>
      rw [show joinWith (t ",") ((v :: w :: vs).map quote) = quote v ++ t "," ++ joinWith (t ",") ((w :: vs).map quote) from rfl,
        List.mem_append, List.mem_append]
      refine (or_congr (or_congr (hq v) Iff.rfl) ih).trans ?_
      have h : '\n' ∉ t "," := by decide
      simp [h]

theorem enum_args (vs : List Text) (h : vs ≠ []) : enumArguments (t "enum(" ++ joinWith (t ",") (vs.map quote) ++ t ")") =
    if ∃ v ∈ vs, '\n' ∈ v then none else some (joinWith (t ",") (vs.map quote)) := by
  have hne : joinWith (t ",") (vs.map quote) ≠ [] := by
    match vs, h with
    | [v], _ => intro h; cases h
    | v :: w :: vs, _ => intro h; cases h
  have e : t "enum(" ++ joinWith (t ",") (vs.map quote) ++ t ")" = t "enum(" ++ (joinWith (t ",") (vs.map quote) ++ t ")") := by
    rw [List.append_assoc]
  have h1 : ∀ X : Text, dropPrefixCI (t "enum(") (t "enum(" ++ X) = some X := fun X => rfl
  unfold enumArguments
  rw [e, h1]
  have h2 : (joinWith (t ",") (vs.map quote) ++ t ")").dropLast = joinWith (t ",") (vs.map quote) := List.dropLast_concat
  have h3 : (joinWith (t ",") (vs.map quote) ++ t ")").getLast? = some ')' := by rw [List.getLast?_append]; rfl
  simp only [Option.bind_eq_bind, Option.bind_some, h2, h3, true_and, mem_join_quote]
  by_cases hx : ∃ v ∈ vs, '\n' ∈ v
  · rw [if_pos hx, if_neg (fun h => h.2 hx)]
  · rw [if_neg hx, if_pos ⟨hne, hx⟩]

theorem def_enum (vs : List Text) (h : vs ≠ []) : typeFromDef (t "enum(" ++ joinWith (t ",") (vs.map quote) ++ t ")") =
    if ∃ v ∈ vs, '\n' ∈ v then none else some (.enum (vs.map dbl)) := by
  have h0 : decimalArguments (t "enum(" ++ joinWith (t ",") (vs.map quote) ++ t ")") = none := rfl
  have h1 : timestampArguments (t "enum(" ++ joinWith (t ",") (vs.map quote) ++ t ")") = none := rfl
  have h2 : oneArgument [t "character", t "char"] (t "enum(" ++ joinWith (t ",") (vs.map quote) ++ t ")") = none := rfl
  have h3 : oneArgument [t "varchar", t "character varying"] (t "enum(" ++ joinWith (t ",") (vs.map quote) ++ t ")") = none := rfl
  have h4 : oneArgument [t "binary"] (t "enum(" ++ joinWith (t ",") (vs.map quote) ++ t ")") = none := rfl
  have h5 : oneArgument [t "varbinary", t "binary varying"] (t "enum(" ++ joinWith (t ",") (vs.map quote) ++ t ")") = none := rfl
  unfold typeFromDef
  simp only [h0, h1, h2, h3, h4, h5, enum_args vs h]
  by_cases hx : ∃ v ∈ vs, '\n' ∈ v
  · rw [if_pos hx, if_pos hx]
  · rw [if_neg hx, if_neg hx]
    simp only [enumValues_join vs _ (Nat.le_refl _)]

end Disc
end PySqlSync
