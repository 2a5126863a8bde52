/-
  Lines of generated code are read as they are meant.
-/
import Verif.Spec.PyCode
import Verif.Lemmas.Json

set_option autoImplicit false

namespace PySqlSync
open Spec
namespace Py

/-! ### Strings -/

theorem hex_digit : ∀ n, n < 16 → hexDigit? (jsonHex n) = some n := by decide +kernel

theorem hexNumber_snoc {s : Text} {a v : Nat} {c : Char} (h : hexNumber s = some a) (hc : hexDigit? c = some v) : hexNumber (s ++ [c]) = some (a * 16 + v) := by
  unfold hexNumber at h ⊢
  rw [List.foldl_append, h]
  simp [hc]

theorem hex_number : ∀ (w n : Nat), n < 16 ^ w → hexNumber (hexDigits w n) = some n := by
  intro w
  induction w with
  | zero => intro n h; have : n = 0 := by simpa using h
            subst this; rfl
  | succ w ih =>
    intro n h
    unfold hexDigits
    rw [hexNumber_snoc (ih (n / 16) (by rw [Nat.pow_succ] at h; omega)) (hex_digit (n % 16) (by omega))]
    congr 1
    omega

theorem hex_length : ∀ (w n : Nat), (hexDigits w n).length = w := by
  intro w
  induction w with
  | zero => intro n; rfl
  | succ w ih => intro n; simp [hexDigits, ih]

theorem char_range (c : Char) : c.toNat < 55296 ∨ (57343 < c.toNat ∧ c.toNat < 1114112) := c.valid

theorem hex_char (c : Char) {w : Nat} (h : c.toNat < 16 ^ w) : hexChar (hexDigits w c.toNat) = some c := by
  unfold hexChar
  rw [hex_number w _ h]
  dsimp only
  rw [if_pos (char_range c), Char.ofNat_toNat]

theorem list2 {α : Type} {l : List α} (h : l.length = 2) : ∃ a b, l = [a, b] := by
  match l, h with
  | [a, b], _ => exact ⟨a, b, rfl⟩
theorem list4 {α : Type} {l : List α} (h : l.length = 4) : ∃ a b c d, l = [a, b, c, d] := by
  match l, h with
  | [a, b, c, d], _ => exact ⟨a, b, c, d, rfl⟩
theorem list8 {α : Type} {l : List α} (h : l.length = 8) : ∃ a b c d e f g i, l = [a, b, c, d, e, f, g, i] := by
  match l, h with
  | [a, b, c, d, e, f, g, i], _ => exact ⟨a, b, c, d, e, f, g, i, rfl⟩

theorem chars_char (printable : Char → Bool) {q : Char} (hq : q = '\'' ∨ q = '"') (c : Char) (s : Text) :
    readPyChars q (reprChar printable q c ++ s) = addChar (some c) (readPyChars q s) := by
  have hbq : '\\' ≠ q := by rcases hq with rfl | rfl <;> decide
  have hn : ¬ ('\\' = '\n' ∨ '\\' = '\r') := by decide
  have esc : ∀ (x ch : Char), x ≠ 'x' → x ≠ 'u' → x ≠ 'U' → pyEscape x = some ch → readPyChars q ('\\' :: x :: s) = addChar (some ch) (readPyChars q s) := by
    intro x ch h1 h2 h3 he
    conv => lhs; unfold readPyChars
    rw [if_neg hbq, if_neg hn, if_pos rfl]
    dsimp only
    rw [if_neg h1, if_neg h2, if_neg h3, he]
  have hx2 : c.toNat < 256 → readPyChars q (['\\', 'x'] ++ hexDigits 2 c.toNat ++ s) = addChar (some c) (readPyChars q s) := by
    intro h
    obtain ⟨a, b, e⟩ := list2 (hex_length 2 c.toNat)
    rw [e]
    show readPyChars q ('\\' :: 'x' :: a :: b :: s) = _
    conv => lhs; unfold readPyChars
    rw [if_neg hbq, if_neg hn, if_pos rfl]
    dsimp only
    rw [if_pos rfl, ← e, hex_char c (by omega)]
  have hx4 : c.toNat < 65536 → readPyChars q (['\\', 'u'] ++ hexDigits 4 c.toNat ++ s) = addChar (some c) (readPyChars q s) := by
    intro h
    obtain ⟨a, b, c', d, e⟩ := list4 (hex_length 4 c.toNat)
    rw [e]
    show readPyChars q ('\\' :: 'u' :: a :: b :: c' :: d :: s) = _
    conv => lhs; unfold readPyChars
    rw [if_neg hbq, if_neg hn, if_pos rfl]
    dsimp only
    rw [if_neg (by decide), if_pos rfl, ← e, hex_char c (by omega)]
  have hx8 : readPyChars q (['\\', 'U'] ++ hexDigits 8 c.toNat ++ s) = addChar (some c) (readPyChars q s) := by
    obtain ⟨a, b, c', d, e', f, g, i, e⟩ := list8 (hex_length 8 c.toNat)
    rw [e]
    show readPyChars q ('\\' :: 'U' :: a :: b :: c' :: d :: e' :: f :: g :: i :: s) = _
    conv => lhs; unfold readPyChars
    rw [if_neg hbq, if_neg hn, if_pos rfl]
    dsimp only
    rw [if_neg (by decide), if_neg (by decide), if_pos rfl, ← e, hex_char c (by have := char_range c; omega)]
  unfold reprChar
  split
  · rename_i h
    show readPyChars q ('\\' :: c :: s) = _
    rcases h with rfl | rfl
    · rcases hq with rfl | rfl <;> exact esc _ _ (by decide) (by decide) (by decide) (by rfl)
    · exact esc _ _ (by decide) (by decide) (by decide) (by rfl)
  · rename_i h
    split
    · rename_i h; subst h; exact esc 't' '\t' (by decide) (by decide) (by decide) (by rfl)
    · split
      · rename_i h; subst h; exact esc 'n' '\n' (by decide) (by decide) (by decide) (by rfl)
      · rename_i hnl
        split
        · rename_i h; subst h; exact esc 'r' '\r' (by decide) (by decide) (by decide) (by rfl)
        · rename_i hcr
          split
          · exact hx2 (by omega)
          · split
            · show readPyChars q (c :: s) = _
              conv => lhs; unfold readPyChars
              rw [if_neg (fun e => h (.inl e)), if_neg (by rintro (e | e); exact hnl e; exact hcr e), if_neg (fun e => h (.inr e))]
            · split
              · exact hx2 (by omega)
              · split
                · exact hx4 (by omega)
                · exact hx8

theorem chars_back (printable : Char → Bool) {q : Char} (hq : q = '\'' ∨ q = '"') (s rest : Text) :
    readPyChars q (s.flatMap (reprChar printable q) ++ q :: rest) = some (s, rest) := by
  induction s with
  | nil => show readPyChars q (q :: rest) = _; unfold readPyChars; rw [if_pos rfl]
  | cons c s ih => rw [List.flatMap_cons, List.append_assoc, chars_char printable hq, ih]; rfl

theorem quote_cases (s : Text) : reprQuote s = '\'' ∨ reprQuote s = '"' := by
  unfold reprQuote; split
  · exact .inr rfl
  · exact .inl rfl

/-- What is written for a character has neither the quote at its start nor a line end. -/
theorem reprChar_head (printable : Char → Bool) (q c : Char) (hq : q = '\'' ∨ q = '"') : ∃ x r, reprChar printable q c = x :: r ∧ x ≠ q := by
  have hbq : '\\' ≠ q := by rcases hq with rfl | rfl <;> decide
  unfold reprChar
  split
  · exact ⟨_, _, rfl, hbq⟩
  · rename_i h
    repeat' split
    all_goals first | exact ⟨_, _, rfl, hbq⟩ | exact ⟨_, _, rfl, fun e => h (.inl e)⟩

theorem string_back (printable : Char → Bool) (s : Text) : readPyString (reprStr printable s) = some s := by
  unfold readPyString reprStr
  have hq := quote_cases s
  have h3 : (s.flatMap (reprChar printable (reprQuote s)) ++ [reprQuote s]).take 2 ≠ [reprQuote s, reprQuote s] := by
    cases hs : s with
    | nil => simp [reprQuote]
    | cons c r =>
      rw [← hs]
      obtain ⟨x, y, e, hx⟩ := reprChar_head printable (reprQuote s) c hq
      conv => lhs; arg 2; arg 1; rw [hs]
      rw [List.flatMap_cons, ← hs, e]
      intro h
      simp only [List.cons_append] at h
      rw [List.take_succ_cons] at h
      injection h with h1 _
      exact hx h1
  dsimp only
  rw [if_pos ⟨hq, h3⟩, chars_back printable hq]

theorem hex_plain : ∀ (w n : Nat), ∀ c ∈ hexDigits w n, c ≠ '\n' := by
  have key : ∀ n, n < 16 → jsonHex n ≠ '\n' := by decide +kernel
  intro w
  induction w with
  | zero => intro n c h; cases h
  | succ w ih =>
    intro n c h
    rcases List.mem_append.1 h with h | h
    · exact ih _ c h
    · rw [List.mem_singleton.1 h]; exact key _ (by omega)

theorem reprChar_plain (printable : Char → Bool) {q : Char} (hq : q = '\'' ∨ q = '"') (c : Char) : '\n' ∉ reprChar printable q c := by
  have hb : ∀ (x : Char) (w n : Nat), '\n' ≠ x → '\n' ∉ ['\\', x] ++ hexDigits w n := by
    intro x w n hx h
    rcases List.mem_append.1 h with h | h
    · simp only [List.mem_cons, List.not_mem_nil, or_false] at h
      rcases h with h | h
      · exact absurd h (by decide)
      · exact hx h
    · exact hex_plain w n _ h rfl
  unfold reprChar
  split
  · rename_i h
    rcases h with rfl | rfl
    · rcases hq with rfl | rfl <;> decide
    · decide
  · repeat' split
    all_goals first
      | decide
      | exact hb _ _ _ (by decide)
      | (intro h; rename_i h1 _ _ _; simp only [List.mem_singleton] at h; exact absurd h.symm (by assumption))

theorem string_plain (printable : Char → Bool) (s : Text) : '\n' ∉ reprStr printable s := by
  have hq := quote_cases s
  unfold reprStr
  intro h
  rcases List.mem_cons.1 h with h | h
  · rcases hq with e | e <;> rw [e] at h <;> exact absurd h (by decide)
  · rcases List.mem_append.1 h with h | h
    · obtain ⟨c, _, h⟩ := List.mem_flatMap.1 h
      exact reprChar_plain printable hq c h
    · rw [List.mem_singleton] at h
      rcases hq with e | e <;> rw [e] at h <;> exact absurd h (by decide)

/-! ### Values -/

theorem natStr_head (n : Nat) : (natStr n).head? = some '0' → natStr n = ['0'] := by
  have key : ∀ n, n ≠ 0 → (natStr n).head? ≠ some '0' := by
    intro n
    have hd : ∀ k, k < 10 → k ≠ 0 → Nat.digitChar k ≠ '0' := by decide +kernel
    unfold natStr
    induction n using Nat.strongRecOn with
    | ind n ih =>
      intro h0
      rw [Nat.toDigits_eq_if (by decide)]
      split
      · simpa using hd n (by omega) h0
      · have := ih (n / 10) (by omega) (by omega)
        rw [List.head?_append]
        have hne : (Nat.toDigits 10 (n / 10)).head? ≠ none := by
          intro h; exact natStr_ne_nil (n / 10) (List.head?_eq_none_iff.1 h)
        cases h : (Nat.toDigits 10 (n / 10)).head? with
        | none => exact absurd h hne
        | some x => rw [h] at this; simpa using this
  intro h
  by_cases h0 : n = 0
  · subst h0; rfl
  · exact absurd h (key n h0)

theorem nat_back (n : Nat) : readPyNat (natStr n) = some n := by
  unfold readPyNat
  rw [if_pos ⟨natStr_ne_nil n, List.all_eq_true.2 (fun c hc => natStr_chars hc), natStr_head n⟩, Json.digits_back]

theorem none_eq : t "None" = ['N', 'o', 'n', 'e'] := by rfl
theorem true_eq : t "True" = ['T', 'r', 'u', 'e'] := by rfl
theorem false_eq : t "False" = ['F', 'a', 'l', 's', 'e'] := by rfl

theorem not_word {c : Char} {r : Text} (h : c ≠ 'N' ∧ c ≠ 'T' ∧ c ≠ 'F') : c :: r ≠ t "None" ∧ c :: r ≠ t "True" ∧ c :: r ≠ t "False" := by
  rw [none_eq, true_eq, false_eq]
  refine ⟨?_, ?_, ?_⟩ <;> intro e <;> injection e with e _
  · exact h.1 e
  · exact h.2.1 e
  · exact h.2.2 e

theorem value_back (printable : Char → Bool) {v : CodeValue} (h : IsConst v) : readPyExpr (v.repr printable) = .ok (.const v) := by
  cases v with
  | none => rfl
  | bool b => cases b <;> rfl
  | object r => exact h.elim
  | str s =>
    show readPyExpr (reprStr printable s) = _
    have hb := string_back printable s
    have hq := quote_cases s
    unfold reprStr at hb ⊢
    unfold readPyExpr
    have hw : reprQuote s ≠ 'N' ∧ reprQuote s ≠ 'T' ∧ reprQuote s ≠ 'F' := by rcases hq with e | e <;> rw [e] <;> decide
    obtain ⟨h1, h2, h3⟩ := not_word (r := s.flatMap (reprChar printable (reprQuote s)) ++ [reprQuote s]) hw
    rw [if_neg h1, if_neg h2, if_neg h3]
    dsimp only
    rw [if_pos hq, hb]
  | int n =>
    show readPyExpr (jsonInt n) = _
    unfold jsonInt
    split
    · rename_i hn
      unfold readPyExpr
      obtain ⟨h1, h2, h3⟩ := not_word (c := '-') (r := natStr n.natAbs) (by decide)
      rw [if_neg h1, if_neg h2, if_neg h3]
      dsimp only
      rw [if_neg (by decide), if_pos rfl, nat_back]
      dsimp only
      have : -((n.natAbs : Nat) : Int) = n := by omega
      rw [this]
    · rename_i hn
      obtain ⟨c, r, e, hc⟩ := Json.nat_cons n.natAbs
      have hb := nat_back n.natAbs
      rw [e] at hb ⊢
      have hb' : 48 ≤ c.toNat ∧ c.toNat ≤ 57 := by
        unfold Char.isDigit at hc
        simp only [Bool.and_eq_true, decide_eq_true_eq, ge_iff_le] at hc
        exact hc
      have ne : ∀ d : Char, (d.toNat < 48 ∨ 57 < d.toNat) → c ≠ d := by
        intro d hd e; subst e; omega
      unfold readPyExpr
      obtain ⟨h1, h2, h3⟩ := not_word (c := c) (r := r) ⟨ne _ (by decide), ne _ (by decide), ne _ (by decide)⟩
      rw [if_neg h1, if_neg h2, if_neg h3]
      dsimp only
      rw [if_neg (by rintro (e | e); exact ne _ (by decide) e; exact ne _ (by decide) e), if_neg (ne _ (by decide)), if_pos hc, hb]
      dsimp only
      have : ((n.natAbs : Nat) : Int) = n := by omega
      rw [this]

theorem value_plain (printable : Char → Bool) {v : CodeValue} (h : IsConst v) : '\n' ∉ v.repr printable := by
  cases v with
  | none => show '\n' ∉ t "None"; decide +kernel
  | bool b => cases b
              · show '\n' ∉ t "False"; decide +kernel
              · show '\n' ∉ t "True"; decide +kernel
  | object r => exact h.elim
  | str s => exact string_plain printable s
  | int n =>
    show '\n' ∉ jsonInt n
    have : '\n' ∉ natStr n.natAbs := fun h => absurd (natStr_chars h) (by decide)
    unfold jsonInt
    split
    · intro h
      rcases List.mem_cons.1 h with h | h
      · exact absurd h (by decide)
      · exact this h
    · exact this

/-! ### Names -/

theorem ident_facts {s : Text} (h : isIdent s = true) : s ≠ [] ∧ (∀ c ∈ s, isIdentChar c = true) ∧ pyKeywords.contains s = false := by
  unfold isIdent at h
  cases s with
  | nil => cases h
  | cons c r =>
    dsimp only at h
    simp only [Bool.and_eq_true, Bool.not_eq_true', List.all_eq_true] at h
    exact ⟨List.cons_ne_nil _ _, h.1.1, h.2⟩

theorem ident_span {s : Text} (h : isIdent s = true) {r : Text} (hr : ∀ c, r.head? = some c → isIdentChar c = false) :
    (s ++ r).takeWhile isIdentChar = s ∧ (s ++ r).dropWhile isIdentChar = r := by
  have hall := (ident_facts h).2.1
  have hstop : r.takeWhile isIdentChar = [] ∧ r.dropWhile isIdentChar = r := by
    cases r with
    | nil => exact ⟨rfl, rfl⟩
    | cons c r =>
      have := hr c rfl
      exact ⟨by rw [List.takeWhile_cons_of_neg (by simp [this])], by rw [List.dropWhile_cons_of_neg (by simp [this])]⟩
  rw [List.takeWhile_append_of_pos hall, hstop.1, List.append_nil, List.dropWhile_append_of_pos hall, hstop.2]
  exact ⟨rfl, rfl⟩

theorem ident_plain {s : Text} (h : isIdent s = true) {c : Char} (hc : isIdentChar c = false) : c ∉ s := by
  intro hm
  rw [(ident_facts h).2.1 c hm] at hc
  cases hc

theorem ident_cons {s : Text} (h : isIdent s = true) : ∃ c r, s = c :: r ∧ c ≠ '\'' ∧ c ≠ '"' ∧ c ≠ '@' ∧ c ≠ ' ' := by
  cases s with
  | nil => cases h
  | cons c r =>
    have := (ident_facts h).2.1 c (by simp)
    exact ⟨c, r, rfl, by rintro rfl; exact absurd this (by decide), by rintro rfl; exact absurd this (by decide), by rintro rfl; exact absurd this (by decide),
      by rintro rfl; exact absurd this (by decide)⟩

/-! ### Lines -/

theorem indent_eq : t "    " = [' ', ' ', ' ', ' '] := by rfl
theorem eq_eq : t " = " = [' ', '=', ' '] := by rfl
theorem colon_eq : t ": " = [':', ' '] := by rfl

theorem body_line (b : Text) : readPyLine (t "    " ++ b) = readBodyLine b := by
  rw [indent_eq]; rfl

theorem doc_line (printable : Char → Bool) (s : Text) : readPyLine (t "    " ++ reprStr printable s) = .ok (.doc s) := by
  rw [body_line]
  have hb := string_back printable s
  have hq := quote_cases s
  unfold reprStr at hb ⊢
  unfold readBodyLine
  dsimp only
  rw [if_pos hq, hb]

theorem assign_line {name e : Text} (hn : isIdent name = true) {x : PyExpr} (he : readPyExpr e = .ok x) :
    readPyLine (t "    " ++ name ++ t " = " ++ e) = .ok (.assign name x) := by
  rw [List.append_assoc, List.append_assoc, body_line, eq_eq]
  obtain ⟨h1, h2⟩ := ident_span hn (r := [' ', '=', ' '] ++ e) (by intro c hc; cases hc; decide)
  obtain ⟨c, r, e', hc⟩ := ident_cons hn
  have hk := (ident_facts hn).2.2
  have hne : ¬ (c = '\'' ∨ c = '"') := by rintro (h | h); exact hc.1 h; exact hc.2.1 h
  generalize hb : name ++ ([' ', '=', ' '] ++ e) = b at h1 h2
  unfold readBodyLine
  cases b with
  | nil => rw [e'] at hb; cases hb
  | cons d b =>
    have hd : d = c := by rw [e'] at hb; injection hb with hb _; exact hb.symm
    dsimp only
    rw [if_neg (hd ▸ hne), h1, h2, if_neg (by rw [hk]; decide), if_neg (by rw [hn]; decide)]
    simp only [List.cons_append, List.nil_append, he, bind, Except.bind, pure, Except.pure]

theorem split_append : ∀ (a : Text) (st : Scan) (b : Text), splitEq st a = (a, none) →
    splitEq st (a ++ b) = (a ++ (splitEq (a.foldl Scan.next st) b).1, (splitEq (a.foldl Scan.next st) b).2) := by
  intro a
  induction a with
  | nil => intro st b _; rfl
  | cons c a ih =>
    intro st b h
    unfold splitEq at h
    split at h
    · cases congrArg Prod.snd h
    · rename_i hne
      have h1 : splitEq (st.next c) a = (a, none) := by
        have e1 := congrArg Prod.fst h
        have e2 := congrArg Prod.snd h
        dsimp only at e1 e2
        injection e1 with _ e1
        exact Prod.ext e1 e2
      have := ih (st.next c) b h1
      show splitEq st (c :: (a ++ b)) = _
      conv => lhs; unfold splitEq
      rw [if_neg hne, this]
      rfl

theorem field_start {name r : Text} (hn : isIdent name = true) : readPyLine (t "    " ++ name ++ t ": " ++ r) =
    match splitEq Scan.start r with
    | (ty, none) => if ty = [] then .error .syntax else .ok (.field name ty none)
    | (ty, some (' ' :: e)) =>
      if ty.getLast? = some ' ' ∧ ty.dropLast ≠ [] then do return .field name ty.dropLast (some (← readPyExpr e)) else .error .unspecified
    | _ => .error .unspecified := by
  rw [List.append_assoc, List.append_assoc, body_line, colon_eq]
  obtain ⟨h1, h2⟩ := ident_span hn (r := [':', ' '] ++ r) (by intro c hc; cases hc; decide)
  obtain ⟨c, r', e', hc⟩ := ident_cons hn
  have hk := (ident_facts hn).2.2
  have hne : ¬ (c = '\'' ∨ c = '"') := by rintro (h | h); exact hc.1 h; exact hc.2.1 h
  generalize hb : name ++ ([':', ' '] ++ r) = b at h1 h2
  unfold readBodyLine
  cases b with
  | nil => rw [e'] at hb; cases hb
  | cons d b =>
    have hd : d = c := by rw [e'] at hb; injection hb with hb _; exact hb.symm
    dsimp only
    rw [if_neg (hd ▸ hne), h1, h2, if_neg (by rw [hk]; decide), if_neg (by rw [hn]; decide)]
    rfl

theorem field_line {name ty : Text} (hn : isIdent name = true) (ht : IsAnnotation ty) : readPyLine (t "    " ++ name ++ t ": " ++ ty) = .ok (.field name ty none) := by
  rw [field_start hn, ht.noEq]
  dsimp only
  rw [if_neg ht.ne]

theorem default_line {name ty e : Text} (hn : isIdent name = true) (ht : IsAnnotation ty) {x : PyExpr} (he : readPyExpr e = .ok x) :
    readPyLine (t "    " ++ name ++ t ": " ++ (ty ++ t " = " ++ e)) = .ok (.field name ty (some x)) := by
  rw [field_start hn, List.append_assoc, split_append _ _ _ ht.noEq, ht.closed, eq_eq]
  have : splitEq Scan.start ([' ', '=', ' '] ++ e) = ([' '], some (' ' :: e)) := by rfl
  rw [this]
  show (if (ty ++ [' ']).getLast? = some ' ' ∧ (ty ++ [' ']).dropLast ≠ [] then (do return PyLine.field name (ty ++ [' ']).dropLast (some (← readPyExpr e)) : Except PyFault PyLine) else .error .unspecified) = _
  have h1 : (ty ++ [' ']).getLast? = some ' ' := by simp
  have h2 : (ty ++ [' ']).dropLast = ty := by simp
  rw [if_pos ⟨h1, by rw [h2]; exact ht.ne⟩, h2, he]
  rfl

theorem class_line {name : Text} (hn : isIdent name = true) : readPyLine (t "class " ++ name ++ t ":") = .ok (.classDef name false) := by
  have e : t "class " = 'c' :: 'l' :: 'a' :: 's' :: 's' :: [' '] := by rfl
  obtain ⟨h1, h2⟩ := ident_span hn (r := t ":") (by intro c hc; cases hc; decide)
  rw [e, List.append_assoc]
  show readTopLine (t "class") (' ' :: (name ++ t ":")) = _
  unfold readTopLine
  rw [if_pos rfl]
  simp only []
  rw [h1, h2, hn, if_neg (by decide), if_pos rfl]

theorem enum_line {name : Text} (hn : isIdent name = true) : readPyLine (t "class " ++ name ++ t "(enum.Enum):") = .ok (.classDef name true) := by
  have e : t "class " = 'c' :: 'l' :: 'a' :: 's' :: 's' :: [' '] := by rfl
  obtain ⟨h1, h2⟩ := ident_span hn (r := t "(enum.Enum):") (by intro c hc; cases hc; decide)
  rw [e, List.append_assoc]
  show readTopLine (t "class") (' ' :: (name ++ t "(enum.Enum):")) = _
  unfold readTopLine
  rw [if_pos rfl]
  simp only []
  rw [h1, h2, hn, if_neg (by decide), if_neg (by decide +kernel), if_pos rfl]

theorem deco_line (d : Text) : readPyLine ('@' :: d) = .ok (.decorator d) := rfl

theorem member_line (printable : Char → Bool) {cls m : Text} (hc : isIdent cls = true) (hm : isIdent m = true) (s : Text) :
    readPyLine (cls ++ t "." ++ m ++ t ".__doc__ = " ++ reprStr printable s) = .ok (.memberDoc cls m s) := by
  have e1 : t "." = ['.'] := by rfl
  have e2 : t ".__doc__ = " = ['.', '_', '_', 'd', 'o', 'c', '_', '_', ' ', '=', ' '] := by rfl
  rw [List.append_assoc, List.append_assoc, List.append_assoc, e1]
  obtain ⟨h1, h2⟩ := ident_span hc (r := ['.'] ++ (m ++ (t ".__doc__ = " ++ reprStr printable s))) (by intro c hc; cases hc; decide)
  obtain ⟨h3, h4⟩ := ident_span hm (r := t ".__doc__ = " ++ reprStr printable s) (by intro c hc; rw [e2] at hc; cases hc; decide)
  have hk := (ident_facts hc).2.2
  have nk : ∀ w, pyKeywords.contains w = true → cls ≠ w := by intro w hw e; rw [e, hw] at hk; cases hk
  obtain ⟨c, r, e', h5, h6, h7, h8⟩ := ident_cons hc
  have hl : readPyLine (cls ++ (['.'] ++ (m ++ (t ".__doc__ = " ++ reprStr printable s)))) =
      readTopLine cls ('.' :: (m ++ (t ".__doc__ = " ++ reprStr printable s))) := by
    conv => lhs; unfold readPyLine
    split
    · rename_i h; rw [e'] at h; cases h
    · rename_i h; rw [e'] at h; injection h with h _; exact absurd h h7
    · rename_i h; rw [e'] at h; injection h with h _; exact absurd h h8
    · rw [h1, h2]; rfl
  rw [hl]
  unfold readTopLine
  rw [if_neg (nk _ (by decide +kernel)), if_neg (nk _ (by decide +kernel)), if_neg (nk _ (by decide +kernel)), hc, if_neg (by decide)]
  simp only []
  rw [h3, h4, hm, if_neg (by decide)]
  have h9 : (t ".__doc__ = " ++ reprStr printable s).take 11 = t ".__doc__ = " := by rw [e2]; rfl
  have h10 : (t ".__doc__ = " ++ reprStr printable s).drop 11 = reprStr printable s := by rw [e2]; rfl
  rw [h9, h10, if_pos (by simp), string_back]

/-! ### Texts -/

theorem lines_line {l : Text} (h : '\n' ∉ l) (s : Text) : pyLines (l ++ '\n' :: s) = l :: pyLines s := by
  induction l with
  | nil => show pyLines ('\n' :: s) = _; rw [pyLines, if_pos rfl]
  | cons c l ih =>
    rw [List.mem_cons, not_or] at h
    show pyLines (c :: (l ++ '\n' :: s)) = _
    rw [pyLines, if_neg (fun e => h.1 e.symm), ih h.2]

theorem lines_cut {ls : List Text} (h : ∀ l ∈ ls, '\n' ∉ l) (s : Text) : pyLines (codeText ls ++ s) = ls ++ pyLines s := by
  induction ls with
  | nil => rfl
  | cons l ls ih =>
    unfold codeText
    rw [List.flatMap_cons, List.append_assoc, List.append_assoc]
    show pyLines (l ++ '\n' :: (codeText ls ++ s)) = _
    rw [lines_line (h l List.mem_cons_self), ih (fun x hx => h x (List.mem_cons_of_mem _ hx))]
    rfl

theorem lines_ne (s : Text) : ∃ l ls, pyLines s = l :: ls := by
  cases s with
  | nil => exact ⟨_, _, rfl⟩
  | cons c s =>
    rw [pyLines]
    split
    · exact ⟨_, _, rfl⟩
    · split <;> exact ⟨_, _, rfl⟩

theorem lines_first {p : Text} (h : '\n' ∉ p) (s : Text) : ∃ l ls, pyLines (p ++ s) = (p ++ l) :: ls := by
  induction p with
  | nil => exact lines_ne s
  | cons c p ih =>
    rw [List.mem_cons, not_or] at h
    obtain ⟨l, ls, e⟩ := ih h.2
    refine ⟨l, ls, ?_⟩
    show pyLines (c :: (p ++ s)) = _
    rw [pyLines, if_neg (fun e => h.1 e.symm), e]
    rfl

theorem lines_code {ls : List Text} (h : ∀ l ∈ ls, '\n' ∉ l) : pyLines (codeText ls) = ls ++ [[]] := by
  induction ls with
  | nil => rfl
  | cons l ls ih =>
    unfold codeText
    rw [List.flatMap_cons, List.append_assoc]
    show pyLines (l ++ '\n' :: codeText ls) = _
    rw [lines_line (h l List.mem_cons_self), ih (fun x hx => h x (List.mem_cons_of_mem _ hx))]
    rfl

end Py
end PySqlSync
