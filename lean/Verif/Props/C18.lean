/-
C18 — Comments are stored verbatim (PostgreSQL, Delta, Snowflake).
-/
import Verif.Lemmas.Lex

namespace PySqlSync
open Spec

theorem translate_cons (tb : Char → Option Text) (c : Char) (s : Text) :
    translate tb (c :: s) = (tb c).getD [c] ++ translate tb s := rfl

/-- A translation table is right for a reader if every replacement is an escape sequence that denotes the
    replaced character and the special characters are all replaced. -/
def TableOk (esc : Char → Option Text) (tb : Char → Option Text) (c : Char) : Prop :=
  (∃ d, tb c = some ['\\', d] ∧ esc d = some [c]) ∨ (tb c = none ∧ c ≠ '\\' ∧ c ≠ '\'')

theorem readEscaped_translate (esc : Char → Option Text) (tb : Char → Option Text) (s rest : Text)
    (ok : ∀ c ∈ s, TableOk esc tb c) (h : rest.head? ≠ some '\'') :
    readEscaped esc (translate tb s ++ '\'' :: rest) = some (s, rest) := by
  induction s with
  | nil => simpa [translate] using readEscaped_close esc rest h
  | cons c s ih =>
    have ih := ih (fun c hc => ok c (List.mem_cons_of_mem _ hc))
    rw [translate_cons]
    rcases ok c (List.mem_cons_self ..) with ⟨d, h1, h2⟩ | ⟨h1, h2, h3⟩
    · simp [h1, readEscaped_esc _ _ _ _ h2, ih]
    · simp [h1, readEscaped_other, h2, h3, ih]

theorem readEscapedOct_other (esc : Char → Option Text) (c : Char) (rest : Text) (h : c ≠ '\\') (h' : c ≠ '\'') :
    readEscapedOct esc 0 (c :: rest) = (readEscapedOct esc 0 rest).map (fun p => (c :: p.1, p.2)) := by
  cases rest <;> simp [readEscapedOct, h, h']

theorem readEscapedOct_translate (esc : Char → Option Text) (tb : Char → Option Text) (s rest : Text)
    (ok : ∀ c ∈ s, (∃ d, tb c = some ['\\', d] ∧ esc d = some [c] ∧ octDigit d = none) ∨
      (tb c = none ∧ c ≠ '\\' ∧ c ≠ '\'')) (h : rest.head? ≠ some '\'') :
    readEscapedOct esc 0 (translate tb s ++ '\'' :: rest) = some (s, rest) := by
  induction s with
  | nil =>
    cases rest with
    | nil => simp [translate, readEscapedOct]
    | cons d r =>
      have : d ≠ '\'' := by simpa using h
      simp [translate, readEscapedOct, this]
  | cons c s ih =>
    have ih := ih (fun c hc => ok c (List.mem_cons_of_mem _ hc))
    rw [translate_cons]
    rcases ok c (List.mem_cons_self ..) with ⟨d, h1, h2, h3⟩ | ⟨h1, h2, h3⟩
    · have ho : octal3 (d :: (translate tb s ++ '\'' :: rest)) = none := by
        cases hh : translate tb s ++ '\'' :: rest with
        | nil => rfl
        | cons x xs =>
          cases xs with
          | nil => rfl
          | cons y ys => simp [octal3, h3]
      simp only [h1, Option.getD_some, List.cons_append, List.nil_append]
      rw [readEscapedOct]
      simp [ho, h2, ih]
    · simp only [h1, Option.getD_none, List.cons_append, List.nil_append]
      rw [readEscapedOct_other _ _ _ h2 h3]
      simp [ih]

theorem pgTable_ok (c : Char) : TableOk pgEsc pgTable c := by
  unfold TableOk pgTable
  by_cases h1 : c = '\\'
  · subst h1; exact .inl ⟨'\\', by decide, by decide⟩
  by_cases h2 : c = '\''
  · subst h2; exact .inl ⟨'\'', by decide, by decide⟩
  by_cases h3 : c = '\x08'
  · subst h3; exact .inl ⟨'b', by decide, by decide⟩
  by_cases h4 : c = '\x0c'
  · subst h4; exact .inl ⟨'f', by decide, by decide⟩
  by_cases h5 : c = '\n'
  · subst h5; exact .inl ⟨'n', by decide, by decide⟩
  by_cases h6 : c = '\r'
  · subst h6; exact .inl ⟨'r', by decide, by decide⟩
  by_cases h7 : c = '\t'
  · subst h7; exact .inl ⟨'t', by decide, by decide⟩
  right
  simp [h1, h2, h3, h4, h5, h6, h7]

/-- PostgreSQL: the emitted comment literal reads back as exactly the description. -/
theorem C18_postgresql_comment_reads_back (s rest : Text) (h : rest.head? ≠ some '\'') :
    readPostgres (pgQuotedString s ++ rest) = some (s, rest) := by
  unfold pgQuotedString
  split
  · have := readEscaped_translate pgEsc pgTable s rest (fun c _ => pgTable_ok c) h
    simpa [readPostgres, t_def] using this
  · have := readQuoted_replace '\'' s rest h
    simpa [readPostgres, t_def] using this

theorem deltaTable_ok (c : Char) (h0 : c ≠ '\x00') :
    (∃ d, deltaTable c = some ['\\', d] ∧ deltaEsc d = some [c] ∧ octDigit d = none) ∨
      (deltaTable c = none ∧ c ≠ '\\' ∧ c ≠ '\'') := by
  unfold deltaTable
  by_cases h1 : c = '\\'
  · subst h1; exact .inl ⟨'\\', by decide, by decide, by decide⟩
  by_cases h2 : c = '\''
  · subst h2; exact .inl ⟨'\'', by decide, by decide, by decide⟩
  by_cases h3 : c = '"'
  · subst h3; exact .inl ⟨'"', by decide, by decide, by decide⟩
  by_cases h4 : c = '\x08'
  · subst h4; exact .inl ⟨'b', by decide, by decide, by decide⟩
  by_cases h5 : c = '\n'
  · subst h5; exact .inl ⟨'n', by decide, by decide, by decide⟩
  by_cases h6 : c = '\r'
  · subst h6; exact .inl ⟨'r', by decide, by decide, by decide⟩
  by_cases h7 : c = '\t'
  · subst h7; exact .inl ⟨'t', by decide, by decide, by decide⟩
  by_cases h8 : c = '\x1a'
  · subst h8; exact .inl ⟨'Z', by decide, by decide, by decide⟩
  right
  simp [h0, h1, h2, h3, h4, h5, h6, h7, h8]

theorem translate_none (tb : Char → Option Text) (s : Text) (h : ∀ c ∈ s, tb c = none) : translate tb s = s := by
  induction s with
  | nil => rfl
  | cons c s ih =>
    rw [translate_cons, h c (List.mem_cons_self ..), ih (fun c hc => h c (List.mem_cons_of_mem _ hc))]
    rfl

/-! ### What servers with octal escapes store -/

/-- The text that is stored: a NUL and two octal digits are read as one character. -/
def storedText : Text → Text
  | [] => []
  | [c] => [c]
  | [c, x] => [c, x]
  | c :: x :: y :: r =>
    if c = '\x00' ∧ isOct x ∧ isOct y then
      Char.ofNat (8 * (octDigit x).getD 0 + (octDigit y).getD 0) :: storedText r
    else c :: storedText (x :: y :: r)

theorem storedText_cons {c : Char} {s : Text} (h : ∀ x y b, s = x :: y :: b → ¬ (c = '\x00' ∧ isOct x ∧ isOct y)) :
    storedText (c :: s) = c :: storedText s := by
  match s, h with
  | [], _ => rfl
  | [x], _ => rfl
  | x :: y :: b, h => rw [storedText, if_neg (h x y b rfl)]

theorem storedText_length : ∀ s : Text, (storedText s).length ≤ s.length
  | [] => Nat.le_refl _
  | [c] => Nat.le_refl _
  | [c, x] => Nat.le_refl _
  | c :: x :: y :: r => by
    rw [storedText]
    split
    · have := storedText_length r
      simp only [List.length_cons]
      omega
    · have := storedText_length (x :: y :: r)
      simp only [List.length_cons] at this ⊢
      omega

theorem storedText_eq : ∀ s : Text, storedText s = s ↔ NoOctalNul s
  | [] => ⟨fun _ a x y b e => by simp at e, fun _ => rfl⟩
  | c :: s => by
    by_cases hc : ∃ x y b, s = x :: y :: b ∧ c = '\x00' ∧ isOct x ∧ isOct y
    · obtain ⟨x, y, b, rfl, rfl, hx, hy⟩ := hc
      constructor
      · intro h
        have h2 := congrArg List.length h
        rw [storedText, if_pos ⟨rfl, hx, hy⟩] at h2
        have := storedText_length b
        simp only [List.length_cons] at h2
        omega
      · intro h
        exact absurd ⟨hx, hy⟩ (h [] x y b rfl)
    · rw [storedText_cons (fun x y b e hh => hc ⟨x, y, b, e, hh.1, hh.2.1, hh.2.2⟩)]
      constructor
      · intro h a x y b e
        cases a with
        | nil =>
          obtain ⟨rfl, rfl⟩ := List.cons.inj e
          intro hh
          exact hc ⟨x, y, b, rfl, rfl, hh.1, hh.2⟩
        | cons z a => exact (storedText_eq s).mp (List.cons.inj h).2 a x y b (List.cons.inj e).2
      · intro h
        rw [(storedText_eq s).mpr fun a x y b e => h (c :: a) x y b (by rw [e]; rfl)]

/-- A table that is right for every character but NUL, which it writes as `\0`. -/
structure OctTable (esc : Char → Option Text) (tb : Char → Option Text) : Prop where
  ok : ∀ c, c ≠ '\x00' → (∃ d, tb c = some ['\\', d] ∧ esc d = some [c] ∧ octDigit d = none) ∨
    (tb c = none ∧ c ≠ '\\' ∧ c ≠ '\'')
  nul : tb '\x00' = some ['\\', '0']
  zero : esc '0' = some ['\x00']
  digits : ∀ c, isOct c → tb c = none

theorem octal3_second {x a : Char} {r : Text} (h : octDigit a = none) : octal3 (x :: a :: r) = none := by
  cases r with
  | nil => rfl
  | cons b r =>
    simp only [octal3, h]
    cases octDigit x <;> rfl

theorem octal3_short {x : Char} {r : Text} (h : ∀ a b, r = a :: b → octDigit a = none) : octal3 ('0' :: x :: r) = none := by
  cases r with
  | nil => rfl
  | cons a b =>
    have : octDigit a = none := h a b rfl
    simp only [octal3, this]
    cases octDigit '0' <;> cases octDigit x <;> rfl

theorem octDigit_backslash : octDigit '\\' = none := by decide
theorem octDigit_apostrophe : octDigit '\'' = none := by decide

/-- What a character is written as begins with an octal digit only if it is one. -/
theorem OctTable.head {esc tb : Char → Option Text} (h : OctTable esc tb) (c : Char) :
    ∃ a l, (tb c).getD [c] = a :: l ∧ (octDigit a ≠ none → a = c ∧ l = []) := by
  by_cases h0 : c = '\x00'
  · subst h0
    exact ⟨'\\', ['0'], by rw [h.nul]; rfl, fun hh => absurd octDigit_backslash hh⟩
  · rcases h.ok c h0 with ⟨d, h1, _⟩ | ⟨h1, _⟩
    · exact ⟨'\\', [d], by rw [h1]; rfl, fun hh => absurd octDigit_backslash hh⟩
    · exact ⟨c, [], by rw [h1]; rfl, fun _ => ⟨rfl, rfl⟩⟩

theorem octal3_nul {esc tb : Char → Option Text} (h : OctTable esc tb) {s : Text} (rest : Text)
    (hs : ∀ x y b, s = x :: y :: b → ¬ (isOct x ∧ isOct y)) :
    octal3 ('0' :: (translate tb s ++ '\'' :: rest)) = none := by
  match s, hs with
  | [], _ =>
    exact octal3_second octDigit_apostrophe
  | [x], _ =>
    obtain ⟨a, l, e1, e2⟩ := h.head x
    rw [translate_cons, e1]
    by_cases ha : octDigit a = none
    · exact octal3_second ha
    · obtain ⟨rfl, rfl⟩ := e2 ha
      show octal3 ('0' :: a :: '\'' :: rest) = none
      exact octal3_short (fun p q e => by cases e; exact octDigit_apostrophe)
  | x :: y :: b, hs =>
    have hxy := hs x y b rfl
    obtain ⟨a, l, e1, e2⟩ := h.head x
    obtain ⟨a', l', e1', e2'⟩ := h.head y
    rw [translate_cons, translate_cons, e1, e1']
    by_cases ha : octDigit a = none
    · exact octal3_second ha
    · obtain ⟨rfl, rfl⟩ := e2 ha
      show octal3 ('0' :: a :: (a' :: (l' ++ translate tb b ++ '\'' :: rest))) = none
      refine octal3_short (fun p q e => ?_)
      cases e
      exact Classical.byContradiction fun hh => by
        obtain ⟨rfl, _⟩ := e2' hh
        exact hxy ⟨Option.isSome_iff_ne_none.mpr ha, Option.isSome_iff_ne_none.mpr hh⟩

theorem readEscapedOct_skip (esc : Char → Option Text) (x y z : Char) (r : Text) :
    readEscapedOct esc 3 (x :: y :: z :: r) = readEscapedOct esc 0 r := by
  cases r <;> rfl

theorem readEscapedOct_stored {esc tb : Char → Option Text} (h : OctTable esc tb) (rest : Text)
    (hr : rest.head? ≠ some '\'') : ∀ s : Text,
    readEscapedOct esc 0 (translate tb s ++ '\'' :: rest) = some (storedText s, rest)
  | [] => by
    cases rest with
    | nil => simp [translate, readEscapedOct, storedText]
    | cons d r =>
      have : d ≠ '\'' := by simpa using hr
      simp [translate, readEscapedOct, storedText, this]
  | c :: s => by
    by_cases h0 : c = '\x00'
    · subst h0
      by_cases hc : ∃ x y b, s = x :: y :: b ∧ isOct x ∧ isOct y
      · obtain ⟨x, y, b, rfl, hx, hy⟩ := hc
        have ih := readEscapedOct_stored h rest hr b
        rw [translate_cons, translate_cons, translate_cons, h.nul, h.digits x hx, h.digits y hy]
        show readEscapedOct esc 0 ('\\' :: '0' :: x :: y :: (translate tb b ++ '\'' :: rest)) = _
        obtain ⟨u, hu⟩ := Option.isSome_iff_exists.mp hx
        obtain ⟨v, hv⟩ := Option.isSome_iff_exists.mp hy
        have ho : octal3 ('0' :: x :: y :: (translate tb b ++ '\'' :: rest)) = some (Char.ofNat (8 * u + v)) := by
          simp only [octal3, hu, hv]
          have : octDigit '0' = some 0 := by decide
          rw [this]
          simp
        rw [storedText, if_pos ⟨rfl, hx, hy⟩, hu, hv]
        rw [readEscapedOct.eq_def]
        simp only [if_pos, ho, readEscapedOct_skip, ih]
        rfl
      · have ih := readEscapedOct_stored h rest hr s
        have ho := octal3_nul h rest (s := s) (fun x y b e hh => hc ⟨x, y, b, e, hh⟩)
        rw [storedText_cons (fun x y b e hh => hc ⟨x, y, b, e, hh.2⟩), translate_cons, h.nul]
        show readEscapedOct esc 0 ('\\' :: '0' :: (translate tb s ++ '\'' :: rest)) = _
        simp only [readEscapedOct, if_pos, ho, h.zero, ih]
        rfl
    · have ih := readEscapedOct_stored h rest hr s
      rw [storedText_cons (fun x y b _ hh => h0 hh.1), translate_cons]
      rcases h.ok c h0 with ⟨d, h1, h2, h3⟩ | ⟨h1, h2, h3⟩
      · have ho : octal3 (d :: (translate tb s ++ '\'' :: rest)) = none := by
          cases hh : translate tb s ++ '\'' :: rest with
          | nil => rfl
          | cons x xs =>
            cases xs with
            | nil => rfl
            | cons y ys => simp [octal3, h3]
        rw [h1]
        show readEscapedOct esc 0 ('\\' :: d :: (translate tb s ++ '\'' :: rest)) = _
        simp only [readEscapedOct, if_pos, ho, h2, ih]
        rfl
      · rw [h1]
        show readEscapedOct esc 0 (c :: (translate tb s ++ '\'' :: rest)) = _
        rw [readEscapedOct_other _ _ _ h2 h3, ih]
        rfl

theorem isOct_cases {c : Char} (h : isOct c) : c = '0' ∨ c = '1' ∨ c = '2' ∨ c = '3' ∨ c = '4' ∨ c = '5' ∨ c = '6' ∨ c = '7' := by
  unfold isOct octDigit at h
  split at h
  · rename_i hc
    have h1 : 48 ≤ c.toNat := hc.1
    have h2 : c.toNat ≤ 55 := hc.2
    have e : c = Char.ofNat c.toNat := (Char.ofNat_toNat c).symm
    have : c.toNat = 48 ∨ c.toNat = 49 ∨ c.toNat = 50 ∨ c.toNat = 51 ∨ c.toNat = 52 ∨ c.toNat = 53 ∨ c.toNat = 54 ∨
        c.toNat = 55 := by omega
    rcases this with h | h | h | h | h | h | h | h <;> (rw [h] at e; subst e; decide)
  · cases h

theorem delta_octTable : OctTable deltaEsc deltaTable where
  ok := deltaTable_ok
  nul := by decide
  zero := by decide
  digits := by
    intro c hc
    rcases isOct_cases hc with rfl | rfl | rfl | rfl | rfl | rfl | rfl | rfl <;> decide

/-- Delta Lake (Spark literal rules): what is stored for a description, and ... -/
theorem C18_delta_stored (s rest : Text) (h : rest.head? ≠ some '\'') :
    readDelta (deltaQuotedString s ++ rest) = some (storedText s, rest) := by
  have key := readEscapedOct_stored delta_octTable rest h s
  unfold deltaQuotedString
  split
  · simpa [readDelta, t_def] using key
  · rename_i hn
    have : translate deltaTable s = s := by
      apply translate_none
      intro c hc
      simp only [List.any_eq_true, not_exists, not_and, Option.isSome_iff_ne_none] at hn
      simpa using hn c hc
    rw [this] at key
    simpa [readDelta, t_def] using key

/-- ... it is the description exactly if no NUL character of it is followed by two octal digits. -/
theorem C18_delta_exact (s rest : Text) (h : rest.head? ≠ some '\'') :
    readDelta (deltaQuotedString s ++ rest) = some (s, rest) ↔ NoOctalNul s := by
  rw [C18_delta_stored s rest h, ← storedText_eq s]
  simp

theorem noOctalNul_of {s : Text} (h : '\x00' ∉ s) : NoOctalNul s := fun a x y b e => absurd (e ▸ by simp) h

theorem snowflakeTable_ok (c : Char) (h0 : c ≠ '\x00') :
    (∃ d, snowflakeTable c = some ['\\', d] ∧ snowflakeEsc d = some [c] ∧ octDigit d = none) ∨
      (snowflakeTable c = none ∧ c ≠ '\\' ∧ c ≠ '\'') := by
  unfold snowflakeTable
  by_cases h1 : c = '\\'
  · subst h1; exact .inl ⟨'\\', by decide, by decide, by decide⟩
  by_cases h2 : c = '\''
  · subst h2; exact .inl ⟨'\'', by decide, by decide, by decide⟩
  by_cases h3 : c = '"'
  · subst h3; exact .inl ⟨'"', by decide, by decide, by decide⟩
  by_cases h4 : c = '\x08'
  · subst h4; exact .inl ⟨'b', by decide, by decide, by decide⟩
  by_cases h5 : c = '\n'
  · subst h5; exact .inl ⟨'n', by decide, by decide, by decide⟩
  by_cases h6 : c = '\r'
  · subst h6; exact .inl ⟨'r', by decide, by decide, by decide⟩
  by_cases h7 : c = '\t'
  · subst h7; exact .inl ⟨'t', by decide, by decide, by decide⟩
  by_cases h8 : c = '\x0c'
  · subst h8; exact .inl ⟨'f', by decide, by decide, by decide⟩
  right
  simp [h0, h1, h2, h3, h4, h5, h6, h7, h8]

theorem readEscapedOct_replace (esc : Char → Option Text) (s rest : Text) (hs : '\\' ∉ s)
    (h : rest.head? ≠ some '\'') :
    readEscapedOct esc 0 (replaceChar '\'' ['\'', '\''] s ++ '\'' :: rest) = some (s, rest) := by
  induction s with
  | nil =>
    cases rest with
    | nil => simp [readEscapedOct]
    | cons d r =>
      have : d ≠ '\'' := by simpa using h
      simp [readEscapedOct, this]
  | cons c s ih =>
    have ih := ih (by intro hh; exact hs (List.mem_cons_of_mem _ hh))
    have hc : c ≠ '\\' := by rintro rfl; exact hs (List.mem_cons_self ..)
    by_cases hq : c = '\''
    · subst hq
      simp [readEscapedOct, ih]
    · simp only [replaceChar_cons, hq, if_false, List.cons_append, List.nil_append]
      rw [readEscapedOct_other _ _ _ hc hq]
      simp [ih]

theorem replaceChar_notMem (q : Char) (r s : Text) (h : q ∉ s) : replaceChar q r s = s := by
  induction s with
  | nil => rfl
  | cons c s ih =>
    have hc : c ≠ q := by rintro rfl; exact h (List.mem_cons_self ..)
    simp [hc, ih (fun hh => h (List.mem_cons_of_mem _ hh))]

theorem snowflake_octTable : OctTable snowflakeEsc snowflakeTable where
  ok := snowflakeTable_ok
  nul := by decide
  zero := by decide
  digits := by
    intro c hc
    rcases isOct_cases hc with rfl | rfl | rfl | rfl | rfl | rfl | rfl | rfl <;> decide

/-- Snowflake: what is stored for a description, and ... -/
theorem C18_snowflake_stored (s rest : Text) (h : rest.head? ≠ some '\'') :
    readSnowflake (snowflakeQuotedString s ++ rest) = some (storedText s, rest) := by
  unfold snowflakeQuotedString
  split
  · have key := readEscapedOct_stored snowflake_octTable rest h s
    simpa [readSnowflake, t_def] using key
  · rename_i hn
    have hb : '\\' ∉ s := by
      intro hb
      apply hn
      simp only [List.any_eq_true]
      exact ⟨'\\', hb, by decide⟩
    have h0 : '\x00' ∉ s := by
      intro hb
      apply hn
      simp only [List.any_eq_true]
      exact ⟨'\x00', hb, by decide⟩
    rw [(storedText_eq s).mpr (noOctalNul_of h0)]
    have key := readEscapedOct_replace snowflakeEsc s rest hb h
    split
    · simpa [readSnowflake, t_def] using key
    · rename_i hq
      have : '\'' ∉ s := by
        intro hb
        apply hq
        simp only [List.any_eq_true]
        exact ⟨'\'', hb, by decide⟩
      rw [replaceChar_notMem _ _ _ this] at key
      simpa [readSnowflake, t_def] using key

/-- ... it is the description exactly if no NUL character of it is followed by two octal digits. -/
theorem C18_snowflake_exact (s rest : Text) (h : rest.head? ≠ some '\'') :
    readSnowflake (snowflakeQuotedString s ++ rest) = some (s, rest) ↔ NoOctalNul s := by
  rw [C18_snowflake_stored s rest h, ← storedText_eq s]
  simp

example : readPostgres (pgQuotedString (t "it's\na \\n \"test\"\t;") ++ t ";") = some (t "it's\na \\n \"test\"\t;", t ";") :=
  C18_postgresql_comment_reads_back _ _ (by decide)
example : '\x00' ∉ t "it's\na \\n \"test\"" ∧ (t ";").head? ≠ some '\'' := by decide

/-- A description with a NUL character that is stored as it is, and one that is not. -/
example : NoOctalNul (t "a\x00b") ∧ ¬ NoOctalNul (t "a\x0012") :=
  ⟨(storedText_eq _).mp (by decide +kernel), fun h => absurd ((storedText_eq _).mpr h) (by decide +kernel)⟩

end PySqlSync
