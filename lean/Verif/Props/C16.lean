/-
C16 — String literals denote themselves.
-/
import Verif.Lemmas.Lex

namespace PySqlSync
open Spec

/-- `quote(s)` followed by any text not starting with a quote is read back as exactly `s`. -/
theorem C16_quote_reads_back (s rest : Text) (h : rest.head? ≠ some '\'') :
    readString (quote s ++ rest) = some (s, rest) := by
  have := readQuoted_replace '\'' s rest h
  simpa [quote, readString, t_def] using this

/-- Distinct strings have distinct literals. -/
theorem C16_quote_injective (a b : Text) (h : quote a = quote b) : a = b := by
  have ha := C16_quote_reads_back a [] (by simp)
  have hb := C16_quote_reads_back b [] (by simp)
  rw [h, hb] at ha
  simpa using ha.symm

/-! ### MySQL, exactly -/

/-- The number of backslashes that are not followed by `%` or `_`. -/
def activeBackslashes : Text → Nat
  | [] => 0
  | c :: rest =>
    (if c = '\\' ∧ ¬ (rest.head? = some '%' ∨ rest.head? = some '_') then 1 else 0) + activeBackslashes rest

theorem activeBackslashes_zero (s : Text) : activeBackslashes s = 0 ↔ NoActiveBackslash s := by
  induction s with
  | nil => simp [activeBackslashes, NoActiveBackslash]
  | cons c s ih =>
    constructor
    · intro h a b e
      simp only [activeBackslashes, Nat.add_eq_zero_iff] at h
      cases a with
      | nil =>
        obtain ⟨rfl, rfl⟩ := List.cons.inj e
        exact Classical.byContradiction fun hn => by simp [hn] at h
      | cons x a => exact ih.mp h.2 a b (List.cons.inj e).2
    · intro h
      have h1 : activeBackslashes s = 0 := ih.mpr fun a b e => h (c :: a) b (by rw [e]; rfl)
      simp only [activeBackslashes, h1, Nat.add_zero]
      split
      · rename_i hc
        obtain ⟨rfl, hc⟩ := hc
        exact absurd (h [] s rfl) hc
      · rfl

theorem activeBackslashes_other {c : Char} (s : Text) (h : c ≠ '\\') : activeBackslashes (c :: s) = activeBackslashes s := by
  simp [activeBackslashes, h]

/-- What a backslash and a character denote takes up the two characters, or one that is worth two. -/
theorem mysqlEsc_cost {d : Char} {e : Text} (h : mysqlEsc d = some e) (c : Text) :
    (e ++ c).length + (e ++ c).count '\'' + activeBackslashes (e ++ c) ≤
      2 + c.length + c.count '\'' + activeBackslashes c := by
  have single : ∀ x : Char, ([x] ++ c).length + ([x] ++ c).count '\'' + activeBackslashes ([x] ++ c) ≤
      2 + c.length + c.count '\'' + activeBackslashes c := by
    intro x
    simp only [List.cons_append, List.nil_append, List.length_cons, List.count_cons, activeBackslashes]
    by_cases hx : x = '\''
    · subst hx; simp; omega
    · have : (x == '\'') = false := by simp [hx]
      have hle : (if x = '\\' ∧ ¬ (c.head? = some '%' ∨ c.head? = some '_') then 1 else 0) ≤ 1 := by
        split <;> omega
      simp only [this, Bool.false_eq_true, if_false]
      omega
  unfold mysqlEsc at h
  by_cases h7 : d = '%'
  · subst h7
    have he : e = ['\\', '%'] := by simpa using h.symm
    subst he
    simp [activeBackslashes]
    omega
  by_cases h8 : d = '_'
  · subst h8
    have he : e = ['\\', '_'] := by simpa using h.symm
    subst he
    simp [activeBackslashes]
    omega
  simp only [h7, h8] at h
  repeat (first | (split at h; (· cases h; exact single _)) | (cases h; exact single _) | (simp at h))

/-- Reading a literal takes one character for every character delivered, one more for every quote and for every
    backslash that is not followed by `%` or `_`, and one for the closing quote. -/
theorem readEscaped_cost : ∀ (x c r : Text), readEscaped mysqlEsc x = some (c, r) →
    c.length + c.count '\'' + activeBackslashes c + 1 + r.length ≤ x.length
  | [], c, r, h => by cases h
  | y :: x, c, r, h => by
    by_cases hy : y = '\\'
    · subst hy
      cases x with
      | nil => simp [readEscaped] at h
      | cons d x =>
        cases hd : mysqlEsc d with
        | none => simp [readEscaped, hd] at h
        | some e =>
          rw [readEscaped_esc _ d e x hd] at h
          obtain ⟨⟨c', r'⟩, h', he⟩ := Option.map_eq_some_iff.mp h
          simp only [Prod.mk.injEq] at he
          obtain ⟨rfl, rfl⟩ := he
          have ih := readEscaped_cost x c' r' h'
          have := mysqlEsc_cost hd c'
          simp only [List.length_cons]
          omega
    · by_cases hq : y = '\''
      · subst hq
        cases x with
        | nil =>
          simp [readEscaped] at h
          obtain ⟨rfl, rfl⟩ := h
          simp [activeBackslashes]
        | cons d x =>
          by_cases hd : d = '\''
          · subst hd
            rw [readEscaped_dbl] at h
            obtain ⟨⟨c', r'⟩, h', he⟩ := Option.map_eq_some_iff.mp h
            simp only [Prod.mk.injEq] at he
            obtain ⟨rfl, rfl⟩ := he
            have ih := readEscaped_cost x c' r' h'
            rw [activeBackslashes_other c' (by decide)]
            simp only [List.length_cons, List.count_cons_self]
            omega
          · rw [readEscaped_close _ (d :: x) (by simpa using hd)] at h
            simp only [Option.some.injEq, Prod.mk.injEq] at h
            obtain ⟨rfl, rfl⟩ := h
            simp [activeBackslashes]
            omega
      · rw [readEscaped_other _ y x hy hq] at h
        obtain ⟨⟨c', r'⟩, h', he⟩ := Option.map_eq_some_iff.mp h
        simp only [Prod.mk.injEq] at he
        obtain ⟨rfl, rfl⟩ := he
        have ih := readEscaped_cost x c' r' h'
        rw [activeBackslashes_other c' hy, List.count_cons_of_ne hq]
        simp only [List.length_cons]
        omega

theorem replaceQuote_length (s : Text) : (replaceChar '\'' ['\'', '\''] s).length = s.length + s.count '\'' := by
  induction s with
  | nil => rfl
  | cons c s ih =>
    by_cases hc : c = '\''
    · subst hc; simp [ih]; omega
    · simp [hc, ih]; omega

theorem readEscaped_replace_mysql (s rest : Text) (hs : NoActiveBackslash s) (h : rest.head? ≠ some '\'') :
    readEscaped mysqlEsc (replaceChar '\'' ['\'', '\''] s ++ '\'' :: rest) = some (s, rest) := by
  match s, hs with
  | [], _ => simpa using readEscaped_close _ rest h
  | c :: s, hs =>
    have hs' : NoActiveBackslash s := fun a b e => hs (c :: a) b (by rw [e]; rfl)
    by_cases hc : c = '\\'
    · subst hc
      match s, hs [] s rfl, hs' with
      | d :: s, hd, hs' =>
        have hs2 : NoActiveBackslash s := fun a b e => hs' (d :: a) b (by rw [e]; rfl)
        have ih := readEscaped_replace_mysql s rest hs2 h
        simp only [List.head?_cons, Option.some.injEq] at hd
        have he : mysqlEsc d = some ['\\', d] := by rcases hd with rfl | rfl <;> decide
        have hq : d ≠ '\'' := by rcases hd with rfl | rfl <;> decide
        simp only [replaceChar_cons, hq, if_false, List.cons_append, List.nil_append,
          if_neg (by decide : ¬ ('\\' : Char) = '\'')]
        rw [readEscaped_esc _ _ _ _ he, ih]
        rfl
    · have ih := readEscaped_replace_mysql s rest hs' h
      by_cases hq : c = '\''
      · subst hq
        simp [readEscaped_dbl, ih]
      · simp [readEscaped_other, hc, hq, ih]

/-- On MySQL, the literal is read back as the text exactly if no backslash of the text is active: whatever follows,
    any other text is stored as something else, or swallows what follows it. -/
theorem C16_mysql_exact (s rest : Text) (h : rest.head? ≠ some '\'') :
    readMySQL (quote s ++ rest) = some (s, rest) ↔ NoActiveBackslash s := by
  have hq : quote s ++ rest = '\'' :: (replaceChar '\'' ['\'', '\''] s ++ '\'' :: rest) := by simp [quote, t]
  rw [hq]
  show readEscaped mysqlEsc _ = _ ↔ _
  constructor
  · intro hr
    have := readEscaped_cost _ _ _ hr
    simp only [List.length_append, replaceQuote_length, List.length_cons] at this
    exact (activeBackslashes_zero s).mp (by omega)
  · intro hs
    exact readEscaped_replace_mysql s rest hs h

/-- A text without any backslash, in particular. -/
theorem C16_mysql_plain (s rest : Text) (hs : '\\' ∉ s) (h : rest.head? ≠ some '\'') :
    readMySQL (quote s ++ rest) = some (s, rest) :=
  (C16_mysql_exact s rest h).mpr fun a b e => absurd (e ▸ by simp) hs

/-- With one it may even do harm: a trailing backslash lets the literal swallow the SQL that follows it. -/
theorem C16_quote_mysql_fails :
    ∃ s rest : Text, rest.head? ≠ some '\'' ∧ readMySQL (quote s ++ rest) ≠ some (s, rest) ∧
      readMySQL (quote s ++ rest) = some (t "' OR 1=1 ", []) :=
  ⟨t "\\", t " OR 1=1 '", by decide, by simp [readMySQL, quote, t_def, readEscaped, mysqlEsc],
    by simp [readMySQL, quote, t_def, readEscaped, mysqlEsc]⟩

example : readString (quote (t "it's; -- '' \\") ++ t " OR 1=1") = some (t "it's; -- '' \\", t " OR 1=1") :=
  C16_quote_reads_back _ _ (by decide)

example : '\\' ∉ t "it's" ∧ readMySQL (quote (t "it's") ++ t ";") = some (t "it's", t ";") :=
  ⟨by decide, C16_mysql_plain _ _ (by decide) (by decide)⟩

/-- Texts with a backslash that are read back, and one that is not. -/
example : NoActiveBackslash (t "100\\%") ∧ ¬ NoActiveBackslash (t "C:\\new") :=
  ⟨(activeBackslashes_zero _).mp (by decide +kernel), fun h => absurd ((activeBackslashes_zero _).mpr h) (by decide +kernel)⟩

end PySqlSync
