/-
C16 on Delta and Snowflake, whose literals have backslash escapes, too.
-/
import Verif.Props.C16
import Verif.Props.C18

set_option autoImplicit false

namespace PySqlSync
open Spec

namespace C16

/-- What a text takes up in a literal, besides its characters and its quotes. -/
structure Weight (extra : Text → Nat) : Prop where
  nil : extra [] = 0
  le : ∀ c s, extra (c :: s) ≤ extra s + 1
  other : ∀ c s, c ≠ '\\' → extra (c :: s) = extra s

theorem single_cost {extra : Text → Nat} (hw : Weight extra) (x : Char) (c : Text) :
    (x :: c).length + (x :: c).count '\'' + extra (x :: c) ≤ 2 + c.length + c.count '\'' + extra c := by
  by_cases hx : x = '\''
  · subst hx
    rw [hw.other _ _ (by decide), List.count_cons_self]
    simp only [List.length_cons]; omega
  · rw [List.count_cons_of_ne hx]
    have := hw.le x c
    simp only [List.length_cons]; omega

/-- Reading a literal takes one character for every character delivered, one more for every quote, the weight, and one for the
    closing quote. -/
theorem oct_cost {esc : Char → Option Text} {extra : Text → Nat} (hw : Weight extra)
    (hesc : ∀ d e c, esc d = some e → (e ++ c).length + (e ++ c).count '\'' + extra (e ++ c) ≤ 2 + c.length + c.count '\'' + extra c) :
    ∀ (x : Text) (n : Nat) (c r : Text), readEscapedOct esc n x = some (c, r) →
      c.length + c.count '\'' + extra c + 1 + r.length + n ≤ x.length
  | [], n, c, r, h => by cases n <;> cases h
  | y :: x, n + 1, c, r, h => by
    have := oct_cost hw hesc x n c r h
    simp only [List.length_cons]; omega
  | y :: x, 0, c, r, h => by
    by_cases hy : y = '\\'
    · subst hy
      cases ho : octal3 x with
      | some e =>
        have h' : (readEscapedOct esc 3 x).map (fun p => (e :: p.1, p.2)) = some (c, r) := by
          unfold readEscapedOct at h; rw [if_pos rfl, ho] at h; exact h
        obtain ⟨⟨c', r'⟩, h'', he⟩ := Option.map_eq_some_iff.mp h'
        simp only [Prod.mk.injEq] at he
        obtain ⟨rfl, rfl⟩ := he
        have ih := oct_cost hw hesc x 3 c' r' h''
        have := single_cost hw e c'
        simp only [List.length_cons] at this ⊢
        omega
      | none =>
        cases x with
        | nil => rw [readEscapedOct, if_pos rfl, ho] at h; cases h
        | cons d x =>
          rw [readEscapedOct, if_pos rfl, ho] at h
          dsimp only at h
          cases hd : esc d with
          | none => rw [hd] at h; cases h
          | some e =>
            rw [hd] at h
            obtain ⟨⟨c', r'⟩, h', he⟩ := Option.map_eq_some_iff.mp h
            simp only [Prod.mk.injEq] at he
            obtain ⟨rfl, rfl⟩ := he
            have ih := oct_cost hw hesc x 0 c' r' h'
            have := hesc d e c' hd
            simp only [List.length_cons]
            omega
    · by_cases hq : y = '\''
      · subst hq
        cases x with
        | nil =>
          rw [readEscapedOct, if_neg (by decide), if_pos rfl] at h
          simp only [Option.some.injEq, Prod.mk.injEq] at h
          obtain ⟨rfl, rfl⟩ := h
          rw [hw.nil]; simp
        | cons d x =>
          rw [readEscapedOct, if_neg (by decide), if_pos rfl] at h
          by_cases hd : d = '\''
          · subst hd
            rw [if_pos rfl] at h
            obtain ⟨⟨c', r'⟩, h', he⟩ := Option.map_eq_some_iff.mp h
            simp only [Prod.mk.injEq] at he
            obtain ⟨rfl, rfl⟩ := he
            have ih := oct_cost hw hesc x 0 c' r' h'
            rw [hw.other _ _ (by decide), List.count_cons_self]
            simp only [List.length_cons]
            omega
          · rw [if_neg hd] at h
            simp only [Option.some.injEq, Prod.mk.injEq] at h
            obtain ⟨rfl, rfl⟩ := h
            rw [hw.nil]; simp; omega
      · rw [readEscapedOct_other _ y x hy hq] at h
        obtain ⟨⟨c', r'⟩, h', he⟩ := Option.map_eq_some_iff.mp h
        simp only [Prod.mk.injEq] at he
        obtain ⟨rfl, rfl⟩ := he
        have ih := oct_cost hw hesc x 0 c' r' h'
        rw [hw.other _ _ hy, List.count_cons_of_ne hq]
        simp only [List.length_cons]
        omega

theorem active_weight : Weight activeBackslashes where
  nil := rfl
  le c s := by
    have : (if c = '\\' ∧ ¬ (s.head? = some '%' ∨ s.head? = some '_') then 1 else 0) ≤ 1 := by split <;> omega
    simp only [activeBackslashes]; omega
  other c s h := activeBackslashes_other s h

theorem count_weight : Weight (List.count '\\') where
  nil := rfl
  le c s := by
    rw [List.count_cons]
    split <;> omega
  other c s h := List.count_cons_of_ne h

theorem delta_cost (d : Char) (e c : Text) (h : deltaEsc d = some e) :
    (e ++ c).length + (e ++ c).count '\'' + activeBackslashes (e ++ c) ≤ 2 + c.length + c.count '\'' + activeBackslashes c := by
  have single := fun x => single_cost active_weight x c
  unfold deltaEsc at h
  by_cases h7 : d = '%'
  · subst h7
    have he : e = ['\\', '%'] := by simpa using h.symm
    subst he
    simp [activeBackslashes]
    omega
  by_cases h8 : d = '_'
  · subst h8
    have he : e = ['\\', '_'] := by simpa using h.symm
    subst he
    simp [activeBackslashes]
    omega
  by_cases hu : d = 'u' ∨ d = 'U'
  · rcases hu with rfl | rfl <;> simp at h
  · rw [not_or] at hu
    simp only [h7, h8, hu.1, hu.2] at h
    repeat (first | (split at h; (· cases h; exact single _)) | (cases h; exact single _) | (simp at h; subst h; exact single _))

theorem snowflake_cost (d : Char) (e c : Text) (h : snowflakeEsc d = some e) :
    (e ++ c).length + (e ++ c).count '\'' + (e ++ c).count '\\' ≤ 2 + c.length + c.count '\'' + c.count '\\' := by
  have single := fun x => single_cost count_weight x c
  unfold snowflakeEsc at h
  repeat (first | (split at h; (· cases h; try exact single _)) | (cases h; exact single _) | (simp at h))

theorem oct_replace_delta (s rest : Text) (hs : NoActiveBackslash s) (h : rest.head? ≠ some '\'') :
    readEscapedOct deltaEsc 0 (replaceChar '\'' ['\'', '\''] s ++ '\'' :: rest) = some (s, rest) := by
  match s, hs with
  | [], _ => exact readEscapedOct_replace deltaEsc [] rest (by simp) h
  | c :: s, hs =>
    have hs' : NoActiveBackslash s := fun a b e => hs (c :: a) b (by rw [e]; rfl)
    by_cases hc : c = '\\'
    · subst hc
      match s, hs [] s rfl, hs' with
      | d :: s, hd, hs' =>
        have hs2 : NoActiveBackslash s := fun a b e => hs' (d :: a) b (by rw [e]; rfl)
        have ih := oct_replace_delta s rest hs2 h
        simp only [List.head?_cons, Option.some.injEq] at hd
        have he : deltaEsc d = some ['\\', d] := by rcases hd with rfl | rfl <;> decide
        have hq : d ≠ '\'' := by rcases hd with rfl | rfl <;> decide
        have ho : ∀ r : Text, octal3 (d :: r) = none := by
          intro r
          have : octDigit d = none := by rcases hd with rfl | rfl <;> decide
          unfold octal3
          split
          · rename_i heq; cases heq; rw [this]
          · rfl
        simp only [replaceChar_cons, hq, if_false, List.cons_append, List.nil_append, if_neg (by decide : ¬ ('\\' : Char) = '\'')]
        rw [readEscapedOct, if_pos rfl, ho]
        dsimp only
        rw [he, ih]
        rfl
    · have ih := oct_replace_delta s rest hs' h
      by_cases hq : c = '\''
      · subst hq
        simp only [replaceChar_cons, if_true, List.cons_append, List.nil_append]
        rw [readEscapedOct, if_neg (by decide), if_pos rfl, if_pos rfl, ih]
        rfl
      · simp only [replaceChar_cons, hq, if_false, List.cons_append, List.nil_append]
        rw [readEscapedOct_other _ _ _ hc hq, ih]
        rfl

end C16

/-- On Delta (Databricks), whose literals have backslash escapes, the literal is read back exactly if every backslash of the text is
    followed by `%` or `_`. -/
theorem C16_delta_exact (s rest : Text) (h : rest.head? ≠ some '\'') :
    readDelta (quote s ++ rest) = some (s, rest) ↔ NoActiveBackslash s := by
  have hq : quote s ++ rest = '\'' :: (replaceChar '\'' ['\'', '\''] s ++ '\'' :: rest) := by simp [quote, t]
  rw [hq]
  show readEscapedOct deltaEsc 0 _ = _ ↔ _
  constructor
  · intro hr
    have := C16.oct_cost C16.active_weight C16.delta_cost _ _ _ _ hr
    simp only [List.length_append, replaceQuote_length, List.length_cons] at this
    exact (activeBackslashes_zero s).mp (by omega)
  · intro hs
    exact C16.oct_replace_delta s rest hs h

/-- On Snowflake the literal is read back exactly if the text has no backslash. -/
theorem C16_snowflake_exact (s rest : Text) (h : rest.head? ≠ some '\'') :
    readSnowflake (quote s ++ rest) = some (s, rest) ↔ '\\' ∉ s := by
  have hq : quote s ++ rest = '\'' :: (replaceChar '\'' ['\'', '\''] s ++ '\'' :: rest) := by simp [quote, t]
  rw [hq]
  show readEscapedOct snowflakeEsc 0 _ = _ ↔ _
  constructor
  · intro hr
    have := C16.oct_cost C16.count_weight C16.snowflake_cost _ _ _ _ hr
    simp only [List.length_append, replaceQuote_length, List.length_cons] at this
    exact List.count_eq_zero.1 (by omega)
  · intro hs
    exact readEscapedOct_replace snowflakeEsc s rest hs h

example : readDelta (quote (t "100\\% of '1'") ++ t ";") = some (t "100\\% of '1'", t ";") ∧
    readSnowflake (quote (t "100\\% of '1'") ++ t ";") = some (t "100% of '1'", t ";") := by decide +kernel

end PySqlSync
