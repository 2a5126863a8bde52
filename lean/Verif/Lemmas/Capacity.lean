/-
Lemmas for C48: reading the names of types; what annotations do.
-/
import Verif.Spec.Capacity
import Verif.Lemmas.Url

set_option autoImplicit false

namespace PySqlSync
open Spec
namespace C48

theorem numbers_digits : ∀ (s : Text) (a : Nat) (c : Char) (rest : Text), (∀ x ∈ s, x.isDigit = true) → c.isDigit = false →
    ∃ n, s.foldl (fun acc c => acc.bind (fun n => if c.isDigit then some (10 * n + (c.toNat - 48)) else none)) (some a) = some n ∧
      numbersFrom (some a) (s ++ c :: rest) = n :: numbersFrom none rest
  | [], a, c, rest, _, hc => ⟨a, rfl, by simp [numbersFrom, hc]⟩
  | x :: s, a, c, rest, h, hc => by
    have hx := h x (List.mem_cons_self ..)
    obtain ⟨n, h1, h2⟩ := numbers_digits s (10 * a + (x.toNat - 48)) c rest (fun y hy => h y (List.mem_cons_of_mem _ hy)) hc
    refine ⟨n, ?_, ?_⟩
    · simp only [List.foldl_cons, Option.bind_some, hx, if_true]
      exact h1
    · rw [List.cons_append, numbersFrom, if_pos hx]
      exact h2

theorem numbers_natStr (n : Nat) (c : Char) (rest : Text) (hc : c.isDigit = false) :
    numbersFrom none (natStr n ++ c :: rest) = n :: numbersFrom none rest := by
  have hv := digitsValue_natStr n
  unfold digitsValue at hv
  have hch : ∀ x ∈ natStr n, x.isDigit = true := fun x hx => natStr_chars hx
  cases hs : natStr n with
  | nil => exact absurd hs (natStr_ne_nil n)
  | cons x s =>
    rw [hs] at hv hch
    have hx := hch x (List.mem_cons_self ..)
    obtain ⟨m, h1, h2⟩ := numbers_digits s (x.toNat - 48) c rest (fun y hy => hch y (List.mem_cons_of_mem _ hy)) hc
    simp only [List.foldl_cons, Option.bind_some, hx, if_true, Nat.mul_zero, Nat.zero_add] at hv
    rw [h1] at hv
    cases hv
    rw [List.cons_append, numbersFrom, if_pos hx, h2]

/-- A type with one parameter. -/
theorem one (b : Text) (n : Nat) (hb : ∀ c ∈ b, c ≠ '(') :
    typeBase (b ++ t "(" ++ natStr n ++ t ")") = b ∧ typeParams (b ++ t "(" ++ natStr n ++ t ")") = [n] := by
  have hb' : ∀ c ∈ b, (decide (c ≠ '(')) = true := fun c hc => by simpa using hb c hc
  have hh : ∀ X : Text, t "(" ++ X = '(' :: X := fun _ => rfl
  constructor
  · unfold typeBase
    simp only [List.append_assoc]
    rw [List.takeWhile_append_of_pos hb', hh]
    simp
  · unfold typeParams
    simp only [List.append_assoc]
    rw [List.dropWhile_append_of_pos hb', hh]
    have := numbers_natStr n ')' [] (by decide)
    rw [show t ")" = [')'] from rfl]
    simp only [List.dropWhile_cons, numbersFrom]
    simpa [numbersFrom] using this

/-- A type with two parameters. -/
theorem two (b : Text) (n m : Nat) (hb : ∀ c ∈ b, c ≠ '(') :
    typeBase (b ++ t "(" ++ natStr n ++ t ", " ++ natStr m ++ t ")") = b ∧ typeParams (b ++ t "(" ++ natStr n ++ t ", " ++ natStr m ++ t ")") = [n, m] := by
  have hb' : ∀ c ∈ b, (decide (c ≠ '(')) = true := fun c hc => by simpa using hb c hc
  have hh : ∀ X : Text, t "(" ++ X = '(' :: X := fun _ => rfl
  have hc : ∀ X : Text, t ", " ++ X = ',' :: ' ' :: X := fun _ => rfl
  constructor
  · unfold typeBase
    simp only [List.append_assoc]
    rw [List.takeWhile_append_of_pos hb', hh]
    simp
  · unfold typeParams
    simp only [List.append_assoc]
    rw [List.dropWhile_append_of_pos hb', hh, hc]
    have h2 := numbers_natStr m ')' [] (by decide)
    have h1 := numbers_natStr n ',' (' ' :: (natStr m ++ [')'])) (by decide)
    rw [show t ")" = [')'] from rfl]
    simp only [List.dropWhile_cons]
    have : ¬ (('(' : Char).isDigit = true) := by decide
    have hsp : ¬ ((' ' : Char).isDigit = true) := by decide
    simp only [numbersFrom, this, if_false, ne_eq, not_true_eq_false, decide_false, Bool.false_eq_true, h1, hsp]
    rw [h2]
    simp [numbersFrom]

theorem findSome_snoc {α β : Type} (f : α → Option β) (ms : List α) (m : α) :
    (ms.reverse ++ [m]).findSome? f = (ms.reverse.findSome? f).or (f m) := by
  rw [List.findSome?_append]
  congr 1
  simp only [List.findSome?_cons, List.findSome?_nil]
  cases f m <;> rfl

theorem parse_text (c : Cls) : ∀ (ms : List Meta) (l : Option Nat), (∀ m ∈ ms, TextMeta m) →
    parseMetas (some (.varChar c l)) ms = .ok (some (.varChar c ((declaredLength ms).or l)))
  | [], l, _ => rfl
  | m :: ms, l, h => by
    have hm := h m (List.mem_cons_self ..)
    have ih := fun l => parse_text c ms l (fun x hx => h x (List.mem_cons_of_mem _ hx))
    unfold declaredLength at ih ⊢
    rw [List.reverse_cons, findSome_snoc]
    cases m <;> simp only [TextMeta] at hm
    · rw [parseMetas.eq_4 _ _ _ (by intro h; cases h)]
      simp only [SqlType.parseMeta, ih, Meta.length?]
      cases List.findSome? Meta.length? ms.reverse <;> rfl
    · rw [parseMetas, ih]
      simp [Meta.length?]

theorem parse_timestamp (c : Cls) (z : Bool) : ∀ (ms : List Meta) (l : Option Nat), (∀ m ∈ ms, TimeMeta m) →
    parseMetas (some (.timestamp c l z)) ms = .ok (some (.timestamp c ((declaredDigits ms).or l) z))
  | [], l, _ => rfl
  | m :: ms, l, h => by
    have hm := h m (List.mem_cons_self ..)
    have ih := fun l => parse_timestamp c z ms l (fun x hx => h x (List.mem_cons_of_mem _ hx))
    unfold declaredDigits at ih ⊢
    rw [List.reverse_cons, findSome_snoc]
    cases m <;> simp only [TimeMeta] at hm
    · rw [parseMetas.eq_4 _ _ _ (by intro h; cases h)]
      simp only [SqlType.parseMeta, ih, Meta.timeDigits?]
      cases List.findSome? Meta.timeDigits? ms.reverse <;> rfl
    · rw [parseMetas, ih]
      simp [Meta.timeDigits?]

theorem parse_time (c : Cls) (z : Bool) : ∀ (ms : List Meta) (l : Option Nat), (∀ m ∈ ms, TimeMeta m) →
    parseMetas (some (.time c l z)) ms = .ok (some (.time c ((declaredDigits ms).or l) z))
  | [], l, _ => rfl
  | m :: ms, l, h => by
    have hm := h m (List.mem_cons_self ..)
    have ih := fun l => parse_time c z ms l (fun x hx => h x (List.mem_cons_of_mem _ hx))
    unfold declaredDigits at ih ⊢
    rw [List.reverse_cons, findSome_snoc]
    cases m <;> simp only [TimeMeta] at hm
    · rw [parseMetas.eq_4 _ _ _ (by intro h; cases h)]
      simp only [SqlType.parseMeta, ih, Meta.timeDigits?]
      cases List.findSome? Meta.timeDigits? ms.reverse <;> rfl
    · rw [parseMetas, ih]
      simp [Meta.timeDigits?]

theorem parse_decimal : ∀ (ms : List Meta) (a b : Option Nat), (∀ m ∈ ms, NumberMeta m) →
    parseMetas (some (.decimal a b)) ms = .ok (some (match declaredPrecision ms with | some (p, s) => .decimal (some p) (some s) | none => .decimal a b))
  | [], _, _, _ => rfl
  | m :: ms, a, b, h => by
    have hm := h m (List.mem_cons_self ..)
    have ih := fun a b => parse_decimal ms a b (fun x hx => h x (List.mem_cons_of_mem _ hx))
    unfold declaredPrecision at ih ⊢
    rw [List.reverse_cons, findSome_snoc]
    cases m <;> simp only [NumberMeta] at hm
    · rw [parseMetas.eq_4 _ _ _ (by intro h; cases h)]
      simp only [SqlType.parseMeta, ih, Meta.precision?]
      cases List.findSome? Meta.precision? ms.reverse <;> rfl
    · rw [parseMetas, ih]
      simp [Meta.precision?]

theorem parse_float : ∀ (ms : List Meta) (a : Option Nat), (∀ m ∈ ms, NumberMeta m) →
    parseMetas (some (.float a)) ms = .ok (some (.float (((declaredPrecision ms).map Prod.fst).or a)))
  | [], _, _ => rfl
  | m :: ms, a, h => by
    have hm := h m (List.mem_cons_self ..)
    have ih := fun a => parse_float ms a (fun x hx => h x (List.mem_cons_of_mem _ hx))
    unfold declaredPrecision at ih ⊢
    rw [List.reverse_cons, findSome_snoc]
    cases m <;> simp only [NumberMeta] at hm
    · rw [parseMetas.eq_4 _ _ _ (by intro h; cases h)]
      simp only [SqlType.parseMeta, ih, Meta.precision?]
      cases List.findSome? Meta.precision? ms.reverse <;> rfl
    · rw [parseMetas, ih]
      simp [Meta.precision?]

theorem utf8_le (s : Text) : utf8Length s ≤ 4 * s.length := by
  induction s with
  | nil => simp [utf8Length]
  | cons c s ih =>
    have := Char.utf8Size_le_four c
    simp only [utf8Length, List.map_cons, List.sum_cons, List.length_cons] at ih ⊢
    omega

theorem utf8_ascii (s : Text) (h : ∀ c ∈ s, c.toNat < 128) : utf8Length s = s.length := by
  induction s with
  | nil => simp [utf8Length]
  | cons c s ih =>
    have h1 : c.utf8Size = 1 := by
      rw [Char.utf8Size_eq_one_iff]
      have := h c (List.mem_cons_self ..)
      rw [Char.toNat] at this
      exact UInt32.le_iff_toNat_le.2 (by simpa using Nat.le_of_lt_succ this)
    have := ih (fun x hx => h x (List.mem_cons_of_mem _ hx))
    simp only [utf8Length, List.map_cons, List.sum_cons, List.length_cons] at this ⊢
    omega

theorem sum_replicate (n k : Nat) : (List.replicate n k).sum = k * n := by
  induction n with
  | zero => simp
  | succ n ih => rw [List.replicate_succ, List.sum_cons, ih, Nat.mul_succ, Nat.add_comm]

/-- A string of `n` characters of four bytes each. -/
def faces (n : Nat) : Text := List.replicate n (Char.ofNat 0x1F600)
theorem faces_utf8 (n : Nat) : utf8Length (faces n) = 4 * n := by
  have h : (Char.ofNat 0x1F600).utf8Size = 4 := by decide
  unfold utf8Length faces
  rw [List.map_replicate, h, sum_replicate]
theorem faces_length (n : Nat) : (faces n).length = n := List.length_replicate

def letters (n : Nat) : Text := List.replicate n 'x'
theorem letters_utf8 (n : Nat) : utf8Length (letters n) = n := by
  have h : ('x' : Char).utf8Size = 1 := by decide
  unfold utf8Length letters
  rw [List.map_replicate, h, sum_replicate, Nat.one_mul]
theorem letters_length (n : Nat) : (letters n).length = n := List.length_replicate
theorem letters_ascii (n : Nat) : ∀ c ∈ letters n, c.toNat < 128 := by
  intro c hc
  rw [List.eq_of_mem_replicate hc]
  decide

end C48
end PySqlSync
