/-
The JSON text of a value is read as that value.
-/
import Verif.Spec.Bind
import Verif.Lemmas.Url

set_option autoImplicit false

namespace PySqlSync
open Spec
namespace Json

theorem hex_ok : ∀ n, n < 32 → unicodeEscape '0' '0' (jsonHex (n / 16)) (jsonHex (n % 16)) = some (Char.ofNat n) := by decide +kernel

theorem char_eq {c : Char} {n : Nat} (h : c.toNat = n) : c = Char.ofNat n := by rw [← h]; exact (Char.ofNat_toNat c).symm

theorem string_char (c : Char) (s : Text) : readJsonString (jsonChar c ++ s) = (readJsonString s).map (fun p => (c :: p.1, p.2)) := by
  unfold jsonChar
  have key : ∀ (x ch : Char), x ≠ 'u' → shortEscape x = some ch → readJsonString ('\\' :: x :: s) = (readJsonString s).map (fun p => (ch :: p.1, p.2)) := by
    intro x ch hx he
    conv => lhs; unfold readJsonString
    rw [if_neg (by decide), if_pos rfl]
    dsimp only
    rw [if_neg hx, he]
    cases readJsonString s with
    | none => rfl
    | some p => rfl
  by_cases h1 : c = '\\'
  · subst h1; rw [if_pos rfl]; exact key '\\' '\\' (by decide) rfl
  rw [if_neg h1]
  by_cases h2 : c = '"'
  · subst h2; rw [if_pos rfl]; exact key '"' '"' (by decide) rfl
  rw [if_neg h2]
  by_cases h3 : c.toNat = 8
  · rw [if_pos h3, char_eq h3]; exact key 'b' _ (by decide) rfl
  rw [if_neg h3]
  by_cases h4 : c.toNat = 12
  · rw [if_pos h4, char_eq h4]; exact key 'f' _ (by decide) rfl
  rw [if_neg h4]
  by_cases h5 : c.toNat = 10
  · rw [if_pos h5, char_eq h5]; exact key 'n' _ (by decide) rfl
  rw [if_neg h5]
  by_cases h6 : c.toNat = 13
  · rw [if_pos h6, char_eq h6]; exact key 'r' _ (by decide) rfl
  rw [if_neg h6]
  by_cases h7 : c.toNat = 9
  · rw [if_pos h7, char_eq h7]; exact key 't' _ (by decide) rfl
  rw [if_neg h7]
  by_cases h8 : c.toNat < 32
  · rw [if_pos h8]
    show readJsonString ('\\' :: 'u' :: '0' :: '0' :: jsonHex (c.toNat / 16) :: jsonHex (c.toNat % 16) :: s) = _
    conv => lhs; unfold readJsonString
    rw [if_neg (by decide), if_pos rfl]
    dsimp only
    rw [if_pos rfl, hex_ok _ h8, Char.ofNat_toNat]
    cases readJsonString s with
    | none => rfl
    | some p => rfl
  · rw [if_neg h8]
    show readJsonString (c :: s) = _
    conv => lhs; unfold readJsonString
    rw [if_neg h2, if_neg h1, if_neg h8]
    cases readJsonString s with
    | none => rfl
    | some p => rfl

theorem string_back (s rest : Text) : readJsonString (s.flatMap jsonChar ++ '"' :: rest) = some (s, rest) := by
  induction s with
  | nil => show readJsonString ('"' :: rest) = _; unfold readJsonString; rw [if_pos rfl]
  | cons c s ih =>
    rw [List.flatMap_cons, List.append_assoc, string_char, ih]
    rfl

/-- What may follow a value in a list, in a dictionary, or at the end. -/
def Stop (rest : Text) : Prop := rest = [] ∨ ∃ c r, rest = c :: r ∧ (c = ',' ∨ c = ']' ∨ c = '}')

theorem digits_back (n : Nat) : jsonDigits (natStr n) = n := by
  have key : ∀ (s : Text), (∀ c ∈ s, c.isDigit = true) → ∀ a m,
      s.foldl (fun acc c => acc.bind (fun n => if c.isDigit then some (10 * n + (c.toNat - 48)) else none)) (some a) = some m →
      s.foldl (fun a c => a * 10 + (c.toNat - 48)) a = m := by
    intro s
    induction s with
    | nil => intro _ a m h; injection h
    | cons c s ih =>
      intro hs a m h
      rw [List.foldl_cons] at h ⊢
      refine ih (fun d hd => hs d (List.mem_cons_of_mem _ hd)) _ m ?_
      rw [Option.bind_some, if_pos (hs c List.mem_cons_self)] at h
      rw [Nat.mul_comm]
      exact h
  exact key _ (fun c hc => natStr_chars hc) 0 n (digitsValue_natStr n)

theorem nat_back (n : Nat) {rest : Text} (h : Stop rest) : readJsonNat (natStr n ++ rest) = some (n, rest) := by
  have hall : ∀ c ∈ natStr n, c.isDigit = true := fun c hc => natStr_chars hc
  have hstop : rest.takeWhile Char.isDigit = [] ∧ rest.dropWhile Char.isDigit = rest := by
    rcases h with rfl | ⟨c, r, rfl, rfl | rfl | rfl⟩
    · exact ⟨rfl, rfl⟩
    · exact ⟨rfl, rfl⟩
    · exact ⟨rfl, rfl⟩
    · exact ⟨rfl, rfl⟩
  have h1 : (natStr n ++ rest).takeWhile Char.isDigit = natStr n := by
    rw [List.takeWhile_append_of_pos hall, hstop.1, List.append_nil]
  have h2 : (natStr n ++ rest).dropWhile Char.isDigit = rest := by
    rw [List.dropWhile_append_of_pos hall, hstop.2]
  unfold readJsonNat
  dsimp only
  rw [h1, h2, if_neg (natStr_ne_nil n), digits_back]
  rcases h with rfl | ⟨c, r, rfl, rfl | rfl | rfl⟩ <;> simp

mutual
/-- The depth and length that are needed to read a value. -/
def size : PyVal → Nat
  | .list items => sizes items + 1
  | .dict items => sizeItems items + 1
  | _ => 1
def sizes : PyVals → Nat
  | .nil => 0
  | .cons v rest => size v + sizes rest + 1
def sizeItems : PyItems → Nat
  | .nil => 0
  | .cons _ v rest => size v + sizeItems rest + 1
end

/-- A value begins with none of these. -/
def Starts (s : Text) : Prop := ∃ c r, s = c :: r ∧ isJsonSpace c = false ∧ c ≠ ']' ∧ c ≠ '}'

theorem digit_starts {c : Char} (h : c.isDigit = true) : isJsonSpace c = false ∧ c ≠ ']' ∧ c ≠ '}' ∧ c ≠ 'n' ∧ c ≠ 't' ∧ c ≠ 'f' ∧ c ≠ '"' ∧ c ≠ '-' ∧ c ≠ '[' ∧ c ≠ '{' := by
  have hb : 48 ≤ c.toNat ∧ c.toNat ≤ 57 := by
    unfold Char.isDigit at h
    simp only [Bool.and_eq_true, decide_eq_true_eq, ge_iff_le] at h
    exact h
  have ne : ∀ d : Char, (d.toNat < 48 ∨ 57 < d.toNat) → c ≠ d := by
    intro d hd e; subst e; omega
  refine ⟨?_, ne _ (by decide), ne _ (by decide), ne _ (by decide), ne _ (by decide), ne _ (by decide), ne _ (by decide), ne _ (by decide),
    ne _ (by decide), ne _ (by decide)⟩
  have h1 := ne ' ' (by decide)
  unfold isJsonSpace
  simp [h1]
  omega

theorem nat_cons (n : Nat) : ∃ c r, natStr n = c :: r ∧ c.isDigit = true := by
  match h : natStr n with
  | [] => exact absurd h (natStr_ne_nil n)
  | c :: r => exact ⟨c, r, rfl, natStr_chars (n := n) (by rw [h]; simp)⟩

theorem starts {v : PyVal} {s : Text} (h : v.encode = .ok s) : Starts s := by
  cases v with
  | none => rw [PyVal.encode] at h; cases h; exact ⟨'n', _, rfl, by decide, by decide, by decide⟩
  | bool b =>
    cases b
    · rw [PyVal.encode] at h; cases h; exact ⟨'f', _, rfl, by decide, by decide, by decide⟩
    · rw [PyVal.encode] at h; cases h; exact ⟨'t', _, rfl, by decide, by decide, by decide⟩
  | int n =>
    rw [PyVal.encode] at h; cases h
    unfold jsonInt
    split
    · exact ⟨'-', _, rfl, by decide, by decide, by decide⟩
    · obtain ⟨c, r, e, hc⟩ := nat_cons n.natAbs
      have := digit_starts hc
      exact ⟨c, r, e, this.1, this.2.1, this.2.2.1⟩
  | str x => rw [PyVal.encode] at h; cases h; exact ⟨'"', _, rfl, by decide, by decide, by decide⟩
  | list items =>
    rw [PyVal.encode] at h
    simp only [bind, Except.bind, pure, Except.pure] at h
    split at h
    · cases h
    · cases h; exact ⟨'[', _, rfl, by decide, by decide, by decide⟩
  | dict items =>
    rw [PyVal.encode] at h
    simp only [bind, Except.bind, pure, Except.pure] at h
    split at h
    · cases h
    · cases h; exact ⟨'{', _, rfl, by decide, by decide, by decide⟩
  | _ => rw [PyVal.encode] at h <;> first | cases h | (intros; intro hh; cases hh)

theorem skip_starts {c : Char} {s : Text} (h : isJsonSpace c = false) : skipSpace (c :: s) = c :: s := by
  unfold skipSpace
  rw [List.dropWhile_cons_of_neg (by simp [h])]

theorem items_start {v : PyVal} {l : PyVals} {s : Text} (h : (PyVals.cons v l).encode = .ok s) : Starts s := by
  cases l with
  | nil => rw [PyVals.encode] at h; exact starts h
  | cons w l =>
    rw [PyVals.encode] at h
    simp only [bind, Except.bind, pure, Except.pure] at h
    split at h
    · cases h
    rename_i a ha
    split at h
    · cases h
    cases h
    obtain ⟨c, r, rfl, hc⟩ := starts ha
    exact ⟨c, _, rfl, hc⟩

theorem members_start {k : Text} {v : PyVal} {l : PyItems} {s : Text} (h : (PyItems.cons k v l).encode = .ok s) : ∃ r, s = '"' :: r := by
  cases l with
  | nil =>
    rw [PyItems.encode] at h
    simp only [bind, Except.bind, pure, Except.pure] at h
    split at h
    · cases h
    cases h
    exact ⟨_, rfl⟩
  | cons k' w l =>
    rw [PyItems.encode] at h
    simp only [bind, Except.bind, pure, Except.pure] at h
    split at h
    · cases h
    split at h
    · cases h
    cases h
    exact ⟨_, rfl⟩

theorem stop_starts {rest : Text} (h : Stop rest) : skipSpace rest = rest := by
  rcases h with rfl | ⟨c, r, rfl, rfl | rfl | rfl⟩
  · rfl
  · exact skip_starts (by decide)
  · exact skip_starts (by decide)
  · exact skip_starts (by decide)

theorem prefix_tail (x rest : Text) : x <+: x ++ rest := List.prefix_append _ _

mutual
/-- The text of a value is read as the value. -/
theorem value_back : ∀ (v : PyVal) (s : Text), v.encode = .ok s → ∀ k, size v ≤ k → ∀ rest, Stop rest → readJson k (s ++ rest) = some (v, rest)
  | .none, s, h, k, hk, rest, _ => by
    rw [PyVal.encode] at h; cases h
    obtain ⟨k, rfl⟩ : ∃ j, k = j + 1 := ⟨k - 1, by simp only [size] at hk; omega⟩
    show readJson (k + 1) ('n' :: (t "ull" ++ rest)) = _
    unfold readJson
    rw [skip_starts (by decide)]
    dsimp only
    rw [if_pos rfl, if_pos (prefix_tail _ _)]
    rfl
  | .bool true, s, h, k, hk, rest, _ => by
    rw [PyVal.encode] at h; cases h
    obtain ⟨k, rfl⟩ : ∃ j, k = j + 1 := ⟨k - 1, by simp only [size] at hk; omega⟩
    show readJson (k + 1) ('t' :: (t "rue" ++ rest)) = _
    unfold readJson
    rw [skip_starts (by decide)]
    dsimp only
    rw [if_neg (by decide), if_pos rfl, if_pos (prefix_tail _ _)]
    rfl
  | .bool false, s, h, k, hk, rest, _ => by
    rw [PyVal.encode] at h; cases h
    obtain ⟨k, rfl⟩ : ∃ j, k = j + 1 := ⟨k - 1, by simp only [size] at hk; omega⟩
    show readJson (k + 1) ('f' :: (t "alse" ++ rest)) = _
    unfold readJson
    rw [skip_starts (by decide)]
    dsimp only
    rw [if_neg (by decide), if_neg (by decide), if_pos rfl, if_pos (prefix_tail _ _)]
    rfl
  | .int n, s, h, k, hk, rest, hr => by
    rw [PyVal.encode] at h; cases h
    obtain ⟨k, rfl⟩ : ∃ j, k = j + 1 := ⟨k - 1, by simp only [size] at hk; omega⟩
    unfold jsonInt
    by_cases hn : n < 0
    · rw [if_pos hn]
      show readJson (k + 1) ('-' :: (natStr n.natAbs ++ rest)) = _
      unfold readJson
      rw [skip_starts (by decide)]
      dsimp only
      rw [if_neg (by decide), if_neg (by decide), if_neg (by decide), if_neg (by decide), if_pos rfl, nat_back _ hr]
      have : (-(n.natAbs : Int)) = n := by omega
      rw [Option.map_some, this]
    · rw [if_neg hn]
      have hb := nat_back n.natAbs hr
      obtain ⟨c, r, e, hc⟩ := nat_cons n.natAbs
      rw [e] at hb ⊢
      obtain ⟨h1, h2, h3, h4, h5, h6, h7, h8, h9, h10⟩ := digit_starts hc
      show readJson (k + 1) (c :: (r ++ rest)) = _
      unfold readJson
      rw [skip_starts h1]
      dsimp only
      rw [if_neg h4, if_neg h5, if_neg h6, if_neg h7, if_neg h8, if_neg h9, if_neg h10]
      rw [show c :: (r ++ rest) = c :: r ++ rest from rfl, hb]
      have : (n.natAbs : Int) = n := by omega
      rw [Option.map_some, this]
  | .str x, s, h, k, hk, rest, _ => by
    rw [PyVal.encode] at h; cases h
    obtain ⟨k, rfl⟩ : ∃ j, k = j + 1 := ⟨k - 1, by simp only [size] at hk; omega⟩
    have e : jsonString x ++ rest = '"' :: (x.flatMap jsonChar ++ '"' :: rest) := by simp [jsonString]
    rw [e]
    unfold readJson
    rw [skip_starts (by decide)]
    dsimp only
    rw [if_neg (by decide), if_neg (by decide), if_neg (by decide), if_pos rfl, string_back]
    rfl
  | .list items, s, h, k, hk, rest, _ => by
    rw [PyVal.encode] at h
    simp only [bind, Except.bind, pure, Except.pure] at h
    split at h
    · cases h
    rename_i body hb
    cases h
    obtain ⟨k, rfl⟩ : ∃ j, k = j + 1 := ⟨k - 1, by simp only [size] at hk; omega⟩
    have e : '[' :: (body ++ [']']) ++ rest = '[' :: (body ++ ']' :: rest) := by simp
    rw [e]
    unfold readJson
    rw [skip_starts (by decide)]
    dsimp only
    rw [if_neg (by decide), if_neg (by decide), if_neg (by decide), if_neg (by decide), if_neg (by decide), if_pos rfl]
    match items, hb with
    | .nil, hb =>
      rw [PyVals.encode] at hb; cases hb
      rw [show ([] : Text) ++ ']' :: rest = ']' :: rest from rfl, skip_starts (by decide)]
      rfl
    | .cons v vs, hb =>
      have hs : Starts body := items_start hb
      have := items_back (.cons v vs) body hb k (by simp only [size] at hk; omega) rest (by intro h; cases h)
      obtain ⟨c, r, rfl, h1, h2, h3⟩ := hs
      rw [this]
      rw [show (c :: r) ++ ']' :: rest = c :: (r ++ ']' :: rest) from rfl, skip_starts h1]
      split
      · rename_i heq; injection heq with e1 _; exact absurd e1 h2
      · rfl
  | .dict items, s, h, k, hk, rest, _ => by
    rw [PyVal.encode] at h
    simp only [bind, Except.bind, pure, Except.pure] at h
    split at h
    · cases h
    rename_i body hb
    cases h
    obtain ⟨k, rfl⟩ : ∃ j, k = j + 1 := ⟨k - 1, by simp only [size] at hk; omega⟩
    have e : '{' :: (body ++ ['}']) ++ rest = '{' :: (body ++ '}' :: rest) := by simp
    rw [e]
    unfold readJson
    rw [skip_starts (by decide)]
    dsimp only
    rw [if_neg (by decide), if_neg (by decide), if_neg (by decide), if_neg (by decide), if_neg (by decide), if_neg (by decide), if_pos rfl]
    match items, hb with
    | .nil, hb =>
      rw [PyItems.encode] at hb; cases hb
      rw [show ([] : Text) ++ '}' :: rest = '}' :: rest from rfl, skip_starts (by decide)]
      rfl
    | .cons key v vs, hb =>
      have hs : ∃ r, body = '"' :: r := members_start hb
      have := members_back (.cons key v vs) body hb k (by simp only [size] at hk; omega) rest (by intro h; cases h)
      obtain ⟨r, rfl⟩ := hs
      rw [this]
      rw [show ('"' :: r) ++ '}' :: rest = '"' :: (r ++ '}' :: rest) from rfl, skip_starts (by decide)]
      rfl
  | .bytes _, s, h, _, _, _, _ => by rw [PyVal.encode] at h <;> first | cases h | (intros; intro hh; cases hh)
  | .uuid _, s, h, _, _, _, _ => by rw [PyVal.encode] at h <;> first | cases h | (intros; intro hh; cases hh)
  | .ipv4 _, s, h, _, _, _, _ => by rw [PyVal.encode] at h <;> first | cases h | (intros; intro hh; cases hh)
  | .ipv6 _, s, h, _, _, _, _ => by rw [PyVal.encode] at h <;> first | cases h | (intros; intro hh; cases hh)
  | .time _, s, h, _, _, _, _ => by rw [PyVal.encode] at h <;> first | cases h | (intros; intro hh; cases hh)
  | .timedelta _, s, h, _, _, _, _ => by rw [PyVal.encode] at h <;> first | cases h | (intros; intro hh; cases hh)
  | .member _, s, h, _, _, _, _ => by rw [PyVal.encode] at h <;> first | cases h | (intros; intro hh; cases hh)
  | .set _, s, h, _, _, _, _ => by rw [PyVal.encode] at h <;> first | cases h | (intros; intro hh; cases hh)
  | .opaque _, s, h, _, _, _, _ => by rw [PyVal.encode] at h <;> first | cases h | (intros; intro hh; cases hh)
theorem items_back : ∀ (l : PyVals) (s : Text), l.encode = .ok s → ∀ k, sizes l ≤ k → ∀ rest, l ≠ .nil →
    readJsonItems k (s ++ ']' :: rest) = some (l, rest)
  | .nil, _, _, _, _, _, h => absurd rfl h
  | .cons v .nil, s, h, k, hk, rest, _ => by
    rw [PyVals.encode] at h
    simp only [sizes] at hk
    obtain ⟨k, rfl⟩ : ∃ j, k = j + 1 := ⟨k - 1, by omega⟩
    have := value_back v s h k (by omega) (']' :: rest) (.inr ⟨_, _, rfl, .inr (.inl rfl)⟩)
    unfold readJsonItems
    rw [this]
    dsimp only
    rw [skip_starts (by decide)]
    dsimp only
    rw [if_pos rfl]
  | .cons v (.cons w l), s, h, k, hk, rest, _ => by
    rw [PyVals.encode] at h
    simp only [bind, Except.bind, pure, Except.pure] at h
    split at h
    · cases h
    rename_i a ha
    split at h
    · cases h
    rename_i b hb
    cases h
    simp only [sizes] at hk
    obtain ⟨k, rfl⟩ : ∃ j, k = j + 1 := ⟨k - 1, by omega⟩
    have h1 := value_back v a ha k (by omega) (',' :: (b ++ ']' :: rest)) (.inr ⟨_, _, rfl, .inl rfl⟩)
    have h2 := items_back (.cons w l) b hb k (by simp only [sizes]; omega) rest (by intro h; cases h)
    have e : a ++ ',' :: b ++ ']' :: rest = a ++ ',' :: (b ++ ']' :: rest) := by simp
    rw [e]
    unfold readJsonItems
    rw [h1]
    dsimp only
    rw [skip_starts (by decide)]
    dsimp only
    rw [if_neg (by decide), if_pos rfl, h2]
    rfl
theorem members_back : ∀ (l : PyItems) (s : Text), l.encode = .ok s → ∀ k, sizeItems l ≤ k → ∀ rest, l ≠ .nil →
    readJsonMembers k (s ++ '}' :: rest) = some (l, rest)
  | .nil, _, _, _, _, _, h => absurd rfl h
  | .cons key v .nil, s, h, k, hk, rest, _ => by
    rw [PyItems.encode] at h
    simp only [bind, Except.bind, pure, Except.pure] at h
    split at h
    · cases h
    rename_i a ha
    cases h
    simp only [sizeItems] at hk
    obtain ⟨k, rfl⟩ : ∃ j, k = j + 1 := ⟨k - 1, by omega⟩
    have h1 := value_back v a ha k (by omega) ('}' :: rest) (.inr ⟨_, _, rfl, .inr (.inr rfl)⟩)
    have e : jsonString key ++ ':' :: a ++ '}' :: rest = '"' :: (key.flatMap jsonChar ++ '"' :: (':' :: (a ++ '}' :: rest))) := by simp [jsonString]
    rw [e]
    unfold readJsonMembers
    rw [skip_starts (by decide)]
    dsimp only
    rw [if_pos rfl, string_back]
    dsimp only
    rw [skip_starts (by decide)]
    dsimp only
    rw [if_pos rfl, h1]
    dsimp only
    rw [skip_starts (by decide)]
    dsimp only
    rw [if_pos rfl]
  | .cons key v (.cons key' w l), s, h, k, hk, rest, _ => by
    rw [PyItems.encode] at h
    simp only [bind, Except.bind, pure, Except.pure] at h
    split at h
    · cases h
    rename_i a ha
    split at h
    · cases h
    rename_i b hb
    cases h
    simp only [sizeItems] at hk
    obtain ⟨k, rfl⟩ : ∃ j, k = j + 1 := ⟨k - 1, by omega⟩
    have h1 := value_back v a ha k (by omega) (',' :: (b ++ '}' :: rest)) (.inr ⟨_, _, rfl, .inl rfl⟩)
    have h2 := members_back (.cons key' w l) b hb k (by simp only [sizeItems]; omega) rest (by intro h; cases h)
    have e : jsonString key ++ ':' :: (a ++ ',' :: b) ++ '}' :: rest = '"' :: (key.flatMap jsonChar ++ '"' :: (':' :: (a ++ ',' :: (b ++ '}' :: rest)))) := by
      simp [jsonString]
    rw [e]
    unfold readJsonMembers
    rw [skip_starts (by decide)]
    dsimp only
    rw [if_pos rfl, string_back]
    dsimp only
    rw [skip_starts (by decide)]
    dsimp only
    rw [if_pos rfl, h1]
    dsimp only
    rw [skip_starts (by decide)]
    dsimp only
    rw [if_neg (by decide), if_pos rfl, h2]
    rfl
end

end Json
end PySqlSync
