/-
Facts about percent-encoding and about taking connection strings apart.
-/
import Verif.Model.Connect

set_option autoImplicit false

namespace PySqlSync

/-! ### UTF-8 -/

theorem char_ofNat_toNat (c : Char) : Char.ofNat c.toNat = c := Char.ofNat_toNat c

theorem charOf_toNat {lo : Nat} {c : Char} (h : lo ≤ c.toNat) : charOf lo c.toNat = c := by
  unfold charOf
  rw [if_pos ⟨h, c.valid⟩, Char.ofNat_toNat]

theorem isCont_of {b : Nat} (h1 : 0x80 ≤ b) (h2 : b < 0xC0) : isCont b = true := by
  unfold isCont
  simp [h1, h2]

theorem toNat_lt (c : Char) : c.toNat < 0x110000 := by
  have := c.valid
  unfold UInt32.isValidChar Nat.isValidChar at this
  have e : c.toNat = c.val.toNat := rfl
  omega

theorem decode_one {a : Nat} (h : a < 0x80) (rest : List Nat) : decodeUtf8 (a :: rest) = Char.ofNat a :: decodeUtf8 rest := by
  match rest with
  | [] => (conv => lhs; rw [decodeUtf8, if_pos h]); rfl
  | [_] => conv => lhs; rw [decodeUtf8, if_pos h]
  | [_, _] => conv => lhs; rw [decodeUtf8, if_pos h]
  | _ :: _ :: _ :: _ => conv => lhs; rw [decodeUtf8, if_pos h]

theorem decode_two {a b : Nat} (h1 : 0xC0 ≤ a) (h2 : a < 0xE0) (h3 : isCont b) (rest : List Nat) :
    decodeUtf8 (a :: b :: rest) = charOf 0x80 ((a - 0xC0) * 0x40 + (b - 0x80)) :: decodeUtf8 rest := by
  have hn : ¬ a < 0x80 := by omega
  match rest with
  | [] => (conv => lhs; rw [decodeUtf8, if_neg hn, if_pos ⟨h1, h2, h3⟩]); rfl
  | [_] => conv => lhs; rw [decodeUtf8, if_neg hn, if_pos ⟨h1, h2, h3⟩]
  | _ :: _ :: _ => conv => lhs; rw [decodeUtf8, if_neg hn, if_pos ⟨h1, h2, h3⟩]

theorem decode_three {a b c : Nat} (h1 : 0xE0 ≤ a) (h2 : a < 0xF0) (h3 : isCont b) (h4 : isCont c) (rest : List Nat) :
    decodeUtf8 (a :: b :: c :: rest)
      = charOf 0x800 ((a - 0xE0) * 0x1000 + (b - 0x80) * 0x40 + (c - 0x80)) :: decodeUtf8 rest := by
  have hn : ¬ a < 0x80 := by omega
  have hn' : ¬ (0xC0 ≤ a ∧ a < 0xE0 ∧ isCont b = true) := by omega
  match rest with
  | [] => (conv => lhs; rw [decodeUtf8, if_neg hn, if_neg hn', if_pos ⟨h1, h2, h3, h4⟩]); rfl
  | _ :: _ => conv => lhs; rw [decodeUtf8, if_neg hn, if_neg hn', if_pos ⟨h1, h2, h3, h4⟩]

theorem decode_four {a b c d : Nat} (h1 : 0xF0 ≤ a) (h2 : a < 0xF8) (h3 : isCont b) (h4 : isCont c) (h5 : isCont d)
    (rest : List Nat) :
    decodeUtf8 (a :: b :: c :: d :: rest)
      = charOf 0x10000 ((a - 0xF0) * 0x40000 + (b - 0x80) * 0x1000 + (c - 0x80) * 0x40 + (d - 0x80)) :: decodeUtf8 rest := by
  have hn : ¬ a < 0x80 := by omega
  have hn' : ¬ (0xC0 ≤ a ∧ a < 0xE0 ∧ isCont b = true) := by omega
  have hn'' : ¬ (0xE0 ≤ a ∧ a < 0xF0 ∧ isCont b = true ∧ isCont c = true) := by omega
  rw [decodeUtf8, if_neg hn, if_neg hn', if_neg hn'', if_pos ⟨h1, h2, h3, h4, h5⟩]

theorem decode_utf8Bytes (c : Char) (rest : List Nat) : decodeUtf8 (utf8Bytes c.toNat ++ rest) = c :: decodeUtf8 rest := by
  have hlt := toNat_lt c
  unfold utf8Bytes
  split
  · rename_i h
    rw [List.cons_append, List.nil_append, decode_one h, Char.ofNat_toNat]
  · split
    · rename_i h1 h2
      simp only [List.cons_append, List.nil_append]
      rw [decode_two (by omega) (by omega) (isCont_of (by omega) (by omega))]
      have : (0xC0 + c.toNat / 0x40 - 0xC0) * 0x40 + (0x80 + c.toNat % 0x40 - 0x80) = c.toNat := by omega
      rw [this, charOf_toNat (by omega)]
    · split
      · rename_i h1 h2 h3
        simp only [List.cons_append, List.nil_append]
        rw [decode_three (by omega) (by omega) (isCont_of (by omega) (by omega)) (isCont_of (by omega) (by omega))]
        have : (0xE0 + c.toNat / 0x1000 - 0xE0) * 0x1000 + (0x80 + c.toNat / 0x40 % 0x40 - 0x80) * 0x40
            + (0x80 + c.toNat % 0x40 - 0x80) = c.toNat := by omega
        rw [this, charOf_toNat (by omega)]
      · rename_i h1 h2 h3
        simp only [List.cons_append, List.nil_append]
        rw [decode_four (by omega) (by omega) (isCont_of (by omega) (by omega)) (isCont_of (by omega) (by omega))
          (isCont_of (by omega) (by omega))]
        have : (0xF0 + c.toNat / 0x40000 - 0xF0) * 0x40000 + (0x80 + c.toNat / 0x1000 % 0x40 - 0x80) * 0x1000
            + (0x80 + c.toNat / 0x40 % 0x40 - 0x80) * 0x40 + (0x80 + c.toNat % 0x40 - 0x80) = c.toNat := by omega
        rw [this, charOf_toNat (by omega)]

theorem decode_encode (s : Text) : decodeUtf8 (encodeUtf8 s) = s := by
  induction s with
  | nil => rfl
  | cons c s ih =>
    unfold encodeUtf8 at ih ⊢
    rw [List.flatMap_cons, decode_utf8Bytes, ih]

theorem utf8Bytes_lt {n b : Nat} (hn : n < 0x110000) (h : b ∈ utf8Bytes n) : b < 256 := by
  unfold utf8Bytes at h
  split at h
  · simp only [List.mem_singleton] at h; omega
  · split at h
    · simp only [List.mem_cons, List.not_mem_nil, or_false] at h; omega
    · split at h
      · simp only [List.mem_cons, List.not_mem_nil, or_false] at h; omega
      · simp only [List.mem_cons, List.not_mem_nil, or_false] at h; omega

/-! ### Percent-encoding -/

theorem hexDigit_facts : ∀ n, n < 16 → hexValue (hexDigit n) = some n ∧ isUnreserved (hexDigit n) = true := by
  decide +kernel

theorem unquoteGo_pct (acc : List Nat) {b : Nat} (h : b < 256) (rest : Text) :
    unquoteGo acc (pct b ++ rest) = unquoteGo (acc ++ [b]) rest := by
  unfold pct
  simp only [List.cons_append, List.nil_append]
  rw [unquoteGo.eq_2]
  rw [(hexDigit_facts (b / 16) (by omega)).1, (hexDigit_facts (b % 16) (by omega)).1]
  dsimp only
  have : 16 * (b / 16) + b % 16 = b := by omega
  rw [this]

theorem unquoteGo_pcts (acc : List Nat) {bs : List Nat} (h : ∀ b ∈ bs, b < 256) (rest : Text) :
    unquoteGo acc (bs.flatMap pct ++ rest) = unquoteGo (acc ++ bs) rest := by
  induction bs generalizing acc with
  | nil => simp
  | cons b bs ih =>
    rw [List.flatMap_cons, List.append_assoc, unquoteGo_pct _ (h b List.mem_cons_self),
      ih _ (fun x hx => h x (List.mem_cons_of_mem _ hx)), List.append_assoc]
    rfl

theorem unreserved_facts {c : Char} (h : isUnreserved c = true) :
    c ≠ '%' ∧ c.toNat < 128 ∧ c ≠ '@' ∧ c ≠ ':' ∧ c ≠ '/' ∧ c ≠ '?' ∧ c ≠ '#' ∧ c ≠ '[' ∧ c ≠ ']' ∧ c ≠ '\t' ∧ c ≠ '\r'
      ∧ c ≠ '\n' ∧ c ≠ '&' ∧ c ≠ '=' := by
  unfold isUnreserved at h
  simp only [Bool.or_eq_true, Bool.and_eq_true, decide_eq_true_eq] at h
  rcases h with (((((h | h) | h) | h) | h) | h) | h
  all_goals first
    | (subst h; decide)
    | (refine ⟨?_, by omega, ?_⟩
       · intro e; subst e; revert h; decide
       · refine ⟨?_, ?_, ?_, ?_, ?_, ?_, ?_, ?_, ?_, ?_, ?_, ?_⟩ <;> (intro e; subst e; revert h; decide))

theorem unquoteGo_char (acc : List Nat) {c : Char} (h1 : c ≠ '%') (h2 : c.toNat < 128) (rest : Text) :
    unquoteGo acc (c :: rest) = unquoteGo (acc ++ [c.toNat]) rest := by
  rw [unquoteGo.eq_3 _ _ _ (by intro h l r e _; exact h1 e), if_pos h2]

theorem unquoteGo_quote (acc : List Nat) (s : Text) : unquoteGo acc (quoteUrl s) = decodeUtf8 (acc ++ encodeUtf8 s) := by
  induction s generalizing acc with
  | nil => simp [quoteUrl, encodeUtf8, unquoteGo]
  | cons c s ih =>
    unfold quoteUrl at ih ⊢
    unfold encodeUtf8 at ih ⊢
    rw [List.flatMap_cons, List.flatMap_cons]
    by_cases h : isUnreserved c
    · obtain ⟨h1, h2, _⟩ := unreserved_facts h
      rw [if_pos h, List.cons_append, List.nil_append, unquoteGo_char _ h1 h2, ih]
      have : utf8Bytes c.toNat = [c.toNat] := by unfold utf8Bytes; rw [if_pos (by omega)]
      rw [this, List.append_assoc]
    · rw [if_neg h, unquoteGo_pcts _ (fun b hb => utf8Bytes_lt (toNat_lt c) hb), ih, List.append_assoc]

/-- Unquoting undoes quoting, for every text. -/
theorem unquote_quote (s : Text) : unquoteUrl (quoteUrl s) = s := by
  unfold unquoteUrl
  rw [unquoteGo_quote, List.nil_append, decode_encode]

theorem quote_chars {s : Text} {c : Char} (h : c ∈ quoteUrl s) : isUnreserved c = true ∨ c = '%' := by
  unfold quoteUrl at h
  obtain ⟨x, _, h⟩ := List.mem_flatMap.1 h
  split at h
  · rename_i hx
    rw [List.mem_singleton] at h; subst h; exact .inl hx
  · obtain ⟨b, hb, h⟩ := List.mem_flatMap.1 h
    have hb := utf8Bytes_lt (toNat_lt x) hb
    unfold pct at h
    simp only [List.mem_cons, List.not_mem_nil, or_false] at h
    rcases h with h | h | h
    · exact .inr h
    · subst h; exact .inl (hexDigit_facts _ (by omega)).2
    · subst h; exact .inl (hexDigit_facts _ (by omega)).2

theorem quote_ne_nil {s : Text} (h : s ≠ []) : quoteUrl s ≠ [] := by
  intro e
  have := unquote_quote s
  rw [e] at this
  exact h this.symm

theorem unquoteGo_plain (acc : List Nat) {s : Text} (h : ∀ c ∈ s, c ≠ '%' ∧ c.toNat < 128) :
    unquoteGo acc s = decodeUtf8 (acc ++ s.map Char.toNat) := by
  induction s generalizing acc with
  | nil => simp [unquoteGo]
  | cons c s ih =>
    obtain ⟨h1, h2⟩ := h c List.mem_cons_self
    rw [unquoteGo_char _ h1 h2, ih _ (fun x hx => h x (List.mem_cons_of_mem _ hx))]
    simp

theorem decode_ascii {s : Text} (h : ∀ c ∈ s, c.toNat < 128) : decodeUtf8 (s.map Char.toNat) = s := by
  induction s with
  | nil => rfl
  | cons c s ih =>
    rw [List.map_cons, decode_one (h c List.mem_cons_self), Char.ofNat_toNat, ih (fun x hx => h x (List.mem_cons_of_mem _ hx))]

theorem unquote_plain {s : Text} (h : ∀ c ∈ s, c ≠ '%' ∧ c.toNat < 128) : unquoteUrl s = s := by
  unfold unquoteUrl
  rw [unquoteGo_plain _ h, List.nil_append, decode_ascii (fun c hc => (h c hc).2)]

/-- Quoting keeps exactly the texts of unreserved characters. -/
theorem quote_eq_self_iff {s : Text} : quoteUrl s = s ↔ ∀ c ∈ s, isUnreserved c = true := by
  constructor
  · intro h c hc
    rw [← h] at hc
    rcases quote_chars hc with h' | h'
    · exact h'
    · -- a text with a percent sign becomes longer
      exfalso
      subst h'
      rw [h] at hc
      have hlen : ∀ (l : Text), l.length ≤ (quoteUrl l).length ∧ ('%' ∈ l → l.length < (quoteUrl l).length) := by
        intro l
        induction l with
        | nil => simp
        | cons x l ih =>
          have hx : 1 ≤ (if isUnreserved x then [x] else (utf8Bytes x.toNat).flatMap pct).length := by
            split
            · simp
            · unfold utf8Bytes; split
              · simp [pct]
              · split
                · simp [pct]
                · split <;> simp [pct]
          have e : quoteUrl (x :: l) = (if isUnreserved x then [x] else (utf8Bytes x.toNat).flatMap pct) ++ quoteUrl l := by
            unfold quoteUrl; rw [List.flatMap_cons]
          rw [e, List.length_append, List.length_cons]
          refine ⟨by omega, ?_⟩
          intro hm
          rcases List.mem_cons.1 hm with hm | hm
          · subst hm
            have : (if isUnreserved '%' then ['%'] else (utf8Bytes ('%').toNat).flatMap pct).length = 3 := by decide +kernel
            omega
          · have := ih.2 hm
            omega
      have := (hlen s).2 hc
      rw [h] at this
      omega
  · intro h
    unfold quoteUrl
    induction s with
    | nil => rfl
    | cons c s ih =>
      rw [List.flatMap_cons, if_pos (h c List.mem_cons_self), ih (fun x hx => h x (List.mem_cons_of_mem _ hx))]
      rfl

/-! ### Separators -/

theorem partition_found {c : Char} {a b : Text} (h : c ∉ a) : partition c (a ++ c :: b) = (a, true, b) := by
  induction a with
  | nil => simp [partition]
  | cons x a ih =>
    rw [List.cons_append, partition, if_neg (fun e => h (by simp [e]))]
    simp only
    rw [ih (fun hc => h (List.mem_cons_of_mem _ hc))]

theorem partition_none {c : Char} {a : Text} (h : c ∉ a) : partition c a = (a, false, []) := by
  induction a with
  | nil => rfl
  | cons x a ih =>
    rw [partition, if_neg (fun e => h (by simp [e]))]
    simp only
    rw [ih (fun hc => h (List.mem_cons_of_mem _ hc))]

theorem rpartition_found {c : Char} {a b : Text} (h : c ∉ b) : rpartition c (a ++ c :: b) = (a, true, b) := by
  unfold rpartition
  have : (a ++ c :: b).reverse = b.reverse ++ c :: a.reverse := by simp
  rw [this, partition_found (by simpa using h)]
  simp

theorem rpartition_none {c : Char} {a : Text} (h : c ∉ a) : rpartition c a = ([], false, a) := by
  unfold rpartition
  rw [partition_none (by simpa using h)]

theorem splitChar_none {c : Char} {s : Text} (h : c ∉ s) : splitChar c s = [s] := by
  induction s with
  | nil => rfl
  | cons x s ih =>
    rw [splitChar, if_neg (fun e => h (by simp [e])), ih (fun hc => h (List.mem_cons_of_mem _ hc))]

/-! ### Numbers -/

theorem digitChar_toNat : ∀ n, n < 10 → (Nat.digitChar n).toNat = 48 + n ∧ (Nat.digitChar n).isDigit = true := by decide +kernel

theorem digitsValue_snoc {s : Text} {n k : Nat} (h : digitsValue s = some n) (hk : k < 10) :
    digitsValue (s ++ [Nat.digitChar k]) = some (10 * n + k) := by
  unfold digitsValue at h ⊢
  rw [List.foldl_append, h]
  obtain ⟨h1, h2⟩ := digitChar_toNat k hk
  simp only [List.foldl_cons, List.foldl_nil, Option.bind_some, h2, h1, if_true]
  congr 1
  omega

theorem digitsValue_natStr (n : Nat) : digitsValue (natStr n) = some n := by
  unfold natStr
  induction n using Nat.strongRecOn with
  | ind n ih =>
    rw [Nat.toDigits_eq_if (by decide)]
    split
    · have := digitsValue_snoc (s := []) (n := 0) (k := n) rfl (by omega)
      simpa using this
    · have := digitsValue_snoc (ih (n / 10) (by omega)) (k := n % 10) (by omega)
      rw [this]
      congr 1
      omega

theorem natStr_chars {n : Nat} {c : Char} (h : c ∈ natStr n) : c.isDigit = true :=
  Nat.isDigit_of_mem_toDigits (by decide) (by decide) h

theorem natStr_ne_nil (n : Nat) : natStr n ≠ [] := Nat.toDigits_ne_nil

theorem digit_unreserved {c : Char} (h : c.isDigit = true) : isUnreserved c = true := by
  have : 48 ≤ c.toNat ∧ c.toNat ≤ 57 := by
    unfold Char.isDigit at h
    simp only [ge_iff_le, Bool.and_eq_true, decide_eq_true_eq] at h
    have h1 := h.1; have h2 := h.2
    rw [UInt32.le_iff_toNat_le] at h1 h2
    exact ⟨h1, h2⟩
  unfold isUnreserved
  simp [this.1, this.2]

end PySqlSync
