/-
C48: columns hold the values of their fields: strings, points in time, decimal and floating-point numbers.
-/
import Verif.Lemmas.Capacity
import Verif.Props.C31

set_option autoImplicit false

namespace PySqlSync
open Spec
namespace C48

def textCls : Engine → Cls
  | .mysql => .mysql
  | .oracle => .oracle
  | .mssql => .mssql
  | .delta => .delta
  | _ => .base
def textDefault : Engine → Option Nat
  | .mysql => some 16777215
  | _ => none

theorem text_prim {e : Engine} {g : GenOptions} {o : ConvOptions} (ho : e.options g = .ok o) :
    o.primType .str = .varChar (textCls e) (textDefault e) := by
  unfold ConvOptions.primType
  rw [(C31.options_eq ho).2]
  cases e <;> rfl

theorem text_annotated {e : Engine} {g : GenOptions} {o : ConvOptions} (ho : e.options g = .ok o) (ms : List Meta) (hm : ∀ m ∈ ms, TextMeta m) :
    o.annotatedType .str ms = .ok (.varChar (textCls e) ((declaredLength ms).or (textDefault e))) := by
  have hb : o.annotatedBase .str = some (.varChar (textCls e) (textDefault e)) := by
    unfold ConvOptions.annotatedBase
    rw [(C31.options_eq ho).2]
    cases e <;> rfl
  unfold ConvOptions.annotatedType
  rw [hb, parse_text _ _ _ hm]

theorem holds_of {e : Engine} {ty : SqlType} {name : Text} (h : ty.str = .ok name) (s : Text) : HoldsText e ty s ↔
    ∃ l, textLimit e name = some l ∧ (∀ n, l.chars = some n → s.length ≤ n) ∧ (∀ n, l.bytes = some n → utf8Length s ≤ n) := by
  constructor
  · rintro ⟨nm, l, h1, h2⟩
    rw [h] at h1; cases h1
    exact ⟨l, h2⟩
  · rintro ⟨l, h2⟩; exact ⟨name, l, h, h2⟩

theorem varchar_one (n : Nat) : typeBase (t "varchar(" ++ natStr n ++ t ")") = t "varchar" ∧ typeParams (t "varchar(" ++ natStr n ++ t ")") = [n] :=
  one (t "varchar") n (by decide)
theorem varchar2_one (n : Nat) : typeBase (t "varchar2(" ++ natStr n ++ t ")") = t "varchar2" ∧ typeParams (t "varchar2(" ++ natStr n ++ t ")") = [n] :=
  one (t "varchar2") n (by decide)

/-- What a column for strings of at most `n` characters holds. -/
def limitOf (e : Engine) (n : Nat) : Option TextLimit :=
  match e with
  | .postgresql => limitBy (1 ≤ n && n ≤ 10485760) { chars := some n }
  | .redshift => limitBy (1 ≤ n && n ≤ 65535) { bytes := some n }
  | .mysql => if n < 65536 then limitBy (n ≤ 16383) { chars := some n } else if n < 16777216 then some { bytes := some 16777215 }
      else limitBy (n < 4294967296) { bytes := some 4294967295 }
  | .oracle => if n ≤ 4000 then limitBy (1 ≤ n) { bytes := some n } else some {}
  | .mssql => if 0 < n ∧ n ≠ 2147483647 then limitBy (1 ≤ n && n ≤ 8000) { bytes := some n } else some { bytes := some (2 ^ 31 - 1) }
  | .delta => some {}
  | .snowflake => limitBy (1 ≤ n && n ≤ 16777216) { chars := some n, bytes := some 16777216 }
  | .trino => limitBy (n ≤ 2147483646) { chars := some n }

theorem holds_length (e : Engine) (n : Nat) (s : Text) : HoldsText e (.varChar (textCls e) (some n)) s ↔
    ∃ l, limitOf e n = some l ∧ (∀ n, l.chars = some n → s.length ≤ n) ∧ (∀ n, l.bytes = some n → utf8Length s ≤ n) := by
  have one := varchar_one n
  have one2 := varchar2_one n
  have tr : (true && decide (1 ≤ n)) = decide (1 ≤ n) := rfl
  cases e with
  | postgresql =>
    rw [holds_of (name := t "varchar(" ++ natStr n ++ t ")") rfl]
    simp only [textLimit, one.1, one.2, limitOf, decide_true, Bool.true_and]
  | redshift =>
    rw [holds_of (name := t "varchar(" ++ natStr n ++ t ")") rfl]
    simp only [textLimit, one.1, one.2, limitOf, decide_true, Bool.true_and]
  | snowflake =>
    rw [holds_of (name := t "varchar(" ++ natStr n ++ t ")") rfl]
    simp only [textLimit, one.1, one.2, limitOf, decide_true, Bool.true_and]
  | trino =>
    rw [holds_of (name := t "varchar(" ++ natStr n ++ t ")") rfl]
    simp only [textLimit, one.1, one.2, limitOf, decide_true, Bool.true_and]
  | delta =>
    rw [holds_of (name := t "string") rfl]
    have : textLimit .delta (t "string") = some {} := rfl
    simp only [this, limitOf]
  | mysql =>
    unfold limitOf
    by_cases h1 : n < 65536
    · rw [holds_of (name := t "varchar(" ++ natStr n ++ t ")") (by simp [textCls, SqlType.str, h1])]
      simp only [textLimit, one.1, one.2, decide_true, Bool.true_and, h1, if_true]
    · by_cases h2 : n < 16777216
      · rw [holds_of (name := t "mediumtext") (by simp [textCls, SqlType.str, h1, h2])]
        have : textLimit .mysql (t "mediumtext") = some { bytes := some 16777215 } := rfl
        simp only [this, h1, h2, if_true, if_false]
      · by_cases h3 : n < 4294967296
        · rw [holds_of (name := t "longtext") (by simp [textCls, SqlType.str, h1, h2, h3])]
          have : textLimit .mysql (t "longtext") = some { bytes := some 4294967295 } := rfl
          simp only [this, h1, h2, if_false, limitBy, h3, decide_true, if_true]
        · simp only [h1, h2, if_false, limitBy, h3, decide_false]
          constructor
          · rintro ⟨name, l, hstr, _⟩
            simp [textCls, SqlType.str, h1, h2, h3] at hstr
          · rintro ⟨l, h, _⟩; simp at h
  | oracle =>
    unfold limitOf
    by_cases h1 : n ≤ 4000
    · rw [holds_of (name := t "varchar2(" ++ natStr n ++ t ")") (by simp [textCls, SqlType.str, h1])]
      simp only [textLimit, one2.1, one2.2, decide_true, Bool.true_and, h1, if_true, Bool.and_true]
    · rw [holds_of (name := t "clob") (by simp [textCls, SqlType.str, h1])]
      have : textLimit .oracle (t "clob") = some {} := rfl
      simp only [this, h1, if_false]
  | mssql =>
    unfold limitOf
    by_cases h1 : 0 < n ∧ n ≠ 2147483647
    · rw [holds_of (name := t "varchar(" ++ natStr n ++ t ")") (by simp only [textCls, SqlType.str, if_pos h1]), if_pos h1]
      simp only [textLimit, one.1, one.2, decide_true, Bool.true_and]
    · rw [holds_of (name := t "varchar(max)") (by simp only [textCls, SqlType.str, if_neg h1]), if_neg h1]
      have : textLimit .mssql (t "varchar(max)") = some { bytes := some (2 ^ 31 - 1) } := rfl
      simp only [this]

end C48

/-- **C48**, strings without a declared length: every string of less than 16 MB fits, on all engines except Redshift and Trino. -/
theorem C48_text (e : Engine) (g : GenOptions) (o : ConvOptions) (ho : e.options g = .ok o) (he : e ≠ .redshift ∧ e ≠ .trino)
    (s : Text) (hs : utf8Length s ≤ 16777215) : HoldsText e (o.primType .str) s := by
  rw [C48.text_prim ho]
  cases e with
  | redshift => exact absurd rfl he.1
  | trino => exact absurd rfl he.2
  | postgresql => exact ⟨t "text", _, rfl, rfl, by simp, by simp; omega⟩
  | snowflake => exact ⟨t "text", _, rfl, rfl, by simp, by simp; omega⟩
  | mysql => exact ⟨t "mediumtext", _, rfl, rfl, by simp, by simp; omega⟩
  | oracle => exact ⟨t "clob", _, rfl, rfl, by simp, by simp⟩
  | mssql => exact ⟨t "varchar(max)", _, rfl, rfl, by simp, by simp; omega⟩
  | delta => exact ⟨t "string", _, rfl, rfl, by simp, by simp⟩

/-- **C48 fails** for strings on Redshift, where `text` is an alias of `varchar(256)`, and on Trino, which has no such type. -/
theorem C48_text_fails (e : Engine) (g : GenOptions) (o : ConvOptions) (ho : e.options g = .ok o) (s : Text) :
    (e = .redshift → (HoldsText e (o.primType .str) s ↔ utf8Length s ≤ 256)) ∧ (e = .trino → ¬ HoldsText e (o.primType .str) s) := by
  rw [C48.text_prim ho]
  constructor
  · rintro rfl
    rw [C48.holds_of (name := t "text") rfl]
    have : textLimit .redshift (t "text") = some { bytes := some 256 } := rfl
    simp [this]
  · rintro rfl
    rw [C48.holds_of (name := t "text") rfl]
    have : textLimit .trino (t "text") = none := rfl
    simp [this]

/-- **C48**, strings with a declared length, exact: the engines and lengths for which a column holds all strings of at most that many characters. -/
theorem C48_length_exact (e : Engine) (g : GenOptions) (o : ConvOptions) (ho : e.options g = .ok o) (ms : List Meta) (hm : ∀ m ∈ ms, TextMeta m)
    (n : Nat) (hn : declaredLength ms = some n) (hpos : 1 ≤ n) : ∃ ty, o.annotatedType .str ms = .ok ty ∧
      ((∀ s, s.length ≤ n → HoldsText e ty s) ↔ LongEnough e n) := by
  refine ⟨_, C48.text_annotated ho ms hm, ?_⟩
  rw [hn, Option.some_or]
  simp only [C48.holds_length]
  constructor
  · intro h
    obtain ⟨l, hl, hc, hb⟩ := h (C48.faces n) (Nat.le_of_eq (C48.faces_length n))
    rw [C48.faces_length] at hc
    rw [C48.faces_utf8] at hb
    cases e <;> simp only [C48.limitOf, limitBy, LongEnough] at hl ⊢ <;> (repeat' split at hl) <;> cases hl <;> simp_all <;> omega
  · intro h
    have hu := C48.utf8_le
    cases e <;> simp only [C48.limitOf, limitBy, LongEnough] at h ⊢
    all_goals (first | exact h.elim | skip)
    all_goals intro s hs; have hu := hu s
    · exact ⟨_, if_pos (by simp [hpos, h]), by simp; omega, by simp⟩
    · by_cases h1 : n < 65536
      · rw [if_pos h1]
        exact ⟨_, if_pos (by simp; omega), by simp; omega, by simp⟩
      · rw [if_neg h1]
        by_cases h2 : n < 16777216
        · rw [if_pos h2]
          exact ⟨_, rfl, by simp, by simp; omega⟩
        · rw [if_neg h2]
          exact ⟨_, if_pos (by simp; omega), by simp, by simp; omega⟩
    · rw [if_neg (by omega)]
      exact ⟨_, rfl, by simp, by simp⟩
    · exact ⟨_, rfl, by simp, by simp⟩
    · exact ⟨_, if_pos (by simp; omega), by simp; omega, by simp; omega⟩
    · exact ⟨_, if_pos (by simp; omega), by simp; omega, by simp⟩

/-- **C48**, the same for strings of one byte per character. -/
theorem C48_ascii_exact (e : Engine) (g : GenOptions) (o : ConvOptions) (ho : e.options g = .ok o) (ms : List Meta) (hm : ∀ m ∈ ms, TextMeta m)
    (n : Nat) (hn : declaredLength ms = some n) (hpos : 1 ≤ n) : ∃ ty, o.annotatedType .str ms = .ok ty ∧
      ((∀ s : Text, (∀ c ∈ s, c.toNat < 128) → s.length ≤ n → HoldsText e ty s) ↔ LongEnoughAscii e n) := by
  refine ⟨_, C48.text_annotated ho ms hm, ?_⟩
  rw [hn, Option.some_or]
  simp only [C48.holds_length]
  constructor
  · intro h
    obtain ⟨l, hl, hc, hb⟩ := h (C48.letters n) (C48.letters_ascii n) (Nat.le_of_eq (C48.letters_length n))
    rw [C48.letters_length] at hc
    rw [C48.letters_utf8] at hb
    cases e <;> simp only [C48.limitOf, limitBy, LongEnoughAscii] at hl ⊢ <;> (repeat' split at hl) <;> cases hl <;> simp_all <;> omega
  · intro h s ha hs
    have hu := C48.utf8_ascii s ha
    cases e <;> simp only [C48.limitOf, limitBy, LongEnoughAscii] at h ⊢
    · exact ⟨_, if_pos (by simp [hpos, h]), by simp; omega, by simp⟩
    · exact ⟨_, if_pos (by simp [hpos, h]), by simp, by simp; omega⟩
    · by_cases h1 : n < 65536
      · rw [if_pos h1]
        exact ⟨_, if_pos (by simp; omega), by simp; omega, by simp⟩
      · rw [if_neg h1]
        by_cases h2 : n < 16777216
        · rw [if_pos h2]
          exact ⟨_, rfl, by simp, by simp; omega⟩
        · rw [if_neg h2]
          exact ⟨_, if_pos (by simp; omega), by simp, by simp; omega⟩
    · by_cases h1 : n ≤ 4000
      · rw [if_pos h1]
        exact ⟨_, if_pos (by simp; omega), by simp, by simp; omega⟩
      · rw [if_neg h1]
        exact ⟨_, rfl, by simp, by simp⟩
    · by_cases h1 : 0 < n ∧ n ≠ 2147483647
      · rw [if_pos h1]
        exact ⟨_, if_pos (by simp; omega), by simp, by simp; omega⟩
      · rw [if_neg h1]
        exact ⟨_, rfl, by simp, by simp; omega⟩
    · exact ⟨_, rfl, by simp, by simp⟩
    · exact ⟨_, if_pos (by simp; omega), by simp; omega, by simp; omega⟩
    · exact ⟨_, if_pos (by simp; omega), by simp; omega, by simp⟩

/-! ### Time -/

namespace C48

def timestampCls : Engine → Cls
  | .mysql => .mysql
  | .oracle => .oracle
  | .mssql => .mssql
  | .delta => .delta
  | .snowflake => .snowflake
  | _ => .base
def timestampDefault : Engine → Option Nat
  | .mssql => some 7
  | .delta | .snowflake => some 9
  | _ => none
def timeCls : Engine → Cls
  | .oracle => .oracle
  | _ => .base

theorem timestamp_prim {e : Engine} {g : GenOptions} {o : ConvOptions} (ho : e.options g = .ok o) :
    o.primType .datetime = .timestamp (timestampCls e) (timestampDefault e) false := by
  unfold ConvOptions.primType
  rw [(C31.options_eq ho).2]
  cases e <;> rfl
theorem time_prim {e : Engine} {g : GenOptions} {o : ConvOptions} (ho : e.options g = .ok o) : o.primType .time = .time (timeCls e) none false := by
  unfold ConvOptions.primType
  rw [(C31.options_eq ho).2]
  cases e <;> rfl

theorem timestamp_annotated {e : Engine} {g : GenOptions} {o : ConvOptions} (ho : e.options g = .ok o) (ms : List Meta) (hm : ∀ m ∈ ms, TimeMeta m) :
    o.annotatedType .datetime ms = .ok (.timestamp (timestampCls e) ((declaredDigits ms).or (timestampDefault e)) false) := by
  have hb : o.annotatedBase .datetime = some (.timestamp (timestampCls e) (timestampDefault e) false) := by
    unfold ConvOptions.annotatedBase
    rw [(C31.options_eq ho).2]
    cases e <;> rfl
  unfold ConvOptions.annotatedType
  rw [hb, parse_timestamp _ _ _ _ hm]
theorem time_annotated {e : Engine} {g : GenOptions} {o : ConvOptions} (ho : e.options g = .ok o) (ms : List Meta) (hm : ∀ m ∈ ms, TimeMeta m) :
    o.annotatedType .time ms = .ok (.time (timeCls e) (declaredDigits ms) false) := by
  have hb : o.annotatedBase .time = some (.time (timeCls e) none false) := by
    unfold ConvOptions.annotatedBase
    rw [(C31.options_eq ho).2]
    cases e <;> rfl
  unfold ConvOptions.annotatedType
  rw [hb, parse_time _ _ _ _ hm, Option.or_none]

theorem keeps_of {e : Engine} {ty : SqlType} {name : Text} (h : ty.str = .ok name) (m : Nat) : KeepsMicroseconds e ty m ↔
    ∃ d, timeDigits e name = some d ∧ (m * 10 ^ d) % 10 ^ 6 = 0 := by
  constructor
  · rintro ⟨nm, l, h1, h2⟩
    rw [h] at h1; cases h1
    exact ⟨l, h2⟩
  · rintro ⟨l, h2⟩; exact ⟨name, l, h, h2⟩

theorem all_digits {d : Nat} (h : 6 ≤ d) (m : Nat) : (m * 10 ^ d) % 10 ^ 6 = 0 := by
  obtain ⟨k, rfl⟩ := Nat.exists_eq_add_of_le h
  rw [Nat.pow_add, Nat.mul_comm (10 ^ 6), ← Nat.mul_assoc]
  exact Nat.mul_mod_left _ _

theorem some_digits {d k : Nat} (h : d ≤ 6) : (k * 10 ^ (6 - d) * 10 ^ d) % 10 ^ 6 = 0 := by
  rw [Nat.mul_assoc, ← Nat.pow_add, Nat.sub_add_cancel h]
  exact Nat.mul_mod_left _ _

/-- The digits of the columns for points in time. -/
def timestampDigits (e : Engine) : Option Nat → Option Nat
  | none => match e with
    | .postgresql | .redshift | .oracle | .delta => some 6
    | .mysql => some 0
    | .mssql => some 7
    | .snowflake => some 9
    | .trino => some 3
  | some d => match e with
    | .postgresql | .mysql => if d ≤ 6 then some d else none
    | .redshift => none
    | .oracle => if d ≤ 9 then some d else none
    | .mssql => some 7
    | .delta => some 6
    | .snowflake => some 9
    | .trino => if d ≤ 12 then some d else none

theorem keeps_timestamp (e : Engine) (d : Option Nat) (m : Nat) : KeepsMicroseconds e (.timestamp (timestampCls e) (d.or (timestampDefault e)) false) m ↔
    ∃ k, timestampDigits e d = some k ∧ (m * 10 ^ k) % 10 ^ 6 = 0 := by
  have base : ∀ {name : Text} {k : Option Nat}, (SqlType.timestamp (timestampCls e) (d.or (timestampDefault e)) false).str = .ok name →
      timeDigits e name = k → timestampDigits e d = k → (KeepsMicroseconds e (.timestamp (timestampCls e) (d.or (timestampDefault e)) false) m ↔
      ∃ k, timestampDigits e d = some k ∧ (m * 10 ^ k) % 10 ^ 6 = 0) := by
    intro name k h1 h2 h3
    rw [keeps_of h1, h2, h3]
  cases d with
  | none => cases e <;> exact base rfl rfl rfl
  | some n =>
    have o1 := one (t "timestamp") n (by decide)
    have o2 := one (t "datetime") n (by decide)
    have e1 : t "timestamp" ++ paren (some n) ++ tzSuffix false = t "timestamp" ++ t "(" ++ natStr n ++ t ")" := by
      simp [paren, tzSuffix]
    have e2 : t "datetime" ++ paren (some n) = t "datetime" ++ t "(" ++ natStr n ++ t ")" := by simp [paren]
    cases e with
    | postgresql => exact base (congrArg Except.ok e1) (by simp only [timeDigits, timestampDigits, o1.1, o1.2]; simp) rfl
    | redshift => exact base (congrArg Except.ok e1) (by simp only [timeDigits, timestampDigits, o1.1, o1.2]) rfl
    | trino => exact base (congrArg Except.ok e1) (by simp only [timeDigits, timestampDigits, o1.1, o1.2]; simp) rfl
    | mysql => exact base (congrArg Except.ok e2) (by simp only [timeDigits, timestampDigits, o2.1, o2.2]; simp) rfl
    | mssql => exact base rfl rfl rfl
    | delta => exact base rfl rfl rfl
    | snowflake => exact base rfl rfl rfl
    | oracle =>
      by_cases h : n = 6
      · subst h; exact base rfl rfl rfl
      · refine base (k := if n ≤ 9 then some n else none) (name := t "timestamp" ++ t "(" ++ natStr n ++ t ")") ?_ ?_ rfl
        · show SqlType.str (.timestamp .oracle (some n) false) = _
          rw [SqlType.str, if_neg (by simpa using h), e1]
        · simp only [timeDigits, o1.1, o1.2]; simp

def timeDigitsOf (e : Engine) : Option Nat → Option Nat
  | none => match e with
    | .postgresql | .redshift | .oracle => some 6
    | .mysql => some 0
    | .mssql => some 7
    | .snowflake => some 9
    | .trino => some 3
    | .delta => none
  | some d => match e with
    | .postgresql | .mysql => if d ≤ 6 then some d else none
    | .redshift | .delta => none
    | .oracle => some 6
    | .mssql => if d ≤ 7 then some d else none
    | .snowflake => if d ≤ 9 then some d else none
    | .trino => if d ≤ 12 then some d else none

theorem keeps_time (e : Engine) (d : Option Nat) (m : Nat) : KeepsMicroseconds e (.time (timeCls e) d false) m ↔
    ∃ k, timeDigitsOf e d = some k ∧ (m * 10 ^ k) % 10 ^ 6 = 0 := by
  have base : ∀ {name : Text} {k : Option Nat}, (SqlType.time (timeCls e) d false).str = .ok name →
      timeDigits e name = k → timeDigitsOf e d = k → (KeepsMicroseconds e (.time (timeCls e) d false) m ↔
      ∃ k, timeDigitsOf e d = some k ∧ (m * 10 ^ k) % 10 ^ 6 = 0) := by
    intro name k h1 h2 h3
    rw [keeps_of h1, h2, h3]
  cases d with
  | none => cases e <;> exact base rfl rfl rfl
  | some n =>
    have o1 := one (t "time") n (by decide)
    have e1 : t "time" ++ paren (some n) ++ tzSuffix false = t "time" ++ t "(" ++ natStr n ++ t ")" := by simp [paren, tzSuffix]
    cases e with
    | oracle => exact base rfl rfl rfl
    | postgresql => exact base (congrArg Except.ok e1) (by simp only [timeDigits, timeDigitsOf, o1.1, o1.2]; simp) rfl
    | redshift => exact base (congrArg Except.ok e1) (by simp only [timeDigits, timeDigitsOf, o1.1, o1.2]) rfl
    | trino => exact base (congrArg Except.ok e1) (by simp only [timeDigits, timeDigitsOf, o1.1, o1.2]; simp) rfl
    | mysql => exact base (congrArg Except.ok e1) (by simp only [timeDigits, timeDigitsOf, o1.1, o1.2]; simp) rfl
    | mssql => exact base (congrArg Except.ok e1) (by simp only [timeDigits, timeDigitsOf, o1.1, o1.2]; simp) rfl
    | snowflake => exact base (congrArg Except.ok e1) (by simp only [timeDigits, timeDigitsOf, o1.1, o1.2]; simp) rfl
    | delta => exact base (congrArg Except.ok e1) (by simp only [timeDigits, timeDigitsOf, o1.1, o1.2]) rfl

end C48

/-- **C48**, points in time, exact: a column for `datetime` keeps all microseconds, except for MySQL, which keeps whole seconds, and Trino, which keeps milliseconds. -/
theorem C48_datetime_exact (e : Engine) (g : GenOptions) (o : ConvOptions) (ho : e.options g = .ok o) (micros : Nat) :
    KeepsMicroseconds e (o.primType .datetime) micros ↔ (e = .mysql → micros % 1000000 = 0) ∧ (e = .trino → micros % 1000 = 0) := by
  rw [C48.timestamp_prim ho, show C48.timestampDefault e = (none : Option Nat).or (C48.timestampDefault e) from rfl, C48.keeps_timestamp]
  cases e <;> simp [C48.timestampDigits] <;> omega

/-- **C48**, times of day, exact: likewise; Delta has no such type. -/
theorem C48_time_exact (e : Engine) (g : GenOptions) (o : ConvOptions) (ho : e.options g = .ok o) (micros : Nat) :
    KeepsMicroseconds e (o.primType .time) micros ↔ e ≠ .delta ∧ (e = .mysql → micros % 1000000 = 0) ∧ (e = .trino → micros % 1000 = 0) := by
  rw [C48.time_prim ho, C48.keeps_time]
  cases e <;> simp [C48.timeDigitsOf] <;> omega

/-- **C48**, declared precision: a column for a point in time with up to 6 digits after the decimal point of the seconds keeps them, on all engines but Redshift, which accepts no
    precision; a column for a time of day likewise, except also for Delta. -/
theorem C48_time_precision (e : Engine) (g : GenOptions) (o : ConvOptions) (ho : e.options g = .ok o) (ms : List Meta) (hm : ∀ m ∈ ms, TimeMeta m)
    (d : Nat) (hd : declaredDigits ms = some d) (h6 : d ≤ 6) :
    (∃ ty, o.annotatedType .datetime ms = .ok ty ∧ ((∀ k, KeepsMicroseconds e ty (k * 10 ^ (6 - d))) ↔ e ≠ .redshift)) ∧
    (∃ ty, o.annotatedType .time ms = .ok ty ∧ ((∀ k, KeepsMicroseconds e ty (k * 10 ^ (6 - d))) ↔ e ≠ .redshift ∧ e ≠ .delta)) := by
  have h7 : d ≤ 7 := by omega
  have h9 : d ≤ 9 := by omega
  have h12 : d ≤ 12 := by omega
  have hs := fun k => C48.some_digits (d := d) (k := k) h6
  have ha := fun k => C48.all_digits (d := 6) (Nat.le_refl _) (k * 10 ^ (6 - d))
  have hb := fun k => C48.all_digits (d := 7) (by decide) (k * 10 ^ (6 - d))
  have hc := fun k => C48.all_digits (d := 9) (by decide) (k * 10 ^ (6 - d))
  refine ⟨⟨_, C48.timestamp_annotated ho ms hm, ?_⟩, ⟨_, C48.time_annotated ho ms hm, ?_⟩⟩
  · rw [hd]
    simp only [C48.keeps_timestamp]
    cases e <;> simp only [C48.timestampDigits, h6, h9, h12, if_true] <;> simp [hs, ha, hb, hc, -Nat.reducePow]
  · rw [hd]
    simp only [C48.keeps_time]
    cases e <;> simp only [C48.timeDigitsOf, h6, h7, h9, h12, if_true] <;> simp [hs, ha, hb, hc, -Nat.reducePow]

/-! ### Numbers -/

/-- **C48 fails** for decimal numbers without a declared precision: no engine but PostgreSQL keeps digits after the decimal point. -/
theorem C48_decimal_exact (e : Engine) (g : GenOptions) (o : ConvOptions) (ho : e.options g = .ok o) :
    (∀ m k, HoldsDecimal e (o.primType .decimal) m k) ↔ e = .postgresql := by
  have hp : o.primType .decimal = .decimal none none := by
    unfold ConvOptions.primType
    rw [(C31.options_eq ho).2]
    cases e <;> rfl
  rw [hp]
  constructor
  · intro h
    obtain ⟨name, shape, h1, h2, h3⟩ := h 5 1
    rw [SqlType.str] at h1
    cases h1
    cases e <;> first
      | rfl
      | (exfalso
         have h2 : some shape = some _ := h2.symm
         cases h2
         obtain ⟨n, hn, _⟩ := h3
         simp at hn
         omega)
  · rintro rfl m k
    exact ⟨t "decimal", .unlimited, rfl, rfl, trivial⟩

/-- **C48**, decimal numbers with a declared precision: a column holds all numbers with that many digits, up to 38 digits of which 30 may follow the point, for every engine. -/
theorem C48_decimal_precision (e : Engine) (g : GenOptions) (o : ConvOptions) (ho : e.options g = .ok o) (ms : List Meta) (hm : ∀ m ∈ ms, NumberMeta m)
    (p s : Nat) (hd : declaredPrecision ms = some (p, s)) (h1 : 1 ≤ p) (h2 : s ≤ p) (h3 : p ≤ 38) (h4 : s ≤ 30) :
    ∃ ty, o.annotatedType .decimal ms = .ok ty ∧ ∀ n : Int, n.natAbs < 10 ^ p → HoldsDecimal e ty n s := by
  have hb : o.annotatedBase .decimal = some (.decimal none none) := by
    unfold ConvOptions.annotatedBase
    rw [(C31.options_eq ho).2]
    cases e <;> rfl
  refine ⟨.decimal (some p) (some s), ?_, fun n hn => ⟨_, .fixed p s, rfl, ?_, ⟨n, rfl, hn⟩⟩⟩
  · unfold ConvOptions.annotatedType
    rw [hb, C48.parse_decimal _ _ _ hm, hd]
  · have := C48.two (t "decimal") p s (by decide)
    unfold decimalShape
    have e1 : t "decimal(" ++ natStr p ++ t ", " ++ natStr s ++ t ")" = t "decimal" ++ t "(" ++ natStr p ++ t ", " ++ natStr s ++ t ")" := rfl
    rw [e1, this.1, if_pos rfl, this.2]
    have a : p ≤ 1000 := by omega
    have b : p ≤ 65 := by omega
    have c : s ≤ 37 := by omega
    cases e <;> simp [h1, h2, h3, h4, a, b, c]

/-- **C48**, floating-point numbers: columns for `float` and `float64` hold all natural numbers of 53 binary digits, those for `float32` all of 24, for every engine. -/
theorem C48_float (e : Engine) (g : GenOptions) (o : ConvOptions) (ho : e.options g = .ok o) (n : Nat) :
    (n < 2 ^ 53 → HoldsFloat e (o.primType .float) n ∧ HoldsFloat e (o.primType .float64) n) ∧ (n < 2 ^ 24 → HoldsFloat e (o.primType .float32) n) := by
  have key : ∀ {ty : SqlType} {name : Text} {bits b : Nat}, ty.str = .ok name → floatBits e name = some bits → b ≤ bits → n < 2 ^ b → HoldsFloat e ty n :=
    fun h1 h2 h3 h4 => ⟨_, _, h1, h2, n, 0, by simp, Nat.lt_of_lt_of_le h4 (Nat.pow_le_pow_right (by decide) h3)⟩
  have hs := (C31.options_eq ho).2
  unfold ConvOptions.primType
  rw [hs]
  constructor
  · intro h
    cases e <;> exact ⟨key rfl rfl (by decide) h, key rfl rfl (by decide) h⟩
  · intro h
    cases e <;> exact key rfl rfl (by decide) h

/-- **C48 fails** for `Annotated[float, Precision(d, ...)]`: the number of decimal digits is taken for that of binary digits.  If 8 to 24 digits are declared, a column of PostgreSQL,
    Redshift, MySQL and SQL Server does not hold 16777217, which has eight. -/
theorem C48_float_precision_fails (e : Engine) (g : GenOptions) (o : ConvOptions) (ho : e.options g = .ok o)
    (he : e = .postgresql ∨ e = .redshift ∨ e = .mysql ∨ e = .mssql) (ms : List Meta) (hm : ∀ m ∈ ms, NumberMeta m)
    (d s : Nat) (hd : declaredPrecision ms = some (d, s)) (h1 : 8 ≤ d) (h2 : d ≤ 24) :
    ∃ ty, o.annotatedType .float ms = .ok ty ∧ 16777217 < 10 ^ d ∧ ¬ HoldsFloat e ty 16777217 := by
  have hb : o.annotatedBase .float = some (.float none) := by
    unfold ConvOptions.annotatedBase
    rw [(C31.options_eq ho).2]
    rcases he with rfl | rfl | rfl | rfl <;> rfl
  refine ⟨.float (some d), ?_, Nat.lt_of_lt_of_le (by decide) (Nat.pow_le_pow_right (n := 10) (by decide) h1), ?_⟩
  · unfold ConvOptions.annotatedType
    rw [hb, C48.parse_float _ _ hm, hd]
    rfl
  · rintro ⟨name, bits, hn, hbits, m, k, hmk, hlt⟩
    have hone := C48.one (t "float") d (by decide)
    have e1 : (t "float(" ++ natStr ((some d).getD 53) ++ t ")") = t "float" ++ t "(" ++ natStr d ++ t ")" := rfl
    rw [SqlType.str, e1] at hn
    cases hn
    have : bits = 24 := by
      rcases he with rfl | rfl | rfl | rfl <;> simp only [floatBits, hone.1, hone.2] at hbits <;>
        (rw [if_pos ⟨trivial, by omega, by omega⟩, if_pos h2] at hbits; exact (Option.some.inj hbits).symm)
    subst this
    cases k with
    | zero => omega
    | succ k =>
      rw [Nat.pow_succ, ← Nat.mul_assoc] at hmk
      omega

/-- **C48 for enumerations of strings** that are kept in place with a check, as they are by default for Delta, Snowflake and Trino: these hold every value of at most 64 characters; so do
    PostgreSQL and MySQL, while Redshift, Oracle and SQL Server do so if it has at most 64 bytes. -/
theorem C48_labels (e : Engine) (g : GenOptions) (o : ConvOptions) (ho : e.options g = .ok o)
    (hm : g.enumMode = some .check ∨ (g.enumMode = none ∧ (e = .delta ∨ e = .snowflake ∨ e = .trino))) (d : EnumDecl) (hd : d.kind = .str) :
    ∃ ty, o.enumType d = .ok ty ∧ ∀ s : Text, (if e = .redshift ∨ e = .oracle ∨ e = .mssql then utf8Length s ≤ 64 else s.length ≤ 64) → HoldsText e ty s := by
  have hmode : o.enumMode = .check := by
    unfold Engine.options at ho
    split at ho
    · cases ho
      dsimp only
      rcases hm with hm | ⟨hm, rfl | rfl | rfl⟩ <;> rw [hm] <;> rfl
    · cases ho
  have hl : o.labelType = .ok (.varChar (C48.textCls e) (some 64)) := by
    unfold ConvOptions.labelType
    rw [C48.text_annotated ho _ (by intro m hm; rw [List.mem_singleton] at hm; subst hm; exact trivial)]
    rfl
  refine ⟨.varChar (C48.textCls e) (some 64), ?_, ?_⟩
  · unfold ConvOptions.enumType
    rw [hd, hmode]
    dsimp only
    rw [if_neg (by decide), hl]
  · intro s hs
    rw [C48.holds_length]
    cases e <;> simp [C48.limitOf, limitBy] at hs ⊢ <;> first | exact hs | skip
    have := C48.utf8_le s
    exact ⟨hs, by omega⟩

/-- Declarations with and without parameters. -/
example : ∃ o, (Engine.mysql).options { mapping := fun m => .ok (some m) } = .ok o ∧
    (∀ s : Text, s.length ≤ 100 → ∃ ty, o.annotatedType .str [.skipped, .maxLength 100] = .ok ty ∧ HoldsText .mysql ty s) ∧
    ¬ KeepsMicroseconds .mysql (o.primType .datetime) 500000 ∧
    (∃ ty, o.annotatedType .datetime [.timePrecision 1] = .ok ty ∧ KeepsMicroseconds .mysql ty 500000) ∧
    (∃ ty, o.annotatedType .decimal [.precision 10 2] = .ok ty ∧ HoldsDecimal .mysql ty 995 2) := by
  have ho : (Engine.mysql).options { mapping := fun m => .ok (some m) } = .ok _ := rfl
  refine ⟨_, ho, ?_, ?_, ?_, ?_⟩
  · intro s hs
    obtain ⟨ty, h1, h2⟩ := C48_length_exact _ _ _ ho [.skipped, .maxLength 100] (by simp [TextMeta]) 100 rfl (by decide)
    exact ⟨ty, h1, h2.2 (.inl (by decide)) s hs⟩
  · rw [C48_datetime_exact _ _ _ ho]; simp
  · obtain ⟨⟨ty, h1, h2⟩, _⟩ := C48_time_precision _ _ _ ho [.timePrecision 1] (by simp [TimeMeta]) 1 rfl (by decide)
    exact ⟨ty, h1, h2.2 (by decide) 5⟩
  · obtain ⟨ty, h1, h2⟩ := C48_decimal_precision _ _ _ ho [.precision 10 2] (by simp [NumberMeta]) 10 2 rfl (by decide) (by decide) (by decide) (by decide)
    exact ⟨ty, h1, h2 995 (by decide)⟩

end PySqlSync
