/-
C31: every value of a Python fixed-width integer type fits the column type it is mapped to.
-/
import Verif.Spec.Integers

set_option autoImplicit false

namespace PySqlSync
open Spec
namespace C31

theorem options_eq {e : Engine} {g : GenOptions} {o : ConvOptions} (h : e.options g = .ok o) :
    o.extraNumeric = false ∧ o.substitution = e.substitution := by
  unfold Engine.options at h
  split at h
  · cases h; exact ⟨rfl, rfl⟩
  · cases h

def wide (e : Engine) : Prop := e = .snowflake ∨ e = .oracle
instance (e : Engine) : Decidable (wide e) := by unfold wide; infer_instance

theorem range_small (e : Engine) : columnRange e (t "smallint") =
    some (if wide e then (-(10 ^ 38 - 1), 10 ^ 38 - 1) else (-2 ^ 15, 2 ^ 15 - 1)) := by cases e <;> rfl
theorem range_int (e : Engine) : columnRange e (t "integer") =
    some (if wide e then (-(10 ^ 38 - 1), 10 ^ 38 - 1) else (-2 ^ 31, 2 ^ 31 - 1)) := by cases e <;> rfl
theorem range_big (e : Engine) : columnRange e (t "bigint") =
    if e = .oracle then none else some (if e = .snowflake then (-(10 ^ 38 - 1), 10 ^ 38 - 1) else (-2 ^ 63, 2 ^ 63 - 1)) := by cases e <;> rfl
theorem range_number : columnRange .oracle (t "number") = some (-(10 ^ 38 - 1), 10 ^ 38 - 1) := rfl
theorem range_tiny (e : Engine) (h : e = .postgresql ∨ e = .redshift) : columnRange e (t "tinyint") = none := by
  rcases h with rfl | rfl <;> rfl
theorem range_tiny_mssql : columnRange .mssql (t "tinyint") = some (0, 255) := rfl

theorem accepts_of {e : Engine} {ty : SqlType} {name : Text} (h : ty.str = .ok name) (n : Int) :
    Accepts e ty n ↔ ∃ r, columnRange e name = some r ∧ r.1 ≤ n ∧ n ≤ r.2 := by
  constructor
  · rintro ⟨nm, r, h1, h2, h3⟩
    rw [h] at h1; cases h1
    exact ⟨r, h2, h3⟩
  · rintro ⟨r, h2, h3⟩; exact ⟨name, r, h, h2, h3⟩

theorem accepts2 (e : Engine) (s : Bool) (lo hi : Option Int) (n : Int) : Accepts e (.integer .base 2 s lo hi) n ↔
    if wide e then -(10 ^ 38 - 1) ≤ n ∧ n ≤ 10 ^ 38 - 1 else -2 ^ 15 ≤ n ∧ n ≤ 2 ^ 15 - 1 := by
  rw [accepts_of (name := t "smallint") (by simp [SqlType.str]), range_small]
  by_cases h : wide e <;> simp [h]
theorem accepts4 (e : Engine) (s : Bool) (lo hi : Option Int) (n : Int) : Accepts e (.integer .base 4 s lo hi) n ↔
    if wide e then -(10 ^ 38 - 1) ≤ n ∧ n ≤ 10 ^ 38 - 1 else -2 ^ 31 ≤ n ∧ n ≤ 2 ^ 31 - 1 := by
  rw [accepts_of (name := t "integer") (by simp [SqlType.str]), range_int]
  by_cases h : wide e <;> simp [h]
theorem accepts8 (e : Engine) (s : Bool) (lo hi : Option Int) (n : Int) : Accepts e (.integer .base 8 s lo hi) n ↔
    e ≠ .oracle ∧ if e = .snowflake then -(10 ^ 38 - 1) ≤ n ∧ n ≤ 10 ^ 38 - 1 else -2 ^ 63 ≤ n ∧ n ≤ 2 ^ 63 - 1 := by
  rw [accepts_of (name := t "bigint") (by simp [SqlType.str]), range_big]
  by_cases h : e = .oracle
  · simp [h]
  · by_cases h' : e = .snowflake <;> simp [h, h']
theorem accepts_number (w : Nat) (s : Bool) (lo hi : Option Int) (n : Int) : Accepts .oracle (.integer .oracle w s lo hi) n ↔
    -(10 ^ 38 - 1) ≤ n ∧ n ≤ 10 ^ 38 - 1 := by
  rw [accepts_of (name := t "number") (by simp [SqlType.str]), range_number]
  simp

/-- The type of each of the fixed-width integers. -/
theorem prim_type {e : Engine} {g : GenOptions} {o : ConvOptions} (ho : e.options g = .ok o) (p : Prim) (r : Int × Int)
    (hr : fixedRange p = some r) :
    o.primType p = if e = .oracle ∧ (p = .int8 ∨ p = .int16 ∨ p = .int32 ∨ p = .int64) then .integer .oracle 8 true none none
      else if p = .int8 ∨ p = .int16 ∨ p = .uint8 ∨ p = .uint16 then .integer .base 2 true none none
      else if p = .int32 ∨ p = .uint32 then .integer .base 4 true none none
      else .integer .base 8 true none none := by
  obtain ⟨hx, hs⟩ := options_eq ho
  cases p <;> first | (simp [fixedRange] at hr; done) | (unfold ConvOptions.primType; rw [hs]; cases e <;> simp [hx, Engine.substitution])

end C31

/-- **C31, exact**: for every engine and its options, a column accepts every value of a fixed-width integer type if, and only if, the type is
    signed or `uint8`, or the engine is Snowflake, or it is Oracle and the type is not `uint64`. -/
theorem C31_exact (e : Engine) (g : GenOptions) (o : ConvOptions) (ho : e.options g = .ok o) (p : Prim) (r : Int × Int)
    (hr : fixedRange p = some r) :
    (∀ n, r.1 ≤ n → n ≤ r.2 → Accepts e (o.primType p) n) ↔
      (p = .int8 ∨ p = .int16 ∨ p = .int32 ∨ p = .int64 ∨ p = .uint8 ∨ e = .snowflake ∨ (e = .oracle ∧ p ≠ .uint64)) := by
  rw [C31.prim_type ho p r hr]
  constructor
  · intro h
    cases p <;> first
      | (simp [fixedRange] at hr; done)
      | (simp; done)
      | (simp only [fixedRange, Option.some.injEq] at hr
         subst hr
         have h1 := h _ (by decide) (Int.le_refl _)
         simp [C31.accepts2, C31.accepts4, C31.accepts8] at h1
         cases e <;> simp [C31.wide] at h1 ⊢)
  · intro hw n h1 h2
    cases p <;> first
      | (simp [fixedRange] at hr; done)
      | (simp only [fixedRange, Option.some.injEq] at hr
         subst hr
         simp at h1 h2
         cases e <;> simp [C31.accepts2, C31.accepts4, C31.accepts8, C31.accepts_number, C31.wide] at hw ⊢ <;> omega)

/-- **C31**: every value of a signed fixed-width type and of `uint8` fits its column, for every engine.  Not so for the wider unsigned types
    (`C31_unsigned_too_small`). -/
theorem C31_fits (e : Engine) (g : GenOptions) (o : ConvOptions) (ho : e.options g = .ok o) (p : Prim) (r : Int × Int)
    (hr : fixedRange p = some r) (hp : p ≠ .uint16 ∧ p ≠ .uint32 ∧ p ≠ .uint64) (n : Int) (h1 : r.1 ≤ n) (h2 : n ≤ r.2) :
    Accepts e (o.primType p) n := by
  refine (C31_exact e g o ho p r hr).2 ?_ n h1 h2
  cases p <;> simp [fixedRange] at hr <;> simp at hp ⊢

/-- **C31 fails** for the other unsigned types: no engine but Oracle and Snowflake accepts the greatest value. -/
theorem C31_unsigned_too_small (e : Engine) (g : GenOptions) (o : ConvOptions) (ho : e.options g = .ok o)
    (he : e ≠ .oracle) (he' : e ≠ .snowflake) (p : Prim) (r : Int × Int) (hr : fixedRange p = some r)
    (hp : p = .uint16 ∨ p = .uint32 ∨ p = .uint64) : ¬ Accepts e (o.primType p) r.2 := by
  rw [C31.prim_type ho p r hr]
  rcases hp with rfl | rfl | rfl <;> simp only [fixedRange, Option.some.injEq] at hr <;> subst hr <;>
    simp [C31.accepts2, C31.accepts4, C31.accepts8, C31.wide, he, he']

/-- **C31** with `extra_numeric_types`: the types of the extension have exactly the right width, `int16`, `int32` and `int64` as before. -/
theorem C31_extra_types (o : ConvOptions) (hx : o.extraNumeric = true) (hs : o.substitution = Engine.postgresql.substitution) (p : Prim)
    (r : Int × Int) (hr : fixedRange p = some r) :
    ∃ name, (o.primType p).str = .ok name ∧ (extensionRange name = some r ∨ columnRange .postgresql name = some r) := by
  cases p <;> simp only [fixedRange, Option.some.injEq, reduceCtorEq] at hr <;> subst hr <;>
    simp only [ConvOptions.primType, hx, hs, Engine.substitution, SqlType.str, QId.quoted, if_true] <;>
    first
      | exact ⟨_, rfl, .inl rfl⟩
      | exact ⟨_, rfl, .inr rfl⟩

namespace C31

theorem parse_int (c : Cls) : ∀ (ms : List Meta) (w : Nat) (s : Bool) (lo hi : Option Int), (∀ m ∈ ms, IntMeta m) →
    ∃ w' s' lo' hi', parseMetas (some (.integer c w s lo hi)) ms = .ok (some (.integer c w' s' lo' hi')) ∧
      w' = (ms.reverse.findSome? Spec.Meta.width?).getD w
  | [], w, s, lo, hi, _ => ⟨w, s, lo, hi, rfl, rfl⟩
  | m :: ms, w, s, lo, hi, h => by
    have hm := h m (List.mem_cons_self ..)
    have hrest : ∀ x ∈ ms, IntMeta x := fun x hx => h x (List.mem_cons_of_mem _ hx)
    cases m with
    | storage n =>
      obtain ⟨w', s', lo', hi', h1, h2⟩ := parse_int c ms n s lo hi hrest
      refine ⟨w', s', lo', hi', ?_, ?_⟩
      · simpa [parseMetas, SqlType.parseMeta] using h1
      · rw [h2, List.reverse_cons, List.findSome?_append]
        cases (ms.reverse.findSome? Spec.Meta.width?) <;> simp [Spec.Meta.width?]
    | signed b =>
      obtain ⟨w', s', lo', hi', h1, h2⟩ := parse_int c ms w b lo hi hrest
      refine ⟨w', s', lo', hi', ?_, ?_⟩
      · simpa [parseMetas, SqlType.parseMeta] using h1
      · rw [h2, List.reverse_cons, List.findSome?_append]
        cases (ms.reverse.findSome? Spec.Meta.width?) <;> simp [Spec.Meta.width?]
    | integerRange a b =>
      obtain ⟨w', s', lo', hi', h1, h2⟩ := parse_int c ms w s (some a) (some b) hrest
      refine ⟨w', s', lo', hi', ?_, ?_⟩
      · simpa [parseMetas, SqlType.parseMeta] using h1
      · rw [h2, List.reverse_cons, List.findSome?_append]
        cases (ms.reverse.findSome? Spec.Meta.width?) <;> simp [Spec.Meta.width?]
    | skipped =>
      obtain ⟨w', s', lo', hi', h1, h2⟩ := parse_int c ms w s lo hi hrest
      refine ⟨w', s', lo', hi', ?_, ?_⟩
      · simpa [parseMetas] using h1
      · rw [h2, List.reverse_cons, List.findSome?_append]
        cases (ms.reverse.findSome? Spec.Meta.width?) <;> simp [Spec.Meta.width?]
    | maxLength _ => exact hm.elim
    | minLength _ => exact hm.elim
    | precision _ _ => exact hm.elim
    | timePrecision _ => exact hm.elim
    | other => exact hm.elim

/-- The type of an annotated integer: the declared width, whatever the order of the annotations. -/
theorem annotated_int (e : Engine) (g : GenOptions) (o : ConvOptions) (ho : e.options g = .ok o) (ms : List Meta) (hm : ∀ m ∈ ms, IntMeta m) :
    ∃ s lo hi, o.annotatedType .int ms = .ok (.integer (if e = .oracle then .oracle else .base) (declaredWidth ms) s lo hi) := by
  obtain ⟨_, hs⟩ := options_eq ho
  have hb : o.annotatedBase .int = some (.integer (if e = .oracle then .oracle else .base) 8 true none none) := by
    cases e <;> simp [ConvOptions.annotatedBase, hs, Engine.substitution]
  obtain ⟨w, s, lo, hi, h1, h2⟩ := parse_int (if e = .oracle then .oracle else .base) ms 8 true none none hm
  refine ⟨s, lo, hi, ?_⟩
  unfold ConvOptions.annotatedType declaredWidth
  rw [hb, h1, h2]

end C31

/-- **C31**, annotated integers: a column accepts every value of `Annotated[int, ...]` for every list of `Storage`, `Signed` and
    `IntegerRange` annotations, if values are signed and the declared width is 2, 4 or 8.  Not so for unsigned values and width 1
    (`C31_annotated_unsigned_too_small`, `C31_annotated_byte`). -/
theorem C31_annotated (e : Engine) (g : GenOptions) (o : ConvOptions) (ho : e.options g = .ok o) (ms : List Meta)
    (hm : ∀ m ∈ ms, IntMeta m) (hw : declaredWidth ms = 2 ∨ declaredWidth ms = 4 ∨ declaredWidth ms = 8) (hs : declaredSigned ms = true)
    (n : Int) (hn : Declared ms n) : ∃ ty, o.annotatedType .int ms = .ok ty ∧ Accepts e ty n := by
  obtain ⟨s, lo, hi, h⟩ := C31.annotated_int e g o ho ms hm
  refine ⟨_, h, ?_⟩
  have hf := hn.1
  rw [hs] at hf
  simp only [FitsBytes, if_true] at hf
  rcases hw with hw | hw | hw <;> rw [hw] at hf ⊢ <;> simp at hf <;>
    cases e <;> simp [C31.accepts2, C31.accepts4, C31.accepts8, C31.accepts_number, C31.wide] <;> omega

/-- **C31 fails** for annotated integers: `Signed(False)` does not widen the column (nor does it make it unsigned). -/
theorem C31_annotated_unsigned_too_small (e : Engine) (g : GenOptions) (o : ConvOptions) (ho : e.options g = .ok o)
    (he : e ≠ .oracle) (he' : e ≠ .snowflake) (ms : List Meta) (hm : ∀ m ∈ ms, IntMeta m)
    (hw : declaredWidth ms = 2 ∨ declaredWidth ms = 4 ∨ declaredWidth ms = 8) (hs : declaredSigned ms = false) (hb : declaredBounds ms = none) :
    ∃ ty n, o.annotatedType .int ms = .ok ty ∧ Declared ms n ∧ ¬ Accepts e ty n := by
  obtain ⟨s, lo, hi, h⟩ := C31.annotated_int e g o ho ms hm
  refine ⟨_, ((2 ^ (8 * declaredWidth ms) : Nat) : Int) - 1, h, ⟨?_, ?_⟩, ?_⟩
  · rw [hs]
    rcases hw with hw | hw | hw <;> rw [hw] <;> simp [FitsBytes]
  · intro a b hab; rw [hb] at hab; cases hab
  · rw [if_neg he]
    rcases hw with hw | hw | hw <;> rw [hw] <;> simp [C31.accepts2, C31.accepts4, C31.accepts8, C31.wide, he, he']

/-- **C31 fails** for annotated integers of one byte: PostgreSQL and Redshift have no such type, and the one of SQL Server holds no negative number. -/
theorem C31_annotated_byte (e : Engine) (g : GenOptions) (o : ConvOptions) (ho : e.options g = .ok o)
    (he : e = .postgresql ∨ e = .redshift ∨ e = .mssql) (ms : List Meta) (hm : ∀ m ∈ ms, IntMeta m) (hw : declaredWidth ms = 1)
    (n : Int) (hn : n < 0) : ∃ ty, o.annotatedType .int ms = .ok ty ∧ ¬ Accepts e ty n := by
  obtain ⟨s, lo, hi, h⟩ := C31.annotated_int e g o ho ms hm
  refine ⟨_, h, ?_⟩
  have hne : e ≠ .oracle := by rcases he with rfl | rfl | rfl <;> simp
  rw [if_neg hne, hw, C31.accepts_of (name := t "tinyint") (by simp [SqlType.str])]
  rintro ⟨r, h3, h4, -⟩
  rcases he with he | he | rfl
  · rw [C31.range_tiny e (.inl he)] at h3; cases h3
  · rw [C31.range_tiny e (.inr he)] at h3; cases h3
  · rw [C31.range_tiny_mssql] at h3
    cases h3
    simp at h4
    omega

/-- Every engine accepts its default options, and `int8` has values. -/
example (e : Engine) : ∃ o, e.options { mapping := fun _ => .ok none } = .ok o := by cases e <;> exact ⟨_, rfl⟩
example : fixedRange .uint8 = some (0, 255) := by decide
/-- `Annotated[int, Storage(2), IntegerRange(0, 10)]` meets the conditions of `C31_annotated`. -/
example : declaredWidth [.storage 2, .integerRange 0 10] = 2 ∧ declaredSigned [.storage 2, .integerRange 0 10] = true := by decide
example : Declared [.storage 2, .integerRange 0 10] 7 := by
  have hw : declaredWidth [.storage 2, .integerRange 0 10] = 2 := rfl
  have hs : declaredSigned [.storage 2, .integerRange 0 10] = true := rfl
  have hb : declaredBounds [.storage 2, .integerRange 0 10] = some (0, 10) := rfl
  refine ⟨by rw [hw, hs]; simp [FitsBytes], ?_⟩
  intro a b h
  rw [hb] at h
  cases h
  omega

/-- **C31** for `int` without annotations (which in Python has no bounds): the column holds all integers of 64 bits, for every engine. -/
theorem C31_int (e : Engine) (g : GenOptions) (o : ConvOptions) (ho : e.options g = .ok o) (n : Int) (h1 : -2 ^ 63 ≤ n) (h2 : n ≤ 2 ^ 63 - 1) :
    Accepts e (o.primType .int) n := by
  unfold ConvOptions.primType
  rw [(C31.options_eq ho).2]
  cases e <;> simp only [Engine.substitution] <;> simp [C31.accepts8, C31.accepts_number] <;> omega

end PySqlSync
