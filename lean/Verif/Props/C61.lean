/-
C61: on SQL Server and Oracle, the declared types of parameters are those of the columns the parameters are for, and admit the values that the columns hold.
-/
import Verif.Spec.Params
import Verif.Props.C22
import Verif.Props.C48

set_option autoImplicit false

namespace PySqlSync
open Spec
namespace C61

theorem getColumns_mem {tb : Table} {order : Option (List Text)} {cols : List Column} (h : tb.getColumns order = .ok cols) :
    ∀ c ∈ cols, c ∈ tb.columns.items := by
  cases order with
  | none => cases h; exact fun _ hc => hc
  | some names =>
    unfold Table.getColumns at h
    intro c hc
    obtain ⟨n, _, hn⟩ := Conv.mapM_back h c hc
    cases hg : tb.columns.get n with
    | none => rw [hg] at hn; cases hn
    | some x => rw [hg] at hn; cases hn; exact (ODict.get_some_mem hg).1

theorem declared_for {P : Type} (declare : SqlType → P) {tb : Table} {cols : List Column} (h : ∀ c ∈ cols, c ∈ tb.columns.items) :
    DeclaredFor declare tb (cols.map Column.name) (cols.map (fun c => declare c.ty)) := by
  refine ⟨by simp, fun i name p h1 h2 => ?_⟩
  rw [List.getElem?_map, Option.map_eq_some_iff] at h1 h2
  obtain ⟨c, hc, rfl⟩ := h1
  obtain ⟨c', hc', rfl⟩ := h2
  rw [hc] at hc'
  cases hc'
  exact ⟨c, h c (List.mem_of_getElem? hc), rfl, rfl⟩

theorem addressed_iff {tb : Table} (hd : Distinct tb.columns) {names : Option (List Text)} {cols : List Column}
    (h : tb.getColumns (fieldOrder names) = .ok cols) (c : Column) : c ∈ cols ↔ Addressed tb names c := by
  unfold Addressed
  have all : tb.getColumns none = .ok cols → (c ∈ cols ↔ c ∈ tb.columns.items) := by
    intro h; cases h; exact Iff.rfl
  cases names with
  | none => rw [all h]; exact ⟨fun h => ⟨h, fun _ e => by cases e⟩, fun h => h.1⟩
  | some labels =>
    cases labels with
    | nil => rw [all h]; exact ⟨fun h => ⟨h, fun _ e => by cases e; exact Or.inl rfl⟩, fun h => h.1⟩
    | cons x l =>
      have hn := C22.getColumns_names h
      constructor
      · intro hc
        refine ⟨getColumns_mem h c hc, fun _ e => ?_⟩
        cases e
        have : c.name ∈ (x :: l).filter (fun n => n ≠ []) := by rw [← hn]; exact List.mem_map_of_mem hc
        obtain ⟨h1, h2⟩ := List.mem_filter.1 this
        exact Or.inr ⟨by simpa using h2, h1⟩
      · rintro ⟨hc, hl⟩
        rcases hl _ rfl with e | ⟨h1, h2⟩
        · cases e
        · have : c.name ∈ cols.map Column.name := by rw [hn]; exact List.mem_filter.2 ⟨h2, by simpa using h1⟩
          obtain ⟨c', hc', e⟩ := List.mem_map.1 this
          have a := ODict.get_eq_of_mem hd hc
          have b := ODict.get_eq_of_mem hd (getColumns_mem h c' hc')
          have e : key c' = key c := e
          rw [e, a] at b
          cases b
          exact hc'

end C61

/-! ### Positions -/

/-- **C61**, `upsert_rows`: each parameter is declared with the type of the column it is for. -/
theorem C61_upsert {V P : Type} {declare : SqlType → P} {tb : Table} {make : Nat → FieldType → Text → Except Err (Transformer V)}
    {types : List FieldType} {names : Option (List Text)} {records : List (Record V)} {stmt : Dml} {declared : List P} {out : List (List (Record V))}
    (h : typedUpsert declare tb make types names records = .ok (stmt, declared, out)) : DeclaredFor declare tb stmt.params declared := by
  simp only [typedUpsert, upsertRows, declaredParams, Conv.bind_ok, Conv.pure_ok] at h
  obtain ⟨_, ⟨_, _, s, hs, rfl⟩, _, ⟨cols, hc, rfl⟩, e⟩ := h
  cases e
  obtain ⟨cols', h1, h2⟩ := C22.upsert_params hs
  rw [hc] at h1
  cases h1
  rw [h2]
  exact C61.declared_for _ (C61.getColumns_mem hc)

/-- **C61**, `delete_rows`: likewise. -/
theorem C61_delete {V P : Type} {declare : SqlType → P} {tb : Table} {transformer : Option (V → V)} {keys : List V} {stmt : Dml}
    {declared : List P} {out : List (List (Record V))} (h : typedDelete declare tb transformer keys = .ok (stmt, declared, out)) :
    DeclaredFor declare tb stmt.params declared := by
  simp only [typedDelete, deleteRows, deleteStmt, declaredParams, Conv.bind_ok, Conv.pure_ok] at h
  obtain ⟨_, ⟨_, ⟨key, hk, rfl⟩, rfl⟩, key', hk', _, ⟨cols, hc, rfl⟩, e⟩ := h
  cases e
  rw [hk] at hk'
  cases hk'
  have := C22.getColumns_names hc
  show DeclaredFor declare tb [key.name] _
  rw [← this]
  exact C61.declared_for _ (C61.getColumns_mem hc)

/-- **C61**, `insert_rows`, exactly: each parameter is declared with the type of the column it is for, if and only if the records have no value for an
    identity column: the statement leaves these out, the declarations do not. -/
theorem C61_insert_exact {V P : Type} {declare : SqlType → P} {tb : Table} {make : Nat → FieldType → Text → Except Err (Transformer V)}
    {types : List FieldType} {names : Option (List Text)} {records : List (Record V)} {stmt : Dml} {declared : List P} {out : List (List (Record V))}
    (hd : Distinct tb.columns) (h : typedInsert declare tb make types names records = .ok (stmt, declared, out)) :
    DeclaredFor declare tb stmt.params declared ↔ ∀ c, Addressed tb names c → c.identity = false := by
  simp only [typedInsert, insertRows, insertStmt, declaredParams, Conv.bind_ok, Conv.pure_ok] at h
  obtain ⟨_, ⟨_, _, s, ⟨cols, hc, rfl⟩, rfl⟩, _, ⟨cols', hc', rfl⟩, e⟩ := h
  cases e
  rw [hc] at hc'
  cases hc'
  have key : DeclaredFor declare tb ((cols.filter (fun c => !c.identity)).map Column.name) (cols.map (fun c => declare c.ty)) ↔
      ∀ c ∈ cols, c.identity = false := by
    constructor
    · rintro ⟨hl, _⟩ c hc'
      rw [List.length_map, List.length_map] at hl
      have := List.length_filter_eq_length_iff.1 hl.symm c hc'
      simpa using this
    · intro hall
      rw [List.filter_eq_self.2 (fun c hc' => by rw [hall c hc']; rfl)]
      exact C61.declared_for _ (C61.getColumns_mem hc)
  refine key.trans ?_
  exact forall_congr' fun c => by rw [C61.addressed_iff hd hc c]

set_option synthInstance.maxSize 1000 in
/-- A finding: `insert_rows` with a field of the type `NoneType` for an identity column is accepted, and values reach their columns (C22), but the parameters for
    the other columns are declared with the types of their predecessors: here two strings are sent, the first of them declared as an integer. -/
theorem C61_identity_shifted : (typedInsert odbcParam C22.Ex.tb C22.Ex.make [.omitted, .other 0, .other 0] none [[none, some 2, some 3]]).toOption
    = some (.insert C22.Ex.tb.name [t "x", t "y"], [⟨.bigint, 0, 0⟩, ⟨.varchar, 0, 0⟩, ⟨.varchar, 0, 0⟩], [[[some 2, some 6]]]) := by decide +kernel

set_option synthInstance.maxSize 1000 in
/-- Records for the columns `y` and `id`, in that order, with a field that is left out: the declarations are in the order of the labels. -/
example : ((typedUpsert oracleVar C22.Ex.tb C22.Ex.make C22.Ex.types C22.Ex.names C22.Ex.records).toOption.map (fun r => (r.1.params, r.2.1, r.2.2)))
    = some ([t "y", t "id"], [{ type := .clob }, { type := .number }], [[[some 10, some 1], [none, some 2]]]) := by decide +kernel

set_option synthInstance.maxSize 1000 in
example : (typedDelete odbcParam C22.Ex.tb (none : Option (Nat → Nat)) [3, 4]).toOption
    = some (.delete C22.Ex.tb.name (t "id"), [⟨.bigint, 0, 0⟩], [[[some 3], [some 4]]]) := by decide +kernel

set_option synthInstance.maxSize 1000 in
/-- Labels without the identity column meet the condition of `C61_insert_exact`. -/
example : (typedInsert odbcParam C22.Ex.tb C22.Ex.make [.other 0, .other 0] (some [t "y", t "x"]) [[some 1, some 2]]).toOption
    = some (.insert C22.Ex.tb.name [t "y", t "x"], [⟨.varchar, 0, 0⟩, ⟨.varchar, 0, 0⟩], [[[some 2, some 2]]])
    ∧ ∀ c ∈ C22.Ex.tb.columns.items, c.name ∈ [t "y", t "x"] → c.identity = false := by decide +kernel

/-! ### Integers -/

/-- **C61**, integers on SQL Server: whatever a column of an integer type holds, its parameter admits. -/
theorem C61_mssql_integers (c : Cls) (w : Nat) (s : Bool) (lo hi : Option Int) (n : Int) (h : Accepts .mssql (.integer c w s lo hi) n) :
    OdbcAdmitsInt (odbcParam (.integer c w s lo hi)) n := by
  obtain ⟨name, r, hn, hr, h1, h2⟩ := h
  have general : (if w = 1 then Except.ok (t "tinyint") else if w = 2 then .ok (t "smallint") else if w = 4 then .ok (t "integer")
      else if w = 8 then .ok (t "bigint") else .error Err.type) = Except.ok name → OdbcAdmitsInt (odbcParam (.integer c w s lo hi)) n := by
    intro hn
    unfold OdbcAdmitsInt odbcParam
    by_cases w1 : w = 1
    · simp only [w1, if_true] at hn ⊢
      cases hn
      exact ⟨_, rfl, by cases hr; exact h1, by cases hr; exact h2⟩
    · by_cases w2 : w = 2
      · simp only [w2, if_true] at hn ⊢
        cases hn
        exact ⟨_, rfl, by cases hr; exact h1, by cases hr; exact h2⟩
      · by_cases w4 : w = 4
        · simp only [w2, w4, if_true] at hn ⊢
          cases hn
          exact ⟨_, rfl, by cases hr; exact h1, by cases hr; exact h2⟩
        · by_cases w8 : w = 8
          · simp only [w1, w2, w4, w8, if_true, if_false] at hn ⊢
            cases hn
            exact ⟨_, rfl, by cases hr; exact h1, by cases hr; exact h2⟩
          · simp only [w1, w2, w4, w8, if_false] at hn
            cases hn
  cases c with
  | oracle => cases hn; cases hr
  | _ => exact general hn

/-- **C61**, integers on Oracle, exactly: parameters for fields of a fixed-width integer type admit all its values, unless the type is `uint32`, which is
    declared as `BINARY_INTEGER` although its column is wide enough (C31). -/
theorem C61_oracle_integers_exact (g : GenOptions) (o : ConvOptions) (ho : Engine.oracle.options g = .ok o) (p : Prim) (r : Int × Int)
    (hr : fixedRange p = some r) : (∀ n, r.1 ≤ n → n ≤ r.2 → OracleAdmitsInt (oracleVar (o.primType p)) n) ↔ p ≠ .uint32 := by
  rw [C31.prim_type ho p r hr]
  constructor
  · rintro h rfl
    cases hr
    obtain ⟨r, hr, _, h2⟩ := h (2 ^ 32 - 1) (by decide) (by decide)
    have hr : some ((-2 ^ 31, 2 ^ 31 - 1) : Int × Int) = some r := hr
    cases hr
    revert h2; decide
  · intro hp n h1 h2
    cases p <;> cases hr <;> simp [oracleVar, OracleAdmitsInt, oracleRange] at hp h1 h2 ⊢ <;> omega

/-- **C61**, annotated integers on Oracle: the parameter admits every value of `Annotated[int, ...]` of up to 8 bytes if values are signed, or the width is not 4. -/
theorem C61_oracle_annotated (g : GenOptions) (o : ConvOptions) (ho : Engine.oracle.options g = .ok o) (ms : List Meta) (hm : ∀ m ∈ ms, IntMeta m)
    (hw : 1 ≤ declaredWidth ms ∧ declaredWidth ms ≤ 8) (hs : declaredSigned ms = true ∨ declaredWidth ms ≠ 4) (n : Int) (hn : Declared ms n) :
    ∃ ty, o.annotatedType .int ms = .ok ty ∧ OracleAdmitsInt (oracleVar ty) n := by
  obtain ⟨s, lo, hi, h⟩ := C31.annotated_int .oracle g o ho ms hm
  refine ⟨_, h, ?_⟩
  have hf := hn.1
  unfold FitsBytes at hf
  have hw' : declaredWidth ms = 1 ∨ declaredWidth ms = 2 ∨ declaredWidth ms = 3 ∨ declaredWidth ms = 4 ∨ declaredWidth ms = 5 ∨ declaredWidth ms = 6 ∨
    declaredWidth ms = 7 ∨ declaredWidth ms = 8 := by omega
  unfold OracleAdmitsInt
  cases hsg : declaredSigned ms
  · rw [hsg] at hs
    rw [hsg] at hf
    rcases hw' with e | e | e | e | e | e | e | e <;> rw [e] at hf hs ⊢ <;> simp [oracleVar, oracleRange] at hf hs ⊢ <;> omega
  · rw [hsg] at hf
    rcases hw' with e | e | e | e | e | e | e | e <;> rw [e] at hf ⊢ <;> simp [oracleVar, oracleRange] at hf ⊢ <;> omega

/-! ### Strings -/

/-- **C61**, strings on SQL Server: whatever a column of strings holds, its parameter admits, with or without a declared length. -/
theorem C61_mssql_text (g : GenOptions) (o : ConvOptions) (ho : Engine.mssql.options g = .ok o) (ms : List Meta) (hm : ∀ m ∈ ms, TextMeta m) :
    (∀ s, OdbcAdmitsText (odbcParam (o.primType .str)) s) ∧
    ∃ ty, o.annotatedType .str ms = .ok ty ∧ ∀ s, HoldsText .mssql ty s → OdbcAdmitsText (odbcParam ty) s := by
  refine ⟨fun s => ?_, _, C48.text_annotated ho ms hm, fun s hs => ?_⟩
  · rw [C48.text_prim ho]
    exact ⟨Or.inr rfl, Or.inl rfl⟩
  · cases hl : declaredLength ms with
    | none => exact ⟨Or.inr rfl, Or.inl rfl⟩
    | some n =>
      rw [hl, Option.some_or, C48.holds_length] at hs
      obtain ⟨l, h1, _, h2⟩ := hs
      refine ⟨Or.inr rfl, ?_⟩
      cases n with
      | zero => exact Or.inl rfl
      | succ n =>
        refine Or.inr ?_
        show utf8Length s ≤ n + 1
        unfold C48.limitOf limitBy at h1
        simp only at h1
        split at h1
        · split at h1
          · cases h1; exact h2 _ rfl
          · cases h1
        · rename_i hc
          cases h1
          have := h2 _ rfl
          omega

/-- **C61**, strings on Oracle: every string is admitted by the parameter, if a length is declared, every string that is not longer. -/
theorem C61_oracle_text (g : GenOptions) (o : ConvOptions) (ho : Engine.oracle.options g = .ok o) (ms : List Meta) (hm : ∀ m ∈ ms, TextMeta m) :
    (∀ s, OracleAdmitsText (oracleVar (o.primType .str)) s) ∧
    ∃ ty, o.annotatedType .str ms = .ok ty ∧ ∀ s, (∀ n, declaredLength ms = some n → s.length ≤ n) → OracleAdmitsText (oracleVar ty) s := by
  refine ⟨fun s => ?_, _, C48.text_annotated ho ms hm, fun s hs => ?_⟩
  · rw [C48.text_prim ho]
    exact Or.inl rfl
  · cases hl : declaredLength ms with
    | none => exact Or.inl rfl
    | some n => exact Or.inr ⟨Or.inr rfl, n, rfl, hs n hl⟩

/-! ### Decimal numbers -/

namespace C61

theorem decimal_prim {e : Engine} {g : GenOptions} {o : ConvOptions} (ho : e.options g = .ok o) : o.primType .decimal = .decimal none none := by
  unfold ConvOptions.primType
  rw [(C31.options_eq ho).2]
  cases e <;> rfl

theorem decimal_annotated {e : Engine} {g : GenOptions} {o : ConvOptions} (ho : e.options g = .ok o) {ms : List Meta} (hm : ∀ m ∈ ms, NumberMeta m)
    {p s : Nat} (hd : declaredPrecision ms = some (p, s)) : o.annotatedType .decimal ms = .ok (.decimal (some p) (some s)) := by
  have hb : o.annotatedBase .decimal = some (.decimal none none) := by
    unfold ConvOptions.annotatedBase
    rw [(C31.options_eq ho).2]
    cases e <;> rfl
  unfold ConvOptions.annotatedType
  rw [hb, C48.parse_decimal _ _ _ hm, hd]

theorem orElse_zero (s : Nat) : orElse (some s) 0 = s := by cases s <;> rfl
theorem orElse_pos {p : Nat} (h : 1 ≤ p) (d : Nat) : orElse (some p) d = p := by
  cases p with
  | zero => omega
  | succ p => rfl

end C61

/-- **C61**, decimal numbers with a declared precision: whatever the column holds, the parameter admits. -/
theorem C61_decimal_precision (g : GenOptions) (o : ConvOptions) (ms : List Meta) (hm : ∀ m ∈ ms, NumberMeta m)
    (p s : Nat) (hd : declaredPrecision ms = some (p, s)) (m : Int) (k : Nat) :
    (Engine.mssql.options g = .ok o → ∃ ty, o.annotatedType .decimal ms = .ok ty ∧ (HoldsDecimal .mssql ty m k → OdbcAdmitsDecimal (odbcParam ty) m k)) ∧
    (Engine.oracle.options g = .ok o → ∃ ty, o.annotatedType .decimal ms = .ok ty ∧ (HoldsDecimal .oracle ty m k → OracleAdmitsDecimal (oracleVar ty) m k)) := by
  have two := C48.two (t "decimal") p s (by decide)
  have e1 : t "decimal(" ++ natStr p ++ t ", " ++ natStr s ++ t ")" = t "decimal" ++ t "(" ++ natStr p ++ t ", " ++ natStr s ++ t ")" := rfl
  constructor
  · intro ho
    refine ⟨_, C61.decimal_annotated ho hm hd, ?_⟩
    rintro ⟨name, shape, h1, h2, h3⟩
    rw [SqlType.str, e1] at h1
    cases h1
    unfold decimalShape at h2
    rw [two.1, if_pos rfl, two.2] at h2
    simp only at h2
    split at h2
    · rename_i hok
      cases h2
      obtain ⟨n, hn, hlt⟩ := h3
      have hp : 1 ≤ p := by
        cases p with
        | zero => simp at hok
        | succ p => omega
      refine ⟨rfl, n, ?_, ?_⟩
      · show n * 10 ^ k = m * 10 ^ (orElse (some s) 0)
        rw [C61.orElse_zero]; exact hn
      · show n.natAbs < 10 ^ (orElse (some p) 15)
        rw [C61.orElse_pos hp]; exact hlt
    · cases h2
  · intro ho
    refine ⟨_, C61.decimal_annotated ho hm hd, ?_⟩
    rintro ⟨name, shape, h1, h2, h3⟩
    rw [SqlType.str, e1] at h1
    cases h1
    unfold decimalShape at h2
    rw [two.1, if_pos rfl, two.2] at h2
    simp only at h2
    split at h2
    · rename_i hok
      cases h2
      obtain ⟨n, hn, hlt⟩ := h3
      simp only [Bool.and_eq_true, decide_eq_true_eq] at hok
      exact ⟨rfl, n, s, hn, Nat.lt_of_lt_of_le hlt (Nat.pow_le_pow_right (by decide) hok.2)⟩
    · cases h2

/-- **C61 fails** for decimal numbers without a declared precision on SQL Server, exactly: an integer that the column holds (up to 18 digits) is admitted by the
    parameter if, and only if, it has at most 15 digits. -/
theorem C61_mssql_decimal_exact (g : GenOptions) (o : ConvOptions) (ho : Engine.mssql.options g = .ok o) (n : Int) :
    (HoldsDecimal .mssql (o.primType .decimal) n 0 ↔ n.natAbs < 10 ^ 18) ∧
    (OdbcAdmitsDecimal (odbcParam (o.primType .decimal)) n 0 ↔ n.natAbs < 10 ^ 15) := by
  rw [C61.decimal_prim ho]
  constructor
  · constructor
    · rintro ⟨name, shape, h1, h2, h3⟩
      cases h1
      have h2 : some (DecimalShape.fixed 18 0) = some shape := h2
      cases h2
      obtain ⟨m, hm, hlt⟩ := h3
      have : m = n := by simpa using hm
      rw [← this]; exact hlt
    · intro h
      exact ⟨t "decimal", .fixed 18 0, rfl, rfl, n, rfl, h⟩
  · constructor
    · rintro ⟨_, m, hm, hlt⟩
      have : m = n := by simpa [odbcParam, orElse] using hm
      rw [← this]; exact hlt
    · intro h
      exact ⟨rfl, n, rfl, h⟩

/-! ### Time -/

/-- **C61 fails** for points in time and times of day on SQL Server, exactly: the column keeps all microseconds (C48), but its parameter, declared with no decimal
    digits, admits whole seconds only; whatever precision is declared. -/
theorem C61_mssql_time_exact (g : GenOptions) (o : ConvOptions) (ho : Engine.mssql.options g = .ok o) (ms : List Meta) (hm : ∀ m ∈ ms, TimeMeta m) (micros : Nat) :
    KeepsMicroseconds .mssql (o.primType .datetime) micros ∧
    (OdbcAdmitsMicroseconds (odbcParam (o.primType .datetime)) micros ↔ micros % 1000000 = 0) ∧
    (OdbcAdmitsMicroseconds (odbcParam (o.primType .time)) micros ↔ micros % 1000000 = 0) ∧
    (∃ ty, o.annotatedType .datetime ms = .ok ty ∧ (OdbcAdmitsMicroseconds (odbcParam ty) micros ↔ micros % 1000000 = 0)) ∧
    (∃ ty, o.annotatedType .time ms = .ok ty ∧ (OdbcAdmitsMicroseconds (odbcParam ty) micros ↔ micros % 1000000 = 0)) := by
  refine ⟨(C48_datetime_exact .mssql g o ho micros).2 ⟨fun h => Engine.noConfusion h, fun h => Engine.noConfusion h⟩, ?_, ?_, ⟨_, C48.timestamp_annotated ho ms hm, ?_⟩,
    ⟨_, C48.time_annotated ho ms hm, ?_⟩⟩
  · rw [C48.timestamp_prim ho]; simp [OdbcAdmitsMicroseconds, odbcParam]
  · rw [C48.time_prim ho]; simp [OdbcAdmitsMicroseconds, odbcParam]
  · simp [OdbcAdmitsMicroseconds, odbcParam]
  · simp [OdbcAdmitsMicroseconds, odbcParam]

/-- **C61**, points in time and times of day on Oracle: all are admitted. -/
theorem C61_oracle_time (g : GenOptions) (o : ConvOptions) (ho : Engine.oracle.options g = .ok o) (ms : List Meta) (hm : ∀ m ∈ ms, TimeMeta m) (micros : Nat) :
    OracleAdmitsMicroseconds (oracleVar (o.primType .datetime)) micros ∧ OracleAdmitsMicroseconds (oracleVar (o.primType .time)) micros ∧
    (∃ ty, o.annotatedType .datetime ms = .ok ty ∧ OracleAdmitsMicroseconds (oracleVar ty) micros) ∧
    (∃ ty, o.annotatedType .time ms = .ok ty ∧ OracleAdmitsMicroseconds (oracleVar ty) micros) := by
  refine ⟨?_, ?_, ⟨_, C48.timestamp_annotated ho ms hm, Or.inl rfl⟩, ⟨_, C48.time_annotated ho ms hm, Or.inr rfl⟩⟩
  · rw [C48.timestamp_prim ho]; exact Or.inl rfl
  · rw [C48.time_prim ho]; exact Or.inr rfl

/-! ### Identifiers, and types without a declaration -/

/-- **C61**, identifiers and addresses on SQL Server: the bytes they are sent as (C49) have exactly the declared size. -/
theorem C61_mssql_bytes (g : GenOptions) (o : ConvOptions) (ho : Engine.mssql.options g = .ok o) (length : Nat) :
    (OdbcAdmitsBytes (odbcParam (o.primType .uuid)) length ↔ length ≤ 16) ∧ (OdbcAdmitsBytes (odbcParam (o.primType .ipv4)) length ↔ length ≤ 4) ∧
    (OdbcAdmitsBytes (odbcParam (o.primType .ipv6)) length ↔ length ≤ 16) := by
  have hs := (C31.options_eq ho).2
  unfold ConvOptions.primType
  rw [hs]
  simp [Engine.substitution, OdbcAdmitsBytes, odbcParam, orElse]

/-- **C61**, exactly: for every Python type, the parameter of its column has a declared type, except for `timedelta`. -/
theorem C61_declared_exact (g : GenOptions) (o : ConvOptions) (p : Prim) :
    (Engine.mssql.options g = .ok o → ((odbcParam (o.primType p)).type = .unknown ↔ p = .timedelta)) ∧
    (Engine.oracle.options g = .ok o → ((oracleVar (o.primType p)).type = .unknown ↔ p = .timedelta)) := by
  constructor <;>
  · intro ho
    obtain ⟨hx, hs⟩ := C31.options_eq ho
    unfold ConvOptions.primType
    rw [hs, hx]
    cases p <;> decide

end PySqlSync
