/-
C59: `auto_default`.
-/
import Verif.Model.AutoDefault
import Verif.Spec.AutoDefault
import Verif.Lemmas.Convert

set_option autoImplicit false

namespace PySqlSync
open Spec Conv

namespace C59

theorem start_iff (p : Prim) (s : Text) : p.start false = .ok s ↔ zero p = some s := by
  cases p <;> simp [Prim.start, zero]

theorem needed {defs : PyDefs} {f : FieldDecl} (h : NeedsDefault f) {p : Prim} (hty : f.ty = .prim p ∨ ∃ ms, f.ty = .annotated p ms) (s : Option Text) :
    f.autoDefault defs = .ok s ↔ ∃ z, zero p = some z ∧ s = some z := by
  obtain ⟨h1, h2, h3, h4⟩ := h
  unfold FieldDecl.autoDefault
  rw [h1, h2, h3, h4]
  have : (do pure (some (← p.start false)) : Except Err (Option Text)) = .ok s ↔ ∃ z, zero p = some z ∧ s = some z := by
    constructor
    · intro h
      simp only [bind_ok, pure_ok] at h
      obtain ⟨z, hz, rfl⟩ := h
      exact ⟨z, (start_iff p z).1 hz, rfl⟩
    · rintro ⟨z, hz, rfl⟩
      simp only [bind_ok, pure_ok]
      exact ⟨z, (start_iff p z).2 hz, rfl⟩
  rcases hty with h | ⟨ms, h⟩ <;> (rw [h]; exact this)

theorem column_iff {o : ConvOptions} {defs : PyDefs} {depth : Nat} {f : FieldDecl} {c : Column} : o.memberColumnAuto defs depth f = .ok c ↔
    ∃ c' d, o.memberColumn defs depth f = .ok c' ∧ f.autoDefault defs = .ok d ∧ c = { c' with default := d } := by
  unfold ConvOptions.memberColumnAuto ConvOptions.memberColumn
  simp only [bind_ok, pure_ok]
  constructor
  · rintro ⟨ty, hty, d, hd, rfl⟩
    exact ⟨_, d, ⟨ty, hty, rfl⟩, hd, rfl⟩
  · rintro ⟨_, d, ⟨ty, hty, rfl⟩, hd, rfl⟩
    exact ⟨ty, hty, d, hd, rfl⟩

end C59
open C59

/-- **C59**, automatic defaults.  Nothing but the default of a column depends on the option: whatever is accepted with it is accepted without, with the same name,
    type, nullability and generated value; and what has a default, may be NULL, is a key or is generated is as it is without. -/
theorem C59_only_defaults (o : ConvOptions) (defs : PyDefs) (depth : Nat) (f : FieldDecl) :
    (∀ c, o.memberColumnAuto defs depth f = .ok c → ∃ c', o.memberColumn defs depth f = .ok c' ∧ c = { c' with default := c.default }) ∧
    (¬ NeedsDefault f → o.memberColumnAuto defs depth f = o.memberColumn defs depth f) := by
  constructor
  · intro c h
    obtain ⟨c', d, hc', -, rfl⟩ := column_iff.1 h
    exact ⟨c', hc', rfl⟩
  · intro h
    have hd : f.autoDefault defs = .ok f.default := by
      unfold FieldDecl.autoDefault
      cases hf : f.default with
      | some d => rfl
      | none =>
        have : (f.nullable || f.primary || f.identity) = true := by
          cases h1 : f.nullable <;> cases h2 : f.primary <;> cases h3 : f.identity <;> first | rfl | exact absurd ⟨hf, h1, h2, h3⟩ h
        rw [this]
        rfl
    unfold ConvOptions.memberColumnAuto ConvOptions.memberColumn
    rw [hd]
    rfl

/-- A mandatory column for a scalar has the zero of its type as default, and it is refused exactly if there is no such constant (or there is no column without the option). -/
theorem C59_scalar (o : ConvOptions) (defs : PyDefs) (depth : Nat) {f : FieldDecl} (h : NeedsDefault f) {p : Prim} (hty : f.ty = .prim p ∨ ∃ ms, f.ty = .annotated p ms) :
    (∀ c, o.memberColumnAuto defs depth f = .ok c → ∃ z, zero p = some z ∧ c.default = some z) ∧
    ((∃ c, o.memberColumnAuto defs depth f = .ok c) ↔ (∃ c, o.memberColumn defs depth f = .ok c) ∧ (zero p).isSome = true) := by
  constructor
  · intro c hc
    obtain ⟨c', d, -, hd, rfl⟩ := column_iff.1 hc
    exact (needed h hty d).1 hd
  · constructor
    · rintro ⟨c, hc⟩
      obtain ⟨c', d, hc', hd, rfl⟩ := column_iff.1 hc
      obtain ⟨z, hz, -⟩ := (needed h hty d).1 hd
      exact ⟨⟨c', hc'⟩, by rw [hz]; rfl⟩
    · rintro ⟨⟨c', hc'⟩, hz⟩
      obtain ⟨z, hz⟩ := Option.isSome_iff_exists.1 hz
      exact ⟨_, column_iff.2 ⟨c', some z, hc', (needed h hty _).2 ⟨z, hz, rfl⟩, rfl⟩⟩

/-- A mandatory column for an enumeration has the first member as default. -/
theorem C59_enum (o : ConvOptions) (defs : PyDefs) (depth : Nat) {f : FieldDecl} (h : NeedsDefault f) {n : PyName} (hty : f.ty = .enum n) {e : EnumDecl}
    (he : defs.enum n = some e) {first : Text} {rest : List Text} (hc : e.constants = first :: rest) :
    (∀ c, o.memberColumnAuto defs depth f = .ok c → c.default = some first) ∧
    ((∃ c, o.memberColumnAuto defs depth f = .ok c) ↔ ∃ c, o.memberColumn defs depth f = .ok c) := by
  have hd : f.autoDefault defs = .ok (some first) := by
    obtain ⟨h1, h2, h3, h4⟩ := h
    unfold FieldDecl.autoDefault
    rw [h1, h2, h3, h4, hty]
    show (do pure (some (← (PyType.enum n).start defs))) = _
    unfold PyType.start
    simp only [he, Option.bind_some, hc, List.head?_cons]
    rfl
  constructor
  · intro c h
    obtain ⟨c', d, -, hd', rfl⟩ := column_iff.1 h
    rw [hd] at hd'
    cases hd'
    rfl
  · constructor
    · rintro ⟨c, h⟩
      obtain ⟨c', d, hc', -, -⟩ := column_iff.1 h
      exact ⟨c', hc'⟩
    · rintro ⟨c, h⟩
      exact ⟨_, column_iff.2 ⟨c, _, h, hd, rfl⟩⟩

/-- A reference to an entity starts with the zero of the key. -/
theorem C59_reference (o : ConvOptions) (defs : PyDefs) (depth : Nat) {f : FieldDecl} (h : NeedsDefault f) {n : PyName} (hty : f.ty = .cls n) {e : ClassDecl}
    (he : defs.cls n = some e) {k : FieldDecl} (hk : e.key = some k) {p : Prim} (hp : k.ty = .prim p) :
    (∀ c, o.memberColumnAuto defs depth f = .ok c → ∃ z, zero p = some z ∧ c.default = some z) ∧
    ((∃ c, o.memberColumnAuto defs depth f = .ok c) ↔ (∃ c, o.memberColumn defs depth f = .ok c) ∧ (zero p).isSome = true) := by
  have hd : ∀ d, f.autoDefault defs = .ok d ↔ ∃ z, zero p = some z ∧ d = some z := by
    intro d
    obtain ⟨h1, h2, h3, h4⟩ := h
    unfold FieldDecl.autoDefault
    rw [h1, h2, h3, h4, hty]
    have hent : defs.isEntity (.cls n) = true := by
      unfold PyDefs.isEntity
      simp only [he, hk, Option.isSome_some]
    have hkey : defs.keyTypeOf (.cls n) = .ok (.prim p) := by
      unfold PyDefs.keyTypeOf
      simp only [he, Option.bind_some, hk, hp]
    show (if defs.isEntity (.cls n) then (do pure (some (← (← defs.keyTypeOf (.cls n)).start defs)) : Except Err (Option Text)) else pure none) = _ ↔ _
    rw [if_pos hent, hkey]
    simp only [bind_ok, pure_ok]
    constructor
    · rintro ⟨a, ha, z, hz, rfl⟩
      cases ha
      exact ⟨z, (start_iff p z).1 hz, rfl⟩
    · rintro ⟨z, hz, rfl⟩
      exact ⟨_, rfl, z, (start_iff p z).2 hz, rfl⟩
  constructor
  · intro c hc
    obtain ⟨c', d, -, hd', rfl⟩ := column_iff.1 hc
    exact (hd d).1 hd'
  · constructor
    · rintro ⟨c, hc⟩
      obtain ⟨c', d, hc', hd', rfl⟩ := column_iff.1 hc
      obtain ⟨z, hz, -⟩ := (hd d).1 hd'
      exact ⟨⟨c', hc'⟩, by rw [hz]; rfl⟩
    · rintro ⟨⟨c', hc'⟩, hz⟩
      obtain ⟨z, hz⟩ := Option.isSome_iff_exists.1 hz
      exact ⟨_, column_iff.2 ⟨c', some z, hc', (hd _).2 ⟨z, hz, rfl⟩, rfl⟩⟩

/-- Every column for one value that must not be NULL, is not the key and not generated has a default. -/
theorem C59_mandatory_columns_have_defaults (o : ConvOptions) (defs : PyDefs) (depth : Nat) {f : FieldDecl} (hone : OneValue defs f.ty) (hk : f.primary = false) {c : Column}
    (h : o.memberColumnAuto defs depth f = .ok c) : c.nullable = true ∨ c.identity = true ∨ c.default.isSome = true := by
  obtain ⟨c', d, hc', hd, rfl⟩ := column_iff.1 h
  unfold ConvOptions.memberColumn at hc'
  simp only [bind_ok, pure_ok] at hc'
  obtain ⟨ty, -, rfl⟩ := hc'
  show f.nullable = true ∨ f.identity = true ∨ d.isSome = true
  cases hn : f.nullable with
  | true => exact .inl rfl
  | false =>
    cases hi : f.identity with
    | true => exact .inr (.inl rfl)
    | false =>
      right; right
      unfold FieldDecl.autoDefault at hd
      cases hf : f.default with
      | some x =>
        rw [hf] at hd
        cases hd
        rfl
      | none =>
        rw [hf, hn, hk, hi] at hd
        have some_of : ∀ {x : Except Err Text}, (do pure (some (← x)) : Except Err (Option Text)) = .ok d → d.isSome = true := by
          intro x hx
          simp only [bind_ok, pure_ok] at hx
          obtain ⟨z, -, rfl⟩ := hx
          rfl
        have some_of2 : ∀ {x : Except Err PyType}, (do pure (some (← (← x).start defs)) : Except Err (Option Text)) = .ok d → d.isSome = true := by
          intro x hx
          simp only [bind_ok, pure_ok] at hx
          obtain ⟨-, -, z, -, rfl⟩ := hx
          rfl
        rcases hone with hs | he | ⟨ms, hms, hu⟩
        · cases hty : f.ty with
          | prim p => rw [hty] at hd; exact some_of hd
          | annotated p m => rw [hty] at hd; exact some_of hd
          | enum n => rw [hty] at hd; exact some_of hd
          | _ => rw [hty] at hs; cases hs
        · cases hty : f.ty with
          | cls n =>
            rw [hty] at hd he
            replace hd : (if defs.isEntity (.cls n) then (do pure (some (← (← defs.keyTypeOf (.cls n)).start defs)) : Except Err (Option Text)) else pure none) = .ok d := hd
            rw [if_pos he] at hd
            exact some_of2 hd
          | _ => rw [hty] at he; cases he
        · rw [hms] at hd
          replace hd : (if ms.toList.all defs.isEntity then
              match ms.toList with
              | m :: _ => do pure (some (← (← defs.keyTypeOf m).start defs))
              | [] => .error .type
            else match ms.toList.find? PyType.isSimple with
              | some m => do pure (some (← m.start defs))
              | none => pure none : Except Err (Option Text)) = .ok d := hd
          by_cases hall : ms.toList.all defs.isEntity = true
          · rw [if_pos hall] at hd
            split at hd
            · exact some_of2 hd
            · cases hd
          · rw [if_neg hall] at hd
            rcases hu with hu | ⟨m, hm, hsm⟩
            · exact absurd (List.all_eq_true.2 hu) hall
            · split at hd
              · exact some_of hd
              · rename_i hnone
                exact absurd hsm (by simpa using List.find?_eq_none.1 hnone m hm)

/-- Lists, sets and data-classes without a key have no default. -/
theorem C59_composite (o : ConvOptions) (defs : PyDefs) (depth : Nat) {f : FieldDecl} (h : f.default = none)
    (hty : (∃ item, f.ty = .list item ∨ f.ty = .set item) ∨ (∃ n, f.ty = .cls n ∧ defs.isEntity (.cls n) = false)) :
    o.memberColumnAuto defs depth f = o.memberColumn defs depth f := by
  have hd : f.autoDefault defs = .ok f.default := by
    unfold FieldDecl.autoDefault
    rw [h]
    show (if _ then _ else _) = _
    split
    · rfl
    · rcases hty with ⟨item, hty | hty⟩ | ⟨n, hty, he⟩
      · rw [hty]; rfl
      · rw [hty]; rfl
      · rw [hty]
        show (if defs.isEntity (.cls n) then _ else _) = _
        rw [he]
        rfl
  unfold ConvOptions.memberColumnAuto ConvOptions.memberColumn
  rw [hd]
  rfl

namespace C59.Example
def size : EnumDecl := { name := (t "shop", t "Size"), kind := .str, labels := [t "small", t "large"], constants := [t "'small'", t "'large'"] }
def shop : ClassDecl := { name := (t "shop", t "Shop"), fields := [{ name := t "id", ty := .prim .int64, primary := true }] }
def defs : PyDefs := { classes := [shop], enums := [size] }
def gen : GenOptions := { mapping := fun m => .ok (some m) }
end C59.Example
open C59.Example in
/-- A text, a member of an enumeration and a reference. -/
example : (∀ e : Engine, ∀ o, e.options gen = .ok o →
      ∀ c, o.memberColumnAuto defs 5 { name := t "name", ty := .annotated .str [.maxLength 9] } = .ok c → c.default = some (t "''")) ∧
    (∃ o c, Engine.postgresql.options gen = .ok o ∧ o.memberColumnAuto defs 5 { name := t "size", ty := .enum size.name } = .ok c ∧ c.default = some (t "'small'")) ∧
    ∃ o c, Engine.postgresql.options gen = .ok o ∧ o.memberColumnAuto defs 5 { name := t "shop", ty := .cls shop.name } = .ok c ∧ c.default = some (t "0") := by
  refine ⟨?_, ⟨_, _, rfl, rfl, rfl⟩, ⟨_, _, rfl, rfl, rfl⟩⟩
  intro e o _ c hc
  obtain ⟨z, hz, h⟩ := (C59_scalar o defs 5 (f := { name := t "name", ty := .annotated .str [.maxLength 9] }) ⟨rfl, rfl, rfl, rfl⟩ (p := .str) (.inr ⟨_, rfl⟩)).1 c hc
  cases hz
  exact h

/-- All engines but MySQL heed the option. -/
theorem C59_engines (e : Engine) (o : ConvOptions) (defs : PyDefs) (depth : Nat) (f : FieldDecl) : 
    (e ≠ .mysql → e.memberColumn true o defs depth f = o.memberColumnAuto defs depth f) ∧ e.memberColumn false o defs depth f = o.memberColumn defs depth f := by
  cases e <;> exact ⟨fun h => by first | rfl | exact absurd rfl h, rfl⟩

/-- MySQL ignores it. -/
theorem C59_mysql_fails : ∃ o c, Engine.mysql.options C59.Example.gen = .ok o ∧ Engine.mysql.memberColumn true o C59.Example.defs 5 { name := t "n", ty := .prim .int64 } = .ok c ∧
    c.nullable = false ∧ c.default = none := ⟨_, _, rfl, rfl, rfl, rfl⟩

/-- A program with a mandatory date, which is accepted without the option, is refused with it. -/
theorem C59_date_fails : ∃ o, Engine.postgresql.options C59.Example.gen = .ok o ∧ (∃ c, o.memberColumn C59.Example.defs 5 { name := t "day", ty := .prim .date } = .ok c) ∧
    o.memberColumnAuto C59.Example.defs 5 { name := t "day", ty := .prim .date } = .error .notImplemented := ⟨_, rfl, ⟨_, rfl⟩, rfl⟩

/-- Engines on which enumerations become tables: the column is a number and its default a label. -/
theorem C59_label_for_key_fails : ∃ o c, Engine.mssql.options C59.Example.gen = .ok o ∧
    o.memberColumnAuto C59.Example.defs 5 { name := t "size", ty := .enum C59.Example.size.name } = .ok c ∧ c.ty.isInteger = true ∧ c.default = some (t "'small'") :=
  ⟨_, _, rfl, rfl, rfl, rfl⟩

end PySqlSync
