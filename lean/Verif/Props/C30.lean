/-
C30: a data type written to DDL and read again from the catalog is the same data type.
-/
import Verif.Lemmas.TypeDiscovery

set_option autoImplicit false

namespace PySqlSync
open Spec
namespace C30

/-! ### PostgreSQL -/

theorem refine_nothing (n : Text) (s d : Option Text) (ty : SqlType) : refineType ⟨n, s, d, none, none, none, none⟩ ty = ty := by
  cases ty <;> rfl

/-- A type of the system catalog without a substitution. -/
theorem pg_builtin (name format : Text) (hs : Engine.discovered .postgresql name = none) (isArray : Bool) :
    readColumn .postgresql ⟨⟨name, some (t "pg_catalog"), some format, none, none, none, none⟩, isArray⟩ =
      .ok (let ty := match typeFromDef format with
        | some ty => ty
        | none => (namedType (lowerText name)).getD (.user (.qualified (some (t "pg_catalog")) name))
      if isArray then .array ty else ty) := by
  unfold readColumn typeFromSpec substitutedType
  simp only [true_or, or_true, if_true, hs, Option.bind_some, refine_nothing]
  cases typeFromDef format with
  | some ty => cases isArray <;> rfl
  | none =>
    simp only [typeFromName]
    cases namedType (lowerText name) with
    | some ty => cases isArray <;> rfl
    | none => cases isArray <;> rfl

theorem not_sub (name : Text) (h1 : name ≠ t "jsonb") (h2 : name ≠ t "inet") : Engine.discovered .postgresql name = none := by
  simp [Engine.discovered, h1, h2]

/-- The names of `standardNames` are those recognized. -/
theorem named_iff (n : Text) : namedType n = none ↔ n ∉ Pg.standardNames := by
  constructor
  · intro h hm
    have : ∀ m ∈ Pg.standardNames, namedType m ≠ none := by decide +kernel
    exact this n hm h
  · intro h
    unfold Pg.standardNames at h
    simp only [List.mem_cons, List.not_mem_nil, or_false, not_or] at h
    unfold namedType
    simp only [List.mem_cons, List.not_mem_nil, or_false, h, if_false]

/-- A definition that is recognized. -/
theorem pg_def {text name format text' : Text} {r : Report} {ty : SqlType} (h : Pg.builtin text name format = some (text', r))
    (hs : name ≠ t "jsonb" ∧ name ≠ t "inet") (hd : typeFromDef format = some ty) : readColumn .postgresql r = .ok ty := by
  cases h; rw [pg_builtin _ _ (not_sub _ hs.1 hs.2), hd]; rfl

/-- A definition that is not. -/
theorem pg_name {text name format text' : Text} {r : Report} {ty : SqlType} (h : Pg.builtin text name format = some (text', r))
    (hs : name ≠ t "jsonb" ∧ name ≠ t "inet") (hd : typeFromDef format = none)
    (hn : (namedType (lowerText name)).getD (.user (.qualified (some (t "pg_catalog")) name)) = ty) : readColumn .postgresql r = .ok ty := by
  cases h; rw [pg_builtin _ _ (not_sub _ hs.1 hs.2), hd]; simp only [hn]; rfl

theorem ok_iff {ty ty' : SqlType} {x : Except Err SqlType} (h : x = .ok ty) : x = .ok ty' ↔ ty = ty' := by
  rw [h]; simp

theorem zone_def (p : Option Nat) (z : Bool) : typeFromDef (t "timestamp" ++ optParens p ++ Pg.zone z) =
    p.map (fun n => .timestamp .base (some n) z) := by
  cases p with
  | some n => exact Disc.def_timestamp n z
  | none => cases z <;> rfl

theorem time_def (p : Option Nat) (z : Bool) : typeFromDef (t "time" ++ optParens p ++ Pg.zone z) = none := by
  cases p with
  | some n => cases z <;> exact Disc.def_other _ (by
      simp only [List.mem_cons, List.not_mem_nil, or_false, forall_eq_or_imp, forall_eq]
      refine ⟨?_, ?_, ?_, ?_, ?_, ?_, ?_, ?_, ?_, ?_, ?_, ?_⟩ <;> rfl)
  | none => cases z <;> rfl

theorem pg_user (ns id format : Text) (hf : typeFromDef format = none) (hns : ns ≠ t "pg_catalog") :
    readColumn .postgresql ⟨⟨id, some ns, some format, none, none, none, none⟩, false⟩ = .ok (.user (.qualified (some ns) id)) ↔
      lowerText id ∉ Pg.standardNames ∧ ¬ (ns = t "SYS" ∧ id = t "inet") := by
  have sub : substitutedType (Engine.discovered .postgresql) ⟨id, some ns, some format, none, none, none, none⟩ =
      if ns = t "SYS" then Engine.discovered .postgresql id else none := by
    simp [substitutedType, hns]
  have hn : typeFromName id (some ns) = some ((namedType (lowerText id)).getD (.user (.qualified (some ns) id))) := by
    unfold typeFromName
    cases namedType (lowerText id) <;> rfl
  have hread : readColumn .postgresql ⟨⟨id, some ns, some format, none, none, none, none⟩, false⟩ =
      .ok (if ns = t "SYS" ∧ id = t "jsonb" then .json .postgresql else if ns = t "SYS" ∧ id = t "inet" then .user (.global (t "inet"))
        else (namedType (lowerText id)).getD (.user (.qualified (some ns) id))) := by
    unfold readColumn typeFromSpec
    simp only [sub, Option.bind_some, hf, hn, refine_nothing]
    by_cases h1 : ns = t "SYS"
    · by_cases h2 : id = t "jsonb"
      · subst h1; subst h2; rfl
      · by_cases h3 : id = t "inet"
        · subst h1; subst h3; rfl
        · simp [h1, h2, h3, Engine.discovered]
    · simp [h1]
  rw [ok_iff hread]
  by_cases h1 : ns = t "SYS" ∧ id = t "jsonb"
  · rw [if_pos h1]
    refine iff_of_false (by simp) ?_
    rintro ⟨h, -⟩
    rw [h1.2] at h
    exact h (by decide +kernel)
  · rw [if_neg h1]
    by_cases h2 : ns = t "SYS" ∧ id = t "inet"
    · rw [if_pos h2]; exact iff_of_false (by simp) (fun h => h.2 h2)
    · rw [if_neg h2]
      constructor
      · intro h
        refine ⟨?_, h2⟩
        rw [← named_iff]
        cases hh : namedType (lowerText id) with
        | none => rfl
        | some ty =>
          exfalso
          rw [hh] at h
          simp only [Option.getD_some] at h
          subst h
          have : ∀ n ty, namedType n = some ty → ∀ q, ty ≠ .user q := by
            intro n ty hn q hq
            have hm : n ∈ Pg.standardNames := Decidable.byContradiction (fun hc => by rw [(named_iff n).mpr hc] at hn; cases hn)
            have hall : ∀ m ∈ Pg.standardNames, (namedType m).all (fun ty => !ty.isUser) = true := by decide +kernel
            have := hall n hm
            rw [hn, hq] at this
            cases this
          exact this _ _ hh _ rfl
      · intro h
        rw [(named_iff _).mpr h.1]; rfl

theorem pg_scalar {ty : SqlType} {text : Text} {r : Report} (h : Pg.scalar ty = some (text, r)) :
    readColumn .postgresql r = .ok ty ↔ Pg.keptScalar ty := by
  have simple : ∀ (ty' : SqlType) {tx name format : Text}, Pg.builtin tx name format = some (text, r) → (name ≠ t "jsonb" ∧ name ≠ t "inet") →
      typeFromDef format = none → (namedType (lowerText name)).getD (.user (.qualified (some (t "pg_catalog")) name)) = ty' →
      (ty' = ty ↔ Pg.keptScalar ty) → (readColumn .postgresql r = .ok ty ↔ Pg.keptScalar ty) := by
    intro ty' tx name format h1 h2 h3 h4 h5
    rw [ok_iff (pg_name h1 h2 h3 h4)]; exact h5
  have given : ∀ {tx name format : Text} {ty' : SqlType}, Pg.builtin tx name format = some (text, r) → (name ≠ t "jsonb" ∧ name ≠ t "inet") →
      typeFromDef format = some ty' → (ty' = ty ↔ Pg.keptScalar ty) → (readColumn .postgresql r = .ok ty ↔ Pg.keptScalar ty) := by
    intro tx name format ty' h1 h2 h3 h5
    rw [ok_iff (pg_def h1 h2 h3)]; exact h5
  unfold Pg.scalar at h
  split at h
  · exact simple (.boolean .base) h (by decide +kernel) rfl rfl (by simp [Pg.keptScalar])
  · exact simple (.integer .base 2 true none none) h (by decide +kernel) rfl rfl (by simp [Pg.keptScalar, eq_comm])
  · exact simple (.integer .base 4 true none none) h (by decide +kernel) rfl rfl (by simp [Pg.keptScalar, eq_comm])
  · exact simple (.integer .base 8 true none none) h (by decide +kernel) rfl rfl (by simp [Pg.keptScalar, eq_comm])
  · exact simple (.real .base) h (by decide +kernel) rfl rfl (by simp [Pg.keptScalar])
  · exact simple (.double .base) h (by decide +kernel) rfl rfl (by simp [Pg.keptScalar])
  · split at h
    · exact simple (.real .base) h (by decide +kernel) rfl rfl (by simp [Pg.keptScalar])
    · split at h
      · exact simple (.double .base) h (by decide +kernel) rfl rfl (by simp [Pg.keptScalar])
      · cases h
  · exact simple (.double .base) h (by decide +kernel) rfl rfl (by simp [Pg.keptScalar])
  · exact given h (by decide +kernel) (Disc.def_numeric _ _) (by simp [Pg.keptScalar])
  · rename_i p
    exact given h (by decide +kernel) (by
      have e : t "numeric(" ++ natStr p ++ t ",0)" = t "numeric(" ++ natStr p ++ t "," ++ natStr 0 ++ t ")" := by
        simp only [List.append_assoc]; rfl
      rw [e]; exact Disc.def_numeric p 0) (by simp [Pg.keptScalar])
  · exact simple (.decimal none none) h (by decide +kernel) rfl rfl (by simp [Pg.keptScalar, eq_comm])
  · exact given h (by decide +kernel) (Disc.def_character _) (by simp [Pg.keptScalar])
  · exact given h (by decide +kernel) (Disc.def_character 1) (by simp [Pg.keptScalar])
  · exact given h (by decide +kernel) (Disc.def_varying _) (by simp [Pg.keptScalar])
  · exact simple (.varChar .base none) h (by decide +kernel) rfl rfl (by simp [Pg.keptScalar])
  · rename_i p z
    cases p with
    | some n => exact given h (by cases z <;> decide +kernel) (ty' := .timestamp .base (some n) z) (by rw [zone_def]; rfl) (by simp [Pg.keptScalar])
    | none =>
      cases z with
      | true => exact simple (.user (.qualified (some (t "pg_catalog")) (t "timestamptz"))) h (by decide +kernel) rfl rfl (by simp [Pg.keptScalar])
      | false => exact simple (.timestamp .base none false) h (by decide +kernel) rfl rfl (by simp [Pg.keptScalar])
  · exact simple (.date) h (by decide +kernel) rfl rfl (by simp [Pg.keptScalar])
  · rename_i p z
    cases z with
    | true => exact simple (.user (.qualified (some (t "pg_catalog")) (t "timetz"))) h (by decide +kernel) (time_def _ _) rfl (by simp [Pg.keptScalar])
    | false => exact simple (.time .base none false) h (by decide +kernel) (time_def _ _) rfl (by simp [Pg.keptScalar, eq_comm])
  · exact simple (.user (.qualified (some (t "pg_catalog")) (t "interval"))) h (by decide +kernel) rfl rfl (by simp [Pg.keptScalar])
  · cases h; exact iff_of_true rfl trivial
  · exact simple (.json .base) h (by decide +kernel) rfl rfl (by simp [Pg.keptScalar])
  · exact simple (.uuid) h (by decide +kernel) rfl rfl (by simp [Pg.keptScalar])
  · rename_i id
    split at h
    · rename_i hid
      subst hid
      cases h; exact iff_of_true rfl trivial
    · cases h
  · rename_i ns id
    split at h
    · cases h
    · rename_i hns
      cases h
      exact pg_user ns id _ (Disc.def_user ns _) hns
  · cases h

theorem array_iff (e : Engine) (spec : TypeSpec) (ty : SqlType) :
    readColumn e ⟨spec, true⟩ = .ok (.array ty) ↔ readColumn e ⟨spec, false⟩ = .ok ty := by
  unfold readColumn
  cases typeFromSpec e.discovered spec with
  | error _ => exact iff_of_false (by intro h; cases h) (by intro h; cases h)
  | ok ty' =>
    show (Except.ok (SqlType.array ty') : Except Err SqlType) = _ ↔ (Except.ok ty' : Except Err SqlType) = _
    simp

theorem brackets_last (s : Text) : (s ++ t "[]").getLast? = some ']' := by
  rw [List.getLast?_append]; rfl

theorem pg_array {ty : SqlType} {text : Text} {r : Report} (h : Pg.scalar ty = some (text, r)) :
    readColumn .postgresql ⟨{ r.spec with definition := r.spec.definition.map (· ++ t "[]") }, true⟩ = .ok (.array ty) ↔
      Pg.keptScalar ty ∧ Pg.keptElement ty := by
  rw [array_iff]
  have simple : ∀ (ty' : SqlType) {tx name format : Text}, Pg.builtin tx name format = some (text, r) → (name ≠ t "jsonb" ∧ name ≠ t "inet") →
      (namedType (lowerText name)).getD (.user (.qualified (some (t "pg_catalog")) name)) = ty' →
      (ty' = ty ↔ Pg.keptScalar ty ∧ Pg.keptElement ty) →
      (readColumn .postgresql ⟨{ r.spec with definition := r.spec.definition.map (· ++ t "[]") }, false⟩ = .ok ty ↔
        Pg.keptScalar ty ∧ Pg.keptElement ty) := by
    intro ty' tx name format h1 h2 h4 h5
    cases h1
    exact (ok_iff (pg_name (text := text) (name := name) (format := format ++ t "[]") (text' := text) rfl h2
      (Disc.def_brackets _ (brackets_last _)) h4)).trans h5
  unfold Pg.scalar at h
  split at h
  · exact simple (.boolean .base) h (by decide +kernel) rfl (by simp [Pg.keptScalar, Pg.keptElement])
  · exact simple (.integer .base 2 true none none) h (by decide +kernel) rfl (by simp [Pg.keptScalar, Pg.keptElement, eq_comm])
  · exact simple (.integer .base 4 true none none) h (by decide +kernel) rfl (by simp [Pg.keptScalar, Pg.keptElement, eq_comm])
  · exact simple (.integer .base 8 true none none) h (by decide +kernel) rfl (by simp [Pg.keptScalar, Pg.keptElement, eq_comm])
  · exact simple (.real .base) h (by decide +kernel) rfl (by simp [Pg.keptScalar, Pg.keptElement])
  · exact simple (.double .base) h (by decide +kernel) rfl (by simp [Pg.keptScalar, Pg.keptElement])
  · split at h
    · exact simple (.real .base) h (by decide +kernel) rfl (by simp [Pg.keptScalar])
    · split at h
      · exact simple (.double .base) h (by decide +kernel) rfl (by simp [Pg.keptScalar])
      · cases h
  · exact simple (.double .base) h (by decide +kernel) rfl (by simp [Pg.keptScalar])
  · exact simple (.decimal none none) h (by decide +kernel) rfl (by simp [Pg.keptElement])
  · exact simple (.decimal none none) h (by decide +kernel) rfl (by simp [Pg.keptElement])
  · exact simple (.decimal none none) h (by decide +kernel) rfl (by simp [Pg.keptScalar, Pg.keptElement, eq_comm])
  · exact simple (.user (.qualified (some (t "pg_catalog")) (t "bpchar"))) h (by decide +kernel) rfl (by simp [Pg.keptElement])
  · exact simple (.user (.qualified (some (t "pg_catalog")) (t "bpchar"))) h (by decide +kernel) rfl (by simp [Pg.keptElement])
  · exact simple (.varChar .base none) h (by decide +kernel) rfl (by simp [Pg.keptElement])
  · exact simple (.varChar .base none) h (by decide +kernel) rfl (by simp [Pg.keptScalar, Pg.keptElement])
  · rename_i p z
    cases z with
    | true => exact simple (.user (.qualified (some (t "pg_catalog")) (t "timestamptz"))) h (by decide +kernel) rfl (by simp [Pg.keptElement])
    | false => exact simple (.timestamp .base none false) h (by decide +kernel) rfl (by simp [Pg.keptScalar, Pg.keptElement, eq_comm])
  · exact simple .date h (by decide +kernel) rfl (by simp [Pg.keptScalar, Pg.keptElement])
  · rename_i p z
    cases z with
    | true => exact simple (.user (.qualified (some (t "pg_catalog")) (t "timetz"))) h (by decide +kernel) rfl (by simp [Pg.keptScalar])
    | false => exact simple (.time .base none false) h (by decide +kernel) rfl (by simp [Pg.keptScalar, Pg.keptElement, eq_comm])
  · exact simple (.user (.qualified (some (t "pg_catalog")) (t "interval"))) h (by decide +kernel) rfl (by simp [Pg.keptScalar])
  · cases h; exact iff_of_true rfl ⟨trivial, trivial⟩
  · exact simple (.json .base) h (by decide +kernel) rfl (by simp [Pg.keptScalar, Pg.keptElement])
  · exact simple .uuid h (by decide +kernel) rfl (by simp [Pg.keptScalar, Pg.keptElement])
  · rename_i id
    split at h
    · rename_i hid
      subst hid
      cases h; exact iff_of_true rfl ⟨trivial, trivial⟩
    · cases h
  · rename_i ns id
    split at h
    · cases h
    · rename_i hns
      cases h
      rw [show (Pg.keptScalar (.user (.qualified (some ns) id)) ∧ Pg.keptElement (.user (.qualified (some ns) id))) ↔
        (lowerText id ∉ Pg.standardNames ∧ ¬ (ns = t "SYS" ∧ id = t "inet")) from ⟨fun h => h.1, fun h => ⟨h, trivial⟩⟩]
      exact pg_user ns id _ (Disc.def_brackets _ (brackets_last _)) hns
  · cases h

theorem pg_all {ty : SqlType} {text : Text} {r : Report} (h : Pg.row ty = some (text, r)) :
    readColumn .postgresql r = .ok ty ↔ Pg.Kept ty := by
  unfold Pg.row at h
  split at h
  · rename_i elem
    cases hs : Pg.scalar elem with
    | none => rw [hs] at h; cases h
    | some x =>
      rw [hs] at h
      cases h
      exact pg_array (text := x.1) (r := x.2) hs
  · rename_i hne
    rw [pg_scalar h]
    cases ty <;> first | rfl | exact absurd rfl (hne _)

/-! ### The other engines -/

theorem read_sub {e : Engine} {spec : TypeSpec} {ty : SqlType} (hs : spec.schema = none) (h : e.discovered spec.name = some ty) :
    readColumn e ⟨spec, false⟩ = .ok (refineType spec ty) := by
  simp only [readColumn, typeFromSpec, substitutedType, hs, true_or, if_true, h]; rfl

theorem read_def {e : Engine} {spec : TypeSpec} {d : Text} {ty : SqlType} (hs : spec.schema = none) (h : e.discovered spec.name = none)
    (hd : spec.definition = some d) (ht : typeFromDef d = some ty) : readColumn e ⟨spec, false⟩ = .ok (refineType spec ty) := by
  simp only [readColumn, typeFromSpec, substitutedType, hs, true_or, if_true, h, hd, Option.bind_some, ht]; rfl

theorem read_name {e : Engine} {spec : TypeSpec} {ty : SqlType} (hs : spec.schema = none) (h : e.discovered spec.name = none)
    (hd : spec.definition.bind typeFromDef = none) (ht : namedType (lowerText spec.name) = some ty) :
    readColumn e ⟨spec, false⟩ = .ok (refineType spec ty) := by
  simp only [readColumn, typeFromSpec, substitutedType, hs, true_or, if_true, h, hd, typeFromName, ht]; rfl

theorem read_fails {e : Engine} {spec : TypeSpec} (hs : spec.schema = none) (h : e.discovered spec.name = none)
    (hd : spec.definition.bind typeFromDef = none) (ht : namedType (lowerText spec.name) = none) :
    readColumn e ⟨spec, false⟩ = .error .type := by
  simp only [readColumn, typeFromSpec, substitutedType, hs, true_or, if_true, h, hd, typeFromName, ht]; rfl

theorem pos_iff (n : Nat) (o : Option Nat) : orElsePos (some (Int.ofNat n)) o = if n = 0 then o else some n := by
  unfold orElsePos
  by_cases h : n = 0
  · subst h; rfl
  · have : (0 : Int) < Int.ofNat n := by simp only [Int.ofNat_eq_natCast]; omega
    rw [if_neg h]; simp only [this, if_true]; rfl

theorem my_all {ty : SqlType} {text : Text} {r : Report} (h : My.row ty = some (text, r)) :
    readColumn .mysql r = .ok ty ↔ My.Kept ty := by
  unfold My.row at h
  split at h
  · cases h
    exact (ok_iff (ty := .integer .base 1 true none none) rfl).trans (by simp [My.Kept, eq_comm])
  · cases h
    exact (ok_iff (ty := .integer .base 2 true none none) rfl).trans (by simp [My.Kept, eq_comm])
  · cases h
    exact (ok_iff (ty := .integer .base 4 true none none) rfl).trans (by simp [My.Kept, eq_comm])
  · cases h
    exact (ok_iff (ty := .integer .base 8 true none none) rfl).trans (by simp [My.Kept, eq_comm])
  · cases h
    exact (ok_iff (ty := .double .base) rfl).trans (by simp [My.Kept])
  · cases h
    exact (ok_iff (ty := .double .base) rfl).trans (by simp [My.Kept])
  · split at h
    · cases h
      exact (ok_iff (ty := .float (some 12)) rfl).trans (by simp [My.Kept, eq_comm])
    · split at h
      · cases h
        exact (ok_iff (ty := .double .base) rfl).trans (by simp [My.Kept]; omega)
      · cases h
  · cases h
    exact (ok_iff (ty := .double .base) rfl).trans (by simp [My.Kept])
  · rename_i p s
    cases h
    exact (ok_iff (ty := .decimal (some p) (some s)) (read_def rfl rfl rfl (Disc.def_decimal p s))).trans (by simp [My.Kept])
  · rename_i p
    cases h
    have e : t "decimal(" ++ natStr p ++ t ",0)" = t "decimal(" ++ natStr p ++ t "," ++ natStr 0 ++ t ")" := by
      simp only [List.append_assoc]; rfl
    have hd : typeFromDef (t "decimal(" ++ natStr p ++ t ",0)") = some (.decimal (some p) (some 0)) := by rw [e]; exact Disc.def_decimal p 0
    exact (ok_iff (ty := .decimal (some p) (some 0)) (read_def rfl rfl rfl hd)).trans (by simp [My.Kept])
  · cases h
    exact (ok_iff (ty := .decimal (some 10) (some 0)) (read_def rfl rfl rfl (Disc.def_decimal 10 0))).trans (by simp [My.Kept])
  · rename_i n
    cases h
    exact (ok_iff (ty := .fixedBinary .base (some n)) (read_def rfl rfl rfl (Disc.def_binary n))).trans (by simp [My.Kept])
  · cases h
    exact (ok_iff (ty := .fixedBinary .base (some 1)) (read_def rfl rfl rfl (Disc.def_binary 1))).trans (by simp [My.Kept])
  · rename_i n
    split at h
    · cases h
      refine (ok_iff (ty := .varBinary .mysql (if n = 0 then none else some n)) (by rw [read_sub rfl rfl]; simp only [refineType, pos_iff])).trans ?_
      by_cases hn : n = 0
      · subst hn; simp [My.Kept]
      · simp only [My.Kept, hn]; simp; omega
    · split at h
      · cases h
        exact (ok_iff (ty := .varBinary .mysql (some 16777215)) rfl).trans (by simp [My.Kept]; omega)
      · split at h
        · cases h
          exact (ok_iff (ty := .varBinary .mysql (some 4294967295)) rfl).trans (by simp [My.Kept]; omega)
        · cases h
  · cases h
    exact (ok_iff (ty := .varBinary .mysql (some 16777215)) rfl).trans (by simp [My.Kept])
  · rename_i n
    cases h
    exact (ok_iff (ty := .fixedChar (some n)) (read_def rfl rfl rfl (Disc.def_char n))).trans (by simp [My.Kept])
  · cases h
    exact (ok_iff (ty := .fixedChar (some 1)) (read_def rfl rfl rfl (Disc.def_char 1))).trans (by simp [My.Kept])
  · rename_i n
    split at h
    · cases h
      refine (ok_iff (ty := .varChar .mysql (if n = 0 then none else some n)) (by rw [read_sub rfl rfl]; simp only [refineType, pos_iff])).trans ?_
      by_cases hn : n = 0
      · subst hn; simp [My.Kept]
      · simp only [My.Kept, hn]; simp; omega
    · split at h
      · cases h
        exact (ok_iff (ty := .varChar .mysql (some 16777215)) rfl).trans (by simp [My.Kept]; omega)
      · split at h
        · cases h
          exact (ok_iff (ty := .varChar .mysql (some 4294967295)) rfl).trans (by simp [My.Kept]; omega)
        · cases h
  · cases h
    exact (ok_iff (ty := .varChar .mysql (some 16777215)) rfl).trans (by simp [My.Kept])
  · rename_i p z
    cases h
    cases p with
    | none => exact (ok_iff (ty := .timestamp .mysql none false) rfl).trans (by simp [My.Kept, eq_comm])
    | some n =>
      refine (ok_iff (ty := .timestamp .mysql (if n = 0 then none else some n) false) (by
        rw [read_sub rfl rfl]; simp only [refineType, Option.getD_some, Option.map_some, pos_iff])).trans ?_
      by_cases hn : n = 0
      · subst hn; simp [My.Kept]
      · simp [My.Kept, hn, eq_comm]
  · cases h
    exact (ok_iff (ty := .date) rfl).trans (by simp [My.Kept])
  · rename_i p
    cases h
    cases p with
    | none => exact (ok_iff (ty := .time .base none false) rfl).trans (by simp [My.Kept])
    | some n =>
      have hd : typeFromDef (t "time" ++ optParens (some n)) = none := Disc.def_other _ (by
        simp only [List.mem_cons, List.not_mem_nil, or_false, forall_eq_or_imp, forall_eq]
        refine ⟨?_, ?_, ?_, ?_, ?_, ?_, ?_, ?_, ?_, ?_, ?_, ?_⟩ <;> rfl)
      refine (ok_iff (ty := .time .base (if n = 0 then none else some n) false) (by
        rw [read_name (ty := .time .base none false) rfl rfl (by simp only [Option.bind_some, hd]) rfl]
        simp only [refineType, Option.getD_some, Option.map_some, pos_iff])).trans ?_
      by_cases hn : n = 0
      · subst hn; simp [My.Kept]
      · simp [My.Kept, hn]
  · cases h
    exact (ok_iff (ty := .json .base) rfl).trans (by simp [My.Kept])
  · rename_i vs
    split at h
    · cases h
    · rename_i hv
      have hne : vs ≠ [] := fun h => hv (.inl h)
      cases h
      by_cases hx : ∃ v ∈ vs, '\n' ∈ v
      · have hd : typeFromDef (t "enum(" ++ joinWith (t ",") (vs.map quote) ++ t ")") = none := by rw [Disc.def_enum vs hne, if_pos hx]
        rw [read_fails rfl rfl (by simp only [Option.bind_some, hd]) rfl]
        refine iff_of_false (by intro h; cases h) ?_
        obtain ⟨v, hv, hn⟩ := hx
        exact fun h => (h v hv).2 hn
      · have hd : typeFromDef (t "enum(" ++ joinWith (t ",") (vs.map quote) ++ t ")") = some (.enum (vs.map Disc.dbl)) := by
          rw [Disc.def_enum vs hne, if_neg hx]
        refine (ok_iff (ty := .enum (vs.map Disc.dbl)) (read_def rfl rfl rfl hd)).trans ?_
        simp only [SqlType.enum.injEq, My.Kept]
        constructor
        · intro he v hv
          refine ⟨?_, fun hn => hx ⟨v, hv, hn⟩⟩
          rw [← Disc.dbl_eq_iff]
          have : ∀ w ∈ vs, Disc.dbl w = w := by
            have := List.map_eq_map_iff.mp (he.trans (List.map_id vs).symm)
            exact this
          exact this v hv
        · intro hk
          have : vs.map Disc.dbl = vs.map id := List.map_congr_left (fun v hv => (Disc.dbl_eq_iff v).mpr (hk v hv).1)
          rw [this, List.map_id]
  · cases h

theorem ms_all {ty : SqlType} {text : Text} {r : Report} (h : Ms.row ty = some (text, r)) :
    readColumn .mssql r = .ok ty ↔ Ms.Kept ty := by
  unfold Ms.row at h
  split at h
  · cases h
    exact (ok_iff (ty := .boolean .mssql) rfl).trans (by simp [Ms.Kept])
  · cases h
    exact (ok_iff (ty := .integer .base 1 true none none) rfl).trans (by simp [Ms.Kept, eq_comm])
  · cases h
    exact (ok_iff (ty := .integer .base 2 true none none) rfl).trans (by simp [Ms.Kept, eq_comm])
  · cases h
    exact (ok_iff (ty := .integer .base 4 true none none) rfl).trans (by simp [Ms.Kept, eq_comm])
  · cases h
    exact (ok_iff (ty := .integer .base 8 true none none) rfl).trans (by simp [Ms.Kept, eq_comm])
  · cases h
    exact (ok_iff (ty := .real .base) rfl).trans (by simp [Ms.Kept])
  · cases h
    exact (ok_iff (ty := .float (some 53)) rfl).trans (by simp [Ms.Kept])
  · split at h
    · cases h
      exact (ok_iff (ty := .real .base) rfl).trans (by simp [Ms.Kept]; omega)
    · split at h
      · cases h
        exact (ok_iff (ty := .float (some 53)) rfl).trans (by simp [Ms.Kept, eq_comm])
      · cases h
  · cases h
    exact (ok_iff (ty := .float (some 53)) rfl).trans (by simp [Ms.Kept])
  · rename_i p s
    cases h
    exact (ok_iff (ty := .decimal (some p) (some s)) rfl).trans (by simp [Ms.Kept])
  · rename_i p
    cases h
    exact (ok_iff (ty := .decimal (some p) (some 0)) rfl).trans (by simp [Ms.Kept])
  · cases h
    exact (ok_iff (ty := .decimal (some 18) (some 0)) rfl).trans (by simp [Ms.Kept])
  · rename_i n
    cases h
    exact (ok_iff (ty := .fixedBinary .base (some n)) rfl).trans (by simp [Ms.Kept])
  · cases h
    exact (ok_iff (ty := .fixedBinary .base (some 1)) rfl).trans (by simp [Ms.Kept])
  · rename_i n
    split at h
    · rename_i hn
      cases h
      exact (ok_iff (ty := .varBinary .base (some n)) (by
        rw [read_name (ty := .varBinary .base none) rfl rfl rfl rfl]
        simp only [refineType, pos_iff, if_neg (Nat.ne_of_gt hn)])).trans (by simp [Ms.Kept])
    · cases h
  · rename_i n
    cases h
    exact (ok_iff (ty := .fixedChar (some n)) rfl).trans (by simp [Ms.Kept])
  · cases h
    exact (ok_iff (ty := .fixedChar (some 1)) rfl).trans (by simp [Ms.Kept])
  · rename_i n
    split at h
    · rename_i hn
      cases h
      exact (ok_iff (ty := .varChar .mssql none) rfl).trans (by simp [Ms.Kept]; omega)
    · rename_i hn
      cases h
      exact (ok_iff (ty := .varChar .mssql (some n)) (by
        rw [read_sub rfl rfl]
        simp only [refineType, pos_iff, if_neg (fun h => hn (.inl h))])).trans (by simp [Ms.Kept]; omega)
  · cases h
    exact (ok_iff (ty := .varChar .mssql none) rfl).trans (by simp [Ms.Kept])
  · rename_i p z
    cases h
    exact (ok_iff (ty := .timestamp .mssql (some 7) false) rfl).trans (by simp [Ms.Kept, eq_comm])
  · cases h
    exact (ok_iff (ty := .date) rfl).trans (by simp [Ms.Kept])
  · rename_i p
    cases h
    cases p with
    | none => exact (ok_iff (ty := .time .base (some 7) false) rfl).trans (by simp [Ms.Kept])
    | some n =>
      refine (ok_iff (ty := .time .base (if n = 0 then none else some n) false) (by
        rw [read_name (ty := .time .base none false) rfl rfl rfl rfl]
        simp only [refineType, Option.getD_some, Option.map_some, pos_iff])).trans ?_
      by_cases hn : n = 0
      · subst hn; simp [Ms.Kept]
      · simp [Ms.Kept, hn]; omega
  · cases h

theorem ora_all {ty : SqlType} {text : Text} {r : Report} (h : Ora.row ty = some (text, r)) :
    readColumn .oracle r = .ok ty ↔ Ora.Kept ty := by
  unfold Ora.row at h
  split at h
  · cases h
    exact (ok_iff (ty := .integer .oracle 8 true none none) rfl).trans (by simp [Ora.Kept, eq_comm])
  · cases h
    exact (ok_iff (ty := .integer .oracle 8 true none none) rfl).trans (by simp [Ora.Kept])
  · cases h
    exact (ok_iff (ty := .integer .oracle 8 true none none) rfl).trans (by simp [Ora.Kept])
  · cases h
    exact (ok_iff (ty := .float (some 63)) rfl).trans (by simp [Ora.Kept])
  · cases h
    exact (ok_iff (ty := .float (some 126)) rfl).trans (by simp [Ora.Kept])
  · rename_i p
    cases h
    exact (ok_iff (ty := .float (some p)) rfl).trans (by simp [Ora.Kept])
  · cases h
    exact (ok_iff (ty := .float (some 53)) rfl).trans (by simp [Ora.Kept])
  · cases h
    exact (ok_iff (ty := .integer .oracle 8 true none none) rfl).trans (by simp [Ora.Kept])
  · cases h
    exact (ok_iff (ty := .integer .oracle 8 true none none) rfl).trans (by simp [Ora.Kept])
  · cases h
    exact (ok_iff (ty := .integer .oracle 8 true none none) rfl).trans (by simp [Ora.Kept])
  · rename_i n
    split at h
    · cases h
    · rename_i hn
      split at h
      · rename_i hle
        cases h
        exact (ok_iff (ty := .varBinary .oracle (some n)) (by
          rw [read_sub rfl rfl]
          simp only [refineType, pos_iff, if_neg hn])).trans (by simp [Ora.Kept]; omega)
      · rename_i hle
        cases h
        exact (ok_iff (ty := .varBinary .oracle none) rfl).trans (by simp [Ora.Kept]; omega)
  · cases h
    exact (ok_iff (ty := .varBinary .oracle none) rfl).trans (by simp [Ora.Kept])
  · rename_i n
    split at h
    · cases h
    · cases h
      exact (ok_iff (ty := .fixedChar (some n)) rfl).trans (by simp [Ora.Kept])
  · cases h
    exact (ok_iff (ty := .fixedChar (some 1)) rfl).trans (by simp [Ora.Kept])
  · rename_i n
    split at h
    · cases h
    · rename_i hn
      split at h
      · rename_i hle
        cases h
        exact (ok_iff (ty := .varChar .oracle (some n)) (by
          rw [read_sub rfl rfl]
          simp only [refineType, pos_iff, if_neg hn])).trans (by simp [Ora.Kept]; omega)
      · rename_i hle
        cases h
        exact (ok_iff (ty := .varChar .oracle none) rfl).trans (by simp [Ora.Kept]; omega)
  · cases h
    exact (ok_iff (ty := .varChar .oracle none) rfl).trans (by simp [Ora.Kept])
  · rename_i p z
    cases h
    exact (ok_iff (ty := .timestamp .oracle none false) (by rw [read_sub rfl rfl]; rfl)).trans (by simp [Ora.Kept, eq_comm])
  · cases h
    exact (ok_iff (ty := .date) rfl).trans (by simp [Ora.Kept])
  · rename_i p z
    cases h
    exact (ok_iff (ty := .time .oracle none false) rfl).trans (by simp [Ora.Kept, eq_comm])
  · cases h

/-! ### The spellings -/

theorem optParens_eq (p : Option Nat) : optParens p = paren p := by cases p <;> rfl

theorem pg_text {ty : SqlType} {text : Text} {r : Report} (h : Pg.scalar ty = some (text, r)) : ty.str = .ok text := by
  unfold Pg.scalar at h
  split at h
  all_goals (try (cases h; done))
  all_goals (try (cases h; rfl))
  all_goals (try (cases h; simp only [SqlType.str, optParens_eq, tzSuffix]; done))
  · split at h
    · cases h; simp only [SqlType.str, inParens, Option.getD_some, List.append_assoc]; rfl
    · split at h
      · cases h; simp only [SqlType.str, inParens, Option.getD_some, List.append_assoc]; rfl
      · cases h
  · split at h
    · rename_i hid; subst hid; cases h; rfl
    · cases h
  · split at h
    · cases h
    · cases h; rfl

theorem text_of {e : Engine} {ty : SqlType} {text : Text} {r : Report} (h : declared e ty = some (text, r)) : ty.str = .ok text := by
  cases e
  case postgresql =>
    change Pg.row ty = some (text, r) at h
    unfold Pg.row at h
    split at h
    · rename_i elem
      cases hs : Pg.scalar elem with
      | none => rw [hs] at h; cases h
      | some x =>
        rw [hs] at h
        cases h
        have := pg_text (text := x.1) (r := x.2) hs
        simp only [SqlType.str, this]; rfl
    · exact pg_text h
  case mysql =>
    have h : My.row ty = some (text, r) := h
    unfold My.row at h
    split at h
    all_goals (try (cases h; done))
    all_goals (try (cases h; rfl))
    all_goals (try (cases h; simp only [SqlType.str, optParens_eq]; done))
    all_goals (try (cases h; simp [SqlType.str, optParens_eq, tzSuffix]; done))
    all_goals (repeat' (split at h))
    all_goals (try (cases h; done))
    all_goals (cases h)
    all_goals (try (simp_all [SqlType.str, inParens]; done))
    all_goals (simp_all [SqlType.str, inParens])
    all_goals (try rfl)
    all_goals (try (intros; exfalso; omega))
    all_goals (repeat' split)
    all_goals (first | rfl | (exfalso; omega))
  case mssql =>
    have h : Ms.row ty = some (text, r) := h
    unfold Ms.row at h
    split at h
    all_goals (try (cases h; done))
    all_goals (try (cases h; rfl))
    all_goals (try (cases h; simp [SqlType.str, optParens_eq, tzSuffix]; done))
    all_goals (repeat' (split at h))
    all_goals (try (cases h; done))
    all_goals (cases h)
    all_goals (try (simp_all [SqlType.str, inParens]; done))
    all_goals (simp_all [SqlType.str, inParens])
    all_goals (try rfl)
    all_goals (try (intros; exfalso; omega))
    all_goals (repeat' split)
    all_goals (first | rfl | (exfalso; omega))
  case oracle =>
    have h : Ora.row ty = some (text, r) := h
    unfold Ora.row at h
    split at h
    all_goals (try (cases h; done))
    all_goals (try (cases h; rfl))
    all_goals (try (cases h; simp only [SqlType.str, optParens_eq, tzSuffix]; done))
    all_goals (repeat' (split at h))
    all_goals (try (cases h; done))
    all_goals (cases h)
    all_goals (try (simp_all [SqlType.str, inParens]; done))
    all_goals (simp_all [SqlType.str, inParens])
    all_goals (try rfl)
    all_goals (try (intros; exfalso; omega))
    all_goals (repeat' split)
    all_goals (first | rfl | (exfalso; omega))
  all_goals (cases h)

theorem options_eq {e : Engine} {g : GenOptions} {o : ConvOptions} (ho : e.options g = .ok o) :
    o.extraNumeric = false ∧ o.substitution = e.substitution := by
  unfold Engine.options at ho
  split at ho
  · cases ho; exact ⟨rfl, rfl⟩
  · cases ho

/-- The engines whose catalogs are described. -/
def described (e : Engine) : Prop := e = .postgresql ∨ e = .mysql ∨ e = .mssql ∨ e = .oracle

end C30

/-- A data type that the library writes, and the server reports according to `Spec.declared`, is read as the same data type if and only if it is
    one of `Spec.Kept`; in any case its spelling is the one for which the report is described. -/
theorem C30_exactly_kept {e : Engine} {ty : SqlType} {text : Text} {r : Report} (h : declared e ty = some (text, r)) :
    ty.str = .ok text ∧ (readColumn e r = .ok ty ↔ Kept e ty) := by
  refine ⟨C30.text_of h, ?_⟩
  cases e
  case postgresql => exact C30.pg_all h
  case mysql => exact C30.my_all h
  case mssql => exact C30.ms_all h
  case oracle => exact C30.ora_all h
  all_goals (cases h)

/-- The types in use when the Python types have no annotations; `none` stands for a Python type whose column type the server does not have. -/
def C30.survives : Engine → Prim → Option Bool
  | .postgresql, .timedelta => some false
  | .postgresql, _ => some true
  | .mysql, .float32 => some false
  | .mysql, .decimal => some false
  | .mysql, .timedelta => none
  | .mysql, _ => some true
  | .mssql, .float => some false
  | .mssql, .float64 => some false
  | .mssql, .decimal => some false
  | .mssql, .time => some false
  | .mssql, .timedelta => none
  | .mssql, _ => some true
  | .oracle, .bool => none
  | .oracle, .float => some false
  | .oracle, .float32 => some false
  | .oracle, .float64 => some false
  | .oracle, .decimal => some false
  | .oracle, .uint8 => some false
  | .oracle, .uint16 => some false
  | .oracle, .uint32 => some false
  | .oracle, .uint64 => none
  | .oracle, .timedelta => none
  | .oracle, _ => some true
  | _, _ => none

/-- Which Python types survive a round trip through which server. -/
theorem C30_python {e : Engine} {g : GenOptions} {o : ConvOptions} (ho : e.options g = .ok o) (p : Prim) :
    (declared e (o.primType p)).map (fun row => decide ((readColumn e row.2).toOption = some (o.primType p))) = C30.survives e p := by
  have h := C30.options_eq ho
  unfold ConvOptions.primType
  rw [h.1, h.2]
  cases e <;> cases p <;> first | rfl | decide +kernel

/-- Texts of bounded length: a column of a server that stores no more than some number of characters in `varchar` loses its bound when it is
    larger. -/
theorem C30_max_length {e : Engine} {g : GenOptions} {o : ConvOptions} (ho : e.options g = .ok o) (he : C30.described e)
    {n : Nat} {ty : SqlType} (ht : o.annotatedType .str [.maxLength n] = .ok ty) {text : Text} {r : Report} (hd : declared e ty = some (text, r)) :
    readColumn e r = .ok ty ↔
      match e with
      | .mysql => 0 < n ∧ n < 65536 ∨ n = 16777215 ∨ n = 4294967295
      | .mssql => n ≠ 0 ∧ n ≠ 2147483647
      | .oracle => n ≤ 4000
      | _ => True := by
  rw [(C30_exactly_kept hd).2]
  unfold ConvOptions.annotatedType ConvOptions.annotatedBase at ht
  rw [(C30.options_eq ho).2] at ht
  rcases he with rfl | rfl | rfl | rfl <;> cases ht <;> simp [Kept, Pg.Kept, Pg.keptScalar, My.Kept, Ms.Kept, Ora.Kept]

/-- Decimals of a given precision survive, except on Oracle. -/
theorem C30_precision {e : Engine} {g : GenOptions} {o : ConvOptions} (ho : e.options g = .ok o) (he : C30.described e)
    {p s : Nat} {ty : SqlType} (ht : o.annotatedType .decimal [.precision p s] = .ok ty) {text : Text} {r : Report}
    (hd : declared e ty = some (text, r)) : readColumn e r = .ok ty ↔ e ≠ .oracle := by
  rw [(C30_exactly_kept hd).2]
  unfold ConvOptions.annotatedType ConvOptions.annotatedBase at ht
  rw [(C30.options_eq ho).2] at ht
  rcases he with rfl | rfl | rfl | rfl <;> cases ht <;> simp [Kept, Pg.Kept, Pg.keptScalar, My.Kept, Ms.Kept, Ora.Kept]

/-- The precision of time stamps survives on PostgreSQL, and on MySQL unless it is zero; SQL Server knows precision 7 only, and Oracle loses any. -/
theorem C30_time_precision {e : Engine} {g : GenOptions} {o : ConvOptions} (ho : e.options g = .ok o) (he : C30.described e)
    {n : Nat} {ty : SqlType} (ht : o.annotatedType .datetime [.timePrecision n] = .ok ty) {text : Text} {r : Report}
    (hd : declared e ty = some (text, r)) :
    readColumn e r = .ok ty ↔ e = .postgresql ∨ e = .mysql ∧ n ≠ 0 ∨ e = .mssql ∧ n = 7 := by
  rw [(C30_exactly_kept hd).2]
  unfold ConvOptions.annotatedType ConvOptions.annotatedBase at ht
  rw [(C30.options_eq ho).2] at ht
  rcases he with rfl | rfl | rfl | rfl <;> cases ht <;> simp [Kept, Pg.Kept, Pg.keptScalar, My.Kept, Ms.Kept, Ora.Kept]

/-- The range of an integer is never read again: a data-class with such a field differs from the database each time. -/
theorem C30_integer_range_fails {e : Engine} {g : GenOptions} {o : ConvOptions} (ho : e.options g = .ok o) (he : C30.described e)
    {lo hi : Int} {ty : SqlType} (ht : o.annotatedType .int [.integerRange lo hi] = .ok ty) {text : Text} {r : Report}
    (hd : declared e ty = some (text, r)) : readColumn e r ≠ .ok ty := by
  rw [ne_eq, (C30_exactly_kept hd).2]
  unfold ConvOptions.annotatedType ConvOptions.annotatedBase at ht
  rw [(C30.options_eq ho).2] at ht
  rcases he with rfl | rfl | rfl | rfl <;> cases ht <;> simp [Kept, Pg.Kept, Pg.keptScalar, My.Kept, Ms.Kept, Ora.Kept]

/-- A user-defined type of PostgreSQL is recognized unless its name is, in any case, that of a standard type: a class named `Date` is taken for
    the type `date`. -/
theorem C30_user_type {ns id text : Text} {r : Report} (h : declared .postgresql (.user (.qualified (some ns) id)) = some (text, r)) (hs : ns ≠ t "SYS") :
    readColumn .postgresql r = .ok (.user (.qualified (some ns) id)) ↔ lowerText id ∉ Pg.standardNames := by
  rw [(C30_exactly_kept h).2]
  show lowerText id ∉ Pg.standardNames ∧ ¬ (ns = t "SYS" ∧ id = t "inet") ↔ _
  exact ⟨fun h => h.1, fun h => ⟨h, fun hh => hs hh.1⟩⟩

/-- A class named `Date`. -/
theorem C30_user_type_fails : ∃ text r, declared .postgresql (.user (.qualified (some (t "shop")) (t "Date"))) = some (text, r) ∧
    readColumn .postgresql r = .ok .date := ⟨_, _, rfl, rfl⟩

/-- On MySQL, the labels of an enumeration are read as they are unless one of them has a quote or a line break; then the quote remains doubled, or
    the type is refused. -/
theorem C30_mysql_enum {vs : List Text} (hne : vs ≠ []) (hb : ∀ v ∈ vs, '\\' ∉ v) : ∃ text r,
    declared .mysql (.enum vs) = some (text, r) ∧
      (readColumn .mysql r = .ok (.enum vs) ↔ ∀ v ∈ vs, '\'' ∉ v ∧ '\n' ∉ v) := by
  have h : ¬ (vs = [] ∨ ∃ v ∈ vs, '\\' ∈ v) := by
    rintro (h | ⟨v, hv, hc⟩)
    · exact hne h
    · exact hb v hv hc
  have hd : declared .mysql (.enum vs) = some (t "ENUM (" ++ joinWith (t ", ") (vs.map quote) ++ t ")",
      { spec := { name := t "enum", definition := t "enum(" ++ joinWith (t ",") (vs.map quote) ++ t ")" } }) := by
    exact if_neg h
  exact ⟨_, _, hd, (C30_exactly_kept hd).2⟩

/-! ### The hypotheses can be met -/

example : ∃ text r, declared .postgresql (.decimal (some 10) (some 2)) = some (text, r) ∧ readColumn .postgresql r = .ok (.decimal (some 10) (some 2)) :=
  ⟨_, _, rfl, rfl⟩
example : ∃ text r, declared .postgresql (.array (.varChar .base none)) = some (text, r) ∧ readColumn .postgresql r = .ok (.array (.varChar .base none)) :=
  ⟨_, _, rfl, rfl⟩
example : ∃ text r, declared .mysql (.enum [t "a,b", t "c"]) = some (text, r) ∧ (readColumn .mysql r).toOption = some (.enum [t "a,b", t "c"]) :=
  ⟨_, _, rfl, by decide +kernel⟩
example : ∃ text r, declared .mysql (.enum [t "it's"]) = some (text, r) ∧ (readColumn .mysql r).toOption = some (.enum [t "it''s"]) :=
  ⟨_, _, rfl, by decide +kernel⟩
example : ∃ text r, declared .mssql (.varChar .mssql (some 64)) = some (text, r) ∧ readColumn .mssql r = .ok (.varChar .mssql (some 64)) :=
  ⟨_, _, rfl, rfl⟩
example : ∃ text r, declared .oracle (.varChar .oracle (some 64)) = some (text, r) ∧ readColumn .oracle r = .ok (.varChar .oracle (some 64)) :=
  ⟨_, _, rfl, rfl⟩

end PySqlSync
