/-
C52 — A database of MySQL, SQL Server or Oracle that is what is wanted needs no change: exactly when.
-/
import Verif.Examples.Shop
import Verif.Lemmas.Check
import Verif.Lemmas.Assemble
import Verif.Lemmas.Flat
import Verif.Lemmas.Qualified
import Verif.Props.C14
import Verif.Props.C17
import Verif.Props.C30

set_option autoImplicit false

namespace PySqlSync
open Spec

namespace C52

/-! ### Names -/

theorem double_nil : ¬ t "__" <:+: ([] : Text) := by decide +kernel

theorem double_one (c : Char) : ¬ t "__" <:+: [c] := by
  intro h
  have := h.length_le
  rw [show (t "__").length = 2 from rfl] at this
  simp at this

theorem double_cons (c d : Char) (rest : Text) : t "__" <:+: c :: d :: rest ↔ (c = '_' ∧ d = '_') ∨ t "__" <:+: d :: rest := by
  rw [List.infix_cons_iff]
  refine or_congr ?_ Iff.rfl
  show ['_', '_'] <+: c :: d :: rest ↔ _
  rw [List.cons_prefix_cons, List.cons_prefix_cons]
  constructor
  · rintro ⟨e1, e2, _⟩; exact ⟨e1.symm, e2.symm⟩
  · rintro ⟨rfl, rfl⟩; exact ⟨rfl, rfl, List.nil_prefix⟩

theorem split_none : ∀ (s : Text), splitDouble s = none ↔ ¬ t "__" <:+: s
  | [] => ⟨fun _ => double_nil, fun _ => rfl⟩
  | [c] => ⟨fun _ => double_one c, fun _ => rfl⟩
  | c :: d :: rest => by
    rw [double_cons, splitDouble]
    by_cases h : c = '_' ∧ d = '_'
    · rw [if_pos h]; simp [h]
    · rw [if_neg h, Option.map_eq_none_iff, split_none (d :: rest)]
      simp [h]

theorem split_some : ∀ (s a b : Text), splitDouble s = some (a, b) ↔ s = a ++ t "__" ++ b ∧ ¬ t "__" <:+: a ++ t "_"
  | [], a, b => by
    constructor
    · intro h; cases h
    · rintro ⟨h, _⟩
      have := congrArg List.length h
      rw [List.length_append, List.length_append, show (t "__").length = 2 from rfl] at this
      simp at this
      omega
  | [c], a, b => by
    constructor
    · intro h; cases h
    · rintro ⟨h, _⟩
      have := congrArg List.length h
      rw [List.length_append, List.length_append, show (t "__").length = 2 from rfl] at this
      simp at this
      omega
  | c :: d :: rest, a, b => by
    rw [splitDouble]
    by_cases h : c = '_' ∧ d = '_'
    · rw [if_pos h]
      obtain ⟨rfl, rfl⟩ := h
      constructor
      · intro h
        cases h
        exact ⟨rfl, double_one _⟩
      · rintro ⟨h1, h2⟩
        cases a with
        | nil =>
          have h1 : '_' :: '_' :: rest = '_' :: '_' :: b := h1
          injection h1 with _ h1
          injection h1 with _ h1
          rw [h1]
        | cons x a =>
          injection h1 with e h1
          subst e
          cases a with
          | nil => exact absurd ((double_cons _ _ _).2 (.inl ⟨rfl, rfl⟩)) h2
          | cons y a =>
            injection h1 with e h1
            subst e
            exact absurd ((double_cons _ _ _).2 (.inl ⟨rfl, rfl⟩)) h2
    · rw [if_neg h]
      constructor
      · intro hs
        obtain ⟨⟨a', b'⟩, e1, e2⟩ := Option.map_eq_some_iff.1 hs
        cases e2
        obtain ⟨k1, k2⟩ := (split_some (d :: rest) a' b').1 e1
        refine ⟨by rw [k1]; rfl, ?_⟩
        cases a' with
        | nil =>
          rintro hi
          rcases (double_cons c '_' []).1 hi with ⟨rfl, _⟩ | h'
          · injection k1 with e1 _
            exact h ⟨rfl, e1⟩
          · exact double_one _ h'
        | cons y a' =>
          injection k1 with e1 _
          subst e1
          rintro hi
          rcases (double_cons c d (a' ++ t "_")).1 hi with h' | h'
          · exact h h'
          · exact k2 h'
      · rintro ⟨h1, h2⟩
        cases a with
        | nil =>
          exfalso
          injection h1 with e1 h1
          injection h1 with e2 h1
          exact h ⟨e1, e2⟩
        | cons x a =>
          injection h1 with e h1
          subst e
          rw [(split_some (d :: rest) a b).2 ⟨h1, ?_⟩]
          · rfl
          · intro hi
            exact h2 (List.infix_cons_iff.2 (.inr hi))

theorem split_iff (q : QId) : splitComposite q.localId = q ↔ Separable q := by
  unfold splitComposite
  cases q with
  | qualified ns id =>
    constructor
    · intro h
      split at h <;> cases h
    · intro h; cases h
  | global id =>
    constructor
    · intro h
      split at h <;> cases h
    · intro h; cases h
  | «prefixed» ns id =>
    cases ns with
    | none =>
      show (match splitDouble id with
        | some (ns, id) => QId.prefixed (some ns) id
        | none => QId.prefixed none id) = _ ↔ ¬ _
      rw [← split_none id]
      cases h : splitDouble id with
      | none => exact ⟨fun _ => rfl, fun _ => rfl⟩
      | some p =>
        obtain ⟨a, b⟩ := p
        constructor
        · intro h; cases h
        · intro h; cases h
    | some n =>
      show (match splitDouble (n ++ t "__" ++ id) with
        | some (ns, id) => QId.prefixed (some ns) id
        | none => QId.prefixed none (n ++ t "__" ++ id)) = _ ↔ ¬ _
      constructor
      · intro h
        cases hs : splitDouble (n ++ t "__" ++ id) with
        | none => rw [hs] at h; cases h
        | some p =>
          obtain ⟨a, b⟩ := p
          rw [hs] at h
          cases h
          exact ((split_some _ _ _).1 hs).2
      · intro h
        rw [(split_some (n ++ t "__" ++ id) n id).2 ⟨rfl, h⟩]

/-! ### Columns -/

theorem my_scalar {ty : SqlType} {p : ServerRow} (h : My.row ty = some p) : p.2.isArray = false := by
  unfold My.row at h
  split at h <;> first
    | (cases h; rfl)
    | (cases h; done)
    | (split at h
       · first | (cases h; rfl) | cases h
       · first
         | (cases h; rfl)
         | cases h
         | (split at h
            · first | (cases h; rfl) | cases h
            · first
              | (cases h; rfl)
              | cases h
              | (split at h
                 · first | (cases h; rfl) | cases h
                 · first | (cases h; rfl) | cases h)))

theorem ms_scalar {ty : SqlType} {p : ServerRow} (h : Ms.row ty = some p) : p.2.isArray = false := by
  unfold Ms.row at h
  split at h <;> first
    | (cases h; rfl)
    | (cases h; done)
    | (split at h
       · first | (cases h; rfl) | cases h
       · first
         | (cases h; rfl)
         | cases h
         | (split at h
            · first | (cases h; rfl) | cases h
            · first | (cases h; rfl) | cases h))

theorem ora_scalar {ty : SqlType} {p : ServerRow} (h : Ora.row ty = some p) : p.2.isArray = false := by
  unfold Ora.row at h
  split at h <;> first
    | (cases h; rfl)
    | (cases h; done)
    | (split at h
       · first | (cases h; rfl) | cases h
       · first
         | (cases h; rfl)
         | cases h
         | (split at h
            · first | (cases h; rfl) | cases h
            · first | (cases h; rfl) | cases h))

theorem read_iff {e : Engine} {ty : SqlType} {p : ServerRow} (h : declared e ty = some p) (ha : p.2.isArray = false) :
    typeFromSpec e.discovered p.2.spec = .ok ty ↔ Kept e ty := by
  rw [← (C30_exactly_kept (text := p.1) (r := p.2) h).2]
  unfold readColumn
  rw [ha]
  cases typeFromSpec e.discovered p.2.spec with
  | error e => constructor <;> intro h <;> cases h
  | ok x => constructor <;> intro h <;> exact h

theorem defaults_eq {expr : Text → Text} {d : Option Text} : d.map expr = d ↔ ∀ x, d = some x → expr x = x := by
  cases d with
  | none => simp
  | some x => simp

theorem nonEmpty_eq (s : Text) : nonEmpty s = if s = [] then none else some s := by
  unfold nonEmpty
  cases s <;> rfl

theorem line_line (s : Text) : firstLine (line s) = line s := by
  unfold firstLine line
  induction s with
  | nil => rfl
  | cons c s ih =>
    rw [List.takeWhile_cons]
    split
    · rename_i h
      rw [List.takeWhile_cons, if_pos h, ih]
    · rfl

theorem my_column {expr : SqlType → Text → Text} {generated : Text → Bool} {c : Column} {r : MyColumnRow} (h : My.columnRow expr generated c = some r) :
    (∃ b, myReadColumn r = .ok b ∧ Set.Idle .mysql b c) ↔ My.SettledColumn expr c := by
  unfold My.columnRow at h
  obtain ⟨p, hp, rfl⟩ := Option.map_eq_some_iff.1 h
  have hr := read_iff (e := .mysql) hp (my_scalar hp)
  have hid : hasInfix (t "auto_increment") (if c.identity then t "auto_increment" else if c.default.any generated then t "DEFAULT_GENERATED" else []) = c.identity := by
    cases c.identity with
    | true => exact (by decide +kernel : hasInfix (t "auto_increment") (t "auto_increment") = true)
    | false =>
      cases c.default.any generated with
      | true => exact (by decide +kernel : hasInfix (t "auto_increment") (t "DEFAULT_GENERATED") = false)
      | false => exact (by decide +kernel : hasInfix (t "auto_increment") [] = false)
  have hcom : ∀ (b : Column), b.description = nonEmpty (My.comment c.description) →
      ((∃ x, b.comment .mysql = .ok x ∧ c.comment .mysql = .ok x) ↔ ∀ s, c.description = some s → line s ≠ [] ∧ (line s).length ≤ 1024) := by
    intro b hb
    unfold Column.comment
    rw [hb, nonEmpty_eq]
    cases hd : c.description with
    | none =>
      constructor
      · intro _ s hs; cases hs
      · intro _
        exact ⟨none, rfl, rfl⟩
    | some s =>
      have hl : firstLine s = line s := rfl
      show (∃ x, (match Dialect.mysql, (if line s = [] then none else some (line s)) with
        | .mysql, some s => if (firstLine s).length > 1024 then Except.error Err.formation else .ok (some (firstLine s))
        | .delta, some s => .ok (some s)
        | .snowflake, some s => .ok (some s)
        | _, _ => .ok none) = .ok x ∧ (if (firstLine s).length > 1024 then Except.error Err.formation else .ok (some (firstLine s))) = .ok x) ↔ _
      rw [hl]
      by_cases hlong : (line s).length > 1024
      · rw [if_pos hlong]
        constructor
        · rintro ⟨x, _, h⟩; cases h
        · intro h
          have := (h s rfl).2
          omega
      · rw [if_neg hlong]
        by_cases he : line s = []
        · rw [if_pos he]
          constructor
          · rintro ⟨x, h1, h2⟩
            cases h1
            cases h2
          · intro h
            exact absurd he (h s rfl).1
        · rw [if_neg he]
          dsimp only
          rw [line_line, if_neg hlong]
          constructor
          · rintro _ s' e
            cases e
            exact ⟨he, by omega⟩
          · intro _
            exact ⟨_, rfl, rfl⟩
  unfold myReadColumn
  dsimp only
  constructor
  · rintro ⟨b, hb, hi⟩
    obtain ⟨ty, e1, hb⟩ := Conv.bind_ok.1 hb
    have hb := Conv.pure_ok.1 hb
    subst hb
    have hty : ty = c.ty := hi.agree.ty
    subst hty
    exact ⟨hr.1 e1, defaults_eq.1 hi.agree.default, (hcom _ rfl).1 (hi.comment rfl)⟩
  · rintro ⟨h1, h2, h3⟩
    refine ⟨_, Conv.bind_ok.2 ⟨c.ty, hr.2 h1, Conv.pure_ok.2 rfl⟩, ⟨rfl, rfl, defaults_eq.2 h2, hid⟩, fun _ => ?_⟩
    exact (hcom _ rfl).2 h3

theorem my_name {expr : SqlType → Text → Text} {generated : Text → Bool} {c b : Column} {r : MyColumnRow} (h : My.columnRow expr generated c = some r)
    (hb : myReadColumn r = .ok b) : b.name = c.name := by
  unfold My.columnRow at h
  obtain ⟨p, hp, rfl⟩ := Option.map_eq_some_iff.1 h
  unfold myReadColumn at hb
  obtain ⟨ty, e1, hb⟩ := Conv.bind_ok.1 hb
  rw [← Conv.pure_ok.1 hb]

theorem dict_get {rows : List (Text × Text)} {k : Text} {o : Option Text} (h : ∀ d, (k, d) ∈ rows ↔ o = some d) : lastRow rows k = o := by
  unfold lastRow
  cases hf : rows.reverse.find? (fun p => p.1 = k) with
  | none =>
    cases o with
    | none => rfl
    | some d =>
      have := List.find?_eq_none.1 hf (k, d) (List.mem_reverse.2 ((h d).2 rfl))
      simp at this
  | some p =>
    have h1 := List.mem_reverse.1 (List.mem_of_find?_eq_some hf)
    have h2 := List.find?_some hf
    have h2 : p.1 = k := by simpa using h2
    obtain ⟨p1, p2⟩ := p
    have h2 : p1 = k := h2
    subst h2
    exact ((h p2).1 h1).symm

theorem mapM_amend {R A B : Type} (f : R → Except Err A) (g : A → B) : ∀ (rows : List R) (bs : List B),
    rows.mapM (fun r => (f r).map g) = .ok bs ↔ ∃ as, rows.mapM f = .ok as ∧ bs = as.map g
  | [], bs => by
    constructor
    · intro h
      have h : Except.ok [] = Except.ok bs := h
      cases h
      exact ⟨[], rfl, rfl⟩
    · rintro ⟨as, h, rfl⟩
      have h : Except.ok [] = Except.ok as := h
      cases h
      rfl
  | r :: rows, bs => by
    rw [Conv.mapM_cons_ok]
    constructor
    · rintro ⟨b, bs', h1, h2, rfl⟩
      obtain ⟨as, h3, rfl⟩ := (mapM_amend f g rows bs').1 h2
      cases hf : f r with
      | error e => rw [hf] at h1; cases h1
      | ok a =>
        rw [hf] at h1
        cases h1
        exact ⟨a :: as, Conv.mapM_cons_ok.2 ⟨a, as, hf, h3, rfl⟩, rfl⟩
    · rintro ⟨as', h, rfl⟩
      obtain ⟨a, as, h1, h2, rfl⟩ := Conv.mapM_cons_ok.1 h
      exact ⟨g a, as.map g, by rw [h1]; rfl, (mapM_amend f g rows _).2 ⟨as, h2, rfl⟩, rfl⟩

theorem ms_column {expr : SqlType → Text → Text} {T : MsTable} {c : Column} {r : AnsiColumnRow} (h : Ms.columnRow expr c = some r)
    (hi : c.name ∈ T.identity ↔ c.identity = true) (hd : lastRow T.defaults c.name = c.default.map (expr c.ty)) :
    (∃ b, (ansiReadColumn .mssql r).map (msAmend T) = .ok b ∧ Set.Idle .mssql b c) ↔ Ms.SettledColumn expr c := by
  unfold Ms.columnRow at h
  obtain ⟨p, hp, rfl⟩ := Option.map_eq_some_iff.1 h
  have hr := read_iff (e := .mssql) hp (ms_scalar hp)
  have hid : (if c.name ∈ T.identity then true else false) = c.identity := by
    cases hc : c.identity with
    | true => rw [if_pos (hi.2 hc)]
    | false => rw [if_neg (fun h => by rw [hi.1 h] at hc; cases hc)]
  have hdd : (match lastRow T.defaults c.name with
      | some d => some d
      | none => c.default.map (expr c.ty)) = c.default.map (expr c.ty) := by
    rw [hd]
    cases c.default <;> rfl
  unfold ansiReadColumn
  constructor
  · rintro ⟨b, hb, hidle⟩
    cases ht : typeFromSpec Engine.mssql.discovered p.2.spec with
    | error e => simp [ht, bind, Except.bind, Except.map] at hb
    | ok ty =>
      simp only [ht, bind, Except.bind, Except.map, pure, Except.pure, Except.ok.injEq] at hb
      subst hb
      have hty : ty = c.ty := hidle.agree.ty
      subst hty
      exact ⟨hr.1 ht, defaults_eq.1 (hdd.symm.trans hidle.agree.default)⟩
  · rintro ⟨h1, h2⟩
    refine ⟨msAmend T { name := c.name, ty := c.ty, nullable := c.nullable, default := c.default.map (expr c.ty) }, ?_, ⟨⟨?_, ?_, ?_, ?_⟩, fun e => by cases e⟩⟩
    · rw [hr.2 h1]
      rfl
    · rfl
    · rfl
    · exact hdd.trans (defaults_eq.2 h2)
    · exact hid

theorem ms_name {expr : SqlType → Text → Text} {T : MsTable} {c b : Column} {r : AnsiColumnRow} (h : Ms.columnRow expr c = some r)
    (hb : (ansiReadColumn .mssql r).map (msAmend T) = .ok b) : b.name = c.name := by
  unfold Ms.columnRow at h
  obtain ⟨p, hp, rfl⟩ := Option.map_eq_some_iff.1 h
  unfold ansiReadColumn at hb
  cases ht : typeFromSpec Engine.mssql.discovered p.2.spec with
  | error e => simp [ht, bind, Except.bind, Except.map] at hb
  | ok ty =>
    simp only [ht, bind, Except.bind, Except.map, pure, Except.pure, Except.ok.injEq] at hb
    subst hb
    rfl

theorem stamp_name (p : Nat) (rest : Text) : (t "TIMESTAMP" ++ inParens p ++ rest).takeWhile (fun c => c ≠ '(' ∧ c ≠ ')') = t "TIMESTAMP" := by
  unfold inParens
  rfl

theorem ora_spec {expr : SqlType → Text → Text} {c : Column} {r : OraColumnRow} {p : ServerRow} (hp : Ora.row c.ty = some p)
    (h : Ora.columnRow expr c = some r) : r.spec = p.2.spec := by
  unfold Ora.columnRow at h
  rw [hp] at h
  cases h
  unfold Ora.row at hp
  split at hp
  all_goals first | (cases hp; rfl) | (cases hp; done) | skip
  · split at hp
    · cases hp
    · split at hp <;> (cases hp; rfl)
  · split at hp
    · cases hp
    · rename_i n _ hn
      cases hp
      cases n with
      | zero => exact absurd rfl hn
      | succ n => rfl
  · split at hp
    · cases hp
    · rename_i n _ hn
      split at hp
      · cases hp
        cases n with
        | zero => exact absurd rfl hn
        | succ n => rfl
      · cases hp; rfl

theorem ora_column {expr : SqlType → Text → Text} {c : Column} {r : OraColumnRow} (h : Ora.columnRow expr c = some r) :
    (∃ b, oraReadColumn r = .ok b ∧ Set.Idle .oracle b c) ↔ Ora.SettledColumn expr c := by
  have h' := h
  unfold Ora.columnRow at h
  obtain ⟨p, hp, rfl⟩ := Option.map_eq_some_iff.1 h
  have hr := read_iff (e := .oracle) hp (ora_scalar hp)
  rw [← ora_spec hp h'] at hr
  have hd : (if c.identity = true then none else c.default.map (expr c.ty)) = c.default ↔ ∀ d, c.default = some d → c.identity = false ∧ expr c.ty d = d := by
    cases c.identity with
    | true =>
      rw [if_pos rfl]
      cases c.default with
      | none => simp
      | some d => simp
    | false =>
      rw [if_neg (by simp)]
      cases c.default with
      | none => simp
      | some d => simp
  unfold oraReadColumn
  constructor
  · rintro ⟨b, hb, hi⟩
    obtain ⟨ty, e1, hb⟩ := Conv.bind_ok.1 hb
    have hb := Conv.pure_ok.1 hb
    subst hb
    have hty : ty = c.ty := hi.agree.ty
    subst hty
    exact ⟨hr.1 e1, hd.1 hi.agree.default⟩
  · rintro ⟨h1, h2⟩
    exact ⟨_, Conv.bind_ok.2 ⟨c.ty, hr.2 h1, Conv.pure_ok.2 rfl⟩, ⟨rfl, rfl, hd.2 h2, rfl⟩, fun e => by cases e⟩

theorem ora_name {expr : SqlType → Text → Text} {c b : Column} {r : OraColumnRow} (h : Ora.columnRow expr c = some r) (hb : oraReadColumn r = .ok b) :
    b.name = c.name := by
  unfold Ora.columnRow at h
  obtain ⟨p, hp, rfl⟩ := Option.map_eq_some_iff.1 h
  unfold oraReadColumn at hb
  obtain ⟨ty, e1, hb⟩ := Conv.bind_ok.1 hb
  rw [← Conv.pure_ok.1 hb]

/-! ### Foreign keys -/

theorem filter_map {A : Type} (f : A → ForeignRow) (n : Text) (l : List A) :
    (l.map f).filter (fun x => x.name = n) = (l.filter (fun a => (f a).name = n)).map f := by
  rw [List.filter_map]
  rfl

/-- Rows that pair the columns of a foreign key with `ys`. -/
theorem told_zip {F : List ForeignRow} {n : Text} {cs ys : List Text} {r : Ref} {tbl : QId}
    (h : F.filter (fun x => x.name = n) = (cs.zip ys).map (fun p => ⟨n, p.1, tbl, p.2⟩)) (hl : ys.length = r.columns.length) :
    Asm.Told F (.foreign n cs r) ↔ cs ≠ [] ∧ cs.length = r.columns.length ∧ ys = r.columns ∧ tbl = r.table := by
  have hsrc : (F.filter (fun x => x.name = n)).map ForeignRow.source = (cs.zip ys).map Prod.fst := by
    rw [h, List.map_map]; rfl
  have htgt : (F.filter (fun x => x.name = n)).map ForeignRow.target = (cs.zip ys).map Prod.snd := by
    rw [h, List.map_map]; rfl
  unfold Asm.Told
  dsimp only
  rw [hsrc, htgt, h]
  have htab : (cs.zip ys) ≠ [] → ((∀ x ∈ F, x.name = n → x.table = r.table) ↔ tbl = r.table) := by
    intro hne
    constructor
    · intro ha
      cases hz : cs.zip ys with
      | nil => exact absurd hz hne
      | cons p l =>
        have hin : (⟨n, p.1, tbl, p.2⟩ : ForeignRow) ∈ F.filter (fun x => x.name = n) := by
          rw [h, hz]
          exact List.mem_cons_self
        exact ha _ (List.mem_filter.1 hin).1 rfl
    · intro e x hx hn
      have hin : x ∈ F.filter (fun x => x.name = n) := List.mem_filter.2 ⟨hx, decide_eq_true hn⟩
      rw [h] at hin
      obtain ⟨p, _, rfl⟩ := List.mem_map.1 hin
      exact e
  constructor
  · rintro ⟨h1, h2, h3, h4⟩
    have h1 : cs.zip ys ≠ [] := fun e => h1 (by rw [e]; rfl)
    have l2 := congrArg List.length h2
    have l3 := congrArg List.length h3
    rw [List.length_map, List.length_zip] at l2 l3
    have hlen : cs.length = ys.length := by omega
    have h3 : ys = r.columns := by
      rw [← h3]
      exact (List.map_snd_zip (by omega)).symm
    exact ⟨fun e => h1 (by rw [e]; rfl), by omega, h3, (htab h1).1 h4⟩
  · rintro ⟨h1, h2, h3, h4⟩
    have hne : cs.zip ys ≠ [] := by
      intro e
      have := congrArg List.length e
      rw [List.length_zip] at this
      cases cs with
      | nil => exact h1 rfl
      | cons x cs =>
        rw [List.length_cons] at this h2
        rw [List.length_nil] at this
        omega
    refine ⟨fun e => hne (List.map_eq_nil_iff.1 e), List.map_fst_zip (by omega), ?_, (htab hne).2 h4⟩
    rw [List.map_snd_zip (by omega), h3]

theorem my_told {db : Text} {rows : List AnsiForeignRow} {tb : Table} (h : HasForeign (My.foreignRows db) rows tb) {c : Constraint}
    (hc : c ∈ tb.constraints.items) : Asm.Told (rows.map AnsiForeignRow.split) c ↔ My.SettledConstraint c := by
  cases c with
  | unique => exact Iff.rfl
  | discriminated => exact Iff.rfl
  | check => exact Iff.rfl
  | foreign n cs r =>
    have hf : (rows.map AnsiForeignRow.split).filter (fun x => x.name = n) =
        (cs.zip r.columns).map (fun p => ⟨n, p.1, splitComposite r.table.localId, p.2⟩) := by
      rw [filter_map]
      have e : rows.filter (fun a => a.split.name = n) = My.foreignRows db (.foreign n cs r) := h.each _ hc
      rw [e]
      show ((cs.zip r.columns).map _).map _ = _
      rw [List.map_map]
      rfl
    rw [told_zip hf rfl]
    show _ ↔ cs ≠ [] ∧ cs.length = r.columns.length ∧ Separable r.table
    rw [← split_iff]
    simp

theorem my_keys {db : Text} {rows : List AnsiForeignRow} {tb : Table} (hd : Distinct tb.constraints) (h : HasForeign (My.foreignRows db) rows tb) :
    Asm.Keys (rows.map AnsiForeignRow.split) tb := by
  have own : ∀ r ∈ rows, ∃ cs ref, Constraint.foreign r.name cs ref ∈ tb.constraints.items ∧ r.targetTable = ref.table.localId := by
    intro r hr
    obtain ⟨c, hc, hrc⟩ := h.noOther r hr
    cases c with
    | foreign n cs ref =>
      obtain ⟨p, _, rfl⟩ := List.mem_map.1 hrc
      exact ⟨cs, ref, hc, rfl⟩
    | _ => cases hrc
  constructor
  · intro r hr
    obtain ⟨a, ha, rfl⟩ := List.mem_map.1 hr
    obtain ⟨cs, ref, h1, _⟩ := own a ha
    exact ⟨cs, ref, h1⟩
  · intro x hx y hy e
    obtain ⟨a, ha, rfl⟩ := List.mem_map.1 hx
    obtain ⟨b, hb, rfl⟩ := List.mem_map.1 hy
    obtain ⟨cs, ref, h1, h2⟩ := own a ha
    obtain ⟨cs', ref', h3, h4⟩ := own b hb
    have := Asm.same_name hd h1 h3 e
    injection this with _ _ e3
    show splitComposite a.targetTable = splitComposite b.targetTable
    rw [h2, h4, e3]

theorem ms_told {current : Text} {order : Constraint → List Text} (ho : Ordered order) {rows : List AnsiForeignRow} {tb : Table}
    (h : HasForeign (Ms.foreignRows current order) rows tb) {c : Constraint} (hc : c ∈ tb.constraints.items) :
    Asm.Told (rows.map AnsiForeignRow.qualified) c ↔ Ms.SettledConstraint order c := by
  cases c with
  | unique => exact Iff.rfl
  | discriminated => exact Iff.rfl
  | check => exact Iff.rfl
  | foreign n cs r =>
    have hf : (rows.map AnsiForeignRow.qualified).filter (fun x => x.name = n) =
        (cs.zip (order (.foreign n cs r))).map (fun p => ⟨n, p.1, .qualified (some (Ms.schemaOf current r.table)) r.table.localId, p.2⟩) := by
      rw [filter_map]
      have e : rows.filter (fun a => a.qualified.name = n) = Ms.foreignRows current order (.foreign n cs r) := h.each _ hc
      rw [e]
      show ((cs.zip (order (.foreign n cs r))).map _).map _ = _
      rw [List.map_map]
      rfl
    rw [told_zip hf (ho n cs r).length_eq]
    show _ ↔ cs ≠ [] ∧ cs.length = r.columns.length ∧ order (.foreign n cs r) = r.columns ∧ ∃ ns id, r.table = .qualified (some ns) id
    have : QId.qualified (some (Ms.schemaOf current r.table)) r.table.localId = r.table ↔ ∃ ns id, r.table = .qualified (some ns) id := by
      cases r.table with
      | qualified ns id =>
        cases ns with
        | none =>
          constructor
          · intro h; cases h
          · rintro ⟨_, _, h⟩; cases h
        | some ns => exact ⟨fun _ => ⟨ns, id, rfl⟩, fun _ => rfl⟩
      | _ =>
        constructor
        · intro h; cases h
        · rintro ⟨_, _, h⟩; cases h
    rw [this]

theorem ms_keys {current : Text} {order : Constraint → List Text} {rows : List AnsiForeignRow} {tb : Table} (hd : Distinct tb.constraints)
    (h : HasForeign (Ms.foreignRows current order) rows tb) : Asm.Keys (rows.map AnsiForeignRow.qualified) tb := by
  have own : ∀ r ∈ rows, ∃ cs ref, Constraint.foreign r.name cs ref ∈ tb.constraints.items ∧ r.targetTable = ref.table.localId ∧
      r.targetSchema = Ms.schemaOf current ref.table := by
    intro r hr
    obtain ⟨c, hc, hrc⟩ := h.noOther r hr
    cases c with
    | foreign n cs ref =>
      obtain ⟨p, _, rfl⟩ := List.mem_map.1 hrc
      exact ⟨cs, ref, hc, rfl, rfl⟩
    | _ => cases hrc
  constructor
  · intro r hr
    obtain ⟨a, ha, rfl⟩ := List.mem_map.1 hr
    obtain ⟨cs, ref, h1, _⟩ := own a ha
    exact ⟨cs, ref, h1⟩
  · intro x hx y hy e
    obtain ⟨a, ha, rfl⟩ := List.mem_map.1 hx
    obtain ⟨b, hb, rfl⟩ := List.mem_map.1 hy
    obtain ⟨cs, ref, h1, h2, h2'⟩ := own a ha
    obtain ⟨cs', ref', h3, h4, h4'⟩ := own b hb
    have := Asm.same_name hd h1 h3 e
    injection this with _ _ e3
    show QId.qualified (some a.targetSchema) a.targetTable = QId.qualified (some b.targetSchema) b.targetTable
    rw [h2, h4, h2', h4', e3]

/-- The rows of Oracle about foreign keys. -/
def oraForeign (T : OraTable) : List ForeignRow := (T.constraints.filter (fun r => r.kind = 'R')).map OraConstraintRow.foreign

theorem ora_filter (T : OraTable) (n : Text) :
    (oraForeign T).filter (fun x => x.name = n) = (T.constraints.filter (fun r => r.kind = 'R' ∧ r.name = n)).map OraConstraintRow.foreign := by
  unfold oraForeign
  rw [filter_map, List.filter_filter]
  congr 1
  apply List.filter_congr
  intro x _
  show (decide (x.name = n) && decide (x.kind = 'R')) = decide (x.kind = 'R' ∧ x.name = n)
  rw [Bool.and_comm, Bool.decide_and]

theorem ora_told {expr : SqlType → Text → Text} {order : Constraint → List Text} (ho : Ordered order) {s : OraServer} {tb : Table}
    (h : Ora.Has expr order s tb) {c : Constraint} (hc : c ∈ tb.constraints.items) :
    Asm.Told (oraForeign (s.table tb.name.localId)) c ↔ Ora.SettledConstraint c := by
  cases c with
  | unique => exact Iff.rfl
  | discriminated => exact Iff.rfl
  | check => exact Iff.rfl
  | foreign n cs r =>
    have hp := (h.foreign _ hc).map OraConstraintRow.foreign
    rw [show (Constraint.foreign n cs r).name = n from rfl, ← ora_filter] at hp
    have hlen := hp.length_eq
    have e : (Ora.foreignRows order (.foreign n cs r)).map OraConstraintRow.foreign =
        cs.flatMap (fun s => (order (.foreign n cs r)).map (fun c => ⟨n, s, splitComposite r.table.localId, c⟩)) := by
      show (cs.flatMap _).map _ = _
      rw [List.map_flatMap]
      congr 1
      funext x
      rw [List.map_map]
      rfl
    rw [e] at hp hlen
    rw [List.length_flatMap] at hlen
    simp only [List.length_map, List.map_const', List.sum_replicate_nat] at hlen
    have hol := (ho n cs r).length_eq
    unfold Asm.Told Ora.SettledConstraint
    constructor
    · rintro ⟨h1, h2, h3, h4⟩
      have l2 := congrArg List.length h2
      have l3 := congrArg List.length h3
      rw [List.length_map] at l2 l3
      have hpos : 0 < ((oraForeign (s.table tb.name.localId)).filter (fun x => x.name = n)).length := List.length_pos_iff.2 h1
      have k1 : cs.length = 1 ∧ r.columns.length = 1 := by
        have e1 : cs.length * (order (.foreign n cs r)).length = cs.length * 1 := by omega
        have e2 : cs.length * (order (.foreign n cs r)).length = 1 * (order (.foreign n cs r)).length := by omega
        have := Nat.eq_of_mul_eq_mul_left (by omega) e1
        have := Nat.eq_of_mul_eq_mul_right (by omega) e2
        omega
      refine ⟨k1.1, k1.2, ?_⟩
      rw [← split_iff]
      cases hfl : (oraForeign (s.table tb.name.localId)).filter (fun x => x.name = n) with
      | nil => exact absurd hfl h1
      | cons x l =>
        have hx : x ∈ (oraForeign (s.table tb.name.localId)).filter (fun x => x.name = n) := by rw [hfl]; exact List.mem_cons_self
        have hx' := hp.mem_iff.1 hx
        obtain ⟨a, _, ha⟩ := List.mem_flatMap.1 hx'
        obtain ⟨b, _, rfl⟩ := List.mem_map.1 ha
        exact h4 _ (List.mem_filter.1 hx).1 rfl
    · rintro ⟨h1, h2, h3⟩
      rw [← split_iff] at h3
      obtain ⟨a, rfl⟩ := List.length_eq_one_iff.1 h1
      obtain ⟨b, hb⟩ := List.length_eq_one_iff.1 h2
      have hob : order (.foreign n [a] r) = [b] := by
        have := ho n [a] r
        rw [hb] at this
        exact List.perm_singleton.1 this
      rw [hob, h3] at hp
      have hp : ((oraForeign (s.table tb.name.localId)).filter (fun x => x.name = n)).Perm [⟨n, a, r.table, b⟩] := hp
      have hp := List.perm_singleton.1 hp
      dsimp only
      rw [hp, hb]
      refine ⟨by simp, rfl, rfl, ?_⟩
      intro x hx hn
      have : x ∈ (oraForeign (s.table tb.name.localId)).filter (fun x => x.name = n) := List.mem_filter.2 ⟨hx, decide_eq_true hn⟩
      rw [hp] at this
      rw [List.mem_singleton.1 this]

theorem ora_keys {expr : SqlType → Text → Text} {order : Constraint → List Text} {s : OraServer} {tb : Table} (hd : Distinct tb.constraints)
    (h : Ora.Has expr order s tb) : Asm.Keys (oraForeign (s.table tb.name.localId)) tb := by
  have own : ∀ r ∈ (s.table tb.name.localId).constraints, r.kind = 'R' →
      ∃ cs ref, Constraint.foreign r.name cs ref ∈ tb.constraints.items ∧ r.targetTable = ref.table.localId := by
    intro r hr hk
    obtain ⟨c, hc, hrc⟩ := h.noOther r hr hk
    cases c with
    | foreign n cs ref =>
      obtain ⟨x, _, hx⟩ := List.mem_flatMap.1 hrc
      obtain ⟨p, _, rfl⟩ := List.mem_map.1 hx
      exact ⟨cs, ref, hc, rfl⟩
    | _ => cases hrc
  constructor
  · intro r hr
    obtain ⟨a, ha, rfl⟩ := List.mem_map.1 hr
    obtain ⟨ha, hk⟩ := List.mem_filter.1 ha
    obtain ⟨cs, ref, h1, _⟩ := own a ha (by simpa using hk)
    exact ⟨cs, ref, h1⟩
  · intro x hx y hy e
    obtain ⟨a, ha, rfl⟩ := List.mem_map.1 hx
    obtain ⟨b, hb, rfl⟩ := List.mem_map.1 hy
    obtain ⟨ha, ka⟩ := List.mem_filter.1 ha
    obtain ⟨hb, kb⟩ := List.mem_filter.1 hb
    obtain ⟨cs, ref, h1, h2⟩ := own a ha (by simpa using ka)
    obtain ⟨cs', ref', h3, h4⟩ := own b hb (by simpa using kb)
    have := Asm.same_name hd h1 h3 e
    injection this with _ _ e3
    show splitComposite a.targetTable = splitComposite b.targetTable
    rw [h2, h4, e3]

theorem my_short (tb : Table) (found : Table) (h : found.description = nonEmpty (My.comment tb.description)) :
    found.shortDescription = tb.shortDescription ↔ ∀ s, tb.description = some s → line s ≠ [] := by
  unfold Table.shortDescription
  rw [h, nonEmpty_eq]
  cases hd : tb.description with
  | none =>
    constructor
    · intro _ s hs; cases hs
    · intro _; rfl
  | some s =>
    show (if line s = [] then none else some (line s)).map firstLine = some (line s) ↔ _
    by_cases he : line s = []
    · rw [if_pos he]
      constructor
      · intro h; cases h
      · intro h; exact absurd he (h s rfl)
    · rw [if_neg he]
      constructor
      · rintro _ s' e; cases e; exact he
      · intro _
        show some (firstLine (line s)) = _
        rw [line_line]

end C52

open C52

/-- MySQL: exactly which tables need no change if the server has them. -/
theorem C52_mysql_table {expr : SqlType → Text → Text} {generated : Text → Bool} {db : Text} {s : MyServer} {tb : Table} (hc : Distinct tb.columns)
    (hk : Distinct tb.constraints) (hs : s.constraints = true) (h : My.Has expr generated db s tb) :
    (∃ found, myReadTable s tb.name = .ok found ∧ found.primaryKey = tb.primaryKey ∧ mutateTable .mysql found tb = .ok []) ↔ My.Settled expr tb := by
  have hcols := Asm.read_rows (f := myReadColumn) (g := My.columnRow expr generated) (P := My.SettledColumn expr) (d := .mysql) hc h.columns
    (fun a _ r hr => my_column hr) (fun a _ r b hr hb => my_name hr hb)
  have hread : ∀ found, myReadTable s tb.name = .ok found ↔ ∃ cols, (s.table tb.name.localId).columns.mapM myReadColumn = .ok cols ∧
      assembleTable tb.name cols (s.table tb.name.localId).primary (s.table tb.name.localId).unique
        ((s.table tb.name.localId).foreign.map AnsiForeignRow.split) (nonEmpty (My.comment tb.description)) = .ok found := by
    intro found
    unfold myReadTable
    simp only [h.count, hs, h.comment, firstRow, if_true]
    cases (s.table tb.name.localId).columns.mapM myReadColumn with
    | error e => simp [bind, Except.bind, pure, Except.pure]
    | ok cols => simp [bind, Except.bind, pure, Except.pure]
  have hfin : ∀ {cols found}, (s.table tb.name.localId).columns.mapM myReadColumn = .ok cols →
      assembleTable tb.name cols (s.table tb.name.localId).primary (s.table tb.name.localId).unique
        ((s.table tb.name.localId).foreign.map AnsiForeignRow.split) (nonEmpty (My.comment tb.description)) = .ok found →
      (found.primaryKey = tb.primaryKey ∧ mutateTable .mysql found tb = .ok [] ↔
        (∀ k, OptRel (Set.Idle .mysql) ((ODict.ofList cols).get k) (tb.columns.get k)) ∧ (∀ c ∈ tb.constraints.items, My.SettledConstraint c) ∧
          ∀ s, tb.description = some s → line s ≠ []) := by
    intro cols found _ hf
    obtain ⟨found', e, a1, a2, a3, a4, a5, a6, a7, a8⟩ := Asm.assemble hk h.unique (my_keys hk h.foreign) tb.name cols
      (s.table tb.name.localId).primary (nonEmpty (My.comment tb.description))
    rw [e] at hf
    cases hf
    rw [Set.silent_iff (by decide) (by rw [a2]; exact ODict.ofList_inv _) a6 hc hk a7, a8, a2]
    constructor
    · rintro ⟨_, _, b1, b2, b3⟩
      exact ⟨b1, fun c hc => (my_told h.foreign hc).1 (b2 c hc), (my_short tb found a3).1 (b3 rfl)⟩
    · rintro ⟨b1, b2, b3⟩
      exact ⟨a4.trans h.primary, a1, b1, fun c hc => (my_told h.foreign hc).2 (b2 c hc), fun _ => (my_short tb found a3).2 b3⟩
  constructor
  · rintro ⟨found, hr, hm⟩
    obtain ⟨cols, e1, e2⟩ := (hread found).1 hr
    obtain ⟨b1, b2, b3⟩ := (hfin e1 e2).1 hm
    exact ⟨hcols.1 ⟨cols, e1, b1⟩, b2, b3⟩
  · rintro ⟨b1, b2, b3⟩
    obtain ⟨cols, e1, b1⟩ := hcols.2 b1
    obtain ⟨found, e2, _⟩ := Asm.assemble hk h.unique (my_keys hk h.foreign) tb.name cols
      (s.table tb.name.localId).primary (nonEmpty (My.comment tb.description))
    exact ⟨found, (hread found).2 ⟨cols, e1, e2⟩, (hfin e1 e2).2 ⟨b1, b2, b3⟩⟩

/-- SQL Server: exactly which tables need no change if the server has them. -/
theorem C52_mssql_table {expr : SqlType → Text → Text} {current : Text} {order : Constraint → List Text} (ho : Ordered order) {s : MsServer}
    {ns : Option Text} {id : Text} {tb : Table} (hn : tb.name = .qualified ns id) (hc : Distinct tb.columns) (hk : Distinct tb.constraints)
    (hs : s.constraints = true) (h : Ms.Has expr current order s ns tb) :
    (∃ found, msReadTable s ns id = .ok found ∧ found.primaryKey = tb.primaryKey ∧ mutateTable .mssql found tb = .ok []) ↔ Ms.Settled expr order tb := by
  have hl : tb.name.localId = id := by rw [hn]; rfl
  have hcount := h.count
  have hrows := h.columns
  have hident := h.identity
  have hdefs := h.defaults
  have hprim := h.primary
  have huniq := h.unique
  have hfor := h.foreign
  rw [hl] at hcount hrows hident hdefs hprim huniq hfor
  have uniq : ∀ a ∈ tb.columns.items, ∀ b ∈ tb.columns.items, a.name = b.name → a = b := by
    intro a ha b hb e
    have e1 := ODict.get_eq_of_mem (d := tb.columns) hc ha
    have e2 := ODict.get_eq_of_mem (d := tb.columns) hc hb
    have e : key a = key b := e
    rw [e, e2] at e1
    exact (Option.some.inj e1).symm
  have hcols := Asm.read_rows (f := fun r => (ansiReadColumn .mssql r).map (msAmend (s.table ns id))) (g := Ms.columnRow expr)
    (P := Ms.SettledColumn expr) (d := .mssql) hc hrows
    (fun a ha r hr => ms_column hr
      (by
        rw [hident]
        constructor
        · rintro ⟨c, h1, h2, h3⟩
          rw [← uniq c h1 a ha h2]; exact h3
        · intro h3
          exact ⟨a, ha, rfl, h3⟩)
      (dict_get (by
        intro d
        rw [hdefs]
        constructor
        · rintro ⟨c, h1, h2, h3⟩
          rw [← uniq c h1 a ha h2]; exact h3
        · intro h3
          exact ⟨a, ha, rfl, h3⟩)))
    (fun a _ r b hr hb => ms_name hr hb)
  have hread : ∀ found, msReadTable s ns id = .ok found ↔
      ∃ cols, (s.table ns id).columns.mapM (fun r => (ansiReadColumn .mssql r).map (msAmend (s.table ns id))) = .ok cols ∧
        assembleTable tb.name cols (s.table ns id).primary (s.table ns id).unique ((s.table ns id).foreign.map AnsiForeignRow.qualified) none = .ok found := by
    intro found
    unfold msReadTable
    simp only [mapM_amend]
    simp only [hcount, hs, if_true, hn]
    cases (s.table ns id).columns.mapM (ansiReadColumn .mssql) with
    | error e => simp [bind, Except.bind]
    | ok cols => simp [bind, Except.bind]
  have hfin : ∀ {cols found},
      assembleTable tb.name cols (s.table ns id).primary (s.table ns id).unique ((s.table ns id).foreign.map AnsiForeignRow.qualified) none = .ok found →
      (found.primaryKey = tb.primaryKey ∧ mutateTable .mssql found tb = .ok [] ↔
        (∀ k, OptRel (Set.Idle .mssql) ((ODict.ofList cols).get k) (tb.columns.get k)) ∧
          ∀ c ∈ tb.constraints.items, Ms.SettledConstraint order c) := by
    intro cols found hf
    obtain ⟨found', e, a1, a2, a3, a4, a5, a6, a7, a8⟩ := Asm.assemble hk huniq (ms_keys hk hfor) tb.name cols (s.table ns id).primary none
    rw [e] at hf
    cases hf
    rw [Set.silent_iff (by decide) (by rw [a2]; exact ODict.ofList_inv _) a6 hc hk a7, a8, a2]
    constructor
    · rintro ⟨_, _, b1, b2, _⟩
      exact ⟨b1, fun c hc => (ms_told ho hfor hc).1 (b2 c hc)⟩
    · rintro ⟨b1, b2⟩
      exact ⟨a4.trans hprim, a1, b1, fun c hc => (ms_told ho hfor hc).2 (b2 c hc), fun e => by cases e⟩
  constructor
  · rintro ⟨found, hr, hm⟩
    obtain ⟨cols, e1, e2⟩ := (hread found).1 hr
    obtain ⟨b1, b2⟩ := (hfin e2).1 hm
    exact ⟨hcols.1 ⟨cols, e1, b1⟩, b2⟩
  · rintro ⟨b1, b2⟩
    obtain ⟨cols, e1, b1⟩ := hcols.2 b1
    obtain ⟨found, e2, _⟩ := Asm.assemble hk huniq (ms_keys hk hfor) tb.name cols (s.table ns id).primary none
    exact ⟨found, (hread found).2 ⟨cols, e1, e2⟩, (hfin e2).2 ⟨b1, b2⟩⟩

/-- Oracle: exactly which tables need no change if the server has them. -/
theorem C52_oracle_table {expr : SqlType → Text → Text} {order : Constraint → List Text} (ho : Ordered order) {s : OraServer} {tb : Table}
    (hc : Distinct tb.columns) (hk : Distinct tb.constraints) (h : Ora.Has expr order s tb) :
    (∃ found, oraReadTable s tb.name = .ok found ∧ found.primaryKey = tb.primaryKey ∧ mutateTable .oracle found tb = .ok []) ↔ Ora.Settled expr tb := by
  have hcols := Asm.read_rows (f := oraReadColumn) (g := Ora.columnRow expr) (P := Ora.SettledColumn expr) (d := .oracle) hc h.columns
    (fun a _ r hr => ora_column hr) (fun a _ r b hr hb => ora_name hr hb)
  have hread : ∀ found, oraReadTable s tb.name = .ok found ↔ ∃ cols, (s.table tb.name.localId).columns.mapM oraReadColumn = .ok cols ∧
      assembleTable tb.name cols (((s.table tb.name.localId).constraints.filter (fun r => r.kind = 'P')).map OraConstraintRow.source)
        (((s.table tb.name.localId).constraints.filter (fun r => r.kind = 'U')).map (fun r => (r.name, r.source)))
        (oraForeign (s.table tb.name.localId)) ((s.table tb.name.localId).comments.head?.getD none) = .ok found := by
    intro found
    unfold oraReadTable
    exact Conv.bind_ok
  have hfin : ∀ {cols found},
      assembleTable tb.name cols (((s.table tb.name.localId).constraints.filter (fun r => r.kind = 'P')).map OraConstraintRow.source)
        (((s.table tb.name.localId).constraints.filter (fun r => r.kind = 'U')).map (fun r => (r.name, r.source)))
        (oraForeign (s.table tb.name.localId)) ((s.table tb.name.localId).comments.head?.getD none) = .ok found →
      (found.primaryKey = tb.primaryKey ∧ mutateTable .oracle found tb = .ok [] ↔
        (∀ k, OptRel (Set.Idle .oracle) ((ODict.ofList cols).get k) (tb.columns.get k)) ∧ ∀ c ∈ tb.constraints.items, Ora.SettledConstraint c) := by
    intro cols found hf
    obtain ⟨found', e, a1, a2, a3, a4, a5, a6, a7, a8⟩ := Asm.assemble hk h.unique (ora_keys hk h) tb.name cols
      (((s.table tb.name.localId).constraints.filter (fun r => r.kind = 'P')).map OraConstraintRow.source)
      ((s.table tb.name.localId).comments.head?.getD none)
    rw [e] at hf
    cases hf
    rw [Set.silent_iff (by decide) (by rw [a2]; exact ODict.ofList_inv _) a6 hc hk a7, a8, a2]
    constructor
    · rintro ⟨_, _, b1, b2, _⟩
      exact ⟨b1, fun c hc => (ora_told ho h hc).1 (b2 c hc)⟩
    · rintro ⟨b1, b2⟩
      exact ⟨a4.trans h.primary, a1, b1, fun c hc => (ora_told ho h hc).2 (b2 c hc), fun e => by cases e⟩
  constructor
  · rintro ⟨found, hr, hm⟩
    obtain ⟨cols, e1, e2⟩ := (hread found).1 hr
    obtain ⟨b1, b2⟩ := (hfin e2).1 hm
    exact ⟨hcols.1 ⟨cols, e1, b1⟩, b2⟩
  · rintro ⟨b1, b2⟩
    obtain ⟨cols, e1, b1⟩ := hcols.2 b1
    obtain ⟨found, e2, _⟩ := Asm.assemble hk h.unique (ora_keys hk h) tb.name cols
      (((s.table tb.name.localId).constraints.filter (fun r => r.kind = 'P')).map OraConstraintRow.source)
      ((s.table tb.name.localId).comments.head?.getD none)
    exact ⟨found, (hread found).2 ⟨cols, e1, e2⟩, (hfin e2).2 ⟨b1, b2⟩⟩

namespace C52

theorem assemble_inv {name : QId} {cols : List Column} {pk : List Text} {u : List (Text × Text)} {F : List ForeignRow} {desc : Option Text} {f : Table}
    (h : assembleTable name cols pk u F desc = .ok f) :
    f.name = name ∧ f.primaryKey = pk ∧ Distinct f.columns ∧ Distinct f.constraints := by
  unfold assembleTable at h
  obtain ⟨links, _, h⟩ := Conv.bind_ok.1 h
  have h := Conv.pure_ok.1 h
  subst h
  exact ⟨rfl, rfl, ODict.ofList_inv _, ODict.ofList_inv _⟩

theorem first_inv {name : QId} {cols : List Column} {f : Table} (h : tableByFirst name cols = .ok f) :
    f.name = name ∧ Distinct f.columns ∧ Distinct f.constraints := by
  unfold tableByFirst at h
  cases cols with
  | nil => cases h
  | cons c cols =>
    cases h
    exact ⟨rfl, ODict.ofList_inv _, ODict.ofList_inv _⟩

theorem my_inv {s : MyServer} {q : QId} {f : Table} (h : myReadTable s q = .ok f) :
    f.name = q ∧ Distinct f.columns ∧ Distinct f.constraints ∧ (s.constraints = true → f.primaryKey = (s.table q.localId).primary) := by
  unfold myReadTable at h
  dsimp only at h
  simp only [bind, Except.bind] at h
  split at h
  · cases h
  · split at h
    · cases h
    · split at h
      · split at h
        · cases h
        · obtain ⟨h1, h2, h3, h4⟩ := assemble_inv h
          exact ⟨h1, h3, h4, fun _ => h2⟩
      · rename_i hc
        obtain ⟨h1, h2, h3⟩ := first_inv h
        exact ⟨h1, h2, h3, fun e => absurd e hc⟩

theorem ora_inv {s : OraServer} {q : QId} {f : Table} (h : oraReadTable s q = .ok f) :
    f.name = q ∧ Distinct f.columns ∧ Distinct f.constraints ∧
      f.primaryKey = ((s.table q.localId).constraints.filter (fun r => r.kind = 'P')).map OraConstraintRow.source := by
  unfold oraReadTable at h
  obtain ⟨cols, _, h⟩ := Conv.bind_ok.1 h
  obtain ⟨h1, h2, h3, h4⟩ := assemble_inv h
  exact ⟨h1, h3, h4, h2⟩

theorem named {ns : Option Text} {nm : Text} (h : Belongs ns nm) : (prefixedName ns nm).localId = nm := by
  cases ns with
  | none => rfl
  | some n =>
    obtain ⟨r, rfl⟩ := h
    show n ++ t "__" ++ removePrefix (n ++ t "__") (n ++ t "__" ++ r) = _
    unfold removePrefix
    rw [if_pos (List.isPrefixOf_iff_prefix.2 (List.prefix_append _ _)), List.drop_left]

theorem named_back (ns : Option Text) (id : Text) : prefixedName ns (QId.prefixed ns id).localId = .prefixed ns id := by
  cases ns with
  | none => rfl
  | some n =>
    show QId.prefixed (some n) (removePrefix (n ++ t "__") (n ++ t "__" ++ id)) = _
    unfold removePrefix
    rw [if_pos (List.isPrefixOf_iff_prefix.2 (List.prefix_append _ _)), List.drop_left]

theorem belongs_own (n id : Text) : Belongs (some n) (QId.prefixed (some n) id).localId := List.prefix_append _ _

theorem composite_local (nm : Text) : (splitComposite nm).localId = nm := by
  unfold splitComposite
  cases h : splitDouble nm with
  | none => rfl
  | some p =>
    obtain ⟨a, b⟩ := p
    exact ((split_some nm a b).1 h).1.symm

/-- The names of the tables that are looked at. -/
def mySel (s : MyServer) (k : Text) : List Text :=
  match nsOf k with
  | some n => s.like (dropSchemaPattern n)
  | none => s.others

def oraSel (s : OraServer) (k : Text) : List Text :=
  match nsOf k with
  | some n => s.like (dropSchemaPattern n)
  | none => s.others

theorem my_explore (s : MyServer) (k : Text) :
    myReadNamespace s (nsOf k) = Flat.explore (mySel s) (fun k nm => myReadTable s (prefixedName (nsOf k) nm)) k := rfl

theorem ora_explore (s : OraServer) (k : Text) :
    oraReadNamespace s (nsOf k) = Flat.explore (oraSel s) (fun _ nm => oraReadTable s (splitComposite nm)) k := rfl

theorem escape_head : (t " ESCAPE '~'").head? ≠ some '\'' := by decide +kernel

theorem nsOf_some {k n : Text} (h : nsOf k = some n) : n = k := by
  unfold nsOf at h
  split at h
  · cases h
  · exact (Option.some.inj h).symm

theorem my_sel {stored : List Text} {s : MyServer} (hs : My.Server stored s) {k : Text} (hk : '\\' ∉ k) :
    (mySel s k).Nodup ∧ ∀ nm, nm ∈ mySel s k ↔ nm ∈ stored ∧ Belongs (nsOf k) nm := by
  unfold mySel
  cases hn : nsOf k with
  | none => exact ⟨hs.othersNodup, hs.others⟩
  | some n =>
    have := nsOf_some hn
    subst this
    obtain ⟨pat, h1, h2⟩ := C17_mysql_plain n (t " ESCAPE '~'") hk escape_head
    obtain ⟨h3, h4⟩ := hs.like _ _ h1
    refine ⟨h3, fun nm => ?_⟩
    show nm ∈ s.like (dropSchemaPattern n) ↔ _
    rw [h4, h2]
    exact Iff.rfl

theorem ora_sel {stored : List Text} {s : OraServer} (hs : Ora.Server stored s) (k : Text) :
    (oraSel s k).Nodup ∧ ∀ nm, nm ∈ oraSel s k ↔ nm ∈ stored ∧ '$' ∉ nm ∧ Belongs (nsOf k) nm := by
  unfold oraSel
  cases hn : nsOf k with
  | none => exact ⟨hs.othersNodup, hs.others⟩
  | some n =>
    obtain ⟨pat, h1, h2⟩ := C17_drop_schema_matches_prefix n (t " ESCAPE '~'") escape_head
    obtain ⟨h3, h4⟩ := hs.like _ _ h1
    refine ⟨h3, fun nm => ?_⟩
    show nm ∈ s.like (dropSchemaPattern n) ↔ _
    rw [h4, h2, List.mem_filter]
    simp only [decide_eq_true_eq, and_assoc]
    exact Iff.rfl

end C52

/-- MySQL: exactly which databases need no change. -/
theorem C52_mysql_settled {v : Env} (ht : Sorts v.topo) (hone : ∀ p, ∃ l, v.topo [p] = .ok l) (hd : v.dialect = .mysql) {db : Db} {s : MyServer}
    (hx : ∀ k, v.explore db k = myReadNamespace s (nsOf k)) {stored : List Text} (hs : My.Server stored s) {expr : SqlType → Text → Text}
    {generated : Text → Bool} {database : Text} {n : Namespace} (hn : TablesOnly n) {names : List Text} (hne : names ≠ [])
    (hplain : ∀ k ∈ names, '\\' ∉ k) (hdep : Housed names stored n) (has : ∀ tb ∈ n.tables.items, My.Has expr generated database s tb)
    (apart : ∀ k ∈ names, ∀ k' ∈ names, ∀ nm ∈ stored, Belongs (nsOf k) nm → Belongs (nsOf k') nm → k = k') :
    (∃ found, discovered v db names = (found, true) ∧ mutateCatalog v.topo v.dialect {} found ⟨⟨[n]⟩⟩ = .ok []) ↔
      (∀ tb ∈ n.tables.items, My.Settled expr tb ∧ ∀ id, tb.name = .prefixed none id → ¬ t "__" <:+: id) ∧
      ∀ nm ∈ stored, (∃ k ∈ names, Belongs (nsOf k) nm) → ∃ tb ∈ n.tables.items, tb.name.localId = nm := by
  have hexp : v.explore db = Flat.explore (mySel s) (fun k nm => myReadTable s (prefixedName (nsOf k) nm)) := by
    funext k
    rw [hx k, my_explore]
  unfold discovered
  rw [hexp, hd, Flat.settled ht hone hne (fun k hk => (my_sel hs (hplain k hk)).1)
    (fun k hk nm hm f hf => by
      obtain ⟨h1, h2, h3, _⟩ := my_inv hf
      refine ⟨?_, h2, h3⟩
      rw [h1]
      exact named (((my_sel hs (hplain k hk)).2 nm).1 hm).2)
    (fun k hk k' hk' nm hm hm' => by
      obtain ⟨h1, h2⟩ := ((my_sel hs (hplain k hk)).2 nm).1 hm
      obtain ⟨_, h3⟩ := ((my_sel hs (hplain k' hk')).2 nm).1 hm'
      rw [apart k hk k' hk' nm h1 h2 h3])
    ⟨hn.name, hn.enums, hn.structs, hn.tables⟩]
  constructor
  · rintro ⟨g1, g2⟩
    refine ⟨fun tb htb => ?_, ?_⟩
    · obtain ⟨k, hk, hm, f, hf, hidle⟩ := g1 tb htb
      have hname := Set.table_name hidle
      have hq : prefixedName (nsOf k) tb.name.localId = tb.name := (my_inv hf).1.symm.trans hname
      have hf : myReadTable s tb.name = .ok f := by
        have hf : myReadTable s (prefixedName (nsOf k) tb.name.localId) = .ok f := hf
        rw [hq] at hf; exact hf
      refine ⟨(C52_mysql_table (hn.columns tb htb) (hn.constraints tb htb) hs.constraints (has tb htb)).1
        ⟨f, hf, ((my_inv hf).2.2.2 hs.constraints).trans (has tb htb).primary, hidle⟩, ?_⟩
      intro id hid
      have hb := (((my_sel hs (hplain k hk)).2 _).1 hm).2
      rw [hid] at hq hb
      cases hns : nsOf k with
      | none => rw [hns] at hb; exact hb
      | some n => rw [hns] at hq; cases hq
    · rintro nm hnm ⟨k, hk, hb⟩
      exact g2 k hk nm (((my_sel hs (hplain k hk)).2 nm).2 ⟨hnm, hb⟩)
  · rintro ⟨g1, g2⟩
    refine ⟨fun tb htb => ?_, ?_⟩
    · obtain ⟨hst, k, hk, id, hid⟩ := hdep tb htb
      obtain ⟨g3, g4⟩ := g1 tb htb
      have hb : Belongs (nsOf k) tb.name.localId := by
        rw [hid]
        cases hns : nsOf k with
        | none => rw [hns] at hid; exact g4 id hid
        | some n => exact belongs_own n id
      obtain ⟨f, f1, _, f2⟩ := (C52_mysql_table (hn.columns tb htb) (hn.constraints tb htb) hs.constraints (has tb htb)).2 g3
      refine ⟨k, hk, ((my_sel hs (hplain k hk)).2 _).2 ⟨hst, hb⟩, f, ?_, f2⟩
      show myReadTable s (prefixedName (nsOf k) tb.name.localId) = .ok f
      rw [show prefixedName (nsOf k) tb.name.localId = tb.name by rw [hid]; exact named_back _ _]
      exact f1
    · intro k hk nm hm
      obtain ⟨h1, h2⟩ := ((my_sel hs (hplain k hk)).2 nm).1 hm
      exact g2 nm h1 ⟨k, hk, h2⟩

/-- Oracle: exactly which databases need no change. -/
theorem C52_oracle_settled {v : Env} (ht : Sorts v.topo) (hone : ∀ p, ∃ l, v.topo [p] = .ok l) (hd : v.dialect = .oracle) {db : Db} {s : OraServer}
    (hx : ∀ k, v.explore db k = oraReadNamespace s (nsOf k)) {stored : List Text} (hs : Ora.Server stored s) {expr : SqlType → Text → Text}
    {order : Constraint → List Text} (ho : Ordered order) {n : Namespace} (hn : TablesOnly n) {names : List Text} (hne : names ≠ [])
    (hdep : Housed names stored n) (has : ∀ tb ∈ n.tables.items, Ora.Has expr order s tb) :
    (∃ found, discovered v db names = (found, true) ∧ mutateCatalog v.topo v.dialect {} found ⟨⟨[n]⟩⟩ = .ok []) ↔
      (∀ tb ∈ n.tables.items, Ora.Settled expr tb ∧ Separable tb.name ∧ '$' ∉ tb.name.localId) ∧
      ∀ nm ∈ stored, '$' ∉ nm → (∃ k ∈ names, Belongs (nsOf k) nm) → ∃ tb ∈ n.tables.items, tb.name.localId = nm := by
  have hexp : v.explore db = Flat.explore (oraSel s) (fun _ nm => oraReadTable s (splitComposite nm)) := by
    funext k
    rw [hx k, ora_explore]
  unfold discovered
  rw [hexp, hd, Flat.settled ht hone hne (fun k hk => (ora_sel hs k).1)
    (fun k hk nm hm f hf => by
      obtain ⟨h1, h2, h3, _⟩ := ora_inv hf
      refine ⟨?_, h2, h3⟩
      rw [h1]
      exact composite_local nm)
    (fun k hk k' hk' nm hm hm' => rfl)
    ⟨hn.name, hn.enums, hn.structs, hn.tables⟩]
  constructor
  · rintro ⟨g1, g2⟩
    refine ⟨fun tb htb => ?_, ?_⟩
    · obtain ⟨k, hk, hm, f, hf, hidle⟩ := g1 tb htb
      have hname := Set.table_name hidle
      have hq : splitComposite tb.name.localId = tb.name := (ora_inv hf).1.symm.trans hname
      rw [hq] at hf
      refine ⟨(C52_oracle_table ho (hn.columns tb htb) (hn.constraints tb htb) (has tb htb)).1
        ⟨f, hf, (ora_inv hf).2.2.2.trans (has tb htb).primary, hidle⟩, (split_iff _).1 hq, (((ora_sel hs k).2 _).1 hm).2.1⟩
    · rintro nm hnm hdollar ⟨k, hk, hb⟩
      exact g2 k hk nm (((ora_sel hs k).2 nm).2 ⟨hnm, hdollar, hb⟩)
  · rintro ⟨g1, g2⟩
    refine ⟨fun tb htb => ?_, ?_⟩
    · obtain ⟨hst, k, hk, id, hid⟩ := hdep tb htb
      obtain ⟨g3, g4, g5⟩ := g1 tb htb
      have hb : Belongs (nsOf k) tb.name.localId := by
        rw [hid] at g4 ⊢
        cases hns : nsOf k with
        | none => rw [hns] at g4; exact g4
        | some n => exact belongs_own n id
      obtain ⟨f, f1, _, f2⟩ := (C52_oracle_table ho (hn.columns tb htb) (hn.constraints tb htb) (has tb htb)).2 g3
      refine ⟨k, hk, ((ora_sel hs k).2 _).2 ⟨hst, g5, hb⟩, f, ?_, f2⟩
      rw [(split_iff _).2 g4]
      exact f1
    · intro k hk nm hm
      obtain ⟨h1, h2, h3⟩ := ((ora_sel hs k).2 nm).1 hm
      exact g2 nm h1 h2 ⟨k, hk, h3⟩

namespace C52

theorem ms_inv {s : MsServer} {ns : Option Text} {id : Text} {f : Table} (h : msReadTable s ns id = .ok f) :
    f.name = .qualified ns id ∧ Distinct f.columns ∧ Distinct f.constraints ∧ (s.constraints = true → f.primaryKey = (s.table ns id).primary) := by
  unfold msReadTable at h
  dsimp only at h
  simp only [bind, Except.bind] at h
  split at h
  · cases h
  · split at h
    · cases h
    · split at h
      · obtain ⟨h1, h2, h3, h4⟩ := assemble_inv h
        exact ⟨h1, h3, h4, fun _ => h2⟩
      · rename_i hc
        obtain ⟨h1, h2, h3⟩ := first_inv h
        exact ⟨h1, h2, h3, fun e => absurd e hc⟩

theorem nsOf_name (k : Text) : (nsOf k).getD [] = k := by
  unfold nsOf
  split
  · rename_i h; rw [h]; rfl
  · rfl

end C52

/-- SQL Server: exactly which databases need no change. -/
theorem C52_mssql_settled {v : Env} (ht : Sorts v.topo) (hd : v.dialect = .mssql) {db : Db} {s : MsServer}
    (hx : ∀ k, v.explore db k = msReadNamespace s (nsOf k)) {stored : Option Text → List Text} (hs : Ms.Server stored s) {expr : SqlType → Text → Text}
    {current : Text} {order : Constraint → List Text} (ho : Ordered order) {T : Catalog} (hT : SchemasOnly T) {names : List Text}
    (hn : ∀ k, k ∈ names ↔ ∃ n ∈ T.namespaces.items, n.name = k)
    (hstored : ∀ n ∈ T.namespaces.items, ∀ tb ∈ n.tables.items, tb.name.localId ∈ stored (nsOf n.name))
    (has : ∀ n ∈ T.namespaces.items, ∀ tb ∈ n.tables.items, Ms.Has expr current order s (nsOf n.name) tb)
    (sortT : ∃ T', T.sort v.topo = .ok T') (sortF : ∀ found, discovered v db names = (found, true) → ∃ F', found.sort v.topo = .ok F') :
    (∃ found, discovered v db names = (found, true) ∧ mutateCatalog v.topo v.dialect {} found T = .ok []) ↔
      ∀ n ∈ T.namespaces.items, (∀ tb ∈ n.tables.items, Ms.Settled expr order tb) ∧
        ∀ nm ∈ stored (nsOf n.name), ∃ tb ∈ n.tables.items, tb.name.localId = nm := by
  have hread : ∀ n ∈ T.namespaces.items, ∀ f, v.explore db n.name = .ok f ↔
      ∃ ts, (s.tables (nsOf n.name)).mapM (msReadTable s (nsOf n.name)) = .ok ts ∧ f = { name := n.name, tables := .ofList ts } := by
    intro n hm f
    have hne : (s.tables (nsOf n.name)).isEmpty = false := by
      cases ht : n.tables.items with
      | nil => exact absurd ht (hT.some n hm)
      | cons tb l =>
        have := (hs.tables _ _).2 (hstored n hm tb (by rw [ht]; exact List.mem_cons_self))
        cases hl : s.tables (nsOf n.name) with
        | nil => rw [hl] at this; cases this
        | cons => rfl
    rw [hx]
    unfold msReadNamespace
    rw [Conv.bind_ok]
    constructor
    · rintro ⟨ts, h1, h2⟩
      rw [hne] at h2
      have h2 := Conv.pure_ok.1 h2
      refine ⟨ts, h1, ?_⟩
      rw [← h2]
      show (⟨(nsOf n.name).getD [], _, _, _⟩ : Namespace) = _
      rw [nsOf_name]
    · rintro ⟨ts, h1, rfl⟩
      refine ⟨ts, h1, Conv.pure_ok.2 ?_⟩
      rw [hne]
      show (⟨(nsOf n.name).getD [], _, _, _⟩ : Namespace) = _
      rw [nsOf_name]
  have hkey : ∀ k ∈ names, ∀ f, v.explore db k = .ok f → f.name = k ∧ NsDistinct f := by
    intro k hk f hf
    obtain ⟨n, hm, rfl⟩ := (hn k).1 hk
    obtain ⟨ts, h1, rfl⟩ := (hread n hm f).1 hf
    refine ⟨rfl, List.nodup_nil, List.nodup_nil, ODict.ofList_inv _, (fun x hx => by cases hx), ?_, ?_⟩
    · intro x hx
      obtain ⟨y, _, hy⟩ := Conv.mapM_back h1 x (Conv.of_mem_ofList hx)
      exact (ms_inv hy).2.1
    · intro x hx
      obtain ⟨y, _, hy⟩ := Conv.mapM_back h1 x (Conv.of_mem_ofList hx)
      exact (ms_inv hy).2.2.1
  unfold discovered at sortF ⊢
  rw [hd, Qual.settled ht hT.distinct hn hkey sortT sortF]
  refine forall_congr' (fun n => forall_congr' (fun hm => ?_))
  have hdis := hT.distinct.each n hm
  have step : (∃ f, v.explore db n.name = .ok f ∧ mutateNamespace .mssql {} f n = .ok []) ↔
      ∃ ts, (s.tables (nsOf n.name)).mapM (msReadTable s (nsOf n.name)) = .ok ts ∧
        ∀ k, OptRel (fun x y => mutateTable .mssql x y = .ok []) ((ODict.ofList ts).get k) (n.tables.get k) := by
    have inner : ∀ ts, mutateNamespace .mssql {} { name := n.name, tables := .ofList ts } n = .ok [] ↔
        ∀ k, OptRel (fun x y => mutateTable .mssql x y = .ok []) ((ODict.ofList ts).get k) (n.tables.get k) := by
      intro ts
      rw [Set.namespace_iff (a := { name := n.name, tables := .ofList ts }) hdis.tables (ODict.ofList_inv _) rfl rfl (by rw [hT.enums n hm]) (by rw [hT.structs n hm])]
      exact ⟨fun h => h.2, fun h => ⟨rfl, h⟩⟩
    constructor
    · rintro ⟨f, h1, h2⟩
      obtain ⟨ts, h3, rfl⟩ := (hread n hm f).1 h1
      exact ⟨ts, h3, (inner ts).1 h2⟩
    · rintro ⟨ts, h3, h2⟩
      exact ⟨_, (hread n hm _).2 ⟨ts, h3, rfl⟩, (inner ts).2 h2⟩
  rw [step, Qual.tables_iff (hs.nodup _) (fun nm _ f hf => by rw [(ms_inv hf).1]; rfl) hdis.tables]
  have tab : ∀ tb ∈ n.tables.items, (∃ f, msReadTable s (nsOf n.name) tb.name.localId = .ok f ∧ mutateTable .mssql f tb = .ok []) ↔
      Ms.Settled expr order tb := by
    intro tb htb
    obtain ⟨id, hid⟩ := hT.named n hm tb htb
    have hl : tb.name.localId = id := by rw [hid]; rfl
    rw [← C52_mssql_table ho hid (hdis.columns tb htb) (hdis.constraints tb htb) hs.constraints (has n hm tb htb), hl]
    constructor
    · rintro ⟨f, h1, h2⟩
      refine ⟨f, h1, ?_, h2⟩
      rw [(ms_inv h1).2.2.2 hs.constraints, ← (has n hm tb htb).primary, hl]
    · rintro ⟨f, h1, _, h2⟩
      exact ⟨f, h1, h2⟩
  constructor
  · rintro ⟨g1, g2⟩
    exact ⟨fun tb htb => (tab tb htb).1 (g1 tb htb).2, fun nm hnm => g2 nm ((hs.tables _ _).2 hnm)⟩
  · rintro ⟨g1, g2⟩
    exact ⟨fun tb htb => ⟨(hs.tables _ _).2 (hstored n hm tb htb), (tab tb htb).2 (g1 tb htb)⟩, fun nm hnm => g2 nm ((hs.tables _ _).1 hnm)⟩

/-- A database that needs no change is not changed: nothing is executed, and what was found is what is believed. -/
theorem C52_not_changed {v : Env} {s s' : Session} {T : Catalog} {names : List Text} {atomic : Bool} {o : Outcome}
    (settled : ∃ found, discovered v s.db names = (found, true) ∧ mutateCatalog v.topo v.dialect {} found T = .ok [])
    (possible : ∃ script, mutateCatalog v.topo v.dialect {} ⟨⟨[]⟩⟩ T = .ok script) (h : Step v atomic s (.synchronize T names) s' o) :
    o = .returned ∧ s'.db = s.db ∧ discovered v s.db names = (s'.state, true) := by
  obtain ⟨found, h1, h2⟩ := settled
  obtain ⟨script, h3⟩ := possible
  cases h with
  | syncTarget e => rw [h3] at e; cases e
  | syncDiscover _ e => rw [h1] at e; cases e
  | syncRaised _ e1 e2 =>
    rw [h1] at e1
    cases e1
    rw [h2] at e2
    cases e2
  | syncNothing _ e1 e2 => exact ⟨rfl, rfl, e1⟩
  | syncExecuted _ e1 e2 e3 e4 =>
    rw [h1] at e1
    cases e1
    rw [h2] at e2
    cases e2
    exact absurd rfl e3

/-- MySQL, a finding: if a stored table belongs to two of the namespaces (such as `a__b__t`, to `a` and to `a__b`), they cannot be synchronized. -/
theorem C52_mysql_overlap_refused {v : Env} {db : Db} {s : MyServer} (hx : ∀ k, v.explore db k = myReadNamespace s (nsOf k)) {stored : List Text}
    (hs : My.Server stored s) {names : List Text} (hplain : ∀ k ∈ names, '\\' ∉ k) {k k' nm : Text} (hk : k ∈ names) (hk' : k' ∈ names) (hne : k ≠ k')
    (hnm : nm ∈ stored) (hb : Belongs (nsOf k) nm) (hb' : Belongs (nsOf k') nm) (found : Catalog) : discovered v db names ≠ (found, true) := by
  intro h
  have hexp : v.explore db = Flat.explore (mySel s) (fun k nm => myReadTable s (prefixedName (nsOf k) nm)) := by
    funext k
    rw [hx k, my_explore]
  unfold discovered at h
  rw [hexp] at h
  obtain ⟨P, _, _, hP⟩ := Flat.loop_names (by intro e; rw [e] at hk; cases hk) (fun k hk => (my_sel hs (hplain k hk)).1)
    (fun k hk nm hm f hf => by rw [(my_inv hf).1]; exact named (((my_sel hs (hplain k hk)).2 nm).1 hm).2) h
  have m1 := ((my_sel hs (hplain k hk)).2 nm).2 ⟨hnm, hb⟩
  have m2 := ((my_sel hs (hplain k' hk')).2 nm).2 ⟨hnm, hb'⟩
  obtain ⟨f0, f, e1, e2, e3⟩ := hP k hk nm m1
  obtain ⟨f0', f', e1', e2', e3'⟩ := hP k' hk' nm m2
  rw [e1] at e1'
  cases e1'
  have : prefixedName (nsOf k) nm = prefixedName (nsOf k') nm := by
    rw [← (my_inv e2).1, ← (my_inv e2').1, ← e3, ← e3']
  have : nsOf k = nsOf k' := by injection this
  exact hne (by rw [← nsOf_name k, ← nsOf_name k', this])

/-- MySQL, a finding: synchronizing a namespace drops each stored table whose name begins with the name of the namespace and two underscores (such as the
    tables of a namespace `a__b` if `a` is synchronized). -/
theorem C52_mysql_drops_others {v : Env} (ht : Sorts v.topo) {db : Db} {s : MyServer} (hx : ∀ k, v.explore db k = myReadNamespace s (nsOf k))
    {stored : List Text} (hs : My.Server stored s) {names : List Text} (hplain : ∀ k ∈ names, '\\' ∉ k) {k nm : Text} (hk : k ∈ names)
    (hnm : nm ∈ stored) (hb : Belongs (nsOf k) nm) {n : Namespace} (hn : TablesOnly n) (unwanted : ∀ tb ∈ n.tables.items, tb.name.localId ≠ nm)
    {found : Catalog} (hf : discovered v db names = (found, true)) {script : List Stmt}
    (h : mutateCatalog v.topo v.dialect {} found ⟨⟨[n]⟩⟩ = .ok script) : ∃ q : QId, Stmt.dropTable q ∈ script ∧ q.localId = nm := by
  have hexp : v.explore db = Flat.explore (mySel s) (fun k nm => myReadTable s (prefixedName (nsOf k) nm)) := by
    funext k
    rw [hx k, my_explore]
  unfold discovered at hf
  rw [hexp] at hf
  exact Flat.drops ht (fun k hk => (my_sel hs (hplain k hk)).1)
    (fun k hk nm hm f hf => by rw [(my_inv hf).1]; exact named (((my_sel hs (hplain k hk)).2 nm).1 hm).2) hf hk
    (((my_sel hs (hplain k hk)).2 nm).2 ⟨hnm, hb⟩) hn.name hn.tables unwanted h

/-- Oracle, a finding: the same (but for names with a dollar sign). -/
theorem C52_oracle_drops_others {v : Env} (ht : Sorts v.topo) {db : Db} {s : OraServer} (hx : ∀ k, v.explore db k = oraReadNamespace s (nsOf k))
    {stored : List Text} (hs : Ora.Server stored s) {names : List Text} {k nm : Text} (hk : k ∈ names) (hnm : nm ∈ stored) (hdollar : '$' ∉ nm)
    (hb : Belongs (nsOf k) nm) {n : Namespace} (hn : TablesOnly n) (unwanted : ∀ tb ∈ n.tables.items, tb.name.localId ≠ nm)
    {found : Catalog} (hf : discovered v db names = (found, true)) {script : List Stmt}
    (h : mutateCatalog v.topo v.dialect {} found ⟨⟨[n]⟩⟩ = .ok script) : ∃ q : QId, Stmt.dropTable q ∈ script ∧ q.localId = nm := by
  have hexp : v.explore db = Flat.explore (oraSel s) (fun _ nm => oraReadTable s (splitComposite nm)) := by
    funext k
    rw [hx k, ora_explore]
  unfold discovered at hf
  rw [hexp] at hf
  exact Flat.drops ht (fun k hk => (ora_sel hs k).1) (fun k hk nm hm f hf => by rw [(ora_inv hf).1]; exact composite_local nm) hf hk
    (((ora_sel hs k).2 nm).2 ⟨hnm, hdollar, hb⟩) hn.name hn.tables unwanted h

/-! ### Findings: tables that are never settled -/

/-- SQL Server reports the definition of a default in parentheses, so a table that has one needs a change each time. -/
theorem C52_mssql_default_again {expr : SqlType → Text → Text} (parens : ∀ ty d, expr ty d = t "(" ++ d ++ t ")") {current : Text} {order : Constraint → List Text}
    (ho : Ordered order) {s : MsServer} {ns : Option Text} {id : Text} {tb : Table} (hn : tb.name = .qualified ns id) (hc : Distinct tb.columns)
    (hk : Distinct tb.constraints) (hs : s.constraints = true) (h : Ms.Has expr current order s ns tb) (hd : ∃ c ∈ tb.columns.items, c.default ≠ none) :
    ¬ ∃ found, msReadTable s ns id = .ok found ∧ found.primaryKey = tb.primaryKey ∧ mutateTable .mssql found tb = .ok [] := by
  intro hx
  have st := (C52_mssql_table ho hn hc hk hs h).1 hx
  obtain ⟨c, hcm, hdn⟩ := hd
  cases hcd : c.default with
  | none => exact hdn hcd
  | some d =>
    have e := (st.columns c hcm).default d hcd
    rw [parens] at e
    have := congrArg List.length e
    rw [List.length_append, List.length_append] at this
    have e1 : (t "(").length = 1 := by decide +kernel
    have e2 : (t ")").length = 1 := by decide +kernel
    omega

/-- A table with a condition needs a change each time: conditions are not read. -/
theorem C52_condition_again {expr : SqlType → Text → Text} {tb : Table} (h : ∃ n cond, Constraint.check n cond ∈ tb.constraints.items) :
    (∀ {generated : Text → Bool} {db : Text} {s : MyServer}, Distinct tb.columns → Distinct tb.constraints → s.constraints = true → My.Has expr generated db s tb →
      ¬ ∃ found, myReadTable s tb.name = .ok found ∧ found.primaryKey = tb.primaryKey ∧ mutateTable .mysql found tb = .ok []) ∧
    (∀ {current : Text} {order : Constraint → List Text} {s : MsServer} {ns : Option Text} {id : Text}, Ordered order → tb.name = .qualified ns id →
      Distinct tb.columns → Distinct tb.constraints → s.constraints = true → Ms.Has expr current order s ns tb →
      ¬ ∃ found, msReadTable s ns id = .ok found ∧ found.primaryKey = tb.primaryKey ∧ mutateTable .mssql found tb = .ok []) ∧
    (∀ {order : Constraint → List Text} {s : OraServer}, Ordered order → Distinct tb.columns → Distinct tb.constraints → Ora.Has expr order s tb →
      ¬ ∃ found, oraReadTable s tb.name = .ok found ∧ found.primaryKey = tb.primaryKey ∧ mutateTable .oracle found tb = .ok []) := by
  obtain ⟨n, cond, hm⟩ := h
  exact ⟨fun hc hk hs h hx => ((C52_mysql_table hc hk hs h).1 hx).constraints _ hm,
    fun ho hn hc hk hs h hx => ((C52_mssql_table ho hn hc hk hs h).1 hx).constraints _ hm,
    fun ho hc hk h hx => ((C52_oracle_table ho hc hk h).1 hx).constraints _ hm⟩

/-- Oracle: a table with a foreign key of more than one column needs a change each time. -/
theorem C52_oracle_composite_again {expr : SqlType → Text → Text} {order : Constraint → List Text} (ho : Ordered order) {s : OraServer} {tb : Table}
    (hc : Distinct tb.columns) (hk : Distinct tb.constraints) (h : Ora.Has expr order s tb)
    (hf : ∃ n cs r, Constraint.foreign n cs r ∈ tb.constraints.items ∧ 1 < cs.length) :
    ¬ ∃ found, oraReadTable s tb.name = .ok found ∧ found.primaryKey = tb.primaryKey ∧ mutateTable .oracle found tb = .ok [] := by
  intro hx
  obtain ⟨n, cs, r, hm, hl⟩ := hf
  have := ((C52_oracle_table ho hc hk h).1 hx).constraints _ hm
  have : cs.length = 1 := this.1
  omega

/-! ### Concrete cases -/

namespace C52.Ex
open Example

theorem topo_one (p : Text × List Text) : ∃ l, topo [p] = .ok l := by
  have hn : (adjacent [(p.1, p.2.filter (fun m => [p.1].contains m))] p.1).filter (fun m => decide (m ≠ p.1)) = [] := by
    refine List.filter_eq_nil_iff.2 (fun m hm => ?_)
    have : adjacent [(p.1, p.2.filter (fun m => [p.1].contains m))] p.1 = p.2.filter (fun m => [p.1].contains m) := by
      simp [adjacent]
    rw [this] at hm
    have := (List.mem_filter.1 hm).2
    simp at this ⊢
    exact this
  refine ⟨[p.1], ?_⟩
  show topoSort [(p.1, p.2.filter (fun m => [p.1].contains m))] = .ok [p.1]
  show (visit [(p.1, p.2.filter (fun m => [p.1].contains m))] 3 [] [] p.1 >>= fun d => pure d) = .ok [p.1]
  rw [visit, hn]
  rfl

open Classical in
/-- How a server answers a query with a pattern. -/
noncomputable def answer (read : Text → Option (Text × Text)) (stored : List Text) (lit : Text) : List Text :=
  stored.filter (fun nm => decide (∃ pat, read (lit ++ t " ESCAPE '~'") = some (pat, t " ESCAPE '~'") ∧ LikeMatch '~' pat nm))

open Classical in
theorem answer_ok (read : Text → Option (Text × Text)) {stored : List Text} (h : stored.Nodup) : Matches read stored (answer read stored) := by
  intro lit pat e
  refine ⟨h.filter _, fun nm => ?_⟩
  unfold answer
  rw [List.mem_filter]
  refine and_congr_right (fun _ => ?_)
  rw [decide_eq_true_iff, e]
  constructor
  · rintro ⟨p, e', hm⟩
    injection e' with e'
    injection e' with e1 e2
    subst e1
    exact hm
  · exact fun hm => ⟨pat, rfl, hm⟩

theorem hasInfix_of {n : Text} : ∀ {s : Text}, n <:+: s → hasInfix n s = true
  | [], h => by
    rw [List.infix_nil.1 h]
    rfl
  | c :: s, h => by
    rw [hasInfix, Bool.or_eq_true]
    rcases List.infix_cons_iff.1 h with h | h
    · exact .inl (List.isPrefixOf_iff_prefix.2 h)
    · exact .inr (hasInfix_of h)

theorem not_infix {n s : Text} (h : hasInfix n s = false) : ¬ n <:+: s := fun hi => by
  rw [hasInfix_of hi] at h
  cases h

theorem okSome {X : Type} {x : Except Err X} (h : x.toOption.isSome = true) : ∃ y, x = .ok y := by
  cases x with
  | ok y => exact ⟨y, rfl⟩
  | error e => cases h

def pre (a b : String) : QId := .prefixed (some (t a)) (t b)

/-! #### MySQL -/

namespace My1

def word : SqlType := .varChar .mysql (some 255)

def person : Table where
  name := pre "app" "person"
  columns := ⟨[key0 "id", { col "name" word false with description := some (t "The name.\nIn full.") }, col "age" (.integer .base 2 true none none) false (some (t "18"))]⟩
  primaryKey := [t "id"]
  constraints := ⟨[.unique (t "uq_name") [t "name", t "age"]]⟩
  description := some (t "People.")

def pet : Table where
  name := pre "app" "pet"
  columns := ⟨[key0 "id", col "owner" int8, col "kind" (.enum [t "cat", t "dog"]) false]⟩
  primaryKey := [t "id"]
  constraints := ⟨[.foreign (t "fk_owner") [t "owner"] ⟨pre "app" "person", [t "id"]⟩]⟩

def app : Namespace := { name := [], enums := ⟨[]⟩, structs := ⟨[]⟩, tables := ⟨[person, pet]⟩ }

/-- A table of another namespace is stored as well. -/
def stored : List Text := [t "app__person", t "app__pet", t "web__page"]

def expr (_ : SqlType) (d : Text) : Text := d
def generated (_ : Text) : Bool := false

noncomputable def srv : MyServer where
  constraints := true
  like := answer readMySQL stored
  others := []
  table k :=
    if k = t "app__person" then
      { count := 1, columns := person.columns.items.filterMap (My.columnRow expr generated), primary := [t "id"], unique := [(t "uq_name", t "name"), (t "uq_name", t "age")]
        foreign := [], comment := [t "People."] }
    else
      { count := 1, columns := pet.columns.items.filterMap (My.columnRow expr generated), primary := [t "id"], unique := []
        foreign := [⟨t "fk_owner", t "owner", t "db", t "app__person", t "id"⟩], comment := [[]] }

theorem serves : My.Server stored srv where
  constraints := rfl
  like := answer_ok _ (by decide +kernel)
  othersNodup := List.nodup_nil
  others := fun nm => by
    refine ⟨fun h => absurd h List.not_mem_nil, fun ⟨h, hn⟩ => ?_⟩
    exfalso
    simp only [stored, List.mem_cons, List.not_mem_nil, or_false] at h
    rcases h with rfl | rfl | rfl
    · exact hn ⟨t "app", t "person", by decide +kernel⟩
    · exact hn ⟨t "app", t "pet", by decide +kernel⟩
    · exact hn ⟨t "web", t "page", by decide +kernel⟩

theorem only : TablesOnly app where
  name := rfl
  enums := rfl
  structs := rfl
  tables := distinctB_ok (by decide +kernel)
  columns := by
    intro tb h
    simp only [app, List.mem_cons, List.not_mem_nil, or_false] at h
    rcases h with rfl | rfl
    · exact distinctB_ok (by decide +kernel)
    · exact distinctB_ok (by decide +kernel)
  constraints := by
    intro tb h
    simp only [app, List.mem_cons, List.not_mem_nil, or_false] at h
    rcases h with rfl | rfl
    · exact distinctB_ok (by decide +kernel)
    · exact distinctB_ok (by decide +kernel)

theorem housed : Housed [t "app"] stored app := by
  intro tb h
  simp only [app, List.mem_cons, List.not_mem_nil, or_false] at h
  rcases h with rfl | rfl
  · exact ⟨by decide +kernel, t "app", .head _, t "person", by decide +kernel⟩
  · exact ⟨by decide +kernel, t "app", .head _, t "pet", by decide +kernel⟩

theorem has : ∀ tb ∈ app.tables.items, My.Has expr generated (t "db") srv tb := by
  intro tb h
  simp only [app, List.mem_cons, List.not_mem_nil, or_false] at h
  rcases h with rfl | rfl
  · refine ⟨by decide +kernel, by decide +kernel, by decide +kernel, ⟨by decide +kernel, by decide +kernel⟩, ⟨by decide +kernel, by decide +kernel⟩, by decide +kernel⟩
  · refine ⟨by decide +kernel, by decide +kernel, by decide +kernel, ⟨by decide +kernel, by decide +kernel⟩, ⟨by decide +kernel, by decide +kernel⟩, by decide +kernel⟩

theorem apart : ∀ k ∈ [t "app"], ∀ k' ∈ [t "app"], ∀ nm ∈ stored, Belongs (nsOf k) nm → Belongs (nsOf k') nm → k = k' := by
  intro k hk k' hk' _ _ _ _
  rw [List.mem_singleton.1 hk, List.mem_singleton.1 hk']

theorem settled : ∀ tb ∈ app.tables.items, My.Settled expr tb ∧ ∀ id, tb.name = .prefixed none id → ¬ t "__" <:+: id := by
  intro tb h
  simp only [app, List.mem_cons, List.not_mem_nil, or_false] at h
  rcases h with rfl | rfl
  · refine ⟨⟨?_, ?_, ?_⟩, fun id e => by cases e⟩
    · intro c hc
      simp only [person, List.mem_cons, List.not_mem_nil, or_false] at hc
      rcases hc with rfl | rfl | rfl
      · exact ⟨⟨rfl, rfl, rfl⟩, fun _ e => (by cases e), fun _ e => (by cases e)⟩
      · exact ⟨⟨255, rfl, .inl (by decide)⟩, fun _ e => (by cases e), fun _ e => by injection e with e; subst e; exact ⟨by decide +kernel, by decide +kernel⟩⟩
      · exact ⟨⟨rfl, rfl, rfl⟩, fun _ _ => rfl, fun _ e => (by cases e)⟩
    · intro c hc
      rw [List.mem_singleton.1 hc]
      exact List.cons_ne_nil _ _
    · intro s e
      injection e with e
      subst e
      decide +kernel
  · refine ⟨⟨?_, ?_, fun _ e => (by cases e)⟩, fun id e => by cases e⟩
    · intro c hc
      simp only [pet, List.mem_cons, List.not_mem_nil, or_false] at hc
      rcases hc with rfl | rfl | rfl
      · exact ⟨⟨rfl, rfl, rfl⟩, fun _ e => (by cases e), fun _ e => (by cases e)⟩
      · exact ⟨⟨rfl, rfl, rfl⟩, fun _ e => (by cases e), fun _ e => (by cases e)⟩
      · exact ⟨show ∀ v ∈ [t "cat", t "dog"], '\'' ∉ v ∧ '\n' ∉ v by decide +kernel, fun _ e => (by cases e), fun _ e => (by cases e)⟩
    · intro c hc
      rw [List.mem_singleton.1 hc]
      exact ⟨List.cons_ne_nil _ _, rfl, not_infix (by decide +kernel)⟩

noncomputable def v : Env := { topo := topo, dialect := .mysql, engine := E, explore := fun _ k => myReadNamespace srv (nsOf k) }

theorem calm (db : Db) : ∃ found, discovered v db [t "app"] = (found, true) ∧ mutateCatalog v.topo v.dialect {} found ⟨⟨[app]⟩⟩ = .ok [] :=
  (C52_mysql_settled (v := v) topo_sorts topo_one rfl (s := srv) (fun _ => rfl) serves only (List.cons_ne_nil _ _) (by decide +kernel) housed has apart).2
    ⟨settled, by
      intro nm hnm ⟨k, hk, hb⟩
      rw [List.mem_singleton.1 hk] at hb
      simp only [stored, List.mem_cons, List.not_mem_nil, or_false] at hnm
      rcases hnm with rfl | rfl | rfl
      · exact ⟨person, .head _, by decide +kernel⟩
      · exact ⟨pet, .tail _ (.head _), by decide +kernel⟩
      · have : (t "app" ++ t "__").isPrefixOf (t "web__page") = false := by decide +kernel
        rw [List.isPrefixOf_iff_prefix.2 hb] at this
        cases this⟩

/-- Synchronizing it with what it is does nothing. -/
example {atomic : Bool} {s s' : Session} {o : Outcome} (h : Step v atomic s (.synchronize ⟨⟨[app]⟩⟩ [t "app"]) s' o) : o = .returned ∧ s'.db = s.db :=
  have := C52_not_changed (v := v) (calm s.db) (okSome (by decide +kernel : (mutateCatalog topo .mysql {} ⟨⟨[]⟩⟩ ⟨⟨[app]⟩⟩).toOption.isSome = true)) h
  ⟨this.1, this.2.1⟩

/-- A namespace without the pets: synchronizing with it drops them. -/
example {db : Db} {script : List Stmt} {found : Catalog} (hf : discovered v db [t "app"] = (found, true))
    (h : mutateCatalog v.topo v.dialect {} found ⟨⟨[{ app with tables := ⟨[person]⟩ }]⟩⟩ = .ok script) : ∃ q : QId, Stmt.dropTable q ∈ script ∧ q.localId = t "app__pet" :=
  C52_mysql_drops_others (v := v) topo_sorts (s := srv) (fun _ => rfl) serves (names := [t "app"]) (by decide +kernel) (.head _) (nm := t "app__pet") (.tail _ (.head _))
    ⟨t "pet", by decide +kernel⟩
    ⟨rfl, rfl, rfl, distinctB_ok (by decide +kernel), fun tb h => only.columns tb (by rw [List.mem_singleton.1 h]; exact .head _),
      fun tb h => only.constraints tb (by rw [List.mem_singleton.1 h]; exact .head _)⟩
    (fun tb h => by rw [List.mem_singleton.1 h]; decide +kernel) hf h

/-- Two namespaces that have a table in common cannot be explored together. -/
example (db : Db) (table : Text → MyTable) (found : Catalog) :
    discovered { v with explore := fun _ k => myReadNamespace { srv with like := answer readMySQL [t "a__b__c"], table := table } (nsOf k) } db [t "a", t "a__b"] ≠ (found, true) :=
  C52_mysql_overlap_refused (s := { srv with like := answer readMySQL [t "a__b__c"], table := table }) (fun _ => rfl)
    ⟨rfl, answer_ok _ (by decide +kernel), List.nodup_nil, fun nm => ⟨fun h => absurd h List.not_mem_nil, fun ⟨h, hn⟩ => by
      rw [List.mem_singleton.1 h] at hn
      exact absurd ⟨t "a", t "b__c", by decide +kernel⟩ hn⟩⟩ (by decide +kernel) (k := t "a") (k' := t "a__b") (.head _) (.tail _ (.head _)) (by decide +kernel) (nm := t "a__b__c") (.head _)
    (show t "a" ++ t "__" <+: t "a__b__c" from ⟨t "b__c", by decide +kernel⟩)
    (show t "a__b" ++ t "__" <+: t "a__b__c" from ⟨t "c", by decide +kernel⟩) found

end My1

/-! #### Oracle -/

namespace Ora1

def int : SqlType := .integer .oracle 8 true none none
def word : SqlType := .varChar .oracle (some 255)
def key1 (n : String) : Column := { name := t n, ty := int, nullable := false, identity := true }

def person : Table where
  name := pre "app" "person"
  columns := ⟨[key1 "id", { col "name" word false with description := some (t "The name.") }, col "age" int false (some (t "18"))]⟩
  primaryKey := [t "id"]
  constraints := ⟨[.unique (t "uq_name") [t "name", t "age"]]⟩
  description := some (t "People.")

def pet : Table where
  name := pre "app" "pet"
  columns := ⟨[key1 "id", col "owner" int, col "since" .date]⟩
  primaryKey := [t "id"]
  constraints := ⟨[.foreign (t "fk_owner") [t "owner"] ⟨pre "app" "person", [t "id"]⟩]⟩

def app : Namespace := { name := [], enums := ⟨[]⟩, structs := ⟨[]⟩, tables := ⟨[person, pet]⟩ }

def stored : List Text := [t "app__person", t "app__pet", t "web__page", t "app__tmp$", t "bare"]

def expr (_ : SqlType) (d : Text) : Text := d
/-- The columns that a foreign key refers to are those of the key. -/
def order : Constraint → List Text
  | .foreign _ _ r => r.columns
  | _ => []

theorem ordered : Ordered order := fun _ _ _ => List.Perm.refl _

noncomputable def srv : OraServer where
  like := answer readString (stored.filter (fun nm => '$' ∉ nm))
  others := [t "bare"]
  table k :=
    if k = t "app__person" then
      { comments := [], columns := person.columns.items.filterMap (Ora.columnRow expr)
        constraints := [⟨t "uq_name", 'U', t "name", [], []⟩, ⟨t "sys_c1", 'C', t "name", [], []⟩, ⟨t "uq_name", 'U', t "age", [], []⟩, ⟨t "sys_c2", 'P', t "id", [], []⟩] }
    else
      { comments := [], columns := pet.columns.items.filterMap (Ora.columnRow expr)
        constraints := [⟨t "sys_c3", 'P', t "id", [], []⟩, ⟨t "fk_owner", 'R', t "owner", t "app__person", t "id"⟩] }

theorem serves : Ora.Server stored srv where
  like := answer_ok _ (by decide +kernel)
  othersNodup := show [t "bare"].Nodup by decide +kernel
  others := fun nm => by
    constructor
    · intro h
      rw [List.mem_singleton.1 h]
      exact ⟨by decide +kernel, by decide +kernel, not_infix (by decide +kernel)⟩
    · rintro ⟨h, _, hn⟩
      simp only [stored, List.mem_cons, List.not_mem_nil, or_false] at h
      rcases h with rfl | rfl | rfl | rfl | rfl
      · exact absurd ⟨t "app", t "person", by decide +kernel⟩ hn
      · exact absurd ⟨t "app", t "pet", by decide +kernel⟩ hn
      · exact absurd ⟨t "web", t "page", by decide +kernel⟩ hn
      · exact absurd ⟨t "app", t "tmp$", by decide +kernel⟩ hn
      · exact .head _

theorem only : TablesOnly app where
  name := rfl
  enums := rfl
  structs := rfl
  tables := distinctB_ok (by decide +kernel)
  columns := by
    intro tb h
    simp only [app, List.mem_cons, List.not_mem_nil, or_false] at h
    rcases h with rfl | rfl
    · exact distinctB_ok (by decide +kernel)
    · exact distinctB_ok (by decide +kernel)
  constraints := by
    intro tb h
    simp only [app, List.mem_cons, List.not_mem_nil, or_false] at h
    rcases h with rfl | rfl
    · exact distinctB_ok (by decide +kernel)
    · exact distinctB_ok (by decide +kernel)

theorem housed : Housed [t "app"] stored app := by
  intro tb h
  simp only [app, List.mem_cons, List.not_mem_nil, or_false] at h
  rcases h with rfl | rfl
  · exact ⟨by decide +kernel, t "app", .head _, t "person", by decide +kernel⟩
  · exact ⟨by decide +kernel, t "app", .head _, t "pet", by decide +kernel⟩

theorem has : ∀ tb ∈ app.tables.items, Ora.Has expr order srv tb := by
  intro tb h
  simp only [app, List.mem_cons, List.not_mem_nil, or_false] at h
  rcases h with rfl | rfl
  · refine ⟨by decide +kernel, by decide +kernel, ⟨by decide +kernel, by decide +kernel⟩, ?_, by decide +kernel⟩
    decide +kernel
  · refine ⟨by decide +kernel, by decide +kernel, ⟨by decide +kernel, by decide +kernel⟩, ?_, by decide +kernel⟩
    decide +kernel

theorem settled : ∀ tb ∈ app.tables.items, Ora.Settled expr tb ∧ Separable tb.name ∧ '$' ∉ tb.name.localId := by
  intro tb h
  simp only [app, List.mem_cons, List.not_mem_nil, or_false] at h
  rcases h with rfl | rfl
  · refine ⟨⟨?_, ?_⟩, not_infix (by decide +kernel), by decide +kernel⟩
    · intro c hc
      simp only [person, List.mem_cons, List.not_mem_nil, or_false] at hc
      rcases hc with rfl | rfl | rfl
      · exact ⟨⟨rfl, rfl, rfl, rfl, rfl⟩, fun _ e => (by cases e)⟩
      · exact ⟨fun k e => by injection e with e; subst e; decide, fun _ e => (by cases e)⟩
      · exact ⟨⟨rfl, rfl, rfl, rfl, rfl⟩, fun _ _ => ⟨rfl, rfl⟩⟩
    · intro c hc
      rw [List.mem_singleton.1 hc]
      exact List.cons_ne_nil _ _
  · refine ⟨⟨?_, ?_⟩, not_infix (by decide +kernel), by decide +kernel⟩
    · intro c hc
      simp only [pet, List.mem_cons, List.not_mem_nil, or_false] at hc
      rcases hc with rfl | rfl | rfl
      · exact ⟨⟨rfl, rfl, rfl, rfl, rfl⟩, fun _ e => (by cases e)⟩
      · exact ⟨⟨rfl, rfl, rfl, rfl, rfl⟩, fun _ e => (by cases e)⟩
      · exact ⟨trivial, fun _ e => (by cases e)⟩
    · intro c hc
      rw [List.mem_singleton.1 hc]
      exact ⟨rfl, rfl, not_infix (by decide +kernel)⟩

noncomputable def v : Env := { topo := topo, dialect := .oracle, engine := E, explore := fun _ k => oraReadNamespace srv (nsOf k) }

theorem calm (db : Db) : ∃ found, discovered v db [t "app"] = (found, true) ∧ mutateCatalog v.topo v.dialect {} found ⟨⟨[app]⟩⟩ = .ok [] :=
  (C52_oracle_settled (v := v) topo_sorts topo_one rfl (s := srv) (fun _ => rfl) serves ordered only (List.cons_ne_nil _ _) housed has).2
    ⟨settled, by
      intro nm hnm hd ⟨k, hk, hb⟩
      rw [List.mem_singleton.1 hk] at hb
      simp only [stored, List.mem_cons, List.not_mem_nil, or_false] at hnm
      rcases hnm with rfl | rfl | rfl | rfl | rfl
      · exact ⟨person, .head _, by decide +kernel⟩
      · exact ⟨pet, .tail _ (.head _), by decide +kernel⟩
      · exact absurd (List.isPrefixOf_iff_prefix.2 hb) (by decide +kernel)
      · exact absurd (by decide +kernel) hd
      · exact absurd (List.isPrefixOf_iff_prefix.2 hb) (by decide +kernel)⟩

example {atomic : Bool} {s s' : Session} {o : Outcome} (h : Step v atomic s (.synchronize ⟨⟨[app]⟩⟩ [t "app"]) s' o) : o = .returned ∧ s'.db = s.db :=
  have := C52_not_changed (v := v) (calm s.db) (okSome (by decide +kernel : (mutateCatalog topo .oracle {} ⟨⟨[]⟩⟩ ⟨⟨[app]⟩⟩).toOption.isSome = true)) h
  ⟨this.1, this.2.1⟩

end Ora1

/-! #### SQL Server -/

namespace Ms1

def word : SqlType := .varChar .mssql (some 255)

def person : Table where
  name := q "app" "person"
  columns := ⟨[key0 "id", { col "name" word false with description := some (t "The name.") }, col "age" (.integer .base 2 true none none) false]⟩
  primaryKey := [t "id"]
  constraints := ⟨[.unique (t "uq_name") [t "name", t "age"]]⟩
  description := some (t "People.")

def pet : Table where
  name := q "app" "pet"
  columns := ⟨[key0 "id", col "owner" word, col "owner_age" (.integer .base 2 true none none), col "since" .date]⟩
  primaryKey := [t "id"]
  constraints := ⟨[.foreign (t "fk_owner") [t "owner", t "owner_age"] ⟨q "app" "person", [t "name", t "age"]⟩]⟩

def app : Namespace := { name := t "app", enums := ⟨[]⟩, structs := ⟨[]⟩, tables := ⟨[person, pet]⟩ }
def T : Catalog := ⟨⟨[app]⟩⟩

def stored : Option Text → List Text
  | some ns => if ns = t "app" then [t "pet", t "person"] else [t "page"]
  | none => []

/-- Defaults are reported in parentheses. -/
def expr (_ : SqlType) (d : Text) : Text := t "(" ++ d ++ t ")"

def srv : MsServer where
  constraints := true
  tables := stored
  table _ k :=
    if k = t "person" then
      { count := 1, columns := person.columns.items.filterMap (Ms.columnRow expr), identity := [t "id"], defaults := [], primary := [t "id"]
        unique := [(t "uq_name", t "name"), (t "uq_name", t "age")], foreign := [] }
    else
      { count := 1, columns := pet.columns.items.filterMap (Ms.columnRow expr), identity := [t "id"], defaults := [], primary := [t "id"]
        unique := [], foreign := [⟨t "fk_owner", t "owner", t "app", t "person", t "name"⟩, ⟨t "fk_owner", t "owner_age", t "app", t "person", t "age"⟩] }

theorem serves : Ms.Server stored srv where
  constraints := rfl
  nodup := by
    intro ns
    show (stored ns).Nodup
    unfold stored
    split
    · split <;> decide +kernel
    · exact List.nodup_nil
  tables := fun _ _ => Iff.rfl

theorem distinct : NsDistinct app := by
  refine ⟨distinctB_ok (by decide +kernel), distinctB_ok (by decide +kernel), distinctB_ok (by decide +kernel), fun s h => absurd h List.not_mem_nil, ?_, ?_⟩
  · intro tb h
    simp only [app, List.mem_cons, List.not_mem_nil, or_false] at h
    rcases h with rfl | rfl
    · exact distinctB_ok (by decide +kernel)
    · exact distinctB_ok (by decide +kernel)
  · intro tb h
    simp only [app, List.mem_cons, List.not_mem_nil, or_false] at h
    rcases h with rfl | rfl
    · exact distinctB_ok (by decide +kernel)
    · exact distinctB_ok (by decide +kernel)

theorem only : SchemasOnly T where
  distinct := ⟨distinctB_ok (by decide +kernel), fun n h => by rw [List.mem_singleton.1 h]; exact distinct⟩
  enums := fun n h => by rw [List.mem_singleton.1 h]; rfl
  structs := fun n h => by rw [List.mem_singleton.1 h]; rfl
  some := fun n h => by rw [List.mem_singleton.1 h]; exact List.cons_ne_nil _ _
  named := by
    intro n h tb ht
    rw [List.mem_singleton.1 h] at ht ⊢
    simp only [app, List.mem_cons, List.not_mem_nil, or_false] at ht
    rcases ht with rfl | rfl
    · exact ⟨t "person", by decide +kernel⟩
    · exact ⟨t "pet", by decide +kernel⟩

theorem has : ∀ tb ∈ app.tables.items, Ms.Has expr (t "dbo") Ora1.order srv (some (t "app")) tb := by
  intro tb h
  simp only [app, List.mem_cons, List.not_mem_nil, or_false] at h
  rcases h with rfl | rfl
  · refine ⟨by decide +kernel, by decide +kernel, ?_, ?_, by decide +kernel, ⟨by decide +kernel, by decide +kernel⟩, ⟨by decide +kernel, by decide +kernel⟩⟩
    · exact fun nm => ⟨fun h => ⟨key0 "id", .head _, (List.mem_singleton.1 h).symm, rfl⟩, by
        rintro ⟨c, hc, rfl, hi⟩
        revert hi
        exact (by decide +kernel : ∀ c ∈ person.columns.items, c.identity = true → c.name ∈ [t "id"]) c hc⟩
    · exact fun nm d => ⟨fun h => absurd h List.not_mem_nil, by
        rintro ⟨c, hc, _, e⟩
        rw [(by decide +kernel : ∀ c ∈ person.columns.items, c.default = none) c hc] at e
        cases e⟩
  · refine ⟨by decide +kernel, by decide +kernel, ?_, ?_, by decide +kernel, ⟨by decide +kernel, by decide +kernel⟩, ⟨by decide +kernel, by decide +kernel⟩⟩
    · exact fun nm => ⟨fun h => ⟨key0 "id", .head _, (List.mem_singleton.1 h).symm, rfl⟩, by
        rintro ⟨c, hc, rfl, hi⟩
        revert hi
        exact (by decide +kernel : ∀ c ∈ pet.columns.items, c.identity = true → c.name ∈ [t "id"]) c hc⟩
    · exact fun nm d => ⟨fun h => absurd h List.not_mem_nil, by
        rintro ⟨c, hc, _, e⟩
        rw [(by decide +kernel : ∀ c ∈ pet.columns.items, c.default = none) c hc] at e
        cases e⟩

theorem settled : ∀ tb ∈ app.tables.items, Ms.Settled expr Ora1.order tb := by
  intro tb h
  simp only [app, List.mem_cons, List.not_mem_nil, or_false] at h
  rcases h with rfl | rfl
  · refine ⟨?_, ?_⟩
    · intro c hc
      simp only [person, List.mem_cons, List.not_mem_nil, or_false] at hc
      rcases hc with rfl | rfl | rfl
      · exact ⟨⟨rfl, rfl, rfl⟩, fun _ e => (by cases e)⟩
      · exact ⟨⟨by decide, by decide⟩, fun _ e => (by cases e)⟩
      · exact ⟨⟨rfl, rfl, rfl⟩, fun _ e => (by cases e)⟩
    · intro c hc
      rw [List.mem_singleton.1 hc]
      exact List.cons_ne_nil _ _
  · refine ⟨?_, ?_⟩
    · intro c hc
      simp only [pet, List.mem_cons, List.not_mem_nil, or_false] at hc
      rcases hc with rfl | rfl | rfl | rfl
      · exact ⟨⟨rfl, rfl, rfl⟩, fun _ e => (by cases e)⟩
      · exact ⟨⟨by decide, by decide⟩, fun _ e => (by cases e)⟩
      · exact ⟨⟨rfl, rfl, rfl⟩, fun _ e => (by cases e)⟩
      · exact ⟨trivial, fun _ e => (by cases e)⟩
    · intro c hc
      rw [List.mem_singleton.1 hc]
      exact ⟨List.cons_ne_nil _ _, rfl, rfl, t "app", t "person", rfl⟩

def v : Env := { topo := topo, dialect := .mssql, engine := E, explore := fun _ k => msReadNamespace srv (nsOf k) }

theorem sorts (db : Db) (found : Catalog) (h : discovered v db [t "app"] = (found, true)) : ∃ F', found.sort topo = .ok F' := by
  have e : (discovered v db [t "app"]).1 = found := by rw [h]
  rw [← e]
  exact okSome (show ((discovered v ⟨fun _ => False, fun _ => none⟩ [t "app"]).1.sort topo).toOption.isSome = true by decide +kernel)

theorem calm (db : Db) : ∃ found, discovered v db [t "app"] = (found, true) ∧ mutateCatalog v.topo v.dialect {} found T = .ok [] :=
  (C52_mssql_settled (v := v) topo_sorts rfl (s := srv) (fun _ => rfl) serves Ora1.ordered only
    (fun k => ⟨fun h => ⟨app, .head _, (List.mem_singleton.1 h).symm⟩, fun ⟨n, hn, e⟩ => by rw [← e, List.mem_singleton.1 hn]; exact .head _⟩)
    (fun n hn tb h => by
      rw [List.mem_singleton.1 hn] at h ⊢
      exact (by decide +kernel : ∀ tb ∈ app.tables.items, tb.name.localId ∈ stored (nsOf app.name)) tb h)
    (fun n hn tb h => by rw [List.mem_singleton.1 hn] at h ⊢; exact has tb h)
    (okSome (by decide +kernel : (T.sort topo).toOption.isSome = true)) (sorts db)).2
    (fun n hn => by
      rw [List.mem_singleton.1 hn]
      exact ⟨settled, by decide +kernel⟩)

example {atomic : Bool} {s s' : Session} {o : Outcome} (h : Step v atomic s (.synchronize T [t "app"]) s' o) : o = .returned ∧ s'.db = s.db :=
  have := C52_not_changed (v := v) (calm s.db) (okSome (by decide +kernel : (mutateCatalog topo .mssql {} ⟨⟨[]⟩⟩ T).toOption.isSome = true)) h
  ⟨this.1, this.2.1⟩

/-- With a default the table is changed each time. -/
def old : Table := { pet with columns := ⟨[key0 "id", col "age" (.integer .base 2 true none none) false (some (t "1"))]⟩, constraints := ⟨[]⟩ }
def srvOld : MsServer where
  constraints := true
  tables := stored
  table _ _ :=
    { count := 1, columns := old.columns.items.filterMap (Ms.columnRow expr), identity := [t "id"], defaults := [(t "age", t "(1)")], primary := [t "id"], unique := [], foreign := [] }

example : ¬ ∃ found, msReadTable srvOld (some (t "app")) (t "pet") = .ok found ∧ found.primaryKey = old.primaryKey ∧ mutateTable .mssql found old = .ok [] :=
  C52_mssql_default_again (expr := expr) (fun _ _ => rfl) (current := t "dbo") Ora1.ordered (s := srvOld) (tb := old) rfl (distinctB_ok (by decide +kernel)) (distinctB_ok (by decide +kernel)) rfl
    ⟨by decide +kernel, by decide +kernel, fun nm => ⟨fun h => ⟨key0 "id", .head _, (List.mem_singleton.1 h).symm, rfl⟩, by
        rintro ⟨c, hc, rfl, hi⟩
        revert hi
        exact (by decide +kernel : ∀ c ∈ old.columns.items, c.identity = true → c.name ∈ [t "id"]) c hc⟩,
      fun nm d => ⟨fun h => by
        have := List.mem_singleton.1 h
        injection this with e1 e2
        subst e1 e2
        exact ⟨_, .tail _ (.head _), rfl, by decide +kernel⟩, by
        rintro ⟨c, hc, rfl, e⟩
        exact (by decide +kernel : ∀ c ∈ old.columns.items, ∀ x ∈ c.default.map (expr c.ty), (c.name, x) ∈ [(t "age", t "(1)")]) c hc d e⟩,
      by decide +kernel, ⟨by decide +kernel, by decide +kernel⟩, ⟨by decide +kernel, by decide +kernel⟩⟩ ⟨_, .tail _ (.head _), by decide +kernel⟩

end Ms1
end C52.Ex
end PySqlSync
