/-
C07 — Enumeration types are only ever extended.
-/
import Verif.Lemmas.TypeMutate
import Verif.Lemmas.Exec
import Verif.Examples.Shop

set_option autoImplicit false

namespace PySqlSync
open Spec

/-- The change of an enumeration is refused exactly when the target lacks a value of the source. -/
theorem C07_refused_iff {s u : EnumType} (hn : s.name = u.name) :
    mutateEnum s u = .error .formation ↔ ∃ v ∈ s.values, v ∉ u.values := by
  unfold mutateEnum checkIdentity
  simp only [hn, if_true, bind, Except.bind, pure, Except.pure]
  by_cases h : s.values.filter (fun v => !u.values.contains v) = []
  · have : (s.values.filter (fun v => !u.values.contains v) ≠ []) = False := by rw [h]; simp only [ne_eq, not_true_eq_false]
    simp only [this, if_false, reduceCtorEq, false_iff, not_exists, not_and, Decidable.not_not]
    intro v hv
    rw [List.filter_eq_nil_iff] at h
    simpa using h v hv
  · rw [if_pos h]
    have : ∃ v, v ∈ s.values.filter (fun v => !u.values.contains v) := List.exists_mem_of_ne_nil _ h
    obtain ⟨v, hv⟩ := this
    rw [List.mem_filter] at hv
    refine ⟨fun _ => ⟨v, hv.1, by simpa using hv.2⟩, fun _ => rfl⟩

/-- Nothing else can go wrong: otherwise there is a script. -/
theorem C07_not_refused {s u : EnumType} (hn : s.name = u.name) (h : ∀ v ∈ s.values, v ∈ u.values) :
    ∃ stmts, mutateEnum s u = .ok stmts := by
  cases hx : mutateEnum s u with
  | ok l => exact ⟨l, rfl⟩
  | error e =>
    have : e = .formation := by
      unfold mutateEnum checkIdentity at hx
      simp only [hn, if_true, bind, Except.bind, pure, Except.pure] at hx
      split at hx
      · cases hx; rfl
      · cases hx
    obtain ⟨v, h1, h2⟩ := (C07_refused_iff hn).1 (this ▸ hx)
    exact absurd (h v h1) h2

/-- The script consists of one ADD VALUE for each missing value, in the order in which the target lists them. -/
theorem C07_adds_missing_values_in_order {s u : EnumType} {stmts : List Stmt} (h : mutateEnum s u = .ok stmts) :
    ∃ added : List Text, stmts = added.map (Stmt.addValue s.name) ∧ added.Sublist u.values
      ∧ (∀ v, v ∈ added ↔ v ∈ u.values ∧ v ∉ s.values) ∧ (u.values.Nodup → added.Nodup) := by
  obtain ⟨_, _, e⟩ := mutateEnum_ok h
  refine ⟨_, e, List.filter_sublist, ?_, fun hn => hn.filter _⟩
  intro v
  simp [List.mem_filter]

/-- Executed on a consistent database with the source's type, the script turns it into the target's type and changes
    nothing else. -/
theorem C07_result_exact {E : Engine} {db : Db} (v : Valid db) {s u : EnumType} {stmts : List Stmt}
    (h : mutateEnum s u = .ok stmts) (hu : u.values.Nodup)
    (h0 : db.objs s.name.key = some (.enum (fun x => s.values.contains x))) :
    Runs E db stmts { db with objs := upd db.objs s.name.key (some (.enum (fun x => u.values.contains x))) } :=
  runs_mutateEnum v h h0 hu

/-- Running any part of such a script never removes a value: whatever was stored stays valid at each point. -/
theorem C07_stored_values_stay_valid {E : Engine} {s u : EnumType} {stmts : List Stmt}
    (h : mutateEnum s u = .ok stmts) :
    ∀ (i : Nat) {db db1 : Db}, exec E db (stmts.take i) = some db1 →
      ∀ k vs, db.objs k = some (.enum vs) → ∃ vs1, db1.objs k = some (.enum vs1) ∧ ∀ x, vs x = true → vs1 x = true := by
  obtain ⟨added, rfl, _⟩ := C07_adds_missing_values_in_order h
  intro i
  rw [← List.map_take]
  generalize added.take i = l
  induction l with
  | nil => intro db db1 hr k vs hk; simp only [List.map_nil, exec, Option.some.injEq] at hr; subst hr; exact ⟨vs, hk, fun _ h => h⟩
  | cons a l ih =>
    intro db db1 hr k vs hk
    simp only [List.map_cons, exec, Option.bind_eq_some_iff] at hr
    obtain ⟨db2, h1, h2⟩ := hr
    have : ∃ vs2, db2.objs k = some (.enum vs2) ∧ ∀ x, vs x = true → vs2 x = true := by
      simp only [step] at h1
      split at h1
      · rename_i vs0 hk0
        split at h1
        · cases h1
        · simp only [Option.some.injEq] at h1
          subst h1
          by_cases e : k = s.name.key
          · subst e
            rw [hk] at hk0; cases hk0
            refine ⟨_, by simp [Db.set, upd]; rfl, ?_⟩
            intro x hx
            simp only [upd]
            split
            · rfl
            · exact hx
          · exact ⟨vs, by simp [Db.set, upd, e, hk], fun _ h => h⟩
      · cases h1
    obtain ⟨vs2, hk2, hs2⟩ := this
    obtain ⟨vs1, hk1, hs1⟩ := ih h2 k vs2 hk2
    exact ⟨vs1, hk1, fun x hx => hs1 x (hs2 x hx)⟩

/-- `ALTER TYPE name ADD VALUE v` on the values of a type in their order of comparison: `v` comes last. -/
def addValueOrdered (vs : List Text) : Stmt → List Text
  | .addValue _ v => vs ++ [v]
  | _ => vs

/-- The order of comparison of the values afterwards: the old values keep their order and come first.  So it is the
    target's order iff the target lists the old values first and in the old order. -/
theorem C07_order {s u : EnumType} {stmts : List Stmt} (h : mutateEnum s u = .ok stmts) :
    stmts.foldl addValueOrdered s.values = s.values ++ u.values.filter (fun v => !s.values.contains v)
    ∧ (stmts.foldl addValueOrdered s.values = u.values ↔ s.values <+: u.values ∧ u.values.Nodup ∨
        s.values <+: u.values ∧ ∀ v ∈ u.values.drop s.values.length, v ∉ s.values) := by
  obtain ⟨_, hsub, rfl⟩ := mutateEnum_ok h
  have e : ∀ (l : List Text) (vs : List Text),
      (l.map (fun v => Stmt.addValue s.name v)).foldl addValueOrdered vs = vs ++ l := by
    intro l
    induction l with
    | nil => intro vs; simp
    | cons a l ih => intro vs; simp [ih, addValueOrdered]
  rw [e]
  refine ⟨rfl, ?_⟩
  have key : s.values ++ u.values.filter (fun v => !s.values.contains v) = u.values
      ↔ s.values <+: u.values ∧ ∀ v ∈ u.values.drop s.values.length, v ∉ s.values := by
    constructor
    · intro e
      refine ⟨⟨_, e⟩, ?_⟩
      rw [← e, List.drop_left]
      intro v hv
      simpa using (List.mem_filter.1 hv).2
    · rintro ⟨⟨l, hl⟩, hd⟩
      rw [← hl, List.drop_left] at hd
      rw [← hl, List.filter_append]
      have e1 : s.values.filter (fun v => !s.values.contains v) = [] := by
        rw [List.filter_eq_nil_iff]; intro v hv; simpa using hv
      have e2 : l.filter (fun v => !s.values.contains v) = l := by
        rw [List.filter_eq_self]; intro v hv; simpa using hd v hv
      rw [e1, e2, List.nil_append]
  rw [key]
  constructor
  · exact Or.inr
  · rintro (⟨hp, hn⟩ | h)
    · refine ⟨hp, ?_⟩
      obtain ⟨l, hl⟩ := hp
      rw [← hl, List.drop_left]
      rw [← hl, List.nodup_append] at hn
      intro v hv hs
      exact hn.2.2 v hs v hv rfl
    · exact h

/-- A case with values missing in the middle. -/
example : mutateEnum ⟨Example.q "s" "e", [t "a", t "c"]⟩ ⟨Example.q "s" "e", [t "a", t "b", t "c", t "d"]⟩
    = .ok [.addValue (Example.q "s" "e") (t "b"), .addValue (Example.q "s" "e") (t "d")] :=
  Example.ok_of_toOption (by decide +kernel)

example : mutateEnum ⟨Example.q "s" "e", [t "a", t "c"]⟩ ⟨Example.q "s" "e", [t "a"]⟩ = .error .formation :=
  (C07_refused_iff (s := ⟨Example.q "s" "e", [t "a", t "c"]⟩) (u := ⟨Example.q "s" "e", [t "a"]⟩) rfl).2
    ⟨t "c", by decide +kernel, by decide +kernel⟩

end PySqlSync
