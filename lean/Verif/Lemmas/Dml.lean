/-
Facts about the statements that change data.
-/
import Verif.Spec.Dml
import Verif.Props.C22

set_option autoImplicit false

namespace PySqlSync
open Spec

variable {V : Type} [DecidableEq V]

theorem consistent_iff {tb : Table} : ∀ {rows : List (DataRow V)}, consistent tb rows = true ↔
    (∀ r ∈ rows, notNull tb r = true) ∧ rows.Pairwise (fun r s => clash tb r s = false ∧ clash tb s r = false) := by
  intro rows
  induction rows with
  | nil => simp [consistent]
  | cons r rest ih =>
    unfold consistent
    simp only [Bool.and_eq_true, List.all_eq_true, Bool.not_eq_true', ih, List.mem_cons, forall_eq_or_imp,
      List.pairwise_cons]
    constructor
    · rintro ⟨⟨a, b⟩, c, d⟩; exact ⟨⟨a, c⟩, b, d⟩
    · rintro ⟨⟨a, c⟩, b, d⟩; exact ⟨⟨a, b⟩, c, d⟩

theorem agreeOn_iff {cols : List Text} {a b : DataRow V} :
    agreeOn cols a b = true ↔ ∀ c ∈ cols, ∃ v, a c = some v ∧ b c = some v := by
  unfold agreeOn
  rw [List.all_eq_true]
  constructor
  · intro h c hc
    have := h c hc
    simp only [Bool.and_eq_true, decide_eq_true_eq] at this
    obtain ⟨h1, h2⟩ := this
    obtain ⟨v, hv⟩ := Option.isSome_iff_exists.1 h1
    exact ⟨v, hv, by rw [← h2, hv]⟩
  · intro h c hc
    obtain ⟨v, h1, h2⟩ := h c hc
    simp [h1, h2]

theorem clash_of_unique {tb : Table} {cols : List Text} (h : cols ∈ uniqueSets tb) {a b : DataRow V}
    (hab : agreeOn cols a b = true) : clash tb a b = true := by
  unfold clash
  rw [List.any_eq_true]
  exact ⟨cols, h, hab⟩

/-- Two rows of a consistent table that agree on a unique key are the same row. -/
theorem same_row {tb : Table} {rows : List (DataRow V)} (hc : consistent tb rows = true) {cols : List Text}
    (hu : cols ∈ uniqueSets tb) {a b : DataRow V} (ha : a ∈ rows) (hb : b ∈ rows) (hab : agreeOn cols a b = true) : a = b := by
  have hp := (consistent_iff.1 hc).2
  have : ∀ (rows : List (DataRow V)), rows.Pairwise (fun r s => clash tb r s = false ∧ clash tb s r = false) →
      a ∈ rows → b ∈ rows → a = b := by
    intro rows
    induction rows with
    | nil => intro _ h; cases h
    | cons r rest ih =>
      intro hp ha hb
      rw [List.pairwise_cons] at hp
      have hcl := clash_of_unique hu hab
      rcases List.mem_cons.1 ha with ea | ha' <;> rcases List.mem_cons.1 hb with eb | hb'
      · rw [ea, eb]
      · rw [ea, (hp.1 b hb').1] at hcl; cases hcl
      · rw [eb, (hp.1 a ha').2] at hcl; cases hcl
      · exact ih hp.2 ha' hb'
  exact this rows hp ha hb

theorem checked_some {tb : Table} {rows rows' : List (DataRow V)} (h : checked tb rows = some rows') :
    rows' = rows ∧ consistent tb rows = true := by
  unfold checked at h
  split at h
  · cases h; exact ⟨rfl, by assumption⟩
  · cases h

/-- A statement leaves a consistent table consistent. -/
theorem exec_consistent {tb : Table} {dflt : DataRow V} {gen : Text → V} {rows rows' : List (DataRow V)} {s : Dml}
    {values : Record V} (hc : consistent tb rows = true) (h : exec tb dflt gen rows s values = some rows') :
    consistent tb rows' = true := by
  have hck : ∀ {l l' : List (DataRow V)}, checked tb l = some l' → consistent tb l' = true := by
    intro l l' e; obtain ⟨rfl, hh⟩ := checked_some e; exact hh
  unfold exec at h
  split at h
  · cases h
  · cases s <;> dsimp only at h
    · exact hck h
    · split at h
      · split at h
        · cases h; exact hc
        · cases h
      · exact hck h
    · split at h
      · split at h
        · cases h; exact hc
        · cases h
      · exact hck h
    · split at h
      · split at h
        · exact hck h
        · cases h
      · exact hck h
    · split at h
      · cases h; exact hc
      · exact hck h
    · split at h
      · split at h
        · exact hck h
        · cases h
      · exact hck h
    · split at h
      · cases h
      · split at h
        · split at h
          · cases h; exact hc
          · exact hck h
        · split at h
          · cases h; exact hc
          · exact hck h
    · cases h
      rw [consistent_iff] at hc ⊢
      exact ⟨fun r hr => hc.1 r (List.mem_filter.1 hr).1, hc.2.sublist List.filter_sublist⟩

theorem execAll_consistent {tb : Table} {dflt : DataRow V} {rows rows' : List (DataRow V)} {s : Dml}
    {records : List (Record V)} (hc : consistent tb rows = true) (h : ExecAll tb dflt s rows records rows') :
    consistent tb rows' = true := by
  induction h with
  | nil => exact hc
  | cons gen he _ ih => exact ih (exec_consistent hc he)

omit [DecidableEq V] in
/-- Updating the first row that satisfies a condition is updating all of them if there is at most one. -/
theorem updateFirst_eq_map {p : DataRow V → Bool} {f : DataRow V → DataRow V} : ∀ {rows : List (DataRow V)},
    rows.Pairwise (fun a b => ¬ (p a = true ∧ p b = true)) →
    updateFirst p f rows = rows.map (fun m => if p m then f m else m) := by
  intro rows
  induction rows with
  | nil => intro _; rfl
  | cons r rest ih =>
    intro h
    rw [List.pairwise_cons] at h
    unfold updateFirst
    split
    · rename_i hr
      simp only [List.map_cons, hr, if_true]
      congr 1
      symm
      have : ∀ m ∈ rest, (fun m => if p m then f m else m) m = m := by
        intro m hm
        have := h.1 m hm
        simp only [hr, true_and] at this
        simp [this]
      conv => rhs; rw [← List.map_id rest]
      exact List.map_congr_left this
    · rename_i hr
      simp only [List.map_cons, hr]
      rw [ih h.2]
      simp

theorem agreeOn_symm {cols : List Text} {a b : DataRow V} (h : agreeOn cols a b = true) : agreeOn cols b a = true := by
  rw [agreeOn_iff] at h ⊢
  intro c hc
  obtain ⟨v, h1, h2⟩ := h c hc
  exact ⟨v, h2, h1⟩

theorem agreeOn_trans {cols : List Text} {a b c : DataRow V} (h : agreeOn cols a b = true) (h' : agreeOn cols b c = true) :
    agreeOn cols a c = true := by
  rw [agreeOn_iff] at h h' ⊢
  intro x hx
  obtain ⟨v, h1, h2⟩ := h x hx
  obtain ⟨w, h3, h4⟩ := h' x hx
  rw [h2] at h3; cases h3
  exact ⟨v, h1, h4⟩

/-- At most one row of a consistent table has a given unique key. -/
theorem at_most_one {tb : Table} {rows : List (DataRow V)} (hc : consistent tb rows = true) {cols : List Text}
    (hu : cols ∈ uniqueSets tb) (r : DataRow V) :
    rows.Pairwise (fun a b => ¬ (agreeOn cols r a = true ∧ agreeOn cols r b = true)) := by
  refine (consistent_iff.1 hc).2.imp ?_
  intro a b ⟨h1, _⟩ ⟨ha, hb⟩
  rw [clash_of_unique hu (agreeOn_trans (agreeOn_symm ha) hb)] at h1
  cases h1

theorem primary_unique (tb : Table) : tb.primaryKey ∈ uniqueSets tb := by
  unfold uniqueSets; exact List.mem_cons_self

/-- What a statement that only inserts does. -/
theorem merge_prefix {w : Writer} {tb : Table} {order : Option (List Text)} {s : Dml} (hs : mergeStmt w tb order = .ok s)
    {dflt : DataRow V} {gen : Text → V} {rows rows' : List (DataRow V)} {values : Record V}
    (h : exec tb dflt gen rows s values = some rows') : rows <+: rows' := by
  have hck : ∀ {l l' : List (DataRow V)}, checked tb (rows ++ l) = some l' → rows <+: l' := by
    intro l l' e; obtain ⟨rfl, _⟩ := checked_some e; exact List.prefix_append ..
  unfold mergeStmt at hs
  simp only [bind, Except.bind] at hs
  split at hs
  · cases hs
  · unfold exec at h
    split at h
    · cases h
    · cases w <;> dsimp only [pure, Except.pure] at hs
      · split at hs
        · cases hs
        · cases hs
          dsimp only at h
          split at h
          · cases h
          · split at h
            · simp only [if_true] at h
              cases h; exact List.prefix_refl _
            · split at h
              · cases h; exact List.prefix_refl _
              · exact hck h
      · cases hs
        dsimp only at h
        split at h
        · split at h
          · cases h; exact List.prefix_refl _
          · cases h
        · exact hck h
      · cases hs
        dsimp only at h
        split at h
        · cases h; exact List.prefix_refl _
        · exact hck h

theorem merge_prefix_all {w : Writer} {tb : Table} {order : Option (List Text)} {s : Dml} (hs : mergeStmt w tb order = .ok s)
    {dflt : DataRow V} {rows rows' : List (DataRow V)} {records : List (Record V)}
    (h : ExecAll tb dflt s rows records rows') : rows <+: rows' := by
  induction h with
  | nil => exact List.prefix_refl _
  | cons gen he _ ih => exact (merge_prefix hs he).trans ih

end PySqlSync
