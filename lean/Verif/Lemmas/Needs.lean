/-
Helper lemmas: what can be said about a run of table actions that succeeded.
-/
import Verif.Lemmas.Db
import Verif.Lemmas.Exec
import Verif.Lemmas.Rows

set_option autoImplicit false

namespace PySqlSync
open Spec

namespace Need

variable {E : Engine} {P : TableState → Prop}

theorem append_inv {a c : TableState} {l1 l2 : List Action} (h : ActRun E P a (l1 ++ l2) c) :
    ∃ b, ActRun E P a l1 b ∧ ActRun E P b l2 c := by
  induction l1 generalizing a with
  | nil => exact ⟨a, .nil _, h⟩
  | cons x l1 ih =>
    cases h with
    | cons h1 h2 h3 =>
      obtain ⟨b, k1, k2⟩ := ih h3
      exact ⟨b, .cons h1 h2 k1, k2⟩

theorem cons_inv {a c : TableState} {x : Action} {l : List Action} (h : ActRun E P a (x :: l) c) :
    ∃ b, stepAction E a x = some b ∧ P b ∧ ActRun E P b l c := by
  cases h with
  | cons h1 h2 h3 => exact ⟨_, h1, h2, h3⟩

/-- A property kept by each action of a run. -/
theorem keep {Q : TableState → Prop} {a c : TableState} {l : List Action} (h : ActRun E P a l c)
    (hs : ∀ x ∈ l, ∀ ts ts', Q ts → stepAction E ts x = some ts' → Q ts') (h0 : Q a) : Q c := by
  induction h with
  | nil => exact h0
  | cons h1 _ _ ih =>
    exact ih (fun x hx => hs x (List.mem_cons_of_mem _ hx)) (hs _ (List.mem_cons_self ..) _ _ h0 h1)

/-- A property kept by each action of a run and under which some actions are refused. -/
theorem never {Q : TableState → Prop} {a c : TableState} {l : List Action} (h : ActRun E P a l c)
    (hs : ∀ x ∈ l, ∀ ts ts', Q ts → stepAction E ts x = some ts' → Q ts') (h0 : Q a) {y : Action} (hy : y ∈ l)
    (hno : ∀ ts, Q ts → stepAction E ts y = none) : False := by
  obtain ⟨p, s, rfl⟩ := List.append_of_mem hy
  obtain ⟨b, k1, k2⟩ := append_inv h
  obtain ⟨b', k3, _, _⟩ := cons_inv k2
  have := keep k1 (fun x hx => hs x (List.mem_append_left _ hx)) h0
  rw [hno b this] at k3
  cases k3

theorem onCol_inv {ts ts' : TableState} {n : Text} {f : ColState → Option ColState} (h : ts.onCol n f = some ts') :
    ∃ c c', ts.cols n = some c ∧ f c = some c' ∧ ts' = { ts with cols := upd ts.cols n (some c') } := by
  unfold TableState.onCol at h
  cases hc : ts.cols n with
  | none => simp [hc] at h
  | some c =>
    simp only [hc, Option.map_eq_some_iff] at h
    obtain ⟨c', h1, h2⟩ := h
    exact ⟨c, c', rfl, h1, h2.symm⟩

theorem dropCol_inv {ts ts' : TableState} {n : Text} (h : ts.dropCol E n = some ts') :
    ts' = { ts with
      cols := upd ts.cols n none
      pk := if E.cascadeDrop && ts.pk.contains n then [] else ts.pk
      cons := if E.cascadeDrop then (fun m => (ts.cons m).filter (fun c => !c.cols.contains n)) else ts.cons } := by
  unfold TableState.dropCol at h
  cases hc : ts.cols n with
  | none => simp [hc] at h
  | some c => simp only [hc, Option.some.injEq] at h; exact h.symm

/-- The column that an action changes the definition of. -/
def colOf : Action → Option Text
  | .setDataType n _ | .setNotNull n | .dropNotNull n | .setDefault n _ | .dropDefault n | .addIdentity n
  | .dropIdentity n | .redefine n _ | .modify n _ _ _ _ | .retype n _ _ => some n
  | _ => none

/-- What an action does to primary key, constraints and names of defaults. -/
inductive Effect (E : Engine) (ts ts' : TableState) : Action → Prop where
  | add (n : Text) (spec : ColSpec) (hn : ts.cols n = none) (hc : ts'.cols = upd ts.cols n (some (Spec.ColSpec.state spec)))
      (hp : ts'.pk = ts.pk) (hk : ts'.cons = ts.cons)
      (hd : (spec.defaultName = none ∧ ts'.dfs = ts.dfs)
        ∨ ∃ df, spec.defaultName = some df ∧ ts.dfs df = none ∧ ts'.dfs = upd ts.dfs df (some n)) :
      Effect E ts ts' (.addColumn n spec)
  | drop (n : Text) (hc : ts'.cols = upd ts.cols n none)
      (hp : ts'.pk = if E.cascadeDrop && ts.pk.contains n then [] else ts.pk)
      (hk : ts'.cons = if E.cascadeDrop then (fun m => (ts.cons m).filter (fun c => !c.cols.contains n)) else ts.cons)
      (hd : ts'.dfs = ts.dfs) : Effect E ts ts' (.dropColumn n)
  | dropBoth (df n : Text) (hc : ts'.cols = upd ts.cols n none)
      (hp : ts'.pk = if E.cascadeDrop && ts.pk.contains n then [] else ts.pk)
      (hk : ts'.cons = if E.cascadeDrop then (fun m => (ts.cons m).filter (fun c => !c.cols.contains n)) else ts.cons)
      (hd : ts'.dfs = upd ts.dfs df none) : Effect E ts ts' (.dropDefaultAndColumn df n)
  | rename (old new : Text) (spec : ColSpec) (c : ColState) (ho : ts.cols old = some c) (hn : ts.cols new = none)
      (hc : ts'.cols = upd (upd ts.cols old none) new (some c))
      (hp : ts'.pk = ts.pk.map (fun n => if n = old then new else n))
      (hk : ∀ m, ts'.cons m = (ts.cons m).map (ConState.mapCols (fun n => if n = old then new else n)))
      (hd : ∀ m, ts'.dfs m = (ts.dfs m).map (fun n => if n = old then new else n)) :
      Effect E ts ts' (.renameColumn old new spec)
  | col (n : Text) (f : ColState → Option ColState) (c c' : ColState) (x : Action)
      (hcol : colOf x = some n) (hx : ∀ ts, stepAction E ts x = TableState.onCol ts n f) (ho : ts.cols n = some c) (hf : f c = some c')
      (hc : ts'.cols = upd ts.cols n (some c')) (hp : ts'.pk = ts.pk) (hk : ts'.cons = ts.cons) (hd : ts'.dfs = ts.dfs) :
      Effect E ts ts' x
  | addDf (df e n : Text) (c : ColState) (ho : ts.cols n = some c) (hi : c.identity = false)
      (hc : ts'.cols = upd ts.cols n (some { c with default := some e })) (hp : ts'.pk = ts.pk) (hk : ts'.cons = ts.cons)
      (hd : ts'.dfs = upd ts.dfs df (some n)) : Effect E ts ts' (.addDefault df e n)
  | addCon (n : Text) (spec : ConSpec) (hc : ts'.cols = ts.cols) (hp : ts'.pk = ts.pk)
      (hk : ∀ m, m ≠ n → ts'.cons m = ts.cons m) (hd : ts'.dfs = ts.dfs) : Effect E ts ts' (.addConstraint n spec)
  | dropDf (n m : Text) (c : ColState) (hm : ts.dfs n = some m) (ho : ts.cols m = some c)
      (hc : ts'.cols = upd ts.cols m (some { c with default := none })) (hp : ts'.pk = ts.pk) (hk : ts'.cons = ts.cons)
      (hd : ts'.dfs = upd ts.dfs n none) : Effect E ts ts' (.dropConstraint n)
  | dropCon (n : Text) (hm : ts.dfs n = none) (ho : (ts.cons n).isSome) (hc : ts'.cols = ts.cols) (hp : ts'.pk = ts.pk)
      (hk : ts'.cons = upd ts.cons n none) (hd : ts'.dfs = ts.dfs) : Effect E ts ts' (.dropConstraint n)

theorem effect {ts ts' : TableState} {x : Action} (h : stepAction E ts x = some ts') : Effect E ts ts' x := by
  have hcol : ∀ (n : Text) (f : ColState → Option ColState), colOf x = some n → (∀ ts, stepAction E ts x = TableState.onCol ts n f) →
      Effect E ts ts' x := by
    intro n f hcol hx
    rw [hx] at h
    obtain ⟨c, c', h1, h2, rfl⟩ := onCol_inv h
    exact .col n f c c' x hcol hx h1 h2 rfl rfl rfl rfl
  cases x with
  | addColumn n spec =>
    simp only [stepAction] at h
    split at h
    · cases h
    · rename_i hn
      have hn' : ts.cols n = none := by simpa using hn
      split at h
      · rename_i hd
        cases h
        exact .add n spec hn' rfl rfl rfl (.inl ⟨hd, rfl⟩)
      · rename_i df hd
        split at h
        · cases h
        · rename_i hdf
          cases h
          refine .add n spec hn' rfl rfl rfl (.inr ⟨df, hd, ?_, rfl⟩)
          simp at hdf
          exact hdf.2
  | dropColumn n =>
    have := dropCol_inv h
    subst this
    exact .drop n rfl rfl rfl rfl
  | dropDefaultAndColumn df n =>
    simp only [stepAction] at h
    split at h
    · have := dropCol_inv h
      subst this
      exact .dropBoth df n rfl rfl rfl rfl
    · cases h
  | renameColumn old new spec =>
    simp only [stepAction] at h
    split at h
    · cases h
    · rename_i c hc
      split at h
      · cases h
      · rename_i hn
        cases h
        exact .rename old new spec c hc (by simpa using hn) rfl rfl (fun _ => rfl) (fun _ => rfl)
  | addDefault df e n =>
    simp only [stepAction] at h
    split at h
    · cases h
    · split at h
      · cases h
      · rename_i c hc
        split at h
        · cases h
        · rename_i hi
          cases h
          simp at hi
          exact .addDf df e n c hc hi.2 rfl rfl rfl rfl
  | addConstraint n spec =>
    simp only [stepAction] at h
    split at h
    · cases h
    · cases h
      exact .addCon n spec rfl rfl (fun m hm => upd_ne _ _ _ _ hm) rfl
  | dropConstraint n =>
    simp only [stepAction] at h
    split at h
    · rename_i m hm
      split at h
      · rename_i c hc
        cases h
        exact .dropDf n m c hm hc rfl rfl rfl rfl
      · cases h
    · rename_i hm
      split at h
      · rename_i c hc
        cases h
        exact .dropCon n hm (by rw [hc]; rfl) rfl rfl rfl rfl
      · cases h
  | setDataType n ty => exact hcol n _ rfl (fun _ => rfl)
  | setNotNull n => exact hcol n _ rfl (fun _ => rfl)
  | dropNotNull n => exact hcol n _ rfl (fun _ => rfl)
  | setDefault n e => exact hcol n _ rfl (fun _ => rfl)
  | dropDefault n => exact hcol n _ rfl (fun _ => rfl)
  | addIdentity n => exact hcol n _ rfl (fun _ => rfl)
  | dropIdentity n => exact hcol n _ rfl (fun _ => rfl)
  | redefine n spec => exact hcol n _ rfl (fun _ => rfl)
  | modify n ty dflt nullable identity => exact hcol n _ rfl (fun _ => rfl)
  | retype n ty notNull => exact hcol n _ rfl (fun _ => rfl)

/-- The primary key at the end, if there is one, is the one at first, unless a column of it was renamed. -/
theorem back_pk {a c : TableState} {l : List Action} (h : ActRun E P a l c) {p : List Text} (hc : c.pk = p) (hp : p ≠ [])
    (hr : ∀ old new spec, .renameColumn old new spec ∈ l → new ∉ p) :
    a.pk = p ∧ ∀ old new spec, .renameColumn old new spec ∈ l → old ∉ p := by
  induction h with
  | nil => exact ⟨hc, fun _ _ _ h => by cases h⟩
  | @cons ts ts1 ts' x rest h1 _ _ ih =>
    obtain ⟨k1, k2⟩ := ih hc (fun o n s hm => hr o n s (List.mem_cons_of_mem _ hm))
    have hx : ts.pk = p ∧ ∀ old new spec, x = .renameColumn old new spec → old ∉ p := by
      have hd : ∀ (n : Text), ts1.pk = (if E.cascadeDrop && ts.pk.contains n then [] else ts.pk) → ts.pk = p := by
        intro n hp'
        rw [k1] at hp'
        split at hp'
        · exact absurd hp' hp
        · exact hp'.symm
      cases effect h1 with
      | add n spec hn hc hp' hk hd => exact ⟨hp' ▸ k1, fun _ _ _ e => by cases e⟩
      | drop n hc hp' hk _ => exact ⟨hd n hp', fun _ _ _ e => by cases e⟩
      | dropBoth df n hc hp' hk _ => exact ⟨hd n hp', fun _ _ _ e => by cases e⟩
      | rename old new spec c ho hn hc hp' hk hd =>
        have hnew := hr old new spec (List.mem_cons_self ..)
        rw [k1] at hp'
        have hold : old ∉ ts.pk := by
          intro hm
          apply hnew
          rw [hp']
          exact List.mem_map.2 ⟨old, hm, by simp⟩
        have e : ts.pk.map (fun n => if n = old then new else n) = ts.pk := by
          conv => rhs; rw [← List.map_id ts.pk]
          apply List.map_congr_left
          intro y hy
          have : y ≠ old := fun e => hold (e ▸ hy)
          simp [this]
        have e' : ts.pk = p := by rw [hp', e]
        refine ⟨e', fun o n s e2 => ?_⟩
        cases e2
        rw [← e']; exact hold
      | col n f c c' x hcol hx ho hf hc hp' hk hd => exact ⟨hp' ▸ k1, fun _ _ _ e => by subst e; cases hcol⟩
      | addDf df e n c ho hi hc hp' hk hd => exact ⟨hp' ▸ k1, fun _ _ _ e => by cases e⟩
      | addCon n spec hc hp' hk hd => exact ⟨hp' ▸ k1, fun _ _ _ e => by cases e⟩
      | dropDf n m c hm ho hc hp' hk hd => exact ⟨hp' ▸ k1, fun _ _ _ e => by cases e⟩
      | dropCon n hm ho hc hp' hk hd => exact ⟨hp' ▸ k1, fun _ _ _ e => by cases e⟩
    refine ⟨hx.1, fun o n s hm => ?_⟩
    rcases List.mem_cons.1 hm with e | hm
    · exact hx.2 o n s e.symm
    · exact k2 o n s hm

/-- A constraint at the end was there at first, unless it was added or a column of it was renamed. -/
theorem back_con {a c : TableState} {l : List Action} (h : ActRun E P a l c) {m : Text} {y : ConState}
    (hc : c.cons m = some y) (ha : ∀ spec, .addConstraint m spec ∉ l)
    (hr : ∀ old new spec, .renameColumn old new spec ∈ l → new ∉ y.cols) :
    a.cons m = some y ∧ ∀ old new spec, .renameColumn old new spec ∈ l → old ∉ y.cols := by
  induction h with
  | nil => exact ⟨hc, fun _ _ _ h => by cases h⟩
  | @cons ts ts1 ts' x rest h1 _ _ ih =>
    obtain ⟨k1, k2⟩ := ih hc (fun s hm => ha s (List.mem_cons_of_mem _ hm))
      (fun o n s hm => hr o n s (List.mem_cons_of_mem _ hm))
    have hx : ts.cons m = some y ∧ ∀ old new spec, x = .renameColumn old new spec → old ∉ y.cols := by
      have hd : ∀ (n : Text), ts1.cons = (if E.cascadeDrop then
          (fun m => (ts.cons m).filter (fun c => !c.cols.contains n)) else ts.cons) → ts.cons m = some y := by
        intro n hk
        rw [hk] at k1
        split at k1
        · cases hm : ts.cons m with
          | none => simp [hm] at k1
          | some z =>
            simp only [hm, Option.filter] at k1
            split at k1
            · exact k1
            · cases k1
        · exact k1
      cases effect h1 with
      | add n spec hn hc hp' hk hd => exact ⟨hk ▸ k1, fun _ _ _ e => by cases e⟩
      | drop n hc hp' hk _ => exact ⟨hd n hk, fun _ _ _ e => by cases e⟩
      | dropBoth df n hc hp' hk _ => exact ⟨hd n hk, fun _ _ _ e => by cases e⟩
      | rename old new spec c ho hn hc hp' hk hd =>
        have hnew := hr old new spec (List.mem_cons_self ..)
        rw [hk] at k1
        simp only [Option.map_eq_some_iff] at k1
        obtain ⟨z, hz, k1⟩ := k1
        have hold : old ∉ z.cols := by
          intro hm
          apply hnew
          rw [← k1, mapCols_cols]
          exact List.mem_map.2 ⟨old, hm, by simp⟩
        have e : z.mapCols (fun n => if n = old then new else n) = z := by
          apply mapCols_eq_self
          intro n hn
          exact if_neg (fun (e : n = old) => hold (e ▸ hn))
        rw [e] at k1
        subst k1
        refine ⟨hz, fun o n s e2 => ?_⟩
        cases e2
        exact hold
      | col n f c c' x hcol hx ho hf hc hp' hk hd => exact ⟨hk ▸ k1, fun _ _ _ e => by subst e; cases hcol⟩
      | addDf df e n c ho hi hc hp' hk hd => exact ⟨hk ▸ k1, fun _ _ _ e => by cases e⟩
      | addCon n spec hc hp' hk hd =>
        have hne : m ≠ n := by rintro rfl; exact ha spec (List.mem_cons_self ..)
        exact ⟨hk m hne ▸ k1, fun _ _ _ e => by cases e⟩
      | dropDf n m c hm ho hc hp' hk hd => exact ⟨hk ▸ k1, fun _ _ _ e => by cases e⟩
      | dropCon n hm ho hc hp' hk hd =>
        refine ⟨?_, fun _ _ _ e => by cases e⟩
        rw [hk] at k1
        by_cases e : m = n
        · subst e; rw [upd_same] at k1; cases k1
        · rwa [upd_ne _ _ _ _ e] at k1
    refine ⟨hx.1, fun o n s hm => ?_⟩
    rcases List.mem_cons.1 hm with e | hm
    · exact hx.2 o n s e.symm
    · exact k2 o n s hm

/-- The table has a constraint of that name, and it involves column `z`. -/
def Has (m z : Text) (ts : TableState) : Prop := ∃ y, ts.cons m = some y ∧ z ∈ y.cols

/-- A constraint that involves a column keeps involving it, or is gone. -/
theorem keep_has {ts ts' : TableState} {x : Action} {m z : Text} (h : stepAction E ts x = some ts')
    (ha : ∀ spec, x ≠ .addConstraint m spec) (hr : ∀ new spec, x ≠ .renameColumn z new spec)
    (h0 : ts.cons m = none ∨ Has m z ts) : ts'.cons m = none ∨ Has m z ts' := by
  have same : ts'.cons m = ts.cons m → ts'.cons m = none ∨ Has m z ts' := by
    intro e
    rcases h0 with h0 | ⟨y, hy, hz⟩
    · exact .inl (e.trans h0)
    · exact .inr ⟨y, e.trans hy, hz⟩
  have hd : ∀ (n : Text), ts'.cons = (if E.cascadeDrop then
      (fun m => (ts.cons m).filter (fun c => !c.cols.contains n)) else ts.cons) → ts'.cons m = none ∨ Has m z ts' := by
    intro n hk
    split at hk
    · have hk := congrFun hk m
      rcases h0 with h0 | ⟨y, hy, hz⟩
      · exact .inl (by rw [hk, h0]; rfl)
      · simp only [hy, Option.filter] at hk
        split at hk
        · exact .inr ⟨y, hk, hz⟩
        · exact .inl hk
    · exact same (by rw [hk])
  cases effect h with
  | add n spec hn hc hp' hk hd => exact same (by rw [hk])
  | drop n hc hp' hk _ => exact hd n hk
  | dropBoth df n hc hp' hk _ => exact hd n hk
  | rename old new spec c ho hn hc hp' hk _ =>
    rcases h0 with h0 | ⟨y, hy, hz⟩
    · exact .inl (by rw [hk, h0]; rfl)
    · refine .inr ⟨_, by rw [hk, hy]; rfl, ?_⟩
      rw [mapCols_cols]
      exact List.mem_map.2 ⟨z, hz, if_neg (fun e => hr new spec (by rw [e]))⟩
  | col n f c c' x hcol hx ho hf hc hp' hk hd => exact same (by rw [hk])
  | addDf df e n c ho hi hc hp' hk hd => exact same (by rw [hk])
  | addCon n spec hc hp' hk hd => exact same (hk m (by rintro rfl; exact ha spec rfl))
  | dropDf n _ c hm ho hc hp' hk hd => exact same (by rw [hk])
  | dropCon n hm ho hc hp' hk hd =>
    by_cases e : m = n
    · subst e; exact .inl (by rw [hk, upd_same])
    · exact same (by rw [hk, upd_ne _ _ _ _ e])

/-- Unless it cannot be: only dropping the constraint or (in some engines) a column removes a constraint. -/
theorem keep_has' {ts ts' : TableState} {x : Action} {m z : Text} (h : stepAction E ts x = some ts')
    (hE : E.cascadeDrop = false) (hd : x ≠ .dropConstraint m) (ha : ∀ spec, x ≠ .addConstraint m spec)
    (hr : ∀ new spec, x ≠ .renameColumn z new spec) (h0 : Has m z ts) : Has m z ts' := by
  rcases keep_has h ha hr (.inr h0) with k | k
  · exfalso
    obtain ⟨y, hy, hz⟩ := h0
    have absurdly : ts'.cons m = ts.cons m → False := by intro e; rw [k, hy] at e; cases e
    cases effect h with
    | add n spec hn hc hp' hk hd => exact absurdly (by rw [hk])
    | drop n hc hp' hk _ => exact absurdly (by rw [hk, hE]; rfl)
    | dropBoth df n hc hp' hk _ => exact absurdly (by rw [hk, hE]; rfl)
    | rename old new spec c ho hn hc hp' hk _ => rw [hk, hy] at k; cases k
    | col n f c c' x hcol hx ho hf hc hp' hk hd => exact absurdly (by rw [hk])
    | addDf df e n c ho hi hc hp' hk hd => exact absurdly (by rw [hk])
    | addCon n spec hc hp' hk _ => exact absurdly (hk m (by rintro rfl; exact ha spec rfl))
    | dropDf n _ c hm ho hc hp' hk _ => exact absurdly (by rw [hk])
    | dropCon n hm ho hc hp' hk _ =>
      exact absurdly (by rw [hk, upd_ne _ _ _ _ (by rintro rfl; exact hd rfl)])
  · exact k

/-- Renaming the column makes the constraint involve the new name. -/
theorem has_rename {ts ts' : TableState} {m z new : Text} {spec : ColSpec}
    (h : stepAction E ts (.renameColumn z new spec) = some ts') (h0 : Has m z ts) : Has m new ts' := by
  obtain ⟨y, hy, hz⟩ := h0
  cases effect h with
  | rename _ _ _ c ho hn hc hp' hk _ =>
    refine ⟨_, by rw [hk, hy]; rfl, ?_⟩
    rw [mapCols_cols]
    exact List.mem_map.2 ⟨z, hz, by simp⟩
  | col n f c c' x hcol => cases hcol

/-- An absent constraint stays so unless added. -/
theorem keep_none {ts ts' : TableState} {x : Action} {m : Text} (h : stepAction E ts x = some ts')
    (ha : ∀ spec, x ≠ .addConstraint m spec) (h0 : ts.cons m = none) : ts'.cons m = none := by
  have hd : ∀ (n : Text), ts'.cons = (if E.cascadeDrop then
      (fun m => (ts.cons m).filter (fun c => !c.cols.contains n)) else ts.cons) → ts'.cons m = none := by
    intro n hk
    rw [hk]
    split
    · show Option.filter _ (ts.cons m) = none
      rw [h0]; rfl
    · exact h0
  cases effect h with
  | add n spec hn hc hp' hk hd => rw [hk, h0]
  | drop n hc hp' hk _ => exact hd n hk
  | dropBoth df n hc hp' hk _ => exact hd n hk
  | rename old new spec c ho hn hc hp' hk _ => rw [hk, h0]; rfl
  | col n f c c' x hcol hx ho hf hc hp' hk hd => rw [hk, h0]
  | addDf df e n c ho hi hc hp' hk hd => rw [hk, h0]
  | addCon n spec hc hp' hk hd => rw [hk m (by rintro rfl; exact ha spec rfl), h0]
  | dropDf n _ c hm ho hc hp' hk hd => rw [hk, h0]
  | dropCon n hm ho hc hp' hk hd =>
    rw [hk]
    by_cases e : m = n
    · subst e; exact upd_same _ _ _
    · rw [upd_ne _ _ _ _ e, h0]

/-- Defaults have names only if they are given names. -/
theorem keep_noDf {ts ts' : TableState} {x : Action} (h : stepAction E ts x = some ts')
    (ha : ∀ n spec, x = .addColumn n spec → spec.defaultName = none) (hb : ∀ df e n, x ≠ .addDefault df e n)
    (h0 : ∀ m, ts.dfs m = none) : ∀ m, ts'.dfs m = none := by
  intro m
  have hu : ∀ k, (upd ts.dfs k none) m = none := by intro k; simp only [upd]; split <;> simp [h0]
  cases effect h with
  | add n spec hn hc hp' hk hd =>
    rcases hd with ⟨_, hd⟩ | ⟨df, e, _⟩
    · rw [hd, h0]
    · rw [ha n spec rfl] at e; cases e
  | drop n hc hp' hk hd => rw [hd, h0]
  | dropBoth df n hc hp' hk hd => rw [hd]; exact hu df
  | rename old new spec c ho hn hc hp' hk hd => rw [hd, h0]; rfl
  | col n f c c' x hcol hx ho hf hc hp' hk hd => rw [hd, h0]
  | addDf df e n c ho hi hc hp' hk hd => exact absurd rfl (hb df e n)
  | addCon n spec hc hp' hk hd => rw [hd, h0]
  | dropDf n _ c hm ho hc hp' hk hd => rw [h0] at hm; cases hm
  | dropCon n hm ho hc hp' hk hd => rw [hd, h0]

/-- The name of a default stays in use unless dropped. -/
theorem keep_df {ts ts' : TableState} {x : Action} {df : Text} (h : stepAction E ts x = some ts')
    (ha : x ≠ .dropConstraint df) (hb : ∀ n, x ≠ .dropDefaultAndColumn df n) (h0 : (ts.dfs df).isSome) :
    (ts'.dfs df).isSome := by
  have hu : ∀ k v, (v.isSome ∨ k ≠ df) → ((upd ts.dfs k v) df).isSome := by
    intro k v hv
    simp only [upd]
    split
    · rename_i e
      exact hv.resolve_right (fun h => h e.symm)
    · exact h0
  cases effect h with
  | add n spec hn hc hp' hk hd =>
    rcases hd with ⟨_, hd⟩ | ⟨k, e, _, hd⟩
    · rw [hd]; exact h0
    · rw [hd]; exact hu _ _ (.inl rfl)
  | drop n hc hp' hk hd => rw [hd]; exact h0
  | dropBoth k n hc hp' hk hd => rw [hd]; exact hu _ _ (.inr (by rintro rfl; exact hb n rfl))
  | rename old new spec c ho hn hc hp' hk hd => rw [hd]; simpa using h0
  | col n f c c' x hcol hx ho hf hc hp' hk hd => rw [hd]; exact h0
  | addDf k e n c ho hi hc hp' hk hd => rw [hd]; exact hu _ _ (.inl rfl)
  | addCon n spec hc hp' hk hd => rw [hd]; exact h0
  | dropDf n _ c hm ho hc hp' hk hd => rw [hd]; exact hu _ _ (.inr (by rintro rfl; exact ha rfl))
  | dropCon n hm ho hc hp' hk hd => rw [hd]; exact h0

/-- Some fact about the definition of a column stays, unless one of the actions about this column breaks it. -/
theorem keep_col {ts ts' : TableState} {x : Action} {n : Text} {R : ColState → Prop} (h : stepAction E ts x = some ts')
    (hdrop : x ≠ .dropColumn n) (hdrop2 : ∀ df, x ≠ .dropDefaultAndColumn df n)
    (hren : ∀ new spec, x ≠ .renameColumn n new spec)
    (hcol : colOf x = some n → ∀ f, (∀ ts, stepAction E ts x = TableState.onCol ts n f) →
      ∀ c c', f c = some c' → R c → R c')
    (hdf : ∀ c v, R c → (∀ df e m, x = .addDefault df e m → R { c with default := some v }))
    (hdf2 : ∀ c, R c → (∀ k m, x = .dropConstraint k → ts.dfs k = some m → R { c with default := none }))
    (h0 : ∃ c, ts.cols n = some c ∧ R c) : ∃ c, ts'.cols n = some c ∧ R c := by
  obtain ⟨c0, hc0, hR⟩ := h0
  cases effect h with
  | add m spec hn hc hp' hk hd =>
    have : n ≠ m := by rintro rfl; rw [hc0] at hn; cases hn
    exact ⟨c0, by rw [hc, upd_ne _ _ _ _ this, hc0], hR⟩
  | drop m hc hp' hk hd =>
    have : n ≠ m := by rintro rfl; exact hdrop rfl
    exact ⟨c0, by rw [hc, upd_ne _ _ _ _ this, hc0], hR⟩
  | dropBoth k m hc hp' hk hd =>
    have : n ≠ m := by rintro rfl; exact hdrop2 k rfl
    exact ⟨c0, by rw [hc, upd_ne _ _ _ _ this, hc0], hR⟩
  | rename old new spec c ho hn hc hp' hk hd =>
    have e1 : n ≠ old := by rintro rfl; exact hren new spec rfl
    have e2 : n ≠ new := by rintro rfl; rw [hc0] at hn; cases hn
    exact ⟨c0, by rw [hc, upd_ne _ _ _ _ e2, upd_ne _ _ _ _ e1, hc0], hR⟩
  | col m f c c' x hcl hx ho hf hc hp' hk hd =>
    by_cases e : n = m
    · subst e
      rw [hc0] at ho
      cases ho
      exact ⟨c', by rw [hc, upd_same], hcol hcl f hx _ _ hf hR⟩
    · exact ⟨c0, by rw [hc, upd_ne _ _ _ _ e, hc0], hR⟩
  | addDf k v m c ho hi hc hp' hk hd =>
    by_cases e : n = m
    · subst e
      rw [hc0] at ho
      cases ho
      exact ⟨_, by rw [hc, upd_same], hdf _ v hR _ _ _ rfl⟩
    · exact ⟨c0, by rw [hc, upd_ne _ _ _ _ e, hc0], hR⟩
  | addCon m spec hc hp' hk hd => exact ⟨c0, by rw [hc, hc0], hR⟩
  | dropDf k m c hm ho hc hp' hk hd =>
    by_cases e : n = m
    · subst e
      rw [hc0] at ho
      cases ho
      exact ⟨_, by rw [hc, upd_same], hdf2 _ hR _ _ rfl hm⟩
    · exact ⟨c0, by rw [hc, upd_ne _ _ _ _ e, hc0], hR⟩
  | dropCon k hm ho hc hp' hk hd => exact ⟨c0, by rw [hc, hc0], hR⟩

/-- The identity property of a column changes only by actions that are about it. -/
theorem keep_identity {ts ts' : TableState} {x : Action} {n : Text} {b : Bool} (h : stepAction E ts x = some ts')
    (hdrop : x ≠ .dropColumn n) (hdrop2 : ∀ df, x ≠ .dropDefaultAndColumn df n)
    (hren : ∀ new spec, x ≠ .renameColumn n new spec) (hadd : b = false → x ≠ .addIdentity n)
    (hno : b = true → x ≠ .dropIdentity n) (hre : ∀ spec, x ≠ .redefine n spec)
    (hmo : ∀ ty dflt nl i, x ≠ .modify n ty dflt nl i)
    (h0 : ∃ c, ts.cols n = some c ∧ c.identity = b) : ∃ c, ts'.cols n = some c ∧ c.identity = b := by
  refine keep_col (R := fun c => c.identity = b) h hdrop hdrop2 hren ?_ (fun _ _ h _ _ _ _ => h)
    (fun _ h _ _ _ _ => h) h0
  intro hcol f hf c c' hfc hR
  have hev : stepAction E ⟨fun m => if m = n then some c else none, [], fun _ => none, fun _ => none⟩ x
      = some ⟨upd (fun m => if m = n then some c else none) n (some c'), [], fun _ => none, fun _ => none⟩ := by
    rw [hf]; simp [TableState.onCol, hfc]
  have get : ∀ (g : ColState → Option ColState), (∀ ts, stepAction E ts x = TableState.onCol ts n g) → g c = some c' := by
    intro g hg
    rw [hg] at hev
    simp only [TableState.onCol, if_true, Option.map_eq_some_iff] at hev
    obtain ⟨c2, h2, h3⟩ := hev
    have := congrArg (fun t : TableState => t.cols n) h3
    simp only [upd_same, Option.some.injEq] at this
    rw [h2, this]
  cases x <;> simp only [colOf, Option.some.injEq, reduceCtorEq] at hcol <;> subst hcol
  case setDataType ty => have := get _ (fun _ => rfl); simp only [Option.some.injEq] at this; rw [← this]; exact hR
  case setNotNull => have := get _ (fun _ => rfl); simp only [Option.some.injEq] at this; rw [← this]; exact hR
  case dropNotNull =>
    have := get _ (fun _ => rfl)
    split at this
    · cases this
    · simp only [Option.some.injEq] at this; rw [← this]; exact hR
  case setDefault e =>
    have := get _ (fun _ => rfl)
    split at this
    · cases this
    · simp only [Option.some.injEq] at this; rw [← this]; exact hR
  case dropDefault =>
    have := get _ (fun _ => rfl)
    split at this
    · cases this
    · simp only [Option.some.injEq] at this; rw [← this]; exact hR
  case addIdentity =>
    have := get _ (fun _ => rfl)
    split at this
    · cases this
    · simp only [Option.some.injEq] at this
      rw [← this]
      cases b
      · exact absurd rfl (hadd rfl)
      · rfl
  case dropIdentity =>
    have := get _ (fun _ => rfl)
    split at this
    · simp only [Option.some.injEq] at this
      rw [← this]
      cases b
      · rfl
      · exact absurd rfl (hno rfl)
    · cases this
  case redefine spec => exact absurd rfl (hre spec)
  case modify ty dflt nl i => exact absurd rfl (hmo ty dflt nl i)
  case retype ty nn => have := get _ (fun _ => rfl); simp only [Option.some.injEq] at this; rw [← this]; exact hR

end Need
end PySqlSync
