/-
C21 — Batching loses, duplicates and reorders nothing.
-/
import Verif.Model.Records

set_option autoImplicit false

namespace PySqlSync

/-- The batches put together are the records, in order; no batch is empty or has more than `size` records, and all
    but the last have that many. -/
structure Batched {α : Type} (size : Nat) (records : List α) (batches : List (List α)) : Prop where
  all : batches.flatten = records
  nonempty : ∀ b ∈ batches, b ≠ []
  small : ∀ b ∈ batches, b.length ≤ size
  full : ∀ before b after, batches = before ++ b :: after → after ≠ [] → b.length = size

namespace C21

variable {α : Type}

theorem batchLoop_spec {size : Nat} (hs : 0 < size) : ∀ (records rows : List α), rows.length < size →
    Batched size (rows ++ records) (batchLoop size rows records) := by
  intro records
  induction records with
  | nil =>
    intro rows h
    unfold batchLoop
    cases rows with
    | nil => exact ⟨rfl, by simp, by simp, by intro p b a e; simp at e⟩
    | cons r rows =>
      refine ⟨by simp, by simp, by simpa using Nat.le_of_lt h, ?_⟩
      intro p b a e hne
      cases p with
      | nil => simp at e; exact absurd e.2 hne
      | cons x p => simp at e
  | cons r records ih =>
    intro rows h
    unfold batchLoop
    have hl : (rows ++ [r]).length = rows.length + 1 := by simp
    split
    · rename_i hfull
      have hex : (rows ++ [r]).length = size := by omega
      have ih' := ih [] hs
      constructor
      · simp [ih'.all]
      · intro b hb
        rcases List.mem_cons.1 hb with rfl | hb
        · simp
        · exact ih'.nonempty b hb
      · intro b hb
        rcases List.mem_cons.1 hb with rfl | hb
        · exact Nat.le_of_eq hex
        · exact ih'.small b hb
      · intro p b a e hne
        cases p with
        | nil =>
          simp only [List.nil_append, List.cons.injEq] at e
          rw [← e.1]; exact hex
        | cons x p =>
          simp only [List.cons_append, List.cons.injEq] at e
          exact ih'.full p b a e.2 hne
    · rename_i hn
      have := ih (rows ++ [r]) (by omega)
      rw [List.append_assoc] at this
      exact this

theorem mapM_length {α β : Type} {f : α → Except Err β} : ∀ {l : List α} {r : List β}, l.mapM f = .ok r →
    r.length = l.length := by
  intro l
  induction l with
  | nil => intro r h; cases h; rfl
  | cons a l ih =>
    intro r h
    rw [List.mapM_cons] at h
    simp only [bind, Except.bind] at h
    split at h
    · cases h
    · split at h
      · cases h
      · rename_i v hv
        cases h
        simp [ih hv]

theorem mapM_lengths {α β : Type} {f : List α → Except Err (List β)} (hf : ∀ b o, f b = .ok o → o.length = b.length) :
    ∀ {l : List (List α)} {r : List (List β)}, l.mapM f = .ok r → r.map List.length = l.map List.length := by
  intro l
  induction l with
  | nil => intro r h; cases h; rfl
  | cons a l ih =>
    intro r h
    rw [List.mapM_cons] at h
    simp only [bind, Except.bind] at h
    split at h
    · cases h
    · rename_i o ho
      split at h
      · cases h
      · rename_i v hv
        cases h
        simp [ih hv, hf a o ho]

end C21

/-- **C21.**  The records of an iterable, in batches. -/
theorem C21_batches {α : Type} (records : List α) : Batched BATCH_SIZE records (toBatches records) :=
  C21.batchLoop_spec (by decide) records [] (show 0 < BATCH_SIZE by decide)

/-- **C21.**  The same with any positive batch size. -/
theorem C21_batches_any_size {α : Type} {size : Nat} (hs : 0 < size) (records : List α) :
    Batched size records (batchLoop size [] records) :=
  C21.batchLoop_spec hs records [] hs

/-- **C21.**  Selecting and transforming fields keeps the number of batches and of records in each of them.
    (Which record becomes which is in C22.) -/
theorem C21_transformation_keeps_batches {V : Type} {columns : List Text}
    {make : Nat → FieldType → Text → Except Err (Transformer V)} {types : List FieldType} {names : Option (List Text)}
    {batches out : List (List (Record V))} (h : generateRecords columns make types names batches = .ok out) :
    out.map List.length = batches.map List.length := by
  unfold generateRecords at h
  simp only [bind, Except.bind] at h
  split at h
  · cases h
  · split at h
    · split at h
      · cases h; rfl
      · exact C21.mapM_lengths (fun b o => C21.mapM_length) h
    · split at h
      · cases h; simp [List.map_map, Function.comp_def]
      · exact C21.mapM_lengths (fun b o => C21.mapM_length) h

/-- Seven records in batches of three. -/
example : batchLoop 3 [] [1, 2, 3, 4, 5, 6, 7] = [[1, 2, 3], [4, 5, 6], [7]] := by decide

end PySqlSync
