/-
Running statements without looking at validity, to refute `Runs` on concrete databases.
-/
import Verif.Lemmas.Check

set_option autoImplicit false

namespace PySqlSync
open Spec

/-- The statements one after the other, as far as names are concerned. -/
def exec (E : Engine) (db : Db) : List Stmt → Option Db
  | [] => some db
  | s :: rest => (step E db s).bind (fun db' => exec E db' rest)

theorem runs_exec {E : Engine} {db db' : Db} {l : List Stmt} (h : Runs E db l db') : exec E db l = some db' := by
  induction h with
  | nil => rfl
  | cons h _ _ ih => simp [exec, h, ih]

/-- The database refuses one of the statements. -/
theorem refused {E : Engine} {db : Db} {l : List Stmt} (h : (exec E db l).isSome = false) (db' : Db) :
    ¬ Runs E db l db' := by
  intro hr
  rw [runs_exec hr] at h; cases h

theorem runs_take {E : Engine} {db db' : Db} {l : List Stmt} (h : Runs E db l db') (v : Valid db) (i : Nat) :
    ∃ db1, Runs E db (l.take i) db1 ∧ Valid db1 ∧ Runs E db1 (l.drop i) db' := by
  induction h generalizing i with
  | nil => exact ⟨_, by simpa using Runs.nil _, v, by simpa using Runs.nil _⟩
  | cons h1 h2 h3 ih =>
    cases i with
    | zero => exact ⟨_, .nil _, v, .cons h1 h2 h3⟩
    | succ i =>
      obtain ⟨db1, a, b, c⟩ := ih h2 i
      exact ⟨db1, .cons h1 h2 a, b, c⟩

/-- Column `n` of the table under key `k` has a type that mentions `r`, or its constraint `n` refers to a table `r`,
    and there is no such type or table. -/
def dangling (db : Db) (k : Key) (n : Text) : Bool :=
  match db.objs k with
  | some (.table ts) =>
    (match ts.cols n with
     | some c => c.ty.refs.any (fun r => (db.objs r).isNone)
     | none => false)
    || (match ts.cons n with
     | some (.foreign _ r _) => (db.objs r).isNone
     | _ => false)
  | _ => false

theorem not_valid_of_dangling {db : Db} {k : Key} {n : Text} (h : dangling db k n = true) : ¬ Valid db := by
  intro v
  unfold dangling at h
  split at h
  · rename_i ts ho
    have f := v.fits k _ ho
    simp only [Bool.or_eq_true] at h
    rcases h with h | h
    · split at h
      · rename_i c hc
        rw [List.any_eq_true] at h
        obtain ⟨r, hr, hn⟩ := h
        have := (f.cols n c hc).2 r hr
        simp only [Option.isNone_iff_eq_none] at hn
        simp [Db.kinds, hn] at this
      · cases h
    · split at h
      · rename_i cs r rs hc
        have := (f.cons n _ hc).2
        simp only [Option.isNone_iff_eq_none] at h
        simp [Db.kinds, h] at this
      · cases h
  · cases h

/-- After the first `i` statements something refers to an object that is gone: the database refuses the script. -/
theorem broken {E : Engine} {db : Db} {l : List Stmt} (i : Nat) {k : Key} {n : Text} (v : Valid db)
    (h : ((exec E db (l.take i)).map (fun db1 => dangling db1 k n)).getD false = true) (db' : Db) :
    ¬ Runs E db l db' := by
  intro hr
  obtain ⟨db1, h1, v1, _⟩ := runs_take hr v i
  rw [runs_exec h1] at h
  exact not_valid_of_dangling h v1

end PySqlSync
