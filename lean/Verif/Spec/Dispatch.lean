/-
  Specification for C64: what a program that calls synchronous functions through `await` may do, if each call were made directly, one after the other.
-/
import Verif.Model.Dispatch

set_option autoImplicit false

namespace PySqlSync.Spec.Dispatch

open PySqlSync.Dispatch

variable {C R : Type}

/-- The complete runs of one task on its own. Each call is one block: it is made, the function runs from its start to its finish, the call returns. A cancelled call may or may not
    have run the function; if it has, then wholly, before the call returns. -/
inductive Direct : Prog C R → List (Event C R) → Prop
  | done : Direct .done []
  | wait {next : R → Prog C R} {cancel : Prog C R} {es : List (Event C R)} (r : R) : Direct (next r) es → Direct (.wait next cancel) es
  | waitCancelled {next : R → Prog C R} {cancel : Prog C R} {es : List (Event C R)} : Direct cancel es → Direct (.wait next cancel) es
  | call {c : C} {next : R → Prog C R} {cancel : Prog C R} {es : List (Event C R)} (r : R) : Direct (next r) es →
      Direct (.call c next cancel) (.called c :: .start c :: .finish c r :: .returned c (some r) :: es)
  | cancelledBefore {c : C} {next : R → Prog C R} {cancel : Prog C R} {es : List (Event C R)} : Direct cancel es →
      Direct (.call c next cancel) (.called c :: .returned c none :: es)
  | cancelledAfter {c : C} {next : R → Prog C R} {cancel : Prog C R} {es : List (Event C R)} (r : R) : Direct cancel es →
      Direct (.call c next cancel) (.called c :: .start c :: .finish c r :: .returned c none :: es)

/-- What is seen of task `i`. -/
def seen (i : Nat) (ls : List (Label C R)) : List (Event C R) :=
  ls.filterMap (fun l => match l with
    | .event j e => if j = i then some e else none
    | _ => none)

/-- What is seen by the driver, of the connection `n`: functions that start and functions that finish. -/
def driver (conn : C → Nat) (n : Nat) (ls : List (Label C R)) : List (Event C R) :=
  ls.filterMap (fun l => match l with
    | .event _ (.start c) => if conn c = n then some (.start c) else none
    | .event _ (.finish c r) => if conn c = n then some (.finish c r) else none
    | _ => none)

/-- One function at a time: each finishes before the next one starts; the last one may still be running. -/
inductive Serial : List (Event C R) → Prop
  | nil : Serial []
  | running (c : C) : Serial [.start c]
  | one (c : C) (r : R) {es : List (Event C R)} : Serial es → Serial (.start c :: .finish c r :: es)

/-- A program makes calls on a connection. -/
inductive Uses (conn : C → Nat) (n : Nat) : Prog C R → Prop
  | here {c : C} {next : R → Prog C R} {cancel : Prog C R} : conn c = n → Uses conn n (.call c next cancel)
  | next {c : C} {next : R → Prog C R} {cancel : Prog C R} (r : R) : Uses conn n (next r) → Uses conn n (.call c next cancel)
  | cancel {c : C} {next : R → Prog C R} {cancel : Prog C R} : Uses conn n cancel → Uses conn n (.call c next cancel)
  | waitNext {next : R → Prog C R} {cancel : Prog C R} (r : R) : Uses conn n (next r) → Uses conn n (.wait next cancel)
  | waitCancel {next : R → Prog C R} {cancel : Prog C R} : Uses conn n cancel → Uses conn n (.wait next cancel)

/-- How many functions are running: those that have started, less those that have finished. -/
def startsOf (es : List (Event C R)) : Nat := es.countP (fun e => match e with | .start _ => true | _ => false)

/-- How many functions have finished. -/
def finishesOf (es : List (Event C R)) : Nat := es.countP (fun e => match e with | .finish _ _ => true | _ => false)

end PySqlSync.Spec.Dispatch
