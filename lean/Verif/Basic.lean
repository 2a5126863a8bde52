/-
Basic vocabulary shared by model and specifications.
-/
namespace PySqlSync

/-- A Python `str`: a finite sequence of code points.  (Lone surrogates, which Python `str` admits and
    Lean `Char` does not, are not modelled.) -/
abbrev Text := List Char

/-- Short-hand to write a literal piece of SQL. -/
abbrev t (s : String) : Text := s.toList

theorem t_def (s : String) : t s = s.toList := rfl

/-- Python `s.replace(c, r)` where the pattern `c` is a single character: every occurrence of `c`
    is replaced, left to right, by `r`.  Used by pysqlsync/model/id_types.py:8-9,
    pysqlsync/model/data_types.py:20-23 and 57-65. -/
def replaceChar (c : Char) (r : Text) (s : Text) : Text :=
  s.flatMap (fun x => if x = c then r else [x])

/-- Python `sep.join(items)`. -/
def joinWith (sep : Text) : List Text → Text
  | [] => []
  | [x] => x
  | x :: y :: rest => x ++ sep ++ joinWith sep (y :: rest)

@[simp] theorem replaceChar_nil (c : Char) (r : Text) : replaceChar c r [] = [] := rfl

@[simp] theorem replaceChar_cons (c : Char) (r : Text) (x : Char) (xs : Text) :
    replaceChar c r (x :: xs) = (if x = c then r else [x]) ++ replaceChar c r xs := rfl

@[simp] theorem replaceChar_append (c : Char) (r : Text) (a b : Text) :
    replaceChar c r (a ++ b) = replaceChar c r a ++ replaceChar c r b := by
  simp [replaceChar]

@[simp] theorem joinWith_nil (sep : Text) : joinWith sep [] = [] := rfl
@[simp] theorem joinWith_single (sep x : Text) : joinWith sep [x] = x := rfl
@[simp] theorem joinWith_cons_cons (sep x y : Text) (r : List Text) :
    joinWith sep (x :: y :: r) = x ++ sep ++ joinWith sep (y :: r) := rfl

theorem joinWith_cons_ne (sep x : Text) (r : List Text) (h : r ≠ []) :
    joinWith sep (x :: r) = x ++ sep ++ joinWith sep r := by
  cases r with
  | nil => exact absurd rfl h
  | cons y r => rfl

end PySqlSync
