/-
C55: rows that are copied into Redshift arrive as they were.
-/
import Verif.Spec.Copy
import Verif.Lemmas.Url

set_option autoImplicit false

namespace PySqlSync
open Spec
namespace C55

theorem pieces_ne (sep : Char) (s : Text) : pieces sep s ≠ [] := by
  cases s with
  | nil => intro h; cases h
  | cons c s =>
    unfold pieces
    split
    · intro h; cases h
    · split <;> intro h <;> cases h

theorem pieces_length (sep : Char) (s : Text) : (pieces sep s).length = s.count sep + 1 := by
  induction s with
  | nil => rfl
  | cons c s ih =>
    unfold pieces
    split
    · rename_i h; subst h; rw [List.length_cons, ih, List.count_cons_self]
    · rename_i h
      have hc : (c :: s).count sep = s.count sep := List.count_cons_of_ne (by simpa using h)
      cases hp : pieces sep s with
      | nil => exact absurd hp (pieces_ne sep s)
      | cons p ps => rw [hp] at ih; rw [hc, ← ih]; rfl

theorem pieces_none {sep : Char} {s : Text} (h : sep ∉ s) : pieces sep s = [s] := by
  induction s with
  | nil => rfl
  | cons c s ih =>
    rw [List.mem_cons, not_or] at h
    unfold pieces
    rw [if_neg (fun e => h.1 e.symm), ih h.2]

theorem pieces_append {sep : Char} {s : Text} (h : sep ∉ s) (rest : Text) : pieces sep (s ++ sep :: rest) = s :: pieces sep rest := by
  induction s with
  | nil =>
    show pieces sep (sep :: rest) = _
    unfold pieces
    rw [if_pos rfl]
    cases rest <;> rfl
  | cons c s ih =>
    rw [List.mem_cons, not_or] at h
    show pieces sep (c :: (s ++ sep :: rest)) = _
    rw [pieces, if_neg (fun e => h.1 e.symm), ih h.2]

/-- Texts without the separator, joined and split. -/
theorem pieces_join {sep : Char} : ∀ {xs : List Text}, xs ≠ [] → (∀ x ∈ xs, sep ∉ x) → pieces sep (joinWith [sep] xs) = xs
  | [], h, _ => absurd rfl h
  | [x], _, h => pieces_none (h x List.mem_cons_self)
  | x :: y :: rest, _, h => by
    rw [joinWith, List.append_assoc]
    show pieces sep (x ++ sep :: joinWith [sep] (y :: rest)) = _
    rw [pieces_append (h x List.mem_cons_self), pieces_join (by intro h; cases h) (fun z hz => h z (List.mem_cons_of_mem _ hz))]

theorem join_count (sep c : Char) : ∀ {xs : List Text}, xs ≠ [] →
    (joinWith [sep] xs).count c = (xs.map (List.count c)).sum + (if c = sep then xs.length - 1 else 0)
  | [], h => absurd rfl h
  | [x], _ => by simp [joinWith]
  | x :: y :: rest, _ => by
    rw [joinWith, List.count_append, List.count_append, join_count sep c (xs := y :: rest) (by intro h; cases h)]
    by_cases h : c = sep
    · subst h; simp; omega
    · simp [h, List.count_cons]; intro h'; exact h h'.symm

/-- Lines that end in a newline. -/
theorem lines_cons {l : Text} (h : '\n' ∉ l) (rest : Text) : copyLines (l ++ '\n' :: rest) = l :: copyLines rest := by
  unfold copyLines
  rw [pieces_append h, List.reverse_cons]
  have hne := pieces_ne '\n' rest
  cases hr : (pieces '\n' rest).reverse with
  | nil => rw [List.reverse_eq_nil_iff] at hr; exact absurd hr hne
  | cons p ps =>
    cases p with
    | nil => simp
    | cons c p => simp

theorem lines_all : ∀ {ls : List Text}, (∀ l ∈ ls, '\n' ∉ l) → copyLines (ls.flatMap (fun l => l ++ ['\n'])) = ls
  | [], _ => rfl
  | l :: ls, h => by
    rw [List.flatMap_cons, List.append_assoc]
    show copyLines (l ++ '\n' :: _) = _
    rw [lines_cons (h l List.mem_cons_self)]
    exact congrArg (l :: ·) (lines_all (fun x hx => h x (List.mem_cons_of_mem _ hx)))

/-- A stream of lines is as many lines as there are newlines. -/
theorem lines_length : ∀ s : Text, (copyLines (s ++ ['\n'])).length = s.count '\n' + 1 := by
  intro s
  have h := pieces_length '\n' (s ++ ['\n'])
  rw [List.count_append] at h
  have hlast : ∃ ps, pieces '\n' (s ++ ['\n']) = ps ++ [[]] := by
    induction s with
    | nil => exact ⟨[[]], rfl⟩
    | cons c s ih =>
      have ih := ih (pieces_length '\n' (s ++ ['\n']) |>.trans (by rw [List.count_append]))
      obtain ⟨ps, hp⟩ := ih
      show ∃ ps, pieces '\n' (c :: (s ++ ['\n'])) = _
      unfold pieces
      rw [hp]
      split
      · exact ⟨[] :: ps, rfl⟩
      · have hl := pieces_length '\n' (s ++ ['\n'])
        cases ps with
        | nil => rw [hp, List.count_append] at hl; simp at hl
        | cons p ps => exact ⟨(c :: p) :: ps, rfl⟩
  obtain ⟨ps, hp⟩ := hlast
  rw [hp] at h
  unfold copyLines
  rw [hp, List.reverse_append]
  simp at h ⊢
  exact h

theorem int_plain (n : Int) : '|' ∉ jsonInt n ∧ '\n' ∉ jsonInt n ∧ jsonInt n ≠ ['\\', 'N'] := by
  have hd : ∀ c ∈ jsonInt n, c = '-' ∨ c.isDigit = true := by
    intro c hc
    unfold jsonInt at hc
    split at hc
    · rcases List.mem_cons.1 hc with rfl | hc
      · exact .inl rfl
      · exact .inr (natStr_chars hc)
    · exact .inr (natStr_chars hc)
  refine ⟨fun h => ?_, fun h => ?_, fun h => ?_⟩
  · rcases hd _ h with h | h <;> exact absurd h (by decide)
  · rcases hd _ h with h | h <;> exact absurd h (by decide)
  · rcases hd '\\' (by rw [h]; exact List.mem_cons_self) with h | h <;> exact absurd h (by decide)

/-- What is read of a single value. -/
theorem field_iff {other : PyVal → Text} {v : PyVal} (hv : PlainValue v) :
    (copyField (v.pyStr other) = needed v ↔ v ≠ .none ∧ v ≠ .str ['\\', 'N']) := by
  cases v with
  | none =>
    refine ⟨fun h => ?_, fun h => absurd rfl h.1⟩
    rw [show PyVal.pyStr other .none = t "None" from rfl, copyField, if_neg (by decide)] at h
    cases h
  | bool b => cases b <;> exact ⟨fun _ => ⟨fun h => (by cases h), fun h => (by cases h)⟩, fun _ => (by
      first
        | rw [show PyVal.pyStr other (.bool true) = t "True" from rfl, copyField, if_neg (by decide)]; rfl
        | rw [show PyVal.pyStr other (.bool false) = t "False" from rfl, copyField, if_neg (by decide)]; rfl)⟩
  | int n => exact ⟨fun _ => ⟨fun h => (by cases h), fun h => (by cases h)⟩, fun _ => (by
      rw [show PyVal.pyStr other (.int n) = jsonInt n from rfl, copyField, if_neg (int_plain n).2.2]; rfl)⟩
  | str s =>
    rw [show PyVal.pyStr other (.str s) = s from rfl, copyField]
    constructor
    · intro h
      refine ⟨fun h => (by cases h), fun hs => ?_⟩
      cases hs
      rw [if_pos rfl] at h
      cases h
    · rintro ⟨_, h⟩
      rw [if_neg (fun e => h (by rw [e]))]
      rfl
  | _ => exact absurd hv id

theorem sep_iff {other : PyVal → Text} {v : PyVal} (hv : PlainValue v) (c : Char) (hc : c = '|' ∨ c = '\n') :
    c ∉ v.pyStr other ↔ ∀ s, v = .str s → c ∉ s := by
  cases v with
  | none => exact ⟨fun _ s h => (by cases h), fun _ => (by rcases hc with rfl | rfl <;> simp only [PyVal.pyStr] <;> decide)⟩
  | bool b => exact ⟨fun _ s h => (by cases h), fun _ => (by cases b <;> rcases hc with rfl | rfl <;> simp only [PyVal.pyStr] <;> decide)⟩
  | int n => exact ⟨fun _ s h => (by cases h), fun _ => (by rcases hc with rfl | rfl <;> first | exact (int_plain n).1 | exact (int_plain n).2.1)⟩
  | str s => exact ⟨fun h s' e => (by cases e; exact h), fun h => h s rfl⟩
  | _ => exact absurd hv id

theorem sum_zero : ∀ {l : List Nat}, l.sum = 0 → ∀ x ∈ l, x = 0
  | [], _, x, h => by cases h
  | a :: l, h, x, hx => by
    rw [List.sum_cons] at h
    rcases List.mem_cons.1 hx with rfl | hx
    · omega
    · exact sum_zero (by omega) x hx

theorem zeros {α : Type} : ∀ (l : List α), (l.map (fun _ => 0)).sum = 0
  | [] => rfl
  | a :: l => by rw [List.map_cons, List.sum_cons, zeros l]

theorem stream_eq (other : PyVal → Text) (records : List (List PyVal)) :
    copyStream other records = (records.map (fun r => joinWith ['|'] (r.map (PyVal.pyStr other)))).flatMap (fun l => l ++ ['\n']) := by
  unfold copyStream copyLine
  rw [List.flatMap_map]

theorem stream_lines (other : PyVal → Text) (records : List (List PyVal)) :
    (copyLines (copyStream other records)).length = (copyStream other records).count '\n' := by
  rcases List.eq_nil_or_concat records with rfl | ⟨rs, r, rfl⟩
  · rfl
  · have : ∃ s, copyStream other (rs ++ [r]) = s ++ ['\n'] := by
      unfold copyStream copyLine
      rw [List.flatMap_append]
      exact ⟨rs.flatMap (fun record => joinWith ['|'] (record.map (PyVal.pyStr other)) ++ ['\n']) ++ joinWith ['|'] (r.map (PyVal.pyStr other)), by simp⟩
    obtain ⟨s, hs⟩ := this
    rw [List.concat_eq_append, hs, lines_length, List.count_append]
    rfl

theorem count_stream (other : PyVal → Text) : ∀ (records : List (List PyVal)),
    (copyStream other records).count '\n' = (records.map (fun r => (joinWith ['|'] (r.map (PyVal.pyStr other))).count '\n')).sum + records.length
  | [] => rfl
  | r :: rs => by
    have := count_stream other rs
    unfold copyStream at this ⊢
    rw [List.flatMap_cons, List.count_append, this]
    unfold copyLine
    rw [List.count_append]
    simp
    omega

end C55

/-- **C55, exact**: rows of `None`, truth values, integers and strings are read by `COPY` as they were if, and only if, none of the values is `None`, and no string has a vertical bar or
    a newline, or is `\N`. -/
theorem C55_exact (other : PyVal → Text) (records : List (List PyVal)) (hne : ∀ r ∈ records, r ≠ []) (hv : ∀ r ∈ records, ∀ v ∈ r, PlainValue v) :
    copyRows (copyStream other records) = records.map (List.map needed) ↔
      ∀ r ∈ records, ∀ v ∈ r, v ≠ .none ∧ ∀ s, v = .str s → '|' ∉ s ∧ '\n' ∉ s ∧ s ≠ ['\\', 'N'] := by
  have hread : (∀ r ∈ records, ∀ v ∈ r, '\n' ∉ v.pyStr other) → copyRows (copyStream other records) =
      records.map (fun r => (pieces '|' (joinWith ['|'] (r.map (PyVal.pyStr other)))).map copyField) := by
    intro hn
    unfold copyRows
    rw [C55.stream_eq, C55.lines_all, List.map_map]
    · rfl
    · intro l hl h
      obtain ⟨r, hr, rfl⟩ := List.mem_map.1 hl
      have hc := C55.join_count '|' '\n' (xs := r.map (PyVal.pyStr other)) (by simpa using hne r hr)
      rw [if_neg (by decide), Nat.add_zero] at hc
      have hz : ((r.map (PyVal.pyStr other)).map (List.count '\n')).sum = 0 := by
        rw [List.map_map]
        have : r.map (List.count '\n' ∘ PyVal.pyStr other) = r.map (fun _ => 0) := by
          apply List.map_congr_left
          intro v hv'
          exact List.count_eq_zero.2 (hn r hr v hv')
        rw [this]
        exact C55.zeros r
      rw [hz] at hc
      exact (List.count_eq_zero.1 hc) h
  constructor
  · intro h
    have hn : ∀ r ∈ records, ∀ v ∈ r, '\n' ∉ v.pyStr other := by
      have hl := congrArg List.length h
      rw [copyRows, List.length_map, List.length_map, C55.stream_lines, C55.count_stream] at hl
      intro r hr v hv'
      have := C55.sum_zero (show (records.map (fun r => (joinWith ['|'] (r.map (PyVal.pyStr other))).count '\n')).sum = 0 by omega) _ (List.mem_map.2 ⟨r, hr, rfl⟩)
      rw [C55.join_count '|' '\n' (by simpa using hne r hr), if_neg (by decide), Nat.add_zero, List.map_map] at this
      exact List.count_eq_zero.1 (C55.sum_zero this _ (List.mem_map.2 ⟨v, hv', rfl⟩))
    rw [hread hn] at h
    intro r hr v hv'
    have hrow : (pieces '|' (joinWith ['|'] (r.map (PyVal.pyStr other)))).map copyField = r.map needed := List.map_inj_left.1 h r hr
    have hb : ∀ w ∈ r, '|' ∉ w.pyStr other := by
      have hl := congrArg List.length hrow
      rw [List.length_map, List.length_map, C55.pieces_length, C55.join_count '|' '|' (by simpa using hne r hr), if_pos rfl, List.length_map] at hl
      have h1 : 1 ≤ r.length := List.length_pos_iff.2 (hne r hr)
      intro w hw
      have hz : ((r.map (PyVal.pyStr other)).map (List.count '|')).sum = 0 := by omega
      rw [List.map_map] at hz
      exact List.count_eq_zero.1 (C55.sum_zero hz _ (List.mem_map.2 ⟨w, hw, rfl⟩))
    rw [C55.pieces_join (by simpa using hne r hr) (by intro x hx; obtain ⟨w, hw, rfl⟩ := List.mem_map.1 hx; exact hb w hw), List.map_map] at hrow
    have hf := (C55.field_iff (other := other) (hv r hr v hv')).1 (List.map_inj_left.1 hrow v hv')
    refine ⟨hf.1, fun s hs => ⟨?_, ?_, ?_⟩⟩
    · exact (C55.sep_iff (other := other) (hv r hr v hv') '|' (.inl rfl)).1 (hb v hv') s hs
    · exact (C55.sep_iff (other := other) (hv r hr v hv') '\n' (.inr rfl)).1 (hn r hr v hv') s hs
    · rintro rfl; exact hf.2 hs
  · intro h
    have hn : ∀ r ∈ records, ∀ v ∈ r, '\n' ∉ v.pyStr other := fun r hr v hv' =>
      (C55.sep_iff (hv r hr v hv') '\n' (.inr rfl)).2 (fun s hs => ((h r hr v hv').2 s hs).2.1)
    rw [hread hn]
    apply List.map_congr_left
    intro r hr
    rw [C55.pieces_join (by simpa using hne r hr), List.map_map]
    · apply List.map_congr_left
      intro v hv'
      exact (C55.field_iff (hv r hr v hv')).2 ⟨(h r hr v hv').1, fun e => ((h r hr v hv').2 _ e).2.2 rfl⟩
    · intro x hx
      obtain ⟨w, hw, rfl⟩ := List.mem_map.1 hx
      exact (C55.sep_iff (hv r hr w hw) '|' (.inl rfl)).2 (fun s hs => ((h r hr w hw).2 s hs).1)

/-- **C55 fails for bytes**, with which UUIDs and addresses are passed: the text is that of a literal of Python, which is not hexadecimal. -/
theorem C55_bytes_fail (other : PyVal → Text) (b : List Nat) : ¬ IsHex ((PyVal.bytes b).pyStr other) := by
  intro h
  unfold PyVal.pyStr bytesRepr at h
  have := h (if b.contains 39 && !b.contains 34 then '"' else '\'') (List.mem_cons_of_mem _ List.mem_cons_self)
  revert this
  split <;> decide

/-- The theorem applies: two rows arrive; `None` does not. -/
example : copyRows (copyStream (fun _ => []) [[.int 1, .str (t "a b")], [.int (-2), .str []]]) = [[some (t "1"), some (t "a b")], [some (t "-2"), some []]] :=
  (C55_exact _ [[.int 1, .str (t "a b")], [.int (-2), .str []]] (by simp) (by simp [PlainValue])).2 (by simp; decide)
example : copyRows (copyStream (fun _ => []) [[.int 1, .none]]) ≠ [[some (t "1"), none]] :=
  fun h => (((C55_exact (fun _ => []) [[.int 1, .none]] (by simp) (by simp [PlainValue])).1 h) _ List.mem_cons_self .none (by simp)).1 rfl

end PySqlSync
