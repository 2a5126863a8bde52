/-
C62: the text of the statements that insert, update and delete rows.
-/
import Verif.Spec.DmlText
import Verif.Lemmas.TokenStmt
import Verif.Lemmas.TokenReader
import Verif.Lemmas.Convert
import Verif.Props.C22

set_option autoImplicit false

namespace PySqlSync
open Spec Tok

namespace C62

/-! ### Tokens -/

variable {R : Reader}

theorem between_pre {sep w : Text} (hsep : Hard R sep [.word w]) (hs : sepHead sep = true) (hne : sep ≠ []) :
    ∀ {as : List Text} {tas : List (List Token)}, PreAll R as tas → Pre R (joinWith sep as) (between w tas)
  | [], [], _ => Pre.nil
  | [a], [ta], h => h.1
  | a :: a' :: as, ta :: ta' :: tas, h => by
    have ih := between_pre hsep hs hne (as := a' :: as) (tas := ta' :: tas) h.2
    have := (h.1.appH hsep hs hne).app ih
    refine this.of_eq rfl ?_
    simp [between]
  | [], _ :: _, h => h.elim
  | _ :: _, [], h => h.elim
  | [_], _ :: _ :: _, h => h.2.elim
  | _ :: _ :: _, [_], h => h.2.elim

theorem placeholder_pre {e : PySqlSync.Engine} {i : Nat} {x : Text} (h : e.placeholder i = .ok x) : Pre R x (parameter e i) := by
  cases e <;> simp only [Engine.placeholder, Except.ok.injEq, reduceCtorEq] at h <;> subst h
  case postgresql =>
    refine word_pre (by simp [t]) ?_
    intro c hc
    rcases List.mem_append.mp hc with hc | hc
    · exact (by decide +kernel : ∀ c ∈ t "$", isWordChar c = true) c hc
    · exact digit_word (natStr_chars hc)
  case mysql => exact kw (t "%s") [.sym '%', .word (t "s")]
  case mssql => exact kw (t "?") [.sym '?']
  all_goals exact (kwH (t ":") [.sym ':']).app (natStr_pre _ i)

theorem placeholders_pre {e : PySqlSync.Engine} {n : Nat} {phs : List Text} (h : e.placeholders n = .ok phs) :
    Pre R (joinWith (t ", ") phs) (commas ((List.range n).map (fun i => parameter e (i + 1)))) :=
  commaBlank (preAll_mapM _ _ _ h (fun _ _ _ hs => placeholder_pre hs))

theorem pair_pre (c : Text) : Pre R (pairText c) (pairTokens c) := by
  have h1 := (kwH (R := R) (t "target.") (kws ["target"] ++ [.sym '.'])).app (id_pre R c)
  have h2 := (h1.kH (t " = source.") ([.sym '='] ++ kws ["source"] ++ [.sym '.'])).app (id_pre R c)
  exact h2.of_eq rfl (by simp [pairTokens])

theorem target_pre {q : QId} (h : ∀ id, q = .global id → id ≠ [] ∧ ∀ c ∈ id, isWordChar c = true) : Pre R q.quoted (nameTokens q) := by
  refine name_pre (d := .ansi) (raw := fun _ => []) R ⟨?_, ?_, ?_, ?_⟩
  · intro id hid; exact h id (by simpa [nameParts, eq_comm] using hid)
  all_goals
    intro v hv
    simp [nameParts] at hv

theorem values_pre {e : PySqlSync.Engine} {q : QId} {cols phs : List Text} (hq : Pre R q.quoted (nameTokens q)) (h : e.placeholders cols.length = .ok phs) :
    Pre R (valuesText q cols phs) (insertTokens e q cols) := by
  have h1 := (kwH (R := R) (t "INSERT INTO ") (kws ["INSERT", "INTO"])).app hq
  have h2 := (h1.kH (t "\n(") [.sym '(']).app (idList_pre R cols)
  have h3 := (h2.kH (t ") VALUES (") ([.sym ')'] ++ kws ["VALUES"] ++ [.sym '('])).app (placeholders_pre h)
  have h4 := h3.k (t ")") [.sym ')']
  exact h4.of_eq rfl (by simp [insertTokens, parameters, identList, parens])

theorem dml_pre {e : PySqlSync.Engine} {always : Bool} {s : Dml} {phs : List Text}
    (hq : ∀ id, s.table = .global id → id ≠ [] ∧ ∀ c ∈ id, isWordChar c = true) (h : e.placeholders s.params.length = .ok phs) :
    Pre R (s.text always phs) (dmlTokens e always s ++ dmlEnd s) := by
  cases s with
  | insert q cols => exact ((values_pre (R := R) (target_pre hq) h).k (t "\n;") [semicolon])
  | insertOrNothing q cols =>
    exact ((values_pre (R := R) (target_pre hq) h).k (t "\nON CONFLICT DO NOTHING\n;") (kws ["ON", "CONFLICT", "DO", "NOTHING"] ++ [semicolon])).of_eq rfl (by simp [dmlTokens, Dml.table, Dml.params, dmlEnd])
  | insertOrNothingOn q cols keys =>
    have h1 := ((values_pre (R := R) (target_pre hq) h).kH (t "\nON CONFLICT (") (kws ["ON", "CONFLICT"] ++ [.sym '('])).app (idList_pre R keys)
    exact (h1.k (t ") DO NOTHING\n;") ([.sym ')'] ++ kws ["DO", "NOTHING"] ++ [semicolon])).of_eq rfl (by simp [dmlTokens, Dml.table, Dml.params, dmlEnd, identList, parens])
  | insertOrUpdateOn q cols keys updates =>
    have h1 := ((values_pre (R := R) (target_pre hq) h).kH (t "\nON CONFLICT (") (kws ["ON", "CONFLICT"] ++ [.sym '('])).app (idList_pre R keys)
    have h2 := h1.kH (t ") DO UPDATE SET\n") ([.sym ')'] ++ kws ["DO", "UPDATE", "SET"])
    have h3 := h2.app (commaLine (preAll_map updates (fun c => idText c ++ t " = EXCLUDED." ++ idText c)
      (fun c => [.ident c, .sym '='] ++ kws ["EXCLUDED"] ++ [.sym '.', .ident c]) (fun c _ =>
        (((id_pre R c).kH (t " = EXCLUDED.") ([.sym '='] ++ kws ["EXCLUDED"] ++ [.sym '.'])).app (id_pre R c)).of_eq rfl (by simp))))
    exact (h3.k (t "\n;") [semicolon]).of_eq rfl (by simp [dmlTokens, Dml.table, Dml.params, dmlEnd, identList, parens])
  | insertOrSelf q cols keys =>
    have h2 := (values_pre (R := R) (target_pre hq) h).kH (t "\nON DUPLICATE KEY UPDATE\n") (kws ["ON", "DUPLICATE", "KEY", "UPDATE"])
    have h3 := h2.app (commaLine (preAll_map keys (fun c => idText c ++ t " = " ++ idText c)
      (fun c => [.ident c, .sym '=', .ident c]) (fun c _ => (((id_pre R c).kH (t " = ") [.sym '=']).app (id_pre R c)).of_eq rfl (by simp))))
    exact (h3.k (t "\n;") [semicolon]).of_eq rfl (by simp [dmlTokens, Dml.table, Dml.params, dmlEnd])
  | insertOrUpdate q cols updates =>
    have h2 := (values_pre (R := R) (target_pre hq) h).kH (t "\nON DUPLICATE KEY UPDATE\n") (kws ["ON", "DUPLICATE", "KEY", "UPDATE"])
    have h3 := h2.app (commaLine (preAll_map updates (fun c => idText c ++ t " = VALUES(" ++ idText c ++ t ")")
      (fun c => [.ident c, .sym '='] ++ kws ["VALUES"] ++ parens [.ident c]) (fun c _ =>
        ((((id_pre R c).kH (t " = VALUES(") ([.sym '='] ++ kws ["VALUES"] ++ [.sym '('])).app (id_pre R c)).k (t ")") [.sym ')']).of_eq rfl (by simp [parens]))))
    exact (h3.k (t "\n;") [semicolon]).of_eq rfl (by simp [dmlTokens, Dml.table, Dml.params, dmlEnd])
  | merge q cols on updates inserts =>
    have h1 := (kwH (R := R) (t "MERGE INTO ") (kws ["MERGE", "INTO"])).app (target_pre hq)
    have h2 := (h1.kH (t " target\nUSING (VALUES (") (kws ["target", "USING"] ++ [.sym '('] ++ kws ["VALUES"] ++ [.sym '('])).app (placeholders_pre h)
    have h3 := (h2.kH (t ")) source(") ([.sym ')', .sym ')'] ++ kws ["source"] ++ [.sym '('])).app (idList_pre R cols)
    have h4 := h3.k (t ")") [.sym ')']
    have p1 : Pre R (if on = [] then [] else t "\nON (" ++ joinWith (t " OR ") (on.map pairText) ++ t ")")
        (if on = [] then [] else kws ["ON"] ++ parens (between (t "OR") (on.map pairTokens))) := by
      split
      · exact Pre.nil
      · exact (((kwH (R := R) (t "\nON (") (kws ["ON"] ++ [.sym '('])).app (between_pre (w := t "OR") (kwH (t " OR ") (kws ["OR"])) (by decide +kernel) (by decide)
          (preAll_map on pairText pairTokens (fun c _ => pair_pre c)))).k (t ")") [.sym ')']).of_eq rfl (by simp [parens])
    have s1 : sepHead (if on = [] then [] else t "\nON (" ++ joinWith (t " OR ") (on.map pairText) ++ t ")") = true := by split <;> rfl
    have p2 : Pre R (if updates = [] then [] else t "\nWHEN MATCHED THEN\nUPDATE SET " ++ joinWith (t ", ") (updates.map pairText))
        (if updates = [] then [] else kws ["WHEN", "MATCHED", "THEN", "UPDATE", "SET"] ++ commas (updates.map pairTokens)) := by
      split
      · exact Pre.nil
      · exact (kwH (R := R) (t "\nWHEN MATCHED THEN\nUPDATE SET ") (kws ["WHEN", "MATCHED", "THEN", "UPDATE", "SET"])).app
          (commaBlank (preAll_map updates pairText pairTokens (fun c _ => pair_pre c)))
    have s2 : sepHead (if updates = [] then [] else t "\nWHEN MATCHED THEN\nUPDATE SET " ++ joinWith (t ", ") (updates.map pairText)) = true := by split <;> rfl
    have p3 : Pre R (if inserts = [] ∧ always = false then [] else
        t "\nWHEN NOT MATCHED THEN\nINSERT (" ++ idListText inserts ++ t ") VALUES (" ++ joinWith (t ", ") (inserts.map (fun c => t "source." ++ idText c)) ++ t ")")
        (if inserts = [] ∧ always = false then [] else
          kws ["WHEN", "NOT", "MATCHED", "THEN", "INSERT"] ++ identList inserts ++ kws ["VALUES"] ++ parens (commas (inserts.map (fun c => kws ["source"] ++ [.sym '.', .ident c])))) := by
      split
      · exact Pre.nil
      · have g1 := (kwH (R := R) (t "\nWHEN NOT MATCHED THEN\nINSERT (") (kws ["WHEN", "NOT", "MATCHED", "THEN", "INSERT"] ++ [.sym '('])).app (idList_pre R inserts)
        have g2 := (g1.kH (t ") VALUES (") ([.sym ')'] ++ kws ["VALUES"] ++ [.sym '('])).app (commaBlank (preAll_map inserts (fun c => t "source." ++ idText c)
          (fun c => kws ["source"] ++ [.sym '.', .ident c]) (fun c _ => ((kwH (R := R) (t "source.") (kws ["source"] ++ [.sym '.'])).app (id_pre R c)).of_eq rfl (by simp))))
        exact (g2.k (t ")") [.sym ')']).of_eq rfl (by simp [identList, parens])
    have s3 : sepHead (if inserts = [] ∧ always = false then [] else
        t "\nWHEN NOT MATCHED THEN\nINSERT (" ++ idListText inserts ++ t ") VALUES (" ++ joinWith (t ", ") (inserts.map (fun c => t "source." ++ idText c)) ++ t ")") = true := by
      split <;> rfl
    exact ((((h4.app p1 s1).app p2 s2).app p3 s3).k (t "\n;") [semicolon]).of_eq rfl (by simp [dmlTokens, Dml.table, Dml.params, dmlEnd, identList, parens, parameters])
  | delete q key =>
    have h1 := (kwH (R := R) (t "DELETE FROM ") (kws ["DELETE", "FROM"])).app (target_pre hq)
    have h2 := (h1.kH (t " WHERE ") (kws ["WHERE"])).app (id_pre R key)
    have h3 := (h2.kH (t " = ") [.sym '=']).app (placeholders_pre h)
    exact h3.of_eq rfl (by simp [dmlTokens, Dml.table, Dml.params, dmlEnd, commas, List.range, List.range.loop])

/-! ### Python's `%` -/

theorem fmt_plain {a : Text} (h : '%' ∉ a) (b : Text) (args : List Text) : percentFormat (a ++ b) args = (percentFormat b args).map (a ++ ·) := by
  induction a with
  | nil => simp
  | cons c a ih =>
    have hc : c ≠ '%' := fun hc => h (hc ▸ List.mem_cons_self ..)
    have : percentFormat (c :: (a ++ b)) args = (percentFormat (a ++ b) args).map (c :: ·) := by
      rw [percentFormat.eq_def]
      split <;> simp_all
    rw [List.cons_append, this, ih (fun ha => h (List.mem_cons_of_mem _ ha)), Option.map_map]
    rfl

theorem fmt_end {a : Text} (h : '%' ∉ a) : percentFormat a [] = some a := by
  have := fmt_plain h [] []
  simpa [percentFormat] using this

theorem fmt_values {b : Text} (h : '%' ∉ b) :
    ∀ args : List Text, percentFormat (joinWith (t ", ") (List.replicate args.length (t "%s")) ++ b) args = some (joinWith (t ", ") args ++ b)
  | [] => by simpa [joinWith] using fmt_end h
  | [x] => by
    show percentFormat ('%' :: 's' :: b) [x] = _
    simp [percentFormat, fmt_end h, joinWith]
  | x :: y :: args => by
    have ih := fmt_values h (y :: args)
    have hs : joinWith (t ", ") (List.replicate (x :: y :: args).length (t "%s")) ++ b =
        '%' :: 's' :: (t ", " ++ (joinWith (t ", ") (List.replicate (y :: args).length (t "%s")) ++ b)) := by
      simp [List.replicate_succ, t]
    rw [hs, percentFormat, fmt_plain (by decide +kernel), ih]
    simp [joinWith]

/-- How much a text grows, and how many `%` are taken. -/
theorem fmt_count {T : Text} {args : List Text} {out : Text} (h : percentFormat T args = some out) :
    ∃ k, T.count '%' = args.length + 2 * k ∧ out.length + 2 * args.length + k = T.length + (args.map List.length).sum := by
  fun_induction percentFormat T args generalizing out with
  | case1 => cases h; exact ⟨0, by simp⟩
  | case2 => cases h
  | case3 rest a args ih =>
    obtain ⟨o, ho, rfl⟩ := Option.map_eq_some_iff.mp h
    obtain ⟨k, h1, h2⟩ := ih ho
    refine ⟨k, ?_, ?_⟩
    · rw [List.count_cons_self, List.count_cons_of_ne (by decide), h1]; simp; omega
    · simp; omega
  | case4 rest args ih =>
    obtain ⟨o, ho, rfl⟩ := Option.map_eq_some_iff.mp h
    obtain ⟨k, h1, h2⟩ := ih ho
    refine ⟨k + 1, ?_, ?_⟩
    · rw [List.count_cons_self, List.count_cons_self, h1]; omega
    · simp; omega
  | case5 => cases h
  | case6 c rest args h1 h2 h3 ih =>
    obtain ⟨o, ho, rfl⟩ := Option.map_eq_some_iff.mp h
    obtain ⟨k, h1, h2⟩ := ih ho
    refine ⟨k, ?_, ?_⟩
    · rw [List.count_cons_of_ne (by simp_all), h1]
    · simp; omega

theorem join_length (l : List Text) : (joinWith (t ", ") l).length = (l.map List.length).sum + 2 * (l.length - 1) := by
  match l with
  | [] => rfl
  | [x] => simp [joinWith]
  | x :: y :: l =>
    have ih := join_length (y :: l)
    have : (t ", ").length = 2 := rfl
    simp only [joinWith, List.length_append, ih, this]
    simp; omega

theorem join_count (n : Nat) : (joinWith (t ", ") (List.replicate n (t "%s"))).count '%' = n := by
  match n with
  | 0 => rfl
  | 1 => rfl
  | n + 2 =>
    have ih := join_count (n + 1)
    have h1 : (t "%s").count '%' = 1 := by decide +kernel
    have h2 : (t ", ").count '%' = 0 := by decide +kernel
    rw [List.replicate_succ] at ih
    simp only [List.replicate_succ, joinWith, List.count_append, ih, h1, h2]
    omega

theorem mem_join {c : Char} {sep : Text} (hs : c ∉ sep) (l : List Text) : c ∈ joinWith sep l ↔ ∃ x ∈ l, c ∈ x := by
  match l with
  | [] => simp [joinWith]
  | [x] => simp [joinWith]
  | x :: y :: l =>
    have ih := mem_join hs (y :: l)
    simp only [joinWith, List.mem_append, ih, hs, or_false, List.mem_cons]
    constructor
    · rintro (h | ⟨z, hz, h⟩)
      · exact ⟨x, Or.inl rfl, h⟩
      · exact ⟨z, Or.inr hz, h⟩
    · rintro ⟨z, rfl | hz, h⟩
      · exact Or.inl h
      · exact Or.inr ⟨z, hz, h⟩

theorem no {s : Text} (h : s.contains '%' = false) : ('%' ∈ s) = False := by simpa using h

theorem mem_quote (n : Text) : '%' ∈ quoteId n ↔ '%' ∈ n := by
  induction n with
  | nil => simp [quoteId, replaceChar]
  | cons c n ih =>
    have : quoteId (c :: n) = (if c = '"' then t "\"\"" else [c]) ++ quoteId n := by
      simp [quoteId, replaceChar]
    rw [this, List.mem_append, ih, List.mem_cons]
    split
    · rename_i hc; subst hc; simp [no (s := t "\"\"") (by decide +kernel)]
    · simp

theorem mem_id (n : Text) : '%' ∈ idText n ↔ '%' ∈ n := by
  have : idText n = t "\"" ++ quoteId n ++ t "\"" := rfl
  rw [this, List.mem_append, List.mem_append, no (s := t "\"") (by decide +kernel), mem_quote]
  simp

theorem mem_ids (l : List Text) : '%' ∈ idListText l ↔ ∃ x ∈ l, '%' ∈ x := by
  unfold idListText
  rw [mem_join (by decide +kernel)]
  constructor
  · rintro ⟨x, hx, h⟩
    obtain ⟨n, hn, rfl⟩ := List.mem_map.mp hx
    exact ⟨n, hn, (mem_id n).mp h⟩
  · rintro ⟨n, hn, h⟩
    exact ⟨_, List.mem_map_of_mem hn, (mem_id n).mpr h⟩

theorem mem_pair (n : Text) : '%' ∈ pairText n ↔ '%' ∈ n := by
  unfold pairText
  simp only [List.mem_append, mem_id, no (s := t "target.") (by decide +kernel), no (s := t " = source.") (by decide +kernel), false_or, or_false, or_self]

theorem mem_items {sep : Text} (hs : '%' ∉ sep) {f : Text → Text} (hf : ∀ n, '%' ∈ f n ↔ '%' ∈ n) (l : List Text) :
    '%' ∈ joinWith sep (l.map f) ↔ ∃ x ∈ l, '%' ∈ x := by
  rw [mem_join hs]
  constructor
  · rintro ⟨x, hx, h⟩
    obtain ⟨n, hn, rfl⟩ := List.mem_map.mp hx
    exact ⟨n, hn, (hf n).mp h⟩
  · rintro ⟨n, hn, h⟩
    exact ⟨_, List.mem_map_of_mem hn, (hf n).mpr h⟩

/-- The text before the placeholders. -/
def front (q : QId) (cols : List Text) : Text := t "INSERT INTO " ++ q.quoted ++ t "\n(" ++ idListText cols ++ t ") VALUES ("

theorem assoc7 (a b c d e f g x : Text) : a ++ b ++ c ++ d ++ e ++ f ++ g ++ x = a ++ b ++ c ++ d ++ e ++ (f ++ (g ++ x)) := by simp

theorem mem5 {a b c d e : Text} (ha : '%' ∉ a) (hc : '%' ∉ c) (he : '%' ∉ e) : '%' ∈ a ++ b ++ c ++ d ++ e ↔ '%' ∈ b ∨ '%' ∈ d := by simp [ha, hc, he]

theorem values_split (q : QId) (cols phs : List Text) (x : Text) : valuesText q cols phs ++ x = front q cols ++ (joinWith (t ", ") phs ++ (t ")" ++ x)) :=
  assoc7 ..

theorem values_split3 (q : QId) (cols phs : List Text) (x y z : Text) :
    valuesText q cols phs ++ x ++ y ++ z = front q cols ++ (joinWith (t ", ") phs ++ (t ")" ++ (x ++ y ++ z))) := by
  rw [← values_split]
  generalize valuesText q cols phs = v
  simp

theorem values_split5 (q : QId) (cols phs : List Text) (x y z u w : Text) :
    valuesText q cols phs ++ x ++ y ++ z ++ u ++ w = front q cols ++ (joinWith (t ", ") phs ++ (t ")" ++ (x ++ y ++ z ++ u ++ w))) := by
  rw [← values_split]
  generalize valuesText q cols phs = v
  simp

theorem merge_split (a b c j d e f g h i k : Text) : a ++ b ++ c ++ j ++ d ++ e ++ f ++ g ++ h ++ i ++ k = a ++ b ++ c ++ (j ++ (d ++ (e ++ (f ++ (g ++ (h ++ (i ++ k))))))) := by
  simp

theorem mem_front (q : QId) (cols : List Text) : '%' ∈ front q cols ↔ '%' ∈ q.quoted ∨ ∃ x ∈ cols, '%' ∈ x := by
  rw [← mem_ids]
  exact mem5 (by decide +kernel) (by decide +kernel) (by decide +kernel)

theorem free_iff {b a : Text} {l : List Text} (h : ('%' ∈ b ∨ '%' ∈ a) ↔ ∃ n ∈ l, '%' ∈ n) : ('%' ∉ b ∧ '%' ∉ a) ↔ ∀ n ∈ l, '%' ∉ n := by
  rw [← not_or, h]
  constructor
  · intro h n hn hp; exact h ⟨n, hn, hp⟩
  · rintro h ⟨n, hn, hp⟩; exact h n hn hp

theorem ex_cons (x : Text) (l : List Text) : (∃ n ∈ x :: l, '%' ∈ n) ↔ '%' ∈ x ∨ ∃ n ∈ l, '%' ∈ n := by simp
theorem ex_append (l m : List Text) : (∃ n ∈ l ++ m, '%' ∈ n) ↔ (∃ n ∈ l, '%' ∈ n) ∨ ∃ n ∈ m, '%' ∈ n := by
  simp only [List.mem_append, or_and_right, exists_or]

set_option maxHeartbeats 4000000 in
theorem text_split (always : Bool) (s : Dml) : ∃ b a, (∀ phs, s.text always phs = b ++ (joinWith (t ", ") phs ++ a)) ∧
    (('%' ∉ b ∧ '%' ∉ a) ↔ ∀ n ∈ dmlNames s, '%' ∉ n) := by
  cases s with
  | insert q cols =>
    refine ⟨front q cols, t ")" ++ t "\n;", fun phs => values_split .., free_iff ?_⟩
    rw [dmlNames, ex_cons, mem_front]
    simp only [List.mem_append, no (s := t ")") (by decide +kernel), no (s := t "\n;") (by decide +kernel), or_false]
  | insertOrNothing q cols =>
    refine ⟨front q cols, t ")" ++ t "\nON CONFLICT DO NOTHING\n;", fun phs => values_split .., free_iff ?_⟩
    rw [dmlNames, ex_cons, mem_front]
    simp only [List.mem_append, no (s := t ")") (by decide +kernel), no (s := t "\nON CONFLICT DO NOTHING\n;") (by decide +kernel), or_false]
  | insertOrNothingOn q cols keys =>
    refine ⟨front q cols, t ")" ++ (t "\nON CONFLICT (" ++ idListText keys ++ t ") DO NOTHING\n;"), fun phs => ?_, free_iff ?_⟩
    · exact values_split3 ..
    rw [dmlNames, ex_append, ex_cons, mem_front]
    simp only [List.mem_append, mem_ids, no (s := t ")") (by decide +kernel), no (s := t "\nON CONFLICT (") (by decide +kernel),
      no (s := t ") DO NOTHING\n;") (by decide +kernel), or_false, false_or]
  | insertOrUpdateOn q cols keys updates =>
    refine ⟨front q cols, t ")" ++ (t "\nON CONFLICT (" ++ idListText keys ++ t ") DO UPDATE SET\n" ++
      joinWith (t ",\n") (updates.map (fun c => idText c ++ t " = EXCLUDED." ++ idText c)) ++ t "\n;"), fun phs => ?_, free_iff ?_⟩
    · exact values_split5 ..
    rw [dmlNames, ex_append, ex_append, ex_cons, mem_front]
    have hu := mem_items (sep := t ",\n") (by decide +kernel) (f := fun c => idText c ++ t " = EXCLUDED." ++ idText c) (fun n => by
      simp only [List.mem_append, mem_id, no (s := t " = EXCLUDED.") (by decide +kernel), or_false, or_self]) updates
    simp only [List.mem_append, mem_ids, hu, no (s := t ")") (by decide +kernel), no (s := t "\nON CONFLICT (") (by decide +kernel),
      no (s := t ") DO UPDATE SET\n") (by decide +kernel), no (s := t "\n;") (by decide +kernel), or_false, false_or, or_assoc]
  | insertOrSelf q cols keys =>
    refine ⟨front q cols, t ")" ++ (t "\nON DUPLICATE KEY UPDATE\n" ++ joinWith (t ",\n") (keys.map (fun c => idText c ++ t " = " ++ idText c)) ++ t "\n;"),
      fun phs => ?_, free_iff ?_⟩
    · exact values_split3 ..
    rw [dmlNames, ex_append, ex_cons, mem_front]
    have hu := mem_items (sep := t ",\n") (by decide +kernel) (f := fun c => idText c ++ t " = " ++ idText c) (fun n => by
      simp only [List.mem_append, mem_id, no (s := t " = ") (by decide +kernel), or_false, or_self]) keys
    simp only [List.mem_append, hu, no (s := t ")") (by decide +kernel), no (s := t "\nON DUPLICATE KEY UPDATE\n") (by decide +kernel),
      no (s := t "\n;") (by decide +kernel), or_false, false_or, or_assoc]
  | insertOrUpdate q cols updates =>
    refine ⟨front q cols, t ")" ++ (t "\nON DUPLICATE KEY UPDATE\n" ++ joinWith (t ",\n") (updates.map (fun c => idText c ++ t " = VALUES(" ++ idText c ++ t ")")) ++ t "\n;"),
      fun phs => ?_, free_iff ?_⟩
    · exact values_split3 ..
    rw [dmlNames, ex_append, ex_cons, mem_front]
    have hu := mem_items (sep := t ",\n") (by decide +kernel) (f := fun c => idText c ++ t " = VALUES(" ++ idText c ++ t ")") (fun n => by
      simp only [List.mem_append, mem_id, no (s := t " = VALUES(") (by decide +kernel), no (s := t ")") (by decide +kernel), or_false, or_self]) updates
    simp only [List.mem_append, hu, no (s := t ")") (by decide +kernel), no (s := t "\nON DUPLICATE KEY UPDATE\n") (by decide +kernel),
      no (s := t "\n;") (by decide +kernel), or_false, false_or, or_assoc]
  | merge q cols on updates inserts =>
    have p1 : '%' ∈ (if on = [] then [] else t "\nON (" ++ joinWith (t " OR ") (on.map pairText) ++ t ")") ↔ ∃ n ∈ on, '%' ∈ n := by
      split
      · rename_i h; subst h; simp
      · simp only [List.mem_append, mem_items (sep := t " OR ") (by decide +kernel) mem_pair, no (s := t "\nON (") (by decide +kernel),
          no (s := t ")") (by decide +kernel), or_false, false_or]
    have p2 : '%' ∈ (if updates = [] then [] else t "\nWHEN MATCHED THEN\nUPDATE SET " ++ joinWith (t ", ") (updates.map pairText)) ↔ ∃ n ∈ updates, '%' ∈ n := by
      split
      · rename_i h; subst h; simp
      · simp only [List.mem_append, mem_items (sep := t ", ") (by decide +kernel) mem_pair, no (s := t "\nWHEN MATCHED THEN\nUPDATE SET ") (by decide +kernel), false_or]
    have p3 : '%' ∈ (if inserts = [] ∧ always = false then [] else
        t "\nWHEN NOT MATCHED THEN\nINSERT (" ++ idListText inserts ++ t ") VALUES (" ++ joinWith (t ", ") (inserts.map (fun c => t "source." ++ idText c)) ++ t ")") ↔
          ∃ n ∈ inserts, '%' ∈ n := by
      split
      · rename_i h; rw [h.1]; simp
      · have hu := mem_items (sep := t ", ") (by decide +kernel) (f := fun c => t "source." ++ idText c) (fun n => by
          simp only [List.mem_append, mem_id, no (s := t "source.") (by decide +kernel), false_or]) inserts
        simp only [List.mem_append, mem_ids, hu, no (s := t "\nWHEN NOT MATCHED THEN\nINSERT (") (by decide +kernel), no (s := t ") VALUES (") (by decide +kernel),
          no (s := t ")") (by decide +kernel), false_or, or_false, or_self]
    refine ⟨t "MERGE INTO " ++ q.quoted ++ t " target\nUSING (VALUES (", t ")) source(" ++ (idListText cols ++ (t ")" ++
      ((if on = [] then [] else t "\nON (" ++ joinWith (t " OR ") (on.map pairText) ++ t ")") ++
      ((if updates = [] then [] else t "\nWHEN MATCHED THEN\nUPDATE SET " ++ joinWith (t ", ") (updates.map pairText)) ++
      ((if inserts = [] ∧ always = false then [] else
        t "\nWHEN NOT MATCHED THEN\nINSERT (" ++ idListText inserts ++ t ") VALUES (" ++
          joinWith (t ", ") (inserts.map (fun c => t "source." ++ idText c)) ++ t ")") ++ t "\n;"))))), fun phs => ?_, free_iff ?_⟩
    · exact merge_split ..
    rw [dmlNames, ex_append, ex_append, ex_append, ex_cons]
    rw [List.mem_append, List.mem_append, List.mem_append, List.mem_append, List.mem_append, List.mem_append, List.mem_append, List.mem_append, p1, p2, p3]
    simp only [mem_ids, no (s := t "MERGE INTO ") (by decide +kernel), no (s := t " target\nUSING (VALUES (") (by decide +kernel),
      no (s := t ")) source(") (by decide +kernel), no (s := t ")") (by decide +kernel), no (s := t "\n;") (by decide +kernel), or_false, false_or, or_assoc]
  | delete q key =>
    refine ⟨t "DELETE FROM " ++ q.quoted ++ t " WHERE " ++ idText key ++ t " = ", [], fun phs => ?_, free_iff ?_⟩
    · rw [List.append_nil]; rfl
    rw [dmlNames, ex_cons, ex_cons]
    simp only [List.mem_append, mem_id, no (s := t "DELETE FROM ") (by decide +kernel), no (s := t " WHERE ") (by decide +kernel),
      no (s := t " = ") (by decide +kernel), List.not_mem_nil, or_false, false_or, false_and, exists_false]

theorem mysql_placeholders (n : Nat) : PySqlSync.Engine.mysql.placeholders n = .ok (List.replicate n (t "%s")) := by
  unfold Engine.placeholders
  have : ∀ l : List Nat, l.mapM (fun i => PySqlSync.Engine.mysql.placeholder (i + 1)) = .ok (List.replicate l.length (t "%s")) := by
    intro l
    induction l with
    | nil => rfl
    | cons x l ih => rw [List.mapM_cons, ih]; rfl
  rw [this, List.length_range]

end C62

open C62

/-! ### Theorems -/

/-- The tokens of the text that is written for a statement are those of the specification, and no others: each column is named where it belongs, a placeholder is written for
    each of the parameters, in order and in the style of the engine. -/
theorem C62_tokens (e : PySqlSync.Engine) (always : Bool) (s : Dml) {x : Text} (hx : s.textFor e always = .ok x)
    (hq : ∀ id, s.table = .global id → id ≠ [] ∧ ∀ c ∈ id, isWordChar c = true) (ts : List Token) :
    Lexes (literalOf e.dialect) x ts ↔ ts = dmlTokens e always s ++ dmlEnd s := by
  unfold Dml.textFor at hx
  simp only [Conv.bind_ok, Conv.pure_ok] at hx
  obtain ⟨phs, hp, rfl⟩ := hx
  have h := (dml_pre (R := literalOf e.dialect) (always := always) hq hp).lexes
  exact ⟨fun h' => lexes_unique (literalOf_ok e.dialect) h' h, fun he => he ▸ h⟩

/-- On MySQL, the driver puts the values where they belong exactly if there is no `%` in any of the names, whatever the values are. -/
theorem C62_percent_exact (always : Bool) (s : Dml) (args : List Text) (hn : args.length = s.params.length) :
    (∃ x, s.textFor .mysql always = .ok x ∧ percentFormat x args = some (s.text always args)) ↔ ∀ n ∈ dmlNames s, '%' ∉ n := by
  have hx : s.textFor .mysql always = .ok (s.text always (List.replicate args.length (t "%s"))) := by
    unfold Dml.textFor
    rw [mysql_placeholders, ← hn]; rfl
  obtain ⟨b, a, hb, hf⟩ := text_split always s
  rw [← hf]
  constructor
  · rintro ⟨x, h1, h2⟩
    rw [hx] at h1
    cases h1
    obtain ⟨k, hc, hl⟩ := fmt_count h2
    rw [hb, List.count_append, List.count_append, join_count] at hc
    rw [hb, hb] at hl
    simp only [List.length_append, join_length, List.map_replicate, List.length_replicate, List.sum_replicate_nat] at hl
    have h2 : (t "%s").length = 2 := rfl
    rw [h2] at hl
    have hk : k = 0 := by omega
    subst hk
    exact ⟨List.count_eq_zero.mp (by omega), List.count_eq_zero.mp (by omega)⟩
  · rintro ⟨h1, h2⟩
    refine ⟨_, hx, ?_⟩
    rw [hb, hb, fmt_plain h1, fmt_values h2]; rfl

/-- Trino: there is no statement with parameters. -/
theorem C62_trino_refused (always : Bool) (s : Dml) (h : s.params ≠ []) : s.textFor .trino always = .error .notImplemented := by
  unfold Dml.textFor Engine.placeholders
  cases hp : s.params with
  | nil => exact absurd hp h
  | cons c cs =>
    rw [List.length_cons, List.range_succ_eq_map, List.mapM_cons]
    rfl

/-- Elsewhere, the text is always written. -/
theorem C62_written (e : PySqlSync.Engine) (he : e ≠ .trino) (always : Bool) (s : Dml) : ∃ x, s.textFor e always = .ok x := by
  have : ∀ l : List Nat, ∃ phs, l.mapM (fun i => e.placeholder (i + 1)) = .ok phs := by
    intro l
    induction l with
    | nil => exact ⟨_, rfl⟩
    | cons i l ih =>
      obtain ⟨phs, h⟩ := ih
      have : ∃ p, e.placeholder (i + 1) = .ok p := by
        cases e <;> first | exact ⟨_, rfl⟩ | exact absurd rfl he
      obtain ⟨p, hp⟩ := this
      exact ⟨p :: phs, by rw [List.mapM_cons, h, hp]; rfl⟩
  obtain ⟨phs, h⟩ := this (List.range s.params.length)
  exact ⟨s.text always phs, by unfold Dml.textFor Engine.placeholders; rw [h]; rfl⟩

namespace C62

theorem insert_table {w : Writer} {tb : Table} {order : Option (List Text)} {s : Dml} (h : insertStmt w tb order = .ok s) : s.table = tb.name := by
  unfold insertStmt at h
  simp only [Conv.bind_ok, Conv.pure_ok] at h
  obtain ⟨_, _, rfl⟩ := h; rfl

theorem merge_table {w : Writer} {tb : Table} {order : Option (List Text)} {s : Dml} (h : mergeStmt w tb order = .ok s) : s.table = tb.name := by
  unfold mergeStmt at h
  cases w <;> simp only [Conv.bind_ok, Conv.pure_ok] at h
  · obtain ⟨_, _, _, _, rfl⟩ := h; rfl
  all_goals obtain ⟨_, _, rfl⟩ := h; rfl

theorem upsert_table {w : Writer} {tb : Table} {order : Option (List Text)} {s : Dml} (h : upsertStmt w tb order = .ok s) : s.table = tb.name := by
  unfold upsertStmt at h
  cases w <;> simp only [Conv.bind_ok, Conv.pure_ok] at h
  · obtain ⟨_, _, _, _, _, _, rfl⟩ := h; rfl
  all_goals
    obtain ⟨_, _, h⟩ := h
    split at h <;> simp only [Conv.pure_ok] at h <;> subst h <;> rfl

theorem delete_table {tb : Table} {s : Dml} (h : deleteStmt tb = .ok s) : s.table = tb.name := by
  unfold deleteStmt at h
  simp only [Conv.bind_ok, Conv.pure_ok] at h
  obtain ⟨_, _, rfl⟩ := h; rfl

end C62

/-- The four functions: the text is that of the statement for the table (C22 says what it has to be), and its tokens are those of the specification. -/
theorem C62_functions (e : PySqlSync.Engine) (tb : Table) (order : Option (List Text)) (hq : ∀ id, tb.name = .global id → id ≠ [] ∧ ∀ c ∈ id, isWordChar c = true) (x : Text) :
    (e.insertText tb order = .ok x → ∃ s, insertStmt e.writer tb order = .ok s ∧ ∀ ts, Lexes (literalOf e.dialect) x ts ↔ ts = dmlTokens e false s ++ dmlEnd s) ∧
    (e.mergeText tb order = .ok x → ∃ s, mergeStmt e.writer tb order = .ok s ∧ ∀ ts, Lexes (literalOf e.dialect) x ts ↔ ts = dmlTokens e true s ++ dmlEnd s) ∧
    (e.upsertText tb order = .ok x → ∃ s, upsertStmt e.writer tb order = .ok s ∧ ∀ ts, Lexes (literalOf e.dialect) x ts ↔ ts = dmlTokens e false s ++ dmlEnd s) ∧
    (e.deleteText tb = .ok x → ∃ s, deleteStmt tb = .ok s ∧ ∀ ts, Lexes (literalOf e.dialect) x ts ↔ ts = dmlTokens e false s ++ dmlEnd s) := by
  refine ⟨?_, ?_, ?_, ?_⟩ <;> intro h
  · unfold Engine.insertText at h
    obtain ⟨s, hs, hx⟩ := Conv.bind_ok.mp h
    exact ⟨s, hs, C62_tokens e _ s hx (insert_table hs ▸ hq)⟩
  · unfold Engine.mergeText at h
    obtain ⟨s, hs, hx⟩ := Conv.bind_ok.mp h
    exact ⟨s, hs, C62_tokens e _ s hx (merge_table hs ▸ hq)⟩
  · unfold Engine.upsertText at h
    obtain ⟨s, hs, hx⟩ := Conv.bind_ok.mp h
    exact ⟨s, hs, C62_tokens e _ s hx (upsert_table hs ▸ hq)⟩
  · unfold Engine.deleteText at h
    obtain ⟨s, hs, hx⟩ := Conv.bind_ok.mp h
    exact ⟨s, hs, C62_tokens e _ s hx (delete_table hs ▸ hq)⟩

/-! ### The condition of MERGE -/

namespace C62

theorem word_commas (w : Text) : ∀ l : List (List Token), .word w ∈ commas l ↔ ∃ x ∈ l, .word w ∈ x
  | [] => by simp [commas]
  | [x] => by simp [commas]
  | x :: y :: l => by
    have ih := word_commas w (y :: l)
    simp only [commas, List.mem_append, List.mem_cons, ih]
    simp [comma]

theorem word_name {w : Text} {q : QId} (h : ∀ id, q ≠ .global id) : .word w ∉ nameTokens q := by
  match q, h with
  | .qualified (some _) _, _ => simp [nameTokens]
  | .qualified none _, _ => simp [nameTokens]
  | .prefixed (some _) _, _ => simp [nameTokens]
  | .prefixed none _, _ => simp [nameTokens]
  | .global id, h => exact absurd rfl (h id)

theorem word_idents (w : Text) (l : List Text) : .word w ∉ identList l := by
  simp [identList, parens, word_commas]

theorem on_parameter (e : PySqlSync.Engine) (i : Nat) : .word (t "ON") ∉ parameter e i := by
  have hn : t "ON" ≠ natStr i := by
    intro h
    have : ('O' : Char).isDigit = true := natStr_chars (n := i) (h ▸ (by decide +kernel : 'O' ∈ t "ON"))
    cases this
  have hd : t "ON" ≠ t "$" ++ natStr i := fun h => absurd (congrArg List.head? h) (by
    show some 'O' ≠ some '$'
    decide)
  have hs : t "ON" ≠ t "s" := by decide +kernel
  cases e <;> simp [parameter, num, hn, hd, hs]

theorem on_parameters (e : PySqlSync.Engine) (n : Nat) : .word (t "ON") ∉ parameters e n := by
  simp [parameters, parens, word_commas, on_parameter]

theorem on_merge {e : PySqlSync.Engine} {always : Bool} {q : QId} {cols on updates inserts : List Text} (h : ∀ id, q ≠ .global id) :
    .word (t "ON") ∈ dmlTokens e always (.merge q cols on updates inserts) ++ dmlEnd (.merge q cols on updates inserts) ↔ on ≠ [] := by
  have k1 : .word (t "ON") ∉ kws ["MERGE", "INTO"] := by decide +kernel
  have k2 : .word (t "ON") ∉ kws ["target", "USING"] := by decide +kernel
  have k3 : .word (t "ON") ∉ kws ["VALUES"] := by decide +kernel
  have k4 : .word (t "ON") ∉ kws ["source"] := by decide +kernel
  have k5 : .word (t "ON") ∉ kws ["WHEN", "MATCHED", "THEN", "UPDATE", "SET"] := by decide +kernel
  have k6 : .word (t "ON") ∉ kws ["WHEN", "NOT", "MATCHED", "THEN", "INSERT"] := by decide +kernel
  have k7 : .word (t "ON") ∈ kws ["ON"] := by decide +kernel
  have k8 : .word (t "ON") ∉ kws ["target"] := by decide +kernel
  have k9 : Token.word (t "ON") ≠ semicolon := by decide +kernel
  have kp : ∀ c, .word (t "ON") ∉ pairTokens c := by
    intro c
    rw [pairTokens, List.mem_append, List.mem_append, List.mem_append]
    simp [k8, k4]
  have m1 : .word (t "ON") ∈ (if on = [] then [] else kws ["ON"] ++ parens (between (t "OR") (on.map pairTokens))) ↔ on ≠ [] := by
    split
    · rename_i h; simp [h]
    · rename_i h; rw [List.mem_append]; exact ⟨fun _ => h, fun _ => Or.inl k7⟩
  have m2 : .word (t "ON") ∉ (if updates = [] then [] else kws ["WHEN", "MATCHED", "THEN", "UPDATE", "SET"] ++ commas (updates.map pairTokens)) := by
    split
    · simp
    · rw [List.mem_append, word_commas]
      rintro (h | ⟨x, hx, h⟩)
      · exact k5 h
      · obtain ⟨c, _, rfl⟩ := List.mem_map.mp hx
        exact kp c h
  have m3 : .word (t "ON") ∉ (if inserts = [] ∧ always = false then [] else
      kws ["WHEN", "NOT", "MATCHED", "THEN", "INSERT"] ++ identList inserts ++ kws ["VALUES"] ++ parens (commas (inserts.map (fun c => kws ["source"] ++ [.sym '.', .ident c])))) := by
    split
    · simp
    · rw [List.mem_append, List.mem_append, List.mem_append]
      rintro (((h | h) | h) | h)
      · exact k6 h
      · exact word_idents _ _ h
      · exact k3 h
      · simp only [parens, List.mem_cons, List.mem_append, reduceCtorEq, false_or, List.not_mem_nil, or_false, word_commas] at h
        obtain ⟨x, hx, h⟩ := h
        obtain ⟨c, _, rfl⟩ := List.mem_map.mp hx
        rcases List.mem_append.mp h with h | h
        · exact k4 h
        · simp at h
  have m4 : .word (t "ON") ∉ parens (kws ["VALUES"] ++ parameters e cols.length) := by
    simp only [parens, List.mem_cons, List.mem_append, reduceCtorEq, false_or, List.not_mem_nil, or_false]
    rintro (h | h)
    · exact k3 h
    · exact on_parameters _ _ h
  rw [dmlTokens, dmlEnd, List.mem_append, List.mem_append, List.mem_append, List.mem_append, List.mem_append, List.mem_append, List.mem_append, List.mem_append, List.mem_append, m1]
  · constructor
    · rintro (((((((((h' | h') | h') | h') | h') | h') | h') | h') | h') | h')
      · exact absurd h' k1
      · exact absurd h' (word_name h)
      · exact absurd h' k2
      · exact absurd h' m4
      · exact absurd h' k4
      · exact absurd h' (word_idents _ _)
      · exact h'
      · exact absurd h' m2
      · exact absurd h' m3
      · exact absurd (List.mem_singleton.mp h') k9
    · intro h; exact Or.inl (Or.inl (Or.inl (Or.inr h)))
  · intro _ _ h; cases h

theorem lookup_of {tb : Table} {cols found : List Column} (h : tb.lookupColumns cols = .ok found) :
    found ≠ [] ↔ ∃ c ∈ cols, c.name ∈ tb.primaryKey ∨ tb.isUniqueColumn c = true := by
  unfold Table.lookupColumns at h
  simp only [Conv.bind_ok, Conv.pure_ok] at h
  obtain ⟨flags, hf, rfl⟩ := h
  induction cols generalizing flags with
  | nil => simp
  | cons c cols ih =>
    rw [List.mapM_cons] at hf
    simp only [Conv.bind_ok, Conv.pure_ok] at hf
    obtain ⟨f, hf1, fs, hf2, rfl⟩ := hf
    have ih := ih fs hf2
    unfold Table.isLookupColumn at hf1
    simp only [Conv.bind_ok, Conv.pure_ok] at hf1
    obtain ⟨_, _, hf1⟩ := hf1
    cases f with
    | true =>
      have : (tb.primaryKey.contains c.name || tb.isUniqueColumn c) = true := hf1
      simp only [Bool.or_eq_true, List.contains_iff_mem] at this
      simp only [List.zip_cons_cons, List.filter_cons_of_pos, List.map_cons, ne_eq, reduceCtorEq, not_false_eq_true, true_iff]
      exact ⟨c, List.mem_cons_self .., this⟩
    | false =>
      have : ¬ (c.name ∈ tb.primaryKey ∨ tb.isUniqueColumn c = true) := by
        intro h
        have : (tb.primaryKey.contains c.name || tb.isUniqueColumn c) = true := by simpa using h
        rw [this] at hf1; cases hf1
      have hz : ((c :: cols).zip (false :: fs)).filter Prod.snd = (cols.zip fs).filter Prod.snd := rfl
      rw [hz, ih]
      simp [this]

end C62

/-- MERGE (Redshift, Oracle, SQL Server, Delta, Snowflake, Trino): without a condition, the statement is none that a server accepts; it has one exactly if the parameters include
    a column of the primary key, or one that is unique by itself.  `merge` leaves out identity columns, `upsert` does not. -/
theorem C62_condition (e : PySqlSync.Engine) (he : e.writer = .base) (tb : Table) (order : Option (List Text)) (hq : ∀ id, tb.name ≠ .global id) (x : Text)
    (cols : List Column) (hc : tb.getColumns order = .ok cols) (ts : List Token) (hl : Lexes (literalOf e.dialect) x ts) :
    (e.mergeText tb order = .ok x → (.word (t "ON") ∈ ts ↔ ∃ c ∈ cols, c.identity = false ∧ (c.name ∈ tb.primaryKey ∨ tb.isUniqueColumn c = true))) ∧
    (e.upsertText tb order = .ok x → (.word (t "ON") ∈ ts ↔ ∃ c ∈ cols, c.name ∈ tb.primaryKey ∨ tb.isUniqueColumn c = true)) := by
  have h := C62_functions e tb order (fun id h => absurd h (hq id)) x
  constructor
  · intro hx
    obtain ⟨s, hs, ht⟩ := h.2.1 hx
    rw [(ht ts).mp hl]
    unfold mergeStmt at hs
    rw [he, hc] at hs
    obtain ⟨cols', hc', hs⟩ := Conv.bind_ok.mp hs
    cases hc'
    obtain ⟨on, hon, hs⟩ := Conv.bind_ok.mp hs
    cases hs
    rw [on_merge hq, Ne, List.map_eq_nil_iff, ← Ne, lookup_of hon]
    simp [and_assoc]
  · intro hx
    obtain ⟨s, hs, ht⟩ := h.2.2.1 hx
    rw [(ht ts).mp hl]
    unfold upsertStmt at hs
    rw [he, hc] at hs
    obtain ⟨cols', hc', hs⟩ := Conv.bind_ok.mp hs
    cases hc'
    obtain ⟨on, hon, hs⟩ := Conv.bind_ok.mp hs
    obtain ⟨_, _, hs⟩ := Conv.bind_ok.mp hs
    cases hs
    rw [on_merge hq, Ne, List.map_eq_nil_iff, ← Ne, lookup_of hon]

/-! ### Examples -/

example : (PySqlSync.Engine.postgresql.upsertText C22.Ex.tb none).toOption =
    some (t "INSERT INTO \"p\"\n(\"id\", \"x\", \"y\") VALUES ($1, $2, $3)\nON CONFLICT (\"id\") DO UPDATE SET\n\"x\" = EXCLUDED.\"x\",\n\"y\" = EXCLUDED.\"y\"\n;") := by
  decide +kernel

example : (PySqlSync.Engine.oracle.upsertText C22.Ex.tb none).toOption =
    some (t "MERGE INTO \"p\" target\nUSING (VALUES (:1, :2, :3)) source(\"id\", \"x\", \"y\")\nON (target.\"id\" = source.\"id\")\nWHEN MATCHED THEN\nUPDATE SET target.\"x\" = source.\"x\", target.\"y\" = source.\"y\"\nWHEN NOT MATCHED THEN\nINSERT (\"x\", \"y\") VALUES (source.\"x\", source.\"y\")\n;") := by
  decide +kernel

/-- A finding: if the primary key is an identity column and no other column is unique, `merge` writes a statement without a condition. -/
theorem C62_identity_key_no_condition : (PySqlSync.Engine.mssql.mergeText C22.Ex.tb none).toOption =
    some (t "MERGE INTO \"p\" target\nUSING (VALUES (?, ?)) source(\"x\", \"y\")\nWHEN NOT MATCHED THEN\nINSERT (\"x\", \"y\") VALUES (source.\"x\", source.\"y\")\n;") := by
  decide +kernel

namespace C62.Ex

/-- A table with a column whose name has a `%` in it. -/
def rates : Table where
  name := .qualified none (t "rates")
  columns := ⟨[{ name := t "id", ty := .integer .base 8 true none none, nullable := false }, { name := t "tax%", ty := .varChar .base none, nullable := true }]⟩
  primaryKey := [t "id"]

end C62.Ex

/-- A finding: on MySQL, no row can be inserted into a table with a column named `tax%`: the driver takes `%"` for a place to put a value. -/
theorem C62_percent_in_name : (PySqlSync.Engine.mysql.insertText C62.Ex.rates none).toOption = some (t "INSERT INTO \"rates\"\n(\"id\", \"tax%\") VALUES (%s, %s)\n;") ∧
    percentFormat (t "INSERT INTO \"rates\"\n(\"id\", \"tax%\") VALUES (%s, %s)\n;") [t "1", t "2"] = none := by
  decide +kernel

example : percentFormat (t "INSERT INTO \"p\"\n(\"x\") VALUES (%s)\n;") [t "'50%s'"] = some (t "INSERT INTO \"p\"\n(\"x\") VALUES ('50%s')\n;") := by decide +kernel

end PySqlSync
