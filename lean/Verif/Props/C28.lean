/-
C28 — Exported data reads back.
-/
import Verif.Model.Exchange
import Verif.Lemmas.Url

set_option autoImplicit false

namespace PySqlSync

/-- What is expected of the external library for some records: a line has no newline, and parsing a line that was written for a
    record yields the record. -/
structure Codec {R : Type} (generate : R → List Nat) (parse : List Nat → Except Err R) (P : R → Prop) : Prop where
  one_line : ∀ r, P r → newline ∉ generate r
  round_trip : ∀ r, P r → parse (generate r) = .ok r

namespace C28

theorem readline_line {l rest : List Nat} (h : newline ∉ l) : readline (l ++ newline :: rest) = (l ++ [newline], rest) := by
  induction l with
  | nil => simp [readline]
  | cons b l ih =>
    rw [List.cons_append, readline, if_neg (fun e => h (by simp [e]))]
    simp only
    rw [ih (fun hm => h (List.mem_cons_of_mem _ hm))]
    rfl

theorem rstrip_line {l : List Nat} (h : newline ∉ l) : rstripNewline (l ++ [newline]) = l := by
  unfold rstripNewline
  rw [List.reverse_append]
  simp only [List.reverse_cons, List.reverse_nil, List.nil_append, List.singleton_append, List.dropWhile_cons, decide_true, if_true]
  have : l.reverse.dropWhile (fun b => decide (b = newline)) = l.reverse := by
    cases hl : l.reverse with
    | nil => rfl
    | cons b r =>
      have hb : b ≠ newline := by
        intro e; apply h; rw [← List.mem_reverse, hl, e]; simp
      rw [List.dropWhile_cons, if_neg (by simpa using hb)]
  rw [this, List.reverse_reverse]

theorem split_join {sep : Nat} : ∀ {xs : List (List Nat)}, xs ≠ [] → (∀ x ∈ xs, sep ∉ x) → splitBytes sep (joinBytes sep xs) = xs := by
  have hone : ∀ (x : List Nat), sep ∉ x → splitBytes sep x = [x] := by
    intro x
    induction x with
    | nil => intro _; rfl
    | cons b x ih =>
      intro h
      rw [splitBytes, if_neg (fun e => h (by simp [e])), ih (fun hm => h (List.mem_cons_of_mem _ hm))]
  have happ : ∀ (x rest : List Nat), sep ∉ x → splitBytes sep (x ++ sep :: rest) = x :: splitBytes sep rest := by
    intro x rest
    induction x with
    | nil => intro _; rw [List.nil_append, splitBytes, if_pos rfl]
    | cons b x ih =>
      intro h
      rw [List.cons_append, splitBytes, if_neg (fun e => h (by simp [e])), ih (fun hm => h (List.mem_cons_of_mem _ hm))]
  intro xs
  induction xs with
  | nil => intro h; exact absurd rfl h
  | cons x xs ih =>
    intro _ h
    cases xs with
    | nil => exact hone x (h x List.mem_cons_self)
    | cons y ys =>
      rw [joinBytes, happ x _ (h x List.mem_cons_self), ih (by simp) (fun z hz => h z (List.mem_cons_of_mem _ hz))]

theorem join_mem {sep b : Nat} {xs : List (List Nat)} (h : b ∈ joinBytes sep xs) : b = sep ∨ ∃ x ∈ xs, b ∈ x := by
  induction xs with
  | nil => cases h
  | cons x xs ih =>
    cases xs with
    | nil => exact .inr ⟨x, by simp, h⟩
    | cons y ys =>
      rw [joinBytes, List.mem_append, List.mem_cons] at h
      rcases h with h | h | h
      · exact .inr ⟨x, by simp, h⟩
      · exact .inl h
      · rcases ih h with h | ⟨z, hz, hb⟩
        · exact .inl h
        · exact .inr ⟨z, List.mem_cons_of_mem _ hz, hb⟩

end C28

variable {R : Type} {generate : R → List Nat} {parse : List Nat → Except Err R} {P : R → Prop}

/-- **C28.**  Records of any number are read back unchanged and in order if no record is written as an empty line. -/
theorem C28_read_back (hc : Codec generate parse P) : ∀ (records : List R), (∀ r ∈ records, P r ∧ generate r ≠ []) →
    readRecords parse (writeObjects generate records) = .ok records := by
  intro records
  induction records with
  | nil => intro _; rw [readRecords]; rfl
  | cons r records ih =>
    intro h
    obtain ⟨hp, hne⟩ := h r List.mem_cons_self
    have e : writeObjects generate (r :: records) = generate r ++ newline :: writeObjects generate records := by
      unfold writeObjects; simp
    rw [readRecords, e, C28.readline_line (hc.one_line r hp)]
    simp only
    rw [C28.rstrip_line (hc.one_line r hp), if_neg hne, dif_neg (by simp), hc.round_trip r hp,
      ih (fun x hx => h x (List.mem_cons_of_mem _ hx))]
    rfl

/-- **C28 fails** otherwise, always: a record that is written as an empty line ends the reading without an error, and it is lost
    together with all records after it. -/
theorem C28_truncated (hc : Codec generate parse P) {before after : List R} {r : R} (hb : ∀ x ∈ before, P x ∧ generate x ≠ [])
    (hr : generate r = []) : readRecords parse (writeObjects generate (before ++ r :: after)) = .ok before := by
  induction before with
  | nil =>
    have e : writeObjects generate ([] ++ r :: after) = [] ++ newline :: writeObjects generate after := by
      unfold writeObjects; simp [hr]
    rw [readRecords, e, C28.readline_line (by simp)]
    simp only
    rw [C28.rstrip_line (by simp), if_pos rfl]
  | cons x before ih =>
    obtain ⟨hp, hne⟩ := hb x List.mem_cons_self
    have e : writeObjects generate (x :: before ++ r :: after) = generate x ++ newline :: writeObjects generate (before ++ r :: after) := by
      unfold writeObjects; simp
    rw [readRecords, e, C28.readline_line (hc.one_line x hp)]
    simp only
    rw [C28.rstrip_line (hc.one_line x hp), if_neg hne, dif_neg (by simp), hc.round_trip x hp,
      ih (fun y hy => hb y (List.mem_cons_of_mem _ hy))]
    rfl

/-- **C28, exactly.**  Whatever the library that writes and parses a line: the records written are the records read if and only if none
    of them is written as an empty line. -/
theorem C28_exact (hc : Codec generate parse P) {records : List R} (hp : ∀ r ∈ records, P r) :
    readRecords parse (writeObjects generate records) = .ok records ↔ ∀ r ∈ records, generate r ≠ [] := by
  refine ⟨fun h r hr he => ?_, fun h => C28_read_back hc records (fun r hr => ⟨hp r hr, h r hr⟩)⟩
  -- the first record that is written as an empty line
  have first : ∀ (l : List R), (∃ r ∈ l, generate r = []) → ∃ before x after, l = before ++ x :: after ∧ generate x = [] ∧
      ∀ y ∈ before, generate y ≠ [] := by
    intro l
    induction l with
    | nil => rintro ⟨_, h, _⟩; cases h
    | cons y l ih =>
      rintro ⟨r, hr, he⟩
      by_cases hy : generate y = []
      · exact ⟨[], y, l, rfl, hy, by simp⟩
      · have : r ∈ l := (List.mem_cons.1 hr).resolve_left (fun e => hy (e ▸ he))
        obtain ⟨b, x, a, e, hx, hb⟩ := ih ⟨r, this, he⟩
        refine ⟨y :: b, x, a, by rw [e]; rfl, hx, ?_⟩
        intro z hz
        rcases List.mem_cons.1 hz with e | hz
        · rw [e]; exact hy
        · exact hb z hz
  obtain ⟨b, x, a, e, hx, hb⟩ := first records ⟨r, hr, he⟩
  rw [e, C28_truncated hc (fun y hy => ⟨hp y (by rw [e]; simp [hy]), hb y hy⟩) hx] at h
  have := congrArg List.length (Except.ok.inj h)
  simp at this

/-- **C28.**  The names in the header are read back, and the records begin after it. -/
theorem C28_header {names : List Text} (hne : names ≠ []) (h : ∀ n ∈ names, '\t' ∉ n ∧ '\n' ∉ n) (rest : List Nat) :
    readHeader (writeHeader names ++ rest) = (names, rest) := by
  have hbyte : ∀ (n : Text) (ch : Char), ch.toNat < 0x80 → ch ∉ n → ch.toNat ∉ encodeUtf8 n := by
    intro n ch hlt hn hm
    unfold encodeUtf8 at hm
    obtain ⟨c, hc, hm⟩ := List.mem_flatMap.1 hm
    unfold utf8Bytes at hm
    split at hm
    · rw [List.mem_singleton] at hm
      exact hn ((Char.ext (UInt32.toNat_inj.1 hm)) ▸ hc)
    · split at hm
      · simp only [List.mem_cons, List.not_mem_nil, or_false] at hm; omega
      · split at hm
        · simp only [List.mem_cons, List.not_mem_nil, or_false] at hm; omega
        · simp only [List.mem_cons, List.not_mem_nil, or_false] at hm; omega
  have hnl : newline ∉ joinBytes tabulator (names.map encodeUtf8) := by
    intro hm
    rcases C28.join_mem hm with e | ⟨x, hx, hb⟩
    · exact absurd e (by decide)
    · obtain ⟨n, hn, rfl⟩ := List.mem_map.1 hx
      exact hbyte n '\n' (by decide) (h n hn).2 hb
  unfold readHeader writeHeader
  rw [List.append_assoc, List.singleton_append, C28.readline_line hnl]
  simp only
  rw [C28.rstrip_line hnl, C28.split_join (by simpa using hne)]
  · rw [List.map_map]
    have : names.map (decodeUtf8 ∘ encodeUtf8) = names := by
      conv => rhs; rw [← List.map_id names]
      exact List.map_congr_left (fun n _ => decode_encode n)
    rw [this]
  · intro x hx
    obtain ⟨n, hn, rfl⟩ := List.mem_map.1 hx
    exact hbyte n '\t' (by decide) (h n hn).1

namespace C28

theorem split_length (sep : Nat) (bs : List Nat) : (splitBytes sep bs).length = bs.count sep + 1 := by
  induction bs with
  | nil => rfl
  | cons b bs ih =>
    rw [splitBytes]
    split
    · rename_i h; subst h; simp [ih]
    · rename_i h
      rw [List.count_cons_of_ne h]
      cases hs : splitBytes sep bs with
      | nil => rw [hs] at ih; simp at ih
      | cons p ps => rw [hs] at ih; simpa using ih

theorem join_count (sep : Nat) : ∀ (xs : List (List Nat)), xs ≠ [] →
    (joinBytes sep xs).count sep + 1 = xs.length + (xs.map (List.count sep)).sum := by
  intro xs
  induction xs with
  | nil => intro h; exact absurd rfl h
  | cons x xs ih =>
    intro _
    cases xs with
    | nil => simp [joinBytes]; omega
    | cons y ys =>
      have := ih (by simp)
      rw [joinBytes, List.count_append, List.count_cons_self]
      simp only [List.length_cons, List.map_cons, List.sum_cons] at this ⊢
      omega

theorem readline_rest {l rest : List Nat} (h : newline ∈ l) : rest.length < (readline (l ++ rest)).2.length ∨ ∃ m, l = m ++ [newline] ∧ newline ∉ m := by
  induction l with
  | nil => cases h
  | cons b l ih =>
    rw [List.cons_append, readline]
    by_cases hb : b = newline
    · rw [if_pos hb]
      cases l with
      | nil => exact .inr ⟨[], by rw [hb]; rfl, by simp⟩
      | cons c l => left; simp; omega
    · rw [if_neg hb]
      rcases ih ((List.mem_cons.1 h).resolve_left (fun e => hb e.symm)) with h | ⟨m, e, hm⟩
      · exact .inl h
      · refine .inr ⟨b :: m, by rw [e]; rfl, ?_⟩
        intro h
        rcases List.mem_cons.1 h with h | h
        · exact hb h.symm
        · exact hm h

theorem byte_mem {n : Text} {ch : Char} (h : ch ∈ n) (hlt : ch.toNat < 0x80) : ch.toNat ∈ encodeUtf8 n := by
  unfold encodeUtf8
  refine List.mem_flatMap.2 ⟨ch, h, ?_⟩
  unfold utf8Bytes
  rw [if_pos hlt]
  simp

theorem mem_join {sep b : Nat} {xs : List (List Nat)} {x : List Nat} (hx : x ∈ xs) (hb : b ∈ x) : b ∈ joinBytes sep xs := by
  induction xs with
  | nil => cases hx
  | cons y xs ih =>
    cases xs with
    | nil => rw [List.mem_singleton.1 hx] at hb; exact hb
    | cons z zs =>
      rw [joinBytes, List.mem_append, List.mem_cons]
      rcases List.mem_cons.1 hx with e | hx
      · exact .inl (e ▸ hb)
      · exact .inr (.inr (ih hx))

end C28

/-- **C28, exactly.**  The names in the header are read back, with the records after it, if and only if there are names and none of them
    has a tabulator or a newline. -/
theorem C28_header_exact (names : List Text) (rest : List Nat) :
    readHeader (writeHeader names ++ rest) = (names, rest) ↔ names ≠ [] ∧ ∀ n ∈ names, '\t' ∉ n ∧ '\n' ∉ n := by
  refine ⟨fun h => ?_, fun h => C28_header h.1 h.2 rest⟩
  have hne : names ≠ [] := by
    rintro rfl
    have := congrArg (fun p => p.1.length) h
    simp [readHeader, C28.split_length] at this
  have hnl : newline ∉ joinBytes tabulator (names.map encodeUtf8) := by
    intro hm
    have hs := congrArg (fun p => p.2.length) h
    have hm' : newline ∈ writeHeader names := by unfold writeHeader; simp
    rcases C28.readline_rest (rest := rest) hm' with hlt | ⟨m, e, hm2⟩
    · simp only [readHeader] at hs
      omega
    · have := List.append_inj_left' e rfl
      rw [this] at hm
      exact hm2 hm
  refine ⟨hne, fun n hn => ⟨fun ht => ?_, fun ht => ?_⟩⟩
  · have h1 := congrArg (fun p => p.1.length) h
    unfold readHeader writeHeader at h1
    rw [List.append_assoc, List.singleton_append, C28.readline_line hnl] at h1
    simp only [List.length_map] at h1
    rw [C28.rstrip_line hnl, C28.split_length, C28.join_count tabulator _ (by simpa using hne), List.length_map] at h1
    have hz : ((names.map encodeUtf8).map (List.count tabulator)).sum = 0 := by omega
    have hc : (encodeUtf8 n).count tabulator = 0 :=
      List.sum_eq_zero_iff_forall_eq_nat.1 hz _ (List.mem_map_of_mem (List.mem_map_of_mem hn))
    exact List.count_eq_zero.1 hc (C28.byte_mem ht (by decide))
  · exact hnl (C28.mem_join (List.mem_map_of_mem hn) (C28.byte_mem ht (by decide)))

namespace C28

theorem escape_facts (b : Nat) : newline ∉ escapeByte b ∧ tabulator ∉ escapeByte b ∧
    (∀ rest, unescapeBytes (escapeByte b ++ rest) = (do pure (b :: (← unescapeBytes rest)))) ∧
    (escapeByte b = [b] ∧ b ≠ 92 ∨ ∃ c, escapeByte b = [92, c] ∧ c ≠ 78) := by
  unfold escapeByte
  have hplain : ∀ b : Nat, b ≠ 92 → ∀ rest, unescapeBytes ([b] ++ rest) = (do pure (b :: (← unescapeBytes rest))) := by
    intro b hb rest
    cases rest with
    | nil => simp [unescapeBytes, hb, bind, Except.bind, pure, Except.pure]
    | cons c rest => rw [List.singleton_append, unescapeBytes, if_neg hb]
  split
  · subst_vars; exact ⟨by decide, by decide, fun rest => rfl, .inr ⟨_, rfl, by decide⟩⟩
  split
  · subst_vars; exact ⟨by decide, by decide, fun rest => rfl, .inr ⟨_, rfl, by decide⟩⟩
  split
  · subst_vars; exact ⟨by decide, by decide, fun rest => rfl, .inr ⟨_, rfl, by decide⟩⟩
  split
  · subst_vars; exact ⟨by decide, by decide, fun rest => rfl, .inr ⟨_, rfl, by decide⟩⟩
  split
  · subst_vars; exact ⟨by decide, by decide, fun rest => rfl, .inr ⟨_, rfl, by decide⟩⟩
  split
  · subst_vars; exact ⟨by decide, by decide, fun rest => rfl, .inr ⟨_, rfl, by decide⟩⟩
  split
  · subst_vars; exact ⟨by decide, by decide, fun rest => rfl, .inr ⟨_, rfl, by decide⟩⟩
  split
  · subst_vars; exact ⟨by decide, by decide, fun rest => rfl, .inr ⟨_, rfl, by decide⟩⟩
  · rename_i h92
    refine ⟨?_, ?_, hplain b h92, .inl ⟨rfl, h92⟩⟩
    · simp only [List.mem_singleton]; unfold newline; omega
    · simp only [List.mem_singleton]; unfold tabulator; omega

theorem unescape_escape (bs : List Nat) : unescapeBytes (bs.flatMap escapeByte) = .ok bs := by
  induction bs with
  | nil => rfl
  | cons b bs ih => rw [List.flatMap_cons, (escape_facts b).2.2.1, ih]; rfl

theorem escaped_not_null (bs : List Nat) : bs.flatMap escapeByte ≠ [92, 78] := by
  cases bs with
  | nil => simp
  | cons b bs =>
    rw [List.flatMap_cons]
    rcases (escape_facts b).2.2.2 with ⟨e, h⟩ | ⟨c, e, h⟩
    · rw [e]; intro e'; simp only [List.singleton_append, List.cons.injEq] at e'; exact h e'.1
    · rw [e]; intro e'; simp only [List.cons_append, List.nil_append, List.cons.injEq] at e'; exact h e'.2.1

theorem value_field (v : Option Text) : tsvValue (tsvField v) = .ok v := by
  cases v with
  | none => rfl
  | some s =>
    unfold tsvValue tsvField
    rw [if_neg (escaped_not_null _), unescape_escape]
    simp only [bind, Except.bind, pure, Except.pure]
    rw [decode_encode]

theorem field_chars (v : Option Text) : newline ∉ tsvField v ∧ tabulator ∉ tsvField v := by
  cases v with
  | none => decide
  | some s =>
    unfold tsvField
    constructor
    · intro h; obtain ⟨b, _, hb⟩ := List.mem_flatMap.1 h; exact (escape_facts b).1 hb
    · intro h; obtain ⟨b, _, hb⟩ := List.mem_flatMap.1 h; exact (escape_facts b).2.1 hb

theorem field_empty (v : Option Text) : tsvField v = [] ↔ v = some [] := by
  cases v with
  | none => simp [tsvField]
  | some s =>
    constructor
    · intro h
      have := value_field (some s)
      rw [h] at this
      cases this; rfl
    · intro h; cases h; rfl

/-- The model of the library meets what is expected of it, for all records with at least one column. -/
theorem tsv_codec : Codec tsvGenerate tsvParse (fun r => r ≠ []) := by
  refine ⟨?_, ?_⟩
  · intro r _ h
    rcases join_mem h with e | ⟨x, hx, hb⟩
    · exact absurd e (by decide)
    · obtain ⟨v, _, rfl⟩ := List.mem_map.1 hx
      exact (field_chars v).1 hb
  · intro r hr
    unfold tsvParse tsvGenerate
    rw [split_join (by simpa using hr) (by
      intro x hx
      obtain ⟨v, _, rfl⟩ := List.mem_map.1 hx
      exact (field_chars v).2)]
    clear hr
    induction r with
    | nil => rfl
    | cons v r ih =>
      rw [List.map_cons, List.mapM_cons, value_field, ih]
      rfl

theorem generate_empty {r : List (Option Text)} (hr : r ≠ []) : tsvGenerate r = [] ↔ r = [some []] := by
  cases r with
  | nil => exact absurd rfl hr
  | cons v r =>
    cases r with
    | nil =>
      show tsvField v = [] ↔ _
      rw [field_empty]
      simp
    | cons w r =>
      unfold tsvGenerate
      rw [List.map_cons, List.map_cons, joinBytes]
      simp

end C28

/-- **C28.**  A whole file, for all texts and NULL: with two or more columns, or one that has no empty text, names and records are
    read back as they were written. -/
theorem C28_file {names : List Text} {records : List (List (Option Text))} (hn : names ≠ [])
    (hnames : ∀ n ∈ names, '\t' ∉ n ∧ '\n' ∉ n) (hlen : ∀ r ∈ records, r.length = names.length) (he : [some []] ∉ records) :
    (readHeader (writeHeader names ++ writeObjects tsvGenerate records)).1 = names ∧
    readRecords tsvParse (readHeader (writeHeader names ++ writeObjects tsvGenerate records)).2 = .ok records := by
  rw [C28_header hn hnames]
  refine ⟨rfl, C28_read_back C28.tsv_codec records ?_⟩
  intro r hr
  have hne : r ≠ [] := by
    intro e
    have := hlen r hr
    rw [e] at this
    exact hn (List.length_eq_zero_iff.1 this.symm)
  exact ⟨hne, fun e => he ((C28.generate_empty hne).1 e ▸ hr)⟩

/-- **C28, exactly.**  For all texts and NULL, a file with at least one column whose names have no tabulator and no newline: the records
    are read back if and only if none of them consists of one empty text, which takes a file with one column. -/
theorem C28_file_exact {names : List Text} {records : List (List (Option Text))} (hn : names ≠ [])
    (hnames : ∀ n ∈ names, '\t' ∉ n ∧ '\n' ∉ n) (hlen : ∀ r ∈ records, r.length = names.length) :
    readRecords tsvParse (readHeader (writeHeader names ++ writeObjects tsvGenerate records)).2 = .ok records ↔
      ¬ (names.length = 1 ∧ [some []] ∈ records) := by
  have hne : ∀ r ∈ records, r ≠ [] := by
    intro r hr e
    have := hlen r hr
    rw [e] at this
    exact hn (List.length_eq_zero_iff.1 this.symm)
  rw [C28_header hn hnames, C28_exact C28.tsv_codec hne]
  constructor
  · rintro h ⟨_, he⟩
    exact h _ he rfl
  · intro h r hr e
    have := (C28.generate_empty (hne r hr)).1 e
    subst this
    exact h ⟨(hlen _ hr).symm, hr⟩

/-- **C28 fails** for one column with an empty text: everything from there on is lost without an error. -/
theorem C28_empty_text_truncates {before after : List Text} (hb : [] ∉ before) :
    readRecords tsvParse (writeObjects tsvGenerate ((before ++ [] :: after).map (fun s => [some s]))) =
      .ok (before.map (fun s => [some s])) := by
  rw [List.map_append, List.map_cons]
  refine C28_truncated C28.tsv_codec ?_ rfl
  intro x hx
  obtain ⟨s, hs, rfl⟩ := List.mem_map.1 hx
  refine ⟨by simp, fun e => ?_⟩
  have := (C28.generate_empty (by simp)).1 e
  simp at this
  exact hb (this ▸ hs)

/-- Special characters, NULL and an empty text. -/
example : ∃ r : List (List (Option Text)), r = [[some (t "a\tb\n\\"), none], [some [], some (t "é€")]] ∧
    (∀ x ∈ r, x.length = 2) ∧ [some []] ∉ r := ⟨_, rfl, by decide, by decide⟩

end PySqlSync
