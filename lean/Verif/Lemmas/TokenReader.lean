/-
Helper lemmas: the readers of string literals, and that a text is cut into tokens in one way.
-/
import Verif.Lemmas.Token
import Verif.Props.C16
import Verif.Props.C18

set_option autoImplicit false

namespace PySqlSync.Tok
open Spec

/-- What the rules for string literals of every engine have in common. -/
structure ReaderOk (R : Reader) : Prop where
  /-- a literal begins with a quote, or with a letter and a quote -/
  starts : ∀ {s : Text} {v s' : Text}, R s = some (v, s') → s.head? = some '\'' ∨ ∃ c r, s = c :: '\'' :: r ∧ isWordChar c = true
  /-- text after the literal plays no role unless it begins with a quote -/
  stable : ∀ {s v s' b : Text}, R s = some (v, s') → b.head? ≠ some '\'' → R (s ++ b) = some (v, s' ++ b)

theorem readQuoted_stable {q : Char} {b : Text} (hb : b.head? ≠ some q) : ∀ (s : Text) {v s' : Text},
    readQuoted q s = some (v, s') → readQuoted q (s ++ b) = some (v, s' ++ b)
  | [], v, s', h => by cases h
  | c :: rest, v, s', h => by
    by_cases hc : c = q
    · subst hc
      cases rest with
      | nil =>
        simp only [readQuoted] at h
        simp at h
        obtain ⟨rfl, rfl⟩ := h
        simpa using readQuoted_close c b hb
      | cons d rest' =>
        by_cases hd : d = c
        · subst hd
          simp only [readQuoted, if_pos] at h
          obtain ⟨⟨v', s''⟩, h', he⟩ := Option.map_eq_some_iff.mp h
          simp only [Prod.mk.injEq] at he
          obtain ⟨rfl, rfl⟩ := he
          have ih := readQuoted_stable hb rest' h'
          simp [readQuoted, ih]
        · rw [readQuoted] at h
          simp only [if_pos, if_neg hd] at h
          simp only [Option.some.injEq, Prod.mk.injEq] at h
          obtain ⟨rfl, rfl⟩ := h
          exact readQuoted_close c (d :: rest' ++ b) (by simpa using hd)
    · rw [readQuoted_other q c rest hc] at h
      obtain ⟨⟨v', s''⟩, h', he⟩ := Option.map_eq_some_iff.mp h
      simp only [Prod.mk.injEq] at he
      obtain ⟨rfl, rfl⟩ := he
      have ih := readQuoted_stable hb rest h'
      rw [List.cons_append, readQuoted_other q c _ hc, ih]; rfl

theorem readEscaped_stable {esc : Char → Option Text} {b : Text} (hb : b.head? ≠ some '\'') : ∀ (s : Text) {v s' : Text},
    readEscaped esc s = some (v, s') → readEscaped esc (s ++ b) = some (v, s' ++ b)
  | [], v, s', h => by cases h
  | c :: rest, v, s', h => by
    by_cases hc : c = '\\'
    · subst hc
      cases rest with
      | nil => simp [readEscaped] at h
      | cons d rest' =>
        cases hd : esc d with
        | none => simp [readEscaped, hd] at h
        | some e =>
          rw [readEscaped_esc esc d e rest' hd] at h
          obtain ⟨⟨v', s''⟩, h', he⟩ := Option.map_eq_some_iff.mp h
          simp only [Prod.mk.injEq] at he
          obtain ⟨rfl, rfl⟩ := he
          have ih := readEscaped_stable hb rest' h'
          rw [List.cons_append, List.cons_append, readEscaped_esc esc d e _ hd, ih]; rfl
    · by_cases hq : c = '\''
      · subst hq
        cases rest with
        | nil =>
          simp [readEscaped] at h
          obtain ⟨rfl, rfl⟩ := h
          simpa using readEscaped_close esc b hb
        | cons d rest' =>
          by_cases hd : d = '\''
          · subst hd
            rw [readEscaped_dbl] at h
            obtain ⟨⟨v', s''⟩, h', he⟩ := Option.map_eq_some_iff.mp h
            simp only [Prod.mk.injEq] at he
            obtain ⟨rfl, rfl⟩ := he
            have ih := readEscaped_stable hb rest' h'
            rw [List.cons_append, List.cons_append, readEscaped_dbl, ih]; rfl
          · rw [readEscaped_close esc (d :: rest') (by simpa using hd)] at h
            simp only [Option.some.injEq, Prod.mk.injEq] at h
            obtain ⟨rfl, rfl⟩ := h
            exact readEscaped_close esc (d :: rest' ++ b) (by simpa using hd)
      · rw [readEscaped_other esc c rest hc hq] at h
        obtain ⟨⟨v', s''⟩, h', he⟩ := Option.map_eq_some_iff.mp h
        simp only [Prod.mk.injEq] at he
        obtain ⟨rfl, rfl⟩ := he
        have ih := readEscaped_stable hb rest h'
        rw [List.cons_append, readEscaped_other esc c _ hc hq, ih]; rfl

theorem octal3_append {r b : Text} {e : Char} (h : octal3 r = some e) : octal3 (r ++ b) = some e := by
  match r, h with
  | _ :: _ :: _ :: _, h => simpa [octal3] using h

theorem octDigit_quote : octDigit '\'' = none := by decide +kernel

theorem octal3_none {esc : Char → Option Text} {d : Char} {r b v s' : Text} (h : octal3 (d :: r) = none)
    (hr : readEscapedOct esc 0 r = some (v, s')) : octal3 (d :: r ++ b) = none := by
  match r, h, hr with
  | [], _, hr => simp [readEscapedOct] at hr
  | [e], _, hr =>
    have he : e = '\'' := by
      by_cases h1 : e = '\\'
      · subst h1; simp [readEscapedOct, octal3] at hr
      · by_cases h2 : e = '\''
        · exact h2
        · rw [readEscapedOct_other esc e [] h1 h2] at hr
          simp [readEscapedOct] at hr
    subst he
    cases b with
    | nil => simp [octal3]
    | cons x b =>
      simp only [List.cons_append, List.nil_append, octal3, octDigit_quote]
      cases octDigit d <;> rfl
  | e :: f :: r, h, _ => simpa [octal3] using h

theorem readEscapedOct_stable {esc : Char → Option Text} {b : Text} (hb : b.head? ≠ some '\'') : ∀ (s : Text) (n : Nat) {v s' : Text},
    readEscapedOct esc n s = some (v, s') → readEscapedOct esc n (s ++ b) = some (v, s' ++ b)
  | [], n, v, s', h => by cases n <;> simp [readEscapedOct] at h
  | c :: rest, n + 1, v, s', h => by
    simp only [readEscapedOct] at h
    rw [List.cons_append]
    simp only [readEscapedOct]
    exact readEscapedOct_stable hb rest n h
  | c :: rest, 0, v, s', h => by
    by_cases hc : c = '\\'
    · subst hc
      cases ho : octal3 rest with
      | some e =>
        rw [readEscapedOct.eq_def] at h
        simp only [if_pos, ho] at h
        obtain ⟨⟨v', s''⟩, h', he⟩ := Option.map_eq_some_iff.mp h
        simp only [Prod.mk.injEq] at he
        obtain ⟨rfl, rfl⟩ := he
        have ih := readEscapedOct_stable hb rest 3 h'
        rw [List.cons_append]
        rw [readEscapedOct.eq_def]
        simp only [if_pos, octal3_append ho, ih]; rfl
      | none =>
        cases rest with
        | nil => simp [readEscapedOct, octal3] at h
        | cons d rest' =>
          cases hd : esc d with
          | none => simp [readEscapedOct, ho, hd] at h
          | some e =>
            have h2 : (readEscapedOct esc 0 rest').map (fun p => (e ++ p.1, p.2)) = some (v, s') := by
              simpa only [readEscapedOct, if_pos, ho, hd] using h
            obtain ⟨⟨v', s''⟩, h', he⟩ := Option.map_eq_some_iff.mp h2
            simp only [Prod.mk.injEq] at he
            obtain ⟨rfl, rfl⟩ := he
            have ih := readEscapedOct_stable hb rest' 0 h'
            have ho' : octal3 (d :: (rest' ++ b)) = none := octal3_none ho h'
            rw [List.cons_append, List.cons_append]
            simp only [readEscapedOct, if_pos, ho', hd, ih]; rfl
    · by_cases hq : c = '\''
      · subst hq
        have hb0 : readEscapedOct esc 0 ('\'' :: b) = some ([], b) := by
          cases b with
          | nil => simp [readEscapedOct]
          | cons x b =>
            have hx : x ≠ '\'' := by simpa using hb
            simp [readEscapedOct, hx]
        cases rest with
        | nil =>
          simp [readEscapedOct] at h
          obtain ⟨rfl, rfl⟩ := h
          simpa using hb0
        | cons d rest' =>
          by_cases hd : d = '\''
          · subst hd
            have h2 : (readEscapedOct esc 0 rest').map (fun p => ('\'' :: p.1, p.2)) = some (v, s') := by
              simpa [readEscapedOct] using h
            obtain ⟨⟨v', s''⟩, h', he⟩ := Option.map_eq_some_iff.mp h2
            simp only [Prod.mk.injEq] at he
            obtain ⟨rfl, rfl⟩ := he
            have ih := readEscapedOct_stable hb rest' 0 h'
            simp [readEscapedOct, ih]
          · simp [readEscapedOct, hd] at h
            obtain ⟨rfl, rfl⟩ := h
            simp [readEscapedOct, hd]
      · rw [readEscapedOct_other esc c rest hc hq] at h
        obtain ⟨⟨v', s''⟩, h', he⟩ := Option.map_eq_some_iff.mp h
        simp only [Prod.mk.injEq] at he
        obtain ⟨rfl, rfl⟩ := he
        have ih := readEscapedOct_stable hb rest 0 h'
        rw [List.cons_append, readEscapedOct_other esc c _ hc hq, ih]; rfl

theorem readString_ok : ReaderOk readString where
  starts := by
    intro s v s' h
    match s, h with
    | c :: r, h =>
      by_cases hc : c = '\''
      · exact Or.inl (by simp [hc])
      · simp [readString, hc] at h
  stable := by
    intro s v s' b h hb
    match s, h with
    | c :: r, h =>
      by_cases hc : c = '\''
      · subst hc; exact readQuoted_stable hb r h
      · simp [readString, hc] at h

theorem readMySQL_ok : ReaderOk readMySQL where
  starts := by
    intro s v s' h
    match s, h with
    | c :: r, h =>
      by_cases hc : c = '\''
      · exact Or.inl (by simp [hc])
      · simp [readMySQL, hc] at h
  stable := by
    intro s v s' b h hb
    match s, h with
    | c :: r, h =>
      by_cases hc : c = '\''
      · subst hc; exact readEscaped_stable hb r h
      · simp [readMySQL, hc] at h

theorem readDelta_ok : ReaderOk readDelta where
  starts := by
    intro s v s' h
    match s, h with
    | c :: r, h =>
      by_cases hc : c = '\''
      · exact Or.inl (by simp [hc])
      · simp [readDelta, hc] at h
  stable := by
    intro s v s' b h hb
    match s, h with
    | c :: r, h =>
      by_cases hc : c = '\''
      · subst hc; exact readEscapedOct_stable hb r 0 h
      · simp [readDelta, hc] at h

theorem readSnowflake_ok : ReaderOk readSnowflake where
  starts := by
    intro s v s' h
    match s, h with
    | c :: r, h =>
      by_cases hc : c = '\''
      · exact Or.inl (by simp [hc])
      · simp [readSnowflake, hc] at h
  stable := by
    intro s v s' b h hb
    match s, h with
    | c :: r, h =>
      by_cases hc : c = '\''
      · subst hc; exact readEscapedOct_stable hb r 0 h
      · simp [readSnowflake, hc] at h

/-- A reader that accepts `'...'` and `P'...'`. -/
theorem prefixed_ok {R : Reader} (P : Char) (hP : isWordChar P = true) (f g : Reader)
    (hf : ∀ r, R ('\'' :: r) = f r) (hg : ∀ r, R (P :: '\'' :: r) = g r)
    (hn : ∀ s, s.head? ≠ some '\'' → (∀ r, s ≠ P :: '\'' :: r) → R s = none)
    (sf : ∀ {b : Text}, b.head? ≠ some '\'' → ∀ s {v s' : Text}, f s = some (v, s') → f (s ++ b) = some (v, s' ++ b))
    (sg : ∀ {b : Text}, b.head? ≠ some '\'' → ∀ s {v s' : Text}, g s = some (v, s') → g (s ++ b) = some (v, s' ++ b)) : ReaderOk R where
  starts := by
    intro s v s' h
    by_cases h1 : s.head? = some '\''
    · exact Or.inl h1
    · by_cases h2 : ∃ r, s = P :: '\'' :: r
      · obtain ⟨r, rfl⟩ := h2
        exact Or.inr ⟨P, r, rfl, hP⟩
      · rw [hn s h1 (fun r hr => h2 ⟨r, hr⟩)] at h; cases h
  stable := by
    intro s v s' b h hb
    by_cases h1 : s.head? = some '\''
    · cases s with
      | nil => cases h1
      | cons c s =>
        simp only [List.head?_cons, Option.some.injEq] at h1
        subst h1
        rw [hf] at h
        rw [List.cons_append, hf]
        exact sf hb s h
    · by_cases h2 : ∃ r, s = P :: '\'' :: r
      · obtain ⟨r, rfl⟩ := h2
        rw [hg] at h
        rw [List.cons_append, List.cons_append, hg]
        exact sg hb r h
      · rw [hn s h1 (fun r hr => h2 ⟨r, hr⟩)] at h; cases h

theorem readPostgres_ok : ReaderOk readPostgres := by
  refine prefixed_ok 'E' (by decide +kernel) (readQuoted '\'') (readEscaped pgEsc) (fun _ => rfl) (fun _ => rfl) ?_
    (fun hb s _ _ h => readQuoted_stable hb s h) (fun hb s _ _ h => readEscaped_stable hb s h)
  intro s h1 h2
  unfold readPostgres
  split
  · simp at h1
  · rename_i r; exact absurd rfl (h2 r)
  · rfl

theorem readMSSQL_ok : ReaderOk readMSSQL := by
  refine prefixed_ok 'N' (by decide +kernel) (readQuoted '\'') (readQuoted '\'') (fun _ => rfl) (fun _ => rfl) ?_
    (fun hb s _ _ h => readQuoted_stable hb s h) (fun hb s _ _ h => readQuoted_stable hb s h)
  intro s h1 h2
  unfold readMSSQL
  split
  · simp at h1
  · rename_i r; exact absurd rfl (h2 r)
  · rfl

theorem literalOf_ok (d : Dialect) : ReaderOk (literalOf d) := by
  cases d
  · exact readString_ok
  · exact readPostgres_ok
  · exact readMySQL_ok
  · exact readString_ok
  · exact readMSSQL_ok
  · exact readDelta_ok
  · exact readSnowflake_ok

/-! ### Text that is cut into tokens on its own is so in context -/

theorem lexes_pre {R : Reader} (ok : ReaderOk R) {a : Text} {ta : List Token} (h : Lexes R a ta) : Pre R a ta := by
  intro b tb hb hl
  induction h with
  | done => exact hl
  | blank hc _ ih => exact .blank hc ih
  | ident hr _ ih =>
    rw [List.cons_append]
    exact .ident (readQuoted_stable (sepHead_dquote hb) _ hr) ih
  | str hr _ ih => exact .str (ok.stable hr (sepHead_quote hb)) ih
  | @word w s ts hne hw hs _ ih =>
    rw [List.append_assoc]
    refine .word hne hw ?_ ih
    cases s with
    | nil => exact sepHead_word hb
    | cons x s => exact hs
  | @sym c s ts hc hn _ ih =>
    refine .sym hc ?_ ih
    exact beginsComment_append hn (Or.inr hb)

/-! ### There is only one way -/

theorem word_split {w w' s s' : Text} (hw : ∀ c ∈ w, isWordChar c = true) (hw' : ∀ c ∈ w', isWordChar c = true)
    (hs : ∀ c, s.head? = some c → isWordChar c = false ∧ c ≠ '\'') (hs' : ∀ c, s'.head? = some c → isWordChar c = false ∧ c ≠ '\'')
    (h : w ++ s = w' ++ s') : w = w' ∧ s = s' := by
  induction w generalizing w' with
  | nil =>
    cases w' with
    | nil => exact ⟨rfl, h⟩
    | cons c w' =>
      have : s.head? = some c := by rw [show s = c :: w' ++ s' from h]; rfl
      have := (hs c this).1
      rw [hw' c (List.mem_cons_self ..)] at this; cases this
  | cons c w ih =>
    cases w' with
    | nil =>
      have : s'.head? = some c := by rw [show s' = c :: w ++ s from h.symm]; rfl
      have := (hs' c this).1
      rw [hw c (List.mem_cons_self ..)] at this; cases this
    | cons c' w' =>
      simp only [List.cons_append, List.cons.injEq] at h
      obtain ⟨rfl, h⟩ := h
      obtain ⟨rfl, rfl⟩ := ih (fun e he => hw e (List.mem_cons_of_mem _ he)) (fun e he => hw' e (List.mem_cons_of_mem _ he)) h
      exact ⟨rfl, rfl⟩

theorem starts_not_word {R : Reader} (ok : ReaderOk R) {w s v s' : Text} (hne : w ≠ []) (hw : ∀ c ∈ w, isWordChar c = true)
    (hs : ∀ c, s.head? = some c → isWordChar c = false ∧ c ≠ '\'') (h : R (w ++ s) = some (v, s')) : False := by
  cases w with
  | nil => exact hne rfl
  | cons c w =>
    rcases ok.starts h with h1 | ⟨e, r, h1, he⟩
    · simp only [List.cons_append, List.head?_cons, Option.some.injEq] at h1
      have := hw c (List.mem_cons_self ..)
      rw [h1, quote_not_word] at this; cases this
    · simp only [List.cons_append, List.cons.injEq] at h1
      cases w with
      | nil =>
        have h2 := h1.2
        simp only [List.nil_append] at h2
        exact (hs '\'' (by rw [h2]; rfl)).2 rfl
      | cons x w =>
        simp only [List.cons_append, List.cons.injEq] at h1
        have := hw x (by simp)
        rw [h1.2.1, quote_not_word] at this; cases this

theorem starts_head {R : Reader} (ok : ReaderOk R) {c : Char} {s v s' : Text} (h : R (c :: s) = some (v, s')) :
    isBlank c = false ∧ isSymChar c = false ∧ c ≠ '"' := by
  have : c = '\'' ∨ isWordChar c = true := by
    rcases ok.starts h with h1 | ⟨e, r, h1, he⟩
    · simp only [List.head?_cons, Option.some.injEq] at h1; exact Or.inl h1
    · simp only [List.cons.injEq] at h1; rw [h1.1]; exact Or.inr he
  rcases this with rfl | hw
  · decide +kernel
  · refine ⟨?_, ?_, ?_⟩
    · cases hb : isBlank c with
      | false => rfl
      | true => rw [(blank_class hb).1] at hw; cases hw
    · cases hb : isSymChar c with
      | false => rfl
      | true => rw [sym_not_word hb] at hw; cases hw
    · rintro rfl; rw [dquote_not_word] at hw; cases hw

/-- A text is cut into tokens in one way only. -/
theorem lexes_unique {R : Reader} (ok : ReaderOk R) {s : Text} {ts ts' : List Token} (h : Lexes R s ts) (h' : Lexes R s ts') : ts = ts' := by
  induction h generalizing ts' with
  | done =>
    generalize hx : ([] : Text) = x at h'
    cases h' with
    | done => rfl
    | blank | ident | sym => cases hx
    | str hr _ =>
      subst hx
      rcases ok.starts hr with h1 | ⟨_, _, h1, _⟩ <;> cases h1
    | @word w s ts hne _ _ _ =>
      cases w with
      | nil => exact absurd rfl hne
      | cons => cases hx
  | @blank c s ts hc _ ih =>
    generalize hx : c :: s = x at h'
    cases h' with
    | done => cases hx
    | blank _ h2 => cases hx; exact ih h2
    | ident => cases hx; exact absurd hc (by decide +kernel)
    | sym h1 => cases hx; rw [sym_not_blank h1] at hc; cases hc
    | str hr _ => subst hx; rw [(starts_head ok hr).1] at hc; cases hc
    | @word w s ts hne hw _ _ =>
      cases w with
      | nil => exact absurd rfl hne
      | cons y w =>
        cases hx
        have := hw _ (List.mem_cons_self ..)
        rw [(blank_class hc).1] at this; cases this
  | @ident s s' name ts hr _ ih =>
    generalize hx : '"' :: s = x at h'
    cases h' with
    | done => cases hx
    | blank h1 => cases hx; exact absurd h1 (by decide +kernel)
    | ident hr' h2 =>
      cases hx
      rw [hr] at hr'
      simp only [Option.some.injEq, Prod.mk.injEq] at hr'
      obtain ⟨rfl, rfl⟩ := hr'
      rw [ih h2]
    | sym h1 => cases hx; exact absurd rfl (sym_not_dquote h1)
    | str hr _ => subst hx; exact absurd rfl (starts_head ok hr).2.2
    | @word w s ts hne hw _ _ =>
      cases w with
      | nil => exact absurd rfl hne
      | cons y w =>
        cases hx
        have := hw _ (List.mem_cons_self ..)
        rw [dquote_not_word] at this; cases this
  | @str s s' v ts hr _ ih =>
    generalize hx : s = x at h'
    cases h' with
    | done => subst hx; rcases ok.starts hr with h1 | ⟨_, _, h1, _⟩ <;> cases h1
    | blank h1 => subst hx; rw [(starts_head ok hr).1] at h1; cases h1
    | ident => subst hx; exact absurd rfl (starts_head ok hr).2.2
    | sym h1 => subst hx; rw [(starts_head ok hr).2.1] at h1; cases h1
    | str hr' h2 =>
      subst hx
      rw [hr] at hr'
      simp only [Option.some.injEq, Prod.mk.injEq] at hr'
      obtain ⟨rfl, rfl⟩ := hr'
      rw [ih h2]
    | word hne hw hs _ => subst hx; exact (starts_not_word ok hne hw hs hr).elim
  | @word w s ts hne hw hs _ ih =>
    generalize hx : w ++ s = x at h'
    cases h' with
    | done =>
      cases w with
      | nil => exact absurd rfl hne
      | cons => cases hx
    | blank h1 =>
      cases w with
      | nil => exact absurd rfl hne
      | cons y w =>
        cases hx
        have := hw _ (List.mem_cons_self ..)
        rw [(blank_class h1).1] at this; cases this
    | ident =>
      cases w with
      | nil => exact absurd rfl hne
      | cons y w =>
        cases hx
        have := hw _ (List.mem_cons_self ..)
        rw [dquote_not_word] at this; cases this
    | sym h1 =>
      cases w with
      | nil => exact absurd rfl hne
      | cons y w =>
        cases hx
        have := hw _ (List.mem_cons_self ..)
        rw [sym_not_word h1] at this; cases this
    | str hr _ => subst hx; exact (starts_not_word ok hne hw hs hr).elim
    | word hne' hw' hs' h2 =>
      obtain ⟨rfl, rfl⟩ := word_split hw hw' hs hs' hx
      rw [ih h2]
  | @sym c s ts hc _ _ ih =>
    generalize hx : c :: s = x at h'
    cases h' with
    | done => cases hx
    | blank h1 => cases hx; rw [sym_not_blank hc] at h1; cases h1
    | ident => cases hx; exact absurd rfl (sym_not_dquote hc)
    | sym _ _ h2 => cases hx; rw [ih h2]
    | str hr _ => subst hx; rw [(starts_head ok hr).2.1] at hc; cases hc
    | @word w s ts hne hw _ _ =>
      cases w with
      | nil => exact absurd rfl hne
      | cons y w =>
        cases hx
        have := hw _ (List.mem_cons_self ..)
        rw [sym_not_word hc] at this; cases this

end PySqlSync.Tok
