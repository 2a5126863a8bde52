/-
Helper lemmas about cutting a text into tokens (Spec/Token.lean).
-/
import Verif.Spec.Token
import Verif.Lemmas.Lex

set_option autoImplicit false

namespace PySqlSync.Tok
open Spec

abbrev Reader := Text → Option (Text × Text)

/-! ### Classes of characters -/

theorem blank_cases {c : Char} (h : isBlank c = true) : c = ' ' ∨ c = '\t' ∨ c = '\n' ∨ c = '\r' ∨ c = '\x0c' := by
  simpa [isBlank, or_assoc] using h

theorem sym_mem {c : Char} (h : isSymChar c = true) : c ∈ t "(),.;:+-*/<>=%|&!~^?@" := by
  simpa [isSymChar] using h

theorem sym_class : ∀ c ∈ t "(),.;:+-*/<>=%|&!~^?@", isWordChar c = false ∧ isBlank c = false ∧ c ≠ '\'' ∧ c ≠ '"' := by
  decide +kernel

theorem blank_class {c : Char} (h : isBlank c = true) : isWordChar c = false ∧ isSymChar c = false ∧ c ≠ '\'' ∧ c ≠ '"' := by
  rcases blank_cases h with h | h | h | h | h <;> subst h <;> decide +kernel

theorem sym_not_word {c : Char} (h : isSymChar c = true) : isWordChar c = false := (sym_class c (sym_mem h)).1
theorem sym_not_blank {c : Char} (h : isSymChar c = true) : isBlank c = false := (sym_class c (sym_mem h)).2.1
theorem sym_not_quote {c : Char} (h : isSymChar c = true) : c ≠ '\'' := (sym_class c (sym_mem h)).2.2.1
theorem sym_not_dquote {c : Char} (h : isSymChar c = true) : c ≠ '"' := (sym_class c (sym_mem h)).2.2.2

theorem quote_not_word : isWordChar '\'' = false := by decide +kernel
theorem dquote_not_word : isWordChar '"' = false := by decide +kernel

/-! ### Texts that do not attach to what comes before -/

/-- The text is empty, or begins with a blank or with a symbol that cannot be part of a comment delimiter. -/
def sepHead (b : Text) : Bool :=
  match b with
  | [] => true
  | c :: _ => isBlank c || (isSymChar c && c != '-' && c != '*')

theorem sepHead_append {a b : Text} (ha : sepHead a = true) (hb : sepHead b = true) : sepHead (a ++ b) = true := by
  cases a with
  | nil => exact hb
  | cons c a => exact ha

theorem sepHead_word {b : Text} (h : sepHead b = true) : ∀ c, b.head? = some c → isWordChar c = false ∧ c ≠ '\'' := by
  intro c hc
  cases b with
  | nil => cases hc
  | cons x b =>
    simp only [List.head?_cons, Option.some.injEq] at hc
    subst hc
    simp only [sepHead, Bool.or_eq_true, Bool.and_eq_true] at h
    rcases h with h | h
    · exact ⟨(blank_class h).1, (blank_class h).2.2.1⟩
    · exact ⟨sym_not_word h.1.1, sym_not_quote h.1.1⟩

theorem sepHead_quote {b : Text} (h : sepHead b = true) : b.head? ≠ some '\'' := fun h' => (sepHead_word h _ h').2 rfl

theorem sepHead_dquote {b : Text} (h : sepHead b = true) : b.head? ≠ some '"' := by
  intro hc
  cases b with
  | nil => cases hc
  | cons x b =>
    simp only [List.head?_cons, Option.some.injEq] at hc
    subst hc
    revert h
    simp only [sepHead]
    decide +kernel

theorem sepHead_comment {b : Text} (h : sepHead b = true) (c : Char) : beginsComment c b = false := by
  cases b with
  | nil => simp [beginsComment]
  | cons x b =>
    simp only [sepHead, Bool.or_eq_true, Bool.and_eq_true, bne_iff_ne] at h
    have h1 : x ≠ '-' ∧ x ≠ '*' := by
      rcases h with h | h
      · refine ⟨?_, ?_⟩ <;> rintro rfl <;> revert h <;> decide +kernel
      · exact ⟨h.1.2, h.2⟩
    simp [beginsComment, h1.1, h1.2]

/-! ### Pieces of text -/

/-- Whatever follows and does not attach to it, the text contributes these tokens. -/
def Pre (R : Reader) (a : Text) (ta : List Token) : Prop :=
  ∀ b tb, sepHead b = true → Lexes R b tb → Lexes R (a ++ b) (ta ++ tb)

/-- Whatever follows, the text contributes these tokens. -/
def Hard (R : Reader) (a : Text) (ta : List Token) : Prop := ∀ b tb, Lexes R b tb → Lexes R (a ++ b) (ta ++ tb)

variable {R : Reader}

theorem Hard.pre {a : Text} {ta : List Token} (h : Hard R a ta) : Pre R a ta := fun b tb _ hb => h b tb hb

theorem Pre.lexes {a : Text} {ta : List Token} (h : Pre R a ta) : Lexes R a ta := by
  have := h [] [] rfl .done
  simpa using this

theorem Pre.nil : Pre R [] [] := fun _ _ _ hb => hb

theorem Pre.of_eq {a a' : Text} {ta ta' : List Token} (h : Pre R a ta) (h1 : a = a') (h2 : ta = ta') : Pre R a' ta' := h1 ▸ h2 ▸ h
theorem Hard.of_eq {a a' : Text} {ta ta' : List Token} (h : Hard R a ta) (h1 : a = a') (h2 : ta = ta') : Hard R a' ta' := h1 ▸ h2 ▸ h

/-- A piece that does not attach to the one before. -/
theorem Pre.app {a b : Text} {ta tb : List Token} (ha : Pre R a ta) (hb : Pre R b tb) (hs : sepHead b = true) : Pre R (a ++ b) (ta ++ tb) := by
  intro c tc hc h
  rw [List.append_assoc, List.append_assoc]
  exact ha _ _ (sepHead_append hs hc) (hb c tc hc h)

/-- Any piece after one that ends with a blank or a delimiter. -/
theorem Hard.app {a b : Text} {ta tb : List Token} (ha : Hard R a ta) (hb : Pre R b tb) : Pre R (a ++ b) (ta ++ tb) := by
  intro c tc hc h
  rw [List.append_assoc, List.append_assoc]
  exact ha _ _ (hb c tc hc h)

theorem Pre.appH {a b : Text} {ta tb : List Token} (ha : Pre R a ta) (hb : Hard R b tb) (hs : sepHead b = true) (hne : b ≠ []) :
    Hard R (a ++ b) (ta ++ tb) := by
  intro c tc h
  rw [List.append_assoc, List.append_assoc]
  refine ha _ _ ?_ (hb c tc h)
  cases b with
  | nil => exact absurd rfl hne
  | cons x b => exact hs

theorem Hard.appH {a b : Text} {ta tb : List Token} (ha : Hard R a ta) (hb : Hard R b tb) : Hard R (a ++ b) (ta ++ tb) := by
  intro c tc h
  rw [List.append_assoc, List.append_assoc]
  exact ha _ _ (hb c tc h)

/-! ### Keywords -/

/-- The tokens of a text without quotes. -/
def plain : Text → Option (List Token)
  | [] => some []
  | c :: s =>
    if isBlank c then plain s
    else if isSymChar c then
      if beginsComment c s then none else (plain s).map (.sym c :: ·)
    else if isWordChar c then
      match s with
      | [] => some [.word [c]]
      | d :: _ =>
        if isWordChar d then
          match plain s with
          | some (.word w :: ts) => some (.word (c :: w) :: ts)
          | _ => none
        else if d = '\'' then none
        else (plain s).map (.word [c] :: ·)
    else none

/-- A word becomes longer. -/
theorem extend {c d : Char} {s w : Text} {ts : List Token} (hc : isWordChar c = true) (hd : isWordChar d = true)
    (h : Lexes R (d :: s) (.word w :: ts)) : Lexes R (c :: d :: s) (.word (c :: w) :: ts) := by
  generalize hx : d :: s = x at h
  generalize hy : Token.word w :: ts = y at h
  cases h with
  | done => cases hx
  | blank hb _ =>
    cases hx
    rw [(blank_class hb).1] at hd; cases hd
  | ident _ _ => cases hy
  | str _ _ => cases hy
  | @word w' s' ts' hne hw hs hrest =>
    cases hy
    rw [← List.cons_append]
    exact .word (by simp) (by intro e he; rcases List.mem_cons.mp he with rfl | he; exact hc; exact hw e he) hs hrest
  | sym hb _ _ => cases hy

theorem beginsComment_append {c : Char} {s b : Text} (hc : beginsComment c s = false) (h : s ≠ [] ∨ sepHead b = true) :
    beginsComment c (s ++ b) = false := by
  cases s with
  | nil => exact sepHead_comment (h.resolve_left (fun h => h rfl)) c
  | cons x s => exact hc

theorem plain_pre {s : Text} {ts : List Token} (h : plain s = some ts) : Pre R s ts := by
  intro b tb hb hl
  induction s generalizing ts with
  | nil =>
    simp only [plain, Option.some.injEq] at h
    subst h; exact hl
  | cons c s ih =>
    unfold plain at h
    split at h
    · rename_i hc; exact .blank hc (ih h)
    · split at h
      · rename_i hc
        split at h
        · cases h
        · rename_i hn
          obtain ⟨ts', h', rfl⟩ := Option.map_eq_some_iff.mp h
          exact .sym hc (beginsComment_append (by simpa using hn) (Or.inr hb)) (ih h')
      · split at h
        · rename_i hc
          split at h
          · simp only [Option.some.injEq] at h
            subst h
            exact Lexes.word (w := [c]) (by simp) (by simpa using hc) (sepHead_word hb) hl
          · rename_i d s'
            split at h
            · rename_i hd
              split at h
              · rename_i w ts' he
                simp only [Option.some.injEq] at h
                subst h
                exact extend hc hd (ih he)
              · cases h
            · rename_i hd
              split at h
              · cases h
              · rename_i hq
                obtain ⟨ts', h', rfl⟩ := Option.map_eq_some_iff.mp h
                refine Lexes.word (w := [c]) (s := d :: s' ++ b) (by simp) (by simpa using hc) ?_ (ih h')
                intro e he
                simp only [List.cons_append, List.head?_cons, Option.some.injEq] at he
                subst he
                exact ⟨by simpa using hd, hq⟩
        · cases h

/-- Ends with a blank or with a symbol that cannot begin a comment delimiter. -/
def hardEnd (s : Text) : Bool :=
  match s.getLast? with
  | none => true
  | some c => isBlank c || (isSymChar c && c != '-' && c != '/')

theorem hardEnd_cons {c d : Char} {s : Text} : hardEnd (c :: d :: s) = hardEnd (d :: s) := by
  simp [hardEnd]

theorem plain_hard {s : Text} {ts : List Token} (h : plain s = some ts) (he : hardEnd s = true) : Hard R s ts := by
  intro b tb hl
  induction s generalizing ts with
  | nil =>
    simp only [plain, Option.some.injEq] at h
    subst h; exact hl
  | cons c s ih =>
    have he' : hardEnd s = true := by
      cases s with
      | nil => rfl
      | cons d s => rwa [hardEnd_cons] at he
    unfold plain at h
    split at h
    · rename_i hc; exact .blank hc (ih h he')
    · rename_i hnb
      split at h
      · rename_i hc
        split at h
        · cases h
        · rename_i hn
          obtain ⟨ts', h', rfl⟩ := Option.map_eq_some_iff.mp h
          refine .sym hc ?_ (ih h' he')
          cases s with
          | nil =>
            simp only [hardEnd, List.getLast?_singleton, Bool.or_eq_true, Bool.and_eq_true, bne_iff_ne] at he
            rcases he with he | he
            · exact absurd he hnb
            · simp [beginsComment, he.1.2, he.2]
          | cons x s => simpa [beginsComment] using hn
      · split at h
        · rename_i hns hc
          split at h
          · simp only [hardEnd, List.getLast?_singleton, Bool.or_eq_true, Bool.and_eq_true, bne_iff_ne] at he
            rcases he with he | he
            · exact absurd he hnb
            · exact absurd he.1.1 hns
          · rename_i d s'
            split at h
            · rename_i hd
              split at h
              · rename_i w ts' heq
                simp only [Option.some.injEq] at h
                subst h
                exact extend hc hd (ih heq he')
              · cases h
            · rename_i hd
              split at h
              · cases h
              · rename_i hq
                obtain ⟨ts', h', rfl⟩ := Option.map_eq_some_iff.mp h
                refine Lexes.word (w := [c]) (s := d :: s' ++ b) (by simp) (by simpa using hc) ?_ (ih h' he')
                intro e he
                simp only [List.cons_append, List.head?_cons, Option.some.injEq] at he
                subst he
                exact ⟨by simpa using hd, hq⟩
        · cases h

/-- A closed piece of text. -/
theorem kw (s : Text) (ts : List Token) (h : plain s = some ts := by decide +kernel) : Pre R s ts := plain_pre h
/-- A closed piece of text that ends with a blank or a delimiter. -/
theorem kwH (s : Text) (ts : List Token) (h : plain s = some ts := by decide +kernel) (he : hardEnd s = true := by decide +kernel) : Hard R s ts :=
  plain_hard h he

/-! ### Delimited identifiers, words, literals -/

theorem ident_pre (n : Text) : Pre R ((LocalId.mk n).quoted) [.ident n] := by
  intro b tb hb hl
  have : (LocalId.mk n).quoted ++ b = '"' :: (quoteId n ++ '"' :: b) := by
    simp [LocalId.quoted, t]
  rw [this]
  exact .ident (readQuoted_quoteId n b (sepHead_dquote hb)) hl

theorem word_pre {w : Text} (hne : w ≠ []) (hw : ∀ c ∈ w, isWordChar c = true) : Pre R w [.word w] :=
  fun _ _ hb hl => .word hne hw (sepHead_word hb) hl

/-- The text is a string literal of this value, whatever follows. -/
def LitOk (R : Reader) (lit v : Text) : Prop := ∀ b : Text, b.head? ≠ some '\'' → R (lit ++ b) = some (v, b)

theorem LitOk.pre {lit v : Text} (h : LitOk R lit v) : Pre R lit [.str v] :=
  fun b _ hb hl => .str (h b (sepHead_quote hb)) hl

/-! ### Lists -/

/-- Each text contributes the tokens at the same place of the other list. -/
def PreAll (R : Reader) : List Text → List (List Token) → Prop
  | [], [] => True
  | a :: as, ta :: tas => Pre R a ta ∧ PreAll R as tas
  | _, _ => False

theorem preAll_map {α : Type} (l : List α) (f : α → Text) (g : α → List Token) (h : ∀ x ∈ l, Pre R (f x) (g x)) : PreAll R (l.map f) (l.map g) := by
  induction l with
  | nil => trivial
  | cons x l ih => exact ⟨h x (List.mem_cons_self ..), ih (fun y hy => h y (List.mem_cons_of_mem _ hy))⟩

theorem preAll_append {as bs : List Text} {tas tbs : List (List Token)} (ha : PreAll R as tas) (hb : PreAll R bs tbs) :
    PreAll R (as ++ bs) (tas ++ tbs) := by
  induction as generalizing tas with
  | nil => cases tas with
    | nil => exact hb
    | cons => exact ha.elim
  | cons a as ih => cases tas with
    | nil => exact ha.elim
    | cons ta tas => exact ⟨ha.1, ih ha.2⟩

theorem preAll_mapM {α : Type} (l : List α) (f : α → Except Err Text) (g : α → List Token) {parts : List Text} (hp : l.mapM f = .ok parts)
    (h : ∀ x ∈ l, ∀ s, f x = .ok s → Pre R s (g x)) : PreAll R parts (l.map g) := by
  induction l generalizing parts with
  | nil =>
    simp only [List.mapM_nil] at hp
    cases hp; trivial
  | cons x l ih =>
    rw [List.mapM_cons] at hp
    cases hx : f x with
    | error e => rw [hx] at hp; cases hp
    | ok s =>
      cases hl : l.mapM f with
      | error e => rw [hx, hl] at hp; cases hp
      | ok ss =>
        rw [hx, hl] at hp
        cases hp
        exact ⟨h x (List.mem_cons_self ..) s hx, ih hl (fun y hy => h y (List.mem_cons_of_mem _ hy))⟩

/-- Items with a comma and a blank (or line break) between them. -/
theorem commas_pre {sep : Text} (hsep : Hard R sep [comma]) (hs : sepHead sep = true) (hne : sep ≠ []) :
    ∀ {as : List Text} {tas : List (List Token)}, PreAll R as tas → Pre R (joinWith sep as) (commas tas)
  | [], [], _ => Pre.nil
  | [a], [ta], h => h.1
  | a :: a' :: as, ta :: ta' :: tas, h => by
    have ih := commas_pre hsep hs hne (as := a' :: as) (tas := ta' :: tas) h.2
    have := (h.1.appH hsep hs hne).app ih
    refine this.of_eq rfl ?_
    simp [commas]
  | [], _ :: _, h => h.elim
  | _ :: _, [], h => h.elim
  | [_], _ :: _ :: _, h => h.2.elim
  | _ :: _ :: _, [_], h => h.2.elim

theorem commaBlank {as : List Text} {tas : List (List Token)} (h : PreAll R as tas) : Pre R (joinWith (t ", ") as) (commas tas) :=
  commas_pre (kwH (t ", ") [comma]) (by decide +kernel) (by decide) h
theorem commaLine {as : List Text} {tas : List (List Token)} (h : PreAll R as tas) : Pre R (joinWith (t ",\n") as) (commas tas) :=
  commas_pre (kwH (t ",\n") [comma]) (by decide +kernel) (by decide) h

/-- Items with a blank (or line break) between them. -/
theorem spaces_pre {sep : Text} (hsep : Hard R sep []) (hs : sepHead sep = true) (hne : sep ≠ []) :
    ∀ {as : List Text} {tas : List (List Token)}, PreAll R as tas → Pre R (joinWith sep as) tas.flatten
  | [], [], _ => Pre.nil
  | [a], [ta], h => h.1.of_eq rfl (by simp)
  | a :: a' :: as, ta :: ta' :: tas, h => by
    have ih := spaces_pre hsep hs hne (as := a' :: as) (tas := ta' :: tas) h.2
    have := (h.1.appH hsep hs hne).app ih
    refine this.of_eq rfl ?_
    simp
  | [], _ :: _, h => h.elim
  | _ :: _, [], h => h.elim
  | [_], _ :: _ :: _, h => h.2.elim
  | _ :: _ :: _, [_], h => h.2.elim

end PySqlSync.Tok
