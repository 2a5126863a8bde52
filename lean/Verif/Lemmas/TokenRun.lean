/-
A program that cuts a text into tokens, for the examples.
-/
import Verif.Lemmas.TokenType

set_option autoImplicit false

namespace PySqlSync.Tok
open Spec

/-- Cuts a text into tokens. -/
def lexRun (R : Reader) : Nat → Text → Option (List Token)
  | 0, _ => none
  | _ + 1, [] => some []
  | n + 1, c :: s =>
    if isBlank c then lexRun R n s
    else if c = '"' then
      match readQuoted '"' s with
      | some (name, s') => (lexRun R n s').map (fun ts => .ident name :: ts)
      | none => none
    else
      match R (c :: s) with
      | some (v, s') => (lexRun R n s').map (fun ts => .str v :: ts)
      | none =>
        if isWordChar c then
          match ((c :: s).dropWhile isWordChar).head? == some '\'' with
          | true => none
          | false => (lexRun R n ((c :: s).dropWhile isWordChar)).map (fun ts => .word ((c :: s).takeWhile isWordChar) :: ts)
        else if isSymChar c && !beginsComment c s then (lexRun R n s).map (fun ts => .sym c :: ts)
        else none

theorem dropWhile_head {p : Char → Bool} : ∀ (l : Text) (c : Char), (l.dropWhile p).head? = some c → p c = false
  | [], c, h => by simp at h
  | a :: l, c, h => by
    cases ha : p a with
    | true => rw [List.dropWhile_cons_of_pos ha] at h; exact dropWhile_head l c h
    | false =>
      rw [List.dropWhile_cons_of_neg (by simp [ha])] at h
      simp at h; subst h; exact ha

theorem takeWhile_all {p : Char → Bool} : ∀ (l : Text) (c : Char), c ∈ l.takeWhile p → p c = true
  | [], c, h => by simp at h
  | a :: l, c, h => by
    cases ha : p a with
    | true =>
      rw [List.takeWhile_cons_of_pos ha] at h
      rcases List.mem_cons.mp h with rfl | h
      · exact ha
      · exact takeWhile_all l c h
    | false => rw [List.takeWhile_cons_of_neg (by simp [ha])] at h; simp at h

theorem lexRun_ok {R : Reader} : ∀ (n : Nat) (s : Text) {ts : List Token}, lexRun R n s = some ts → Lexes R s ts
  | 0, _, _, h => by cases h
  | _ + 1, [], _, h => by cases h; exact .done
  | n + 1, c :: s, ts, h => by
    unfold lexRun at h
    by_cases h1 : isBlank c = true
    · rw [if_pos h1] at h; exact .blank h1 (lexRun_ok n s h)
    rw [if_neg h1] at h
    by_cases h2 : c = '"'
    · rw [if_pos h2] at h
      subst h2
      cases hq : readQuoted '"' s with
      | none => rw [hq] at h; cases h
      | some p =>
        obtain ⟨name, s'⟩ := p
        rw [hq] at h
        simp only [Option.map_eq_some_iff] at h
        obtain ⟨ts', ht, rfl⟩ := h
        exact .ident hq (lexRun_ok n s' ht)
    rw [if_neg h2] at h
    cases hr : R (c :: s) with
    | some p =>
      obtain ⟨v, s'⟩ := p
      rw [hr] at h
      simp only [Option.map_eq_some_iff] at h
      obtain ⟨ts', ht, rfl⟩ := h
      exact .str hr (lexRun_ok n s' ht)
    | none =>
      rw [hr] at h
      dsimp only at h
      by_cases h3 : isWordChar c = true
      · rw [if_pos h3] at h
        cases hq : ((c :: s).dropWhile isWordChar).head? == some '\'' with
        | true => rw [hq] at h; cases h
        | false =>
          rw [hq] at h
          simp only [Option.map_eq_some_iff] at h
          obtain ⟨ts', ht, rfl⟩ := h
          have := Lexes.word (R := R) (w := (c :: s).takeWhile isWordChar) (s := (c :: s).dropWhile isWordChar) (ts := ts')
            (by rw [List.takeWhile_cons_of_pos h3]; simp) (takeWhile_all _)
            (fun a ha => ⟨dropWhile_head _ a ha, by rintro rfl; rw [ha] at hq; simp at hq⟩) (lexRun_ok n _ ht)
          rwa [List.takeWhile_append_dropWhile] at this
      · rw [if_neg h3] at h
        by_cases h4 : (isSymChar c && !beginsComment c s) = true
        · rw [if_pos h4] at h
          simp only [Option.map_eq_some_iff] at h
          obtain ⟨ts', ht, rfl⟩ := h
          simp only [Bool.and_eq_true, Bool.not_eq_true'] at h4
          exact .sym h4.1 h4.2 (lexRun_ok n s ht)
        · rw [if_neg h4] at h; cases h

/-- The tokens of a given piece of SQL. -/
def rawRun (d : Dialect) (e : Text) : List Token := (lexRun (literalOf d) (e.length + 1) e).getD []

/-- Checks that texts are clear. -/
def clearB (d : Dialect) (p : Parts) : Bool :=
  p.names.all (fun q => match q with | .global id => id != [] && id.all isWordChar | _ => true) &&
  p.labels.all (fun v => !v.contains '\\' || (d != .mysql && d != .delta && d != .snowflake)) &&
  p.comments.all (fun c => (d != .mysql || !c.contains '\\') && ((d != .delta && d != .snowflake) || !c.contains '\x00')) &&
  p.given.all (fun e => (lexRun (literalOf d) (e.length + 1) e).isSome && !(rawRun d e).contains semicolon)

theorem clearB_ok {d : Dialect} {p : Parts} (h : clearB d p = true) : Clear d (rawRun d) p := by
  simp only [clearB, Bool.and_eq_true, List.all_eq_true] at h
  obtain ⟨⟨⟨h1, h2⟩, h3⟩, h4⟩ := h
  refine ⟨?_, ?_, ?_, ?_⟩
  · intro id hid
    have := h1 _ hid
    simpa using this
  · intro v hv
    have := h2 v hv
    simp only [Bool.or_eq_true, Bool.and_eq_true, bne_iff_ne, ne_eq, Bool.not_eq_true', List.contains_eq_mem, decide_eq_false_iff_not] at this
    refine ⟨fun hd a b e => ?_, fun hd => this.resolve_right fun hn => ?_⟩
    · exact absurd (e ▸ by simp) (this.resolve_right fun hn => hn.1.1 hd)
    · rcases hd with hd | hd
      · exact hn.1.2 hd
      · exact hn.2 hd
  · intro c hc
    have := h3 c hc
    simp only [Bool.or_eq_true, Bool.and_eq_true, bne_iff_ne, ne_eq, Bool.not_eq_true', List.contains_eq_mem, decide_eq_false_iff_not] at this
    refine ⟨fun hd a b e => ?_, fun hd => noOctalNul_of (this.2.resolve_left (fun hn => ?_))⟩
    · exact absurd (e ▸ by simp) (this.1.resolve_left (fun hn => hn hd))
    · rcases hd with hd | hd
      · exact hn.1 hd
      · exact hn.2 hd
  · intro e he
    have := h4 e he
    simp only [Bool.and_eq_true, Bool.not_eq_true', List.contains_eq_mem, decide_eq_false_iff_not, Option.isSome_iff_exists] at this
    obtain ⟨⟨ts, ht⟩, hn⟩ := this
    refine ⟨?_, hn⟩
    have : rawRun d e = ts := by simp [rawRun, ht]
    rw [this]
    exact lexRun_ok _ _ ht

end PySqlSync.Tok
