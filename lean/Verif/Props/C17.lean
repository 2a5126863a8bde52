/-
C17 — Dropping a prefixed schema touches only its own tables (MySQL, Oracle).
-/
import Verif.Props.C16

namespace PySqlSync
open Spec

/-- The pattern a name is matched against, after the literal is read: each special character is preceded by `~`. -/
def likeEscaped (s : Text) : Text :=
  s.flatMap (fun c => if c = '~' ∨ c = '_' ∨ c = '%' then ['~', c] else [c])

theorem escapeLike_eq (s : Text) : escapeLike s '~' = replaceChar '\'' ['\'', '\''] (likeEscaped s) := by
  induction s with
  | nil => rfl
  | cons c s ih =>
    have hcons : escapeLike (c :: s) '~' = escapeLike [c] '~' ++ escapeLike s '~' := by
      rw [show c :: s = [c] ++ s from rfl]
      simp only [escapeLike, replaceChar_append]
    have hcons' : likeEscaped (c :: s) = likeEscaped [c] ++ likeEscaped s := by
      simp [likeEscaped]
    rw [hcons, hcons', replaceChar_append, ih]
    congr 1
    by_cases h1 : c = '\''
    · subst h1; rfl
    by_cases h2 : c = '~'
    · subst h2; rfl
    by_cases h3 : c = '_'
    · subst h3; rfl
    by_cases h4 : c = '%'
    · subst h4; rfl
    simp [escapeLike, likeEscaped, h1, h2, h3, h4]

theorem likeMatch_any (s : Text) : LikeMatch '~' ['%'] s := by
  have := LikeMatch.many (e := '~') [] s [] (by decide) .nil
  simpa using this

theorem likeMatch_escaped (ns tail name : Text) :
    LikeMatch '~' (likeEscaped ns ++ tail) name ↔ ∃ r, name = ns ++ r ∧ LikeMatch '~' tail r := by
  induction ns generalizing name with
  | nil => simp [likeEscaped]
  | cons c ns ih =>
    by_cases h : c = '~' ∨ c = '_' ∨ c = '%'
    · have e : likeEscaped (c :: ns) ++ tail = '~' :: c :: (likeEscaped ns ++ tail) := by
        simp [likeEscaped, h]
      rw [e]
      constructor
      · intro hm
        cases hm with
        | lit _ _ _ h1 => exact absurd rfl h1
        | esc _ _ xs hx =>
          obtain ⟨r, rfl, hr⟩ := (ih xs).1 hx
          exact ⟨r, by simp, hr⟩
      · rintro ⟨r, rfl, hr⟩
        exact .esc c _ _ ((ih _).2 ⟨r, rfl, hr⟩)
    · have e : likeEscaped (c :: ns) ++ tail = c :: (likeEscaped ns ++ tail) := by
        simp [likeEscaped, h]
      rw [e]
      simp only [not_or] at h
      constructor
      · intro hm
        generalize hX : likeEscaped ns ++ tail = X at hm
        cases hm with
        | lit _ _ xs h1 h2 h3 hx =>
          subst hX
          obtain ⟨r, rfl, hr⟩ := (ih xs).1 hx
          exact ⟨r, by simp, hr⟩
        | one => exact absurd rfl h.2.1
        | many => exact absurd rfl h.2.2
        | esc => exact absurd rfl h.1
      · rintro ⟨r, rfl, hr⟩
        exact .lit c _ _ h.1 h.2.2 h.2.1 ((ih _).2 ⟨r, rfl, hr⟩)

/-- The quoted LIKE pattern in the DROP query is one literal, and with `ESCAPE '~'` it matches exactly the table
    names that start with `<namespace>__`. -/
theorem C17_drop_schema_matches_prefix (ns rest : Text) (h : rest.head? ≠ some '\'') :
    ∃ pat, readString (dropSchemaPattern ns ++ rest) = some (pat, rest) ∧
      ∀ name, LikeMatch '~' pat name ↔ (ns ++ "__".toList) <+: name := by
  refine ⟨likeEscaped (ns ++ ['_', '_']) ++ ['%'], ?_, ?_⟩
  · have e : dropSchemaPattern ns = '\'' :: (replaceChar '\'' ['\'', '\''] (likeEscaped (ns ++ ['_', '_']) ++ ['%']) ++ ['\'']) := by
      rw [dropSchemaPattern, escapeLike_eq]
      simp [likeEscaped, t_def]
    rw [e]
    simpa [readString] using readQuoted_replace '\'' (likeEscaped (ns ++ ['_', '_']) ++ ['%']) rest h
  · intro name
    rw [likeMatch_escaped]
    constructor
    · rintro ⟨r, rfl, _⟩; exact ⟨r, rfl⟩
    · rintro ⟨r, rfl⟩; exact ⟨r, rfl, likeMatch_any r⟩

/-- On MySQL, whose literals also treat the backslash as an escape character, the same holds for namespaces
    without a backslash. -/
theorem C17_mysql_plain (ns rest : Text) (hb : '\\' ∉ ns) (h : rest.head? ≠ some '\'') :
    ∃ pat, readMySQL (dropSchemaPattern ns ++ rest) = some (pat, rest) ∧
      ∀ name, LikeMatch '~' pat name ↔ (ns ++ "__".toList) <+: name := by
  refine ⟨likeEscaped (ns ++ ['_', '_']) ++ ['%'], ?_, ?_⟩
  · have e : dropSchemaPattern ns = '\'' :: (replaceChar '\'' ['\'', '\''] (likeEscaped (ns ++ ['_', '_']) ++ ['%']) ++ ['\'']) := by
      rw [dropSchemaPattern, escapeLike_eq]
      simp [likeEscaped, t_def]
    rw [e]
    have hb' : '\\' ∉ likeEscaped (ns ++ ['_', '_']) ++ ['%'] := by
      simp only [likeEscaped, List.mem_append, List.mem_flatMap, not_or, not_exists]
      refine ⟨?_, by decide⟩
      intro c ⟨hc, hm⟩
      rcases hc with hc | hc
      · have : c ≠ '\\' := by rintro rfl; exact hb hc
        split at hm <;> simp at hm <;> exact this hm.symm
      · simp at hc; subst hc; simp at hm
    have := readEscaped_replace mysqlEsc (likeEscaped (ns ++ ['_', '_']) ++ ['%']) rest hb' h
    simpa [readMySQL] using this
  · intro name
    rw [likeMatch_escaped]
    constructor
    · rintro ⟨r, rfl, _⟩; exact ⟨r, rfl⟩
    · rintro ⟨r, rfl⟩; exact ⟨r, rfl, likeMatch_any r⟩

/-! ### MySQL, exactly -/

/-- A pattern that matches exactly the names that start with a text of at least one character begins with neither
    wildcard. -/
theorem like_head {x : Char} {c w : Text} (h : ∀ name, LikeMatch '~' c name ↔ (x :: w) <+: name) :
    c.head? ≠ some '%' ∧ c.head? ≠ some '_' := by
  have hx : ∃ y : Char, y ≠ x := by
    by_cases hx : x = 'a'
    · exact ⟨'b', by rw [hx]; decide⟩
    · exact ⟨'a', fun e => hx e.symm⟩
  obtain ⟨y, hy⟩ := hx
  have h0 := (h (x :: w)).mpr (List.prefix_refl _)
  constructor
  · intro hc
    cases c with
    | nil => cases hc
    | cons p c =>
      simp only [List.head?_cons, Option.some.injEq] at hc
      subst hc
      generalize x :: w = nm at h0
      cases h0 with
      | lit _ _ _ h1 h2 => exact absurd rfl h2
      | many _ skipped xs h1 h2 =>
        have := (h (y :: xs)).mp (by simpa using LikeMatch.many (e := '~') c [y] xs h1 h2)
        exact hy (List.cons_prefix_cons.mp this).1.symm
  · intro hc
    cases c with
    | nil => cases hc
    | cons p c =>
      simp only [List.head?_cons, Option.some.injEq] at hc
      subst hc
      cases h0 with
      | lit _ _ _ h1 h2 h3 => exact absurd rfl h3
      | one _ _ xs h1 h2 =>
        have := (h (y :: w)).mp (LikeMatch.one y c w h1 h2)
        exact hy (List.cons_prefix_cons.mp this).1.symm

theorem likeEscaped_cons (c : Char) (s : Text) :
    (likeEscaped (c :: s)).length = (if c = '~' ∨ c = '_' ∨ c = '%' then 2 else 1) + (likeEscaped s).length := by
  by_cases h : c = '~' ∨ c = '_' ∨ c = '%' <;> simp [likeEscaped, h] <;> omega

/-- A pattern that matches exactly the names that start with `u_` has at least the characters of the escaped text,
    the quotes and backslashes of the text, and none of these backslashes is followed by a wildcard. -/
theorem like_exact (u : Text) : ∀ c : Text, (∀ name, LikeMatch '~' c name ↔ (u ++ ['_']) <+: name) →
    (likeEscaped (u ++ ['_'])).length + 1 ≤ c.length ∧ u.count '\'' ≤ c.count '\'' ∧
      u.count '\\' ≤ activeBackslashes c := by
  have pos : ∀ (c : Text), (∀ name, LikeMatch '~' c name ↔ ([] : Text) <+: name) → 1 ≤ c.length := by
    intro c h
    cases c with
    | nil =>
      have := (h ['a']).mpr (by simp)
      cases this
    | cons => simp
  have step : ∀ (x : Char) (w c : Text), (∀ name, LikeMatch '~' c name ↔ (x :: w) <+: name) →
      (∃ c', c = x :: c' ∧ ¬ (x = '~' ∨ x = '_' ∨ x = '%') ∧ ∀ name, LikeMatch '~' c' name ↔ w <+: name) ∨
      (∃ c', c = '~' :: x :: c' ∧ ∀ name, LikeMatch '~' c' name ↔ w <+: name) := by
    intro x w c h
    have h0 := (h (x :: w)).mpr (List.prefix_refl _)
    have hh := like_head h
    generalize hn : x :: w = nm at h0
    cases h0 with
    | nil => cases hn
    | lit p c' xs h1 h2 h3 hx =>
      cases hn
      refine .inl ⟨c', rfl, by simp [h1, h2, h3], fun name => ⟨fun hm => ?_, fun hp => ?_⟩⟩
      · exact (List.cons_prefix_cons.mp ((h (x :: name)).mp (.lit x c' name h1 h2 h3 hm))).2
      · have := (h (x :: name)).mpr (List.cons_prefix_cons.mpr ⟨rfl, hp⟩)
        generalize hm : x :: name = nm at this
        cases this with
        | lit _ _ _ _ _ _ hx => cases hm; exact hx
        | one => exact absurd rfl h3
        | esc => exact absurd rfl h1
        | many => exact absurd rfl h2
    | one _ c' _ h1 _ => simp at hh
    | many c' _ _ h1 _ => simp at hh
    | esc q c' xs hx =>
      cases hn
      refine .inr ⟨c', rfl, fun name => ⟨fun hm => ?_, fun hp => ?_⟩⟩
      · exact (List.cons_prefix_cons.mp ((h (x :: name)).mp (.esc x c' name hm))).2
      · have := (h (x :: name)).mpr (List.cons_prefix_cons.mpr ⟨rfl, hp⟩)
        cases this with
        | lit _ _ _ h1 => exact absurd rfl h1
        | esc _ _ _ hm => exact hm
  induction u with
  | nil =>
    intro c h
    rcases step '_' [] c h with ⟨c', rfl, h1, _⟩ | ⟨c', rfl, h1⟩
    · exact absurd (.inr (.inl rfl)) h1
    · have := pos c' h1
      refine ⟨?_, by simp, by simp⟩
      simp [likeEscaped]
      omega
  | cons x u ih =>
    intro c h
    have hne : ∃ z w, u ++ ['_'] = z :: w := by cases u <;> exact ⟨_, _, rfl⟩
    obtain ⟨z, w, hz⟩ := hne
    rcases step x (u ++ ['_']) c h with ⟨c', rfl, h1, h2⟩ | ⟨c', rfl, h2⟩
    · obtain ⟨i1, i2, i3⟩ := ih c' h2
      have hh := like_head (hz ▸ h2)
      refine ⟨?_, ?_, ?_⟩
      · rw [List.cons_append, likeEscaped_cons, if_neg h1, List.length_cons]; omega
      · simp only [List.count_cons]; omega
      · simp only [List.count_cons, activeBackslashes]
        by_cases hx : x = '\\'
        · subst hx; simp [hh]; omega
        · simp [hx, i3]
    · obtain ⟨i1, i2, i3⟩ := ih c' h2
      have hh := like_head (hz ▸ h2)
      refine ⟨?_, ?_, ?_⟩
      · rw [List.cons_append, likeEscaped_cons, List.length_cons, List.length_cons]; split <;> omega
      · simp only [List.count_cons]
        have : (('~' : Char) == '\'') = false := by decide
        simp only [this, Bool.false_eq_true, if_false]; omega
      · rw [activeBackslashes_other _ (by decide)]
        simp only [List.count_cons, activeBackslashes]
        by_cases hx : x = '\\'
        · subst hx; simp [hh]; omega
        · simp [hx, i3]

theorem likeEscaped_count (q : Char) (hq : q ≠ '~') (s : Text) : (likeEscaped s).count q = s.count q := by
  induction s with
  | nil => rfl
  | cons c s ih =>
    have e : likeEscaped (c :: s) = (if c = '~' ∨ c = '_' ∨ c = '%' then ['~', c] else [c]) ++ likeEscaped s := by
      simp [likeEscaped]
    rw [e, List.count_append, ih]
    have hq' : ('~' == q) = false := by simp [Ne.symm hq]
    split <;> simp [List.count_cons, hq'] <;> omega

/-- On MySQL, whose literals treat the backslash as an escape character, the pattern selects the tables of the namespace
    and no others exactly if the name of the namespace has no backslash. -/
theorem C17_mysql_exact (ns rest : Text) (h : rest.head? ≠ some '\'') :
    (∃ pat, readMySQL (dropSchemaPattern ns ++ rest) = some (pat, rest) ∧
      ∀ name, LikeMatch '~' pat name ↔ (ns ++ "__".toList) <+: name) ↔ '\\' ∉ ns := by
  constructor
  · rintro ⟨pat, hr, hm⟩ hb
    have hm' : ∀ name, LikeMatch '~' pat name ↔ ((ns ++ ['_']) ++ ['_']) <+: name := by
      intro name
      rw [hm, List.append_assoc]
      rfl
    obtain ⟨h1, h2, h3⟩ := like_exact (ns ++ ['_']) pat hm'
    have e : dropSchemaPattern ns = '\'' :: (replaceChar '\'' ['\'', '\''] (likeEscaped (ns ++ ['_', '_']) ++ ['%']) ++ ['\'']) := by
      rw [dropSchemaPattern, escapeLike_eq]
      simp [likeEscaped, t_def]
    rw [e] at hr
    rw [List.cons_append, List.append_assoc] at hr
    have hc := readEscaped_cost _ _ _ (show readEscaped mysqlEsc _ = some (pat, rest) from hr)
    rw [List.append_assoc] at h1
    simp only [List.length_append, replaceQuote_length, List.count_append, likeEscaped_count '\'' (by decide),
      List.cons_append, List.nil_append, List.length_cons, List.length_nil] at hc h1 h2 h3
    have h4 : 0 < ns.count '\\' := List.count_pos_iff.mpr hb
    have e1 : List.count '\'' ['_', '_'] = 0 := by decide
    have e2 : List.count '\'' ['%'] = 0 := by decide
    rw [e1, e2] at hc
    omega
  · intro hb
    exact C17_mysql_plain ns rest hb h

/-- Non-vacuity: a namespace full of special characters; only its own tables match. -/
example : ∃ pat, readString (dropSchemaPattern (t "a_%~'") ++ t " ESCAPE '~'") = some (pat, t " ESCAPE '~'") ∧
    LikeMatch '~' pat (t "a_%~'__users") ∧ ¬ LikeMatch '~' pat (t "ab%~'__users") := by
  obtain ⟨pat, h1, h2⟩ := C17_drop_schema_matches_prefix (t "a_%~'") (t " ESCAPE '~'") (by decide)
  exact ⟨pat, h1, (h2 _).2 (by decide), fun h => absurd ((h2 _).1 h) (by decide)⟩

example : '\\' ∉ t "a_%~'" ∧ '\\' ∈ t "a\\b" := by decide +kernel

end PySqlSync
