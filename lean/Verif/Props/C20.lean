/-
C20 — Scripts are split into exactly their statements (Oracle, Redshift).
-/
import Verif.Model.Split

namespace PySqlSync

/-- Specification: white space. -/
def isBlank (c : Char) : Bool := c = '\r' || c = '\n' || c = '\t' || c = '\x0b' || c = ' '

/-- Specification: what of a statement text matters.  White space around it and terminators after it do not. -/
def statementCore (s : Text) : Text :=
  ((s.dropWhile isBlank).reverse.dropWhile (fun c => isBlank c || c = ';')).reverse

/-- No semicolon of this statement text is followed by a line break. -/
def NoSemicolonAtLineEnd (s : Text) : Prop := ¬ [';', '\n'] <:+: s

/-- The text of a statement without its terminator: it ends, up to white space, in a character that is not a semicolon. -/
def StatementBody (b : Text) : Prop :=
  ∃ a c w, b = a ++ [c] ++ w ∧ isBlank c = false ∧ c ≠ ';' ∧ w.all isBlank = true

/-- The script pysqlsync sends: statements, each followed by `;`, joined with newlines
    (object_types.py:33-34 `join`). -/
def scriptOf (bodies : List Text) : Text := joinWith (t "\n") (bodies.map (fun b => b ++ t ";"))

theorem NoSemicolonAtLineEnd.tail {c : Char} {s : Text} (h : NoSemicolonAtLineEnd (c :: s)) : NoSemicolonAtLineEnd s :=
  fun ⟨a, b, e⟩ => h ⟨c :: a, b, by simp [← e]⟩

theorem NoSemicolonAtLineEnd.first {s : Text} (h : NoSemicolonAtLineEnd (';' :: s)) : s.head? ≠ some '\n' := by
  intro hs
  cases s with
  | nil => cases hs
  | cons c s =>
    simp only [List.head?_cons, Option.some.injEq] at hs
    subst hs
    exact h ⟨[], s, rfl⟩

theorem splitLineEnd_ne_nil (s : Text) : splitLineEnd s ≠ [] := by
  cases s with
  | nil => simp [splitLineEnd]
  | cons c r =>
    unfold splitLineEnd
    split
    · simp
    · split <;> simp

theorem splitLineEnd_cons_other (c : Char) (s : Text) (h : ¬ (c = ';' ∧ (s = [] ∨ s.head? = some '\n'))) :
    ∃ p ps, splitLineEnd s = p :: ps ∧ splitLineEnd (c :: s) = (c :: p) :: ps := by
  cases hs : splitLineEnd s with
  | nil => exact absurd hs (splitLineEnd_ne_nil s)
  | cons p ps => exact ⟨p, ps, rfl, by rw [splitLineEnd]; simp only [h, if_false, hs]⟩

/-- A text with no semicolon at a line end, followed by `;` and a newline, is cut exactly there. -/
theorem splitLineEnd_body (b rest : Text) (h : NoSemicolonAtLineEnd b) :
    splitLineEnd (b ++ ';' :: '\n' :: rest) = b :: splitLineEnd ('\n' :: rest) := by
  induction b with
  | nil => simp [splitLineEnd]
  | cons c b ih =>
    have ih := ih h.tail
    have hc : ¬ (c = ';' ∧ (b ++ ';' :: '\n' :: rest = [] ∨ (b ++ ';' :: '\n' :: rest).head? = some '\n')) := by
      rintro ⟨rfl, hh⟩
      have := h.first
      cases b with
      | nil => simp at hh
      | cons d b => simp at hh; exact this (by simp [hh])
    obtain ⟨p, ps, h1, h2⟩ := splitLineEnd_cons_other c _ hc
    rw [ih] at h1
    simp only [List.cons.injEq] at h1
    rw [List.cons_append, h2, ← h1.1, ← h1.2]

/-- A text with no semicolon at a line end is one piece. -/
theorem splitLineEnd_last (b : Text) (h : NoSemicolonAtLineEnd b) (hl : ∀ a, b ≠ a ++ [';']) : splitLineEnd b = [b] := by
  induction b with
  | nil => rfl
  | cons c b ih =>
    have hc : ¬ (c = ';' ∧ (b = [] ∨ b.head? = some '\n')) := by
      rintro ⟨rfl, hh⟩
      rcases hh with rfl | hh
      · exact hl [] rfl
      · exact h.first hh
    obtain ⟨p, ps, h1, h2⟩ := splitLineEnd_cons_other c _ hc
    rw [ih h.tail (fun a e => hl (c :: a) (by rw [e]; rfl))] at h1
    simp only [List.cons.injEq] at h1
    rw [h2, ← h1.1, ← h1.2]

theorem dropWhile_append_of_ne (p : Char → Bool) (a b : Text) (h : a.dropWhile p ≠ []) :
    (a ++ b).dropWhile p = a.dropWhile p ++ b := by
  induction a with
  | nil => simp at h
  | cons c a ih =>
    by_cases hc : p c = true
    · simp only [List.cons_append, List.dropWhile_cons_of_pos hc] at h ⊢
      exact ih h
    · simp [hc]

theorem dropWhile_append_of_all (p : Char → Bool) (a b : Text) (h : a.all p = true) :
    (a ++ b).dropWhile p = b.dropWhile p := by
  induction a with
  | nil => rfl
  | cons c a ih =>
    simp only [List.all_cons, Bool.and_eq_true] at h
    simp [h.1, ih h.2]

/-- `rstrip` splits a text into what stays and a suffix of stripped characters; what stays ends in a kept one. -/
theorem rstripWith_spec (p : Char → Bool) (s : Text) :
    ∃ suf, s = rstripWith p s ++ suf ∧ suf.all p = true ∧ ∀ a c, rstripWith p s = a ++ [c] → p c = false := by
  refine ⟨(s.reverse.takeWhile p).reverse, ?_, ?_, ?_⟩
  · have := List.takeWhile_append_dropWhile (p := p) (l := s.reverse)
    have h2 := congrArg List.reverse this
    rw [List.reverse_append, List.reverse_reverse] at h2
    exact h2.symm
  · rw [List.all_reverse]; exact List.all_takeWhile
  · intro a c h
    have : s.reverse.dropWhile p = c :: a.reverse := by
      have := congrArg List.reverse h
      simpa [rstripWith] using this
    have hne : s.reverse.dropWhile p ≠ [] := by simp [this]
    have h3 := List.head_dropWhile_not p hne
    simpa [this] using h3

theorem rstripWith_append (p : Char → Bool) (a b : Text) (h : rstripWith p b ≠ []) :
    rstripWith p (a ++ b) = a ++ rstripWith p b := by
  unfold rstripWith at *
  rw [List.reverse_append, dropWhile_append_of_ne _ _ _ (by simpa using h)]
  simp

theorem rstripWith_append_all (p : Char → Bool) (a b : Text) (h : b.all p = true) :
    rstripWith p (a ++ b) = rstripWith p a := by
  unfold rstripWith
  rw [List.reverse_append, dropWhile_append_of_all _ _ _ (by simpa using h)]

theorem isStripChar_eq : (fun c => isBlank c || c = ';') = isStripChar := by
  funext c; simp [isBlank, isStripChar]

theorem statementCore_eq (s : Text) : statementCore s = rstripWith isStripChar (s.dropWhile isBlank) := by
  rw [statementCore, isStripChar_eq]; rfl

theorem isBlank_strip (c : Char) (h : isBlank c = true) : isStripChar c = true := by
  have := congrFun isStripChar_eq c
  simp only [h, Bool.true_or] at this
  exact this.symm

theorem statementCore_blank_cons (c : Char) (s : Text) (h : isBlank c = true) :
    statementCore (c :: s) = statementCore s := by
  simp [statementCore, h]

theorem statementCore_ne (b : Text) (h : statementCore b ≠ []) :
    rstripWith isStripChar b ≠ [] ∧ b.dropWhile isBlank ≠ [] := by
  have h2 : b.dropWhile isBlank ≠ [] := by
    intro h2; apply h; simp [statementCore, h2]
  refine ⟨?_, h2⟩
  have : b = b.takeWhile isBlank ++ b.dropWhile isBlank := (List.takeWhile_append_dropWhile).symm
  rw [statementCore_eq] at h
  rw [this, rstripWith_append _ _ _ h]
  simp [h]

/-- The part of a statement that matters survives `rstrip`. -/
theorem statementCore_rstrip (b : Text) (h : statementCore b ≠ []) :
    statementCore (rstripWith isStripChar b) = statementCore b := by
  have hd : rstripWith isStripChar b = b.takeWhile isBlank ++ statementCore b := by
    have : b = b.takeWhile isBlank ++ b.dropWhile isBlank := (List.takeWhile_append_dropWhile).symm
    rw [statementCore_eq] at h ⊢
    conv => lhs; rw [this]
    exact rstripWith_append _ _ _ h
  rw [hd, statementCore_eq, dropWhile_append_of_all _ _ _ List.all_takeWhile]
  -- the core starts with a non-blank character
  have h2 := (statementCore_ne b h).2
  obtain ⟨c, r, hc⟩ : ∃ c r, b.dropWhile isBlank = c :: r := by
    cases hb : b.dropWhile isBlank with
    | nil => exact absurd hb h2
    | cons c r => exact ⟨c, r, rfl⟩
  have hnb : isBlank c = false := by
    have := List.head_dropWhile_not isBlank h2
    simpa [hc] using this
  obtain ⟨suf, hs, hall, hlast⟩ := rstripWith_spec isStripChar (b.dropWhile isBlank)
  rw [← statementCore_eq] at hs hlast
  obtain ⟨c', r', hc'⟩ : ∃ c' r', statementCore b = c' :: r' := by
    cases hb : statementCore b with
    | nil => exact absurd hb h
    | cons c r => exact ⟨c, r, rfl⟩
  have : c' = c := by rw [hc, hc'] at hs; simp at hs; exact hs.1.symm
  subst this
  have e : (statementCore b).dropWhile isBlank = statementCore b := by rw [hc']; simp [hnb]
  rw [e]
  obtain ⟨suf2, hs2, hall2, _⟩ := rstripWith_spec isStripChar (statementCore b)
  have : suf2 = [] := by
    rcases List.eq_nil_or_concat suf2 with h0 | ⟨x, y, h0⟩
    · exact h0
    · exfalso
      subst h0
      have h5 := hlast (rstripWith isStripChar (statementCore b) ++ x) y (by rw [List.append_assoc]; simpa using hs2)
      simp at hall2
      rw [hall2.2] at h5; exact absurd h5 (by decide)
  rw [this] at hs2
  simpa using hs2.symm

theorem NoSemicolonAtLineEnd.rstrip {b : Text} (h : NoSemicolonAtLineEnd b) :
    NoSemicolonAtLineEnd (rstripWith isStripChar b) := by
  obtain ⟨suf, hs, _, _⟩ := rstripWith_spec isStripChar b
  exact fun hi => h (hs ▸ hi.trans (List.prefix_append _ suf).isInfix)

theorem rstrip_last (b : Text) : ∀ a, rstripWith isStripChar b ≠ a ++ [';'] := by
  obtain ⟨_, _, _, hlast⟩ := rstripWith_spec isStripChar b
  intro a e
  exact absurd (hlast a ';' e) (by decide)

theorem redshiftPieces_scriptOf (bodies : List Text) (hne : bodies ≠ [])
    (h : ∀ b ∈ bodies, NoSemicolonAtLineEnd b ∧ statementCore b ≠ []) :
    (redshiftPieces (scriptOf bodies)).map statementCore = bodies.map statementCore := by
  -- generalised: an optional newline in front
  have gen : ∀ (pre : Text), (pre = [] ∨ pre = ['\n']) →
      (splitLineEnd (rstripWith isStripChar (pre ++ scriptOf bodies))).map statementCore = bodies.map statementCore := by
    induction bodies with
    | nil => exact absurd rfl hne
    | cons b bodies ih =>
      intro pre hpre
      have hb := h b (List.mem_cons_self ..)
      have hpreN : NoSemicolonAtLineEnd (pre ++ b) := by
        rcases hpre with rfl | rfl
        · exact hb.1
        · rintro ⟨x, y, hxy⟩
          cases x with
          | nil => simp at hxy
          | cons c x => simp at hxy; exact hb.1 ⟨x, y, by simpa using hxy.2⟩
      have hpreC : statementCore (pre ++ b) = statementCore b := by
        rcases hpre with rfl | rfl
        · rfl
        · exact statementCore_blank_cons _ _ (by decide)
      cases bodies with
      | nil =>
        have e : pre ++ scriptOf [b] = (pre ++ b) ++ [';'] := by simp [scriptOf, t_def]
        rw [e, rstripWith_append_all _ _ _ (by decide)]
        rw [splitLineEnd_last _ hpreN.rstrip (rstrip_last _)]
        simp only [List.map_cons, List.map_nil]
        rw [statementCore_rstrip _ (by rw [hpreC]; exact hb.2), hpreC]
      | cons b2 bodies =>
        have e : pre ++ scriptOf (b :: b2 :: bodies) = (pre ++ b) ++ ';' :: (['\n'] ++ scriptOf (b2 :: bodies)) := by
          simp [scriptOf, t_def]
        have hrest : rstripWith isStripChar (['\n'] ++ scriptOf (b2 :: bodies)) ≠ [] ∧
            ∃ r, rstripWith isStripChar (['\n'] ++ scriptOf (b2 :: bodies)) = '\n' :: r := by
          have hne2 : rstripWith isStripChar (scriptOf (b2 :: bodies)) ≠ [] := by
            have hb2 := h b2 (by simp)
            obtain ⟨x, hx⟩ : ∃ x, scriptOf (b2 :: bodies) = b2 ++ x := by
              cases bodies with
              | nil => exact ⟨[';'], by simp [scriptOf, t_def]⟩
              | cons b3 bodies => exact ⟨t ";" ++ (t "\n" ++ scriptOf (b3 :: bodies)), by simp [scriptOf]⟩
            have hb2' := (statementCore_ne b2 hb2.2).1
            rw [hx]
            intro h0
            obtain ⟨suf, hs, hall, _⟩ := rstripWith_spec isStripChar (b2 ++ x)
            rw [h0] at hs
            simp at hs
            subst hs
            have : (b2 ++ x).all isStripChar = true := hall
            have hbb : b2.all isStripChar = true := by
              rw [List.all_append] at this; simp at this; simpa using this.1
            apply hb2'
            have := rstripWith_append_all isStripChar [] b2 hbb
            simpa [rstripWith] using this
          rw [rstripWith_append _ _ _ hne2]
          exact ⟨by simp, _, rfl⟩
        obtain ⟨hr1, r, hr2⟩ := hrest
        have hr3 : rstripWith isStripChar (';' :: (['\n'] ++ scriptOf (b2 :: bodies))) = ';' :: '\n' :: r := by
          have := rstripWith_append isStripChar [';'] _ hr1
          rw [hr2] at this
          exact this
        rw [e, rstripWith_append _ _ _ (by rw [hr3]; simp), hr3, splitLineEnd_body _ _ hpreN, ← hr2]
        have := ih (by simp) (fun x hx => h x (List.mem_cons_of_mem _ hx)) ['\n'] (.inr rfl)
        rw [List.map_cons, this, hpreC]
        rfl
  exact gen [] (.inl rfl)

theorem StatementBody.core {b : Text} (h : StatementBody b) : statementCore b ≠ [] := by
  obtain ⟨a, c, w, rfl, h1, h2, h3⟩ := h
  have hne : (a ++ [c] ++ w).dropWhile isBlank ≠ [] := by
    intro h0
    have : (a ++ [c] ++ w).all isBlank = true := by
      have := List.takeWhile_append_dropWhile (p := isBlank) (l := a ++ [c] ++ w)
      rw [h0, List.append_nil] at this
      rw [← this]; exact List.all_takeWhile
    simp [h1] at this
  rw [statementCore_eq]
  have hd : ∃ a', (a ++ [c] ++ w).dropWhile isBlank = a' ++ [c] ++ w := by
    by_cases ha : a.dropWhile isBlank = []
    · have hall : a.all isBlank = true := by
        have := List.takeWhile_append_dropWhile (p := isBlank) (l := a)
        rw [ha, List.append_nil] at this
        rw [← this]; exact List.all_takeWhile
      refine ⟨[], ?_⟩
      rw [List.append_assoc, dropWhile_append_of_all _ _ _ hall]
      simp [h1]
    · refine ⟨a.dropWhile isBlank, ?_⟩
      rw [List.append_assoc, dropWhile_append_of_ne _ _ _ ha, List.append_assoc]
  obtain ⟨a', ha'⟩ := hd
  rw [ha', rstripWith_append_all _ _ _ (by
    rw [List.all_eq_true] at h3 ⊢
    exact fun x hx => isBlank_strip x (h3 x hx))]
  have hc : isStripChar c = false := by
    rw [← congrFun isStripChar_eq c]
    simp [h1, h2]
  simp [rstripWith, hc]

/-- The number of places where a text is cut. -/
def cuts : Text → Nat
  | [] => 0
  | c :: rest => (if c = ';' ∧ (rest = [] ∨ rest.head? = some '\n') then 1 else 0) + cuts rest

theorem splitLineEnd_length (s : Text) : (splitLineEnd s).length = 1 + cuts s := by
  induction s with
  | nil => rfl
  | cons c s ih =>
    by_cases h : c = ';' ∧ (s = [] ∨ s.head? = some '\n')
    · rw [splitLineEnd, if_pos h, cuts, if_pos h, List.length_cons, ih]; omega
    · obtain ⟨p, ps, h1, h2⟩ := splitLineEnd_cons_other c s h
      rw [h2, cuts, if_neg h]
      rw [h1] at ih
      simp only [List.length_cons] at ih ⊢
      omega

theorem cuts_append (a r : Text) : 1 + cuts ('\n' :: r) ≤ cuts (a ++ ';' :: '\n' :: r) := by
  induction a with
  | nil => simp [cuts]
  | cons c a ih =>
    have e : cuts (c :: (a ++ ';' :: '\n' :: r)) =
      (if c = ';' ∧ ((a ++ ';' :: '\n' :: r) = [] ∨ (a ++ ';' :: '\n' :: r).head? = some '\n') then 1 else 0) +
        cuts (a ++ ';' :: '\n' :: r) := rfl
    rw [List.cons_append, e]
    omega

/-- A semicolon at a line end makes one cut more. -/
theorem cuts_infix (b r : Text) (h : [';', '\n'] <:+: b) : 2 + cuts ('\n' :: r) ≤ cuts (b ++ ';' :: '\n' :: r) := by
  obtain ⟨x, y, rfl⟩ := h
  have h1 := cuts_append x (y ++ ';' :: '\n' :: r)
  have h2 := cuts_append ('\n' :: y) r
  simp only [List.append_assoc, List.cons_append, List.nil_append] at h1 h2 ⊢
  omega

theorem StatementBody.infix {a w : Text} {c : Char} (h2 : c ≠ ';') (h3 : w.all isBlank = true)
    (h : [';', '\n'] <:+: a ++ [c] ++ w) : [';', '\n'] <:+: a ++ [c] := by
  obtain ⟨x, y, e⟩ := h
  have hw : ';' ∉ w := fun hm => by
    have := List.all_eq_true.mp h3 _ hm
    exact absurd this (by decide)
  rw [List.append_assoc] at e
  rcases List.append_eq_append_iff.mp e with ⟨u, e1, e2⟩ | ⟨u, e1, e2⟩
  · match u, e1, e2 with
    | [], e1, e2 => exact absurd ((show w = ';' :: '\n' :: y from e2.symm) ▸ by simp) hw
    | [z], e1, e2 =>
      obtain ⟨rfl, _⟩ := List.cons.inj e2
      have := List.append_inj_right' e1 rfl
      exact absurd (List.cons.inj this).1 h2
    | z :: z' :: u, e1, e2 =>
      obtain ⟨rfl, e3⟩ := List.cons.inj e2
      obtain ⟨rfl, _⟩ := List.cons.inj e3
      exact ⟨x, u, by rw [e1]; simp⟩
  · exact absurd (e2 ▸ by simp) hw

/-- Redshift, exactly: the texts executed are the statements of the script, in order, if and only if no statement has a semicolon at the end
    of one of its lines. -/
theorem C20_redshift_exact (bodies : List Text) (hne : bodies ≠ []) (hb : ∀ b ∈ bodies, StatementBody b) :
    (redshiftPieces (scriptOf bodies)).map statementCore = bodies.map statementCore ↔ ∀ b ∈ bodies, NoSemicolonAtLineEnd b := by
  constructor
  · intro he b hm hi
    have he := congrArg List.length he
    simp only [List.length_map, redshiftPieces, splitLineEnd_length] at he
    -- at least as many pieces as statements, and one more if a statement is cut
    have gen : ∀ (pre : Text) (bodies : List Text), bodies ≠ [] → (∀ b ∈ bodies, StatementBody b) →
        bodies.length ≤ 1 + cuts (rstripWith isStripChar (pre ++ scriptOf bodies)) ∧
        ((∃ b ∈ bodies, [';', '\n'] <:+: b) → bodies.length < 1 + cuts (rstripWith isStripChar (pre ++ scriptOf bodies))) := by
      intro pre bodies
      induction bodies generalizing pre with
      | nil => intro h; exact absurd rfl h
      | cons b bodies ih =>
        intro _ hb
        obtain ⟨a, c, w, rfl, h1, h2, h3⟩ := hb b (by simp)
        cases bodies with
        | nil =>
          have e : pre ++ scriptOf [a ++ [c] ++ w] = (pre ++ a ++ [c]) ++ (w ++ [';']) := by simp [scriptOf, t_def]
          have hs : isStripChar c = false := by rw [← congrFun isStripChar_eq c]; simp [h1, h2]
          have e2 : rstripWith isStripChar (pre ++ scriptOf [a ++ [c] ++ w]) = pre ++ a ++ [c] := by
            rw [e, rstripWith_append_all _ _ _ (by
              rw [List.all_append, Bool.and_eq_true]
              refine ⟨?_, by decide⟩
              rw [List.all_eq_true] at h3 ⊢
              exact fun x hx => isBlank_strip x (h3 x hx))]
            simp [rstripWith, hs]
          rw [e2]
          refine ⟨by simp, ?_⟩
          rintro ⟨b, hm, hi⟩
          simp only [List.mem_singleton] at hm
          subst hm
          obtain ⟨x, y, e3⟩ := StatementBody.infix h2 h3 hi
          have h4 := cuts_append (pre ++ x) y
          have e4 : pre ++ a ++ [c] = (pre ++ x) ++ ';' :: '\n' :: y := by
            rw [List.append_assoc, ← e3]; simp
          rw [e4]
          simp only [List.length_singleton]
          omega
        | cons b2 bodies =>
          have e : pre ++ scriptOf ((a ++ [c] ++ w) :: b2 :: bodies) =
              (pre ++ (a ++ [c] ++ w)) ++ ';' :: (['\n'] ++ scriptOf (b2 :: bodies)) := by
            simp [scriptOf, t_def]
          have hr : ∃ r, rstripWith isStripChar (['\n'] ++ scriptOf (b2 :: bodies)) = '\n' :: r := by
            have hne2 : rstripWith isStripChar (scriptOf (b2 :: bodies)) ≠ [] := by
              obtain ⟨x, hx⟩ : ∃ x, scriptOf (b2 :: bodies) = b2 ++ x := by
                cases bodies with
                | nil => exact ⟨[';'], by simp [scriptOf, t_def]⟩
                | cons b3 bodies => exact ⟨t ";" ++ (t "\n" ++ scriptOf (b3 :: bodies)), by simp [scriptOf]⟩
              intro h0
              obtain ⟨suf, hs, hall, _⟩ := rstripWith_spec isStripChar (b2 ++ x)
              rw [hx] at h0
              rw [h0] at hs
              simp only [List.nil_append] at hs
              rw [← hs, List.all_append, Bool.and_eq_true] at hall
              obtain ⟨a2, c2, w2, rfl, g1, g2, _⟩ := hb b2 (by simp)
              have hs2 : isStripChar c2 = false := by rw [← congrFun isStripChar_eq c2]; simp [g1, g2]
              have := hall.1
              simp [hs2] at this
            rw [rstripWith_append _ _ _ hne2]
            exact ⟨_, rfl⟩
          obtain ⟨r, hr⟩ := hr
          have hr1 : rstripWith isStripChar (';' :: (['\n'] ++ scriptOf (b2 :: bodies))) = ';' :: '\n' :: r := by
            have := rstripWith_append isStripChar [';'] (['\n'] ++ scriptOf (b2 :: bodies)) (by rw [hr]; simp)
            rw [hr] at this
            exact this
          obtain ⟨ih1, ih2⟩ := ih ['\n'] (by simp) (fun b hb' => hb b (List.mem_cons_of_mem _ hb'))
          rw [hr] at ih1 ih2
          rw [e, rstripWith_append _ _ _ (by rw [hr1]; simp), hr1]
          refine ⟨?_, ?_⟩
          · have := cuts_append (pre ++ (a ++ [c] ++ w)) r
            simp only [List.length_cons] at ih1 ⊢
            omega
          · rintro ⟨b, hm, hi⟩
            rcases List.mem_cons.mp hm with rfl | hm
            · have := cuts_infix (pre ++ (a ++ [c] ++ w)) r (hi.trans (List.suffix_append _ _).isInfix)
              simp only [List.length_cons] at ih1 ⊢
              omega
            · have := cuts_append (pre ++ (a ++ [c] ++ w)) r
              have := ih2 ⟨b, hm, hi⟩
              simp only [List.length_cons] at this ⊢
              omega
    have := (gen [] bodies hne hb).2 ⟨b, hm, hi⟩
    rw [List.nil_append] at this
    omega
  · intro h
    exact redshiftPieces_scriptOf bodies hne (fun b hm => ⟨h b hm, (hb b hm).core⟩)

/-- Oracle, exactly: a script that starts with `BEGIN` must be a single statement; for other scripts the same holds as for Redshift. -/
theorem C20_oracle_exact (bodies : List Text) (hne : bodies ≠ []) (hb : ∀ b ∈ bodies, StatementBody b) :
    (oraclePieces (scriptOf bodies)).map statementCore = bodies.map statementCore ↔
      if (t "BEGIN").isPrefixOf (scriptOf bodies) then bodies.length = 1 else ∀ b ∈ bodies, NoSemicolonAtLineEnd b := by
  unfold oraclePieces
  by_cases h : (t "BEGIN").isPrefixOf (scriptOf bodies) = true
  · rw [if_pos h, if_pos h]
    constructor
    · intro he
      have := congrArg List.length he
      simpa using this.symm
    · intro hl
      obtain ⟨b, rfl⟩ : ∃ b, bodies = [b] := by
        match bodies, hl with
        | [b], _ => exact ⟨b, rfl⟩
      have hc := (hb b (by simp)).core
      have hne : b.dropWhile isBlank ≠ [] := (statementCore_ne b hc).2
      have e : scriptOf [b] = b ++ [';'] := by simp [scriptOf, t_def]
      rw [e]
      simp only [List.map_cons, List.map_nil]
      rw [statementCore_eq, dropWhile_append_of_ne _ _ _ hne, rstripWith_append_all _ _ _ (by decide), ← statementCore_eq]
  · rw [if_neg h, if_neg h]
    exact C20_redshift_exact bodies hne hb

/-- Oracle: a single PL/SQL block is executed whole, whatever it contains. -/
theorem C20_oracle_block_executed_whole (block : Text) (hb : (t "BEGIN").isPrefixOf block = true) :
    oraclePieces block = [block] := by simp [oraclePieces, hb]

/-- One statement with a string literal that contains a semicolon and a line break is cut in two. -/
theorem C20_splitting_fails :
    ∃ b : Text, redshiftPieces (scriptOf [b]) = [t "INSERT INTO \"t\" (\"v\") VALUES ('a", t "\nb')"] :=
  ⟨t "INSERT INTO \"t\" (\"v\") VALUES ('a;\nb')", by decide +kernel⟩

/-- Oracle: statements after a leading block are not executed on their own. -/
theorem C20_oracle_block_first_fails :
    ∃ bodies : List Text, bodies.length = 2 ∧ (oraclePieces (scriptOf bodies)).length = 1 :=
  ⟨[t "BEGIN NULL; END", t "DROP TABLE \"t\""], by decide +kernel, by decide +kernel⟩

example : ∀ b ∈ [t "CREATE TABLE \"t\" (\n\"a;b\" integer\n)", t "ALTER TABLE \"t\"\nDROP CONSTRAINT \"c\"\n"],
    StatementBody b ∧ NoSemicolonAtLineEnd b := by
  intro b hb
  simp only [List.mem_cons, List.not_mem_nil, or_false] at hb
  rcases hb with rfl | rfl
  · exact ⟨⟨t "CREATE TABLE \"t\" (\n\"a;b\" integer\n", ')', [], by decide +kernel, by decide, by decide, by decide⟩,
      fun h => absurd h (by decide +kernel)⟩
  · exact ⟨⟨t "ALTER TABLE \"t\"\nDROP CONSTRAINT \"c", '"', t "\n", by decide +kernel, by decide, by decide, by decide +kernel⟩,
      fun h => absurd h (by decide +kernel)⟩

end PySqlSync
