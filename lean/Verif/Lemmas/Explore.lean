/-
Lemmas about Model/Discovery.lean: literals of time stamps, groups of rows.
-/
import Verif.Spec.Explore
import Verif.Lemmas.Convert
import Verif.Lemmas.ObjectDict

set_option autoImplicit false

namespace PySqlSync
open Spec

namespace Expl

theorem digit_of {c : Char} (h : c.isDigit = true) : digit (c.toNat - 48) = c ∧ c.toNat - 48 < 10 := by
  simp only [Char.isDigit, Bool.and_eq_true, decide_eq_true_eq] at h
  have h1 : 48 ≤ c.toNat := h.1
  have h2 : c.toNat ≤ 57 := h.2
  refine ⟨?_, by omega⟩
  unfold digit
  have : 48 + (c.toNat - 48) % 10 = c.toNat := by omega
  rw [this]
  exact Char.ofNat_toNat c

theorem digit_toNat (n : Nat) : (digit n).toNat = 48 + n % 10 := by
  have key : ∀ k : Fin 10, (Char.ofNat (48 + k.1)).toNat = 48 + k.1 := by decide
  have := key ⟨n % 10, by omega⟩
  exact this

theorem digit_isDigit (n : Nat) : (digit n).isDigit = true := by
  have key : ∀ k : Fin 10, (Char.ofNat (48 + k.1)).isDigit = true := by decide
  exact key ⟨n % 10, by omega⟩

theorem digitsNat_two {n : Nat} (h : n < 100) : digitsNat (two n) = n := by
  unfold digitsNat two
  simp only [List.foldl_cons, List.foldl_nil, digit_toNat]
  omega

theorem digitsNat_four {n : Nat} (h : n < 10000) : digitsNat (four n) = n := by
  unfold digitsNat four two
  simp only [List.cons_append, List.nil_append, List.foldl_cons, List.foldl_nil, digit_toNat]
  omega

theorem two_digitsNat {a b : Char} (ha : a.isDigit = true) (hb : b.isDigit = true) : two (digitsNat [a, b]) = [a, b] ∧ digitsNat [a, b] < 100 := by
  obtain ⟨e1, l1⟩ := digit_of ha
  obtain ⟨e2, l2⟩ := digit_of hb
  have e : digitsNat [a, b] = 10 * (a.toNat - 48) + (b.toNat - 48) := by
    unfold digitsNat; simp only [List.foldl_cons, List.foldl_nil]; omega
  rw [e]
  refine ⟨?_, by omega⟩
  unfold two
  have d1 : (10 * (a.toNat - 48) + (b.toNat - 48)) / 10 = a.toNat - 48 := by omega
  have d2 : digit (10 * (a.toNat - 48) + (b.toNat - 48)) = digit (b.toNat - 48) := by
    unfold digit
    congr 2
    omega
  rw [d1, d2, e1, e2]

theorem four_digitsNat {a b c d : Char} (ha : a.isDigit = true) (hb : b.isDigit = true) (hc : c.isDigit = true) (hd : d.isDigit = true) :
    four (digitsNat [a, b, c, d]) = [a, b, c, d] ∧ digitsNat [a, b, c, d] < 10000 := by
  obtain ⟨e1, l1⟩ := two_digitsNat ha hb
  obtain ⟨e2, l2⟩ := two_digitsNat hc hd
  have e : digitsNat [a, b, c, d] = 100 * digitsNat [a, b] + digitsNat [c, d] := by
    unfold digitsNat; simp only [List.foldl_cons, List.foldl_nil]; omega
  rw [e]
  refine ⟨?_, by omega⟩
  unfold four
  have d1 : (100 * digitsNat [a, b] + digitsNat [c, d]) / 100 = digitsNat [a, b] := by omega
  have d2 : two (100 * digitsNat [a, b] + digitsNat [c, d]) = two (digitsNat [c, d]) := by
    unfold two
    have p1 : digit ((100 * digitsNat [a, b] + digitsNat [c, d]) / 10) = digit (digitsNat [c, d] / 10) := by
      unfold digit; congr 2; omega
    have p2 : digit (100 * digitsNat [a, b] + digitsNat [c, d]) = digit (digitsNat [c, d]) := by
      unfold digit; congr 2; omega
    rw [p1, p2]
  rw [d1, d2, e1, e2]
  rfl

theorem literal_chars (m : Moment) : m.literal = ['\'', digit (m.year / 100 / 10), digit (m.year / 100), digit (m.year / 10), digit m.year, '-',
    digit (m.month / 10), digit m.month, '-', digit (m.day / 10), digit m.day, ' ', digit (m.hour / 10), digit m.hour, ':',
    digit (m.minute / 10), digit m.minute, ':', digit (m.second / 10), digit m.second, '\''] := rfl

theorem literal_like (m : Moment) : isTimestampLiteral m.literal = true := by
  rw [literal_chars]
  simp only [isTimestampLiteral, digit_isDigit]
  rfl

theorem valid_iff {y mo d h mi s : Nat} (hy : y ≤ 9999) : validDateTime y mo d h mi s = true ↔ ∃ m : Moment, m.year = y ∧ m.month = mo ∧ m.day = d ∧
    m.hour = h ∧ m.minute = mi ∧ m.second = s := by
  unfold validDateTime daysInMonth
  rw [decide_eq_true_eq]
  constructor
  · rintro ⟨h1, h2, h3, h4, h5, h6, h7, h8⟩
    refine ⟨⟨y, mo, d, h, mi, s, h1, hy, h2, h3, h4, ?_, h6, h7, h8⟩, rfl, rfl, rfl, rfl, rfl, rfl⟩
    simpa [List.mem_cons] using h5
  · rintro ⟨⟨_, _, _, _, _, _, h1, _, h2, h3, h4, h5, h6, h7, h8⟩, rfl, rfl, rfl, rfl, rfl, rfl⟩
    refine ⟨h1, h2, h3, h4, ?_, h6, h7, h8⟩
    simpa [List.mem_cons] using h5

theorem literal_iff {s : Text} (hs : isTimestampLiteral s = true) : validLiteral s = true ↔ ∃ m : Moment, s = m.literal := by
  unfold isTimestampLiteral at hs
  split at hs
  · rename_i q1 y1 y2 y3 y4 d1 m1 m2 d2 a1 a2 sp h1 h2 c1 i1 i2 c2 s1 s2 q2
    simp only [Bool.and_eq_true, decide_eq_true_eq] at hs
    obtain ⟨⟨⟨⟨⟨⟨⟨⟨⟨⟨⟨⟨⟨⟨⟨⟨⟨⟨⟨⟨e1, e2⟩, e3⟩, e4⟩, e5⟩, e6⟩, e7⟩, e8⟩, e9⟩, e10⟩, e11⟩, e12⟩, e13⟩, e14⟩, e15⟩, e16⟩, e17⟩, e18⟩, e19⟩, e20⟩, e21⟩ := hs
    subst e1 e6 e9 e12 e15 e18 e21
    obtain ⟨fy, ly⟩ := four_digitsNat e2 e3 e4 e5
    obtain ⟨fm, lm⟩ := two_digitsNat e7 e8
    obtain ⟨fd, ld⟩ := two_digitsNat e10 e11
    obtain ⟨fh, lh⟩ := two_digitsNat e13 e14
    obtain ⟨fi, li⟩ := two_digitsNat e16 e17
    obtain ⟨fs, ls⟩ := two_digitsNat e19 e20
    have hv : validLiteral ['\'', y1, y2, y3, y4, '-', m1, m2, '-', a1, a2, ' ', h1, h2, ':', i1, i2, ':', s1, s2, '\'']
        = validDateTime (digitsNat [y1, y2, y3, y4]) (digitsNat [m1, m2]) (digitsNat [a1, a2]) (digitsNat [h1, h2]) (digitsNat [i1, i2])
          (digitsNat [s1, s2]) := rfl
    rw [hv, valid_iff (by omega)]
    constructor
    · rintro ⟨m, g1, g2, g3, g4, g5, g6⟩
      refine ⟨m, ?_⟩
      unfold Moment.literal
      rw [g1, g2, g3, g4, g5, g6, fy, fm, fd, fh, fi, fs]
      rfl
    · rintro ⟨m, hm⟩
      obtain ⟨y, mo, d, h, mi, s, hv⟩ := m
      have hb : d ≤ 31 := by
        have := hv.2.2.2.2.2.1
        split at this
        · split at this <;> omega
        · split at this <;> omega
      refine ⟨⟨y, mo, d, h, mi, s, hv⟩, ?_⟩
      have hm' : ['\'', y1, y2, y3, y4, '-', m1, m2, '-', a1, a2, ' ', h1, h2, ':', i1, i2, ':', s1, s2, '\'']
          = ['\'', digit (y / 100 / 10), digit (y / 100), digit (y / 10), digit y, '-',
    digit (mo / 10), digit mo, '-', digit (d / 10), digit d, ' ', digit (h / 10), digit h, ':',
    digit (mi / 10), digit mi, ':', digit (s / 10), digit s, '\''] := hm
      injection hm' with _ hm'
      injection hm' with g1 hm'
      injection hm' with g2 hm'
      injection hm' with g3 hm'
      injection hm' with g4 hm'
      injection hm' with _ hm'
      injection hm' with g5 hm'
      injection hm' with g6 hm'
      injection hm' with _ hm'
      injection hm' with g7 hm'
      injection hm' with g8 hm'
      injection hm' with _ hm'
      injection hm' with g9 hm'
      injection hm' with g10 hm'
      injection hm' with _ hm'
      injection hm' with g11 hm'
      injection hm' with g12 hm'
      injection hm' with _ hm'
      injection hm' with g13 hm'
      injection hm' with g14 hm'
      subst g1 g2 g3 g4 g5 g6 g7 g8 g9 g10 g11 g12 g13 g14
      refine ⟨?_, ?_, ?_, ?_, ?_, ?_⟩
      · exact (digitsNat_four (n := y) (by omega)).symm
      · exact (digitsNat_two (n := mo) (by omega)).symm
      · exact (digitsNat_two (n := d) (by omega)).symm
      · exact (digitsNat_two (n := h) (by omega)).symm
      · exact (digitsNat_two (n := mi) (by omega)).symm
      · exact (digitsNat_two (n := s) (by omega)).symm
  · exact absurd hs (by simp)

theorem like_length {s : Text} (hs : isTimestampLiteral s = true) : s.length = 21 := by
  unfold isTimestampLiteral at hs
  split at hs
  · rfl
  · exact absurd hs (by simp)

theorem stampLike_iff (e : Text) : Pg.StampLike e ↔ isTimestampLiteral (e.take 21) = true ∧ e.drop 21 = t "::timestamp without time zone" := by
  constructor
  · rintro ⟨l, hl, rfl⟩
    have := like_length hl
    unfold Pg.stamped
    rw [List.take_append_of_le_length (by omega), List.take_of_length_le (by omega), List.drop_append_of_le_length (by omega),
      List.drop_of_length_le (by omega)]
    exact ⟨hl, rfl⟩
  · rintro ⟨h1, h2⟩
    refine ⟨e.take 21, h1, ?_⟩
    unfold Pg.stamped
    rw [← h2, List.take_append_drop]

/-- Which defaults are read as they are. -/
theorem default_iff (e d : Text) : pgDefaultExpr (some e) = .ok (some d) ↔ Pg.DefaultKept e d := by
  unfold pgDefaultExpr
  dsimp only
  by_cases hl : Pg.StampLike e
  · have hl' := (stampLike_iff e).1 hl
    rw [if_pos hl']
    have hlit := literal_iff hl'.1
    have hsplit : e = Pg.stamped (e.take 21) := by
      unfold Pg.stamped
      rw [← hl'.2, List.take_append_drop]
    by_cases hv : validLiteral (e.take 21) = true
    · rw [if_pos hv]
      obtain ⟨m, hm⟩ := hlit.1 hv
      constructor
      · intro h
        injection h with h
        injection h with h
        subst h
        exact .inr ⟨m, hm, hsplit⟩
      · rintro (⟨rfl, hn⟩ | ⟨m', hd, he⟩)
        · exact absurd hl hn
        · have : e.take 21 = d := by
            rw [he]
            have := like_length (hd ▸ literal_like m' : isTimestampLiteral d = true)
            unfold Pg.stamped
            rw [List.take_append_of_le_length (by omega), List.take_of_length_le (by omega)]
          rw [this]
    · rw [if_neg hv]
      constructor
      · intro h; cases h
      · rintro (⟨rfl, hn⟩ | ⟨m', hd, he⟩)
        · exact absurd hl hn
        · exfalso
          apply hv
          apply hlit.2
          refine ⟨m', ?_⟩
          rw [he, ← hd]
          have := like_length (hd ▸ literal_like m' : isTimestampLiteral d = true)
          unfold Pg.stamped
          rw [List.take_append_of_le_length (by omega), List.take_of_length_le (by omega)]
  · have hl' := fun h => hl ((stampLike_iff e).2 h)
    rw [if_neg hl']
    constructor
    · intro h
      injection h with h
      injection h with h
      subst h
      exact .inl ⟨rfl, hl⟩
    · rintro (⟨rfl, hn⟩ | ⟨m', hd, he⟩)
      · rfl
      · exfalso
        apply hl
        exact ⟨d, hd ▸ literal_like m', he⟩

/-! ### Groups -/

/-- Adjacent rows of enumerations with distinct names and at least one label each. -/
theorem groupRows_flatMap : ∀ {es : List EnumType}, (es.map key).Nodup → (∀ e ∈ es, e.values ≠ []) →
    groupRows (es.flatMap (fun e => e.values.map (fun v => (e.name.localId, v)))) = es.map (fun e => (e.name.localId, e.values)) := by
  intro es
  induction es with
  | nil => intro _ _; rfl
  | cons e es ih =>
    intro hd hne
    rw [List.map_cons, List.nodup_cons] at hd
    have ih' := ih hd.2 (fun x hx => hne x (List.mem_cons_of_mem _ hx))
    rw [List.flatMap_cons, List.map_cons]
    have hv := hne e List.mem_cons_self
    have key : ∀ vs : List Text, vs ≠ [] →
        groupRows (vs.map (fun v => (e.name.localId, v)) ++ es.flatMap (fun e => e.values.map (fun v => (e.name.localId, v))))
          = (e.name.localId, vs) :: es.map (fun e => (e.name.localId, e.values)) := by
      intro vs
      induction vs with
      | nil => intro h; exact absurd rfl h
      | cons v vs ihv =>
        intro _
        rw [List.map_cons, List.cons_append, groupRows]
        by_cases hn : vs = []
        · subst hn
          rw [List.map_nil, List.nil_append, ih']
          cases es with
          | nil => rfl
          | cons x es =>
            rw [List.map_cons]
            dsimp only
            rw [if_neg]
            intro h
            exact hd.1 (List.mem_map.2 ⟨x, List.mem_cons_self, h.symm⟩)
        · rw [ihv hn]
          dsimp only
          rw [if_pos rfl]
    exact key _ hv

/-- Groups are never empty, and their names are those of the rows. -/
theorem groupRows_facts : ∀ {rows : List (Text × Text)}, ∀ g ∈ groupRows rows, g.2 ≠ [] ∧ ∀ v ∈ g.2, (g.1, v) ∈ rows := by
  intro rows
  induction rows with
  | nil => intro g hg; cases hg
  | cons r rows ih =>
    obtain ⟨n, v⟩ := r
    intro g hg
    rw [groupRows] at hg
    split at hg
    · rename_i n' vs gs hgs
      have h' := ih (n', vs) (by rw [hgs]; exact List.mem_cons_self)
      split at hg
      · rename_i hn
        subst hn
        rcases List.mem_cons.1 hg with rfl | hg
        · refine ⟨by simp, ?_⟩
          intro x hx
          rcases List.mem_cons.1 hx with rfl | hx
          · exact List.mem_cons_self
          · exact List.mem_cons_of_mem _ (h'.2 x hx)
        · obtain ⟨a, b⟩ := ih g (by rw [hgs]; exact List.mem_cons_of_mem _ hg)
          exact ⟨a, fun x hx => List.mem_cons_of_mem _ (b x hx)⟩
      · rcases List.mem_cons.1 hg with rfl | hg
        · refine ⟨by simp, ?_⟩
          intro x hx
          rcases List.mem_cons.1 hx with rfl | hx
          · exact List.mem_cons_self
          · cases hx
        · obtain ⟨a, b⟩ := ih g (by rw [hgs]; exact hg)
          exact ⟨a, fun x hx => List.mem_cons_of_mem _ (b x hx)⟩
    · rcases List.mem_cons.1 hg with rfl | hg
      · refine ⟨by simp, ?_⟩
        intro x hx
        rcases List.mem_cons.1 hx with rfl | hx
        · exact List.mem_cons_self
        · cases hx
      · cases hg

end Expl
end PySqlSync
