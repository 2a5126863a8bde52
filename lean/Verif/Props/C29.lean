/-
C29 — The common type of a union loses nothing.
-/
import Verif.Model.Compatible
import Verif.Spec.Values

set_option autoImplicit false

namespace PySqlSync
open Spec

/-- Not an `OracleIntegerType`. -/
def NotOracleInt (ty : SqlType) : Prop := ∀ w s lo hi, ty ≠ .integer .oracle w s lo hi

namespace C29

/-- One data type for each kind. -/
def fam : SqlType → SqlType
  | .integer .. => .integer .base 0 true none none
  | .real _ | .double _ => .real .base
  | .fixedChar _ | .varChar .. => .fixedChar none
  | .fixedBinary .. | .varBinary .. => .fixedBinary .base none
  | ty => ty

theorem sameKind_iff (a b : SqlType) : SameKind a b ↔ fam a = fam b := by
  cases a <;> cases b <;> simp [SameKind, fam]

theorem compat_same {a b : SqlType} (ha : NotOracleInt a) (h : fam a = fam b) :
    ∃ x, compatible2 a b = .ok x ∧ fam x = fam a ∧ NotOracleInt x := by
  unfold compatible2
  by_cases e : a = b
  · rw [if_pos e]; exact ⟨a, rfl, rfl, ha⟩
  · rw [if_neg e]
    cases a <;> cases b <;> first | exact absurd h e | (simp [fam] at h; done) |
      (refine ⟨_, rfl, rfl, ?_⟩; intro _ _ _ _ h'; cases h'; done) | skip
    · rename_i c w s lo hi _ _ _ _ _
      have hc : c ≠ .oracle := fun e => ha w s lo hi (by rw [e])
      dsimp only
      rw [if_neg hc]
      refine ⟨_, rfl, rfl, ?_⟩
      intro _ _ _ _ h'
      cases h'
      exact hc rfl

theorem compat_other {a b : SqlType} (h : fam a ≠ fam b) : compatible2 a b = .error .compatibility := by
  unfold compatible2
  have e : a ≠ b := fun e => h (by rw [e])
  rw [if_neg e]
  cases a <;> cases b <;> first | rfl | exact absurd rfl h


theorem maxOrNone_assoc (a b c : Option Nat) : maxOrNone (maxOrNone a b) c = maxOrNone a (maxOrNone b c) := by
  cases a <;> cases b <;> cases c <;> simp [maxOrNone, Nat.max_assoc]

theorem maxOrNone_self (a : Option Nat) : maxOrNone a a = a := by
  cases a <;> simp [maxOrNone]

/-- The common type without the shortcut for equal types. -/
def meet : SqlType → SqlType → SqlType
  | .integer c wl _ _ _, .integer _ wr _ _ _ => .integer c (max wl wr) true none none
  | .real _, .double c => .double c
  | .fixedChar l, .fixedChar r => .fixedChar (maxOrNone l r)
  | .fixedChar l, .varChar c r => .varChar c (maxOrNone l r)
  | .varChar c l, .fixedChar r => .varChar c (maxOrNone l r)
  | .varChar c l, .varChar _ r => .varChar c (maxOrNone l r)
  | .fixedBinary c l, .fixedBinary _ r => .fixedBinary c (maxOrNone l r)
  | .fixedBinary _ l, .varBinary c r => .varBinary c (maxOrNone l r)
  | .varBinary c l, .fixedBinary _ r => .varBinary c (maxOrNone l r)
  | .varBinary c l, .varBinary _ r => .varBinary c (maxOrNone l r)
  | a, _ => a

theorem compat_meet {a b : SqlType} (ha : NotOracleInt a) (h : fam a = fam b) :
    compatible2 a b = .ok (if a = b then a else meet a b) := by
  unfold compatible2
  by_cases e : a = b
  · rw [if_pos e, if_pos e]
  · rw [if_neg e, if_neg e]
    cases a <;> cases b <;> first | exact absurd h e | (simp [fam] at h; done) | rfl | skip
    rename_i c w s lo hi _ _ _ _ _
    have hc : c ≠ .oracle := fun e => ha w s lo hi (by rw [e])
    dsimp only
    rw [if_neg hc]
    rfl

/-- The common type of two. -/
def sup (a b : SqlType) : SqlType := if a = b then a else meet a b

theorem meet_self_of_not_int {a : SqlType} (h : fam a ≠ .integer .base 0 true none none) : meet a a = a := by
  cases a <;> first | rfl | (exact absurd rfl h) | (simp [meet, maxOrNone_self])

theorem sup_not_int {a b : SqlType} (h : fam a ≠ .integer .base 0 true none none) : sup a b = meet a b := by
  unfold sup
  split
  · rename_i e; rw [← e, meet_self_of_not_int h]
  · rfl

theorem meet_assoc {a b c : SqlType} (hab : fam a = fam b) (hbc : fam b = fam c) (h : fam a ≠ .integer .base 0 true none none) :
    meet (meet a b) c = meet a (meet b c) := by
  cases a <;> first | (exact absurd rfl h) | skip
  all_goals cases b <;> first | (simp [fam] at hab; done) | skip
  all_goals cases c <;> first | (simp [fam] at hbc; done) | rfl | (simp only [meet, maxOrNone_assoc]) | skip

theorem fam_meet {a b : SqlType} (h : fam a = fam b) : fam (meet a b) = fam a := by
  cases a <;> cases b <;> first | rfl | (simp [fam] at h; done) | exact h

theorem fam_sup {a b : SqlType} (h : fam a = fam b) : fam (sup a b) = fam a := by
  unfold sup
  split
  · rfl
  · exact fam_meet h

theorem sup_int (c₁ c₂ : Cls) (w₁ w₂ : Nat) (s₁ s₂ : Bool) (l₁ l₂ u₁ u₂ : Option Int) :
    (SqlType.integer c₁ w₁ s₁ l₁ u₁ = .integer c₂ w₂ s₂ l₂ u₂ ∧
      sup (.integer c₁ w₁ s₁ l₁ u₁) (.integer c₂ w₂ s₂ l₂ u₂) = .integer c₁ w₁ s₁ l₁ u₁) ∨
    (SqlType.integer c₁ w₁ s₁ l₁ u₁ ≠ .integer c₂ w₂ s₂ l₂ u₂ ∧
      sup (.integer c₁ w₁ s₁ l₁ u₁) (.integer c₂ w₂ s₂ l₂ u₂) = .integer c₁ (max w₁ w₂) true none none) := by
  unfold sup
  split
  · rename_i h; exact .inl ⟨h, rfl⟩
  · rename_i h; exact .inr ⟨h, rfl⟩

theorem sup_assoc {a b c : SqlType} (hab : fam a = fam b) (hbc : fam b = fam c) : sup (sup a b) c = sup a (sup b c) := by
  by_cases h : fam a = .integer .base 0 true none none
  · cases a <;> first | (simp [fam] at h; done) | skip
    cases b <;> first | (simp [fam] at hab; done) | skip
    cases c <;> first | (simp [fam] at hbc; done) | skip
    rename_i c₁ w₁ s₁ l₁ u₁ c₂ w₂ s₂ l₂ u₂ c₃ w₃ s₃ l₃ u₃
    have key : ∀ (c c' : Cls) (w w' : Nat) (s s' : Bool) (l l' u u' : Option Int),
        (s = true ∧ l = none ∧ u = none) ∨ SqlType.integer c w s l u ≠ .integer c' w' s' l' u' →
        sup (.integer c w s l u) (.integer c' w' s' l' u') = .integer c (max w w') true none none := by
      intro c c' w w' s s' l l' u u' h
      rcases sup_int c c' w w' s s' l l' u u' with ⟨e, h1⟩ | ⟨_, h1⟩
      · rw [h1]
        injection e with e1 e2 e3 e4 e5
        rcases h with ⟨rfl, rfl, rfl⟩ | h
        · rw [← e2, Nat.max_self]
        · exact absurd (by rw [e1, e2, e3, e4, e5]) h
      · exact h1
    by_cases e1 : SqlType.integer c₁ w₁ s₁ l₁ u₁ = .integer c₂ w₂ s₂ l₂ u₂
    · have h12 : sup (.integer c₁ w₁ s₁ l₁ u₁) (.integer c₂ w₂ s₂ l₂ u₂) = .integer c₁ w₁ s₁ l₁ u₁ := by unfold sup; rw [if_pos e1]
      rw [h12, ← e1]
      by_cases e2 : SqlType.integer c₁ w₁ s₁ l₁ u₁ = .integer c₃ w₃ s₃ l₃ u₃
      · rw [← e2]; simp [sup]
      · rw [key c₁ c₃ w₁ w₃ s₁ s₃ l₁ l₃ u₁ u₃ (.inr e2)]
        by_cases e3 : SqlType.integer c₁ w₁ s₁ l₁ u₁ = .integer c₁ (max w₁ w₃) true none none
        · rw [← e3]; simp [sup]
        · rw [key _ _ _ _ _ _ _ _ _ _ (.inr e3)]
          congr 1
          omega
    · rw [key c₁ c₂ w₁ w₂ s₁ s₂ l₁ l₂ u₁ u₂ (.inr e1), key c₁ c₃ (max w₁ w₂) w₃ true s₃ none l₃ none u₃ (.inl ⟨rfl, rfl, rfl⟩)]
      by_cases e2 : SqlType.integer c₂ w₂ s₂ l₂ u₂ = .integer c₃ w₃ s₃ l₃ u₃
      · have h23 : sup (.integer c₂ w₂ s₂ l₂ u₂) (.integer c₃ w₃ s₃ l₃ u₃) = .integer c₂ w₂ s₂ l₂ u₂ := by unfold sup; rw [if_pos e2]
        rw [h23, key c₁ c₂ w₁ w₂ s₁ s₂ l₁ l₂ u₁ u₂ (.inr e1)]
        injection e2 with _ e2
        rw [← e2]
        congr 1
        omega
      · rw [key c₂ c₃ w₂ w₃ s₂ s₃ l₂ l₃ u₂ u₃ (.inr e2)]
        by_cases e3 : SqlType.integer c₁ w₁ s₁ l₁ u₁ = .integer c₂ (max w₂ w₃) true none none
        · injection e3 with e31 e32 e33 e34 e35
          rw [key c₁ c₂ w₁ (max w₂ w₃) s₁ true l₁ none u₁ none (.inl ⟨e33, e34, e35⟩), Nat.max_assoc]
        · rw [key c₁ c₂ w₁ (max w₂ w₃) s₁ true l₁ none u₁ none (.inr e3), Nat.max_assoc]
  · rw [sup_not_int (by rw [fam_sup hab]; exact h), sup_not_int h, sup_not_int h, sup_not_int (by rw [← hab]; exact h)]
    exact meet_assoc hab hbc h

theorem not_oracle_sup {a b : SqlType} (ha : NotOracleInt a) (h : fam a = fam b) : NotOracleInt (sup a b) := by
  obtain ⟨x, h1, _, h3⟩ := compat_same ha h
  rw [compat_meet ha h] at h1
  cases h1
  exact h3

theorem compat_sup {a b : SqlType} (ha : NotOracleInt a) (h : fam a = fam b) : compatible2 a b = .ok (sup a b) := compat_meet ha h

theorem fold_ok {rest : List SqlType} : ∀ {a : SqlType}, NotOracleInt a → (∀ b ∈ rest, fam a = fam b) →
    rest.foldlM compatible2 a = .ok (rest.foldl sup a) ∧ fam (rest.foldl sup a) = fam a ∧ NotOracleInt (rest.foldl sup a) := by
  induction rest with
  | nil => intro a ha _; exact ⟨rfl, rfl, ha⟩
  | cons b rest ih =>
    intro a ha h
    have hab := h b List.mem_cons_self
    obtain ⟨h1, h2, h3⟩ := ih (not_oracle_sup ha hab)
      (fun c hc => by rw [fam_sup hab]; exact h c (List.mem_cons_of_mem _ hc))
    rw [List.foldlM_cons, compat_sup ha hab]
    exact ⟨h1, h2.trans (fam_sup hab), h3⟩

theorem fold_error {rest : List SqlType} : ∀ {a : SqlType}, NotOracleInt a → (¬ ∀ b ∈ rest, fam a = fam b) →
    rest.foldlM compatible2 a = .error .compatibility := by
  induction rest with
  | nil => intro a _ h; exact absurd (by simp) h
  | cons b rest ih =>
    intro a ha h
    rw [List.foldlM_cons]
    by_cases hab : fam a = fam b
    · rw [compat_sup ha hab]
      apply ih (not_oracle_sup ha hab)
      intro hall
      apply h
      intro c hc
      rcases List.mem_cons.1 hc with e | hc
      · rw [e]; exact hab
      · rw [← fam_sup hab]; exact hall c hc
    · rw [compat_other hab]; rfl

theorem fold_sup {rest : List SqlType} : ∀ {a b : SqlType}, fam a = fam b → (∀ c ∈ rest, fam b = fam c) →
    rest.foldl sup (sup a b) = sup a (rest.foldl sup b) := by
  induction rest with
  | nil => intro a b _ _; rfl
  | cons c rest ih =>
    intro a b hab h
    have hbc := h c List.mem_cons_self
    rw [List.foldl_cons, List.foldl_cons, sup_assoc hab hbc]
    exact ih (by rw [fam_sup hbc]; exact hab) (fun d hd => by rw [fam_sup hbc]; exact h d (List.mem_cons_of_mem _ hd))

theorem fam_fold {rest : List SqlType} : ∀ {a : SqlType}, (∀ b ∈ rest, fam a = fam b) → fam (rest.foldl sup a) = fam a := by
  induction rest with
  | nil => intro a _; rfl
  | cons b rest ih =>
    intro a h
    have hab := h b List.mem_cons_self
    rw [List.foldl_cons, ih (fun c hc => by rw [fam_sup hab]; exact h c (List.mem_cons_of_mem _ hc)), fam_sup hab]

end C29

/-- A way to combine a non-empty list of data types two by two. -/
inductive Grouping where
  | one (ty : SqlType)
  | join (a b : Grouping)

/-- The data types of a grouping, from left to right. -/
def Grouping.types : Grouping → List SqlType
  | .one ty => [ty]
  | .join a b => a.types ++ b.types

/-- Combining the data types as grouped. -/
def Grouping.combine : Grouping → Except Err SqlType
  | .one ty => .ok ty
  | .join a b => do
    let x ← a.combine
    let y ← b.combine
    compatibleType [x, y]

/-- **C29.**  There is a common type exactly if all are of the same kind. -/
theorem C29_defined {ts : List SqlType} (hne : ts ≠ []) (h : ∀ ty ∈ ts, NotOracleInt ty) :
    (∃ r, compatibleType ts = .ok r) ↔ ∀ a ∈ ts, ∀ b ∈ ts, SameKind a b := by
  cases ts with
  | nil => exact absurd rfl hne
  | cons a rest =>
    have ha := h a List.mem_cons_self
    unfold compatibleType
    dsimp only
    by_cases hall : ∀ b ∈ rest, C29.fam a = C29.fam b
    · refine ⟨fun _ => ?_, fun _ => ⟨_, (C29.fold_ok ha hall).1⟩⟩
      have key : ∀ x ∈ a :: rest, C29.fam a = C29.fam x := by
        intro x hx
        rcases List.mem_cons.1 hx with e | hx
        · rw [e]
        · exact hall x hx
      intro x hx y hy
      rw [C29.sameKind_iff, ← key x hx, key y hy]
    · refine ⟨fun ⟨r, hr⟩ => ?_, fun hk => ?_⟩
      · rw [C29.fold_error ha hall] at hr; cases hr
      · exact absurd (fun b hb => (C29.sameKind_iff a b).1 (hk a List.mem_cons_self b (List.mem_cons_of_mem _ hb))) hall

/-- **C29.**  The result, or the error, does not depend on the grouping. -/
theorem C29_grouping (g : Grouping) (h : ∀ ty ∈ g.types, NotOracleInt ty) : g.combine = compatibleType g.types := by
  suffices hs : ∀ g : Grouping, (∀ ty ∈ g.types, NotOracleInt ty) → g.combine = compatibleType g.types ∧ g.types ≠ [] from (hs g h).1
  intro g
  induction g with
  | one ty => intro _; exact ⟨rfl, by simp [Grouping.types]⟩
  | join p q ihp ihq =>
    intro h
    simp only [Grouping.types, List.mem_append] at h
    obtain ⟨hp, hpn⟩ := ihp (fun ty ht => h ty (.inl ht))
    obtain ⟨hq, hqn⟩ := ihq (fun ty ht => h ty (.inr ht))
    refine ⟨?_, by simp [Grouping.types, hpn]⟩
    cases ep : p.types with
    | nil => exact absurd ep hpn
    | cons a as =>
      cases eq : q.types with
      | nil => exact absurd eq hqn
      | cons b bs =>
        rw [ep] at hp h
        rw [eq] at hq h
        have ha : NotOracleInt a := h a (.inl List.mem_cons_self)
        have hb : NotOracleInt b := h b (.inr List.mem_cons_self)
        simp only [Grouping.combine, Grouping.types, hp, hq, ep, eq]
        simp only [compatibleType, List.cons_append]
        by_cases hall : ∀ c ∈ as ++ b :: bs, C29.fam a = C29.fam c
        · have h1 : ∀ c ∈ as, C29.fam a = C29.fam c := fun c hc => hall c (by simp [hc])
          have hab : C29.fam a = C29.fam b := hall b (by simp)
          have h2 : ∀ c ∈ bs, C29.fam b = C29.fam c := fun c hc => hab ▸ hall c (by simp [hc])
          obtain ⟨e1, f1, n1⟩ := C29.fold_ok ha h1
          obtain ⟨e2, f2, n2⟩ := C29.fold_ok hb h2
          rw [(C29.fold_ok ha hall).1, e1, e2]
          simp only [bind, Except.bind, List.foldlM_cons, List.foldlM_nil]
          rw [C29.compat_sup n1 (by rw [f1, f2, hab])]
          simp only [pure, Except.pure]
          rw [List.foldl_append, List.foldl_cons, C29.fold_sup (by rw [f1, hab]) h2]
        · rw [C29.fold_error ha hall]
          by_cases h1 : ∀ c ∈ as, C29.fam a = C29.fam c
          · obtain ⟨e1, f1, n1⟩ := C29.fold_ok ha h1
            rw [e1]
            by_cases h2 : ∀ c ∈ bs, C29.fam b = C29.fam c
            · obtain ⟨e2, f2, n2⟩ := C29.fold_ok hb h2
              rw [e2]
              simp only [bind, Except.bind, List.foldlM_cons, List.foldlM_nil]
              rw [C29.compat_other]
              rw [f1, f2]
              intro hab
              apply hall
              intro c hc
              rw [List.mem_append, List.mem_cons] at hc
              rcases hc with hc | hc | hc
              · exact h1 c hc
              · rw [hc]; exact hab
              · rw [hab]; exact h2 c hc
            · rw [C29.fold_error hb h2]; rfl
          · rw [C29.fold_error ha h1]; rfl

/-- A data type of one class: the data types of one dialect do not mix several classes of the same kind. -/
def OfClass (c : Cls) : SqlType → Prop
  | .integer c' .. | .real c' | .double c' | .fixedBinary c' _ | .varBinary c' _ | .varChar c' _ => c' = c
  | _ => True

namespace C29

theorem maxOrNone_comm (a b : Option Nat) : maxOrNone a b = maxOrNone b a := by
  cases a <;> cases b <;> simp [maxOrNone, Nat.max_comm]

theorem sup_comm {c : Cls} {a b : SqlType} (ha : OfClass c a) (hb : OfClass c b) (h : fam a = fam b) :
    sup a b = sup b a ∧ OfClass c (sup a b) := by
  unfold sup
  by_cases e : a = b
  · subst e; simp [ha]
  · rw [if_neg e, if_neg (fun e' => e e'.symm)]
    cases a <;> cases b <;> first | exact absurd h e | (simp [fam] at h; done) | skip
    all_goals
      first
      | (obtain rfl : _ = c := ha
         obtain rfl : _ = _ := hb
         exact ⟨by simp [meet, Nat.max_comm, maxOrNone_comm], rfl⟩)
      | (obtain rfl : _ = c := ha
         exact ⟨by simp [meet, maxOrNone_comm], rfl⟩)
      | (obtain rfl : _ = c := hb
         exact ⟨by simp [meet, maxOrNone_comm], rfl⟩)
      | exact ⟨by simp [meet, maxOrNone_comm], trivial⟩

/-- The common type, from the right. -/
def red : List SqlType → Option SqlType
  | [] => none
  | a :: l =>
    match red l with
    | none => some a
    | some y => some (sup a y)

theorem red_fold {l : List SqlType} : ∀ {a : SqlType}, (∀ b ∈ l, fam a = fam b) → red (a :: l) = some (l.foldl sup a) := by
  induction l with
  | nil => intro a _; rfl
  | cons b l ih =>
    intro a h
    have hab := h b List.mem_cons_self
    have hb : ∀ c ∈ l, fam b = fam c := fun c hc => hab ▸ h c (List.mem_cons_of_mem _ hc)
    have e : red (a :: b :: l) = match red (b :: l) with
      | none => some a
      | some y => some (sup a y) := rfl
    rw [e, ih hb, List.foldl_cons, fold_sup hab hb]

theorem red_facts {c : Cls} {f : SqlType} {l : List SqlType} (h : ∀ b ∈ l, fam b = f ∧ OfClass c b) :
    ∀ x, red l = some x → fam x = f ∧ OfClass c x := by
  induction l with
  | nil => intro x hx; cases hx
  | cons a l ih =>
    intro x hx
    obtain ⟨h1, h2⟩ := h a List.mem_cons_self
    have ih' := ih (fun b hb => h b (List.mem_cons_of_mem _ hb))
    rw [red] at hx
    cases hr : red l with
    | none => rw [hr] at hx; cases hx; exact ⟨h1, h2⟩
    | some y =>
      rw [hr] at hx
      cases hx
      obtain ⟨h3, h4⟩ := ih' y hr
      exact ⟨(fam_sup (h1.trans h3.symm)).trans h1, (sup_comm h2 h4 (h1.trans h3.symm)).2⟩

theorem red_perm {c : Cls} {f : SqlType} {l l' : List SqlType} (p : l.Perm l') (h : ∀ b ∈ l, fam b = f ∧ OfClass c b) :
    red l = red l' := by
  induction p with
  | nil => rfl
  | cons a p ih =>
    rw [red, red, ih (fun b hb => h b (List.mem_cons_of_mem _ hb))]
  | swap a b l =>
    obtain ⟨ha1, ha2⟩ := h a (by simp)
    obtain ⟨hb1, hb2⟩ := h b (by simp)
    have hab : fam a = fam b := ha1.trans hb1.symm
    rw [red, red, red, red]
    cases hr : red l with
    | none =>
      simp only
      rw [(sup_comm ha2 hb2 hab).1]
    | some y =>
      simp only
      obtain ⟨hy1, hy2⟩ := red_facts (fun x hx => h x (by simp [hx])) y hr
      have hay : fam a = fam y := ha1.trans hy1.symm
      have hby : fam b = fam y := hb1.trans hy1.symm
      rw [← sup_assoc hab.symm hay, ← sup_assoc hab hby, (sup_comm ha2 hb2 hab).1]
  | trans p q ih1 ih2 =>
    rw [ih1 h, ih2 (fun b hb => h b (p.mem_iff.2 hb))]

end C29

/-- **C29.**  The result does not depend on the order either, for data types of one dialect. -/
theorem C29_order {c : Cls} (hc : c ≠ .oracle) {ts ts' : List SqlType} (p : ts.Perm ts') (h : ∀ ty ∈ ts, OfClass c ty) :
    compatibleType ts = compatibleType ts' := by
  have hno : ∀ ty, OfClass c ty → NotOracleInt ty := by
    intro ty h w s lo hi e
    subst e
    exact hc h.symm
  cases ts with
  | nil => rw [p.nil_eq]
  | cons a as =>
    cases ts' with
    | nil => exact absurd p.length_eq (by simp)
    | cons b bs =>
      have ha := h a List.mem_cons_self
      have h' : ∀ ty ∈ b :: bs, OfClass c ty := fun ty ht => h ty (p.mem_iff.2 ht)
      have hb := h' b List.mem_cons_self
      unfold compatibleType
      dsimp only
      have iff : (∀ x ∈ as, C29.fam a = C29.fam x) ↔ (∀ x ∈ bs, C29.fam b = C29.fam x) := by
        have all : ∀ (a : SqlType) (as : List SqlType), (∀ x ∈ as, C29.fam a = C29.fam x) ↔
            ∀ x ∈ a :: as, ∀ y ∈ a :: as, C29.fam x = C29.fam y := by
          intro a as
          constructor
          · intro h x hx y hy
            have key : ∀ z ∈ a :: as, C29.fam a = C29.fam z := by
              intro z hz
              rcases List.mem_cons.1 hz with e | hz
              · rw [e]
              · exact h z hz
            rw [← key x hx, key y hy]
          · intro h x hx
            exact h a List.mem_cons_self x (List.mem_cons_of_mem _ hx)
        rw [all, all]
        constructor
        · intro h x hx y hy; exact h x (p.mem_iff.2 hx) y (p.mem_iff.2 hy)
        · intro h x hx y hy; exact h x (p.mem_iff.1 hx) y (p.mem_iff.1 hy)
      by_cases hall : ∀ x ∈ as, C29.fam a = C29.fam x
      · have hall' := iff.1 hall
        rw [(C29.fold_ok (hno a ha) hall).1, (C29.fold_ok (hno b hb) hall').1]
        have e1 := C29.red_fold hall
        have e2 := C29.red_fold hall'
        rw [C29.red_perm (f := C29.fam a) p] at e1
        · rw [e1] at e2
          injection e2 with e2
          rw [e2]
        · intro x hx
          refine ⟨?_, h x hx⟩
          rcases List.mem_cons.1 hx with e | hx
          · rw [e]
          · exact (hall x hx).symm
      · rw [C29.fold_error (hno a ha) hall, C29.fold_error (hno b hb) (fun h => hall (iff.2 h))]

/-- Data types of one dialect, integers signed, lengths given where the type has a fixed length, and no limit beyond what the type
    without limit holds. -/
def Common (c : Cls) : SqlType → Prop
  | .integer _ _ signed _ _ => signed = true
  | .fixedChar l => l.isSome = true ∧ ∀ n m, l = some n → unlimited c = some m → n ≤ m
  | .fixedBinary c' l => c' = c ∧ l.isSome = true ∧ ∀ n m, l = some n → unlimited c = some m → n ≤ m
  | .varChar c' l => c' = c ∧ ∀ n m, l = some n → unlimited c = some m → n ≤ m
  | .varBinary c' l => c' = c ∧ ∀ n m, l = some n → unlimited c = some m → n ≤ m
  | _ => True

namespace C29

theorem fits_mono {w w' : Nat} (h : w ≤ w') {n : Int} (hf : FitsBytes w true n) : FitsBytes w' true n := by
  unfold FitsBytes at hf ⊢
  simp only [if_true] at hf ⊢
  have h1 : 2 ^ (8 * w - 1) ≤ 2 ^ (8 * w' - 1) := Nat.pow_le_pow_right (by omega) (by omega)
  omega

theorem fits_unsigned {w w' : Nat} (h : w < w') {n : Int} (hf : FitsBytes w false n) : FitsBytes w' true n := by
  unfold FitsBytes at hf ⊢
  simp only [if_true, Bool.false_eq_true, if_false] at hf ⊢
  have h1 : 2 ^ (8 * w) ≤ 2 ^ (8 * w' - 1) := Nat.pow_le_pow_right (by omega) (by omega)
  omega

theorem within_none (n : Int) : Within none none n := ⟨by simp, by simp⟩

theorem atMost_capacity {c : Cls} {l r : Option Nat} {k : Nat} (hl : ∀ n m, l = some n → unlimited c = some m → n ≤ m)
    (hr : ∀ n m, r = some n → unlimited c = some m → n ≤ m) (h : AtMost k (capacity c l) ∨ AtMost k (capacity c r)) :
    AtMost k (capacity c (maxOrNone l r)) := by
  unfold capacity AtMost at *
  by_cases hc : c = .delta
  · simp [hc]
  · simp only [if_neg hc] at h ⊢
    cases l <;> cases r
    · simpa [maxOrNone] using h
    · rename_i r
      intro n hn
      rcases h with h | h
      · exact h n hn
      · exact Nat.le_trans (h r rfl) (hr r n rfl hn)
    · rename_i l
      intro n hn
      rcases h with h | h
      · exact Nat.le_trans (h l rfl) (hl l n rfl hn)
      · exact h n hn
    · rename_i l r
      intro n hn
      simp only [maxOrNone, Option.some.injEq] at hn
      rcases h with h | h
      · exact Nat.le_trans (h l rfl) (by omega)
      · exact Nat.le_trans (h r rfl) (by omega)

theorem limit_max {c : Cls} {l r : Option Nat} (hl : ∀ n m, l = some n → unlimited c = some m → n ≤ m)
    (hr : ∀ n m, r = some n → unlimited c = some m → n ≤ m) : ∀ n m, maxOrNone l r = some n → unlimited c = some m → n ≤ m := by
  intro n m hn hm
  cases l <;> cases r <;> simp only [maxOrNone, reduceCtorEq, Option.some.injEq] at hn
  rename_i l r
  have := hl l m rfl hm
  have := hr r m rfl hm
  omega

theorem getD_max {l r : Option Nat} {k : Nat} (hl : l.isSome = true) (hr : r.isSome = true) (h : k ≤ l.getD 1 ∨ k ≤ r.getD 1) :
    k ≤ (maxOrNone l r).getD 1 := by
  cases l <;> cases r <;> simp [maxOrNone] at *
  omega

theorem isSome_max {l r : Option Nat} (hl : l.isSome = true) (hr : r.isSome = true) : (maxOrNone l r).isSome = true := by
  cases l <;> cases r <;> simp [maxOrNone] at *

theorem getD_capacity {c : Cls} {l : Option Nat} {k : Nat} (hl : l.isSome = true) (h : k ≤ l.getD 1) : AtMost k (capacity c l) := by
  cases l with
  | none => cases hl
  | some n =>
    unfold capacity AtMost
    intro m hm
    by_cases hc : c = .delta
    · simp [hc] at hm
    · simp only [if_neg hc, Option.some.injEq] at hm
      simp at h
      omega

theorem sup_holds {c : Cls} {a b : SqlType} (ha : Common c a) (hb : Common c b) (h : fam a = fam b) :
    Common c (sup a b) ∧ ∀ (rest : SqlType → Value → Prop) (v : Value), Holds rest a v ∨ Holds rest b v → Holds rest (sup a b) v := by
  by_cases e : a = b
  · subst e
    have : sup a a = a := by simp [sup]
    rw [this]
    exact ⟨ha, fun rest v h => h.elim id id⟩
  · have hs : sup a b = meet a b := by unfold sup; rw [if_neg e]
    rw [hs]
    cases a <;> cases b <;> first | exact absurd h e | (simp [fam] at h; done) | skip
    · -- integer
      obtain rfl : _ = true := ha
      obtain rfl : _ = true := hb
      refine ⟨rfl, ?_⟩
      intro rest v hv
      cases v <;> first | exact hv.elim False.elim False.elim | skip
      rcases hv with hv | hv
      · exact ⟨fits_mono (Nat.le_max_left _ _) hv.1, within_none _⟩
      · exact ⟨fits_mono (Nat.le_max_right _ _) hv.1, within_none _⟩
    · -- real, real
      refine ⟨trivial, ?_⟩
      intro rest v hv
      cases v <;> first | exact hv.elim False.elim False.elim | exact hv.elim id id
    · -- real, double
      refine ⟨trivial, ?_⟩
      intro rest v hv
      cases v <;> first | exact hv.elim False.elim False.elim | skip
      rcases hv with hv | hv
      · obtain ⟨h1, h2, h3⟩ := hv
        exact ⟨Nat.lt_of_lt_of_le h1 (by decide), by omega, by omega⟩
      · exact hv
    · -- double, real
      refine ⟨trivial, ?_⟩
      intro rest v hv
      cases v <;> first | exact hv.elim False.elim False.elim | skip
      rcases hv with hv | hv
      · exact hv
      · obtain ⟨h1, h2, h3⟩ := hv
        exact ⟨Nat.lt_of_lt_of_le h1 (by decide), by omega, by omega⟩
    · -- double, double
      refine ⟨trivial, ?_⟩
      intro rest v hv
      cases v <;> first | exact hv.elim False.elim False.elim | exact hv.elim id id
    · -- fixedBinary, fixedBinary
      obtain ⟨rfl, ha1, ha2⟩ := ha
      obtain ⟨rfl, hb1, hb2⟩ := hb
      refine ⟨⟨rfl, isSome_max ha1 hb1, limit_max ha2 hb2⟩, ?_⟩
      intro rest v hv
      cases v <;> first | exact hv.elim False.elim False.elim | skip
      simp only [Holds] at hv ⊢
      rename_i _ c _ _
      by_cases hc : c = .delta
      · simp [meet, hc]
      · simp only [meet, if_neg hc] at hv ⊢
        exact getD_max ha1 hb1 hv
    · -- fixedBinary, varBinary
      obtain ⟨rfl, ha1, ha2⟩ := ha
      obtain ⟨rfl, hb2⟩ := hb
      refine ⟨⟨rfl, limit_max ha2 hb2⟩, ?_⟩
      intro rest v hv
      cases v <;> first | exact hv.elim False.elim False.elim | skip
      rename_i _ c _ _
      by_cases hc : c = .delta
      · simp [Holds, meet, hc, capacity, AtMost]
      · apply atMost_capacity ha2 hb2
        refine hv.imp (fun hv => getD_capacity ha1 ?_) id
        simpa [Holds, hc] using hv
    · -- varBinary, fixedBinary
      obtain ⟨rfl, ha2⟩ := ha
      obtain ⟨rfl, hb1, hb2⟩ := hb
      refine ⟨⟨rfl, limit_max ha2 hb2⟩, ?_⟩
      intro rest v hv
      cases v <;> first | exact hv.elim False.elim False.elim | skip
      rename_i _ c _ _
      by_cases hc : c = .delta
      · simp [Holds, meet, hc, capacity, AtMost]
      · apply atMost_capacity ha2 hb2
        refine hv.imp id (fun hv => getD_capacity hb1 ?_)
        simpa [Holds, hc] using hv
    · -- varBinary, varBinary
      obtain ⟨rfl, ha2⟩ := ha
      obtain ⟨rfl, hb2⟩ := hb
      refine ⟨⟨rfl, limit_max ha2 hb2⟩, ?_⟩
      intro rest v hv
      cases v <;> first | exact hv.elim False.elim False.elim | skip
      exact atMost_capacity ha2 hb2 hv
    · -- fixedChar, fixedChar
      obtain ⟨ha1, ha2⟩ := ha
      obtain ⟨hb1, hb2⟩ := hb
      refine ⟨⟨isSome_max ha1 hb1, limit_max ha2 hb2⟩, ?_⟩
      intro rest v hv
      cases v <;> first | exact hv.elim False.elim False.elim | skip
      exact getD_max ha1 hb1 hv
    · -- fixedChar, varChar
      obtain ⟨ha1, ha2⟩ := ha
      obtain ⟨rfl, hb2⟩ := hb
      refine ⟨⟨rfl, limit_max ha2 hb2⟩, ?_⟩
      intro rest v hv
      cases v <;> first | exact hv.elim False.elim False.elim | skip
      exact atMost_capacity ha2 hb2 (hv.imp (fun hv => getD_capacity ha1 hv) id)
    · -- varChar, fixedChar
      obtain ⟨rfl, ha2⟩ := ha
      obtain ⟨hb1, hb2⟩ := hb
      refine ⟨⟨rfl, limit_max ha2 hb2⟩, ?_⟩
      intro rest v hv
      cases v <;> first | exact hv.elim False.elim False.elim | skip
      exact atMost_capacity ha2 hb2 (hv.imp id (fun hv => getD_capacity hb1 hv))
    · -- varChar, varChar
      obtain ⟨rfl, ha2⟩ := ha
      obtain ⟨rfl, hb2⟩ := hb
      refine ⟨⟨rfl, limit_max ha2 hb2⟩, ?_⟩
      intro rest v hv
      cases v <;> first | exact hv.elim False.elim False.elim | skip
      exact atMost_capacity ha2 hb2 hv

theorem fold_holds {c : Cls} {rest : List SqlType} : ∀ {a : SqlType}, Common c a → (∀ b ∈ rest, Common c b) → (∀ b ∈ rest, fam a = fam b) →
    ∀ (o : SqlType → Value → Prop) (v : Value), (Holds o a v ∨ ∃ b ∈ rest, Holds o b v) → Holds o (rest.foldl sup a) v := by
  induction rest with
  | nil => intro a _ _ _ o v h; simpa using h
  | cons b rest ih =>
    intro a ha hb hf o v h
    have hab := hf b List.mem_cons_self
    obtain ⟨h1, h2⟩ := sup_holds ha (hb b List.mem_cons_self) hab
    refine ih h1 (fun x hx => hb x (List.mem_cons_of_mem _ hx)) (fun x hx => by rw [fam_sup hab]; exact hf x (List.mem_cons_of_mem _ hx)) o v ?_
    rcases h with h | ⟨x, hx, h⟩
    · exact .inl (h2 o v (.inl h))
    · rcases List.mem_cons.1 hx with e | hx
      · exact .inl (h2 o v (.inr (e ▸ h)))
      · exact .inr ⟨x, hx, h⟩

theorem fold_int {rest : List SqlType} : ∀ {c : Cls} {w : Nat} {s : Bool} {lo hi : Option Int},
    (∀ b ∈ rest, ∃ c' w' s' lo' hi', b = .integer c' w' s' lo' hi') →
    (∀ b ∈ rest, b = .integer c w s lo hi) ∧ rest.foldl sup (.integer c w s lo hi) = .integer c w s lo hi ∨
    (∃ b ∈ rest, b ≠ .integer c w s lo hi) ∧ ∃ w', rest.foldl sup (.integer c w s lo hi) = .integer c w' true none none ∧ w ≤ w' ∧
      (∀ b ∈ rest, ∀ c' k s' lo' hi', b = .integer c' k s' lo' hi' → k ≤ w') ∧
      (w = w' ∨ ∃ b ∈ rest, ∃ c' s' lo' hi', b = .integer c' w' s' lo' hi') := by
  induction rest with
  | nil => intro c w s lo hi _; exact .inl ⟨by simp, rfl⟩
  | cons b rest ih =>
    intro c w s lo hi h
    obtain ⟨c', w', s', lo', hi', rfl⟩ := h _ List.mem_cons_self
    have hrest : ∀ b ∈ rest, ∃ c' w' s' lo' hi', b = .integer c' w' s' lo' hi' := fun b hb => h b (List.mem_cons_of_mem _ hb)
    rw [List.foldl_cons]
    rcases sup_int c c' w w' s s' lo lo' hi hi' with ⟨e, hs⟩ | ⟨e, hs⟩
    · rw [hs]
      rcases ih (c := c) (w := w) (s := s) (lo := lo) (hi := hi) hrest with ⟨h1, h2⟩ | ⟨⟨b, hb, hne⟩, k, h2, h3, h4, h5⟩
      · left
        refine ⟨?_, h2⟩
        intro b hb
        rcases List.mem_cons.1 hb with e' | hb
        · rw [e', e]
        · exact h1 b hb
      · right
        refine ⟨⟨b, List.mem_cons_of_mem _ hb, hne⟩, k, h2, h3, ?_, ?_⟩
        · intro x hx c₁ k₁ s₁ l₁ u₁ ex
          rcases List.mem_cons.1 hx with e' | hx
          · rw [ex, ← e] at e'
            injection e' with _ e'
            omega
          · exact h4 x hx _ _ _ _ _ ex
        · exact h5.imp id (fun ⟨x, hx, hx'⟩ => ⟨x, List.mem_cons_of_mem _ hx, hx'⟩)
    · rw [hs]
      right
      refine ⟨⟨_, List.mem_cons_self, fun e' => e e'.symm⟩, ?_⟩
      have key : ∃ k, rest.foldl sup (.integer c (max w w') true none none) = .integer c k true none none ∧ max w w' ≤ k ∧
          (∀ b ∈ rest, ∀ c' k' s' lo' hi', b = .integer c' k' s' lo' hi' → k' ≤ k) ∧
          (max w w' = k ∨ ∃ b ∈ rest, ∃ c' s' lo' hi', b = .integer c' k s' lo' hi') := by
        rcases ih (c := c) (w := max w w') (s := true) (lo := none) (hi := none) hrest with ⟨h1, h2⟩ | ⟨_, k, h2, h3, h4, h5⟩
        · refine ⟨_, h2, Nat.le_refl _, ?_, .inl rfl⟩
          intro b hb c₁ k₁ s₁ l₁ u₁ eb
          have := h1 b hb
          rw [eb] at this
          injection this with _ this
          omega
        · exact ⟨k, h2, h3, h4, h5⟩
      obtain ⟨k, h2, h3, h4, h5⟩ := key
      refine ⟨k, h2, by omega, ?_, ?_⟩
      · intro x hx c₁ k₁ s₁ l₁ u₁ ex
        rcases List.mem_cons.1 hx with e' | hx
        · rw [ex] at e'
          injection e' with _ e'
          omega
        · exact h4 x hx _ _ _ _ _ ex
      · rcases h5 with h5 | ⟨x, hx, hx'⟩
        · rcases Nat.le_total w w' with hw | hw
          · right
            exact ⟨_, List.mem_cons_self, c', s', lo', hi', by rw [← h5, Nat.max_eq_right hw]⟩
          · left; omega
        · exact .inr ⟨x, List.mem_cons_of_mem _ hx, hx'⟩

end C29

/-- **C29.**  Every value of a member is a value of the common type, for data types of one dialect as in `Common`.  The full claim has
    no such condition; it is false without (`C29_unsigned_lost`, `C29_char_lost`, `C29_longtext_lost`). -/
theorem C29_signed_no_loss {c : Cls} {ts : List SqlType} {r : SqlType} (hn : ∀ ty ∈ ts, NotOracleInt ty) (hc : ∀ ty ∈ ts, Common c ty)
    (h : compatibleType ts = .ok r) (rest : SqlType → Value → Prop) (v : Value) (ty : SqlType) (ht : ty ∈ ts) (hv : Holds rest ty v) :
    Holds rest r v := by
  cases ts with
  | nil => cases ht
  | cons a as =>
    have ha := hn a List.mem_cons_self
    unfold compatibleType at h
    dsimp only at h
    by_cases hall : ∀ b ∈ as, C29.fam a = C29.fam b
    · rw [(C29.fold_ok ha hall).1] at h
      cases h
      refine C29.fold_holds (hc a List.mem_cons_self) (fun b hb => hc b (List.mem_cons_of_mem _ hb)) hall rest v ?_
      rcases List.mem_cons.1 ht with e | ht
      · exact .inl (e ▸ hv)
      · exact .inr ⟨ty, ht, hv⟩
    · rw [C29.fold_error ha hall] at h; cases h

/-- **C29**, integers, exactly: the common type of integer types that are not all the same loses nothing if and only if no unsigned
    type is as wide as the widest of them. -/
theorem C29_integers {ts : List SqlType} {r : SqlType} (hi : ∀ ty ∈ ts, ∃ c w s, (c ≠ .oracle ∧ 0 < w) ∧ ty = .integer c w s none none)
    (h : compatibleType ts = .ok r) (hd : ∃ a ∈ ts, ∃ b ∈ ts, a ≠ b) (rest : SqlType → Value → Prop) :
    (∀ ty ∈ ts, ∀ v, Holds rest ty v → Holds rest r v) ↔
    ∀ ty ∈ ts, ∀ c w, ty = .integer c w false none none → ∃ ty' ∈ ts, ∃ c' w' s', ty' = .integer c' w' s' none none ∧ w < w' := by
  cases ts with
  | nil => obtain ⟨a, ha, _⟩ := hd; cases ha
  | cons a as =>
    obtain ⟨c, w, s, ⟨hco, _⟩, rfl⟩ := hi _ List.mem_cons_self
    have hno : NotOracleInt (.integer c w s none none) := by
      intro _ _ _ _ e
      injection e with e
      exact hco e
    have hfam : ∀ b ∈ as, C29.fam (.integer c w s none none) = C29.fam b := by
      intro b hb
      obtain ⟨c', w', s', _, rfl⟩ := hi b (List.mem_cons_of_mem _ hb)
      rfl
    unfold compatibleType at h
    dsimp only at h
    rw [(C29.fold_ok hno hfam).1] at h
    have hr : as.foldl C29.sup (.integer c w s none none) = r := by injection h
    clear h
    subst hr
    rcases C29.fold_int (rest := as) (c := c) (w := w) (s := s) (lo := none) (hi := none)
        (fun b hb => by obtain ⟨c', w', s', _, e⟩ := hi b (List.mem_cons_of_mem _ hb); exact ⟨c', w', s', none, none, e⟩)
      with ⟨hall, _⟩ | ⟨_, k, hk, hwk, hle, hmax⟩
    · obtain ⟨x, hx, y, hy, hxy⟩ := hd
      have same : ∀ z ∈ SqlType.integer c w s none none :: as, z = .integer c w s none none := by
        intro z hz
        rcases List.mem_cons.1 hz with e | hz
        · exact e
        · exact hall z hz
      exact absurd ((same x hx).trans (same y hy).symm) hxy
    · rw [hk]
      have hle' : ∀ b ∈ SqlType.integer c w s none none :: as, ∀ c' k' s' lo' hi', b = .integer c' k' s' lo' hi' → k' ≤ k := by
        intro b hb c' k' s' lo' hi' e
        rcases List.mem_cons.1 hb with e' | hb
        · rw [e] at e'
          injection e' with _ e'
          omega
        · exact hle b hb _ _ _ _ _ e
      have hmax' : ∃ b ∈ SqlType.integer c w s none none :: as, ∃ c' s', b = .integer c' k s' none none := by
        rcases hmax with e | ⟨b, hb, c', s', lo', hi', e⟩
        · exact ⟨_, List.mem_cons_self, c, s, by rw [e]⟩
        · refine ⟨b, List.mem_cons_of_mem _ hb, c', s', ?_⟩
          obtain ⟨c₂, w₂, s₂, _, e₂⟩ := hi b (List.mem_cons_of_mem _ hb)
          rw [e] at e₂
          injection e₂ with _ _ _ e₃ e₄
          rw [e, e₃, e₄]
      constructor
      · intro hall ty ht c₁ w₁ e
        subst e
        obtain ⟨b, hb, c', s', e⟩ := hmax'
        refine ⟨b, hb, c', k, s', e, ?_⟩
        rcases Nat.lt_or_ge w₁ k with h | h
        · exact h
        · have hw : w₁ = k := Nat.le_antisymm (hle' _ ht _ _ _ _ _ rfl) h
          subst hw
          have hpos : 0 < 2 ^ (8 * w₁) := Nat.pow_pos (by omega)
          have hle : 2 ^ (8 * w₁ - 1) ≤ 2 ^ (8 * w₁) := Nat.pow_le_pow_right (by omega) (by omega)
          have hz : 0 < w₁ := by
            obtain ⟨_, _, _, ⟨_, hp⟩, e⟩ := hi _ ht
            injection e with _ e
            omega
          have hlt : 2 ^ (8 * w₁ - 1) < 2 ^ (8 * w₁) := Nat.pow_lt_pow_right (by omega) (by omega)
          have := hall _ ht (.int (((2 ^ (8 * w₁) : Nat) : Int) - 1))
            ⟨by simp only [FitsBytes, Bool.false_eq_true, if_false]; omega, C29.within_none _⟩
          have := this.1
          simp only [FitsBytes, if_true] at this
          omega
      · intro hall ty ht v hv
        obtain ⟨c₁, w₁, s₁, _, rfl⟩ := hi ty ht
        cases v <;> first | exact False.elim hv | skip
        refine ⟨?_, C29.within_none _⟩
        cases s₁ with
        | true => exact C29.fits_mono (hle' _ ht _ _ _ _ _ rfl) hv.1
        | false =>
          obtain ⟨ty', ht', c', w', s', e, hlt⟩ := hall _ ht _ _ rfl
          exact C29.fits_unsigned (Nat.lt_of_lt_of_le hlt (hle' _ ht' _ _ _ _ _ e)) hv.1

/-- **C29 fails**: `char` without a length, which holds one character, is taken for the wider type. -/
theorem C29_char_lost (n : Nat) (hn : 1 < n) (rest : SqlType → Value → Prop) : ∃ r v,
    compatibleType [.fixedChar none, .fixedChar (some n)] = .ok r ∧ Holds rest (.fixedChar (some n)) v ∧ ¬ Holds rest r v := by
  refine ⟨.fixedChar none, .text (List.replicate n 'a'), ?_, ?_, ?_⟩
  · simp [compatibleType, compatible2, maxOrNone, pure, Except.pure]; rfl
  · simp [Holds]
  · simp [Holds]; omega

/-- **C29 fails** for MySQL: the type without a limit, which is `mediumtext`, is taken to be wider than `longtext`. -/
theorem C29_longtext_lost (n : Nat) (hn : 16777215 < n) (rest : SqlType → Value → Prop) : ∃ r v,
    compatibleType [.varChar .mysql none, .varChar .mysql (some n)] = .ok r ∧ Holds rest (.varChar .mysql (some n)) v ∧
      ¬ Holds rest r v := by
  refine ⟨.varChar .mysql none, .text (List.replicate n 'a'), ?_, ?_, ?_⟩
  · simp [compatibleType, compatible2, maxOrNone, pure, Except.pure]; rfl
  · simp [Holds, AtMost, capacity]
  · simp [Holds, AtMost, capacity, unlimited]; omega

/-- **C29 fails**: unsigned integers of the greatest width. -/
theorem C29_unsigned_lost (c : Cls) (hc : c ≠ .oracle) (w : Nat) (hw : 0 < w) (rest : SqlType → Value → Prop) : ∃ r v,
    compatibleType [.integer c w true none none, .integer c w false none none] = .ok r ∧
      Holds rest (.integer c w false none none) v ∧ ¬ Holds rest r v := by
  have hlt : 2 ^ (8 * w - 1) < 2 ^ (8 * w) := Nat.pow_lt_pow_right (by omega) (by omega)
  have hpos : 0 < 2 ^ (8 * w - 1) := Nat.pow_pos (by omega)
  refine ⟨.integer c w true none none, .int (((2 ^ (8 * w) : Nat) : Int) - 1), ?_, ?_, ?_⟩
  · simp [compatibleType, compatible2, hc, pure, Except.pure]; rfl
  · exact ⟨by simp only [FitsBytes, Bool.false_eq_true, if_false]; omega, C29.within_none _⟩
  · intro h
    have := h.1
    simp only [FitsBytes, if_true] at this
    omega

/-- **C29 fails** for Oracle: integers of the same kind that are annotated differently have no common type, and the error is not the
    one that is documented (it is a `TypeError` from the constructor, not a `CompatibilityError`). -/
theorem C29_oracle_integers_refused (w w' : Nat) (s s' : Bool) (l l' u u' : Option Int)
    (h : SqlType.integer .oracle w s l u ≠ .integer .oracle w' s' l' u') :
    compatibleType [.integer .oracle w s l u, .integer .oracle w' s' l' u'] = .error .type := by
  simp only [compatibleType, List.foldlM_cons, List.foldlM_nil]
  have : compatible2 (.integer .oracle w s l u) (.integer .oracle w' s' l' u') = .error .type := by
    unfold compatible2
    rw [if_neg h]
    rfl
  rw [this]
  rfl

/-- A union of three types, grouped in both ways. -/
example : (compatibleType [.integer .base 2 true none none, .integer .base 4 true (some 0) none, .integer .base 1 false none none]).toOption
    = some (.integer .base 4 true none none) ∧
    (compatibleType [.fixedChar (some 3), .varChar .mysql (some 10), .fixedChar (some 12)]).toOption = some (.varChar .mysql (some 12)) := by
  decide +kernel

/-- The conditions of `C29_signed_no_loss` are met. -/
example : ∀ ty ∈ [SqlType.fixedChar (some 3), .varChar .mysql none, .fixedChar (some 12)], NotOracleInt ty ∧ Common .mysql ty := by
  intro ty ht
  simp only [List.mem_cons, List.not_mem_nil, or_false] at ht
  rcases ht with rfl | rfl | rfl
  · refine ⟨?_, rfl, ?_⟩
    · intro _ _ _ _ e; cases e
    · simp [unlimited]
  · refine ⟨?_, rfl, ?_⟩
    · intro _ _ _ _ e; cases e
    · simp
  · refine ⟨?_, rfl, ?_⟩
    · intro _ _ _ _ e; cases e
    · simp [unlimited]

end PySqlSync
