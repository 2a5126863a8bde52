/-
C29 — The common type of a union loses nothing: exactly when.
-/
import Verif.Props.C29

set_option autoImplicit false

namespace PySqlSync
open Spec

namespace C29

/-- The greatest of some limits. -/
theorem fold_max {ls : List (Option Nat)} : ∀ {l : Option Nat},
    (ls.foldl maxOrNone l = none ∧ ∃ x ∈ l :: ls, x = none) ∨
    (∃ m, ls.foldl maxOrNone l = some m ∧ ∀ x ∈ l :: ls, ∃ n, x = some n ∧ n ≤ m) := by
  induction ls with
  | nil =>
    intro l
    cases l with
    | none => exact .inl ⟨rfl, none, by simp, rfl⟩
    | some n => exact .inr ⟨n, rfl, by simp⟩
  | cons y ls ih =>
    intro l
    rw [List.foldl_cons]
    rcases ih (l := maxOrNone l y) with ⟨h, x, hx, rfl⟩ | ⟨m, h, hall⟩
    · left
      refine ⟨h, none, ?_, rfl⟩
      rcases List.mem_cons.1 hx with e | hx
      · cases l with
        | none => simp
        | some l =>
          cases y with
          | none => simp
          | some y => cases e
      · simp [hx]
    · right
      refine ⟨m, h, ?_⟩
      intro x hx
      obtain ⟨k, hk, hkm⟩ := hall _ List.mem_cons_self
      cases l with
      | none => cases hk
      | some l =>
        cases y with
        | none => cases hk
        | some y =>
          have hk' : max l y = k := by injection hk
          rcases List.mem_cons.1 hx with e | hx
          · exact ⟨l, e, by omega⟩
          · rcases List.mem_cons.1 hx with e | hx
            · exact ⟨y, e, by omega⟩
            · exact hall x (List.mem_cons_of_mem _ hx)

/-- What a type for strings or bytes holds: `v` for variable length, `free` if fixed length means no limit. -/
def cap (c : Cls) (free v : Bool) (l : Option Nat) : Option Nat :=
  if v then capacity c l else if free then none else some (l.getD 1)

/-- The declared limit, where it counts. -/
def lim (c : Cls) (free : Bool) (p : Bool × Option Nat) : Option (Option Nat) :=
  if free = true ∨ (p.1 = true ∧ c = .delta) then none else some p.2

theorem unlimited_pos {c : Cls} : AtMost 1 (unlimited c) := by
  intro n h
  cases c <;> simp [unlimited] at h <;> omega

theorem capacity_none {c : Cls} : capacity c none = unlimited c := by
  cases c <;> rfl

/-- The criterion, for types given by whether they vary and their limits. -/
theorem cap_exact {c : Cls} {free : Bool} (hf : free = true → c = .delta) {ps : List (Bool × Option Nat)} {V : Bool} {L : Option Nat}
    (hV : V = ps.any Prod.fst)
    (hL : (L = none ∧ ∃ p ∈ ps, p.2 = none) ∨ ∃ m, L = some m ∧ ∀ p ∈ ps, ∃ n, p.2 = some n ∧ n ≤ m) :
    (∀ p ∈ ps, ∀ k, AtMost k (cap c free p.1 p.2) → AtMost k (cap c free V L)) ↔
    (∀ p ∈ ps, lim c free p = some none → ∀ q ∈ ps, ∀ n, lim c free q = some (some n) →
      AtMost n (if V then unlimited c else some 1)) := by
  have hvar : ∀ p ∈ ps, p.1 = true → V = true := by
    intro p hp h
    rw [hV, List.any_eq_true]
    exact ⟨p, hp, h⟩
  constructor
  · intro hall p hp hl q hq n hn
    have hL' : L = none := by
      rcases hL with ⟨h, _⟩ | ⟨m, _, hm⟩
      · exact h
      · obtain ⟨k, hk, _⟩ := hm p hp
        unfold lim at hl
        split at hl
        · cases hl
        · rw [hk] at hl; cases hl
    unfold lim at hn
    split at hn
    · cases hn
    · rename_i hne
      have hfree : free = false := by
        cases free
        · rfl
        · exact absurd (.inl rfl) hne
      have hq2 : q.2 = some n := by injection hn
      have h1 : AtMost n (cap c free q.1 q.2) := by
        rw [hq2]
        unfold cap
        split
        · rename_i h1
          have : c ≠ .delta := fun e => hne (.inr ⟨h1, e⟩)
          unfold capacity
          rw [if_neg this]
          intro k hk; injection hk with hk; omega
        · rw [hfree]
          intro k hk
          injection hk with hk
          simp at hk
          omega
      have h2 := hall q hq n h1
      rw [hL', hfree] at h2
      unfold cap at h2
      rw [capacity_none] at h2
      simpa using h2
  · intro hall p hp k hk
    by_cases hfree : free = true
    · have hc := hf hfree
      subst hc
      have : cap .delta free V L = none := by
        unfold cap
        rw [hfree]
        cases V
        · rfl
        · rfl
      rw [this]
      intro n hn; cases hn
    · have hfree : free = false := by simpa using hfree
      subst hfree
      by_cases hd : V = true ∧ c = .delta
      · obtain ⟨rfl, rfl⟩ := hd
        intro n hn; cases hn
      · rcases hL with ⟨rfl, p0, hp0, h0⟩ | ⟨m, rfl, hm⟩
        · have hl0 : lim c false p0 = some none := by
            unfold lim
            rw [if_neg, h0]
            rintro (h | ⟨h, hc⟩)
            · cases h
            · exact hd ⟨hvar p0 hp0 h, hc⟩
          have hlim : lim c false p = some p.2 := by
            unfold lim
            rw [if_neg]
            rintro (h | ⟨h, hc⟩)
            · cases h
            · exact hd ⟨hvar p hp h, hc⟩
          have hcap : cap c false V none = if V then unlimited c else some 1 := by
            unfold cap
            rw [capacity_none]
            rfl
          rw [hcap]
          cases h2 : p.2 with
          | some n =>
            have h3 := hall p0 hp0 hl0 p hp n (by rw [hlim, h2])
            have hkn : k ≤ n := by
              apply hk
              rw [h2]
              unfold cap
              split
              · rename_i h1
                unfold capacity
                rw [if_neg (fun e => hd ⟨hvar p hp h1, e⟩)]
              · rfl
            intro x hx
            exact Nat.le_trans hkn (h3 x hx)
          | none =>
            rw [h2] at hk
            cases h1 : p.1 with
            | true =>
              rw [hvar p hp h1]
              rw [h1] at hk
              unfold cap at hk
              rw [capacity_none] at hk
              simpa using hk
            | false =>
              rw [h1] at hk
              have hk1 : k ≤ 1 := hk 1 rfl
              cases V with
              | true => intro x hx; exact Nat.le_trans hk1 (unlimited_pos x hx)
              | false => intro x hx; injection hx with hx; omega
        · obtain ⟨n, h2, hnm⟩ := hm p hp
          have hkn : k ≤ n := by
            apply hk
            rw [h2]
            unfold cap
            split
            · rename_i h1
              unfold capacity
              rw [if_neg (fun e => hd ⟨hvar p hp h1, e⟩)]
            · rfl
          intro x hx
          have : x = m := by
            revert hx
            unfold cap capacity
            split
            · rename_i h1
              rw [if_neg (fun e => hd ⟨h1, e⟩)]
              intro hx; injection hx with hx; exact hx.symm
            · intro hx; injection hx with hx; exact hx.symm
          omega

/-- A type for strings of one dialect, by whether it varies and its limit. -/
def mkText (c : Cls) (p : Bool × Option Nat) : SqlType := if p.1 then .varChar c p.2 else .fixedChar p.2
/-- A type for bytes of one dialect. -/
def mkBytes (c : Cls) (p : Bool × Option Nat) : SqlType := if p.1 then .varBinary c p.2 else .fixedBinary c p.2

theorem text_of {c : Cls} {ty : SqlType} (h : fam ty = .fixedChar none) (hc : OfClass c ty) : ∃ p, ty = mkText c p := by
  cases ty <;> first | (simp [fam] at h; done) | skip
  · exact ⟨(false, _), rfl⟩
  · obtain rfl : _ = c := hc
    exact ⟨(true, _), rfl⟩

theorem bytes_of {c : Cls} {ty : SqlType} (h : fam ty = .fixedBinary .base none) (hc : OfClass c ty) : ∃ p, ty = mkBytes c p := by
  cases ty <;> first | (simp [fam] at h; done) | skip
  · obtain rfl : _ = c := hc
    exact ⟨(false, _), rfl⟩
  · obtain rfl : _ = c := hc
    exact ⟨(true, _), rfl⟩

theorem all_of {α : Type} {f : α → SqlType} {l : List SqlType} (h : ∀ ty ∈ l, ∃ p, ty = f p) : ∃ ps : List α, l = ps.map f := by
  induction l with
  | nil => exact ⟨[], rfl⟩
  | cons a l ih =>
    obtain ⟨p, rfl⟩ := h _ List.mem_cons_self
    obtain ⟨ps, rfl⟩ := ih (fun ty ht => h ty (List.mem_cons_of_mem _ ht))
    exact ⟨p :: ps, rfl⟩

theorem text_sup (c : Cls) (p q : Bool × Option Nat) : sup (mkText c p) (mkText c q) = mkText c (p.1 || q.1, maxOrNone p.2 q.2) := by
  rw [sup_not_int (by cases p with | mk a b => cases a <;> simp [mkText, fam])]
  cases p with | mk a b => cases q with | mk a' b' => cases a <;> cases a' <;> rfl

theorem bytes_sup (c : Cls) (p q : Bool × Option Nat) : sup (mkBytes c p) (mkBytes c q) = mkBytes c (p.1 || q.1, maxOrNone p.2 q.2) := by
  rw [sup_not_int (by cases p with | mk a b => cases a <;> simp [mkBytes, fam])]
  cases p with | mk a b => cases q with | mk a' b' => cases a <;> cases a' <;> rfl

theorem fold_mk {f : Bool × Option Nat → SqlType} (hf : ∀ p q, sup (f p) (f q) = f (p.1 || q.1, maxOrNone p.2 q.2)) :
    ∀ (ps : List (Bool × Option Nat)) (p : Bool × Option Nat),
      (ps.map f).foldl sup (f p) = f ((p :: ps).any Prod.fst, (ps.map Prod.snd).foldl maxOrNone p.2) := by
  intro ps
  induction ps with
  | nil => intro p; simp
  | cons q ps ih =>
    intro p
    rw [List.map_cons, List.foldl_cons, hf, ih]
    simp [Bool.or_assoc]

theorem holds_mkText {c : Cls} {p : Bool × Option Nat} {o : SqlType → Value → Prop} {v : Value} :
    Holds o (mkText c p) v ↔ ∃ s, v = .text s ∧ AtMost s.length (cap c false p.1 p.2) := by
  cases p with
  | mk a b =>
    cases a <;> cases v <;> simp [mkText, Holds, cap, AtMost]

theorem holds_mkBytes {c : Cls} {p : Bool × Option Nat} {o : SqlType → Value → Prop} {v : Value} :
    Holds o (mkBytes c p) v ↔ ∃ s, v = .bytes s ∧ AtMost s.length (cap c (decide (c = .delta)) p.1 p.2) := by
  cases p with
  | mk a b =>
    cases a <;> cases v <;> simp [mkBytes, Holds, cap, AtMost]

theorem limit_mkText {c : Cls} {p : Bool × Option Nat} : declaredLimit (mkText c p) = lim c false p := by
  cases p with
  | mk a b => cases a <;> simp [mkText, declaredLimit, lim]

theorem limit_mkBytes {c : Cls} {p : Bool × Option Nat} : declaredLimit (mkBytes c p) = lim c (decide (c = .delta)) p := by
  cases p with
  | mk a b => cases a <;> simp [mkBytes, declaredLimit, lim]

theorem varying_mkText {c : Cls} {p : Bool × Option Nat} : Varying (mkText c p) = p.1 := by
  cases p with
  | mk a b => cases a <;> rfl

theorem varying_mkBytes {c : Cls} {p : Bool × Option Nat} : Varying (mkBytes c p) = p.1 := by
  cases p with
  | mk a b => cases a <;> rfl

/-- Strings and bytes at once. -/
theorem sized_exact {c : Cls} {free : Bool} {f : Bool × Option Nat → SqlType} {tag : Nat → Value} (hfree : free = true → c = .delta)
    (hsup : ∀ p q, sup (f p) (f q) = f (p.1 || q.1, maxOrNone p.2 q.2))
    (hlim : ∀ p, declaredLimit (f p) = lim c free p) (hvar : ∀ p, Varying (f p) = p.1)
    {o : SqlType → Value → Prop} (hv : ∀ p k, Holds o (f p) (tag k) ↔ AtMost k (cap c free p.1 p.2))
    (hall : ∀ p v, Holds o (f p) v → ∃ k, ∀ q, Holds o (f q) v ↔ Holds o (f q) (tag k))
    (p : Bool × Option Nat) (ps : List (Bool × Option Nat)) :
    (∀ ty ∈ (p :: ps).map f, ∀ v, Holds o ty v → Holds o ((ps.map f).foldl sup (f p)) v) ↔
    (∀ a ∈ (p :: ps).map f, declaredLimit a = some none → ∀ b ∈ (p :: ps).map f, ∀ n, declaredLimit b = some (some n) →
      AtMost n (bareLimit c ((p :: ps).map f))) := by
  rw [fold_mk hsup]
  have hb : bareLimit c ((p :: ps).map f) = if (p :: ps).any Prod.fst then unlimited c else some 1 := by
    unfold bareLimit
    rw [List.any_map]
    have : (Varying ∘ f) = Prod.fst := funext hvar
    rw [this]
  rw [hb]
  have hL : ((ps.map Prod.snd).foldl maxOrNone p.2 = none ∧ ∃ q ∈ p :: ps, q.2 = none) ∨
      ∃ m, (ps.map Prod.snd).foldl maxOrNone p.2 = some m ∧ ∀ q ∈ p :: ps, ∃ n, q.2 = some n ∧ n ≤ m := by
    rcases fold_max (ls := ps.map Prod.snd) (l := p.2) with ⟨h, x, hx, rfl⟩ | ⟨m, h, hm⟩
    · refine .inl ⟨h, ?_⟩
      rw [← List.map_cons (f := Prod.snd), List.mem_map] at hx
      exact hx
    · refine .inr ⟨m, h, fun q hq => ?_⟩
      apply hm
      rw [← List.map_cons (f := Prod.snd)]
      exact List.mem_map_of_mem hq
  have main := cap_exact hfree (ps := p :: ps) rfl hL
  constructor
  · intro h a ha hla b hb n hn
    obtain ⟨pa, hpa, rfl⟩ := List.mem_map.1 ha
    obtain ⟨pb, hpb, rfl⟩ := List.mem_map.1 hb
    rw [hlim] at hla hn
    refine main.1 ?_ pa hpa hla pb hpb n hn
    intro q hq k hk
    have := h (f q) (List.mem_map_of_mem hq) (tag k) ((hv q k).2 hk)
    exact (hv _ k).1 this
  · intro h ty ht v hv'
    obtain ⟨q, hq, rfl⟩ := List.mem_map.1 ht
    obtain ⟨k, hk⟩ := hall q v hv'
    rw [hk]
    refine (hv _ k).2 (main.2 ?_ q hq k ((hv q k).1 ((hk q).1 hv')))
    intro a ha hla b hb n hn
    exact h (f a) (List.mem_map_of_mem ha) (by rw [hlim]; exact hla) (f b) (List.mem_map_of_mem hb) n (by rw [hlim]; exact hn)

theorem common_other {c : Cls} {ty : SqlType} (_hc : OfClass c ty) (h1 : fam ty ≠ .fixedChar none) (h2 : fam ty ≠ .fixedBinary .base none)
    (h3 : fam ty ≠ .integer .base 0 true none none) : Common c ty := by
  cases ty <;> first | exact absurd rfl h1 | exact absurd rfl h2 | exact absurd rfl h3 | trivial

theorem oracle_int {a : SqlType} (h : ¬ NotOracleInt a) : ∃ w s lo hi, a = .integer .oracle w s lo hi := by
  apply Classical.byContradiction
  intro hn
  apply h
  intro w s lo hi e
  exact hn ⟨w, s, lo, hi, e⟩

theorem fold_oracle {rest : List SqlType} {w : Nat} {s : Bool} {lo hi : Option Int} {r : SqlType}
    (h : rest.foldlM compatible2 (.integer .oracle w s lo hi) = .ok r) :
    (∀ b ∈ rest, b = .integer .oracle w s lo hi) ∧ r = .integer .oracle w s lo hi := by
  induction rest with
  | nil =>
    refine ⟨by simp, ?_⟩
    rw [List.foldlM_nil] at h
    injection h with h
    exact h.symm
  | cons b rest ih =>
    rw [List.foldlM_cons] at h
    by_cases e : SqlType.integer .oracle w s lo hi = b
    · subst e
      have h1 : compatible2 (.integer .oracle w s lo hi) (.integer .oracle w s lo hi) = .ok (.integer .oracle w s lo hi) := by
        unfold compatible2
        rw [if_pos rfl]
      rw [h1] at h
      obtain ⟨h2, h3⟩ := ih h
      refine ⟨?_, h3⟩
      intro x hx
      rcases List.mem_cons.1 hx with e | hx
      · exact e
      · exact h2 x hx
    · have h1 : ∃ er, compatible2 (.integer .oracle w s lo hi) b = .error er := by
        unfold compatible2
        rw [if_neg e]
        cases b <;> exact ⟨_, rfl⟩
      obtain ⟨er, h1⟩ := h1
      rw [h1] at h
      cases h

end C29

/-- **C29**, exactly: for data types of one dialect that have a common type, nothing is lost if and only if they are `Lossless`. -/
theorem C29_exact {c : Cls} {ts : List SqlType} {r : SqlType} (hc : ∀ ty ∈ ts, OfClass c ty)
    (h : compatibleType ts = .ok r) (rest : SqlType → Value → Prop) :
    (∀ ty ∈ ts, ∀ v, Holds rest ty v → Holds rest r v) ↔ Lossless c ts := by
  cases ts with
  | nil => cases h
  | cons a as =>
    unfold compatibleType at h
    dsimp only at h
    rcases Classical.em (NotOracleInt a) with ha | ha
    case inr =>
      obtain ⟨w, s, lo, hi, rfl⟩ := C29.oracle_int ha
      obtain ⟨hall, rfl⟩ := C29.fold_oracle h
      have all : ∀ z ∈ SqlType.integer .oracle w s lo hi :: as, z = .integer .oracle w s lo hi := by
        intro z hz
        rcases List.mem_cons.1 hz with e | hz
        · exact e
        · exact hall z hz
      refine ⟨fun _ => ⟨?_, ?_⟩, fun _ ty ht v hv => by rw [all ty ht] at hv; exact hv⟩
      · intro c' w' lo' hi' hm ⟨ty, ht, hne⟩
        exact absurd ((all ty ht).trans (all _ hm).symm) hne
      · intro b hb hl
        rw [all b hb] at hl
        cases hl
    by_cases hall : ∀ b ∈ as, C29.fam a = C29.fam b
    case neg => rw [C29.fold_error ha hall] at h; cases h
    rw [(C29.fold_ok ha hall).1] at h
    have hr : as.foldl C29.sup a = r := by injection h
    clear h
    subst hr
    have hfam : ∀ b ∈ a :: as, C29.fam b = C29.fam a := by
      intro b hb
      rcases List.mem_cons.1 hb with e | hb
      · rw [e]
      · exact (hall b hb).symm
    by_cases hText : C29.fam a = .fixedChar none
    · obtain ⟨ps, hps⟩ := C29.all_of (f := C29.mkText c) (fun ty ht => C29.text_of ((hfam ty ht).trans hText) (hc ty ht))
      cases ps with
      | nil => cases hps
      | cons p ps =>
        rw [List.map_cons] at hps
        injection hps with h1 h2
        subst h1 h2
        have main := C29.sized_exact (c := c) (free := false) (f := C29.mkText c) (tag := fun k => .text (List.replicate k 'a')) (o := rest)
          (fun h => by cases h) (C29.text_sup c) (fun p => C29.limit_mkText) (fun p => C29.varying_mkText)
          (fun p k => by
            rw [C29.holds_mkText]
            constructor
            · rintro ⟨s, h, hs⟩
              injection h with h
              rw [← h, List.length_replicate] at hs
              exact hs
            · intro h; exact ⟨_, rfl, by rw [List.length_replicate]; exact h⟩)
          (fun p v hv => by
            obtain ⟨s, rfl, _⟩ := C29.holds_mkText.1 hv
            refine ⟨s.length, fun q => ?_⟩
            rw [C29.holds_mkText, C29.holds_mkText]
            constructor
            · rintro ⟨s', h, hs⟩
              injection h with h
              exact ⟨_, rfl, by rw [List.length_replicate, h]; exact hs⟩
            · rintro ⟨s', h, hs⟩
              injection h with h
              rw [← h, List.length_replicate] at hs
              exact ⟨_, rfl, hs⟩) p ps
        rw [List.map_cons] at main
        rw [main]
        refine ⟨fun h => ⟨?_, h⟩, fun h => h.2⟩
        intro c' w lo hi hm
        obtain ⟨q, _, hq⟩ := List.mem_map.1 (List.map_cons (f := C29.mkText c) ▸ hm)
        cases q with | mk x y => cases x <;> cases hq
    · by_cases hBytes : C29.fam a = .fixedBinary .base none
      · obtain ⟨ps, hps⟩ := C29.all_of (f := C29.mkBytes c) (fun ty ht => C29.bytes_of ((hfam ty ht).trans hBytes) (hc ty ht))
        cases ps with
        | nil => cases hps
        | cons p ps =>
          rw [List.map_cons] at hps
          injection hps with h1 h2
          subst h1 h2
          have main := C29.sized_exact (c := c) (free := decide (c = .delta)) (f := C29.mkBytes c)
            (tag := fun k => .bytes (List.replicate k 0)) (o := rest)
            (fun h => by simpa using h) (C29.bytes_sup c) (fun p => C29.limit_mkBytes) (fun p => C29.varying_mkBytes)
            (fun p k => by
              rw [C29.holds_mkBytes]
              constructor
              · rintro ⟨s, h, hs⟩
                injection h with h
                rw [← h, List.length_replicate] at hs
                exact hs
              · intro h; exact ⟨_, rfl, by rw [List.length_replicate]; exact h⟩)
            (fun p v hv => by
              obtain ⟨s, rfl, _⟩ := C29.holds_mkBytes.1 hv
              refine ⟨s.length, fun q => ?_⟩
              rw [C29.holds_mkBytes, C29.holds_mkBytes]
              constructor
              · rintro ⟨s', h, hs⟩
                injection h with h
                exact ⟨_, rfl, by rw [List.length_replicate, h]; exact hs⟩
              · rintro ⟨s', h, hs⟩
                injection h with h
                rw [← h, List.length_replicate] at hs
                exact ⟨_, rfl, hs⟩) p ps
          rw [List.map_cons] at main
          rw [main]
          refine ⟨fun h => ⟨?_, h⟩, fun h => h.2⟩
          intro c' w lo hi hm
          obtain ⟨q, _, hq⟩ := List.mem_map.1 (List.map_cons (f := C29.mkBytes c) ▸ hm)
          cases q with | mk x y => cases x <;> cases hq
      · by_cases hInt : C29.fam a = .integer .base 0 true none none
        · have isInt : ∀ b ∈ a :: as, ∃ w s lo hi, b = .integer c w s lo hi := by
            intro b hb
            have h1 := (hfam b hb).trans hInt
            have h2 := hc b hb
            cases b <;> first | (simp [C29.fam] at h1; done) | skip
            obtain rfl : _ = c := h2
            exact ⟨_, _, _, _, rfl⟩
          obtain ⟨w, s, lo, hi, rfl⟩ := isInt _ List.mem_cons_self
          have noLimit : ∀ b ∈ SqlType.integer c w s lo hi :: as, declaredLimit b = none := by
            intro b hb
            obtain ⟨_, _, _, _, rfl⟩ := isInt b hb
            rfl
          have second : ∀ b ∈ SqlType.integer c w s lo hi :: as, declaredLimit b = some none → ∀ b' ∈ SqlType.integer c w s lo hi :: as,
              ∀ n, declaredLimit b' = some (some n) → AtMost n (bareLimit c (SqlType.integer c w s lo hi :: as)) := by
            intro b hb h
            rw [noLimit b hb] at h
            cases h
          rcases C29.fold_int (rest := as) (c := c) (w := w) (s := s) (lo := lo) (hi := hi)
              (fun b hb => by obtain ⟨w', s', lo', hi', e⟩ := isInt b (List.mem_cons_of_mem _ hb); exact ⟨c, w', s', lo', hi', e⟩)
            with ⟨same, hk⟩ | ⟨⟨b0, hb0, hne⟩, k, hk, hwk, hle, hmax⟩
          · rw [hk]
            have all : ∀ z ∈ SqlType.integer c w s lo hi :: as, z = .integer c w s lo hi := by
              intro z hz
              rcases List.mem_cons.1 hz with e | hz
              · exact e
              · exact same z hz
            refine ⟨fun _ => ⟨?_, second⟩, fun _ ty ht v hv => by rw [all ty ht] at hv; exact hv⟩
            intro c' w' lo' hi' hm ⟨ty, ht, hne⟩
            exact absurd ((all ty ht).trans (all _ hm).symm) hne
          · rw [hk]
            have hle' : ∀ b ∈ SqlType.integer c w s lo hi :: as, ∀ c' k' s' lo' hi', b = .integer c' k' s' lo' hi' → k' ≤ k := by
              intro b hb c' k' s' lo' hi' e
              rcases List.mem_cons.1 hb with e' | hb
              · rw [e] at e'
                injection e' with _ e'
                omega
              · exact hle b hb _ _ _ _ _ e
            have hmax' : ∃ c' s' lo' hi', SqlType.integer c' k s' lo' hi' ∈ SqlType.integer c w s lo hi :: as := by
              rcases hmax with e | ⟨b, hb, c', s', lo', hi', e⟩
              · exact ⟨c, s, lo, hi, by rw [← e]; exact List.mem_cons_self⟩
              · exact ⟨c', s', lo', hi', e ▸ List.mem_cons_of_mem _ hb⟩
            constructor
            · intro hholds
              refine ⟨?_, second⟩
              intro c' w' lo' hi' hm _ hgreat n hn hw
              have := (hholds _ hm (.int n) ⟨hn, hw⟩).1
              obtain ⟨c₂, s₂, lo₂, hi₂, hm₂⟩ := hmax'
              have h1 := hgreat _ _ _ _ _ hm₂
              have h2 := hle' _ hm _ _ _ _ _ rfl
              have : w' = k := by omega
              subst this
              simp only [FitsBytes, if_true] at this
              exact this.2
            · rintro ⟨hless, _⟩ ty ht v hv
              obtain ⟨w₁, s₁, lo₁, hi₁, rfl⟩ := isInt ty ht
              cases v <;> first | exact False.elim hv | skip
              rename_i n
              refine ⟨?_, C29.within_none _⟩
              cases s₁ with
              | true => exact C29.fits_mono (hle' _ ht _ _ _ _ _ rfl) hv.1
              | false =>
                rcases Nat.lt_or_ge w₁ k with hlt | hge
                · exact C29.fits_unsigned hlt hv.1
                · have h2 := hle' _ ht _ _ _ _ _ rfl
                  have e : w₁ = k := by omega
                  subst e
                  have other : ∃ ty ∈ SqlType.integer c w s lo hi :: as, ty ≠ .integer c w₁ false lo₁ hi₁ := by
                    rcases Decidable.em (SqlType.integer c w s lo hi = .integer c w₁ false lo₁ hi₁) with e | e
                    · exact ⟨b0, List.mem_cons_of_mem _ hb0, e ▸ hne⟩
                    · exact ⟨_, List.mem_cons_self, e⟩
                  have := hless c w₁ lo₁ hi₁ ht other (fun c₂ w₂ s₂ lo₂ hi₂ hm => hle' _ hm _ _ _ _ _ rfl) n hv.1 hv.2
                  have h0 := hv.1
                  simp only [FitsBytes, Bool.false_eq_true, if_false] at h0
                  simp only [FitsBytes, if_true]
                  omega
        · have noInt : ∀ c' w lo hi, SqlType.integer c' w false lo hi ∉ a :: as := by
            intro c' w lo hi hm
            have := hfam _ hm
            exact hInt this.symm
          have noLimit : ∀ b ∈ a :: as, declaredLimit b = none := by
            intro b hb
            have h1 := hfam b hb
            cases b <;> first | rfl | exact absurd h1.symm hText | exact absurd h1.symm hBytes
          refine ⟨fun _ => ⟨fun c' w lo hi hm => absurd hm (noInt c' w lo hi), fun b hb h => by rw [noLimit b hb] at h; cases h⟩, ?_⟩
          intro _ ty ht v hv
          refine C29.fold_holds (c := c) (a := a) (rest := as) ?_ ?_ hall rest v ?_
          · exact C29.common_other (hc a List.mem_cons_self) hText hBytes hInt
          · intro b hb
            have h1 := hfam b (List.mem_cons_of_mem _ hb)
            exact C29.common_other (hc b (List.mem_cons_of_mem _ hb)) (h1 ▸ hText) (h1 ▸ hBytes) (h1 ▸ hInt)
          · rcases List.mem_cons.1 ht with e | ht
            · exact .inl (e ▸ hv)
            · exact .inr ⟨ty, ht, hv⟩

/-- Nothing is lost: an unsigned type with a bound, and strings with and without a limit. -/
example : Lossless .mysql [.integer .mysql 4 true none none, .integer .mysql 4 false none (some 100)] ∧
    Lossless .mysql [.fixedChar (some 3), .varChar .mysql none, .varChar .mysql (some 65536)] := by
  refine ⟨⟨?_, ?_⟩, ⟨?_, ?_⟩⟩
  · intro c' w lo hi hm _ _ n _ hw
    simp only [List.mem_cons, List.not_mem_nil, or_false, SqlType.integer.injEq] at hm
    rcases hm with ⟨_, _, h, _⟩ | ⟨_, rfl, _, _, rfl⟩
    · cases h
    · have := hw.2 100 rfl
      omega
  · intro a ha h
    simp only [List.mem_cons, List.not_mem_nil, or_false] at ha
    rcases ha with rfl | rfl <;> cases h
  · intro c' w lo hi hm
    simp at hm
  · intro a _ _ b hb n hn m hm
    simp only [List.mem_cons, List.not_mem_nil, or_false] at hb
    have hm' : (16777215 : Nat) = m := by injection hm
    rcases hb with rfl | rfl | rfl <;> simp [declaredLimit] at hn <;> omega

/-- Something is lost: `char` without a length next to `char(2)`. -/
example : ¬ Lossless .base [.fixedChar none, .fixedChar (some 2)] := by
  rintro ⟨_, h⟩
  have := h (.fixedChar none) (by simp) rfl (.fixedChar (some 2)) (by simp) 2 rfl 1 rfl
  omega

end PySqlSync
