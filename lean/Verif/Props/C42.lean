/-
C42: synthetic data respects its schema.
-/
import Verif.Spec.Random
import Verif.Lemmas.Convert

set_option autoImplicit false
set_option linter.unusedSimpArgs false

namespace PySqlSync
open Spec

namespace C42
open Conv

/-- What holds of every outcome of a computation. -/
def Yields {α : Type} (g : Gen α) (P : α → Prop) : Prop := ∀ s v s', g s = .ok (v, s') → P v
/-- The computation never fails. -/
def Total {α : Type} (g : Gen α) : Prop := ∀ s, ∃ r, g s = .ok r

theorem Yields.mono {α : Type} {g : Gen α} {P Q : α → Prop} (h : Yields g P) (hpq : ∀ a, P a → Q a) : Yields g Q :=
  fun s v s' hg => hpq v (h s v s' hg)

theorem yields_bind {α β : Type} {g : Gen α} {f : α → Gen β} {P : α → Prop} {Q : β → Prop} (hg : Yields g P) (hf : ∀ a, P a → Yields (f a) Q) :
    Yields (fun s => do let (a, s) ← g s; f a s) Q := by
  intro s v s' h
  simp only [bind_ok] at h
  obtain ⟨⟨a, s1⟩, h1, h2⟩ := h
  exact hf a (hg _ _ _ h1) _ _ _ h2

theorem yields_map {α β : Type} {g : Gen α} {f : α → β} {P : α → Prop} {Q : β → Prop} (hg : Yields g P) (hf : ∀ a, P a → Q (f a)) :
    Yields (fun s => do let (a, s) ← g s; pure (f a, s)) Q :=
  yields_bind (f := fun a s => pure (f a, s)) hg (fun a ha s v s' h => by simp only [pure_ok, Prod.mk.injEq] at h; rw [← h.1]; exact hf a ha)

theorem total_bind {α β : Type} {g : Gen α} {f : α → Gen β} {P : α → Prop} (ht : Total g) (hg : Yields g P) (hf : ∀ a, P a → Total (f a)) :
    Total (fun s => do let (a, s) ← g s; f a s) := by
  intro s
  obtain ⟨⟨a, s1⟩, h1⟩ := ht s
  obtain ⟨r, h2⟩ := hf a (hg _ _ _ h1) s1
  exact ⟨r, bind_ok.2 ⟨_, h1, h2⟩⟩

theorem total_map {α β : Type} {g : Gen α} {f : α → β} (ht : Total g) : Total (fun s => do let (a, s) ← g s; pure (f a, s)) :=
  total_bind (f := fun a s => pure (f a, s)) (P := fun _ => True) ht (fun _ _ _ _ => trivial) (fun _ _ _ => ⟨_, rfl⟩)

theorem below_yields (n : Nat) : Yields (below n) (· < n) := by
  intro s v s' h
  unfold below at h
  split at h
  · cases h
  · cases h; exact Nat.mod_lt _ (Nat.pos_of_ne_zero (by assumption))

theorem below_total {n : Nat} (h : 0 < n) : Total (below n) := by
  intro s
  unfold below
  rw [if_neg (Nat.pos_iff_ne_zero.1 h)]
  exact ⟨_, rfl⟩

theorem randint_yields (lo hi : Int) : Yields (randint lo hi) (fun n => lo ≤ n ∧ n ≤ hi) :=
  yields_map (g := below (hi - lo + 1).toNat) (f := fun j => lo + (j : Int)) (below_yields _) (fun j hj => by omega)

theorem randint_total {lo hi : Int} (h : lo ≤ hi) : Total (randint lo hi) := 
  total_map (g := below (hi - lo + 1).toNat) (f := fun j => lo + (j : Int)) (below_total (by omega))

theorem choice_yields {α : Type} (items : List α) : Yields (choice items) (· ∈ items) := by
  intro s v s' h
  unfold choice at h
  simp only [bind_ok] at h
  obtain ⟨⟨j, s1⟩, h1, h2⟩ := h
  dsimp only at h2
  split at h2
  · rename_i a ha
    simp only [pure_ok, Prod.mk.injEq] at h2
    rw [← h2.1]; exact List.mem_of_getElem? ha
  · cases h2

theorem choice_total {α : Type} {items : List α} (h : items ≠ []) : Total (choice items) := by
  intro s
  obtain ⟨⟨j, s1⟩, h1⟩ := below_total (List.length_pos_iff.2 h) s
  have hj := below_yields _ _ _ _ h1
  refine ⟨(items[j], s1), ?_⟩
  unfold choice
  refine bind_ok.2 ⟨_, h1, ?_⟩
  dsimp only
  rw [List.getElem?_eq_getElem hj]
  rfl

theorem repeat_yields {α : Type} {g : Gen α} {P : α → Prop} (hg : Yields g P) : ∀ n, Yields (repeatGen n g) (fun l => l.length = n ∧ ∀ a ∈ l, P a)
  | 0 => by intro s v s' h; cases h; exact ⟨rfl, by simp⟩
  | n + 1 => by
    intro s v s' h
    simp only [repeatGen, bind_ok, pure_ok, Prod.mk.injEq] at h
    obtain ⟨⟨a, s1⟩, h1, ⟨l, s2⟩, h2, rfl, _⟩ := h
    obtain ⟨h3, h4⟩ := repeat_yields hg n _ _ _ h2
    refine ⟨by simp [h3], ?_⟩
    rintro b (_ | ⟨_, hb⟩)
    · exact hg _ _ _ h1
    · exact h4 b hb

theorem repeat_total {α : Type} {g : Gen α} (hg : Total g) : ∀ n, Total (repeatGen n g)
  | 0 => fun s => ⟨_, rfl⟩
  | n + 1 => by
    intro s
    obtain ⟨⟨a, s1⟩, h1⟩ := hg s
    obtain ⟨⟨l, s2⟩, h2⟩ := repeat_total hg n s1
    exact ⟨(a :: l, s2), bind_ok.2 ⟨_, h1, bind_ok.2 ⟨_, h2, rfl⟩⟩⟩

theorem choices_yields {α : Type} (items : List α) (k : Int) : Yields (choices items k) (fun l => l.length = k.toNat ∧ ∀ a ∈ l, a ∈ items) :=
  repeat_yields (choice_yields items) _

theorem eraseIdx_perm {α : Type} : ∀ {l : List α} {j : Nat} {a : α}, l[j]? = some a → (a :: l.eraseIdx j).Perm l
  | [], j, a, h => by simp at h
  | b :: l, 0, a, h => by
    simp at h; subst h; exact List.Perm.refl _
  | b :: l, j + 1, a, h => by
    simp only [List.getElem?_cons_succ] at h
    exact (List.Perm.swap _ _ _).trans ((eraseIdx_perm h).cons b)

theorem shuffle_yields {α : Type} : ∀ (n : Nat) (items : List α), items.length = n → Yields (shuffleLoop n items) (fun l => l.Perm items)
  | 0, items, hn => by
    intro s v s' h
    cases h
    rw [List.length_eq_zero_iff.1 hn]
  | n + 1, items, hn => by
    intro s v s' h
    simp only [shuffleLoop, bind_ok] at h
    obtain ⟨⟨j, s1⟩, h1, h2⟩ := h
    dsimp only at h2
    split at h2
    · cases h2
    · rename_i a ha
      simp only [bind_ok, pure_ok, Prod.mk.injEq] at h2
      obtain ⟨⟨l, s2⟩, h3, rfl, _⟩ := h2
      have hj := below_yields _ _ _ _ h1
      have := shuffle_yields n (items.eraseIdx j) (by rw [List.length_eraseIdx_of_lt hj]; omega) _ _ _ h3
      exact (this.cons a).trans (eraseIdx_perm ha)

theorem shuffle_total {α : Type} : ∀ (n : Nat) (items : List α), items.length = n → Total (shuffleLoop n items)
  | 0, items, hn => fun s => ⟨_, rfl⟩
  | n + 1, items, hn => by
    intro s
    obtain ⟨⟨j, s1⟩, h1⟩ := below_total (n := items.length) (by omega) s
    have hj := below_yields _ _ _ _ h1
    obtain ⟨⟨l, s2⟩, h2⟩ := shuffle_total n (items.eraseIdx j) (by rw [List.length_eraseIdx_of_lt hj]; omega) s1
    refine ⟨(items[j] :: l, s2), ?_⟩
    simp only [shuffleLoop]
    refine bind_ok.2 ⟨_, h1, ?_⟩
    dsimp only
    rw [List.getElem?_eq_getElem hj]
    exact bind_ok.2 ⟨_, h2, rfl⟩

/-! ### Types that are not classes -/

theorem range_eq (p : Prim) : p.range = fixedRange p := by cases p <;> rfl

theorem isInt_eq (p : Prim) : p.isInt = true ↔ p = .int ∨ (fixedRange p).isSome = true := by cases p <;> decide

theorem first_range {metas : List Meta} {r : Int × Int} (h : firstRange metas = some r) : Meta.integerRange r.1 r.2 ∈ metas := by
  unfold firstRange at h
  obtain ⟨m, hm, h⟩ := List.exists_of_findSome?_eq_some h
  cases m <;> simp at h
  subst h; exact hm
theorem no_range {metas : List Meta} (h : firstRange metas = none) (lo hi : Int) : Meta.integerRange lo hi ∉ metas := by
  intro hm
  unfold firstRange at h
  have := List.findSome?_eq_none_iff.1 h _ hm
  simp at this
theorem first_min {metas : List Meta} {n : Nat} (h : firstMin metas = some n) : Meta.minLength n ∈ metas := by
  unfold firstMin at h
  obtain ⟨m, hm, h⟩ := List.exists_of_findSome?_eq_some h
  cases m <;> simp at h
  subst h; exact hm
theorem no_min {metas : List Meta} (h : firstMin metas = none) (n : Nat) : Meta.minLength n ∉ metas := by
  intro hm
  unfold firstMin at h
  have := List.findSome?_eq_none_iff.1 h _ hm
  simp at this
theorem first_max {metas : List Meta} {n : Nat} (h : firstMax metas = some n) : Meta.maxLength n ∈ metas := by
  unfold firstMax at h
  obtain ⟨m, hm, h⟩ := List.exists_of_findSome?_eq_some h
  cases m <;> simp at h
  subst h; exact hm
theorem no_max {metas : List Meta} (h : firstMax metas = none) (n : Nat) : Meta.maxLength n ∉ metas := by
  intro hm
  unfold firstMax at h
  have := List.findSome?_eq_none_iff.1 h _ hm
  simp at this
theorem first_precision {metas : List Meta} {r : Nat × Nat} (h : firstPrecision metas = some r) : Meta.precision r.1 r.2 ∈ metas := by
  unfold firstPrecision at h
  obtain ⟨m, hm, h⟩ := List.exists_of_findSome?_eq_some h
  cases m <;> simp at h
  subst h; exact hm
theorem no_precision {metas : List Meta} (h : firstPrecision metas = none) (a b : Nat) : Meta.precision a b ∉ metas := by
  intro hm
  unfold firstPrecision at h
  have := List.findSome?_eq_none_iff.1 h _ hm
  simp at this

theorem int_yields {p : Prim} {metas : List Meta} (h1 : OneOfAKind p metas) (hp : p.isInt = true) : Yields (randomInt p metas) (ValidSimple p metas) := by
  refine yields_map (f := RandValue.int) (randint_yields _ _) ?_
  rintro n ⟨hlo, hhi⟩
  rw [range_eq] at hlo hhi
  refine ⟨(isInt_eq p).1 hp, ?_, ?_⟩
  · intro r hr
    rw [hr] at hlo hhi
    exact ⟨hlo, hhi⟩
  · intro lo hi hm
    cases hf : fixedRange p with
    | some r => exact absurd hm (h1.fixed (by rw [hf]; rfl) lo hi)
    | none =>
      rw [hf] at hlo hhi
      cases hr : firstRange metas with
      | none => exact absurd hm (no_range hr lo hi)
      | some r =>
        obtain ⟨ha, hb⟩ := h1.range _ _ _ _ hm (first_range hr)
        subst ha hb
        rw [hr] at hlo hhi
        exact ⟨hlo, hhi⟩

theorem decimal_yields (significant decimal : Int) : Yields (randomDecimal significant decimal) (fun v => ∃ a b, v = .decimal a b ∧ (a ≠ [] ∨ b ≠ []) ∧
    (∀ c, c ∈ a ∨ c ∈ b → c ∈ digitChars) ∧ a.length = (significant - decimal).toNat ∧ b.length = decimal.toNat) := by
  intro s v s' h
  simp only [randomDecimal, bind_ok] at h
  obtain ⟨⟨a, s1⟩, h1, ⟨b, s2⟩, h2, h⟩ := h
  dsimp only at h
  split at h
  · cases h
  · rename_i hne
    simp only [pure_ok, Prod.mk.injEq] at h
    obtain ⟨h3, h4⟩ := choices_yields _ _ _ _ _ h1
    obtain ⟨h5, h6⟩ := choices_yields _ _ _ _ _ h2
    refine ⟨a, b, h.1.symm, ?_, ?_, h3, h5⟩
    · by_cases ha : a = []
      · exact .inr (fun hb => hne ⟨ha, hb⟩)
      · exact .inl ha
    · rintro c (hc | hc)
      · exact h4 c hc
      · exact h6 c hc

theorem digit_chars {c : Char} (h : c ∈ digitChars) : c.isDigit = true := by
  have : digitChars.all Char.isDigit = true := by decide +kernel
  exact List.all_eq_true.1 this c h

theorem str_yields (lo hi : Nat) : Yields (randomStr lo hi) (fun v => ∃ s, v = .str s ∧ lo ≤ s.length ∧ s.length ≤ hi) := by
  intro s v s' h
  simp only [randomStr, bind_ok, pure_ok, Prod.mk.injEq] at h
  obtain ⟨⟨k, s1⟩, h1, ⟨l, s2⟩, h2, rfl, _⟩ := h
  obtain ⟨h3, h4⟩ := randint_yields _ _ _ _ _ h1
  obtain ⟨h5, _⟩ := choices_yields _ _ _ _ _ h2
  exact ⟨l, rfl, by omega, by omega⟩

theorem simple_yields {ctx : GenContext} {p : Prim} {metas : List Meta} {g : Gen RandValue} (h1 : OneOfAKind p metas)
    (h : ctx.simple p metas = .ok g) : Yields g (ValidSimple p metas) := by
  cases p <;> simp only [GenContext.simple] at h <;> cases h
  case bool => exact yields_map (g := below 2) (f := fun n => RandValue.bool (n == 1)) (below_yields _) (fun _ _ => rfl)
  case float => exact yields_map (P := fun _ => True) (fun _ _ _ _ => trivial) (fun _ _ => .inl rfl)
  case float32 => exact yields_map (P := fun _ => True) (fun _ _ _ _ => trivial) (fun _ _ => .inr (.inl rfl))
  case float64 => exact yields_map (P := fun _ => True) (fun _ _ _ _ => trivial) (fun _ _ => .inr (.inr rfl))
  case datetime => exact yields_map (below_yields _) (fun _ _ => rfl)
  case date => exact yields_map (below_yields _) (fun _ _ => rfl)
  case time => exact yields_map (below_yields _) (fun n hn => ⟨rfl, by omega⟩)
  case uuid => exact yields_map (P := fun _ => True) (fun _ _ _ _ => trivial) (fun _ _ => rfl)
  case ipv4 => exact yields_map (below_yields _) (fun n hn => ⟨rfl, hn⟩)
  case ipv6 => exact yields_map (below_yields _) (fun n hn => ⟨rfl, hn⟩)
  case str =>
    refine (str_yields _ _).mono ?_
    rintro _ ⟨s, rfl, hlo, hhi⟩
    refine ⟨rfl, ?_, ?_⟩
    · intro n hn
      cases hm : firstMax metas with
      | none => exact absurd hn (no_max hm n)
      | some m => rw [hm] at hhi; rw [h1.maxLength n m hn (first_max hm)]; exact hhi
    · intro n hn
      cases hm : firstMin metas with
      | none => exact absurd hn (no_min hm n)
      | some m => rw [hm] at hlo; rw [h1.minLength n m hn (first_min hm)]; exact hlo
  case decimal =>
    refine (decimal_yields _ _).mono ?_
    rintro _ ⟨a, b, rfl, hne, hd, ha, hb⟩
    refine ⟨rfl, hne, fun c hc => digit_chars (hd c hc), ?_⟩
    intro sig dec hm
    cases hp : firstPrecision metas with
    | none => exact absurd hm (no_precision hp _ _)
    | some r =>
      obtain ⟨rfl, rfl⟩ := h1.precision _ _ _ _ hm (first_precision hp)
      have := h1.digits _ _ hm
      rw [hp] at ha hb
      simp only [Option.getD_some] at ha hb
      omega
  all_goals exact int_yields h1 rfl

theorem no_metas (p : Prim) : OneOfAKind p [] := by constructor <;> simp

/-! ### References -/

theorem reference_valid {defs : PyDefs} {ty : PyType} {v : RandValue} (h : ValidValue defs (defs.referenceToKey ty) v) : ValidValue defs ty v := by
  have key : ∀ n k, (defs.cls n).bind ClassDecl.key = some k → ValidValue defs k.ty v → ValidValue defs (.cls n) v := by
    intro n k hk hv
    cases hc : defs.cls n with
    | none => rw [hc] at hk; cases hk
    | some c => rw [hc] at hk; exact .reference n c k v hc hk hv
  unfold PyDefs.referenceToKey at h
  split at h
  · rename_i n
    split at h
    · rename_i k hk; exact key n k hk h
    · exact h
  · rename_i n rest
    split at h
    · split at h
      · rename_i k hk; exact .union _ (.cls n) v (by simp [PyTypes.toList]) (key n k hk h)
      · exact h
    · exact h
  · exact h

theorem key_mem {c : ClassDecl} {k : FieldDecl} (h : c.key = some k) : k ∈ c.fields := List.mem_of_find?_eq_some h

theorem reference_part {defs : PyDefs} (ty : PyType) {ty' : PyType} (h : PartOf defs (defs.referenceToKey ty) ty') : PartOf defs ty ty' := by
  have key : ∀ n k, (defs.cls n).bind ClassDecl.key = some k → PartOf defs k.ty ty' → PartOf defs (.cls n) ty' := by
    intro n k hk hv
    cases hc : defs.cls n with
    | none => rw [hc] at hk; cases hk
    | some c => rw [hc] at hk; exact .field n c k ty' hc (key_mem hk) hv
  unfold PyDefs.referenceToKey at h
  split at h
  · rename_i n
    split at h
    · rename_i k hk; exact key n k hk h
    · exact h
  · rename_i n rest
    split at h
    · split at h
      · rename_i k hk; exact .union _ (.cls n) _ (by simp [PyTypes.toList]) (key n k hk h)
      · exact h
    · exact h
  · exact h

theorem unambiguous_reference {defs : PyDefs} {ty : PyType} (h : Unambiguous defs ty) : Unambiguous defs (defs.referenceToKey ty) :=
  ⟨fun p ms hp => h.metas p ms (reference_part ty hp), fun n e hp => h.labels n e (reference_part ty hp)⟩

theorem unambiguous_part {defs : PyDefs} {ty ty' : PyType} (h : Unambiguous defs ty) (hp : ∀ x, PartOf defs ty' x → PartOf defs ty x) :
    Unambiguous defs ty' :=
  ⟨fun p ms hx => h.metas p ms (hp _ hx), fun n e hx => h.labels n e (hp _ hx)⟩

/-! ### All types -/

/-- Generators that run one after the other. -/
theorem runFields_yields {k : Nat} : ∀ {fs : List FieldDecl} {gs : List (Text × (Nat → Gen RandValue))} {mk : FieldDecl → Except Err (Nat → Gen RandValue)}
    {P : FieldDecl → RandValue → Prop}, fs.mapM (fun f => do let g ← mk f; pure (f.name, g)) = .ok gs → (∀ f ∈ fs, ∀ g, mk f = .ok g → Yields (g k) (P f)) →
    Yields (runFields gs k) (fun l => l.map Prod.fst = fs.map FieldDecl.name ∧ (∀ f v, (f, v) ∈ fs.zip (l.map Prod.snd) → P f v) ∧
      ∀ (i : Nat) (f : FieldDecl), fs[i]? = some f → ∃ v, l[i]? = some (f.name, v) ∧ P f v)
  | [], gs, mk, P, hgs, hP => by
    simp only [List.mapM_nil, pure_ok] at hgs
    subst hgs
    intro s v s' h
    cases h
    exact ⟨rfl, by simp, by simp⟩
  | f :: fs, gs, mk, P, hgs, hP => by
    obtain ⟨b, bs, h1, h2, rfl⟩ := mapM_cons_ok.1 hgs
    simp only [bind_ok, pure_ok] at h1
    obtain ⟨g, hg, rfl⟩ := h1
    intro s v s' h
    simp only [runFields, bind_ok, pure_ok, Prod.mk.injEq] at h
    obtain ⟨⟨x, s1⟩, h3, ⟨l, s2⟩, h4, rfl, _⟩ := h
    obtain ⟨h5, h6, h7⟩ := runFields_yields h2 (fun f hf => hP f (List.mem_cons_of_mem _ hf)) _ _ _ h4
    have hx := hP f (List.mem_cons_self ..) g hg _ _ _ h3
    refine ⟨by simp [h5], ?_, ?_⟩
    · intro f' v' hm
      simp only [List.map_cons, List.zip_cons_cons, List.mem_cons, Prod.mk.injEq] at hm
      rcases hm with ⟨rfl, rfl⟩ | hm
      · exact hx
      · exact h6 f' v' hm
    · intro i f' hi
      cases i with
      | zero => simp at hi; subst hi; exact ⟨x, rfl, hx⟩
      | succ i => simp only [List.getElem?_cons_succ] at hi ⊢; exact h7 i f' hi

theorem members_yields {defs : PyDefs} {n : PyName} (hd : ∀ e, defs.enum n = some e → e.labels.Nodup) : Yields (randomMembers (defs.members n))
    (fun v => ∃ items, v = .list items ∧ items.Nodup ∧ ∀ v ∈ items, ValidValue defs (.enum n) v) := by
  intro s v s' h
  simp only [randomMembers, bind_ok, pure_ok, Prod.mk.injEq] at h
  obtain ⟨⟨l, s1⟩, h1, ⟨c, s2⟩, h2, rfl, _⟩ := h
  have hperm : l.Perm (defs.members n) := shuffle_yields _ _ rfl _ _ _ h1
  refine ⟨_, rfl, ?_, ?_⟩
  · have hnd : l.Nodup := by
      refine hperm.nodup_iff.2 ?_
      unfold PyDefs.members
      split
      · rename_i e he; exact hd e he
      · exact List.nodup_nil
    have : (l.take (min c.toNat (defs.members n).length)).Nodup := hnd.sublist (List.take_sublist _ _)
    refine List.pairwise_map.2 (this.imp ?_)
    intro a b hab h
    cases h; exact hab rfl
  · intro v hv
    obtain ⟨label, hl, rfl⟩ := List.mem_map.1 hv
    have hl : label ∈ defs.members n := hperm.mem_iff.1 (List.mem_of_mem_take hl)
    unfold PyDefs.members at hl
    split at hl
    · rename_i e he; exact .enum n e label he hl
    · cases hl

theorem repeat_list {g : Gen RandValue} {P : RandValue → Prop} (h : Yields g P) : Yields (callRepeat g) (fun v => ∃ items, v = .list items ∧ ∀ v ∈ items, P v) := by
  intro s v s' hv
  simp only [callRepeat, bind_ok, pure_ok, Prod.mk.injEq] at hv
  obtain ⟨⟨c, s1⟩, h1, ⟨l, s2⟩, h2, rfl, _⟩ := hv
  exact ⟨l, rfl, (repeat_yields h _ _ _ _ h2).2⟩

theorem create_yields (ctx : GenContext) : ∀ (d : Nat) (ty : PyType) (g : Nat → Gen RandValue), Unambiguous ctx.defs ty → ctx.create d ty = .ok g →
    ∀ k, Yields (g k) (ValidValue ctx.defs ty)
  | 0, ty, g, _, h => by cases h
  | d + 1, ty, g, hu, h => by
    intro k
    have hu := unambiguous_reference hu
    suffices hs : Yields (g k) (ValidValue ctx.defs (ctx.defs.referenceToKey ty)) from hs.mono (fun v hv => reference_valid hv)
    have callrep : ∀ item g', (∀ x, PartOf ctx.defs item x → PartOf ctx.defs (ctx.defs.referenceToKey ty) x) → ctx.create d item = .ok g' →
        Yields (callRepeat (g' k)) (fun v => ∃ items, v = .list items ∧ ∀ v ∈ items, ValidValue ctx.defs item v) := by
      intro item g' hp hg
      exact repeat_list (create_yields ctx d item g' (unambiguous_part hu hp) hg k)
    unfold GenContext.create GenContext.createPlain at h
    generalize ctx.defs.referenceToKey ty = ty at h hu callrep
    split at h
    · rename_i p
      simp only [bind_ok, pure_ok] at h
      obtain ⟨g', hg, rfl⟩ := h
      exact (simple_yields (no_metas p) hg).mono (fun v hv => .prim p v hv)
    · rename_i p metas
      simp only [bind_ok, pure_ok] at h
      obtain ⟨g', hg, rfl⟩ := h
      exact (simple_yields (hu.metas p metas (.refl _)) hg).mono (fun v hv => .annotated p metas v hv)
    · rename_i n
      simp only [pure_ok] at h
      subst h
      refine yields_map (choice_yields _) ?_
      intro l hl
      unfold PyDefs.members at hl
      split at hl
      · rename_i e he; exact .enum n e l he hl
      · cases hl
    · rename_i values
      split at h
      · simp only [pure_ok] at h
        subst h
        exact yields_map (choice_yields _) (fun l hl => .literal values l hl)
      · split at h
        · cases h
        · rename_i v vs
          simp only [pure_ok] at h
          subst h
          intro s x s' hx
          cases hx
          exact .literal _ _ (List.mem_cons_self ..)
    · rename_i ms
      simp only [bind_ok, pure_ok] at h
      obtain ⟨gs, hgs, rfl⟩ := h
      refine yields_bind (f := fun (g : Nat → Gen RandValue) s => g k s) (choice_yields gs) ?_
      intro g' hg'
      obtain ⟨m, hm, hg⟩ := mapM_back hgs g' hg'
      exact (create_yields ctx d m g' (unambiguous_part hu (fun x hx => .union ms m x hm hx)) hg k).mono (fun v hv => .union ms m v hm hv)
    · rename_i n
      split at h
      · cases h
      · rename_i c hc
        split at h
        · rename_i hstruct
          simp only [bind_ok, pure_ok] at h
          obtain ⟨gs, hgs, rfl⟩ := h
          refine yields_map (f := RandValue.object)
            (runFields_yields (P := fun f v => ValidValue ctx.defs f.ty v) (mk := fun f => ctx.create d f.ty) (by simpa [bind_ok, pure_ok] using hgs) ?_) ?_
          · intro f hf g' hg
            exact create_yields ctx d f.ty g' (unambiguous_part hu (fun x hx => .field n c f x hc hf hx)) hg k
          · rintro l ⟨h1, h2, _⟩
            refine .struct n c l hc ?_ h1 h2
            unfold ClassDecl.isStruct at hstruct
            cases hk : c.key with
            | none => rfl
            | some k => rw [hk] at hstruct; cases hstruct
        · cases h
    · rename_i n
      simp only [pure_ok] at h
      subst h
      refine (members_yields (fun e he => hu.labels n e (.list _ _ (.refl _)) he)).mono ?_
      rintro _ ⟨items, rfl, _, h2⟩
      exact .list _ items h2
    · rename_i n
      simp only [pure_ok] at h
      subst h
      refine (members_yields (fun e he => hu.labels n e (.set _ _ (.refl _)) he)).mono ?_
      rintro _ ⟨items, rfl, h1, h2⟩
      exact .set _ items h2 (fun _ _ => h1)
    · rename_i item hne
      simp only [bind_ok, pure_ok] at h
      obtain ⟨g', hg, rfl⟩ := h
      refine (callrep item g' (fun x hx => .list _ _ hx) hg).mono ?_
      rintro _ ⟨items, rfl, h2⟩
      exact .list _ items h2
    · rename_i item hne
      simp only [bind_ok, pure_ok] at h
      obtain ⟨g', hg, rfl⟩ := h
      refine (callrep item g' (fun x hx => .set _ _ hx) hg).mono ?_
      rintro _ ⟨items, rfl, h2⟩
      refine .set _ items h2 (fun n hn => ?_)
      exact absurd hn (hne n)
    · cases h

/-! ### Success -/

theorem choices_total {α : Type} {items : List α} (h : items ≠ []) (k : Int) : Total (choices items k) := repeat_total (choice_total h) _

theorem simple_total {ctx : GenContext} (hs : 0 < ctx.seconds) (hd : 0 < ctx.days) {p : Prim} {metas : List Meta} (h : ProducibleSimple p metas) :
    ∃ g, ctx.simple p metas = .ok g ∧ Total g := by
  have hint : Total (randomInt p metas) := by
    refine total_map (f := RandValue.int) (randint_total ?_)
    cases hp : p.range with
    | some r =>
      show r.1 ≤ r.2
      cases p <;> cases hp <;> decide
    | none =>
      cases hr : firstRange metas with
      | none => decide
      | some r => exact h.range r.1 r.2 (first_range hr)
  have hany : ∀ f : Nat → RandValue, Total (fun s => do let (n, s) ← anyDraw s; pure (f n, s)) := fun f => total_map (fun s => ⟨_, rfl⟩)
  have hbelow : ∀ (f : Nat → RandValue) n, 0 < n → Total (fun s => do let (n, s) ← below n s; pure (f n, s)) := fun f n hn => total_map (below_total hn)
  have hstr : Total (randomStr ((firstMin metas).getD 1) ((firstMax metas).getD 255)) := by
    have hle : (firstMin metas).getD 1 ≤ (firstMax metas).getD 255 := by
      cases h1 : firstMin metas with
      | none =>
        cases h2 : firstMax metas with
        | none => decide
        | some b => exact h.onlyMax b (first_max h2) (no_min h1)
      | some a =>
        cases h2 : firstMax metas with
        | none => exact h.onlyMin a (first_min h1) (no_max h2)
        | some b => exact h.lengths a b (first_min h1) (first_max h2)
    intro s
    obtain ⟨⟨k, s1⟩, h1⟩ := randint_total (lo := ((firstMin metas).getD 1 : Nat)) (hi := ((firstMax metas).getD 255 : Nat)) (by omega) s
    obtain ⟨⟨l, s2⟩, h2⟩ := choices_total (items := alphanumericChars) (by decide) k s1
    exact ⟨(.str l, s2), bind_ok.2 ⟨_, h1, bind_ok.2 ⟨_, h2, rfl⟩⟩⟩
  have hdec : Total (randomDecimal ((firstPrecision metas).getD (10, 0)).1 ((firstPrecision metas).getD (10, 0)).2) := by
    have hpos : 0 < ((firstPrecision metas).getD (10, 0)).1 ∨ 0 < ((firstPrecision metas).getD (10, 0)).2 := by
      cases hp : firstPrecision metas with
      | none => exact .inl (by decide)
      | some r => exact h.precision r.1 r.2 (first_precision hp)
    intro s
    obtain ⟨⟨a, s1⟩, h1⟩ := choices_total (items := digitChars) (by decide) ((((firstPrecision metas).getD (10, 0)).1 : Int) - ((firstPrecision metas).getD (10, 0)).2) s
    obtain ⟨⟨b, s2⟩, h2⟩ := choices_total (items := digitChars) (by decide) (((firstPrecision metas).getD (10, 0)).2 : Int) s1
    refine ⟨(.decimal a b, s2), bind_ok.2 ⟨_, h1, bind_ok.2 ⟨_, h2, ?_⟩⟩⟩
    have ha := (choices_yields _ _ _ _ _ h1).1
    have hb := (choices_yields _ _ _ _ _ h2).1
    dsimp only
    rw [if_neg]
    · rfl
    · rintro ⟨rfl, rfl⟩
      simp only [List.length_nil] at ha hb
      omega
  cases p <;> simp only [GenContext.simple]
  case timedelta => exact absurd rfl h.known.1
  case json => exact absurd rfl h.known.2
  case bool => exact ⟨_, rfl, hbelow (fun n => .bool (n == 1)) 2 (by decide)⟩
  case float => exact ⟨_, rfl, hany _⟩
  case float32 => exact ⟨_, rfl, hany _⟩
  case float64 => exact ⟨_, rfl, hany _⟩
  case datetime => exact ⟨_, rfl, hbelow _ _ hs⟩
  case date => exact ⟨_, rfl, hbelow _ _ hd⟩
  case time => exact ⟨_, rfl, hbelow _ _ (by decide)⟩
  case uuid => exact ⟨_, rfl, hany _⟩
  case ipv4 => exact ⟨_, rfl, hbelow _ _ (by decide)⟩
  case ipv6 => exact ⟨_, rfl, hbelow _ _ (by decide)⟩
  case str => exact ⟨_, rfl, hstr⟩
  case decimal => exact ⟨_, rfl, hdec⟩
  all_goals exact ⟨_, rfl, hint⟩

/-- A bound for all members of a list. -/
theorem eventually {α : Type} {Q : Nat → α → Prop} : ∀ {l : List α}, (∀ a ∈ l, ∃ d0, ∀ d ≥ d0, Q d a) → ∃ d0, ∀ d ≥ d0, ∀ a ∈ l, Q d a
  | [], _ => ⟨0, by simp⟩
  | a :: l, h => by
    obtain ⟨d1, h1⟩ := h a (List.mem_cons_self ..)
    obtain ⟨d2, h2⟩ := eventually (l := l) (fun b hb => h b (List.mem_cons_of_mem _ hb))
    refine ⟨max d1 d2, fun d hd b hb => ?_⟩
    rcases List.mem_cons.1 hb with rfl | hb
    · exact h1 d (by omega)
    · exact h2 d (by omega) b hb

theorem mapM_succeeds {α β : Type} {f : α → Except Err β} : ∀ {l : List α}, (∀ a ∈ l, ∃ b, f a = .ok b) → ∃ r, l.mapM f = .ok r
  | [], _ => ⟨[], rfl⟩
  | a :: l, h => by
    obtain ⟨b, hb⟩ := h a (List.mem_cons_self ..)
    obtain ⟨r, hr⟩ := mapM_succeeds (f := f) (l := l) (fun a ha => h a (List.mem_cons_of_mem _ ha))
    exact ⟨b :: r, mapM_cons_ok.2 ⟨b, r, hb, hr, rfl⟩⟩

theorem runFields_total {k : Nat} : ∀ {gs : List (Text × (Nat → Gen RandValue))}, (∀ x ∈ gs, Total (x.2 k)) → Total (runFields gs k)
  | [], _ => fun s => ⟨_, rfl⟩
  | (name, g) :: gs, h => by
    intro s
    obtain ⟨⟨v, s1⟩, h1⟩ := h (name, g) (List.mem_cons_self ..) s
    obtain ⟨⟨l, s2⟩, h2⟩ := runFields_total (k := k) (gs := gs) (fun x hx => h x (List.mem_cons_of_mem _ hx)) s1
    exact ⟨((name, v) :: l, s2), bind_ok.2 ⟨_, h1, bind_ok.2 ⟨_, h2, rfl⟩⟩⟩

theorem members_total (labels : List Text) : Total (randomMembers labels) := by
  intro s
  obtain ⟨⟨l, s1⟩, h1⟩ := shuffle_total _ labels rfl s
  obtain ⟨⟨c, s2⟩, h2⟩ := randint_total (lo := 0) (hi := 5) (by decide) s1
  exact ⟨_, bind_ok.2 ⟨_, h1, bind_ok.2 ⟨_, h2, rfl⟩⟩⟩

theorem callRepeat_total {g : Gen RandValue} (hg : Total g) : Total (callRepeat g) := by
  intro s
  obtain ⟨⟨c, s1⟩, h1⟩ := randint_total (lo := 0) (hi := 5) (by decide) s
  obtain ⟨⟨l, s2⟩, h2⟩ := repeat_total hg c.toNat s1
  exact ⟨_, bind_ok.2 ⟨_, h1, bind_ok.2 ⟨_, h2, rfl⟩⟩⟩

/-- A generator exists and does not fail. -/
def Good (r : Except Err (Nat → Gen RandValue)) : Prop := ∃ g, r = .ok g ∧ ∀ k, Total (g k)

theorem reference_self {defs : PyDefs} {ty : PyType} (h1 : defs.isEntity ty = false) (h2 : ∀ ms, ty ≠ .union ms) : defs.referenceToKey ty = ty := by
  unfold PyDefs.referenceToKey
  split
  · rename_i n
    unfold PyDefs.isEntity at h1
    cases hc : defs.cls n with
    | none => rfl
    | some c =>
      cases hk : c.key with
      | none => simp [hk]
      | some k => simp [hk, hc] at h1
  · exact absurd rfl (h2 _)
  · rfl

theorem create_good {ctx : GenContext} (hs : 0 < ctx.seconds) (hd : 0 < ctx.days) {ty : PyType} (h : Producible ctx.defs ty) :
    ∃ d0, ∀ d ≥ d0, Good (ctx.create d ty) ∧ (ctx.defs.isEntity ty = false → Good (ctx.createPlain (ctx.create d) ty)) := by
  -- from the second part to the first, for types that are no references
  have lift : ∀ {ty : PyType}, ctx.defs.isEntity ty = false → (∀ ms, ty ≠ .union ms) → (∃ d0, ∀ d ≥ d0, Good (ctx.createPlain (ctx.create d) ty)) →
      ∃ d0, ∀ d ≥ d0, Good (ctx.create d ty) ∧ (ctx.defs.isEntity ty = false → Good (ctx.createPlain (ctx.create d) ty)) := by
    rintro ty h1 h2 ⟨d0, h⟩
    refine ⟨d0 + 1, fun d hd => ⟨?_, fun _ => h d (by omega)⟩⟩
    cases d with
    | zero => omega
    | succ d => unfold GenContext.create; rw [reference_self h1 h2]; exact h d (by omega)
  induction h with
  | prim p h =>
    obtain ⟨g, h1, h2⟩ := simple_total hs hd h
    exact lift rfl (by simp) ⟨0, fun d _ => ⟨fun _ => g, by simp [GenContext.createPlain, h1, bind, Except.bind, pure, Except.pure], fun _ => h2⟩⟩
  | annotated p metas h =>
    obtain ⟨g, h1, h2⟩ := simple_total hs hd h
    exact lift rfl (by simp) ⟨0, fun d _ => ⟨fun _ => g, by simp [GenContext.createPlain, h1, bind, Except.bind, pure, Except.pure], fun _ => h2⟩⟩
  | enum n e he h =>
    refine lift rfl (by simp) ⟨0, fun d _ => ⟨_, rfl, fun _ => total_map (f := RandValue.member) (choice_total ?_)⟩⟩
    unfold PyDefs.members
    rw [he]; exact h
  | literal values h =>
    refine lift rfl (by simp) ⟨0, fun d _ => ?_⟩
    simp only [GenContext.createPlain]
    split
    · exact ⟨_, rfl, fun _ => total_map (f := RandValue.str) (choice_total h)⟩
    · cases values with
      | nil => exact absurd rfl h
      | cons v vs => exact ⟨_, rfl, fun _ s => ⟨_, rfl⟩⟩
  | union ms hne h ih =>
    obtain ⟨d0, hd0⟩ := eventually (l := ms.toList) (Q := fun d m => Good (ctx.create d m)) (fun m hm => by
      obtain ⟨d0, h⟩ := ih m hm
      exact ⟨d0, fun d hd => (h d hd).1⟩)
    have plain : ∀ d ≥ d0, Good (ctx.createPlain (ctx.create d) (.union ms)) := by
      intro d hd
      obtain ⟨gs, hgs⟩ := mapM_succeeds (f := ctx.create d) (l := ms.toList) (fun m hm => by obtain ⟨g, hg, _⟩ := hd0 d hd m hm; exact ⟨g, hg⟩)
      refine ⟨_, by simp only [GenContext.createPlain, hgs]; rfl, ?_⟩
      intro k
      refine total_bind (f := fun (g : Nat → Gen RandValue) s => g k s) (choice_total ?_) (choice_yields gs) ?_
      · rintro rfl
        cases hl : ms.toList with
        | nil => exact hne hl
        | cons m l =>
          rw [hl] at hgs
          obtain ⟨_, _, _, _, h⟩ := mapM_cons_ok.1 hgs
          cases h
      · intro g hg
        obtain ⟨m, hm, h1⟩ := mapM_back hgs g hg
        obtain ⟨g', h2, h3⟩ := hd0 d hd m hm
        rw [h1] at h2
        cases h2
        exact h3 k
    refine ⟨d0 + 1, fun d hd => ⟨?_, fun _ => plain d (by omega)⟩⟩
    cases d with
    | zero => omega
    | succ d =>
      by_cases href : ctx.defs.referenceToKey (.union ms) = .union ms
      · unfold GenContext.create; rw [href]; exact plain d (by omega)
      · unfold PyDefs.referenceToKey at href
        split at href
        · rename_i heq; cases heq
        · rename_i n rest heq
          cases heq
          have h1 := hd0 (d + 1) (by omega) (.cls n) (by simp [PyTypes.toList])
          have : ctx.create (d + 1) (.union (.cons (.cls n) rest)) = ctx.create (d + 1) (.cls n) := by
            unfold GenContext.create PyDefs.referenceToKey
            split at href
            · split at href
              · rename_i hall _ k hk; simp [hall, hk]
              · exact absurd rfl href
            · exact absurd rfl href
          rw [this]; exact h1
        · exact absurd rfl href
  | reference n c k hc hk hp h ih =>
    obtain ⟨d0, h⟩ := ih
    refine ⟨d0 + 1, fun d hd => ⟨?_, fun he => ?_⟩⟩
    · cases d with
      | zero => omega
      | succ d =>
        have : ctx.defs.referenceToKey (.cls n) = k.ty := by simp [PyDefs.referenceToKey, hc, hk]
        unfold GenContext.create
        rw [this]
        exact (h d (by omega)).2 hp
    · simp [PyDefs.isEntity, hc, hk] at he
  | struct n c hc hk h ih =>
    refine lift (by simp [PyDefs.isEntity, hc, hk]) (by simp) ?_
    obtain ⟨d0, hd0⟩ := eventually (l := c.fields) (Q := fun d f => Good (ctx.create d f.ty)) (fun f hf => by
      obtain ⟨d0, h⟩ := ih f hf
      exact ⟨d0, fun d hd => (h d hd).1⟩)
    refine ⟨d0, fun d hd => ?_⟩
    obtain ⟨gs, hgs⟩ := mapM_succeeds (f := fun f => do let g ← ctx.create d f.ty; pure (f.name, g)) (l := c.fields) (fun f hf => by
      obtain ⟨g, hg, _⟩ := hd0 d hd f hf
      exact ⟨(f.name, g), bind_ok.2 ⟨g, hg, rfl⟩⟩)
    refine ⟨_, by simp only [GenContext.createPlain, hc, ClassDecl.isStruct, hk, Option.isNone_none, if_true, hgs]; rfl, ?_⟩
    intro k
    refine total_map (f := RandValue.object) (runFields_total ?_)
    intro x hx
    obtain ⟨f, hf, h1⟩ := mapM_back hgs x hx
    simp only [bind_ok, pure_ok] at h1
    obtain ⟨g, hg, rfl⟩ := h1
    obtain ⟨g', h2, h3⟩ := hd0 d hd f hf
    rw [hg] at h2
    cases h2
    exact h3 k
  | list item h ih =>
    refine lift rfl (by simp) ?_
    obtain ⟨d0, hd0⟩ := ih
    refine ⟨d0, fun d hd => ?_⟩
    obtain ⟨g, h1, h2⟩ := (hd0 d hd).1
    unfold GenContext.createPlain
    split <;> rename_i heq <;> cases heq
    · exact ⟨_, rfl, fun _ => members_total _⟩
    · rw [h1]; exact ⟨_, rfl, fun k => callRepeat_total (h2 k)⟩
  | set item h ih =>
    refine lift rfl (by simp) ?_
    obtain ⟨d0, hd0⟩ := ih
    refine ⟨d0, fun d hd => ?_⟩
    obtain ⟨g, h1, h2⟩ := (hd0 d hd).1
    unfold GenContext.createPlain
    split <;> rename_i heq <;> cases heq
    · exact ⟨_, rfl, fun _ => members_total _⟩
    · rw [h1]; exact ⟨_, rfl, fun k => callRepeat_total (h2 k)⟩

/-! ### Objects -/

theorem runObjects_yields {gs : List (Text × (Nat → Gen RandValue))} {P : Nat → List (Text × RandValue) → Prop} :
    ∀ {ks : List Nat}, (∀ k ∈ ks, Yields (runFields gs k) (P k)) →
    Yields (runObjects gs ks) (fun l => l.length = ks.length ∧ ∀ (i k : Nat) o, ks[i]? = some k → l[i]? = some o → P k o)
  | [], _ => by intro s v s' h; cases h; exact ⟨rfl, by simp⟩
  | k :: ks, hP => by
    intro s v s' h
    simp only [runObjects, bind_ok, pure_ok, Prod.mk.injEq] at h
    obtain ⟨⟨o, s1⟩, h1, ⟨l, s2⟩, h2, rfl, _⟩ := h
    obtain ⟨h3, h4⟩ := runObjects_yields (fun k hk => hP k (List.mem_cons_of_mem _ hk)) _ _ _ h2
    refine ⟨by simp [h3], ?_⟩
    intro i k' o' hi ho
    cases i with
    | zero => simp at hi ho; subst hi ho; exact hP _ (List.mem_cons_self ..) _ _ _ h1
    | succ i => simp only [List.getElem?_cons_succ] at hi ho; exact h4 i k' o' hi ho

theorem runObjects_total {gs : List (Text × (Nat → Gen RandValue))} : ∀ {ks : List Nat}, (∀ k ∈ ks, Total (runFields gs k)) → Total (runObjects gs ks)
  | [], _ => fun s => ⟨_, rfl⟩
  | k :: ks, h => by
    intro s
    obtain ⟨⟨o, s1⟩, h1⟩ := h k (List.mem_cons_self ..) s
    obtain ⟨⟨l, s2⟩, h2⟩ := runObjects_total (ks := ks) (fun k hk => h k (List.mem_cons_of_mem _ hk)) s1
    exact ⟨_, bind_ok.2 ⟨_, h1, bind_ok.2 ⟨_, h2, rfl⟩⟩⟩

theorem inv {defs : PyDefs} {seconds days depth : Nat} {c : ClassDecl} {count : Nat} {draws : Draws} {objs : List (List (Text × RandValue))}
    (h : randomObjects defs seconds days depth c count draws = .ok objs) : ∃ keys gs s s', keys.Perm (List.range count) ∧
      c.fields.mapM (fun f => do let g ← (GenContext.mk defs keys seconds days).field depth f; pure (f.name, g)) = .ok gs ∧
      runObjects gs (List.range count) s = .ok (objs, s') := by
  simp only [randomObjects, bind_ok, pure_ok] at h
  obtain ⟨⟨keys, s⟩, h1, gs, h2, ⟨l, s'⟩, h3, rfl⟩ := h
  exact ⟨keys, gs, s, s', shuffle_yields _ _ rfl _ _ _ h1, by simpa [bind_ok, pure_ok] using h2, h3⟩

theorem primary_int {ctx : GenContext} {ty : PyType} (hi : IntegerKey ctx.defs ty) {g : Nat → Gen RandValue}
    (h : ctx.primary (ctx.defs.referenceToKey ty) = .ok g) (k : Nat) : Yields (g k) (fun v => ∃ n, ctx.keys[k]? = some n ∧ v = .int n) := by
  have key : ∀ {p : Prim} {metas : List Meta}, (p = .int ∨ (fixedRange p).isSome = true) → (ctx.primary (.prim p) = .ok g ∨ ctx.primary (.annotated p metas) = .ok g) →
      Yields (g k) (fun v => ∃ n, ctx.keys[k]? = some n ∧ v = .int n) := by
    intro p metas hp h
    have hp := (isInt_eq p).2 hp
    have : g = fun k s => match ctx.keys[k]? with
        | some n => .ok (.int n, s)
        | none => .error .key := by
      rcases h with h | h <;> simp only [GenContext.primary, hp, if_true] at h <;> cases h <;> rfl
    subst this
    intro s v s' hv
    dsimp only at hv
    split at hv
    · rename_i n hn; cases hv; exact ⟨n, hn, rfl⟩
    · cases hv
  cases hi with
  | prim p hp => exact key (metas := []) hp (.inl h)
  | annotated p metas hp => exact key hp (.inr h)
  | reference n c k' hc hk hi =>
    have : ctx.defs.referenceToKey (.cls n) = k'.ty := by simp [PyDefs.referenceToKey, hc, hk]
    rw [this] at h
    generalize k'.ty = ty at h hi
    cases hi with
    | prim p hp => exact key (metas := []) hp (.inl h)
    | annotated p metas hp => exact key hp (.inr h)
    | reference => cases h

end C42

section
variable (defs : PyDefs) (seconds days depth : Nat) (c : ClassDecl) (count : Nat) (draws : Draws) (objs : List (List (Text × RandValue)))

/-- The requested number of objects is generated, and every field that is not a primary key has a value of its type, within all declared bounds, whatever
    the random choices. -/
theorem C42_objects (hu : ∀ f ∈ c.fields, Unambiguous defs f.ty) (h : randomObjects defs seconds days depth c count draws = .ok objs) :
    objs.length = count ∧ ∀ o ∈ objs, o.map Prod.fst = c.fields.map FieldDecl.name ∧
      ∀ (i : Nat) (f : FieldDecl), c.fields[i]? = some f → f.primary = false → ∃ v, o[i]? = some (f.name, v) ∧ ValidValue defs f.ty v := by
  obtain ⟨keys, gs, s, s', hperm, hgs, hrun⟩ := C42.inv h
  obtain ⟨h1, h2⟩ := C42.runObjects_yields (P := fun _ o => o.map Prod.fst = c.fields.map FieldDecl.name ∧
      ∀ (i : Nat) (f : FieldDecl), c.fields[i]? = some f → f.primary = false → ∃ v, o[i]? = some (f.name, v) ∧ ValidValue defs f.ty v) (fun k _ => by
    refine (C42.runFields_yields (mk := fun f => (GenContext.mk defs keys seconds days).field depth f) (P := fun f v => f.primary = false → ValidValue defs f.ty v)
      (by simpa [Conv.bind_ok, Conv.pure_ok] using hgs) ?_).mono ?_
    · intro f hf g hg s v s' hv hp
      unfold GenContext.field at hg
      rw [hp] at hg
      exact C42.create_yields _ depth f.ty g (hu f hf) hg k s v s' hv
    · rintro l ⟨ha, _, hb⟩
      refine ⟨ha, fun i f hi hp => ?_⟩
      obtain ⟨v, hv, hval⟩ := hb i f hi
      exact ⟨v, hv, hval hp⟩) _ _ _ hrun
  rw [List.length_range] at h1
  refine ⟨h1, fun o ho => ?_⟩
  obtain ⟨i, hi, rfl⟩ := List.getElem_of_mem ho
  exact h2 i i _ (by rw [List.getElem?_range (by omega)]) (List.getElem?_eq_getElem hi)

/-- Integer primary keys are the numbers below the number of objects, each of which occurs once. -/
theorem C42_keys (h : randomObjects defs seconds days depth c count draws = .ok objs) (i : Nat) (f : FieldDecl) (hf : c.fields[i]? = some f)
    (hp : f.primary = true) (hi : IntegerKey defs f.ty) :
    ∃ keys : List Nat, keys.Perm (List.range count) ∧ objs.map (fun o => o[i]?) = keys.map (fun k => some (f.name, RandValue.int (k : Nat))) := by
  obtain ⟨keys, gs, s, s', hperm, hgs, hrun⟩ := C42.inv h
  refine ⟨keys, hperm, ?_⟩
  obtain ⟨h1, h2⟩ := C42.runObjects_yields (P := fun k o => ∃ n, keys[k]? = some n ∧ o[i]? = some (f.name, RandValue.int (n : Nat))) (fun k _ => by
    refine (C42.runFields_yields (mk := fun f => (GenContext.mk defs keys seconds days).field depth f)
      (P := fun f v => f.primary = true → IntegerKey defs f.ty → ∃ n, keys[k]? = some n ∧ v = .int (n : Nat))
      (by simpa [Conv.bind_ok, Conv.pure_ok] using hgs) ?_).mono ?_
    · intro f hf g hg s v s' hv hp hi
      unfold GenContext.field at hg
      rw [hp, if_pos rfl] at hg
      exact C42.primary_int (ctx := ⟨defs, keys, seconds, days⟩) hi hg k s v s' hv
    · rintro l ⟨_, _, hb⟩
      obtain ⟨v, hv, hval⟩ := hb i f hf
      obtain ⟨n, hn, rfl⟩ := hval hp hi
      exact ⟨n, hn, hv⟩) _ _ _ hrun
  have hlen : keys.length = count := by rw [hperm.length_eq, List.length_range]
  rw [List.length_range] at h1
  refine List.ext_getElem? fun j => ?_
  by_cases hj : j < count
  · obtain ⟨n, hn, ho⟩ := h2 j j _ (by rw [List.getElem?_range hj]) (List.getElem?_eq_getElem (by omega))
    rw [List.getElem?_map, List.getElem?_map, List.getElem?_eq_getElem (by omega), hn]
    exact congrArg some ho
  · rw [List.getElem?_eq_none (by simp; omega), List.getElem?_eq_none (by simp; omega)]

/-- Integer primary keys are pairwise distinct. -/
theorem C42_distinct (h : randomObjects defs seconds days depth c count draws = .ok objs) (i : Nat) (f : FieldDecl) (hf : c.fields[i]? = some f)
    (hp : f.primary = true) (hi : IntegerKey defs f.ty) : (objs.map (fun o => o[i]?)).Nodup := by
  obtain ⟨keys, hperm, heq⟩ := C42_keys defs seconds days depth c count draws objs h i f hf hp hi
  rw [heq]
  refine List.pairwise_map.2 ((hperm.nodup_iff.2 List.nodup_range).imp ?_)
  intro a b hab h
  simp only [Option.some.injEq, Prod.mk.injEq, RandValue.int.injEq, true_and] at h
  exact hab (by omega)

/-- Generation succeeds, whatever the random choices, if there are values for all types and primary keys are integers or UUIDs. -/
theorem C42_succeeds (hs : 0 < seconds) (hd : 0 < days) (hprod : ∀ f ∈ c.fields, f.primary = false → Producible defs f.ty)
    (hkey : ∀ f ∈ c.fields, f.primary = true → (∃ p metas, (p = .uuid ∨ p = .int ∨ (fixedRange p).isSome = true) ∧ (f.ty = .prim p ∨ f.ty = .annotated p metas))) :
    ∃ d0, ∀ depth ≥ d0, ∀ draws, ∃ objs, randomObjects defs seconds days depth c count draws = .ok objs := by
  have hgood : ∀ f ∈ c.fields, ∃ d0, ∀ d ≥ d0, ∀ keys : List Nat, keys.length = count →
      ∃ g, (GenContext.mk defs keys seconds days).field d f = .ok g ∧ ∀ k < count, C42.Total (g k) := by
    intro f hf
    cases hp : f.primary with
    | true =>
      obtain ⟨p, metas, hp', hty⟩ := hkey f hf hp
      refine ⟨0, fun d _ keys hlen => ?_⟩
      have href : defs.referenceToKey f.ty = f.ty := by rcases hty with h | h <;> rw [h] <;> rfl
      by_cases hi : p.isInt = true
      · refine ⟨fun k s => match keys[k]? with
          | some n => .ok (.int n, s)
          | none => .error .key, ?_, ?_⟩
        · simp only [GenContext.field, hp, if_true, href]
          rcases hty with h | h <;> rw [h] <;> simp only [GenContext.primary, hi, if_true] <;> rfl
        · intro k hk s
          dsimp only
          rw [List.getElem?_eq_getElem (by omega)]
          exact ⟨_, rfl⟩
      · have hu : p = .uuid := by
          rcases hp' with h | h
          · exact h
          · exact absurd ((C42.isInt_eq p).2 h) hi
        subst hu
        refine ⟨fun _ s => do let (n, s) ← anyDraw s; pure (.uuid n, s), ?_, fun k _ => C42.total_map (f := RandValue.uuid) (fun s => ⟨_, rfl⟩)⟩
        simp only [GenContext.field, hp, if_true, href]
        rcases hty with h | h <;> rw [h] <;> rfl
    | false =>
      have key : ∀ (keys keys' : List Nat) (d : Nat), (GenContext.mk defs keys seconds days).create d = (GenContext.mk defs keys' seconds days).create d := by
        intro keys keys' d
        induction d with
        | zero => rfl
        | succ d ih =>
          funext ty
          unfold GenContext.create
          rw [ih]
          unfold GenContext.createPlain
          rfl
      obtain ⟨d0, h⟩ := C42.create_good (ctx := ⟨defs, [], seconds, days⟩) hs hd (hprod f hf hp)
      refine ⟨d0, fun d hd keys _ => ?_⟩
      obtain ⟨g, hg, ht⟩ := (h d hd).1
      refine ⟨g, ?_, fun k _ => ht k⟩
      simp only [GenContext.field, hp, if_false]
      rw [key keys [] d]
      exact hg
  obtain ⟨d0, hd0⟩ := C42.eventually hgood
  refine ⟨d0, fun d hd draws => ?_⟩
  obtain ⟨⟨keys, s⟩, h1⟩ := C42.shuffle_total _ (List.range count) rfl draws
  have hlen : keys.length = count := by rw [(C42.shuffle_yields _ _ rfl _ _ _ h1).length_eq, List.length_range]
  obtain ⟨gs, hgs⟩ := C42.mapM_succeeds (f := fun f => do let g ← (GenContext.mk defs keys seconds days).field d f; pure (f.name, g)) (l := c.fields) (fun f hf => by
    obtain ⟨g, hg, _⟩ := hd0 d hd f hf keys hlen
    exact ⟨(f.name, g), Conv.bind_ok.2 ⟨g, hg, rfl⟩⟩)
  obtain ⟨⟨l, s'⟩, h3⟩ := C42.runObjects_total (gs := gs) (ks := List.range count) (fun k hk => C42.runFields_total (fun x hx => by
    obtain ⟨f, hf, hx⟩ := Conv.mapM_back hgs x hx
    simp only [Conv.bind_ok, Conv.pure_ok] at hx
    obtain ⟨g, hg, rfl⟩ := hx
    obtain ⟨g', hg', ht⟩ := hd0 d hd f hf keys hlen
    rw [hg] at hg'
    cases hg'
    exact ht k (List.mem_range.1 hk))) s
  exact ⟨l, Conv.bind_ok.2 ⟨_, h1, Conv.bind_ok.2 ⟨gs, hgs, Conv.bind_ok.2 ⟨_, h3, rfl⟩⟩⟩⟩

end

namespace C42

def key (ty : PyType) : FieldDecl := { name := t "id", ty := ty, primary := true }
def cls (fields : List FieldDecl) : ClassDecl := { name := (t "m", t "C"), fields := fields }

def colors : EnumDecl := { name := (t "m", t "Color"), kind := .str, labels := [t "red", t "green"], constants := [] }
def point : ClassDecl := { name := (t "m", t "Point"), fields := [{ name := t "x", ty := .prim .float }, { name := t "y", ty := .prim .float }] }
/-- A class with an annotation of each kind. -/
def sample : ClassDecl := cls [key (.prim .int64), { name := t "name", ty := .annotated .str [.minLength 3, .maxLength 10] },
  { name := t "age", ty := .annotated .int [.integerRange 18 99] }, { name := t "price", ty := .annotated .decimal [.precision 6 2] },
  { name := t "colors", ty := .set (.enum colors.name) }, { name := t "place", ty := .cls point.name }, { name := t "parent", ty := .cls (t "m", t "C"), nullable := true }]
def sampleDefs : PyDefs := { classes := [sample, point], enums := [colors] }

/-- Checks that an annotation list is unambiguous. -/
def oneB (p : Prim) (metas : List Meta) : Bool :=
  metas.all (fun m => metas.all (fun m' => match m, m' with
    | .integerRange a b, .integerRange a' b' => decide (a = a' ∧ b = b')
    | .maxLength a, .maxLength b => decide (a = b)
    | .minLength a, .minLength b => decide (a = b)
    | .precision a b, .precision a' b' => decide (a = a' ∧ b = b' ∧ b ≤ a)
    | _, _ => true) && (match m with
      | .integerRange .. => (fixedRange p).isNone
      | _ => true))

theorem oneB_ok {p : Prim} {metas : List Meta} (h : oneB p metas = true) : OneOfAKind p metas := by
  unfold oneB at h
  rw [List.all_eq_true] at h
  have h1 : ∀ m ∈ metas, ∀ m' ∈ metas, _ := fun m hm m' hm' => List.all_eq_true.1 (Bool.and_eq_true _ _ ▸ h m hm).1 m' hm'
  constructor
  · intro hp lo hi hm
    have := (Bool.and_eq_true _ _ ▸ h _ hm).2
    cases hf : fixedRange p with
    | none => rw [hf] at hp; cases hp
    | some r => simp [hf] at this
  · intro a b a' b' hm hm'; simpa using h1 _ hm _ hm'
  · intro a b hm hm'; simpa using h1 _ hm _ hm'
  · intro a b hm hm'; simpa using h1 _ hm _ hm'
  · intro a b a' b' hm hm'
    have := h1 _ hm _ hm'
    simp at this
    exact ⟨this.1, this.2.1⟩
  · intro a b hm
    have := h1 _ hm _ hm
    simpa using this

/-- A set of types that has all parts of its members, and is unambiguous. -/
def closedB (defs : PyDefs) (S : List PyType) : Bool :=
  S.all (fun ty => match ty with
    | .list item | .set item => S.contains item
    | .union ms => ms.toList.all (fun m => S.contains m)
    | .cls n => match defs.cls n with
      | some c => c.fields.all (fun f => S.contains f.ty)
      | none => true
    | .annotated p ms => oneB p ms
    | .enum n => match defs.enum n with
      | some e => decide e.labels.Nodup
      | none => true
    | _ => true)

theorem closed_part {defs : PyDefs} {S : List PyType} (h : closedB defs S = true) {ty ty' : PyType} (hp : PartOf defs ty ty') : ty ∈ S → ty' ∈ S := by
  unfold closedB at h
  rw [List.all_eq_true] at h
  induction hp with
  | refl => exact id
  | list item ty _ ih => intro hm; have := h _ hm; exact ih (List.contains_iff_mem.1 this)
  | set item ty _ ih => intro hm; have := h _ hm; exact ih (List.contains_iff_mem.1 this)
  | union ms m ty hm' _ ih => intro hm; have := h _ hm; exact ih (List.contains_iff_mem.1 (List.all_eq_true.1 this m hm'))
  | field n c f ty hc hf _ ih =>
    intro hm
    have := h _ hm
    simp only [hc] at this
    exact ih (List.contains_iff_mem.1 (List.all_eq_true.1 this f hf))

theorem closedB_ok {defs : PyDefs} {S : List PyType} (h : closedB defs S = true) {ty : PyType} (hm : ty ∈ S) : Unambiguous defs ty := by
  have h' := h
  unfold closedB at h
  rw [List.all_eq_true] at h
  constructor
  · intro p ms hp
    exact oneB_ok (h _ (closed_part h' hp hm))
  · intro n e hp he
    have := h _ (closed_part h' hp hm)
    simp only [he] at this
    exact of_decide_eq_true this

def sampleTypes : List PyType := sample.fields.map FieldDecl.ty ++ [.enum colors.name, .prim .float]

theorem sample_unambiguous : ∀ f ∈ sample.fields, Unambiguous sampleDefs f.ty := by
  intro f hf
  have h : closedB sampleDefs sampleTypes = true := by decide +kernel
  exact closedB_ok h (List.mem_append.2 (.inl (List.mem_map.2 ⟨f, hf, rfl⟩)))

theorem int64_producible : ProducibleSimple .int64 [] := by constructor <;> simp
theorem float_producible : ProducibleSimple .float [] := by constructor <;> simp

theorem sample_producible : ∀ f ∈ sample.fields, f.primary = false → Producible sampleDefs f.ty := by
  intro f hf hp
  simp only [sample, cls, List.mem_cons, List.not_mem_nil, or_false] at hf
  rcases hf with rfl | rfl | rfl | rfl | rfl | rfl | rfl
  · cases hp
  · exact .annotated _ _ (by constructor <;> simp)
  · exact .annotated _ _ (by constructor <;> simp)
  · exact .annotated _ _ (by constructor <;> simp)
  · exact .set _ (.enum _ colors (by decide +kernel) (by decide))
  · refine .struct _ point (by decide +kernel) (by decide +kernel) ?_
    intro f hf
    simp only [point, List.mem_cons, List.not_mem_nil, or_false] at hf
    rcases hf with rfl | rfl <;> exact .prim _ float_producible
  · exact .reference _ sample (key (.prim .int64)) (by decide +kernel) (by decide +kernel) (by decide +kernel) (.prim _ int64_producible)

end C42

/-- All hypotheses are met together: any number of objects of the sample class is generated from any random choices, and is as required. -/
example (count : Nat) : ∃ d0, ∀ depth ≥ d0, ∀ draws, ∃ objs, randomObjects C42.sampleDefs 1000 10 depth C42.sample count draws = .ok objs ∧ objs.length = count ∧
    (objs.map (fun o => o[0]?)).Nodup ∧ ∀ o ∈ objs, ∃ v, o[1]? = some (t "name", v) ∧ ∃ s, v = .str s ∧ 3 ≤ s.length ∧ s.length ≤ 10 := by
  obtain ⟨d0, h⟩ := C42_succeeds C42.sampleDefs 1000 10 C42.sample count (by decide) (by decide) C42.sample_producible (by
    intro f hf hp
    simp only [C42.sample, C42.cls, List.mem_cons, List.not_mem_nil, or_false] at hf
    rcases hf with rfl | rfl | rfl | rfl | rfl | rfl | rfl <;> first | cases hp; done | exact ⟨.int64, [], .inr (.inr rfl), .inl rfl⟩)
  refine ⟨d0, fun depth hd draws => ?_⟩
  obtain ⟨objs, ho⟩ := h depth hd draws
  obtain ⟨h1, h2⟩ := C42_objects _ _ _ _ _ _ _ _ C42.sample_unambiguous ho
  refine ⟨objs, ho, h1, C42_distinct _ _ _ _ _ _ _ _ ho 0 _ rfl rfl (.prim _ (.inr rfl)), fun o hmem => ?_⟩
  obtain ⟨v, hv, hval⟩ := (h2 o hmem).2 1 _ rfl rfl
  refine ⟨v, hv, ?_⟩
  cases hval with
  | annotated _ _ _ hs =>
    cases v with
    | str s => exact ⟨s, rfl, hs.2.2 3 (by simp), hs.2.1 10 (by simp)⟩
    | _ => revert hs; simp [ValidSimple, fixedRange]

/-- Primary keys do not respect the range of their type: among more than 128 objects with a key of type `int8` there is always an invalid one. -/
theorem C42_key_range_fails (count : Nat) (hc : 128 < count) (draws : Draws) : ∃ depth objs,
    randomObjects ⟨[], []⟩ 1 1 depth (C42.cls [C42.key (.prim .int8)]) count draws = .ok objs ∧
    ∃ o ∈ objs, ∃ v, o[0]? = some (t "id", v) ∧ ¬ ValidValue ⟨[], []⟩ (.prim .int8) v := by
  obtain ⟨d0, h⟩ := C42_succeeds ⟨[], []⟩ 1 1 (C42.cls [C42.key (.prim .int8)]) count (by decide) (by decide) (by
    intro f hf hp; simp only [C42.cls, List.mem_singleton] at hf; subst hf; cases hp) (by
    intro f hf hp; simp only [C42.cls, List.mem_singleton] at hf; subst hf; exact ⟨.int8, [], .inr (.inr rfl), .inl rfl⟩)
  obtain ⟨objs, ho⟩ := h d0 (Nat.le_refl _) draws
  obtain ⟨keys, hperm, heq⟩ := C42_keys _ _ _ _ _ _ _ _ ho 0 _ rfl rfl (.prim .int8 (.inr rfl))
  refine ⟨d0, objs, ho, ?_⟩
  have hm : 128 ∈ keys := hperm.mem_iff.2 (List.mem_range.2 hc)
  have : some (t "id", RandValue.int 128) ∈ objs.map (fun o => o[0]?) := by rw [heq]; exact List.mem_map.2 ⟨128, hm, rfl⟩
  obtain ⟨o, hmem, hv⟩ := List.mem_map.1 this
  refine ⟨o, hmem, _, hv, ?_⟩
  intro hval
  cases hval with
  | prim _ _ h =>
    have := (h.2.1 _ rfl).2
    revert this; decide

/-- The first range counts, so that a range that restricts a fixed-width integer type is ignored: the hypothesis on annotations cannot be left out. -/
theorem C42_refined_range_fails : ∃ draws objs,
    randomObjects ⟨[], []⟩ 1 1 1 (C42.cls [{ name := t "x", ty := .annotated .int8 [.integerRange 0 5] }]) 1 draws = .ok objs ∧
    ∃ o ∈ objs, ∃ v, o[0]? = some (t "x", v) ∧ ¬ ValidValue ⟨[], []⟩ (.annotated .int8 [.integerRange 0 5]) v := by
  refine ⟨fun _ => 0, _, rfl, _, List.mem_singleton.2 rfl, .int (-128), rfl, ?_⟩
  intro hval
  cases hval with
  | annotated _ _ _ h =>
    have := (h.2.2 0 5 (by simp)).1
    revert this; decide

/-- A minimum length above 255 without a maximum is refused, though there are such strings. -/
theorem C42_min_length_fails (draws : Draws) :
    (∃ e, randomObjects ⟨[], []⟩ 1 1 1 (C42.cls [{ name := t "x", ty := .annotated .str [.minLength 300] }]) 1 draws = .error e) ∧
    ∃ v, ValidValue ⟨[], []⟩ (.annotated .str [.minLength 300]) v := by
  refine ⟨⟨.value, ?_⟩, .str (List.replicate 300 'a'), .annotated _ _ _ ⟨rfl, ?_, ?_⟩⟩
  · have h1 : shuffled (List.range 1) draws = .ok ([0], fun i => draws (i + 1)) := by
      have : List.range 1 = [0] := rfl
      simp [this, shuffled, shuffleLoop, below, Nat.mod_one, bind, Except.bind, pure, Except.pure]
    unfold randomObjects
    rw [h1]
    rfl
  · intro n hn
    simp at hn
  · intro n hn
    rw [List.mem_singleton] at hn
    cases hn
    rw [List.length_replicate]
    exact Nat.le_refl _

/-- Uniqueness is not respected, except that of primary keys. -/
theorem C42_unique_fails : ∃ draws objs,
    randomObjects ⟨[], []⟩ 1 1 1 (C42.cls [{ name := t "x", ty := .prim .int, unique := true }]) 2 draws = .ok objs ∧ ¬ (objs.map (fun o => o[0]?)).Nodup := by
  refine ⟨fun _ => 0, _, rfl, ?_⟩
  intro h
  cases h with
  | cons h _ => exact h _ (List.mem_singleton.2 rfl) rfl

end PySqlSync
