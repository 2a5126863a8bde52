/-
C44 — Namespace mapping is one-to-one.
-/
import Verif.Model.Registry
import Verif.Props.C36

set_option autoImplicit false

namespace PySqlSync
variable {M : Type}

namespace C44

theorem eraseDups_length {α : Type} [BEq α] [LawfulBEq α] (l : List α) : l.eraseDups.length ≤ l.length := by
  induction hn : l.length using Nat.strongRecOn generalizing l with
  | ind n ih =>
    cases l with
    | nil => simp
    | cons a l =>
      rw [List.eraseDups_cons, List.length_cons]
      have h1 := List.length_filter_le (fun b => !b == a) l
      rw [List.length_cons] at hn
      have := ih _ (by omega) (l.filter (fun b => !b == a)) rfl
      omega

theorem eraseDups_length_iff {α : Type} [BEq α] [LawfulBEq α] (l : List α) : l.eraseDups.length = l.length ↔ l.Nodup := by
  induction l with
  | nil => simp
  | cons a l ih =>
    rw [List.eraseDups_cons, List.length_cons, List.length_cons, List.nodup_cons]
    have h1 := List.length_filter_le (fun b => !b == a) l
    have h2 := eraseDups_length (l.filter (fun b => !b == a))
    constructor
    · intro h
      have hf : (l.filter (fun b => !b == a)).length = l.length := by omega
      have hfe : l.filter (fun b => !b == a) = l := by
        have := List.filter_sublist (p := fun b => !b == a) (l := l)
        exact this.eq_of_length hf
      rw [hfe] at h
      refine ⟨?_, ih.1 (by omega)⟩
      intro hm
      have := List.filter_eq_self.1 hfe a hm
      simp at this
    · rintro ⟨hm, hn⟩
      have hfe : l.filter (fun b => !b == a) = l := by
        rw [List.filter_eq_self]
        intro x hx
        simp only [Bool.not_eq_true', beq_eq_false_iff_ne, ne_eq]
        intro e; subst e; exact hm hx
      rw [hfe, ih.2 hn]

end C44

/-- **C44.**  A mapping is accepted, unchanged, exactly if no two of its entries name the same schema. -/
theorem C44_accepted (d : List (M × Option Text)) :
    ((d.map Prod.snd).Nodup → namespaceMapping d = .ok d) ∧ (¬ (d.map Prod.snd).Nodup → namespaceMapping d = .error .value) := by
  unfold namespaceMapping
  have := C44.eraseDups_length_iff (d.map Prod.snd)
  rw [List.length_map] at this
  constructor
  · intro h; rw [if_neg (by simpa using this.2 h)]
  · intro h; rw [if_pos (fun e => h (this.1 e))]

/-- **C44.**  In an accepted mapping two modules with the same mapped name are the same module, and exactly the modules in the
    mapping have one. -/
theorem C44_one_to_one [DecidableEq M] {d d' : List (M × Option Text)} (h : namespaceMapping d = .ok d') (modules : Text → Option M) :
    (∀ a b x, mappedName modules d' a = .ok x → mappedName modules d' b = .ok x → modules a = modules b) ∧
    (∀ a m, modules a = some m → ((∃ x, mappedName modules d' a = .ok x) ↔ m ∈ d.map Prod.fst)) := by
  have hn : (d.map Prod.snd).Nodup := by
    rcases Classical.em (d.map Prod.snd).Nodup with h' | h'
    · exact h'
    · rw [(C44_accepted d).2 h'] at h; cases h
  have hd : d' = d := by rw [(C44_accepted d).1 hn] at h; cases h; rfl
  subst hd
  have hinj : ∀ (l : List (M × Option Text)), (l.map Prod.snd).Nodup → ∀ p ∈ l, ∀ q ∈ l, p.2 = q.2 → p = q := by
    intro l
    induction l with
    | nil => intro _ p hp; cases hp
    | cons a l ih =>
      intro hnd p hp q hq e
      rw [List.map_cons, List.nodup_cons] at hnd
      rcases List.mem_cons.1 hp with hp | hp <;> rcases List.mem_cons.1 hq with hq | hq
      · rw [hp, hq]
      · exact absurd (List.mem_map.2 ⟨q, hq, by rw [← e, hp]⟩) hnd.1
      · exact absurd (List.mem_map.2 ⟨p, hp, by rw [e, hq]⟩) hnd.1
      · exact ih hnd.2 p hp q hq e
  have hget : ∀ a x, mappedName modules d' a = .ok x → ∃ m, modules a = some m ∧ (m, x) ∈ d' := by
    intro a x ha
    unfold mappedName at ha
    split at ha
    · cases ha
    · rename_i m hm
      split at ha
      · rename_i p hp
        cases ha
        have e : p.1 = m := by simpa using List.find?_some hp
        exact ⟨m, hm, by rw [← e]; exact List.mem_of_find?_eq_some hp⟩
      · cases ha
  refine ⟨?_, ?_⟩
  · intro a b x ha hb
    obtain ⟨m, hm, h1⟩ := hget a x ha
    obtain ⟨m', hm', h2⟩ := hget b x hb
    rw [hm, hm']
    have := hinj d' hn _ h1 _ h2 rfl
    rw [Prod.mk.injEq] at this
    rw [this.1]
  · intro a m hm
    constructor
    · rintro ⟨x, hx⟩
      obtain ⟨m', hm', h1⟩ := hget a x hx
      rw [hm] at hm'
      cases hm'
      exact List.mem_map.2 ⟨_, h1, rfl⟩
    · intro h
      obtain ⟨p, hp, e⟩ := List.mem_map.1 h
      unfold mappedName
      rw [hm]
      dsimp only
      cases hf : d'.find? (fun p => decide (p.1 = m)) with
      | some q => exact ⟨_, rfl⟩
      | none => exact absurd (by simpa using e) (List.find?_eq_none.1 hf p hp)

/-- **C44 fails** for the schemas themselves: mapping one module to the default schema (`None`) and another to the empty name is
    accepted, and both have the same schema. -/
theorem C44_default_and_empty (a b : M) :
    namespaceMapping [(a, none), (b, some [])] = .ok [(a, none), (b, some [])] ∧ schemaName none = schemaName (some []) := by
  refine ⟨(C44_accepted _).1 (by simp), rfl⟩

/-- **C44.**  These are the only different names that denote the same schema. -/
theorem C44_schemas (x y : Option Text) :
    schemaName x = schemaName y ↔ x = y ∨ (x = none ∧ y = some []) ∨ (x = some [] ∧ y = none) := by
  unfold schemaName
  cases x <;> cases y <;> simp [eq_comm]

/-- Two modules, one schema: refused. -/
example : (namespaceMapping [(1, some (t "s")), (2, some (t "s"))]).toOption = none ∧
    (namespaceMapping [(1, some (t "s")), (2, none)]).toOption = some [(1, some (t "s")), (2, none)] := by decide +kernel

end PySqlSync
