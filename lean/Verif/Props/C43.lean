/-
C43 — Dialect registry is a map.
-/
import Verif.Model.Registry

set_option autoImplicit false

namespace PySqlSync
variable {E : Type}

/-- What a history of calls should leave under a name, given what was there before: a name is taken by the first `register` after
    it was free and freed by `unregister`. -/
def Spec.registered (name : Text) : Option E → List (RegistryCall E) → Option E
  | s, [] => s
  | s, .register n e :: cs => Spec.registered name (if n = name then (match s with | some x => some x | none => some e) else s) cs
  | s, .unregister n :: cs => Spec.registered name (if n = name then none else s) cs

namespace C43

theorem any_iff {r : Registry E} {name : Text} : r.any (fun p => p.1 = name) = true ↔ (r.find name).isSome = true := by
  unfold Registry.find
  rw [Option.isSome_map, List.any_eq_true, List.find?_isSome]

theorem find_append {r : Registry E} {n name : Text} {e : E} :
    Registry.find (r ++ [(n, e)]) name = match r.find name with | some x => some x | none => if n = name then some e else none := by
  unfold Registry.find
  rw [List.find?_append]
  cases h : r.find? (fun p => decide (p.1 = name)) with
  | some x => rfl
  | none =>
    simp only [Option.none_or, List.find?_cons, List.find?_nil]
    by_cases hn : n = name
    · simp [hn]
    · simp [hn]

theorem find_filter {r : Registry E} {n name : Text} :
    Registry.find (r.filter (fun p => p.1 ≠ n)) name = if n = name then none else r.find name := by
  unfold Registry.find
  induction r with
  | nil => simp
  | cons p r ih =>
    rw [List.filter_cons]
    by_cases h1 : p.1 = n
    · rw [if_neg (by simp [h1]), ih]
      by_cases h2 : n = name
      · simp [h2]
      · rw [if_neg h2, if_neg h2, List.find?_cons_of_neg (by simp [h1, h2])]
    · rw [if_pos (by simp [h1])]
      by_cases h3 : p.1 = name
      · rw [List.find?_cons_of_pos (by simp [h3]), List.find?_cons_of_pos (by simp [h3]), if_neg (by rw [← h3]; exact fun e => h1 e.symm)]
      · rw [List.find?_cons_of_neg (by simp [h3]), List.find?_cons_of_neg (by simp [h3]), ih]

theorem call_find (r : Registry E) (c : RegistryCall E) (name : Text) :
    (r.call c).find name = Spec.registered name (r.find name) [c] := by
  cases c with
  | register n e =>
    unfold Registry.call Registry.register Spec.registered Spec.registered
    dsimp only
    by_cases h : r.any (fun p => decide (p.1 = n)) = true
    · rw [if_pos h]
      dsimp only
      by_cases hn : n = name
      · subst hn
        rw [any_iff] at h
        rw [if_pos rfl]
        cases hf : r.find n with
        | none => rw [hf] at h; cases h
        | some x => rfl
      · rw [if_neg hn]
    · rw [if_neg h]
      dsimp only
      rw [find_append]
      cases hf : r.find name with
      | some x => dsimp only; split <;> rfl
      | none => rfl
  | unregister n =>
    unfold Registry.call Registry.unregister Spec.registered Spec.registered
    dsimp only
    by_cases h : r.any (fun p => decide (p.1 = n)) = true
    · rw [if_pos h]; exact find_filter
    · rw [if_neg h]
      dsimp only
      by_cases hn : n = name
      · subst hn
        rw [any_iff] at h
        rw [if_pos rfl]
        cases hf : r.find n with
        | none => rfl
        | some x => rw [hf] at h; exact absurd rfl h
      · rw [if_neg hn]

end C43

/-- **C43.**  After any history of calls, on any registry, `get_dialect` returns what is registered under the name. -/
theorem C43_history (r : Registry E) (cs : List (RegistryCall E)) (name : Text) :
    (r.calls cs).get name = match Spec.registered name (r.find name) cs with | some e => .ok e | none => .error .value := by
  have h : ∀ (cs : List (RegistryCall E)) (r : Registry E), (r.calls cs).find name = Spec.registered name (r.find name) cs := by
    intro cs
    induction cs with
    | nil => intro r; rfl
    | cons c cs ih =>
      intro r
      have := ih (r.call c)
      have e : r.calls (c :: cs) = (r.call c).calls cs := rfl
      rw [e, this, C43.call_find]
      cases c <;> rfl
  unfold Registry.get
  rw [h]
  cases Spec.registered name (r.find name) cs <;> rfl

/-- **C43.**  `register_dialect` is refused exactly if the name is in use, and is in effect otherwise; `unregister_dialect` is refused
    exactly if the name is not in use. -/
theorem C43_calls (r : Registry E) (name : Text) (e : E) :
    ((∃ err, r.register name e = .error err) ↔ ∃ x, r.get name = .ok x) ∧
    (∀ r', r.register name e = .ok r' → r'.get name = .ok e ∧ ∀ other, other ≠ name → r'.get other = r.get other) ∧
    ((∃ err, r.unregister name = .error err) ↔ ¬ ∃ x, r.get name = .ok x) ∧
    (∀ r', r.unregister name = .ok r' → r'.get name = .error .value ∧ ∀ other, other ≠ name → r'.get other = r.get other) := by
  have hany : r.any (fun p => decide (p.1 = name)) = true ↔ ∃ x, r.get name = .ok x := by
    rw [C43.any_iff]
    unfold Registry.get
    cases r.find name <;> simp
  refine ⟨?_, ?_, ?_, ?_⟩
  · rw [← hany]; unfold Registry.register
    by_cases h : r.any (fun p => decide (p.1 = name)) = true
    · rw [if_pos h]; simp [h]
    · rw [if_neg h]; simp [h]
  · intro r' h
    unfold Registry.register at h
    by_cases ha : r.any (fun p => decide (p.1 = name)) = true
    · rw [if_pos ha] at h; cases h
    · rw [if_neg ha] at h
      cases h
      unfold Registry.get
      refine ⟨?_, ?_⟩
      · rw [C43.find_append]
        rw [C43.any_iff] at ha
        cases hf : r.find name with
        | some x => rw [hf] at ha; exact absurd rfl ha
        | none => simp
      · intro other ho
        rw [C43.find_append]
        cases r.find other with
        | some x => rfl
        | none => dsimp only; rw [if_neg (fun e => ho (Eq.symm e))]
  · rw [← hany]; unfold Registry.unregister
    by_cases h : r.any (fun p => decide (p.1 = name)) = true
    · rw [if_pos h]; simp [h]
    · rw [if_neg h]; simp [h]
  · intro r' h
    unfold Registry.unregister at h
    by_cases ha : r.any (fun p => decide (p.1 = name)) = true
    · rw [if_pos ha] at h
      cases h
      unfold Registry.get
      refine ⟨?_, ?_⟩
      · rw [C43.find_filter, if_pos rfl]
      · intro other ho
        rw [C43.find_filter, if_neg (fun e => ho e.symm)]
    · rw [if_neg ha] at h; cases h

/-- A refused registration changes nothing; unregistering makes room. -/
example : ((Registry.calls ([] : Registry Nat) [.register (t "a") 1, .register (t "a") 2, .register (t "b") 3]).get (t "a")).toOption = some 1 ∧
    ((Registry.calls ([] : Registry Nat) [.register (t "a") 1, .unregister (t "a"), .register (t "a") 2]).get (t "a")).toOption = some 2 := by
  decide +kernel

end PySqlSync
