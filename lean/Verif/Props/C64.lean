/-
  C64: calls that are dispatched to worker threads behave as if they were made directly: under every schedule of the event loop and of the threads, and wherever tasks are cancelled.
-/
import Verif.Spec.Dispatch

set_option autoImplicit false

namespace PySqlSync

open PySqlSync.Dispatch PySqlSync.Spec.Dispatch

namespace C64

variable {C R : Type}

/-- The pool that a task has created and not left yet. -/
def pool : Task C R → Option Nat
  | .awaiting k _ _ => some k
  | .cancelling k _ => some k
  | .revoked k _ => some k
  | .leaving k _ _ => some k
  | _ => none

/-- The call returns now. -/
def Out (c : C) (o : Option R) (next : Prog C R) (es : List (Event C R)) : Prop := ∃ t, es = .returned c o :: t ∧ Direct next t

/-- What may follow once the outcome of a call is settled. -/
def Stop (c : C) (it : Item R) (o : Option R) (next : Prog C R) (es : List (Event C R)) : Prop :=
  match it with
  | .pending => Out c o next es ∨ ∃ r t, es = .start c :: .finish c r :: t ∧ Out c o next t
  | .running => ∃ r t, es = .finish c r :: t ∧ Out c o next t
  | .finished _ => Out c o next es
  | .dropped => Out c o next es

/-- What may follow while a call is awaited. -/
def Go (c : C) (it : Item R) (next : R → Prog C R) (cancel : Prog C R) (es : List (Event C R)) : Prop :=
  match it with
  | .pending => Direct (.call c next cancel) (.called c :: es)
  | .running => ∃ r t, es = .finish c r :: t ∧ (Out c (some r) (next r) t ∨ Out c none cancel t)
  | .finished r => Out c (some r) (next r) es ∨ Out c none cancel es
  | .dropped => False

/-- What may follow in a task. -/
def Rest (pools : Nat → Option (Pool C R)) (t : Task C R) (es : List (Event C R)) : Prop :=
  match t with
  | .ready p => Direct p es
  | .over => es = []
  | .awaiting k next cancel => ∃ j c it, pools k = some ⟨j, c, it⟩ ∧ Go c it next cancel es
  | .cancelling k cancel => ∃ j c it, pools k = some ⟨j, c, it⟩ ∧ Stop c it none cancel es
  | .revoked k cancel => ∃ j c it, pools k = some ⟨j, c, it⟩ ∧ Stop c it none cancel es
  | .leaving k o next => ∃ j c it, pools k = some ⟨j, c, it⟩ ∧ Stop c it o next es

theorem put_same {α : Type} (f : Nat → α) (i : Nat) (x : α) : put f i x i = x := by simp [put]

theorem put_other {α : Type} (f : Nat → α) {i j : Nat} (x : α) (h : j ≠ i) : put f i x j = f j := by simp [put, h]

theorem rest_put {pools : Nat → Option (Pool C R)} {t : Task C R} {k : Nat} {x : Option (Pool C R)} (h : pool t ≠ some k) (es : List (Event C R)) :
    Rest (put pools k x) t es ↔ Rest pools t es := by
  cases t with
  | ready p => exact Iff.rfl
  | over => exact Iff.rfl
  | awaiting k' next cancel => simp only [Rest]; rw [put_other _ _ (fun e => h (by rw [← e]; rfl))]
  | cancelling k' cancel => simp only [Rest]; rw [put_other _ _ (fun e => h (by rw [← e]; rfl))]
  | revoked k' cancel => simp only [Rest]; rw [put_other _ _ (fun e => h (by rw [← e]; rfl))]
  | leaving k' o next => simp only [Rest]; rw [put_other _ _ (fun e => h (by rw [← e]; rfl))]

/-- The invariant. -/
structure Inv (ps : List (Prog C R)) (ls : List (Label C R)) (w : World C R) : Prop where
  own : ∀ i k, pool (w.tasks i) = some k → ∃ c it, w.pools k = some ⟨i, c, it⟩
  kept : ∀ i k next cancel c j, w.tasks i = .awaiting k next cancel → w.pools k ≠ some ⟨j, c, .dropped⟩
  live : ∀ k i c it, w.pools k = some ⟨i, c, it⟩ → it.ended = false → pool (w.tasks i) = some k
  new : ∀ k, w.fresh ≤ k → w.pools k = none
  busy : ∀ i k o next, w.tasks i = .leaving k o next → w.loop = some i
  blocked : ∀ i, w.loop = some i → ∃ k o next, w.tasks i = .leaving k o next
  size : ∀ i, ps.length ≤ i → w.tasks i = .over
  trace : ∀ i es, Rest w.pools (w.tasks i) es → Direct ((ps[i]?).getD .done) (seen i ls ++ es)

theorem seen_append (i : Nat) (xs ys : List (Label C R)) : seen i (xs ++ ys) = seen i xs ++ seen i ys := by simp [seen]

theorem seen_quiet (i : Nat) : seen i ([.quiet] : List (Label C R)) = [] := rfl

theorem seen_cancel (i j : Nat) : seen i ([.cancel j] : List (Label C R)) = [] := rfl

theorem seen_same (i : Nat) (e : Event C R) : seen i [.event i e] = [e] := by simp [seen]

theorem seen_other {i j : Nat} (h : j ≠ i) (e : Event C R) : seen i [.event j e] = [] := by simp [seen, h]

/-- Whatever may follow after a step, could have followed before, with what the step has shown. -/
theorem local_step {ps : List (Prog C R)} {ls : List (Label C R)} {w w' : World C R} {l : Label C R} (v : Inv ps ls w) (h : Step w l w') (i : Nat)
    (es : List (Event C R)) (hr : Rest w'.pools (w'.tasks i) es) : Rest w.pools (w.tasks i) (seen i [l] ++ es) := by
  -- a task other than the one that is concerned
  have other : ∀ {j : Nat} {x : Task C R}, i ≠ j → put w.tasks j x i = w.tasks i := fun h => put_other _ _ h
  cases h with
  | @conclude i0 h1 h2 =>
    rw [seen_quiet]
    by_cases e : i = i0
    · subst e
      simp only [put_same, Rest] at hr
      rw [h2, hr]
      exact .done
    · simp only [other e] at hr
      exact hr
  | @resume i0 next cancel r h1 h2 =>
    rw [seen_quiet]
    by_cases e : i = i0
    · subst e
      simp only [put_same, Rest] at hr
      rw [h2]
      exact .wait r hr
    · simp only [other e] at hr
      exact hr
  | @interrupt i0 next cancel h1 h2 =>
    rw [seen_cancel]
    by_cases e : i = i0
    · subst e
      simp only [put_same, Rest] at hr
      rw [h2]
      exact .waitCancelled hr
    · simp only [other e] at hr
      exact hr
  | @submit i0 c next cancel h1 h2 =>
    by_cases e : i = i0
    · subst e
      simp only [put_same, Rest] at hr
      obtain ⟨j, c', it, h3, h4⟩ := hr
      cases h3
      rw [h2, seen_same]
      exact h4
    · simp only [other e] at hr
      rw [seen_other (fun h => e h.symm)]
      refine (rest_put ?_ es).1 hr
      intro hp
      obtain ⟨c', it, h3⟩ := v.own i _ hp
      rw [v.new _ (Nat.le_refl _)] at h3
      cases h3
  | @start k i0 c h1 =>
    have hat := v.live _ _ _ _ h1 rfl
    by_cases e : i = i0
    · subst e
      rw [seen_same]
      generalize w.tasks i = tk at hat hr
      cases tk with
      | ready p => cases hat
      | over => cases hat
      | awaiting k' next cancel =>
        cases hat
        obtain ⟨j, c', it, h3, h4⟩ := hr
        simp only [put_same] at h3
        cases h3
        refine ⟨_, _, _, h1, ?_⟩
        obtain ⟨r, tl, rfl, h5 | h5⟩ := h4
        · obtain ⟨tl, rfl, h6⟩ := h5
          exact .call r h6
        · obtain ⟨tl, rfl, h6⟩ := h5
          exact .cancelledAfter r h6
      | cancelling k' cancel =>
        cases hat
        obtain ⟨j, c', it, h3, h4⟩ := hr
        simp only [put_same] at h3
        cases h3
        obtain ⟨r, tl, rfl, h5⟩ := h4
        exact ⟨_, _, _, h1, Or.inr ⟨r, tl, rfl, h5⟩⟩
      | revoked k' cancel =>
        cases hat
        obtain ⟨j, c', it, h3, h4⟩ := hr
        simp only [put_same] at h3
        cases h3
        obtain ⟨r, tl, rfl, h5⟩ := h4
        exact ⟨_, _, _, h1, Or.inr ⟨r, tl, rfl, h5⟩⟩
      | leaving k' o next =>
        cases hat
        obtain ⟨j, c', it, h3, h4⟩ := hr
        simp only [put_same] at h3
        cases h3
        obtain ⟨r, tl, rfl, h5⟩ := h4
        exact ⟨_, _, _, h1, Or.inr ⟨r, tl, rfl, h5⟩⟩
    · rw [seen_other (fun h => e h.symm)]
      refine (rest_put ?_ es).1 hr
      intro hp
      obtain ⟨c', it, h3⟩ := v.own i _ hp
      rw [h1] at h3
      cases h3
      exact e rfl
  | @finish k i0 c r h1 =>
    have hat := v.live _ _ _ _ h1 rfl
    by_cases e : i = i0
    · subst e
      rw [seen_same]
      generalize w.tasks i = tk at hat hr
      cases tk with
      | ready p => cases hat
      | over => cases hat
      | awaiting k' next cancel =>
        cases hat
        obtain ⟨j, c', it, h3, h4⟩ := hr
        simp only [put_same] at h3
        cases h3
        exact ⟨_, _, _, h1, r, es, rfl, h4⟩
      | cancelling k' cancel =>
        cases hat
        obtain ⟨j, c', it, h3, h4⟩ := hr
        simp only [put_same] at h3
        cases h3
        exact ⟨_, _, _, h1, r, es, rfl, h4⟩
      | revoked k' cancel =>
        cases hat
        obtain ⟨j, c', it, h3, h4⟩ := hr
        simp only [put_same] at h3
        cases h3
        exact ⟨_, _, _, h1, r, es, rfl, h4⟩
      | leaving k' o next =>
        cases hat
        obtain ⟨j, c', it, h3, h4⟩ := hr
        simp only [put_same] at h3
        cases h3
        exact ⟨_, _, _, h1, r, es, rfl, h4⟩
    · rw [seen_other (fun h => e h.symm)]
      refine (rest_put ?_ es).1 hr
      intro hp
      obtain ⟨c', it, h3⟩ := v.own i _ hp
      rw [h1] at h3
      cases h3
      exact e rfl
  | @deliver i0 k next cancel j c r h1 h2 h3 =>
    rw [seen_quiet]
    by_cases e : i = i0
    · subst e
      simp only [put_same, Rest] at hr
      obtain ⟨j', c', it, h4, h5⟩ := hr
      rw [h3] at h4
      cases h4
      rw [h2]
      exact ⟨_, _, _, h3, Or.inl h5⟩
    · simp only [other e] at hr
      exact hr
  | @cancel i0 k next cancel h1 h2 =>
    rw [seen_cancel]
    by_cases e : i = i0
    · subst e
      simp only [put_same, Rest] at hr
      obtain ⟨j', c', it, h4, h5⟩ := hr
      rw [h2]
      refine ⟨_, _, _, h4, ?_⟩
      cases it with
      | pending =>
        cases h5 with
        | inl h5 => obtain ⟨tl, rfl, h6⟩ := h5; exact .cancelledBefore h6
        | inr h5 => obtain ⟨r, _, rfl, tl, rfl, h6⟩ := h5; exact .cancelledAfter r h6
      | running => obtain ⟨r, tl, rfl, h6⟩ := h5; exact ⟨r, tl, rfl, Or.inr h6⟩
      | finished r => exact Or.inr h5
      | dropped => exact absurd h4 (v.kept _ _ _ _ _ _ h2)
    · simp only [other e] at hr
      exact hr
  | @revoke i0 k cancel j c it h1 h2 h3 =>
    rw [seen_quiet]
    by_cases e : i = i0
    · subst e
      simp only [put_same, Rest] at hr
      obtain ⟨j', c', it', h4, h5⟩ := hr
      cases h4
      rw [h2]
      refine ⟨_, _, _, h3, ?_⟩
      cases it with
      | pending => exact Or.inl h5
      | running => exact h5
      | finished r => exact h5
      | dropped => exact h5
    · simp only [other e] at hr
      refine (rest_put ?_ es).1 hr
      intro hp
      obtain ⟨c', it, h4⟩ := v.own i _ hp
      obtain ⟨c', it, h5⟩ := v.own i0 k (by rw [h2]; rfl)
      rw [h5] at h4
      cases h4
      exact e rfl
  | @wake i0 k cancel h1 h2 =>
    rw [seen_quiet]
    by_cases e : i = i0
    · subst e
      simp only [put_same, Rest] at hr
      rw [h2]
      exact hr
    · simp only [other e] at hr
      exact hr
  | @leave i0 k o next j c it h1 h2 h3 h4 =>
    by_cases e : i = i0
    · subst e
      simp only [put_same, Rest] at hr
      rw [h2, seen_same]
      refine ⟨_, _, _, h3, ?_⟩
      cases it with
      | pending => cases h4
      | running => cases h4
      | finished r => exact ⟨es, rfl, hr⟩
      | dropped => exact ⟨es, rfl, hr⟩
    · simp only [other e] at hr
      rw [seen_other (fun h => e h.symm)]
      exact hr

theorem init_inv (ps : List (Prog C R)) : Inv ps [] (World.init ps) where
  own i k h := by
    simp only [World.init] at h
    split at h <;> cases h
  kept i k next cancel c j h := by
    simp only [World.init] at h
    split at h <;> cases h
  live k i c it h _ := by cases h
  new k _ := rfl
  busy i k o next h := by
    simp only [World.init] at h
    split at h <;> cases h
  blocked i h := by cases h
  size i h := by
    simp only [World.init, List.getElem?_eq_none h]
  trace i es h := by
    simp only [World.init] at h
    split at h
    · rename_i p hp
      rw [hp]
      exact h
    · rename_i hp
      rw [hp]
      cases h
      exact .done

/-- A step of a task that neither touches a pool, nor a task's relation to its pool. -/
theorem step_inv {ps : List (Prog C R)} {ls : List (Label C R)} {w w' : World C R} {l : Label C R} (v : Inv ps ls w) (h : Step w l w') : Inv ps (ls ++ [l]) w' := by
  have htrace : ∀ i es, Rest w'.pools (w'.tasks i) es → Direct ((ps[i]?).getD .done) (seen i (ls ++ [l]) ++ es) := by
    intro i es hr
    rw [seen_append, List.append_assoc]
    exact v.trace i _ (local_step v h i es hr)
  have hin : ∀ i, w.tasks i ≠ .over → ¬ ps.length ≤ i := fun i hi hle => hi (v.size i hle)
  have hsize : ∀ {j : Nat} {x : Dispatch.Task C R}, w.tasks j ≠ .over → ∀ i, ps.length ≤ i → put w.tasks j x i = .over := by
    intro j x hj i hi
    have : i ≠ j := fun e => hin j hj (e ▸ hi)
    rw [put_other _ _ this]
    exact v.size i hi
  have free : w.loop = none → ∀ i k o next, w.tasks i ≠ .leaving k o next := by
    intro h1 i k o next h2
    rw [v.busy i k o next h2] at h1
    cases h1
  -- a step that replaces one task by another that is in the same pool, and leaves the pools alone
  have keep : ∀ {i : Nat} {x : Dispatch.Task C R}, pool x = pool (w.tasks i) → w.tasks i ≠ .over → w.loop = none →
      (∀ k o next, x ≠ .leaving k o next) → (∀ k next cancel, x = .awaiting k next cancel → w.tasks i = .awaiting k next cancel) →
      w' = { w with tasks := put w.tasks i x } → Inv ps (ls ++ [l]) w' := by
    intro i x hx hi h1 hl ha he
    subst he
    refine ⟨?_, ?_, ?_, v.new, ?_, ?_, hsize hi, htrace⟩
    · intro j k hp
      by_cases e : j = i
      · subst e; simp only [put_same, hx] at hp; exact v.own j k hp
      · simp only [put_other _ _ e] at hp; exact v.own j k hp
    · intro j k next cancel c j' hp
      by_cases e : j = i
      · subst e; simp only [put_same] at hp; exact v.kept j k next cancel c j' (ha _ _ _ hp)
      · simp only [put_other _ _ e] at hp; exact v.kept j k next cancel c j' hp
    · intro k j c it hk hit
      by_cases e : j = i
      · subst e; simp only [put_same, hx]; exact v.live k j c it hk hit
      · simp only [put_other _ _ e]; exact v.live k j c it hk hit
    · intro j k o next hp
      by_cases e : j = i
      · subst e; simp only [put_same] at hp; exact absurd hp (hl _ _ _)
      · simp only [put_other _ _ e] at hp; exact v.busy j k o next hp
    · intro j hj
      simp only [h1] at hj
      cases hj
  -- the same for a step of a thread
  have thread : ∀ {k i : Nat} {c : C} {it it' : Item R}, w.pools k = some ⟨i, c, it⟩ → it.ended = false → it' ≠ .dropped →
      w' = { w with pools := put w.pools k (some ⟨i, c, it'⟩) } → Inv ps (ls ++ [l]) w' := by
    intro k i c it it' hk hit hd he
    subst he
    refine ⟨?_, ?_, ?_, ?_, v.busy, v.blocked, v.size, htrace⟩
    · intro j k' hp
      obtain ⟨c', it2, h1⟩ := v.own j k' hp
      by_cases e : k' = k
      · subst e
        rw [hk] at h1
        cases h1
        exact ⟨c, it', put_same _ _ _⟩
      · exact ⟨c', it2, by simp only [put_other _ _ e]; exact h1⟩
    · intro j k' next cancel c' j' hp hq
      by_cases e : k' = k
      · subst e
        simp only [put_same] at hq
        cases hq
        exact hd rfl
      · simp only [put_other _ _ e] at hq
        exact v.kept j k' next cancel c' j' hp hq
    · intro k' j c' it2 hq hit2
      by_cases e : k' = k
      · subst e
        simp only [put_same] at hq
        cases hq
        exact v.live _ _ _ _ hk hit
      · simp only [put_other _ _ e] at hq
        exact v.live k' j c' it2 hq hit2
    · intro k' hk'
      have : k' ≠ k := by
        intro e
        subst e
        rw [v.new _ hk'] at hk
        cases hk
      simp only [put_other _ _ this]
      exact v.new k' hk'
  -- a task enters `shutdown`
  have enter : ∀ {i k : Nat} {o : Option R} {next : Prog C R}, pool (w.tasks i) = some k → w.loop = none →
      w' = { w with tasks := put w.tasks i (.leaving k o next), loop := some i } → Inv ps (ls ++ [l]) w' := by
    intro i k o next hx h1 he
    subst he
    have hi : w.tasks i ≠ .over := by intro e; rw [e] at hx; cases hx
    refine ⟨?_, ?_, ?_, v.new, ?_, ?_, hsize hi, htrace⟩
    · intro j k' hp
      by_cases e : j = i
      · subst e; simp only [put_same] at hp; cases hp; exact v.own j k hx
      · simp only [put_other _ _ e] at hp; exact v.own j k' hp
    · intro j k' next' cancel c j' hp
      by_cases e : j = i
      · subst e; simp only [put_same] at hp; cases hp
      · simp only [put_other _ _ e] at hp; exact v.kept j k' next' cancel c j' hp
    · intro k' j c it hk hit
      by_cases e : j = i
      · subst e
        have := v.live k' j c it hk hit
        rw [hx] at this
        cases this
        simp only [put_same]
        rfl
      · simp only [put_other _ _ e]; exact v.live k' j c it hk hit
    · intro j k' o' next' hp
      by_cases e : j = i
      · subst e; rfl
      · simp only [put_other _ _ e] at hp; exact absurd hp (free h1 _ _ _ _)
    · intro j hj
      simp only at hj
      cases hj
      exact ⟨k, o, next, put_same _ _ _⟩
  cases h with
  | @conclude i h1 h2 => exact keep (by rw [h2]; rfl) (by rw [h2]; intro h; cases h) h1 (by intro _ _ _ h; cases h) (by intro _ _ _ h; cases h) rfl
  | @resume i next cancel r h1 h2 => exact keep (by rw [h2]; rfl) (by rw [h2]; intro h; cases h) h1 (by intro _ _ _ h; cases h) (by intro _ _ _ h; cases h) rfl
  | @interrupt i next cancel h1 h2 => exact keep (by rw [h2]; rfl) (by rw [h2]; intro h; cases h) h1 (by intro _ _ _ h; cases h) (by intro _ _ _ h; cases h) rfl
  | @submit i c next cancel h1 h2 =>
    have hne : w.tasks i ≠ .over := by rw [h2]; intro h; cases h
    refine ⟨?_, ?_, ?_, ?_, ?_, ?_, hsize hne, htrace⟩
    · intro j k hp
      by_cases e : j = i
      · subst e; simp only [put_same] at hp; cases hp; exact ⟨c, _, put_same _ _ _⟩
      · simp only [put_other _ _ e] at hp
        obtain ⟨c', it, h3⟩ := v.own j k hp
        refine ⟨c', it, ?_⟩
        have : k ≠ w.fresh := by intro e; rw [e, v.new _ (Nat.le_refl _)] at h3; cases h3
        simp only [put_other _ _ this]
        exact h3
    · intro j k next' cancel' c' j' hp hq
      by_cases e2 : k = w.fresh
      · subst e2; simp only [put_same] at hq; cases hq
      · simp only [put_other _ _ e2] at hq
        by_cases e : j = i
        · subst e; simp only [put_same] at hp; cases hp; exact e2 rfl
        · simp only [put_other _ _ e] at hp
          exact v.kept j k next' cancel' c' j' hp hq
    · intro k j c' it hk hit
      by_cases e2 : k = w.fresh
      · subst e2; simp only [put_same] at hk; cases hk; simp only [put_same]; rfl
      · simp only [put_other _ _ e2] at hk
        have hp := v.live k j c' it hk hit
        by_cases e : j = i
        · subst e; rw [h2] at hp; cases hp
        · simp only [put_other _ _ e]; exact hp
    · intro k hk
      have hk' : w.fresh + 1 ≤ k := hk
      have : k ≠ w.fresh := by omega
      simp only [put_other _ _ this]
      exact v.new k (by omega)
    · intro j k o next' hp
      by_cases e : j = i
      · subst e; simp only [put_same] at hp; cases hp
      · simp only [put_other _ _ e] at hp; exact v.busy j k o next' hp
    · intro j hj
      simp only [h1] at hj
      cases hj
  | @start k i c h1 => exact thread h1 rfl (by intro h; cases h) rfl
  | @finish k i c r h1 => exact thread h1 rfl (by intro h; cases h) rfl
  | @deliver i k next cancel j c r h1 h2 h3 => exact enter (by rw [h2]; rfl) h1 rfl
  | @cancel i k next cancel h1 h2 => exact keep (by rw [h2]; rfl) (by rw [h2]; intro h; cases h) h1 (by intro _ _ _ h; cases h) (by intro _ _ _ h; cases h) rfl
  | @revoke i k cancel j c it h1 h2 h3 =>
    have hx : pool (w.tasks i) = some k := by rw [h2]; rfl
    obtain ⟨c0, it0, h4⟩ := v.own i k hx
    rw [h3] at h4
    cases h4
    have hne : w.tasks i ≠ .over := by rw [h2]; intro h; cases h
    refine ⟨?_, ?_, ?_, ?_, ?_, ?_, hsize hne, htrace⟩
    · intro j' k' hp
      have hp' : pool (w.tasks j') = some k' := by
        by_cases e : j' = i
        · subst e; simp only [put_same] at hp; cases hp; exact hx
        · simp only [put_other _ _ e] at hp; exact hp
      obtain ⟨c', it2, h5⟩ := v.own j' k' hp'
      by_cases e : k' = k
      · subst e
        rw [h3] at h5
        cases h5
        exact ⟨_, _, put_same _ _ _⟩
      · exact ⟨c', it2, by simp only [put_other _ _ e]; exact h5⟩
    · intro j' k' next' cancel' c' j2 hp hq
      by_cases e : j' = i
      · subst e; simp only [put_same] at hp; cases hp
      · simp only [put_other _ _ e] at hp
        by_cases e2 : k' = k
        · subst e2
          obtain ⟨c3, it3, h5⟩ := v.own j' k' (by rw [hp]; rfl)
          rw [h3] at h5
          cases h5
          exact e rfl
        · simp only [put_other _ _ e2] at hq
          exact v.kept j' k' next' cancel' c' j2 hp hq
    · intro k' j' c' it2 hk hit
      have hpool : ∀ q, pool (put w.tasks i (.revoked k cancel) q) = pool (w.tasks q) := by
        intro q
        by_cases e : q = i
        · subst e; rw [put_same, hx]; rfl
        · rw [put_other _ _ e]
      simp only [hpool]
      by_cases e2 : k' = k
      · subst e2
        simp only [put_same] at hk
        cases hk
        exact hx
      · simp only [put_other _ _ e2] at hk
        exact v.live k' j' c' it2 hk hit
    · intro k' hk'
      have : k' ≠ k := by
        intro e
        subst e
        rw [v.new _ hk'] at h3
        cases h3
      simp only [put_other _ _ this]
      exact v.new k' hk'
    · intro j' k' o next' hp
      by_cases e : j' = i
      · subst e; simp only [put_same] at hp; cases hp
      · simp only [put_other _ _ e] at hp; exact v.busy j' k' o next' hp
    · intro j' hj
      simp only [h1] at hj
      cases hj
  | @wake i k cancel h1 h2 => exact enter (by rw [h2]; rfl) h1 rfl
  | @leave i k o next j c it h1 h2 h3 h4 =>
    have hne : w.tasks i ≠ .over := by rw [h2]; intro h; cases h
    refine ⟨?_, ?_, ?_, v.new, ?_, ?_, hsize hne, htrace⟩
    · intro j' k' hp
      by_cases e : j' = i
      · subst e; simp only [put_same] at hp; cases hp
      · simp only [put_other _ _ e] at hp; exact v.own j' k' hp
    · intro j' k' next' cancel c' j2 hp
      by_cases e : j' = i
      · subst e; simp only [put_same] at hp; cases hp
      · simp only [put_other _ _ e] at hp; exact v.kept j' k' next' cancel c' j2 hp
    · intro k' j' c' it' hk hit
      by_cases e : j' = i
      · subst e
        have := v.live k' j' c' it' hk hit
        rw [h2] at this
        cases this
        rw [h3] at hk
        cases hk
        rw [h4] at hit
        cases hit
      · simp only [put_other _ _ e]; exact v.live k' j' c' it' hk hit
    · intro j' k' o' next' hp
      by_cases e : j' = i
      · subst e; simp only [put_same] at hp; cases hp
      · simp only [put_other _ _ e] at hp
        have := v.busy j' k' o' next' hp
        rw [h1] at this
        cases this
        exact absurd rfl e
    · intro j' hj
      cases hj

theorem inv {ps : List (Prog C R)} {ls : List (Label C R)} {w : World C R} (h : Exec ps ls w) : Inv ps ls w := by
  induction h with
  | init => exact init_inv ps
  | step _ h ih => exact step_inv ih h

/-- Every program has a complete run. -/
theorem direct_exists (p : Prog C R) : ∃ es, Direct p es := by
  induction p with
  | done => exact ⟨_, .done⟩
  | wait next cancel _ ih => obtain ⟨es, h⟩ := ih; exact ⟨es, .waitCancelled h⟩
  | call c next cancel _ ih => obtain ⟨es, h⟩ := ih; exact ⟨_, .cancelledBefore h⟩

theorem stop_exists [Inhabited R] (c : C) (it : Item R) (o : Option R) (next : Prog C R) : ∃ es, Stop c it o next es := by
  obtain ⟨es, h⟩ := direct_exists next
  cases it with
  | pending => exact ⟨_, Or.inl ⟨es, rfl, h⟩⟩
  | running => exact ⟨_, default, _, rfl, es, rfl, h⟩
  | finished r => exact ⟨_, es, rfl, h⟩
  | dropped => exact ⟨_, es, rfl, h⟩

theorem rest_exists [Inhabited R] {ps : List (Prog C R)} {ls : List (Label C R)} {w : World C R} (v : Inv ps ls w) (i : Nat) : ∃ es, Rest w.pools (w.tasks i) es := by
  have ho := v.own i
  have hk := v.kept i
  generalize w.tasks i = tk at ho hk
  cases tk with
  | ready p => exact direct_exists p
  | over => exact ⟨[], rfl⟩
  | awaiting k next cancel =>
    obtain ⟨c, it, h⟩ := ho k rfl
    obtain ⟨es, he⟩ := direct_exists cancel
    cases it with
    | pending => exact ⟨_, _, _, _, h, .cancelledBefore he⟩
    | running => exact ⟨_, _, _, _, h, default, _, rfl, Or.inr ⟨es, rfl, he⟩⟩
    | finished r => exact ⟨_, _, _, _, h, Or.inr ⟨es, rfl, he⟩⟩
    | dropped => exact absurd h (hk _ _ _ _ _ rfl)
  | cancelling k cancel =>
    obtain ⟨c, it, h⟩ := ho k rfl
    obtain ⟨es, he⟩ := stop_exists c it none cancel
    exact ⟨es, _, _, _, h, he⟩
  | revoked k cancel =>
    obtain ⟨c, it, h⟩ := ho k rfl
    obtain ⟨es, he⟩ := stop_exists c it none cancel
    exact ⟨es, _, _, _, h, he⟩
  | leaving k o next =>
    obtain ⟨c, it, h⟩ := ho k rfl
    obtain ⟨es, he⟩ := stop_exists c it o next
    exact ⟨es, _, _, _, h, he⟩

end C64

variable {C R : Type}

/-- Under every schedule, what is seen of a task is (the beginning of) a run in which every function is called directly; when the task is over, it is a complete one. -/
theorem C64_as_if_direct [Inhabited R] {ps : List (Prog C R)} {ls : List (Label C R)} {w : World C R} (h : Exec ps ls w) {i : Nat} {p : Prog C R} (hp : ps[i]? = some p) :
    (∃ rest, Direct p (seen i ls ++ rest)) ∧ (w.tasks i = .over → Direct p (seen i ls)) := by
  have v := C64.inv h
  have ht := v.trace i
  rw [hp] at ht
  constructor
  · obtain ⟨es, he⟩ := C64.rest_exists v i
    exact ⟨es, ht es he⟩
  · intro ho
    have := ht [] (by rw [ho]; rfl)
    rwa [List.append_nil] at this

namespace C64

variable {C R : Type}

/-- A task that is ready may run to its end as any of its direct runs, while the others stand still. -/
theorem run_direct {ps : List (Prog C R)} {p : Prog C R} {es : List (Event C R)} (hd : Direct p es) :
    ∀ {ls : List (Label C R)} {w : World C R} {i : Nat}, Exec ps ls w → w.loop = none → w.tasks i = .ready p →
      ∃ ls' w', Exec ps (ls ++ ls') w' ∧ seen i ls' = es ∧ (∀ j, j ≠ i → seen j ls' = []) ∧ w'.loop = none ∧ w'.tasks i = .over ∧
        ∀ j, j ≠ i → w'.tasks j = w.tasks j := by
  induction hd with
  | done =>
    intro ls w i h hl ht
    refine ⟨[.quiet], _, .step h (.conclude hl ht), rfl, fun _ _ => rfl, hl, put_same _ _ _, fun j hj => put_other _ _ hj⟩
  | wait r _ ih =>
    intro ls w i h hl ht
    obtain ⟨ls', w', h1, h2, h3, h4, h5, h6⟩ := ih (i := i) (.step h (.resume r hl ht)) hl (put_same _ _ _)
    refine ⟨.quiet :: ls', w', by simpa using h1, h2, h3, h4, h5, ?_⟩
    intro j hj
    rw [h6 j hj]
    exact put_other _ _ hj
  | waitCancelled _ ih =>
    intro ls w i h hl ht
    obtain ⟨ls', w', h1, h2, h3, h4, h5, h6⟩ := ih (i := i) (.step h (.interrupt hl ht)) hl (put_same _ _ _)
    refine ⟨.cancel i :: ls', w', by simpa using h1, h2, h3, h4, h5, ?_⟩
    intro j hj
    rw [h6 j hj]
    exact put_other _ _ hj
  | @call c next cancel es r _ ih =>
    intro ls w i h hl ht
    have e1 := Exec.step h (.submit hl ht)
    have e2 := Exec.step e1 (.start (k := w.fresh) (put_same _ _ _))
    have e3 := Exec.step e2 (.finish r (k := w.fresh) (put_same _ _ _))
    have e4 := Exec.step e3 (.deliver (i := i) (k := w.fresh) hl (put_same _ _ _) (put_same _ _ _))
    have e5 := Exec.step e4 (.leave (i := i) rfl (put_same _ _ _) (put_same _ _ _) rfl)
    obtain ⟨ls', w', h1, h2, h3, h4, h5, h6⟩ := ih (i := i) e5 rfl (put_same _ _ _)
    refine ⟨.event i (.called c) :: .event i (.start c) :: .event i (.finish c r) :: .quiet :: .event i (.returned c (some r)) :: ls', w', by simpa using h1, ?_, ?_, h4, h5, ?_⟩
    · simp only [seen, List.filterMap_cons, if_true] at h2 ⊢
      rw [h2]
    · intro j hj
      have := h3 j hj
      simp only [seen, List.filterMap_cons, if_neg (Ne.symm hj)] at this ⊢
      exact this
    · intro j hj
      rw [h6 j hj]
      simp only [put_other _ _ hj]
  | @cancelledBefore c next cancel es _ ih =>
    intro ls w i h hl ht
    have e1 := Exec.step h (.submit hl ht)
    have e2 := Exec.step e1 (.cancel (i := i) (k := w.fresh) hl (put_same _ _ _))
    have e3 := Exec.step e2 (.revoke (i := i) (k := w.fresh) hl (put_same _ _ _) (put_same _ _ _))
    have e4 := Exec.step e3 (.wake (i := i) (k := w.fresh) hl (put_same _ _ _))
    have e5 := Exec.step e4 (.leave (i := i) rfl (put_same _ _ _) (put_same _ _ _) rfl)
    obtain ⟨ls', w', h1, h2, h3, h4, h5, h6⟩ := ih (i := i) e5 rfl (put_same _ _ _)
    refine ⟨.event i (.called c) :: .cancel i :: .quiet :: .quiet :: .event i (.returned c none) :: ls', w', by simpa using h1, ?_, ?_, h4, h5, ?_⟩
    · simp only [seen, List.filterMap_cons, if_true] at h2 ⊢
      rw [h2]
    · intro j hj
      have := h3 j hj
      simp only [seen, List.filterMap_cons, if_neg (Ne.symm hj)] at this ⊢
      exact this
    · intro j hj
      rw [h6 j hj]
      simp only [put_other _ _ hj]
  | @cancelledAfter c next cancel es r _ ih =>
    intro ls w i h hl ht
    have e1 := Exec.step h (.submit hl ht)
    have e2 := Exec.step e1 (.start (k := w.fresh) (put_same _ _ _))
    have e3 := Exec.step e2 (.cancel (i := i) (k := w.fresh) hl (put_same _ _ _))
    have e4 := Exec.step e3 (.revoke (i := i) (k := w.fresh) hl (put_same _ _ _) (put_same _ _ _))
    have e5 := Exec.step e4 (.wake (i := i) (k := w.fresh) hl (put_same _ _ _))
    have e6 := Exec.step e5 (.finish r (k := w.fresh) (put_same _ _ _))
    have e7 := Exec.step e6 (.leave (i := i) rfl (put_same _ _ _) (put_same _ _ _) rfl)
    obtain ⟨ls', w', h1, h2, h3, h4, h5, h6⟩ := ih (i := i) e7 rfl (put_same _ _ _)
    refine ⟨.event i (.called c) :: .event i (.start c) :: .cancel i :: .quiet :: .quiet :: .event i (.finish c r) :: .event i (.returned c none) :: ls', w', by simpa using h1, ?_, ?_, h4, h5, ?_⟩
    · simp only [seen, List.filterMap_cons, if_true] at h2 ⊢
      rw [h2]
    · intro j hj
      have := h3 j hj
      simp only [seen, List.filterMap_cons, if_neg (Ne.symm hj)] at this ⊢
      exact this
    · intro j hj
      rw [h6 j hj]
      simp only [put_other _ _ hj]

end C64

/-- The specification allows nothing else: every direct run of a task is what is seen of it under some schedule. -/
theorem C64_exact [Inhabited R] {ps : List (Prog C R)} {i : Nat} {p : Prog C R} (hp : ps[i]? = some p) (es : List (Event C R)) :
    Direct p es ↔ ∃ ls w, Exec ps ls w ∧ w.tasks i = .over ∧ seen i ls = es := by
  constructor
  · intro hd
    obtain ⟨ls, w, h1, h2, _, _, h5, _⟩ := C64.run_direct hd (i := i) (Exec.init (ps := ps)) rfl (by simp only [World.init, hp])
    exact ⟨_, w, h1, h5, by simpa using h2⟩
  · rintro ⟨ls, w, h, ho, rfl⟩
    exact (C64_as_if_direct h hp).2 ho

namespace C64

variable {C R : Type}

/-- From a call to its return, in a direct run. -/
theorem direct_once {p : Prog C R} {es : List (Event C R)} (hd : Direct p es) : ∀ {xs ys zs : List (Event C R)} {c c' : C} {o : Option R},
    es = xs ++ .called c :: (ys ++ .returned c' o :: zs) → (∀ c2, Event.called c2 ∉ ys) → (∀ c2 o2, Event.returned c2 o2 ∉ ys) →
    c' = c ∧ (ys = [] ∧ o = none ∨ ∃ r, ys = [.start c, .finish c r] ∧ (o = some r ∨ o = none)) := by
  have short : ∀ {ys zs es : List (Event C R)} {c0 c c' : C} {o o' : Option R} {mid : List (Event C R)} , (∀ c2 o2, Event.returned c2 o2 ∉ mid) → (∀ c2 o2, Event.returned c2 o2 ∉ ys) →
      mid ++ .returned c0 o' :: es = ys ++ .returned c' o :: zs → ys = mid ∧ c0 = c' ∧ o' = o := by
    intro ys zs es c0 c c' o o' mid
    induction mid generalizing ys with
    | nil =>
      intro _ h2 h3
      cases ys with
      | nil => cases h3; exact ⟨rfl, rfl, rfl⟩
      | cons y ys =>
        simp only [List.nil_append, List.cons_append, List.cons.injEq] at h3
        rw [← h3.1] at h2
        exact absurd List.mem_cons_self (h2 c0 o')
    | cons m mid ih =>
      intro h1 h2 h3
      cases ys with
      | nil =>
        simp only [List.nil_append, List.cons_append, List.cons.injEq] at h3
        rw [h3.1] at h1
        exact absurd List.mem_cons_self (h1 c' o)
      | cons y ys =>
        simp only [List.cons_append, List.cons.injEq] at h3
        obtain ⟨rfl, h3⟩ := h3
        obtain ⟨rfl, h4⟩ := ih (fun a b h => h1 a b (List.mem_cons_of_mem _ h)) (fun a b h => h2 a b (List.mem_cons_of_mem _ h)) h3
        exact ⟨rfl, h4⟩
  have nilp : ∀ (c2 : C) (o2 : Option R), Event.returned c2 o2 ∉ ([] : List (Event C R)) := by intro _ _ h; cases h
  have twop : ∀ (c : C) (r : R) (c2 : C) (o2 : Option R), Event.returned c2 o2 ∉ ([.start c, .finish c r] : List (Event C R)) := by
    intro c r c2 o2 h; simp at h
  induction hd with
  | done => intro xs ys zs c c' o h; cases xs <;> cases h
  | wait r _ ih => exact ih
  | waitCancelled _ ih => exact ih
  | @call c0 next cancel es r _ ih =>
    intro xs ys zs c c' o h h1 h2
    match xs, h with
    | [], h =>
      simp only [List.nil_append, List.cons.injEq, Event.called.injEq] at h
      obtain ⟨rfl, h9⟩ := h
      obtain ⟨rfl, rfl, rfl⟩ := short (c := c0) (twop c0 r) h2 (mid := [.start c0, .finish c0 r]) h9
      exact ⟨rfl, Or.inr ⟨r, rfl, Or.inl rfl⟩⟩
    | [_], h => simp at h
    | [_, _], h => simp at h
    | [_, _, _], h => simp at h
    | _ :: _ :: _ :: _ :: xs, h =>
      simp only [List.cons_append, List.cons.injEq] at h
      exact ih h.2.2.2.2 h1 h2
  | @cancelledBefore c0 next cancel es _ ih =>
    intro xs ys zs c c' o h h1 h2
    match xs, h with
    | [], h =>
      simp only [List.nil_append, List.cons.injEq, Event.called.injEq] at h
      obtain ⟨rfl, h9⟩ := h
      obtain ⟨rfl, rfl, rfl⟩ := short (c := c0) nilp h2 (mid := []) h9
      exact ⟨rfl, Or.inl ⟨rfl, rfl⟩⟩
    | [_], h => simp at h
    | _ :: _ :: xs, h =>
      simp only [List.cons_append, List.cons.injEq] at h
      exact ih h.2.2 h1 h2
  | @cancelledAfter c0 next cancel es r _ ih =>
    intro xs ys zs c c' o h h1 h2
    match xs, h with
    | [], h =>
      simp only [List.nil_append, List.cons.injEq, Event.called.injEq] at h
      obtain ⟨rfl, h9⟩ := h
      obtain ⟨rfl, rfl, rfl⟩ := short (c := c0) (twop c0 r) h2 (mid := [.start c0, .finish c0 r]) h9
      exact ⟨rfl, Or.inr ⟨r, rfl, Or.inr rfl⟩⟩
    | [_], h => simp at h
    | [_, _], h => simp at h
    | [_, _, _], h => simp at h
    | _ :: _ :: _ :: _ :: xs, h =>
      simp only [List.cons_append, List.cons.injEq] at h
      exact ih h.2.2.2.2 h1 h2

/-- Whenever a call returns, as many functions have finished as have started. -/
theorem direct_settled {p : Prog C R} {es : List (Event C R)} (hd : Direct p es) : startsOf es = finishesOf es ∧
    ∀ {xs ys : List (Event C R)} {c : C} {o : Option R}, es = xs ++ .returned c o :: ys → startsOf xs = finishesOf xs := by
  induction hd with
  | done => exact ⟨rfl, by intro xs ys c o h; cases xs <;> cases h⟩
  | wait r _ ih => exact ih
  | waitCancelled _ ih => exact ih
  | @call c0 next cancel es r _ ih =>
    refine ⟨by simpa [startsOf, finishesOf, List.countP_cons] using ih.1, ?_⟩
    intro xs ys c o h
    match xs, h with
    | [], h => simp at h
    | [_], h => simp at h
    | [_, _], h => simp at h
    | [a, b, d], h =>
      simp only [List.cons_append, List.cons.injEq] at h
      obtain ⟨rfl, rfl, rfl, _⟩ := h
      rfl
    | a :: b :: d :: e :: xs, h =>
      simp only [List.cons_append, List.cons.injEq] at h
      obtain ⟨rfl, rfl, rfl, rfl, h⟩ := h
      simpa [startsOf, finishesOf, List.countP_cons] using ih.2 h
  | @cancelledBefore c0 next cancel es _ ih =>
    refine ⟨by simpa [startsOf, finishesOf, List.countP_cons] using ih.1, ?_⟩
    intro xs ys c o h
    match xs, h with
    | [], h => simp at h
    | [a], h =>
      simp only [List.cons_append, List.cons.injEq] at h
      obtain ⟨rfl, _⟩ := h
      rfl
    | a :: b :: xs, h =>
      simp only [List.cons_append, List.cons.injEq] at h
      obtain ⟨rfl, rfl, h⟩ := h
      simpa [startsOf, finishesOf, List.countP_cons] using ih.2 h
  | @cancelledAfter c0 next cancel es r _ ih =>
    refine ⟨by simpa [startsOf, finishesOf, List.countP_cons] using ih.1, ?_⟩
    intro xs ys c o h
    match xs, h with
    | [], h => simp at h
    | [_], h => simp at h
    | [_, _], h => simp at h
    | [a, b, d], h =>
      simp only [List.cons_append, List.cons.injEq] at h
      obtain ⟨rfl, rfl, rfl, _⟩ := h
      rfl
    | a :: b :: d :: e :: xs, h =>
      simp only [List.cons_append, List.cons.injEq] at h
      obtain ⟨rfl, rfl, rfl, rfl, h⟩ := h
      simpa [startsOf, finishesOf, List.countP_cons] using ih.2 h

end C64

/-- A call that has returned has run its function exactly once, from start to finish, between the call and its return, and returns what the function has returned; a call that is
    cancelled has run it so, too, or not at all. Never later, never twice, never in part. -/
theorem C64_once [Inhabited R] {ps : List (Prog C R)} {l1 l2 l3 : List (Label C R)} {i : Nat} {c c' : C} {o : Option R} {w : World C R}
    (h : Exec ps (l1 ++ .event i (.called c) :: (l2 ++ .event i (.returned c' o) :: l3)) w)
    (hc : ∀ c2, Event.called c2 ∉ seen i l2) (hr : ∀ c2 o2, Event.returned c2 o2 ∉ seen i l2) :
    c' = c ∧ (seen i l2 = [] ∧ o = none ∨ ∃ r, seen i l2 = [.start c, .finish c r] ∧ (o = some r ∨ o = none)) := by
  have v := C64.inv h
  obtain ⟨es, he⟩ := C64.rest_exists v i
  have hd := v.trace i es he
  refine C64.direct_once hd (xs := seen i l1) (zs := seen i l3 ++ es) ?_ hc hr
  simp only [seen, List.filterMap_append, List.filterMap_cons, if_true, List.append_assoc, List.cons_append]

/-- When a call of a task returns, normally or not, no function that the task has called is running; nor when the task is over. -/
theorem C64_returned_settled [Inhabited R] {ps : List (Prog C R)} {ls : List (Label C R)} {i : Nat} {w : World C R} :
    (∀ c o, Exec ps (ls ++ [.event i (.returned c o)]) w → startsOf (seen i ls) = finishesOf (seen i ls)) ∧
    (Exec ps ls w → w.tasks i = .over → startsOf (seen i ls) = finishesOf (seen i ls)) := by
  constructor
  · intro c o h
    have v := C64.inv h
    obtain ⟨es, he⟩ := C64.rest_exists v i
    have hd := v.trace i es he
    refine (C64.direct_settled hd).2 (c := c) (o := o) (ys := es) ?_
    rw [C64.seen_append, C64.seen_same, List.append_assoc]
    rfl
  · intro h ho
    have hd := (C64.inv h).trace i [] (by rw [ho]; rfl)
    rw [List.append_nil] at hd
    exact (C64.direct_settled hd).1

namespace C64

variable {C R : Type}

/-- The part of what is seen that the driver sees. -/
def pick (conn : C → Nat) (n : Nat) (e : Event C R) : Option (Event C R) :=
  match e with
  | .start c => if conn c = n then some (.start c) else none
  | .finish c r => if conn c = n then some (.finish c r) else none
  | _ => none

theorem direct_uses {conn : C → Nat} {n : Nat} {p : Prog C R} {es : List (Event C R)} (hd : Direct p es) : ∀ e ∈ es, pick conn n e ≠ none → Uses conn n p := by
  have hs : ∀ {c : C}, pick (R := R) conn n (.start c) ≠ none → conn c = n := by
    intro c h
    simp only [pick] at h
    split at h
    · assumption
    · exact absurd rfl h
  have hf : ∀ {c : C} {r : R}, pick conn n (.finish c r) ≠ none → conn c = n := by
    intro c r h
    simp only [pick] at h
    split at h
    · assumption
    · exact absurd rfl h
  induction hd with
  | done => intro e he; cases he
  | wait r _ ih => intro e he hp; exact .waitNext r (ih e he hp)
  | waitCancelled _ ih => intro e he hp; exact .waitCancel (ih e he hp)
  | call r _ ih =>
    intro e he hp
    simp only [List.mem_cons] at he
    rcases he with rfl | rfl | rfl | rfl | he
    · exact absurd rfl hp
    · exact .here (hs hp)
    · exact .here (hf hp)
    · exact absurd rfl hp
    · exact .next r (ih e he hp)
  | cancelledBefore _ ih =>
    intro e he hp
    simp only [List.mem_cons] at he
    rcases he with rfl | rfl | he
    · exact absurd rfl hp
    · exact absurd rfl hp
    · exact .cancel (ih e he hp)
  | cancelledAfter r _ ih =>
    intro e he hp
    simp only [List.mem_cons] at he
    rcases he with rfl | rfl | rfl | rfl | he
    · exact absurd rfl hp
    · exact .here (hs hp)
    · exact .here (hf hp)
    · exact absurd rfl hp
    · exact .cancel (ih e he hp)

theorem direct_serial (conn : C → Nat) (n : Nat) {p : Prog C R} {es : List (Event C R)} (hd : Direct p es) : Serial (es.filterMap (pick conn n)) := by
  have two : ∀ {c : C} {r : R} {es : List (Event C R)} {o : Option R}, Serial (es.filterMap (pick conn n)) →
      Serial ((Event.called c :: .start c :: .finish c r :: .returned c o :: es).filterMap (pick conn n)) := by
    intro c r es o h
    by_cases e : conn c = n
    · simp only [List.filterMap_cons, pick, if_pos e]
      exact .one c r h
    · simp only [List.filterMap_cons, pick, if_neg e]
      exact h
  induction hd with
  | done => exact .nil
  | wait r _ ih => exact ih
  | waitCancelled _ ih => exact ih
  | call r _ ih => exact two ih
  | cancelledBefore _ ih => simpa [List.filterMap_cons, pick] using ih
  | cancelledAfter r _ ih => exact two ih

theorem serial_prefix {xs ys : List (Event C R)} (h : Serial (xs ++ ys)) : Serial xs := by
  generalize hz : xs ++ ys = zs at h
  induction h generalizing xs with
  | nil =>
    cases xs with
    | nil => exact .nil
    | cons _ _ => cases hz
  | running c =>
    match xs, hz with
    | [], _ => exact .nil
    | [x], hz => simp only [List.cons_append, List.cons.injEq] at hz; rw [hz.1]; exact .running c
    | _ :: _ :: _, hz => simp at hz
  | one c r _ ih =>
    match xs, hz with
    | [], _ => exact .nil
    | [x], hz => simp only [List.cons_append, List.cons.injEq] at hz; rw [hz.1]; exact .running c
    | x :: y :: xs, hz =>
      simp only [List.cons_append, List.cons.injEq] at hz
      obtain ⟨rfl, rfl, hz⟩ := hz
      exact .one c r (ih hz)

theorem driver_seen (conn : C → Nat) (n i : Nat) (ls : List (Label C R)) (h : ∀ j e, .event j e ∈ ls → pick conn n e ≠ none → j = i) :
    driver conn n ls = (seen i ls).filterMap (pick conn n) := by
  induction ls with
  | nil => rfl
  | cons l ls ih =>
    have ih := ih (fun j e he => h j e (List.mem_cons_of_mem _ he))
    simp only [driver, seen] at ih
    simp only [driver, seen]
    cases l with
    | cancel j => simpa [List.filterMap_cons] using ih
    | quiet => simpa [List.filterMap_cons] using ih
    | event j e =>
      by_cases hj : j = i
      · subst hj
        cases e with
        | called c => simp only [List.filterMap_cons, if_true, pick]; exact ih
        | returned c o => simp only [List.filterMap_cons, if_true, pick]; exact ih
        | start c =>
          by_cases hc : conn c = n
          · simp only [List.filterMap_cons, if_true, pick, if_pos hc, ih]
          · simp only [List.filterMap_cons, if_true, pick, if_neg hc, ih]
        | finish c r =>
          by_cases hc : conn c = n
          · simp only [List.filterMap_cons, if_true, pick, if_pos hc, ih]
          · simp only [List.filterMap_cons, if_true, pick, if_neg hc, ih]
      · have hno : pick conn n e = none := by
          cases hp : pick conn n e with
          | none => rfl
          | some x => exact absurd (h j e List.mem_cons_self (by rw [hp]; intro h; cases h)) hj
        cases e with
        | called c => simp only [List.filterMap_cons, if_neg hj]; exact ih
        | returned c o => simp only [List.filterMap_cons, if_neg hj]; exact ih
        | start c =>
          simp only [pick] at hno
          split at hno
          · cases hno
          · rename_i hc; simp only [List.filterMap_cons, if_neg hj, if_neg hc]; exact ih
        | finish c r =>
          simp only [pick] at hno
          split at hno
          · cases hno
          · rename_i hc; simp only [List.filterMap_cons, if_neg hj, if_neg hc]; exact ih

theorem mem_seen {i : Nat} {e : Event C R} {ls : List (Label C R)} (h : .event i e ∈ ls) : e ∈ seen i ls := by
  simp only [seen, List.mem_filterMap]
  exact ⟨_, h, by simp⟩

end C64

/-- A connection that only one task uses: the driver sees one function at a time, under every schedule, wherever tasks are cancelled, whatever the other tasks do. -/
theorem C64_no_overlap [Inhabited R] {ps : List (Prog C R)} {ls : List (Label C R)} {w : World C R} (h : Exec ps ls w) (conn : C → Nat) (n : Nat)
    (h1 : ∀ (i j : Nat) (p q : Prog C R), ps[i]? = some p → ps[j]? = some q → Uses conn n p → Uses conn n q → i = j) : Serial (driver conn n ls) := by
  have v := C64.inv h
  -- whoever has an event on the connection uses it
  have huse : ∀ j e, .event j e ∈ ls → C64.pick conn n e ≠ none → ∃ p, ps[j]? = some p ∧ Uses conn n p := by
    intro j e he hp
    obtain ⟨es, hr⟩ := C64.rest_exists v j
    have hd := v.trace j es hr
    have hu := C64.direct_uses hd e (List.mem_append_left _ (C64.mem_seen he)) hp
    cases hps : ps[j]? with
    | none => rw [hps] at hu; cases hu
    | some p => rw [hps] at hu; exact ⟨p, rfl, hu⟩
  have key : ∀ i, (∀ j e, .event j e ∈ ls → C64.pick conn n e ≠ none → j = i) → Serial (driver conn n ls) := by
    intro i hi
    rw [C64.driver_seen conn n i ls hi]
    obtain ⟨es, hr⟩ := C64.rest_exists v i
    have hs := C64.direct_serial conn n (v.trace i es hr)
    rw [List.filterMap_append] at hs
    exact C64.serial_prefix hs
  by_cases hex : ∃ (i : Nat) (p : Prog C R), ps[i]? = some p ∧ Uses conn n p
  · obtain ⟨i, p, hp, hu⟩ := hex
    refine key i ?_
    intro j e he hpk
    obtain ⟨q, hq, hu'⟩ := huse j e he hpk
    exact h1 j i q p hq hp hu' hu
  · refine key 0 ?_
    intro j e he hpk
    exact absurd ⟨j, huse j e he hpk⟩ hex

/-- A connection that two tasks share: nothing keeps their functions from running at the same time. -/
theorem C64_shared_fails (conn : C → Nat) (n : Nat) {c1 c2 : C} (e1 : conn c1 = n) (e2 : conn c2 = n) (next1 next2 : R → Prog C R) (cancel1 cancel2 : Prog C R) :
    ∃ ls w, Exec [.call c1 next1 cancel1, .call c2 next2 cancel2] ls w ∧ driver conn n ls = [.start c1, .start c2] ∧ ¬ Serial (driver conn n ls) := by
  have s1 := Exec.step (Exec.init (ps := [.call c1 next1 cancel1, .call c2 next2 cancel2])) (.submit (i := 0) rfl rfl)
  have s2 := Exec.step s1 (.submit (i := 1) rfl rfl)
  have s3 := Exec.step s2 (.start (k := 0) rfl)
  have s4 := Exec.step s3 (.start (k := 1) rfl)
  have hd : driver conn n ([] ++ [.event 0 (.called c1)] ++ [.event 1 (.called c2)] ++ [.event 0 (.start c1)] ++ [.event 1 (.start c2)] : List (Label C R)) =
      [.start c1, .start c2] := by
    simp [driver, e1, e2]
  refine ⟨_, _, s4, hd, ?_⟩
  rw [hd]
  intro h
  cases h

namespace C64

variable {C R : Type}

/-- Nothing but cancelling is needed to go on. -/
theorem progress [Inhabited R] {ps : List (Prog C R)} {ls : List (Label C R)} {w : World C R} (v : Inv ps ls w) {i : Nat} (hi : w.tasks i ≠ .over) :
    ∃ l w', Step w l w' ∧ ∀ j, l ≠ .cancel j := by
  have pool_step : ∀ {k j : Nat} {c : C} {it : Item R}, w.pools k = some ⟨j, c, it⟩ → it.ended = false → ∃ l w', Step w l w' ∧ ∀ j, l ≠ .cancel j := by
    intro k j c it h1 h2
    cases it with
    | pending => exact ⟨_, _, .start h1, by intro _ h; cases h⟩
    | running => exact ⟨_, _, .finish default h1, by intro _ h; cases h⟩
    | finished r => cases h2
    | dropped => cases h2
  cases hl : w.loop with
  | some j =>
    obtain ⟨k, o, next, ht⟩ := v.blocked j hl
    obtain ⟨c, it, hk⟩ := v.own j k (by rw [ht]; rfl)
    cases hit : it.ended with
    | true => exact ⟨_, _, .leave hl ht hk hit, by intro _ h; cases h⟩
    | false => exact pool_step hk hit
  | none =>
    cases ht : w.tasks i with
    | over => exact absurd ht hi
    | ready p =>
      cases p with
      | done => exact ⟨_, _, .conclude hl ht, by intro _ h; cases h⟩
      | wait next cancel => exact ⟨_, _, .resume default hl ht, by intro _ h; cases h⟩
      | call c next cancel => exact ⟨_, _, .submit hl ht, by intro _ h; cases h⟩
    | awaiting k next cancel =>
      obtain ⟨c, it, hk⟩ := v.own i k (by rw [ht]; rfl)
      cases it with
      | pending => exact pool_step hk rfl
      | running => exact pool_step hk rfl
      | finished r => exact ⟨_, _, .deliver hl ht hk, by intro _ h; cases h⟩
      | dropped => exact absurd hk (v.kept _ _ _ _ _ _ ht)
    | cancelling k cancel =>
      obtain ⟨c, it, hk⟩ := v.own i k (by rw [ht]; rfl)
      exact ⟨_, _, .revoke hl ht hk, by intro _ h; cases h⟩
    | revoked k cancel => exact ⟨_, _, .wake hl ht, by intro _ h; cases h⟩
    | leaving k o next =>
      rw [v.busy i k o next ht] at hl
      cases hl

/-- A task and its work item. -/
abbrev Loc (C R : Type) := Dispatch.Task C R × Option (Item R)

/-- How they change. -/
inductive LStep : Loc C R → Loc C R → Prop
  | conclude : LStep (.ready .done, none) (.over, none)
  | resume {next : R → Prog C R} {cancel : Prog C R} (r : R) : LStep (.ready (.wait next cancel), none) (.ready (next r), none)
  | interrupt {next : R → Prog C R} {cancel : Prog C R} : LStep (.ready (.wait next cancel), none) (.ready cancel, none)
  | submit {c : C} {k : Nat} {next : R → Prog C R} {cancel : Prog C R} : LStep (.ready (.call c next cancel), none) (.awaiting k next cancel, some .pending)
  | start {t : Dispatch.Task C R} : LStep (t, some .pending) (t, some .running)
  | finish {t : Dispatch.Task C R} (r : R) : LStep (t, some .running) (t, some (.finished r))
  | deliver {k : Nat} {next : R → Prog C R} {cancel : Prog C R} {r : R} : LStep (.awaiting k next cancel, some (.finished r)) (.leaving k (some r) (next r), some (.finished r))
  | cancel {k : Nat} {next : R → Prog C R} {cancel : Prog C R} {it : Item R} : LStep (.awaiting k next cancel, some it) (.cancelling k cancel, some it)
  | revoke {k : Nat} {cancel : Prog C R} {it : Item R} : LStep (.cancelling k cancel, some it) (.revoked k cancel, some it.revoke)
  | wake {k : Nat} {cancel : Prog C R} {it : Item R} : LStep (.revoked k cancel, some it) (.leaving k none cancel, some it)
  | leave {k : Nat} {o : Option R} {next : Prog C R} {it : Item R} : LStep (.leaving k o next, some it) (.ready next, none)

abbrev After (b a : Loc C R) : Prop := LStep a b

theorem acc_item {t : Dispatch.Task C R} (h : ∀ it, (∀ b, LStep (t, some it) b → b.1 = t ∨ Acc After b)) (it : Item R) : Acc After (t, some it) := by
  have fin : ∀ it : Item R, it.ended = true → Acc After ((t, some it) : Loc C R) := by
    intro it hit
    refine Acc.intro _ ?_
    intro b hb
    rcases h it b hb with e | hacc
    · obtain ⟨t', x⟩ := b
      cases e
      cases hb with
      | start => cases hit
      | finish r => cases hit
    · exact hacc
  have run : Acc After ((t, some .running) : Loc C R) := by
    refine Acc.intro _ ?_
    intro b hb
    rcases h _ b hb with e | hacc
    · obtain ⟨t', x⟩ := b
      cases e
      cases hb with
      | finish r => exact fin _ rfl
    · exact hacc
  cases it with
  | pending =>
    refine Acc.intro _ ?_
    intro b hb
    rcases h _ b hb with e | hacc
    · obtain ⟨t', x⟩ := b
      cases e
      cases hb with
      | start => exact run
    · exact hacc
  | running => exact run
  | finished r => exact fin _ rfl
  | dropped => exact fin _ rfl

theorem acc_leaving {k : Nat} {o : Option R} {next : Prog C R} (h : Acc After ((.ready next, none) : Loc C R)) (it : Item R) : Acc After ((.leaving k o next, some it) : Loc C R) := by
  refine acc_item ?_ it
  intro it b hb
  cases hb with
  | start => exact Or.inl rfl
  | finish r => exact Or.inl rfl
  | leave => exact Or.inr h

theorem acc_revoked {k : Nat} {cancel : Prog C R} (h : Acc After ((.ready cancel, none) : Loc C R)) (it : Item R) : Acc After ((.revoked k cancel, some it) : Loc C R) := by
  refine acc_item ?_ it
  intro it b hb
  cases hb with
  | start => exact Or.inl rfl
  | finish r => exact Or.inl rfl
  | wake => exact Or.inr (acc_leaving h _)

theorem acc_cancelling {k : Nat} {cancel : Prog C R} (h : Acc After ((.ready cancel, none) : Loc C R)) (it : Item R) : Acc After ((.cancelling k cancel, some it) : Loc C R) := by
  refine acc_item ?_ it
  intro it b hb
  cases hb with
  | start => exact Or.inl rfl
  | finish r => exact Or.inl rfl
  | revoke => exact Or.inr (acc_revoked h _)

theorem acc_awaiting {k : Nat} {next : R → Prog C R} {cancel : Prog C R} (h1 : ∀ r, Acc After ((.ready (next r), none) : Loc C R))
    (h : Acc After ((.ready cancel, none) : Loc C R)) (it : Item R) : Acc After ((.awaiting k next cancel, some it) : Loc C R) := by
  refine acc_item ?_ it
  intro it b hb
  cases hb with
  | start => exact Or.inl rfl
  | finish r => exact Or.inl rfl
  | deliver => exact Or.inr (acc_leaving (h1 _) _)
  | cancel => exact Or.inr (acc_cancelling h _)

theorem acc_ready (p : Prog C R) : Acc After ((.ready p, none) : Loc C R) := by
  induction p with
  | done =>
    refine Acc.intro _ ?_
    intro b hb
    cases hb
    refine Acc.intro _ ?_
    intro b hb
    cases hb
  | wait next cancel ih1 ih2 =>
    refine Acc.intro _ ?_
    intro b hb
    cases hb with
    | resume r => exact ih1 r
    | interrupt => exact ih2
  | call c next cancel ih1 ih2 =>
    refine Acc.intro _ ?_
    intro b hb
    cases hb with
    | submit => exact acc_awaiting ih1 ih2 _

/-- One of the first `n` components goes on, the others stay. -/
def One {α : Type} (r : α → α → Prop) (n : Nat) (g f : Nat → α) : Prop := ∃ i, i < n ∧ r (g i) (f i) ∧ ∀ j, j ≠ i → g j = f j

theorem acc_one {α : Type} (r : α → α → Prop) (n : Nat) : ∀ f : Nat → α, (∀ i, i < n → Acc r (f i)) → Acc (One r n) f := by
  induction n with
  | zero =>
    intro f _
    refine Acc.intro _ ?_
    rintro g ⟨i, hi, _⟩
    exact absurd hi (Nat.not_lt_zero _)
  | succ n ih =>
    have key : ∀ x, Acc r x → ∀ f, Acc (One r n) f → f n = x → (∀ i, i < n → Acc r (f i)) → Acc (One r (n + 1)) f := by
      intro x hx
      induction hx with
      | intro x _ ihx =>
        intro f hf
        induction hf with
        | intro f _ ihf =>
          intro hfx hacc
          refine Acc.intro _ ?_
          rintro g ⟨i, hi, hr, hsame⟩
          by_cases e : i = n
          · subst e
            have hg : ∀ j, j < i → Acc r (g j) := by
              intro j hj
              rw [hsame j (by omega)]
              exact hacc j hj
            exact ihx (g i) (hfx ▸ hr) g (ih g hg) rfl hg
          · have hin : i < n := by omega
            refine ihf g ⟨i, hin, hr, hsame⟩ (by rw [hsame n (fun h => e h.symm), hfx]) ?_
            intro j hj
            by_cases e2 : j = i
            · subst e2
              exact (hacc j hj).inv hr
            · rw [hsame j e2]
              exact hacc j hj
    intro f hf
    exact key (f n) (hf n (Nat.lt_succ_self n)) f (ih f (fun i hi => hf i (by omega))) rfl (fun i hi => hf i (by omega))

/-- A task with the state of the work item of the pool that it is in. -/
def loc (w : World C R) (i : Nat) : Loc C R :=
  (w.tasks i, match pool (w.tasks i) with
    | some k => (w.pools k).map Pool.item
    | none => none)

theorem step_loc {ps : List (Prog C R)} {ls : List (Label C R)} {w w' : World C R} {l : Label C R} (v : Inv ps ls w) (h : Step w l w') :
    One After ps.length (loc w') (loc w) := by
  have lt : ∀ {i : Nat}, w.tasks i ≠ .over → i < ps.length := by
    intro i hi
    rcases Nat.lt_or_ge i ps.length with h | h
    · exact h
    · exact absurd (v.size i h) hi
  have noPool : ∀ {i : Nat} {x : Dispatch.Task C R}, pool x = none → loc { w with tasks := put w.tasks i x } i = (x, none) := by
    intro i x hx
    simp only [loc, put_same, hx]
  have others : ∀ {i : Nat} {x : Dispatch.Task C R} {lo : Option Nat}, ∀ j, j ≠ i → loc { w with tasks := put w.tasks i x, loop := lo } j = loc w j := by
    intro i x lo j hj
    simp only [loc, put_other _ _ hj]
  have thread : ∀ {k i : Nat} {c : C} {it it' : Item R}, w.pools k = some ⟨i, c, it⟩ → it.ended = false → (∀ t : Dispatch.Task C R, LStep (t, some it) (t, some it')) →
      One After ps.length (loc { w with pools := put w.pools k (some ⟨i, c, it'⟩) }) (loc w) := by
    intro k i c it it' hk hit hst
    have hp := v.live k i c it hk hit
    refine ⟨i, lt (by intro e; rw [e] at hp; cases hp), ?_, ?_⟩
    · show LStep _ _
      simp only [loc, hp, put_same, hk]
      exact hst _
    · intro j hj
      simp only [loc]
      cases hpj : pool (w.tasks j) with
      | none => rfl
      | some k' =>
        have : k' ≠ k := by
          intro e
          subst e
          obtain ⟨c', it2, h5⟩ := v.own j k' hpj
          rw [hk] at h5
          cases h5
          exact hj rfl
        simp only [put_other _ _ this]
  cases h with
  | @conclude i h1 h2 =>
    refine ⟨i, lt (by rw [h2]; intro h; cases h), ?_, others⟩
    show LStep _ _
    rw [noPool rfl]
    simp only [loc, h2, pool]
    exact .conclude
  | @resume i next cancel r h1 h2 =>
    refine ⟨i, lt (by rw [h2]; intro h; cases h), ?_, others⟩
    show LStep _ _
    rw [noPool rfl]
    simp only [loc, h2, pool]
    exact .resume r
  | @interrupt i next cancel h1 h2 =>
    refine ⟨i, lt (by rw [h2]; intro h; cases h), ?_, others⟩
    show LStep _ _
    rw [noPool rfl]
    simp only [loc, h2, pool]
    exact .interrupt
  | @submit i c next cancel h1 h2 =>
    refine ⟨i, lt (by rw [h2]; intro h; cases h), ?_, ?_⟩
    · show LStep _ _
      simp only [loc, h2, pool, put_same, Option.map_some]
      exact .submit
    · intro j hj
      simp only [loc, put_other _ _ hj]
      cases hpj : pool (w.tasks j) with
      | none => rfl
      | some k =>
        have : k ≠ w.fresh := by
          intro e
          obtain ⟨c', it2, h5⟩ := v.own j k hpj
          rw [e, v.new _ (Nat.le_refl _)] at h5
          cases h5
        simp only [put_other _ _ this]
  | @start k i c h1 => exact thread h1 rfl (fun _ => .start)
  | @finish k i c r h1 => exact thread h1 rfl (fun _ => .finish r)
  | @deliver i k next cancel j c r h1 h2 h3 =>
    refine ⟨i, lt (by rw [h2]; intro h; cases h), ?_, others⟩
    show LStep _ _
    simp only [loc, h2, pool, put_same, h3, Option.map_some]
    exact .deliver
  | @cancel i k next cancel h1 h2 =>
    refine ⟨i, lt (by rw [h2]; intro h; cases h), ?_, others⟩
    obtain ⟨c, it, h3⟩ := v.own i k (by rw [h2]; rfl)
    show LStep _ _
    simp only [loc, h2, pool, put_same, h3, Option.map_some]
    exact .cancel
  | @revoke i k cancel j c it h1 h2 h3 =>
    refine ⟨i, lt (by rw [h2]; intro h; cases h), ?_, ?_⟩
    · show LStep _ _
      simp only [loc, h2, pool, put_same, h3, Option.map_some]
      exact .revoke
    · intro j' hj
      simp only [loc, put_other _ _ hj]
      cases hpj : pool (w.tasks j') with
      | none => rfl
      | some k' =>
        have : k' ≠ k := by
          intro e
          subst e
          obtain ⟨c', it2, h5⟩ := v.own j' k' hpj
          obtain ⟨c', it2, h6⟩ := v.own i k' (by rw [h2]; rfl)
          rw [h6] at h5
          cases h5
          exact hj rfl
        simp only [put_other _ _ this]
  | @wake i k cancel h1 h2 =>
    refine ⟨i, lt (by rw [h2]; intro h; cases h), ?_, others⟩
    obtain ⟨c, it, h3⟩ := v.own i k (by rw [h2]; rfl)
    show LStep _ _
    simp only [loc, h2, pool, put_same, h3, Option.map_some]
    exact .wake
  | @leave i k o next j c it h1 h2 h3 h4 =>
    refine ⟨i, lt (by rw [h2]; intro h; cases h), ?_, others⟩
    show LStep _ _
    simp only [loc, h2, pool, put_same, h3, Option.map_some]
    exact .leave

theorem acc_loc {ps : List (Prog C R)} {ls : List (Label C R)} {w : World C R} (h : Exec ps ls w) : Acc (One After ps.length) (loc w) := by
  induction h with
  | init =>
    refine acc_one _ _ _ ?_
    intro i hi
    have : loc (World.init ps) i = (.ready ps[i], none) := by
      simp only [loc, World.init, List.getElem?_eq_getElem hi, pool]
    rw [this]
    exact acc_ready _
  | step h hs ih => exact ih.inv (step_loc (inv h) hs)

end C64

/-- No schedule goes on for ever, and none is stuck before all tasks are over: as long as a task is not, something can be done other than cancelling. Hence every call returns,
    provided that every function does. -/
theorem C64_all_end [Inhabited R] (ps : List (Prog C R)) :
    (∀ run : Nat → World C R, (∃ ls, Exec ps ls (run 0)) → ¬ ∀ n, ∃ l, Step (run n) l (run (n + 1))) ∧
    (∀ ls w i, Exec ps ls w → w.tasks i ≠ .over → ∃ l w', Step w l w' ∧ ∀ j, l ≠ .cancel j) := by
  refine ⟨?_, fun ls w i h hi => C64.progress (C64.inv h) hi⟩
  intro run h0 hrun
  have hreach : ∀ n, ∃ ls, Exec ps ls (run n) := by
    intro n
    induction n with
    | zero => exact h0
    | succ n ih =>
      obtain ⟨ls, h⟩ := ih
      obtain ⟨l, hl⟩ := hrun n
      exact ⟨_, .step h hl⟩
  have : ∀ f, Acc (C64.One C64.After ps.length) f → ∀ n, C64.loc (run n) = f → False := by
    intro f hf
    induction hf with
    | intro f _ ih =>
      intro n hn
      obtain ⟨ls, h⟩ := hreach n
      obtain ⟨l, hl⟩ := hrun n
      exact ih _ (hn ▸ C64.step_loc (C64.inv h) hl) (n + 1) rfl
  obtain ⟨ls, h⟩ := h0
  exact this _ (C64.acc_loc h) 0 rfl

/-- Cancelling a call whose function is running blocks the event loop: until the function finishes, all that happens in the process happens in worker threads. No task makes a call, none
    returns from one, none is resumed. Any function, any number of other tasks. -/
theorem C64_cancel_blocks {ps : List (Prog C R)} {ls : List (Label C R)} {w : World C R} (h : Exec ps ls w) {i k : Nat} {o : Option R} {next : Prog C R} {j : Nat} {c : C}
    (ht : w.tasks i = .leaving k o next) (hk : w.pools k = some ⟨j, c, .running⟩) {l : Label C R} {w' : World C R} (hs : Step w l w') :
    w'.tasks = w.tasks ∧ ∃ i' c', l = .event i' (.start c') ∨ ∃ r, l = .event i' (.finish c' r) := by
  have hl := (C64.inv h).busy i k o next ht
  have no : w.loop ≠ none := by rw [hl]; intro h; cases h
  cases hs with
  | conclude h1 _ => exact absurd h1 no
  | resume r h1 _ => exact absurd h1 no
  | interrupt h1 _ => exact absurd h1 no
  | submit h1 _ => exact absurd h1 no
  | start _ => exact ⟨rfl, _, _, Or.inl rfl⟩
  | finish r _ => exact ⟨rfl, _, _, Or.inr ⟨r, rfl⟩⟩
  | deliver h1 _ _ => exact absurd h1 no
  | cancel h1 _ => exact absurd h1 no
  | revoke h1 _ _ => exact absurd h1 no
  | wake h1 _ => exact absurd h1 no
  | leave h1 h2 h3 h4 =>
    rw [hl] at h1
    cases h1
    rw [ht] at h2
    cases h2
    rw [hk] at h3
    cases h3
    cases h4

/-- Such a state is reached, whatever the other tasks are. -/
theorem C64_cancel_blocks_reached (c : C) (next : R → Prog C R) (cancel : Prog C R) (others : List (Prog C R)) :
    ∃ ls w k, Exec (.call c next cancel :: others) ls w ∧ w.tasks 0 = .leaving k none cancel ∧ w.pools k = some ⟨0, c, .running⟩ := by
  have e1 := Exec.step (Exec.init (ps := .call c next cancel :: others)) (.submit (i := 0) rfl rfl)
  have e2 := Exec.step e1 (.start (k := 0) rfl)
  have e3 := Exec.step e2 (.cancel (i := 0) rfl rfl)
  have e4 := Exec.step e3 (.revoke (i := 0) rfl rfl rfl)
  have e5 := Exec.step e4 (.wake (i := 0) rfl rfl)
  exact ⟨_, _, 0, e5, rfl, rfl⟩

/-- `async with`: a connection that is being opened when the task is cancelled may be open afterwards, and is never closed. -/
theorem C64_open_cancelled_fails [Inhabited R] (good : R → Bool) (openCall closeCall : C) (body : Prog C R) (r : R) :
    ∃ ls w, Exec [Prog.within good openCall closeCall body] ls w ∧ w.tasks 0 = .over ∧
      seen 0 ls = [.called openCall, .start openCall, .finish openCall r, .returned openCall none] :=
  (C64_exact (i := 0) rfl _).1 (.cancelledAfter r .done)

namespace C64

variable {C R : Type}

theorem andThen_direct {p q : Prog C R} {es : List (Event C R)} (h : Direct (p.andThen q) es) : ∃ xs ys, es = xs ++ ys ∧ Direct p xs ∧ Direct q ys := by
  induction p generalizing es with
  | done => exact ⟨[], es, rfl, .done, h⟩
  | wait next cancel ih1 ih2 =>
    cases h with
    | wait r h => obtain ⟨xs, ys, rfl, h1, h2⟩ := ih1 r h; exact ⟨xs, ys, rfl, .wait r h1, h2⟩
    | waitCancelled h => obtain ⟨xs, ys, rfl, h1, h2⟩ := ih2 h; exact ⟨xs, ys, rfl, .waitCancelled h1, h2⟩
  | call c next cancel ih1 ih2 =>
    cases h with
    | call r h => obtain ⟨xs, ys, rfl, h1, h2⟩ := ih1 r h; exact ⟨_, ys, rfl, .call r h1, h2⟩
    | cancelledBefore h => obtain ⟨xs, ys, rfl, h1, h2⟩ := ih2 h; exact ⟨_, ys, rfl, .cancelledBefore h1, h2⟩
    | cancelledAfter r h => obtain ⟨xs, ys, rfl, h1, h2⟩ := ih2 h; exact ⟨_, ys, rfl, .cancelledAfter r h1, h2⟩

end C64

/-- `async with`: once `open` has returned a connection, the body is run and `close` is called, exactly once and last, however the body has ended and wherever it was cancelled. The only way
    for the connection to remain open is to cancel the task again before the function that closes it has started. -/
theorem C64_within [Inhabited R] (good : R → Bool) (openCall closeCall : C) (body : Prog C R) {ps : List (Prog C R)} {i : Nat}
    (hp : ps[i]? = some (Prog.within good openCall closeCall body)) {ls : List (Label C R)} {w : World C R} (h : Exec ps ls w) (ho : w.tasks i = .over) :
    (∃ r es tail, good r = true ∧ Direct body es ∧ seen i ls = [.called openCall, .start openCall, .finish openCall r, .returned openCall (some r)] ++ es ++ .called closeCall :: tail ∧
      (tail = [.returned closeCall none] ∨ ∃ r' o, tail = [.start closeCall, .finish closeCall r', .returned closeCall o])) ∨
    (∃ r, good r = false ∧ seen i ls = [.called openCall, .start openCall, .finish openCall r, .returned openCall (some r)]) ∨
    (∃ mid, seen i ls = .called openCall :: mid ++ [.returned openCall none] ∧ (mid = [] ∨ ∃ r, mid = [.start openCall, .finish openCall r])) := by
  have hd := (C64_as_if_direct h hp).2 ho
  generalize seen i ls = es at hd
  cases hd with
  | @call _ _ _ es r hd =>
    simp only at hd
    cases hg : good r with
    | true =>
      rw [hg, if_pos rfl] at hd
      obtain ⟨xs, ys, rfl, h1, h2⟩ := C64.andThen_direct hd
      refine Or.inl ?_
      cases h2 with
      | call r' h3 => cases h3; exact ⟨r, xs, _, hg, h1, rfl, Or.inr ⟨r', _, rfl⟩⟩
      | cancelledBefore h3 => cases h3; exact ⟨r, xs, _, hg, h1, rfl, Or.inl rfl⟩
      | cancelledAfter r' h3 => cases h3; exact ⟨r, xs, _, hg, h1, rfl, Or.inr ⟨r', _, rfl⟩⟩
    | false =>
      rw [hg] at hd
      cases hd
      exact Or.inr (Or.inl ⟨r, hg, rfl⟩)
  | cancelledBefore hd => cases hd; exact Or.inr (Or.inr ⟨[], rfl, Or.inl rfl⟩)
  | cancelledAfter r hd => cases hd; exact Or.inr (Or.inr ⟨[.start openCall, .finish openCall r], rfl, Or.inr ⟨r, rfl⟩⟩)

namespace C64.Example

/-- Calls are numbered; the connection is the tens digit. -/
def conn (c : Nat) : Nat := c / 10

/-- A task on its own connection: opens it, waits for a record, executes two statements (the second only if the first returned 0), closes it. -/
def task (n : Nat) : Prog Nat Nat :=
  Prog.within (· == 0) (10 * n) (10 * n + 9)
    (.wait (fun _ => .call (10 * n + 1) (fun r => if r = 0 then .call (10 * n + 2) (fun _ => .done) .done else .done) .done) .done)

theorem uses {n : Nat} (m : Nat) (h : Uses conn m (task n)) : m = n := by
  simp only [task, Prog.within] at h
  have hc : ∀ {d : Nat}, d < 10 → conn (10 * n + d) = n := by intro d hd; simp only [conn]; omega
  have tail : Uses conn m (.call (10 * n + 9) (fun _ => .done) .done : Prog Nat Nat) → m = n := by
    intro h
    cases h with
    | here h => rw [← h, hc (by decide)]
    | next r h => cases h
    | cancel h => cases h
  cases h with
  | here h => rw [← h]; simp only [conn]; omega
  | cancel h => cases h
  | next r h =>
    simp only at h
    split at h
    · simp only [Prog.andThen] at h
      cases h with
      | waitCancel h => exact tail h
      | waitNext r h =>
        cases h with
        | here h => rw [← h, hc (by decide)]
        | cancel h => exact tail h
        | next r h =>
          simp only at h
          split at h
          · simp only [Prog.andThen] at h
            cases h with
            | here h => rw [← h, hc (by decide)]
            | cancel h => exact tail h
            | next r h => exact tail h
          · exact tail h
    · cases h

/-- Two tasks with a connection each: at most one function at a time on each of them, under every schedule. -/
example {ls : List (Label Nat Nat)} {w : World Nat Nat} (h : Exec [task 0, task 1] ls w) (n : Nat) : Serial (driver conn n ls) := by
  refine C64_no_overlap h conn n ?_
  intro i j p q hi hj hp hq
  match i, j, hi, hj with
  | 0, 0, _, _ => rfl
  | 1, 1, _, _ => rfl
  | 0, 1, hi, hj =>
    cases hi; cases hj
    have h1 := uses n hp
    have h2 := uses n hq
    omega
  | 1, 0, hi, hj =>
    cases hi; cases hj
    have h1 := uses n hp
    have h2 := uses n hq
    omega
  | 0, _ + 2, _, hj => cases hj
  | 1, _ + 2, _, hj => cases hj
  | _ + 2, _, hi, _ => cases hi

/-- And they do run at the same time: both connections are being opened. -/
example : ∃ ls w, Exec [task 0, task 1] ls w ∧ driver conn 0 ls = [.start 0] ∧ driver conn 1 ls = [.start 10] := by
  have s1 := Exec.step (Exec.init (ps := [task 0, task 1])) (.submit (i := 0) rfl rfl)
  have s2 := Exec.step s1 (.submit (i := 1) rfl rfl)
  have s3 := Exec.step s2 (.start (k := 0) rfl)
  have s4 := Exec.step s3 (.start (k := 1) rfl)
  exact ⟨_, _, s4, rfl, rfl⟩

/-- A run of a task in which the first statement is cancelled after it has been executed; the connection is closed. -/
example : ∃ ls w, Exec [task 0, task 1] ls w ∧ w.tasks 0 = .over ∧ seen 0 ls =
    [.called 0, .start 0, .finish 0 0, .returned 0 (some 0), .called 1, .start 1, .finish 1 0, .returned 1 none, .called 9, .start 9, .finish 9 0, .returned 9 (some 0)] :=
  (C64_exact (i := 0) rfl _).1 (.call 0 (.wait 5 (.cancelledAfter 0 (.call 0 .done))))

/-- The hypotheses of `C64_once` are met by that very run: between the call and its return the function has run. -/
example : Direct (task 0)
    [.called 0, .start 0, .finish 0 0, .returned 0 (some 0), .called 1, .returned 1 none, .called 9, .start 9, .finish 9 0, .returned 9 (some 0)] :=
  .call 0 (.wait 5 (.cancelledBefore (.call 0 .done)))

end C64.Example

end PySqlSync
