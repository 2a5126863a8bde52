/-
Helper lemmas: the groups of actions emitted for one table.
-/
import Verif.Lemmas.ColumnRun

set_option autoImplicit false

namespace PySqlSync
open Spec

/-! ### Lists and exceptions -/

theorem mapM_ok {α β : Type} [Inhabited β] {f : α → Except Err β} {l : List α} {r : List β}
    (h : l.mapM f = .ok r) :
    r = l.map (fun x => ((f x).toOption).getD default) ∧ ∀ x ∈ l, f x = .ok (((f x).toOption).getD default) := by
  induction l generalizing r with
  | nil => simp [pure, Except.pure] at h; subst h; simp
  | cons a l ih =>
    rw [List.mapM_cons] at h
    cases ha : f a with
    | error e => simp [ha, bind, Except.bind] at h
    | ok b =>
      cases hl : l.mapM f with
      | error e => simp [ha, hl, bind, Except.bind] at h
      | ok bs =>
        simp only [ha, hl, bind, Except.bind, pure, Except.pure, Except.ok.injEq] at h
        subst h
        obtain ⟨h1, h2⟩ := ih hl
        constructor
        · simp [ha, Except.toOption, h1]
        · intro x hx
          rcases List.mem_cons.1 hx with rfl | hx
          · simp [ha, Except.toOption]
          · exact h2 x hx

theorem wrapColumn_ok {α : Type} {q : QId} {x : Except Err α} {v : α} (h : wrapColumn q x = .ok v) : x = .ok v := by
  unfold wrapColumn at h
  split at h
  · simp at h
  · exact h

instance : Inhabited Action := ⟨.dropColumn []⟩

/-! ### Overwriting -/

/-- `X`, except that the names in `p` take the value `Y` gives them. -/
def over {β : Type} (X Y : Text → β) (p : List Text) : Text → β := fun n => if n ∈ p then Y n else X n

theorem over_nil {β : Type} (X Y : Text → β) : over X Y [] = X := by funext n; simp [over]

theorem over_snoc {β : Type} (X Y : Text → β) (p : List Text) (a : Text) :
    over X Y (p ++ [a]) = upd (over X Y p) a (Y a) := by
  funext n
  simp only [over, upd, List.mem_append, List.mem_singleton]
  by_cases e : n = a
  · subst e; simp
  · simp [e]

theorem over_mem {β : Type} {X Y : Text → β} {p : List Text} {n : Text} (h : n ∈ p) : over X Y p n = Y n := by
  simp [over, h]
theorem over_notMem {β : Type} {X Y : Text → β} {p : List Text} {n : Text} (h : n ∉ p) : over X Y p n = X n := by
  simp [over, h]

/-- In a list with distinct entries, an entry does not occur in the part before it. -/
theorem notMem_prefix {α β : Type} (f : α → β) {l p s : List α} {a : α} (hn : (l.map f).Nodup) (h : l = p ++ a :: s) :
    f a ∉ p.map f := by
  subst h
  rw [List.map_append, List.map_cons, List.nodup_append] at hn
  intro hm
  exact hn.2.2 _ hm _ (List.mem_cons_self) rfl

theorem mem_of_split {α : Type} {l p s : List α} {a : α} (h : l = p ++ a :: s) : a ∈ l := by
  subst h; simp

/-! ### Groups of actions -/

section
variable {d : Dialect} {E : Engine} {K : Kinds} {pk : List Text}

theorem deleted_length : (t "pysqlsync$").length = 10 := by decide +kernel
theorem deletedName_drop (n : Text) : (deletedName n).drop 10 = n := by
  unfold deletedName
  rw [← deleted_length]
  exact List.drop_left
theorem deletedName_inj {m n : Text} (h : deletedName m = deletedName n) : m = n := by
  have := congrArg (List.drop 10) h
  rwa [deletedName_drop, deletedName_drop] at this

/-- The columns after the columns in `p` were renamed. -/
def renamed (X : Text → Option ColState) (p : List Text) : Text → Option ColState :=
  over (over X (fun _ => none) p) (fun n => X (n.drop 10)) (p.map deletedName)

/-- A column's name after the columns in `p` were renamed. -/
def renCol (p : List Text) (n : Text) : Text := if n ∈ p then deletedName n else n

/-- The constraints after the columns in `p` were renamed. -/
def consRen (cons : Text → Option ConState) (p : List Text) : Text → Option ConState :=
  fun m => (cons m).map (ConState.mapCols (renCol p))

theorem mapCols_cols (f : Text → Text) (x : ConState) : (x.mapCols f).cols = x.cols.map f := by cases x <;> rfl

theorem mapCols_eq_self {f : Text → Text} {x : ConState} (h : ∀ n ∈ x.cols, f n = n) : x.mapCols f = x := by
  have hm : ∀ l : List Text, (∀ n ∈ l, f n = n) → l.map f = l := by
    intro l hl
    conv => rhs; rw [← List.map_id l]
    exact List.map_congr_left hl
  cases x <;> simp only [ConState.cols] at h <;> simp [ConState.mapCols, hm _ h]

theorem consRen_nil (cons : Text → Option ConState) : consRen cons [] = cons := by
  funext m
  unfold consRen
  cases cons m with
  | none => rfl
  | some x => simp only [Option.map_some]; rw [mapCols_eq_self]; intro n _; simp [renCol]

theorem fits_rename {K : Kinds} {cols : Text → Option ColState} {cons : Text → Option ConState} {old new : Text}
    {c : ColState} (h : (mkT d cols pk cons).Fits K) (hc : cols old = some c) (hnew : cols new = none)
    (hp : old ∉ pk) :
    (mkT d (upd (upd cols old none) new (some c)) pk
      (fun m => (cons m).map (ConState.mapCols (fun n => if n = old then new else n)))).Fits K := by
  have hne : new ≠ old := by rintro rfl; simp [hc] at hnew
  apply mkT_fits
  · intro m x hx
    by_cases e : m = new
    · subst e; rw [upd_same] at hx; cases hx; exact h.cols old c hc
    · rw [upd_ne _ _ _ _ e] at hx
      by_cases e2 : m = old
      · subst e2; rw [upd_same] at hx; cases hx
      · rw [upd_ne _ _ _ _ e2] at hx; exact h.cols m x hx
  · intro m hm
    obtain ⟨x, hx, hn⟩ := h.pk m hm
    have e : m ≠ new := by rintro rfl; rw [show (mkT d cols pk cons).cols = cols from rfl, hnew] at hx; cases hx
    have e2 : m ≠ old := fun e => hp (e ▸ hm)
    exact ⟨x, by rw [upd_ne _ _ _ _ e, upd_ne _ _ _ _ e2]; exact hx, hn⟩
  · intro m x hx
    simp only [Option.map_eq_some_iff] at hx
    obtain ⟨y, hy, rfl⟩ := hx
    obtain ⟨h1, h2⟩ := h.cons m y hy
    refine ⟨?_, ?_⟩
    · intro n hn
      rw [mapCols_cols] at hn
      obtain ⟨z, hz, rfl⟩ := List.mem_map.1 hn
      have hz' : (cols z).isSome := h1 z hz
      by_cases e : z = old
      · rw [if_pos e, upd_same]; rfl
      · rw [if_neg e]
        have e2 : z ≠ new := by rintro rfl; rw [hnew] at hz'; cases hz'
        rw [upd_ne _ _ _ _ e2, upd_ne _ _ _ _ e]; exact hz'
    · cases y <;> simp only [ConState.mapCols] <;> exact h2

/-- Renaming the converted columns out of the way. -/
theorem run_renames {cons : Text → Option ConState} {X : Text → Option ColState} (l : List Text)
    (hnd : l.Nodup)
    (hX : ∀ n ∈ l, ∃ c, X n = some c ∧ (d = .mssql → c.default = none) ∧ n ∉ pk)
    (hdel : ∀ n, X (deletedName n) = none) :
    ∀ p a s spec, l = p ++ a :: s → Good K pk (mkT d (renamed X p) pk (consRen cons p)) →
      ActRun E (Good K pk) (mkT d (renamed X p) pk (consRen cons p)) [.renameColumn a (deletedName a) spec]
        (mkT d (renamed X (p ++ [a])) pk (consRen cons (p ++ [a]))) := by
  intro p a s spec hl hg
  have ha : a ∈ l := mem_of_split hl
  have hap : a ∉ p := by simpa using notMem_prefix id (by simpa using hnd) hl
  obtain ⟨c, hc, hdef, hpk⟩ := hX a ha
  have hnotdel : ∀ x, a ≠ deletedName x := by
    intro x e
    rw [e, hdel] at hc
    cases hc
  have hnotdel' : ∀ x ∈ l, ∀ y, x ≠ deletedName y := by
    intro x hx y e
    obtain ⟨c, hc, _⟩ := hX x hx
    rw [e, hdel] at hc
    cases hc
  have h1 : renamed X p a = some c := by
    unfold renamed
    rw [over_notMem, over_notMem hap, hc]
    intro h
    obtain ⟨x, _, e⟩ := List.mem_map.1 h
    exact hnotdel x e.symm
  have h2 : renamed X p (deletedName a) = none := by
    unfold renamed
    rw [over_notMem, over_notMem, hdel]
    · intro h
      exact hnotdel' _ (by rw [hl]; simp [h]) a rfl
    · intro h
      obtain ⟨x, hx, e⟩ := List.mem_map.1 h
      exact hap (deletedName_inj e ▸ hx)
  have h3 : renamed X (p ++ [a]) = upd (upd (renamed X p) a none) (deletedName a) (some c) := by
    unfold renamed
    rw [List.map_append, List.map_cons, List.map_nil, over_snoc]
    simp only [deletedName_drop, hc]
    congr 1
    funext n
    simp only [upd, over, List.mem_append, List.mem_singleton]
    by_cases e : n = a
    · subst e
      have : n ∉ p.map deletedName := by
        intro h
        obtain ⟨x, _, e⟩ := List.mem_map.1 h
        exact hnotdel x e.symm
      simp [this]
    · simp [e]
  have h4 : consRen cons (p ++ [a]) =
      fun m => (consRen cons p m).map (ConState.mapCols (fun n => if n = a then deletedName a else n)) := by
    funext m
    unfold consRen
    rw [Option.map_map]
    cases cons m with
    | none => rfl
    | some x =>
      simp only [Option.map_some, Function.comp_apply, Option.some.injEq]
      have hf : ∀ n, renCol (p ++ [a]) n = (if renCol p n = a then deletedName a else renCol p n) := by
        intro n
        unfold renCol
        by_cases hn : n ∈ p
        · rw [if_pos hn, if_pos (List.mem_append_left _ hn), if_neg (fun e => hnotdel n e.symm)]
        · rw [if_neg hn]
          by_cases e : n = a
          · rw [if_pos e, if_pos (by simp [e]), e]
          · rw [if_neg e, if_neg (by simp [hn, e])]
      have hl : ∀ cs : List Text, cs.map (renCol (p ++ [a]))
          = (cs.map (renCol p)).map (fun n => if n = a then deletedName a else n) := by
        intro cs
        rw [List.map_map]
        exact List.map_congr_left (fun n _ => hf n)
      cases x <;> simp only [ConState.mapCols, hl]
  rw [h3, h4]
  apply ActRun.single
  · exact step_rename a (deletedName a) _ c h1 h2 hdef hpk
  · exact ⟨fits_rename hg.1 h1 h2 hpk, rfl⟩

/-- Adding columns. -/
theorem run_adds {cons : Text → Option ConState} {X Y : Text → Option ColState} (l : List (Text × ColSpec))
    (hnd : (l.map Prod.fst).Nodup)
    (hX : ∀ p ∈ l, X p.1 = none)
    (hY : ∀ p ∈ l, Y p.1 = some (Spec.ColSpec.state p.2))
    (hname : ∀ p ∈ l, p.2.defaultName =
      if d = .mssql then p.2.default.map (fun _ => defaultConstraintName p.1) else none)
    (hcons : d = .mssql → ∀ n, cons (defaultConstraintName n) = none)
    (hgood : ∀ p ∈ l, ColGood K pk p.1 (Spec.ColSpec.state p.2)) :
    ∀ p a s, l = p ++ a :: s → Good K pk (mkT d (over X Y (p.map Prod.fst)) pk cons) →
      ActRun E (Good K pk) (mkT d (over X Y (p.map Prod.fst)) pk cons) [.addColumn a.1 a.2]
        (mkT d (over X Y ((p ++ [a]).map Prod.fst)) pk cons) := by
  intro p a s hl hg
  have ha : a ∈ l := mem_of_split hl
  have hap : a.1 ∉ p.map Prod.fst := notMem_prefix Prod.fst hnd hl
  rw [List.map_append, List.map_cons, List.map_nil, over_snoc, hY a ha]
  apply ActRun.single
  · exact step_add _ _ (by rw [over_notMem hap, hX a ha]) (hname a ha) (fun h => hcons h _)
  · exact ⟨fits_setCol hg.1 _ _ (hgood a ha).ok (hgood a ha).ty (hgood a ha).pk, rfl⟩

/-- Dropping columns. `w` weakens what is kept. -/
theorem run_drops {cons : Text → Option ConState} {X : Text → Option ColState} {α : Type} (w : Prop) (l : List α)
    (nm : α → Text) (act : α → Action) (hnd : (l.map nm).Nodup)
    (hX : ∀ x ∈ l, ∃ c, X (nm x) = some c ∧
      ((act x = .dropColumn (nm x) ∧ (d = .mssql → c.default = none)) ∨
       (act x = .dropDefaultAndColumn (defaultConstraintName (nm x)) (nm x) ∧ d = .mssql ∧ c.default.isSome)))
    (hpk : ∀ x ∈ l, nm x ∉ pk)
    (hun : ∀ x ∈ l, ¬ w → Untouched cons (nm x))
    (hE : w → E.cascadeDrop = false) :
    ∀ p a s, l = p ++ a :: s → (w ∨ Good K pk (mkT d (over X (fun _ => none) (p.map nm)) pk cons)) →
      ActRun E (fun ts => w ∨ Good K pk ts) (mkT d (over X (fun _ => none) (p.map nm)) pk cons) [act a]
        (mkT d (over X (fun _ => none) ((p ++ [a]).map nm)) pk cons) := by
  intro p a s hl hg
  have ha : a ∈ l := mem_of_split hl
  have hap : nm a ∉ p.map nm := notMem_prefix nm hnd hl
  obtain ⟨c, hc, hact⟩ := hX a ha
  have hu : E.cascadeDrop = true → Untouched cons (nm a) ∧ nm a ∉ pk := by
    intro h
    refine ⟨hun a ha ?_, hpk a ha⟩
    intro e
    rw [hE e] at h
    cases h
  have h1 : over X (fun _ => none) (p.map nm) (nm a) = some c := by rw [over_notMem hap, hc]
  rw [List.map_append, List.map_cons, List.map_nil, over_snoc]
  apply ActRun.single
  · rcases hact with ⟨e, hdef⟩ | ⟨e, hd, hdef⟩
    · rw [e]; exact step_drop _ c h1 hdef hu
    · rw [e]; exact step_dropDefault _ c h1 hdef hd hu
  · by_cases hmy : w
    · exact .inl hmy
    · rcases hg with h | hg
      · exact absurd h hmy
      · exact .inr ⟨fits_dropCol hg.1 _ (hun a ha hmy) (hpk a ha), rfl⟩

/-- Dropping constraints. -/
theorem run_dropCons {cols : Text → Option ColState} {X : Text → Option ConState} (l : List Text) (hnd : l.Nodup)
    (hX : ∀ n ∈ l, (X n).isSome) (hn : d = .mssql → ∀ n ∈ l, ∀ x, n ≠ defaultConstraintName x) :
    ∀ p a s, l = p ++ a :: s → (d = .mysql ∨ Good K pk (mkT d cols pk (over X (fun _ => none) p))) →
      ActRun E (fun ts => d = .mysql ∨ Good K pk ts) (mkT d cols pk (over X (fun _ => none) p)) [.dropConstraint a]
        (mkT d cols pk (over X (fun _ => none) (p ++ [a]))) := by
  intro p a s hl hg
  have ha : a ∈ l := mem_of_split hl
  have hap : a ∉ p := by simpa using notMem_prefix id (by simpa using hnd) hl
  obtain ⟨c, hc⟩ := Option.isSome_iff_exists.1 (hX a ha)
  rw [over_snoc]
  apply ActRun.single
  · exact step_dropConstraint a c (by rw [over_notMem hap, hc]) (fun h => hn h a ha)
  · rcases hg with h | hg
    · exact .inl h
    · exact .inr ⟨fits_setCon hg.1 _ _ (by intro x hx; cases hx), rfl⟩

/-- The constraint a specification creates. -/
def conState (E : Engine) : ConSpec → ConState
  | .unique cs => .unique cs
  | .foreign cs k rs => .foreign cs k.key rs
  | .check c => .check c (E.condCols c)

/-- Adding constraints. -/
theorem run_addCons {cols : Text → Option ColState} {X Y : Text → Option ConState} (l : List (Text × ConSpec))
    (hnd : (l.map Prod.fst).Nodup)
    (hX : ∀ p ∈ l, X p.1 = none) (hY : ∀ p ∈ l, Y p.1 = some (conState E p.2))
    (hfit : ∀ p ∈ l, (conState E p.2).Fits K cols)
    (hn : d = .mssql → ∀ p ∈ l, ∀ x, p.1 ≠ defaultConstraintName x) :
    ∀ p a s, l = p ++ a :: s → (d = .mysql ∨ Good K pk (mkT d cols pk (over X Y (p.map Prod.fst)))) →
      ActRun E (fun ts => d = .mysql ∨ Good K pk ts) (mkT d cols pk (over X Y (p.map Prod.fst)))
        [.addConstraint a.1 a.2] (mkT d cols pk (over X Y ((p ++ [a]).map Prod.fst))) := by
  intro p a s hl hg
  have ha : a ∈ l := mem_of_split hl
  have hap : a.1 ∉ p.map Prod.fst := notMem_prefix Prod.fst hnd hl
  rw [List.map_append, List.map_cons, List.map_nil, over_snoc, hY a ha]
  apply ActRun.single
  · have := step_addConstraint (d := d) (E := E) (cols := cols) (pk := pk)
      (cons := over X Y (p.map Prod.fst)) a.1 a.2 (by rw [over_notMem hap, hX a ha]) (fun h => hn h a ha)
    rw [this]
    cases h : a.2 <;> simp [conState]
  · rcases hg with h | hg
    · exact .inl h
    · exact .inr ⟨fits_setCon hg.1 _ _ (by intro x hx; cases hx; exact hfit a ha), rfl⟩

end
end PySqlSync
