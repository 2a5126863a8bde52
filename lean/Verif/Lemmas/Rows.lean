/-
Helper lemmas about rows.
-/
import Verif.Spec.Rows
import Verif.Props.C03
import Verif.Lemmas.TableAlter

set_option autoImplicit false

namespace PySqlSync
open Spec

theorem each_refl {P : Row → Row → Prop} (h : ∀ r, P r r) (rows : List Row) : Each P rows rows :=
  ⟨rfl, fun _ r r' h1 h2 => by rw [h1] at h2; cases h2; exact h r⟩

theorem each_trans {P Q S : Row → Row → Prop} (h : ∀ x y z, P x y → Q y z → S x z) {a b c : List Row}
    (h1 : Each P a b) (h2 : Each Q b c) : Each S a c := by
  refine ⟨h2.1.trans h1.1, fun i r r' hr hr' => ?_⟩
  have hi : i < b.length := by
    rw [h1.1]; exact (List.getElem?_eq_some_iff.1 hr).1
  have hb : b[i]? = some b[i] := List.getElem?_eq_getElem hi
  exact h r _ r' (h1.2 i r _ hr hb) (h2.2 i _ r' hb hr')

theorem each_mono {P Q : Row → Row → Prop} (h : ∀ x y, P x y → Q x y) {a b : List Row} (h1 : Each P a b) : Each Q a b :=
  ⟨h1.1, fun i r r' hr hr' => h r r' (h1.2 i r r' hr hr')⟩

theorem each_and {P Q : Row → Row → Prop} {a b : List Row} (h1 : Each P a b) (h2 : Each Q a b) :
    Each (fun x y => P x y ∧ Q x y) a b :=
  ⟨h1.1, fun i r r' hr hr' => ⟨h1.2 i r r' hr hr', h2.2 i r r' hr hr'⟩⟩

theorem each_map {P : Row → Row → Prop} {f : Row → Row} {rows : List Row} (h : ∀ r ∈ rows, P r (f r)) :
    Each P rows (rows.map f) := by
  refine ⟨by simp, fun i r r' hr hr' => ?_⟩
  rw [List.getElem?_map, hr] at hr'
  cases hr'
  exact h r (List.mem_of_getElem? hr)

theorem each_mapIdx {P : Row → Row → Prop} {f : Nat → Row → Row} {rows : List Row} (h : ∀ i r, P r (f i r)) :
    Each P rows (rows.mapIdx f) := by
  refine ⟨by simp, fun i r r' hr hr' => ?_⟩
  rw [List.getElem?_mapIdx, hr] at hr'
  cases hr'
  exact h i r

theorem each_cons {P : Row → Row → Prop} {x y : Row} {a b : List Row} (h : P x y) (h1 : Each P a b) :
    Each P (x :: a) (y :: b) := by
  refine ⟨by simp [h1.1], fun i r r' hr hr' => ?_⟩
  cases i with
  | zero => simp at hr hr'; subst hr; subst hr'; exact h
  | succ i => simp at hr hr'; exact h1.2 i r r' hr hr'

theorem castColumn_each {R : RowEngine} {n : Text} {ty : SqlType} {b : Bool} : ∀ {rows rows' : List Row},
    castColumn R n ty b rows = some rows' →
    Each (fun r r' => ∃ v, R.cast ty (r n) = some v ∧ r' = upd r n v) rows rows' := by
  intro rows
  induction rows with
  | nil => intro rows' h; cases h; exact ⟨rfl, fun i r r' hr => by simp at hr⟩
  | cons r rows ih =>
    intro rows' h
    simp only [castColumn] at h
    split at h
    · rename_i v rs hv hrs
      split at h
      · cases h
      · cases h
        exact each_cons ⟨v, hv, rfl⟩ (ih hrs)
    · cases h

/-- The action changes the values in a column. -/
def About : Action → Text → Prop
  | .addColumn n _, m => n = m
  | .dropColumn n, m => n = m
  | .dropDefaultAndColumn _ n, m => n = m
  | .renameColumn a b _, m => a = m ∨ b = m
  | .setDataType n _, m => n = m
  | .redefine n _, m => n = m
  | .modify n ty _ _ _, m => n = m ∧ ty.isSome
  | .retype n _ _, m => n = m
  | _, _ => False

theorem updR_ne {α β : Type} [DecidableEq α] {f : α → β} {k x : α} {v : β} (h : x ≠ k) : upd f k v x = f x := by
  simp [upd, h]
theorem updR_eq {α β : Type} [DecidableEq α] {f : α → β} {k : α} {v : β} : upd f k v k = v := by simp [upd]
theorem updR_upd {α β : Type} [DecidableEq α] {f : α → β} {k : α} {v w : β} : upd (upd f k v) k w = upd f k w := by
  funext x; by_cases h : x = k <;> simp [upd, h]
theorem updR_self {α β : Type} [DecidableEq α] {f : α → β} {k : α} : upd f k (f k) = f := by
  funext x; by_cases h : x = k <;> simp [upd, h]

abbrev Kp (m : Text) : Row → Row → Prop := fun r r' => r' m = r m

theorem kp_trans {m : Text} {a b c : List Row} (h1 : Each (Kp m) a b) (h2 : Each (Kp m) b c) : Each (Kp m) a c :=
  each_trans (P := Kp m) (Q := Kp m) (fun _ _ _ h h' => Eq.trans h' h) h1 h2

theorem cast_keeps {R : RowEngine} {n m : Text} {ty : SqlType} {b : Bool} {rows rows' : List Row}
    (h : castColumn R n ty b rows = some rows') (hm : n ≠ m) : Each (Kp m) rows rows' :=
  each_mono (fun x y ⟨v, _, e⟩ => by rw [e]; exact updR_ne hm.symm) (castColumn_each h)

theorem rowAction_keeps {R : RowEngine} {rows rows' : List Row} {a : Action} {m : Text}
    (h : rowAction R rows a = some rows') (hm : ¬ About a m) : Each (Kp m) rows rows' := by
  have hr : Each (Kp m) rows rows := each_refl (P := Kp m) (fun _ => rfl) rows
  cases a with
  | addColumn n spec =>
    simp only [About] at hm
    have hu : ∀ (r : Row) v, (upd r n v) m = r m := fun r v => updR_ne (fun e => hm e.symm)
    simp only [rowAction] at h
    split at h
    · cases h; exact each_mapIdx (fun i r => hu r _)
    · split at h
      · cases h; exact each_map (fun r _ => hu r _)
      · split at h
        · rw [Option.map_eq_some_iff] at h
          obtain ⟨v, _, rfl⟩ := h
          exact each_map (fun r _ => hu r _)
        · cases h; exact each_map (fun r _ => hu r _)
  | dropColumn n => cases h; exact each_map (fun r _ => updR_ne (fun e => hm e.symm))
  | dropDefaultAndColumn c n => cases h; exact each_map (fun r _ => updR_ne (fun e => hm e.symm))
  | renameColumn o n s =>
    cases h
    simp only [About, not_or] at hm
    refine each_map (fun r _ => ?_)
    show upd (upd r o .null) n (r o) m = r m
    rw [updR_ne (fun e => hm.2 e.symm), updR_ne (fun e => hm.1 e.symm)]
  | setDataType n ty => exact cast_keeps h hm
  | setNotNull n =>
    simp only [rowAction] at h
    split at h
    · cases h
    · cases h; exact hr
  | redefine n spec => exact cast_keeps h hm
  | modify n ty dd nl idn =>
    simp only [rowAction] at h
    split at h
    · exact cast_keeps h (fun e => hm ⟨e, rfl⟩)
    · split at h
      · cases h
      · cases h; exact hr
  | retype n ty b => exact cast_keeps h hm
  | dropNotNull n => cases h; exact hr
  | setDefault n e => cases h; exact hr
  | dropDefault n => cases h; exact hr
  | addIdentity n => cases h; exact hr
  | dropIdentity n => cases h; exact hr
  | addDefault x y z => cases h; exact hr
  | addConstraint x y => cases h; exact hr
  | dropConstraint x => cases h; exact hr

theorem rowActions_append {R : RowEngine} : ∀ {a b : List Action} {rows : List Row},
    rowActions R rows (a ++ b) = (rowActions R rows a).bind (fun x => rowActions R x b) := by
  intro a
  induction a with
  | nil => intro b rows; rfl
  | cons x a ih =>
    intro b rows
    simp only [List.cons_append, rowActions]
    cases rowAction R rows x with
    | none => rfl
    | some y => simp only [Option.bind_some]; exact ih

theorem rowActions_keeps {R : RowEngine} {m : Text} : ∀ {l : List Action} {rows rows' : List Row},
    rowActions R rows l = some rows' → (∀ a ∈ l, ¬ About a m) → Each (Kp m) rows rows' := by
  intro l
  induction l with
  | nil => intro rows rows' h _; cases h; exact each_refl (P := Kp m) (fun _ => rfl) rows
  | cons x l ih =>
    intro rows rows' h hm
    simp only [rowActions] at h
    cases hx : rowAction R rows x with
    | none => rw [hx] at h; cases h
    | some y =>
      rw [hx] at h
      exact kp_trans (rowAction_keeps hx (hm x List.mem_cons_self))
        (ih h (fun a ha => hm a (List.mem_cons_of_mem _ ha)))

theorem rowRun_append {R : RowEngine} : ∀ {a b : List Stmt} {D : Data},
    rowRun R D (a ++ b) = (rowRun R D a).bind (fun x => rowRun R x b) := by
  intro a
  induction a with
  | nil => intro b D; rfl
  | cons x a ih =>
    intro b D
    simp only [List.cons_append, rowRun]
    cases rowStep R D x with
    | none => rfl
    | some y => simp only [Option.bind_some]; exact ih

theorem rowRun_append_some {R : RowEngine} {a b : List Stmt} {D D' : Data} (h : rowRun R D (a ++ b) = some D') :
    ∃ D1, rowRun R D a = some D1 ∧ rowRun R D1 b = some D' := by
  rw [rowRun_append] at h
  cases ha : rowRun R D a with
  | none => rw [ha] at h; cases h
  | some D1 => rw [ha] at h; exact ⟨D1, rfl, h⟩

theorem rowRun_single {R : RowEngine} {D : Data} {s : Stmt} : rowRun R D [s] = rowStep R D s := by
  simp only [rowRun]
  cases rowStep R D s <;> rfl

/-- One statement per action. -/
theorem rowRun_each {R : RowEngine} {q : QId} : ∀ {l : List Action} {D : Data},
    rowRun R D (l.map (fun a => .alterTable q [a])) = (rowActions R (D q.key) l).map (upd D q.key) := by
  intro l
  induction l with
  | nil => intro D; simp [rowRun, rowActions, updR_self]
  | cons x l ih =>
    intro D
    simp only [List.map_cons, rowRun, rowStep, rowActions]
    cases hx : rowAction R (D q.key) x with
    | none => rfl
    | some y =>
      simp only [Option.bind_some, Option.map_some]
      rw [ih, updR_eq]
      cases rowActions R y l with
      | none => rfl
      | some z => simp [updR_upd]

theorem rowRun_alter {R : RowEngine} {d : Dialect} {tb : Table} {l : List Action} {D : Data} :
    rowRun R D (tb.alterStmt d l) = (rowActions R (D tb.name.key) l).map (upd D tb.name.key) := by
  unfold Table.alterStmt
  split
  · exact rowRun_each
  · rw [rowRun_single]; rfl

theorem rowRun_alters {R : RowEngine} {d : Dialect} {tb : Table} {l : List Action} {D : Data} :
    rowRun R D (l.flatMap (fun a => tb.alterStmt d [a])) = (rowActions R (D tb.name.key) l).map (upd D tb.name.key) := by
  have : l.flatMap (fun a => tb.alterStmt d [a]) = l.map (fun a => .alterTable tb.name [a]) := by
    induction l with
    | nil => rfl
    | cons x l ih =>
      rw [List.flatMap_cons, ih]
      unfold Table.alterStmt
      split <;> rfl
  rw [this]
  exact rowRun_each

theorem mapM_split {α β : Type} {f : α → Except Err β} {P Q : List α} {x : α} {r : List β}
    (h : (P ++ x :: Q).mapM f = .ok r) :
    ∃ rp y rq, P.mapM f = .ok rp ∧ f x = .ok y ∧ Q.mapM f = .ok rq ∧ r = rp ++ y :: rq := by
  rw [List.mapM_append] at h
  simp only [bind, Except.bind] at h
  split at h
  · cases h
  · rename_i a ha
    rw [List.mapM_cons] at h
    simp only [bind, Except.bind] at h
    cases hx : f x with
    | error e => rw [hx] at h; cases h
    | ok y =>
      rw [hx] at h
      cases hq : Q.mapM f with
      | error e => simp only [hq] at h; cases h
      | ok b =>
        simp only [hq, pure, Except.pure, Except.ok.injEq] at h
        exact ⟨a, y, b, ha, rfl, rfl, h.symm⟩

/-- The parts of a table's script. -/
theorem table_parts {d : Dialect} {a b : Table} {stmts : List Stmt} (h : mutateTableBase d a b = .ok stmts) :
    ∃ rn am an mg al, (migratedPairs d a b).mapM (fun p => p.1.softDropStmt d) = .ok rn
      ∧ (migratedPairs d a b).mapM (fun p => p.2.createStmt d) = .ok am
      ∧ (b.columns.difference a.columns).mapM (fun c => c.createStmt d) = .ok an
      ∧ (migratedPairs d a b).mapM (fun p => migrateColumn d a p.1 b p.2) = .ok mg
      ∧ alterActions a b d = .ok al
      ∧ stmts = rn.flatMap (fun x => a.alterStmt d [x])
        ++ (if am ++ an = [] then [] else a.alterStmt d (am ++ an))
        ++ mg.flatten
        ++ (if al = [] then [] else a.alterStmt d al) := by
  unfold mutateTableBase at h
  simp only [bind, Except.bind] at h
  split at h
  · cases h
  · split at h
    · cases h
    · rename_i rn hrn
      split at h
      · cases h
      · rename_i am ham
        split at h
        · cases h
        · rename_i an han
          split at h
          · cases h
          · rename_i mg hmg
            split at h
            · cases h
            · rename_i al hal
              simp only [pure, Except.pure, Except.ok.injEq] at h
              exact ⟨rn, am, an, mg, al, wrapColumn_ok' hrn, wrapColumn_ok' ham, wrapColumn_ok' han, wrapColumn_ok' hmg,
                hal, h.symm⟩

theorem rowRun_alter' {R : RowEngine} {d : Dialect} {tb : Table} {l : List Action} {D : Data} :
    rowRun R D (if l = [] then [] else tb.alterStmt d l)
      = (rowActions R (D tb.name.key) l).map (upd D tb.name.key) := by
  split
  · rename_i e; subst e; simp [rowRun, rowActions, updR_self]
  · exact rowRun_alter

end PySqlSync
