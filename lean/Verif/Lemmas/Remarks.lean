/-
Helper lemmas: the comments after the statements for one table.
-/
import Verif.Spec.Remarks
import Verif.Props.C03
import Verif.Lemmas.TableMutate
import Verif.Lemmas.Convert

set_option autoImplicit false

namespace PySqlSync.Rem
open Spec

variable {d : Dialect}

theorem upd_same {α β : Type} [DecidableEq α] (f : α → β) (k : α) (v : β) : upd f k v k = v := by simp [upd]
theorem upd_ne {α β : Type} [DecidableEq α] (f : α → β) {k x : α} (v : β) (h : x ≠ k) : upd f k v x = f x := by simp [upd, h]

theorem remarks_append (c : Key → Remarks) (a b : List Stmt) : remarks d c (a ++ b) = remarks d (remarks d c a) b := by
  simp [remarks]

/-! ### Statements without effect on an object -/

/-- The statement leaves the comments of the object as they are. -/
def Quiet (d : Dialect) (k : Key) (s : Stmt) : Prop := ∀ c, remark d c s k = c k

theorem quiet_list {k : Key} : ∀ {l : List Stmt}, (∀ s ∈ l, Quiet d k s) → ∀ c, remarks d c l k = c k
  | [], _, _ => rfl
  | s :: l, h, c => by
    show remarks d (remark d c s) l k = c k
    rw [quiet_list (fun x hx => h x (List.mem_cons_of_mem _ hx)), h s (List.mem_cons_self ..)]

/-- The object a statement is about; `none` if it has no effect on comments. -/
def subject : Stmt → Option Key
  | .createTable q _ _ _ _ => some q.key
  | .createEnum q _ => some q.key
  | .createStruct q _ => some q.key
  | .alterTable q _ => some q.key
  | .alterStruct q _ => some q.key
  | .dropType q => some q.key
  | .dropTable q => some q.key
  | .commentTable q _ => some q.key
  | .commentType q _ => some q.key
  | .commentColumn q _ _ => some q.key
  | _ => none

def isPlain : Stmt → Bool
  | .renameType _ _ => false
  | .dropSchema _ _ => false
  | _ => true

theorem quiet_of_subject {k : Key} {s : Stmt} (hp : isPlain s = true) (h : ∀ k', subject s = some k' → k' ≠ k) : Quiet d k s := by
  intro c
  cases s <;> simp only [isPlain, Bool.false_eq_true] at hp <;>
    first
    | rfl
    | exact upd_ne _ _ (Ne.symm (h _ rfl))

theorem quiet_rename {k : Key} {q : QId} {new : Text} (h1 : k ≠ q.key) (h2 : k ≠ (q.key.1, new)) : Quiet d k (.renameType q new) := by
  intro c
  simp only [remark]
  rw [upd_ne _ _ h2, upd_ne _ _ h1]

/-! ### Actions -/

/-- The column an action has an effect on. -/
def On : Action → Text → Prop
  | .addColumn n _, m => n = m
  | .redefine n _, m => n = m
  | .dropColumn n, m => n = m
  | .dropDefaultAndColumn _ n, m => n = m
  | .renameColumn old new _, m => old = m ∨ new = m
  | _, _ => False

/-- The action gives the column this comment, unless it has no effect on it. -/
def Gives (d : Dialect) (a : Action) (m : Text) (v : Option Text) : Prop :=
  ∀ r : Remarks, (remarkAction d r a).cols m = v

theorem action_own (r : Remarks) (a : Action) : (remarkAction d r a).own = r.own := by
  cases a <;> rfl

theorem action_off {a : Action} {m : Text} (h : ¬ On a m) (r : Remarks) : (remarkAction d r a).cols m = r.cols m := by
  cases a <;> simp only [On, not_or] at h <;>
    first
    | rfl
    | exact upd_ne _ _ (Ne.symm h)
    | skip
  case renameColumn old new s =>
    simp only [remarkAction]
    rw [upd_ne _ _ (Ne.symm h.2), upd_ne _ _ (Ne.symm h.1)]

theorem fold_own (l : List Action) (r : Remarks) : (l.foldl (remarkAction d) r).own = r.own := by
  induction l generalizing r with
  | nil => rfl
  | cons a l ih => rw [List.foldl_cons, ih, action_own]

/-- Whatever an action has to do with the column, it gives it this comment; one of them does, or the column had it before. -/
theorem fold_gives {l : List Action} {m : Text} {v : Option Text} (h : ∀ a ∈ l, On a m → Gives d a m v) (r : Remarks)
    (h0 : r.cols m = v ∨ ∃ a ∈ l, On a m) : (l.foldl (remarkAction d) r).cols m = v := by
  induction l generalizing r with
  | nil =>
    rcases h0 with h0 | ⟨a, ha, _⟩
    · exact h0
    · cases ha
  | cons a l ih =>
    refine ih (fun b hb => h b (List.mem_cons_of_mem _ hb)) _ ?_
    by_cases ho : On a m
    · exact .inl (h a (List.mem_cons_self ..) ho r)
    · rw [action_off ho]
      rcases h0 with h0 | ⟨b, hb, hob⟩
      · exact .inl h0
      · rcases List.mem_cons.mp hb with rfl | hb
        · exact absurd hob ho
        · exact .inr ⟨b, hb, hob⟩

theorem fold_off {l : List Action} {m : Text} (h : ∀ a ∈ l, ¬ On a m) (r : Remarks) : (l.foldl (remarkAction d) r).cols m = r.cols m :=
  fold_gives (fun a ha ho => absurd ho (h a ha)) r (.inl rfl)

/-- Statements that alter the table amount to the actions in them. -/
theorem alter_fold (tb : Table) (acts : List Action) (c : Key → Remarks) :
    remarks d c (tb.alterStmt d acts) tb.name.key = acts.foldl (remarkAction d) (c tb.name.key) := by
  unfold Table.alterStmt
  split
  · induction acts generalizing c with
    | nil => rfl
    | cons a acts ih =>
      show remarks d (remark d c (.alterTable tb.name [a])) _ _ = _
      rw [ih]
      simp only [remark, upd_same, List.foldl_cons, List.foldl_nil]
  · simp only [remarks, List.foldl_cons, List.foldl_nil, remark, upd_same]

theorem alterIf_fold (tb : Table) (acts : List Action) (c : Key → Remarks) :
    remarks d c (if acts = [] then [] else tb.alterStmt d acts) tb.name.key = acts.foldl (remarkAction d) (c tb.name.key) := by
  split
  · next h => subst h; rfl
  · exact alter_fold tb acts c

theorem alters_fold (tb : Table) (acts : List Action) (c : Key → Remarks) :
    remarks d c (acts.flatMap (fun a => tb.alterStmt d [a])) tb.name.key = acts.foldl (remarkAction d) (c tb.name.key) := by
  induction acts generalizing c with
  | nil => rfl
  | cons a acts ih =>
    rw [List.flatMap_cons, remarks_append, ih, alter_fold]
    rfl

/-! ### The comment in a column definition -/

/-- The comment that is part of a column definition. -/
def specRemark (d : Dialect) (u : Column) : Option Text := if d = .mysql then u.description.map (keptText d) else none

theorem comment_eq (hd : d = .postgresql ∨ d = .mysql) {u : Column} {x : Option Text} (h : u.comment d = .ok x) : x = specRemark d u := by
  unfold Column.comment at h
  rcases hd with rfl | rfl
  · simp only [Except.ok.injEq] at h; subst h; rfl
  · cases hu : u.description with
    | none => rw [hu] at h; cases h; simp [specRemark, hu]
    | some t =>
      rw [hu] at h
      dsimp only at h
      split at h
      · cases h
      · cases h; simp [specRemark, hu, keptText, firstLine]

theorem dataSpec_comment {u : Column} {s : ColSpec} (h : u.dataSpec d = .ok s) : u.comment d = .ok s.comment := by
  unfold Column.dataSpec at h
  cases hc : u.comment d with
  | error e => simp [hc, bind, Except.bind] at h
  | ok x => simp only [hc, bind, Except.bind, pure, Except.pure, Except.ok.injEq] at h; subst h; rfl

theorem createStmt_add (hd : d = .postgresql ∨ d = .mysql) {u : Column} {a : Action} (h : u.createStmt d = .ok a) :
    ∃ s, a = .addColumn u.name s ∧ s.comment = specRemark d u := by
  unfold Column.createStmt at h
  cases hs : u.dataSpec d with
  | error e => simp [hs, bind, Except.bind] at h
  | ok s =>
    simp only [hs, bind, Except.bind, pure, Except.pure, Except.ok.injEq] at h
    subst h
    exact ⟨s, rfl, comment_eq hd (dataSpec_comment hs)⟩

theorem add_gives {m : Text} (s : ColSpec) : Gives d (.addColumn m s) m (stored s.comment) := fun r => by simp [remarkAction, upd]
theorem redefine_gives {m : Text} (s : ColSpec) : Gives d (.redefine m s) m (stored s.comment) := fun r => by simp [remarkAction, upd]

theorem rename_on (hd : d = .postgresql ∨ d = .mysql) {s : Column} {a : Action} (h : s.softDropStmt d = .ok a) {m : Text} (ho : On a m) :
    s.name = m ∨ deletedName s.name = m := by
  unfold Column.softDropStmt Column.renameStmt at h
  rcases hd with rfl | rfl
  · simp only [Except.ok.injEq] at h; subst h; exact ho
  · dsimp only at h
    cases hs : s.dataSpec .mysql with
    | error e => simp [hs, bind, Except.bind] at h
    | ok x =>
      simp only [hs, bind, Except.bind, pure, Except.pure, Except.ok.injEq] at h
      subst h; exact ho

/-- The comments of common columns change in place only on MySQL. -/
theorem mutateColumn_on (hd : d = .postgresql ∨ d = .mysql) {s u : Column} {l : List Action} (h : mutateColumn d s u = .ok l) :
    (∀ a ∈ l, ∀ m, On a m → m = s.name ∧ Gives d a m (stored (specRemark d u))) ∧
    (d = .mysql → (∃ a ∈ l, On a s.name) ∨ specRemark d s = specRemark d u) := by
  rcases hd with rfl | rfl
  · refine ⟨?_, fun h => nomatch h⟩
    simp only [mutateColumn] at h
    split at h
    · cases h; simp
    · simp only [Except.ok.injEq] at h
      subst h
      intro a ha m hm
      simp only [List.mem_append] at ha
      rcases ha with ((ha | ha) | ha) | ha
      · split at ha
        · simp only [List.mem_singleton] at ha; subst ha; exact hm.elim
        · simp at ha
      · repeat' split at ha
        all_goals first | (simp only [List.mem_singleton] at ha; subst ha; exact hm.elim) | simp at ha
      · repeat' split at ha
        all_goals first | (simp only [List.mem_singleton] at ha; subst ha; exact hm.elim) | simp at ha
      · repeat' split at ha
        all_goals first | (simp only [List.mem_singleton] at ha; subst ha; exact hm.elim) | simp at ha
  · simp only [mutateColumn] at h
    have key : ∀ x, u.dataSpec .mysql = .ok x → (∀ a ∈ [Action.redefine s.name x], ∀ m, On a m → m = s.name ∧ Gives .mysql a m (stored (specRemark .mysql u))) ∧
        ((∃ a ∈ [Action.redefine s.name x], On a s.name) ∨ specRemark .mysql s = specRemark .mysql u) := by
      intro x hx
      refine ⟨?_, .inl ⟨_, List.mem_singleton.mpr rfl, rfl⟩⟩
      intro a ha m hm
      simp only [List.mem_singleton] at ha
      subst ha
      have hm : s.name = m := hm
      subst hm
      refine ⟨rfl, ?_⟩
      rw [← comment_eq (.inr rfl) (dataSpec_comment hx)]
      exact redefine_gives x
    split at h
    · cases hx : u.dataSpec .mysql with
      | error e => simp [hx, bind, Except.bind] at h
      | ok x =>
        simp only [hx, bind, Except.bind, pure, Except.pure, Except.ok.injEq] at h
        subst h
        exact ⟨(key x hx).1, fun _ => (key x hx).2⟩
    · cases h1 : s.comment .mysql with
      | error e => simp [h1, bind, Except.bind] at h
      | ok a =>
        cases h2 : u.comment .mysql with
        | error e => simp [h1, h2, bind, Except.bind] at h
        | ok b =>
          simp only [h1, h2, bind, Except.bind] at h
          split at h
          · cases hx : u.dataSpec .mysql with
            | error e => simp [hx] at h
            | ok x =>
              simp only [hx, pure, Except.pure, Except.ok.injEq] at h
              subst h
              exact ⟨(key x hx).1, fun _ => (key x hx).2⟩
          · next he =>
            simp only [pure, Except.pure, Except.ok.injEq] at h
            subst h
            refine ⟨by simp, fun _ => .inr ?_⟩
            rw [← comment_eq (.inr rfl) h1, ← comment_eq (.inr rfl) h2]
            simpa using he

/-! ### Tables -/

/-- The comment of a column after the alterations and before the statements that set comments. -/
def between (d : Dialect) (S : Table) (u : Column) : Option Text :=
  if d = .mysql then stored (u.description.map (keptText d))
  else
    match S.columns.get u.name with
    | some s => if isColumnMigrated d s u then none else stored (s.description.map (keptText d))
    | none => none

theorem wrapped {α : Type} {q : QId} {x : Except Err α} {y : α} (h : wrapColumn q x = .ok y) : x = .ok y := wrapColumn_ok' h

theorem mem_inter_intro {α : Type} [Named α] {a b : ODict α} (hb : b.Inv) {x y : α} (hx : x ∈ a.items) (hy : y ∈ b.items) (e : key x = key y) :
    (x, y) ∈ a.intersection b := by
  simp only [ODict.intersection, List.mem_filterMap, Option.map_eq_some_iff]
  exact ⟨x, hx, y, by rw [e]; exact ODict.get_eq_of_mem hb hy, rfl⟩

theorem base_between (hd : d = .postgresql ∨ d = .mysql) {S T : Table} (wS : TableWF d S) (wT : TableWF d T) {l : List Stmt}
    (h : mutateTableBase d S T = .ok l) (c : Key → Remarks) (hc : Described d S (c S.name.key)) :
    (remarks d c l S.name.key).own = (c S.name.key).own ∧
    ∀ u ∈ T.columns.items, (remarks d c l S.name.key).cols u.name = between d S u := by
  unfold mutateTableBase at h
  simp only [Conv.bind_ok, Conv.pure_ok] at h
  obtain ⟨_, _, rn, hrn, am, ham, an, han, mg, hmg, al, hal, rfl⟩ := h
  have hrn := wrapped hrn
  have ham := wrapped ham
  have han := wrapped han
  have hmg := wrapped hmg
  simp only [remarks_append]
  have hq : ∀ c, remarks d c mg.flatten S.name.key = c S.name.key := by
    refine quiet_list ?_
    intro s hs
    obtain ⟨p, _, x, hx, hm⟩ := mem_of_mapM hmg hs
    obtain ⟨r, _, h⟩ := migrateColumn_mem hx hm
    rcases h with ⟨_, _, rfl⟩ | ⟨_, rfl⟩ | ⟨_, _, rfl⟩ <;> exact quiet_of_subject rfl (fun k' e => by cases e)
  rw [alterIf_fold, hq, alterIf_fold, alters_fold]
  refine ⟨by rw [fold_own, fold_own, fold_own], ?_⟩
  intro u hu
  -- what the groups of actions have to do with the column
  have hrename : ∀ a ∈ rn, On a u.name → ∃ s ∈ S.columns.items, s.name = u.name ∧ isColumnMigrated d s u = true := by
    intro a ha ho
    obtain ⟨p, hp, hk⟩ := mem_mapM' hrn ha
    have hp' := List.mem_filter.mp hp
    have hi := mem_inter hp'.1
    rcases rename_on hd hk ho with e | e
    · have : p.2 = u := eq_of_key wT.columns hi.2.1 hu (hi.2.2.symm.trans e)
      subst this
      exact ⟨p.1, hi.1, e, hp'.2⟩
    · exact absurd e.symm (wT.names u hu p.1.name)
  have hadd : ∀ a ∈ am ++ an, On a u.name → Gives d a u.name (stored (specRemark d u)) := by
    intro a ha ho
    have hcase : ∃ u' ∈ T.columns.items, u'.createStmt d = .ok a := by
      rcases List.mem_append.mp ha with ha | ha
      · obtain ⟨p, hp, hk⟩ := mem_mapM' ham ha
        exact ⟨p.2, (mem_inter (List.mem_filter.mp hp).1).2.1, hk⟩
      · obtain ⟨u', hu', hk⟩ := mem_mapM' han ha
        exact ⟨u', (mem_diff hu').1, hk⟩
    obtain ⟨u', hu', hk⟩ := hcase
    obtain ⟨s, rfl, hs⟩ := createStmt_add hd hk
    have ho : u'.name = u.name := ho
    have : u' = u := eq_of_key wT.columns hu' hu ho
    subst this
    rw [← hs]
    exact add_gives s
  have hadded : (∀ s ∈ S.columns.items, s.name = u.name → isColumnMigrated d s u = true) → ∃ a ∈ am ++ an, On a u.name := by
    intro hall
    by_cases hex : ∃ s ∈ S.columns.items, s.name = u.name
    · obtain ⟨s, hs, e⟩ := hex
      have hp : (s, u) ∈ migratedPairs d S T := List.mem_filter.mpr ⟨mem_inter_intro wT.columns hs hu e, hall s hs e⟩
      obtain ⟨a, ha, hk⟩ := Conv.mapM_fwd ham _ hp
      obtain ⟨x, rfl, _⟩ := createStmt_add hd hk
      exact ⟨_, List.mem_append_left _ ha, rfl⟩
    · have hp : u ∈ T.columns.difference S.columns := by
        refine (ODict.mem_difference).mpr ⟨hu, ?_⟩
        intro hm
        obtain ⟨s, hs, e⟩ := List.mem_map.mp hm
        exact hex ⟨s, hs, e⟩
      obtain ⟨a, ha, hk⟩ := Conv.mapM_fwd han _ hp
      obtain ⟨x, rfl, _⟩ := createStmt_add hd hk
      exact ⟨_, List.mem_append_right _ ha, rfl⟩
  have hunadded : ∀ s ∈ S.columns.items, s.name = u.name → isColumnMigrated d s u = false → ∀ a ∈ am ++ an, ¬ On a u.name := by
    intro s hs e hn a ha ho
    rcases List.mem_append.mp ha with ha | ha
    · obtain ⟨p, hp, hk⟩ := mem_mapM' ham ha
      have hp' := List.mem_filter.mp hp
      have hi := mem_inter hp'.1
      obtain ⟨x, rfl, _⟩ := createStmt_add hd hk
      have ho : p.2.name = u.name := ho
      have e2 : p.2 = u := eq_of_key wT.columns hi.2.1 hu ho
      have e1 : p.1 = s := eq_of_key wS.columns hi.1 hs (hi.2.2.trans (ho.trans e.symm))
      have := hp'.2
      rw [e1, e2, hn] at this
      cases this
    · obtain ⟨u', hu', hk⟩ := mem_mapM' han ha
      obtain ⟨x, rfl, _⟩ := createStmt_add hd hk
      have ho : u'.name = u.name := ho
      exact (mem_diff hu').2 s hs (ho.trans e.symm)
  have halter : (∀ a ∈ al, On a u.name → Gives d a u.name (stored (specRemark d u))) ∧
      (∀ a ∈ al, On a u.name → d = .mysql) ∧
      (d = .mysql → ∀ s ∈ S.columns.items, s.name = u.name → (∃ a ∈ al, On a u.name) ∨ specRemark d s = specRemark d u) := by
    unfold alterActions at hal
    simp only [Conv.bind_ok] at hal
    obtain ⟨ch, hch, hal⟩ := hal
    have hch := wrapped hch
    split at hal
    · cases hal
    simp only [Conv.pure_ok] at hal
    have hcases : ∀ a ∈ al, On a u.name → ∃ p ∈ S.columns.intersection T.columns, ∃ x, mutateColumn d p.1 p.2 = .ok x ∧ a ∈ x := by
      intro a ha ho
      rw [← hal] at ha
      simp only [List.mem_append] at ha
      rcases ha with (((ha | ha) | ha) | ha) | ha
      · obtain ⟨p, _, rfl⟩ := List.mem_map.mp ha
        have ho : deletedName p.1.name = u.name := ho
        exact absurd ho.symm (wT.names u hu p.1.name)
      · exact mem_of_mapM hch ha
      · obtain ⟨s, hs, rfl⟩ := List.mem_map.mp ha
        have hno : s.name = u.name := by
          unfold Column.dropStmt at ho
          split at ho <;> exact ho
        exact absurd hno ((mem_diff hs).2 u hu)
      · obtain ⟨x, _, hx⟩ := List.mem_filterMap.mp ha
        simp only [Option.map_eq_some_iff] at hx
        obtain ⟨_, _, rfl⟩ := hx
        exact ho.elim
      · obtain ⟨x, _, hx⟩ := List.mem_filterMap.mp ha
        simp only [Option.map_eq_some_iff] at hx
        obtain ⟨_, _, rfl⟩ := hx
        exact ho.elim
    have hgive : ∀ a ∈ al, On a u.name → Gives d a u.name (stored (specRemark d u)) := by
      intro a ha ho
      obtain ⟨p, hp, x, hx, hm⟩ := hcases a ha ho
      have hi := mem_inter hp
      have := (mutateColumn_on hd hx).1 a hm u.name ho
      have e2 : p.2 = u := eq_of_key wT.columns hi.2.1 hu (hi.2.2.symm.trans this.1.symm)
      rw [← e2] at this ⊢
      exact this.2
    refine ⟨hgive, ?_, ?_⟩
    · intro a ha ho
      rcases hd with rfl | rfl
      · exfalso
        obtain ⟨p, hp, x, hx, hm⟩ := hcases a ha ho
        simp only [mutateColumn] at hx
        split at hx
        · cases hx; cases hm
        · simp only [Except.ok.injEq] at hx
          subst hx
          simp only [List.mem_append] at hm
          rcases hm with ((hm | hm) | hm) | hm
          all_goals
            repeat' split at hm
            all_goals first | (simp only [List.mem_singleton] at hm; subst hm; exact ho.elim) | simp at hm
      · rfl
    · intro hmy s hs e
      obtain ⟨x, hx, hk⟩ := Conv.mapM_fwd hch _ (mem_inter_intro wT.columns hs hu e)
      rcases (mutateColumn_on hd hk).2 hmy with ⟨a, ha, ho⟩ | he
      · refine .inl ⟨a, ?_, e ▸ ho⟩
        rw [← hal]
        simp only [List.mem_append]
        exact .inl (.inl (.inl (.inr (List.mem_flatten.mpr ⟨x, hx, ha⟩))))
      · exact .inr he
  -- the state after the additions
  by_cases hmig : ∀ s ∈ S.columns.items, s.name = u.name → isColumnMigrated d s u = true
  · have h1 := fold_gives hadd (rn.foldl (remarkAction d) (c S.name.key)) (.inr (hadded hmig))
    have h2 := fold_gives halter.1 _ (.inl h1)
    rw [h2]
    rcases hd with rfl | rfl
    · have hs : specRemark .postgresql u = none := rfl
      rw [hs]
      simp only [between, reduceCtorEq, if_false]
      split
      · next s hs =>
        have := ODict.get_some_mem hs
        rw [if_pos (hmig s this.1 this.2)]; rfl
      · rfl
    · simp [between, specRemark]
  · obtain ⟨s, hs, e, hn⟩ : ∃ s ∈ S.columns.items, s.name = u.name ∧ isColumnMigrated d s u = false := by
      refine Classical.byContradiction (fun hno => hmig (fun s hs e => ?_))
      cases hb : isColumnMigrated d s u with
      | true => rfl
      | false => exact absurd ⟨s, hs, e, hb⟩ hno
    have h1 : ((am ++ an).foldl (remarkAction d) (rn.foldl (remarkAction d) (c S.name.key))).cols u.name = (c S.name.key).cols u.name := by
      rw [fold_off (hunadded s hs e hn), fold_off]
      intro a ha ho
      obtain ⟨s', hs', e', hm⟩ := hrename a ha ho
      have : s' = s := eq_of_key wS.columns hs' hs (e'.trans e.symm)
      rw [this, hn] at hm; cases hm
    have hsrc : (c S.name.key).cols u.name = stored (s.description.map (keptText d)) := e ▸ hc.cols s hs
    rcases hd with rfl | rfl
    · rw [fold_off (fun a ha ho => nomatch (halter.2.1 a ha ho)), h1, hsrc]
      have hg : S.columns.get u.name = some s := by rw [← e]; exact ODict.get_eq_of_mem wS.columns hs
      simp only [between, reduceCtorEq, if_false, hg, hn, Bool.false_eq_true]
    · have hf : stored (specRemark .mysql u) = between .mysql S u := by simp [between, specRemark]
      rw [← hf]
      refine fold_gives halter.1 _ ?_
      rcases halter.2.2 rfl s hs e with h | h
      · exact .inr h
      · refine .inl ?_
        rw [h1, hsrc, ← h]
        simp [specRemark]

/-! ### Statements that set comments -/

theorem stored_stored (x : Option Text) : stored (stored x) = stored x := by
  match x with
  | none => rfl
  | some [] => rfl
  | some (_ :: _) => rfl

theorem change_column {q : QId} {n : Text} (x y : Option Text) (c : Key → Remarks) :
    (remarks d c (commentChange x y (Stmt.commentColumn q n)) q.key).own = (c q.key).own ∧
    (∀ m, m ≠ n → (remarks d c (commentChange x y (Stmt.commentColumn q n)) q.key).cols m = (c q.key).cols m) ∧
    (remarks d c (commentChange x y (Stmt.commentColumn q n)) q.key).cols n = (if x = y then (c q.key).cols n else stored y) := by
  unfold commentChange
  cases y with
  | none =>
    cases x with
    | none => simp [remarks]
    | some x => simp [remarks, remark, upd]; intro m hm h; exact absurd h hm
  | some y =>
    by_cases h : x = some y
    · simp [h, remarks]
    · simp [h, remarks, remark, upd]; intro m hm h; exact absurd h hm

theorem change_table {q : QId} (x y : Option Text) (c : Key → Remarks) :
    (remarks d c (commentChange x y (Stmt.commentTable q)) q.key).cols = (c q.key).cols ∧
    (remarks d c (commentChange x y (Stmt.commentTable q)) q.key).own = (if x = y then (c q.key).own else stored y) := by
  unfold commentChange
  cases y with
  | none =>
    cases x with
    | none => simp [remarks]
    | some x => simp [remarks, remark, upd]
  | some y =>
    by_cases h : x = some y
    · simp [h, remarks]
    · simp [h, remarks, remark, upd]

/-- One statement (or none) for each column. -/
theorem change_columns {q : QId} (f : Column → Option Text) : ∀ (cols : List Column) (c : Key → Remarks), (cols.map Column.name).Nodup →
    let r := remarks d c (cols.flatMap (fun u => commentChange (f u) u.description (Stmt.commentColumn q u.name))) q.key
    r.own = (c q.key).own ∧ (∀ m, m ∉ cols.map Column.name → r.cols m = (c q.key).cols m) ∧
    ∀ u ∈ cols, r.cols u.name = (if f u = u.description then (c q.key).cols u.name else stored u.description)
  | [], c, _ => by simp [remarks]
  | u :: cols, c, hn => by
    simp only [List.map_cons, List.nodup_cons] at hn
    have h1 := change_column (d := d) (q := q) (n := u.name) (f u) u.description c
    have ih := change_columns (q := q) f cols (remarks d c (commentChange (f u) u.description (Stmt.commentColumn q u.name))) hn.2
    simp only [List.flatMap_cons, remarks_append]
    dsimp only at ih
    refine ⟨by rw [ih.1, h1.1], ?_, ?_⟩
    · intro m hm
      simp only [List.map_cons, List.mem_cons, not_or] at hm
      rw [ih.2.1 m hm.2, h1.2.1 m hm.1]
    · intro v hv
      rcases List.mem_cons.mp hv with rfl | hv
      · rw [ih.2.1 _ hn.1, h1.2.2]
      · rw [ih.2.2 v hv, h1.2.1]
        intro e
        exact hn.1 (e ▸ List.mem_map_of_mem hv)

theorem identity_ok {a b : QId} {x : Unit} (h : checkIdentity a b = .ok x) : a = b := by
  unfold checkIdentity at h
  split at h
  · next hn => exact hn
  · cases h

theorem mutateTable_name {S T : Table} {l : List Stmt} (h : mutateTable d S T = .ok l) : S.name = T.name := by
  unfold mutateTable at h
  simp only [Conv.bind_ok] at h
  obtain ⟨base, hb, _⟩ := h
  unfold mutateTableBase at hb
  simp only [Conv.bind_ok] at hb
  obtain ⟨_, hi, _⟩ := hb
  exact identity_ok hi

theorem mutateTable_left (hd : d = .postgresql ∨ d = .mysql) {S T : Table} (wS : TableWF d S) (wT : TableWF d T) {l : List Stmt}
    (h : mutateTable d S T = .ok l) (c : Key → Remarks) (hc : Described d S (c S.name.key)) :
    Left d S T (remarks d c l T.name.key) := by
  have hname := mutateTable_name h
  unfold mutateTable at h
  simp only [Conv.bind_ok] at h
  obtain ⟨base, hb, h⟩ := h
  have hbet := base_between hd wS wT hb c hc
  rw [hname] at hbet
  rcases hd with rfl | rfl
  · simp only [Conv.pure_ok] at h
    subst h
    simp only [remarks_append]
    have h2 := change_columns (d := .postgresql) (q := T.name) (fun u => (S.columns.get u.name).bind Column.description) T.columns.items
      (remarks .postgresql c base) wT.columns
    dsimp only at h2
    have h3 := change_table (d := .postgresql) (q := T.name) S.description T.description
      (remarks .postgresql (remarks .postgresql c base) (T.columns.items.flatMap (fun c =>
        commentChange ((S.columns.get c.name).bind Column.description) c.description (Stmt.commentColumn T.name c.name))))
    have hget : ∀ u ∈ T.columns.items, Forgotten .postgresql S u ↔ ∃ s, S.columns.get u.name = some s ∧ Converted .postgresql s u ∧ s.description = u.description := by
      intro u _
      constructor
      · rintro ⟨_, s, hs, e, h1, h2⟩
        exact ⟨s, by rw [← e]; exact ODict.get_eq_of_mem wS.columns hs, h1, h2⟩
      · rintro ⟨s, hg, h1, h2⟩
        have hs := ODict.get_some_mem hg
        exact ⟨rfl, s, hs.1, hs.2, h1, h2⟩
    refine ⟨?_, ?_, ?_⟩
    · rw [h3.2, h2.1, hbet.1, ← hname, hc.own]
      have : ∀ x : Option Text, x.map (keptText .postgresql) = x := fun x => by cases x <;> rfl
      rw [this, this]
      split
      · next e => rw [e]
      · rfl
    · intro u hu hnf
      have hid : ∀ x : Option Text, x.map (keptText .postgresql) = x := fun x => by cases x <;> rfl
      rw [h3.1, h2.2.2 u hu, hbet.2 u hu, hid]
      split
      · next e =>
        simp only [between, reduceCtorEq, if_false]
        cases hg : S.columns.get u.name with
        | none => rw [hg] at e; simp only [Option.bind_none] at e; simp [← e, stored]
        | some s =>
          rw [hg] at e
          simp only [Option.bind_some] at e
          have hs := ODict.get_some_mem hg
          dsimp only
          split
          · next hm => exact absurd ((hget u hu).2 ⟨s, hg, (isColumnMigrated_iff _ s u).mp hm, e⟩) hnf
          · rw [hid, e]
      · rfl
    · intro u hu hf
      obtain ⟨s, hg, hcv, he⟩ := (hget u hu).1 hf
      rw [h3.1, h2.2.2 u hu, hbet.2 u hu, if_pos (by rw [hg]; exact he)]
      simp only [between, reduceCtorEq, if_false, hg]
      rw [if_pos ((isColumnMigrated_iff _ s u).mpr hcv)]
  · simp only [Conv.pure_ok] at h
    subst h
    rw [remarks_append]
    have key : ∀ (l : List Stmt), (∀ s ∈ l, ∃ x, s = Stmt.commentTable T.name x) → ∀ c : Key → Remarks,
        (remarks .mysql c l T.name.key).cols = (c T.name.key).cols := by
      intro l
      induction l with
      | nil => intro _ c; rfl
      | cons s l ih =>
        intro hl c
        obtain ⟨x, rfl⟩ := hl s (List.mem_cons_self ..)
        show (remarks .mysql (remark .mysql c _) l T.name.key).cols = _
        rw [ih (fun s hs => hl s (List.mem_cons_of_mem _ hs))]
        simp [remark, upd]
    refine ⟨?_, ?_, fun u _ hf => nomatch hf.1⟩
    · have ho : (remarks .mysql c base T.name.key).own = stored S.shortDescription := by rw [hbet.1, ← hname, hc.own]; rfl
      show _ = stored T.shortDescription
      cases h1 : S.shortDescription with
      | none =>
        cases h2 : T.shortDescription with
        | none => dsimp only; show (remarks .mysql c base T.name.key).own = _; rw [ho, h1]
        | some y => simp [remarks, remark, upd]
      | some x =>
        cases h2 : T.shortDescription with
        | none => simp [remarks, remark, upd, stored]
        | some y =>
          by_cases hxy : x = y
          · subst hxy
            simp only [ne_eq, not_true, if_false]
            show (remarks .mysql c base T.name.key).own = _; rw [ho, h1]
          · simp [hxy, remarks, remark, upd]
    · intro u hu _
      rw [key]
      · rw [hbet.2 u hu]; simp [between]
      · intro s hs
        split at hs
        · simp only [List.mem_singleton] at hs; exact ⟨_, hs⟩
        · cases hs
        · simp only [List.mem_singleton] at hs; exact ⟨_, hs⟩
        · split at hs
          · simp only [List.mem_singleton] at hs; exact ⟨_, hs⟩
          · cases hs

/-- What is left are the descriptions exactly if nothing is forgotten. -/
theorem left_iff {S T : Table} {r : Remarks} (h : Left d S T r) : Described d T r ↔ ConvertedChange d S T := by
  constructor
  · rintro hd rfl s hs u hu e hc he
    have h1 := h.lost u hu ⟨rfl, s, hs, e, hc, he⟩
    have h2 := hd.cols u hu
    rw [h1] at h2
    have hid : ∀ x : Option Text, x.map (keptText .postgresql) = x := fun x => by cases x <;> rfl
    rw [hid] at h2
    exact h2.symm
  · intro hc
    refine ⟨h.own, fun u hu => ?_⟩
    by_cases hf : Forgotten d S u
    · rw [h.lost u hu hf]
      obtain ⟨rfl, s, hs, e, h1, h2⟩ := hf
      have hid : ∀ x : Option Text, x.map (keptText .postgresql) = x := fun x => by cases x <;> rfl
      rw [hid, hc rfl s hs u hu e h1 h2]
    · exact h.cols u hu hf

end PySqlSync.Rem
