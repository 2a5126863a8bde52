/-
Helper lemmas: scripts for one enumeration and for one composite type.
-/
import Verif.Lemmas.NsAlter

set_option autoImplicit false

namespace PySqlSync
open Spec

theorem mutateEnum_ok {s u : EnumType} {stmts : List Stmt} (h : mutateEnum s u = .ok stmts) :
    s.name = u.name ∧ (∀ v ∈ s.values, v ∈ u.values) ∧
      stmts = (u.values.filter (fun v => !s.values.contains v)).map (fun v => Stmt.addValue s.name v) := by
  unfold mutateEnum checkIdentity at h
  by_cases e : s.name = u.name
  · simp only [e, if_true, bind, Except.bind, pure, Except.pure] at h
    split at h
    · simp [throw, throwThe, MonadExceptOf.throw] at h
    · rename_i hr
      simp only [Except.ok.injEq] at h
      refine ⟨e, ?_, by rw [e]; exact h.symm⟩
      intro v hv
      simp only [ne_eq, Classical.not_not] at hr
      rw [List.filter_eq_nil_iff] at hr
      have := hr v hv
      simpa using this
  · simp [e, bind, Except.bind] at h

section
variable {E : Engine} {db : Db}

theorem runs_mutateEnum (v : Valid db) {s u : EnumType} {stmts : List Stmt} (h : mutateEnum s u = .ok stmts)
    (h0 : db.objs s.name.key = some (EnumType.obj s)) (hn : u.values.Nodup) :
    Runs E db stmts (db.set s.name.key (some (EnumType.obj u))) := by
  obtain ⟨_, hsub, rfl⟩ := mutateEnum_ok h
  have hkind : ∀ vs, Valid (db.set s.name.key (some (.enum vs))) := fun vs => valid_replace v h0 rfl trivial
  have key := runs_flatMap (E := E) (fun v => [Stmt.addValue s.name v])
    (fun p => db.set s.name.key (some (.enum (fun x => s.values.contains x || p.contains x))))
    (u.values.filter (fun v => !s.values.contains v)) ?_ (hkind _)
  · have e1 : db.set s.name.key (some (.enum (fun x => s.values.contains x || ([] : List Text).contains x))) = db := by
      apply set_self
      rw [h0]
      simp [EnumType.obj]
    have e2 : (fun x => s.values.contains x || (u.values.filter (fun v => !s.values.contains v)).contains x)
        = fun x => u.values.contains x := by
      funext x
      rw [Bool.eq_iff_iff]
      simp only [Bool.or_eq_true, List.contains_iff_mem, List.mem_filter, Bool.not_eq_true']
      constructor
      · rintro (h | h)
        · exact hsub x h
        · exact h.1
      · intro h
        by_cases hs : x ∈ s.values
        · exact .inl hs
        · exact .inr ⟨h, by simpa using hs⟩
    rw [e1, e2] at key
    rw [List.map_eq_flatMap]
    exact key
  · intro p a q hl _
    have ha := mem_of_split hl
    have hnd : (u.values.filter (fun v => !s.values.contains v)).Nodup := List.Nodup.sublist List.filter_sublist hn
    have hap : a ∉ p := by simpa using notMem_prefix id (by simpa using hnd) hl
    apply runs_single _ (hkind _)
    have hs : s.values.contains a = false := by
      have := (List.mem_filter.1 ha).2
      simpa using this
    have hp : p.contains a = false := by simpa using hap
    simp only [step, set_same, hs, hp, Bool.or_self, Bool.false_eq_true, if_false, set_set, Option.some.injEq]
    congr 3
    funext x
    simp only [upd]
    by_cases e : x = a
    · subst e; simp
    · simp [e]

/-! ### Composite types -/

theorem stepAttrs_append {a b : Text → Option SqlType} {l1 l2 : List AttrAction} (h1 : stepAttrs a l1 = some b) :
    stepAttrs a (l1 ++ l2) = stepAttrs b l2 := by
  induction l1 generalizing a with
  | nil => simp [stepAttrs] at h1; subst h1; rfl
  | cons x l ih =>
    simp only [List.cons_append, stepAttrs]
    simp only [stepAttrs] at h1
    cases hx : stepAttr a x with
    | none => simp [hx] at h1
    | some a' => simp only [hx, Option.bind_some] at h1 ⊢; exact ih h1

theorem stepAttrs_map {α : Type} (act : α → AttrAction) (D : List α → Text → Option SqlType) (l : List α)
    (h : ∀ p a s, l = p ++ a :: s → stepAttr (D p) (act a) = some (D (p ++ [a]))) :
    stepAttrs (D []) (l.map act) = some (D l) := by
  suffices H : ∀ s p, l = p ++ s → stepAttrs (D p) (s.map act) = some (D l) from H l [] rfl
  intro s
  induction s with
  | nil => intro p hp; simp at hp; subst hp; rfl
  | cons a s ih =>
    intro p hp
    rw [List.map_cons, stepAttrs, h p a s hp]
    exact ih (p ++ [a]) (by simp [hp])

/-- The attributes of a composite type, given how user-defined types were renamed. -/
def structAttrs (σ : SqlType → SqlType) (s : StructType) : Text → Option SqlType :=
  fun n => (s.members.get n).map (fun m => σ m.ty)

theorem structActions_run {s u : StructType} {σ : SqlType → SqlType} (hs : Distinct s.members) (hu : Distinct u.members)
    (hσ : ∀ a b, (a, b) ∈ s.members.intersection u.members → a.ty = b.ty → σ a.ty = a.ty) :
    stepAttrs (structAttrs σ s) (structActions s u) = some (structAttrs id u) := by
  unfold structActions
  let Y := structAttrs id u
  let X := structAttrs σ s
  let dN := (s.members.difference u.members).map key
  let L := (s.members.intersection u.members).filter (fun p => p.1 ≠ p.2)
  let mN := L.map (fun p => key p.1)
  let cN := (u.members.difference s.members).map key
  have hdn : dN.Nodup := ODict.difference_nodup hs _
  have hcn : cN.Nodup := ODict.difference_nodup hu _
  have hmn : mN.Nodup := List.Nodup.sublist (List.Sublist.map _ List.filter_sublist) (ODict.intersection_nodup hs u.members)
  have r1 : stepAttrs X ((s.members.difference u.members).map (fun m => AttrAction.drop m.name))
      = some (over X (fun _ => none) dN) := by
    have := stepAttrs_map (fun m : StructMember => AttrAction.drop m.name)
      (fun p => over X (fun _ => none) (p.map key)) (s.members.difference u.members) ?_
    · simpa only [List.map_nil, over_nil] using this
    · intro p a q hl
      have ha := (ODict.mem_difference_get hs).1 (mem_of_split hl)
      have hnot := notMem_prefix key hdn hl
      rw [List.map_append, List.map_cons, List.map_nil, over_snoc]
      have : (over X (fun _ => none) (p.map key) a.name).isSome = true := by
        rw [show a.name = key a from rfl, over_notMem hnot]
        simp [X, structAttrs, ha.1]
      simp only [stepAttr, this, if_true]
      rfl
  have r2 : stepAttrs (over X (fun _ => none) dN)
      ((s.members.intersection u.members).filterMap (fun p =>
        if p.1 ≠ p.2 then some (AttrAction.setDataType p.1.name p.2.ty) else none))
      = some (over (over X (fun _ => none) dN) Y mN) := by
    have e : (s.members.intersection u.members).filterMap (fun p =>
        if p.1 ≠ p.2 then some (AttrAction.setDataType p.1.name p.2.ty) else none)
        = L.map (fun p => AttrAction.setDataType p.1.name p.2.ty) := by
      simp only [L]
      generalize s.members.intersection u.members = l
      induction l with
      | nil => rfl
      | cons a l ih =>
        by_cases ha : a.1 = a.2
        · rw [List.filterMap_cons_none (by simp [ha]), ih, List.filter_cons_of_neg (by simp [ha])]
        · rw [List.filterMap_cons_some (b := AttrAction.setDataType a.1.name a.2.ty) (by simp [ha]), ih,
            List.filter_cons_of_pos (by simp [ha]), List.map_cons]
    rw [e]
    have := stepAttrs_map (fun p : StructMember × StructMember => AttrAction.setDataType p.1.name p.2.ty)
      (fun p => over (over X (fun _ => none) dN) Y (p.map (fun p => key p.1))) L ?_
    · simpa only [List.map_nil, over_nil] using this
    · rintro p ⟨a, b⟩ q hl
      have hm := mem_of_split hl
      have ha := (ODict.mem_intersection_get hs hu).1 (List.mem_filter.1 hm).1
      have hnot : key a ∉ p.map (fun p => key p.1) := notMem_prefix (fun p : StructMember × StructMember => key p.1) hmn hl
      rw [List.map_append, List.map_cons, List.map_nil, over_snoc]
      have hnd : key a ∉ dN := by
        intro h
        obtain ⟨x, hx, e⟩ := List.mem_map.1 h
        have := ((ODict.mem_difference_get hs).1 hx).2
        rw [e, ha.2.1] at this
        cases this
      have : (over (over X (fun _ => none) dN) Y (p.map (fun p => key p.1)) a.name).isSome = true := by
        rw [show a.name = key a from rfl, over_notMem hnot, over_notMem hnd]
        simp [X, structAttrs, ha.1]
      simp only [stepAttr, this, if_true, Option.some.injEq]
      have hY : Y (key a) = some b.ty := by simp [Y, structAttrs, ha.2.1]
      rw [hY]; rfl
  have r3 : stepAttrs (over (over X (fun _ => none) dN) Y mN)
      ((u.members.difference s.members).map (fun m => AttrAction.add m.name m.ty))
      = some (over (over (over X (fun _ => none) dN) Y mN) Y cN) := by
    have := stepAttrs_map (fun m : StructMember => AttrAction.add m.name m.ty)
      (fun p => over (over (over X (fun _ => none) dN) Y mN) Y (p.map key)) (u.members.difference s.members) ?_
    · simpa only [List.map_nil, over_nil] using this
    · intro p a q hl
      have ha := (ODict.mem_difference_get hu).1 (mem_of_split hl)
      have hnot := notMem_prefix key hcn hl
      rw [List.map_append, List.map_cons, List.map_nil, over_snoc]
      have hnm : key a ∉ mN := by
        intro h
        obtain ⟨⟨x, y⟩, hx, e⟩ := List.mem_map.1 h
        have := ((ODict.mem_intersection_get hs hu).1 (List.mem_filter.1 hx).1).1
        simp only at e
        rw [e, ha.2] at this
        cases this
      have : over (over (over X (fun _ => none) dN) Y mN) Y (p.map key) a.name = none := by
        rw [show a.name = key a from rfl, over_notMem hnot, over_notMem hnm]
        simp [over, X, structAttrs, ha.2]
      simp only [stepAttr, this, Option.isSome_none, Bool.false_eq_true, if_false, Option.some.injEq]
      have hY : Y (key a) = some a.ty := by simp [Y, structAttrs, ha.1]
      rw [hY]; rfl
  rw [List.append_assoc, stepAttrs_append r1, stepAttrs_append r2, r3]
  congr 1
  funext n
  by_cases hc : n ∈ cN
  · rw [over_mem hc]
  · rw [over_notMem hc]
    by_cases hm : n ∈ mN
    · rw [over_mem hm]
    · rw [over_notMem hm]
      cases hus : u.members.get n with
      | none =>
        have hY : structAttrs id u n = none := by simp [structAttrs, hus]
        rw [hY]
        by_cases hd : n ∈ dN
        · rw [over_mem hd]
        · rw [over_notMem hd]
          cases hss : s.members.get n with
          | none => simp [X, structAttrs, hss]
          | some a =>
            have ha := (ODict.get_eq_some_iff hs).1 hss
            exact absurd (List.mem_map.2 ⟨a, (ODict.mem_difference_get hs).2 ⟨by rw [ha.2]; exact hss,
              by rw [ha.2]; exact hus⟩, ha.2⟩) hd
      | some b =>
        have hb := (ODict.get_eq_some_iff hu).1 hus
        cases hss : s.members.get n with
        | none =>
          exact absurd (List.mem_map.2 ⟨b, (ODict.mem_difference_get hu).2 ⟨by rw [hb.2]; exact hus,
              by rw [hb.2]; exact hss⟩, hb.2⟩) hc
        | some a =>
          have ha := (ODict.get_eq_some_iff hs).1 hss
          have hpair : (a, b) ∈ s.members.intersection u.members :=
            (ODict.mem_intersection_get hs hu).2 ⟨by rw [ha.2]; exact hss, by rw [ha.2]; exact hus, ha.2.trans hb.2.symm⟩
          have hab : a = b := by
            apply Classical.byContradiction
            intro hne
            exact hm (List.mem_map.2 ⟨(a, b), List.mem_filter.2 ⟨hpair, by simp [hne]⟩, ha.2⟩)
          subst hab
          have hd : n ∉ dN := by
            intro h
            obtain ⟨x, hx, e⟩ := List.mem_map.1 h
            have := ((ODict.mem_difference_get hs).1 hx).2
            rw [e, hus] at this
            cases this
          rw [over_notMem hd]
          simp only [X, structAttrs, hss, hus, Option.map_some, id]
          rw [hσ a a hpair rfl]

theorem runs_mutateStruct (v : Valid db) {d : Dialect} {s u : StructType} {σ : SqlType → SqlType} {stmts : List Stmt}
    (h : mutateStruct d s u = .ok stmts) (hs : Distinct s.members) (hu : Distinct u.members)
    (hσ : ∀ a b, (a, b) ∈ s.members.intersection u.members → a.ty = b.ty → σ a.ty = a.ty)
    (h0 : db.objs s.name.key = some (.struct (structAttrs σ s)))
    (hfit : (StructType.obj u).Fits db.kinds) :
    Runs E db stmts (db.set s.name.key (some (StructType.obj u))) := by
  unfold mutateStruct checkIdentity at h
  by_cases e : s.name = u.name
  · simp only [e, if_true, bind, Except.bind, pure, Except.pure, Except.ok.injEq] at h
    rw [← h]
    have hrun := structActions_run hs hu hσ
    have hobj : StructType.obj u = .struct (structAttrs id u) := rfl
    have hv : Valid (db.set s.name.key (some (StructType.obj u))) := valid_replace v h0 rfl hfit
    have r1 : Runs E db (if structActions s u = [] then [] else [Stmt.alterStruct s.name (structActions s u)])
        (db.set s.name.key (some (StructType.obj u))) := by
      split
      · rename_i hnil
        rw [hnil] at hrun
        simp only [stepAttrs, Option.some.injEq] at hrun
        rw [hobj, ← hrun, set_self _ _ _ h0]
        exact .nil _
      · apply runs_single _ hv
        simp only [step, h0, hrun, Option.map_some, hobj]
    rw [e] at r1 h0 hv ⊢
    refine runs_append r1 (runs_skips ?_ hv)
    intro st hst
    have : ∃ x, st = .commentType u.name x := by
      split at hst
      · unfold commentChange at hst
        split at hst
        · split at hst
          · simp only [List.mem_singleton] at hst; exact ⟨_, hst⟩
          · cases hst
        · split at hst
          · simp only [List.mem_singleton] at hst; exact ⟨_, hst⟩
          · cases hst
      · cases hst
    obtain ⟨x, rfl⟩ := this
    simp [step, set_same]
  · simp [e, bind, Except.bind] at h

end
end PySqlSync
