/-
Helper lemmas: the phases of a namespace's script.
-/
import Verif.Lemmas.NsObj

set_option autoImplicit false
set_option linter.unusedSectionVars false

namespace PySqlSync
open Spec

section
variable {d : Dialect} {E : Engine} {db : Db} {N : Text} {S T : Namespace}

namespace NsHyp
variable (H : NsHyp d E db N S T)
include H

theorem start : withNs db N (Spec.Namespace.obj d E S) = db := withNs_self H.hS

/-- A type the target mentions. -/
theorem refT {k : Key} (h : (withNs db N (Spec.Namespace.obj d E T)).kinds k = some .enum ∨
    (withNs db N (Spec.Namespace.obj d E T)).kinds k = some .struct) (hk : k.1 = N) :
    (∃ e, T.enums.get k.2 = some e) ∨ ∃ s, T.structs.get k.2 = some s := by
  rw [kinds_in' hk] at h
  cases ho : Spec.Namespace.obj d E T k.2 with
  | none => simp [ho] at h
  | some o =>
    rcases obj_some ho with ⟨e, he, rfl⟩ | ⟨s, hs, rfl⟩ | ⟨tb, htb, rfl⟩
    · exact .inl ⟨e, he⟩
    · exact .inr ⟨s, hs⟩
    · simp [ho, Obj.kind] at h

/-! ### Creating types -/

theorem phase1 : Runs E db ((T.enums.difference S.enums).flatMap PySqlSync.EnumType.createStmt
    ++ (T.structs.difference S.structs).flatMap (PySqlSync.StructType.createStmt d))
    (withNs db N (f1 d E S T)) := by
  have hE : ∀ e ∈ T.enums.difference S.enums, T.enums.get (key e) = some e ∧ S.enums.get (key e) = none :=
    fun e he => (ODict.mem_difference_get H.wfT.enums).1 he
  have hS' : ∀ e ∈ T.structs.difference S.structs, T.structs.get (key e) = some e ∧ S.structs.get (key e) = none :=
    fun e he => (ODict.mem_difference_get H.wfT.structs).1 he
  have hmE : ∀ e ∈ T.enums.difference S.enums, key e ∈ cE S T := fun e he => List.mem_map_of_mem he
  have hmS : ∀ e ∈ T.structs.difference S.structs, key e ∈ cS S T := fun e he => List.mem_map_of_mem he
  have r1 := runs_createEnums (E := E) H.sch (Spec.Namespace.obj d E S) (Spec.Namespace.obj d E T)
    (by rw [H.start]; exact H.v) (T.enums.difference S.enums) (ODict.difference_nodup H.wfT.enums _)
    (fun e he => by rw [H.wfT.enumScope e (mem_of_get (hE e he).1).1, H.nameT])
    (fun e he => H.wfT.values e (mem_of_get (hE e he).1).1)
    (fun e he => H.f0_created (.inl (hmE e he)))
    (fun e he => obj_enum (hE e he).1)
  have v1 := runs_valid r1 (by rw [H.start]; exact H.v)
  rw [H.start] at r1
  refine runs_append r1 ?_
  refine runs_createStructs (E := E) d H.sch _ (Spec.Namespace.obj d E T) v1 (T.structs.difference S.structs)
    (ODict.difference_nodup H.wfT.structs _)
    (fun e he => by rw [H.wfT.structScope e (mem_of_get (hS' e he).1).1, H.nameT])
    (fun e he => H.wfT.members e (mem_of_get (hS' e he).1).1) ?_
    (fun e he => obj_struct H.wfT (hS' e he).1) ?_ (fun a ha => by
      obtain ⟨p, s, hl⟩ := List.append_of_mem ha
      exact H.safe.createOrder p a s hl a (by simp))
  · intro e he
    rw [over_notMem]
    · exact H.f0_created (.inr (hmS e he))
    · intro hm
      obtain ⟨⟨x, hx⟩, _⟩ := H.mem_cE.1 hm
      rw [(H.tgt_struct (hS' e he).1).1] at hx; cases hx
  · intro p a s hl n ty hn k hk
    have ha := mem_of_split hl
    have hfit := H.fitsT (obj_struct H.wfT (hS' a ha).1) n ty hn k hk
    by_cases e : k.1 = N
    · rcases H.refT hfit e with ⟨x, hx⟩ | ⟨x, hx⟩
      · left
        rw [kinds_in' e]
        have hnp : k.2 ∉ p.map key := by
          intro hm
          obtain ⟨y, hy, hyk⟩ := List.mem_map.1 hm
          have := (hS' y (by rw [hl]; simp [hy])).1
          rw [hyk, (H.tgt_enum hx).1] at this; cases this
        rw [over_notMem hnp]
        by_cases hc : k.2 ∈ cE S T
        · rw [show (T.enums.difference S.enums).map key = cE S T from rfl, over_mem hc, obj_enum hx]; rfl
        · rw [show (T.enums.difference S.enums).map key = cE S T from rfl, over_notMem hc]
          cases hs : S.enums.get k.2 with
          | none => exact absurd (H.mem_cE.2 ⟨⟨x, hx⟩, hs⟩) hc
          | some y => rw [obj_enum hs]; rfl
      · right
        rw [kinds_in' e]
        by_cases hp : k.2 ∈ p.map key
        · rw [over_mem hp, obj_struct H.wfT hx]; rfl
        · rw [over_notMem hp]
          have hc : k.2 ∉ cE S T := by
            intro hm
            obtain ⟨⟨y, hy⟩, _⟩ := H.mem_cE.1 hm
            rw [(H.tgt_struct hx).1] at hy; cases hy
          rw [show (T.enums.difference S.enums).map key = cE S T from rfl, over_notMem hc]
          cases hs : S.structs.get k.2 with
          | some y => rw [obj_struct H.wfS hs]; rfl
          | none =>
            exfalso
            have hmem := mem_of_get hx
            have hxd : x ∈ T.structs.difference S.structs :=
              (ODict.mem_difference_get H.wfT.structs).2 ⟨by rw [hmem.2]; exact hx, by rw [hmem.2]; exact hs⟩
            have hxs : x ∈ a :: s := by
              rw [hl] at hxd
              rcases List.mem_append.1 hxd with h | h
              · exact absurd (hmem.2 ▸ List.mem_map_of_mem (f := key) h) hp
              · exact h
            simp only [Option.map_eq_some_iff] at hn
            obtain ⟨m, hm, rfl⟩ := hn
            refine H.safe.createOrder p a s hl x hxs m (mem_of_get hm).1 ?_
            have : x.name.key = k := Prod.ext (by rw [H.wfT.structScope x hmem.1, H.nameT, e]) hmem.2
            rw [this]; exact hk
    · rw [kinds_out e] at hfit ⊢; exact hfit

/-! ### Renaming the replaced enumerations -/

theorem ren_snoc {p : List Text} {a : Text} (hp : ∀ x, a ≠ deletedName x) (q : QId) :
    renameRef (N, a) (deletedName a) (ren N p q) = ren N (p ++ [a]) q := by
  clear H
  cases hg : q.isGlobal with
  | true =>
    rw [ren_global q hg, ren_global q hg]
    unfold renameRef
    rw [if_neg (by simp [hg])]
  | false =>
  unfold ren
  by_cases h1 : q.key.1 = N
  · by_cases h2 : q.localId ∈ p
    · rw [if_pos ⟨hg, h1, h2⟩, if_pos ⟨hg, h1, by simp [h2]⟩]
      unfold renameRef
      rw [if_neg]
      intro h
      have := congrArg Prod.snd h.2
      exact hp q.localId this.symm
    · rw [if_neg (by simp [h2])]
      unfold renameRef
      by_cases h3 : q.localId = a
      · rw [if_pos ⟨hg, Prod.ext h1 h3⟩, if_pos ⟨hg, h1, by simp [h3]⟩, h3]
      · rw [if_neg (fun h => h3 (congrArg Prod.snd h.2)), if_neg (by simp [h2, h3])]
  · rw [if_neg (by simp [h1]), if_neg (by simp [h1])]
    unfold renameRef
    rw [if_neg (fun h => h1 (congrArg Prod.fst h.2))]

theorem phase2 (v : Valid (withNs db N (f1 d E S T))) : Runs E (withNs db N (f1 d E S T))
    ((softPairs S T).flatMap (fun p => p.1.softDropStmt)) (withNs db N (f2 d E N S T)) := by
  have nd := softNames_nodup H.wfS H.wfT
  have h0 : withNs db N (renF N (f1 d E S T) (([] : List (EnumType × Table)).map (fun p => key p.1))) = withNs db N (f1 d E S T) := by
    congr 1
    funext n
    simp only [renF, List.map_nil, over_nil]
    cases f1 d E S T n with
    | none => rfl
    | some o =>
      simp only [Option.map_some, Option.some.injEq]
      have : ren N [] = id := by funext q; simp [ren]
      rw [this]
      cases o with
      | enum vs => rfl
      | struct a =>
        simp only [Obj.mapRef, Obj.struct.injEq]
        funext n
        cases a n <;> simp [mapRef_id]
      | table ts =>
        cases ts
        simp only [Obj.mapRef, Obj.table.injEq, TableState.mk.injEq, and_self, and_true]
        rename_i cols _ _ _
        funext n
        cases cols n <;> simp [mapRef_id]
  have key' := runs_flatMap (E := E) (fun p : EnumType × Table => p.1.softDropStmt)
    (fun p => withNs db N (renF N (f1 d E S T) (p.map (fun p => key p.1)))) (softPairs S T) ?_ (by rw [h0]; exact v)
  · rw [h0] at key'; exact key'
  · rintro p ⟨e, tb⟩ s hl hv
    have hmem := mem_of_split hl
    have hk : key e ∈ softNames S T := List.mem_map_of_mem (f := fun p : EnumType × Table => key p.1) hmem
    have hnot : key e ∉ p.map (fun p => key p.1) := notMem_prefix (fun p : EnumType × Table => key p.1) nd hl
    have hsub : ∀ x ∈ p.map (fun p => key p.1), x ∈ softNames S T := by
      intro x hx
      obtain ⟨y, hy, rfl⟩ := List.mem_map.1 hx
      exact List.mem_map_of_mem (f := fun p : EnumType × Table => key p.1) (by rw [hl]; simp [hy])
    have hsub' : ∀ x ∈ p.map (fun p => key p.1) ++ [key e], x ∈ softNames S T := by
      intro x hx
      rcases List.mem_append.1 hx with h | h
      · exact hsub x h
      · simp only [List.mem_singleton] at h; subst h; exact hk
    obtain ⟨h1, h2, h3⟩ := mem_softPairs.1 hmem
    have heS := (ODict.mem_difference_get H.wfS.enums).1 h1
    have hek : e.name.key = (N, key e) :=
      Prod.ext (by rw [H.wfS.enumScope e (mem_of_get heS.1).1, H.nameS]) rfl
    generalize hP : p.map (fun p => key p.1) = P at *
    simp only [List.map_append, List.map_cons, List.map_nil, hP]
    -- the enumeration is there under its own name
    have hcur : renF N (f1 d E S T) P (key e) = some (EnumType.obj e) := by
      unfold renF
      rw [over_notMem, over_notMem hnot, H.f1_src (obj_enum heS.1)]
      · rfl
      · intro hm
        obtain ⟨x, _, hx⟩ := List.mem_map.1 hm
        exact H.soft_not_deleted hk x hx.symm
    have hfree : renF N (f1 d E S T) P (deletedName (key e)) = none := by
      unfold renF
      rw [over_notMem, over_notMem, H.f1_deleted]
      · rfl
      · intro hm; exact H.soft_not_deleted (hsub _ hm) (key e) rfl
      · intro hm
        obtain ⟨x, hx, hxe⟩ := List.mem_map.1 hm
        rw [deletedName_inj hxe] at hx; exact hnot hx
    have hres : ({ withNs db N (renF N (f1 d E S T) P) with
        objs := fun k => (upd (upd (withNs db N (renF N (f1 d E S T) P)).objs (N, key e) none) (N, deletedName (key e))
          (some (EnumType.obj e)) k).map (Obj.mapRef (renameRef (N, key e) (deletedName (key e)))) } : Db)
        = withNs db N (renF N (f1 d E S T) (P ++ [key e])) := by
      simp only [withNs, Db.mk.injEq, true_and]
      funext ⟨a, n⟩
      by_cases ea : a = N
      · subst ea
        simp only [if_true]
        have hcomp : ∀ o : Obj, (o.mapRef (ren a P)).mapRef (renameRef (a, key e) (deletedName (key e)))
            = o.mapRef (ren a (P ++ [key e])) := by
          intro o
          rw [obj_mapRef_comp]
          congr 1
          funext q
          exact NsHyp.ren_snoc H (fun x => H.soft_not_deleted hk x) q
        by_cases e1 : n = deletedName (key e)
        · subst e1
          rw [upd_same]
          unfold renF
          rw [over_mem (by simp), deletedName_drop, H.f1_src (obj_enum heS.1)]
          rfl
        · rw [upd_ne _ _ _ _ (fun h => e1 (congrArg Prod.snd h))]
          by_cases e2 : n = key e
          · subst e2
            rw [upd_same]
            unfold renF
            rw [over_notMem, over_mem (by simp)]
            · rfl
            · intro hm
              obtain ⟨x, _, hx⟩ := List.mem_map.1 hm
              exact H.soft_not_deleted hk x hx.symm
          · rw [upd_ne _ _ _ _ (fun h => e2 (congrArg Prod.snd h))]
            simp only [if_true]
            unfold renF
            rw [Option.map_map]
            have e3 : over (over (f1 d E S T) (fun _ => none) (P ++ [key e])) (fun n => f1 d E S T (n.drop 10))
                ((P ++ [key e]).map deletedName) n = over (over (f1 d E S T) (fun _ => none) P)
                (fun n => f1 d E S T (n.drop 10)) (P.map deletedName) n := by
              rw [List.map_append, List.map_cons, List.map_nil, over_snoc, upd_ne _ _ _ _ e1]
              unfold over
              simp [e2]
            rw [e3]
            congr 1
            funext o
            exact hcomp o
      · have e1 : ((a, n) : Key) ≠ (N, deletedName (key e)) := fun h => ea (congrArg Prod.fst h)
        have e2 : ((a, n) : Key) ≠ (N, key e) := fun h => ea (congrArg Prod.fst h)
        rw [upd_ne _ _ _ _ e1, upd_ne _ _ _ _ e2]
        simp only [ea, if_false]
        cases ho : db.objs (a, n) with
        | none => rfl
        | some o =>
          simp only [Option.map_some, Option.some.injEq]
          have hf := H.fitsOut (k := (a, n)) ea ho
          refine obj_mapRef_id hf (fun q hq => by unfold renameRef; rw [if_neg (by simp [hq])]) (fun q hq => ?_)
          have := NsHyp.ren_snoc (N := N) H (p := []) (fun x => H.soft_not_deleted hk x) q
          have hnil : ren N [] q = q := by simp [ren]
          rw [hnil] at this
          rw [this]
          exact H.ren_fix hq (by simpa using hk)
    have hobj : (withNs db N (renF N (f1 d E S T) P)).objs (N, key e) = some (EnumType.obj e) := by
      rw [withNs_in]; exact hcur
    apply runs_single
    · simp only [step, hek, hobj, EnumType.obj]
      rw [show e.name.localId = key e from rfl, withNs_in, hfree]
      simp only [Option.isSome_none, Bool.false_eq_true, if_false, Option.some.injEq]
      exact hres
    · rw [← hres]
      exact valid_rename (k := (N, key e)) hv hobj (.inl rfl) (by rw [withNs_in]; exact hfree)

/-! ### Creating tables -/

theorem types_f2 {ty : SqlType} (h : TypeFits (withNs db N (Spec.Namespace.obj d E T)).kinds ty) :
    TypeFits (withNs db N (f2 d E N S T)).kinds ty := by
  intro k hk
  have := h k hk
  by_cases e : k.1 = N
  · rw [kinds_in' e] at this ⊢
    cases ho : Spec.Namespace.obj d E T k.2 with
    | none => simp [ho] at this
    | some o =>
      simp only [ho, Option.map_some, Option.some.injEq] at this
      obtain ⟨o', h1, h2⟩ := H.f2_types ho this
      rw [h1, Option.map_some, h2]
      simpa only [Option.some.injEq] using this
  · rw [kinds_out e] at this ⊢; exact this

theorem phase3 (v : Valid (withNs db N (f2 d E N S T))) {stmts : List (List Stmt)}
    (h : (T.tables.difference S.tables).mapM (fun tb => tb.createStmt d) = .ok stmts) :
    Runs E (withNs db N (f2 d E N S T)) stmts.flatten (withNs db N (f3 d E N S T)) := by
  have hT' : ∀ e ∈ T.tables.difference S.tables, T.tables.get (key e) = some e ∧ S.tables.get (key e) = none :=
    fun e he => (ODict.mem_difference_get H.wfT.tables).1 he
  refine runs_createTables (E := E) d H.sch (f2 d E N S T) (bareY d T) v (T.tables.difference S.tables)
    (ODict.difference_nodup H.wfT.tables _)
    (fun e he => by rw [H.wfT.tableScope e (mem_of_get (hT' e he).1).1, H.nameT])
    (fun e he => H.wfT.wf e (mem_of_get (hT' e he).1).1)
    (fun e he => H.cT_free (List.mem_map_of_mem he))
    (fun e he => by simp [bareY, (hT' e he).1]) ?_ h
  intro tb htb
  have hfit : (Spec.Table.state d E tb).Fits _ := H.fitsT (obj_table H.wfT (hT' tb htb).1)
  have wf := H.wfT.wf tb (mem_of_get (hT' tb htb).1).1
  apply bare_fits
  · intro c hc
    have hg := get_of_mem wf.columns hc
    have := hfit.cols c.name (Spec.Column.state d c) (by
      show (tb.columns.get c.name).map _ = _
      rw [show c.name = key c from rfl, hg]; rfl)
    exact ⟨this.1, H.types_f2 this.2⟩
  · exact hfit.pk

theorem kinds_f4 : (withNs db N (f4 d E N S T)).kinds = (withNs db N (f3 d E N S T)).kinds := by
  apply kinds_over
  intro n hn
  obtain ⟨⟨tb, htb⟩, _⟩ := H.mem_cT.1 hn
  unfold f3
  rw [over_mem hn, obj_table H.wfT htb]
  simp only [bareY, htb, Option.map_some]
  rfl

theorem phase4 (v : Valid (withNs db N (f3 d E N S T))) :
    Runs E (withNs db N (f3 d E N S T)) ((T.tables.difference S.tables).flatMap (Table.addConstraintsStmt d))
      (withNs db N (f4 d E N S T)) := by
  have hT' : ∀ e ∈ T.tables.difference S.tables, T.tables.get (key e) = some e ∧ S.tables.get (key e) = none :=
    fun e he => (ODict.mem_difference_get H.wfT.tables).1 he
  refine runs_addConstraints (E := E) d (f3 d E N S T) (Spec.Namespace.obj d E T) v (T.tables.difference S.tables)
    (ODict.difference_nodup H.wfT.tables _)
    (fun e he => by rw [H.wfT.tableScope e (mem_of_get (hT' e he).1).1, H.nameT])
    (fun e he => H.wfT.wf e (mem_of_get (hT' e he).1).1) ?_
    (fun e he => obj_table H.wfT (hT' e he).1) ?_
  · intro e he
    unfold f3
    rw [over_mem (show key e ∈ cT S T from List.mem_map_of_mem he)]
    simp [bareY, (hT' e he).1]
  · intro e he
    rw [← H.kinds_f4]
    exact tabFits_mono H.kle_f4 (H.fitsT (obj_table H.wfT (hT' e he).1))

theorem phase4' (v : Valid (withNs db N (f4 d E N S T))) :
    Runs E (withNs db N (f4 d E N S T)) ((softPairs S T).flatMap (fun p => migrateEnum d p.1 p.2))
      (withNs db N (f4 d E N S T)) := by
  apply runs_skips _ v
  intro st hst
  obtain ⟨⟨e, tb⟩, hp, hst⟩ := List.mem_flatMap.1 hst
  simp only [migrateEnum, List.mem_singleton] at hst
  subst hst
  have := (mem_softPairs.1 hp).2.1
  have hg := (ODict.mem_difference_get H.wfT.tables).1 this
  have hk : tb.name.key = (N, key tb) :=
    Prod.ext (by rw [H.wfT.tableScope tb (mem_of_get hg.1).1, H.nameT]) rfl
  have : (withNs db N (f4 d E N S T)).isTable tb.name.key = true := by
    unfold Db.isTable f4
    rw [hk, withNs_in, over_mem (show key tb ∈ cT S T from List.mem_map_of_mem this), obj_table H.wfT hg.1]
  simp [step, this]

/-! ### Changing what stays -/

/-- The object under a name of the source that is not replaced. -/
theorem f4_src {k : Text} {o : Obj} (h : Spec.Namespace.obj d E S k = some o) (h1 : k ∉ cT S T)
    (h2 : k ∉ softNames S T) : f4 d E N S T k = some (o.mapRef (ren N (softNames S T))) := by
  unfold f4
  rw [over_notMem h1]
  unfold f3
  rw [over_notMem h1, H.f2_plain h2, H.f1_src h]
  · rfl
  · rintro x _ rfl
    rw [obj_deleted H.wfS] at h
    cases h

theorem not_cT_enum {k : Text} {e : EnumType} (h : T.enums.get k = some e) : k ∉ cT S T := by
  intro hm
  obtain ⟨⟨tb, htb⟩, _⟩ := H.mem_cT.1 hm
  rw [(H.tgt_enum h).2] at htb; cases htb

theorem not_cT_struct {k : Text} {e : StructType} (h : S.structs.get k = some e) : k ∉ cT S T := by
  intro hm
  obtain ⟨⟨tb, htb⟩, _⟩ := H.mem_cT.1 hm
  rw [H.src_of_table htb] at h; cases h

theorem not_cT_table {k : Text} {tb : Table} (h : S.tables.get k = some tb) : k ∉ cT S T := by
  intro hm
  obtain ⟨_, h2⟩ := H.mem_cT.1 hm
  rw [h] at h2; cases h2

theorem not_soft_struct {k : Text} {e : StructType} (h : S.structs.get k = some e) : k ∉ softNames S T := by
  intro hm
  obtain ⟨e', tb, h1, _⟩ := H.soft_get hm
  obtain ⟨m1, k1⟩ := mem_of_get h1
  obtain ⟨m2, k2⟩ := mem_of_get h
  exact H.wfS.enumStruct e' m1 e m2 (by show key e' = key e; rw [k1, k2])

theorem not_soft_table {k : Text} {tb : Table} (h : S.tables.get k = some tb) : k ∉ softNames S T := by
  intro hm
  obtain ⟨e', tb', _, _, _, h4, _⟩ := H.soft_get hm
  rw [h] at h4; cases h4

theorem not_soft_enum {k : Text} {e : EnumType} (h : T.enums.get k = some e) : k ∉ softNames S T := by
  intro hm
  obtain ⟨e', tb', _, h2, _⟩ := H.soft_get hm
  rw [h] at h2; cases h2

theorem f4_enum {k : Text} {s u : EnumType} (h : S.enums.get k = some s) (h' : T.enums.get k = some u) :
    f4 d E N S T k = some (EnumType.obj s) := by
  rw [H.f4_src (obj_enum h) (H.not_cT_enum h') (H.not_soft_enum h')]; rfl

theorem f4_struct {k : Text} {s : StructType} (h : S.structs.get k = some s) :
    f4 d E N S T k = some (.struct (structAttrs (SqlType.mapRef (ren N (softNames S T))) s)) := by
  rw [H.f4_src (obj_struct H.wfS h) (H.not_cT_struct h) (H.not_soft_struct h)]
  simp only [StructType.obj, Obj.mapRef, Option.some.injEq, Obj.struct.injEq]
  funext n
  simp only [structAttrs, Option.map_map]
  rfl

theorem f4_table {k : Text} {tb : Table} (h : S.tables.get k = some tb) :
    f4 d E N S T k = some (.table (mkT d (srcCols d (SqlType.mapRef (ren N (softNames S T))) tb) tb.primaryKey
      (tabCons E tb))) := by
  rw [H.f4_src (obj_table H.wfS h) (H.not_cT_table h) (H.not_soft_table h)]
  have wf := H.wfS.wf tb (mem_of_get h).1
  rw [state_eq d E tb wf.columns]
  simp only [Obj.mapRef, mkT, dfs_src, Option.some.injEq, Obj.table.injEq, TableState.mk.injEq, and_self, and_true]
  funext n
  simp only [tabCols, srcCols, Option.map_map]
  rfl

theorem not_mE_struct {k : Text} {s : StructType} (h : S.structs.get k = some s) : k ∉ mE S T := by
  intro hm
  obtain ⟨a, b, h1, _⟩ := H.mem_mE.1 hm
  obtain ⟨m1, k1⟩ := mem_of_get h1
  obtain ⟨m2, k2⟩ := mem_of_get h
  exact H.wfS.enumStruct a m1 s m2 (by show key a = key s; rw [k1, k2])

theorem not_mE_table {k : Text} {s : Table} (h : S.tables.get k = some s) : k ∉ mE S T := by
  intro hm
  obtain ⟨a, b, h1, _⟩ := H.mem_mE.1 hm
  obtain ⟨m1, k1⟩ := mem_of_get h1
  obtain ⟨m2, k2⟩ := mem_of_get h
  exact H.wfS.enumTable a m1 s m2 (by show key a = key s; rw [k1, k2])

theorem not_mS_table {k : Text} {s : Table} (h : S.tables.get k = some s) : k ∉ mS S T := by
  intro hm
  obtain ⟨a, b, h1, _⟩ := H.mem_mS.1 hm
  obtain ⟨m1, k1⟩ := mem_of_get h1
  obtain ⟨m2, k2⟩ := mem_of_get h
  exact H.wfS.structTable a m1 s m2 (by show key a = key s; rw [k1, k2])

theorem f5_struct {k : Text} {s : StructType} (h : S.structs.get k = some s) :
    f5 d E N S T k = some (.struct (structAttrs (SqlType.mapRef (ren N (softNames S T))) s)) := by
  unfold f5
  rw [over_notMem (H.not_mE_struct h), H.f4_struct h]

theorem f6_table {k : Text} {tb : Table} (h : S.tables.get k = some tb) :
    f6 d E N S T k = some (.table (mkT d (srcCols d (SqlType.mapRef (ren N (softNames S T))) tb) tb.primaryKey
      (tabCons E tb))) := by
  unfold f6 f5
  rw [over_notMem (H.not_mS_table h), over_notMem (H.not_mE_table h), H.f4_table h]

theorem kinds_f5 {p : List Text} (hp : ∀ x ∈ p, x ∈ mE S T) :
    (withNs db N (over (f4 d E N S T) (Spec.Namespace.obj d E T) p)).kinds = (withNs db N (f4 d E N S T)).kinds := by
  apply kinds_over
  intro n hn
  obtain ⟨a, b, h1, h2⟩ := H.mem_mE.1 (hp n hn)
  rw [H.f4_enum h1 h2, obj_enum h2]; rfl

theorem kinds_f6 {p : List Text} (hp : ∀ x ∈ p, x ∈ mS S T) :
    (withNs db N (over (f5 d E N S T) (Spec.Namespace.obj d E T) p)).kinds = (withNs db N (f4 d E N S T)).kinds := by
  rw [← H.kinds_f5 (p := mE S T) (fun _ h => h)]
  apply kinds_over
  intro n hn
  obtain ⟨a, b, h1, h2⟩ := H.mem_mS.1 (hp n hn)
  rw [H.f5_struct h1, obj_struct H.wfT h2]; rfl

theorem safe_key {k : Text} {a b : Table} (h1 : S.tables.get k = some a) (h2 : T.tables.get k = some b) :
    TableSafe d E a b := by
  obtain ⟨m1, k1⟩ := mem_of_get h1
  obtain ⟨m2, k2⟩ := mem_of_get h2
  exact H.safe.tables a m1 b m2 (by show key a = key b; rw [k1, k2])

theorem kinds_f7 {p : List Text} (hp : ∀ x ∈ p, x ∈ mT S T) :
    (withNs db N (over (f6 d E N S T) (Spec.Namespace.obj d E T) p)).kinds = (withNs db N (f4 d E N S T)).kinds := by
  rw [← H.kinds_f6 (p := mS S T) (fun _ h => h)]
  apply kinds_over
  intro n hn
  obtain ⟨a, b, h1, h2⟩ := H.mem_mT.1 (hp n hn)
  rw [H.f6_table h1, obj_table H.wfT h2]
  simp only [Option.map_some, Obj.kind, mkT, Spec.Table.state, (H.safe_key h1 h2).key]

theorem phase5 (v : Valid (withNs db N (f4 d E N S T))) {stmts : List (List Stmt)}
    (h : (S.enums.intersection T.enums).mapM (fun p => mutateEnum p.1 p.2) = .ok stmts) :
    Runs E (withNs db N (f4 d E N S T)) stmts.flatten (withNs db N (f5 d E N S T)) := by
  obtain ⟨e1, k1⟩ := mapM_flatten h
  rw [e1]
  refine runs_phase (S.enums.intersection T.enums) (fun p => key p.1) _ (f4 d E N S T) (Spec.Namespace.obj d E T)
    (ODict.intersection_nodup H.wfS.enums _) v ?_
  rintro p ⟨s, u⟩ rest hl hnot hv
  have ha := mem_of_split hl
  have hg := (ODict.mem_intersection_get H.wfS.enums H.wfT.enums).1 ha
  have hk : s.name.key = (N, key s) :=
    Prod.ext (by rw [H.wfS.enumScope s (mem_of_get hg.1).1, H.nameS]) rfl
  have := runs_mutateEnum (E := E) hv (k1 _ ha) (by
    rw [hk, withNs_in, over_notMem hnot, H.f4_enum hg.1 hg.2.1])
    (H.wfT.values u (mem_of_get hg.2.1).1)
  rw [hk, withNs_set, ← obj_enum (d := d) (E := E) hg.2.1] at this
  exact this

theorem phase6 (v : Valid (withNs db N (f5 d E N S T))) {stmts : List (List Stmt)}
    (h : (S.structs.intersection T.structs).mapM (fun p => mutateStruct d p.1 p.2) = .ok stmts) :
    Runs E (withNs db N (f5 d E N S T)) stmts.flatten (withNs db N (f6 d E N S T)) := by
  obtain ⟨e1, k1⟩ := mapM_flatten h
  rw [e1]
  refine runs_phase (S.structs.intersection T.structs) (fun p => key p.1) _ (f5 d E N S T) (Spec.Namespace.obj d E T)
    (ODict.intersection_nodup H.wfS.structs _) v ?_
  rintro p ⟨s, u⟩ rest hl hnot hv
  have ha := mem_of_split hl
  have hg := (ODict.mem_intersection_get H.wfS.structs H.wfT.structs).1 ha
  have hk : s.name.key = (N, key s) :=
    Prod.ext (by rw [H.wfS.structScope s (mem_of_get hg.1).1, H.nameS]) rfl
  have hfitT : (StructType.obj u).Fits (withNs db N (Spec.Namespace.obj d E T)).kinds := H.fitsT (obj_struct H.wfT hg.2.1)
  have := runs_mutateStruct (E := E) hv (k1 _ ha) (σ := SqlType.mapRef (ren N (softNames S T)))
    (H.wfS.members s (mem_of_get hg.1).1) (H.wfT.members u (mem_of_get hg.2.1).1) ?_ (by
    rw [hk, withNs_in, over_notMem hnot, H.f5_struct hg.1]) ?_
  · rw [hk, withNs_set, ← obj_struct (d := d) (E := E) H.wfT hg.2.1] at this
    exact this
  · intro a b hab e
    have hb := (ODict.mem_intersection_get (H.wfS.members s (mem_of_get hg.1).1) (H.wfT.members u (mem_of_get hg.2.1).1)).1 hab
    rw [e]
    apply mapRef_id _ ren_global
    intro q hq
    exact H.ren_fix (hfitT (key a) b.ty (by simp [hb.2.1]) _ hq) (fun _ h => h)
  · rw [H.kinds_f6]
    · exact objFits_mono H.kle_f4 hfitT
    · intro x hx
      obtain ⟨y, hy, rfl⟩ := List.mem_map.1 hx
      exact List.mem_map_of_mem (f := fun p : StructType × StructType => key p.1) (by rw [hl]; simp [hy])

theorem phase7 (v : Valid (withNs db N (f6 d E N S T))) {stmts : List (List Stmt)}
    (h : (S.tables.intersection T.tables).mapM (fun p => mutateTable d p.1 p.2) = .ok stmts) :
    Runs E (withNs db N (f6 d E N S T)) stmts.flatten (withNs db N (f7 d E N S T)) := by
  obtain ⟨e1, k1⟩ := mapM_flatten h
  rw [e1]
  refine runs_phase (S.tables.intersection T.tables) (fun p => key p.1) _ (f6 d E N S T) (Spec.Namespace.obj d E T)
    (ODict.intersection_nodup H.wfS.tables _) v ?_
  rintro p ⟨s, u⟩ rest hl hnot hv
  have ha := mem_of_split hl
  have hg := (ODict.mem_intersection_get H.wfS.tables H.wfT.tables).1 ha
  have hk : s.name.key = (N, key s) :=
    Prod.ext (by rw [H.wfS.tableScope s (mem_of_get hg.1).1, H.nameS]) rfl
  have hfitT : (Spec.Table.state d E u).Fits (withNs db N (Spec.Namespace.obj d E T)).kinds := H.fitsT (obj_table H.wfT hg.2.1)
  have wfs := H.wfS.wf s (mem_of_get hg.1).1
  have wfu := H.wfT.wf u (mem_of_get hg.2.1).1
  have h0 : (withNs db N (over (f6 d E N S T) (Spec.Namespace.obj d E T) (p.map (fun p => key p.1)))).objs s.name.key
      = some (.table (mkT d (srcCols d (SqlType.mapRef (ren N (softNames S T))) s) s.primaryKey (tabCons E s))) := by
    rw [hk, withNs_in, over_notMem hnot, H.f6_table hg.1]
  have hkinds := H.kinds_f7 (p := p.map (fun p => key p.1)) (by
    intro x hx
    obtain ⟨y, hy, rfl⟩ := List.mem_map.1 hx
    exact List.mem_map_of_mem (f := fun p : Table × Table => key p.1) (by rw [hl]; simp [hy]))
  have TH : TabHyp d E (withNs db N (over (f6 d E N S T) (Spec.Namespace.obj d E T) (p.map (fun p => key p.1)))).kinds
      (SqlType.mapRef (ren N (softNames S T))) s u := by
    refine ⟨wfs, wfu, H.safe_key hg.1 hg.2.1, hv.fits _ _ h0, ?_, ?_, H.hE⟩
    · rw [hkinds, ← state_eq d E u wfu.columns]
      exact tabFits_mono H.kle_f4 hfitT
    · intro a ha b hb hab e
      rw [e]
      apply mapRef_id _ ren_global
      intro q hq
      have hgb := get_of_mem wfu.columns hb
      exact H.ren_fix ((hfitT.cols b.name (Spec.Column.state d b) (by
        show (u.columns.get b.name).map _ = _
        rw [show b.name = key b from rfl, hgb]; rfl)).2 _ hq) (fun _ h => h)
  have := run_mutateTable hv TH h0 (k1 _ ha)
  unfold put at this
  rw [hk, withNs_set, ← obj_table (d := d) (E := E) H.wfT hg.2.1] at this
  exact this

end NsHyp
end
end PySqlSync
