/-
Helper lemmas: the script of a namespace, its last phases and the whole.
-/
import Verif.Lemmas.NsMutate

set_option autoImplicit false
set_option linter.unusedSectionVars false

namespace PySqlSync
open Spec

/-- The types an object mentions. -/
def Obj.types : Obj → SqlType → Prop
  | .enum _ => fun _ => False
  | .struct a => fun ty => ∃ n, a n = some ty
  | .table ts => fun ty => ∃ n c, ts.cols n = some c ∧ c.ty = ty

/-- The tables an object refers to. -/
def Obj.targets : Obj → Key → Prop
  | .table ts => fun k => ∃ n cs rs, ts.cons n = some (.foreign cs k rs)
  | _ => fun _ => False

/-- Without the name `k`, an object that does not mention it still fits. -/
theorem objFits_remove {K : Kinds} {k : Key} {o : Obj} (h : o.Fits K) (h1 : ∀ ty, Obj.types o ty → k ∉ ty.refs)
    (h2 : ¬ Obj.targets o k) : o.Fits (upd K k none) := by
  have hty : ∀ ty, Obj.types o ty → TypeFits K ty → TypeFits (upd K k none) ty := by
    intro ty ht hf x hx
    have e : x ≠ k := by rintro rfl; exact h1 ty ht hx
    rw [upd_ne _ _ _ _ e]
    exact hf x hx
  cases o with
  | enum vs => trivial
  | struct a => exact fun n ty hn => hty ty ⟨n, hn⟩ (h n ty hn)
  | table ts =>
    refine ⟨?_, h.pk, ?_, h.dfs⟩
    · intro n c hc
      exact ⟨(h.cols n c hc).1, hty _ ⟨n, c, hc, rfl⟩ (h.cols n c hc).2⟩
    · intro n c hc
      have := h.cons n c hc
      refine ⟨this.1, ?_⟩
      have h3 := this.2
      cases c <;> simp only at h3 ⊢
      rename_i cs x rs
      have e : x ≠ k := by rintro rfl; exact h2 ⟨n, cs, rs, hc⟩
      rw [upd_ne _ _ _ _ e]; exact h3

/-- Types that fit do not mention a table. -/
theorem types_not_table {K : Kinds} {k : Key} {pk : List Text} (hk : K k = some (.table pk)) {o : Obj} (h : o.Fits K) :
    ∀ ty, Obj.types o ty → k ∉ ty.refs := by
  have aux : ∀ ty, TypeFits K ty → k ∉ ty.refs := by
    intro ty hf hm
    rcases hf k hm with e | e <;> (rw [hk] at e; cases e)
  intro ty ht
  cases o with
  | enum vs => exact absurd ht (by simp [Obj.types])
  | struct a => obtain ⟨n, hn⟩ := ht; exact aux _ (h n ty hn)
  | table ts => obtain ⟨n, c, hc, rfl⟩ := ht; exact aux _ (h.cols n c hc).2

theorem targets_not_type {K : Kinds} {k : Key} (hk : K k = some .enum ∨ K k = some .struct) {o : Obj} (h : o.Fits K) :
    ¬ Obj.targets o k := by
  cases o with
  | enum vs => simp [Obj.targets]
  | struct a => simp [Obj.targets]
  | table ts =>
    rintro ⟨n, cs, rs, hc⟩
    have := (h.cons n _ hc).2
    simp only at this
    rcases hk with e | e <;> (rw [this] at e; cases e)

theorem kinds_remove {db : Db} {N n : Text} {f : Text → Option Obj} :
    (withNs db N (upd f n none)).kinds = upd (withNs db N f).kinds (N, n) none := by
  rw [← withNs_set, kinds_set]; rfl

section
variable {d : Dialect} {E : Engine} {db : Db} {N : Text} {S T : Namespace}

/-- What is left over of the source. -/
noncomputable def nones : Text → Option Obj := fun _ => none

namespace NsHyp
variable (H : NsHyp d E db N S T)
include H

theorem f7_T {n : Text} {o : Obj} (h : Spec.Namespace.obj d E T n = some o) : f7 d E N S T n = some o := by
  unfold f7 f6 f5 f4
  have hfix : o.mapRef (ren N (softNames S T)) = o := H.fixT (H.fitsT h) (fun _ h => h)
  rcases obj_some h with ⟨e, he, rfl⟩ | ⟨s, hs, rfl⟩ | ⟨tb, htb, rfl⟩
  · by_cases hm : n ∈ mE S T
    · unfold over
      rw [h]
      by_cases a : n ∈ mT S T <;> by_cases b : n ∈ mS S T <;> simp [hm, a, b]
    · have hns : S.enums.get n = none := by
        cases hg : S.enums.get n with
        | none => rfl
        | some x => exact absurd (H.mem_mE.2 ⟨x, e, hg, he⟩) hm
      have h2 : f2 d E N S T n = some (EnumType.obj e) := by
        rw [H.f2_plain (H.not_soft_enum he), H.f1_created (.inl (H.mem_cE.2 ⟨⟨e, he⟩, hns⟩)), h, Option.map_some, hfix]
        rintro x _ rfl
        rw [obj_deleted H.wfT] at h; cases h
      have h3 : f3 d E N S T n = some (EnumType.obj e) := by
        unfold f3; rw [over_notMem (H.not_cT_enum he), h2]
      unfold over
      rw [h, h3]
      by_cases a : n ∈ mT S T <;> by_cases b : n ∈ mS S T <;> by_cases c : n ∈ mE S T <;> by_cases e : n ∈ cT S T <;>
        simp [a, b, c, e]
  · by_cases hm : n ∈ mS S T
    · unfold over
      rw [h]
      by_cases a : n ∈ mT S T <;> simp [hm, a]
    · have hns : S.structs.get n = none := by
        cases hg : S.structs.get n with
        | none => rfl
        | some x => exact absurd (H.mem_mS.2 ⟨x, s, hg, hs⟩) hm
      have hsoft : n ∉ softNames S T := by
        intro hm
        obtain ⟨_, tb, _, _, h3, _⟩ := H.soft_get hm
        rw [(H.tgt_struct hs).2] at h3; cases h3
      have hcT : n ∉ cT S T := by
        intro hm
        obtain ⟨⟨tb, h3⟩, _⟩ := H.mem_cT.1 hm
        rw [(H.tgt_struct hs).2] at h3; cases h3
      have h2 : f2 d E N S T n = some (StructType.obj s) := by
        rw [H.f2_plain hsoft, H.f1_created (.inr (H.mem_cS.2 ⟨⟨s, hs⟩, hns⟩)), h, Option.map_some, hfix]
        rintro x _ rfl
        rw [obj_deleted H.wfT] at h; cases h
      have h3 : f3 d E N S T n = some (StructType.obj s) := by
        unfold f3; rw [over_notMem hcT, h2]
      unfold over
      rw [h, h3]
      by_cases a : n ∈ mT S T <;> by_cases b : n ∈ mS S T <;> by_cases c : n ∈ mE S T <;> by_cases e : n ∈ cT S T <;>
        simp [a, b, c, e]
  · cases hg : S.tables.get n with
    | some x =>
      rw [over_mem (H.mem_mT.2 ⟨x, tb, hg, htb⟩), h]
    | none =>
      have hc := H.mem_cT.2 ⟨⟨tb, htb⟩, hg⟩
      unfold over
      rw [h]
      by_cases a : n ∈ mT S T <;> by_cases b : n ∈ mS S T <;> by_cases c : n ∈ mE S T <;> simp [a, b, c, hc]

theorem obj_none_get {n : Text} (h : Spec.Namespace.obj d E T n = none) :
    T.enums.get n = none ∧ T.structs.get n = none ∧ T.tables.get n = none := by
  clear H
  unfold Spec.Namespace.obj at h
  cases h1 : T.enums.get n with
  | some x => simp [h1] at h
  | none =>
    cases h2 : T.structs.get n with
    | some x => simp [h1, h2] at h
    | none =>
      cases h3 : T.tables.get n with
      | some x => simp [h1, h2, h3] at h
      | none => exact ⟨rfl, rfl, rfl⟩

theorem f7_f2 {n : Text} (h : Spec.Namespace.obj d E T n = none) : f7 d E N S T n = f2 d E N S T n := by
  obtain ⟨g1, g2, g3⟩ := NsHyp.obj_none_get H h
  have a : n ∉ mT S T := by intro hm; obtain ⟨_, b, _, hb⟩ := H.mem_mT.1 hm; rw [g3] at hb; cases hb
  have b : n ∉ mS S T := by intro hm; obtain ⟨_, b, _, hb⟩ := H.mem_mS.1 hm; rw [g2] at hb; cases hb
  have c : n ∉ mE S T := by intro hm; obtain ⟨_, b, _, hb⟩ := H.mem_mE.1 hm; rw [g1] at hb; cases hb
  have e : n ∉ cT S T := by intro hm; obtain ⟨⟨b, hb⟩, _⟩ := H.mem_cT.1 hm; rw [g3] at hb; cases hb
  unfold f7 f6 f5 f4 f3
  rw [over_notMem a, over_notMem b, over_notMem c, over_notMem e, over_notMem e]

theorem f7_src {n : Text} {o : Obj} (h : Spec.Namespace.obj d E T n = none) (hs : Spec.Namespace.obj d E S n = some o) :
    f7 d E N S T n = some (o.mapRef (ren N (softNames S T))) := by
  rw [H.f7_f2 h, H.f2_plain, H.f1_src hs]
  · rfl
  · intro hm
    obtain ⟨_, tb, _, _, h3, _⟩ := H.soft_get hm
    rw [obj_table H.wfT h3] at h; cases h
  · rintro x _ rfl
    rw [obj_deleted H.wfS] at hs; cases hs

theorem f7_none {n : Text} (h : Spec.Namespace.obj d E T n = none) (hs : Spec.Namespace.obj d E S n = none)
    (hd : ∀ x ∈ softNames S T, n ≠ deletedName x) : f7 d E N S T n = none := by
  obtain ⟨g1, g2, g3⟩ := NsHyp.obj_none_get H h
  rw [H.f7_f2 h, H.f2_plain _ hd, H.f1_other, hs]
  · rfl
  · intro hm; obtain ⟨⟨b, hb⟩, _⟩ := H.mem_cE.1 hm; rw [g1] at hb; cases hb
  · intro hm; obtain ⟨⟨b, hb⟩, _⟩ := H.mem_cS.1 hm; rw [g2] at hb; cases hb
  · intro hm
    obtain ⟨_, tb, _, _, h3, _⟩ := H.soft_get hm
    rw [g3] at h3; cases h3

theorem f7_deleted {k : Text} (h : k ∈ softNames S T) : ∃ e, S.enums.get k = some e ∧
    f7 d E N S T (deletedName k) = some (EnumType.obj e) := by
  obtain ⟨e, h1, h2⟩ := H.f2_deleted h
  exact ⟨e, h1, by rw [H.f7_f2 (obj_deleted H.wfT k), h2]⟩

/-- Whatever is there after the changes: an object of the target, an enumeration, or an object of the source. -/
theorem f7_cases {n : Text} {o : Obj} (h : f7 d E N S T n = some o) :
    Spec.Namespace.obj d E T n = some o ∨ (∃ vs, o = .enum vs) ∨
    (∃ s, s ∈ S.structs.difference T.structs ∧ key s = n ∧
      o = (StructType.obj s).mapRef (ren N (softNames S T))) ∨
    (∃ tb, tb ∈ S.tables.difference T.tables ∧ key tb = n ∧
      o = (Obj.table (Spec.Table.state d E tb)).mapRef (ren N (softNames S T))) := by
  cases hT : Spec.Namespace.obj d E T n with
  | some o' => rw [H.f7_T hT] at h; cases h; exact .inl rfl
  | none =>
    right
    obtain ⟨g1, g2, g3⟩ := NsHyp.obj_none_get H hT
    cases hS : Spec.Namespace.obj d E S n with
    | some o' =>
      rw [H.f7_src hT hS] at h
      cases h
      rcases obj_some hS with ⟨e, he, rfl⟩ | ⟨s, hs, rfl⟩ | ⟨tb, htb, rfl⟩
      · exact .inl ⟨_, rfl⟩
      · have hm := mem_of_get hs
        exact .inr (.inl ⟨s, (ODict.mem_difference_get H.wfS.structs).2 ⟨by rw [hm.2]; exact hs, by rw [hm.2]; exact g2⟩,
          hm.2, rfl⟩)
      · have hm := mem_of_get htb
        exact .inr (.inr ⟨tb, (ODict.mem_difference_get H.wfS.tables).2 ⟨by rw [hm.2]; exact htb, by rw [hm.2]; exact g3⟩,
          hm.2, rfl⟩)
    | none =>
      by_cases hd : ∃ x ∈ softNames S T, n = deletedName x
      · obtain ⟨x, hx, rfl⟩ := hd
        obtain ⟨e, _, h2⟩ := H.f7_deleted hx
        rw [h2] at h; cases h
        exact .inl ⟨_, rfl⟩
      · rw [H.f7_none hT hS (fun x hx e => hd ⟨x, hx, e⟩)] at h; cases h

theorem dT_T {k : Text} (h : k ∈ dT S T) : Spec.Namespace.obj d E T k = none := by
  obtain ⟨⟨tb, htb⟩, h2⟩ := H.mem_dT.1 h
  apply obj_none _ _ h2
  · cases hg : T.enums.get k with
    | none => rfl
    | some e => rw [(H.src_of_enum hg).2] at htb; cases htb
  · cases hg : T.structs.get k with
    | none => rfl
    | some e => rw [(H.src_of_struct hg).2] at htb; cases htb

theorem dS_T {k : Text} (h : k ∈ dS S T) : Spec.Namespace.obj d E T k = none := by
  obtain ⟨⟨tb, htb⟩, h2⟩ := H.mem_dS.1 h
  apply obj_none _ h2
  · cases hg : T.tables.get k with
    | none => rfl
    | some e => rw [H.src_of_table hg] at htb; cases htb
  · cases hg : T.enums.get k with
    | none => rfl
    | some e => rw [(H.src_of_enum hg).1] at htb; cases htb

/-- As long as the target's objects are there, they and those of other namespaces fit. -/
theorem fits_keep {f : Text → Option Obj} (hf : ∀ n o, Spec.Namespace.obj d E T n = some o → f n = some o) :
    KLe (withNs db N (Spec.Namespace.obj d E T)).kinds (withNs db N f).kinds :=
  kle_withNs (fun n o h => ⟨o, hf n o h, rfl⟩)

/-- The removal of objects of the source that are not in the target. -/
theorem runs_drop {α : Type} (l : List α) (nm : α → Text) (stm : α → List Stmt) (X : Text → Option Obj)
    (hnd : (l.map nm).Nodup) (v : Valid (withNs db N X))
    (hX : ∀ n o, Spec.Namespace.obj d E T n = some o → X n = some o)
    (hT : ∀ a ∈ l, Spec.Namespace.obj d E T (nm a) = none)
    (hstep : ∀ a ∈ l, ∀ db', db'.objs (N, nm a) = X (nm a) → ∃ st, stm a = [st] ∧ step E db' st = some (db'.set (N, nm a) none))
    (hfit : ∀ p a s, l = p ++ a :: s → nm a ∉ p.map nm → Valid (withNs db N (over X nones (p.map nm))) →
      ∀ m o, m ≠ nm a → m ∉ p.map nm → X m = some o → Spec.Namespace.obj d E T m = none →
        o.Fits (withNs db N (upd (over X nones (p.map nm)) (nm a) none)).kinds) :
    Runs E (withNs db N X) (l.flatMap stm) (withNs db N (over X nones (l.map nm))) := by
  refine runs_phase l nm stm X nones hnd v ?_
  intro p a s hl hnot hv
  have ha := mem_of_split hl
  have hkeep : ∀ n o, Spec.Namespace.obj d E T n = some o → upd (over X nones (p.map nm)) (nm a) none n = some o := by
    intro n o hn
    have e1 : n ≠ nm a := by rintro rfl; rw [hT a ha] at hn; cases hn
    have e2 : n ∉ p.map nm := by
      intro hm
      obtain ⟨b, hb, rfl⟩ := List.mem_map.1 hm
      rw [hT b (by rw [hl]; simp [hb])] at hn; cases hn
    rw [upd_ne _ _ _ _ e1, over_notMem e2, hX n o hn]
  obtain ⟨st, e, hs⟩ := hstep a ha (withNs db N (over X nones (p.map nm))) (by rw [withNs_in, over_notMem hnot])
  rw [e]
  refine runs_single (b := withNs db N (upd (over X nones (p.map nm)) (nm a) none)) ?_ ?_
  · rw [hs, withNs_set]
  · apply valid_remove hv
    · intro m o hm ho
      have e2 : m ∉ p.map nm := by
        intro hmem; rw [over_mem hmem] at ho; cases ho
      rw [over_notMem e2] at ho
      cases hTm : Spec.Namespace.obj d E T m with
      | some o' =>
        rw [hX m o' hTm] at ho
        cases ho
        exact objFits_mono (H.fits_keep hkeep) (H.fitsT hTm)
      | none => exact hfit p a s hl hnot hv m o hm e2 ho hTm
    · intro k o hk ho
      exact objFits_mono (H.fits_keep hkeep) (H.fitsOut hk ho)

theorem phase8 (v : Valid (withNs db N (f7 d E N S T))) :
    Runs E (withNs db N (f7 d E N S T)) ((S.tables.difference T.tables).flatMap Table.dropStmt)
      (withNs db N (over (f7 d E N S T) nones (dT S T))) := by
  have hS' : ∀ e ∈ S.tables.difference T.tables, S.tables.get (key e) = some e ∧ T.tables.get (key e) = none :=
    fun e he => (ODict.mem_difference_get H.wfS.tables).1 he
  have hm : ∀ e ∈ S.tables.difference T.tables, key e ∈ dT S T := fun e he => List.mem_map_of_mem he
  have hk : ∀ e ∈ S.tables.difference T.tables, e.name.key = (N, key e) := fun e he =>
    Prod.ext (by rw [H.wfS.tableScope e (mem_of_get (hS' e he).1).1, H.nameS]) rfl
  have hcur : ∀ e ∈ S.tables.difference T.tables, f7 d E N S T (key e)
      = some ((Obj.table (Spec.Table.state d E e)).mapRef (ren N (softNames S T))) := fun e he =>
    H.f7_src (H.dT_T (hm e he)) (obj_table H.wfS (hS' e he).1)
  refine H.runs_drop (S.tables.difference T.tables) key _ _ (ODict.difference_nodup H.wfS.tables _) v
    (fun n o h => H.f7_T h) (fun e he => H.dT_T (hm e he)) ?_ ?_
  · intro e he db' h'
    refine ⟨_, rfl, ?_⟩
    rw [hcur e he] at h'
    simp [step, Db.isTable, hk e he, h', Obj.mapRef]
  · intro p a s hl hnot hv m o hma hmp ho hTm
    have ha := mem_of_split hl
    have hfit : o.Fits (withNs db N (over (f7 d E N S T) nones (p.map key))).kinds :=
      hv.fits (N, m) o (by rw [withNs_in, over_notMem hmp]; exact ho)
    have hka : (withNs db N (over (f7 d E N S T) nones (p.map key))).kinds (N, key a) = some (.table a.primaryKey) := by
      rw [kinds_in, over_notMem hnot, hcur a ha]; rfl
    rw [kinds_remove]
    refine objFits_remove hfit (types_not_table hka hfit) ?_
    rcases H.f7_cases ho with h | ⟨vs, rfl⟩ | ⟨x, _, _, rfl⟩ | ⟨tb, htb, hktb, rfl⟩
    · rw [hTm] at h; cases h
    · simp [Obj.targets]
    · simp [Obj.targets, StructType.obj, Obj.mapRef]
    · rintro ⟨n, cs, rs, hc⟩
      simp only [Spec.Table.state, Option.bind_eq_some_iff] at hc
      obtain ⟨c, hc, hcs⟩ := hc
      cases c <;> simp only [Spec.Constraint.state, Option.some.injEq, reduceCtorEq] at hcs
      rename_i cn ccols r
      simp only [ConState.foreign.injEq] at hcs
      have htbs : tb ∈ s := by
        rw [hl] at htb
        rcases List.mem_append.1 htb with h | h
        · exact absurd (hktb ▸ List.mem_map_of_mem (f := key) h) hmp
        · rcases List.mem_cons.1 h with h | h
          · subst h; exact absurd hktb.symm hma
          · exact h
      refine H.safe.tableOrder p a s hl tb htbs _ (mem_of_get hc).1 _ _ _ rfl ?_
      rw [hcs.2.1, hk a ha]

theorem ren_refs {ty : SqlType} {k : Key} (hk : ∀ x ∈ softNames S T, k.2 ≠ deletedName x)
    (h : k ∈ (ty.mapRef (ren N (softNames S T))).refs) : k ∈ ty.refs := by
  rw [mapRef_refs _ (fun k => if k.1 = N ∧ k.2 ∈ softNames S T then (N, deletedName k.2) else k)] at h
  · obtain ⟨x, hx, e⟩ := List.mem_map.1 h
    split at e
    · rename_i hc
      subst e
      exact absurd rfl (hk x.2 hc.2)
    · subst e; exact hx
  · intro q hg
    unfold ren
    by_cases hc : q.key.1 = N ∧ q.localId ∈ softNames S T
    · rw [if_pos ⟨hg, hc⟩, if_pos (show q.key.1 = N ∧ q.key.2 ∈ softNames S T from hc)]
      exact Prod.ext hc.1 rfl
    · rw [if_neg (fun h => hc h.2), if_neg (show ¬ (q.key.1 = N ∧ q.key.2 ∈ softNames S T) from hc)]
  · exact ren_isGlobal

theorem phase9 (v : Valid (withNs db N (over (f7 d E N S T) nones (dT S T)))) :
    Runs E (withNs db N (over (f7 d E N S T) nones (dT S T)))
      ((S.structs.difference T.structs).flatMap PySqlSync.StructType.dropStmt)
      (withNs db N (over (over (f7 d E N S T) nones (dT S T)) nones (dS S T))) := by
  have hS' : ∀ e ∈ S.structs.difference T.structs, S.structs.get (key e) = some e ∧ T.structs.get (key e) = none :=
    fun e he => (ODict.mem_difference_get H.wfS.structs).1 he
  have hm : ∀ e ∈ S.structs.difference T.structs, key e ∈ dS S T := fun e he => List.mem_map_of_mem he
  have hk : ∀ e ∈ S.structs.difference T.structs, e.name.key = (N, key e) := fun e he =>
    Prod.ext (by rw [H.wfS.structScope e (mem_of_get (hS' e he).1).1, H.nameS]) rfl
  have hnT : ∀ e ∈ S.structs.difference T.structs, key e ∉ dT S T := by
    intro e he hmem
    obtain ⟨⟨tb, htb⟩, _⟩ := H.mem_dT.1 hmem
    have h1 := obj_struct (d := d) (E := E) H.wfS (hS' e he).1
    rw [obj_table H.wfS htb] at h1
    cases h1
  have hcur : ∀ e ∈ S.structs.difference T.structs, over (f7 d E N S T) nones (dT S T) (key e)
      = some ((StructType.obj e).mapRef (ren N (softNames S T))) := fun e he => by
    rw [over_notMem (hnT e he)]
    exact H.f7_src (H.dS_T (hm e he)) (obj_struct H.wfS (hS' e he).1)
  refine H.runs_drop (S.structs.difference T.structs) key _ _ (ODict.difference_nodup H.wfS.structs _) v
    ?_ (fun e he => H.dS_T (hm e he)) ?_ ?_
  · intro n o h
    rw [over_notMem, H.f7_T h]
    intro hmem; rw [H.dT_T hmem] at h; cases h
  · intro e he db' h'
    refine ⟨_, rfl, ?_⟩
    rw [hcur e he] at h'
    simp only [StructType.obj, Obj.mapRef] at h'
    simp only [step, hk e he, h']
  · intro p a s hl hnot hv m o hma hmp ho hTm
    have ha := mem_of_split hl
    have hfit : o.Fits (withNs db N (over (over (f7 d E N S T) nones (dT S T)) nones (p.map key))).kinds :=
      hv.fits (N, m) o (by rw [withNs_in, over_notMem hmp]; exact ho)
    have hka : (withNs db N (over (over (f7 d E N S T) nones (dT S T)) nones (p.map key))).kinds (N, key a)
        = some .struct := by
      rw [kinds_in, over_notMem hnot, hcur a ha]; rfl
    rw [kinds_remove]
    refine objFits_remove hfit ?_ (targets_not_type (.inr hka) hfit)
    have hmT : m ∉ dT S T := by
      intro hmem; rw [over_mem hmem] at ho; cases ho
    rw [over_notMem hmT] at ho
    rcases H.f7_cases ho with h | ⟨vs, rfl⟩ | ⟨x, hx, hkx, rfl⟩ | ⟨tb, htb, hktb, rfl⟩
    · rw [hTm] at h; cases h
    · simp [Obj.types]
    · rintro ty ⟨n, hn⟩ hmem
      simp only [Option.map_eq_some_iff] at hn
      obtain ⟨ty', ⟨mem, hmem', rfl⟩, rfl⟩ := hn
      have hxs : x ∈ s := by
        rw [hl] at hx
        rcases List.mem_append.1 hx with h | h
        · exact absurd (hkx ▸ List.mem_map_of_mem (f := key) h) hmp
        · rcases List.mem_cons.1 h with h | h
          · subst h; exact absurd hkx.symm hma
          · exact h
      refine H.safe.dropOrder p a s hl x hxs mem (mem_of_get hmem').1 ?_
      rw [hk a ha]
      refine H.ren_refs ?_ hmem
      intro y _ e
      have h1 := obj_struct (d := d) (E := E) H.wfS (hS' a ha).1
      simp only at e
      rw [e, obj_deleted H.wfS] at h1
      cases h1
    · exact absurd (hktb ▸ List.mem_map_of_mem (f := key) htb) hmT

/-- The name under which a dropped enumeration is found. -/
noncomputable def dropName (S T : Namespace) (e : EnumType) : Text :=
  open Classical in if key e ∈ softNames S T then deletedName (key e) else key e

theorem soft_contains {e : EnumType} (he : e ∈ S.enums.difference T.enums) :
    ((softPairs S T).map Prod.fst).contains e = true ↔ key e ∈ softNames S T := by
  rw [List.contains_iff_mem, mem_softNames, List.mem_map]
  constructor
  · rintro ⟨⟨e', tb⟩, h, rfl⟩; exact ⟨e', tb, h, rfl⟩
  · rintro ⟨e', tb, h, hk⟩
    have h1 := (mem_softPairs.1 h).1
    have g1 := (ODict.mem_difference_get H.wfS.enums).1 he
    have g2 := (ODict.mem_difference_get H.wfS.enums).1 h1
    rw [hk, g1.1] at g2
    have := g2.1
    simp only [Option.some.injEq] at this
    exact ⟨(e', tb), h, this.symm⟩

theorem phase10 (v : Valid (withNs db N (over (over (f7 d E N S T) nones (dT S T)) nones (dS S T)))) :
    Runs E (withNs db N (over (over (f7 d E N S T) nones (dT S T)) nones (dS S T)))
      ((S.enums.difference T.enums).flatMap (fun e =>
          if ((softPairs S T).map Prod.fst).contains e then e.hardDropStmt else e.dropStmt))
      (withNs db N (over (over (over (f7 d E N S T) nones (dT S T)) nones (dS S T)) nones
        ((S.enums.difference T.enums).map (dropName S T)))) := by
  have hS' : ∀ e ∈ S.enums.difference T.enums, S.enums.get (key e) = some e ∧ T.enums.get (key e) = none :=
    fun e he => (ODict.mem_difference_get H.wfS.enums).1 he
  have hk : ∀ e ∈ S.enums.difference T.enums, e.name.key = (N, key e) := fun e he =>
    Prod.ext (by rw [H.wfS.enumScope e (mem_of_get (hS' e he).1).1, H.nameS]) rfl
  have hkd : ∀ e ∈ S.enums.difference T.enums, ∀ x, key e ≠ deletedName x := by
    intro e he x h
    have h1 := obj_enum (d := d) (E := E) (hS' e he).1
    rw [h, obj_deleted H.wfS] at h1; cases h1
  have hT : ∀ e ∈ S.enums.difference T.enums, Spec.Namespace.obj d E T (dropName S T e) = none := by
    intro e he
    unfold dropName
    split
    · exact obj_deleted H.wfT _
    · rename_i hns
      have g := hS' e he
      apply obj_none g.2
      · cases hg : T.structs.get (key e) with
        | none => rfl
        | some x => rw [(H.src_of_struct hg).1] at g; cases g.1
      · cases hg : T.tables.get (key e) with
        | none => rfl
        | some x => exact absurd (H.soft_of g.1 hg) hns
  have hS1 : ∀ n, n ∈ dT S T ∨ n ∈ dS S T → ∃ o, Spec.Namespace.obj d E S n = some o ∧ o.kind ≠ .enum := by
    rintro n (h | h)
    · obtain ⟨⟨tb, htb⟩, _⟩ := H.mem_dT.1 h
      exact ⟨_, obj_table H.wfS htb, by simp [Obj.kind]⟩
    · obtain ⟨⟨tb, htb⟩, _⟩ := H.mem_dS.1 h
      exact ⟨_, obj_struct H.wfS htb, by simp [Obj.kind, StructType.obj]⟩
  have hnotD : ∀ e ∈ S.enums.difference T.enums, dropName S T e ∉ dT S T ∧ dropName S T e ∉ dS S T := by
    intro e he
    have aux : ¬ (dropName S T e ∈ dT S T ∨ dropName S T e ∈ dS S T) := by
      intro h
      obtain ⟨o, ho, hok⟩ := hS1 _ h
      unfold dropName at ho
      split at ho
      · rw [obj_deleted H.wfS] at ho; cases ho
      · rw [obj_enum (hS' e he).1] at ho
        cases ho
        exact hok rfl
    rw [not_or] at aux; exact aux
  have hcur : ∀ e ∈ S.enums.difference T.enums, ∃ vs,
      over (over (f7 d E N S T) nones (dT S T)) nones (dS S T) (dropName S T e) = some (.enum vs) := by
    intro e he
    rw [over_notMem (hnotD e he).2, over_notMem (hnotD e he).1]
    by_cases hs : key e ∈ softNames S T
    · obtain ⟨x, _, hx⟩ := H.f7_deleted hs
      unfold dropName
      rw [if_pos hs]
      exact ⟨_, hx⟩
    · have := hT e he
      unfold dropName at this ⊢
      rw [if_neg hs] at this ⊢
      exact ⟨_, H.f7_src this (obj_enum (hS' e he).1)⟩
  have hnd : ((S.enums.difference T.enums).map (dropName S T)).Nodup := by
    have h1 : ((S.enums.difference T.enums).map key).Nodup := ODict.difference_nodup H.wfS.enums _
    have hsub : ∀ e ∈ S.enums.difference T.enums, e ∈ S.enums.difference T.enums := fun _ h => h
    generalize hl : S.enums.difference T.enums = l at h1 hsub
    rw [hl] at hkd
    clear hl
    induction l with
    | nil => simp
    | cons a l ih =>
      rw [List.map_cons, List.nodup_cons] at h1 ⊢
      refine ⟨?_, ih (fun e he => hkd e (by simp [he])) h1.2 (fun e he => he)⟩
      intro hm
      obtain ⟨b, hb, hba⟩ := List.mem_map.1 hm
      have hkab : key b = key a := by
        unfold dropName at hba
        split at hba <;> split at hba
        · exact deletedName_inj hba
        · exact absurd hba.symm (hkd a (by simp) _)
        · exact absurd hba (hkd b (by simp [hb]) _)
        · exact hba
      exact h1.1 (hkab ▸ List.mem_map_of_mem (f := key) hb)
  refine H.runs_drop (S.enums.difference T.enums) (dropName S T) _ _ hnd v ?_ hT ?_ ?_
  · intro n o h
    rw [over_notMem, over_notMem, H.f7_T h]
    · intro hmem; rw [H.dT_T hmem] at h; cases h
    · intro hmem; rw [H.dS_T hmem] at h; cases h
  · intro e he db' h'
    obtain ⟨vs, hvs⟩ := hcur e he
    rw [hvs] at h'
    by_cases hs : key e ∈ softNames S T
    · rw [if_pos ((H.soft_contains he).2 hs)]
      refine ⟨_, rfl, ?_⟩
      have hkey : (e.name.rename (deletedName e.name.localId)).key = (N, dropName S T e) := by
        obtain ⟨e', tb, g1, _, g3, _, hn⟩ := H.soft_get hs
        have hee : e' = e := by rw [(hS' e he).1] at g1; cases g1; rfl
        subst hee
        have hl := (H.safe.lookup tb (mem_of_get g3).1 e' (mem_of_get g1).1 (by rw [hn])).2
        rw [hl, hk e' he]
        unfold dropName
        rw [if_pos hs]
        rfl
      simp only [step, hkey, h']
    · have hc : ((softPairs S T).map Prod.fst).contains e = false := by
        rw [← Bool.not_eq_true, H.soft_contains he]; exact hs
      rw [if_neg (by rw [hc]; simp)]
      refine ⟨_, rfl, ?_⟩
      have hkey : e.name.key = (N, dropName S T e) := by
        rw [hk e he]; unfold dropName; rw [if_neg hs]
      simp only [step, hkey, h']
  · intro p a s hl hnot hv m o hma hmp ho hTm
    have h1 : m ∉ dS S T := by intro hmem; rw [over_mem hmem] at ho; cases ho
    rw [over_notMem h1] at ho
    have h2 : m ∉ dT S T := by intro hmem; rw [over_mem hmem] at ho; cases ho
    rw [over_notMem h2] at ho
    rcases H.f7_cases ho with h | ⟨vs, rfl⟩ | ⟨x, hx, hkx, rfl⟩ | ⟨tb, htb, hktb, rfl⟩
    · rw [hTm] at h; cases h
    · trivial
    · exact absurd (hkx ▸ List.mem_map_of_mem (f := key) hx) h1
    · exact absurd (hktb ▸ List.mem_map_of_mem (f := key) htb) h2

theorem final : over (over (over (f7 d E N S T) nones (dT S T)) nones (dS S T)) nones
    ((S.enums.difference T.enums).map (dropName S T)) = Spec.Namespace.obj d E T := by
  funext n
  cases hT : Spec.Namespace.obj d E T n with
  | some o =>
    rw [over_notMem, over_notMem, over_notMem, H.f7_T hT]
    · intro hmem; rw [H.dT_T hmem] at hT; cases hT
    · intro hmem; rw [H.dS_T hmem] at hT; cases hT
    · intro hmem
      obtain ⟨e, he, rfl⟩ := List.mem_map.1 hmem
      have g := (ODict.mem_difference_get H.wfS.enums).1 he
      unfold dropName at hT
      split at hT
      · rw [obj_deleted H.wfT] at hT; cases hT
      · rename_i hns
        rcases obj_some hT with ⟨x, hx, _⟩ | ⟨x, hx, _⟩ | ⟨x, hx, _⟩
        · rw [g.2] at hx; cases hx
        · rw [(H.src_of_struct hx).1] at g; cases g.1
        · exact hns (H.soft_of g.1 hx)
  | none =>
    by_cases h3 : n ∈ (S.enums.difference T.enums).map (dropName S T)
    · rw [over_mem h3]; rfl
    rw [over_notMem h3]
    by_cases h2 : n ∈ dS S T
    · rw [over_mem h2]; rfl
    rw [over_notMem h2]
    by_cases h1 : n ∈ dT S T
    · rw [over_mem h1]; rfl
    rw [over_notMem h1]
    obtain ⟨g1, g2, g3⟩ := NsHyp.obj_none_get H hT
    apply H.f7_none hT
    · cases hS : Spec.Namespace.obj d E S n with
      | none => rfl
      | some o =>
        exfalso
        rcases obj_some hS with ⟨x, hx, _⟩ | ⟨x, hx, _⟩ | ⟨x, hx, _⟩
        · have hm := mem_of_get hx
          have hd : x ∈ S.enums.difference T.enums :=
            (ODict.mem_difference_get H.wfS.enums).2 ⟨by rw [hm.2]; exact hx, by rw [hm.2]; exact g1⟩
          apply h3
          refine List.mem_map.2 ⟨x, hd, ?_⟩
          unfold dropName
          rw [if_neg, hm.2]
          rw [hm.2]
          intro hs
          obtain ⟨_, tb, _, _, h5, _⟩ := H.soft_get hs
          rw [g3] at h5; cases h5
        · exact h2 (H.mem_dS.2 ⟨⟨x, hx⟩, g2⟩)
        · exact h1 (H.mem_dT.2 ⟨⟨x, hx⟩, g3⟩)
    · rintro x hx rfl
      apply h3
      obtain ⟨e, tb, he, hTe, _⟩ := H.soft_get hx
      have hm := mem_of_get he
      refine List.mem_map.2 ⟨e, (ODict.mem_difference_get H.wfS.enums).2 ⟨by rw [hm.2]; exact he, by rw [hm.2]; exact hTe⟩, ?_⟩
      unfold dropName
      rw [hm.2, if_pos hx]

end NsHyp

/-- Executing the script of one namespace, everything that is no longer there being dropped. -/
theorem run_mutateNamespace (H : NsHyp d E db N S T) {stmts : List Stmt}
    (h : mutateNamespace d {} S T = .ok stmts) :
    Runs E db stmts (withNs db N (Spec.Namespace.obj d E T)) := by
  unfold mutateNamespace at h
  have hn : S.name = T.name := by rw [H.nameS, H.nameT]
  cases h1 : (T.tables.difference S.tables).mapM (fun tb => tb.createStmt d) with
  | error e => simp [hn, h1, bind, Except.bind] at h
  | ok creates =>
  cases h2 : (S.enums.intersection T.enums).mapM (fun p => mutateEnum p.1 p.2) with
  | error e => simp [hn, h1, h2, bind, Except.bind] at h
  | ok enums =>
  cases h3 : (S.structs.intersection T.structs).mapM (fun p => mutateStruct d p.1 p.2) with
  | error e => simp [hn, h1, h2, h3, bind, Except.bind] at h
  | ok structs =>
  cases h4 : (S.tables.intersection T.tables).mapM (fun p => mutateTable d p.1 p.2) with
  | error e => simp [hn, h1, h2, h3, h4, bind, Except.bind] at h
  | ok tables =>
  simp only [hn, h1, h2, h3, h4, bind, Except.bind, pure, Except.pure, ne_eq, not_true_eq_false, if_false,
    Except.ok.injEq, if_true] at h
  rw [← h]
  have r1 := H.phase1
  have v1 := runs_valid r1 H.v
  have r2 := H.phase2 v1
  have v2 := runs_valid r2 v1
  have r3 := H.phase3 v2 h1
  have v3 := runs_valid r3 v2
  have r4 := H.phase4 v3
  have v4 := runs_valid r4 v3
  have r4' := H.phase4' v4
  have r5 := H.phase5 v4 h2
  have v5 := runs_valid r5 v4
  have r6 := H.phase6 v5 h3
  have v6 := runs_valid r6 v5
  have r7 := H.phase7 v6 h4
  have v7 := runs_valid r7 v6
  have r8 := H.phase8 v7
  have v8 := runs_valid r8 v7
  have r9 := H.phase9 v8
  have v9 := runs_valid r9 v8
  have r10 := H.phase10 v9
  rw [H.final] at r10
  exact runs_append (runs_append (runs_append (runs_append (runs_append (runs_append (runs_append (runs_append
    (runs_append (runs_append r1 r2) r3) r4) r4') r5) r6) r7) r8) r9) r10

end
end PySqlSync
