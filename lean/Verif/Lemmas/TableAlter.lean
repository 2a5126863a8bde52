/-
Helper lemmas: the whole sequence of actions emitted for one table (continued).
-/
import Verif.Lemmas.TableMutate

set_option autoImplicit false

namespace PySqlSync
open Spec

theorem ActRun.map {E : Engine} {P : TableState → Prop} {α : Type} (f : α → Action)
    (D : List α → TableState) (l : List α)
    (hstep : ∀ p a s, l = p ++ a :: s → P (D p) → ActRun E P (D p) [f a] (D (p ++ [a]))) (h0 : P (D [])) :
    ActRun E P (D []) (l.map f) (D l) := by
  have := ActRun.flatMap (fun a => [f a]) D l hstep h0
  have e : l.flatMap (fun a => [f a]) = l.map f := by
    rw [List.map_eq_flatMap]
  rwa [e] at this

theorem nodup_map_inj {α β : Type} {l : List α} (f : α → β) (hf : ∀ a b, f a = f b → a = b) (h : l.Nodup) :
    (l.map f).Nodup :=
  List.Pairwise.map f (fun _ _ hne e => hne (hf _ _ e)) h

theorem conState_spec {E : Engine} {c : Constraint} {sp : ConSpec} (h : c.spec = some sp) :
    Spec.Constraint.state E c = some (conState E sp) := by
  cases c <;> simp only [Constraint.spec, Option.some.injEq, reduceCtorEq] at h <;> subst h <;> rfl

theorem conState_none {E : Engine} {c : Constraint} (h : c.spec = none) : Spec.Constraint.state E c = none := by
  cases c <;> simp [Constraint.spec] at h <;> rfl

section
variable {d : Dialect} {E : Engine} {K : Kinds} {σ : SqlType → SqlType} {S T : Table}

theorem TabHyp.cols1_deleted (H : TabHyp d E K σ S T) (n : Text) : cols1 d σ S T (deletedName n) = none := by
  simp [cols1, H.get_deleted_S]

theorem TabHyp.untouched_deleted (H : TabHyp d E K σ S T) (n : Text) :
    Untouched (tabCons E S) (deletedName n) ∧ deletedName n ∉ S.primaryKey := by
  constructor
  · intro m c hc hm
    have := (H.fitS.cons m c hc).1 _ hm
    simp [mkT, srcCols, H.get_deleted_S] at this
  · intro hm
    obtain ⟨c, hc, _⟩ := H.fitS.pk _ hm
    simp [mkT, srcCols, H.get_deleted_S] at hc

theorem softDrop_ok {c : Column} {a : Action} (h : c.softDropStmt d = .ok a) :
    ∃ spec, a = .renameColumn c.name (deletedName c.name) spec := by
  unfold Column.softDropStmt Column.renameStmt at h
  split at h
  · cases hs : c.dataSpec .mysql with
    | error e => simp [hs, bind, Except.bind] at h
    | ok spec => simp only [hs, bind, Except.bind, pure, Except.pure, Except.ok.injEq] at h; exact ⟨spec, h.symm⟩
  · simp only [Except.ok.injEq] at h; exact ⟨_, h.symm⟩

theorem createStmt_ok {c : Column} {a : Action} (h : c.createStmt d = .ok a) :
    ∃ spec, c.dataSpec d = .ok spec ∧ a = .addColumn c.name spec := by
  unfold Column.createStmt at h
  cases hs : c.dataSpec d with
  | error e => simp [hs, bind, Except.bind] at h
  | ok spec => simp only [hs, bind, Except.bind, pure, Except.pure, Except.ok.injEq] at h; exact ⟨spec, rfl, h.symm⟩

def colsR (d : Dialect) (σ : SqlType → SqlType) (S T : Table) : Text → Option ColState :=
  renamed (cols1 d σ S T) (convNames d S T)

/-- Renaming the converted columns. -/
theorem TabHyp.run_renames (H : TabHyp d E K σ S T)
    (hid : d = .mssql → ∀ s u, (s, u) ∈ S.columns.intersection T.columns → s.identity = u.identity)
    {acts : List Action}
    (h : (migratedPairs d S T).mapM (fun p => p.1.softDropStmt d) = .ok acts) :
    ActRun E (Good K S.primaryKey) (mkT d (cols1 d σ S T) S.primaryKey (tabCons E S)) acts
      (mkT d (colsR d σ S T) S.primaryKey (consR d E S T)) := by
  obtain ⟨h1, h2⟩ := mapM_ok h
  rw [h1]
  have hr : ∀ X : Text → Option ColState, renamed X [] = X := by intro X; funext n; simp [renamed, over]
  have := ActRun.map (E := E) (P := Good K S.primaryKey)
    (fun p : Column × Column => ((p.1.softDropStmt d).toOption).getD default)
    (fun p => mkT d (renamed (cols1 d σ S T) (p.map (fun p => p.1.name))) S.primaryKey
      (consRen (tabCons E S) (p.map (fun p => p.1.name))))
    (migratedPairs d S T) ?_ ?_
  · simpa only [List.map_nil, hr, consRen_nil, colsR, consR, convNames] using this
  · intro p a s hl hg
    obtain ⟨spec, hspec⟩ := softDrop_ok (h2 a (mem_of_split hl))
    rw [hspec]
    have := PySqlSync.run_renames (d := d) (E := E) (K := K) (pk := S.primaryKey) (cons := tabCons E S)
      (X := cols1 d σ S T) (convNames d S T) H.conv_nodup ?_ H.cols1_deleted
      (p.map (fun p => p.1.name)) a.1.name (s.map (fun p => p.1.name)) spec (by simp [convNames, hl]) hg
    · simpa using this
    · intro n hn
      obtain ⟨s, u, hs, hu, hc⟩ := H.mem_convNames.1 hn
      obtain ⟨e1, e2, m1, m2⟩ := H.get_mem hs hu
      have hsafe := H.safe.converted s m1 u m2 (by rw [e1, e2]) hc
      refine ⟨_, by simp only [cols1, hs, hu, Option.map_some]; rfl, ?_, H.conv_key hn⟩
      intro hd
      simp [hd, Spec.Column.state, hsafe.2.2.2 hd]
  · simp only [List.map_nil, hr, consRen_nil]; exact H.good1 hid

def colsA (d : Dialect) (σ : SqlType → SqlType) (S T : Table) : Text → Option ColState :=
  over (colsR d σ S T) (tabCols d T) (convNames d S T ++ (createdCols S T).map Column.name)

theorem TabHyp.colsR_none (H : TabHyp d E K σ S T) {u : Column} {n : Text} (hu : T.columns.get n = some u)
    (h : n ∈ convNames d S T ∨ S.columns.get n = none) : colsR d σ S T n = none := by
  unfold colsR renamed
  rw [over_notMem]
  · by_cases hc : n ∈ convNames d S T
    · rw [over_mem hc]
    · rw [over_notMem hc]
      rcases h with h | h
      · exact absurd h hc
      · simp [cols1, h]
  · intro hm
    obtain ⟨x, _, rfl⟩ := List.mem_map.1 hm
    rw [H.get_deleted_T] at hu
    cases hu

/-- Adding the converted and the created columns. -/
theorem TabHyp.run_adds (H : TabHyp d E K σ S T)
    (hgood : Good K S.primaryKey (mkT d (colsR d σ S T) S.primaryKey (consR d E S T)))
    {acts1 acts2 : List Action}
    (h1 : (migratedPairs d S T).mapM (fun p => p.2.createStmt d) = .ok acts1)
    (h2 : (T.columns.difference S.columns).mapM (fun c => c.createStmt d) = .ok acts2) :
    ActRun E (Good K S.primaryKey) (mkT d (colsR d σ S T) S.primaryKey (consR d E S T)) (acts1 ++ acts2)
      (mkT d (colsA d σ S T) S.primaryKey (consR d E S T)) := by
  obtain ⟨e1, k1⟩ := mapM_ok h1
  obtain ⟨e2, k2⟩ := mapM_ok h2
  let L : List Column := (migratedPairs d S T).map Prod.snd ++ createdCols S T
  have hL : acts1 ++ acts2 = L.map (fun c => ((c.createStmt d).toOption).getD default) := by
    rw [e1, e2]; simp only [L, createdCols, List.map_append, List.map_map]; rfl
  have hLnames : L.map Column.name = convNames d S T ++ (createdCols S T).map Column.name := by
    simp only [L, List.map_append, List.map_map, convNames]
    congr 1
    apply List.map_congr_left
    rintro ⟨s, u⟩ hp
    exact (H.mem_conv.1 hp).2.2.1.symm
  have hLok : ∀ c ∈ L, ∃ spec, c.dataSpec d = .ok spec ∧
      ((c.createStmt d).toOption).getD default = .addColumn c.name spec := by
    intro c hc
    have : c.createStmt d = .ok (((c.createStmt d).toOption).getD default) := by
      rcases List.mem_append.1 hc with hc | hc
      · obtain ⟨p, hp, rfl⟩ := List.mem_map.1 hc
        exact k1 p hp
      · exact k2 c hc
    exact createStmt_ok this
  have hLget : ∀ c ∈ L, T.columns.get c.name = some c ∧ colsR d σ S T c.name = none := by
    intro c hc
    rcases List.mem_append.1 hc with hc | hc
    · obtain ⟨⟨s, u⟩, hp, rfl⟩ := List.mem_map.1 hc
      have h := H.mem_conv.1 hp
      have hu : T.columns.get u.name = some u := by rw [← h.2.2.1]; exact h.2.1
      refine ⟨hu, H.colsR_none hu (.inl ?_)⟩
      exact h.2.2.1 ▸ List.mem_map_of_mem (f := fun p : Column × Column => p.1.name) hp
    · have h := H.mem_created.1 hc
      exact ⟨h.1, H.colsR_none h.1 (.inr h.2)⟩
  have hnd : (L.map Column.name).Nodup := by
    rw [hLnames, List.nodup_append]
    refine ⟨H.conv_nodup, ODict.difference_nodup H.wfT.columns _, ?_⟩
    intro a ha b hb e
    subst e
    obtain ⟨s, u, hs, _⟩ := H.mem_convNames.1 ha
    have := (H.mem_createdNames.1 hb).2
    rw [hs] at this
    cases this
  rw [hL]
  have := ActRun.map (E := E) (P := Good K S.primaryKey)
    (fun c : Column => ((c.createStmt d).toOption).getD default)
    (fun p => mkT d (over (colsR d σ S T) (tabCols d T) (p.map Column.name)) S.primaryKey (consR d E S T))
    L ?_ ?_
  · simp only [List.map_nil, over_nil] at this
    unfold colsA
    rw [← hLnames]; exact this
  · intro p a s hl hg
    have ha : a ∈ L := mem_of_split hl
    obtain ⟨spec, hspec, hact⟩ := hLok a ha
    obtain ⟨hTa, hRa⟩ := hLget a ha
    have hgd := H.tgtGood hTa
    have hds := dataSpec_ok hspec hgd.ok
      (fun h => H.wfT.delta h a ((ODict.get_eq_some_iff H.wfT.columns).1 hTa).1)
    have hap : a.name ∉ p.map Column.name := notMem_prefix Column.name hnd hl
    simp only [hact, List.map_append, List.map_cons, List.map_nil, over_snoc]
    have hY : tabCols d T a.name = some (Spec.ColSpec.state spec) := by simp [tabCols, hTa, hds.1]
    rw [hY]
    apply ActRun.single
    · exact step_add _ _ (by rw [over_notMem hap, hRa]) hds.2 (fun h => consR_none (H.cons_df h _))
    · rw [hds.1]
      exact ⟨fits_setCol hg.1 _ _ hgd.ok hgd.ty hgd.pk, rfl⟩
  · simp only [List.map_nil, over_nil]; exact hgood

def colsH (d : Dialect) (σ : SqlType → SqlType) (S T : Table) : Text → Option ColState :=
  over (colsA d σ S T) (fun _ => none) ((convNames d S T).map deletedName)

theorem TabHyp.colsA_deleted (H : TabHyp d E K σ S T) {n : Text} (h : n ∈ convNames d S T) :
    colsA d σ S T (deletedName n) = cols1 d σ S T n := by
  unfold colsA
  rw [over_notMem]
  · unfold colsR renamed
    rw [over_mem (List.mem_map_of_mem h), deletedName_drop]
  · intro hm
    rcases List.mem_append.1 hm with hm | hm
    · obtain ⟨s, u, hs, _⟩ := H.mem_convNames.1 hm
      rw [H.get_deleted_S] at hs; cases hs
    · obtain ⟨u, hu⟩ := (H.mem_createdNames.1 hm).1
      rw [H.get_deleted_T] at hu; cases hu

theorem TabHyp.cols1_conv (H : TabHyp d E K σ S T) {n : Text} (h : n ∈ convNames d S T) :
    ∃ c, cols1 d σ S T n = some c ∧ (d = .mssql → c.default = none) := by
  obtain ⟨s, u, hs, hu, hc⟩ := H.mem_convNames.1 h
  obtain ⟨e1, e2, m1, m2⟩ := H.get_mem hs hu
  have hsafe := H.safe.converted s m1 u m2 (by rw [e1, e2]) hc
  refine ⟨_, by simp only [cols1, hs, hu, Option.map_some]; rfl, ?_⟩
  intro hd
  simp [hd, Spec.Column.state, hsafe.2.2.2 hd]

/-- Dropping the renamed columns. -/
theorem TabHyp.run_hard (H : TabHyp d E K σ S T)
    (hgood : Good K S.primaryKey (mkT d (colsA d σ S T) S.primaryKey (consR d E S T))) :
    ActRun E (fun ts => d = .mysql ∨ Good K S.primaryKey ts) (mkT d (colsA d σ S T) S.primaryKey (consR d E S T))
      ((migratedPairs d S T).map (fun p => p.1.hardDropStmt))
      (mkT d (colsH d σ S T) S.primaryKey (consR d E S T)) := by
  have := ActRun.map (E := E) (P := fun ts => d = .mysql ∨ Good K S.primaryKey ts)
    (fun n : Text => Action.dropColumn (deletedName n))
    (fun p => mkT d (over (colsA d σ S T) (fun _ => none) (p.map deletedName)) S.primaryKey (consR d E S T))
    (convNames d S T) (PySqlSync.run_drops (d = .mysql) (convNames d S T) deletedName _ ?_ ?_ ?_ ?_ ?_) ?_
  · simp only [List.map_nil, over_nil] at this
    simp only [convNames, List.map_map] at this
    simp only [colsH, convNames, List.map_map]
    exact this
  · exact nodup_map_inj deletedName (fun a b => deletedName_inj) H.conv_nodup
  · intro n hn
    obtain ⟨c, hc, hdef⟩ := H.cols1_conv hn
    exact ⟨c, by rw [H.colsA_deleted hn, hc], .inl ⟨rfl, hdef⟩⟩
  · intro n _; exact (H.untouched_deleted n).2
  · intro n _ hd; rw [H.consR_same hd]; exact (H.untouched_deleted n).1
  · exact H.hE
  · simp only [List.map_nil, over_nil]; exact .inr hgood

/-- A common column before the changes. -/
theorem TabHyp.colsH_common (H : TabHyp d E K σ S T) {n : Text} {s u : Column} (hs : S.columns.get n = some s)
    (hu : T.columns.get n = some u) :
    colsH d σ S T n = if n ∈ convNames d S T then some (Spec.Column.state d u) else cols1 d σ S T n := by
  have hnd : n ∉ (convNames d S T).map deletedName := by
    intro hm
    obtain ⟨x, _, rfl⟩ := List.mem_map.1 hm
    rw [H.get_deleted_T] at hu; cases hu
  have hnc : n ∉ (createdCols S T).map Column.name := by
    intro hm
    have := (H.mem_createdNames.1 hm).2
    rw [hs] at this; cases this
  unfold colsH
  rw [over_notMem hnd]
  unfold colsA
  by_cases hc : n ∈ convNames d S T
  · rw [over_mem (List.mem_append_left _ hc), if_pos hc]; simp [tabCols, hu]
  · rw [over_notMem (by simp only [List.mem_append, not_or]; exact ⟨hc, hnc⟩), if_neg hc]
    unfold colsR renamed
    rw [over_notMem hnd, over_notMem hc]

def colsC (d : Dialect) (σ : SqlType → SqlType) (S T : Table) : Text → Option ColState :=
  over (colsH d σ S T) (tabCols d T) (commonNames S T)

theorem mapM_flatten {α β : Type} {f : α → Except Err (List β)} {l : List α} {r : List (List β)}
    (h : l.mapM f = .ok r) :
    r.flatten = l.flatMap (fun x => ((f x).toOption).getD []) ∧ ∀ x ∈ l, f x = .ok (((f x).toOption).getD []) := by
  obtain ⟨h1, h2⟩ := mapM_ok h
  refine ⟨?_, h2⟩
  rw [h1, ← List.flatMap_def]; rfl

/-- Changing the common columns. -/
theorem TabHyp.run_changes (H : TabHyp d E K σ S T)
    (hid : d = .mssql → ∀ s u, (s, u) ∈ S.columns.intersection T.columns → s.identity = u.identity)
    (hgood : d = .mysql ∨ Good K S.primaryKey (mkT d (colsH d σ S T) S.primaryKey (consR d E S T)))
    {acts : List (List Action)}
    (h : (S.columns.intersection T.columns).mapM (fun p => mutateColumn d p.1 p.2) = .ok acts) :
    ActRun E (fun ts => d = .mysql ∨ Good K S.primaryKey ts) (mkT d (colsH d σ S T) S.primaryKey (consR d E S T))
      acts.flatten
      (mkT d (colsC d σ S T) S.primaryKey (consR d E S T)) := by
  obtain ⟨e1, k1⟩ := mapM_flatten h
  rw [e1]
  have := ActRun.flatMap (E := E) (P := fun ts => d = .mysql ∨ Good K S.primaryKey ts)
    (fun p : Column × Column => ((mutateColumn d p.1 p.2).toOption).getD [])
    (fun p => mkT d (over (colsH d σ S T) (tabCols d T) (p.map (fun p => p.1.name))) S.primaryKey (consR d E S T))
    (S.columns.intersection T.columns) ?_ ?_
  · simpa only [List.map_nil, over_nil, colsC, commonNames] using this
  · rintro p ⟨s, u⟩ q hl hg
    have hmem := mem_of_split hl
    have hact := k1 _ hmem
    obtain ⟨hs, hu, hn⟩ := H.mem_common.1 hmem
    obtain ⟨_, e2, m1, m2⟩ := H.get_mem hs hu
    have hnot : s.name ∉ p.map (fun p => p.1.name) :=
      notMem_prefix (fun p : Column × Column => p.1.name) H.common_nodup hl
    rw [List.map_append, List.map_cons, List.map_nil, over_snoc]
    have hY : tabCols d T s.name = some (Spec.Column.state d u) := by simp [tabCols, hu]
    simp only [hY]
    generalize hX : over (colsH d σ S T) (tabCols d T) (p.map (fun p => p.1.name)) = X at hg ⊢
    have hXs : X s.name = colsH d σ S T s.name := by rw [← hX, over_notMem hnot]
    rw [H.colsH_common hs hu] at hXs
    have hug := H.tgtGood hu
    have hsOk : (Spec.Column.state d s).Ok := (H.srcOk hs).1
    have hdelta : d = .delta → u.default = none := fun h => H.wfT.delta h u m2
    have hsnow : d = .snowflake → ∀ e, u.default = some e → defaultExpr d u.ty e = e :=
      fun h => H.wfT.snowflake h u m2
    have hident := fun h1 h2 => H.safe.identity h1 h2 s m1 u m2 hn
    have hdefSame : s.name ∉ convNames d S T → s.default = u.default → (Spec.Column.state d s).default = (Spec.Column.state d u).default := by
      intro hnc h
      by_cases ho : d = .oracle
      · exact H.safe.oracle ho s m1 u m2 hn (fun hcv => hnc (H.mem_convNames.2 ⟨s, u, hs, hu, hcv⟩)) h
      · by_cases hsn : d = .snowflake
        · have a1 := H.wfS.snowflake hsn s m1
          have a2 := H.wfT.snowflake hsn u m2
          simp only [Spec.Column.state]
          rw [h] at a1 ⊢
          cases hd : u.default with
          | none => rfl
          | some e => simp only [Option.map_some]; rw [a1 e hd, a2 e hd]
        · simp only [Spec.Column.state, h]
          cases d <;> first | rfl | (exact absurd rfl ho) | (exact absurd rfl hsn)
    by_cases hc : s.name ∈ convNames d S T
    · rw [if_pos hc] at hXs
      obtain ⟨s', u', hs', hu', hcv⟩ := H.mem_convNames.1 hc
      rw [hs] at hs'; cases hs'
      rw [hu] at hu'; cases hu'
      have hsafe := H.safe.converted s m1 u m2 hn hcv
      refine run_mutateColumn' hg hact hXs ?_ ?_ ?_ ?_ ?_ ?_ hsOk hug hug hdelta hsnow hident
      · intro _; rfl
      · intro _; rfl
      · intro _; rfl
      · intro _; rfl
      · intro h1 h2; exact (hsafe.2.2.1 h1 h2).symm
      · intro _; rfl
    · rw [if_neg hc] at hXs
      have hc1 : cols1 d σ S T s.name = some (if d = .mssql then { srcState d σ s with default := (Spec.Column.state d u).default } else srcState d σ s) := by
        simp [cols1, hs, hu]
      have hgood1 := (H.good1 hid).1
      have hcg : ColGood K S.primaryKey s.name (if d = .mssql then { srcState d σ s with default := (Spec.Column.state d u).default } else srcState d σ s) := by
        have := hgood1.cols s.name _ hc1
        refine ⟨this.1, this.2, ?_⟩
        intro hm
        obtain ⟨c, hc, hnn⟩ := hgood1.pk _ hm
        rw [show (mkT d (cols1 d σ S T) S.primaryKey (tabCons E S)).cols = cols1 d σ S T from rfl, hc1] at hc
        cases hc
        exact hnn
      refine run_mutateColumn' hg hact (hXs.trans hc1) ?_ ?_ ?_ ?_ ?_ ?_ hsOk hug hcg hdelta hsnow hident
      · intro h
        have h' : σ s.ty = u.ty := (H.hσ s m1 u m2 hn h).trans h
        split <;> exact h'
      · intro h; split <;> exact h
      · intro h; split
        · rfl
        · exact hdefSame hc h
      · intro h; rw [if_pos h]
      · intro _ _; split <;> rfl
      · intro h; split <;> exact h
  · simp only [List.map_nil, over_nil]; exact hgood

theorem TabHyp.over_colsC (H : TabHyp d E K σ S T) :
    over (colsC d σ S T) (fun _ => none) ((droppedCols S T).map Column.name) = tabCols d T := by
  funext n
  cases hs : S.columns.get n with
  | some s =>
    cases hu : T.columns.get n with
    | some u =>
      rw [over_notMem]
      · unfold colsC; rw [over_mem (H.mem_commonNames.2 ⟨s, u, hs, hu⟩)]
      · intro hm; have := (H.mem_droppedNames.1 hm).2; rw [hu] at this; cases this
    | none =>
      rw [over_mem (H.mem_droppedNames.2 ⟨⟨s, hs⟩, hu⟩)]; simp [tabCols, hu]
  | none =>
    rw [over_notMem (fun hm => by obtain ⟨s, hs'⟩ := (H.mem_droppedNames.1 hm).1; rw [hs] at hs'; cases hs')]
    unfold colsC
    rw [over_notMem (fun hm => by obtain ⟨s, u, hs', _⟩ := H.mem_commonNames.1 hm; rw [hs] at hs'; cases hs')]
    have hnc : n ∉ convNames d S T := fun hm => by
      obtain ⟨s, u, hs', _⟩ := H.mem_convNames.1 hm; rw [hs] at hs'; cases hs'
    unfold colsH
    cases hu : T.columns.get n with
    | some u =>
      rw [over_notMem]
      · unfold colsA
        rw [over_mem (List.mem_append_right _ (H.mem_createdNames.2 ⟨⟨u, hu⟩, hs⟩))]
      · intro hm
        obtain ⟨x, _, rfl⟩ := List.mem_map.1 hm
        rw [H.get_deleted_T] at hu; cases hu
    | none =>
      by_cases hd : n ∈ (convNames d S T).map deletedName
      · rw [over_mem hd]; simp [tabCols, hu]
      · rw [over_notMem hd]
        unfold colsA
        rw [over_notMem]
        · unfold colsR renamed
          rw [over_notMem hd, over_notMem hnc]; simp [cols1, tabCols, hs, hu]
        · simp only [List.mem_append, not_or]
          refine ⟨hnc, fun hm => ?_⟩
          obtain ⟨u, hu'⟩ := (H.mem_createdNames.1 hm).1; rw [hu] at hu'; cases hu'

theorem TabHyp.colsC_dropped (H : TabHyp d E K σ S T) {n : Text} {s : Column} (hs : S.columns.get n = some s)
    (hu : T.columns.get n = none) : colsC d σ S T n = some (srcState d σ s) := by
  unfold colsC
  rw [over_notMem (fun hm => by obtain ⟨s, u, _, hu'⟩ := H.mem_commonNames.1 hm; rw [hu] at hu'; cases hu')]
  unfold colsH
  have hd : n ∉ (convNames d S T).map deletedName := by
    intro hm
    obtain ⟨x, _, rfl⟩ := List.mem_map.1 hm
    rw [H.get_deleted_S] at hs; cases hs
  have hnc : n ∉ convNames d S T := fun hm => by
    obtain ⟨s, u, _, hu', _⟩ := H.mem_convNames.1 hm; rw [hu] at hu'; cases hu'
  rw [over_notMem hd]
  unfold colsA
  rw [over_notMem]
  · unfold colsR renamed
    rw [over_notMem hd, over_notMem hnc]; simp [cols1, hs, hu]
  · simp only [List.mem_append, not_or]
    refine ⟨hnc, fun hm => ?_⟩
    obtain ⟨u, hu'⟩ := (H.mem_createdNames.1 hm).1; rw [hu] at hu'; cases hu'

/-- Dropping the columns that the target lacks. -/
theorem TabHyp.run_drops (H : TabHyp d E K σ S T)
    (hgood : d = .mysql ∨ Good K S.primaryKey (mkT d (colsC d σ S T) S.primaryKey (consR d E S T))) :
    ActRun E (fun ts => d = .mysql ∨ Good K S.primaryKey ts) (mkT d (colsC d σ S T) S.primaryKey (consR d E S T))
      ((S.columns.difference T.columns).map (Column.dropStmt d))
      (mkT d (tabCols d T) S.primaryKey (consR d E S T)) := by
  have := ActRun.map (E := E) (P := fun ts => d = .mysql ∨ Good K S.primaryKey ts)
    (Column.dropStmt d)
    (fun p => mkT d (over (colsC d σ S T) (fun _ => none) (p.map Column.name)) S.primaryKey (consR d E S T))
    (droppedCols S T)
    (PySqlSync.run_drops (d = .mysql) (droppedCols S T) Column.name (Column.dropStmt d) ?_ ?_ ?_ ?_ H.hE) ?_
  · simp only [List.map_nil, over_nil] at this
    rw [H.over_colsC] at this
    exact this
  · exact ODict.difference_nodup H.wfS.columns _
  · intro s hs
    have hm := H.mem_dropped.1 hs
    refine ⟨_, H.colsC_dropped hm.1 hm.2, ?_⟩
    by_cases hd : d = .mssql
    · subst hd
      cases hdef : s.default with
      | none =>
        refine .inl ⟨by simp [Column.dropStmt, hdef], fun _ => ?_⟩
        simp [srcState, Spec.Column.state, hdef]
      | some e =>
        refine .inr ⟨by simp [Column.dropStmt, hdef], rfl, ?_⟩
        simp [srcState, Spec.Column.state, hdef]
    · refine .inl ⟨?_, fun h => absurd h hd⟩
      cases d <;> first | rfl | exact absurd rfl hd
  · intro s hs hp
    have hm := H.mem_dropped.1 hs
    rw [H.safe.key] at hp
    obtain ⟨c, hc, _⟩ := H.fitT.pk _ hp
    simp [mkT, tabCols, hm.2] at hc
  · intro s hs hmy m x hx
    rw [H.consR_same hmy] at hx
    have hm := H.mem_dropped.1 hs
    obtain ⟨c, hc, _, hst⟩ := H.cons_iff hx
    refine H.safe.dropped hmy s ((ODict.get_eq_some_iff H.wfS.columns).1 hm.1).1 ?_ c hc x hst
    intro u hu e
    have : T.columns.get u.name = some u := (ODict.get_eq_some_iff H.wfT.columns).2 ⟨hu, rfl⟩
    rw [← e, hm.2] at this
    cases this
  · simp only [List.map_nil, over_nil]; exact hgood

/-- Dropping and adding constraints. -/
theorem TabHyp.run_cons (H : TabHyp d E K σ S T)
    (hgood : d = .mysql ∨ Good K S.primaryKey (mkT d (tabCols d T) S.primaryKey (consR d E S T)))
    (hsame : (S.constraints.intersection T.constraints).any (fun p => p.1 ≠ p.2) = false) :
    ActRun E (fun ts => d = .mysql ∨ Good K S.primaryKey ts) (mkT d (tabCols d T) S.primaryKey (consR d E S T))
      (((S.constraints.difference T.constraints).filterMap (fun c => c.spec.map (fun _ => Action.dropConstraint c.name)))
        ++ ((T.constraints.difference S.constraints).filterMap (fun c =>
          c.spec.map (fun s => Action.addConstraint c.name s))))
      (mkT d (tabCols d T) S.primaryKey (tabCons E T)) := by
  have hcS := H.wfS.constraints
  have hcT := H.wfT.constraints
  let LD : List Text := (S.constraints.difference T.constraints).filterMap (fun c => c.spec.map (fun _ => c.name))
  let LA : List (Text × ConSpec) :=
    (T.constraints.difference S.constraints).filterMap (fun c => c.spec.map (fun s => (c.name, s)))
  have hD : (S.constraints.difference T.constraints).filterMap (fun c => c.spec.map (fun _ => Action.dropConstraint c.name))
      = LD.map Action.dropConstraint := by
    simp only [LD, List.map_filterMap, Option.map_map]; rfl
  have hA : (T.constraints.difference S.constraints).filterMap (fun c =>
          c.spec.map (fun s => Action.addConstraint c.name s))
      = LA.map (fun p => Action.addConstraint p.1 p.2) := by
    simp only [LA, List.map_filterMap, Option.map_map]; rfl
  rw [hD, hA]
  have memLD : ∀ n, n ∈ LD ↔ ∃ c, S.constraints.get n = some c ∧ T.constraints.get n = none ∧ c.spec.isSome := by
    intro n
    simp only [LD, List.mem_filterMap, Option.map_eq_some_iff]
    constructor
    · rintro ⟨c, hc, sp, hsp, rfl⟩
      have := (ODict.mem_difference_get hcS).1 hc
      exact ⟨c, this.1, this.2, by simp [hsp]⟩
    · rintro ⟨c, h1, h2, h3⟩
      have e : c.name = n := ((ODict.get_eq_some_iff hcS).1 h1).2
      subst e
      obtain ⟨sp, hsp⟩ := Option.isSome_iff_exists.1 h3
      exact ⟨c, (ODict.mem_difference_get hcS).2 ⟨h1, h2⟩, sp, hsp, rfl⟩
  have memLA : ∀ n sp, (n, sp) ∈ LA ↔ ∃ c, T.constraints.get n = some c ∧ S.constraints.get n = none ∧ c.spec = some sp := by
    intro n sp
    simp only [LA, List.mem_filterMap, Option.map_eq_some_iff]
    constructor
    · rintro ⟨c, hc, sp', hsp, h⟩
      cases h
      have := (ODict.mem_difference_get hcT).1 hc
      exact ⟨c, this.1, this.2, hsp⟩
    · rintro ⟨c, h1, h2, h3⟩
      have e : c.name = n := ((ODict.get_eq_some_iff hcT).1 h1).2
      subst e
      exact ⟨c, (ODict.mem_difference_get hcT).2 ⟨h1, h2⟩, sp, h3, rfl⟩
  have ndLD : LD.Nodup := by
    have h1 := ODict.difference_nodup hcS T.constraints
    refine List.Nodup.sublist ?_ h1
    simp only [LD]
    generalize S.constraints.difference T.constraints = l
    induction l with
    | nil => simp
    | cons c l ih =>
      cases hsp : c.spec with
      | none => simp only [List.filterMap_cons, hsp, Option.map_none, List.map_cons]; exact ih.cons _
      | some sp => simp only [List.filterMap_cons, hsp, Option.map_some, List.map_cons]; exact ih.cons_cons _
  have ndLA : (LA.map Prod.fst).Nodup := by
    have h1 := ODict.difference_nodup hcT S.constraints
    refine List.Nodup.sublist ?_ h1
    simp only [LA]
    generalize T.constraints.difference S.constraints = l
    induction l with
    | nil => simp
    | cons c l ih =>
      cases hsp : c.spec with
      | none => simp only [List.filterMap_cons, hsp, Option.map_none, List.map_cons]; exact ih.cons _
      | some sp => simp only [List.filterMap_cons, hsp, Option.map_some, List.map_cons]; exact ih.cons_cons _
  let C1 := over (consR d E S T) (fun _ => none) LD
  have r1 : ActRun E (fun ts => d = .mysql ∨ Good K S.primaryKey ts)
      (mkT d (tabCols d T) S.primaryKey (consR d E S T)) (LD.map Action.dropConstraint)
      (mkT d (tabCols d T) S.primaryKey C1) := by
    have := ActRun.map (E := E) (P := fun ts => d = .mysql ∨ Good K S.primaryKey ts) Action.dropConstraint
      (fun p => mkT d (tabCols d T) S.primaryKey (over (consR d E S T) (fun _ => none) p)) LD
      (run_dropCons LD ndLD ?_ ?_) ?_
    · simpa only [over_nil] using this
    · intro n hn
      obtain ⟨c, h1, _, h3⟩ := (memLD n).1 hn
      obtain ⟨sp, hsp⟩ := Option.isSome_iff_exists.1 h3
      rw [consR_isSome]
      simp [tabCons, h1, conState_spec hsp]
    · intro hd n hn x
      obtain ⟨c, h1, _, _⟩ := (memLD n).1 hn
      have := (ODict.get_eq_some_iff hcS).1 h1
      have h2 := H.wfS.mssql hd c this.1 x
      have h3 : c.name = n := this.2
      rw [← h3]
      exact h2
    · simp only [over_nil]; exact hgood
  refine r1.append ?_
  have hend : over C1 (tabCons E T) (LA.map Prod.fst) = tabCons E T := by
    funext n
    have hmem : n ∈ LA.map Prod.fst ↔ ∃ c, T.constraints.get n = some c ∧ S.constraints.get n = none ∧ c.spec.isSome := by
      rw [List.mem_map]
      constructor
      · rintro ⟨⟨m, sp⟩, h, rfl⟩
        obtain ⟨c, h1, h2, h3⟩ := (memLA m sp).1 h
        exact ⟨c, h1, h2, by simp [h3]⟩
      · rintro ⟨c, h1, h2, h3⟩
        obtain ⟨sp, hsp⟩ := Option.isSome_iff_exists.1 h3
        exact ⟨(n, sp), (memLA n sp).2 ⟨c, h1, h2, hsp⟩, rfl⟩
    by_cases hm : n ∈ LA.map Prod.fst
    · rw [over_mem hm]
    · rw [over_notMem hm]
      cases hs : S.constraints.get n with
      | some c =>
        cases ht : T.constraints.get n with
        | some c' =>
          have e : c = c' := by
            have e1 : c.name = n := ((ODict.get_eq_some_iff hcS).1 hs).2
            have e2 : c'.name = n := ((ODict.get_eq_some_iff hcT).1 ht).2
            have hmem : (c, c') ∈ S.constraints.intersection T.constraints :=
              (ODict.mem_intersection_get hcS hcT).2 ⟨by rw [show key c = c.name from rfl, e1]; exact hs,
                by rw [show key c = c.name from rfl, e1]; exact ht, e1.trans e2.symm⟩
            rw [List.any_eq_false] at hsame
            have := hsame _ hmem
            simpa using this
          subst e
          simp only [C1]
          rw [over_notMem (fun h => by obtain ⟨_, _, h2, _⟩ := (memLD n).1 h; rw [ht] at h2; cases h2),
            H.consR_eq (fun _ => by rw [ht]; rfl)]
          simp [tabCons, hs, ht]
        | none =>
          cases hsp : c.spec with
          | none =>
            simp only [C1]
            rw [over_notMem (fun h => by
              obtain ⟨c', h1, _, h3⟩ := (memLD n).1 h; rw [hs] at h1; cases h1; simp [hsp] at h3),
              consR_none (by simp [tabCons, hs, conState_none hsp])]
            simp [tabCons, hs, ht, conState_none hsp]
          | some sp =>
            simp only [C1]
            rw [over_mem ((memLD n).2 ⟨c, hs, ht, by simp [hsp]⟩)]
            simp [tabCons, ht]
      | none =>
        have hC1 : C1 n = none := by
          simp only [C1, over]
          split
          · rfl
          · exact consR_none (by simp [tabCons, hs])
        rw [hC1]
        cases ht : T.constraints.get n with
        | none => simp [tabCons, ht]
        | some c =>
          cases hsp : c.spec with
          | some sp => exact absurd (hmem.2 ⟨c, ht, hs, by simp [hsp]⟩) hm
          | none => simp [tabCons, ht, conState_none hsp]
  have := ActRun.map (E := E) (P := fun ts => d = .mysql ∨ Good K S.primaryKey ts)
    (fun p : Text × ConSpec => Action.addConstraint p.1 p.2)
    (fun p => mkT d (tabCols d T) S.primaryKey (over C1 (tabCons E T) (p.map Prod.fst))) LA
    (run_addCons LA ndLA ?_ ?_ ?_ ?_) ?_
  · simp only [List.map_nil, over_nil] at this
    rw [hend] at this
    exact this
  · rintro ⟨n, sp⟩ hp
    obtain ⟨c, h1, h2, h3⟩ := (memLA n sp).1 hp
    simp only [C1, over]
    split
    · rfl
    · exact consR_none (by simp [tabCons, h2])
  · rintro ⟨n, sp⟩ hp
    obtain ⟨c, h1, h2, h3⟩ := (memLA n sp).1 hp
    simp [tabCons, h1, conState_spec h3]
  · rintro ⟨n, sp⟩ hp
    obtain ⟨c, h1, h2, h3⟩ := (memLA n sp).1 hp
    exact H.fitT.cons n _ (by simp [mkT, tabCons, h1, conState_spec h3])
  · rintro hd ⟨n, sp⟩ hp x
    obtain ⟨c, h1, h2, h3⟩ := (memLA n sp).1 hp
    have := (ODict.get_eq_some_iff hcT).1 h1
    have h2 := H.wfT.mssql hd c this.1 x
    have h3 : c.name = n := this.2
    simp only
    rw [← h3]
    exact h2
  · simp only [List.map_nil, over_nil]
    exact r1.good hgood

theorem TabHyp.goodT (H : TabHyp d E K σ S T) :
    Good K S.primaryKey (mkT d (tabCols d T) S.primaryKey (tabCons E T)) := by
  refine ⟨?_, rfl⟩
  rw [H.safe.key]; exact H.fitT

/-- The last group of actions. -/
theorem TabHyp.run_alter (H : TabHyp d E K σ S T)
    (hid : d = .mssql → ∀ s u, (s, u) ∈ S.columns.intersection T.columns → s.identity = u.identity)
    (hgood : Good K S.primaryKey (mkT d (colsA d σ S T) S.primaryKey (consR d E S T)))
    {acts : List Action} (h : alterActions S T d = .ok acts) :
    ActRun E (fun ts => d = .mysql ∨ Good K S.primaryKey ts) (mkT d (colsA d σ S T) S.primaryKey (consR d E S T)) acts
      (mkT d (tabCols d T) S.primaryKey (tabCons E T)) := by
  unfold alterActions at h
  cases hch : wrapColumn T.name ((S.columns.intersection T.columns).mapM (fun p => mutateColumn d p.1 p.2)) with
  | error e => simp [hch, bind, Except.bind] at h
  | ok changes =>
    have hch' := wrapColumn_ok hch
    simp only [hch, bind, Except.bind, pure, Except.pure] at h
    split at h
    · simp [throw, throwThe, MonadExceptOf.throw] at h
    · rename_i hsame
      simp only [Except.ok.injEq] at h
      subst h
      have r1 := H.run_hard hgood
      have g1 := r1.good (.inr hgood)
      have r2 := H.run_changes hid g1 hch'
      have g2 := r2.good g1
      have r3 := H.run_drops g2
      have g3 := r3.good g2
      have r4 := H.run_cons g3 (by simpa using hsame)
      have := (r1.append r2).append (r3.append r4)
      simpa only [List.append_assoc] using this

end
end PySqlSync
