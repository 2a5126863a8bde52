/-
Helper lemmas: `CatStable` implies `CatSafe`.
-/
import Verif.Spec.Stable
import Verif.Lemmas.CatSort

set_option autoImplicit false

namespace PySqlSync
open Spec

variable {d : Dialect} {E : Engine}

theorem fits_agree {n : Namespace} {K K' : Kinds} {k : Text} {o : Obj} (ho : Spec.Namespace.obj d E n k = some o)
    (h1 : ∀ r, MentionsType n r → K' r = K r) (h2 : ∀ r, MentionsTable n r → K' r = K r) (f : o.Fits K) : o.Fits K' := by
  rcases obj_some ho with ⟨e, _, rfl⟩ | ⟨s, hs, rfl⟩ | ⟨tb, htb, rfl⟩
  · trivial
  · intro m ty hty r hr
    have := f m ty hty r hr
    simp only [Option.map_eq_some_iff] at hty
    obtain ⟨x, hx, rfl⟩ := hty
    rw [h1 r (.inl ⟨s, (ODict.get_some_mem hs).1, x, (ODict.get_some_mem hx).1, hr⟩)]
    exact this
  · have hm := (ODict.get_some_mem htb).1
    refine ⟨?_, f.pk, ?_, f.dfs⟩
    · intro m c hc
      refine ⟨(f.cols m c hc).1, ?_⟩
      intro r hr
      have := (f.cols m c hc).2 r hr
      simp only [Spec.Table.state, Option.map_eq_some_iff] at hc
      obtain ⟨x, hx, rfl⟩ := hc
      rw [h1 r (.inr ⟨tb, hm, x, (ODict.get_some_mem hx).1, hr⟩)]
      exact this
    · intro m c hc
      refine ⟨(f.cons m c hc).1, ?_⟩
      have := (f.cons m c hc).2
      cases c with
      | foreign cs r rs =>
        simp only at this ⊢
        simp only [Spec.Table.state, Option.bind_eq_some_iff] at hc
        obtain ⟨x, hx, hxc⟩ := hc
        have hxm := (ODict.get_some_mem hx).1
        cases x with
        | foreign nm cols rf =>
          simp only [Spec.Constraint.state, Option.some.injEq, ConState.foreign.injEq] at hxc
          rw [h2 r ⟨tb, hm, _, hxm, nm, cols, rf, rfl, hxc.2.1⟩]
          exact this
        | unique => simp [Spec.Constraint.state] at hxc
        | discriminated => simp [Spec.Constraint.state] at hxc
        | check => simp [Spec.Constraint.state] at hxc
      | unique => trivial
      | check => trivial

theorem fits_unc {n : Namespace} {K : Kinds} {k : Text} {o : Obj}
    (ho : Spec.Namespace.obj d E (unconstrained n) k = some o) :
    ∃ o', Spec.Namespace.obj d E n k = some o' ∧ (o'.Fits K → o.Fits K) := by
  unfold Spec.Namespace.obj at ho ⊢
  rw [unc_tables_get] at ho
  have e1 : (unconstrained n).enums = n.enums := rfl
  have e2 : (unconstrained n).structs = n.structs := rfl
  rw [e1, e2] at ho
  cases h1 : n.enums.get k with
  | some e => rw [h1] at ho; exact ⟨_, rfl, by cases ho; exact id⟩
  | none =>
    rw [h1] at ho
    cases h2 : n.structs.get k with
    | some e => rw [h2] at ho; exact ⟨_, rfl, by cases ho; exact id⟩
    | none =>
      rw [h2] at ho
      cases h3 : n.tables.get k with
      | none => rw [h3] at ho; cases ho
      | some tb =>
        rw [h3] at ho
        simp only [Option.map_some, Option.some.injEq] at ho
        subst ho
        refine ⟨_, rfl, ?_⟩
        intro f
        refine ⟨f.cols, f.pk, ?_, f.dfs⟩
        intro m c hc
        simp [Spec.Table.state, ODict.get] at hc

theorem mentionsType_unc {n : Namespace} {k : Key} : MentionsType (unconstrained n) k ↔ MentionsType n k := by
  unfold MentionsType
  refine or_congr Iff.rfl ?_
  constructor
  · rintro ⟨tb, h, c, hc, hk⟩
    obtain ⟨a, ha, rfl⟩ := mem_unc h
    exact ⟨a, ha, c, hc, hk⟩
  · rintro ⟨tb, h, c, hc, hk⟩
    refine ⟨{ tb with constraints := ⟨[]⟩ }, ?_, c, hc, hk⟩
    simp only [unconstrained, List.mem_map]
    exact ⟨tb, h, rfl⟩

theorem mentionsTable_unc {n : Namespace} {k : Key} : ¬ MentionsTable (unconstrained n) k := by
  rintro ⟨tb, h, c, hc, _⟩
  obtain ⟨a, ha, rfl⟩ := mem_unc h
  simp at hc

/-- A database is consistent if each of its schemas is part of a consistent one which agrees with it in what the
    schema mentions. -/
theorem valid_pieces {l : List Namespace}
    (h : ∀ k n, nsGet l k = some n → ∃ L n0, nsGet L k = some n0 ∧ Valid (dbOf d E L)
      ∧ (n = n0 ∧ (∀ r, Mentions n r → (dbOf d E l).kinds r = (dbOf d E L).kinds r)
        ∨ n = unconstrained n0 ∧ ∀ r, MentionsType n0 r → (dbOf d E l).kinds r = (dbOf d E L).kinds r)) :
    Valid (dbOf d E l) := by
  constructor
  · intro k o ho
    rw [dbOf_objs] at ho
    rw [dbOf_schemas]
    cases hn : nsGet l k.1 with
    | none => simp [hn] at ho
    | some n => simp
  · intro k o ho
    rw [dbOf_objs] at ho
    cases hn : nsGet l k.1 with
    | none => simp [hn] at ho
    | some n =>
      rw [hn, Option.bind_some] at ho
      obtain ⟨L, n0, h1, v, h2⟩ := h _ _ hn
      rcases h2 with ⟨rfl, h2⟩ | ⟨rfl, h2⟩
      · have hL : (dbOf d E L).objs k = some o := by rw [dbOf_objs, h1, Option.bind_some, ho]
        exact fits_agree ho (fun r hr => h2 r (.inl hr)) (fun r hr => h2 r (.inr hr)) (v.fits _ _ hL)
      · obtain ⟨o', ho', hf⟩ := fits_unc (K := (dbOf d E L).kinds) ho
        have hL : (dbOf d E L).objs k = some o' := by rw [dbOf_objs, h1, Option.bind_some, ho']
        refine fits_agree ho ?_ (fun r hr => absurd hr mentionsTable_unc) (hf (v.fits _ _ hL))
        intro r hr
        exact h2 r (mentionsType_unc.1 hr)

/-- What a schema of a consistent database mentions exists. -/
theorem mentions_exist {L : List Namespace} (v : Valid (dbOf d E L)) {n : Namespace} (w : NsWF d n) {x : Text}
    (hn : nsGet L x = some n) {r : Key} (h : Mentions n r) : ∃ m, nsGet L r.1 = some m := by
  have some_of : (dbOf d E L).kinds r ≠ none → ∃ m, nsGet L r.1 = some m := by
    intro hk
    rw [kinds_dbOf] at hk
    cases hg : nsGet L r.1 with
    | none => rw [hg] at hk; exact absurd rfl hk
    | some m => exact ⟨m, rfl⟩
  have obj_at : ∀ {k o}, Spec.Namespace.obj d E n k = some o → o.Fits (dbOf d E L).kinds := by
    intro k o ho
    apply v.fits (x, k) o
    rw [dbOf_objs, hn, Option.bind_some, ho]
  have ty_ok : ∀ ty, TypeFits (dbOf d E L).kinds ty → r ∈ ty.refs → ∃ m, nsGet L r.1 = some m := by
    intro ty hty hr
    apply some_of
    rcases hty r hr with e | e <;> rw [e] <;> simp
  rcases h with (⟨s, hs, m, hm, hr⟩ | ⟨tb, htb, c, hc, hr⟩) | ⟨tb, htb, c, hc, nm, cols, rf, rfl, hr⟩
  · have f := obj_at (obj_struct (E := E) w (ODict.get_eq_of_mem w.structs hs))
    refine ty_ok m.ty (f m.name m.ty ?_) hr
    show (s.members.get m.name).map StructMember.ty = some m.ty
    rw [show s.members.get m.name = some m from ODict.get_eq_of_mem (w.members s hs) hm]; rfl
  · have f := obj_at (obj_table (E := E) w (ODict.get_eq_of_mem w.tables htb))
    refine ty_ok c.ty (f.cols c.name (Spec.Column.state d c) ?_).2 hr
    simp only [Spec.Table.state, show tb.columns.get c.name = some c from ODict.get_eq_of_mem (w.wf tb htb).columns hc,
      Option.map_some]
  · have f := obj_at (obj_table (E := E) w (ODict.get_eq_of_mem w.tables htb))
    have := (f.cons nm (.foreign cols r rf.columns) (by
      simp only [Spec.Table.state,
        show tb.constraints.get nm = some (.foreign nm cols rf) from ODict.get_eq_of_mem (w.wf tb htb).constraints hc,
        Option.bind_some, Spec.Constraint.state, hr])).2
    apply some_of
    simp only at this
    rw [this]; simp

section
variable {S T : Catalog}

theorem kinds_get {l : List Namespace} {r : Key} {n : Namespace} (h : nsGet l r.1 = some n) :
    (dbOf d E l).kinds r = (Spec.Namespace.obj d E n r.2).map Obj.kind := by
  rw [kinds_dbOf, h, Option.bind_some]

theorem hasSchema_get {c : Catalog} (hd : Distinct c.namespaces) {k : Text} :
    HasSchema c k ↔ ∃ n, nsGet c.namespaces.items k = some n := by
  constructor
  · rintro ⟨n, hn, e⟩
    exact ⟨n, (nsGet_some hd).2 ⟨hn, e⟩⟩
  · rintro ⟨n, hn⟩
    have := (nsGet_some hd).1 hn
    exact ⟨n, this.1, this.2⟩

theorem nsGet_mem_sub {l L : List Namespace} (hL : (L.map key).Nodup) (hs : ∀ x ∈ l, x ∈ L) {m : Namespace}
    (h : m ∈ l) : nsGet l m.name = some m := by
  cases hg : nsGet l m.name with
  | none =>
    exact absurd (List.mem_map_of_mem (f := key) h) (nsGet_none.1 hg)
  | some x =>
    have hx := ODict.get_some_mem (d := ⟨l⟩) hg
    have e1 := (nsGet_some hL).2 ⟨hs x hx.1, hx.2⟩
    have e2 := (nsGet_some hL).2 ⟨hs m h, rfl⟩
    rw [e1] at e2
    exact e2

theorem nsGet_sub {l L : List Namespace} (hL : (L.map key).Nodup) (hs : ∀ x ∈ l, x ∈ L) {k : Text} {m : Namespace}
    (h : nsGet l k = some m) : nsGet L k = some m := by
  have hx := ODict.get_some_mem (d := ⟨l⟩) h
  exact (nsGet_some hL).2 ⟨hs m hx.1, hx.2⟩

/-- A mixture of the two catalogs. -/
def Mix (S T : Catalog) (l : List Namespace) : Prop := ∀ k,
  (nsGet S.namespaces.items k = none → nsGet l k = nsGet T.namespaces.items k)
  ∧ (nsGet T.namespaces.items k = none → nsGet l k = nsGet S.namespaces.items k)
  ∧ (∀ a b, nsGet S.namespaces.items k = some a → nsGet T.namespaces.items k = some b →
      nsGet l k = some a ∨ nsGet l k = some b)

theorem valid_mix (wS : CatWF d S) (wT : CatWF d T) (vS : Valid (Spec.Catalog.db d E S))
    (vT : Valid (Spec.Catalog.db d E T)) (st : CatStable d E S T) {l : List Namespace} (hl : Mix S T l) :
    Valid (dbOf d E l) := by
  apply valid_pieces
  intro k n hn
  have hS : ∀ n, nsGet S.namespaces.items k = some n → nsGet l k = some n →
      ∀ r, Mentions n r → (dbOf d E l).kinds r = (dbOf d E S.namespaces.items).kinds r := by
    intro n hS hn r hr
    have hmem := (nsGet_some wS.names).1 hS
    obtain ⟨a, ha⟩ := mentions_exist vS (wS.wf n hmem.1) hS hr
    rw [kinds_get ha]
    cases hb : nsGet T.namespaces.items r.1 with
    | none => rw [kinds_get ((hl r.1).2.1 hb ▸ ha)]
    | some b =>
      rcases (hl r.1).2.2 a b ha hb with e | e
      · rw [kinds_get e]
      · by_cases er : r.1 = n.name
        · have : r.1 = k := er.trans hmem.2
          rw [this] at ha e
          rw [hS] at ha; cases ha
          rw [hn] at e; cases e
          rw [kinds_get (r := r) (by rw [this]; exact hn)]
        · rw [kinds_get e]
          have := st.stable n (.inl hmem.1) r hr er ((hasSchema_get wS.names).2 ⟨_, ha⟩)
            ((hasSchema_get wT.names).2 ⟨_, hb⟩)
          have h1 : (Spec.Catalog.db d E S).kinds r = _ := kinds_get (l := S.namespaces.items) ha
          have h2 : (Spec.Catalog.db d E T).kinds r = _ := kinds_get (l := T.namespaces.items) hb
          rw [h1, h2] at this
          exact this.symm
  have hT : ∀ n, nsGet T.namespaces.items k = some n → nsGet l k = some n →
      ∀ r, Mentions n r → (dbOf d E l).kinds r = (dbOf d E T.namespaces.items).kinds r := by
    intro n hT hn r hr
    have hmem := (nsGet_some wT.names).1 hT
    obtain ⟨b, hb⟩ := mentions_exist vT (wT.wf n hmem.1) hT hr
    rw [kinds_get hb]
    cases ha : nsGet S.namespaces.items r.1 with
    | none => rw [kinds_get ((hl r.1).1 ha ▸ hb)]
    | some a =>
      rcases (hl r.1).2.2 a b ha hb with e | e
      · by_cases er : r.1 = n.name
        · have : r.1 = k := er.trans hmem.2
          rw [this] at hb e
          rw [hT] at hb; cases hb
          rw [hn] at e; cases e
          rw [kinds_get (r := r) (by rw [this]; exact hn)]
        · rw [kinds_get e]
          have := st.stable n (.inr hmem.1) r hr er ((hasSchema_get wS.names).2 ⟨_, ha⟩)
            ((hasSchema_get wT.names).2 ⟨_, hb⟩)
          have h1 : (Spec.Catalog.db d E S).kinds r = _ := kinds_get (l := S.namespaces.items) ha
          have h2 : (Spec.Catalog.db d E T).kinds r = _ := kinds_get (l := T.namespaces.items) hb
          rw [h1, h2] at this
          exact this
      · rw [kinds_get e]
  cases ha : nsGet S.namespaces.items k with
  | none =>
    have e := (hl k).1 ha
    rw [hn] at e
    exact ⟨_, n, e.symm, vT, .inl ⟨rfl, hT n e.symm hn⟩⟩
  | some a =>
    cases hb : nsGet T.namespaces.items k with
    | none =>
      have e := (hl k).2.1 hb
      rw [hn] at e
      exact ⟨_, n, e.symm, vS, .inl ⟨rfl, hS n e.symm hn⟩⟩
    | some b =>
      rcases (hl k).2.2 a b ha hb with e | e
      · rw [hn] at e; cases e
        exact ⟨_, _, ha, vS, .inl ⟨rfl, hS _ ha hn⟩⟩
      · rw [hn] at e; cases e
        exact ⟨_, _, hb, vT, .inl ⟨rfl, hT _ hb hn⟩⟩

theorem created_get (hT : Distinct T.namespaces) (k : Text) :
    nsGet (T.namespaces.difference S.namespaces) k =
      if (nsGet S.namespaces.items k).isSome then none else nsGet T.namespaces.items k := by
  split
  · rename_i h
    apply nsGet_none.2
    intro hk
    obtain ⟨n, hn, rfl⟩ := List.mem_map.1 hk
    have := (ODict.mem_difference.1 hn).2
    rw [← nsGet_none (l := S.namespaces.items)] at this
    rw [this] at h; cases h
  · rename_i h
    cases hg : nsGet T.namespaces.items k with
    | none =>
      apply nsGet_none.2
      intro hk
      obtain ⟨n, hn, rfl⟩ := List.mem_map.1 hk
      exact nsGet_none.1 hg (List.mem_map_of_mem (ODict.mem_difference.1 hn).1)
    | some n =>
      have hm := (nsGet_some hT).1 hg
      have hin : n ∈ T.namespaces.difference S.namespaces := by
        rw [ODict.mem_difference]
        refine ⟨hm.1, ?_⟩
        intro hk
        apply h
        cases hs : nsGet S.namespaces.items k with
        | some x => rfl
        | none => exact absurd (by rw [← hm.2]; exact hk) (nsGet_none.1 hs)
      have := nsGet_mem_sub (L := T.namespaces.items) hT (fun x hx => (ODict.mem_difference.1 hx).1) hin
      rw [hm.2] at this; exact this

theorem nodup_of_map {α β : Type} {f : α → β} {l : List α} (h : (l.map f).Nodup) : l.Nodup := by
  induction l with
  | nil => exact List.nodup_nil
  | cons a l ih =>
    rw [List.map_cons, List.nodup_cons] at h
    exact List.nodup_cons.2 ⟨fun ha => h.1 (List.mem_map_of_mem ha), ih h.2⟩

theorem before_prefix {l : List Namespace} (hd : (l.map key).Nodup) {f : Namespace → Bool} {p s : List Namespace}
    (h : l.filter f = p ++ s) {b m : Namespace} (hb : b ∈ l) (hfb : f b = true) (hm : m ∈ p)
    (hbf : Before (l.map key) b.name m.name) : b ∈ p := by
  obtain ⟨x, y, z, e⟩ := hbf
  obtain ⟨X, R, rfl, eX, eR⟩ := List.map_eq_append_iff.1 e
  obtain ⟨b', R', rfl, eb, eR'⟩ := List.map_eq_cons_iff.1 eR
  obtain ⟨Y, R2, rfl, eY, eR2⟩ := List.map_eq_append_iff.1 eR'
  obtain ⟨m', Z, rfl, em, eZ⟩ := List.map_eq_cons_iff.1 eR2
  have uniq : ∀ u v, u ∈ X ++ b' :: (Y ++ m' :: Z) → v ∈ X ++ b' :: (Y ++ m' :: Z) → key u = key v → u = v := by
    intro u v hu hv e
    have e1 := (nsGet_some hd).2 ⟨hu, rfl⟩
    have e2 := (nsGet_some hd).2 ⟨hv, rfl⟩
    rw [show u.name = v.name from e, e2] at e1
    exact (Option.some.inj e1).symm
  have hml : m ∈ X ++ b' :: (Y ++ m' :: Z) := by
    have : m ∈ (X ++ b' :: (Y ++ m' :: Z)).filter f := by rw [h]; exact List.mem_append_left _ hm
    exact (List.mem_filter.1 this).1
  have e1 : b' = b := uniq b' b (by simp) hb eb
  have e2 : m' = m := uniq m' m (by simp) hml em
  subst e1; subst e2
  have hfm : f m' = true := by
    have : m' ∈ (X ++ b' :: (Y ++ m' :: Z)).filter f := by rw [h]; exact List.mem_append_left _ hm
    exact (List.mem_filter.1 this).2
  have hfil : (X ++ b' :: (Y ++ m' :: Z)).filter f
      = (X.filter f ++ b' :: Y.filter f) ++ m' :: Z.filter f := by
    simp [List.filter_append, hfb, hfm]
  have hnd : (p ++ s).Nodup := by
    have h1 : (((X ++ b' :: (Y ++ m' :: Z)).filter f).map key).Nodup :=
      hd.sublist (List.filter_sublist.map key)
    rw [h] at h1
    exact nodup_of_map h1
  rw [hfil] at h
  rcases List.append_eq_append_iff.1 h with ⟨a', h1, h2⟩ | ⟨c', h1, h2⟩
  · rw [h1]; simp
  · exfalso
    have : m' ∈ s := by rw [h2]; simp
    exact (List.nodup_append.1 hnd).2.2 m' hm m' this rfl

theorem safe_of_stable {topo : List (Text × List Text) → Except Err (List Text)} (ht : Sorts topo) {S' T' : Catalog}
    (wS : CatWF d S) (wT : CatWF d T) (hS : S.sort topo = .ok S') (hT : T.sort topo = .ok T')
    (vS : Valid (Spec.Catalog.db d E S)) (vT : Valid (Spec.Catalog.db d E T)) (st : CatStable d E S T) :
    CatSafe d E S' T' := by
  have mS := sort_mem ht wS.names hS
  have mT := sort_mem ht wT.names hT
  have wS' := wf_sort ht wS hS
  have wT' := wf_sort ht wT hT
  rw [← db_sort ht wS.names hS] at vS
  rw [← db_sort ht wT.names hT] at vT
  have hasS : ∀ k, HasSchema S' k ↔ HasSchema S k := fun k =>
    exists_congr (fun n => and_congr_left' (mS.2.1 n))
  have hasT : ∀ k, HasSchema T' k ↔ HasSchema T k := fun k =>
    exists_congr (fun n => and_congr_left' (mT.2.1 n))
  have st' : CatStable d E S' T' := by
    constructor
    · intro n hn k hk he h1 h2
      rw [db_sort ht wS.names hS, db_sort ht wT.names hT]
      exact st.stable n (by rw [← mS.2.1, ← mT.2.1]; exact hn) k hk he ((hasS _).1 h1) ((hasT _).1 h2)
    · intro n hn h1 k hk he h2
      exact st.direct n ((mT.2.1 n).1 hn) (by rw [← hasS]; exact h1) k hk he (by rw [← hasS]; exact h2)
    · intro n hn h1 k hk he
      rw [hasT]
      exact st.dropped n ((mS.2.1 n).1 hn) (by rw [← hasT]; exact h1) k hk he
    · intro n hn h1
      exact st.order n ((mT.2.1 n).1 hn) (by rw [← hasS]; exact h1)
    · intro n hn h1
      exact st.dropOrder n ((mS.2.1 n).1 hn) (by rw [← hasT]; exact h1)
    · intro a ha b hb e
      exact st.safe a ((mS.2.1 a).1 ha) b ((mT.2.1 b).1 hb) e
  -- the order of the target's schemas
  have ord : ∀ n ∈ T'.namespaces.items, ∀ k, MentionsDirectly n k → k.1 ≠ n.name → HasSchema T' k.1 →
      Before (T'.namespaces.items.map key) k.1 n.name := by
    intro n hn k hk hne hsch
    have gk : T.graph.map Prod.fst = T.namespaces.items.map key := by
      simp [Catalog.graph, List.map_map, Function.comp_def, key]
    have hin : (n.name, n.referencedNamespaces.filter (fun r => T.namespaces.contains r)) ∈ T.graph := by
      simp only [Catalog.graph, List.mem_map]
      exact ⟨n, (mT.2.1 n).1 hn, rfl⟩
    have closed : ∀ p ∈ T.graph, ∀ m ∈ p.2, m ∈ T.graph.map Prod.fst := by
      intro p hp m hm
      simp only [Catalog.graph, List.mem_map] at hp
      obtain ⟨x, hx, rfl⟩ := hp
      simp only [List.mem_filter, ODict.contains_iff] at hm
      rw [gk]; exact hm.2
    refine ht.order T.graph _ (by rw [gk]; exact wT.names) closed mT.2.2 _ hin k.1 ?_ hne
    rw [List.mem_filter, ODict.contains_iff]
    constructor
    · simp only [Namespace.referencedNamespaces, List.mem_filterMap, List.mem_append, List.mem_flatMap]
      rcases hk with ⟨s, hs, m, hm, q, hq, _, hsc⟩ | ⟨tb, htb, c, hc, q, hq, _, hsc⟩
      · refine ⟨q, .inl ⟨s, hs, ?_⟩, hsc⟩
        simp only [StructType.referencedTypes, List.mem_filterMap]
        exact ⟨m, hm, by rw [hq]; rfl⟩
      · refine ⟨q, .inr ⟨tb, htb, .inl ?_⟩, hsc⟩
        simp only [Table.referencedTypes, List.mem_filterMap]
        exact ⟨c, hc, by rw [hq]; rfl⟩
    · obtain ⟨m, hm, e⟩ := (hasT _).1 hsch
      rw [← e]; exact List.mem_map_of_mem hm
  -- the mixtures
  have mixKeys : Mix S' T' (T'.namespaces.difference S'.namespaces ++ S'.namespaces.items) := by
    intro k
    rw [nsGet_append, created_get wT'.names]
    refine ⟨?_, ?_, ?_⟩
    · intro h; rw [h]; simp
    · intro h; rw [h]; simp
    · intro a b ha hb; rw [ha]; simp
  have droppedGet := created_get (S := T') (T := S') wS'.names
  have mixChanged : ∀ p s, S'.namespaces.intersection T'.namespaces = p ++ s →
      Mix S' T' (T'.namespaces.difference S'.namespaces ++ p.map Prod.snd ++ s.map Prod.fst
        ++ S'.namespaces.difference T'.namespaces) := by
    intro p s e k
    have inP : ∀ x ∈ p.map Prod.snd, x ∈ T'.namespaces.items ∧ ∃ y ∈ S'.namespaces.items, y.name = x.name := by
      intro x hx
      obtain ⟨⟨a, b⟩, hab, rfl⟩ := List.mem_map.1 hx
      have := (ODict.mem_intersection wT'.names).1 (by rw [e]; exact List.mem_append_left _ hab)
      exact ⟨this.2.1, a, this.1, this.2.2⟩
    have inS : ∀ x ∈ s.map Prod.fst, x ∈ S'.namespaces.items ∧ ∃ y ∈ T'.namespaces.items, y.name = x.name := by
      intro x hx
      obtain ⟨⟨a, b⟩, hab, rfl⟩ := List.mem_map.1 hx
      have := (ODict.mem_intersection wT'.names).1 (by rw [e]; exact List.mem_append_right _ hab)
      exact ⟨this.1, b, this.2.1, this.2.2.symm⟩
    have pNone : (nsGet S'.namespaces.items k = none ∨ nsGet T'.namespaces.items k = none) →
        nsGet (p.map Prod.snd) k = none := by
      intro h
      cases hg : nsGet (p.map Prod.snd) k with
      | none => rfl
      | some x =>
        have hx := ODict.get_some_mem (d := ⟨_⟩) hg
        obtain ⟨h1, y, h2, h3⟩ := inP x hx.1
        rcases h with h | h
        · exact absurd (by rw [← hx.2]; show x.name ∈ _; rw [← h3]; exact List.mem_map_of_mem (f := key) h2)
            (nsGet_none.1 h)
        · exact absurd (by rw [← hx.2]; exact List.mem_map_of_mem (f := key) h1) (nsGet_none.1 h)
    have sNone : (nsGet S'.namespaces.items k = none ∨ nsGet T'.namespaces.items k = none) →
        nsGet (s.map Prod.fst) k = none := by
      intro h
      cases hg : nsGet (s.map Prod.fst) k with
      | none => rfl
      | some x =>
        have hx := ODict.get_some_mem (d := ⟨_⟩) hg
        obtain ⟨h1, y, h2, h3⟩ := inS x hx.1
        rcases h with h | h
        · exact absurd (by rw [← hx.2]; exact List.mem_map_of_mem (f := key) h1) (nsGet_none.1 h)
        · exact absurd (by rw [← hx.2]; show x.name ∈ _; rw [← h3]; exact List.mem_map_of_mem (f := key) h2)
            (nsGet_none.1 h)
    rw [nsGet_append, nsGet_append, nsGet_append, created_get wT'.names, droppedGet]
    refine ⟨?_, ?_, ?_⟩
    · intro h
      rw [pNone (.inl h), sNone (.inl h), h]
      cases nsGet T'.namespaces.items k <;> simp
    · intro h
      rw [pNone (.inr h), sNone (.inr h), h]
      cases nsGet S'.namespaces.items k <;> simp
    · intro a b ha hb
      rw [ha, hb]
      simp only [Option.isSome_some, if_true, Option.none_or, Option.or_none]
      cases hg : nsGet (p.map Prod.snd) k with
      | some x =>
        have := nsGet_sub wT'.names (fun x hx => (inP x hx).1) hg
        rw [hb] at this; cases this
        exact .inr rfl
      | none =>
        have hab : (a, b) ∈ p ++ s := by
          rw [← e, ODict.mem_intersection wT'.names]
          have h1 := (nsGet_some wS'.names).1 ha
          have h2 := (nsGet_some wT'.names).1 hb
          exact ⟨h1.1, h2.1, h1.2.trans h2.2.symm⟩
        rcases List.mem_append.1 hab with h | h
        · exfalso
          apply nsGet_none.1 hg
          rw [← ((nsGet_some wT'.names).1 hb).2]
          exact List.mem_map_of_mem (f := key) (List.mem_map_of_mem (f := Prod.snd) h)
        · left
          have := nsGet_mem_sub wS'.names (fun x hx => (inS x hx).1) (List.mem_map_of_mem (f := Prod.fst) h)
          rw [((nsGet_some wS'.names).1 ha).2] at this
          rw [Option.none_or]; exact this
  have uncGet : ∀ (l : List Namespace) k, nsGet (l.map unconstrained) k = (nsGet l k).map unconstrained :=
    fun l k => nsGet_map (g := unconstrained) (fun _ => rfl) k
  have kindUnc : ∀ {n : Namespace}, NsWF d n → ∀ k, (Spec.Namespace.obj d E (unconstrained n) k).map Obj.kind
      = (Spec.Namespace.obj d E n k).map Obj.kind := fun w k => obj_unc_kind w k
  have notHas : ∀ {c : Catalog}, Distinct c.namespaces → ∀ k, nsGet c.namespaces.items k = none → ¬ HasSchema c k := by
    intro c hc k h h'
    obtain ⟨n, hn⟩ := (hasSchema_get hc).1 h'
    rw [h] at hn; cases hn
  constructor
  · intro p s e
    have inP : ∀ x ∈ p, x ∈ T'.namespaces.difference S'.namespaces := fun x hx => by rw [e]; exact List.mem_append_left _ hx
    have pGet : ∀ k, (nsGet S'.namespaces.items k).isSome → nsGet p k = none := by
      intro k hk
      cases hg : nsGet p k with
      | none => rfl
      | some x =>
        have := nsGet_sub (ODict.difference_nodup wT'.names _) inP hg
        rw [created_get wT'.names, if_pos hk] at this
        cases this
    have lGet : ∀ k, (nsGet S'.namespaces.items k).isSome →
        nsGet (p.map unconstrained ++ S'.namespaces.items) k = nsGet S'.namespaces.items k := by
      intro k hk
      rw [nsGet_append, uncGet, pGet k hk]; rfl
    apply valid_pieces
    intro k n hn
    cases ha : nsGet S'.namespaces.items k with
    | some a =>
      rw [lGet k (by rw [ha]; rfl), ha] at hn
      cases hn
      have hmem := (nsGet_some wS'.names).1 ha
      refine ⟨_, _, ha, vS, .inl ⟨rfl, ?_⟩⟩
      intro r hr
      obtain ⟨x, hx⟩ := mentions_exist vS (wS'.wf _ hmem.1) ha hr
      rw [kinds_get hx, kinds_get ((lGet r.1 (by rw [hx]; rfl)).trans hx)]
    | none =>
      rw [nsGet_append, uncGet, ha, Option.or_none] at hn
      cases hm : nsGet p k with
      | none => rw [hm] at hn; cases hn
      | some m =>
        rw [hm] at hn
        cases hn
        have hmP := ODict.get_some_mem (d := ⟨p⟩) hm
        have hmT := ODict.mem_difference.1 (inP m hmP.1)
        have hmk : m.name = k := hmP.2
        have hTm := (nsGet_some wT'.names).2 ⟨hmT.1, hmk⟩
        refine ⟨_, _, hTm, vT, .inr ⟨rfl, ?_⟩⟩
        intro r hr
        obtain ⟨b, hb⟩ := mentions_exist vT (wT'.wf _ hmT.1) hTm (.inl hr)
        have hbm := (nsGet_some wT'.names).1 hb
        rw [kinds_get hb]
        cases hra : nsGet S'.namespaces.items r.1 with
        | some a =>
          rw [kinds_get ((lGet r.1 (by rw [hra]; rfl)).trans hra)]
          have hne : r.1 ≠ m.name := by
            intro e'
            rw [e', hmk, ha] at hra; cases hra
          have := st'.stable m (.inr hmT.1) r (.inl hr) hne ((hasSchema_get wS'.names).2 ⟨_, hra⟩)
            ((hasSchema_get wT'.names).2 ⟨_, hb⟩)
          have h1 : (Spec.Catalog.db d E S').kinds r = _ := kinds_get (l := S'.namespaces.items) hra
          have h2 : (Spec.Catalog.db d E T').kinds r = _ := kinds_get (l := T'.namespaces.items) hb
          rw [h1, h2] at this
          exact this
        | none =>
          have hbp : b ∈ p := by
            by_cases er : r.1 = m.name
            · rw [er, hmk, hTm] at hb; cases hb; exact hmP.1
            · have dir := st'.direct m hmT.1 (notHas wS'.names _ (by rw [hmk]; exact ha)) r hr er
                (notHas wS'.names _ hra)
              have bf := ord m hmT.1 r dir er ((hasSchema_get wT'.names).2 ⟨_, hb⟩)
              rw [← hbm.2] at bf
              refine before_prefix wT'.names (by unfold ODict.difference at e; exact e) hbm.1 ?_ hmP.1 bf
              have : S'.namespaces.contains b.name = false := by
                rw [ODict.contains_false_iff, hbm.2]
                exact nsGet_none.1 hra
              show (!S'.namespaces.contains b.name) = true
              rw [this]; rfl
          have hpb := nsGet_mem_sub (L := T'.namespaces.items) wT'.names
            (fun x hx => (ODict.mem_difference.1 (inP x hx)).1) hbp
          rw [hbm.2] at hpb
          have hl : nsGet (p.map unconstrained ++ S'.namespaces.items) r.1 = some (unconstrained b) := by
            rw [nsGet_append, uncGet, hpb]; rfl
          rw [kinds_get hl, kindUnc (wT'.wf _ hbm.1)]
  · exact valid_mix wS' wT' vS vT st' mixKeys
  · intro n hn
    have := ODict.mem_difference.1 hn
    exact st'.order n this.1 (notHas wS'.names _ (nsGet_none.2 this.2))
  · intro p s e
    exact valid_mix wS' wT' vS vT st' (mixChanged p s e)
  · rintro ⟨a, b⟩ hab
    have := (ODict.mem_intersection wT'.names).1 hab
    exact st'.safe a this.1 b this.2.1 this.2.2
  · intro p s e
    have inS : ∀ x ∈ s, x ∈ S'.namespaces.difference T'.namespaces := fun x hx => by rw [e]; exact List.mem_append_right _ hx
    apply valid_pieces
    intro k n hn
    cases hb : nsGet T'.namespaces.items k with
    | some b =>
      rw [nsGet_append, hb, Option.some_or] at hn
      cases hn
      have hmem := (nsGet_some wT'.names).1 hb
      refine ⟨_, _, hb, vT, .inl ⟨rfl, ?_⟩⟩
      intro r hr
      obtain ⟨x, hx⟩ := mentions_exist vT (wT'.wf _ hmem.1) hb hr
      rw [kinds_get hx, kinds_get (by rw [nsGet_append, hx, Option.some_or])]
    | none =>
      rw [nsGet_append, uncGet, hb, Option.none_or] at hn
      cases hm : nsGet s k with
      | none => rw [hm] at hn; cases hn
      | some m =>
        rw [hm] at hn
        cases hn
        have hmP := ODict.get_some_mem (d := ⟨s⟩) hm
        have hmS := ODict.mem_difference.1 (inS m hmP.1)
        have hmk : m.name = k := hmP.2
        have hSm := (nsGet_some wS'.names).2 ⟨hmS.1, hmk⟩
        refine ⟨_, _, hSm, vS, .inr ⟨rfl, ?_⟩⟩
        intro r hr
        obtain ⟨a, ha⟩ := mentions_exist vS (wS'.wf _ hmS.1) hSm (.inl hr)
        rw [kinds_get ha]
        by_cases er : r.1 = m.name
        · have hl : nsGet (T'.namespaces.items ++ s.map unconstrained) r.1 = some (unconstrained m) := by
            rw [er, hmk, nsGet_append, hb, uncGet, hm]; rfl
          rw [er, hmk, hSm] at ha; cases ha
          rw [kinds_get hl, kindUnc (wS'.wf _ hmS.1)]
        · have hT := st'.dropped m hmS.1 (notHas wT'.names _ (by rw [hmk]; exact hb)) r hr er
          obtain ⟨b, hb'⟩ := (hasSchema_get wT'.names).1 hT
          rw [kinds_get (n := b) (by rw [nsGet_append, hb', Option.some_or])]
          have := st'.stable m (.inl hmS.1) r (.inl hr) er ((hasSchema_get wS'.names).2 ⟨_, ha⟩) hT
          have h1 : (Spec.Catalog.db d E S').kinds r = _ := kinds_get (l := S'.namespaces.items) ha
          have h2 : (Spec.Catalog.db d E T').kinds r = _ := kinds_get (l := T'.namespaces.items) hb'
          rw [h1, h2] at this
          exact this.symm
  · intro n hn
    have := ODict.mem_difference.1 hn
    exact structs_drop (st'.dropOrder n this.1 (notHas wT'.names _ (nsGet_none.2 this.2)))

end
end PySqlSync
