/-
Which constraints are put together from the rows of a catalog, and how columns are read one by one.
-/
import Verif.Spec.Explorers
import Verif.Props.C36
import Verif.Lemmas.Settled

set_option autoImplicit false

namespace PySqlSync
open Spec

namespace Asm

/-- The rows about a constraint tell what it is. -/
def Told (foreign : List ForeignRow) : Constraint → Prop
  | .unique _ cs => cs ≠ []
  | .foreign n cs r => foreign.filter (fun x => x.name = n) ≠ [] ∧ (foreign.filter (fun x => x.name = n)).map ForeignRow.source = cs ∧
      (foreign.filter (fun x => x.name = n)).map ForeignRow.target = r.columns ∧ ∀ x ∈ foreign, x.name = n → x.table = r.table
  | .discriminated .. => True
  | .check .. => False

/-- Rows about the foreign keys of a table, and no others, each key with one target. -/
structure Keys (foreign : List ForeignRow) (tb : Table) : Prop where
  owner : ∀ r ∈ foreign, ∃ cs ref, Constraint.foreign r.name cs ref ∈ tb.constraints.items
  one : ∀ a ∈ foreign, ∀ b ∈ foreign, a.name = b.name → a.table = b.table

theorem uniqueRows_mem {c : Constraint} {r : Text × Text} (h : r ∈ uniqueRows c) : ∃ cs, c = .unique r.1 cs := by
  cases c with
  | unique n cs =>
    obtain ⟨x, _, rfl⟩ := List.mem_map.1 h
    exact ⟨cs, rfl⟩
  | _ => cases h

theorem same_name {tb : Table} (hd : Distinct tb.constraints) {a b : Constraint} (ha : a ∈ tb.constraints.items) (hb : b ∈ tb.constraints.items)
    (e : a.name = b.name) : a = b := by
  have h1 := ODict.get_eq_of_mem (d := tb.constraints) hd ha
  have h2 := ODict.get_eq_of_mem (d := tb.constraints) hd hb
  have e : key a = key b := e
  rw [e, h2] at h1
  exact (Option.some.inj h1).symm

theorem assemble {tb : Table} (hd : Distinct tb.constraints) {unique : List (Text × Text)} {foreign : List ForeignRow} (hu : HasUnique unique tb)
    (hf : Keys foreign tb) (name : QId) (cols : List Column) (pk : List Text) (desc : Option Text) :
    ∃ found, assembleTable name cols pk unique foreign desc = .ok found ∧ found.name = name ∧ found.columns = .ofList cols ∧ found.description = desc ∧
      found.primaryKey = pk ∧ found.enumValues = none ∧ Distinct found.constraints ∧ (∀ c ∈ found.constraints.items, c.spec.isSome = true) ∧
      ((∀ n, found.constraints.get n = (tb.constraints.get n).filter (fun c => c.spec.isSome)) ↔ ∀ c ∈ tb.constraints.items, Told foreign c) := by
  cases hl : foreignAddAll [] foreign with
  | error e =>
    obtain ⟨a, ha, b, hb, e1, e2⟩ := (C36_foreign_refused foreign).1 ⟨e, hl⟩
    exact absurd (hf.one a ha b hb e1) e2
  | ok links =>
    obtain ⟨hn, hm⟩ := C36_foreign hl
    have hU := C36_unique unique
    have umem : ∀ c ∈ uniqueFetch (uniqueAddAll unique), ∃ n ∈ unique.map Prod.fst, c = .unique n (columnsOf unique n) := by
      intro c hc
      rw [hU] at hc
      obtain ⟨n, h1, rfl⟩ := List.mem_map.1 hc
      exact ⟨n, C36.mem_eraseDups.1 h1, rfl⟩
    have uowner : ∀ n ∈ unique.map Prod.fst, ∃ cs, Constraint.unique n cs ∈ tb.constraints.items ∧ columnsOf unique n = cs := by
      intro n h
      obtain ⟨r, hr, rfl⟩ := List.mem_map.1 h
      obtain ⟨c, hc, hrc⟩ := hu.noOther r hr
      obtain ⟨cs, rfl⟩ := uniqueRows_mem hrc
      refine ⟨cs, hc, ?_⟩
      unfold columnsOf
      have := hu.each _ hc
      rw [show unique.filter (fun x => x.1 = r.1) = uniqueRows (Constraint.unique r.1 cs) from this]
      show (cs.map (fun c => (r.1, c))).map Prod.snd = cs
      rw [List.map_map]
      exact List.map_id _
    have fowner : ∀ c ∈ foreignFetch links, ∃ cs ref, Constraint.foreign c.name cs ref ∈ tb.constraints.items ∧ ∃ r ∈ foreign, r.name = c.name := by
      intro c hc
      have : c.name ∈ (foreign.map ForeignRow.name).eraseDups := by rw [← hn]; exact List.mem_map_of_mem hc
      obtain ⟨r, hr, e⟩ := List.mem_map.1 (C36.mem_eraseDups.1 this)
      obtain ⟨cs, ref, h⟩ := hf.owner r hr
      exact ⟨cs, ref, e ▸ h, r, hr, e⟩
    have ukeys : (uniqueFetch (uniqueAddAll unique)).map Constraint.name = namesOf unique := by
      rw [hU, List.map_map]
      exact List.map_id _
    have hnd : ((uniqueFetch (uniqueAddAll unique) ++ foreignFetch links).map key).Nodup := by
      show ((uniqueFetch (uniqueAddAll unique) ++ foreignFetch links).map Constraint.name).Nodup
      rw [List.map_append, ukeys, hn, List.nodup_append]
      refine ⟨C36.nodup_eraseDups _, C36.nodup_eraseDups _, ?_⟩
      intro a ha b hb e
      subst e
      obtain ⟨cs, h1, _⟩ := uowner a (C36.mem_eraseDups.1 ha)
      obtain ⟨r, hr, e⟩ := List.mem_map.1 (C36.mem_eraseDups.1 hb)
      obtain ⟨cs', ref, h2⟩ := hf.owner r hr
      have := same_name hd h1 h2 e.symm
      cases this
    have hitems := ODict.ofList_of_nodup _ hnd
    refine ⟨_, Conv.bind_ok.2 ⟨links, hl, Conv.pure_ok.2 rfl⟩, rfl, rfl, rfl, rfl, rfl, ODict.ofList_inv _, ?_, ?_⟩
    · intro c hc
      dsimp only at hc
      rw [hitems] at hc
      rcases List.mem_append.1 hc with h | h
      · obtain ⟨n, _, rfl⟩ := umem c h; rfl
      · obtain ⟨n, tbl, rfl, _⟩ := hm c h; rfl
    · dsimp only
      have hget : ∀ n c, (ODict.ofList (uniqueFetch (uniqueAddAll unique) ++ foreignFetch links)).get n = some c ↔
          c ∈ uniqueFetch (uniqueAddAll unique) ++ foreignFetch links ∧ c.name = n := by
        intro n c
        rw [ODict.get_eq_some_iff (ODict.ofList_inv _), hitems]
        rfl
      have own : ∀ c ∈ uniqueFetch (uniqueAddAll unique) ++ foreignFetch links, ∃ c' ∈ tb.constraints.items, c'.name = c.name ∧ c'.spec.isSome = true := by
        intro c hc
        rcases List.mem_append.1 hc with h | h
        · obtain ⟨n, h1, rfl⟩ := umem c h
          obtain ⟨cs, h2, _⟩ := uowner n h1
          exact ⟨_, h2, rfl, rfl⟩
        · obtain ⟨cs, ref, h2, _⟩ := fowner c h
          exact ⟨_, h2, rfl, rfl⟩
      constructor
      · intro h c hc
        have hg := h c.name
        rw [show tb.constraints.get c.name = some c from ODict.get_eq_of_mem (d := tb.constraints) hd hc] at hg
        cases hs : c.spec with
        | none => cases c <;> first | trivial | cases hs
        | some sp =>
          have hg' := hg.trans (Set.kept_some.2 ⟨rfl, by rw [hs]; rfl⟩).symm
          obtain ⟨hmem, _⟩ := (hget _ _).1 hg'
          rcases List.mem_append.1 hmem with h1 | h1
          · obtain ⟨n, h2, rfl⟩ := umem c h1
            obtain ⟨r, hr, e⟩ := List.mem_map.1 h2
            show columnsOf unique n ≠ []
            unfold columnsOf
            intro hnil
            have hin : r ∈ unique.filter (fun r => r.1 = n) := List.mem_filter.2 ⟨hr, by simpa using e⟩
            rw [List.map_eq_nil_iff.1 hnil] at hin
            cases hin
          · obtain ⟨n, tbl, rfl, h2⟩ := hm c h1
            obtain ⟨_, _, _, r, hr, e⟩ := fowner _ h1
            refine ⟨?_, rfl, rfl, h2⟩
            intro hnil
            have hin : r ∈ foreign.filter (fun r => r.name = n) := List.mem_filter.2 ⟨hr, decide_eq_true (show r.name = n from e)⟩
            rw [hnil] at hin
            cases hin
      · intro h n
        cases hg : tb.constraints.get n with
        | none =>
          cases hf' : (ODict.ofList (uniqueFetch (uniqueAddAll unique) ++ foreignFetch links)).get n with
          | none => rfl
          | some c =>
            obtain ⟨h1, h2⟩ := (hget _ _).1 hf'
            obtain ⟨c', h3, h4, _⟩ := own c h1
            exact absurd (List.mem_map.2 ⟨c', h3, h4.trans h2⟩) ((ODict.get_none_iff _ _).1 hg)
        | some c =>
          obtain ⟨hc, hcn⟩ := ODict.get_some_mem hg
          have hcn : c.name = n := hcn
          have ht := h c hc
          cases hs : c.spec with
          | none =>
            rw [← Set.kept_none.2 hs]
            cases hf' : (ODict.ofList (uniqueFetch (uniqueAddAll unique) ++ foreignFetch links)).get n with
            | none => rfl
            | some x =>
              obtain ⟨h1, h2⟩ := (hget _ _).1 hf'
              obtain ⟨c', h3, h4, h5⟩ := own x h1
              have := same_name hd h3 hc (h4.trans (h2.trans hcn.symm))
              subst this
              rw [hs] at h5
              cases h5
          | some sp =>
            refine Eq.trans ?_ (Set.kept_some.2 ⟨rfl, by rw [hs]; rfl⟩)
            refine (hget _ _).2 ⟨?_, hcn⟩
            cases c with
            | unique m cs =>
              have ht : cs ≠ [] := ht
              have he := hu.each _ hc
              have hm' : m ∈ unique.map Prod.fst := by
                cases cs with
                | nil => exact absurd rfl ht
                | cons x cs =>
                  have : (m, x) ∈ unique.filter (fun r => r.1 = (Constraint.unique m (x :: cs)).name) := by
                    rw [he]; exact List.mem_map.2 ⟨x, List.mem_cons_self, rfl⟩
                  exact List.mem_map.2 ⟨_, (List.mem_filter.1 this).1, rfl⟩
              obtain ⟨cs', h2, h3⟩ := uowner m hm'
              have := same_name hd h2 hc rfl
              cases this
              apply List.mem_append_left
              rw [hU]
              exact List.mem_map.2 ⟨m, C36.mem_eraseDups.2 hm', by rw [h3]⟩
            | foreign m cs r =>
              obtain ⟨t1, t2, t3, t4⟩ := ht
              apply List.mem_append_right
              have hex : m ∈ (foreignFetch links).map Constraint.name := by
                rw [hn]
                apply C36.mem_eraseDups.2
                cases hfl : foreign.filter (fun x => x.name = m) with
                | nil => exact absurd hfl t1
                | cons x l =>
                  have hx : x ∈ foreign.filter (fun x => x.name = m) := by rw [hfl]; exact List.mem_cons_self
                  obtain ⟨h1, h2⟩ := List.mem_filter.1 hx
                  exact List.mem_map.2 ⟨x, h1, by simpa using h2⟩
              obtain ⟨c', h1, h2⟩ := List.mem_map.1 hex
              obtain ⟨n', tbl, rfl, h3⟩ := hm c' h1
              have h2 : n' = m := h2
              subst h2
              have : Constraint.foreign n' ((foreign.filter (fun r => r.name = n')).map ForeignRow.source)
                  ⟨tbl, (foreign.filter (fun r => r.name = n')).map ForeignRow.target⟩ = .foreign n' cs r := by
                rw [t2, t3]
                obtain ⟨_, _, _, x, hx, ex⟩ := fowner _ h1
                have e1 := h3 x hx ex
                have e2 := t4 x hx ex
                rw [← e1, e2]
              rw [← this]
              exact h1
            | discriminated => cases hs
            | check => exact ht.elim

/-- Columns that are read one by one, each as one that needs no change, exactly if each is of a certain kind. -/
theorem read_rows {R : Type} {f : R → Except Err Column} {g : Column → Option R} {P : Column → Prop} {d : Dialect} {cols : ODict Column} {rows : List R}
    (hd : Distinct cols) (h : cols.items.map g = rows.map some)
    (h1 : ∀ a ∈ cols.items, ∀ r, g a = some r → ((∃ b, f r = .ok b ∧ Set.Idle d b a) ↔ P a))
    (h2 : ∀ a ∈ cols.items, ∀ r b, g a = some r → f r = .ok b → b.name = a.name) :
    (∃ bs, rows.mapM f = .ok bs ∧ ∀ k, OptRel (Set.Idle d) ((ODict.ofList bs).get k) (cols.get k)) ↔ ∀ a ∈ cols.items, P a := by
  have names : ∀ {bs}, rows.mapM f = .ok bs → bs.map Column.name = cols.items.map Column.name := by
    intro bs hm
    have : ∀ {items : List Column} {rows : List R} {bs : List Column}, items.map g = rows.map some →
        (∀ a ∈ items, ∀ r b, g a = some r → f r = .ok b → b.name = a.name) → rows.mapM f = .ok bs → bs.map Column.name = items.map Column.name := by
      intro items
      induction items with
      | nil =>
        intro rows bs h _ hm
        cases rows with
        | nil => simp only [List.mapM_nil, pure, Except.pure, Except.ok.injEq] at hm; subst hm; rfl
        | cons => cases h
      | cons a items ih =>
        intro rows bs h h1 hm
        cases rows with
        | nil => cases h
        | cons r rows =>
          rw [List.map_cons, List.map_cons] at h
          injection h with e1 e2
          obtain ⟨b, bs', k1, k2, rfl⟩ := Conv.mapM_cons_ok.1 hm
          rw [List.map_cons, List.map_cons, h1 a List.mem_cons_self r b e1 k1, ih e2 (fun x hx => h1 x (List.mem_cons_of_mem _ hx)) k2]
    exact this h h2 hm
  have uniq : ∀ a ∈ cols.items, ∀ b ∈ cols.items, a.name = b.name → a = b := by
    intro a ha b hb e
    have e1 := ODict.get_eq_of_mem (d := cols) hd ha
    have e2 := ODict.get_eq_of_mem (d := cols) hd hb
    have e : key a = key b := e
    rw [e, e2] at e1
    exact (Option.some.inj e1).symm
  constructor
  · rintro ⟨bs, hm, hr⟩ a ha
    have hga : g a ∈ rows.map some := h ▸ List.mem_map_of_mem ha
    obtain ⟨r, hrr, e⟩ := List.mem_map.1 hga
    obtain ⟨b, hb, hf⟩ := Conv.mapM_fwd hm r hrr
    have hn := h2 a ha r b e.symm hf
    have hrel := hr (key a)
    rw [ODict.get_eq_of_mem (d := cols) hd ha] at hrel
    have hnd : (bs.map key).Nodup := by
      show (bs.map Column.name).Nodup
      rw [names hm]; exact hd
    have hitems := ODict.ofList_of_nodup _ hnd
    have : (ODict.ofList bs).get (key b) = some b := ODict.get_eq_of_mem (ODict.ofList_inv bs) (by rw [hitems]; exact hb)
    rw [show key b = key a from hn] at this
    rw [this] at hrel
    exact (h1 a ha r e.symm).1 ⟨b, hf, hrel⟩
  · intro hP
    have hex : ∃ bs, rows.mapM f = .ok bs := by
      have : ∀ {l : List R}, (∀ r ∈ l, ∃ b, f r = .ok b) → ∃ bs, l.mapM f = .ok bs := by
        intro l
        induction l with
        | nil => intro _; exact ⟨[], rfl⟩
        | cons a l ih =>
          intro h
          obtain ⟨b, hb⟩ := h a List.mem_cons_self
          obtain ⟨bs, hbs⟩ := ih (fun x hx => h x (List.mem_cons_of_mem _ hx))
          exact ⟨b :: bs, Conv.mapM_cons_ok.2 ⟨b, bs, hb, hbs, rfl⟩⟩
      apply this
      intro r hr
      have : some r ∈ cols.items.map g := by rw [h]; exact List.mem_map_of_mem hr
      obtain ⟨a, ha, e⟩ := List.mem_map.1 this
      obtain ⟨b, hb, _⟩ := (h1 a ha r e).2 (hP a ha)
      exact ⟨b, hb⟩
    obtain ⟨bs, hm⟩ := hex
    refine ⟨bs, hm, fun k => ?_⟩
    have hnd : (bs.map key).Nodup := by
      show (bs.map Column.name).Nodup
      rw [names hm]; exact hd
    have hitems := ODict.ofList_of_nodup _ hnd
    cases hg : cols.get k with
    | none =>
      have : (ODict.ofList bs).get k = none := by
        rw [ODict.get_none_iff, hitems]
        show k ∉ bs.map Column.name
        rw [names hm]
        exact (ODict.get_none_iff cols k).1 hg
      rw [this]
      trivial
    | some a =>
      obtain ⟨ha, hk⟩ := ODict.get_some_mem hg
      have hga : g a ∈ rows.map some := h ▸ List.mem_map_of_mem ha
      obtain ⟨r, hrr, e⟩ := List.mem_map.1 hga
      obtain ⟨b, hf, hidle⟩ := (h1 a ha r e.symm).2 (hP a ha)
      obtain ⟨b', hb, hf'⟩ := Conv.mapM_fwd hm r hrr
      rw [hf] at hf'
      cases hf'
      have hn : key b = key a := h2 a ha r b e.symm hf
      have : (ODict.ofList bs).get (key b) = some b := ODict.get_eq_of_mem (ODict.ofList_inv bs) (by rw [hitems]; exact hb)
      rw [hn, hk] at this
      rw [this]
      exact hidle

end Asm
end PySqlSync
