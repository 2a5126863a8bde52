/-
C14 — The connection's schema model stays faithful across histories.
-/
import Verif.Model.Session
import Verif.Props.C01
import Verif.Props.C02
import Verif.Props.C37

set_option autoImplicit false

namespace PySqlSync
open Spec

/-- What the connection believes is what the database is. -/
def Faithful (v : Env) (s : Session) : Prop := Catalog.db v.dialect v.engine s.state = s.db

/-- A family of catalogs between which the library can alter: it contains the empty one, and a script that leads from
    one of them to another, executed in the database that the one describes, runs and makes it what the other describes.
    (When scripts do is the subject of C01; `C14_stable_manageable` gives a condition.) -/
structure Manageable (v : Env) (G : Catalog → Prop) : Prop where
  empty : G ⟨⟨[]⟩⟩
  alters : ∀ S T, G S → G T → ∀ script, mutateCatalog v.topo v.dialect {} S T = .ok script →
    Runs v.engine (Catalog.db v.dialect v.engine S) script (Catalog.db v.dialect v.engine T)

/-- Exploring the schemas `names` of a database described by one of the catalogs finds a description of it. -/
def Reads (v : Env) (G : Catalog → Prop) (names : List Text) : Prop :=
  ∀ S, G S → ∃ found, discovered v (Catalog.db v.dialect v.engine S) names = (found, true) ∧ G found
    ∧ Catalog.db v.dialect v.engine found = Catalog.db v.dialect v.engine S

/-- The environment is one of the dialects, with a sound topological sort. -/
structure Sound (v : Env) : Prop where
  topo : Sorts v.topo
  engine : ∃ condCols, v.engine = engine v.dialect condCols

namespace C14

theorem runs_det {E : Engine} {db : Db} {l : List Stmt} {a : Db} (h : Runs E db l a) : ∀ {b : Db}, Runs E db l b → a = b := by
  induction h with
  | nil => intro b hb; cases hb; rfl
  | cons h1 _ _ ih =>
    intro b hb
    cases hb with
    | cons h2 _ h3 => rw [h1] at h2; cases h2; exact ih h3

theorem replace_ok {v : Env} {G : Catalog → Prop} (m : Manageable v G) {atomic : Bool} {s s' : Session}
    {T : Catalog} {o : Outcome} (hs : G s.state) (f : Faithful v s) (hT : G T) (h : Replace v atomic s T s' o)
    (ho : o ≠ .failed) : Faithful v s' ∧ G s'.state ∧ (o = .returned → s'.state = T) := by
  cases h with
  | raised _ => exact ⟨f, hs, fun h => (by cases h)⟩
  | nothing h =>
    have r := m.alters _ _ hs hT _ h
    refine ⟨?_, hT, fun _ => rfl⟩
    have : Catalog.db v.dialect v.engine s.state = Catalog.db v.dialect v.engine T := by
      generalize Catalog.db v.dialect v.engine T = x at r
      cases r; rfl
    unfold Faithful at f ⊢
    rw [← f, this]
  | executed h _ he =>
    have r := m.alters _ _ hs hT _ h
    cases he with
    | all hr =>
      refine ⟨?_, hT, fun _ => rfl⟩
      unfold Faithful at f ⊢
      rw [f] at r
      exact runs_det r hr
    | undone => exact absurd rfl ho
    | stopped => exact absurd rfl ho

end C14
open C14

/-- The calls' targets and module lists are among the expected ones. -/
def Call.Within (G : Catalog → Prop) (names : List Text) : Call → Prop
  | .createObjects T => G T
  | .dropObjects => True
  | .discover ns => ns = names
  | .synchronize T ns => G T ∧ ns = names

/-- **C14 (recovery).**  Whatever the connection believed before, after a call of `synchronize` that returns it believes
    what the database is, and that is the target; the same holds for `discover`. -/
theorem C14_synchronize_recovers {v : Env} {G : Catalog → Prop} {names : List Text}
    (m : Manageable v G) (reads : Reads v G names) {atomic : Bool} {s s' : Session} {S T : Catalog}
    (hS : G S) (hdb : Catalog.db v.dialect v.engine S = s.db) (hT : G T)
    (h : Step v atomic s (.synchronize T names) s' .returned) :
    Faithful v s' ∧ G s'.state ∧ s'.db = Catalog.db v.dialect v.engine T := by
  obtain ⟨found, hf, hG, hdf⟩ := reads S hS
  rw [hdb] at hf hdf
  generalize ho : Outcome.returned = o at h
  cases h with
  | syncTarget _ => cases ho
  | syncDiscover _ _ => cases ho
  | syncRaised _ _ _ => cases ho
  | syncNothing _ h2 h3 =>
    rw [hf] at h2; cases h2
    have r := m.alters _ _ hG hT _ h3
    have e : Catalog.db v.dialect v.engine found = Catalog.db v.dialect v.engine T := by
      generalize Catalog.db v.dialect v.engine T = x at r
      cases r; rfl
    exact ⟨hdf, hG, hdf.symm.trans e⟩
  | syncExecuted _ h2 h3 _ h5 =>
    subst ho
    rw [hf] at h2; cases h2
    have r := m.alters _ _ hG hT _ h3
    rw [hdf] at r
    cases h5 with
    | all hr =>
      have := runs_det r hr
      exact ⟨this, hT, this.symm⟩

theorem C14_discover_recovers {v : Env} {G : Catalog → Prop} {names : List Text} (reads : Reads v G names) {atomic : Bool}
    {s s' : Session} {S : Catalog} {o : Outcome} (hS : G S) (hdb : Catalog.db v.dialect v.engine S = s.db)
    (h : Step v atomic s (.discover names) s' o) : o = .returned ∧ Faithful v s' ∧ G s'.state ∧ s'.db = s.db := by
  obtain ⟨found, hf, hG, hdf⟩ := reads S hS
  rw [hdb] at hf hdf
  cases h with
  | discover h1 => rw [hf] at h1; cases h1; exact ⟨rfl, hdf, hG, rfl⟩

/-- The ways in which a call misleads the connection; `s` is the session before the call, `db` the database after it.
    `create_objects` or `drop_objects` is interrupted and the database is not what they were to make of it;
    `synchronize` raises because its target cannot be created from nothing, while there is something in the database;
    `synchronize` is interrupted and what was done is not undone. -/
inductive Misled (v : Env) (s : Session) (db : Db) : Call → Outcome → Prop where
  | create {T : Catalog} : db ≠ Catalog.db v.dialect v.engine T → Misled v s db (.createObjects T) .failed
  | drop : db ≠ Catalog.db v.dialect v.engine ⟨⟨[]⟩⟩ → Misled v s db .dropObjects .failed
  | target {T : Catalog} {names : List Text} {e : Err} : mutateCatalog v.topo v.dialect {} ⟨⟨[]⟩⟩ T = .error e →
      db ≠ Catalog.db v.dialect v.engine ⟨⟨[]⟩⟩ → Misled v s db (.synchronize T names) .raised
  | interrupted {T : Catalog} {names : List Text} : db ≠ s.db → Misled v s db (.synchronize T names) .failed

/-- **C14.**  A call of a connection that believes what the database is: afterwards it does again, exactly if the call
    did not mislead it. -/
theorem C14_call_criterion {v : Env} {G : Catalog → Prop} {names : List Text} (m : Manageable v G) (reads : Reads v G names)
    {atomic : Bool} {s s' : Session} {c : Call} {o : Outcome} (f : Faithful v s) (hs : G s.state)
    (hw : c.Within G names) (h : Step v atomic s c s' o) :
    (Faithful v s' ↔ ¬ Misled v s s'.db c o) ∧ G s'.state := by
  have yes : ∀ {c o}, Faithful v s' → ¬ Misled v s s'.db c o → (Faithful v s' ↔ ¬ Misled v s s'.db c o) :=
    fun h1 h2 => ⟨fun _ => h2, fun _ => h1⟩
  have replaced : ∀ {T : Catalog}, G T → Replace v atomic s T s' o →
      (o ≠ .failed → Faithful v s' ∧ G s'.state) ∧ (o = .failed → s'.state = T) := by
    intro T hT hr
    refine ⟨fun ho => ⟨(replace_ok m hs f hT hr ho).1, (replace_ok m hs f hT hr ho).2.1⟩, ?_⟩
    rintro rfl
    generalize ho : Outcome.failed = o at hr
    cases hr with
    | raised _ => cases ho
    | nothing _ => cases ho
    | executed _ _ _ => rfl
  cases h with
  | create hr =>
    rename_i T
    obtain ⟨h1, h2⟩ := replaced hw hr
    by_cases ho : o = .failed
    · subst ho
      have e := h2 rfl
      refine ⟨⟨fun hf hm => ?_, fun hm => ?_⟩, by rw [e]; exact hw⟩
      · cases hm with
        | create hne => apply hne; rw [← hf, e]
      · unfold Faithful
        rw [e]
        exact Classical.byContradiction fun hne => hm (.create (fun h => hne h.symm))
    · exact ⟨yes (h1 ho).1 (fun hm => by cases hm; exact ho rfl), (h1 ho).2⟩
  | drop hr =>
    obtain ⟨h1, h2⟩ := replaced m.empty hr
    by_cases ho : o = .failed
    · subst ho
      have e := h2 rfl
      refine ⟨⟨fun hf hm => ?_, fun hm => ?_⟩, by rw [e]; exact m.empty⟩
      · cases hm with
        | drop hne => apply hne; rw [← hf, e]
      · unfold Faithful
        rw [e]
        exact Classical.byContradiction fun hne => hm (.drop (fun h => hne h.symm))
    · exact ⟨yes (h1 ho).1 (fun hm => by cases hm; exact ho rfl), (h1 ho).2⟩
  | discover h =>
    simp only [Call.Within] at hw
    subst hw
    have := C14_discover_recovers reads hs f (.discover (atomic := atomic) h)
    exact ⟨yes this.2.1 (fun hm => by cases hm), this.2.2.1⟩
  | syncTarget h =>
    refine ⟨⟨fun hf hm => ?_, fun hm => ?_⟩, m.empty⟩
    · cases hm with
      | target _ hne => exact hne hf.symm
    · exact Classical.byContradiction fun hne => hm (.target h (fun h => hne h.symm))
  | syncDiscover _ h2 =>
    obtain ⟨hT, rfl⟩ := hw
    obtain ⟨found, hf, hG, hdf⟩ := reads _ hs
    rw [f] at hf
    rw [hf] at h2; cases h2
  | syncRaised h1 h2 _ =>
    obtain ⟨hT, rfl⟩ := hw
    obtain ⟨found, hf, hG, hdf⟩ := reads _ hs
    rw [f] at hf hdf
    rw [hf] at h2; cases h2
    exact ⟨yes hdf (fun hm => by cases hm with | target h _ => rw [h1] at h; cases h), hG⟩
  | syncNothing _ h2 _ =>
    obtain ⟨hT, rfl⟩ := hw
    obtain ⟨found, hf, hG, hdf⟩ := reads _ hs
    rw [f] at hf hdf
    rw [hf] at h2; cases h2
    exact ⟨yes hdf (fun hm => by cases hm), hG⟩
  | syncExecuted h1 h2 h3 h4 h5 =>
    obtain ⟨hT, rfl⟩ := hw
    obtain ⟨found, hf, hG, hdf⟩ := reads _ hs
    rw [f] at hf hdf
    have h5' := h5
    cases h5 with
    | all hr =>
      have := C14_synchronize_recovers m reads hs f hT (.syncExecuted h1 h2 h3 h4 h5')
      exact ⟨yes this.1 (fun hm => by cases hm), this.2.1⟩
    | undone _ =>
      rw [hf] at h2; cases h2
      exact ⟨yes hdf (fun hm => by cases hm with | interrupted hne => exact hne rfl), hG⟩
    | stopped _ _ _ =>
      rw [hf] at h2; cases h2
      refine ⟨⟨fun hf hm => ?_, fun hm => ?_⟩, hG⟩
      · cases hm with
        | interrupted hne => exact hne (hf.symm.trans hdf)
      · refine hdf.trans (Classical.byContradiction fun hne => hm (.interrupted (fun h => hne h.symm)))

/-- Histories from a new connection to an empty database, in which no call misleads the connection; the database may
    undo the script of a call or not. -/
inductive History (v : Env) (G : Catalog → Prop) (names : List Text) : List (Call × Outcome) → Session → Prop where
  | start : History v G names [] ⟨⟨⟨[]⟩⟩, Catalog.db v.dialect v.engine ⟨⟨[]⟩⟩⟩
  | call {past : List (Call × Outcome)} {s s' : Session} {c : Call} {o : Outcome} {atomic : Bool} :
      History v G names past s → c.Within G names → Step v atomic s c s' o → ¬ Misled v s s'.db c o →
      History v G names (past ++ [(c, o)]) s'

/-- **C14.**  After any history of calls, returning, raising or failing, none of which misleads the connection, it
    believes what the database is. -/
theorem C14_faithful {v : Env} {G : Catalog → Prop} {names : List Text} (m : Manageable v G)
    (reads : Reads v G names) {past : List (Call × Outcome)} {s : Session} (h : History v G names past s) :
    Faithful v s ∧ G s.state := by
  induction h with
  | start => exact ⟨rfl, m.empty⟩
  | call _ hw hstep hm ih =>
    obtain ⟨h1, h2⟩ := C14_call_criterion m reads ih.1 ih.2 hw hstep
    exact ⟨h1.2 hm, h2⟩

/-- **C14.**  The first call that misleads the connection leaves it with a wrong belief, and no other does: after such
    a history and one more call, the connection believes what the database is exactly if the call did not mislead it. -/
theorem C14_exact_criterion {v : Env} {G : Catalog → Prop} {names : List Text} (m : Manageable v G)
    (reads : Reads v G names) {past : List (Call × Outcome)} {s s' : Session} (h : History v G names past s)
    {atomic : Bool} {c : Call} {o : Outcome} (hw : c.Within G names) (hstep : Step v atomic s c s' o) :
    Faithful v s' ↔ ¬ Misled v s s'.db c o :=
  (C14_call_criterion m reads (C14_faithful m reads h).1 (C14_faithful m reads h).2 hw hstep).1

/-- **C14.**  Later calls then do what they should: a call of `create_objects`, `drop_objects` or `synchronize` that
    returns makes of the database what it is given. -/
theorem C14_later_calls {v : Env} {G : Catalog → Prop} {names : List Text} (m : Manageable v G)
    (reads : Reads v G names) {past : List (Call × Outcome)} {s s' : Session} (h : History v G names past s)
    {atomic : Bool} {c : Call} (hw : c.Within G names) (hstep : Step v atomic s c s' .returned) :
    match c with
    | .createObjects T => s'.db = Catalog.db v.dialect v.engine T
    | .dropObjects => s'.db = Catalog.db v.dialect v.engine ⟨⟨[]⟩⟩
    | .discover _ => s'.db = s.db
    | .synchronize T _ => s'.db = Catalog.db v.dialect v.engine T := by
  obtain ⟨f, hs⟩ := C14_faithful m reads h
  have replaced : ∀ {T : Catalog}, G T → Replace v atomic s T s' .returned → s'.db = Catalog.db v.dialect v.engine T := by
    intro T hT hr
    have := replace_ok m hs f hT hr (by decide)
    have e := this.2.2 rfl
    have f' := this.1
    unfold Faithful at f'
    rw [← f', e]
  cases c with
  | createObjects T => cases hstep with | create hr => exact replaced hw hr
  | dropObjects => cases hstep with | drop hr => exact replaced m.empty hr
  | discover ns =>
    simp only [Call.Within] at hw
    subst hw
    exact (C14_discover_recovers reads hs f hstep).2.2.2
  | synchronize T ns =>
    obtain ⟨hT, rfl⟩ := hw
    exact (C14_synchronize_recovers m reads hs f hT hstep).2.2

/-- A condition for a family of catalogs to be manageable. -/
theorem C14_stable_manageable {v : Env} {G : Catalog → Prop} (sound : Sound v) (empty : G ⟨⟨[]⟩⟩)
    (wf : ∀ S, G S → CatWF v.dialect S) (valid : ∀ S, G S → Valid (Catalog.db v.dialect v.engine S))
    (stable : ∀ S T, G S → G T → CatStable v.dialect v.engine S T) : Manageable v G := by
  refine ⟨empty, fun S T hS hT script h => ?_⟩
  obtain ⟨cc, he⟩ := sound.engine
  have hv1 := valid S hS
  have hv2 := valid T hT
  have hst := stable S T hS hT
  rw [he] at hv1 hv2 hst ⊢
  exact C01_synchronize_if_stable sound.topo v.dialect cc (wf S hS) (wf T hT) hv1 hv2 hst h

namespace C14

theorem ns_merge_self {n : Namespace} (d : NsDistinct n) : n.merge n = (n, true) := by
  refine C37.merge_contained ?_ ?_ ?_
  · intro e he; exact ⟨e, ODict.get_eq_of_mem d.enums he, by simp [EnumType.eqv]⟩
  · intro e he
    exact ⟨e, ODict.get_eq_of_mem d.structs he,
      (C37.struct_eqv (d.members e he) (d.members e he)).2 ⟨rfl, fun _ => rfl, rfl⟩⟩
  · intro e he
    exact ⟨e, ODict.get_eq_of_mem d.tables he,
      (C37.table_eqv (d.columns e he) (d.columns e he) (d.constraints e he) (d.constraints e he)).2
        ⟨rfl, fun _ => rfl, rfl, fun _ => rfl, rfl, rfl⟩⟩

theorem empty_distinct : NsDistinct {} :=
  ⟨by simp [Distinct], by simp [Distinct], by simp [Distinct], by simp, by simp, by simp⟩

/-- Merging a namespace that is there already, or whose name is not there. -/
theorem merge_one {c : Catalog} {n : Namespace} (hc : CatDistinct c) (hn : NsDistinct n)
    (h : c.namespaces.get n.name = none ∨ c.namespaces.get n.name = some n) :
    ∃ c', c.merge ⟨⟨[n]⟩⟩ = (c', true) ∧ CatDistinct c'
      ∧ ∀ k, c'.namespaces.get k = if k = n.name then some n else c.namespaces.get k := by
  have hb : CatDistinct ⟨⟨[n]⟩⟩ := ⟨by simp [Distinct], by simpa using hn⟩
  have hd := C37_merge_distinct hc hb
  rcases h with h | h
  · refine ⟨⟨⟨ODict.setItem c.namespaces.items n⟩⟩, ?_, ?_, ?_⟩
    · simp [Catalog.merge, mergeNamespaces, h]
    · simpa [Catalog.merge, mergeNamespaces, h] using hd
    · intro k; exact ODict.setItem_get _ _ _
  · have hs : ODict.setItem c.namespaces.items n = c.namespaces.items := C37.setItem_self h
    have he : c.merge ⟨⟨[n]⟩⟩ = (c, true) := by
      simp only [Catalog.merge, mergeNamespaces, h, ns_merge_self hn, if_true, hs]
    refine ⟨c, he, hc, fun k => ?_⟩
    by_cases e : k = n.name
    · subst e; rw [if_pos rfl, h]
    · rw [if_neg e]

/-- What holds of the catalog while schemas of `S` are being discovered. -/
structure Found (S c : Catalog) (done : List Text) : Prop where
  distinct : CatDistinct c
  part : ∀ k, c.namespaces.get k = none ∨ c.namespaces.get k = S.namespaces.get k
    ∨ (k = [] ∧ S.namespaces.get [] = none ∧ c.namespaces.get [] = some {})
  all : ∀ n ∈ done, (S.namespaces.get n).isSome → c.namespaces.get n = S.namespaces.get n

theorem discoverLoop_found {S : Catalog} (hS : CatDistinct S) {explore : Text → Except Err Namespace}
    (hnone : ∀ n, S.namespaces.get n = none → explore n = .ok {} → S.namespaces.get [] = none) :
    ∀ {names : List Text} {c : Catalog} {done : List Text}, Found S c done →
      (∀ n ∈ names, explore n = .ok ((S.namespaces.get n).getD {})) →
      ∃ c', discoverLoop explore c names = (c', true) ∧ Found S c' (done ++ names) := by
  intro names
  induction names with
  | nil => intro c done h _; exact ⟨c, rfl, by simpa using h⟩
  | cons n names ih =>
    intro c done h hex
    have hx := hex n List.mem_cons_self
    have key : ∃ ns, (S.namespaces.get n).getD {} = ns ∧ NsDistinct ns
        ∧ (c.namespaces.get ns.name = none ∨ c.namespaces.get ns.name = some ns)
        ∧ ((S.namespaces.get n = some ns ∧ ns.name = n)
          ∨ (S.namespaces.get n = none ∧ S.namespaces.get [] = none ∧ ns = {})) := by
      cases hs : S.namespaces.get n with
      | some x =>
        have hm := ODict.get_some_mem hs
        have hk : x.name = n := hm.2
        refine ⟨x, rfl, hS.each x hm.1, ?_, .inl ⟨rfl, hk⟩⟩
        rw [hk]
        rcases h.part n with h1 | h1 | ⟨rfl, h1, _⟩
        · exact .inl h1
        · exact .inr (h1.trans hs)
        · rw [hs] at h1; cases h1
      | none =>
        rw [hs] at hx
        have h0 := hnone n hs hx
        refine ⟨{}, rfl, empty_distinct, ?_, .inr ⟨rfl, h0, rfl⟩⟩
        rcases h.part [] with h1 | h1 | ⟨_, _, h1⟩
        · exact .inl h1
        · exact .inl (h1.trans h0)
        · exact .inr h1
    obtain ⟨ns, hns, hd, hget, hcase⟩ := key
    obtain ⟨c', hm, hd', hg'⟩ := merge_one h.distinct hd hget
    rw [hns] at hx
    have hf : Found S c' (done ++ [n]) := by
      refine ⟨hd', fun k => ?_, fun k hk hsome => ?_⟩
      · rw [hg']
        by_cases e : k = ns.name
        · rw [if_pos e]
          rcases hcase with ⟨h1, h2⟩ | ⟨_, h2, h3⟩
          · subst e; rw [h2]; exact .inr (.inl h1.symm)
          · subst h3; subst e
            exact .inr (.inr ⟨rfl, h2, by rw [hg', if_pos rfl]⟩)
        · rw [if_neg e]
          rcases h.part k with h1 | h1 | ⟨rfl, h1, h2⟩
          · exact .inl h1
          · exact .inr (.inl h1)
          · exact .inr (.inr ⟨rfl, h1, by rw [hg', if_neg e]; exact h2⟩)
      · rw [hg']
        by_cases e : k = ns.name
        · rw [if_pos e]
          rcases hcase with ⟨h1, h2⟩ | ⟨_, h2, h3⟩
          · subst e; rw [h2]; exact h1.symm
          · subst h3; subst e; rw [show ({} : Namespace).name = [] from rfl, h2] at hsome; cases hsome
        · rw [if_neg e]
          rcases List.mem_append.1 hk with hk | hk
          · exact h.all k hk hsome
          · rw [List.mem_singleton] at hk
            subst hk
            rcases hcase with ⟨h1, h2⟩ | ⟨h1, _, _⟩
            · exact absurd h2.symm e
            · rw [h1] at hsome; cases hsome
    obtain ⟨c'', h1, h2⟩ := ih hf (fun x hx => hex x (List.mem_cons_of_mem _ hx))
    refine ⟨c'', ?_, by simpa using h2⟩
    simp only [discoverLoop, hx, hm, if_true]
    exact h1

end C14

/-- **C14 (discovery).**  If exploring a schema of a database returns its description, or an empty namespace without a
    name if there is no such schema, then `discover` yields a description of the whole database. -/
theorem C14_discover_describes (v : Env) {S : Catalog} (hd : CatDistinct S) {db : Db} {names : List Text}
    (hall : ∀ n ∈ S.namespaces.items, n.name ∈ names)
    (hexp : ∀ n ∈ names, v.explore db n = .ok ((S.namespaces.get n).getD {}))
    (hnone : (∀ n ∈ names, HasSchema S n) ∨ ¬ HasSchema S []) :
    ∃ found, discovered v db names = (found, true) ∧ CatDistinct found
      ∧ Catalog.db v.dialect v.engine found = Catalog.db v.dialect v.engine S := by
  have e0 : ∀ n, (S.namespaces.get n).isSome ↔ HasSchema S n := fun n => by
    rw [ODict.get_isSome_iff, List.mem_map]; rfl
  have start : Found S ⟨⟨[]⟩⟩ [] := ⟨⟨by simp [Distinct], by simp⟩, fun k => .inl rfl, by simp⟩
  have hex : ∀ n ∈ names, (fun n => if n ∈ names then v.explore db n else .error .key) n
      = .ok ((S.namespaces.get n).getD {}) := by
    intro n hn; simp only [if_pos hn]; exact hexp n hn
  have hloop : ∀ {l : List Text} {c : Catalog}, (∀ n ∈ l, n ∈ names) →
      discoverLoop (fun n => if n ∈ names then v.explore db n else .error .key) c l = discoverLoop (v.explore db) c l := by
    intro l
    induction l with
    | nil => intro c _; rfl
    | cons n l ih =>
      intro c hl
      simp only [discoverLoop, if_pos (hl n List.mem_cons_self)]
      cases v.explore db n with
      | error _ => rfl
      | ok ns => simp only [ih (fun x hx => hl x (List.mem_cons_of_mem _ hx))]
  obtain ⟨c, h1, h2⟩ := discoverLoop_found hd (explore := fun n => if n ∈ names then v.explore db n else .error .key)
    (by
      intro n hn hx
      by_cases hm : n ∈ names
      · rcases hnone with h | h
        · have := (e0 n).2 (h n hm); rw [hn] at this; cases this
        · cases hg : S.namespaces.get [] with
          | none => rfl
          | some x => exact absurd ((e0 []).1 (by rw [hg]; rfl)) h
      · simp only [if_neg hm] at hx; cases hx) start hex
  rw [hloop (fun _ h => h)] at h1
  have hS : ∀ k, (S.namespaces.get k).isSome → c.namespaces.get k = S.namespaces.get k := by
    intro k hk
    obtain ⟨n, hn, rfl⟩ := (e0 k).1 hk
    exact h2.all _ (by simpa using hall n hn) hk
  refine ⟨c, h1, h2.distinct, ?_⟩
  have hc : ∀ k, c.namespaces.get k = S.namespaces.get k
      ∨ (k = [] ∧ S.namespaces.get k = none ∧ c.namespaces.get k = some {}) := by
    intro k
    rcases h2.part k with h | h | ⟨rfl, h, h'⟩
    · cases hk : S.namespaces.get k with
      | none => exact .inl h
      | some x => have := hS k (by rw [hk]; rfl); rw [hk] at this; exact .inl this
    · exact .inl h
    · exact .inr ⟨rfl, h, h'⟩
  have hcon : ∀ (x : ODict Namespace) k, x.contains k = (x.get k).isSome := by
    intro x k
    rw [Bool.eq_iff_iff, ODict.contains_iff, ODict.get_isSome_iff]
  unfold Catalog.db
  congr 1
  · funext k
    rw [hcon, hcon]
    rcases hc k with h | ⟨rfl, _, _⟩
    · rw [h]
    · simp
  · funext k
    rcases hc k.1 with h | ⟨_, h, h'⟩
    · rw [h]
    · rw [h, h']; rfl

/-! ### Where the claim fails -/

namespace C14
theorem same_refl (T : Catalog) : SameCat T T := by
  intro k
  cases T.namespaces.get k with
  | none => trivial
  | some n =>
    refine ⟨rfl, ?_, ?_, ?_⟩ <;> intro k
    · cases n.enums.get k <;> simp [OptRel]; exact ⟨rfl, .refl _⟩
    · cases n.structs.get k <;> simp [OptRel]; exact ⟨rfl, .refl _, rfl⟩
    · cases n.tables.get k <;> simp [OptRel]; exact ⟨rfl, .refl _, rfl, .refl _, rfl⟩
end C14

/-- A finding: `create_objects` adopts its target before the script is executed.  If the database refuses the script
    and undoes it, the connection believes in objects that are not there. -/
theorem C14_failed_create_unfaithful (v : Env) {s s' : Session} {T : Catalog}
    (hne : Catalog.db v.dialect v.engine T ≠ s.db) (h : Step v true s (.createObjects T) s' .failed) :
    ¬ Faithful v s' := by
  cases h with
  | create hr =>
    generalize ho : Outcome.failed = o at hr
    cases hr with
    | raised _ => cases ho
    | nothing _ => cases ho
    | executed _ _ he =>
      cases he with
      | all _ => cases ho
      | undone _ => exact hne
      | stopped h => cases h

/-- ... and repeating the call then returns as if it had succeeded, without executing anything. -/
theorem C14_failed_create_not_retried (v : Env) (ht : Sorts v.topo) {atomic : Bool} {s s' s'' : Session} {T : Catalog}
    {o : Outcome} (w : CatWF v.dialect T) (hc : CommentsFit v.dialect T)
    (h1 : Step v atomic s (.createObjects T) s' .failed) (h2 : Step v atomic s' (.createObjects T) s'' o) :
    o = .returned ∧ s'' = s' := by
  cases h1 with
  | create hr =>
    have key : s'.state = T ∧ ∃ T', T.sort v.topo = .ok T' := by
      generalize ho : Outcome.failed = o' at hr
      cases hr with
      | raised _ => cases ho
      | nothing _ => cases ho
      | executed hm _ _ =>
        obtain ⟨_, T', _, hT, _⟩ := mutateCatalog_sorted hm
        exact ⟨rfl, T', hT⟩
    obtain ⟨hs, T', hT⟩ := key
    have hnil : mutateCatalog v.topo v.dialect {} s'.state T = .ok [] := by
      rw [hs]; exact C02_nothing_to_do ht v.dialect {} w w hT hT (C14.same_refl T) hc
    cases h2 with
    | create hr2 =>
      cases hr2 with
      | raised h => rw [hnil] at h; cases h
      | nothing _ => exact ⟨rfl, by rw [← hs]⟩
      | executed h hne _ => rw [hnil] at h; cases h; exact absurd rfl hne

/-- A finding: a call of `synchronize` whose target cannot be created leaves a connection that believes the database to
    be empty, although it was not touched. -/
theorem C14_refused_target_forgets (v : Env) {atomic : Bool} {s s' : Session} {T : Catalog} {names : List Text}
    {o : Outcome} {e : Err} (he : mutateCatalog v.topo v.dialect {} ⟨⟨[]⟩⟩ T = .error e)
    (hne : Catalog.db v.dialect v.engine ⟨⟨[]⟩⟩ ≠ s.db) (h : Step v atomic s (.synchronize T names) s' o) :
    s'.state = ⟨⟨[]⟩⟩ ∧ s'.db = s.db ∧ ¬ Faithful v s' := by
  cases h with
  | syncTarget _ => exact ⟨rfl, rfl, hne⟩
  | syncDiscover h _ => rw [he] at h; cases h
  | syncRaised h _ _ => rw [he] at h; cases h
  | syncNothing h _ _ => rw [he] at h; cases h
  | syncExecuted h _ _ _ _ => rw [he] at h; cases h

/-! ### A concrete case -/

namespace C14.Ex
open Example

def item : Table where
  name := q "app" "item"
  columns := ⟨[key0 "id", col "name" text false]⟩
  primaryKey := [t "id"]
  constraints := ⟨[.unique (t "uq_name") [t "name"]]⟩

def app : Namespace := { name := t "app", tables := ⟨[item]⟩ }
def one : Catalog := ⟨⟨[app]⟩⟩
def blank : Catalog := ⟨⟨[{}]⟩⟩

/-- Three catalogs: nothing, nothing in the nameless schema, and a table. -/
inductive G : Catalog → Prop where
  | nothing : G ⟨⟨[]⟩⟩
  | blank : G blank
  | one : G one

open Classical in
/-- An explorer that recognizes the two databases. -/
noncomputable def v : Env where
  topo := topo
  dialect := .postgresql
  engine := E
  explore := fun db n =>
    if db = Catalog.db .postgresql E one ∧ n = t "app" then .ok app else .ok {}

theorem one_wf : CatWF .postgresql one := catWFB_ok (by decide +kernel)
theorem blank_wf : CatWF .postgresql blank := catWFB_ok (by decide +kernel)
theorem none_wf : CatWF .postgresql ⟨⟨[]⟩⟩ := catWFB_ok (by decide +kernel)

theorem sound : Sound v := ⟨topo_sorts, _, rfl⟩

theorem no_mentions {S : Catalog} (h : G S) : ∀ n ∈ S.namespaces.items, ∀ k, ¬ Mentions n k := by
  have e : ∀ k, ¬ Mentions {} k := by
    rintro k ((⟨x, hx, _⟩ | ⟨x, hx, _⟩) | ⟨x, hx, _⟩) <;> cases hx
  have a : ∀ k, ¬ Mentions app k := by
    rintro k ((⟨x, hx, _⟩ | ⟨x, hx, c, hc, hk⟩) | ⟨x, hx, c, hc, _, _, _, rfl, _⟩)
    · cases hx
    · simp only [app, List.mem_singleton] at hx
      subst hx
      simp only [item, List.mem_cons, List.not_mem_nil, or_false] at hc
      rcases hc with rfl | rfl <;> simp [key0, col, int8, text, SqlType.refs] at hk
    · simp only [app, List.mem_singleton] at hx
      subst hx
      simp [item] at hc
  cases h with
  | nothing => intro n hn; cases hn
  | blank => intro n hn; simp only [blank, List.mem_singleton] at hn; subst hn; exact e
  | one => intro n hn; simp only [one, List.mem_singleton] at hn; subst hn; exact a

theorem no_structs {S : Catalog} (h : G S) : ∀ n ∈ S.namespaces.items, n.structs.items = [] := by
  cases h with
  | nothing => intro n hn; cases hn
  | blank => intro n hn; simp only [blank, List.mem_singleton] at hn; subst hn; rfl
  | one => intro n hn; simp only [one, List.mem_singleton] at hn; subst hn; rfl

theorem manageable : Manageable v G := by
  refine C14_stable_manageable sound .nothing ?_ ?_ ?_
  · intro S h; cases h
    · exact none_wf
    · exact blank_wf
    · exact one_wf
  · intro S h
    cases h
    · exact catValidB_ok (by decide +kernel)
    · exact catValidB_ok (by decide +kernel)
    · exact catValidB_ok (by decide +kernel)
  · intro S T hS hT
    have nil : StructsInOrder [] := structsInOrderB_ok (by decide +kernel)
    constructor
    · intro n hn k hk
      rcases hn with hn | hn
      · exact absurd hk (no_mentions hS n hn k)
      · exact absurd hk (no_mentions hT n hn k)
    · intro n hn _ k hk; exact absurd (.inl hk) (no_mentions hT n hn k)
    · intro n hn _ k hk; exact absurd (.inl hk) (no_mentions hS n hn k)
    · intro n hn _; rw [no_structs hT n hn]; exact nil
    · intro n hn _; rw [no_structs hS n hn]; exact nil
    · intro a ha b hb hab
      have h1 : NsSafe .postgresql E app app := nsSafeB_ok (by decide +kernel)
      have h2 : NsSafe .postgresql E {} {} := nsSafeB_ok (by decide +kernel)
      have hn : app.name ≠ ({} : Namespace).name := by decide +kernel
      cases hS <;> cases hT <;> simp only [C14.Ex.one, C14.Ex.blank, List.mem_singleton, List.not_mem_nil] at ha hb
      · subst ha; subst hb; exact h2
      · subst ha; subst hb; exact absurd hab.symm hn
      · subst ha; subst hb; exact absurd hab hn
      · subst ha; subst hb; exact h1

theorem one_ne : Catalog.db .postgresql E one ≠ Catalog.db .postgresql E ⟨⟨[]⟩⟩ := by
  intro h
  have : (Catalog.db .postgresql E one).schemas (t "app") = (Catalog.db .postgresql E ⟨⟨[]⟩⟩).schemas (t "app") := by
    rw [h]
  revert this
  decide +kernel

theorem blank_db : Catalog.db .postgresql E blank = Catalog.db .postgresql E ⟨⟨[]⟩⟩ := by
  unfold Catalog.db
  congr 1
  · funext k
    by_cases e : k = []
    · simp [e]
    · simp [blank, ODict.contains, key, e, Ne.symm e]
  · funext k
    by_cases e : k.1 = []
    · rw [e]; rfl
    · have : blank.namespaces.get k.1 = none := by
        rw [ODict.get_none_iff]; simpa [blank, key] using e
      rw [this]; rfl

theorem reads : Reads v G [t "app"] := by
  intro S hS
  have h1 : ∀ db, db ≠ Catalog.db .postgresql E one → discovered v db [t "app"] = (blank, true) := by
    intro db h
    have : v.explore db (t "app") = .ok {} := if_neg (fun e => h e.1)
    simp [discovered, discoverLoop, this, Catalog.merge, mergeNamespaces, ODict.get, ODict.setItem, blank]
  have h2 : discovered v (Catalog.db .postgresql E one) [t "app"] = (one, true) := by
    have : v.explore (Catalog.db .postgresql E one) (t "app") = .ok app := if_pos ⟨rfl, rfl⟩
    simp [discovered, discoverLoop, this, Catalog.merge, mergeNamespaces, ODict.get, ODict.setItem]
    rfl
  cases hS with
  | nothing => exact ⟨blank, h1 _ (fun e => one_ne e.symm), .blank, blank_db⟩
  | blank => exact ⟨blank, h1 _ (fun e => one_ne (e.symm.trans blank_db)), .blank, rfl⟩
  | one => exact ⟨one, h2, .one, rfl⟩

theorem create_ok : ∃ script, mutateCatalog topo .postgresql {} ⟨⟨[]⟩⟩ one = .ok script ∧ script.length = 3 := by
  cases h : mutateCatalog topo .postgresql {} ⟨⟨[]⟩⟩ one with
  | error e =>
    have : (mutateCatalog topo .postgresql {} ⟨⟨[]⟩⟩ one).toOption.isSome = true := by decide +kernel
    rw [h] at this; cases this
  | ok stmts =>
    refine ⟨stmts, rfl, ?_⟩
    have : (mutateCatalog topo .postgresql {} ⟨⟨[]⟩⟩ one).toOption.map List.length = some 3 := by decide +kernel
    rw [h] at this
    simpa [Except.toOption] using this

/-- A history: the table is created, and removed by a call of `synchronize` with nothing that the database refuses. -/
example : ∃ past s, History v G [t "app"] past s ∧ past.length = 2 ∧ Faithful v s ∧ s.db = Catalog.db .postgresql E one := by
  obtain ⟨script, hs, hl⟩ := create_ok
  have hr := manageable.alters _ _ .nothing .one _ hs
  have hne : script ≠ [] := by intro e; rw [e] at hl; cases hl
  have h1 : History v G [t "app"] [(.createObjects one, .returned)] ⟨one, Catalog.db .postgresql E one⟩ :=
    .call (past := []) (atomic := true) .start G.one (.create (.executed hs hne (.all hr))) (fun h => by cases h)
  have hd : discovered v (Catalog.db .postgresql E one) [t "app"] = (one, true) := by
    have : v.explore (Catalog.db .postgresql E one) (t "app") = .ok app := if_pos ⟨rfl, rfl⟩
    simp [discovered, discoverLoop, this, Catalog.merge, mergeNamespaces, ODict.get, ODict.setItem]
    rfl
  have hm : ∃ drop, mutateCatalog topo .postgresql {} one ⟨⟨[]⟩⟩ = .ok drop ∧ drop ≠ [] := by
    cases h : mutateCatalog topo .postgresql {} one ⟨⟨[]⟩⟩ with
    | error e =>
      have : (mutateCatalog topo .postgresql {} one ⟨⟨[]⟩⟩).toOption.isSome = true := by decide +kernel
      rw [h] at this; cases this
    | ok stmts =>
      refine ⟨stmts, rfl, ?_⟩
      have : (mutateCatalog topo .postgresql {} one ⟨⟨[]⟩⟩).toOption.map (fun l => decide (l = [])) = some false := by
        decide +kernel
      rw [h] at this
      simpa [Except.toOption] using this
  obtain ⟨drop, hdrop, hdne⟩ := hm
  have h0 : mutateCatalog topo .postgresql {} ⟨⟨[]⟩⟩ ⟨⟨[]⟩⟩ = .ok [] := ok_of_toOption (by decide +kernel)
  have h2 := History.call h1 (c := .synchronize ⟨⟨[]⟩⟩ [t "app"]) ⟨.nothing, rfl⟩
    (.syncExecuted (atomic := true) h0 hd hdrop hdne (.undone rfl)) (fun h => by cases h with | interrupted hne => exact hne rfl)
  exact ⟨_, _, h2, rfl, (C14_faithful manageable reads h2).1, rfl⟩

/-- Creating the table fails, the connection believes in it, and trying again reports success. -/
example : ∃ s1 s2, Step v true ⟨⟨⟨[]⟩⟩, Catalog.db .postgresql E ⟨⟨[]⟩⟩⟩ (.createObjects one) s1 .failed
    ∧ ¬ Faithful v s1 ∧ Step v true s1 (.createObjects one) s2 .returned ∧ s2.db = Catalog.db .postgresql E ⟨⟨[]⟩⟩ := by
  obtain ⟨script, hs, hl⟩ := create_ok
  have hne : script ≠ [] := by intro e; rw [e] at hl; cases hl
  have h1 : Step v true ⟨⟨⟨[]⟩⟩, Catalog.db .postgresql E ⟨⟨[]⟩⟩⟩ (.createObjects one)
      ⟨one, Catalog.db .postgresql E ⟨⟨[]⟩⟩⟩ .failed := .create (.executed hs hne (.undone rfl))
  have h0 : mutateCatalog topo .postgresql {} one one = .ok [] := ok_of_toOption (by decide +kernel)
  exact ⟨_, ⟨one, Catalog.db .postgresql E ⟨⟨[]⟩⟩⟩, h1, C14_failed_create_unfaithful v (s := ⟨⟨⟨[]⟩⟩, Catalog.db .postgresql E ⟨⟨[]⟩⟩⟩) (T := one) one_ne h1, .create (.nothing h0), rfl⟩

/-- A table that MySQL's mutator refuses to create: the comment of a column is too long. -/
def long : Catalog := ⟨⟨[{ name := [], tables := ⟨[{
  name := .qualified none (t "x"), columns := ⟨[{ key0 "id" with description := some (List.replicate 1025 'x') }]⟩,
  primaryKey := [t "id"] }]⟩ }]⟩⟩

example : ∃ e, mutateCatalog topo .mysql {} ⟨⟨[]⟩⟩ long = .error e := by
  cases h : mutateCatalog topo .mysql {} ⟨⟨[]⟩⟩ long with
  | error e => exact ⟨e, rfl⟩
  | ok l =>
    have : (mutateCatalog topo .mysql {} ⟨⟨[]⟩⟩ long).toOption.isSome = false := by decide +kernel
    rw [h] at this; cases this

end C14.Ex

end PySqlSync
