/-
  C65: several clients write labels of enumerations at the same time.
-/
import Verif.Model.Clients
import Verif.Props.C23

set_option autoImplicit false

namespace PySqlSync
open Spec

variable {V : Type} [DecidableEq V]

namespace C65

/-- What is stored for a batch resolves, in the lookup tables as they are, to what was supplied. -/
def Good (trs : List (Nat × FieldTransformer V)) (db : Lookups V) (batch out : RecordBatch V) : Prop :=
  out.length = batch.length ∧
  ∀ (r k ix : Nat) (tr : FieldTransformer V) (tb : Table) (key value : Text) (record stored : List (Field V)) (f g : Field V),
    batch[r]? = some record → out[r]? = some stored → trs[k]? = some (ix, tr) → record[ix]? = some f → stored[k]? = some g →
    tr.table? = some tb → IsLookup tb key value → Resolves key value (db tb.name) f g

/-- The functions got so far belong to the first transformers. -/
def Got (trs : List (Nat × FieldTransformer V)) (db : Lookups V) (fns : List (Field V → Except Err (Field V))) (rest : List (Nat × FieldTransformer V)) : Prop :=
  ∃ done, trs = done ++ rest ∧ fns.length = done.length ∧ ∀ (k : Nat) (tr : Nat × FieldTransformer V) (fn : Field V → Except Err (Field V)), done[k]? = some tr → fns[k]? = some fn → C23.FnSound db tr.2 fn

/-- A client is where it should be. -/
def Local (trs : List (Nat × FieldTransformer V)) (db : Lookups V) (all before : List (RecordBatch V)) : Phase V → Prop
  | .next batches => before ++ batches = all
  | .collect batch fns rest batches => before ++ batch :: batches = all ∧ Got trs db fns rest
  | .merging batch fns tr tb _ _ rest batches => before ++ batch :: batches = all ∧ Got trs db fns (tr :: rest) ∧ tr.2.table? = some tb
  | .failed => ∃ batches, before ++ batches = all

omit [DecidableEq V] in
theorem move_same (s : Clients V) (i : Nat) (p : Phase V) : (s.move i p).phase i = p := by simp [Clients.move]

omit [DecidableEq V] in
theorem move_other (s : Clients V) {i j : Nat} (p : Phase V) (h : j ≠ i) : (s.move i p).phase j = s.phase j := by simp [Clients.move, h]

/-- The invariant. -/
structure Inv (tabs : List Table) (trs : Nat → List (Nat × FieldTransformer V)) (db0 : Lookups V) (batches : Nat → List (RecordBatch V)) (s : Clients V) : Prop where
  cons : ∀ tb ∈ tabs, consistent tb (s.db tb.name) = true
  pre : ∀ q, db0 q <+: s.db q
  here : ∀ i, Local (trs i) s.db (batches i) ((s.sent i).map Prod.fst) (s.phase i)
  good : ∀ i, ∀ p ∈ s.sent i, Good (trs i) s.db p.1 p.2

theorem got_mono {trs : List (Nat × FieldTransformer V)} {db db' : Lookups V} (hp : ∀ q, db q <+: db' q) {fns : List (Field V → Except Err (Field V))}
    {rest : List (Nat × FieldTransformer V)} (h : Got trs db fns rest) : Got trs db' fns rest := by
  obtain ⟨done, h1, h2, h3⟩ := h
  exact ⟨done, h1, h2, fun k tr fn e1 e2 => C23.fnSound_mono hp (h3 k tr fn e1 e2)⟩

theorem local_mono {trs : List (Nat × FieldTransformer V)} {db db' : Lookups V} (hp : ∀ q, db q <+: db' q) {all before : List (RecordBatch V)} {p : Phase V}
    (h : Local trs db all before p) : Local trs db' all before p := by
  cases p with
  | next bs => exact h
  | collect b fns rest bs => exact ⟨h.1, got_mono hp h.2⟩
  | merging b fns tr tb labels left rest bs => exact ⟨h.1, got_mono hp h.2.1, h.2.2⟩
  | failed => exact h

theorem good_mono {tabs : List Table} {trs : List (Nat × FieldTransformer V)} (htr : ∀ p ∈ trs, ∀ tb, p.2.table? = some tb → tb ∈ tabs) {db db' : Lookups V}
    (hp : ∀ q, db q <+: db' q) (hc : ∀ tb ∈ tabs, consistent tb (db' tb.name) = true) {batch out : RecordBatch V} (h : Good trs db batch out) :
    Good trs db' batch out := by
  refine ⟨h.1, ?_⟩
  intro r k ix tr tb key value record stored f g e1 e2 e3 e4 e5 e6 hl
  have := h.2 r k ix tr tb key value record stored f g e1 e2 e3 e4 e5 e6 hl
  exact C23.resolves_mono hl (hp _) (hc tb (htr _ (List.mem_of_getElem? e3) tb e6)) this

theorem got_add {trs : List (Nat × FieldTransformer V)} {db : Lookups V} {fns : List (Field V → Except Err (Field V))} {tr : Nat × FieldTransformer V}
    {rest : List (Nat × FieldTransformer V)} (h : Got trs db fns (tr :: rest)) {fn : Field V → Except Err (Field V)} (hf : C23.FnSound db tr.2 fn) :
    Got trs db (fns ++ [fn]) rest := by
  obtain ⟨done, h1, h2, h3⟩ := h
  refine ⟨done ++ [tr], by rw [h1]; simp, by simp [h2], ?_⟩
  intro k tr' fn' e1 e2
  by_cases hk : k < done.length
  · rw [List.getElem?_append_left hk] at e1
    rw [List.getElem?_append_left (by omega)] at e2
    exact h3 k tr' fn' e1 e2
  · have hle : done.length ≤ k := by omega
    rw [List.getElem?_append_right hle] at e1
    rw [List.getElem?_append_right (by omega)] at e2
    rw [h2] at e2
    cases hd : k - done.length with
    | zero =>
      rw [hd] at e1 e2
      cases e1
      cases e2
      exact hf
    | succ n => rw [hd] at e1; simp at e1

theorem got_all {trs : List (Nat × FieldTransformer V)} {db : Lookups V} {fns : List (Field V → Except Err (Field V))} (h : Got trs db fns []) :
    fns.length = trs.length ∧ ∀ (k : Nat) (tr : Nat × FieldTransformer V) (fn : Field V → Except Err (Field V)), trs[k]? = some tr → fns[k]? = some fn → C23.FnSound db tr.2 fn := by
  obtain ⟨done, h1, h2, h3⟩ := h
  rw [List.append_nil] at h1
  subst h1
  exact ⟨h2, h3⟩

theorem send_good {tabs : List Table} {trs : List (Nat × FieldTransformer V)} (htr : ∀ p ∈ trs, ∀ tb, p.2.table? = some tb → tb ∈ tabs) {db : Lookups V}
    (hc : ∀ tb ∈ tabs, consistent tb (db tb.name) = true) {fns : List (Field V → Except Err (Field V))} (h : Got trs db fns []) {batch out : RecordBatch V}
    (hm : batch.mapM (applyFns ((trs.map Prod.fst).zip fns)) = .ok out) : Good trs db batch out := by
  refine ⟨C21.mapM_length hm, ?_⟩
  obtain ⟨hlen0, hsnd⟩ := got_all h
  intro r k ix tr tb key value record stored f g e1 e2 e3 e4 e5 e6 hl
  obtain ⟨hlen, hap⟩ := C23.applyFns_facts (C22.mapM_get hm e1 e2)
  have hk : k < fns.length := by
    have := (List.getElem?_eq_some_iff.1 e3).1
    omega
  have hfn : ((trs.map Prod.fst).zip fns)[k]? = some (ix, fns[k]) := by
    rw [List.getElem?_zip_eq_some, List.getElem?_map, e3]
    exact ⟨rfl, List.getElem?_eq_getElem hk⟩
  exact C23.resolves (hsnd k (ix, tr) fns[k] e3 (List.getElem?_eq_getElem hk)) e6 hl (hc tb (htr _ (List.mem_of_getElem? e3) tb e6))
    (hap k ix fns[k] f g hfn e4 e5)

/-- What is read is sound. -/
theorem read_sound {tb : Table} {rows selected : List (DataRow V)} {value0 key0 : Column} (hv : tb.valueColumns.head? = some value0) (hk : tb.primaryColumn = .ok key0)
    (hperm : selected.Perm rows) (labels : List V) {key value : Text} (hl : IsLookup tb key value) :
    C23.Sound key value rows (if labels = [] then [] else selected.map (fun r => (r value0.name, r key0.name))) := by
  intro p hp
  split at hp
  · cases hp
  · obtain ⟨r, hr, rfl⟩ := List.mem_map.1 hp
    have hkn : key0.name = key := by
      have := C26.primaryColumn_name hk
      rw [hl.primary] at this
      simpa using this.symm
    have hvn : value0.name = value := by
      have hm := List.mem_of_head? hv
      unfold Table.valueColumns at hm
      obtain ⟨h1, h2⟩ := List.mem_filter.1 hm
      have h3 := hl.columns.subset (List.mem_map_of_mem h1)
      rw [hl.primary] at h2
      simp only [Bool.and_eq_true, Bool.not_eq_true'] at h2
      have h4 : value0.name ≠ key := by
        have := h2.1
        simpa using this
      simpa [h4] using h3
    exact ⟨r, hperm.subset hr, by rw [hvn], by rw [hkn]⟩

variable {w : Writer} {dflt : QId → DataRow V} {gen : List (DataRow V) → (Text → V) → Prop} {tabs : List Table} {trs : Nat → List (Nat × FieldTransformer V)}
  {db0 : Lookups V} {batches : Nat → List (RecordBatch V)}

theorem step_inv (hone : ∀ tb ∈ tabs, ∀ tb' ∈ tabs, tb.name = tb'.name → tb = tb') (htr : ∀ i, ∀ p ∈ trs i, ∀ tb, p.2.table? = some tb → tb ∈ tabs)
    {s s' : Clients V} (v : Inv tabs trs db0 batches s) (h : ClientStep w dflt gen tabs trs s s') : Inv tabs trs db0 batches s' := by
  -- a step that changes a client only
  have only : ∀ {i : Nat} {p : Phase V}, Local (trs i) s.db (batches i) ((s.sent i).map Prod.fst) p → Inv tabs trs db0 batches (s.move i p) := by
    intro i p hp
    refine ⟨v.cons, v.pre, ?_, v.good⟩
    intro j
    by_cases e : j = i
    · subst e; rw [move_same]; exact hp
    · rw [move_other _ _ e]; exact v.here j
  cases h with
  | @take i batch bs h1 =>
    have := v.here i
    rw [h1] at this
    exact only ⟨this, [], rfl, rfl, fun k tr fn e => by simp at e⟩
  | @scalar i batch fns ix fn rest bs h1 =>
    have := v.here i
    rw [h1] at this
    exact only ⟨this.1, got_add this.2 trivial⟩
  | @begin i batch fns ix tr tb rest bs found labels h1 h2 h3 h4 h5 =>
    have := v.here i
    rw [h1] at this
    refine only ⟨this.1, this.2, ?_⟩
    rcases h2 with rfl | rfl <;> rfl
  | @label i batch fns tr tb labels lab left rest bs stmt g rows h1 h2 h3 h4 =>
    have hi := v.here i
    rw [h1] at hi
    obtain ⟨done, hd, _, _⟩ := hi.2.1
    have htb : tb ∈ tabs := htr i tr (by rw [hd]; simp) tb hi.2.2
    have hpre : ∀ q, s.db q <+: (if q = tb.name then rows else s.db q) := by
      intro q
      split
      · rename_i e; rw [e]; exact merge_prefix h2 h4
      · exact List.prefix_refl _
    have hcons : ∀ tb' ∈ tabs, consistent tb' (if tb'.name = tb.name then rows else s.db tb'.name) = true := by
      intro tb' htb'
      split
      · rename_i e
        cases hone tb' htb' tb htb e
        exact exec_consistent (v.cons _ htb) h4
      · exact v.cons tb' htb'
    refine ⟨hcons, fun q => (v.pre q).trans (hpre q), ?_, fun j p hp => good_mono (htr j) hpre hcons (v.good j p hp)⟩
    intro j
    refine local_mono hpre ?_
    by_cases e : j = i
    · subst e; rw [show (Clients.mk _ (s.move j _).phase _).phase j = _ from move_same _ _ _]; exact hi
    · rw [show (Clients.mk _ (s.move i _).phase _).phase j = _ from move_other _ _ e]; exact v.here j
  | @read i batch fns ix tr tb labels rest bs selected value0 key0 h1 h2 h3 h4 =>
    have hi := v.here i
    rw [h1] at hi
    refine only ⟨hi.1, got_add hi.2.1 ?_⟩
    have hb := hi.2.2
    cases tr with
    | scalar fn => trivial
    | enum tb' => cases hb; exact ⟨_, rfl, fun key value hl => read_sound h2 h3 h4 labels hl⟩
    | enumList tb' => cases hb; exact ⟨_, rfl, fun key value hl => read_sound h2 h3 h4 labels hl⟩
  | @send i batch out fns bs h1 h2 =>
    have hi := v.here i
    rw [h1] at hi
    refine ⟨v.cons, v.pre, ?_, ?_⟩
    · intro j
      by_cases e : j = i
      · subst e
        rw [show (Clients.mk _ (s.move j _).phase _).phase j = _ from move_same _ _ _]
        simp only [if_true]
        show _ ++ _ = _
        rw [List.map_append, List.append_assoc]
        exact hi.1
      · rw [show (Clients.mk _ (s.move i _).phase _).phase j = _ from move_other _ _ e]
        simp only [if_neg e]
        exact v.here j
    · intro j p hp
      by_cases e : j = i
      · subst e
        simp only [if_true] at hp
        rcases List.mem_append.1 hp with hp | hp
        · exact v.good j p hp
        · cases List.mem_singleton.1 hp
          exact send_good (htr j) v.cons hi.2 h2
      · simp only [if_neg e] at hp
        exact v.good j p hp
  | fail i =>
    refine only ?_
    have := v.here i
    cases hph : s.phase i with
    | next bs => rw [hph] at this; exact ⟨_, this⟩
    | collect b fns rest bs => rw [hph] at this; exact ⟨_, this.1⟩
    | merging b fns tr tb labels left rest bs => rw [hph] at this; exact ⟨_, this.1⟩
    | failed => rw [hph] at this; exact this
  | outside h1 h2 =>
    exact ⟨h2, fun q => (v.pre q).trans (h1 q), fun j => local_mono h1 (v.here j), fun j p hp => good_mono (htr j) h1 h2 (v.good j p hp)⟩

theorem inv (hone : ∀ tb ∈ tabs, ∀ tb' ∈ tabs, tb.name = tb'.name → tb = tb') (htr : ∀ i, ∀ p ∈ trs i, ∀ tb, p.2.table? = some tb → tb ∈ tabs)
    (hc : ∀ tb ∈ tabs, consistent tb (db0 tb.name) = true) {s : Clients V} (h : Reached w dflt gen tabs trs db0 batches s) : Inv tabs trs db0 batches s := by
  induction h with
  | init => exact ⟨hc, fun _ => List.prefix_refl _, fun _ => rfl, fun _ _ hp => by cases hp⟩
  | step _ hs ih => exact step_inv hone htr ih hs

end C65

/-- Any number of clients, any batches, any interleaving of their statements and those of other programs that add labels, any failures: at any time, each value that a client has sent
    for a label resolves to that label in the lookup table as it is now (and the label has that key only); the batches sent are the first of those supplied, in order and complete. -/
theorem C65_labels_resolve {w : Writer} {dflt : QId → DataRow V} {gen : List (DataRow V) → (Text → V) → Prop} {tabs : List Table}
    {trs : Nat → List (Nat × FieldTransformer V)} {db0 : Lookups V} {batches : Nat → List (RecordBatch V)}
    (hone : ∀ tb ∈ tabs, ∀ tb' ∈ tabs, tb.name = tb'.name → tb = tb') (htr : ∀ i, ∀ p ∈ trs i, ∀ tb, p.2.table? = some tb → tb ∈ tabs)
    (hc : ∀ tb ∈ tabs, consistent tb (db0 tb.name) = true) {s : Clients V} (h : Reached w dflt gen tabs trs db0 batches s) (i : Nat) :
    (s.sent i).map Prod.fst <+: batches i ∧
    ∀ batch out, (batch, out) ∈ s.sent i → out.length = batch.length ∧
      ∀ (r k ix : Nat) (tr : FieldTransformer V) (tb : Table) (key value : Text) (record stored : List (Field V)) (f g : Field V),
        batch[r]? = some record → out[r]? = some stored → (trs i)[k]? = some (ix, tr) → record[ix]? = some f → stored[k]? = some g →
        tr.table? = some tb → IsLookup tb key value → Resolves key value (s.db tb.name) f g := by
  have v := C65.inv hone htr hc h
  refine ⟨?_, fun batch out hp => v.good i _ hp⟩
  have := v.here i
  cases hph : s.phase i with
  | next bs => rw [hph] at this; exact ⟨_, this⟩
  | collect b fns rest bs => rw [hph] at this; exact ⟨_, this.1⟩
  | merging b fns tr tb labels left rest bs => rw [hph] at this; exact ⟨_, this.1⟩
  | failed => rw [hph] at this; exact this

/-- At any time, whatever the clients and other programs have done: rows that were there are there, unchanged; and no label has two keys, no key two labels. -/
theorem C65_one_key {w : Writer} {dflt : QId → DataRow V} {gen : List (DataRow V) → (Text → V) → Prop} {tabs : List Table}
    {trs : Nat → List (Nat × FieldTransformer V)} {db0 : Lookups V} {batches : Nat → List (RecordBatch V)}
    (hone : ∀ tb ∈ tabs, ∀ tb' ∈ tabs, tb.name = tb'.name → tb = tb') (htr : ∀ i, ∀ p ∈ trs i, ∀ tb, p.2.table? = some tb → tb ∈ tabs)
    (hc : ∀ tb ∈ tabs, consistent tb (db0 tb.name) = true) {s : Clients V} (h : Reached w dflt gen tabs trs db0 batches s) :
    (∀ q, db0 q <+: s.db q) ∧
    ∀ tb ∈ tabs, ∀ key value, IsLookup tb key value → ∀ r ∈ s.db tb.name, ∀ r' ∈ s.db tb.name,
      (r key).isSome ∧ (r value).isSome ∧ (r value = r' value ↔ r key = r' key) := by
  have v := C65.inv hone htr hc h
  refine ⟨v.pre, ?_⟩
  intro tb htb key value hl r hr r' hr'
  have hcc := v.cons tb htb
  have hnn : ∀ r ∈ s.db tb.name, ∀ n ∈ tb.columns.items.map Column.name, (r n).isSome := by
    intro r hr n hn
    obtain ⟨c, hcm, rfl⟩ := List.mem_map.1 hn
    have := (consistent_iff.1 hcc).1 r hr
    unfold notNull at this
    have := List.all_eq_true.1 this c hcm
    simpa [hl.mandatory c hcm] using this
  have hk := hnn r hr key (hl.columns.symm.subset (by simp))
  have hv := hnn r hr value (hl.columns.symm.subset (by simp))
  have same : ∀ n, [n] ∈ uniqueSets tb → (r n).isSome → r n = r' n → r = r' := by
    intro n hu hs e
    obtain ⟨x, hx⟩ := Option.isSome_iff_exists.1 hs
    refine same_row hcc hu hr hr' ?_
    rw [agreeOn_iff]
    intro c hcm
    rw [List.mem_singleton.1 hcm]
    exact ⟨x, hx, e ▸ hx⟩
  refine ⟨hk, hv, fun e => ?_, fun e => ?_⟩
  · rw [same value (C23.value_unique hl) hv e]
  · rw [same key (by unfold uniqueSets; rw [hl.primary]; exact List.mem_cons_self) hk e]

namespace Spec

/-- Clients whose records suit their tables, which are those of enumerations, and an engine that generates new keys. -/
structure FairClients (gen : List (DataRow V) → (Text → V) → Prop) (tabs : List Table) (trs : Nat → List (Nat × FieldTransformer V))
    (batches : Nat → List (RecordBatch V)) : Prop where
  fresh : ∀ rows g, gen rows g → ∀ c, ∀ r ∈ rows, r c ≠ some (g c)
  able : ∀ rows, ∃ g, gen rows g
  enums : ∀ tb ∈ tabs, ∃ key value, IsEnumTable tb key value
  suits : ∀ i, ∀ batch ∈ batches i, ∀ r ∈ batch, ∀ p ∈ trs i, Suits p.2 r[p.1]?

end Spec

namespace C65

/-- The function accepts the fields of the batch. -/
def Accepts (batch : RecordBatch V) (tr : Nat × FieldTransformer V) (fn : Field V → Except Err (Field V)) : Prop :=
  ∀ r ∈ batch, ∃ f g, fieldAt tr.1 r = .ok f ∧ applyField fn f = .ok g

/-- The functions got so far accept the fields of the batch. -/
def AllAccept (trs : List (Nat × FieldTransformer V)) (batch : RecordBatch V) (fns : List (Field V → Except Err (Field V)))
    (rest : List (Nat × FieldTransformer V)) : Prop :=
  ∃ done, trs = done ++ rest ∧ fns.length = done.length ∧
    ∀ (k : Nat) (tr : Nat × FieldTransformer V) (fn : Field V → Except Err (Field V)), done[k]? = some tr → fns[k]? = some fn → Accepts batch tr fn

/-- Nothing is missing. -/
def Ready (trs : List (Nat × FieldTransformer V)) (db : Lookups V) : Phase V → Prop
  | .next _ => True
  | .collect batch fns rest _ => AllAccept trs batch fns rest
  | .merging batch fns tr tb labels left rest _ => AllAccept trs batch fns (tr :: rest) ∧
      (∀ r ∈ batch, ∀ f, r[tr.1]? = some f → ∀ ls, tr.2.labels f = .ok ls → ∀ l ∈ ls, l ∈ labels) ∧
      ∀ l ∈ labels, l ∈ left ∨ ∀ key value, IsEnumTable tb key value → ∃ r ∈ db tb.name, r value = some l
  | .failed => True

omit [DecidableEq V] in
theorem accept_add {trs : List (Nat × FieldTransformer V)} {batch : RecordBatch V} {fns : List (Field V → Except Err (Field V))} {tr : Nat × FieldTransformer V}
    {rest : List (Nat × FieldTransformer V)} (h : AllAccept trs batch fns (tr :: rest)) {fn : Field V → Except Err (Field V)} (hf : Accepts batch tr fn) :
    AllAccept trs batch (fns ++ [fn]) rest := by
  obtain ⟨done, h1, h2, h3⟩ := h
  refine ⟨done ++ [tr], by rw [h1]; simp, by simp [h2], ?_⟩
  intro k tr' fn' e1 e2
  by_cases hk : k < done.length
  · rw [List.getElem?_append_left hk] at e1
    rw [List.getElem?_append_left (by omega)] at e2
    exact h3 k tr' fn' e1 e2
  · have hle : done.length ≤ k := by omega
    rw [List.getElem?_append_right hle] at e1
    rw [List.getElem?_append_right (by omega)] at e2
    rw [h2] at e2
    cases hd : k - done.length with
    | zero =>
      rw [hd] at e1 e2
      cases e1
      cases e2
      exact hf
    | succ n => rw [hd] at e1; simp at e1

omit [DecidableEq V] in
theorem ready_mono {trs : List (Nat × FieldTransformer V)} {db db' : Lookups V} (hp : ∀ q, db q <+: db' q) {p : Phase V} (h : Ready trs db p) : Ready trs db' p := by
  cases p with
  | next bs => trivial
  | collect b fns rest bs => exact h
  | merging b fns tr tb labels left rest bs =>
    refine ⟨h.1, h.2.1, fun l hl => (h.2.2 l hl).imp id (fun hr key value he => ?_)⟩
    obtain ⟨r, hr, e⟩ := hr key value he
    exact ⟨r, (hp _).subset hr, e⟩
  | failed => trivial

omit [DecidableEq V] in
theorem applyFns_ok : ∀ {trs : List (Nat × FieldTransformer V)} {fns : List (Field V → Except Err (Field V))} {r : List (Field V)},
    (∀ (k : Nat) (tr : Nat × FieldTransformer V) (fn : Field V → Except Err (Field V)), trs[k]? = some tr → fns[k]? = some fn →
      ∃ f g, fieldAt tr.1 r = .ok f ∧ applyField fn f = .ok g) →
    ∃ out, applyFns ((trs.map Prod.fst).zip fns) r = .ok out := by
  intro trs
  induction trs with
  | nil => intro fns r _; exact ⟨[], rfl⟩
  | cons p trs ih =>
    intro fns r h
    cases fns with
    | nil => exact ⟨[], rfl⟩
    | cons fn fns =>
      obtain ⟨f, g, hf, hfg⟩ := h 0 p fn rfl rfl
      obtain ⟨out, ho⟩ := ih (fns := fns) (r := r) (fun k tr fn' e1 e2 => h (k + 1) tr fn' (by simpa using e1) (by simpa using e2))
      exact ⟨g :: out, by simp only [List.map_cons, List.zip_cons_cons, applyFns, hf, hfg, ho, bind, Except.bind, pure, Except.pure]⟩

theorem scalar_accepts {batch : RecordBatch V} {ix : Nat} {fn : Option (Field V → Field V)} (hs : ∀ r ∈ batch, Suits (.scalar fn : FieldTransformer V) r[ix]?) :
    Accepts batch (ix, .scalar fn) (FieldTransformer.lookupFn [] (.scalar fn)) := by
  intro r hr
  obtain ⟨f, _, hf, _⟩ := C23.labels_suit (hs r hr)
  refine ⟨f, ?_⟩
  cases f with
  | null => exact ⟨_, hf, rfl⟩
  | one v => exact ⟨_, hf, rfl⟩
  | many v => exact ⟨_, hf, rfl⟩

theorem lookup_accepts {batch : RecordBatch V} {ix : Nat} {tr : FieldTransformer V} {labels : List V} (hs : ∀ r ∈ batch, Suits tr r[ix]?)
    (hin : ∀ r ∈ batch, ∀ f, r[ix]? = some f → ∀ ls, tr.labels f = .ok ls → ∀ l ∈ ls, l ∈ labels) {dict : List (Option V × Option V)}
    (hd : ∀ l ∈ labels, ∃ y, dictGet dict (some l) = .ok y) : Accepts batch (ix, tr) (tr.lookupFn dict) := by
  intro r hr
  obtain ⟨f, hg, hf, _⟩ := C23.labels_suit (hs r hr)
  have h := hs r hr
  rw [hg] at h
  refine ⟨f, ?_⟩
  cases tr with
  | scalar fn =>
    cases f with
    | null => exact ⟨_, hf, rfl⟩
    | one v => exact ⟨_, hf, rfl⟩
    | many v => exact ⟨_, hf, rfl⟩
  | enum tb =>
    cases f with
    | null => exact ⟨_, hf, rfl⟩
    | one v =>
      obtain ⟨y, hy⟩ := hd v (hin r hr _ hg [v] rfl v (by simp))
      exact ⟨_, hf, by simp only [FieldTransformer.lookupFn, applyField, enumFn, hy, bind, Except.bind, pure, Except.pure]; rfl⟩
    | many v => exact h.elim
  | enumList tb =>
    cases f with
    | null => exact ⟨_, hf, rfl⟩
    | one v => exact h.elim
    | many items =>
      have hsome : ∀ x ∈ items, x.isSome = true := h
      obtain ⟨ys, hys⟩ : ∃ ys, items.mapM (fun item => dictGet dict item) = .ok ys := by
        refine C23.mapM_all_ok (fun x hx => ?_)
        obtain ⟨v, rfl⟩ := Option.isSome_iff_exists.1 (hsome x hx)
        exact hd v (hin r hr _ hg _ rfl v (List.mem_filterMap.2 ⟨some v, hx, rfl⟩))
      exact ⟨.many ys, hf, by simp only [FieldTransformer.lookupFn, applyField, enumListFn, hys, bind, Except.bind, pure, Except.pure]⟩

variable {w : Writer} {dflt : QId → DataRow V} {gen : List (DataRow V) → (Text → V) → Prop} {tabs : List Table} {trs : Nat → List (Nat × FieldTransformer V)}
  {db0 : Lookups V} {batches : Nat → List (RecordBatch V)}

theorem step_db {s s' : Clients V} (h : ClientStep w dflt gen tabs trs s s') : ∀ q, s.db q <+: s'.db q := by
  intro q
  cases h with
  | label h1 h2 h3 h4 =>
    dsimp only
    split
    · rename_i e; rw [e]; exact merge_prefix h2 h4
    · exact List.prefix_refl _
  | outside h1 h2 => exact h1 q
  | _ => exact List.prefix_refl _

/-- A client whose phase is not changed. -/
theorem ready_move {s : Clients V} (hr : ∀ j, Ready (trs j) s.db (s.phase j)) {i : Nat} {p : Phase V} {db' : Lookups V} (hp : ∀ q, s.db q <+: db' q)
    (h : Ready (trs i) db' p) : ∀ j, Ready (trs j) db' ((s.move i p).phase j) := by
  intro j
  by_cases e : j = i
  · subst e; rw [move_same]; exact h
  · rw [move_other _ _ e]; exact ready_mono hp (hr j)

theorem step_ready (hone : ∀ tb ∈ tabs, ∀ tb' ∈ tabs, tb.name = tb'.name → tb = tb') (htr : ∀ i, ∀ p ∈ trs i, ∀ tb, p.2.table? = some tb → tb ∈ tabs)
    (hf : FairClients gen tabs trs batches) {s s' : Clients V} (v : Inv tabs trs db0 batches s) (hr : ∀ j, Ready (trs j) s.db (s.phase j))
    (h : ClientStep w dflt gen tabs trs s s') : ∀ j, Ready (trs j) s'.db (s'.phase j) := by
  have hdb := step_db h
  cases h with
  | @take i batch bs h1 => exact ready_move hr hdb ⟨[], rfl, rfl, fun k tr fn e => by simp at e⟩
  | @scalar i batch fns ix fn rest bs h1 =>
    have hi := hr i
    rw [h1] at hi
    have hv := v.here i
    rw [h1] at hv
    have hmem : batch ∈ batches i := by rw [← hv.1]; simp
    obtain ⟨done, hd, _, _⟩ := hv.2
    exact ready_move hr hdb (accept_add hi (scalar_accepts (fun r hr => hf.suits i batch hmem r hr (ix, .scalar fn) (by rw [hd]; simp))))
  | @begin i batch fns ix tr tb rest bs found labels h1 h2 h3 h4 h5 =>
    have hi := hr i
    rw [h1] at hi
    have hv := v.here i
    rw [h1] at hv
    have hmem : batch ∈ batches i := by rw [← hv.1]; simp
    obtain ⟨done, hd, _, _⟩ := hv.2
    obtain ⟨found', hfd, hin⟩ := C23.batch_labels (tr := tr) (i := ix) (fun r hr => hf.suits i batch hmem r hr (ix, tr) (by rw [hd]; simp))
    rw [h3] at hfd
    cases hfd
    exact ready_move hr hdb ⟨hi, fun r hr f e ls e' l hl => (h5 l).2 (hin r hr f e ls e' l hl), fun l hl => .inl hl⟩
  | @label i batch fns tr tb labels lab left rest bs stmt g rows h1 h2 h3 h4 =>
    have hi := hr i
    rw [h1] at hi
    have hv := v.here i
    rw [h1] at hv
    obtain ⟨done, hd, _, _⟩ := hv.2.1
    have htb : tb ∈ tabs := htr i tr (by rw [hd]; simp) tb hv.2.2
    have key : ∀ key value, IsEnumTable tb key value → ∃ r ∈ rows, r value = some lab := by
      intro key value he
      obtain ⟨rows', e, r, hr, er⟩ := C23.label_step he h2 (dflt := dflt tb.name) (v.cons tb htb) (hf.fresh _ _ h3) lab
      rw [h4] at e
      cases e
      exact ⟨r, hr, er⟩
    refine ready_move hr hdb ?_
    refine ⟨hi.1, hi.2.1, fun l hl => ?_⟩
    dsimp only
    rw [if_pos rfl]
    rcases hi.2.2 l hl with hl' | hl'
    · rcases List.mem_cons.1 hl' with rfl | hl'
      · exact .inr key
      · exact .inl hl'
    · refine .inr (fun k val he => ?_)
      obtain ⟨r, hr, er⟩ := hl' k val he
      exact ⟨r, (merge_prefix h2 h4).subset hr, er⟩
  | @read i batch fns ix tr tb labels rest bs selected value0 key0 h1 h2 h3 h4 =>
    have hi := hr i
    rw [h1] at hi
    have hv := v.here i
    rw [h1] at hv
    have hmem : batch ∈ batches i := by rw [← hv.1]; simp
    obtain ⟨done, hd, _, _⟩ := hv.2.1
    have htb : tb ∈ tabs := htr i (ix, tr) (by rw [hd]; simp) tb hv.2.2
    obtain ⟨key, value, he⟩ := hf.enums tb htb
    obtain ⟨vc, hvc, hvn⟩ := C23.value_column he
    rw [h2] at hvc
    cases hvc
    refine ready_move hr hdb (accept_add hi.1 (lookup_accepts (fun r hr => hf.suits i batch hmem r hr (ix, tr) (by rw [hd]; simp)) hi.2.1 ?_))
    intro l hl
    rcases hi.2.2 l hl with h | h
    · cases h
    · obtain ⟨r, hr, er⟩ := h key value he
      rw [if_neg (by rintro rfl; cases hl)]
      exact C23.dictGet_ok (x := r key0.name) (List.mem_map.2 ⟨r, h4.symm.subset hr, by rw [hvn, er]⟩)
  | @send i batch out fns bs h1 h2 => exact ready_move hr hdb trivial
  | fail i => exact ready_move hr hdb trivial
  | outside h1 h2 => exact fun j => ready_mono h1 (hr j)

theorem ready (hone : ∀ tb ∈ tabs, ∀ tb' ∈ tabs, tb.name = tb'.name → tb = tb') (htr : ∀ i, ∀ p ∈ trs i, ∀ tb, p.2.table? = some tb → tb ∈ tabs)
    (hc : ∀ tb ∈ tabs, consistent tb (db0 tb.name) = true) (hf : FairClients gen tabs trs batches) {s : Clients V}
    (h : Reached w dflt gen tabs trs db0 batches s) : ∀ j, Ready (trs j) s.db (s.phase j) := by
  induction h with
  | init => exact fun _ => trivial
  | step h0 hs ih => exact step_ready hone htr hf (inv hone htr hc h0) ih hs

theorem steps_reached {s s' : Clients V} (h : ClientSteps w dflt gen tabs trs s s') : Reached w dflt gen tabs trs db0 batches s →
    Reached w dflt gen tabs trs db0 batches s' := by
  induction h with
  | refl => exact id
  | step h1 _ ih => exact fun h => ih (.step h h1)

theorem steps_trans {s s' s'' : Clients V} (h : ClientSteps w dflt gen tabs trs s s') (h' : ClientSteps w dflt gen tabs trs s' s'') :
    ClientSteps w dflt gen tabs trs s s'' := by
  induction h with
  | refl => exact h'
  | step h1 _ ih => exact .step h1 (ih h')

/-- The client can always go on. -/
theorem progress (hone : ∀ tb ∈ tabs, ∀ tb' ∈ tabs, tb.name = tb'.name → tb = tb') (htr : ∀ i, ∀ p ∈ trs i, ∀ tb, p.2.table? = some tb → tb ∈ tabs)
    (hc : ∀ tb ∈ tabs, consistent tb (db0 tb.name) = true) (hf : FairClients gen tabs trs batches) {s : Clients V}
    (h : Reached w dflt gen tabs trs db0 batches s) (i : Nat) :
    match s.phase i with
    | .next _ => True
    | .collect batch fns [] _ => ∃ out, batch.mapM (applyFns (((trs i).map Prod.fst).zip fns)) = .ok out
    | .collect batch _ ((ix, tr) :: _) _ => ∃ found, batchLabels tr ix batch = .ok found
    | .merging _ _ _ tb _ [] _ _ => (∃ value, tb.valueColumns.head? = some value) ∧ ∃ key, tb.primaryColumn = .ok key
    | .merging _ _ _ tb _ (l :: _) _ _ => ∃ stmt, mergeStmt w tb none = .ok stmt ∧
        ∀ g, gen (s.db tb.name) g → ∃ rows, exec tb (dflt tb.name) g (s.db tb.name) stmt [some l] = some rows
    | .failed => True := by
  have v := inv hone htr hc h
  have hr := ready hone htr hc hf h i
  have hv := v.here i
  cases hph : s.phase i with
  | next bs => trivial
  | failed => trivial
  | collect batch fns rest bs =>
    rw [hph] at hr hv
    have hmem : batch ∈ batches i := by rw [← hv.1]; simp
    obtain ⟨done, hd, _, _⟩ := hv.2
    cases rest with
    | nil =>
      obtain ⟨done', hd', _, hacc⟩ := hr
      rw [List.append_nil] at hd'
      subst hd'
      exact C23.mapM_all_ok (fun r hr => applyFns_ok (fun k tr fn e1 e2 => hacc k tr fn e1 e2 r hr))
    | cons p rest =>
      obtain ⟨ix, tr⟩ := p
      obtain ⟨found, hfd, _⟩ := C23.batch_labels (tr := tr) (i := ix) (fun r hr => hf.suits i batch hmem r hr (ix, tr) (by rw [hd]; simp))
      exact ⟨found, hfd⟩
  | merging batch fns tr tb labels left rest bs =>
    rw [hph] at hr hv
    obtain ⟨done, hd, _, _⟩ := hv.2.1
    have htb : tb ∈ tabs := htr i tr (by rw [hd]; simp) tb hv.2.2
    obtain ⟨key, value, he⟩ := hf.enums tb htb
    cases left with
    | nil =>
      obtain ⟨vc, hvc, _⟩ := C23.value_column he
      exact ⟨⟨vc, hvc⟩, C23.key_column he.toIsLookup⟩
    | cons l left =>
      obtain ⟨stmt, hs⟩ := C23.merge_stmt_ok w he.toIsLookup
      refine ⟨stmt, hs, fun g hg => ?_⟩
      obtain ⟨rows, e, _⟩ := C23.label_step he hs (dflt := dflt tb.name) (v.cons tb htb) (hf.fresh _ _ hg) l
      exact ⟨rows, e⟩

/-- The other clients are where they were. -/
def Alone (i : Nat) (s s' : Clients V) : Prop := ∀ j, j ≠ i → s'.phase j = s.phase j ∧ s'.sent j = s.sent j

omit [DecidableEq V] in
theorem alone_trans {i : Nat} {s s' s'' : Clients V} (h : Alone i s s') (h' : Alone i s' s'') : Alone i s s'' :=
  fun j hj => ⟨(h' j hj).1.trans (h j hj).1, (h' j hj).2.trans (h j hj).2⟩

omit [DecidableEq V] in
theorem alone_move (i : Nat) (s : Clients V) (p : Phase V) : Alone i s (s.move i p) := fun _ hj => ⟨move_other _ _ hj, rfl⟩

theorem finish_merge (hone : ∀ tb ∈ tabs, ∀ tb' ∈ tabs, tb.name = tb'.name → tb = tb') (htr : ∀ i, ∀ p ∈ trs i, ∀ tb, p.2.table? = some tb → tb ∈ tabs)
    (hc : ∀ tb ∈ tabs, consistent tb (db0 tb.name) = true) (hf : FairClients gen tabs trs batches) (i : Nat) {batch : RecordBatch V}
    {fns : List (Field V → Except Err (Field V))} {tr : Nat × FieldTransformer V} {tb : Table} {labels : List V} {rest : List (Nat × FieldTransformer V)}
    {bs : List (RecordBatch V)} : ∀ (left : List V) (s : Clients V), Reached w dflt gen tabs trs db0 batches s →
      s.phase i = .merging batch fns tr tb labels left rest bs →
      ∃ s' fns', ClientSteps w dflt gen tabs trs s s' ∧ s'.phase i = .collect batch fns' rest bs ∧ Alone i s s' := by
  intro left
  induction left with
  | nil =>
    intro s h hp
    have := progress hone htr hc hf h i
    rw [hp] at this
    obtain ⟨⟨vc, hv⟩, kc, hk⟩ := this
    exact ⟨_, _, .step (.read (selected := s.db tb.name) hp hv hk (List.Perm.refl _)) (.refl _), move_same _ _ _, alone_move _ _ _⟩
  | cons l left ih =>
    intro s h hp
    have := progress hone htr hc hf h i
    rw [hp] at this
    obtain ⟨stmt, hs, hx⟩ := this
    obtain ⟨g, hg⟩ := hf.able (s.db tb.name)
    obtain ⟨rows, hrows⟩ := hx g hg
    have st := ClientStep.label (trs := trs) (tabs := tabs) hp hs hg hrows
    obtain ⟨s', fns', h1, h2, h3⟩ := ih _ (.step h st) (move_same _ _ _)
    exact ⟨s', fns', .step st h1, h2, alone_trans (fun j hj => ⟨move_other _ _ hj, rfl⟩) h3⟩

theorem finish_collect (hone : ∀ tb ∈ tabs, ∀ tb' ∈ tabs, tb.name = tb'.name → tb = tb') (htr : ∀ i, ∀ p ∈ trs i, ∀ tb, p.2.table? = some tb → tb ∈ tabs)
    (hc : ∀ tb ∈ tabs, consistent tb (db0 tb.name) = true) (hf : FairClients gen tabs trs batches) (i : Nat) {batch : RecordBatch V}
    {bs : List (RecordBatch V)} : ∀ (rest : List (Nat × FieldTransformer V)) (fns : List (Field V → Except Err (Field V))) (s : Clients V),
      Reached w dflt gen tabs trs db0 batches s → s.phase i = .collect batch fns rest bs →
      ∃ s', ClientSteps w dflt gen tabs trs s s' ∧ s'.phase i = .next bs ∧ Alone i s s' := by
  intro rest
  induction rest with
  | nil =>
    intro fns s h hp
    have := progress hone htr hc hf h i
    rw [hp] at this
    obtain ⟨out, ho⟩ := this
    refine ⟨_, .step (.send hp ho) (.refl _), move_same _ _ _, fun j hj => ⟨move_other _ _ hj, ?_⟩⟩
    simp [hj]
  | cons p rest ih =>
    intro fns s h hp
    obtain ⟨ix, tr⟩ := p
    have hpr := progress hone htr hc hf h i
    rw [hp] at hpr
    obtain ⟨found, hfd⟩ := hpr
    have lookup : ∀ tb, tr = .enum tb ∨ tr = .enumList tb → ∃ s', ClientSteps w dflt gen tabs trs s s' ∧ s'.phase i = .next bs ∧ Alone i s s' := by
      intro tb htb
      have st := ClientStep.begin (w := w) (dflt := dflt) (gen := gen) (tabs := tabs) (trs := trs) (labels := found.eraseDups) hp htb hfd
        (C36.nodup_eraseDups _) (fun v => C36.mem_eraseDups)
      obtain ⟨s1, fns1, h1, h2, h3⟩ := finish_merge hone htr hc hf i found.eraseDups _ (.step h st) (move_same _ _ _)
      obtain ⟨s2, h4, h5, h6⟩ := ih fns1 s1 (steps_reached h1 (.step h st)) h2
      exact ⟨s2, .step st (steps_trans h1 h4), h5, alone_trans (alone_move _ _ _) (alone_trans h3 h6)⟩
    cases tr with
    | scalar fn =>
      have st := ClientStep.scalar (w := w) (dflt := dflt) (gen := gen) (tabs := tabs) (trs := trs) hp
      obtain ⟨s', h1, h2, h3⟩ := ih _ _ (.step h st) (move_same _ _ _)
      exact ⟨s', .step st h1, h2, alone_trans (alone_move _ _ _) h3⟩
    | enum tb => exact lookup tb (.inl rfl)
    | enumList tb => exact lookup tb (.inr rfl)

theorem finish_next (hone : ∀ tb ∈ tabs, ∀ tb' ∈ tabs, tb.name = tb'.name → tb = tb') (htr : ∀ i, ∀ p ∈ trs i, ∀ tb, p.2.table? = some tb → tb ∈ tabs)
    (hc : ∀ tb ∈ tabs, consistent tb (db0 tb.name) = true) (hf : FairClients gen tabs trs batches) (i : Nat) :
    ∀ (bs : List (RecordBatch V)) (s : Clients V), Reached w dflt gen tabs trs db0 batches s → s.phase i = .next bs →
      ∃ s', ClientSteps w dflt gen tabs trs s s' ∧ s'.phase i = .next [] ∧ Alone i s s' := by
  intro bs
  induction bs with
  | nil => intro s h hp; exact ⟨s, .refl _, hp, fun _ _ => ⟨rfl, rfl⟩⟩
  | cons batch bs ih =>
    intro s h hp
    have st := ClientStep.take (w := w) (dflt := dflt) (gen := gen) (tabs := tabs) (trs := trs) hp
    obtain ⟨s1, h1, h2, h3⟩ := finish_collect hone htr hc hf i (trs i) [] _ (.step h st) (move_same _ _ _)
    obtain ⟨s2, h4, h5, h6⟩ := ih s1 (steps_reached h1 (.step h st)) h2
    exact ⟨s2, .step st (steps_trans h1 h4), h5, alone_trans (alone_move _ _ _) (alone_trans h3 h6)⟩

end C65

/-- Clients do not get in each other's way: whatever the others have done, and wherever they are (also if they have failed, in the middle of a batch), no statement of a client is refused, no
    label is missing, and the columns are found. -/
theorem C65_never_refused {w : Writer} {dflt : QId → DataRow V} {gen : List (DataRow V) → (Text → V) → Prop} {tabs : List Table}
    {trs : Nat → List (Nat × FieldTransformer V)} {db0 : Lookups V} {batches : Nat → List (RecordBatch V)}
    (hone : ∀ tb ∈ tabs, ∀ tb' ∈ tabs, tb.name = tb'.name → tb = tb') (htr : ∀ i, ∀ p ∈ trs i, ∀ tb, p.2.table? = some tb → tb ∈ tabs)
    (hc : ∀ tb ∈ tabs, consistent tb (db0 tb.name) = true) (hf : FairClients gen tabs trs batches) {s : Clients V}
    (h : Reached w dflt gen tabs trs db0 batches s) (i : Nat) :
    match s.phase i with
    | .next _ => True
    | .collect batch fns [] _ => ∃ out, batch.mapM (applyFns (((trs i).map Prod.fst).zip fns)) = .ok out
    | .collect batch _ ((ix, tr) :: _) _ => ∃ found, batchLabels tr ix batch = .ok found
    | .merging _ _ _ tb _ [] _ _ => (∃ value, tb.valueColumns.head? = some value) ∧ ∃ key, tb.primaryColumn = .ok key
    | .merging _ _ _ tb _ (l :: _) _ _ => ∃ stmt, mergeStmt w tb none = .ok stmt ∧
        ∀ g, gen (s.db tb.name) g → ∃ rows, exec tb (dflt tb.name) g (s.db tb.name) stmt [some l] = some rows
    | .failed => True := C65.progress hone htr hc hf h i

/-- A client that has not failed can finish, without waiting for any other client: in the end it has sent all its batches. -/
theorem C65_can_finish {w : Writer} {dflt : QId → DataRow V} {gen : List (DataRow V) → (Text → V) → Prop} {tabs : List Table}
    {trs : Nat → List (Nat × FieldTransformer V)} {db0 : Lookups V} {batches : Nat → List (RecordBatch V)}
    (hone : ∀ tb ∈ tabs, ∀ tb' ∈ tabs, tb.name = tb'.name → tb = tb') (htr : ∀ i, ∀ p ∈ trs i, ∀ tb, p.2.table? = some tb → tb ∈ tabs)
    (hc : ∀ tb ∈ tabs, consistent tb (db0 tb.name) = true) (hf : FairClients gen tabs trs batches) {s : Clients V}
    (h : Reached w dflt gen tabs trs db0 batches s) {i : Nat} (hi : s.phase i ≠ .failed) :
    ∃ s', ClientSteps w dflt gen tabs trs s s' ∧ (s'.sent i).map Prod.fst = batches i ∧
      ∀ j, j ≠ i → s'.phase j = s.phase j ∧ s'.sent j = s.sent j := by
  have done : ∀ {s' : Clients V}, ClientSteps w dflt gen tabs trs s s' → s'.phase i = .next [] → (s'.sent i).map Prod.fst = batches i := by
    intro s' h1 h2
    have := (C65.inv hone htr hc (C65.steps_reached h1 h)).here i
    rw [h2] at this
    simpa [C65.Local] using this
  cases hph : s.phase i with
  | next bs =>
    obtain ⟨s', h1, h2, h3⟩ := C65.finish_next hone htr hc hf i bs s h hph
    exact ⟨s', h1, done h1 h2, h3⟩
  | collect batch fns rest bs =>
    obtain ⟨s1, h1, h2, h3⟩ := C65.finish_collect hone htr hc hf i rest fns s h hph
    obtain ⟨s', h4, h5, h6⟩ := C65.finish_next hone htr hc hf i bs s1 (C65.steps_reached h1 h) h2
    exact ⟨s', C65.steps_trans h1 h4, done (C65.steps_trans h1 h4) h5, C65.alone_trans h3 h6⟩
  | merging batch fns tr tb labels left rest bs =>
    obtain ⟨s1, fns1, h1, h2, h3⟩ := C65.finish_merge hone htr hc hf i left s h hph
    obtain ⟨s2, h4, h5, h6⟩ := C65.finish_collect hone htr hc hf i rest fns1 s1 (C65.steps_reached h1 h) h2
    have h14 := C65.steps_trans h1 h4
    obtain ⟨s', h7, h8, h9⟩ := C65.finish_next hone htr hc hf i bs s2 (C65.steps_reached h14 h) h5
    exact ⟨s', C65.steps_trans h14 h7, done (C65.steps_trans h14 h7) h8, C65.alone_trans h3 (C65.alone_trans h6 h9)⟩
  | failed => exact absurd hph hi

namespace C65.Demo
open C23 Example

/-- The engine counts. -/
def counts (rows : List (DataRow Nat)) (g : Text → Nat) : Prop := g = count rows

/-- Both clients have a column with a number and one with a color. -/
def columns (_ : Nat) : List (Nat × FieldTransformer Nat) := [(0, .scalar none), (1, .enum color)]

/-- Both write a record with color 101, which is not in the table. -/
def records (i : Nat) : List (RecordBatch Nat) := if i = 0 then [[[.one 7, .one 101]]] else if i = 1 then [[[.one 8, .one 101]]] else []

theorem fair : FairClients counts [color] columns records where
  fresh := by intro rows g h c r hr; rw [h]; exact count_fresh rows c r hr
  able := fun rows => ⟨_, rfl⟩
  enums := by intro tb h; rw [List.mem_singleton.1 h]; exact ⟨_, _, color_enum⟩
  suits := by
    intro i batch hb r hr p hp
    unfold records at hb
    split at hb
    · rw [List.mem_singleton.1 hb] at hr
      rw [List.mem_singleton.1 hr]
      rcases List.mem_cons.1 hp with rfl | hp
      · simp [Suits]
      · rw [List.mem_singleton.1 hp]; simp [Suits]
    · split at hb
      · rw [List.mem_singleton.1 hb] at hr
        rw [List.mem_singleton.1 hr]
        rcases List.mem_cons.1 hp with rfl | hp
        · simp [Suits]
        · rw [List.mem_singleton.1 hp]; simp [Suits]
      · cases hb

theorem one : ∀ tb ∈ [color], ∀ tb' ∈ [color], tb.name = tb'.name → tb = tb' := by
  intro tb h tb' h' _
  rw [List.mem_singleton.1 h, List.mem_singleton.1 h']

theorem inTabs : ∀ i, ∀ p ∈ columns i, ∀ tb, p.2.table? = some tb → tb ∈ [color] := by
  intro i p hp tb h
  rcases List.mem_cons.1 hp with rfl | hp
  · cases h
  · rw [List.mem_singleton.1 hp] at h; cases h; simp

theorem cons0 : ∀ tb ∈ [color], consistent tb (db tb.name) = true := by
  intro tb h; rw [List.mem_singleton.1 h]; decide +kernel

/-- The label that both insert. -/
theorem both_begin : ∃ s, Reached .postgresql (fun _ _ => none) counts [color] columns db records s ∧ s.db = db ∧
    (∃ fns, s.phase 0 = .merging [[.one 7, .one 101]] fns (1, .enum color) color [101] [101] [] []) ∧
    (∃ fns, s.phase 1 = .merging [[.one 8, .one 101]] fns (1, .enum color) color [101] [101] [] []) ∧ ∀ j, s.sent j = [] := by
  refine ⟨_, .step (.step (.step (.step (.step (.step .init (.take (i := 0) rfl)) (.take (i := 1) rfl)) (.scalar (i := 0) rfl)) (.scalar (i := 1) rfl))
    (.begin (i := 0) (tb := color) (found := [101]) (labels := [101]) rfl (.inl rfl) rfl (by simp) (fun v => Iff.rfl)))
    (.begin (i := 1) (tb := color) (found := [101]) (labels := [101]) rfl (.inl rfl) rfl (by simp) (fun v => Iff.rfl)), rfl, ⟨_, rfl⟩, ⟨_, rfl⟩, fun j => rfl⟩

/-- Any such client can finish: both have found that the label is not there, none has inserted it. -/
example : ∃ s s', Reached .postgresql (fun _ _ => none) counts [color] columns db records s ∧
    ClientSteps .postgresql (fun _ _ => none) counts [color] columns s s' ∧
    (s'.sent 1).map Prod.fst = [[[.one 8, .one 101]]] ∧ s'.phase 0 = s.phase 0 ∧ s.phase 0 ≠ .failed := by
  obtain ⟨s, h, _, ⟨_, h0⟩, ⟨_, h1⟩, _⟩ := both_begin
  obtain ⟨s', h2, h3, h4⟩ := C65_can_finish one inTabs cons0 fair h (i := 1) (by rw [h1]; exact fun e => by cases e)
  exact ⟨s, s', h, h2, h3, (h4 0 (by decide)).1, by rw [h0]; exact fun e => by cases e⟩

/-- The table with both labels. -/
def two : List (DataRow Nat) := [row 1 100, newRow color (fun _ => none) (count [row 1 100]) [t "value"] [some 101]]

/-- Both insert the label, then both read the table, and send their records: the label has one key, and both records have it. -/
theorem both_insert : ∃ s, Reached .postgresql (fun _ _ => none) counts [color] columns db records s ∧
    s.sent 0 = [([[.one 7, .one 101]], [[.one 7, .one 2]])] ∧ s.sent 1 = [([[.one 8, .one 101]], [[.one 8, .one 2]])] ∧
    (s.db color.name).map (fun r => (r (t "id"), r (t "value"))) = [(some 1, some 100), (some 2, some 101)] := by
  have hm : ∀ (l : List (List (Field Nat))) (f : List (Field Nat) → Except Err (List (Field Nat))) (o : List (List (Field Nat))),
      (l.mapM f).toOption = some o → l.mapM f = .ok o := by
    intro l f o h
    cases hf : l.mapM f with
    | error e => rw [hf] at h; cases h
    | ok x => rw [hf] at h; cases h; rfl
  have h1 : ∀ g, counts [row 1 100] g → exec color (fun _ => none) g [row 1 100] (labelStmt .postgresql color.name (t "id") (t "value")) [some 101] = some two := by
    intro g hg; rw [hg]; rfl
  have h2 : ∀ g, counts two g → exec color (fun _ => none) g two (labelStmt .postgresql color.name (t "id") (t "value")) [some 101] = some two := by
    intro g hg; rw [hg]; rfl
  have hv : color.valueColumns.head? = some (col "value" text false) := by rfl
  have hk : color.primaryColumn = .ok { col "id" int8 false with identity := true } := by rfl
  have start := Reached.step (Reached.step (Reached.step (Reached.step (Reached.step (Reached.step (Reached.init (w := .postgresql) (dflt := fun _ _ => none) (gen := counts)
    (tabs := [color]) (trs := columns) (db0 := db) (batches := records)) (.take (i := 0) rfl)) (.take (i := 1) rfl)) (.scalar (i := 0) rfl)) (.scalar (i := 1) rfl))
    (.begin (i := 0) (tb := color) (found := [101]) (labels := [101]) rfl (.inl rfl) rfl (by simp) (fun v => Iff.rfl)))
    (.begin (i := 1) (tb := color) (found := [101]) (labels := [101]) rfl (.inl rfl) rfl (by simp) (fun v => Iff.rfl))
  have a1 := Reached.step start (.label (i := 0) (stmt := labelStmt .postgresql color.name (t "id") (t "value")) (g := count [row 1 100]) (rows := two) rfl (by rfl) rfl (h1 _ rfl))
  have a2 := Reached.step a1 (.label (i := 1) (stmt := labelStmt .postgresql color.name (t "id") (t "value")) (g := count two) (rows := two) rfl (by rfl) rfl (h2 _ rfl))
  have a3 := Reached.step a2 (.read (i := 1) (selected := two) rfl hv hk (List.Perm.refl _))
  have a4 := Reached.step a3 (.read (i := 0) (selected := two) rfl hv hk (List.Perm.refl _))
  have a5 := Reached.step a4 (.send (i := 0) (out := [[.one 7, .one 2]]) rfl (hm _ _ _ (by decide +kernel)))
  have a6 := Reached.step a5 (.send (i := 1) (out := [[.one 8, .one 2]]) rfl (hm _ _ _ (by decide +kernel)))
  exact ⟨_, a6, rfl, rfl, by decide +kernel⟩

end C65.Demo

end PySqlSync
