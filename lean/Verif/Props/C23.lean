/-
C23 — Enumeration labels are stored as keys that resolve back.
-/
import Verif.Model.Lookup
import Verif.Props.C24
import Verif.Props.C36

set_option autoImplicit false

namespace PySqlSync
open Spec

variable {V : Type} [DecidableEq V]

namespace Spec

/-- A table with two columns: a primary key, and a value that is unique; both mandatory. -/
structure IsLookup (tb : Table) (key value : Text) : Prop where
  primary : tb.primaryKey = [key]
  columns : (tb.columns.items.map Column.name).Perm [key, value]
  ne : key ≠ value
  lookup : tb.isLookupTable = .ok true
  mandatory : ∀ c ∈ tb.columns.items, c.nullable = false

/-- In the lookup table, the label has this key, and no other key. -/
def KeyOf (key value : Text) (rows : List (DataRow V)) (label k : V) : Prop :=
  (∃ r ∈ rows, r value = some label ∧ r key = some k) ∧ ∀ r ∈ rows, r value = some label → r key = some k

/-- A field with labels, and the field with their keys: NULL is NULL, and a list has the keys in the same order. -/
inductive Resolves (key value : Text) (rows : List (DataRow V)) : Field V → Field V → Prop where
  | null : Resolves key value rows .null .null
  | one {l k : V} : KeyOf key value rows l k → Resolves key value rows (.one l) (.one k)
  | many {ls ks : List V} : ls.length = ks.length →
      (∀ (j : Nat) (l k : V), ls[j]? = some l → ks[j]? = some k → KeyOf key value rows l k) →
      Resolves key value rows (.many (ls.map some)) (.many (ks.map some))

end Spec

/-- The lookup table of a transformer. -/
def FieldTransformer.table? : FieldTransformer V → Option Table
  | .scalar _ => none
  | .enum tb => some tb
  | .enumList tb => some tb

namespace C23

theorem dictGet_mem {K X : Type} [DecidableEq K] {dict : List (K × X)} {key : K} {x : X} (h : dictGet dict key = .ok x) :
    (key, x) ∈ dict := by
  unfold dictGet at h
  split at h
  · rename_i y hy
    cases h
    have : ∀ {l : List (K × X)}, l.lookup key = some x → (key, x) ∈ l := by
      intro l
      induction l with
      | nil => intro h; cases h
      | cons p l ih =>
        obtain ⟨a, b⟩ := p
        intro h
        rw [List.lookup_cons] at h
        split at h
        · rename_i e
          cases h
          have : key = a := by simpa using e
          rw [this]; exact List.mem_cons_self
        · exact List.mem_cons_of_mem _ (ih h)
    exact List.mem_reverse.1 (this hy)
  · cases h

theorem value_unique {tb : Table} {key value : Text} (h : IsLookup tb key value) : [value] ∈ uniqueSets tb := by
  have hl := h.lookup
  unfold Table.isLookupTable at hl
  simp only [bind, Except.bind, pure, Except.pure] at hl
  have hv : value ∈ tb.columns.items.map Column.name := h.columns.symm.subset (by simp)
  obtain ⟨c, hc, hcn⟩ := List.mem_map.1 hv
  split at hl
  · cases hl
  · split at hl
    · cases hl
    · have hall : tb.columns.items.all (fun c => tb.primaryKey.contains c.name || tb.isUniqueColumn c) = true := by
        injection hl
      have := List.all_eq_true.1 hall c hc
      rw [h.primary, hcn] at this
      have hne : ([key].contains value) = false := by
        simpa using fun e => h.ne e.symm
      rw [hne, Bool.false_or] at this
      unfold Table.isUniqueColumn at this
      obtain ⟨con, hcon, hcu⟩ := List.any_eq_true.1 this
      cases con with
      | unique n cols =>
        simp only [Bool.and_eq_true, Bool.not_eq_true', decide_eq_false_iff_not, Nat.not_lt] at hcu
        obtain ⟨h1, h2⟩ := hcu
        have : cols = [value] := by
          rw [hcn] at h2
          have hm : value ∈ cols := by simpa using h2
          match cols, h1, hm with
          | [x], _, hm => rw [List.mem_singleton.1 hm]
        unfold uniqueSets
        refine List.mem_cons_of_mem _ (List.mem_filterMap.2 ⟨_, hcon, ?_⟩)
        rw [this]
      | _ => simp at hcu

/-- Every pair of the dictionary is in the table. -/
def Sound (key value : Text) (rows : List (DataRow V)) (dict : List (Option V × Option V)) : Prop :=
  ∀ p ∈ dict, ∃ r ∈ rows, r value = p.1 ∧ r key = p.2

/-- The function found for a transformer looks up pairs that are in the table. -/
def FnSound (db : Lookups V) (tr : FieldTransformer V) (fn : Field V → Except Err (Field V)) : Prop :=
  match tr with
  | .scalar _ => True
  | .enum tb => ∃ dict, fn = enumFn dict ∧ ∀ key value, IsLookup tb key value → Sound key value (db tb.name) dict
  | .enumList tb => ∃ dict, fn = enumListFn dict ∧ ∀ key value, IsLookup tb key value → Sound key value (db tb.name) dict

omit [DecidableEq V] in
theorem sound_mono {key value : Text} {rows rows' : List (DataRow V)} (hp : rows <+: rows')
    {dict : List (Option V × Option V)} (h : Sound key value rows dict) : Sound key value rows' dict := by
  intro p hp'
  obtain ⟨r, hr, e⟩ := h p hp'
  exact ⟨r, hp.subset hr, e⟩

theorem fnSound_mono {db db' : Lookups V} (hp : ∀ q, db q <+: db' q) {tr : FieldTransformer V}
    {fn : Field V → Except Err (Field V)} (h : FnSound db tr fn) : FnSound db' tr fn := by
  cases tr with
  | scalar _ => trivial
  | enum tb => obtain ⟨d, e, hd⟩ := h; exact ⟨d, e, fun k v hl => sound_mono (hp _) (hd k v hl)⟩
  | enumList tb => obtain ⟨d, e, hd⟩ := h; exact ⟨d, e, fun k v hl => sound_mono (hp _) (hd k v hl)⟩

theorem merge_facts {w : Writer} {dflt : QId → DataRow V} {tb : Table} {db db' : Lookups V} {labels : List V}
    {dict : List (Option V × Option V)} (h : MergeLookup w dflt tb db labels db' dict) :
    (∀ q, db q <+: db' q) ∧ (∀ q, q ≠ tb.name → db' q = db q) ∧
    (consistent tb (db tb.name) = true → consistent tb (db' tb.name) = true) ∧
    ∀ key value, IsLookup tb key value → Sound key value (db' tb.name) dict := by
  cases h with
  | none => exact ⟨fun _ => List.prefix_refl _, fun _ _ => rfl, fun h => h, fun _ _ _ p hp => by cases hp⟩
  | some hne hs hx hv hk hperm =>
    rename_i s rows selected vc kc
    refine ⟨?_, ?_, ?_, ?_⟩
    · intro q
      dsimp only
      split
      · rename_i e; rw [e]; exact merge_prefix_all hs hx
      · exact List.prefix_refl _
    · intro q hq; dsimp only; rw [if_neg hq]
    · intro hc; dsimp only; rw [if_pos rfl]; exact execAll_consistent hc hx
    · intro key value hl p hp
      obtain ⟨r, hr, rfl⟩ := List.mem_map.1 hp
      dsimp only
      rw [if_pos rfl]
      have hkn : kc.name = key := by
        have := C26.primaryColumn_name hk
        rw [hl.primary] at this
        simpa using this.symm
      have hvn : vc.name = value := by
        have hm := List.mem_of_head? hv
        unfold Table.valueColumns at hm
        obtain ⟨h1, h2⟩ := List.mem_filter.1 hm
        have h3 := hl.columns.subset (List.mem_map_of_mem h1)
        rw [hl.primary] at h2
        simp only [Bool.and_eq_true, Bool.not_eq_true'] at h2
        have h4 : vc.name ≠ key := by
          have := h2.1
          simpa using this
        simpa [h4] using h3
      exact ⟨r, hperm.subset hr, by rw [hvn], by rw [hkn]⟩

/-- All lookup tables of the transformers are consistent. -/
def AllConsistent (trs : List (Nat × FieldTransformer V)) (db : Lookups V) : Prop :=
  ∀ p ∈ trs, ∀ tb, p.2.table? = some tb → consistent tb (db tb.name) = true

theorem getFn_facts {w : Writer} {dflt : QId → DataRow V} {batch : List (List (Field V))} {db db' : Lookups V}
    {tr : Nat × FieldTransformer V} {fn : Field V → Except Err (Field V)} (h : GetFn w dflt batch db tr db' fn) :
    (∀ q, db q <+: db' q) ∧ FnSound db' tr.2 fn ∧
    ∀ trs : List (Nat × FieldTransformer V), tr ∈ trs →
      (∀ p ∈ trs, ∀ p' ∈ trs, ∀ tb tb', p.2.table? = some tb → p'.2.table? = some tb' → tb.name = tb'.name → tb = tb') →
      AllConsistent trs db → AllConsistent trs db' := by
  have key : ∀ {tb : Table} {db db' : Lookups V} {labels : List V} {dict : List (Option V × Option V)}
      (_ : MergeLookup w dflt tb db labels db' dict) (tr : Nat × FieldTransformer V), tr.2.table? = some tb →
      ∀ trs : List (Nat × FieldTransformer V), tr ∈ trs →
      (∀ p ∈ trs, ∀ p' ∈ trs, ∀ tb tb', p.2.table? = some tb → p'.2.table? = some tb' → tb.name = tb'.name → tb = tb') →
      AllConsistent trs db → AllConsistent trs db' := by
    intro tb db db' labels dict hm tr htr trs hin hone hall p hp tb' htb'
    obtain ⟨_, hother, hcons, _⟩ := merge_facts hm
    by_cases e : tb'.name = tb.name
    · have := hone p hp tr hin tb' tb htb' htr e
      subst this
      exact hcons (hall p hp _ htb')
    · rw [hother _ e]
      exact hall p hp _ htb'
  cases h with
  | scalar => exact ⟨fun _ => List.prefix_refl _, trivial, fun _ _ _ h => h⟩
  | enum hf hnd hmem hm =>
    obtain ⟨h1, _, _, h4⟩ := merge_facts hm
    exact ⟨h1, ⟨_, rfl, h4⟩, key hm _ rfl⟩
  | enumList hf hnd hmem hm =>
    obtain ⟨h1, _, _, h4⟩ := merge_facts hm
    exact ⟨h1, ⟨_, rfl, h4⟩, key hm _ rfl⟩

theorem getFns_facts {w : Writer} {dflt : QId → DataRow V} {batch : List (List (Field V))} {db db' : Lookups V}
    {trs : List (Nat × FieldTransformer V)} {fns : List (Field V → Except Err (Field V))}
    (h : GetFns w dflt batch db trs db' fns) :
    (∀ q, db q <+: db' q) ∧ fns.length = trs.length ∧
    (∀ (k : Nat) (tr : Nat × FieldTransformer V) (fn : Field V → Except Err (Field V)),
      trs[k]? = some tr → fns[k]? = some fn → FnSound db' tr.2 fn) ∧
    ∀ all : List (Nat × FieldTransformer V), (∀ p ∈ trs, p ∈ all) →
      (∀ p ∈ all, ∀ p' ∈ all, ∀ tb tb', p.2.table? = some tb → p'.2.table? = some tb' → tb.name = tb'.name → tb = tb') →
      AllConsistent all db → AllConsistent all db' := by
  induction h with
  | nil => exact ⟨fun _ => List.prefix_refl _, rfl, fun k tr fn h => by simp at h, fun _ _ _ h => h⟩
  | cons hg _ ih =>
    obtain ⟨a1, a2, a3⟩ := getFn_facts hg
    obtain ⟨b1, b2, b3, b4⟩ := ih
    refine ⟨fun q => (a1 q).trans (b1 q), by simp [b2], ?_, ?_⟩
    · intro k tr fn h1 h2
      cases k with
      | zero => simp at h1 h2; subst h1; subst h2; exact fnSound_mono b1 a2
      | succ k => exact b3 k tr fn (by simpa using h1) (by simpa using h2)
    · intro all hsub hone hc
      exact b4 all (fun p hp => hsub p (List.mem_cons_of_mem _ hp)) hone (a3 all (hsub _ List.mem_cons_self) hone hc)

theorem applyFns_facts : ∀ {l : List (Nat × (Field V → Except Err (Field V)))} {record out : List (Field V)},
    applyFns l record = .ok out → out.length = l.length ∧
    ∀ (k : Nat) (i : Nat) (fn : Field V → Except Err (Field V)) (f g : Field V), l[k]? = some (i, fn) → record[i]? = some f →
      out[k]? = some g → applyField fn f = .ok g := by
  intro l
  induction l with
  | nil => intro record out h; cases h; exact ⟨rfl, fun k i fn f g h => by simp at h⟩
  | cons p l ih =>
    obtain ⟨i, fn⟩ := p
    intro record out h
    unfold applyFns at h
    simp only [bind, Except.bind, pure, Except.pure] at h
    split at h
    · cases h
    · rename_i f hf
      split at h
      · cases h
      · rename_i x hx
        split at h
        · cases h
        · rename_i xs hxs
          cases h
          obtain ⟨h1, h2⟩ := ih hxs
          refine ⟨by simp [h1], ?_⟩
          intro k j fn' f' g e1 e2 e3
          cases k with
          | zero =>
            simp at e1 e3
            obtain ⟨rfl, rfl⟩ := e1
            subst e3
            unfold fieldAt at hf
            rw [e2] at hf
            cases hf
            exact hx
          | succ k => exact h2 k j fn' f' g (by simpa using e1) e2 (by simpa using e3)

/-- A key that the dictionary has for a label resolves in a consistent table. -/
theorem keyOf_of_sound {tb : Table} {key value : Text} (hl : IsLookup tb key value) {rows : List (DataRow V)}
    (hc : consistent tb rows = true) {dict : List (Option V × Option V)} (hs : Sound key value rows dict)
    {label : Option V} {x : Option V} (hx : dictGet dict label = .ok x) :
    ∃ l k, label = some l ∧ x = some k ∧ KeyOf key value rows l k := by
  obtain ⟨r, hr, e1, e2⟩ := hs _ (dictGet_mem hx)
  dsimp only at e1 e2
  have hnn : ∀ n ∈ tb.columns.items.map Column.name, (r n).isSome := by
    intro n hn
    obtain ⟨c, hcm, rfl⟩ := List.mem_map.1 hn
    have := (consistent_iff.1 hc).1 r hr
    unfold notNull at this
    have := List.all_eq_true.1 this c hcm
    simpa [hl.mandatory c hcm] using this
  have hv := hnn value (hl.columns.symm.subset (by simp))
  have hk := hnn key (hl.columns.symm.subset (by simp))
  rw [e1] at hv
  rw [e2] at hk
  obtain ⟨l, rfl⟩ := Option.isSome_iff_exists.1 hv
  obtain ⟨k, rfl⟩ := Option.isSome_iff_exists.1 hk
  refine ⟨l, k, rfl, rfl, ⟨r, hr, e1, e2⟩, ?_⟩
  intro r' hr' hv'
  have : r' = r := same_row hc (value_unique hl) hr' hr (by
    rw [agreeOn_iff]
    intro c hcm
    rw [List.mem_singleton] at hcm
    subst hcm
    exact ⟨l, hv', e1⟩)
  rw [this, e2]

theorem mapM_resolves {key value : Text} {rows : List (DataRow V)} {dict : List (Option V × Option V)}
    (hd : ∀ {label x : Option V}, dictGet dict label = .ok x → ∃ l k, label = some l ∧ x = some k ∧ KeyOf key value rows l k) :
    ∀ {items xs : List (Option V)}, items.mapM (fun item => dictGet dict item) = .ok xs →
    ∃ ls ks : List V, items = ls.map some ∧ xs = ks.map some ∧ ls.length = ks.length ∧
      ∀ (j : Nat) (l k : V), ls[j]? = some l → ks[j]? = some k → KeyOf key value rows l k := by
  intro items
  induction items with
  | nil => intro xs h; cases h; exact ⟨[], [], rfl, rfl, rfl, fun j l k h => by simp at h⟩
  | cons item items ih =>
    intro xs h
    rw [List.mapM_cons] at h
    simp only [bind, Except.bind, pure, Except.pure] at h
    split at h
    · cases h
    · rename_i x hx
      split at h
      · cases h
      · rename_i ys hys
        cases h
        obtain ⟨l, k, rfl, rfl, hlk⟩ := hd hx
        obtain ⟨ls, ks, rfl, rfl, hlen, hall⟩ := ih hys
        refine ⟨l :: ls, k :: ks, rfl, rfl, by simp [hlen], ?_⟩
        intro j l' k' e1 e2
        cases j with
        | zero => simp at e1 e2; subst e1; subst e2; exact hlk
        | succ j => exact hall j l' k' (by simpa using e1) (by simpa using e2)

/-- What a sound function returns resolves. -/
theorem resolves {db : Lookups V} {tr : FieldTransformer V} {fn : Field V → Except Err (Field V)} (h : FnSound db tr fn)
    {tb : Table} (htb : tr.table? = some tb) {key value : Text} (hl : IsLookup tb key value)
    (hc : consistent tb (db tb.name) = true) {f g : Field V} (hfg : applyField fn f = .ok g) :
    Resolves key value (db tb.name) f g := by
  cases tr with
  | scalar _ => cases htb
  | enum tb' =>
    cases htb
    obtain ⟨dict, rfl, hs⟩ := h
    cases f with
    | null => cases hfg; exact .null
    | one l =>
      simp only [applyField, enumFn, bind, Except.bind, pure, Except.pure] at hfg
      split at hfg
      · cases hfg
      · rename_i x hx
        cases hfg
        obtain ⟨l', k, e, rfl, hlk⟩ := keyOf_of_sound hl hc (hs key value hl) hx
        cases e
        exact .one hlk
    | many items => simp [applyField, enumFn] at hfg
  | enumList tb' =>
    cases htb
    obtain ⟨dict, rfl, hs⟩ := h
    cases f with
    | null => cases hfg; exact .null
    | one l => simp [applyField, enumListFn] at hfg
    | many items =>
      simp only [applyField, enumListFn, bind, Except.bind, pure, Except.pure] at hfg
      split at hfg
      · cases hfg
      · rename_i xs hxs
        cases hfg
        obtain ⟨ls, ks, rfl, rfl, hlen, hall⟩ :=
          mapM_resolves (fun hx => keyOf_of_sound hl hc (hs key value hl) hx) hxs
        exact .many hlen hall

omit [DecidableEq V] in
theorem keyOf_mono {tb : Table} [DecidableEq V] {key value : Text} (hl : IsLookup tb key value) {rows rows' : List (DataRow V)}
    (hp : rows <+: rows') (hc : consistent tb rows' = true) {l k : V} (h : KeyOf key value rows l k) :
    KeyOf key value rows' l k := by
  obtain ⟨⟨r, hr, e1, e2⟩, _⟩ := h
  refine ⟨⟨r, hp.subset hr, e1, e2⟩, ?_⟩
  intro r' hr' hv'
  have : r' = r := same_row hc (value_unique hl) hr' (hp.subset hr) (by
    rw [agreeOn_iff]
    intro c hcm
    rw [List.mem_singleton] at hcm
    subst hcm
    exact ⟨l, hv', e1⟩)
  rw [this, e2]

theorem resolves_mono {tb : Table} {key value : Text} (hl : IsLookup tb key value) {rows rows' : List (DataRow V)}
    (hp : rows <+: rows') (hc : consistent tb rows' = true) {f g : Field V} (h : Resolves key value rows f g) :
    Resolves key value rows' f g := by
  cases h with
  | null => exact .null
  | one h => exact .one (keyOf_mono hl hp hc h)
  | many hlen h => exact .many hlen (fun j l k e1 e2 => keyOf_mono hl hp hc (h j l k e1 e2))

end C23

/-- A column's transformers refer to the lookup tables of one schema: tables with the same name are the same. -/
def OneSchema (trs : List (Nat × FieldTransformer V)) : Prop :=
  ∀ p ∈ trs, ∀ p' ∈ trs, ∀ tb tb', p.2.table? = some tb → p'.2.table? = some tb' → tb.name = tb'.name → tb = tb'

/-- **C23.**  Records are streamed in batches, some of their fields through lookup tables; each dialect's insert-or-ignore
    statement is executed, with any generated keys, in any order of the labels.  Whenever no error is raised:
    the rows of each lookup table are still there, unchanged, and each value that is stored resolves, in the lookup table as
    it is in the end, to the label supplied (and the label has that key only); NULL is stored as NULL. -/
theorem C23_labels_resolve {w : Writer} {dflt : QId → DataRow V} {trs : List (Nat × FieldTransformer V)} (hone : OneSchema trs)
    {db db' : Lookups V} {batches outs : List (List (List (Field V)))}
    (hc : ∀ p ∈ trs, ∀ tb, p.2.table? = some tb → consistent tb (db tb.name) = true)
    (h : Transforms w dflt trs db batches db' outs) :
    (∀ q, db q <+: db' q) ∧ outs.map List.length = batches.map List.length ∧
    ∀ (b r k i : Nat) (tr : FieldTransformer V) (tb : Table) (key value : Text) (batch out : List (List (Field V)))
      (record stored : List (Field V)) (f g : Field V),
      batches[b]? = some batch → outs[b]? = some out → batch[r]? = some record → out[r]? = some stored →
      trs[k]? = some (i, tr) → record[i]? = some f → stored[k]? = some g →
      tr.table? = some tb → IsLookup tb key value → Resolves key value (db' tb.name) f g := by
  suffices hmain : C23.AllConsistent trs db' ∧ (∀ q, db q <+: db' q) ∧ outs.map List.length = batches.map List.length ∧
      ∀ (b r k i : Nat) (tr : FieldTransformer V) (tb : Table) (key value : Text) (batch out : List (List (Field V)))
      (record stored : List (Field V)) (f g : Field V),
      batches[b]? = some batch → outs[b]? = some out → batch[r]? = some record → out[r]? = some stored →
      trs[k]? = some (i, tr) → record[i]? = some f → stored[k]? = some g →
      tr.table? = some tb → IsLookup tb key value → Resolves key value (db' tb.name) f g from hmain.2
  induction h with
  | nil => exact ⟨hc, fun _ => List.prefix_refl _, rfl, fun b r k i tr tb key value batch out _ _ _ _ h => by simp at h⟩
  | cons hg hm _ ih =>
    rename_i db0 db1 db2 batch out batches outs fns _
    obtain ⟨a1, a2, a3, a4⟩ := C23.getFns_facts hg
    have hc1 := a4 trs (fun p hp => hp) hone hc
    obtain ⟨b0, b1, b2, b3⟩ := ih hc1
    refine ⟨b0, fun q => (a1 q).trans (b1 q), ?_, ?_⟩
    · rw [List.map_cons, List.map_cons, b2, C21.mapM_length hm]
    · intro b r k i tr tb key value batch' out' record stored f g e1 e2 e3 e4 e5 e6 e7 e8 hl
      cases b with
      | succ b => exact b3 b r k i tr tb key value batch' out' record stored f g (by simpa using e1) (by simpa using e2) e3 e4 e5 e6 e7 e8 hl
      | zero =>
        simp at e1 e2
        subst e1; subst e2
        have hrec := C22.mapM_get hm e3 e4
        obtain ⟨hlen, hap⟩ := C23.applyFns_facts hrec
        have hk : k < fns.length := by
          have := (List.getElem?_eq_some_iff.1 e5).1
          omega
        have hfn : ((trs.map Prod.fst).zip fns)[k]? = some (i, fns[k]) := by
          rw [List.getElem?_zip_eq_some, List.getElem?_map, e5]
          exact ⟨rfl, List.getElem?_eq_getElem hk⟩
        have happ := hap k i fns[k] f g hfn e6 e7
        have hsound := a3 k (i, tr) fns[k] e5 (List.getElem?_eq_getElem hk)
        have hmem : (i, tr) ∈ trs := List.mem_of_getElem? e5
        exact C23.resolves_mono hl (b1 tb.name) (b0 _ hmem tb e8)
          (C23.resolves hsound e8 hl (hc1 _ hmem tb e8) happ)

namespace Spec

/-- Like `ExecAll`, with an engine whose generated values are new. -/
inductive ExecFresh (tb : Table) (dflt : DataRow V) (s : Dml) : List (DataRow V) → List (Record V) → List (DataRow V) → Prop where
  | nil (rows : List (DataRow V)) : ExecFresh tb dflt s rows [] rows
  | cons {rows rows1 rows' : List (DataRow V)} {values : Record V} {rest : List (Record V)} (generated : Text → V) :
      (∀ c, ∀ r ∈ rows, r c ≠ some (generated c)) →
      exec tb dflt generated rows s values = some rows1 → ExecFresh tb dflt s rows1 rest rows' →
      ExecFresh tb dflt s rows (values :: rest) rows'

/-- A lookup table as it is generated for an enumeration: the key is an identity column, and only the key and the value are
    unique. -/
structure IsEnumTable (tb : Table) (key value : Text) : Prop extends IsLookup tb key value where
  generated : ∀ c ∈ tb.columns.items, c.identity = true ↔ c.name = key
  only : ∀ cols ∈ uniqueSets tb, cols = [key] ∨ cols = [value]

end Spec

namespace C23

/-- The statement that inserts labels. -/
def labelStmt (w : Writer) (q : QId) (key value : Text) : Dml :=
  match w with
  | .base => .merge q [value] [value] [] [value]
  | .postgresql => .insertOrNothing q [value]
  | .mysql => .insertOrSelf q [value] [key]

theorem stmt_params {w : Writer} {tb : Table} {key value : Text} (hl : IsEnumTable tb key value) {s : Dml}
    (hs : mergeStmt w tb none = .ok s) :
    s = labelStmt w tb.name key value := by
  -- the only column that is not an identity column is the value
  have hcols : ∃ c, tb.columns.items.filter (fun c => !c.identity) = [c] ∧ c.name = value ∧ c ∈ tb.columns.items := by
    have hperm := hl.columns
    have hlen : tb.columns.items.length = 2 := by
      have := hperm.length_eq; simpa using this
    match hi : tb.columns.items, hlen with
    | [a, b], _ =>
      rw [hi] at hperm
      simp only [List.map_cons, List.map_nil] at hperm
      have hga := hl.generated a (by rw [hi]; simp)
      have hgb := hl.generated b (by rw [hi]; simp)
      have hne := hl.ne
      have ha := hperm.subset (List.mem_cons_self (a := a.name))
      have hb := hperm.subset (show b.name ∈ [a.name, b.name] by simp)
      have hnd : ([a.name, b.name] : List Text).Nodup := hperm.symm.nodup (by simp [hne])
      have hab : a.name ≠ b.name := by simpa using hnd
      rcases List.mem_cons.1 ha with ea | ea
      · have eb : b.name = value := by
          rcases List.mem_cons.1 hb with eb | eb
          · exact absurd (ea.trans eb.symm) hab
          · simpa using eb
        have h1 : a.identity = true := hga.2 ea
        have h2 : b.identity = false := by
          cases hbi : b.identity
          · rfl
          · exact absurd ((hgb.1 hbi).symm.trans eb) hne
        exact ⟨b, by simp [h1, h2], eb, by simp⟩
      · have ea : a.name = value := by simpa using ea
        have eb : b.name = key := by
          rcases List.mem_cons.1 hb with eb | eb
          · exact eb
          · exact absurd (ea.trans (by simpa using eb : b.name = value).symm) hab
        have h1 : b.identity = true := hgb.2 eb
        have h2 : a.identity = false := by
          cases hbi : a.identity
          · rfl
          · exact absurd ((hga.1 hbi).symm.trans ea) hne
        exact ⟨a, by simp [h1, h2], ea, by simp⟩
  obtain ⟨c, hc, hcn, hcm⟩ := hcols
  unfold mergeStmt at hs
  simp only [Table.getColumns, bind, Except.bind, pure, Except.pure, hc, List.map_cons, List.map_nil, hcn] at hs
  cases w
  · dsimp only at hs ⊢
    split at hs
    · cases hs
    · rename_i on hon
      have hon' := C24.lookup_eq hon
      have hlk : (tb.primaryKey.contains c.name || tb.isUniqueColumn c) = true := by
        have hl' := hl.lookup
        unfold Table.isLookupTable at hl'
        simp only [bind, Except.bind, pure, Except.pure] at hl'
        split at hl'
        · cases hl'
        · split at hl'
          · cases hl'
          · have hall : tb.columns.items.all (fun c => tb.primaryKey.contains c.name || tb.isUniqueColumn c) = true := by
              injection hl'
            exact List.all_eq_true.1 hall c hcm
      rw [List.filter_cons, if_pos hlk] at hon'
      simp only [List.filter_nil] at hon'
      rw [hon'] at hs
      simp only [List.map_cons, List.map_nil, hcn] at hs
      cases hs; rfl
  · cases hs; rfl
  · dsimp only at hs ⊢
    rw [hl.primary] at hs
    cases hs; rfl

theorem new_value {tb : Table} {key value : Text} (hl : IsEnumTable tb key value) (dflt : DataRow V) (gen : Text → V) (l : V) :
    newRow tb dflt gen [value] [some l] value = some l ∧ newRow tb dflt gen [value] [some l] key = some (gen key) := by
  have hk : key ∈ tb.columns.items.map Column.name := hl.columns.symm.subset (by simp)
  obtain ⟨c, hc, hcn⟩ := List.mem_map.1 hk
  have hget : ∃ c', tb.columns.get key = some c' := by
    rw [← Option.isSome_iff_exists, ODict.get_isSome_iff]
    exact List.mem_map.2 ⟨c, hc, hcn⟩
  obtain ⟨c', hc'⟩ := hget
  obtain ⟨hm, hn⟩ := ODict.get_some_mem hc'
  have hid : c'.identity = true := (hl.generated c' hm).2 hn
  constructor
  · simp [newRow, supplied]
  · have : (key == value) = false := by simpa using hl.ne
    simp [newRow, supplied, List.lookup_cons, this, hc', hid]

theorem label_step {w : Writer} {tb : Table} {key value : Text} (hl : IsEnumTable tb key value) {s : Dml}
    (hs : mergeStmt w tb none = .ok s) {dflt : DataRow V} {gen : Text → V} {rows : List (DataRow V)}
    (hc : consistent tb rows = true) (hfresh : ∀ c, ∀ r ∈ rows, r c ≠ some (gen c)) (l : V) :
    ∃ rows1, exec tb dflt gen rows s [some l] = some rows1 ∧ ∃ r ∈ rows1, r value = some l := by
  have hst := stmt_params hl hs
  obtain ⟨hv, hk⟩ := new_value hl dflt gen l
  -- the new row is complete
  have hnn : notNull tb (newRow tb dflt gen [value] [some l]) = true := by
    unfold notNull
    rw [List.all_eq_true]
    intro c hcm
    have := hl.columns.subset (List.mem_map_of_mem hcm)
    rcases List.mem_cons.1 this with e | e
    · rw [e, hk]; simp
    · rw [List.mem_singleton.1 e, hv]; simp
  -- it clashes with a row only by its value
  have hcl : ∀ m ∈ rows, clash tb (newRow tb dflt gen [value] [some l]) m = true → m value = some l := by
    intro m hm h
    unfold clash at h
    obtain ⟨cols, hcols, ha⟩ := List.any_eq_true.1 h
    rw [agreeOn_iff] at ha
    rcases hl.only cols hcols with rfl | rfl
    · obtain ⟨v, e1, e2⟩ := ha key (by simp)
      rw [hk] at e1; cases e1
      exact absurd e2 (hfresh key m hm)
    · obtain ⟨v, e1, e2⟩ := ha value (by simp)
      rw [hv] at e1; cases e1
      exact e2
  have happ : (∀ m ∈ rows, m value ≠ some l) →
      checked tb (rows ++ [newRow tb dflt gen [value] [some l]]) = some (rows ++ [newRow tb dflt gen [value] [some l]]) := by
    intro hno
    unfold checked
    rw [if_pos]
    rw [consistent_iff] at hc ⊢
    refine ⟨?_, ?_⟩
    · intro m hm
      rcases List.mem_append.1 hm with hm | hm
      · exact hc.1 m hm
      · rw [List.mem_singleton.1 hm]; exact hnn
    · rw [List.pairwise_append]
      refine ⟨hc.2, List.pairwise_singleton _ _, ?_⟩
      intro a ha b hb
      rw [List.mem_singleton.1 hb]
      have h1 : clash tb (newRow tb dflt gen [value] [some l]) a = false := by
        cases h : clash tb (newRow tb dflt gen [value] [some l]) a
        · rfl
        · exact absurd (hcl a ha h) (hno a ha)
      refine ⟨?_, h1⟩
      cases h : clash tb a (newRow tb dflt gen [value] [some l])
      · rfl
      · unfold clash at h
        obtain ⟨cols, hcols, hag⟩ := List.any_eq_true.1 h
        rw [clash_of_unique hcols (agreeOn_symm hag)] at h1
        cases h1
  have hlast : ∃ r ∈ rows ++ [newRow tb dflt gen [value] [some l]], r value = some l := ⟨_, by simp, hv⟩
  by_cases hex : ∃ m ∈ rows, m value = some l
  · obtain ⟨m, hm, hmv⟩ := hex
    have hag : agreeOn [value] (newRow tb dflt gen [value] [some l]) m = true := by
      rw [agreeOn_iff]; intro c hcc; rw [List.mem_singleton.1 hcc]; exact ⟨l, hv, hmv⟩
    have hclash : rows.any (fun m => clash tb (newRow tb dflt gen [value] [some l]) m) = true :=
      List.any_eq_true.2 ⟨m, hm, clash_of_unique (value_unique hl.toIsLookup) hag⟩
    refine ⟨rows, ?_, m, hm, hmv⟩
    cases w <;> subst hst <;> simp only [C23.labelStmt, exec, Dml.params, List.length_singleton, ne_eq, not_true_eq_false, if_false]
    · have : rows.any (fun m => [value].any (fun c => agreeOn [c] (fun c => (supplied [value] [some l] c).getD none) m)) = true := by
        refine List.any_eq_true.2 ⟨m, hm, ?_⟩
        simp only [List.any_cons, List.any_nil, Bool.or_false]
        rw [agreeOn_iff]
        intro c hcc
        rw [List.mem_singleton.1 hcc]
        exact ⟨l, by simp [supplied], hmv⟩
      rw [this]; simp
    · rw [hclash, hnn]; simp
    · rw [hclash]; simp
  · have hno : ∀ m ∈ rows, m value ≠ some l := fun m hm e => hex ⟨m, hm, e⟩
    have hclash : rows.any (fun m => clash tb (newRow tb dflt gen [value] [some l]) m) = false := by
      rw [List.any_eq_false]
      intro m hm h
      exact hno m hm (hcl m hm h)
    refine ⟨_, ?_, hlast⟩
    cases w <;> subst hst <;> simp only [C23.labelStmt, exec, Dml.params, List.length_singleton, ne_eq, not_true_eq_false, if_false]
    · have : rows.any (fun m => [value].any (fun c => agreeOn [c] (fun c => (supplied [value] [some l] c).getD none) m)) = false := by
        rw [List.any_eq_false]
        intro m hm h
        simp only [List.any_cons, List.any_nil, Bool.or_false] at h
        rw [agreeOn_iff] at h
        obtain ⟨v, e1, e2⟩ := h value (by simp)
        simp [supplied] at e1
        subst e1
        exact hno m hm e2
      rw [this]
      have hsl : (List.map (fun c => (supplied [value] [some l] c).getD none) [value]) = [some l] := by simp [supplied]
      rw [hsl, happ hno]
      simp
    · rw [hclash, happ hno]; simp
    · rw [hclash, happ hno]; simp

end C23

/-- **C23.**  Each dialect's insert-or-ignore statement, executed for the labels of a batch by an engine that generates new
    keys: afterwards every label is in the lookup table. -/
theorem C23_labels_found {w : Writer} {tb : Table} {key value : Text} (hl : IsEnumTable tb key value) {s : Dml}
    (hs : mergeStmt w tb none = .ok s) {dflt : DataRow V} {rows rows' : List (DataRow V)} {labels : List V}
    (hc : consistent tb rows = true) (h : ExecFresh tb dflt s rows (labels.map (fun v => [some v])) rows') :
    ∀ l ∈ labels, ∃ r ∈ rows', r value = some l := by
  have hpre : ∀ {rows rows' : List (DataRow V)} {records : List (Record V)}, ExecFresh tb dflt s rows records rows' → rows <+: rows' := by
    intro rows rows' records h
    induction h with
    | nil => exact List.prefix_refl _
    | cons gen _ he _ ih => exact (merge_prefix hs he).trans ih
  revert rows
  induction labels with
  | nil => intro rows hc h l hl; cases hl
  | cons v labels ih =>
    intro rows hc h l hmem
    rw [List.map_cons] at h
    cases h with
    | cons gen hf he hr =>
      rcases List.mem_cons.1 hmem with rfl | hm
      · obtain ⟨rows1, he', r, hr1, e⟩ := C23.label_step hl hs (dflt := dflt) hc hf l
        rw [he] at he'; cases he'
        exact ⟨r, (hpre hr).subset hr1, e⟩
      · exact ih (exec_consistent hc he) hr l hm

/-- **C23.**  No label is refused by an engine that generates new keys. -/
theorem C23_labels_accepted {w : Writer} {tb : Table} {key value : Text} (hl : IsEnumTable tb key value) {s : Dml}
    (hs : mergeStmt w tb none = .ok s) {dflt : DataRow V}
    (generate : List (DataRow V) → Text → V) (hfresh : ∀ rows c, ∀ r ∈ rows, r c ≠ some (generate rows c)) :
    ∀ (labels : List V) (rows : List (DataRow V)), consistent tb rows = true →
      ∃ rows', ExecFresh tb dflt s rows (labels.map (fun v => [some v])) rows' := by
  intro labels
  induction labels with
  | nil => intro rows _; exact ⟨rows, .nil _⟩
  | cons v labels ih =>
    intro rows hc
    obtain ⟨rows1, he, _⟩ := C23.label_step hl hs (dflt := dflt) hc (hfresh rows) v
    obtain ⟨rows', h⟩ := ih rows1 (exec_consistent hc he)
    exact ⟨rows', .cons (generate rows) (hfresh rows) he h⟩

namespace Spec

/-- A field that suits its transformer: one label or NULL for a reference to a lookup table, a list of labels for a list of references. -/
def Suits (tr : FieldTransformer V) : Option (Field V) → Prop
  | none => False
  | some f => match tr, f with
    | .scalar _, _ => True
    | .enum _, .null => True
    | .enum _, .one _ => True
    | .enum _, .many _ => False
    | .enumList _, .many items => ∀ x ∈ items, x.isSome = true
    | .enumList _, _ => False

end Spec

namespace C23

theorem fresh_all {tb : Table} {dflt : DataRow V} {s : Dml} {rows rows' : List (DataRow V)} {records : List (Record V)}
    (h : ExecFresh tb dflt s rows records rows') : ExecAll tb dflt s rows records rows' := by
  induction h with
  | nil => exact .nil _
  | cons gen _ he _ ih => exact .cons gen he ih

theorem check_ok {tb : Table} {key value : Text} (hl : IsLookup tb key value) : tb.checkPrimary = .ok () := by
  unfold Table.checkPrimary
  rw [hl.primary]
  rfl

theorem lookup_ok {tb : Table} {key value : Text} (hl : IsLookup tb key value) (cols : List Column) :
    ∃ l, tb.lookupColumns cols = .ok l := by
  have : ∀ cols : List Column, ∃ fl, cols.mapM (fun c => tb.isLookupColumn c) = .ok fl := by
    intro cols
    induction cols with
    | nil => exact ⟨[], rfl⟩
    | cons c cols ih =>
      obtain ⟨fl, h⟩ := ih
      have hc : tb.isLookupColumn c = .ok (tb.primaryKey.contains c.name || tb.isUniqueColumn c) := by
        simp only [Table.isLookupColumn, check_ok hl, bind, Except.bind, pure, Except.pure]
      exact ⟨(tb.primaryKey.contains c.name || tb.isUniqueColumn c) :: fl, by
        simp only [List.mapM_cons, hc, h, bind, Except.bind, pure, Except.pure]⟩
  obtain ⟨fl, h⟩ := this cols
  exact ⟨_, by simp only [Table.lookupColumns, h, bind, Except.bind, pure, Except.pure]; rfl⟩

theorem merge_stmt_ok (w : Writer) {tb : Table} {key value : Text} (hl : IsLookup tb key value) : ∃ s, mergeStmt w tb none = .ok s := by
  obtain ⟨l, h⟩ := lookup_ok hl (tb.columns.items.filter (fun c => !c.identity))
  cases w
  · exact ⟨_, by simp only [mergeStmt, Table.getColumns, bind, Except.bind, pure, Except.pure, h]; rfl⟩
  · exact ⟨_, by simp only [mergeStmt, Table.getColumns, bind, Except.bind, pure, Except.pure]; rfl⟩
  · exact ⟨_, by simp only [mergeStmt, Table.getColumns, bind, Except.bind, pure, Except.pure]; rfl⟩

theorem key_column {tb : Table} {key value : Text} (hl : IsLookup tb key value) : ∃ c, tb.primaryColumn = .ok c := by
  have hk : key ∈ tb.columns.items.map Column.name := hl.columns.symm.subset (by simp)
  obtain ⟨c, hc, hcn⟩ := List.mem_map.1 hk
  have : (tb.columns.items.find? (fun c => tb.primaryKey.contains c.name)).isSome = true := by
    rw [List.find?_isSome]
    exact ⟨c, hc, by rw [hl.primary, hcn]; simp⟩
  obtain ⟨c', hc'⟩ := Option.isSome_iff_exists.1 this
  exact ⟨c', by simp only [Table.primaryColumn, check_ok hl, bind, Except.bind, pure, Except.pure, hc']⟩

theorem value_column {tb : Table} {key value : Text} (hl : IsEnumTable tb key value) : ∃ c, tb.valueColumns.head? = some c ∧ c.name = value := by
  have hv : value ∈ tb.columns.items.map Column.name := hl.columns.symm.subset (by simp)
  obtain ⟨c, hc, hcn⟩ := List.mem_map.1 hv
  have hin : c ∈ tb.valueColumns := by
    unfold Table.valueColumns
    refine List.mem_filter.2 ⟨hc, ?_⟩
    have h1 : c.name ≠ key := by rw [hcn]; exact fun e => hl.ne e.symm
    have h2 : c.identity = false := by
      cases h : c.identity
      · rfl
      · exact absurd ((hl.generated c hc).1 h) h1
    rw [hl.primary, h2]
    simp [h1]
  match h : tb.valueColumns with
  | [] => rw [h] at hin; cases hin
  | d :: rest =>
    refine ⟨d, rfl, ?_⟩
    have hd : d ∈ tb.valueColumns := by rw [h]; simp
    unfold Table.valueColumns at hd
    obtain ⟨h1, h2⟩ := List.mem_filter.1 hd
    have h3 := hl.columns.subset (List.mem_map_of_mem h1)
    rw [hl.primary] at h2
    simp only [Bool.and_eq_true, Bool.not_eq_true'] at h2
    have h4 : d.name ≠ key := by have := h2.1; simpa using this
    simpa [h4] using h3

theorem dictGet_ok {K X : Type} [DecidableEq K] {dict : List (K × X)} {key : K} {x : X} (h : (key, x) ∈ dict) :
    ∃ y, dictGet dict key = .ok y := by
  have : ∀ {l : List (K × X)}, (key, x) ∈ l → ∃ y, l.lookup key = some y := by
    intro l
    induction l with
    | nil => intro h; cases h
    | cons p l ih =>
      obtain ⟨a, b⟩ := p
      intro h
      rw [List.lookup_cons]
      by_cases e : key = a
      · subst e; exact ⟨b, by simp⟩
      · have hb : (key == a) = false := by simpa using e
        rw [hb]
        rcases List.mem_cons.1 h with h | h
        · exact absurd (congrArg Prod.fst h) e
        · exact ih h
  obtain ⟨y, hy⟩ := this (List.mem_reverse.2 h)
  exact ⟨y, by simp only [dictGet, hy]⟩

/-- The labels are merged, and found afterwards. -/
theorem merge_ok (w : Writer) (dflt : QId → DataRow V) {tb : Table} {key value : Text} (hl : IsEnumTable tb key value)
    (generate : List (DataRow V) → Text → V) (hfresh : ∀ rows c, ∀ r ∈ rows, r c ≠ some (generate rows c))
    (labels : List V) (db : Lookups V) (hc : consistent tb (db tb.name) = true) :
    ∃ db' dict, MergeLookup w dflt tb db labels db' dict ∧ ∀ l ∈ labels, ∃ y, dictGet dict (some l) = .ok y := by
  cases labels with
  | nil => exact ⟨db, [], .none db, fun l h => by cases h⟩
  | cons v labels =>
    obtain ⟨s, hs⟩ := merge_stmt_ok w hl.toIsLookup
    obtain ⟨rows, hx⟩ := C23_labels_accepted hl hs (dflt := dflt tb.name) generate hfresh (v :: labels) _ hc
    obtain ⟨kc, hk⟩ := key_column hl.toIsLookup
    obtain ⟨vc, hv, hvn⟩ := value_column hl
    refine ⟨_, _, .some (List.cons_ne_nil _ _) hs (fresh_all hx) hv hk (List.Perm.refl rows), ?_⟩
    intro l hm
    obtain ⟨r, hr, e⟩ := C23_labels_found hl hs hc hx l hm
    exact dictGet_ok (List.mem_map.2 ⟨r, hr, by rw [hvn, e]⟩)

theorem mapM_all_ok {A B : Type} {f : A → Except Err B} : ∀ {l : List A}, (∀ a ∈ l, ∃ b, f a = .ok b) → ∃ bs, l.mapM f = .ok bs := by
  intro l
  induction l with
  | nil => intro _; exact ⟨[], rfl⟩
  | cons a l ih =>
    intro h
    obtain ⟨b, hb⟩ := h a List.mem_cons_self
    obtain ⟨bs, hbs⟩ := ih (fun a' ha => h a' (List.mem_cons_of_mem _ ha))
    exact ⟨b :: bs, by simp only [List.mapM_cons, hb, hbs, bind, Except.bind, pure, Except.pure]⟩

omit [DecidableEq V] in
theorem labels_suit {tr : FieldTransformer V} {i : Nat} {record : List (Field V)} (h : Suits tr record[i]?) :
    ∃ f, record[i]? = some f ∧ fieldAt i record = .ok f ∧ ∃ ls, tr.labels f = .ok ls := by
  cases hf : record[i]? with
  | none => rw [hf] at h; exact h.elim
  | some f =>
    rw [hf] at h
    refine ⟨f, rfl, by simp only [fieldAt, hf], ?_⟩
    cases tr with
    | scalar _ => exact ⟨_, rfl⟩
    | enum _ => cases f with
      | null => exact ⟨_, rfl⟩
      | one _ => exact ⟨_, rfl⟩
      | many _ => exact h.elim
    | enumList _ => cases f with
      | null => exact h.elim
      | one _ => exact h.elim
      | many _ => exact ⟨_, rfl⟩

omit [DecidableEq V] in
theorem batch_labels {tr : FieldTransformer V} {i : Nat} {batch : List (List (Field V))} (h : ∀ r ∈ batch, Suits tr r[i]?) :
    ∃ found, batchLabels tr i batch = .ok found ∧
      ∀ r ∈ batch, ∀ f, r[i]? = some f → ∀ ls, tr.labels f = .ok ls → ∀ l ∈ ls, l ∈ found := by
  have h1 : ∀ r ∈ batch, ∃ ls, (do tr.labels (← fieldAt i r) : Except Err (List V)) = .ok ls := by
    intro r hr
    obtain ⟨f, _, hf, ls, hls⟩ := labels_suit (h r hr)
    exact ⟨ls, by simp only [hf, hls, bind, Except.bind]⟩
  obtain ⟨lss, hlss⟩ := mapM_all_ok h1
  refine ⟨lss.flatten, by unfold batchLabels; rw [hlss]; rfl, ?_⟩
  intro r hr f hf ls hls l hl
  obtain ⟨j, hj⟩ := List.getElem?_of_mem hr
  have hlt : j < lss.length := by rw [C21.mapM_length hlss]; exact (List.getElem?_eq_some_iff.1 hj).1
  have := C22.mapM_get hlss hj (List.getElem?_eq_getElem hlt)
  simp only [fieldAt, hf, bind, Except.bind] at this
  rw [hls] at this
  cases this
  exact List.mem_flatten.2 ⟨_, List.getElem_mem hlt, hl⟩

/-- The function found for a transformer accepts all fields of the batch. -/
theorem getFn_ok (w : Writer) (dflt : QId → DataRow V) (generate : List (DataRow V) → Text → V)
    (hfresh : ∀ rows c, ∀ r ∈ rows, r c ≠ some (generate rows c)) (p : Nat × FieldTransformer V)
    (htab : ∀ tb, p.2.table? = some tb → ∃ key value, IsEnumTable tb key value)
    (batch : List (List (Field V))) (hs : ∀ r ∈ batch, Suits p.2 r[p.1]?) (db : Lookups V)
    (hc : ∀ tb, p.2.table? = some tb → consistent tb (db tb.name) = true) :
    ∃ db' fn, GetFn w dflt batch db p db' fn ∧ ∀ r ∈ batch, ∃ f g, fieldAt p.1 r = .ok f ∧ applyField fn f = .ok g := by
  obtain ⟨i, tr⟩ := p
  obtain ⟨found, hfound, hin⟩ := batch_labels hs
  have hmem : ∀ v, v ∈ found.eraseDups ↔ v ∈ found := fun v => C36.mem_eraseDups
  have hnd : found.eraseDups.Nodup := C36.nodup_eraseDups _
  cases tr with
  | scalar fn =>
    refine ⟨db, _, .scalar _ _ _, ?_⟩
    intro r hr
    obtain ⟨f, _, hf, _⟩ := labels_suit (hs r hr)
    refine ⟨f, ?_⟩
    cases f with
    | null => exact ⟨_, hf, rfl⟩
    | one v => exact ⟨_, hf, rfl⟩
    | many v => exact ⟨_, hf, rfl⟩
  | enum tb =>
    obtain ⟨key, value, hl⟩ := htab tb rfl
    obtain ⟨db', dict, hm, hd⟩ := merge_ok w dflt hl generate hfresh found.eraseDups db (hc tb rfl)
    refine ⟨db', _, .enum hfound hnd hmem hm, ?_⟩
    intro r hr
    obtain ⟨f, hg, hf, _⟩ := labels_suit (hs r hr)
    refine ⟨f, ?_⟩
    cases f with
    | null => exact ⟨_, hf, rfl⟩
    | one v =>
      obtain ⟨y, hy⟩ := hd v ((hmem v).2 (hin r hr _ hg [v] rfl v (by simp)))
      exact ⟨_, hf, by simp only [applyField, enumFn, hy, bind, Except.bind, pure, Except.pure]; rfl⟩
    | many v => have h := hs r hr; dsimp only at h; rw [hg] at h; exact h.elim
  | enumList tb =>
    obtain ⟨key, value, hl⟩ := htab tb rfl
    obtain ⟨db', dict, hm, hd⟩ := merge_ok w dflt hl generate hfresh found.eraseDups db (hc tb rfl)
    refine ⟨db', _, .enumList hfound hnd hmem hm, ?_⟩
    intro r hr
    obtain ⟨f, hg, hf, _⟩ := labels_suit (hs r hr)
    refine ⟨f, ?_⟩
    cases f with
    | null => exact ⟨_, hf, rfl⟩
    | one v => have h := hs r hr; dsimp only at h; rw [hg] at h; exact h.elim
    | many items =>
      have h := hs r hr
      dsimp only at h
      rw [hg] at h
      have hsome : ∀ x ∈ items, x.isSome = true := h
      obtain ⟨ys, hys⟩ : ∃ ys, items.mapM (fun item => dictGet dict item) = .ok ys := by
        refine mapM_all_ok (fun x hx => ?_)
        obtain ⟨v, rfl⟩ := Option.isSome_iff_exists.1 (hsome x hx)
        refine hd v ((hmem v).2 (hin r hr _ hg _ rfl v ?_))
        exact List.mem_filterMap.2 ⟨some v, hx, rfl⟩
      exact ⟨.many ys, hf, by simp only [applyField, enumListFn, hys, bind, Except.bind, pure, Except.pure]⟩

theorem getFns_ok (w : Writer) (dflt : QId → DataRow V) (generate : List (DataRow V) → Text → V)
    (hfresh : ∀ rows c, ∀ r ∈ rows, r c ≠ some (generate rows c)) (batch : List (List (Field V)))
    (all : List (Nat × FieldTransformer V))
    (hone : ∀ p ∈ all, ∀ p' ∈ all, ∀ tb tb', p.2.table? = some tb → p'.2.table? = some tb' → tb.name = tb'.name → tb = tb')
    (htab : ∀ p ∈ all, ∀ tb, p.2.table? = some tb → ∃ key value, IsEnumTable tb key value)
    (hs : ∀ r ∈ batch, ∀ p ∈ all, Suits p.2 r[p.1]?) :
    ∀ (trs : List (Nat × FieldTransformer V)), (∀ p ∈ trs, p ∈ all) → ∀ db : Lookups V, AllConsistent all db →
      ∃ db' fns, GetFns w dflt batch db trs db' fns ∧ ∀ r ∈ batch, ∃ out, applyFns ((trs.map Prod.fst).zip fns) r = .ok out := by
  intro trs
  induction trs with
  | nil => intro _ db _; exact ⟨db, [], .nil db, fun r _ => ⟨[], rfl⟩⟩
  | cons p trs ih =>
    intro hsub db hc
    have hp := hsub p List.mem_cons_self
    obtain ⟨db1, fn, hg, hok⟩ := getFn_ok w dflt generate hfresh p (htab p hp) batch (fun r hr => hs r hr p hp) db (hc p hp)
    have hc1 := (getFn_facts hg).2.2 all hp hone hc
    obtain ⟨db2, fns, hgs, hoks⟩ := ih (fun q hq => hsub q (List.mem_cons_of_mem _ hq)) db1 hc1
    refine ⟨db2, fn :: fns, .cons hg hgs, ?_⟩
    intro r hr
    obtain ⟨f, g, hf, hfg⟩ := hok r hr
    obtain ⟨out, hout⟩ := hoks r hr
    exact ⟨g :: out, by
      simp only [List.map_cons, List.zip_cons_cons, applyFns, hf, hfg, hout, bind, Except.bind, pure, Except.pure]⟩

end C23

/-- **C23.**  No batch is refused by an engine that generates new keys, for any content of the lookup tables: fields with a label or NULL, and lists of labels,
    of any length, in any order and with repetitions.  (By `C23_labels_resolve` the stored keys resolve to the labels.) -/
theorem C23_batches_accepted (w : Writer) (dflt : QId → DataRow V) {trs : List (Nat × FieldTransformer V)} (hone : OneSchema trs)
    (htab : ∀ p ∈ trs, ∀ tb, p.2.table? = some tb → ∃ key value, IsEnumTable tb key value)
    (generate : List (DataRow V) → Text → V) (hfresh : ∀ rows c, ∀ r ∈ rows, r c ≠ some (generate rows c)) :
    ∀ (batches : List (List (List (Field V)))), (∀ batch ∈ batches, ∀ r ∈ batch, ∀ p ∈ trs, Suits p.2 r[p.1]?) →
    ∀ db : Lookups V, (∀ p ∈ trs, ∀ tb, p.2.table? = some tb → consistent tb (db tb.name) = true) →
      ∃ db' outs, Transforms w dflt trs db batches db' outs := by
  intro batches
  induction batches with
  | nil => intro _ db _; exact ⟨db, [], .nil db⟩
  | cons batch batches ih =>
    intro hs db hc
    obtain ⟨db1, fns, hg, hok⟩ := C23.getFns_ok w dflt generate hfresh batch trs hone htab (hs batch List.mem_cons_self) trs
      (fun _ h => h) db hc
    obtain ⟨out, hout⟩ := C23.mapM_all_ok hok
    have hc1 := (C23.getFns_facts hg).2.2.2 trs (fun _ h => h) hone hc
    obtain ⟨db2, outs, h⟩ := ih (fun b hb => hs b (List.mem_cons_of_mem _ hb)) db1 hc1
    exact ⟨db2, out :: outs, .cons hg hout h⟩

/-- **C23 fails** if the key of the referenced table is not generated, such as a table of countries with a code and a
    unique name: a foreign key that the caller supplies as a string is taken for a label, and refused (in every dialect,
    for every content of the table). -/
theorem C23_supplied_key_refused {w : Writer} {dflt : QId → DataRow V} {tb : Table} {key value : Text}
    (hl : IsLookup tb key value) (hid : ∀ c ∈ tb.columns.items, c.identity = false) {db : Lookups V} {labels : List V}
    (hne : labels ≠ []) : ¬ ∃ db' dict, MergeLookup w dflt tb db labels db' dict := by
  rintro ⟨db', dict, h⟩
  cases h with
  | none => exact hne rfl
  | some hne' hs hx hv hk hperm =>
    rename_i s rows selected vc kc
    have hlen : tb.columns.items.length = 2 := by
      have := hl.columns.length_eq; simpa using this
    have hf : tb.columns.items.filter (fun c => !c.identity) = tb.columns.items := by
      rw [List.filter_eq_self]; intro c hc; simp [hid c hc]
    have hp : s.params.length = 2 := by
      unfold mergeStmt at hs
      simp only [Table.getColumns, bind, Except.bind, pure, Except.pure, hf] at hs
      cases w <;> dsimp only at hs
      · split at hs
        · cases hs
        · cases hs; simp [Dml.params, hlen]
      · cases hs; simp [Dml.params, hlen]
      · cases hs; simp [Dml.params, hlen]
    cases labels with
    | nil => exact hne rfl
    | cons l labels =>
      rw [List.map_cons] at hx
      cases hx with
      | cons gen he _ =>
        unfold exec at he
        rw [if_pos (by rw [hp]; simp)] at he
        cases he

/-- **C23 fails** for a list of labels that is NULL: the batch is refused. -/
theorem C23_null_list_refused {w : Writer} {dflt : QId → DataRow V} {tb : Table} {index : Nat}
    {batch : List (List (Field V))} {record : List (Field V)} (hm : record ∈ batch) (hn : record[index]? = some .null)
    (db : Lookups V) : ¬ ∃ db' fn, GetFn w dflt batch db (index, .enumList tb) db' fn := by
  rintro ⟨db', fn, h⟩
  cases h with
  | enumList hf _ _ _ =>
    unfold batchLabels at hf
    simp only [bind, Except.bind, pure, Except.pure] at hf
    split at hf
    · cases hf
    · rename_i l hl
      obtain ⟨j, hj⟩ := List.getElem?_of_mem hm
      have hlen := C21.mapM_length hl
      have hlt : j < l.length := by rw [hlen]; exact (List.getElem?_eq_some_iff.1 hj).1
      have := C22.mapM_get hl hj (List.getElem?_eq_getElem hlt)
      simp [fieldAt, hn, FieldTransformer.labels] at this

namespace C23
open Example

/-- The lookup table of colors. -/
def color : Table :=
  { name := q "art" "color"
    columns := ⟨[{ col "id" int8 false with identity := true }, col "value" text false]⟩
    primaryKey := [t "id"], constraints := ⟨[.unique (t "uq_color") [t "value"]]⟩, description := none }

/-- A row of the table. -/
def row (id label : Nat) : DataRow Nat := fun c => if c = t "id" then some id else if c = t "value" then some label else none

theorem color_enum : IsEnumTable color (t "id") (t "value") where
  primary := rfl
  columns := by decide +kernel
  ne := by decide +kernel
  lookup := by rfl
  mandatory := by decide +kernel
  generated := by decide +kernel
  only := by decide +kernel

/-- The lookup tables before the call: color 100 has key 1. -/
def db : Lookups Nat := fun x => if x = color.name then [row 1 100] else []

/-- Two batches: a record with a new label, one with NULL, and one with a label that is there. -/
theorem example_runs : ∃ (db' : Lookups Nat) (out : List (List (List (Field Nat)))),
    Transforms .postgresql (fun _ _ => none) [(0, .scalar none), (1, .enum color)] db
      [[[.one 7, .one 101], [.one 8, .null]], [[.one 9, .one 100]]] db' out ∧
    out = [[[.one 7, .one 2], [.one 8, .null]], [[.one 9, .one 1]]] ∧
    (db' color.name).map (fun r => (r (t "id"), r (t "value"))) = [(some 1, some 100), (some 2, some 101)] := by
  have key : ∀ (rows : List (DataRow Nat)) (db : Lookups Nat) (label : Nat) (rest : List (List (Field Nat))) (rows' : List (DataRow Nat)),
      db color.name = rows → exec color (fun _ => none) (fun _ => 2) rows (labelStmt .postgresql color.name (t "id") (t "value")) [some label] = some rows' →
      batchLabels (.enum color) 1 rest = .ok [label] →
      GetFns .postgresql (fun _ _ => none) rest db [(0, .scalar none), (1, .enum color)] (fun q => if q = color.name then rows' else db q)
        [fun f => .ok f, enumFn (rows'.map (fun r => (r (t "value"), r (t "id"))))] := by
    intro rows db label rest rows' hdb hx hb
    refine .cons (.scalar _ _ _) (.cons (.enum (labels := [label]) hb (by simp) (fun v => Iff.rfl) ?_) (.nil _))
    refine MergeLookup.some (value := col "value" text false) (key := { col "id" int8 false with identity := true })
      (by simp) (s := labelStmt .postgresql color.name (t "id") (t "value")) (by rfl) ?_ (by rfl) (by rfl) (List.Perm.refl _)
    rw [hdb]
    exact .cons (fun _ => 2) hx (.nil _)
  have hm : ∀ (l : List (List (Field Nat))) (f g : List (Field Nat) → Except Err (List (Field Nat))) (o : List (List (Field Nat))),
      (l.mapM f).toOption = some o → l.mapM f = .ok o := by
    intro l f g o h
    cases hf : l.mapM f with
    | error e => rw [hf] at h; cases h
    | ok x => rw [hf] at h; cases h; rfl
  refine ⟨_, [[[.one 7, .one 2], [.one 8, .null]], [[.one 9, .one 1]]],
    .cons (key [row 1 100] db 101 _ _ (by unfold db; rw [if_pos rfl]) rfl rfl) (hm _ _ (fun _ => .ok []) _ (by decide +kernel))
      (.cons (key _ _ 100 _ _ (if_pos rfl) rfl rfl) (hm _ _ (fun _ => .ok []) _ (by decide +kernel)) (.nil _)), rfl, ?_⟩
  decide +kernel

/-- An engine that counts: a key greater than all there are. -/
def count (rows : List (DataRow Nat)) (c : Text) : Nat := (rows.filterMap (fun r => r c)).foldr max 0 + 1

theorem count_fresh (rows : List (DataRow Nat)) (c : Text) : ∀ r ∈ rows, r c ≠ some (count rows c) := by
  have : ∀ (l : List Nat), ∀ x ∈ l, x ≤ l.foldr max 0 := by
    intro l
    induction l with
    | nil => intro x h; cases h
    | cons a l ih =>
      intro x h
      rw [List.foldr_cons]
      rcases List.mem_cons.1 h with rfl | h
      · exact Nat.le_max_left _ _
      · exact Nat.le_trans (ih x h) (Nat.le_max_right _ _)
  intro r hr h
  have := this _ _ (List.mem_filterMap (f := fun r : DataRow Nat => r c) |>.2 ⟨r, hr, h⟩)
  unfold count at this
  omega

/-- `C23_batches_accepted` applies: two batches, with a label, NULL, and lists with new labels and repetitions. -/
example : ∃ (db' : Lookups Nat) (outs : List (List (List (Field Nat)))),
    Transforms .base (fun _ _ => none) [(0, .enum color), (1, .enumList color)] db
      [[[.one 101, .many [some 100, some 102, some 100]], [.null, .many []]], [[.one 102, .many [some 103]]]] db' outs := by
  refine C23_batches_accepted .base _ ?_ ?_ count count_fresh _ ?_ db ?_
  · intro p hp p' hp' tb tb' h h' _
    rcases List.mem_cons.1 hp with rfl | hp
    · cases h
      rcases List.mem_cons.1 hp' with rfl | hp'
      · cases h'; rfl
      · rw [List.mem_singleton.1 hp'] at h'; cases h'; rfl
    · rw [List.mem_singleton.1 hp] at h; cases h
      rcases List.mem_cons.1 hp' with rfl | hp'
      · cases h'; rfl
      · rw [List.mem_singleton.1 hp'] at h'; cases h'; rfl
  · intro p hp tb h
    rcases List.mem_cons.1 hp with rfl | hp
    · cases h; exact ⟨_, _, color_enum⟩
    · rw [List.mem_singleton.1 hp] at h; cases h; exact ⟨_, _, color_enum⟩
  · intro batch hb r hr p hp
    simp only [List.mem_cons, List.not_mem_nil, or_false] at hb hp
    rcases hb with rfl | rfl <;> simp only [List.mem_cons, List.not_mem_nil, or_false] at hr
    · rcases hr with rfl | rfl <;> rcases hp with rfl | rfl <;> simp [Suits]
    · rcases hr with rfl; rcases hp with rfl | rfl <;> simp [Suits]
  · intro p hp tb h
    rcases List.mem_cons.1 hp with rfl | hp
    · cases h; decide +kernel
    · rw [List.mem_singleton.1 hp] at h; cases h; decide +kernel

end C23
end PySqlSync
