/-
C22 — Each value lands in the column it was labelled with.
-/
import Verif.Model.Dml
import Verif.Props.C21
import Verif.Spec.Safe
import Verif.Lemmas.NsObj
import Verif.Lemmas.Convert

set_option autoImplicit false

namespace PySqlSync
open Spec

variable {V : Type}

/-- The k-th parameter sent for a record is the field of the record that is labelled with the name of the k-th column
    of the statement, transformed by what that field's transformer returned for the batch. -/
def Placed (make : Nat → FieldType → Text → Except Err (Transformer V)) (types : List FieldType) (names : List Text)
    (batch : List (Record V)) (record sent : Record V) (params : List Text) : Prop :=
  sent.length = params.length ∧
  ∀ (k : Nat) (col : Text), params[k]? = some col → ∃ (i : Nat) (ty : FieldType) (field : Option V) (tr : Transformer V), names[i]? = some col ∧ types[i]? = some ty ∧ ty ≠ .omitted
    ∧ make i ty col = .ok tr ∧ record[i]? = some field ∧ sent[k]? = some (applyFn (tr batch) field)

/-- The driver is given, for each batch of records, a batch with one set of parameters for each record, in order, as
    expected. -/
def AllPlaced (make : Nat → FieldType → Text → Except Err (Transformer V)) (types : List FieldType) (names : List Text)
    (records : List (Record V)) (params : List Text) (out : List (List (Record V))) : Prop :=
  out.length = (toBatches records).length ∧
  ∀ (b : Nat) (batch sentBatch : List (Record V)), (toBatches records)[b]? = some batch → out[b]? = some sentBatch →
    sentBatch.length = batch.length ∧
    ∀ (r : Nat) (record sent : Record V), batch[r]? = some record → sentBatch[r]? = some sent →
      Placed make types names batch record sent params

/-- The labels of the fields that are sent: those with a label whose type is not `NoneType`. -/
def Spec.sentLabels : List FieldType → List Text → List Text
  | ty :: types, n :: names => if ty ≠ .omitted ∧ n ≠ [] then n :: sentLabels types names else sentLabels types names
  | _, _ => []

namespace C22

variable {make : Nat → FieldType → Text → Except Err (Transformer V)}

theorem sent_iff : ∀ {types : List FieldType} {names : List Text}, types.length = names.length → ∀ (n : Text),
    n ∈ sentLabels types names ↔ ∃ (i : Nat) (ty : FieldType), names[i]? = some n ∧ types[i]? = some ty ∧ ty ≠ .omitted ∧ n ≠ [] := by
  intro types
  induction types with
  | nil => intro names _ n; simp [sentLabels]
  | cons ty types ih =>
    intro names hl n
    cases names with
    | nil => simp at hl
    | cons m names =>
      have ih' := ih (by simpa using hl : types.length = names.length) n
      have split : (∃ (i : Nat) (ty' : FieldType), (m :: names)[i]? = some n ∧ (ty :: types)[i]? = some ty' ∧ ty' ≠ .omitted ∧ n ≠ []) ↔
          (m = n ∧ ty ≠ .omitted ∧ n ≠ []) ∨ ∃ (i : Nat) (ty' : FieldType), names[i]? = some n ∧ types[i]? = some ty' ∧ ty' ≠ .omitted ∧ n ≠ [] := by
        constructor
        · rintro ⟨i, ty', h1, h2, h3, h4⟩
          cases i with
          | zero =>
            simp only [List.getElem?_cons_zero, Option.some.injEq] at h1 h2
            exact .inl ⟨h1, h2 ▸ h3, h4⟩
          | succ i => exact .inr ⟨i, ty', by simpa using h1, by simpa using h2, h3, h4⟩
        · rintro (⟨h1, h2, h3⟩ | ⟨i, ty', h1, h2, h3, h4⟩)
          · exact ⟨0, ty, by simpa using h1, rfl, h2, h3⟩
          · exact ⟨i + 1, ty', by simpa using h1, by simpa using h2, h3, h4⟩
      rw [split, ← ih', show sentLabels (ty :: types) (m :: names)
        = if ty ≠ .omitted ∧ m ≠ [] then m :: sentLabels types names else sentLabels types names from rfl]
      by_cases hc : ty ≠ .omitted ∧ m ≠ []
      · rw [if_pos hc, List.mem_cons]
        constructor
        · rintro (rfl | h)
          · exact .inl ⟨rfl, hc⟩
          · exact .inr h
        · rintro (⟨rfl, _⟩ | h)
          · exact .inl rfl
          · exact .inr h
      · rw [if_neg hc]
        constructor
        · exact .inr
        · rintro (⟨rfl, h⟩ | h)
          · exact absurd h hc
          · exact h

theorem sent_sublist : ∀ (types : List FieldType) (names : List Text),
    List.Sublist (sentLabels types names) (names.filter (fun n => n ≠ [])) := by
  intro types
  induction types with
  | nil => intro names; simp [sentLabels]
  | cons ty types ih =>
    intro names
    cases names with
    | nil => simp [sentLabels]
    | cons m names =>
      unfold sentLabels
      by_cases hm : m = []
      · subst hm
        simpa using ih names
      · rw [List.filter_cons_of_pos (by simpa using hm)]
        split
        · exact (ih names).cons_cons m
        · exact (ih names).cons m

theorem sent_all : ∀ {types : List FieldType} {names : List Text}, types.length = names.length →
    (∀ (i : Nat) (n : Text), names[i]? = some n → types[i]? = some FieldType.omitted → n = []) →
    sentLabels types names = names.filter (fun n => n ≠ []) := by
  intro types
  induction types with
  | nil =>
    intro names hl _
    cases names with
    | nil => rfl
    | cons => simp at hl
  | cons ty types ih =>
    intro names hl ho
    cases names with
    | nil => simp at hl
    | cons m names =>
      have := ih (by simpa using hl : types.length = names.length)
        (fun i x h1 h2 => ho (i + 1) x (by simpa using h1) (by simpa using h2))
      unfold sentLabels
      by_cases hm : m = []
      · subst hm
        simpa using this
      · have hty : ty ≠ .omitted := fun e => hm (ho 0 m rfl (by simp [e]))
        rw [if_pos ⟨hty, hm⟩, List.filter_cons_of_pos (by simpa using hm), this]

/-- Two lists of different elements taken from a third in order are the same if they have the same elements. -/
theorem sublist_ext {α : Type} {l : List α} (hn : l.Nodup) : ∀ {a b : List α}, a.Sublist l → b.Sublist l → (∀ x, x ∈ a ↔ x ∈ b) → a = b := by
  induction l with
  | nil =>
    intro a b ha hb _
    rw [List.sublist_nil.1 ha, List.sublist_nil.1 hb]
  | cons y l ih =>
    intro a b ha hb h
    obtain ⟨hy, hn'⟩ := List.nodup_cons.1 hn
    have key : ∀ {c : List α}, c.Sublist (y :: l) → (y ∈ c ∧ ∃ c', c = y :: c' ∧ c'.Sublist l) ∨ (y ∉ c ∧ c.Sublist l) := by
      intro c hc
      cases hc with
      | cons _ h => exact .inr ⟨fun hm => hy (h.subset hm), h⟩
      | cons_cons _ h => exact .inl ⟨List.mem_cons_self, _, rfl, h⟩
    rcases key ha with ⟨ya, a', rfl, ha'⟩ | ⟨ya, ha'⟩ <;> rcases key hb with ⟨yb, b', rfl, hb'⟩ | ⟨yb, hb'⟩
    · congr 1
      refine ih hn' ha' hb' ?_
      intro x
      by_cases hx : x = y
      · subst hx
        exact iff_of_false (fun h => hy (ha'.subset h)) (fun h => hy (hb'.subset h))
      · have := h x
        simpa [hx] using this
    · exact absurd ((h y).1 ya) yb
    · exact absurd ((h y).2 yb) ya
    · exact ih hn' ha' hb' h

theorem kept_spec : ∀ {types : List FieldType} {names : List Text} {i0 : Nat} {kept : List (Nat × Transformer V)},
    keptFields make i0 types names = .ok kept → types.length = names.length →
    kept.length = (sentLabels types names).length ∧ kept.length ≤ types.length ∧
    ∀ (k : Nat) (col : Text), (sentLabels types names)[k]? = some col → ∃ (j : Nat) (ty : FieldType) (tr : Transformer V), kept[k]? = some (i0 + j, tr)
      ∧ names[j]? = some col ∧ types[j]? = some ty ∧ ty ≠ .omitted ∧ make (i0 + j) ty col = .ok tr
      ∧ k ≤ j ∧ j + kept.length ≤ types.length + k := by
  intro types
  induction types with
  | nil =>
    intro names i0 kept h hl
    have : names = [] := by cases names with | nil => rfl | cons _ _ => simp at hl
    subst this
    cases h
    simp [sentLabels]
  | cons ty types ih =>
    intro names i0 kept h hl
    cases names with
    | nil => simp at hl
    | cons n names =>
      have hl' : types.length = names.length := by simpa using hl
      unfold keptFields at h
      by_cases hn : ty = .omitted ∨ n = []
      · rw [if_pos (by simpa using hn)] at h
        obtain ⟨h1, h2, h3⟩ := ih h hl'
        have hf : sentLabels (ty :: types) (n :: names) = sentLabels types names := by
          rw [sentLabels, if_neg (by rintro ⟨a, b⟩; rcases hn with hn | hn <;> contradiction)]
        rw [hf]
        refine ⟨h1, by simp; omega, ?_⟩
        intro k col hk
        obtain ⟨j, ty', tr, e1, e2, e3, e4, e5, e6, e7⟩ := h3 k col hk
        exact ⟨j + 1, ty', tr, by rw [e1, show i0 + 1 + j = i0 + (j + 1) by omega], by simpa using e2, by simpa using e3, e4,
          by rw [show i0 + (j + 1) = i0 + 1 + j by omega]; exact e5, by omega, by simp; omega⟩
      · obtain ⟨hty, hnn⟩ := not_or.1 hn
        rw [if_neg (by simp [hnn, hty])] at h
        simp only [bind, Except.bind] at h
        split at h
        · cases h
        · rename_i tr htr
          split at h
          · cases h
          · rename_i rest hrest
            cases h
            obtain ⟨h1, h2, h3⟩ := ih hrest hl'
            have hf : sentLabels (ty :: types) (n :: names) = n :: sentLabels types names := by
              rw [sentLabels, if_pos ⟨hty, hnn⟩]
            rw [hf]
            refine ⟨by simpa using h1, by simpa using h2, ?_⟩
            intro k col hk
            cases k with
            | zero =>
              simp only [List.getElem?_cons_zero, Option.some.injEq] at hk
              subst hk
              exact ⟨0, ty, tr, rfl, rfl, rfl, hty, htr, Nat.le_refl _, by simp; omega⟩
            | succ k =>
              obtain ⟨j, ty', tr', e1, e2, e3, e4, e5, e6, e7⟩ := h3 k col (by simpa using hk)
              exact ⟨j + 1, ty', tr', by rw [List.getElem?_cons_succ, e1, show i0 + 1 + j = i0 + (j + 1) by omega],
                by simpa using e2, by simpa using e3, e4,
                by rw [show i0 + (j + 1) = i0 + 1 + j by omega]; exact e5, by omega, by simp; omega⟩

theorem mapM_get {α β : Type} {f : α → Except Err β} : ∀ {l : List α} {r : List β}, l.mapM f = .ok r →
    ∀ {k : Nat} {a : α} {b : β}, l[k]? = some a → r[k]? = some b → f a = .ok b := by
  intro l
  induction l with
  | nil => intro r h k a b ha; cases ha
  | cons x l ih =>
    intro r h k a b ha hb
    rw [List.mapM_cons] at h
    simp only [bind, Except.bind] at h
    split at h
    · cases h
    · rename_i y hy
      split at h
      · cases h
      · rename_i v hv
        cases h
        cases k with
        | zero => simp at ha hb; subst ha; subst hb; exact hy
        | succ k => exact ih hv (by simpa using ha) (by simpa using hb)

theorem select_get {indices : List Nat} {record out : Record V} (h : selectFields indices record = .ok out)
    {k i : Nat} (hk : indices[k]? = some i) : ∃ x, record[i]? = some x ∧ out[k]? = some x := by
  have hl := C21.mapM_length h
  have hlt : k < out.length := by rw [hl]; exact (List.getElem?_eq_some_iff.1 hk).1
  have ho : out[k]? = some out[k] := List.getElem?_eq_getElem hlt
  have := mapM_get h hk ho
  cases hr : record[i]? with
  | none => rw [hr] at this; cases this
  | some x =>
    rw [hr] at this
    cases this
    exact ⟨_, rfl, ho⟩

/-- What the driver is given for a record. -/
theorem record_placed {types : List FieldType} {names : List Text} {columns : List Text}
    {onames : Option (List Text)} {batches out : List (List (Record V))} (hnames : onames.getD columns = names)
    (h : generateRecords columns make types onames batches = .ok out)
    (hl : types.length = names.length)
    (hr : ∀ batch ∈ batches, ∀ record ∈ batch, record.length = types.length) (hne : types ≠ []) :
    out.length = batches.length ∧
    ∀ (b : Nat) (batch sentBatch : List (Record V)), batches[b]? = some batch → out[b]? = some sentBatch → sentBatch.length = batch.length ∧
      ∀ (r : Nat) (record sent : Record V), batch[r]? = some record → sentBatch[r]? = some sent →
        Placed make types names batch record sent (sentLabels types names) := by
  have hlen := C21_transformation_keeps_batches h
  have hlen' : out.length = batches.length := by simpa using congrArg List.length hlen
  refine ⟨hlen', ?_⟩
  intro b batch sentBatch hb hs
  have hsb : sentBatch.length = batch.length := by
    have := congrArg (fun l => l[b]?) hlen
    simpa [hb, hs] using this
  refine ⟨hsb, ?_⟩
  intro r record sent hrec hsent
  have hmem : record.length = types.length :=
    hr batch (List.mem_of_getElem? hb) record (List.mem_of_getElem? hrec)
  unfold generateRecords at h
  rw [hnames] at h
  simp only [bind, Except.bind] at h
  split at h
  · cases h
  · rename_i kept hk
    obtain ⟨k1, k2, k3⟩ := kept_spec hk hl
    cases hemp : kept.isEmpty with
    | true =>
    have hk0 : kept = [] := by simpa using hemp
    subst hk0
    have hsent0 : sentLabels types names = [] := List.length_eq_zero_iff.1 (by simpa using k1.symm)
    have hfull : ¬ (0 = types.length) := by
      intro e
      exact hne (List.length_eq_zero_iff.1 e.symm)
    simp only [List.isEmpty_nil, if_true, List.map_nil, List.length_nil, hfull, if_false] at h
    have hbatch := mapM_get h hb hs
    have hone := mapM_get hbatch hrec hsent
    cases hone
    rw [hsent0]
    exact ⟨rfl, by intro k col hk; simp at hk⟩
    | false =>
    rw [hemp] at h
    simp only [Bool.false_eq_true, if_false] at h
    have finish : ∀ (sel : Record V), sel.length = kept.length →
        (∀ (k i : Nat) (tr : Transformer V), kept[k]? = some (i, tr) → k ≤ i → i + kept.length ≤ types.length + k → ∃ x, record[i]? = some x ∧ sel[k]? = some x) →
        sent = transformFields ((kept.map Prod.snd).map (fun tr => tr batch)) sel →
        Placed make types names batch record sent (sentLabels types names) := by
      intro sel hsl hsel hsent
      refine ⟨by rw [hsent, ← k1]; simp [transformFields, hsl], ?_⟩
      intro k col hcol
      obtain ⟨j, ty, tr, e1, e2, e3, e4, e5, e6, e7⟩ := k3 k col hcol
      simp only [Nat.zero_add] at e1 e5
      obtain ⟨x, hx, hx'⟩ := hsel k j tr e1 e6 e7
      refine ⟨j, ty, x, tr, e2, e3, e4, e5, hx, ?_⟩
      rw [hsent]
      simp [transformFields, List.getElem?_zipWith, e1, hx']
    by_cases hfull : kept.length = types.length
    · rw [if_pos (by simpa using hfull)] at h
      cases h
      simp only [List.getElem?_map, hb, Option.map_some, Option.some.injEq] at hs
      subst hs
      simp only [List.getElem?_map, hrec, Option.map_some, Option.some.injEq] at hsent
      refine finish record (by omega) ?_ hsent.symm
      intro k i tr hkk h1 h2
      have : i = k := by omega
      subst this
      have hlt : i < record.length := by
        have := (List.getElem?_eq_some_iff.1 hkk).1; omega
      exact ⟨_, List.getElem?_eq_getElem hlt, List.getElem?_eq_getElem hlt⟩
    · rw [if_neg (by simpa using hfull)] at h
      have hbatch := mapM_get h hb hs
      have hone := mapM_get hbatch hrec hsent
      split at hone
      · cases hone
      · rename_i sel hsel
        cases hone
        refine finish sel ?_ ?_ rfl
        · rw [C21.mapM_length hsel]; simp
        · intro k i tr hkk _ _
          exact select_get hsel (by simp [hkk])

theorem mem_toBatches {records : List (Record V)} {n : Nat} (h : ∀ r ∈ records, r.length = n) :
    ∀ batch ∈ toBatches records, ∀ record ∈ batch, record.length = n := by
  intro batch hb record hr
  refine h record ?_
  rw [← (C21_batches records).all]
  exact List.mem_flatten.2 ⟨batch, hb, hr⟩

theorem getColumns_names {tb : Table} {order : List Text} {cols : List Column}
    (h : tb.getColumns (some order) = .ok cols) : cols.map Column.name = order := by
  unfold Table.getColumns at h
  simp only at h
  induction order generalizing cols with
  | nil => cases h; rfl
  | cons n order ih =>
    rw [List.mapM_cons] at h
    simp only [bind, Except.bind] at h
    split at h
    · cases h
    · rename_i c hc
      split at h
      · cases h
      · rename_i rest hrest
        cases h
        rw [List.map_cons, ih hrest]
        congr 1
        cases hg : tb.columns.get n with
        | none => rw [hg] at hc; cases hc
        | some x => rw [hg] at hc; cases hc; exact (ODict.get_some_mem hg).2

theorem order_names {tb : Table} (hcol : ∀ c ∈ tb.columns.items, c.name ≠ [])
    {names : Option (List Text)} (hne : names ≠ some []) {cols : List Column}
    (h : tb.getColumns (fieldOrder names) = .ok cols) :
    cols.map Column.name = (names.getD (tb.columns.items.map Column.name)).filter (fun n => n ≠ []) := by
  cases names with
  | none =>
    cases h
    symm
    refine List.filter_eq_self.2 ?_
    intro n hn
    obtain ⟨c, hc, rfl⟩ := List.mem_map.1 hn
    simpa using hcol c hc
  | some l =>
    cases l with
    | nil => exact absurd rfl hne
    | cons x l => exact getColumns_names h

end C22
open C22

/-- What is asked of a call: labels and types describe the fields of the records, and at least one field is labelled. -/
structure GoodCall (tb : Table) (types : List FieldType) (names : Option (List Text)) (records : List (Record V)) : Prop where
  named : ∀ c ∈ tb.columns.items, c.name ≠ []
  sameLength : types.length = (names.getD (tb.columns.items.map Column.name)).length
  labelled : (names.getD (tb.columns.items.map Column.name)).filter (fun n => n ≠ []) ≠ []
  width : ∀ r ∈ records, r.length = types.length

theorem GoodCall.nonempty {tb : Table} {types : List FieldType} {names : Option (List Text)} {records : List (Record V)}
    (g : GoodCall tb types names records) : names ≠ some [] := by
  intro e
  have := g.labelled
  rw [e] at this
  exact this rfl

theorem GoodCall.types_ne {tb : Table} {types : List FieldType} {names : Option (List Text)} {records : List (Record V)}
    (g : GoodCall tb types names records) : types ≠ [] := by
  intro e
  have := g.sameLength
  rw [e] at this
  have h0 := List.length_eq_zero_iff.1 this.symm
  exact g.labelled (by rw [h0]; rfl)

/-- A driver accepts the parameters of a statement if there are as many as the statement has. -/
def Spec.Accepted (stmt : Dml) (out : List (List (Record V))) : Prop := ∀ batch ∈ out, ∀ sent ∈ batch, sent.length = stmt.params.length

namespace C22

/-- With at least one record, the number of parameters is the number of fields that are sent. -/
theorem accepted_length {make : Nat → FieldType → Text → Except Err (Transformer V)} {types : List FieldType} {names : List Text}
    {records : List (Record V)} {params : List Text} {stmt : Dml} {out : List (List (Record V))} (hr : records ≠ [])
    (hall : AllPlaced make types names records params out) (acc : Accepted stmt out) : params.length = stmt.params.length := by
  have hne : toBatches records ≠ [] := by
    intro e
    have := (C21_batches records).all
    rw [e] at this
    exact hr this.symm
  cases hb : toBatches records with
  | nil => exact absurd hb hne
  | cons batch rest =>
    have hlen := hall.1
    rw [hb] at hlen
    cases ho : out with
    | nil => rw [ho] at hlen; simp at hlen
    | cons sb srest =>
      have h1 := hall.2 0 batch sb (by rw [hb]; rfl) (by rw [ho]; rfl)
      have hbne : batch ≠ [] := (C21_batches records).nonempty batch (by rw [hb]; exact List.mem_cons_self)
      cases hbb : batch with
      | nil => exact absurd hbb hbne
      | cons rec rs =>
        have hl := h1.1
        cases hsb : sb with
        | nil => rw [hbb, hsb] at hl; simp at hl
        | cons sent ss =>
          have h2 := h1.2 0 rec sent (by rw [hbb]; rfl) (by rw [hsb]; rfl)
          rw [← h2.1]
          exact acc sb (by rw [ho]; exact List.mem_cons_self) sent (by rw [hsb]; exact List.mem_cons_self)

/-- Values are placed as labelled for a list of parameters taken from the labels if and only if these are the labels of the fields that are
    sent. -/
theorem placed_iff {make : Nat → FieldType → Text → Except Err (Transformer V)} {types : List FieldType} {names : List Text}
    {records : List (Record V)} {params : List Text} {out : List (List (Record V))} (hr : records ≠ [])
    (hl : types.length = names.length) (hn : (names.filter (fun n => n ≠ [])).Nodup)
    (hall : AllPlaced make types names records (sentLabels types names) out) (hp : params.Sublist (names.filter (fun n => n ≠ [])))
    (hlen : (sentLabels types names).length = params.length) :
    AllPlaced make types names records params out ↔ ∀ n ∈ params, n ∈ sentLabels types names := by
  constructor
  · intro h n hnp
    have hne : toBatches records ≠ [] := by
      intro e
      have := (C21_batches records).all
      rw [e] at this
      exact hr this.symm
    cases hb : toBatches records with
    | nil => exact absurd hb hne
    | cons batch rest =>
      have hlen := h.1
      rw [hb] at hlen
      cases ho : out with
      | nil => rw [ho] at hlen; simp at hlen
      | cons sb srest =>
        have h1 := h.2 0 batch sb (by rw [hb]; rfl) (by rw [ho]; rfl)
        have hbne : batch ≠ [] := (C21_batches records).nonempty batch (by rw [hb]; exact List.mem_cons_self)
        cases hbb : batch with
        | nil => exact absurd hbb hbne
        | cons rec rs =>
          have hl' := h1.1
          cases hsb : sb with
          | nil => rw [hbb, hsb] at hl'; simp at hl'
          | cons sent ss =>
            have h2 := h1.2 0 rec sent (by rw [hbb]; rfl) (by rw [hsb]; rfl)
            obtain ⟨k, hk⟩ := List.getElem?_of_mem hnp
            obtain ⟨i, ty, _, _, e1, e2, e3, _⟩ := h2.2 k n hk
            exact (sent_iff hl n).2 ⟨i, ty, e1, e2, e3, by simpa using (List.mem_filter.1 (hp.subset hnp)).2⟩
  · intro h
    have hsub : params.Sublist (sentLabels types names) := by
      have hs := sent_sublist types names
      -- the elements of the labels sent that are parameters
      have : params = (sentLabels types names).filter (fun n => decide (n ∈ params)) := by
        refine sublist_ext hn hp (List.filter_sublist.trans hs) ?_
        intro x
        simp only [List.mem_filter, decide_eq_true_eq]
        exact ⟨fun hx => ⟨h x hx, hx⟩, fun hx => hx.2⟩
      rw [this]
      exact List.filter_sublist
    have : params = sentLabels types names := hsub.eq_of_length hlen.symm
    rw [this]
    exact hall

theorem upsert_params {w : Writer} {tb : Table} {order : Option (List Text)} {stmt : Dml} (h : upsertStmt w tb order = .ok stmt) :
    ∃ cols, tb.getColumns order = .ok cols ∧ stmt.params = cols.map Column.name := by
  unfold upsertStmt at h
  simp only [bind, Except.bind] at h
  split at h
  · cases h
  · rename_i cols hcols
    refine ⟨cols, hcols, ?_⟩
    cases w with
    | postgresql => simp only at h; split at h <;> (cases h; rfl)
    | mysql => simp only at h; split at h <;> (cases h; rfl)
    | base =>
      simp only at h
      split at h
      · cases h
      · split at h
        · cases h
        · cases h; rfl

/-- A statement with all labels is accepted only if all labelled fields are sent. -/
theorem placed_all {tb : Table} {make : Nat → FieldType → Text → Except Err (Transformer V)} {types : List FieldType}
    {names : Option (List Text)} {records : List (Record V)} {stmt : Dml} {out : List (List (Record V))} (g : GoodCall tb types names records)
    (hout : generateRecords (tb.columns.items.map Column.name) make types names (toBatches records) = .ok out)
    (hp : stmt.params = (names.getD (tb.columns.items.map Column.name)).filter (fun n => n ≠ [])) (acc : Accepted stmt out) :
    AllPlaced make types (names.getD (tb.columns.items.map Column.name)) records stmt.params out := by
  have hall := record_placed rfl hout g.sameLength (mem_toBatches g.width) g.types_ne
  by_cases hr : records = []
  · refine ⟨hall.1, ?_⟩
    intro b batch sb hb
    rw [hr] at hb
    exact absurd hb (by simp [toBatches, batchLoop])
  · have hl := accepted_length hr hall acc
    have : sentLabels types (names.getD (tb.columns.items.map Column.name)) = stmt.params := by
      rw [hp] at hl ⊢
      exact (sent_sublist _ _).eq_of_length hl
    rw [← this]
    exact hall

end C22

/-- **C22.**  `upsert_rows`: whenever the driver accepts the parameters, each value is sent for the column it is labelled with. -/
theorem C22_upsert {w : Writer} {tb : Table} {make : Nat → FieldType → Text → Except Err (Transformer V)}
    {types : List FieldType} {names : Option (List Text)} {records : List (Record V)} {stmt : Dml}
    {out : List (List (Record V))} (g : GoodCall tb types names records)
    (h : upsertRows w tb make types names records = .ok (stmt, out)) (acc : Accepted stmt out) :
    AllPlaced make types (names.getD (tb.columns.items.map Column.name)) records stmt.params out := by
  unfold upsertRows at h
  simp only [bind, Except.bind] at h
  split at h
  · cases h
  · rename_i out' hout
    split at h
    · cases h
    · rename_i stmt' hstmt
      cases h
      obtain ⟨cols, hcols, hp⟩ := upsert_params hstmt
      exact placed_all g hout (hp.trans (order_names g.named g.nonempty hcols)) acc

/-- **C22.**  `insert_rows` on PostgreSQL and Redshift, which copies the records, likewise. -/
theorem C22_copy {tb : Table} {make : Nat → FieldType → Text → Except Err (Transformer V)}
    {types : List FieldType} {names : Option (List Text)} {records : List (Record V)} {stmt : Dml}
    {out : List (List (Record V))} (g : GoodCall tb types names records)
    (h : copyRows tb make types names records = .ok (stmt, out)) (acc : Accepted stmt out) :
    AllPlaced make types (names.getD (tb.columns.items.map Column.name)) records stmt.params out := by
  unfold copyRows at h
  simp only [bind, Except.bind] at h
  split at h
  · cases h
  · rename_i out' hout
    split at h
    · cases h
    · rename_i cols hcols
      cases h
      exact placed_all g hout (order_names g.named g.nonempty hcols) acc

/-- **C22.**  `upsert_rows` and the copying `insert_rows` are accepted if no labelled field has the type `NoneType`. -/
theorem C22_accepted {w : Writer} {tb : Table} {make : Nat → FieldType → Text → Except Err (Transformer V)}
    {types : List FieldType} {names : Option (List Text)} {records : List (Record V)} {stmt : Dml}
    {out : List (List (Record V))} (g : GoodCall tb types names records)
    (kept : ∀ (i : Nat) (n : Text), (names.getD (tb.columns.items.map Column.name))[i]? = some n → types[i]? = some FieldType.omitted → n = [])
    (h : upsertRows w tb make types names records = .ok (stmt, out) ∨ copyRows tb make types names records = .ok (stmt, out)) :
    Accepted stmt out := by
  have key : generateRecords (tb.columns.items.map Column.name) make types names (toBatches records) = .ok out →
      stmt.params = (names.getD (tb.columns.items.map Column.name)).filter (fun n => n ≠ []) → Accepted stmt out := by
    intro hout hp batch hb sent hs
    have hall := record_placed rfl hout g.sameLength (mem_toBatches g.width) g.types_ne
    obtain ⟨b, hb'⟩ := List.getElem?_of_mem hb
    obtain ⟨r, hr'⟩ := List.getElem?_of_mem hs
    have hlt : b < (toBatches records).length := by
      rw [← hall.1]; exact (List.getElem?_eq_some_iff.1 hb').1
    have hin : (toBatches records)[b]? = some (toBatches records)[b] := List.getElem?_eq_getElem hlt
    have hbb := hall.2 b _ batch hin hb'
    have hlt2 : r < ((toBatches records)[b]).length := by
      rw [← hbb.1]; exact (List.getElem?_eq_some_iff.1 hr').1
    rw [(hbb.2 r _ sent (List.getElem?_eq_getElem hlt2) hr').1, hp, sent_all g.sameLength kept]
  rcases h with h | h
  · unfold upsertRows at h
    simp only [bind, Except.bind] at h
    split at h
    · cases h
    · rename_i out' hout
      split at h
      · cases h
      · rename_i stmt' hstmt
        cases h
        obtain ⟨cols, hcols, hp⟩ := upsert_params hstmt
        exact key hout (hp.trans (order_names g.named g.nonempty hcols))
  · unfold copyRows at h
    simp only [bind, Except.bind] at h
    split at h
    · cases h
    · rename_i out' hout
      split at h
      · cases h
      · rename_i cols hcols
        cases h
        exact key hout (order_names g.named g.nonempty hcols)

/-- A label that is not empty occurs once. -/
theorem C22.label_once : ∀ {names : List Text} {n : Text} {i j : Nat}, (names.filter (fun n => n ≠ [])).Nodup → n ≠ [] → names[i]? = some n →
    names[j]? = some n → i = j := by
  intro names
  induction names with
  | nil => intro n i j _ _ h; simp at h
  | cons m names ih =>
    intro n i j hd hne hi hj
    have hnot : ∀ k : Nat, m = n → names[k]? ≠ some n := by
      intro k e hk
      subst e
      rw [List.filter_cons_of_pos (by simpa using hne)] at hd
      exact (List.nodup_cons.1 hd).1 (List.mem_filter.2 ⟨List.mem_of_getElem? hk, by simpa using hne⟩)
    have hd' : (names.filter (fun n => n ≠ [])).Nodup := by
      by_cases hm : m = []
      · rw [List.filter_cons_of_neg (by simp [hm])] at hd; exact hd
      · rw [List.filter_cons_of_pos (by simpa using hm)] at hd; exact (List.nodup_cons.1 hd).2
    cases i with
    | zero =>
      cases j with
      | zero => rfl
      | succ j => exact absurd (by simpa using hj) (hnot j (by simpa using hi))
    | succ i =>
      cases j with
      | zero => exact absurd (by simpa using hi) (hnot i (by simpa using hj))
      | succ j => exact congrArg (· + 1) (ih hd' hne (by simpa using hi) (by simpa using hj))

/-- **C22.**  `insert_rows` elsewhere.  The statement leaves out identity columns whereas the records leave out fields of the type `NoneType`.
    Whenever the driver accepts the parameters, there being as many as the statement has, each value is sent for the column it is labelled
    with, if and only if a labelled field of the type `NoneType` is one for an identity column.  (See `C22_omitted_but_labelled_misplaced`.) -/
theorem C22_insert_exact {w : Writer} {tb : Table} {make : Nat → FieldType → Text → Except Err (Transformer V)}
    {types : List FieldType} {names : Option (List Text)} {records : List (Record V)} {stmt : Dml}
    {out : List (List (Record V))} (hd : Distinct tb.columns) (g : GoodCall tb types names records) (hr : records ≠ [])
    (hn : ((names.getD (tb.columns.items.map Column.name)).filter (fun n => n ≠ [])).Nodup)
    (h : insertRows w tb make types names records = .ok (stmt, out)) (acc : Accepted stmt out) :
    AllPlaced make types (names.getD (tb.columns.items.map Column.name)) records stmt.params out ↔
      ∀ (i : Nat) (n : Text) (c : Column), (names.getD (tb.columns.items.map Column.name))[i]? = some n → types[i]? = some FieldType.omitted →
        tb.columns.get n = some c → c.identity = true := by
  unfold insertRows at h
  simp only [bind, Except.bind] at h
  split at h
  · cases h
  · rename_i out' hout
    split at h
    · cases h
    · rename_i stmt' hstmt
      cases h
      have hall := record_placed rfl hout g.sameLength (mem_toBatches g.width) g.types_ne
      have hlen := accepted_length hr hall acc
      unfold insertStmt at hstmt
      simp only [bind, Except.bind] at hstmt
      split at hstmt
      · cases hstmt
      · rename_i cols hcols
        cases hstmt
        have hnames := order_names g.named g.nonempty hcols
        have hcol : ∀ c ∈ cols, tb.columns.get c.name = some c := by
          intro c hc
          unfold Table.getColumns at hcols
          split at hcols
          · cases hcols
            exact ODict.get_eq_of_mem hd hc
          · obtain ⟨n, _, hn⟩ := Conv.mapM_back hcols c hc
            split at hn
            · rename_i c' hc'
              cases hn
              have hname : c.name = n := (ODict.get_some_mem hc').2
              rw [hname]
              exact hc'
            · cases hn
        have hsub : (Dml.insert tb.name ((cols.filter (fun c => !c.identity)).map Column.name)).params.Sublist
            ((names.getD (tb.columns.items.map Column.name)).filter (fun n => n ≠ [])) := by
          rw [← hnames]
          exact List.filter_sublist.map _
        have hmem : ∀ n, n ∈ (Dml.insert tb.name ((cols.filter (fun c => !c.identity)).map Column.name)).params ↔
            n ∈ (names.getD (tb.columns.items.map Column.name)).filter (fun n => n ≠ []) ∧
              ∃ c, tb.columns.get n = some c ∧ c.identity = false := by
          intro n
          rw [← hnames]
          simp only [Dml.params, List.mem_map, List.mem_filter, Bool.not_eq_true']
          constructor
          · rintro ⟨c, ⟨hc, hi⟩, rfl⟩
            exact ⟨⟨c, hc, rfl⟩, c, hcol c hc, hi⟩
          · rintro ⟨⟨c, hc, rfl⟩, c', hc', hi⟩
            rw [hcol c hc] at hc'
            cases hc'
            exact ⟨c, ⟨hc, hi⟩, rfl⟩
        rw [placed_iff hr g.sameLength hn hall hsub hlen]
        constructor
        · intro hk i n c hi ht hc
          cases hid : c.identity with
          | true => rfl
          | false =>
            have hne : n ≠ [] := by
              intro e
              exact g.named c (ODict.get_some_mem hc).1 (by rw [show c.name = n from (ODict.get_some_mem hc).2, e])
            have hin : n ∈ (names.getD (tb.columns.items.map Column.name)).filter (fun n => n ≠ []) :=
              List.mem_filter.2 ⟨List.mem_of_getElem? hi, by simpa using hne⟩
            have hs := hk n ((hmem n).2 ⟨hin, c, hc, hid⟩)
            obtain ⟨j, ty, e1, e2, e3, _⟩ := (sent_iff g.sameLength n).1 hs
            -- a label occurs once
            have hij : i = j := C22.label_once hn hne hi e1
            subst hij
            rw [ht] at e2
            cases e2
            exact absurd rfl e3
        · intro hk n hn'
          obtain ⟨hin, c, hc, hid⟩ := (hmem n).1 hn'
          obtain ⟨hin', hne⟩ := List.mem_filter.1 hin
          obtain ⟨i, hi⟩ := List.getElem?_of_mem hin'
          have hlt : i < types.length := by
            rw [g.sameLength]; exact (List.getElem?_eq_some_iff.1 hi).1
          refine (sent_iff g.sameLength n).2 ⟨i, types[i], hi, List.getElem?_eq_getElem hlt, ?_, by simpa using hne⟩
          intro e
          have := hk i n c hi (by rw [List.getElem?_eq_getElem hlt, e]) hc
          rw [hid] at this
          cases this

/-! ### Concrete cases -/

namespace C22.Ex

def tb : Table where
  name := .qualified none (t "p")
  columns := ⟨[{ name := t "id", ty := .integer .base 8 true none none, nullable := false, identity := true },
    { name := t "x", ty := .varChar .base none, nullable := true }, { name := t "y", ty := .varChar .base none, nullable := true }]⟩
  primaryKey := [t "id"]

/-- Numbers in place of values; a field labelled `y` is doubled. -/
def make (_ : Nat) (_ : FieldType) (name : Text) : Except Err (Transformer Nat) :=
  .ok (fun _ => if name = t "y" then some (· * 2) else none)

def names : Option (List Text) := some [t "y", [], t "id"]
def types : List FieldType := [.other 0, .omitted, .other 1]
def records : List (Record Nat) := [[some 5, some 6, some 1], [none, none, some 2]]

theorem good : GoodCall tb types names records where
  named := by decide +kernel
  sameLength := rfl
  labelled := by decide +kernel
  width := by decide +kernel

example : (upsertRows .postgresql tb make types names records).toOption
    = some (.insertOrUpdateOn tb.name [t "y", t "id"] [t "id"] [t "x", t "y"],
      [[[some 10, some 1], [none, some 2]]]) := by decide +kernel

end C22.Ex

/-- A finding: a field with a label but of the type `NoneType` is left out of the records, but not of the statement; and
    an identity column is left out of the statement, but not of the records.  Together the numbers agree, and values
    silently go to the wrong column: here the value labelled `id` goes to the column `x`. -/
theorem C22_omitted_but_labelled_misplaced :
    (insertRows .base C22.Ex.tb C22.Ex.make [.other 0, .omitted, .other 0] (some [t "id", t "x", t "y"])
      [[some 1, some 2, some 3]]).toOption
    = some (.insert C22.Ex.tb.name [t "x", t "y"], [[[some 1, some 6]]]) := by decide +kernel

/-- A finding: without labels, or with a label for it, an identity column makes the numbers differ: the driver refuses. -/
theorem C22_identity_refused :
    (insertRows .base C22.Ex.tb C22.Ex.make [.other 0, .other 0, .other 0] none
      [[some 1, some 2, some 3]]).toOption
    = some (.insert C22.Ex.tb.name [t "x", t "y"], [[[some 1, some 2, some 6]]]) := by decide +kernel

/-! ### Objects of data-classes -/

/-- For each object, in order, each parameter is the object's field of the name of the column. -/
def ObjectsPlaced {O : Type} (extract : Text → O → Option V) (items : List O) (params : List Text)
    (out : List (List (Record V))) : Prop :=
  out.flatten = items.map (fun item => params.map (fun col => extract col item))

namespace C22

variable {O : Type}

theorem filterMapM_fields {tb : Table} {skip : Bool} : ∀ {fields kept : List Text},
    (fields.filterMapM (m := Except Err) (fun f =>
      match tb.columns.get f with
      | none => .error .key
      | some c => .ok (if skip && c.identity then none else some f))) = .ok kept →
    kept = fields.filter (fun f => !(skip && ((tb.columns.get f).map Column.identity).getD false)) := by
  intro fields
  induction fields with
  | nil => intro kept h; cases h; rfl
  | cons f fields ih =>
    intro kept h
    rw [List.filterMapM_cons] at h
    simp only [bind, Except.bind] at h
    cases hg : tb.columns.get f with
    | none => rw [hg] at h; cases h
    | some c =>
      simp only [hg] at h
      by_cases hc : (skip && c.identity) = true
      · simp only [hc, if_true] at h
        rw [List.filter_cons_of_neg (by simpa [hg] using hc)]
        exact ih h
      · simp only [hc] at h
        rw [List.filter_cons_of_pos (by simp only [hg, Option.map_some, Option.getD_some]; revert hc; cases skip <;> cases c.identity <;> decide)]
        simp only [Bool.false_eq_true, if_false] at h
        split at h
        · cases h
        · rename_i rest hrest
          cases h
          rw [ih hrest]

theorem record_eq {tb : Table} {extract : Text → O → Option V} {skip : Bool} {fields : List Text} {item : O} {r : Record V}
    (h : dataclassRecord tb extract skip fields item = .ok r) :
    r = (fields.filter (fun f => !(skip && ((tb.columns.get f).map Column.identity).getD false))).map (fun f => extract f item) := by
  unfold dataclassRecord at h
  simp only [bind, Except.bind] at h
  split at h
  · cases h
  · rename_i kept hk
    cases h
    rw [filterMapM_fields hk]

theorem records_eq {tb : Table} {extract : Text → O → Option V} {skip : Bool} {fields : List Text} :
    ∀ {items : List O} {rs : List (Record V)}, items.mapM (dataclassRecord tb extract skip fields) = .ok rs →
    rs = items.map (fun item =>
      (fields.filter (fun f => !(skip && ((tb.columns.get f).map Column.identity).getD false))).map (fun f => extract f item)) := by
  intro items
  induction items with
  | nil => intro rs h; cases h; rfl
  | cons x items ih =>
    intro rs h
    rw [List.mapM_cons] at h
    simp only [bind, Except.bind] at h
    split at h
    · cases h
    · rename_i r hr
      split at h
      · cases h
      · rename_i rest hrest
        cases h
        rw [List.map_cons, ← ih hrest, record_eq hr]

theorem identity_filter {tb : Table} (hd : Distinct tb.columns) :
    (tb.columns.items.map Column.name).filter (fun f => !((tb.columns.get f).map Column.identity).getD false)
      = (tb.columns.items.filter (fun c => !c.identity)).map Column.name := by
  rw [List.filter_map]
  congr 1
  refine List.filter_congr ?_
  intro c hc
  simp only [Function.comp_apply]
  rw [show tb.columns.get c.name = some c from ODict.get_eq_of_mem hd hc]
  rfl

end C22

/-- **C22.**  `insert_data`: if the connection lists the columns of the table in the order of the fields of the class, each
    value is sent for the column of its name.
    (Otherwise values silently go to other columns: `C22_insert_data_exact`, `C22_insert_data_other_order_misplaced`.) -/
theorem C22_insert_data {O : Type} {w : Writer} {tb : Table} {extract : Text → O → Option V} {fields : List Text}
    {items : List O} {stmt : Dml} {out : List (List (Record V))} (hd : Distinct tb.columns)
    (order : tb.columns.items.map Column.name = fields) (h : insertData w tb extract fields items = .ok (stmt, out)) :
    ObjectsPlaced extract items stmt.params out := by
  unfold insertData at h
  simp only [bind, Except.bind] at h
  split at h
  · cases h
  · rename_i s hs
    split at h
    · cases h
    · rename_i rs hrs
      cases h
      have e := C22.records_eq hrs
      simp only [Bool.true_and, ← order, C22.identity_filter hd] at e
      unfold insertStmt at hs
      cases hs
      unfold ObjectsPlaced
      rw [(C21_batches rs).all, e]
      rfl

/-- **C22.**  `upsert_data`, likewise, on every engine. -/
theorem C22_upsert_data {O : Type} {w : Writer} {tb : Table} {extract : Text → O → Option V} {fields : List Text}
    {items : List O} {stmt : Dml} {out : List (List (Record V))}
    (order : tb.columns.items.map Column.name = fields) (h : upsertData w tb extract fields items = .ok (stmt, out)) :
    ObjectsPlaced extract items stmt.params out := by
  unfold upsertData at h
  simp only [bind, Except.bind] at h
  split at h
  · cases h
  · rename_i s hs
    split at h
    · cases h
    · rename_i rs hrs
      cases h
      have e := C22.records_eq hrs
      rw [← order] at e
      simp only [Bool.false_and, Bool.not_false] at e
      rw [List.filter_eq_self.2 (fun _ _ => rfl)] at e
      have hp : stmt.params = tb.columns.items.map Column.name := by
        unfold upsertStmt at hs
        simp only [Table.getColumns, bind, Except.bind] at hs
        cases w with
        | postgresql => simp only at hs; split at hs <;> (cases hs; rfl)
        | mysql => simp only at hs; split at hs <;> (cases hs; rfl)
        | base =>
          simp only at hs
          split at hs
          · cases hs
          · split at hs
            · cases hs
            · cases hs; rfl
      unfold ObjectsPlaced
      rw [(C21_batches rs).all, e, hp]

namespace C22

/-- A list of names is determined by what objects have for them. -/
theorem names_determined {a b : V} (hab : a ≠ b) {l m : List Text} (h : ∀ o : Text → V, l.map (fun f => some (o f)) = m.map (fun f => some (o f))) :
    l = m := by
  have hlen : l.length = m.length := by simpa using congrArg List.length (h (fun _ => a))
  refine List.ext_getElem hlen ?_
  intro k h1 h2
  have := congrArg (fun x => x[k]?) (h (fun f => if f = l[k] then a else b))
  simp only [List.getElem?_map, List.getElem?_eq_getElem h1, List.getElem?_eq_getElem h2, Option.map_some, Option.some.injEq, if_true] at this
  by_cases e : m[k] = l[k]
  · exact e.symm
  · rw [if_neg e] at this
    exact absurd this hab

theorem fields_ok {tb : Table} {skip : Bool} {fields : List Text} (hf : ∀ f ∈ fields, (tb.columns.get f).isSome = true) :
    ∃ kept, (fields.filterMapM (m := Except Err) (fun f =>
      match tb.columns.get f with
      | none => .error .key
      | some c => .ok (if skip && c.identity then none else some f))) = .ok kept := by
  induction fields with
  | nil => exact ⟨_, rfl⟩
  | cons f fields ih =>
    obtain ⟨kept, hk⟩ := ih (fun g hg => hf g (List.mem_cons_of_mem _ hg))
    have hg := hf f List.mem_cons_self
    cases hc : tb.columns.get f with
    | none => rw [hc] at hg; cases hg
    | some c =>
      rw [List.filterMapM_cons]
      simp only [bind, Except.bind, hc]
      by_cases hi : (skip && c.identity) = true
      · simp only [hi, if_true]; exact ⟨_, hk⟩
      · simp only [hi, Bool.false_eq_true, if_false]
        rw [hk]
        exact ⟨_, rfl⟩

theorem record_ok {O : Type} {tb : Table} {skip : Bool} {fields kept : List Text} (hk : (fields.filterMapM (m := Except Err) (fun f =>
      match tb.columns.get f with
      | none => .error .key
      | some c => .ok (if skip && c.identity then none else some f))) = .ok kept) {extract : Text → O → Option V} {item : O} :
    dataclassRecord tb extract skip fields item = .ok (kept.map (fun f => extract f item)) :=
  congrArg (fun x : Except Err (List Text) => x >>= fun kept => pure (kept.map (fun f => extract f item))) hk

end C22

/-- **C22.**  `upsert_data`, exactly: for every class whose fields all are columns, and every table for which there is an upsert statement,
    all values of all objects are sent for the columns of their names if and only if the connection lists the columns of the table in the
    order of the fields. -/
theorem C22_upsert_data_exact {a b : V} (hab : a ≠ b) {w : Writer} {tb : Table} {fields : List Text} {s : Dml}
    (hs : upsertStmt w tb none = .ok s) (hf : ∀ f ∈ fields, (tb.columns.get f).isSome = true) :
    (∀ (items : List (Text → V)) stmt out, upsertData w tb (fun f o => some (o f)) fields items = .ok (stmt, out) →
      ObjectsPlaced (fun f (o : Text → V) => some (o f)) items stmt.params out) ↔ tb.columns.items.map Column.name = fields := by
  constructor
  · intro h
    obtain ⟨cols, hcols, hp⟩ := C22.upsert_params hs
    cases hcols
    rw [← hp]
    refine C22.names_determined hab ?_
    intro o
    obtain ⟨kept, hk⟩ := C22.fields_ok (skip := false) hf
    have hrec : [o].mapM (dataclassRecord tb (fun f (o : Text → V) => some (o f)) false fields) = .ok [kept.map (fun f => some (o f))] := by
      rw [List.mapM_cons, C22.record_ok hk]
      rfl
    have hok : upsertData w tb (fun f (o : Text → V) => some (o f)) fields [o] = .ok (s, toBatches [kept.map (fun f => some (o f))]) := by
      unfold upsertData
      rw [hs, hrec]
      rfl
    have := h [o] _ _ hok
    unfold ObjectsPlaced at this
    rw [(C21_batches _).all] at this
    have hkept := C22.filterMapM_fields hk
    simp only [Bool.false_and, Bool.not_false] at hkept
    rw [List.filter_eq_self.2 (fun _ _ => rfl)] at hkept
    rw [hkept] at this
    simpa using this.symm
  · intro order items stmt out h
    exact C22_upsert_data order h

/-- **C22.**  `insert_data` (other than on PostgreSQL and Redshift), exactly: likewise, for the fields and columns other than identity columns. -/
theorem C22_insert_data_exact {a b : V} (hab : a ≠ b) {w : Writer} {tb : Table} {fields : List Text}
    (hf : ∀ f ∈ fields, (tb.columns.get f).isSome = true) :
    (∀ (items : List (Text → V)) stmt out, insertData w tb (fun f o => some (o f)) fields items = .ok (stmt, out) →
      ObjectsPlaced (fun f (o : Text → V) => some (o f)) items stmt.params out) ↔
    (tb.columns.items.filter (fun c => !c.identity)).map Column.name
      = fields.filter (fun f => !((tb.columns.get f).map Column.identity).getD false) := by
  constructor
  · intro h
    refine C22.names_determined hab ?_
    intro o
    obtain ⟨kept, hk⟩ := C22.fields_ok (skip := true) hf
    have hrec : [o].mapM (dataclassRecord tb (fun f (o : Text → V) => some (o f)) true fields) = .ok [kept.map (fun f => some (o f))] := by
      rw [List.mapM_cons, C22.record_ok hk]
      rfl
    have hok : insertData w tb (fun f (o : Text → V) => some (o f)) fields [o]
        = .ok (.insert tb.name ((tb.columns.items.filter (fun c => !c.identity)).map Column.name), toBatches [kept.map (fun f => some (o f))]) := by
      unfold insertData
      rw [hrec]
      rfl
    have := h [o] _ _ hok
    unfold ObjectsPlaced at this
    rw [(C21_batches _).all] at this
    have hkept := C22.filterMapM_fields hk
    simp only [Bool.true_and] at hkept
    rw [hkept] at this
    simpa [Dml.params] using this.symm
  · intro order items stmt out h
    unfold insertData at h
    simp only [bind, Except.bind] at h
    split at h
    · cases h
    · rename_i s hs
      split at h
      · cases h
      · rename_i rs hrs
        cases h
        have e := C22.records_eq hrs
        simp only [Bool.true_and, ← order] at e
        unfold insertStmt at hs
        cases hs
        unfold ObjectsPlaced
        rw [(C21_batches rs).all, e]
        rfl

/-- An object with three fields. -/
example : (upsertData .postgresql C22.Ex.tb (fun f (o : Text → Nat) => some (o f)) [t "id", t "x", t "y"]
    [fun f => if f = t "id" then 1 else if f = t "x" then 2 else 3]).toOption.map Prod.snd
    = some [[[some 1, some 2, some 3]]] := by decide +kernel

/-- A finding: the table as discovered may list its columns in another order than the class does its fields (a column
    added later is last in the database; `synchronize` sees no difference, C02, and keeps the discovered order).  Then
    `upsert_data`, on all engines, and `insert_data` silently send values to the wrong columns: here the field `x` to the column `y`
    and vice versa. -/
theorem C22_insert_data_other_order_misplaced :
    ∃ (o : Text → Nat), (insertData .mysql C22.Ex.tb (fun f (o : Text → Nat) => some (o f)) [t "id", t "y", t "x"] [o]).toOption
      = some (.insert C22.Ex.tb.name [t "x", t "y"], [[[some (o (t "y")), some (o (t "x"))]]])
    ∧ ((upsertData .postgresql C22.Ex.tb (fun f (o : Text → Nat) => some (o f)) [t "id", t "y", t "x"] [o]).toOption.map
        (fun p => (p.1.params, p.2)))
      = some ([t "id", t "x", t "y"], [[[some (o (t "id")), some (o (t "y")), some (o (t "x"))]]])
    ∧ o (t "x") ≠ o (t "y") :=
  ⟨fun f => if f = t "id" then 1 else if f = t "x" then 2 else 3, by decide +kernel, by decide +kernel, by decide +kernel⟩

end PySqlSync
