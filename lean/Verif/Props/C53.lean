/-
C53: data-classes that are generated from tables.
-/
import Verif.Spec.Reverse
import Verif.Model.Converter
import Verif.Lemmas.Convert
import Verif.Examples.Shop

set_option autoImplicit false

namespace PySqlSync
open Spec

namespace C53

/-- What is Python for a column type. -/
theorem expressible_iff : ∀ ty : SqlType, (∃ r, revType ty = .ok r) ↔ Expressible ty
  | .array elem => by
    rw [Expressible, ← expressible_iff elem]
    constructor
    · rintro ⟨r, h⟩
      rw [revType] at h
      obtain ⟨x, hx, _⟩ := Conv.bind_ok.1 h
      exact ⟨x, hx⟩
    · rintro ⟨r, h⟩
      refine ⟨.list r, ?_⟩
      rw [revType, h]
      rfl
  | .boolean _ | .real _ | .double _ | .float (some _) | .float none | .decimal _ _ | .timestamp _ (some _) _ | .timestamp _ none _ | .date
  | .time _ (some _) _ | .time _ none _ | .fixedChar (some _) | .fixedChar none | .varChar _ (some _) | .varChar _ none | .uuid | .json _ | .user _ => by
    exact ⟨fun _ => trivial, fun _ => ⟨_, rfl⟩⟩
  | .integer _ w _ _ _ => by
    refine ⟨fun _ => trivial, fun _ => ?_⟩
    rw [revType]
    split
    · exact ⟨_, rfl⟩
    · split
      · exact ⟨_, rfl⟩
      · split <;> exact ⟨_, rfl⟩
  | .fixedBinary _ _ | .varBinary _ _ | .interval | .enum _ | .struct _ => by
    exact ⟨fun ⟨_, h⟩ => (by cases h), fun h => h.elim⟩

theorem qual_iff {ns : Option Text → Option Text} {q : QId} : (∃ x, qualToModule ns q = .ok x) ↔ ns q.scopeId ≠ none := by
  unfold qualToModule
  cases ns q.scopeId with
  | none => exact ⟨fun ⟨_, h⟩ => (by cases h), fun h => absurd rfl h⟩
  | some m => exact ⟨fun _ h => (by cases h), fun _ => ⟨_, rfl⟩⟩

theorem mapM_iff {α β : Type} {f : α → Except Err β} : ∀ {l : List α}, (∃ r, l.mapM f = .ok r) ↔ ∀ a ∈ l, ∃ b, f a = .ok b
  | [] => ⟨fun _ _ h => absurd h List.not_mem_nil, fun _ => ⟨[], rfl⟩⟩
  | a :: l => by
    rw [List.mapM_cons]
    constructor
    · rintro ⟨r, h⟩
      obtain ⟨b, hb, h⟩ := Conv.bind_ok.1 h
      obtain ⟨bs, hbs, _⟩ := Conv.bind_ok.1 h
      intro x hx
      rcases List.mem_cons.1 hx with rfl | hx
      · exact ⟨b, hb⟩
      · exact mapM_iff.1 ⟨bs, hbs⟩ x hx
    · intro h
      obtain ⟨b, hb⟩ := h a (.head _)
      obtain ⟨bs, hbs⟩ := mapM_iff.2 (fun x hx => h x (.tail _ hx))
      exact ⟨b :: bs, by rw [hb, hbs]; rfl⟩

/-- One step of the loop over the constraints. -/
theorem step_iff {ns : Option Text → Option Text} {column : Text} {ann : RevAnn} (k : Constraint) :
    (∃ r, refStep ns column ann k = .ok r) ↔ (RefersFrom column k → targets k ≠ [] ∧ ∀ q ∈ targets k, ns q.scopeId ≠ none) := by
  match k with
  | .unique n cs => exact ⟨fun _ h => h.elim, fun _ => ⟨ann, rfl⟩⟩
  | .check n c => exact ⟨fun _ h => h.elim, fun _ => ⟨ann, rfl⟩⟩
  | .foreign n cs r =>
    by_cases hc : column ∈ cs
    · constructor
      · rintro ⟨x, h⟩ _
        rw [refStep, if_pos hc] at h
        obtain ⟨y, hy, _⟩ := Conv.bind_ok.1 h
        exact ⟨List.cons_ne_nil _ _, fun q hq => by rw [List.mem_singleton.1 hq]; exact qual_iff.1 ⟨y, hy⟩⟩
      · intro h
        obtain ⟨y, hy⟩ := qual_iff.2 ((h hc).2 r.table (.head _))
        refine ⟨.ref y, ?_⟩
        rw [refStep, if_pos hc, hy]
        rfl
    · exact ⟨fun _ h => absurd h hc, fun _ => ⟨ann, by rw [refStep, if_neg hc]⟩⟩
  | .discriminated n cs rs =>
    by_cases hc : column ∈ cs
    · constructor
      · rintro ⟨x, h⟩ _
        rw [refStep, if_pos hc] at h
        cases rs with
        | nil => cases h
        | cons r rs =>
          rw [if_neg (by simp)] at h
          obtain ⟨y, hy, _⟩ := Conv.bind_ok.1 h
          refine ⟨List.cons_ne_nil _ _, fun q hq => ?_⟩
          obtain ⟨r', hr', rfl⟩ := List.mem_map.1 hq
          exact qual_iff.1 (mapM_iff.1 ⟨y, hy⟩ r' hr')
      · intro h
        obtain ⟨h1, h2⟩ := h hc
        obtain ⟨y, hy⟩ := (mapM_iff (f := fun r : Ref => qualToModule ns r.table) (l := rs)).2 (fun r hr => qual_iff.2 (h2 r.table (List.mem_map_of_mem hr)))
        refine ⟨.refs y, ?_⟩
        rw [refStep, if_pos hc, if_neg (by cases rs with | nil => exact absurd rfl h1 | cons _ _ => simp), hy]
        rfl
    · exact ⟨fun _ h => absurd h hc, fun _ => ⟨ann, by rw [refStep, if_neg hc]⟩⟩

theorem fold_iff {ns : Option Text → Option Text} {column : Text} : ∀ {l : List Constraint} {ann : RevAnn},
    (∃ r, l.foldlM (refStep ns column) ann = .ok r) ↔ ∀ k ∈ l, RefersFrom column k → targets k ≠ [] ∧ ∀ q ∈ targets k, ns q.scopeId ≠ none
  | [], ann => ⟨fun _ _ h => absurd h List.not_mem_nil, fun _ => ⟨ann, rfl⟩⟩
  | k :: l, ann => by
    rw [List.foldlM_cons]
    constructor
    · rintro ⟨r, h⟩
      obtain ⟨a, ha, h⟩ := Conv.bind_ok.1 h
      intro k' hk'
      rcases List.mem_cons.1 hk' with rfl | hk'
      · exact (step_iff _).1 ⟨a, ha⟩
      · exact fold_iff.1 ⟨r, h⟩ k' hk'
    · intro h
      obtain ⟨a, ha⟩ := (step_iff (ann := ann) k).2 (h k (.head _))
      obtain ⟨r, hr⟩ := (fold_iff (ann := a)).2 (fun k' hk' => h k' (.tail _ hk'))
      exact ⟨r, by rw [ha]; exact hr⟩

theorem field_iff {ns : Option Text → Option Text} {tb : Table} {c : Column} :
    (∃ f, columnField ns tb c = .ok f) ↔
      Expressible c.ty ∧ ∀ k ∈ tb.constraints.items, RefersFrom c.name k → targets k ≠ [] ∧ ∀ q ∈ targets k, ns q.scopeId ≠ none := by
  unfold columnField
  constructor
  · rintro ⟨f, h⟩
    obtain ⟨ty, hty, h⟩ := Conv.bind_ok.1 h
    obtain ⟨ann, hann, _⟩ := Conv.bind_ok.1 h
    exact ⟨(expressible_iff _).1 ⟨ty, hty⟩, fold_iff.1 ⟨ann, hann⟩⟩
  · rintro ⟨h1, h2⟩
    obtain ⟨ty, hty⟩ := (expressible_iff _).2 h1
    obtain ⟨ann, hann⟩ := (fold_iff (ann := revAnn tb c ty)).2 h2
    exact ⟨{ name := safeId c.name, ann := ann, default := c.default }, by
      simp only [hty, hann, bind, Except.bind, pure, Except.pure]⟩

theorem field_name {ns : Option Text → Option Text} {tb : Table} {c : Column} {f : RevField} (h : columnField ns tb c = .ok f) :
    f.name = safeId c.name ∧ f.default = c.default := by
  unfold columnField at h
  obtain ⟨ty, _, h⟩ := Conv.bind_ok.1 h
  obtain ⟨ann, _, h⟩ := Conv.bind_ok.1 h
  have h := Conv.pure_ok.1 h
  subst h
  exact ⟨rfl, rfl⟩

theorem safe_no_keyword (s : Text) : safeId s ∉ pyKeywords := by
  unfold safeId
  split
  · next h =>
    have : ∀ k ∈ pyKeywords, k ++ t "_" ∉ pyKeywords := by decide +kernel
    exact this s h
  · next h => exact h

theorem not_misplaced : ∀ {a b : List RevField}, (∀ f ∈ a, f.default.isSome = false) → (∀ f ∈ b, f.default.isNone = false) → misplaced (a ++ b) = false
  | [], [], _, _ => rfl
  | [], f :: b, ha, hb => by
    have h1 : misplaced b = false := by
      have := not_misplaced (a := []) (b := b) ha (fun g hg => hb g (.tail _ hg))
      exact this
    have h2 : b.any (fun g => g.default.isNone) = false := by
      rw [List.any_eq_false]
      intro g hg
      rw [hb g (.tail _ hg)]
      exact Bool.false_ne_true
    rw [List.nil_append, misplaced, h1, h2, Bool.and_false, Bool.false_or]
  | f :: a, b, ha, hb => by
    rw [List.cons_append, misplaced, ha f (.head _), Bool.false_and, Bool.false_or]
    exact not_misplaced (fun g hg => ha g (.tail _ hg)) hb

theorem sorted_placed (fields : List RevField) : misplaced (sortDefaults fields) = false := by
  refine not_misplaced (fun f hf => ?_) (fun f hf => ?_)
  · have := (List.mem_filter.1 hf).2
    cases hd : f.default with
    | none => rfl
    | some _ => rw [hd] at this; cases this
  · have := (List.mem_filter.1 hf).2
    cases hd : f.default with
    | none => rw [hd] at this; cases this
    | some _ => rfl

theorem sorted_perm : ∀ (fields : List RevField), (sortDefaults fields).Perm fields := by
  intro fields
  have e : (fun f : RevField => f.default.isSome) = fun f => !(f.default.isNone) := by
    funext f
    cases f.default <;> rfl
  unfold sortDefaults
  rw [e]
  exact List.filter_append_perm (fun f : RevField => f.default.isNone) fields

theorem mapM_name {ns : Option Text → Option Text} {tb : Table} : ∀ {cs : List Column} {fields : List RevField}, cs.mapM (columnField ns tb) = .ok fields →
    fields.map RevField.name = cs.map (fun c => safeId c.name)
  | [], fields, h => by
    have := Conv.pure_ok.1 (show (pure [] : Except Err (List RevField)) = .ok fields from h)
    rw [← this]
    rfl
  | c :: cs, fields, h => by
    rw [List.mapM_cons] at h
    obtain ⟨f, hf, h⟩ := Conv.bind_ok.1 h
    obtain ⟨fs, hfs, h⟩ := Conv.bind_ok.1 h
    have h := Conv.pure_ok.1 h
    subst h
    rw [List.map_cons, List.map_cons, mapM_name hfs, (field_name hf).1]

/-- What a generated class consists of. -/
theorem class_inv {isIdent : Text → Bool} {ns : Option Text → Option Text} {tb : Table} {c : RevClass} (h : tableToClass isIdent ns tb = .ok c) :
    ∃ fields m, tb.columns.items.mapM (columnField ns tb) = .ok fields ∧ ns tb.name.scopeId = some m ∧ c.fields = sortDefaults fields ∧
      c.name = safeId tb.name.localId ∧ c.module = m ∧ c.doc = tb.description.getD [] ∧ (∀ f ∈ fields, isIdent f.name = true) ∧ (fields.map RevField.name).Nodup := by
  unfold tableToClass at h
  obtain ⟨fields, hf, h⟩ := Conv.bind_ok.1 h
  cases hm : ns tb.name.scopeId with
  | none => rw [hm] at h; cases h
  | some m =>
    rw [hm] at h
    dsimp only at h
    obtain ⟨c', hc', h⟩ := Conv.bind_ok.1 h
    have h := Conv.pure_ok.1 h
    unfold makeDataclass at hc'
    by_cases h1 : (sortDefaults fields).any (fun f => !isIdent f.name || decide (f.name ∈ pyKeywords)) = true
    · rw [if_pos h1] at hc'; cases hc'
    · rw [if_neg h1] at hc'
      by_cases h2 : ((sortDefaults fields).map RevField.name).Nodup
      · rw [if_neg (not_not_intro h2), if_neg (by rw [sorted_placed]; exact Bool.false_ne_true)] at hc'
        injection hc' with hc'
        subst hc' h
        refine ⟨fields, m, hf, rfl, rfl, rfl, rfl, rfl, fun f hfm => ?_, (((sorted_perm fields).map _).nodup_iff).1 h2⟩
        have h1 := Bool.eq_false_iff.2 h1
        rw [List.any_eq_false] at h1
        have := h1 f ((sorted_perm fields).mem_iff.2 hfm)
        cases hi : isIdent f.name with
        | true => rfl
        | false => rw [hi] at this; exact absurd rfl this
      · rw [if_pos h2] at hc'; cases hc'

end C53

open C53

/-- Exactly which tables a class can be generated from. -/
theorem C53_generated_iff {isIdent : Text → Bool} {ns : Option Text → Option Text} {tb : Table} :
    (∃ c, tableToClass isIdent ns tb = .ok c) ↔ Classable isIdent ns tb := by
  constructor
  · rintro ⟨c, h⟩
    obtain ⟨fields, m, hf, hm, _, _, _, _, hi, hn⟩ := class_inv h
    have he := fun x hx => (field_iff (ns := ns) (tb := tb)).1 (mapM_iff.1 ⟨fields, hf⟩ x hx)
    have hnames := mapM_name hf
    refine ⟨fun x hx => (he x hx).1, fun x hx => ?_, by rw [← hnames]; exact hn, by rw [hm]; exact fun h => (by cases h), fun x hx => (he x hx).2⟩
    have : safeId x.name ∈ fields.map RevField.name := by rw [hnames]; exact List.mem_map_of_mem (f := fun c : Column => safeId c.name) hx
    obtain ⟨f, hfm, e⟩ := List.mem_map.1 this
    rw [← e]
    exact hi f hfm
  · intro h
    obtain ⟨fields, hf⟩ := (mapM_iff (f := columnField ns tb)).2 (fun x hx => field_iff.2 ⟨h.types x hx, h.references x hx⟩)
    have hnames := mapM_name hf
    cases hm : ns tb.name.scopeId with
    | none => exact absurd hm h.module
    | some m =>
      have h1 : ¬ (sortDefaults fields).any (fun f => !isIdent f.name || decide (f.name ∈ pyKeywords)) = true := by
        rw [Bool.not_eq_true, List.any_eq_false]
        intro f hfm
        have : f.name ∈ fields.map RevField.name := List.mem_map_of_mem ((sorted_perm fields).mem_iff.1 hfm)
        rw [hnames] at this
        obtain ⟨x, hx, e⟩ := List.mem_map.1 this
        rw [← e, h.names x hx, decide_eq_false (safe_no_keyword _)]
        exact Bool.false_ne_true
      have h2 : ((sortDefaults fields).map RevField.name).Nodup := by
        rw [((sorted_perm fields).map RevField.name).nodup_iff, hnames]
        exact h.distinct
      have h3 : makeDataclass isIdent (safeId tb.name.localId) m (sortDefaults fields) =
          .ok { name := safeId tb.name.localId, module := m, fields := sortDefaults fields, doc := [] } := by
        unfold makeDataclass
        rw [if_neg h1, if_neg (not_not_intro h2), if_neg (by rw [sorted_placed]; exact Bool.false_ne_true)]
      refine ⟨{ name := safeId tb.name.localId, module := m, fields := sortDefaults fields, doc := tb.description.getD [] }, ?_⟩
      unfold tableToClass
      simp only [hf, hm, h3, bind, Except.bind, pure, Except.pure]

namespace C53

theorem qual_class {ns : Option Text → Option Text} {q : QId} {x : Text} (h : qualToModule ns q = .ok x) : IsClass ns q x := by
  unfold qualToModule at h
  cases hm : ns q.scopeId with
  | none => rw [hm] at h; cases h
  | some m =>
    rw [hm] at h
    injection h with h
    exact ⟨m, hm, h.symm⟩

theorem step_other {ns : Option Text → Option Text} {column : Text} {ann : RevAnn} {k : Constraint} (h : ¬ RefersFrom column k) :
    refStep ns column ann k = .ok ann := by
  match k with
  | .unique _ _ => rfl
  | .check _ _ => rfl
  | .foreign _ cs _ => rw [refStep, if_neg (show ¬ column ∈ cs from h)]
  | .discriminated _ cs _ => rw [refStep, if_neg (show ¬ column ∈ cs from h)]

theorem fold_other {ns : Option Text → Option Text} {column : Text} : ∀ {l : List Constraint} {ann : RevAnn}, (∀ k ∈ l, ¬ RefersFrom column k) →
    l.foldlM (refStep ns column) ann = .ok ann
  | [], _, _ => rfl
  | k :: l, ann, h => by
    rw [List.foldlM_cons, step_other (h k (.head _))]
    exact fold_other (fun k' hk' => h k' (.tail _ hk'))

theorem mapM_zip {α β : Type} {f : α → Except Err β} : ∀ {l : List α} {r : List β}, l.mapM f = .ok r → r.length = l.length ∧ ∀ p ∈ l.zip r, f p.1 = .ok p.2
  | [], r, h => by
    have := Conv.pure_ok.1 (show (pure [] : Except Err (List β)) = .ok r from h)
    subst this
    exact ⟨rfl, fun p hp => absurd hp List.not_mem_nil⟩
  | a :: l, r, h => by
    rw [List.mapM_cons] at h
    obtain ⟨b, hb, h⟩ := Conv.bind_ok.1 h
    obtain ⟨bs, hbs, h⟩ := Conv.bind_ok.1 h
    have h := Conv.pure_ok.1 h
    subst h
    obtain ⟨h1, h2⟩ := mapM_zip hbs
    refine ⟨by simp [h1], fun p hp => ?_⟩
    rw [List.zip_cons_cons] at hp
    rcases List.mem_cons.1 hp with rfl | hp
    · exact hb
    · exact h2 p hp

theorem describes {ns : Option Text → Option Text} {tb : Table} {c : Column} {f : RevField} (h : columnField ns tb c = .ok f) : Describes ns tb c f := by
  have hn := field_name h
  unfold columnField at h
  obtain ⟨ty, hty, h⟩ := Conv.bind_ok.1 h
  obtain ⟨ann, hann, h⟩ := Conv.bind_ok.1 h
  have h := Conv.pure_ok.1 h
  have ha : f.ann = ann := by rw [← h]
  refine ⟨hn.1, hn.2, ?_, ?_, ?_⟩
  · intro hno
    rw [fold_other hno] at hann
    injection hann with hann
    refine ⟨ty, hty, ?_⟩
    rw [ha, ← hann]
    rfl
  · intro before n cs r after e hc hno
    rw [e, List.foldlM_append] at hann
    obtain ⟨a0, _, hann⟩ := Conv.bind_ok.1 hann
    rw [List.foldlM_cons] at hann
    obtain ⟨a1, h1, hann⟩ := Conv.bind_ok.1 hann
    rw [fold_other hno] at hann
    injection hann with hann
    rw [refStep, if_pos hc] at h1
    obtain ⟨x, hx, h1⟩ := Conv.bind_ok.1 h1
    have h1 := Conv.pure_ok.1 h1
    exact ⟨x, qual_class hx, by rw [ha, ← hann, ← h1]⟩
  · intro before n cs rs after e hc hno
    rw [e, List.foldlM_append] at hann
    obtain ⟨a0, _, hann⟩ := Conv.bind_ok.1 hann
    rw [List.foldlM_cons] at hann
    obtain ⟨a1, h1, hann⟩ := Conv.bind_ok.1 hann
    rw [fold_other hno] at hann
    injection hann with hann
    rw [refStep, if_pos hc] at h1
    by_cases he : rs.isEmpty = true
    · rw [if_pos he] at h1; cases h1
    · rw [if_neg he] at h1
      obtain ⟨xs, hx, h1⟩ := Conv.bind_ok.1 h1
      have h1 := Conv.pure_ok.1 h1
      obtain ⟨k1, k2⟩ := mapM_zip hx
      exact ⟨xs, k1, fun p hp => qual_class (k2 p hp), by rw [ha, ← hann, ← h1]⟩

theorem zip_filter {α β : Type} {R : α → β → Prop} {p : α → Bool} {q : β → Bool} : ∀ {l : List α} {r : List β}, r.length = l.length →
    (∀ x ∈ l.zip r, R x.1 x.2) → (∀ a b, R a b → p a = q b) →
    (r.filter q).length = (l.filter p).length ∧ ∀ x ∈ (l.filter p).zip (r.filter q), R x.1 x.2
  | [], [], _, _, _ => ⟨rfl, fun x hx => absurd hx List.not_mem_nil⟩
  | a :: l, b :: r, hl, hR, hpq => by
    have hab : R a b := hR (a, b) (.head _)
    have := zip_filter (l := l) (r := r) (by simpa using hl) (fun x hx => hR x (.tail _ hx)) hpq
    have e := hpq a b hab
    cases hp : p a with
    | true =>
      rw [hp] at e
      rw [List.filter_cons_of_pos hp, List.filter_cons_of_pos e.symm]
      refine ⟨by simp [this.1], fun x hx => ?_⟩
      rw [List.zip_cons_cons] at hx
      rcases List.mem_cons.1 hx with rfl | hx
      · exact hab
      · exact this.2 x hx
    | false =>
      rw [hp] at e
      rw [List.filter_cons_of_neg (p := p) (a := a) (by rw [hp]; exact Bool.false_ne_true), List.filter_cons_of_neg (p := q) (a := b) (by rw [← e]; exact Bool.false_ne_true)]
      exact this

end C53

/-- The fields of a generated class, one by one: those of the columns without default, then the others, in the order of the columns; the documentation
    string is the description of the table. -/
theorem C53_fields {isIdent : Text → Bool} {ns : Option Text → Option Text} {tb : Table} {c : RevClass} (h : tableToClass isIdent ns tb = .ok c) :
    c.fields.length = tb.columns.items.length ∧
    (∀ p ∈ (tb.columns.items.filter (fun x => x.default.isNone) ++ tb.columns.items.filter (fun x => x.default.isSome)).zip c.fields, Describes ns tb p.1 p.2) ∧
    c.name = safeId tb.name.localId ∧ ns tb.name.scopeId = some c.module ∧ c.doc = tb.description.getD [] := by
  obtain ⟨fields, m, hf, hm, e, h1, h2, h3, _, _⟩ := class_inv h
  obtain ⟨k1, k2⟩ := mapM_zip hf
  have k2' : ∀ p ∈ tb.columns.items.zip fields, Describes ns tb p.1 p.2 := fun p hp => describes (k2 p hp)
  have z1 := zip_filter (p := fun x : Column => x.default.isNone) (q := fun f : RevField => f.default.isNone) k1 k2' (fun a b r => by rw [r.default])
  have z2 := zip_filter (p := fun x : Column => x.default.isSome) (q := fun f : RevField => f.default.isSome) k1 k2' (fun a b r => by rw [r.default])
  refine ⟨by rw [e, (sorted_perm fields).length_eq, k1], ?_, h1, by rw [hm, h2], h3⟩
  intro p hp
  rw [e] at hp
  unfold sortDefaults at hp
  rw [List.zip_append z1.1.symm] at hp
  rcases List.mem_append.1 hp with hp | hp
  · exact z1.2 p hp
  · exact z2.2 p hp

namespace C53

theorem fold_unkeyed {ns : Option Text → Option Text} {column : Text} : ∀ {l : List Constraint} {ann r : RevAnn}, l.foldlM (refStep ns column) ann = .ok r →
    (∀ ty, ann ≠ .primary ty) → ∀ ty, r ≠ .primary ty
  | [], ann, r, h, hn => by
    have := Conv.pure_ok.1 (show (pure ann : Except Err RevAnn) = .ok r from h)
    subst this
    exact hn
  | k :: l, ann, r, h, hn => by
    rw [List.foldlM_cons] at h
    obtain ⟨a, ha, h⟩ := Conv.bind_ok.1 h
    refine fold_unkeyed h ?_
    by_cases hk : RefersFrom column k
    · match k, hk, ha with
      | .foreign n cs r, hk, ha =>
        have hk : column ∈ cs := hk
        rw [refStep, if_pos hk] at ha
        obtain ⟨x, _, ha⟩ := Conv.bind_ok.1 ha
        have ha := Conv.pure_ok.1 ha
        intro ty e
        rw [← ha] at e
        cases e
      | .discriminated n cs rs, hk, ha =>
        have hk : column ∈ cs := hk
        rw [refStep, if_pos hk] at ha
        by_cases he : rs.isEmpty = true
        · rw [if_pos he] at ha; cases ha
        · rw [if_neg he] at ha
          obtain ⟨x, _, ha⟩ := Conv.bind_ok.1 ha
          have ha := Conv.pure_ok.1 ha
          intro ty e
          rw [← ha] at e
          cases e
    · rw [step_other hk] at ha
      injection ha with ha
      subst ha
      exact hn

theorem field_unkeyed {ns : Option Text → Option Text} {tb : Table} {c : Column} {f : RevField} (h : columnField ns tb c = .ok f) : ∀ ty, f.ann ≠ .primary ty := by
  unfold columnField at h
  obtain ⟨ty, hty, h⟩ := Conv.bind_ok.1 h
  obtain ⟨ann, hann, h⟩ := Conv.bind_ok.1 h
  have h := Conv.pure_ok.1 h
  subst h
  refine fold_unkeyed hann ?_
  intro ty' e
  unfold revAnn at e
  rw [show nameIsKey c.name tb.primaryKey = false from rfl, if_neg Bool.false_ne_true] at e
  split at e <;> cases e

end C53

/-- A finding: the primary key is lost, so a table cannot be made from a class that was made from a table. -/
theorem C53_key_lost {isIdent : Text → Bool} {ns : Option Text → Option Text} {tb : Table} {c : RevClass} (h : tableToClass isIdent ns tb = .ok c)
    (resolve : Text → PyType) :
    (∀ f ∈ (c.decl resolve).fields, f.primary = false) ∧ (c.decl resolve).isStruct = true ∧
    ∀ (o : ConvOptions) (defs : PyDefs) (depth : Nat) (made : Table), o.dataclassTable defs depth (c.decl resolve) ≠ .ok made := by
  obtain ⟨fields, m, hf, _, e, _⟩ := class_inv h
  have h1 : ∀ f ∈ (c.decl resolve).fields, f.primary = false := by
    intro f hfm
    obtain ⟨r, hr, rfl⟩ := List.mem_map.1 hfm
    rw [e] at hr
    have hr := (sorted_perm fields).mem_iff.1 hr
    obtain ⟨x, _, hx⟩ := Conv.mapM_back hf r hr
    have := field_unkeyed hx
    unfold RevField.decl
    dsimp only
    split
    · next ty e => exact absurd e (this ty)
    · rfl
  have h2 : (c.decl resolve).key = none := by
    unfold ClassDecl.key
    rw [List.find?_eq_none]
    intro f hfm
    rw [h1 f hfm]
    exact Bool.false_ne_true
  refine ⟨h1, by unfold ClassDecl.isStruct; rw [h2]; rfl, ?_⟩
  intro o defs depth made hm
  unfold ConvOptions.dataclassTable at hm
  obtain ⟨_, _, hm⟩ := Conv.bind_ok.1 hm
  obtain ⟨_, _, hm⟩ := Conv.bind_ok.1 hm
  obtain ⟨_, _, hm⟩ := Conv.bind_ok.1 hm
  obtain ⟨_, _, hm⟩ := Conv.bind_ok.1 hm
  obtain ⟨_, _, hm⟩ := Conv.bind_ok.1 hm
  obtain ⟨_, _, hm⟩ := Conv.bind_ok.1 hm
  obtain ⟨_, _, hm⟩ := Conv.bind_ok.1 hm
  rw [h2] at hm
  cases hm

namespace C53

/-- What a type becomes. -/
def back (o : ConvOptions) : RevType → Except Err SqlType
  | .prim p => .ok (o.primType p)
  | .annotated p m => o.annotatedType p [m]
  | .fixed _ => o.annotatedType .str [.other]
  | _ => .error .type

theorem fixed_refused {o : ConvOptions} (ty : SqlType) : o.annotatedType .str [.other] ≠ .ok ty := by
  intro h
  unfold ConvOptions.annotatedType at h
  cases hb : o.annotatedBase .str with
  | none => rw [hb] at h; cases h
  | some b =>
    rw [hb] at h
    have : b.parseMeta .other = .error .type := by
      cases b <;> rfl
    rw [show parseMetas (some b) [.other] = (match b.parseMeta .other with | .ok ty' => parseMetas (some ty') [] | .error e => .error e) from rfl, this] at h
    cases h

theorem options_inv {e : Engine} {g : GenOptions} {o : ConvOptions} (h : e.options g = .ok o) : o.substitution = e.substitution ∧ o.extraNumeric = false := by
  unfold Engine.options at h
  split at h
  · injection h with h
    subst h
    exact ⟨rfl, rfl⟩
  · cases h

set_option maxHeartbeats 4000000 in
/-- Scalars. -/
theorem scalar_exact {e : Engine} {g : GenOptions} {o : ConvOptions} (h : e.options g = .ok o) {ty : SqlType} {r : RevType} (hr : revType ty = .ok r) :
    back o r = .ok ty ↔ Reversible e ty := by
  obtain ⟨hs, hx⟩ := options_inv h
  match ty, hr with
  | .boolean c, hr =>
    injection hr with hr; subst hr
    cases e <;> cases c <;> simp [back, ConvOptions.primType, hs, Engine.substitution, Reversible]
  | .integer c w sg lo hi, hr =>
    have key : ∀ p, (p = .int16 ∧ w = 2 ∨ p = .int32 ∧ w = 4 ∨ p = .int64 ∧ w = 8 ∨ p = .int ∧ w ≠ 2 ∧ w ≠ 4 ∧ w ≠ 8) →
        (o.primType p = .integer c w sg lo hi ↔ Reversible e (.integer c w sg lo hi)) := by
      intro p hp
      have ei : Reversible e (.integer c w sg lo hi) ↔
          sg = true ∧ lo = none ∧ hi = none ∧ if e = .oracle then c = .oracle ∧ w = 8 else c = .base ∧ (w = 2 ∨ w = 4 ∨ w = 8) := Iff.rfl
      rw [ei]
      by_cases ho : e = .oracle
      · rw [if_pos ho]
        have hpr : o.primType p = .integer .oracle 8 true none none := by
          unfold ConvOptions.primType
          rw [hs, ho]
          rcases hp with ⟨rfl, _⟩ | ⟨rfl, _⟩ | ⟨rfl, _⟩ | ⟨rfl, _⟩ <;> rfl
        rw [hpr]
        constructor
        · intro h; injection h with h1 h2 h3 h4 h5; exact ⟨h3.symm, h4.symm, h5.symm, h1.symm, h2.symm⟩
        · rintro ⟨rfl, rfl, rfl, rfl, rfl⟩; rfl
      · rw [if_neg ho]
        have hsub : e.substitution p = none := by
          rcases hp with ⟨rfl, _⟩ | ⟨rfl, _⟩ | ⟨rfl, _⟩ | ⟨rfl, _⟩ <;> cases e <;> first | rfl | exact absurd rfl ho
        unfold ConvOptions.primType
        rw [hs, hsub]
        rcases hp with ⟨rfl, rfl⟩ | ⟨rfl, rfl⟩ | ⟨rfl, rfl⟩ | ⟨rfl, n2, n4, n8⟩
        · constructor
          · intro h; injection h with h1 h2 h3 h4 h5; exact ⟨h3.symm, h4.symm, h5.symm, h1.symm, .inl rfl⟩
          · rintro ⟨rfl, rfl, rfl, rfl, _⟩; rfl
        · constructor
          · intro h; injection h with h1 h2 h3 h4 h5; exact ⟨h3.symm, h4.symm, h5.symm, h1.symm, .inr (.inl rfl)⟩
          · rintro ⟨rfl, rfl, rfl, rfl, _⟩; rfl
        · constructor
          · intro h; injection h with h1 h2 h3 h4 h5; exact ⟨h3.symm, h4.symm, h5.symm, h1.symm, .inr (.inr rfl)⟩
          · rintro ⟨rfl, rfl, rfl, rfl, _⟩; rfl
        · constructor
          · intro h; injection h with h1 h2 h3 h4 h5; exact absurd h2.symm n8
          · rintro ⟨_, _, _, _, h⟩
            rcases h with h | h | h
            · exact absurd h n2
            · exact absurd h n4
            · exact absurd h n8
    have fin : ∀ p, r = .prim p → (p = .int16 ∧ w = 2 ∨ p = .int32 ∧ w = 4 ∨ p = .int64 ∧ w = 8 ∨ p = .int ∧ w ≠ 2 ∧ w ≠ 4 ∧ w ≠ 8) →
        (back o r = .ok (.integer c w sg lo hi) ↔ Reversible e (.integer c w sg lo hi)) := by
      rintro p rfl hp
      rw [← key p hp]
      show Except.ok _ = Except.ok _ ↔ _
      rw [Except.ok.injEq]
    rw [revType] at hr
    by_cases h2 : w = 2
    · rw [if_pos h2] at hr; injection hr with hr; exact fin _ hr.symm (.inl ⟨rfl, h2⟩)
    · rw [if_neg h2] at hr
      by_cases h4 : w = 4
      · rw [if_pos h4] at hr; injection hr with hr; exact fin _ hr.symm (.inr (.inl ⟨rfl, h4⟩))
      · rw [if_neg h4] at hr
        by_cases h8 : w = 8
        · rw [if_pos h8] at hr; injection hr with hr; exact fin _ hr.symm (.inr (.inr (.inl ⟨rfl, h8⟩)))
        · rw [if_neg h8] at hr; injection hr with hr; exact fin _ hr.symm (.inr (.inr (.inr ⟨rfl, h2, h4, h8⟩)))
  | .real c, hr =>
    injection hr with hr; subst hr
    cases e <;> cases c <;> simp [back, ConvOptions.primType, hs, Engine.substitution, Reversible]
  | .double c, hr =>
    injection hr with hr; subst hr
    cases e <;> cases c <;> simp [back, ConvOptions.primType, hs, Engine.substitution, Reversible]
  | .float (some p), hr =>
    injection hr with hr; subst hr
    cases e <;> simp [back, ConvOptions.annotatedType, ConvOptions.annotatedBase, parseMetas, SqlType.parseMeta, hs, Engine.substitution, Reversible]
  | .float none, hr =>
    injection hr with hr; subst hr
    cases e <;> simp [back, ConvOptions.primType, hs, Engine.substitution, Reversible]
  | .decimal p s, hr =>
    injection hr with hr; subst hr
    cases e <;> cases p <;> cases s <;> simp [back, ConvOptions.primType, hs, Engine.substitution, Reversible]
  | .timestamp c (some p) z, hr =>
    injection hr with hr; subst hr
    cases e <;> cases c <;> cases z <;>
      simp [back, ConvOptions.annotatedType, ConvOptions.annotatedBase, parseMetas, SqlType.parseMeta, hs, Engine.substitution, Reversible, stampType]
  | .timestamp c none z, hr =>
    injection hr with hr; subst hr
    cases e <;> cases c <;> cases z <;> simp [back, ConvOptions.primType, hs, Engine.substitution, Reversible, stampType]
  | .date, hr =>
    injection hr with hr; subst hr
    cases e <;> simp [back, ConvOptions.primType, hs, Engine.substitution, Reversible]
  | .time c (some p) z, hr =>
    injection hr with hr; subst hr
    cases e <;> cases c <;> cases z <;>
      simp [back, ConvOptions.annotatedType, ConvOptions.annotatedBase, parseMetas, SqlType.parseMeta, hs, Engine.substitution, Reversible]
  | .time c none z, hr =>
    injection hr with hr; subst hr
    cases e <;> cases c <;> cases z <;> simp [back, ConvOptions.primType, hs, Engine.substitution, Reversible]
  | .fixedChar (some n), hr =>
    injection hr with hr; subst hr
    exact ⟨fun h => absurd h (fixed_refused _), fun h => h.elim⟩
  | .fixedChar none, hr =>
    injection hr with hr; subst hr
    cases e <;> simp [back, ConvOptions.primType, hs, Engine.substitution, Reversible]
  | .varChar c (some n), hr =>
    injection hr with hr; subst hr
    cases e <;> cases c <;>
      simp [back, ConvOptions.annotatedType, ConvOptions.annotatedBase, parseMetas, SqlType.parseMeta, hs, Engine.substitution, Reversible, textType, limitedText]
  | .varChar c none, hr =>
    injection hr with hr; subst hr
    cases e <;> cases c <;> simp [back, ConvOptions.primType, hs, Engine.substitution, Reversible, textType, limitedText]
  | .uuid, hr =>
    injection hr with hr; subst hr
    cases e <;> simp [back, ConvOptions.primType, hs, Engine.substitution, Reversible]
  | .json c, hr =>
    injection hr with hr; subst hr
    cases e <;> cases c <;> simp [back, ConvOptions.primType, hs, Engine.substitution, Reversible]
  | .user ref, hr =>
    injection hr with hr; subst hr
    exact ⟨fun h => (by cases h), fun h => h.elim⟩
  | .array elem, hr =>
    rw [revType] at hr
    obtain ⟨x, _, hr⟩ := Conv.bind_ok.1 hr
    have hr := Conv.pure_ok.1 hr
    subst hr
    exact ⟨fun h => (by cases h), fun h => h.elim⟩

/-- A scalar as a member. -/
theorem member_back {o : ConvOptions} {defs : PyDefs} {resolve : Text → PyType} {fuel : Nat} {r : RevType} (h : ∀ n, r ≠ .named n) (h' : ∀ i, r ≠ .list i) :
    o.memberType defs (fuel + 1) (r.py resolve) = back o r ∧ (r.py resolve).isSimple = true ∧ o.simpleType defs (r.py resolve) = back o r := by
  cases r with
  | prim p => exact ⟨rfl, rfl, rfl⟩
  | annotated p m => exact ⟨rfl, rfl, rfl⟩
  | fixed n => exact ⟨rfl, rfl, rfl⟩
  | named n => exact absurd rfl (h n)
  | list i => exact absurd rfl (h' i)

theorem rev_named {ty : SqlType} {n : Text} (h : revType ty = .ok (.named n)) : ∃ ref, ty = .user ref := by
  match ty, h with
  | .user ref, _ => exact ⟨ref, rfl⟩
  | .array elem, h =>
    rw [revType] at h
    obtain ⟨x, _, h⟩ := Conv.bind_ok.1 h
    have h := Conv.pure_ok.1 h
    cases h
  | .integer _ w _ _ _, h =>
    rw [revType] at h
    split at h
    · cases h
    · split at h
      · cases h
      · split at h <;> cases h

theorem rev_list {ty : SqlType} {i : RevType} (h : revType ty = .ok (.list i)) : ∃ elem, ty = .array elem ∧ revType elem = .ok i := by
  match ty, h with
  | .array elem, h =>
    rw [revType] at h
    obtain ⟨x, hx, h⟩ := Conv.bind_ok.1 h
    have h := Conv.pure_ok.1 h
    injection h with h
    subst h
    exact ⟨elem, rfl, hx⟩
  | .integer _ w _ _ _, h =>
    rw [revType] at h
    split at h
    · cases h
    · split at h
      · cases h
      · split at h <;> cases h

end C53

/-- The types that come back: a column type is expressed as a type of Python, which an engine then gives the same column type, exactly for these types. -/
theorem C53_types_exact {e : Engine} {g : GenOptions} {o : ConvOptions} (h : e.options g = .ok o) (defs : PyDefs) (resolve : Text → PyType) (depth : Nat)
    {ty : SqlType} (hn : NoNames ty) : (∃ r, revType ty = .ok r ∧ o.memberType defs (depth + 1) (r.py resolve) = .ok ty) ↔ ReversibleColumn e o.arrayMode ty := by
  by_cases ha : ∃ elem, ty = .array elem
  · obtain ⟨elem, rfl⟩ := ha
    have hn : NoNames elem := hn
    constructor
    · rintro ⟨r, hr, hm⟩
      rw [revType] at hr
      obtain ⟨i, hi, hr⟩ := Conv.bind_ok.1 hr
      have hr := Conv.pure_ok.1 hr
      subst hr
      have hm : o.arrayType defs (i.py resolve) = .ok (.array elem) := hm
      by_cases hl : ∃ j, i = .list j
      · obtain ⟨j, rfl⟩ := hl
        exfalso
        unfold ConvOptions.arrayType at hm
        rw [if_neg (show ¬ ((RevType.list j).py resolve).isSimple = true from Bool.false_ne_true), if_neg (show ¬ defs.isEntity ((RevType.list j).py resolve) = true from Bool.false_ne_true)] at hm
        cases hm
      · have hnn : ∀ n, i ≠ .named n := by
          rintro n rfl
          obtain ⟨ref, rfl⟩ := rev_named hi
          exact hn
        obtain ⟨_, b2, b3⟩ := member_back (o := o) (defs := defs) (resolve := resolve) (fuel := depth) hnn (fun j e => hl ⟨j, e⟩)
        unfold ConvOptions.arrayType at hm
        rw [if_pos b2] at hm
        cases hmode : o.arrayMode with
        | array =>
          rw [hmode, b3] at hm
          dsimp only at hm
          obtain ⟨x, hx, hm⟩ := Conv.bind_ok.1 hm
          have hm := Conv.pure_ok.1 hm
          injection hm with hm
          subst hm
          exact ⟨rfl, (scalar_exact h hi).1 hx⟩
        | json =>
          rw [hmode] at hm
          dsimp only at hm
          injection hm with hm
          exfalso
          obtain ⟨hs, _⟩ := options_inv h
          unfold ConvOptions.primType at hm
          rw [hs] at hm
          cases e <;> cases hm
        | relation =>
          rw [hmode] at hm
          cases hm
    · rintro ⟨hmode, hrev⟩
      have he : Expressible elem := by
        cases elem <;> first | trivial | exact hrev.elim
      obtain ⟨i, hi⟩ := (expressible_iff elem).2 he
      refine ⟨.list i, by rw [revType, hi]; rfl, ?_⟩
      have hnn : ∀ n, i ≠ .named n := by
        rintro n rfl
        obtain ⟨ref, rfl⟩ := rev_named hi
        exact hn
      have hll : ∀ j, i ≠ .list j := by
        rintro j rfl
        obtain ⟨el, rfl, _⟩ := rev_list hi
        exact hrev
      obtain ⟨_, b2, b3⟩ := member_back (o := o) (defs := defs) (resolve := resolve) (fuel := depth) hnn hll
      show o.arrayType defs (i.py resolve) = .ok (.array elem)
      unfold ConvOptions.arrayType
      rw [if_pos b2, hmode]
      dsimp only
      rw [b3, (scalar_exact h hi).2 hrev]
      rfl
  · have e1 : ReversibleColumn e o.arrayMode ty = Reversible e ty := by
      cases ty <;> first | rfl | exact absurd ⟨_, rfl⟩ ha
    rw [e1]
    constructor
    · rintro ⟨r, hr, hm⟩
      have hnn : ∀ n, r ≠ .named n := by
        rintro n rfl
        obtain ⟨ref, rfl⟩ := rev_named hr
        exact hn
      have hll : ∀ j, r ≠ .list j := by
        rintro j rfl
        obtain ⟨el, rfl, _⟩ := rev_list hr
        exact ha ⟨el, rfl⟩
      rw [(member_back hnn hll).1] at hm
      exact (scalar_exact h hr).1 hm
    · intro hrev
      have he : Expressible ty := by
        cases ty <;> first | trivial | exact hrev.elim
      obtain ⟨r, hr⟩ := (expressible_iff ty).2 he
      have hnn : ∀ n, r ≠ .named n := by
        rintro n rfl
        obtain ⟨ref, rfl⟩ := rev_named hr
        exact hn
      have hll : ∀ j, r ≠ .list j := by
        rintro j rfl
        obtain ⟨el, rfl, _⟩ := rev_list hr
        exact ha ⟨el, rfl⟩
      exact ⟨r, hr, by rw [(member_back hnn hll).1]; exact (scalar_exact h hr).2 hrev⟩

namespace C53

theorem quote_longer (d : Text) : quote d ≠ d := by
  intro h
  have := congrArg List.length h
  unfold quote at this
  rw [List.length_append, List.length_append] at this
  have e1 : (t "'").length = 1 := by decide +kernel
  have e2 : d.length ≤ (replaceChar '\'' (t "''") d).length := by
    clear h this
    induction d with
    | nil => exact Nat.zero_le _
    | cons c d ih =>
      have : replaceChar '\'' (t "''") (c :: d) = (if c = '\'' then t "''" else [c]) ++ replaceChar '\'' (t "''") d := by
        simp [replaceChar]
      rw [this, List.length_append, List.length_cons]
      split
      · have : (t "''").length = 2 := by decide +kernel
        omega
      · simp only [List.length_singleton]; omega
  omega

theorem safe_self {s : Text} : safeId s = s ↔ s ∉ pyKeywords := by
  unfold safeId
  split
  · next h =>
    refine ⟨fun e => ?_, fun h' => absurd h h'⟩
    have := congrArg List.length e
    rw [List.length_append] at this
    have : (t "_").length = 1 := by decide +kernel
    omega
  · next h => exact ⟨fun _ => h, fun _ => rfl⟩

end C53

/-- The columns that come back: a column that no foreign key is about is the same column again (but for its description) exactly if its type comes back, it
    has no default, it is no identity column, and its name is no key word of Python. -/
theorem C53_columns_exact {e : Engine} {g : GenOptions} {o : ConvOptions} (h : e.options g = .ok o) (defs : PyDefs) (resolve : Text → PyType) (depth : Nat)
    {ns : Option Text → Option Text} {tb : Table} {c : Column} (hn : NoNames c.ty) (free : ∀ k ∈ tb.constraints.items, ¬ RefersFrom c.name k) :
    (∃ f, columnField ns tb c = .ok f ∧ o.memberColumn defs (depth + 1) (f.decl resolve) = .ok { c with description := none }) ↔
      ReversibleColumn e o.arrayMode c.ty ∧ c.default = none ∧ c.identity = false ∧ c.name ∉ pyKeywords := by
  rw [← C53_types_exact h defs resolve depth hn]
  constructor
  · rintro ⟨f, hf, hm⟩
    have ds := describes hf
    obtain ⟨ty, hty, hann⟩ := ds.plain free
    unfold ConvOptions.memberColumn at hm
    obtain ⟨ty', hty', hm⟩ := Conv.bind_ok.1 hm
    have hm := Conv.pure_ok.1 hm
    injection hm with h1 h2 h3 h4 h5 h6
    have hpy : (f.decl resolve).ty = ty.py resolve := by
      show f.ann.py resolve = _
      rw [hann]
      split <;> rfl
    rw [hpy] at hty'
    refine ⟨⟨ty, hty, by rw [hty', h2]⟩, ?_, h5.symm, ?_⟩
    · have : f.default.map (fun d => constant (.str d)) = c.default := h4
      rw [ds.default] at this
      cases hd : c.default with
      | none => rfl
      | some d =>
        rw [hd] at this
        injection this with this
        have ec : constant (.str d) = quote d := by rw [constant]
        exact absurd (ec.symm.trans this) (quote_longer d)
    · have : f.name = c.name := h1
      rw [ds.name] at this
      exact safe_self.1 this
  · rintro ⟨⟨ty, hty, hm⟩, hd, hi, hk⟩
    refine ⟨{ name := safeId c.name, ann := revAnn tb c ty, default := c.default }, ?_, ?_⟩
    · unfold columnField
      simp only [hty, fold_other free, bind, Except.bind, pure, Except.pure]
    · have e1 : (revAnn tb c ty) = if c.nullable then .optional ty else .plain ty := rfl
      have hpy : (revAnn tb c ty).py resolve = ty.py resolve := by
        rw [e1]
        split <;> rfl
      have hnu : (match revAnn tb c ty with | .optional _ => true | _ => false) = c.nullable := by
        rw [e1]
        cases c.nullable <;> rfl
      unfold ConvOptions.memberColumn
      have e2 : (RevField.decl resolve { name := safeId c.name, ann := revAnn tb c ty, default := c.default }).ty = ty.py resolve := hpy
      rw [e2, hm]
      show Except.ok _ = Except.ok _
      congr 1
      have e3 : (RevField.decl resolve { name := safeId c.name, ann := revAnn tb c ty, default := c.default }).nullable = c.nullable := hnu
      rw [e3]
      show Column.mk (safeId c.name) c.ty c.nullable (c.default.map _) false none = _
      rw [safe_self.2 hk, hd]
      cases c
      simp_all

/-- A finding: a default (a text of SQL) is quoted again, so that a column with a default does not come back. -/
theorem C53_default_quoted {ns : Option Text → Option Text} {tb : Table} {c : Column} {f : RevField} (h : columnField ns tb c = .ok f) {d : Text}
    (hd : c.default = some d) (resolve : Text → PyType) : (f.decl resolve).default = some (quote d) ∧ (f.decl resolve).default ≠ c.default := by
  have e : (f.decl resolve).default = some (quote d) := by
    show f.default.map (fun d => constant (.str d)) = _
    rw [(field_name h).2, hd]
    have ec : constant (.str d) = quote d := by rw [constant]
    exact congrArg some ec
  refine ⟨e, ?_⟩
  rw [e, hd]
  intro h
  injection h with h
  exact quote_longer d h

/-- A finding: a column that refers to another table is required in Python, even if it may be NULL. -/
theorem C53_reference_required {ns : Option Text → Option Text} {tb : Table} {c : Column} {f : RevField} (h : columnField ns tb c = .ok f)
    (hr : ∃ k ∈ tb.constraints.items, RefersFrom c.name k) (resolve : Text → PyType) : (f.decl resolve).nullable = false := by
  have ds := describes h
  -- the last constraint that refers from the column
  have last : ∀ l : List Constraint, (∃ k ∈ l, RefersFrom c.name k) → ∃ before k after, l = before ++ k :: after ∧ RefersFrom c.name k ∧ ∀ k' ∈ after, ¬ RefersFrom c.name k' := by
    intro l
    induction l with
    | nil => rintro ⟨k, hk, _⟩; exact absurd hk List.not_mem_nil
    | cons a l ih =>
      rintro ⟨k, hk, hR⟩
      by_cases hl : ∃ k ∈ l, RefersFrom c.name k
      · obtain ⟨b, k', af, e, h1, h2⟩ := ih hl
        exact ⟨a :: b, k', af, by rw [e]; rfl, h1, h2⟩
      · rcases List.mem_cons.1 hk with rfl | hk
        · exact ⟨[], k, l, rfl, hR, fun k' hk' hR' => hl ⟨k', hk', hR'⟩⟩
        · exact absurd ⟨k, hk, hR⟩ hl
  obtain ⟨before, k, after, e, h1, h2⟩ := last _ hr
  match k, h1, e with
  | .foreign n cs r, h1, e =>
    obtain ⟨x, _, hx⟩ := ds.reference before n cs r after e h1 h2
    show (match f.ann with | .optional _ => true | _ => false) = false
    rw [hx]
  | .discriminated n cs rs, h1, e =>
    obtain ⟨x, _, _, hx⟩ := ds.references before n cs rs after e h1 h2
    show (match f.ann with | .optional _ => true | _ => false) = false
    rw [hx]

/-! ### A concrete case -/

namespace C53.Ex
open Example

def person : Table where
  name := q "app" "person"
  columns := ⟨[key0 "id", col "age" int4 false (some (t "18")), col "class" text, col "born" (.timestamp .base (some 3) false) false]⟩
  primaryKey := [t "id"]
  description := some (t "People.")

def pet : Table where
  name := q "app" "pet"
  columns := ⟨[key0 "id", col "owner" int8]⟩
  primaryKey := [t "id"]
  constraints := ⟨[.foreign (t "fk_owner") [t "owner"] ⟨q "app" "person", [t "id"]⟩]⟩

def ns : Option Text → Option Text
  | some s => if s = t "app" then some (t "model.app") else none
  | none => none

/-- ASCII identifiers. -/
def isIdent (s : Text) : Bool :=
  match s with
  | [] => false
  | c :: s => (c.isAlpha || c = '_') && s.all (fun c => c.isAlphanum || c = '_')

theorem person_class : Classable isIdent ns person := by
  refine ⟨?_, by decide +kernel, by decide +kernel, by decide +kernel, fun c _ k hk => absurd hk List.not_mem_nil⟩
  intro c hc
  simp only [person, List.mem_cons, List.not_mem_nil, or_false] at hc
  rcases hc with rfl | rfl | rfl | rfl <;> trivial

/-- The class that is generated. -/
theorem person_ok : tableToClass isIdent ns person = .ok
    { name := t "person", module := t "model.app", doc := t "People."
      fields := [⟨t "id", .plain (.prim .int64), none⟩, ⟨t "class_", .optional (.prim .str), none⟩,
        ⟨t "born", .plain (.annotated .datetime (.timePrecision 3)), none⟩, ⟨t "age", .plain (.prim .int32), some (t "18")⟩] } :=
  ok_of_toOption (by decide +kernel)

example : ∃ c, tableToClass isIdent ns person = .ok c := C53_generated_iff.2 person_class

/-- A table with two columns that become the same name has no class. -/
example : ¬ ∃ c, tableToClass isIdent ns { person with columns := ⟨[key0 "class", col "class_" text]⟩ } = .ok c := by
  rw [C53_generated_iff]
  intro h
  exact absurd h.distinct (by decide +kernel)

theorem pet_owner : columnField ns pet (col "owner" int8) = .ok ⟨t "owner", .ref (t "model.app.person"), none⟩ := ok_of_toOption (by decide +kernel)

example (resolve : Text → PyType) : (RevField.decl resolve ⟨t "owner", .ref (t "model.app.person"), none⟩).nullable = false :=
  C53_reference_required (tb := pet) pet_owner ⟨_, .head _, .head _⟩ resolve

/-- Column types that come back on PostgreSQL, and one that does not. -/
example : ReversibleColumn .postgresql .array (.array (.varChar .base (some 10))) ∧ ¬ ReversibleColumn .postgresql .array (.decimal (some 10) (some 2)) :=
  ⟨⟨rfl, .inr ⟨10, rfl⟩⟩, fun h => by cases h.1⟩

end C53.Ex

end PySqlSync
