/-
C56: how a field is declared.
-/
import Verif.Lemmas.Fields

set_option autoImplicit false

namespace PySqlSync
open Spec Fld

namespace C56

theorem pair_sublist {α : Type} {a b x : α} {l : List α} : [a, b].Sublist (x :: l) ↔ [a, b].Sublist l ∨ (a = x ∧ b ∈ l) := by
  rw [List.sublist_cons_iff]
  constructor
  · rintro (h | ⟨r, hr, h⟩)
    · exact .inl h
    · cases hr
      exact .inr ⟨rfl, List.singleton_sublist.1 h⟩
  · rintro (h | ⟨rfl, h⟩)
    · exact .inl h
    · exact .inr ⟨[b], rfl, List.singleton_sublist.2 h⟩

theorem triple_sublist {α : Type} {a b c x : α} {l : List α} : [a, b, c].Sublist (x :: l) ↔ [a, b, c].Sublist l ∨ (a = x ∧ [b, c].Sublist l) := by
  rw [List.sublist_cons_iff]
  constructor
  · rintro (h | ⟨r, hr, h⟩)
    · exact .inl h
    · cases hr
      exact .inr ⟨rfl, h⟩
  · rintro (h | ⟨rfl, h⟩)
    · exact .inl h
    · exact .inr ⟨[b, c], rfl, h⟩

/-- There is a union step. -/
def hasU (l : List Op) : Prop := ∃ v ∈ l, v.isTag = false
/-- There is a union in an annotation. -/
def hasAU (l : List Op) : Prop := ∃ a v, [a, v].Sublist l ∧ a.isTag = true ∧ v.isTag = false
/-- There is a union in an annotation in a union. -/
def hasUAU (l : List Op) : Prop := ∃ u a v, [u, a, v].Sublist l ∧ u.isTag = false ∧ a.isTag = true ∧ v.isTag = false

theorem hasU_cons {op : Op} {l : List Op} : hasU (op :: l) ↔ op.isTag = false ∨ hasU l := by
  constructor
  · rintro ⟨v, hv, h⟩
    rcases List.mem_cons.1 hv with rfl | hv
    · exact .inl h
    · exact .inr ⟨v, hv, h⟩
  · rintro (h | ⟨v, hv, h⟩)
    · exact ⟨op, by simp, h⟩
    · exact ⟨v, List.mem_cons_of_mem _ hv, h⟩

theorem hasAU_cons {op : Op} {l : List Op} : hasAU (op :: l) ↔ (op.isTag = true ∧ hasU l) ∨ hasAU l := by
  constructor
  · rintro ⟨a, v, hs, ha, hv⟩
    rcases pair_sublist.1 hs with hs | ⟨rfl, h2⟩
    · exact .inr ⟨a, v, hs, ha, hv⟩
    · exact .inl ⟨ha, v, h2, hv⟩
  · rintro (⟨ha, v, hs, hv⟩ | ⟨a, v, hs, ha, hv⟩)
    · exact ⟨op, v, pair_sublist.2 (.inr ⟨rfl, hs⟩), ha, hv⟩
    · exact ⟨a, v, pair_sublist.2 (.inl hs), ha, hv⟩

theorem hasUAU_cons {op : Op} {l : List Op} : hasUAU (op :: l) ↔ (op.isTag = false ∧ hasAU l) ∨ hasUAU l := by
  constructor
  · rintro ⟨u, a, v, hs, hu, ha, hv⟩
    rcases triple_sublist.1 hs with hs | ⟨rfl, h2⟩
    · exact .inr ⟨u, a, v, hs, hu, ha, hv⟩
    · exact .inl ⟨hu, a, v, h2, ha, hv⟩
  · rintro (⟨hu, a, v, hs, ha, hv⟩ | ⟨u, a, v, hs, hu, ha, hv⟩)
    · exact ⟨op, a, v, triple_sublist.2 (.inr ⟨rfl, hs⟩), hu, ha, hv⟩
    · exact ⟨u, a, v, triple_sublist.2 (.inl hs), hu, ha, hv⟩

theorem hasU_ops (ws : List Wrap) : hasU (ws.flatMap ops) ↔ .optional ∈ ws ∨ .identity ∈ ws := by
  induction ws with
  | nil => simp [hasU]
  | cons w ws ih =>
    rw [List.flatMap_cons]
    cases w <;> simp [ops, hasU_cons, ih, Op.isTag]

theorem hasAU_ops (ws : List Wrap) : hasAU (ws.flatMap ops) ↔ .identity ∈ ws ∨ ∃ a : Wrap, a.isTag = true ∧ [a, .optional].Sublist ws := by
  induction ws with
  | nil => simp [hasAU]
  | cons w ws ih =>
    have hU := hasU_ops ws
    have hsub : (∃ a : Wrap, a.isTag = true ∧ [a, .optional].Sublist (w :: ws)) ↔
        (w.isTag = true ∧ .optional ∈ ws) ∨ ∃ a : Wrap, a.isTag = true ∧ [a, .optional].Sublist ws := by
      constructor
      · rintro ⟨a, ha, hs⟩
        rcases pair_sublist.1 hs with hs | ⟨rfl, h2⟩
        · exact .inr ⟨a, ha, hs⟩
        · exact .inl ⟨ha, h2⟩
      · rintro (⟨ha, hs⟩ | ⟨a, ha, hs⟩)
        · exact ⟨w, ha, pair_sublist.2 (.inr ⟨rfl, hs⟩)⟩
        · exact ⟨a, ha, pair_sublist.2 (.inl hs)⟩
    rw [List.flatMap_cons, hsub, List.mem_cons]
    cases w with
    | optional => simp [ops, hasAU_cons, Op.isTag, ih, Wrap.isTag]
    | identity => simp [ops, hasAU_cons, hasU_cons, Op.isTag]
    | primaryKey | unique | annotated text =>
      simp only [ops, List.singleton_append, hasAU_cons, ih, hU, Op.isTag, Wrap.isTag, true_and, reduceCtorEq, false_or]
      constructor
      · rintro ((h | h) | h | h)
        · exact .inr (.inl h)
        · exact .inl h
        · exact .inl h
        · exact .inr (.inr h)
      · rintro (h | h | h)
        · exact .inr (.inl h)
        · exact .inl (.inl h)
        · exact .inr (.inr h)

theorem hasUAU_ops (ws : List Wrap) : hasUAU (ws.flatMap ops) ↔ (∃ u : Wrap, u.isUnion = true ∧ [u, .identity].Sublist ws) ∨
    ∃ u a : Wrap, u.isUnion = true ∧ a.isTag = true ∧ [u, a, .optional].Sublist ws := by
  induction ws with
  | nil => simp [hasUAU]
  | cons w ws ih =>
    have hAU := hasAU_ops ws
    have hsub1 : (∃ u : Wrap, u.isUnion = true ∧ [u, .identity].Sublist (w :: ws)) ↔
        (w.isUnion = true ∧ .identity ∈ ws) ∨ ∃ u : Wrap, u.isUnion = true ∧ [u, .identity].Sublist ws := by
      constructor
      · rintro ⟨a, ha, hs⟩
        rcases pair_sublist.1 hs with hs | ⟨rfl, h2⟩
        · exact .inr ⟨a, ha, hs⟩
        · exact .inl ⟨ha, h2⟩
      · rintro (⟨ha, hs⟩ | ⟨a, ha, hs⟩)
        · exact ⟨w, ha, pair_sublist.2 (.inr ⟨rfl, hs⟩)⟩
        · exact ⟨a, ha, pair_sublist.2 (.inl hs)⟩
    have hsub2 : (∃ u a : Wrap, u.isUnion = true ∧ a.isTag = true ∧ [u, a, .optional].Sublist (w :: ws)) ↔
        (w.isUnion = true ∧ ∃ a : Wrap, a.isTag = true ∧ [a, .optional].Sublist ws) ∨
        ∃ u a : Wrap, u.isUnion = true ∧ a.isTag = true ∧ [u, a, .optional].Sublist ws := by
      constructor
      · rintro ⟨u, a, hu, ha, hs⟩
        rcases triple_sublist.1 hs with hs | ⟨rfl, h2⟩
        · exact .inr ⟨u, a, hu, ha, hs⟩
        · exact .inl ⟨hu, a, ha, h2⟩
      · rintro (⟨hu, a, ha, hs⟩ | ⟨u, a, hu, ha, hs⟩)
        · exact ⟨w, a, hu, ha, triple_sublist.2 (.inr ⟨rfl, hs⟩)⟩
        · exact ⟨u, a, hu, ha, triple_sublist.2 (.inl hs)⟩
    rw [List.flatMap_cons, hsub1, hsub2]
    have hcons : hasUAU (ops w ++ ws.flatMap ops) ↔ (w.isUnion = true ∧ hasAU (ws.flatMap ops)) ∨ hasUAU (ws.flatMap ops) := by
      cases w <;> simp [ops, hasUAU_cons, Op.isTag, Wrap.isUnion]
    rw [hcons, hAU, ih]
    constructor
    · rintro (⟨h, h1 | h1⟩ | h | h)
      · exact .inl (.inl ⟨h, h1⟩)
      · exact .inr (.inl ⟨h, h1⟩)
      · exact .inl (.inr h)
      · exact .inr (.inr h)
    · rintro ((⟨h, h1⟩ | h) | ⟨h, h1⟩ | h)
      · exact .inl ⟨h, .inl h1⟩
      · exact .inr (.inl h)
      · exact .inl ⟨h, .inr h1⟩
      · exact .inr (.inr h)

theorem readable_iff (ws : List Wrap) : Readable ws ↔ ¬ hasUAU (ws.flatMap ops) := by
  rw [hasUAU_ops]
  constructor
  · rintro h (⟨u, hu, hs⟩ | ⟨u, a, hu, ha, hs⟩)
    · exact h.identity u hu hs
    · exact h.optional u a hu ha hs
  · intro h
    exact ⟨fun u hu hs => h (.inl ⟨u, hu, hs⟩), fun u a hu ha hs => h (.inr ⟨u, a, hu, ha, hs⟩)⟩

/-- Nothing remains exactly if there is no union in an annotation in a union. -/
theorem rest_iff {l a1 u a2 r : List Op} (hp : Parts l a1 u a2 r) : r = [] ↔ ¬ hasUAU l := by
  constructor
  · rintro rfl ⟨x, a, v, hs, hx, ha, hv⟩
    rw [hp.eq, List.append_nil] at hs
    have step : ∀ (p : List Op), (∀ op ∈ p, op.isTag = true) → ∀ {q : List Op} {z : List Op}, (x :: z).Sublist (p ++ q) → (x :: z).Sublist q := by
      intro p hp' q z h
      induction p with
      | nil => exact h
      | cons y p ih =>
        rcases List.sublist_cons_iff.1 h with h | ⟨r, hr, h⟩
        · exact ih (fun o ho => hp' o (List.mem_cons_of_mem _ ho)) h
        · have : x = y := (List.cons.inj hr).1
          rw [this, hp' y (by simp)] at hx
          cases hx
    have hs1 := step a1 hp.outer hs
    have hs2 : [a, v].Sublist (u ++ a2) := (List.sublist_cons_self x [a, v]).trans hs1
    have step2 : ∀ (p : List Op), (∀ op ∈ p, op.isTag = false) → ∀ {q : List Op}, [a, v].Sublist (p ++ q) → [a, v].Sublist q := by
      intro p hp' q h
      induction p with
      | nil => exact h
      | cons y p ih =>
        rcases pair_sublist.1 h with h | ⟨rfl, -⟩
        · exact ih (fun o ho => hp' o (List.mem_cons_of_mem _ ho)) h
        · rw [hp' a (by simp)] at ha
          cases ha
    have hs3 := step2 u hp.middle hs2
    have := hp.inner v (hs3.subset (by simp))
    rw [this] at hv
    cases hv
  · intro h
    rcases hp.rest with hr | ⟨op, r', hr, hop⟩
    · exact hr
    · exfalso
      have hu : u ≠ [] := fun hc => by rw [(hp.none hc).2] at hr; cases hr
      have ha : a2 ≠ [] := fun hc => by rw [hp.flat hc] at hr; cases hr
      obtain ⟨x, hx⟩ := List.exists_mem_of_ne_nil u hu
      obtain ⟨a, ha'⟩ := List.exists_mem_of_ne_nil a2 ha
      refine h ⟨x, a, op, ?_, hp.middle x hx, hp.inner a ha', hop⟩
      rw [hp.eq, hr]
      have : [x, a, op] = [x] ++ ([a] ++ [op]) := rfl
      rw [this]
      exact ((List.singleton_sublist.2 hx).append ((List.singleton_sublist.2 ha').append (List.singleton_sublist.2 (by simp)))).trans (List.sublist_append_right a1 _)

theorem tags_texts (ws : List Wrap) : ((ws.flatMap ops).filterMap Op.tag?).filter (fun m => !m.isConstraint) = (texts ws).map .other := by
  induction ws with
  | nil => rfl
  | cons w ws ih =>
    rw [List.flatMap_cons, List.filterMap_append, List.filter_append, ih]
    cases w <;> rfl

theorem tag_mem (ws : List Wrap) : (.primaryKey ∈ (ws.flatMap ops).filterMap Op.tag? ↔ .primaryKey ∈ ws) ∧
    (.identity ∈ (ws.flatMap ops).filterMap Op.tag? ↔ .identity ∈ ws) ∧ (.unique ∈ (ws.flatMap ops).filterMap Op.tag? ↔ .unique ∈ ws) ∧
    (.none ∈ ws.flatMap ops ↔ .optional ∈ ws) := by
  induction ws with
  | nil => simp
  | cons w ws ih =>
    simp only [List.flatMap_cons, List.filterMap_append, List.mem_append, List.mem_cons, ih]
    cases w <;> simp [ops, Op.tag?]

theorem no_none {l : List Op} (h : ∀ op ∈ l, op.isTag = true) : .none ∉ l := fun hc => by cases h _ hc

theorem no_tags {l : List Op} (h : ∀ op ∈ l, op.isTag = false) : l.filterMap Op.tag? = [] := by
  rw [List.filterMap_eq_nil_iff]
  intro op hop
  have := h op hop
  cases op with
  | tag m => cases this
  | _ => rfl

end C56
open C56

/-- **C56**, fields.  For every class (or union of classes) and everything that may be written around it, in any order and as often as one likes: what
    `get_field_properties` says of a field is what was written (the class; whether it is optional, a key, generated, unique; the other annotations)
    exactly if `Identity` is not inside of `Optional` or `Identity`, and `Optional` is not inside of an annotation that is inside of one of them. -/
theorem C56_exact_criterion {core : TyExp} (h : IsCore core) (ws : List Wrap) : Says core ws (fieldProps (written core ws)) ↔ Readable ws := by
  obtain ⟨a1, u, a2, r, hp⟩ := parts (ws.flatMap ops)
  obtain ⟨hplain, hnull, -, htags⟩ := found h hp
  rw [readable_iff, ← rest_iff hp, written_build]
  constructor
  · intro hs
    rcases hp.rest with hr | ⟨op, r', rfl, hop⟩
    · exact hr
    · exfalso
      have := hs.plain
      rw [hplain] at this
      have hm := (build_union h (l := r') hop).2
      rw [this] at hm
      exact hm.elim (core_plain h).2.1 (core_plain h).2.2
  · rintro rfl
    have heq := hp.eq
    rw [List.append_nil] at heq
    have htagl : (ws.flatMap ops).filterMap Op.tag? = a1.filterMap Op.tag? ++ a2.filterMap Op.tag? := by
      rw [heq, List.filterMap_append, List.filterMap_append, no_tags hp.middle]
      rfl
    have hperm : (tagsOf a1 ++ tagsOf a2).Perm ((ws.flatMap ops).filterMap Op.tag?) := by
      rw [htagl]
      exact (List.reverse_perm _).append (List.reverse_perm _)
    obtain ⟨t1, t2, t3, t4⟩ := tag_mem ws
    have hany : ∀ m : Tag, ((tagsOf a1 ++ tagsOf a2).any (fun x => x = m) = true ↔ m ∈ (ws.flatMap ops).filterMap Op.tag?) := by
      intro m
      rw [List.any_eq_true, ← hperm.mem_iff]
      constructor
      · rintro ⟨x, hx, he⟩
        rw [decide_eq_true_eq] at he
        exact he ▸ hx
      · intro hm
        exact ⟨m, hm, by simp⟩
    constructor
    · rw [hplain]; rfl
    · rw [hnull, ← t4, heq]
      simp only [List.mem_append]
      constructor
      · exact fun hc => .inr (.inl hc)
      · rintro (hc | hc | hc)
        · exact absurd hc (no_none hp.outer)
        · exact hc
        · exact absurd hc (no_none hp.inner)
    · rw [← t1, ← hany, ← htags]; exact Iff.rfl
    · rw [← t2, ← hany, ← htags]; exact Iff.rfl
    · rw [← t3, ← hany, ← htags]; exact Iff.rfl
    · rw [← tags_texts]
      show (((build core (ws.flatMap ops)).tags ++ _).filter _).Perm _
      rw [htags]
      exact hperm.filter _

/-- `PrimaryKey[Identity[Optional[Annotated[str, ...]]]]`: outer annotation, union, inner annotation. -/
example : Readable [.primaryKey, .identity, .optional, .annotated (t "MaxLength(9)"), .unique] ∧
    Says (.base (t "str")) [.primaryKey, .identity, .optional, .annotated (t "MaxLength(9)"), .unique]
      (fieldProps (written (.base (t "str")) [.primaryKey, .identity, .optional, .annotated (t "MaxLength(9)"), .unique])) := by
  have hr : Readable [.primaryKey, .identity, .optional, .annotated (t "MaxLength(9)"), .unique] := by
    constructor
    · intro u hu hs
      cases u <;> first | (exact absurd hu (by decide)) | exact absurd hs (by simp [pair_sublist])
    · intro u a hu ha hs
      cases u <;> first | (exact absurd hu (by decide)) | exact absurd hs (by simp [triple_sublist, pair_sublist])
  exact ⟨hr, (C56_exact_criterion (.inl ⟨_, rfl⟩) _).2 hr⟩

/-- `Optional[Identity[int]]`: the class is not found; `DEFAULT` remains in the type. -/
theorem C56_optional_identity_fails : (fieldProps (TyExp.base (t "int")).identity.optional).plain = .union (.ofList [.base (t "int"), .default]) := by
  decide +kernel

/-- Whether a field is recognized as a key when classes are told apart (`is_entity_type`) depends on where `PrimaryKey` is written: it must not be inside of
    `Optional` or `Identity`. -/
theorem C56_key_recognized {core : TyExp} (h : IsCore core) (ws : List Wrap) : isPrimaryKeyType (written core ws) = true ↔
    ∃ outer inner, ws = outer ++ .primaryKey :: inner ∧ ∀ w ∈ outer, w.isUnion = false := by
  obtain ⟨a1, u, a2, r, hp⟩ := parts (ws.flatMap ops)
  obtain ⟨-, -, htags, -⟩ := found h hp
  unfold isPrimaryKeyType
  rw [written_build, htags]
  have hmem : (tagsOf a1).any (fun m => m = .primaryKey) = true ↔ .tag .primaryKey ∈ a1 := by
    unfold tagsOf
    rw [List.any_eq_true]
    constructor
    · rintro ⟨m, hm, he⟩
      rw [decide_eq_true_eq] at he
      subst he
      rw [List.mem_reverse, List.mem_filterMap] at hm
      obtain ⟨op, hop, ho⟩ := hm
      cases op with
      | tag m =>
        cases ho
        exact hop
      | none => cases ho
      | default => cases ho
    · intro hm
      exact ⟨.primaryKey, by rw [List.mem_reverse, List.mem_filterMap]; exact ⟨_, hm, rfl⟩, by simp⟩
  rw [hmem]
  have hnext : ∀ op rest, u ++ (a2 ++ r) = op :: rest → op.isTag = false := by
    intro op rest he
    cases u with
    | nil =>
      obtain ⟨rfl, rfl⟩ := hp.none rfl
      cases he
    | cons c u =>
      have : c = op := (List.cons.inj he).1
      rw [← this]
      exact hp.middle c (by simp)
  have heq := hp.eq
  have houter := hp.outer
  generalize u ++ (a2 ++ r) = tail at heq hnext
  clear hp htags hmem
  induction ws generalizing a1 with
  | nil =>
    have : a1 = [] := (List.append_eq_nil_iff.1 heq.symm).1
    subst this
    simp
  | cons w ws ih =>
    have hcons : (∃ outer inner, w :: ws = outer ++ .primaryKey :: inner ∧ ∀ w ∈ outer, w.isUnion = false) ↔
        w = .primaryKey ∨ (w.isUnion = false ∧ ∃ outer inner, ws = outer ++ .primaryKey :: inner ∧ ∀ w ∈ outer, w.isUnion = false) := by
      constructor
      · rintro ⟨outer, inner, he, ho⟩
        cases outer with
        | nil => exact .inl (List.cons.inj he).1
        | cons x outer =>
          obtain ⟨rfl, rfl⟩ := List.cons.inj he
          exact .inr ⟨ho w (by simp), outer, inner, rfl, fun y hy => ho y (List.mem_cons_of_mem _ hy)⟩
      · rintro (rfl | ⟨hw, outer, inner, rfl, ho⟩)
        · exact ⟨[], ws, rfl, by simp⟩
        · refine ⟨w :: outer, inner, rfl, ?_⟩
          intro y hy
          rcases List.mem_cons.1 hy with rfl | hy
          · exact hw
          · exact ho y hy
    rw [hcons]
    have single : ∀ m : Tag, ops w = [.tag m] → w.isUnion = false → (.tag .primaryKey ∈ a1 ↔ m = .primaryKey ∨ ∃ outer inner, ws = outer ++ .primaryKey :: inner ∧ ∀ w ∈ outer, w.isUnion = false) := by
      intro m hm hu
      rw [List.flatMap_cons, hm] at heq
      cases a1 with
      | nil =>
        have := hnext (.tag m) (ws.flatMap ops) (by simpa using heq.symm)
        cases this
      | cons op a1 =>
        have he := List.cons.inj heq
        obtain ⟨rfl, he⟩ := he
        have ih' : .tag .primaryKey ∈ a1 ↔ ∃ outer inner, ws = outer ++ Wrap.primaryKey :: inner ∧ ∀ w ∈ outer, w.isUnion = false := ih a1 (fun x hx => houter x (List.mem_cons_of_mem _ hx)) he
        rw [List.mem_cons, ih']
        constructor
        · rintro (hc | hc)
          · cases hc; exact .inl rfl
          · exact .inr hc
        · rintro (rfl | hc)
          · exact .inl rfl
          · exact .inr hc
    cases w with
    | primaryKey => simp [single _ rfl rfl]
    | unique => simp [single _ rfl rfl, Wrap.isUnion]
    | annotated text => simp [single _ rfl rfl, Wrap.isUnion]
    | optional =>
      simp only [reduceCtorEq, Wrap.isUnion, Bool.true_eq_false, false_and, or_false, iff_false]
      rw [List.flatMap_cons] at heq
      cases a1 with
      | nil => simp
      | cons op a1 =>
        have : Op.none = op := (List.cons.inj heq).1
        have ho := houter op (by simp)
        rw [← this] at ho
        cases ho
    | identity =>
      simp only [reduceCtorEq, Wrap.isUnion, Bool.true_eq_false, false_and, or_false, iff_false]
      rw [List.flatMap_cons] at heq
      cases a1 with
      | nil => simp
      | cons op a1 =>
        obtain ⟨h1, h2⟩ := List.cons.inj heq
        cases a1 with
        | nil =>
          rw [← h1]
          simp
        | cons op2 a1 =>
          have : Op.default = op2 := (List.cons.inj h2).1
          have ho := houter op2 (by simp)
          rw [← this] at ho
          cases ho

/-- A field that is recognized as a key has the property of a key, whatever its type. -/
theorem C56_recognized_is_key (ty : TyExp) (h : isPrimaryKeyType ty = true) : (fieldProps ty).primary = true := by
  show (ty.tags ++ _).any _ = true
  rw [List.any_append, Bool.or_eq_true]
  exact .inl h

/-- The name and the type of the key are those of the same field, and a class is an entity exactly if a field has the property of a key, for all classes in which
    `PrimaryKey` is recognized wherever it is written. -/
theorem C56_key_of_one_field (fields : List RawField) (h : ∀ f ∈ fields, (fieldProps f.ty).primary = true → isPrimaryKeyType f.ty = true) :
    (hasPrimaryKey fields = true ↔ ∃ f ∈ fields, (fieldProps f.ty).primary = true) ∧
    (hasPrimaryKey fields = true → ∃ f ∈ fields, (fieldProps f.ty).primary = true ∧ primaryKeyName fields = .ok f.name ∧
      primaryKeyType fields = .ok (fieldProps f.ty).fieldType) ∧
    (hasPrimaryKey fields = false → primaryKeyName fields = .error .type ∧ primaryKeyType fields = .error .type) := by
  have hfind : fields.find? (fun f => (fieldProps f.ty).primary) = fields.find? (fun f => isPrimaryKeyType f.ty) := by
    induction fields with
    | nil => rfl
    | cons a fields ih =>
      have ha : (fieldProps a.ty).primary = isPrimaryKeyType a.ty := by
        cases hk : isPrimaryKeyType a.ty with
        | true => exact C56_recognized_is_key _ hk
        | false =>
          cases hp : (fieldProps a.ty).primary with
          | false => rfl
          | true => rw [h a (by simp) hp] at hk; cases hk
      rw [List.find?_cons, List.find?_cons, ha, ih (fun f hf => h f (List.mem_cons_of_mem _ hf))]
  refine ⟨?_, ?_, ?_⟩
  · unfold hasPrimaryKey
    rw [List.any_eq_true]
    exact ⟨fun ⟨f, hf, hk⟩ => ⟨f, hf, C56_recognized_is_key _ hk⟩, fun ⟨f, hf, hk⟩ => ⟨f, hf, h f hf hk⟩⟩
  · intro hk
    unfold hasPrimaryKey at hk
    rw [List.any_eq_true, ← List.find?_isSome, Option.isSome_iff_exists] at hk
    obtain ⟨f, hf⟩ := hk
    refine ⟨f, List.mem_of_find?_eq_some hf, C56_recognized_is_key _ (by simpa using List.find?_some hf), ?_, ?_⟩
    · unfold primaryKeyName; rw [hf]
    · unfold primaryKeyType; rw [hfind, hf]
  · intro hk
    have : fields.find? (fun f => isPrimaryKeyType f.ty) = none := by
      cases hf : fields.find? (fun f => isPrimaryKeyType f.ty) with
      | none => rfl
      | some f =>
        have : hasPrimaryKey fields = true := by
          unfold hasPrimaryKey
          rw [List.any_eq_true, ← List.find?_isSome, hf]
          rfl
        rw [this] at hk
        cases hk
    unfold primaryKeyName primaryKeyType
    rw [hfind, this]
    exact ⟨rfl, rfl⟩

/-- `Identity[PrimaryKey[int]]` and then `PrimaryKey[str]`: the key has the name of one field and the type of the other; without the second field there is no
    table for the class although a field is a key. -/
theorem C56_identity_key_fails :
    let id : RawField := { name := t "id", ty := (TyExp.base (t "int")).primaryKey.identity }
    let code : RawField := { name := t "code", ty := (TyExp.base (t "str")).primaryKey }
    primaryKeyName [id, code] = .ok (t "code") ∧ primaryKeyType [id, code] = .ok (.base (t "int")) ∧
    (fieldProps id.ty).primary = true ∧ hasPrimaryKey [id] = false := by
  refine ⟨rfl, rfl, by decide +kernel, by decide +kernel⟩

/-- The type without the tags of keys and constraints says what the field says, except for these, for all readable types. -/
theorem C56_field_type {core : TyExp} (h : IsCore core) {ws : List Wrap} (hr : Readable ws) :
    fieldProps (fieldProps (written core ws)).fieldType =
      { plain := core, nullable := false, metadata := (fieldProps (written core ws)).metadata, primary := false, identity := false, unique := false } := by
  have hs := (C56_exact_criterion h ws).2 hr
  have hmeta : ∀ m ∈ (fieldProps (written core ws)).metadata, m.isConstraint = false := by
    intro m hm
    obtain ⟨x, -, rfl⟩ := List.mem_map.1 (hs.metadata.mem_iff.1 hm)
    rfl
  unfold FieldProps.fieldType
  rw [hs.plain]
  generalize (fieldProps (written core ws)).metadata = md at hmeta
  have hplain := unwrap_plain (core_plain h).1
  have hclean := clean_core h
  have hd : core.withoutDefault = core := withoutDefault_clean hclean.default
  have hopt : core.isOptional = false := isOptional_clean hclean
  have hn : core.withoutNone = core := by
    unfold TyExp.withoutNone
    rw [hopt]
    rfl
  have hno : ∀ m : Tag, m.isConstraint = true → md.any (fun x => x = m) = false := by
    intro m hm
    rw [List.any_eq_false]
    intro x hx
    rw [decide_eq_true_eq]
    rintro rfl
    rw [hmeta x hx] at hm
    cases hm
  have hfil : md.filter (fun m => !m.isConstraint) = md := by
    rw [List.filter_eq_self]
    intro m hm
    rw [hmeta m hm]
    rfl
  by_cases he : md = []
  · subst he
    rw [if_pos rfl]
    unfold fieldProps
    simp only [hplain.1, hplain.2, hd, hn, hopt]
    rfl
  · rw [if_neg he]
    have ha : core.annotate md = .annotated core md := by
      generalize core = c at hplain
      cases c with
      | annotated x y => cases (hplain.1 ▸ rfl : TyExp.annotated x y = x) 
      | _ => rfl
    rw [ha]
    show FieldProps.mk (core.withoutDefault.withoutNone).unwrap core.withoutDefault.isOptional ((md ++ core.withoutDefault.withoutNone.tags).filter _)
      ((md ++ core.withoutDefault.withoutNone.tags).any _) ((md ++ core.withoutDefault.withoutNone.tags).any _) ((md ++ core.withoutDefault.withoutNone.tags).any _) = _
    rw [hd, hn, hopt, hplain.1, hplain.2, List.append_nil, hfil, hno .primaryKey rfl, hno .identity rfl, hno .unique rfl]

end PySqlSync
