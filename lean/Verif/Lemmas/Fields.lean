/-
Lemmas about the annotations of fields (C56).
-/
import Verif.Spec.Fields

set_option autoImplicit false

namespace PySqlSync.Fld
open PySqlSync Spec

theorem toList_ofList (l : List TyExp) : (TyExps.ofList l).toList = l := by
  induction l with
  | nil => rfl
  | cons a l ih => show a :: _ = _; rw [ih]

/-- Not a union. -/
def NotUnion (ty : TyExp) : Prop := ∀ ms, ty ≠ .union ms

theorem members_notUnion {ty : TyExp} (h : NotUnion ty) : ty.members = [ty] := by
  cases ty with
  | union ms => exact absurd rfl (h ms)
  | _ => rfl

theorem members_unionOf {l : List TyExp} (h : ∀ m ∈ l, NotUnion m) : (TyExp.unionOf l).members = l := by
  cases l with
  | nil => rfl
  | cons a l =>
    cases l with
    | nil => exact members_notUnion (h a (by simp))
    | cons b l => exact toList_ofList _

theorem flat_flatMap {l : List TyExp} (h : ∀ m ∈ l, NotUnion m) : l.flatMap TyExp.members = l := by
  induction l with
  | nil => rfl
  | cons a l ih =>
    rw [List.flatMap_cons, members_notUnion (h a (by simp)), ih (fun m hm => h m (List.mem_cons_of_mem _ hm))]
    rfl

theorem dedup_nodup {α : Type} [DecidableEq α] {l : List α} (h : l.Nodup) : dedupTypes l = l := by
  induction l with
  | nil => rfl
  | cons a l ih =>
    have h' := List.nodup_cons.1 h
    show a :: (dedupTypes l).filter _ = _
    rw [ih h'.2, List.filter_eq_self.2]
    intro b hb
    simp only [decide_eq_true_eq]
    rintro rfl
    exact h'.1 hb

/-- A member added to a union. -/
def add (e : TyExp) (l : List TyExp) : List TyExp := if e ∈ l then l else l ++ [e]

theorem dedup_add {l : List TyExp} (h : l.Nodup) (e : TyExp) : dedupTypes (l ++ [e]) = add e l := by
  induction l with
  | nil => rfl
  | cons a l ih =>
    have h' := List.nodup_cons.1 h
    show a :: (dedupTypes (l ++ [e])).filter _ = _
    rw [ih h'.2]
    have hl : l.filter (fun b => decide (b ≠ a)) = l := by
      rw [List.filter_eq_self]
      intro b hb
      simp only [decide_eq_true_eq]
      rintro rfl
      exact h'.1 hb
    unfold add
    by_cases hea : e = a
    · subst hea
      rw [if_neg h'.1, if_pos (by simp), List.filter_append, hl]
      simp
    · by_cases hel : e ∈ l
      · rw [if_pos hel, if_pos (List.mem_cons_of_mem _ hel), hl]
      · rw [if_neg hel, if_neg (by simp [hea, hel]), List.filter_append, hl]
        simp [hea]

/-- What is true of all types that can be written. -/
structure Inv (ty : TyExp) : Prop where
  flat : ∀ m ∈ ty.members, NotUnion m
  nodup : ty.members.Nodup
  self : TyExp.unionOf ty.members = ty
  proper : ∃ m ∈ ty.members, m ≠ .none ∧ m ≠ .default

/-- A type that is no union with `None` or `DEFAULT`. -/
structure Clean (ty : TyExp) : Prop extends Inv ty where
  none : .none ∉ ty.members
  default : .default ∉ ty.members

theorem clean_core {core : TyExp} (h : IsCore core) : Clean core := by
  rcases h with ⟨b, rfl⟩ | ⟨bs, hn, hl, rfl⟩
  · exact { flat := by simp [TyExp.members, NotUnion], nodup := by simp [TyExp.members], self := rfl, proper := ⟨.base b, by simp [TyExp.members]⟩,
            none := by simp [TyExp.members], default := by simp [TyExp.members] }
  · have hm : (TyExp.union (.ofList (bs.map .base))).members = bs.map .base := toList_ofList _
    refine { flat := ?_, nodup := ?_, self := ?_, proper := ?_, none := ?_, default := ?_ }
    · rw [hm]
      intro m hmm
      obtain ⟨b, -, rfl⟩ := List.mem_map.1 hmm
      intro ms h
      cases h
    · rw [hm]
      unfold List.Nodup
      rw [List.pairwise_map]
      refine List.Pairwise.imp ?_ hn
      intro a b hab h
      cases h
      exact hab rfl
    · rw [hm]
      match bs, hl with
      | a :: b :: rest, _ => rfl
    · rw [hm]
      match bs, hl with
      | a :: b :: rest, _ => exact ⟨.base a, by simp⟩
    · rw [hm]; simp
    · rw [hm]; simp

theorem clean_annotated (ty : TyExp) (tags : List Tag) : Clean (.annotated ty tags) :=
  { flat := by simp [TyExp.members, NotUnion], nodup := by simp [TyExp.members], self := rfl, proper := ⟨.annotated ty tags, by simp [TyExp.members]⟩,
    none := by simp [TyExp.members], default := by simp [TyExp.members] }

theorem annotate_form (ty : TyExp) (tags : List Tag) : ∃ ty' tags', ty.annotate tags = .annotated ty' tags' := by
  cases ty <;> exact ⟨_, _, rfl⟩

theorem unite_add {ty : TyExp} (h : Inv ty) {e : TyExp} (he : NotUnion e) : TyExp.unite [ty, e] = .unionOf (add e ty.members) := by
  unfold TyExp.unite
  rw [List.flatMap_cons, List.flatMap_cons, List.flatMap_nil, members_notUnion he, List.append_nil, dedup_add h.nodup]

theorem mem_add {e m : TyExp} {l : List TyExp} : m ∈ add e l ↔ m ∈ l ∨ m = e := by
  unfold add
  split
  · rename_i h
    constructor
    · exact .inl
    · rintro (h' | rfl)
      · exact h'
      · exact h
  · simp

theorem nodup_add {e : TyExp} {l : List TyExp} (h : l.Nodup) : (add e l).Nodup := by
  unfold add
  split
  · exact h
  · rename_i he
    rw [List.nodup_append]
    refine ⟨h, by simp, ?_⟩
    intro a ha b hb hab
    rw [List.mem_singleton] at hb
    subst hb hab
    exact he ha

theorem inv_unite {ty : TyExp} (h : Inv ty) {e : TyExp} (he : NotUnion e) : (TyExp.unite [ty, e]).members = add e ty.members ∧ Inv (TyExp.unite [ty, e]) := by
  have hflat : ∀ m ∈ add e ty.members, NotUnion m := by
    intro m hm
    rcases mem_add.1 hm with hm | rfl
    · exact h.flat m hm
    · exact he
  rw [unite_add h he]
  have hm : (TyExp.unionOf (add e ty.members)).members = add e ty.members := members_unionOf hflat
  refine ⟨hm, ?_⟩
  refine { flat := ?_, nodup := ?_, self := ?_, proper := ?_ }
  · rw [hm]; exact hflat
  · rw [hm]; exact nodup_add h.nodup
  · rw [hm]
  · rw [hm]
    obtain ⟨m, hmm, hp⟩ := h.proper
    exact ⟨m, mem_add.2 (.inl hmm), hp⟩

/-- A step: an annotation, or a union with `None` or `DEFAULT`. -/
inductive Op where
  | tag (m : Tag)
  | none
  | default
deriving DecidableEq

def Op.isTag : Op → Bool
  | .tag _ => true
  | _ => false

def ops : Wrap → List Op
  | .optional => [.none]
  | .primaryKey => [.tag .primaryKey]
  | .identity => [.tag .identity, .default]
  | .unique => [.tag .unique]
  | .annotated text => [.tag (.other text)]

def Op.run (op : Op) (ty : TyExp) : TyExp :=
  match op with
  | .tag m => ty.annotate [m]
  | .none => TyExp.unite [ty, .none]
  | .default => TyExp.unite [ty, .default]

def build (core : TyExp) (l : List Op) : TyExp := l.foldr Op.run core

theorem written_build (core : TyExp) (ws : List Wrap) : written core ws = build core (ws.flatMap ops) := by
  induction ws with
  | nil => rfl
  | cons w ws ih =>
    show w.around (written core ws) = _
    rw [ih]
    unfold build
    rw [List.flatMap_cons, List.foldr_append]
    cases w <;> rfl

theorem inv_build {core : TyExp} (h : IsCore core) (l : List Op) : Inv (build core l) := by
  induction l with
  | nil => exact (clean_core h).toInv
  | cons op l ih =>
    show Inv (op.run (build core l))
    cases op with
    | tag m =>
      obtain ⟨a, b, hab⟩ := annotate_form (build core l) [m]
      show Inv ((build core l).annotate [m])
      rw [hab]
      exact (clean_annotated a b).toInv
    | none => exact (inv_unite ih (fun ms h => by cases h)).2
    | default => exact (inv_unite ih (fun ms h => by cases h)).2

/-- A type that begins with a union step is a union with `None` or `DEFAULT`. -/
theorem build_union {core : TyExp} (h : IsCore core) {l : List Op} {op : Op} (hop : op.isTag = false) :
    (∃ ms, build core (op :: l) = .union ms) ∧ (.none ∈ (build core (op :: l)).members ∨ .default ∈ (build core (op :: l)).members) := by
  have ih := inv_build h l
  have key : ∀ e : TyExp, NotUnion e → (e = .none ∨ e = .default) → (∃ ms, TyExp.unite [build core l, e] = .union ms) ∧ e ∈ (TyExp.unite [build core l, e]).members := by
    intro e he hed
    have hmem := (inv_unite ih he).1
    have hin : e ∈ add e (build core l).members := mem_add.2 (.inr rfl)
    refine ⟨?_, by rw [hmem]; exact hin⟩
    rw [unite_add ih he]
    obtain ⟨m, hm, hp⟩ := ih.proper
    have hm' : m ∈ add e (build core l).members := mem_add.2 (.inl hm)
    generalize hg : add e (build core l).members = g at hin hm'
    match g with
    | [] => simp at hin
    | [a] =>
      rw [List.mem_singleton] at hin hm'
      subst hin
      subst hm'
      rcases hed with rfl | rfl
      · exact absurd rfl hp.1
      · exact absurd rfl hp.2
    | a :: b :: rest => exact ⟨_, rfl⟩
  cases op with
  | tag m => cases hop
  | none => exact ⟨(key .none (fun ms h => by cases h) (.inl rfl)).1, .inl (key .none (fun ms h => by cases h) (.inl rfl)).2⟩
  | default => exact ⟨(key .default (fun ms h => by cases h) (.inr rfl)).1, .inr (key .default (fun ms h => by cases h) (.inr rfl)).2⟩

/-- The tags of a group of annotations, in the order in which Python lists them. -/
def Op.tag? : Op → Option Tag
  | .tag m => some m
  | _ => Option.none
def tagsOf (l : List Op) : List Tag := (l.filterMap Op.tag?).reverse

/-- Annotations around a type that is not annotated. -/
theorem build_tags {core : TyExp} {a r : List Op} (ha : ∀ op ∈ a, op.isTag = true) (hr : ∀ x y, build core r ≠ .annotated x y) :
    build core (a ++ r) = if a = [] then build core r else .annotated (build core r) (tagsOf a) := by
  induction a with
  | nil => rfl
  | cons op a ih =>
    have ih := ih (fun x hx => ha x (List.mem_cons_of_mem _ hx))
    have hop := ha op (by simp)
    cases op with
    | none => cases hop
    | default => cases hop
    | tag m =>
      show TyExp.annotate (build core (a ++ r)) [m] = _
      rw [ih]
      cases a with
      | nil =>
        rw [if_pos rfl, if_neg (by simp)]
        generalize build core r = b at hr ⊢
        cases b with
        | annotated x y => exact absurd rfl (hr x y)
        | _ => rfl
      | cons b a =>
        rw [if_neg (by simp), if_neg (by simp)]
        show TyExp.annotated _ _ = _
        congr 1
        unfold tagsOf
        rw [List.filterMap_cons (a := Op.tag m), show Op.tag? (Op.tag m) = some m from rfl]
        simp only [List.reverse_cons]

/-- Unions with `None` and `DEFAULT` around a type. -/
theorem build_unions {core : TyExp} (h : IsCore core) {u r : List Op} (hu : ∀ op ∈ u, op.isTag = false) (hr : Clean (build core r)) :
    ∃ es : List TyExp, es.Nodup ∧ (∀ e ∈ es, e = .none ∨ e = .default) ∧ (.none ∈ es ↔ .none ∈ u) ∧ (.default ∈ es ↔ .default ∈ u) ∧
      build core (u ++ r) = .unionOf ((build core r).members ++ es) ∧ (build core (u ++ r)).members = (build core r).members ++ es := by
  induction u with
  | nil => exact ⟨[], by simp, by simp, by simp, by simp, by rw [List.append_nil]; exact hr.self.symm, by simp⟩
  | cons op u ih =>
    obtain ⟨es, hn, hes, hnone, hdef, heq, hmem⟩ := ih (fun x hx => hu x (List.mem_cons_of_mem _ hx))
    have hop := hu op (by simp)
    have hinv := inv_build h (u ++ r)
    have key : ∀ e : TyExp, NotUnion e → (e = .none ∨ e = .default) →
        TyExp.unite [build core (u ++ r), e] = .unionOf ((build core r).members ++ add e es) ∧
        (TyExp.unite [build core (u ++ r), e]).members = (build core r).members ++ add e es := by
      intro e he hed
      have hadd : add e (build core (u ++ r)).members = (build core r).members ++ add e es := by
        rw [hmem]
        have hne : e ∉ (build core r).members := by
          rcases hed with rfl | rfl
          · exact hr.none
          · exact hr.default
        unfold add
        by_cases hin : e ∈ es
        · rw [if_pos (List.mem_append.2 (.inr hin)), if_pos hin]
        · rw [if_neg (fun h => (List.mem_append.1 h).elim hne hin), if_neg hin, List.append_assoc]
      rw [(inv_unite hinv he).1, unite_add hinv he, hadd]
      exact ⟨rfl, rfl⟩
    cases op with
    | tag m => cases hop
    | none =>
      obtain ⟨k1, k2⟩ := key .none (fun ms h => by cases h) (.inl rfl)
      refine ⟨add .none es, nodup_add hn, ?_, ?_, ?_, k1, k2⟩
      · intro e he
        rcases mem_add.1 he with he | rfl
        · exact hes e he
        · exact .inl rfl
      · exact ⟨fun _ => by simp, fun _ => mem_add.2 (.inr rfl)⟩
      · rw [mem_add, hdef]
        simp
    | default =>
      obtain ⟨k1, k2⟩ := key .default (fun ms h => by cases h) (.inr rfl)
      refine ⟨add .default es, nodup_add hn, ?_, ?_, ?_, k1, k2⟩
      · intro e he
        rcases mem_add.1 he with he | rfl
        · exact hes e he
        · exact .inr rfl
      · rw [mem_add, hnone]
        simp
      · exact ⟨fun _ => by simp, fun _ => mem_add.2 (.inr rfl)⟩

theorem unionOf_long {l : List TyExp} (h : 2 ≤ l.length) : TyExp.unionOf l = .union (.ofList l) := by
  match l, h with
  | _ :: _ :: _, _ => rfl

theorem unite_flat {l : List TyExp} (hf : ∀ m ∈ l, NotUnion m) (hn : l.Nodup) : TyExp.unite l = .unionOf l := by
  unfold TyExp.unite
  rw [flat_flatMap hf, dedup_nodup hn]

theorem isUnion_long {l : List TyExp} (h : 2 ≤ l.length) : (TyExp.unionOf l).isUnion = (decide (l.length > 2) || !l.contains .none) := by
  rw [unionOf_long h]
  show (decide ((TyExps.ofList l).toList.length > 2) || !(TyExps.ofList l).toList.contains .none) = _
  rw [toList_ofList]

theorem isOptional_long {l : List TyExp} (h : 2 ≤ l.length) : (TyExp.unionOf l).isOptional = l.contains .none := by
  rw [unionOf_long h]
  show (TyExps.ofList l).toList.contains .none = _
  rw [toList_ofList]

theorem isOptional_clean {y : TyExp} (h : Clean y) : y.isOptional = false := by
  cases y with
  | union ms =>
    have := h.none
    show ms.toList.contains .none = false
    rw [List.contains_eq_mem, decide_eq_false_iff_not]
    exact this
  | _ => rfl

theorem withoutDefault_clean {y : TyExp} (h : .default ∉ y.members) : y.withoutDefault = y := by
  unfold TyExp.withoutDefault
  rw [if_neg]
  simp [h]

/-- `None` and `DEFAULT` are taken out. -/
theorem stripped {y : TyExp} (h : Clean y) {es : List TyExp} (hn : es.Nodup) (hes : ∀ e ∈ es, e = .none ∨ e = .default) :
    (TyExp.unionOf (y.members ++ es)).withoutDefault.withoutNone = y ∧
    ((TyExp.unionOf (y.members ++ es)).withoutDefault.isOptional = true ↔ .none ∈ es) := by
  obtain ⟨m, hm, hmp⟩ := h.proper
  have hpos : 0 < y.members.length := List.length_pos_of_mem hm
  have hflat : ∀ x ∈ y.members ++ es, NotUnion x := by
    intro x hx
    rcases List.mem_append.1 hx with hx | hx
    · exact h.flat x hx
    · rcases hes x hx with rfl | rfl <;> exact fun ms h => by cases h
  have hnd : (y.members ++ es).Nodup := by
    rw [List.nodup_append]
    refine ⟨h.nodup, hn, ?_⟩
    intro a ha b hb hab
    subst hab
    rcases hes a hb with rfl | rfl
    · exact h.none ha
    · exact h.default ha
  have hmem := members_unionOf hflat
  -- `DEFAULT`
  have hsub : ∀ x ∈ y.members ++ es.erase .default, x ∈ y.members ++ es := by
    intro x hx
    rcases List.mem_append.1 hx with hx | hx
    · exact List.mem_append.2 (.inl hx)
    · exact List.mem_append.2 (.inr (List.mem_of_mem_erase hx))
  have herase : (y.members ++ es).erase .default = y.members ++ es.erase .default := List.erase_append_right _ h.default
  have hflat' : ∀ x ∈ y.members ++ es.erase .default, NotUnion x := fun x hx => hflat x (hsub x hx)
  have hnd' : (y.members ++ es.erase .default).Nodup := by rw [← herase]; exact hnd.erase _
  have hdef : (TyExp.unionOf (y.members ++ es)).withoutDefault = .unionOf (y.members ++ es.erase .default) := by
    by_cases hin : TyExp.default ∈ es
    · unfold TyExp.withoutDefault
      have hlen : 2 ≤ (y.members ++ es).length := by
        have := List.length_pos_of_mem hin
        rw [List.length_append]; omega
      rw [isUnion_long hlen, hmem, if_pos, herase, unite_flat hflat' hnd']
      rw [Bool.and_eq_true]
      refine ⟨?_, by simp [hin]⟩
      by_cases hnone : TyExp.none ∈ es
      · have h2 : 2 ≤ es.length := by
          match es, hin, hnone with
          | [a], h1, h2 =>
            rw [List.mem_singleton] at h1 h2
            subst h1
            cases h2
          | _ :: _ :: _, _, _ => simp
        simp only [Bool.or_eq_true, decide_eq_true_eq]
        left
        rw [List.length_append]; omega
      · simp only [Bool.or_eq_true, Bool.not_eq_true', List.contains_eq_mem, decide_eq_false_iff_not]
        right
        intro hc
        rcases List.mem_append.1 hc with hc | hc
        · exact h.none hc
        · exact hnone hc
    · rw [List.erase_of_not_mem hin, withoutDefault_clean]
      rw [hmem]
      intro hc
      rcases List.mem_append.1 hc with hc | hc
      · exact h.default hc
      · exact hin hc
  rw [hdef]
  have hnone' : TyExp.none ∈ es ↔ TyExp.none ∈ es.erase .default := (List.mem_erase_of_ne (by intro hc; cases hc)).symm
  have hes' : ∀ e ∈ es.erase .default, e = .none := by
    intro e he
    rcases hes e (List.mem_of_mem_erase he) with rfl | rfl
    · rfl
    · exact absurd he (fun hc => (List.Nodup.mem_erase_iff hn).1 hc |>.1 rfl)
  rw [hnone']
  clear hnone'
  generalize es.erase .default = fs at hflat' hnd' hes'
  have hmem' := members_unionOf hflat'
  by_cases hin : TyExp.none ∈ fs
  · have hlen : 2 ≤ (y.members ++ fs).length := by
      have := List.length_pos_of_mem hin
      rw [List.length_append]; omega
    have hopt : (TyExp.unionOf (y.members ++ fs)).isOptional = true := by
      rw [isOptional_long hlen]
      simp [hin]
    refine ⟨?_, by rw [hopt]; simp [hin]⟩
    unfold TyExp.withoutNone
    rw [if_pos hopt, hmem', List.filter_append]
    rw [List.filter_eq_self.2 (fun x hx => by
      simp only [decide_eq_true_eq]
      rintro rfl
      exact h.none hx), List.filter_eq_nil_iff.2 (fun x hx => by simp [hes' x hx]), List.append_nil, unite_flat h.flat h.nodup, h.self]
  · have : fs = [] := by
      cases fs with
      | nil => rfl
      | cons a fs => exact absurd (hes' a (by simp) ▸ List.mem_cons_self) hin
    subst this
    rw [List.append_nil, h.self]
    refine ⟨?_, by rw [isOptional_clean h]; simp⟩
    unfold TyExp.withoutNone
    rw [isOptional_clean h]
    rfl

/-- An annotated type in unions in annotations: what is found. -/
structure Parts (l a1 u a2 r : List Op) : Prop where
  eq : l = a1 ++ (u ++ (a2 ++ r))
  outer : ∀ op ∈ a1, op.isTag = true
  middle : ∀ op ∈ u, op.isTag = false
  inner : ∀ op ∈ a2, op.isTag = true
  none : u = [] → a2 = [] ∧ r = []
  flat : a2 = [] → r = []
  rest : r = [] ∨ ∃ op r', r = op :: r' ∧ op.isTag = false

theorem parts (l : List Op) : ∃ a1 u a2 r, Parts l a1 u a2 r := by
  induction l with
  | nil => exact ⟨[], [], [], [], by simp, by simp, by simp, by simp, by simp, by simp, .inl rfl⟩
  | cons op l ih =>
    obtain ⟨a1, u, a2, r, h⟩ := ih
    by_cases hop : op.isTag = true
    · refine ⟨op :: a1, u, a2, r, by rw [h.eq]; rfl, ?_, h.middle, h.inner, h.none, h.flat, h.rest⟩
      intro x hx
      rcases List.mem_cons.1 hx with rfl | hx
      · exact hop
      · exact h.outer x hx
    · have hop' : op.isTag = false := by simpa using hop
      cases a1 with
      | nil =>
        refine ⟨[], op :: u, a2, r, by rw [h.eq]; rfl, by simp, ?_, h.inner, by simp, h.flat, h.rest⟩
        intro x hx
        rcases List.mem_cons.1 hx with rfl | hx
        · exact hop'
        · exact h.middle x hx
      | cons b a1 =>
        refine ⟨[], [op], b :: a1, u ++ (a2 ++ r), by rw [h.eq]; rfl, by simp, by simp [hop'], h.outer, by simp, by simp, ?_⟩
        cases u with
        | nil =>
          obtain ⟨rfl, rfl⟩ := h.none rfl
          exact .inl rfl
        | cons c u => exact .inr ⟨c, u ++ (a2 ++ r), rfl, h.middle c (by simp)⟩

theorem core_plain {core : TyExp} (h : IsCore core) : (∀ x y, core ≠ .annotated x y) ∧ .none ∉ core.members ∧ .default ∉ core.members := by
  refine ⟨?_, (clean_core h).none, (clean_core h).default⟩
  rcases h with ⟨b, rfl⟩ | ⟨bs, -, -, rfl⟩ <;> intro x y hc <;> cases hc

theorem unwrap_plain {ty : TyExp} (h : ∀ x y, ty ≠ .annotated x y) : ty.unwrap = ty ∧ ty.tags = [] := by
  cases ty with
  | annotated x y => exact absurd rfl (h x y)
  | _ => exact ⟨rfl, rfl⟩

/-- What `get_field_properties` finds. -/
theorem found {core : TyExp} (h : IsCore core) {l a1 u a2 r : List Op} (hp : Parts l a1 u a2 r) :
    (fieldProps (build core l)).plain = build core r ∧ ((fieldProps (build core l)).nullable = true ↔ .none ∈ u) ∧
    (build core l).tags = tagsOf a1 ∧
    (build core l).tags ++ (build core l).unwrap.withoutDefault.withoutNone.tags = tagsOf a1 ++ tagsOf a2 := by
  have hr : ∀ x y, build core r ≠ .annotated x y := by
    rcases hp.rest with rfl | ⟨op, r', rfl, hop⟩
    · exact (core_plain h).1
    · intro x y hc
      obtain ⟨ms, hms⟩ := (build_union h (l := r') hop).1
      rw [hms] at hc
      cases hc
  have hy : build core (a2 ++ r) = if a2 = [] then build core r else .annotated (build core r) (tagsOf a2) := build_tags hp.inner hr
  have hyun : (build core (a2 ++ r)).unwrap = build core r ∧ (build core (a2 ++ r)).tags = tagsOf a2 := by
    rw [hy]
    by_cases ha : a2 = []
    · subst ha
      rw [if_pos rfl]
      exact ⟨(unwrap_plain hr).1, (unwrap_plain hr).2⟩
    · rw [if_neg ha]
      exact ⟨rfl, rfl⟩
  have hclean : Clean (build core (a2 ++ r)) := by
    by_cases ha : a2 = []
    · have := hp.flat ha
      subst ha this
      exact clean_core h
    · rw [hy, if_neg ha]
      exact clean_annotated _ _
  obtain ⟨es, hn, hes, hnone, -, heq, -⟩ := build_unions h hp.middle hclean
  obtain ⟨s1, s2⟩ := stripped hclean hn hes
  rw [← heq] at s1 s2
  have hz : ∀ x y, build core (u ++ (a2 ++ r)) ≠ .annotated x y := by
    cases u with
    | nil =>
      obtain ⟨rfl, rfl⟩ := hp.none rfl
      exact (core_plain h).1
    | cons c u =>
      intro x y hc
      obtain ⟨ms, hms⟩ := (build_union h (l := u ++ (a2 ++ r)) (hp.middle c (by simp))).1
      rw [List.cons_append, hms] at hc
      cases hc
  have hl : build core l = if a1 = [] then build core (u ++ (a2 ++ r)) else .annotated (build core (u ++ (a2 ++ r))) (tagsOf a1) := by
    rw [hp.eq]
    exact build_tags hp.outer hz
  have hlun : (build core l).unwrap = build core (u ++ (a2 ++ r)) ∧ (build core l).tags = tagsOf a1 := by
    rw [hl]
    by_cases ha : a1 = []
    · subst ha
      rw [if_pos rfl]
      exact ⟨(unwrap_plain hz).1, (unwrap_plain hz).2⟩
    · rw [if_neg ha]
      exact ⟨rfl, rfl⟩
  refine ⟨?_, ?_, hlun.2, ?_⟩
  · show (build core l).unwrap.withoutDefault.withoutNone.unwrap = _
    rw [hlun.1, s1, hyun.1]
  · show (build core l).unwrap.withoutDefault.isOptional = true ↔ _
    rw [hlun.1, s2, hnone]
  · rw [hlun.2, hlun.1, s1, hyun.2]

end PySqlSync.Fld
