/-
  C67: the types with which columns of a file with tab-separated values are read.
-/
import Verif.Spec.TsvTypes

set_option autoImplicit false

namespace PySqlSync
open Spec
namespace Tsv

theorem leaf {ty : PyType} (h : alternatives ty = [ty]) (k : TsvType) : ty.tsv = .ok k ↔ StoredAs ty k := by
  have prim : ∀ p : Prim, p.tsv = .ok k ↔ StoredAs (.prim p) k := by
    intro p
    constructor
    · intro h
      cases p <;> simp only [Prim.tsv] at h <;> first | (injection h with h; subst h; constructor <;> decide) | (injection h with h; subst h; constructor) | cases h
    · intro h
      cases h with
      | int hp => cases p <;> first | rfl | exact absurd hp (by decide)
      | float hp => cases p <;> first | rfl | exact absurd hp (by decide)
      | _ => rfl
  cases ty with
  | prim p => unfold PyType.tsv; exact prim p
  | annotated p ms =>
    unfold PyType.tsv
    rw [prim p]
    exact ⟨.annotated ms, fun h => by cases h; assumption⟩
  | enum n => unfold PyType.tsv; exact ⟨fun h => by injection h with h; subst h; exact .enum n, fun h => by cases h; rfl⟩
  | cls n => unfold PyType.tsv; exact ⟨fun h => by injection h with h; subst h; exact .cls n, fun h => by cases h; rfl⟩
  | list i => unfold PyType.tsv; exact ⟨fun h => by injection h with h; subst h; exact .list i, fun h => by cases h; rfl⟩
  | set i => unfold PyType.tsv; exact ⟨fun h => by injection h with h; subst h; exact .set i, fun h => by cases h; rfl⟩
  | literal vs =>
    unfold PyType.tsv
    cases vs with
    | nil => exact ⟨fun h => by simp at h, fun h => by cases h⟩
    | cons v vs => exact ⟨fun h => by rw [if_neg (by simp)] at h; injection h with h; subst h; exact .literal v vs, fun h => by cases h; rw [if_neg (by simp)]⟩
  | other n =>
    unfold PyType.tsv
    constructor
    · intro h
      split at h
      · rename_i e; injection h with h; subst h e; exact .bytes
      · cases h
    · intro h
      cases h
      exact if_pos rfl
  | union ms =>
    exfalso
    have h : ms.toList = [PyType.union ms] := h
    cases ms with
    | nil => cases h
    | cons ty rest =>
      injection h with h1 h2
      have := congrArg sizeOf h1
      simp at this
      omega

theorem list_ok : ∀ (ms : PyTypes) (ks : List TsvType), ms.tsv = .ok ks → (∀ m ∈ ms.toList, ∃ k ∈ ks, m.tsv = .ok k) ∧ (∀ k ∈ ks, ∃ m ∈ ms.toList, m.tsv = .ok k)
  | .nil, ks, h => by
    unfold PyTypes.tsv at h
    injection h with h; subst h
    exact ⟨fun m h => (by cases h), fun m h => (by cases h)⟩
  | .cons ty rest, ks, h => by
    unfold PyTypes.tsv at h
    cases h1 : ty.tsv with
    | error e => rw [h1] at h; cases h
    | ok k =>
      cases h2 : rest.tsv with
      | error e => rw [h1, h2] at h; cases h
      | ok ks' =>
        rw [h1, h2] at h
        injection h with h
        subst h
        obtain ⟨a, b⟩ := list_ok rest ks' h2
        unfold PyTypes.toList
        constructor
        · intro m hm
          rcases List.mem_cons.1 hm with rfl | hm
          · exact ⟨k, by simp, h1⟩
          · obtain ⟨x, hx, e⟩ := a m hm
            exact ⟨x, List.mem_cons_of_mem _ hx, e⟩
        · intro x hx
          rcases List.mem_cons.1 hx with rfl | hx
          · exact ⟨ty, by simp, h1⟩
          · obtain ⟨m, hm, e⟩ := b x hx
            exact ⟨m, List.mem_cons_of_mem _ hm, e⟩

theorem list_total : ∀ (ms : PyTypes), (∀ m ∈ ms.toList, ∃ k, m.tsv = .ok k) → ∃ ks, ms.tsv = .ok ks
  | .nil, _ => ⟨[], by unfold PyTypes.tsv; rfl⟩
  | .cons ty rest, h => by
    obtain ⟨k, h1⟩ := h ty (by unfold PyTypes.toList; simp)
    obtain ⟨ks, h2⟩ := list_total rest (fun m hm => h m (by unfold PyTypes.toList; exact List.mem_cons_of_mem _ hm))
    exact ⟨k :: ks, by unfold PyTypes.tsv; rw [h1, h2]; rfl⟩

theorem dedup_mem {α : Type} [DecidableEq α] (l : List α) (a : α) : a ∈ dedupTypes l ↔ a ∈ l := by
  induction l with
  | nil => exact Iff.rfl
  | cons b l ih =>
    unfold dedupTypes
    by_cases e : a = b
    · simp [e]
    · simp [e, ih]

theorem dedup_nodup {α : Type} [DecidableEq α] (l : List α) : (dedupTypes l).Nodup := by
  induction l with
  | nil => exact List.nodup_nil
  | cons b l ih =>
    unfold dedupTypes
    refine List.nodup_cons.2 ⟨?_, ih.filter _⟩
    simp

/-- The types of the members of a union agree, or they are both kinds of addresses. -/
theorem union_ok (ks : List TsvType) (k : TsvType) :
    tsvUnion ks = .ok k ↔ (ks ≠ [] ∧ ∀ x ∈ ks, x = k) ∨ (k = .ip ∧ TsvType.ipv4 ∈ ks ∧ TsvType.ipv6 ∈ ks ∧ ∀ x ∈ ks, x = .ipv4 ∨ x = .ipv6) := by
  have hm := dedup_mem ks
  have hn := dedup_nodup ks
  unfold tsvUnion
  generalize dedupTypes ks = d at hm hn
  constructor
  · intro h
    match d, h with
    | [x], h =>
      injection h with h; subst h
      exact .inl ⟨fun e => by rw [e] at hm; exact absurd ((hm x).1 (by simp)) (by simp), fun y hy => by simpa using (hm y).2 hy⟩
    | [a, b], h =>
      dsimp only at h
      split at h
      · rename_i hc
        injection h with h
        refine .inr ⟨h.symm, ?_, ?_, ?_⟩
        · rcases hc with ⟨e, _⟩ | ⟨_, e⟩ <;> exact (hm _).1 (by simp [e])
        · rcases hc with ⟨_, e⟩ | ⟨e, _⟩ <;> exact (hm _).1 (by simp [e])
        · intro x hx
          have := (hm x).2 hx
          simp only [List.mem_cons, List.not_mem_nil, or_false] at this
          rcases hc with ⟨e1, e2⟩ | ⟨e1, e2⟩ <;> subst e1 e2
          · exact this
          · exact this.symm
      · cases h
    | [], h => cases h
    | _ :: _ :: _ :: _, h => cases h
  · rintro (⟨h1, h2⟩ | ⟨rfl, h4, h6, hall⟩)
    · have : d = [k] := by
        cases ks with
        | nil => exact absurd rfl h1
        | cons x ks =>
          have hk : k ∈ d := (hm k).2 (by rw [h2 x (by simp)]; simp)
          match d, hk, hn with
          | [a], hk, _ => rw [List.mem_singleton.1 hk]
          | a :: b :: r, _, hn =>
            have ha := h2 a ((hm a).1 (by simp))
            have hb := h2 b ((hm b).1 (by simp))
            rw [ha, hb] at hn
            simp at hn
      rw [this]
    · have a4 := (hm _).2 h4
      have a6 := (hm _).2 h6
      have hd : ∀ x ∈ d, x = .ipv4 ∨ x = .ipv6 := fun x hx => hall x ((hm x).1 hx)
      match d, a4, a6, hd, hn with
      | [], a4, _, _, _ => cases a4
      | [a], a4, a6, _, _ =>
        simp only [List.mem_singleton] at a4 a6
        rw [← a4] at a6; cases a6
      | [a, b], a4, a6, hd, hn =>
        have ha := hd a (by simp)
        have hb := hd b (by simp)
        dsimp only
        rcases ha with rfl | rfl <;> rcases hb with rfl | rfl
        · simp at hn
        · rfl
        · rfl
        · simp at hn
      | a :: b :: c :: r, _, _, hd, hn =>
        exfalso
        have ha := hd a (by simp)
        have hb := hd b (by simp)
        have hc := hd c (by simp)
        rcases ha with rfl | rfl <;> rcases hb with rfl | rfl <;> rcases hc with rfl | rfl <;> simp at hn

theorem stored_ip {ty : PyType} (h : StoredAs ty .ip) : False := by
  generalize hk : TsvType.ip = k at h
  induction h with
  | annotated _ _ ih => exact ih hk
  | _ => cases hk

theorem stored_unique {ty : PyType} {k k' : TsvType} (hl : alternatives ty = [ty]) (h : StoredAs ty k) (h' : StoredAs ty k') : k = k' := by
  have a := (leaf hl k).2 h
  rw [(leaf hl k').2 h'] at a
  injection a with a
  exact a.symm

theorem exact_union (ms : PyTypes) (hf : ∀ m ∈ ms.toList, alternatives m = [m]) (k : TsvType) : PyType.tsv (.union ms) = .ok k ↔ ReadAs (.union ms) k := by
  have unf : PyType.tsv (.union ms) = (ms.tsv >>= tsvUnion) := by unfold PyType.tsv; rfl
  rw [unf]
  constructor
  · intro h
    cases hk : ms.tsv with
    | error e => rw [hk] at h; cases h
    | ok ks =>
      rw [hk] at h
      obtain ⟨a, b⟩ := list_ok ms ks hk
      rcases (union_ok ks k).1 h with ⟨h1, h2⟩ | ⟨rfl, h4, h6, hall⟩
      · have hall : ∀ m ∈ ms.toList, StoredAs m k := by
          intro m hm
          obtain ⟨x, hx, e⟩ := a m hm
          rw [h2 x hx] at e
          exact (leaf (hf m hm) k).1 e
        obtain ⟨x, hx⟩ := List.exists_mem_of_ne_nil ks h1
        obtain ⟨m0, hm0, _⟩ := b x hx
        refine ⟨List.ne_nil_of_mem hm0, fun m hm => .inl (hall m hm), ?_⟩
        rintro rfl
        exact (stored_ip (hall m0 hm0)).elim
      · obtain ⟨m4, hm4, e4⟩ := b _ h4
        obtain ⟨m6, hm6, e6⟩ := b _ h6
        refine ⟨List.ne_nil_of_mem hm4, ?_, fun _ => ⟨⟨m4, hm4, (leaf (hf m4 hm4) _).1 e4⟩, ⟨m6, hm6, (leaf (hf m6 hm6) _).1 e6⟩⟩⟩
        intro m hm
        obtain ⟨x, hx, e⟩ := a m hm
        have := (leaf (hf m hm) x).1 e
        rcases hall x hx with rfl | rfl
        · exact .inr ⟨rfl, .inl this⟩
        · exact .inr ⟨rfl, .inr this⟩
  · rintro ⟨h1, h2, h3⟩
    have tot : ∀ m ∈ ms.toList, ∃ k, m.tsv = .ok k := by
      intro m hm
      rcases h2 m hm with h | ⟨_, h | h⟩
      · exact ⟨_, (leaf (hf m hm) _).2 h⟩
      · exact ⟨_, (leaf (hf m hm) _).2 h⟩
      · exact ⟨_, (leaf (hf m hm) _).2 h⟩
    obtain ⟨ks, hk⟩ := list_total ms tot
    obtain ⟨a, b⟩ := list_ok ms ks hk
    rw [hk]
    refine (union_ok ks k).2 ?_
    by_cases hip : k = .ip
    · subst hip
      obtain ⟨⟨m4, hm4, s4⟩, ⟨m6, hm6, s6⟩⟩ := h3 rfl
      have get : ∀ {m : PyType} {x : TsvType}, m ∈ ms.toList → StoredAs m x → x ∈ ks := by
        intro m x hm hs
        obtain ⟨y, hy, e⟩ := a m hm
        rw [stored_unique (hf m hm) hs ((leaf (hf m hm) y).1 e)]
        exact hy
      refine .inr ⟨rfl, get hm4 s4, get hm6 s6, fun x hx => ?_⟩
      obtain ⟨m, hm, e⟩ := b x hx
      have sx := (leaf (hf m hm) x).1 e
      rcases h2 m hm with h | ⟨_, h | h⟩
      · exact (stored_ip h).elim
      · exact .inl (stored_unique (hf m hm) sx h)
      · exact .inr (stored_unique (hf m hm) sx h)
    · refine .inl ⟨?_, fun x hx => ?_⟩
      · obtain ⟨m, hm⟩ := List.exists_mem_of_ne_nil _ h1
        obtain ⟨x, hx, _⟩ := a m hm
        exact List.ne_nil_of_mem hx
      · obtain ⟨m, hm, e⟩ := b x hx
        have sx := (leaf (hf m hm) x).1 e
        rcases h2 m hm with h | ⟨h, _⟩
        · exact stored_unique (hf m hm) sx h
        · exact absurd h hip

end Tsv

/-- **C67.** A type is accepted for a column exactly if its values are all stored alike (or are IP addresses of both kinds), and columns are read with that type. -/
theorem C67_exact (ty : PyType) (h : FlatUnion ty) (k : TsvType) : ty.tsv = .ok k ↔ ReadAs ty k := by
  have single : alternatives ty = [ty] → (ty.tsv = .ok k ↔ ReadAs ty k) := by
    intro ha
    rw [Tsv.leaf ha]
    constructor
    · intro hs
      refine ⟨by rw [ha]; simp, fun m hm => ?_, ?_⟩
      · rw [ha, List.mem_singleton] at hm; subst hm; exact .inl hs
      · rintro rfl; exact (Tsv.stored_ip hs).elim
    · rintro ⟨_, h2, h3⟩
      rw [ha] at h2 h3
      rcases h2 ty (by simp) with hs | ⟨hk, _⟩
      · exact hs
      · obtain ⟨⟨m4, hm4, s4⟩, ⟨m6, hm6, s6⟩⟩ := h3 hk
        rw [List.mem_singleton] at hm4 hm6
        subst hm4 hm6
        cases Tsv.stored_unique ha s4 s6
  cases ty with
  | union ms => exact Tsv.exact_union ms h k
  | prim p => exact single rfl
  | annotated p ms => exact single rfl
  | enum n => exact single rfl
  | cls n => exact single rfl
  | list i => exact single rfl
  | set i => exact single rfl
  | literal vs => exact single rfl
  | other n => exact single rfl

/-- **C67.** The order of the members of a union makes no difference. -/
theorem C67_order (ms ms' : PyTypes) (h : FlatUnion (.union ms)) (hp : ∀ m, m ∈ ms.toList ↔ m ∈ ms'.toList) (k : TsvType) :
    PyType.tsv (.union ms) = .ok k ↔ PyType.tsv (.union ms') = .ok k := by
  rw [C67_exact _ h, C67_exact (.union ms') (fun m hm => h m ((hp m).2 hm))]
  have key : ∀ {a b : PyTypes}, (∀ m, m ∈ a.toList ↔ m ∈ b.toList) → ReadAs (.union a) k → ReadAs (.union b) k := by
    rintro a b hab ⟨h1, h2, h3⟩
    obtain ⟨m0, hm0⟩ := List.exists_mem_of_ne_nil _ h1
    refine ⟨List.ne_nil_of_mem ((hab m0).1 hm0), fun m hm => h2 m ((hab m).2 hm), fun hk => ?_⟩
    obtain ⟨⟨m4, hm4, s4⟩, ⟨m6, hm6, s6⟩⟩ := h3 hk
    exact ⟨⟨m4, (hab m4).1 hm4, s4⟩, ⟨m6, (hab m6).1 hm6, s6⟩⟩
  exact ⟨key hp, key (fun m => (hp m).symm)⟩

namespace Tsv

theorem put_keys {α : Type} (d : List (Text × α)) (k : Text) (v : α) (x : Text) : x ∈ (dictPut d k v).map Prod.fst ↔ x ∈ d.map Prod.fst ∨ x = k := by
  unfold dictPut
  split
  · rename_i h
    have hk : k ∈ d.map Prod.fst := List.contains_iff_mem.1 h
    have e : (d.map (fun p => if p.1 = k then (k, v) else p)).map Prod.fst = d.map Prod.fst := by
      rw [List.map_map]
      refine List.map_congr_left (fun p _ => ?_)
      show (if p.1 = k then (k, v) else p).1 = p.1
      split
      · rename_i h; exact h.symm
      · rfl
    rw [e]
    exact ⟨.inl, fun h => h.elim id (fun e => e ▸ hk)⟩
  · simp

theorem put_new {α : Type} {d : List (Text × α)} {k : Text} (h : k ∉ d.map Prod.fst) (v : α) : dictPut d k v = d ++ [(k, v)] := by
  unfold dictPut
  rw [if_neg (fun e => h (List.contains_iff_mem.1 e))]

/-- One field. -/
abbrev stepFn (defs : PyDefs) (m : List (Text × Text)) (d : List (Text × TsvType)) (f : FieldDecl) : Except Err (List (Text × TsvType)) :=
  match m.lookup f.name with
  | none => .error .key
  | some col => do return dictPut d col (← (defs.referenceToKey f.ty).tsv)

theorem step_ok {defs : PyDefs} {m : List (Text × Text)} {d d' : List (Text × TsvType)} {f : FieldDecl} :
    stepFn defs m d f = .ok d' ↔ ∃ col k, m.lookup f.name = some col ∧ (defs.referenceToKey f.ty).tsv = .ok k ∧ d' = dictPut d col k := by
  unfold stepFn
  constructor
  · intro h
    cases h1 : m.lookup f.name with
    | none => rw [h1] at h; cases h
    | some col =>
      cases h2 : (defs.referenceToKey f.ty).tsv with
      | error e => rw [h1, h2] at h; cases h
      | ok k =>
        rw [h1, h2] at h
        injection h with h
        exact ⟨col, k, rfl, rfl, h.symm⟩
  · rintro ⟨col, k, h1, h2, rfl⟩
    rw [h1, h2]; rfl

theorem fold_cons {defs : PyDefs} {m : List (Text × Text)} {f : FieldDecl} {fs : List FieldDecl} {d0 d : List (Text × TsvType)} :
    (f :: fs).foldlM (stepFn defs m) d0 = .ok d ↔ ∃ d1, stepFn defs m d0 f = .ok d1 ∧ fs.foldlM (stepFn defs m) d1 = .ok d := by
  rw [List.foldlM_cons]
  cases h : stepFn defs m d0 f with
  | error e => exact ⟨(fun h => by cases h), (fun ⟨_, h, _⟩ => by cases h)⟩
  | ok d1 => exact ⟨fun h => ⟨d1, rfl, h⟩, fun ⟨d2, h1, h2⟩ => by injection h1 with h1; subst h1; exact h2⟩

theorem fold_total {defs : PyDefs} {m : List (Text × Text)} (fs : List FieldDecl) (d0 : List (Text × TsvType)) :
    (∃ d, fs.foldlM (stepFn defs m) d0 = .ok d) ↔ ∀ f ∈ fs, (∃ col, m.lookup f.name = some col) ∧ ∃ k, (defs.referenceToKey f.ty).tsv = .ok k := by
  induction fs generalizing d0 with
  | nil => exact ⟨(fun _ f h => by cases h), (fun _ => ⟨d0, rfl⟩)⟩
  | cons f fs ih =>
    constructor
    · rintro ⟨d, h⟩
      obtain ⟨d1, h1, h2⟩ := fold_cons.1 h
      obtain ⟨col, k, a, b, _⟩ := step_ok.1 h1
      exact List.forall_mem_cons.2 ⟨⟨⟨col, a⟩, ⟨k, b⟩⟩, (ih d1).1 ⟨d, h2⟩⟩
    · intro h
      obtain ⟨⟨⟨col, a⟩, ⟨k, b⟩⟩, hr⟩ := List.forall_mem_cons.1 h
      obtain ⟨d, hd⟩ := (ih (dictPut d0 col k)).2 hr
      exact ⟨d, fold_cons.2 ⟨_, step_ok.2 ⟨col, k, a, b, rfl⟩, hd⟩⟩

theorem fold_keys {defs : PyDefs} {m : List (Text × Text)} (fs : List FieldDecl) (d0 d : List (Text × TsvType)) (h : fs.foldlM (stepFn defs m) d0 = .ok d) (x : Text) :
    x ∈ d.map Prod.fst ↔ x ∈ d0.map Prod.fst ∨ ∃ f ∈ fs, m.lookup f.name = some x := by
  induction fs generalizing d0 with
  | nil => injection h with h; subst h; simp
  | cons f fs ih =>
    obtain ⟨d1, h1, h2⟩ := fold_cons.1 h
    obtain ⟨col, k, a, b, rfl⟩ := step_ok.1 h1
    rw [ih _ h2, put_keys]
    constructor
    · rintro ((h | rfl) | ⟨g, hg, e⟩)
      · exact .inl h
      · exact .inr ⟨f, by simp, a⟩
      · exact .inr ⟨g, List.mem_cons_of_mem _ hg, e⟩
    · rintro (h | ⟨g, hg, e⟩)
      · exact .inl (.inl h)
      · rcases List.mem_cons.1 hg with rfl | hg
        · rw [a] at e; injection e with e; exact .inl (.inr e.symm)
        · exact .inr ⟨g, hg, e⟩

theorem fold_list {defs : PyDefs} {m : List (Text × Text)} (col : FieldDecl → Text) (fs : List FieldDecl) (hc : ∀ f ∈ fs, m.lookup f.name = some (col f)) (d0 d : List (Text × TsvType))
    (hn : (d0.map Prod.fst ++ fs.map col).Nodup) (h : fs.foldlM (stepFn defs m) d0 = .ok d) :
    ∃ d', d = d0 ++ d' ∧ d'.length = fs.length ∧ ∀ (i : Nat) (f : FieldDecl), fs[i]? = some f → ∃ k, d'[i]? = some (col f, k) ∧ (defs.referenceToKey f.ty).tsv = .ok k := by
  induction fs generalizing d0 with
  | nil => injection h with h; subst h; exact ⟨[], by simp, rfl, fun i f h => by simp at h⟩
  | cons f fs ih =>
    obtain ⟨d1, h1, h2⟩ := fold_cons.1 h
    obtain ⟨c, k, a, b, rfl⟩ := step_ok.1 h1
    rw [hc f (by simp)] at a
    injection a with a
    subst a
    have hnew : col f ∉ d0.map Prod.fst := fun hx => (List.nodup_append.1 hn).2.2 _ hx (col f) (by simp) rfl
    rw [put_new hnew] at h2
    obtain ⟨d', e, hl, hi⟩ := ih (fun g hg => hc g (List.mem_cons_of_mem _ hg)) _ (by simpa using hn) h2
    refine ⟨(col f, k) :: d', by rw [e]; simp, by simp [hl], ?_⟩
    intro i g hg
    cases i with
    | zero => simp only [List.getElem?_cons_zero, Option.some.injEq] at hg; subst hg; exact ⟨k, rfl, b⟩
    | succ i => rw [List.getElem?_cons_succ] at hg ⊢; exact hi i g hg

theorem fold_eq (defs : PyDefs) (c : ClassDecl) (mapping : Option (List (Text × Text))) : defs.fieldsToTypes c mapping = c.fields.foldlM (stepFn defs (c.mappingOr mapping)) [] := rfl

theorem lookup_self (fs : List FieldDecl) (f : FieldDecl) (h : f ∈ fs) : (fs.map (fun f => (f.name, f.name))).lookup f.name = some f.name := by
  induction fs with
  | nil => cases h
  | cons g fs ih =>
    rw [List.map_cons]
    by_cases e : f.name = g.name
    · rw [e]; simp
    · rcases List.mem_cons.1 h with rfl | h
      · exact absurd rfl e
      · have : (f.name == g.name) = false := by simpa using e
        rw [List.lookup_cons, this]
        exact ih h

theorem lookup_of {l : List (Text × Text)} (hn : (l.map Prod.fst).Nodup) {p : Text × Text} (hp : p ∈ l) : l.lookup p.1 = some p.2 := by
  induction l with
  | nil => cases hp
  | cons q l ih =>
    obtain ⟨h1, h2⟩ := List.nodup_cons.1 (by simpa using hn : (q.1 :: l.map Prod.fst).Nodup)
    rcases List.mem_cons.1 hp with rfl | hp
    · rw [List.lookup_cons, beq_self_eq_true]
    · have e : p.1 ≠ q.1 := fun e => h1 (e ▸ List.mem_map_of_mem hp)
      have : (p.1 == q.1) = false := by simpa using e
      rw [List.lookup_cons, this]
      exact ih h2 hp

end Tsv

/-- **C67.** A class is accepted exactly if the mapping has all of its fields and the type of each (of the key, if it is a reference) is accepted. In particular, a mapping for some of the fields, as `TextWriter` takes it, is
    refused. -/
theorem C67_accepted (defs : PyDefs) (c : ClassDecl) (mapping : Option (List (Text × Text))) :
    (∃ d, defs.fieldsToTypes c mapping = .ok d) ↔
      ∀ f ∈ c.fields, (∀ m, mapping = some m → f.name ∈ m.map Prod.fst) ∧ ∃ k, (defs.referenceToKey f.ty).tsv = .ok k := by
  have mem : ∀ (m : List (Text × Text)) (n : Text), (∃ col, m.lookup n = some col) ↔ n ∈ m.map Prod.fst := by
    intro m n
    induction m with
    | nil => simp
    | cons p m ih =>
      rw [List.lookup_cons, List.map_cons, List.mem_cons]
      by_cases e : n = p.1
      · simp [e]
      · have : (n == p.1) = false := by simpa using e
        rw [this]
        simp only [ih, e, false_or]
  rw [Tsv.fold_eq, Tsv.fold_total]
  constructor
  · intro h f hf
    refine ⟨?_, (h f hf).2⟩
    rintro m rfl
    exact (mem m f.name).1 (h f hf).1
  · intro h f hf
    refine ⟨?_, (h f hf).2⟩
    cases mapping with
    | none => exact ⟨_, Tsv.lookup_self c.fields f hf⟩
    | some m => exact (mem m f.name).2 ((h f hf).1 m rfl)

/-- **C67.** Each field is read from its column (different fields, different columns), with the type of its values; there are no other columns. -/
theorem C67_columns (defs : PyDefs) (c : ClassDecl) (mapping : Option (List (Text × Text))) (col : FieldDecl → Text) (d : List (Text × TsvType))
    (hc : ∀ f ∈ c.fields, (c.mappingOr mapping).lookup f.name = some (col f)) (hn : (c.fields.map col).Nodup) (h : defs.fieldsToTypes c mapping = .ok d)
    (hflat : ∀ f ∈ c.fields, FlatUnion (defs.referenceToKey f.ty)) :
    d.map Prod.fst = c.fields.map col ∧ ∀ (i : Nat) (f : FieldDecl), c.fields[i]? = some f → ∃ k, d[i]? = some (col f, k) ∧ ReadAs (defs.referenceToKey f.ty) k := by
  rw [Tsv.fold_eq] at h
  obtain ⟨d', e, hl, hi⟩ := Tsv.fold_list col c.fields hc [] d (by simpa using hn) h
  have e : d = d' := by simpa using e
  subst e
  constructor
  · apply List.ext_getElem?
    intro i
    rw [List.getElem?_map, List.getElem?_map]
    cases hf : c.fields[i]? with
    | none =>
      have : d[i]? = none := by rw [List.getElem?_eq_none_iff] at hf ⊢; omega
      rw [this]; rfl
    | some f =>
      obtain ⟨k, e, _⟩ := hi i f hf
      rw [e]; rfl
  · intro i f hf
    obtain ⟨k, e, hk⟩ := hi i f hf
    exact ⟨k, e, (C67_exact _ (hflat f (List.mem_of_getElem? hf)) k).1 hk⟩

/-- **C67.** All columns in the header that `TextWriter` writes with a mapping of fields are known to a reader that is made with the same mapping. -/
theorem C67_header (defs : PyDefs) (c : ClassDecl) (mapping : Option (List (Text × Text))) (d : List (Text × TsvType)) (h : defs.fieldsToTypes c mapping = .ok d)
    (hm : ∀ m, mapping = some m → (m.map Prod.fst).Nodup ∧ ∀ p ∈ m, p.1 ∈ c.fields.map FieldDecl.name) :
    ∀ n, n ∈ c.headerNames mapping ↔ n ∈ d.map Prod.fst := by
  intro n
  rw [Tsv.fold_eq] at h
  rw [Tsv.fold_keys _ _ _ h]
  unfold ClassDecl.headerNames
  constructor
  · intro hx
    obtain ⟨p, hp, rfl⟩ := List.mem_map.1 hx
    right
    cases mapping with
    | none =>
      obtain ⟨f, hf, rfl⟩ := List.mem_map.1 hp
      exact ⟨f, hf, Tsv.lookup_self _ f hf⟩
    | some m =>
      obtain ⟨h1, h2⟩ := hm m rfl
      obtain ⟨f, hf, e⟩ := List.mem_map.1 (h2 p hp)
      refine ⟨f, hf, ?_⟩
      rw [e]
      exact Tsv.lookup_of h1 hp
  · rintro (hx | ⟨f, hf, e⟩)
    · cases hx
    · have : (f.name, n) ∈ c.mappingOr mapping := by
        generalize c.mappingOr mapping = l at e
        induction l with
        | nil => cases e
        | cons q l ih =>
          rw [List.lookup_cons] at e
          split at e
          · rename_i hq
            injection e with e
            have : f.name = q.1 := by simpa using hq
            rw [this, ← e]; simp
          · exact List.mem_cons_of_mem _ (ih e)
      exact List.mem_map.2 ⟨_, this, rfl⟩

/-- **C67.** A reference has the type of the key of the class (the first field marked as primary key) that it refers to, or of the first of several classes; any other type stays. -/
theorem C67_reference (defs : PyDefs) :
    (∀ (n : PyName) (c : ClassDecl) (before after : List FieldDecl) (k : FieldDecl), defs.cls n = some c → c.fields = before ++ k :: after → k.primary = true → (∀ f ∈ before, f.primary = false) →
      defs.referenceToKey (.cls n) = k.ty ∧ ∀ rest : PyTypes, (∀ m ∈ rest.toList, defs.isEntity m = true) → defs.referenceToKey (.union (.cons (.cls n) rest)) = k.ty) ∧
    (∀ ty : PyType, (∃ m ∈ alternatives ty, defs.isEntity m = false) → defs.referenceToKey ty = ty) := by
  constructor
  · intro n c before after k hc hf hk hb
    have hkey : (defs.cls n).bind ClassDecl.key = some k := by
      rw [hc]
      show c.fields.find? (fun f => f.primary) = some k
      rw [hf, List.find?_append]
      have : before.find? (fun f => f.primary) = none := by
        rw [List.find?_eq_none]
        intro f h; rw [hb f h]; decide
      rw [this, List.find?_cons_of_pos hk]; rfl
    refine ⟨by unfold PyDefs.referenceToKey; simp only [hkey], fun rest hr => ?_⟩
    unfold PyDefs.referenceToKey
    have : rest.toList.all defs.isEntity = true := List.all_eq_true.2 hr
    simp only [this, hkey, if_true]
  · rintro ty ⟨m, hm, he⟩
    have nokey : ∀ n, defs.isEntity (.cls n) = false → (defs.cls n).bind ClassDecl.key = none := by
      intro n h
      unfold PyDefs.isEntity at h
      cases hc : defs.cls n with
      | none => rfl
      | some c =>
        simp only [hc] at h
        show c.key = none
        exact Option.not_isSome_iff_eq_none.1 (by simpa using h)
    unfold PyDefs.referenceToKey
    split
    · rename_i n
      have : m = .cls n := List.mem_singleton.1 hm
      subst this
      rw [nokey n he]
    · rename_i n rest
      split
      · rename_i hall
        have hm : m ∈ PyType.cls n :: rest.toList := hm
        rcases List.mem_cons.1 hm with rfl | hm
        · rw [nokey n he]
        · rw [List.all_eq_true.1 hall m hm] at he; cases he
      · rfl
    · rfl

/-- **C67** (the limit). There are types with a database column whose values cannot be read from a file: durations, JSON, and unions of types that are stored differently. -/
theorem C67_limits (p q : TsvType) (a b : PyType) (ha : StoredAs a p) (hb : StoredAs b q) (hne : p ≠ q) (hip : ¬ (p = .ipv4 ∧ q = .ipv6)) (hip' : ¬ (p = .ipv6 ∧ q = .ipv4)) :
    PyType.tsv (.prim .timedelta) = .error .type ∧ PyType.tsv (.prim .json) = .error .type ∧ ∀ k, PyType.tsv (.union (.cons a (.cons b .nil))) ≠ .ok k := by
  have fl : ∀ {x : PyType} {k : TsvType}, StoredAs x k → alternatives x = [x] := by intro x k h; cases h <;> rfl
  refine ⟨by unfold PyType.tsv; rfl, by unfold PyType.tsv; rfl, fun k h => ?_⟩
  have hflat : FlatUnion (.union (.cons a (.cons b .nil))) := by
    intro m hm
    have hm : m ∈ [a, b] := hm
    simp only [List.mem_cons, List.not_mem_nil, or_false] at hm
    rcases hm with rfl | rfl
    · exact fl ha
    · exact fl hb
  have r := (C67_exact _ hflat k).1 h
  have r1 := r.all a (by show a ∈ [a, b]; simp)
  have r2 := r.all b (by show b ∈ [a, b]; simp)
  have ua := fun {x} (s : StoredAs a x) => Tsv.stored_unique (fl ha) ha s
  have ub := fun {x} (s : StoredAs b x) => Tsv.stored_unique (fl hb) hb s
  rcases r1 with r1 | ⟨hk, r1⟩
  · rcases r2 with r2 | ⟨hk, _⟩
    · exact hne ((ua r1).trans (ub r2).symm)
    · subst hk; exact Tsv.stored_ip r1
  · subst hk
    rcases r2 with r2 | ⟨_, r2⟩
    · exact Tsv.stored_ip r2
    · rcases r1 with r1 | r1 <;> rcases r2 with r2 | r2
      · exact hne ((ua r1).trans (ub r2).symm)
      · exact hip ⟨ua r1, ub r2⟩
      · exact hip' ⟨ua r1, ub r2⟩
      · exact hne ((ua r1).trans (ub r2).symm)

/-! ### Examples -/

namespace TsvDemo

def person : ClassDecl := ⟨(t "m", t "Person"), [{ name := t "id", ty := .prim .int64, primary := true }, { name := t "name", ty := .annotated .str [.maxLength 64] }]⟩
def visit : ClassDecl :=
  ⟨(t "m", t "Visit"), [{ name := t "id", ty := .prim .uuid, primary := true }, { name := t "who", ty := .cls (t "m", t "Person") },
    { name := t "source", ty := .union (.cons (.prim .ipv6) (.cons (.prim .ipv4) .nil)), nullable := true }, { name := t "tags", ty := .list (.prim .str) }]⟩
def defs : PyDefs := ⟨[person, visit], []⟩

/-- A reference is read like the key of the class that it refers to. -/
example : (defs.fieldsToTypes visit none).toOption = some [(t "id", .uuid), (t "who", .int), (t "source", .ip), (t "tags", .list)] := by decide +kernel
example : (defs.fieldsToTypes person (some [(t "name", t "full name"), (t "id", t "no")])).toOption = some [(t "no", .int), (t "full name", .str)] := by decide +kernel
/-- The writer takes a mapping for some of the fields, the reader does not. -/
example : person.headerNames (some [(t "name", t "full name")]) = [t "full name"] ∧ (defs.fieldsToTypes person (some [(t "name", t "full name")])).toOption = none := by decide +kernel

/-- A reference to either of two classes. -/
example : defs.referenceToKey (.union (.cons (.cls (t "m", t "Person")) (.cons (.cls (t "m", t "Visit")) .nil))) = .prim .int64 :=
  ((C67_reference defs).1 (t "m", t "Person") person [] _ { name := t "id", ty := .prim .int64, primary := true } (by decide +kernel) rfl rfl (by intro f h; cases h)).2 _ (by decide +kernel)

theorem visit_flat : ∀ f ∈ visit.fields, FlatUnion (defs.referenceToKey f.ty) := by
  refine List.forall_mem_cons.2 ⟨?_, List.forall_mem_cons.2 ⟨?_, List.forall_mem_cons.2 ⟨?_, List.forall_mem_cons.2 ⟨?_, by intro m h; cases h⟩⟩⟩⟩ <;>
    (unfold FlatUnion; decide +kernel)

example : ∃ d, defs.fieldsToTypes visit none = .ok d ∧ d.map Prod.fst = visit.fields.map FieldDecl.name := by
  obtain ⟨d, hd⟩ := (C67_accepted defs visit none).2 (by
    refine List.forall_mem_cons.2 ⟨⟨fun m h => (by cases h), .uuid, by rfl⟩, List.forall_mem_cons.2 ⟨⟨fun m h => (by cases h), .int, by rfl⟩,
      List.forall_mem_cons.2 ⟨⟨fun m h => (by cases h), .ip, by rfl⟩, List.forall_mem_cons.2 ⟨⟨fun m h => (by cases h), .list, by rfl⟩, by intro m h; cases h⟩⟩⟩⟩)
  exact ⟨d, hd, (C67_columns defs visit none FieldDecl.name d (fun f hf => Tsv.lookup_self _ f hf) (by decide +kernel) hd visit_flat).1⟩

example (k : TsvType) : PyType.tsv (.union (.cons (.prim .int) (.cons (.prim .str) .nil))) ≠ .ok k :=
  (C67_limits .int .str (.prim .int) (.prim .str) (.int (by simp)) .str (by decide) (by decide) (by decide)).2.2 k

end TsvDemo

end PySqlSync
