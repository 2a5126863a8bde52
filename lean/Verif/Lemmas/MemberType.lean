/-
The depth that is left for recursion does not matter for the data type of a member.
-/
import Verif.Lemmas.Convert

set_option autoImplicit false

namespace PySqlSync
namespace Conv

theorem mapM_mono {α β : Type} {f g : α → Except Err β} : ∀ {l : List α} {r : List β}, (∀ a ∈ l, ∀ b, f a = .ok b → g a = .ok b) →
    l.mapM f = .ok r → l.mapM g = .ok r
  | [], r, _, h => by simpa [List.mapM_nil] using h
  | a :: l, r, hfg, h => by
    obtain ⟨b, bs, h1, h2, rfl⟩ := mapM_cons_ok.1 h
    exact mapM_cons_ok.2 ⟨b, bs, hfg a (List.mem_cons_self ..) b h1, mapM_mono (fun x hx => hfg x (List.mem_cons_of_mem _ hx)) h2, rfl⟩

theorem memberType_succ (o : ConvOptions) (defs : PyDefs) : ∀ (n : Nat) (ty : PyType) (r : SqlType), o.memberType defs n ty = .ok r →
    o.memberType defs (n + 1) ty = .ok r
  | 0, ty, r, h => by simp [ConvOptions.memberType] at h
  | n + 1, ty, r, h => by
    have ih := memberType_succ o defs n
    cases ty with
    | prim p => simpa only [ConvOptions.memberType] using h
    | annotated p ms => simpa only [ConvOptions.memberType] using h
    | enum e => simpa only [ConvOptions.memberType] using h
    | literal vs => simpa only [ConvOptions.memberType] using h
    | list i => simpa only [ConvOptions.memberType] using h
    | set i => simpa only [ConvOptions.memberType] using h
    | other i => simpa only [ConvOptions.memberType] using h
    | cls name =>
      unfold ConvOptions.memberType at h ⊢
      dsimp only at h ⊢
      cases hc : defs.cls name with
      | none => rw [hc] at h; cases h
      | some c =>
        rw [hc] at h
        dsimp only at h ⊢
        cases hk : c.key with
        | some k => rw [hk] at h; exact ih _ _ h
        | none =>
          rw [hk] at h
          dsimp only at h ⊢
          cases hs : o.structMode with
          | type => rw [hs] at h; exact h
          | json => rw [hs] at h; exact h
          | inline =>
            rw [hs] at h
            dsimp only at h ⊢
            rw [bind_ok] at h ⊢
            obtain ⟨fs, h1, h2⟩ := h
            refine ⟨fs, mapM_mono ?_ h1, h2⟩
            intro f _ b hb
            simp only [bind_ok, pure_ok] at hb ⊢
            obtain ⟨ty, h3, h4⟩ := hb
            exact ⟨ty, ih _ _ h3, h4⟩
    | union ms =>
      unfold ConvOptions.memberType at h ⊢
      dsimp only at h ⊢
      split at h
      · rename_i hx; rw [if_pos hx]; exact h
      · rename_i hx
        rw [if_neg hx]
        split at h
        · rename_i ha
          rw [if_pos ha]
          split at h
          · rename_i kt hkt
            exact ih _ _ h
          · cases h
        · rename_i ha
          rw [if_neg ha]
          rw [bind_ok] at h ⊢
          obtain ⟨ts, h1, h2⟩ := h
          exact ⟨ts, mapM_mono (fun m _ b hb => ih _ _ hb) h1, h2⟩

/-- The data type of a reference to an entity is the type of its key. -/
theorem memberType_entity {o : ConvOptions} {defs : PyDefs} {depth : Nat} {n : PyName} {c : ClassDecl} {k : FieldDecl} {ty : SqlType}
    (hc : defs.cls n = some c) (hk : c.key = some k) (h : o.memberType defs depth (.cls n) = .ok ty) : o.memberType defs depth k.ty = .ok ty := by
  cases depth with
  | zero => simp [ConvOptions.memberType] at h
  | succ d =>
    unfold ConvOptions.memberType at h
    simp only [hc, hk] at h
    exact memberType_succ o defs d _ _ h

/-- The data type of a reference to one of several entities is the type of the key of each. -/
theorem memberType_union {o : ConvOptions} {defs : PyDefs} {depth : Nat} {ms : PyTypes} {ty : SqlType}
    (hx : (PyType.union ms).isExtensible = false) (ha : ms.toList.all defs.isEntity = true) {n : PyName} (hn : PyType.cls n ∈ ms.toList)
    {c : ClassDecl} {k : FieldDecl} (hc : defs.cls n = some c) (hk : c.key = some k)
    (h : o.memberType defs depth (.union ms) = .ok ty) : o.memberType defs depth k.ty = .ok ty := by
  cases depth with
  | zero => simp [ConvOptions.memberType] at h
  | succ d =>
    unfold ConvOptions.memberType at h
    dsimp only at h
    rw [hx] at h
    simp only [Bool.false_eq_true, if_false, ha, if_true] at h
    have hmem : k.ty ∈ (defs.keyTypes ms.toList).eraseDups := by
      rw [C36.mem_eraseDups]
      unfold PyDefs.keyTypes
      rw [List.mem_filterMap]
      exact ⟨_, hn, by simp [hc, hk]⟩
    split at h
    · rename_i kt hkt
      rw [hkt, List.mem_singleton] at hmem
      rw [hmem]
      exact memberType_succ o defs d _ _ h
    · cases h

/-- The data type of a field with an enumeration that has a table. -/
theorem memberType_enum {o : ConvOptions} {defs : PyDefs} {depth : Nat} {e : PyName} {ty : SqlType} (hm : o.enumMode = .relation)
    (h : o.memberType defs depth (.enum e) = .ok ty) : ty = o.enumKeyType := by
  cases depth with
  | zero => simp [ConvOptions.memberType] at h
  | succ d =>
    unfold ConvOptions.memberType at h
    dsimp only [ConvOptions.simpleType] at h
    cases he : defs.enum e with
    | none => rw [he] at h; cases h
    | some d =>
      rw [he] at h
      dsimp only at h
      unfold ConvOptions.enumType at h
      rw [hm] at h
      cases hk : d.kind <;> rw [hk] at h <;> simp at h <;> exact h.symm

theorem memberType_extensible {o : ConvOptions} {defs : PyDefs} {depth : Nat} {x : PyType} {ty : SqlType} (hx : x.isExtensible = true)
    (h : o.memberType defs depth x = .ok ty) : ty = o.enumKeyType := by
  cases depth with
  | zero => simp [ConvOptions.memberType] at h
  | succ d =>
    cases x <;> simp only [PyType.isExtensible, Bool.false_eq_true] at hx
    rename_i ms
    unfold ConvOptions.memberType at h
    dsimp only at h
    rw [if_pos (by simpa [PyType.isExtensible] using hx)] at h
    exact (Except.ok.inj h).symm

end Conv
end PySqlSync
