/-
C54: values are bound in a form that their columns hold.
-/
import Verif.Lemmas.Json
import Verif.Lemmas.Convert
import Verif.Props.C48

set_option autoImplicit false

namespace PySqlSync
open Spec
namespace C54

/-! ### Bytes -/

theorem bytes_length : ∀ w n, (toBytes w n).length = w
  | 0, _ => rfl
  | w + 1, n => by rw [toBytes, List.length_append, bytes_length w]; rfl

theorem bytes_small : ∀ w n, ∀ x ∈ toBytes w n, x < 256
  | 0, _, x, h => by cases h
  | w + 1, n, x, h => by
    rw [toBytes, List.mem_append] at h
    rcases h with h | h
    · exact bytes_small w _ x h
    · rw [List.mem_singleton] at h; omega

theorem ofBytes_snoc (b : List Nat) (x : Nat) : ofBytes (b ++ [x]) = ofBytes b * 256 + x := by
  unfold ofBytes; rw [List.foldl_append]; rfl

theorem bytes_back : ∀ w n, n < 256 ^ w → ofBytes (toBytes w n) = n
  | 0, n, h => by simp at h; subst h; rfl
  | w + 1, n, h => by
    rw [toBytes, ofBytes_snoc, bytes_back w (n / 256) (by rw [Nat.pow_succ] at h; omega)]
    omega

theorem ofBytes_zeros (b : List Nat) (k : Nat) : ofBytes (b ++ List.replicate k 0) = ofBytes b * 256 ^ k := by
  induction k with
  | zero => simp
  | succ k ih => rw [List.replicate_succ', ← List.append_assoc, ofBytes_snoc, ih, Nat.pow_succ, Nat.mul_assoc]; rfl

/-! ### Columns -/

theorem column_ty {o : ConvOptions} {defs : PyDefs} {depth : Nat} {f : FieldDecl} {c : Column} (h : o.memberColumn defs depth f = .ok c) :
    o.memberType defs depth f.ty = .ok c.ty := by
  obtain ⟨ty, h1, h2⟩ := Conv.bind_ok.1 h
  rw [Conv.pure_ok] at h2
  rw [h1, ← h2]

theorem prim_ty {o : ConvOptions} {defs : PyDefs} {depth : Nat} {p : Prim} {ty : SqlType} (h : o.memberType defs depth (.prim p) = .ok ty) :
    ty = o.primType p := by
  cases depth with
  | zero => rw [ConvOptions.memberType] at h; cases h
  | succ k => rw [ConvOptions.memberType] at h; simp only [ConvOptions.simpleType] at h; cases h; rfl

/-- The names of the data types. -/
def nameOf : Engine → Prim → Text
  | .postgresql, .uuid => t "uuid"
  | .postgresql, .time => t "time"
  | .postgresql, _ => t "inet"
  | .redshift, .ipv4 => t "varbyte(4)"
  | .redshift, .time => t "time"
  | .redshift, _ => t "varbyte(16)"
  | .oracle, .ipv4 => t "raw(4)"
  | .oracle, .time => t "interval day to second"
  | .oracle, _ => t "raw(16)"
  | _, .ipv4 => t "binary(4)"
  | _, .time => t "time"
  | _, _ => t "binary(16)"

theorem name_ok {e : Engine} (he : Connects e) {g : GenOptions} {o : ConvOptions} (ho : e.options g = .ok o) {p : Prim}
    (hp : p = .uuid ∨ p = .ipv4 ∨ p = .ipv6 ∨ p = .time) : (o.primType p).str = .ok (nameOf e p) := by
  unfold ConvOptions.primType
  rw [(C31.options_eq ho).2]
  rcases he with rfl | rfl | rfl | rfl | rfl <;> rcases hp with rfl | rfl | rfl | rfl <;> first | rfl | decide +kernel


/-- The bytes that a packing engine stores for a number. -/
theorem stored {e : Engine} {p : Prim} {w : Nat} (he : Connects e) (hn : e ≠ .postgresql) (hp : (p = .uuid ∨ p = .ipv6) ∧ w = 16 ∨ p = .ipv4 ∧ w = 4)
    {b : List Nat} (hb : b.length = w) : storedBytes e (nameOf e p) b = some b := by
  have key : ∀ name n, typeParams name = [n] → typeBase name = t "varbyte" ∨ typeBase name = t "raw" ∨ typeBase name = t "binary" → n = w →
      (e = .redshift → typeBase name = t "varbyte") → (e = .oracle → typeBase name = t "raw") → (e = .mysql ∨ e = .mssql → typeBase name = t "binary") →
      storedBytes e name b = some b := by
    intro name n h1 _ hw h2 h3 h4
    subst hw
    have hw : n ≤ 2000 := by rcases hp with ⟨_, rfl⟩ | ⟨_, rfl⟩ <;> omega
    unfold storedBytes
    rw [h1]
    dsimp only
    rw [if_pos (Nat.le_of_eq hb)]
    rcases he with rfl | rfl | rfl | rfl | rfl
    · exact absurd rfl hn
    · dsimp only; rw [if_pos (h2 rfl)]
    · dsimp only; rw [if_pos (h4 (.inl rfl)), hb, Nat.sub_self]; simp
    · dsimp only; rw [if_pos ⟨h3 rfl, hw⟩]
    · dsimp only; rw [if_pos (h4 (.inr rfl)), hb, Nat.sub_self]; simp
  rcases he with rfl | rfl | rfl | rfl | rfl
  · exact absurd rfl hn
  all_goals
    rcases hp with ⟨rfl | rfl, rfl⟩ | ⟨rfl, rfl⟩ <;>
    exact key _ _ (by decide +kernel) (by decide +kernel) rfl (by decide +kernel) (by decide +kernel) (by decide +kernel)

/-- A value that is not bytes is not stored by a packing engine. -/
theorem not_raw {e : Engine} {name : Text} {v : PyVal} (hn : e ≠ .postgresql) (hv : ∀ m, v ≠ .time m) (hb : ∀ b, v ≠ .bytes b)
    (hu : (∃ n, v = .uuid n) ∨ (∃ n, v = .ipv4 n) ∨ (∃ n, v = .ipv6 n)) : ¬ Carries e name v v := by
  rcases hu with ⟨n, rfl⟩ | ⟨n, rfl⟩ | ⟨n, rfl⟩ <;>
  · rintro (⟨h, _⟩ | ⟨s, ⟨b, h, _⟩, _⟩)
    · exact hn h
    · cases h

/-- What is carried, as it is and packed. -/
theorem uuid_packed {e : Engine} (he : Connects e) (hn : e ≠ .postgresql) {n : Nat} (h : n < 2 ^ 128) :
    Carries e (nameOf e .uuid) (.uuid n) (.bytes (toBytes 16 n)) :=
  .inr ⟨_, ⟨_, rfl, bytes_small _ _, stored he hn (.inl ⟨.inl rfl, rfl⟩) (bytes_length _ _)⟩, bytes_length _ _, bytes_back 16 n h⟩
theorem ipv6_packed {e : Engine} (he : Connects e) (hn : e ≠ .postgresql) {n : Nat} (h : n < 2 ^ 128) :
    Carries e (nameOf e .ipv6) (.ipv6 n) (.bytes (toBytes 16 n)) :=
  .inr ⟨_, ⟨_, rfl, bytes_small _ _, stored he hn (.inl ⟨.inr rfl, rfl⟩) (bytes_length _ _)⟩, bytes_length _ _, bytes_back 16 n h⟩
theorem ipv4_packed {e : Engine} (he : Connects e) (hn : e ≠ .postgresql) {n : Nat} (h : n < 2 ^ 32) :
    Carries e (nameOf e .ipv4) (.ipv4 n) (.bytes (toBytes 4 n)) :=
  .inr ⟨_, ⟨_, rfl, bytes_small _ _, stored he hn (.inr ⟨rfl, rfl⟩) (bytes_length _ _)⟩, bytes_length _ _, bytes_back 4 n h⟩

theorem packs_iff {e : Engine} (he : Connects e) : e.packs = !(decide (e = .postgresql)) := by
  rcases he with rfl | rfl | rfl | rfl | rfl <;> rfl

end C54

/-- **C54, exact**: when objects are inserted or updated, the value of a field with a UUID, an address or a time of day is passed in a form that its column stores as this value if,
    and only if, the engine takes it as it is, or the type of the field has no annotation and is not optional. -/
theorem C54_extracted (e : Engine) (he : Connects e) (g : GenOptions) (o : ConvOptions) (ho : e.options g = .ok o) (defs : PyDefs) (depth : Nat)
    (f : FieldDecl) (c : Column) (hc : o.memberColumn defs depth f = .ok c) (p : Prim) (hf : f.ty = .prim p) (v : PyVal) (hv : ValueOf p v) :
    ∃ b name, e.extract f v = .ok b ∧ c.ty.str = .ok name ∧ (Carries e name v b ↔ f.bare = true ∨ Native e p) := by
  have hp : p = .uuid ∨ p = .ipv4 ∨ p = .ipv6 ∨ p = .time := by
    cases p <;> first | (simp; done) | (exact absurd hv (by cases v <;> exact id))
  have hty : c.ty.str = .ok (C54.nameOf e p) := by
    have := C54.column_ty hc
    rw [hf] at this
    rw [C54.prim_ty this]
    exact C54.name_ok he ho hp
  have hbase : baseExtract f v = .ok v := by unfold baseExtract; rw [hf]
  by_cases hpg : e = .postgresql
  · refine ⟨v, _, ?_, hty, ?_⟩
    · unfold Engine.extract; rw [C54.packs_iff he, hpg]; exact hbase
    · have hN : Native e p := by subst hpg; rcases hp with rfl | rfl | rfl | rfl <;> first | rfl | (intro h; cases h)
      refine ⟨fun _ => .inr hN, fun _ => ?_⟩
      subst hpg
      rcases hp with rfl | rfl | rfl | rfl <;> cases v <;> first | exact absurd hv id | exact .inl ⟨rfl, rfl, rfl⟩ | exact .inl ⟨by decide +kernel, rfl⟩
  · have hpk : e.packs = true := by rw [C54.packs_iff he]; simp [hpg]
    unfold Engine.extract
    rw [if_pos hpk, hf]
    by_cases hb : f.bare = true
    · rcases hp with rfl | rfl | rfl | rfl <;> cases v <;> first | exact absurd hv id | skip
      · exact ⟨_, _, by rw [hb]; rfl, hty, fun _ => .inl hb, fun _ => C54.uuid_packed he hpg hv⟩
      · exact ⟨_, _, by simp only [FieldDecl.isAddress, hf, hb]; rfl, hty, fun _ => .inl hb, fun _ => C54.ipv4_packed he hpg hv⟩
      · exact ⟨_, _, by simp only [FieldDecl.isAddress, hf, hb]; rfl, hty, fun _ => .inl hb, fun _ => C54.ipv6_packed he hpg hv⟩
      · rename_i m
        by_cases hor : e = .oracle
        · subst hor
          exact ⟨_, _, by simp only [FieldDecl.isAddress, hf, hb]; rfl, hty, fun _ => .inl hb, fun _ => .inr ⟨rfl, rfl, rfl⟩⟩
        · refine ⟨.time m, _, ?_, hty, fun _ => .inl hb, fun _ => .inl ⟨?_, rfl⟩⟩
          · simp only [FieldDecl.isAddress, hf]
            simp [hor, hbase]
          · rcases he with rfl | rfl | rfl | rfl | rfl <;> first | exact absurd rfl hpg | exact absurd rfl hor | decide +kernel
    · have hb' : f.bare = false := by simpa using hb
      have hx : (if (decide (PyType.prim p = .prim .uuid) && f.bare) = true then v.bytesAttr else if f.isAddress = true then v.packedAttr
          else if (decide (e = .oracle) && (decide (PyType.prim p = .prim .time) && f.bare)) = true then v.sinceMidnight else baseExtract f v) = .ok v := by
        have : f.isAddress = false := by
          unfold FieldDecl.isAddress; rw [hf]
          rcases hp with rfl | rfl | rfl | rfl <;> simp [hb']
        rw [hb', this, Bool.and_false, Bool.and_false, Bool.and_false, if_neg (by decide), if_neg (by decide), if_neg (by decide), hbase]
      refine ⟨v, _, hx, hty, ?_⟩
      rcases hp with rfl | rfl | rfl | rfl <;> cases v <;> first | exact absurd hv id | skip
      · exact ⟨fun h => absurd h (C54.not_raw hpg (by intros; intro h; cases h) (by intros; intro h; cases h) (.inl ⟨_, rfl⟩)),
          fun h => h.elim (fun h => absurd h hb) (fun h => absurd h hpg)⟩
      · exact ⟨fun h => absurd h (C54.not_raw hpg (by intros; intro h; cases h) (by intros; intro h; cases h) (.inr (.inl ⟨_, rfl⟩))),
          fun h => h.elim (fun h => absurd h hb) (fun h => absurd h hpg)⟩
      · exact ⟨fun h => absurd h (C54.not_raw hpg (by intros; intro h; cases h) (by intros; intro h; cases h) (.inr (.inr ⟨_, rfl⟩))),
          fun h => h.elim (fun h => absurd h hb) (fun h => absurd h hpg)⟩
      · constructor
        · rintro (⟨h, _⟩ | ⟨_, _, h⟩)
          · refine .inr (fun hor => ?_)
            subst hor
            exact absurd h (by decide +kernel)
          · cases h
        · rintro (h | h)
          · exact absurd h hb
          · refine .inl ⟨?_, rfl⟩
            rcases he with rfl | rfl | rfl | rfl | rfl <;> first | exact absurd rfl hpg | exact absurd rfl h | decide +kernel

namespace C54

theorem two_kinds {v : PyVal} (h : ValueOf .ipv4 v ∨ ValueOf .ipv6 v) : (∃ n, v = .ipv4 n ∧ n < 2 ^ 32) ∨ (∃ n, v = .ipv6 n ∧ n < 2 ^ 128) := by
  rcases h with h | h
  · cases v <;> first | exact .inl ⟨_, rfl, h⟩ | exact absurd h id
  · cases v <;> first | exact .inr ⟨_, rfl, h⟩ | exact absurd h id

theorem union_ty {e : Engine} (he : Connects e) {g : GenOptions} {o : ConvOptions} (ho : e.options g = .ok o) {defs : PyDefs} {depth : Nat} {ms : PyTypes} {ty : SqlType}
    (hm : ms.toList = [.prim .ipv4, .prim .ipv6] ∨ ms.toList = [.prim .ipv6, .prim .ipv4]) (h : o.memberType defs depth (.union ms) = .ok ty) :
    ty.str = .ok (nameOf e .ipv6) := by
  cases depth with
  | zero => rw [ConvOptions.memberType] at h; cases h
  | succ k =>
    have hx : (PyType.union ms).isExtensible = false := by
      unfold PyType.isExtensible
      dsimp only
      rcases hm with hm | hm <;> rw [hm] <;> rfl
    have hE : ms.toList.all defs.isEntity = false := by
      rcases hm with hm | hm <;> rw [hm] <;> rfl
    rw [ConvOptions.memberType] at h
    rw [hx, hE] at h
    simp only [Bool.false_eq_true, if_false] at h
    obtain ⟨types, h1, h2⟩ := Conv.bind_ok.1 h
    have hs := (C31.options_eq ho).2
    cases k with
    | zero =>
      rcases hm with hm | hm <;> rw [hm] at h1 <;>
      · rw [List.mapM_cons, ConvOptions.memberType] at h1; cases h1
    | succ k =>
      have hp : ∀ p, o.memberType defs (k + 1) (.prim p) = .ok (o.primType p) := by intro p; rw [ConvOptions.memberType]; rfl
      have h4 : o.primType .ipv4 = (e.substitution .ipv4).getD (.user (.global (t "inet"))) := by
        unfold ConvOptions.primType; rw [hs]; rcases he with rfl | rfl | rfl | rfl | rfl <;> rfl
      have h6 : o.primType .ipv6 = (e.substitution .ipv6).getD (.user (.global (t "inet"))) := by
        unfold ConvOptions.primType; rw [hs]; rcases he with rfl | rfl | rfl | rfl | rfl <;> rfl
      have ht : types = [o.primType .ipv4, o.primType .ipv6] ∨ types = [o.primType .ipv6, o.primType .ipv4] := by
        rcases hm with hm | hm <;> rw [hm] at h1 <;>
        · simp only [List.mapM_cons, List.mapM_nil, hp, bind, Except.bind, pure, Except.pure] at h1
          cases h1; simp
      rw [h4, h6] at ht
      have key : compatibleType types = .ok ty := by
        revert h2
        cases compatibleType types with
        | ok r => exact id
        | error x => intro h; cases h
      rcases he with rfl | rfl | rfl | rfl | rfl <;> rcases ht with rfl | rfl <;> (cases key; first | rfl | decide +kernel)

end C54

/-- **C54, exact, for addresses of either kind**: an address is passed in a form that the column stores as this address if, and only if, the engine is PostgreSQL, or the field is not
    optional and it is a longer one (IPv6), or the engine is Oracle or Redshift: for MySQL and SQL Server, the column fills the shorter ones up with zeros. -/
theorem C54_addresses (e : Engine) (he : Connects e) (g : GenOptions) (o : ConvOptions) (ho : e.options g = .ok o) (defs : PyDefs) (depth : Nat)
    (f : FieldDecl) (c : Column) (hc : o.memberColumn defs depth f = .ok c) (ms : PyTypes) (hf : f.ty = .union ms)
    (hm : ms.toList = [.prim .ipv4, .prim .ipv6] ∨ ms.toList = [.prim .ipv6, .prim .ipv4]) (v : PyVal) (hv : ValueOf .ipv4 v ∨ ValueOf .ipv6 v) :
    ∃ b name, e.extract f v = .ok b ∧ c.ty.str = .ok name ∧
      (Carries e name v b ↔ e = .postgresql ∨ (f.nullable = false ∧ (ValueOf .ipv6 v ∨ e = .oracle ∨ e = .redshift))) := by
  have hty : c.ty.str = .ok (C54.nameOf e .ipv6) := by
    have := C54.column_ty hc
    rw [hf] at this
    exact C54.union_ty he ho hm this
  have hbase : baseExtract f v = .ok v := by unfold baseExtract; rw [hf]
  have hadr : f.isAddress = !f.nullable := by
    unfold FieldDecl.isAddress; rw [hf]
    dsimp only
    have : (ms.toList == [PyType.prim .ipv4, .prim .ipv6] || ms.toList == [PyType.prim .ipv6, .prim .ipv4]) = true := by
      rcases hm with h | h <;> rw [h] <;> simp
    rw [this, Bool.and_true]
  by_cases hpg : e = .postgresql
  · refine ⟨v, _, ?_, hty, fun _ => .inl hpg, fun _ => ?_⟩
    · unfold Engine.extract; rw [C54.packs_iff he, hpg]; exact hbase
    · subst hpg
      rcases C54.two_kinds hv with ⟨n, rfl, _⟩ | ⟨n, rfl, _⟩ <;> exact .inl ⟨rfl, rfl, rfl⟩
  · have hpk : e.packs = true := by rw [C54.packs_iff he]; simp [hpg]
    have hx : e.extract f v = if f.nullable = true then .ok v else v.packedAttr := by
      unfold Engine.extract
      rw [if_pos hpk, hf, hadr]
      cases hn : f.nullable <;> simp [hbase]
    rw [hx]
    cases hn : f.nullable
    · rcases C54.two_kinds hv with ⟨n, rfl, hn'⟩ | ⟨n, rfl, hn'⟩
      · refine ⟨_, _, rfl, hty, ?_, ?_⟩
        · rintro (⟨h, _⟩ | ⟨s, ⟨b, h1, _, h2⟩, h3, _⟩)
          · exact absurd h hpg
          · refine .inr ⟨rfl, .inr ?_⟩
            cases h1
            rcases he with rfl | rfl | rfl | rfl | rfl
            · exact absurd rfl hpg
            · exact .inr rfl
            · have : s = toBytes 4 n ++ List.replicate 12 0 := by
                unfold storedBytes at h2
                rw [show typeParams (C54.nameOf .mysql .ipv6) = [16] from by decide +kernel] at h2
                dsimp only at h2
                rw [C54.bytes_length, if_pos (by omega), if_pos (by decide +kernel)] at h2
                exact (Option.some.inj h2).symm
              rw [this, List.length_append, C54.bytes_length, List.length_replicate] at h3
              omega
            · exact .inl rfl
            · have : s = toBytes 4 n ++ List.replicate 12 0 := by
                unfold storedBytes at h2
                rw [show typeParams (C54.nameOf .mssql .ipv6) = [16] from by decide +kernel] at h2
                dsimp only at h2
                rw [C54.bytes_length, if_pos (by omega), if_pos (by decide +kernel)] at h2
                exact (Option.some.inj h2).symm
              rw [this, List.length_append, C54.bytes_length, List.length_replicate] at h3
              omega
        · rintro (h | ⟨_, h | rfl | rfl⟩)
          · exact absurd h hpg
          · exact absurd h id
          · refine .inr ⟨_, ⟨_, rfl, C54.bytes_small _ _, ?_⟩, C54.bytes_length _ _, C54.bytes_back 4 n hn'⟩
            unfold storedBytes
            rw [show typeParams (C54.nameOf .oracle .ipv6) = [16] from by decide +kernel]
            dsimp only
            rw [C54.bytes_length, if_pos (by omega), if_pos ⟨by decide +kernel, by omega⟩]
          · refine .inr ⟨_, ⟨_, rfl, C54.bytes_small _ _, ?_⟩, C54.bytes_length _ _, C54.bytes_back 4 n hn'⟩
            unfold storedBytes
            rw [show typeParams (C54.nameOf .redshift .ipv6) = [16] from by decide +kernel]
            dsimp only
            rw [C54.bytes_length, if_pos (by omega), if_pos (by decide +kernel)]
      · exact ⟨_, _, rfl, hty, fun _ => .inr ⟨rfl, .inl hn'⟩, fun _ => C54.ipv6_packed he hpg hn'⟩
    · refine ⟨v, _, rfl, hty, fun h => ?_, fun h => ?_⟩
      · rcases C54.two_kinds hv with ⟨n, rfl, _⟩ | ⟨n, rfl, _⟩
        · exact absurd h (C54.not_raw hpg (by intros; intro h; cases h) (by intros; intro h; cases h) (.inr (.inl ⟨_, rfl⟩)))
        · exact absurd h (C54.not_raw hpg (by intros; intro h; cases h) (by intros; intro h; cases h) (.inr (.inr ⟨_, rfl⟩)))
      · rcases h with h | ⟨h, _⟩
        · exact absurd h hpg
        · cases h

namespace C54

theorem mode_type {e : Engine} (he : Connects e) {g : GenOptions} {o : ConvOptions} (ho : e.options g = .ok o) (h : o.enumMode = .type) : e = .postgresql := by
  unfold Engine.options at ho
  split at ho
  · rename_i hm
    cases ho
    dsimp only at h
    revert hm h
    unfold Engine.modesOk checkMode
    rcases he with rfl | rfl | rfl | rfl | rfl <;> cases g.enumMode <;> intro hm h <;> first | rfl | simp_all
  · cases ho

theorem mode_inline {e : Engine} (he : Connects e) {g : GenOptions} {o : ConvOptions} (ho : e.options g = .ok o) (h : o.enumMode = .inline) : e = .mysql := by
  unfold Engine.options at ho
  split at ho
  · rename_i hm
    cases ho
    dsimp only at h
    revert hm h
    unfold Engine.modesOk checkMode
    rcases he with rfl | rfl | rfl | rfl | rfl <;> cases g.enumMode <;> intro hm h <;> first | rfl | simp_all
  · cases ho

theorem int_prim {e : Engine} {g : GenOptions} {o : ConvOptions} (ho : e.options g = .ok o) :
    o.primType .int = .integer (if e = .oracle then .oracle else .base) 8 true none none := by
  unfold ConvOptions.primType
  rw [(C31.options_eq ho).2]
  cases e <;> rfl

theorem label_ty {e : Engine} {g : GenOptions} {o : ConvOptions} (ho : e.options g = .ok o) : o.labelType = .ok (.varChar (C48.textCls e) (some 64)) := by
  unfold ConvOptions.labelType
  rw [C48.text_annotated ho _ (by intro m hm; rw [List.mem_singleton] at hm; subst hm; exact trivial)]
  rfl

theorem number_fits {e : Engine} (he : Connects e) (n : Int) : Accepts e (.integer (if e = .oracle then .oracle else .base) 8 true none none) n ↔ NumberFits e n := by
  unfold NumberFits
  by_cases h : e = .oracle
  · rw [if_pos h, if_pos h]; subst h; exact C31.accepts_number _ _ _ _ _
  · rw [if_neg h, if_neg h, C31.accepts8, if_neg (by rcases he with rfl | rfl | rfl | rfl | rfl <;> decide)]
    exact ⟨fun h => h.2, fun h' => ⟨h, h'⟩⟩

theorem label_fits {e : Engine} (he : Connects e) (s : Text) : HoldsText e (.varChar (C48.textCls e) (some 64)) s ↔ LabelRoom e s := by
  rw [C48.holds_length]
  unfold LabelRoom
  rcases he with rfl | rfl | rfl | rfl | rfl <;> simp [C48.limitOf, limitBy]

/-- The value of a member, in the column of the enumeration. -/
theorem taken {e : Engine} (he : Connects e) {g : GenOptions} {o : ConvOptions} (ho : e.options g = .ok o) {d : EnumDecl} {x : PyVal} (hx : MemberValue d x)
    {ty : SqlType} (h : o.enumType d = .ok ty) : CarriesLabel e o.enumMode ty (.member x) x ↔ LabelsTaken e o.enumMode x := by
  have hk : d.kind = .int ∨ d.kind = .str := by rcases hx with ⟨h, _⟩ | ⟨h, _⟩ <;> simp [h]
  have h' : (match o.enumMode with
      | .type => (do pure (.user (← o.qualifiedId d.name)) : Except Err SqlType)
      | .inline => .ok (.enum d.labels)
      | .relation => .ok o.enumKeyType
      | .check => if d.kind = EnumKind.int then .ok (o.primType .int) else o.labelType) = .ok ty := by
    rw [← h]; unfold ConvOptions.enumType
    rcases hk with hk | hk <;> rw [hk] <;> cases o.enumMode <;> rfl
  clear h
  unfold CarriesLabel LabelsTaken
  cases hm : o.enumMode with
  | type =>
    have := mode_type he ho hm
    subst this
    rw [hm] at h'
    obtain ⟨q, _, hq⟩ := Conv.bind_ok.1 h'
    rw [Conv.pure_ok] at hq
    subst hq
    rcases hx with ⟨_, s, rfl, _⟩ | ⟨_, n, rfl⟩
    · exact ⟨fun _ => .inl ⟨s, rfl, (by decide), fun h => by cases h⟩, fun _ => ⟨rfl, (by decide), rfl⟩⟩
    · constructor
      · rintro ⟨_, _, h⟩; exact absurd h id
      · rintro (⟨s, h, _⟩ | ⟨n, _, h, _⟩) <;> cases h
  | inline =>
    have := mode_inline he ho hm
    subst this
    rw [hm] at h'
    cases h'
    rcases hx with ⟨_, s, rfl, hs⟩ | ⟨_, n, rfl⟩
    · exact ⟨fun _ => .inl ⟨s, rfl, (by decide), fun h => by cases h⟩, fun _ => ⟨rfl, (by decide), rfl, hs⟩⟩
    · constructor
      · rintro ⟨_, _, h⟩; exact absurd h id
      · rintro (⟨s, h, _⟩ | ⟨n, _, h, _⟩) <;> cases h
  | relation =>
    constructor
    · rintro ⟨_, h, _⟩; exact absurd rfl h
    · rintro (⟨s, _, h, _⟩ | ⟨n, _, h, _⟩)
      · exact absurd rfl h
      · cases h
  | check =>
    rw [hm] at h'
    dsimp only at h'
    rcases hx with ⟨hk, s, rfl, _⟩ | ⟨hk, n, rfl⟩
    · rw [if_neg (by rw [hk]; decide), label_ty ho] at h'
      cases h'
      constructor
      · rintro ⟨_, _, h⟩; exact .inl ⟨s, rfl, (by decide), fun _ => (label_fits he s).1 h⟩
      · rintro (⟨s', h, _, h2⟩ | ⟨n, h, _⟩)
        · cases h; exact ⟨rfl, (by decide), (label_fits he s).2 (h2 rfl)⟩
        · cases h
    · rw [if_pos hk, int_prim ho] at h'
      cases h'
      constructor
      · rintro ⟨_, _, h⟩; exact .inr ⟨n, rfl, rfl, (number_fits he n).1 h⟩
      · rintro (⟨s', h, _⟩ | ⟨n', h, _, h2⟩)
        · cases h
        · cases h; exact ⟨rfl, (by decide), (number_fits he n).2 h2⟩

theorem enum_ty {o : ConvOptions} {defs : PyDefs} {depth : Nat} {name : PyName} {d : EnumDecl} {ty : SqlType} (hd : defs.enum name = some d)
    (h : o.memberType defs depth (.enum name) = .ok ty) : o.enumType d = .ok ty := by
  cases depth with
  | zero => rw [ConvOptions.memberType] at h; cases h
  | succ k => rw [ConvOptions.memberType] at h; simp only [ConvOptions.simpleType, hd] at h; exact h

end C54

/-- **C54, exact, for enumerations**: when objects are inserted or updated, the value of the member is passed in a form that the column takes for it if, and only if, the field
    is not optional, and the column takes the values of the members. -/
theorem C54_enum (e : Engine) (he : Connects e) (g : GenOptions) (o : ConvOptions) (ho : e.options g = .ok o) (defs : PyDefs) (depth : Nat)
    (f : FieldDecl) (c : Column) (hc : o.memberColumn defs depth f = .ok c) (name : PyName) (hf : f.ty = .enum name) (d : EnumDecl) (hd : defs.enum name = some d)
    (x : PyVal) (hx : MemberValue d x) :
    ∃ b, e.extract f (.member x) = .ok b ∧ (CarriesLabel e o.enumMode c.ty (.member x) b ↔ f.nullable = false ∧ LabelsTaken e o.enumMode x) := by
  have hty : o.enumType d = .ok c.ty := by
    have := C54.column_ty hc
    rw [hf] at this
    exact C54.enum_ty hd this
  have hex : e.extract f (.member x) = if f.nullable = true then .ok (.member x) else .ok x := by
    have hb : baseExtract f (.member x) = if f.nullable = true then .ok (.member x) else .ok x := by unfold baseExtract; rw [hf]; rfl
    unfold Engine.extract
    rw [hb]
    have : f.isAddress = false := by unfold FieldDecl.isAddress; rw [hf]
    rw [this, hf]
    simp
  rw [hex]
  cases hn : f.nullable
  · refine ⟨x, rfl, ?_⟩
    rw [C54.taken he ho hx hty]
    simp
  · refine ⟨.member x, rfl, ?_⟩
    constructor
    · rintro ⟨_, _, h⟩
      exfalso
      revert h
      unfold TakesLabel
      split <;> intro h <;> first | exact h | (rename_i heq; cases heq)
    · rintro ⟨h, _⟩; cases h

/-- **C54, exact, for enumerations in records**: if the caller gives the enumeration as the type of the field, the value of the member is passed, which the column takes for it
    if, and only if, it takes the values of the members. -/
theorem C54_enum_rows (e : Engine) (he : Connects e) (g : GenOptions) (o : ConvOptions) (ho : e.options g = .ok o) (d : EnumDecl) (ty : SqlType)
    (hty : o.enumType d = .ok ty) (x : PyVal) (hx : MemberValue d x) :
    ∃ b, e.bindField ty .enum (.member x) = .ok b ∧ (CarriesLabel e o.enumMode ty (.member x) b ↔ LabelsTaken e o.enumMode x) := by
  refine ⟨x, ?_, C54.taken he ho hx hty⟩
  have hj : (∀ cc, ty ≠ .json cc) := by
    intro cc h
    subst h
    unfold ConvOptions.enumType at hty
    have : o.enumKeyType ≠ .json cc := by
      unfold ConvOptions.enumKeyType ConvOptions.primType
      rw [(C31.options_eq ho).2]
      rcases he with rfl | rfl | rfl | rfl | rfl <;> intro h <;> cases h
    have hk : d.kind = .int ∨ d.kind = .str := by rcases hx with ⟨h, _⟩ | ⟨h, _⟩ <;> simp [h]
    have h2 : o.primType .int ≠ .json cc := by rw [C54.int_prim ho]; intro h; cases h
    rcases hk with hk | hk <;> rw [hk] at hty <;> dsimp only at hty <;> cases hm : o.enumMode <;> rw [hm] at hty <;> dsimp only at hty
    · obtain ⟨q, _, hq⟩ := Conv.bind_ok.1 hty; cases hq
    · cases hty
    · exact this (Except.ok.inj hty)
    · rw [if_pos rfl] at hty; exact h2 (Except.ok.inj hty)
    · obtain ⟨q, _, hq⟩ := Conv.bind_ok.1 hty; cases hq
    · cases hty
    · exact this (Except.ok.inj hty)
    · rw [if_neg (by decide), C54.label_ty ho] at hty; cases hty
  have ht : e.transformer ty .enum = some PyVal.valueAttr := by
    have hbt : baseTransformer ty .enum = some PyVal.valueAttr := by
      unfold baseTransformer
      cases ty <;> first | exact absurd rfl (hj _) | rfl
    unfold Engine.transformer
    rw [hbt]
    simp
  unfold Engine.bindField
  rw [ht]
  dsimp only
  rw [if_neg (by intro h; cases h)]
  rfl

/-- **C54, records**: when records are inserted or updated, and the caller gives the types of the values, then UUIDs, addresses and times of day are passed in a form that
    the column stores as this value, also if the field is optional; and so are keys when rows are deleted. -/
theorem C54_rows (e : Engine) (he : Connects e) (g : GenOptions) (o : ConvOptions) (ho : e.options g = .ok o) (p : Prim) (rt : RowType) (hr : RowTypeOf p rt)
    (v : PyVal) (hv : ValueOf p v) :
    ∃ b name, e.bindField (o.primType p) rt v = .ok b ∧ e.bindKey (o.primType p) rt v = .ok b ∧ (o.primType p).str = .ok name ∧ Carries e name v b := by
  have hp : p = .uuid ∨ p = .ipv4 ∨ p = .ipv6 ∨ p = .time := by
    cases p <;> first | (simp; done) | (exact absurd hv (by cases v <;> exact id))
  have hnn : v ≠ .none := by rintro rfl; cases p <;> exact hv
  have hname := C54.name_ok he ho hp
  suffices ∃ b, (match e.transformer (o.primType p) rt with | some fn => fn v | none => .ok v) = .ok b ∧ Carries e (C54.nameOf e p) v b by
    obtain ⟨b, h1, h2⟩ := this
    refine ⟨b, _, ?_, h1, hname, h2⟩
    unfold Engine.bindField
    cases ht : e.transformer (o.primType p) rt with
    | none => rw [ht] at h1; exact h1
    | some fn => rw [ht] at h1; dsimp only; rw [if_neg hnn]; exact h1
  have hty : baseTransformer (o.primType p) rt = none := by
    unfold baseTransformer ConvOptions.primType
    rw [(C31.options_eq ho).2]
    rcases he with rfl | rfl | rfl | rfl | rfl <;> rcases hp with rfl | rfl | rfl | rfl <;> cases rt <;> first | exact absurd hr id | rfl
  unfold Engine.transformer
  rw [hty]
  by_cases hpg : e = .postgresql
  · subst hpg
    refine ⟨v, rfl, ?_⟩
    rcases hp with rfl | rfl | rfl | rfl <;> cases v <;> first | exact absurd hv id | exact .inl ⟨rfl, rfl, rfl⟩ | exact .inl ⟨by decide +kernel, rfl⟩
  · have hpk : e.packs = true := by rw [C54.packs_iff he]; simp [hpg]
    rw [if_pos hpk]
    rcases hp with rfl | rfl | rfl | rfl <;> cases v <;> first | exact absurd hv id | skip
    · cases rt <;> first | exact absurd hr id | exact ⟨_, rfl, C54.uuid_packed he hpg hv⟩
    · cases rt <;> first | exact absurd hr id | exact ⟨_, rfl, C54.ipv4_packed he hpg hv⟩
    · cases rt <;> first | exact absurd hr id | exact ⟨_, rfl, C54.ipv6_packed he hpg hv⟩
    · rename_i m
      cases rt <;> first | exact absurd hr id | skip
      by_cases hor : e = .oracle
      · subst hor
        exact ⟨_, rfl, .inr ⟨rfl, rfl, rfl⟩⟩
      · refine ⟨.time m, ?_, .inl ⟨?_, rfl⟩⟩
        · simp [hor]
        · rcases he with rfl | rfl | rfl | rfl | rfl <;> first | exact absurd rfl hpg | exact absurd rfl hor | decide +kernel

/-- **C54, keys**: `delete_data` passes the keys as they are, so with UUIDs and addresses it does so in a form that the column stores as the key if, and only if, the engine takes
    these as they are. -/
theorem C54_delete_data (e : Engine) (he : Connects e) (g : GenOptions) (o : ConvOptions) (ho : e.options g = .ok o) (p : Prim)
    (v : PyVal) (hv : ValueOf p v) :
    ∃ b name, e.bindDataKey v = .ok b ∧ (o.primType p).str = .ok name ∧ (Carries e name v b ↔ Native e p) := by
  have hp : p = .uuid ∨ p = .ipv4 ∨ p = .ipv6 ∨ p = .time := by
    cases p <;> first | (simp; done) | (exact absurd hv (by cases v <;> exact id))
  refine ⟨v, _, rfl, C54.name_ok he ho hp, ?_⟩
  have hc : o.memberColumn ⟨[], []⟩ 1 { name := t "id", ty := .prim p, nullable := true } =
      .ok { name := t "id", ty := o.primType p, nullable := true, default := none, identity := false } := rfl
  obtain ⟨b, name, h1, h2, h3⟩ := C54_extracted e he g o ho ⟨[], []⟩ 1 { name := t "id", ty := .prim p, nullable := true } _ hc p rfl v hv
  rw [C54.name_ok he ho hp] at h2
  cases h2
  have : b = v := by
    have hx : e.extract { name := t "id", ty := .prim p, nullable := true } v = .ok v := by
      unfold Engine.extract baseExtract
      have : (FieldDecl.isAddress { name := t "id", ty := .prim p, nullable := true }) = false := by
        rcases hp with rfl | rfl | rfl | rfl <;> rfl
      rw [this]
      simp [FieldDecl.bare]
    rw [hx] at h1; cases h1; rfl
  subst this
  rw [h3]
  simp [FieldDecl.bare]

/-- **C54, NULL**: `None` is passed as such, for optional fields of objects and for records. -/
theorem C54_null (e : Engine) (f : FieldDecl) (hn : f.nullable = true) (ty : SqlType) (rt : RowType) :
    e.extract f .none = .ok .none ∧ e.bindField ty rt .none = .ok .none := by
  constructor
  · have hb : baseExtract f .none = .ok .none := by
      unfold baseExtract
      split
      · rw [if_pos hn]
      · rfl
    have h1 : f.bare = false := by unfold FieldDecl.bare; rw [hn]; rfl
    have h2 : f.isAddress = false := by
      unfold FieldDecl.isAddress
      split <;> first | exact h1 | (rw [hn]; rfl) | rfl
    unfold Engine.extract
    rw [hb, h1, h2]
    simp
  · unfold Engine.bindField
    split
    · rw [if_pos rfl]
    · rfl

namespace C54

mutual
theorem encode_iff : ∀ v : PyVal, (∃ s, v.encode = .ok s) ↔ Jsonable v
  | .none => ⟨fun _ => trivial, fun _ => ⟨_, by rw [PyVal.encode]⟩⟩
  | .bool true => ⟨fun _ => trivial, fun _ => ⟨_, by rw [PyVal.encode]⟩⟩
  | .bool false => ⟨fun _ => trivial, fun _ => ⟨_, by rw [PyVal.encode]⟩⟩
  | .int n => ⟨fun _ => trivial, fun _ => ⟨_, by rw [PyVal.encode]⟩⟩
  | .str x => ⟨fun _ => trivial, fun _ => ⟨_, by rw [PyVal.encode]⟩⟩
  | .list items => by
    rw [PyVal.encode, Jsonable, ← items_iff items]
    constructor
    · rintro ⟨s, h⟩
      obtain ⟨a, h1, _⟩ := Conv.bind_ok.1 h
      exact ⟨a, h1⟩
    · rintro ⟨a, h⟩
      exact ⟨_, by rw [h]; rfl⟩
  | .dict items => by
    rw [PyVal.encode, Jsonable, ← members_iff items]
    constructor
    · rintro ⟨s, h⟩
      obtain ⟨a, h1, _⟩ := Conv.bind_ok.1 h
      exact ⟨a, h1⟩
    · rintro ⟨a, h⟩
      exact ⟨_, by rw [h]; rfl⟩
  | .bytes _ => ⟨fun ⟨s, h⟩ => by rw [PyVal.encode] at h <;> first | cases h | (intros; intro hh; cases hh), fun h => absurd h id⟩
  | .uuid _ => ⟨fun ⟨s, h⟩ => by rw [PyVal.encode] at h <;> first | cases h | (intros; intro hh; cases hh), fun h => absurd h id⟩
  | .ipv4 _ => ⟨fun ⟨s, h⟩ => by rw [PyVal.encode] at h <;> first | cases h | (intros; intro hh; cases hh), fun h => absurd h id⟩
  | .ipv6 _ => ⟨fun ⟨s, h⟩ => by rw [PyVal.encode] at h <;> first | cases h | (intros; intro hh; cases hh), fun h => absurd h id⟩
  | .time _ => ⟨fun ⟨s, h⟩ => by rw [PyVal.encode] at h <;> first | cases h | (intros; intro hh; cases hh), fun h => absurd h id⟩
  | .timedelta _ => ⟨fun ⟨s, h⟩ => by rw [PyVal.encode] at h <;> first | cases h | (intros; intro hh; cases hh), fun h => absurd h id⟩
  | .member _ => ⟨fun ⟨s, h⟩ => by rw [PyVal.encode] at h <;> first | cases h | (intros; intro hh; cases hh), fun h => absurd h id⟩
  | .set _ => ⟨fun ⟨s, h⟩ => by rw [PyVal.encode] at h <;> first | cases h | (intros; intro hh; cases hh), fun h => absurd h id⟩
  | .opaque _ => ⟨fun ⟨s, h⟩ => by rw [PyVal.encode] at h <;> first | cases h | (intros; intro hh; cases hh), fun h => absurd h id⟩
theorem items_iff : ∀ l : PyVals, (∃ s, l.encode = .ok s) ↔ JsonableAll l
  | .nil => ⟨fun _ => trivial, fun _ => ⟨_, by rw [PyVals.encode]⟩⟩
  | .cons v .nil => by
    rw [PyVals.encode, JsonableAll, JsonableAll, encode_iff v, and_true]
  | .cons v (.cons w l) => by
    rw [PyVals.encode, JsonableAll, ← encode_iff v, ← items_iff (.cons w l)]
    constructor
    · rintro ⟨s, h⟩
      obtain ⟨a, h1, h2⟩ := Conv.bind_ok.1 h
      obtain ⟨b, h3, _⟩ := Conv.bind_ok.1 h2
      exact ⟨⟨a, h1⟩, ⟨b, h3⟩⟩
    · rintro ⟨⟨a, h1⟩, ⟨b, h2⟩⟩
      exact ⟨_, by rw [h1, h2]; rfl⟩
theorem members_iff : ∀ l : PyItems, (∃ s, l.encode = .ok s) ↔ JsonableItems l
  | .nil => ⟨fun _ => trivial, fun _ => ⟨_, by rw [PyItems.encode]⟩⟩
  | .cons k v .nil => by
    rw [PyItems.encode, JsonableItems, JsonableItems, ← encode_iff v, and_true]
    constructor
    · rintro ⟨s, h⟩
      obtain ⟨a, h1, _⟩ := Conv.bind_ok.1 h
      exact ⟨a, h1⟩
    · rintro ⟨a, h⟩
      exact ⟨_, by rw [h]; rfl⟩
  | .cons k v (.cons k' w l) => by
    rw [PyItems.encode, JsonableItems, ← encode_iff v, ← members_iff (.cons k' w l)]
    constructor
    · rintro ⟨s, h⟩
      obtain ⟨a, h1, h2⟩ := Conv.bind_ok.1 h
      obtain ⟨b, h3, _⟩ := Conv.bind_ok.1 h2
      exact ⟨⟨a, h1⟩, ⟨b, h3⟩⟩
    · rintro ⟨⟨a, h1⟩, ⟨b, h2⟩⟩
      exact ⟨_, by rw [h1, h2]; rfl⟩
end

theorem is_json {v : PyVal} {s : Text} (h : v.encode = .ok s) : IsJson s v := by
  have := Json.value_back v s h (Json.size v) (Nat.le_refl _) [] (.inl rfl)
  rw [List.append_nil] at this
  exact ⟨_, _, this, rfl⟩

def docName : Engine → Text
  | .postgresql => t "jsonb"
  | .redshift => t "text"
  | .oracle => t "clob"
  | .mssql => t "varchar(max)"
  | _ => t "json"

theorem doc_name {e : Engine} (he : Connects e) {g : GenOptions} {o : ConvOptions} (ho : e.options g = .ok o) : (o.primType .json).str = .ok (docName e) := by
  unfold ConvOptions.primType
  rw [(C31.options_eq ho).2]
  rcases he with rfl | rfl | rfl | rfl | rfl <;> first | rfl | decide +kernel

theorem doc_stores {e : Engine} (he : Connects e) (s : Text) (v : PyVal) : StoresDocument e (docName e) s v ↔ DocumentFits e s v := by
  have room : ∀ (n : Nat), (∃ l, some ({ bytes := some n } : TextLimit) = some l ∧ (∀ n, l.chars = some n → s.length ≤ n) ∧ (∀ n, l.bytes = some n → utf8Length s ≤ n)) ↔
      utf8Length s ≤ n := by
    intro n
    constructor
    · rintro ⟨l, h, _, h2⟩; cases h; exact h2 n rfl
    · intro h; exact ⟨_, rfl, fun n h => (by cases h), fun m hm => (by cases hm; exact h)⟩
  unfold StoresDocument DocumentFits
  rcases he with rfl | rfl | rfl | rfl | rfl
  · constructor
    · rintro (⟨_, _, h⟩ | ⟨h, _⟩ | ⟨l, h, _⟩)
      · exact ⟨fun _ => h, fun h => (by cases h), fun h => (by cases h)⟩
      · cases h
      · exact absurd h (by rw [show textLimit .postgresql (docName .postgresql) = none from rfl]; intro h; cases h)
    · intro h; exact .inl ⟨rfl, rfl, h.1 rfl⟩
  · rw [show textLimit .redshift (docName .redshift) = some { bytes := some 256 } from rfl, room]
    simp
  · exact ⟨fun _ => ⟨fun h => (by cases h), fun h => (by cases h), fun h => (by cases h)⟩, fun _ => .inr (.inl ⟨rfl, rfl⟩)⟩
  · exact ⟨fun _ => ⟨fun h => (by cases h), fun h => (by cases h), fun h => (by cases h)⟩,
      fun _ => .inr (.inr ⟨{}, rfl, fun n h => (by cases h), fun n h => (by cases h)⟩)⟩
  · rw [show textLimit .mssql (docName .mssql) = some { bytes := some (2 ^ 31 - 1) } from rfl, room]
    simp

theorem doc_transformer {e : Engine} (he : Connects e) {g : GenOptions} {o : ConvOptions} (ho : e.options g = .ok o) {rt : RowType}
    (hrt : DocumentType e rt ∨ rt = .set) : e.transformer (o.primType .json) rt = some (fun v => do return .str (← v.encode)) := by
  unfold Engine.transformer baseTransformer ConvOptions.primType
  rw [(C31.options_eq ho).2]
  rcases hrt with (rfl | rfl | ⟨rfl, rfl | rfl⟩) | rfl <;> first | rfl | (rcases he with rfl | rfl | rfl | rfl | rfl <;> rfl)

theorem string_shorter : ∀ (n : Nat) (s : Text), s.length ≤ n → ∀ r rest, readJsonString s = some (r, rest) → r.length < s.length
  | 0, s, hs, r, rest, h => by
    cases s with
    | nil => cases h
    | cons c s => simp at hs
  | n + 1, s, hs, r, rest, h => by
    cases s with
    | nil => cases h
    | cons c s =>
      have hs : s.length ≤ n := by simpa using hs
      rw [List.length_cons]
      unfold readJsonString at h
      split at h
      · cases h; exact Nat.succ_pos _
      split at h
      · split at h
        · cases h
        rename_i x s'
        rw [List.length_cons] at hs ⊢
        split at h
        · split at h
          · rename_i a b c' d s''
            split at h
            · rename_i ch r' rest' _ h2
              cases h
              simp only [List.length_cons] at hs ⊢
              have := string_shorter n _ (by omega) _ _ h2
              omega
            · cases h
          · cases h
        · split at h
          · rename_i ch r' rest' _ h2
            cases h
            have := string_shorter n _ (by omega) _ _ h2
            simp only [List.length_cons]
            omega
          · cases h
      · split at h
        · cases h
        · split at h
          · rename_i r' rest' h2
            cases h
            have := string_shorter n _ hs _ _ h2
            simp only [List.length_cons]
            omega
          · cases h

theorem skip_shorter (s : Text) : (skipSpace s).length ≤ s.length := by
  unfold skipSpace
  exact (List.dropWhile_sublist _).length_le

/-- A string is not its own JSON text. -/
theorem not_own (s : Text) : ¬ IsJson s (.str s) := by
  rintro ⟨k, rest, h, _⟩
  cases k with
  | zero => cases h
  | succ k =>
    unfold readJson at h
    have hl := skip_shorter s
    split at h
    · cases h
    rename_i c s' e
    rw [e, List.length_cons] at hl
    split at h
    · split at h <;> cases h
    split at h
    · split at h <;> cases h
    split at h
    · split at h <;> cases h
    split at h
    · cases hr : readJsonString s' with
      | none => rw [hr] at h; cases h
      | some p =>
        rw [hr] at h
        have h1 := congrArg Prod.fst (Option.some.inj h)
        have h2 : p.1 = s := PyVal.str.inj h1
        have := string_shorter _ s' (Nat.le_refl _) p.1 p.2 hr
        rw [h2] at this
        omega
    split at h
    · cases hr : readJsonNat s' with
      | none => rw [hr] at h; cases h
      | some p => rw [hr] at h; cases h
    split at h
    · split at h
      · cases h
      · cases hr : readJsonItems k s' with
        | none => rw [hr] at h; cases h
        | some p => rw [hr] at h; cases h
    split at h
    · split at h
      · cases h
      · cases hr : readJsonMembers k s' with
        | none => rw [hr] at h; cases h
        | some p => rw [hr] at h; cases h
    · cases hr : readJsonNat (c :: s') with
      | none => rw [hr] at h; cases h
      | some p => rw [hr] at h; cases h

end C54

/-- **C54, exact, for documents in records**: a parameter is made if, and only if, the value consists of `None`, truth values, integers, strings, lists and dictionaries; it is
    the JSON text of the value, and the column stores it as long as the document fits. -/
theorem C54_json_rows (e : Engine) (he : Connects e) (g : GenOptions) (o : ConvOptions) (ho : e.options g = .ok o) (rt : RowType) (hrt : DocumentType e rt)
    (v : PyVal) (hv : v ≠ .none) :
    ((∃ b, e.bindField (o.primType .json) rt v = .ok b) ↔ Jsonable v) ∧
    ∀ b, e.bindField (o.primType .json) rt v = .ok b → ∃ s name, b = .str s ∧ IsJson s v ∧ (o.primType .json).str = .ok name ∧
      (CarriesJson e name v b ↔ DocumentFits e s v) := by
  have hb : e.bindField (o.primType .json) rt v = (do return .str (← v.encode)) := by
    unfold Engine.bindField
    rw [C54.doc_transformer he ho (.inl hrt)]
    dsimp only
    rw [if_neg hv]
  rw [hb, ← C54.encode_iff]
  refine ⟨⟨?_, ?_⟩, ?_⟩
  · rintro ⟨b, h⟩
    obtain ⟨s, h1, _⟩ := Conv.bind_ok.1 h
    exact ⟨s, h1⟩
  · rintro ⟨s, h⟩
    exact ⟨_, by rw [h]; rfl⟩
  · intro b h
    obtain ⟨s, h1, h2⟩ := Conv.bind_ok.1 h
    rw [Conv.pure_ok] at h2
    refine ⟨s, _, h2.symm, C54.is_json h1, C54.doc_name he ho, ?_⟩
    rw [← C54.doc_stores he s v]
    constructor
    · rintro ⟨s', h3, _, h4⟩
      rw [← h2] at h3; cases h3
      exact h4
    · intro h4; exact ⟨s, h2.symm, C54.is_json h1, h4⟩

/-- **C54 fails for documents in objects**: when objects are inserted or updated, a field whose column is for documents is passed as it is, so that no column stores it as the
    JSON text of the value. -/
theorem C54_json_objects_fail (e : Engine) (f : FieldDecl)
    (hf : f.ty = .prim .json ∨ (∃ n, f.ty = .cls n) ∨ (∃ i, f.ty = .list i) ∨ (∃ i, f.ty = .set i)) (v : PyVal) (name : Text) :
    e.extract f v = .ok v ∧ ¬ CarriesJson e name v v := by
  constructor
  · have hb : baseExtract f v = .ok v := by
      unfold baseExtract
      rcases hf with h | ⟨n, h⟩ | ⟨n, h⟩ | ⟨n, h⟩ <;> rw [h]
    have h2 : f.isAddress = false := by
      unfold FieldDecl.isAddress
      rcases hf with h | ⟨n, h⟩ | ⟨n, h⟩ | ⟨n, h⟩ <;> rw [h]
    have h3 : f.ty ≠ .prim .uuid ∧ f.ty ≠ .prim .time := by
      rcases hf with h | ⟨n, h⟩ | ⟨n, h⟩ | ⟨n, h⟩ <;> rw [h] <;> exact ⟨fun h => (by cases h), fun h => (by cases h)⟩
    unfold Engine.extract
    rw [hb, h2]
    simp [h3.1, h3.2]
  · rintro ⟨s, rfl, h, _⟩
    exact C54.not_own s h

/-- **C54 fails for sets in records**: they are not JSON for the encoder. -/
theorem C54_set_fails (e : Engine) (he : Connects e) (g : GenOptions) (o : ConvOptions) (ho : e.options g = .ok o) (items : PyVals) :
    e.bindField (o.primType .json) .set (.set items) = .error .type := by
  unfold Engine.bindField
  rw [C54.doc_transformer he ho (.inr rfl)]
  dsimp only
  rw [if_neg (by intro h; cases h)]
  have : (PyVal.set items).encode = .error .type := by rw [PyVal.encode] <;> intros <;> rename_i hh <;> cases hh
  rw [this]
  rfl

/-! ### Examples -/

namespace C54.Example

def g : GenOptions := { mapping := fun _ => .ok none }
def o (e : Engine) : ConvOptions := (e.options g).toOption.getD { enumMode := .type, structMode := .type, arrayMode := .array, mapping := fun _ => .ok none }
theorem o_ok (e : Engine) : e.options g = .ok (o e) := by cases e <;> rfl

/-- `key: PrimaryKey[UUID]` and `token: UUID`, in MySQL. -/
def keyField : FieldDecl := { name := t "key", ty := .prim .uuid, primary := true }
def tokenField : FieldDecl := { name := t "token", ty := .prim .uuid }
def value : Nat := 0x0123456789abcdef0123456789abcdef

/-- `C54_extracted` applies: the UUID that is not a key gets to the column, the key does not. -/
example : ∃ b name, Engine.extract .mysql tokenField (.uuid value) = .ok b ∧ ((o .mysql).primType .uuid).str = .ok name ∧ Carries .mysql name (.uuid value) b := by
  obtain ⟨b, name, h1, h2, h3⟩ := C54_extracted .mysql (by simp [Connects]) g _ (o_ok _) ⟨[], []⟩ 1 tokenField _ rfl .uuid rfl (.uuid value)
    (show value < 2 ^ 128 from by decide)
  exact ⟨b, name, h1, h2, h3.2 (.inl rfl)⟩
example : ∃ b name, Engine.extract .mysql keyField (.uuid value) = .ok b ∧ ((o .mysql).primType .uuid).str = .ok name ∧ ¬ Carries .mysql name (.uuid value) b := by
  obtain ⟨b, name, h1, h2, h3⟩ := C54_extracted .mysql (by simp [Connects]) g _ (o_ok _) ⟨[], []⟩ 1 keyField _ rfl .uuid rfl (.uuid value)
    (show value < 2 ^ 128 from by decide)
  exact ⟨b, name, h1, h2, fun h => absurd (h3.1 h) (by rintro (h | h) <;> cases h)⟩

/-- `C54_addresses` applies: 127.0.0.1 in MySQL becomes `7f00:1::`. -/
def host : FieldDecl := { name := t "host", ty := .union (.cons (.prim .ipv4) (.cons (.prim .ipv6) .nil)) }
def hostColumn : Column := { name := t "host", ty := .fixedBinary .base (some 16), nullable := false }
example : ∃ b name, Engine.extract .mysql host (.ipv4 0x7f000001) = .ok b ∧ hostColumn.ty.str = .ok name ∧ ¬ Carries .mysql name (.ipv4 0x7f000001) b := by
  obtain ⟨b, name, h1, h2, h3⟩ := C54_addresses .mysql (by simp [Connects]) g _ (o_ok _) ⟨[], []⟩ 2 host hostColumn rfl _ rfl (.inl rfl) (.ipv4 0x7f000001)
    (.inl (show 0x7f000001 < 2 ^ 32 from by decide))
  refine ⟨b, name, h1, h2, fun h => absurd (h3.1 h) ?_⟩
  rintro (h | ⟨_, h | h | h⟩) <;> cases h
example : storedBytes .mysql (t "binary(16)") (toBytes 4 0x7f000001) = some [127, 0, 0, 1, 0, 0, 0, 0, 0, 0, 0, 0, 0, 0, 0, 0] := by decide +kernel

/-- `C54_enum` applies. -/
def color : EnumDecl := { name := (t "m", t "Color"), kind := .str, labels := [t "red", t "blue"], constants := [t "'red'", t "'blue'"] }
def colorField : FieldDecl := { name := t "color", ty := .enum (t "m", t "Color") }
example : ∃ b, Engine.extract .mysql colorField (.member (.str (t "red"))) = .ok b ∧
    CarriesLabel .mysql .inline (.enum color.labels) (.member (.str (t "red"))) b := by
  obtain ⟨b, h1, h2⟩ := C54_enum .mysql (by simp [Connects]) g _ (o_ok _) ⟨[], [color]⟩ 1 colorField _ rfl (t "m", t "Color") rfl color rfl (.str (t "red"))
    (.inl ⟨rfl, _, rfl, List.mem_cons_self⟩)
  exact ⟨b, h1, h2.2 ⟨rfl, .inl ⟨_, rfl, (by decide), fun h => (by cases h)⟩⟩⟩

/-- `C54_rows` applies: an optional UUID in a record. -/
example : ∃ b name, Engine.bindField .oracle ((o .oracle).primType .uuid) .uuid (.uuid value) = .ok b ∧ ((o .oracle).primType .uuid).str = .ok name ∧
    Carries .oracle name (.uuid value) b := by
  obtain ⟨b, name, h1, _, h2, h3⟩ := C54_rows .oracle (by simp [Connects]) g _ (o_ok _) .uuid .uuid trivial (.uuid value) (show value < 2 ^ 128 from by decide)
  exact ⟨b, name, h1, h2, h3⟩

/-- `C54_json_rows` applies. -/
def doc : PyVal := .dict (.cons (t "a\"b") (.list (.cons (.int (-5)) (.cons .none (.cons (.str [Char.ofNat 10, 'é']) .nil)))) (.cons (t "c") (.bool true) .nil))
example : ∃ b, Engine.bindField .postgresql ((o .postgresql).primType .json) .dict doc = .ok b ∧ CarriesJson .postgresql (t "jsonb") doc b := by
  have h := C54_json_rows .postgresql (by simp [Connects]) g _ (o_ok _) .dict (.inl rfl) doc (by intro h; cases h)
  obtain ⟨b, hb⟩ := h.1.2 (by simp [doc, Jsonable, JsonableAll, JsonableItems])
  obtain ⟨s, name, _, _, hn, hc⟩ := h.2 b hb
  have : name = t "jsonb" := by
    have : ((o .postgresql).primType .json).str = .ok (t "jsonb") := rfl
    rw [this] at hn; cases hn; rfl
  subst this
  exact ⟨b, hb, hc.2 ⟨fun _ => (by decide +kernel), fun h => (by cases h), fun h => (by cases h)⟩⟩
example : doc.encode.toOption = some (t "{\"a\\\"b\":[-5,null,\"\\né\"],\"c\":true}") := by decide +kernel

/-- `C54_json_objects_fail` applies to a field with a JSON document. -/
example : Engine.extract .postgresql { name := t "doc", ty := .prim .json } doc = .ok doc ∧ ¬ CarriesJson .postgresql (t "jsonb") doc doc :=
  C54_json_objects_fail _ _ (.inl rfl) _ _

end C54.Example

end PySqlSync
