/-
Helper lemmas: the actions emitted for one column.
-/
import Verif.Lemmas.Table
import Verif.Spec.Safe

set_option autoImplicit false

namespace PySqlSync
open Spec

/-- What the definition of a column in a statement says. -/
theorem dataSpec_ok {d : Dialect} {c : Column} {spec : ColSpec} (h : c.dataSpec d = .ok spec)
    (hok : (Spec.Column.state d c).Ok) (hdelta : d = .delta → c.default = none) :
    Spec.ColSpec.state spec = Spec.Column.state d c ∧
      spec.defaultName = (if d = .mssql then spec.default.map (fun _ => defaultConstraintName c.name) else none) := by
  unfold PySqlSync.Column.dataSpec at h
  cases hc : c.comment d with
  | error e => simp [hc, bind, Except.bind] at h
  | ok comment =>
    simp only [hc, bind, Except.bind, pure, Except.pure, Except.ok.injEq] at h
    subst h
    have hid : c.identity = true → c.nullable = false := fun h => (hok h).1
    constructor
    · have hn : (!((!c.nullable && !c.identity) || c.identity)) = c.nullable := by
        cases hi : c.identity <;> cases hn : c.nullable <;> simp_all
      have hn' : (!((!c.nullable) || c.identity)) = c.nullable := by
        cases hi : c.identity <;> cases hn : c.nullable <;> simp_all
      cases d
      case delta => simp [Spec.ColSpec.state, Spec.Column.state, hdelta rfl] at hn ⊢; exact hn
      all_goals simp only [Spec.ColSpec.state, Spec.Column.state, hn, hn']
    · cases d <;> simp only [if_true, reduceCtorEq, if_false]
      cases c.default <;> rfl

section
variable {d : Dialect} {E : Engine} {K : Kinds} {cols : Text → Option ColState} {pk : List Text}
  {cons : Text → Option ConState}

/-- The predicate kept by each action. -/
def Good (K : Kinds) (pk : List Text) (ts : TableState) : Prop := ts.Fits K ∧ ts.pk = pk

/-- Admissible definitions of a column. -/
structure ColGood (K : Kinds) (pk : List Text) (n : Text) (c : ColState) : Prop where
  ok : c.Ok
  ty : TypeFits K c.ty
  pk : n ∈ pk → c.nullable = false

theorem run_onCol (hfit : (mkT d cols pk cons).Fits K) {n : Text} {c c' : ColState} {f : ColState → Option ColState}
    {a : Action} (ha : ∀ ts, stepAction E ts a = TableState.onCol ts n f) (hf : f c = some c')
    (hdef : d = .mssql → c.default.isSome = c'.default.isSome) (hg : ColGood K pk n c') :
    ActRun E (Good K pk) (mkT d (upd cols n (some c)) pk cons) [a] (mkT d (upd cols n (some c')) pk cons) := by
  apply ActRun.single
  · rw [ha, step_onCol n c c' f (upd_same _ _ _) hf hdef, upd_upd]
  · exact ⟨fits_setCol hfit n c' hg.ok hg.ty hg.pk, rfl⟩

/-- The actions emitted for a common column lead from any state that agrees with the source where the source agrees
    with the target, to the target's definition. -/
theorem run_mutateColumn (hfit : (mkT d cols pk cons).Fits K) {s u : Column} {acts : List Action} {c0 : ColState}
    (hacts : mutateColumn d s u = .ok acts)
    (h0 : cols s.name = some c0)
    (hty : s.ty = u.ty → c0.ty = u.ty)
    (hnull : s.nullable = u.nullable → c0.nullable = u.nullable)
    (hdef : s.default = u.default → c0.default = (Spec.Column.state d u).default)
    (hdef' : d = .mssql → c0.default = (Spec.Column.state d u).default)
    (hid0 : d ≠ .mysql → d ≠ .oracle → c0.identity = s.identity)
    (hidu : s.identity = u.identity → c0.identity = u.identity)
    (hs : (Spec.Column.state d s).Ok)
    (hu : ColGood K pk s.name (Spec.Column.state d u))
    (hc0 : ColGood K pk s.name c0)
    (hdelta : d = .delta → u.default = none)
    (hsnow : d = .snowflake → ∀ e, u.default = some e → defaultExpr d u.ty e = e)
    (hident : d ≠ .mysql → d ≠ .oracle → s.identity = true → u.identity = false →
      u.nullable = false ∧ u.default = none) :
    ActRun E (Good K pk) (mkT d cols pk cons) acts
      (mkT d (upd cols s.name (some (Spec.Column.state d u))) pk cons) := by
  have hself : mkT d cols pk cons = mkT d (upd cols s.name (some c0)) pk cons := by rw [upd_self _ _ _ h0]
  have huid : u.identity = true → u.nullable = false ∧ u.default = none := by
    intro h
    have := hu.ok h
    simpa [Spec.Column.state] using this
  have hsid : s.identity = true → s.nullable = false ∧ s.default = none := by
    intro h
    have := hs h
    simpa [Spec.Column.state] using this
  have hdone : c0 = Spec.Column.state d u → acts = [] → ActRun E (Good K pk) (mkT d cols pk cons) acts
      (mkT d (upd cols s.name (some (Spec.Column.state d u))) pk cons) := by
    intro h1 h2
    subst h2
    rw [hself, h1]
    exact .nil _
  by_cases hmy : d = .mysql
  · subst hmy
    unfold mutateColumn at hacts
    simp only at hacts
    split at hacts
    · cases hsp : u.dataSpec .mysql with
      | error e => simp [hsp, bind, Except.bind] at hacts
      | ok spec =>
        simp only [hsp, bind, Except.bind, pure, Except.pure, Except.ok.injEq] at hacts
        subst hacts
        rw [hself]
        have := (dataSpec_ok hsp hu.ok (by intro h; cases h)).1
        exact run_onCol hfit (c := c0) (f := fun _ => some (Spec.ColSpec.state spec)) (fun _ => rfl)
          (by rw [this]) (by intro h; cases h) hu
    · rename_i hsame
      simp at hsame
      have hc0' : c0 = Spec.Column.state .mysql u := by
        obtain ⟨⟨⟨h1, h2⟩, h3⟩, h4⟩ := hsame
        have := hty h1
        have := hnull h2
        have := hdef h3
        have := hidu h4
        cases c0
        simp_all [Spec.Column.state]
      simp only [bind, Except.bind] at hacts
      cases h1 : s.comment .mysql with
      | error e => simp [h1] at hacts
      | ok v1 =>
        cases h2 : u.comment .mysql with
        | error e => simp [h1, h2] at hacts
        | ok v2 =>
          simp only [h1, h2] at hacts
          split at hacts
          · cases hsp : u.dataSpec .mysql with
            | error e => simp [hsp] at hacts
            | ok spec =>
              simp only [hsp, pure, Except.pure, Except.ok.injEq] at hacts
              subst hacts
              rw [hself]
              have := (dataSpec_ok hsp hu.ok (by intro h; cases h)).1
              exact run_onCol hfit (c := c0) (f := fun _ => some (Spec.ColSpec.state spec)) (fun _ => rfl)
                (by rw [this]) (by intro h; cases h) hu
          · simp only [pure, Except.pure, Except.ok.injEq] at hacts
            exact hdone hc0' hacts.symm
  by_cases hor : d = .oracle
  · subst hor
    unfold mutateColumn at hacts
    simp only at hacts
    generalize e1 : (if s.ty ≠ u.ty then some u.ty else none) = x1 at hacts
    generalize e2 : (if s.default ≠ u.default then some (u.default.map (defaultExpr .oracle u.ty)) else none) = x2 at hacts
    generalize e3 : (if s.nullable ≠ u.nullable then some u.nullable else none) = x3 at hacts
    generalize e4 : (if s.identity ≠ u.identity then some u.identity else none) = x4 at hacts
    split at hacts
    · replace hacts := Except.ok.inj hacts
      subst hacts
      rw [hself]
      refine run_onCol hfit (c := c0) (fun _ => rfl) ?_ (by intro h; cases h) hu
      simp only [Option.some.injEq]
      simp only [Spec.Column.state, ColState.mk.injEq]
      subst e1 e2 e3 e4
      refine ⟨?_, ?_, ?_, ?_⟩
      · by_cases h : s.ty = u.ty <;> simp [h, hty]
      · by_cases h : s.nullable = u.nullable <;> simp [h, hnull]
      · by_cases h : s.default = u.default
        · simp [h, hdef, Spec.Column.state]
        · simp [h]
      · by_cases h : s.identity = u.identity <;> simp [h, hidu]
    · rename_i hsame
      replace hacts := Except.ok.inj hacts
      have hsame' : s.ty = u.ty ∧ s.default = u.default ∧ s.nullable = u.nullable ∧ s.identity = u.identity := by
        subst e1 e2 e3 e4
        simp only [Bool.or_eq_true, not_or] at hsame
        obtain ⟨⟨⟨h1, h2⟩, h3⟩, h4⟩ := hsame
        refine ⟨?_, ?_, ?_, ?_⟩
        · exact Classical.byContradiction (fun h => by simp [h] at h1)
        · exact Classical.byContradiction (fun h => by simp [h] at h2)
        · exact Classical.byContradiction (fun h => by simp [h] at h3)
        · exact Classical.byContradiction (fun h => by simp [h] at h4)
      obtain ⟨h1, h2, h3, h4⟩ := hsame'
      refine hdone ?_ hacts.symm
      have := hty h1
      have := hnull h3
      have := hdef h2
      have := hidu h4
      cases c0
      simp_all [Spec.Column.state]
  have hid := hid0 hmy hor
  by_cases hms : d = .mssql
  · subst hms
    unfold mutateColumn at hacts
    simp only at hacts
    split at hacts
    · simp at hacts
    · rename_i hidd
      simp at hidd
      split at hacts
      · simp only [Except.ok.injEq] at hacts
        subst hacts
        rw [hself]
        refine run_onCol hfit (c := c0) (fun _ => rfl) ?_ ?_ hu
        · have h1 := hdef' rfl
          have h2 := hid
          rw [hidd] at h2
          simp only [Option.some.injEq]
          cases c0
          simp_all [Spec.Column.state]
        · intro _; rw [hdef' rfl]
      · rename_i hsame
        simp at hsame
        simp only [Except.ok.injEq] at hacts
        refine hdone ?_ hacts.symm
        have h1 := hdef' rfl
        rw [hidd] at hid
        have := hty hsame.1
        have := hnull hsame.2
        cases c0
        simp_all [Spec.Column.state]
  · -- the statements of the base class
    have hdefE : ∀ e, u.default = some e → (Spec.Column.state d u).default = some e := by
      intro e he
      have : defaultExpr d u.ty e = e := by
        cases d <;> simp_all [defaultExpr]
      simp [Spec.Column.state, he, this]
    have hdefN : u.default = none → (Spec.Column.state d u).default = none := by
      intro he; simp [Spec.Column.state, he]
    have key : s ≠ u → acts =
      (if s.ty ≠ u.ty then [Action.setDataType s.name u.ty] else [])
      ++ (if s.nullable && !u.nullable then [Action.setNotNull s.name]
          else if !s.nullable && u.nullable then [Action.dropNotNull s.name] else [])
      ++ (match s.default, u.default with
          | some _, none => [Action.dropDefault s.name]
          | _, some e => if s.default ≠ u.default then [Action.setDefault s.name e] else []
          | none, none => [])
      ++ (if s.identity && !u.identity then [Action.dropIdentity s.name]
          else if !s.identity && u.identity then [Action.addIdentity s.name] else []) := by
      intro hne
      unfold mutateColumn at hacts
      cases d <;> simp only [hne, if_false, Except.ok.injEq] at hacts <;>
        first
          | exact hacts.symm
          | exact absurd rfl hmy
          | exact absurd rfl hor
          | exact absurd rfl hms
    by_cases hsu : s = u
    · have hnil : acts = [] := by
        unfold mutateColumn at hacts
        cases d <;> simp_all
      refine hdone ?_ hnil
      subst hsu
      have := hty rfl
      have := hnull rfl
      have := hdef rfl
      cases c0
      simp_all [Spec.Column.state]
    · rw [key hsu]
      have hnid : c0.identity = true → u.nullable = false ∧ u.default = none := by
        intro h
        rw [hid] at h
        cases hu' : u.identity with
        | true => exact huid hu'
        | false => exact hident hmy hor h hu'
      -- intermediate definitions
      let c1 : ColState := { c0 with ty := u.ty }
      let c2 : ColState := { c1 with nullable := u.nullable }
      let c3 : ColState := { c2 with default := (Spec.Column.state d u).default }
      have g1 : ColGood K pk s.name c1 := ⟨hc0.ok, hu.ty, hc0.pk⟩
      have g2 : ColGood K pk s.name c2 :=
        ⟨fun h => ⟨(hnid h).1, (hc0.ok h).2⟩, hu.ty, hu.pk⟩
      have g3 : ColGood K pk s.name c3 :=
        ⟨fun h => ⟨(hnid h).1, hdefN (hnid h).2⟩, hu.ty, hu.pk⟩
      have r1 : ActRun E (Good K pk) (mkT d cols pk cons)
          (if s.ty ≠ u.ty then [Action.setDataType s.name u.ty] else [])
          (mkT d (upd cols s.name (some c1)) pk cons) := by
        rw [hself]
        split
        · exact run_onCol hfit (c := c0) (c' := c1) (fun _ => rfl) rfl (fun h => absurd h hms) g1
        · rename_i h
          have h' : s.ty = u.ty := by simpa using h
          have : c1 = c0 := by simp only [c1, ← hty h']
          rw [this]; exact .nil _
      have r2 : ActRun E (Good K pk) (mkT d (upd cols s.name (some c1)) pk cons)
          (if s.nullable && !u.nullable then [Action.setNotNull s.name]
            else if !s.nullable && u.nullable then [Action.dropNotNull s.name] else [])
          (mkT d (upd cols s.name (some c2)) pk cons) := by
        split
        · rename_i h
          simp at h
          refine run_onCol hfit (c := c1) (c' := c2) (fun _ => rfl) ?_ (fun h => absurd h hms) g2
          simp [c2, h.2]
        · split
          · rename_i h
            simp at h
            refine run_onCol hfit (c := c1) (c' := c2) (fun _ => rfl) ?_ (fun h => absurd h hms) g2
            have : c0.identity = false := by
              cases hc : c0.identity with
              | false => rfl
              | true => have := (hnid hc).1; simp_all
            simp [c1, c2, h.2, this]
          · rename_i h1 h2
            have h' : s.nullable = u.nullable := by
              cases h3 : s.nullable <;> cases h4 : u.nullable <;> simp_all
            have : c2 = c1 := by simp only [c2, c1, ← hnull h']
            rw [this]; exact .nil _
      have r3 : ActRun E (Good K pk) (mkT d (upd cols s.name (some c2)) pk cons)
          (match s.default, u.default with
            | some _, none => [Action.dropDefault s.name]
            | _, some e => if s.default ≠ u.default then [Action.setDefault s.name e] else []
            | none, none => [])
          (mkT d (upd cols s.name (some c3)) pk cons) := by
        have hsame : s.default = u.default → c3 = c2 := by
          intro h
          have := hdef h
          simp only [c3, c2, c1, this]
        cases hsd : s.default with
        | none =>
          cases hud : u.default with
          | none =>
            simp only
            rw [hsame (by rw [hsd, hud])]; exact .nil _
          | some e =>
            simp only
            rw [if_pos (by simp)]
            refine run_onCol hfit (c := c2) (c' := c3) (fun _ => rfl) ?_ (fun h => absurd h hms) g3
            have : c0.identity = false := by
              cases hc : c0.identity with
              | false => rfl
              | true => have := (hnid hc).2; simp_all
            simp [c3, c2, c1, this, hdefE e hud]
        | some e0 =>
          cases hud : u.default with
          | none =>
            simp only
            refine run_onCol hfit (c := c2) (c' := c3) (fun _ => rfl) ?_ (fun h => absurd h hms) g3
            have : c0.identity = false := by
              cases hc : c0.identity with
              | false => rfl
              | true => rw [hid] at hc; have := (hsid hc).2; simp_all
            simp [c3, c2, c1, this, hdefN hud]
          | some e =>
            simp only
            split
            · refine run_onCol hfit (c := c2) (c' := c3) (fun _ => rfl) ?_ (fun h => absurd h hms) g3
              have : c0.identity = false := by
                cases hc : c0.identity with
                | false => rfl
                | true => have := (hnid hc).2; simp_all
              simp [c3, c2, c1, this, hdefE e hud]
            · rename_i h
              rw [hsame (by rw [hsd, hud]; simpa using h)]; exact .nil _
      have r4 : ActRun E (Good K pk) (mkT d (upd cols s.name (some c3)) pk cons)
          (if s.identity && !u.identity then [Action.dropIdentity s.name]
            else if !s.identity && u.identity then [Action.addIdentity s.name] else [])
          (mkT d (upd cols s.name (some (Spec.Column.state d u))) pk cons) := by
        split
        · rename_i h
          simp at h
          refine run_onCol hfit (c := c3) (fun _ => rfl) ?_ (fun h => absurd h hms) hu
          simp [c3, c2, c1, hid, h.1, Spec.Column.state, h.2]
        · split
          · rename_i h
            simp at h
            refine run_onCol hfit (c := c3) (fun _ => rfl) ?_ (fun h => absurd h hms) hu
            have := huid h.2
            simp [c3, c2, c1, hid, h.1, Spec.Column.state, h.2, this.1, this.2]
          · rename_i h1 h2
            have h' : s.identity = u.identity := by
              cases h3 : s.identity <;> cases h4 : u.identity <;> simp_all
            have : Spec.Column.state d u = c3 := by
              simp [c3, c2, c1, Spec.Column.state, hid, h']
            rw [this]; exact .nil _
      exact ((r1.append r2).append r3).append r4

/-- The same; nothing need hold of the states in between on MySQL, which has a single statement. -/
theorem run_mutateColumn' (hfit : d = .mysql ∨ Good K pk (mkT d cols pk cons)) {s u : Column} {acts : List Action}
    {c0 : ColState}
    (hacts : mutateColumn d s u = .ok acts)
    (h0 : cols s.name = some c0)
    (hty : s.ty = u.ty → c0.ty = u.ty)
    (hnull : s.nullable = u.nullable → c0.nullable = u.nullable)
    (hdef : s.default = u.default → c0.default = (Spec.Column.state d u).default)
    (hdef' : d = .mssql → c0.default = (Spec.Column.state d u).default)
    (hid0 : d ≠ .mysql → d ≠ .oracle → c0.identity = s.identity)
    (hidu : s.identity = u.identity → c0.identity = u.identity)
    (hs : (Spec.Column.state d s).Ok)
    (hu : ColGood K pk s.name (Spec.Column.state d u))
    (hc0 : ColGood K pk s.name c0)
    (hdelta : d = .delta → u.default = none)
    (hsnow : d = .snowflake → ∀ e, u.default = some e → defaultExpr d u.ty e = e)
    (hident : d ≠ .mysql → d ≠ .oracle → s.identity = true → u.identity = false →
      u.nullable = false ∧ u.default = none) :
    ActRun E (fun ts => d = .mysql ∨ Good K pk ts) (mkT d cols pk cons) acts
      (mkT d (upd cols s.name (some (Spec.Column.state d u))) pk cons) := by
  by_cases hmy : d = .mysql
  · subst hmy
    have hself : mkT .mysql cols pk cons = mkT .mysql (upd cols s.name (some c0)) pk cons := by rw [upd_self _ _ _ h0]
    have hrun : ∀ spec, u.dataSpec .mysql = .ok spec → ActRun E (fun ts => Dialect.mysql = .mysql ∨ Good K pk ts)
        (mkT .mysql cols pk cons) [.redefine s.name spec]
        (mkT .mysql (upd cols s.name (some (Spec.Column.state .mysql u))) pk cons) := by
      intro spec hsp
      have := (dataSpec_ok hsp hu.ok (by intro h; cases h)).1
      apply ActRun.single
      · exact step_onCol s.name c0 (Spec.Column.state .mysql u) (fun _ => some (Spec.ColSpec.state spec)) h0
          (by rw [this]) (by intro h; cases h)
      · exact .inl rfl
    unfold mutateColumn at hacts
    simp only at hacts
    split at hacts
    · cases hsp : u.dataSpec .mysql with
      | error e => simp [hsp, bind, Except.bind] at hacts
      | ok spec =>
        simp only [hsp, bind, Except.bind, pure, Except.pure, Except.ok.injEq] at hacts
        subst hacts
        exact hrun spec hsp
    · rename_i hsame
      simp at hsame
      have hc0' : c0 = Spec.Column.state .mysql u := by
        obtain ⟨⟨⟨h1, h2⟩, h3⟩, h4⟩ := hsame
        have := hty h1
        have := hnull h2
        have := hdef h3
        have := hidu h4
        cases c0
        simp_all [Spec.Column.state]
      simp only [bind, Except.bind] at hacts
      cases h1 : s.comment .mysql with
      | error e => simp [h1] at hacts
      | ok v1 =>
        cases h2 : u.comment .mysql with
        | error e => simp [h1, h2] at hacts
        | ok v2 =>
          simp only [h1, h2] at hacts
          split at hacts
          · cases hsp : u.dataSpec .mysql with
            | error e => simp [hsp] at hacts
            | ok spec =>
              simp only [hsp, pure, Except.pure, Except.ok.injEq] at hacts
              subst hacts
              exact hrun spec hsp
          · simp only [pure, Except.pure, Except.ok.injEq] at hacts
            subst hacts
            rw [hself, hc0']
            exact .nil _
  · exact (run_mutateColumn (hfit.resolve_left hmy).1 hacts h0 hty hnull hdef hdef' hid0 hidu hs hu hc0 hdelta hsnow
      hident).mono (fun _ h => .inr h)

end
end PySqlSync
