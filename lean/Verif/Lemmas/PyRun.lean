/-
  Generated code is executed as it is meant.
-/
import Verif.Lemmas.PyCode

set_option autoImplicit false

namespace PySqlSync
open Spec
namespace Py

theorem run_nil (s : PyState) : pyRun s [] = .ok s := rfl

theorem run_ok {s s' : PyState} {l : Text} {x : PyLine} (hl : readPyLine l = .ok x) (hs : s.step x = .ok s') (ls : List Text) : pyRun s (l :: ls) = pyRun s' ls := by
  unfold pyRun
  rw [List.foldlM_cons, hl]
  show (s.step x >>= fun s => _) = _
  rw [hs]; rfl

theorem run_read {s : PyState} {l : Text} {f : PyFault} (hl : readPyLine l = .error f) (ls : List Text) : pyRun s (l :: ls) = .error f := by
  unfold pyRun
  rw [List.foldlM_cons, hl]; rfl

theorem run_step {s : PyState} {l : Text} {x : PyLine} {f : PyFault} (hl : readPyLine l = .ok x) (hs : s.step x = .error f) (ls : List Text) : pyRun s (l :: ls) = .error f := by
  unfold pyRun
  rw [List.foldlM_cons, hl]
  show (s.step x >>= fun s => _) = _
  rw [hs]; rfl

theorem run_append {s s' : PyState} {a : List Text} (h : pyRun s a = .ok s') (b : List Text) : pyRun s (a ++ b) = pyRun s' b := by
  unfold pyRun at h ⊢
  rw [List.foldlM_append, h]; rfl

/-- A blank line. -/
theorem run_blank (s : PyState) (ls : List Text) : pyRun s ([] :: ls) = pyRun s ls := run_ok rfl rfl ls

/-! ### Enumerations -/

/-- The documentation that is written for a member. -/
def written (e : CodeEnum) (m : CodeMember) : Option Text := match e.docOf m with
  | some (c :: d) => if some (c :: d) = e.doc then none else some (c :: d)
  | _ => none

/-- The enumeration that generated code defines. -/
def enumBack (e : CodeEnum) : CodeEnum := ⟨e.name, documented e.doc, e.members.map (fun m => ⟨m.name, m.value, written e m⟩)⟩

/-- The lines with members. -/
theorem run_members (printable : Char → Bool) (scope : List Text) (done : List CodeDecl) (ms : List CodeMember) (hm : ∀ m ∈ ms, isIdent m.name = true ∧ IsConst m.value) (b : PyBody) :
    pyRun ⟨scope, done, none, some b⟩ (ms.map (fun m => t "    " ++ m.name ++ t " = " ++ m.value.repr printable)) =
      .ok ⟨scope, done, none, some { b with items := b.items ++ ms.map (fun m => (m.name, m.value)), any := b.any || !ms.isEmpty }⟩ := by
  induction ms generalizing b with
  | nil => simp [run_nil]
  | cons m ms ih =>
    have h := hm m (by simp)
    rw [List.map_cons, run_ok (assign_line h.1 (value_back printable h.2)) (s' := ⟨scope, done, none, some { b with items := b.items ++ [(m.name, m.value)], any := true }⟩) rfl,
      ih (fun m' h' => hm m' (List.mem_cons_of_mem _ h'))]
    simp

/-- The lines with the documentation of members. -/
theorem run_docs (printable : Char → Bool) {scope : List Text} {done : List CodeDecl} (e : CodeEnum) (d0 : Option Text) (he : isIdent e.name = true) (ms : List CodeMember) (hm : ∀ m ∈ ms, isIdent m.name = true)
    (s : PyState) (pre : List CodeMember) (hs : s.close = .ok ⟨scope, done ++ [.enum ⟨e.name, d0, pre ++ ms.map (fun m => ⟨m.name, m.value, none⟩)⟩], none, none⟩)
    (hn : (pre.map CodeMember.name ++ ms.map CodeMember.name).Nodup) :
    ∃ s', pyRun s (ms.filterMap (fun m => match e.docOf m with
      | some (c :: d) => if some (c :: d) = e.doc then none else some (e.name ++ t "." ++ m.name ++ t ".__doc__ = " ++ reprStr printable (c :: d))
      | _ => none)) = .ok s' ∧
      s'.close = .ok ⟨scope, done ++ [.enum ⟨e.name, d0, pre ++ ms.map (fun m => ⟨m.name, m.value, written e m⟩)⟩], none, none⟩ := by
  induction ms generalizing s pre with
  | nil => exact ⟨s, rfl, hs⟩
  | cons m ms ih =>
    have hid := hm m (by simp)
    have next : ∀ (s1 : PyState), s1.close = .ok ⟨scope, done ++ [.enum ⟨e.name, d0, (pre ++ [⟨m.name, m.value, written e m⟩]) ++ ms.map (fun m => ⟨m.name, m.value, none⟩)⟩], none, none⟩ → _ := fun s1 h1 =>
      ih (fun m' h' => hm m' (List.mem_cons_of_mem _ h')) s1 (pre ++ [⟨m.name, m.value, written e m⟩]) h1 (by simpa using hn)
    have skip : written e m = none → s.close = .ok ⟨scope, done ++ [.enum ⟨e.name, d0, (pre ++ [⟨m.name, m.value, written e m⟩]) ++ ms.map (fun m => ⟨m.name, m.value, none⟩)⟩], none, none⟩ := by
      intro h; rw [hs, h]; simp
    have fin : ∀ l : List CodeMember, (pre ++ [⟨m.name, m.value, written e m⟩]) ++ l = pre ++ ⟨m.name, m.value, written e m⟩ :: l := by intro l; simp
    rw [List.filterMap_cons]
    cases hd : e.docOf m with
    | none =>
      have hw : written e m = none := by unfold written; rw [hd]
      obtain ⟨s', h1, h2⟩ := next s (skip hw)
      exact ⟨s', h1, by rw [h2, fin]; rfl⟩
    | some d =>
      cases d with
      | nil =>
        have hw : written e m = none := by unfold written; rw [hd]
        obtain ⟨s', h1, h2⟩ := next s (skip hw)
        exact ⟨s', h1, by rw [h2, fin]; rfl⟩
      | cons c d =>
        by_cases hde : some (c :: d) = e.doc
        · have hw : written e m = none := by unfold written; rw [hd]; exact if_pos hde
          obtain ⟨s', h1, h2⟩ := next s (skip hw)
          refine ⟨s', ?_, by rw [h2, fin]; rfl⟩
          simp only [if_pos hde]
          exact h1
        · have hw : written e m = some (c :: d) := by unfold written; rw [hd]; exact if_neg hde
          have hnd := List.nodup_append.1 hn
          have hstep : s.step (.memberDoc e.name m.name (c :: d)) =
              .ok ⟨scope, done ++ [.enum ⟨e.name, d0, (pre ++ [⟨m.name, m.value, written e m⟩]) ++ ms.map (fun m => ⟨m.name, m.value, none⟩)⟩], none, none⟩ := by
            have keep : ∀ (l : List CodeMember), m.name ∉ l.map CodeMember.name → l.map (fun x => if x.name = m.name then { x with doc := some (c :: d) } else x) = l := by
              intro l hl
              induction l with
              | nil => rfl
              | cons x l ihl =>
                rw [List.map_cons, List.mem_cons, not_or] at hl
                rw [List.map_cons, if_neg (fun e => hl.1 e.symm), ihl hl.2]
            have hp : m.name ∉ pre.map CodeMember.name := fun hx => hnd.2.2 _ hx m.name (by simp) rfl
            have hr : m.name ∉ (ms.map (fun m => (⟨m.name, m.value, none⟩ : CodeMember))).map CodeMember.name := by
              have := (List.nodup_cons.1 hnd.2.1).1
              rw [List.map_map]
              exact this
            show (s.close >>= fun s => _) = _
            rw [hs]
            show (match (done ++ [CodeDecl.enum _]).getLast? with
              | some (.enum e1) => _
              | _ => _) = _
            rw [List.getLast?_concat]
            dsimp only
            rw [if_pos ⟨rfl, by simp⟩, List.dropLast_concat, List.map_append, List.map_cons, List.map_cons, if_pos rfl, keep pre hp, keep _ hr, hw]
            simp [pure, Except.pure]
          obtain ⟨s', h1, h2⟩ := next _ (rfl : PyState.close ⟨scope, done ++ [.enum ⟨e.name, d0, (pre ++ [⟨m.name, m.value, written e m⟩]) ++ ms.map (fun m => ⟨m.name, m.value, none⟩)⟩], none, none⟩ = _)
          refine ⟨s', ?_, by rw [h2, fin]; rfl⟩
          simp only [if_neg hde]
          rw [run_ok (member_line printable he hid (c :: d)) hstep]
          exact h1

theorem unique_eq : t "@enum.unique" = '@' :: t "enum.unique" := by rfl
theorem dataclass_eq : t "@dataclasses.dataclass" = '@' :: t "dataclasses.dataclass" := by rfl
theorem not_unique : ¬ (some (t "dataclasses.dataclass") = some (t "enum.unique") ∧ false = true) := by rintro ⟨_, h⟩; cases h

/-- An enumeration. -/
theorem run_enum (printable : Char → Bool) {scope : List Text} {done : List CodeDecl} {e : CodeEnum} (h : EnumFits e) (hsc : t "enum" ∈ scope) (s : PyState)
    (hs : s.close = .ok ⟨scope, done, none, none⟩) :
    ∃ s', pyRun s (e.lines printable) = .ok s' ∧ s'.close = .ok ⟨scope, done ++ [.enum (enumBack e)], none, none⟩ := by
  have s1 : s.step (.decorator (t "enum.unique")) = .ok ⟨scope, done, some (t "enum.unique"), none⟩ := by
    show (s.close >>= fun s => _) = _
    rw [hs]; rfl
  have s2 : (PyState.mk scope done (some (t "enum.unique")) none).step (.classDef e.name true) = .ok ⟨scope, done, none, some ⟨true, e.name, none, [], [], false⟩⟩ := by
    unfold PyState.step PyState.close
    dsimp only [bind, Except.bind]
    rw [if_pos ⟨rfl, rfl⟩, if_pos hsc]; rfl
  have s3 : pyRun ⟨scope, done, none, some ⟨true, e.name, none, [], [], false⟩⟩ (match e.doc with
      | some (c :: d) => [t "    " ++ reprStr printable (c :: d), []]
      | _ => []) = .ok ⟨scope, done, none, some ⟨true, e.name, documented e.doc, [], [], (documented e.doc).isSome⟩⟩ := by
    cases e.doc with
    | none => rfl
    | some d => cases d with
      | nil => rfl
      | cons c d => exact (run_ok (doc_line printable _) rfl _).trans (run_blank _ _)
  have s4 := run_members printable scope done e.members (fun m hm => ⟨(h.members m hm).1, (h.members m hm).2.1⟩) ⟨true, e.name, documented e.doc, [], [], (documented e.doc).isSome⟩
  have s5 : (PyState.mk scope done none (some ⟨true, e.name, documented e.doc, [] ++ e.members.map (fun m => (m.name, m.value)), [], (documented e.doc).isSome || !e.members.isEmpty⟩)).close =
      .ok ⟨scope, done ++ [.enum ⟨e.name, documented e.doc, [] ++ e.members.map (fun m => ⟨m.name, m.value, none⟩)⟩], none, none⟩ := by
    have ha : ((documented e.doc).isSome || !e.members.isEmpty) = true := by
      rcases h.body with hb | hb
      · cases hm : e.members with
        | nil => exact absurd hm hb
        | cons a l => simp
      · cases hd : documented e.doc with
        | none => exact absurd hd hb
        | some d => rfl
    show (PyBody.decl _ >>= fun d => _) = _
    have : PyBody.decl ⟨true, e.name, documented e.doc, [] ++ e.members.map (fun m => (m.name, m.value)), [], (documented e.doc).isSome || !e.members.isEmpty⟩ =
        .ok (.enum ⟨e.name, documented e.doc, [] ++ e.members.map (fun m => ⟨m.name, m.value, none⟩)⟩) := by
      rw [ha]
      unfold PyBody.decl
      rw [if_neg (by simp), if_pos rfl, if_pos ⟨by simpa [Function.comp_def] using h.names, by simpa [Function.comp_def] using h.values⟩]
      simp [Function.comp_def]
    rw [this]; rfl
  obtain ⟨s', r, hc⟩ := run_docs printable e (documented e.doc) h.name e.members (fun m hm => (h.members m hm).1) _ [] s5 (by simpa using h.names)
  refine ⟨s', ?_, hc⟩
  unfold CodeEnum.lines
  rw [List.append_assoc, List.append_assoc, unique_eq, List.cons_append, List.cons_append, List.nil_append, run_ok (deco_line _) s1, run_ok (enum_line h.name) s2]
  refine (run_append s3 _).trans ?_
  rw [run_append s4]
  exact r

/-! ### Data classes -/

/-- The data class that generated code defines. -/
def classBack (c : CodeClass) : CodeClass := { c with attrs := c.variables }

theorem run_vars (printable : Char → Bool) (scope : List Text) (done : List CodeDecl) (vs : List (Text × CodeValue)) (hm : ∀ m ∈ vs, isIdent m.1 = true ∧ IsConst m.2) (b : PyBody) :
    pyRun ⟨scope, done, none, some b⟩ (vs.map (fun a => t "    " ++ a.1 ++ t " = " ++ a.2.repr printable)) =
      .ok ⟨scope, done, none, some { b with items := b.items ++ vs, any := b.any || !vs.isEmpty }⟩ := by
  induction vs generalizing b with
  | nil => simp [run_nil]
  | cons m ms ih =>
    have h := hm m (by simp)
    rw [List.map_cons, run_ok (assign_line h.1 (value_back printable h.2)) (s' := ⟨scope, done, none, some { b with items := b.items ++ [(m.1, m.2)], any := true }⟩) rfl,
      ih (fun m' h' => hm m' (List.mem_cons_of_mem _ h'))]
    simp

/-- A field that can be written. -/
def FieldOk (f : CodeField) : Prop := isIdent f.name = true ∧ IsAnnotation f.type ∧ (∀ v, f.default = some v → IsConst v) ∧ f.factory = none ∧ f.metadata = none

theorem run_fields (printable : Char → Bool) (scope : List Text) (done : List CodeDecl) (fs : List CodeField) (hf : ∀ f ∈ fs, FieldOk f) (b : PyBody) (hb : b.isEnum = false) :
    pyRun ⟨scope, done, none, some b⟩ (fs.map (fun f => t "    " ++ f.name ++ t ": " ++ f.type ++ f.initializer printable)) =
      .ok ⟨scope, done, none, some { b with fields := b.fields ++ fs, any := b.any || !fs.isEmpty }⟩ := by
  induction fs generalizing b with
  | nil => simp [run_nil]
  | cons f fs ih =>
    obtain ⟨h1, h2, h3, h4, h5⟩ := hf f (by simp)
    have hstep : ∃ x, readPyLine (t "    " ++ f.name ++ t ": " ++ f.type ++ f.initializer printable) = .ok x ∧
        (PyState.mk scope done none (some b)).step x = .ok ⟨scope, done, none, some { b with fields := b.fields ++ [f], any := true }⟩ := by
      obtain ⟨name, type, default, factory, metadata⟩ := f
      dsimp only at h1 h2 h3 h4 h5 ⊢
      subst h4 h5
      cases default with
      | none =>
        refine ⟨.field name type none, ?_, ?_⟩
        · show readPyLine (t "    " ++ name ++ t ": " ++ type ++ []) = _
          rw [List.append_nil, field_line h1 h2]
        · unfold PyState.step
          dsimp only
          rw [hb]; rfl
      | some v =>
        refine ⟨.field name type (some (.const v)), ?_, ?_⟩
        · show readPyLine (t "    " ++ name ++ t ": " ++ type ++ (t " = " ++ v.repr printable)) = _
          rw [List.append_assoc _ type, ← List.append_assoc type, default_line h1 h2 (value_back printable (h3 v rfl))]
        · unfold PyState.step
          dsimp only
          rw [hb]; rfl
    obtain ⟨x, e1, e2⟩ := hstep
    rw [List.map_cons, run_ok e1 e2, ih (fun f' h' => hf f' (List.mem_cons_of_mem _ h'))]
    · simp
    · exact hb

theorem variables_mem (c : CodeClass) (a : Text × CodeValue) : a ∈ c.variables ↔ a ∈ c.attrs ∧ isDunder a.1 = false ∧ a.1 ∉ c.fields.map CodeField.name := by
  unfold CodeClass.variables
  rw [List.mem_filter, Bool.and_eq_true, Bool.not_eq_true', Bool.not_eq_true', ← Bool.not_eq_true ((c.fields.map CodeField.name).contains a.1), List.contains_iff_mem]

/-- The class header of a data class. -/
theorem run_head {scope : List Text} {done : List CodeDecl} {c : CodeClass} (hn : isIdent c.name = true) (hsc : t "dataclasses" ∈ scope) (s : PyState)
    (hs : s.close = .ok ⟨scope, done, none, none⟩) :
    pyRun s [t "@dataclasses.dataclass", t "class " ++ c.name ++ t ":"] = .ok ⟨scope, done, none, some ⟨false, c.name, none, [], [], false⟩⟩ := by
  have s1 : s.step (.decorator (t "dataclasses.dataclass")) = .ok ⟨scope, done, some (t "dataclasses.dataclass"), none⟩ := by
    show (s.close >>= fun s => _) = _
    rw [hs]; rfl
  have s2 : (PyState.mk scope done (some (t "dataclasses.dataclass")) none).step (.classDef c.name false) = .ok ⟨scope, done, none, some ⟨false, c.name, none, [], [], false⟩⟩ := by
    unfold PyState.step PyState.close
    dsimp only [bind, Except.bind]
    rw [if_neg not_unique, if_pos ⟨rfl, rfl⟩, if_pos hsc]; rfl
  rw [dataclass_eq, run_ok (deco_line _) s1, run_ok (class_line hn) s2, run_nil]

/-- The lines of a data class before the fields. -/
def classTop (printable : Char → Bool) (multiline : Text → List Text) (c : CodeClass) : List Text :=
  [t "@dataclasses.dataclass", t "class " ++ c.name ++ t ":"] ++
  (match c.doc with
    | some d => (if '\n' ∈ d then multiline d else [t "    " ++ reprStr printable d]) ++ [[]]
    | none => []) ++
  (if c.variables = [] then [] else c.variables.map (fun a => t "    " ++ a.1 ++ t " = " ++ a.2.repr printable) ++ [[]])

theorem class_lines (printable : Char → Bool) (multiline : Text → List Text) (c : CodeClass) :
    c.lines printable multiline = classTop printable multiline c ++ c.fields.map (fun f => t "    " ++ f.name ++ t ": " ++ f.type ++ f.initializer printable) := rfl

theorem run_top (printable : Char → Bool) (multiline : Text → List Text) {scope : List Text} {done : List CodeDecl} {c : CodeClass} (hn : isIdent c.name = true) (hd : ∀ d, c.doc = some d → '\n' ∉ d)
    (ha : ∀ a ∈ c.attrs, isDunder a.1 = false → a.1 ∉ c.fields.map CodeField.name → isIdent a.1 = true ∧ IsConst a.2) (hsc : t "dataclasses" ∈ scope) (s : PyState)
    (hs : s.close = .ok ⟨scope, done, none, none⟩) :
    pyRun s (classTop printable multiline c) = .ok ⟨scope, done, none, some ⟨false, c.name, c.doc, c.variables, [], c.doc.isSome || !c.variables.isEmpty⟩⟩ := by
  have s3 : pyRun ⟨scope, done, none, some ⟨false, c.name, none, [], [], false⟩⟩ (match c.doc with
      | some d => (if '\n' ∈ d then multiline d else [t "    " ++ reprStr printable d]) ++ [[]]
      | none => []) = .ok ⟨scope, done, none, some ⟨false, c.name, c.doc, [], [], c.doc.isSome⟩⟩ := by
    cases hc : c.doc with
    | none => rfl
    | some d =>
      dsimp only
      rw [if_neg (hd d hc)]
      exact (run_ok (doc_line printable _) rfl _).trans (run_blank _ _)
  have s4 := run_vars printable scope done c.variables (fun a h => by
    obtain ⟨h1, h2, h3⟩ := (variables_mem c a).1 h
    exact ha a h1 h2 h3) ⟨false, c.name, c.doc, [], [], c.doc.isSome⟩
  unfold classTop
  rw [List.append_assoc, run_append (run_head hn hsc s hs)]
  refine (run_append s3 _).trans ?_
  by_cases hv : c.variables = []
  · rw [if_pos hv, hv]; simp [run_nil]
  · rw [if_neg hv, run_append s4, run_blank, run_nil]
    simp

/-- A data class. -/
theorem run_class (printable : Char → Bool) (multiline : Text → List Text) {scope : List Text} {done : List CodeDecl} {c : CodeClass} (h : ClassFits c) (hsc : t "dataclasses" ∈ scope) (s : PyState)
    (hs : s.close = .ok ⟨scope, done, none, none⟩) :
    ∃ s', pyRun s (c.lines printable multiline) = .ok s' ∧ s'.close = .ok ⟨scope, done ++ [.data (classBack c)], none, none⟩ := by
  refine ⟨⟨scope, done, none, some ⟨false, c.name, c.doc, c.variables, c.fields, (c.doc.isSome || !c.variables.isEmpty) || !c.fields.isEmpty⟩⟩, ?_, ?_⟩
  · rw [class_lines, run_append (run_top printable multiline h.name h.doc h.attrs hsc s hs), run_fields printable scope done c.fields h.fields _ rfl]
    rfl
  · have ha : ((c.doc.isSome || !c.variables.isEmpty) || !c.fields.isEmpty) = true := by
      rcases h.body with hb | hb
      · cases hd : c.doc with
        | none => exact absurd hd hb
        | some d => rfl
      · cases hm : c.fields with
        | nil => exact absurd hm hb
        | cons a l => simp
    show (PyBody.decl _ >>= fun d => _) = _
    have : PyBody.decl ⟨false, c.name, c.doc, c.variables, c.fields, (c.doc.isSome || !c.variables.isEmpty) || !c.fields.isEmpty⟩ = .ok (.data (classBack c)) := by
      rw [ha]
      unfold PyBody.decl
      rw [if_neg (by simp), if_neg (by simp), if_pos ⟨h.names, h.order, fun i hi => ((variables_mem c i).1 hi).2.2⟩]
      rfl
    rw [this]; rfl

end Py
end PySqlSync
