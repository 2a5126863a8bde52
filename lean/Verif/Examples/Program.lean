/-
Checkers for the hypotheses of C32 to C35, and an example program that meets them.
-/
import Verif.Spec.Convert
import Verif.Model.Engines

set_option autoImplicit false

namespace PySqlSync.Program

open Spec

variable {o : ConvOptions} {defs : PyDefs} {refs : List ClassDecl}

/-- The tables that a class calls for. -/
def sourcesOf (o : ConvOptions) (defs : PyDefs) (c : ClassDecl) : List TableSource :=
  .entity c.name :: c.fields.flatMap (fun f =>
    (match ConvOptions.regularEnum f.ty with
      | some e => [.enum e]
      | none => []) ++
    (match f.ty.extensibleEnum with
      | .ok e => [.enum e]
      | .error _ => []) ++
    (match o.relationship defs f.ty with
      | some (_, .cls n) => [.join c.name f.name n]
      | some (_, .enum n) => [.join c.name f.name n]
      | _ => []))

theorem makes_mem {s : TableSource} (h : Makes o defs refs s) : s ∈ refs.flatMap (sourcesOf o defs) := by
  cases h with
  | entity c hc hk => exact List.mem_flatMap.2 ⟨c, hc, List.mem_cons_self ..⟩
  | enumeration c hc hk f hf e hm h =>
    refine List.mem_flatMap.2 ⟨c, hc, List.mem_cons_of_mem _ (List.mem_flatMap.2 ⟨f, hf, ?_⟩)⟩
    rcases h with h | h | h <;> simp [h, ConvOptions.regularEnum]
  | extensible c hc hk f hf e hx h =>
    refine List.mem_flatMap.2 ⟨c, hc, List.mem_cons_of_mem _ (List.mem_flatMap.2 ⟨f, hf, ?_⟩)⟩
    simp [h]
  | join c hc hk f hf item n h hr hn =>
    refine List.mem_flatMap.2 ⟨c, hc, List.mem_cons_of_mem _ (List.mem_flatMap.2 ⟨f, hf, ?_⟩)⟩
    have hr' : (decide (o.arrayMode = .relation) || defs.isEntity item) = true := by
      rcases hr with h | h <;> simp [h]
    rcases h with h | h <;> rcases hn with rfl | rfl <;> simp [h, ConvOptions.relationship, hr']

def noClashB (o : ConvOptions) (defs : PyDefs) (refs : List ClassDecl) : Bool :=
  let l := refs.flatMap (sourcesOf o defs)
  l.all (fun s => l.all (fun s' =>
    (match o.qualifiedId s.pyName, o.qualifiedId s'.pyName with
      | .ok q, .ok q' => decide (q.key = q'.key → s = s')
      | _, _ => true) &&
    (match o.mapping s.pyName.1, o.mapping s'.pyName.1 with
      | .ok a, .ok b => decide (a.getD [] = b.getD [] → s.pyName.1 = s'.pyName.1)
      | _, _ => true)))

theorem noClashB_ok (h : noClashB o defs refs = true) : NoClash o defs refs := by
  unfold noClashB at h
  simp only [List.all_eq_true, Bool.and_eq_true] at h
  constructor
  · intro s s' hs hs' q q' hq hq' hk
    have := (h s (makes_mem hs) s' (makes_mem hs')).1
    rw [hq, hq'] at this
    exact of_decide_eq_true this hk
  · intro _ s s' hs hs' a b ha hb hk
    have := (h s (makes_mem hs) s' (makes_mem hs')).2
    rw [ha, hb] at this
    exact of_decide_eq_true this hk

def wellFormedB (defs : PyDefs) (refs : List ClassDecl) : Bool :=
  refs.all (fun c => decide (defs.cls c.name = some c) && decide (c.fields.map FieldDecl.name).Nodup &&
    c.fields.all (fun f => (typeClasses f.ty).all (fun n => refs.any (fun c' => decide (c'.name = n)))))

theorem wellFormedB_ok (h : wellFormedB defs refs = true) : WellFormed defs refs := by
  unfold wellFormedB at h
  simp only [List.all_eq_true, Bool.and_eq_true, List.any_eq_true, decide_eq_true_eq] at h
  exact ⟨fun c hc => (h c hc).1.1, fun c hc f hf n hn => (h c hc).2 f hf n hn, fun c hc => (h c hc).1.2⟩

def noColumnClashB (defs : PyDefs) (refs : List ClassDecl) : Bool :=
  refs.all (fun c => c.fields.all (fun f =>
    match f.ty with
    | .list (.cls n) | .set (.cls n) =>
      (match (defs.cls n).bind ClassDecl.key with
        | some k => decide (c.name.2 ++ t "_" ++ f.name ≠ n.2 ++ t "_" ++ k.name)
        | none => true)
    | .list (.enum n) | .set (.enum n) => decide (c.name.2 ++ t "_" ++ f.name ≠ n.2 ++ t "_" ++ t "id")
    | _ => true)) &&
  defs.enums.all (fun e => match e.kind with
    | .struct fields => fields.all (fun f => decide (f.name ≠ t "id"))
    | _ => true)

theorem noColumnClashB_ok (h : noColumnClashB defs refs = true) : NoColumnClash o defs refs := by
  unfold noColumnClashB at h
  rw [Bool.and_eq_true] at h
  obtain ⟨h1, h2⟩ := h
  constructor
  · intro c hc f hf item n key hi hk
    have := List.all_eq_true.1 (List.all_eq_true.1 h1 c hc) f hf
    rcases hk with ⟨rfl, c', k, hc', hk', rfl⟩ | ⟨rfl, rfl⟩
    · rcases hi with hi | hi <;> simpa [hi, hc', hk'] using this
    · rcases hi with hi | hi <;> simpa [hi] using this
  · intro n e fields he hkind f hf
    have hmem : e ∈ defs.enums := List.mem_of_find?_eq_some he
    have := List.all_eq_true.1 h2 e hmem
    rw [hkind] at this
    exact of_decide_eq_true (List.all_eq_true.1 this f hf)

/-! ### A program with two modules -/

def ms : Text := t "shop"
def mc : Text := t "crm"

def status : EnumDecl := { name := (ms, t "Status"), kind := .str, labels := [t "open", t "closed"], constants := [t "'open'", t "'closed'"] }
def country : EnumDecl := { name := (mc, t "Country"), kind := .str, labels := [t "HU", t "US"], constants := [t "'HU'", t "'US'"] }

def person : ClassDecl := { name := (mc, t "Person"), fields := [
  { name := t "id", ty := .prim .int64, primary := true },
  { name := t "email", ty := .annotated .str [.maxLength 100], unique := true },
  { name := t "country", ty := .union (.cons (.enum country.name) (.cons (.prim .str) .nil)) },
  { name := t "boss", ty := .cls (mc, t "Person"), nullable := true }] }
def company : ClassDecl := { name := (mc, t "Company"), fields := [
  { name := t "id", ty := .prim .int64, primary := true },
  { name := t "address", ty := .cls (mc, t "Address") }] }
def address : ClassDecl := { name := (mc, t "Address"), fields := [
  { name := t "city", ty := .prim .str },
  { name := t "status", ty := .enum status.name }] }
def product : ClassDecl := { name := (ms, t "Product"), fields := [
  { name := t "code", ty := .annotated .str [.maxLength 10], primary := true },
  { name := t "price", ty := .annotated .int [.integerRange 0 1000] },
  { name := t "tags", ty := .list (.prim .str) }] }
def order : ClassDecl := { name := (ms, t "Order"), fields := [
  { name := t "id", ty := .prim .uuid, primary := true },
  { name := t "party", ty := .union (.cons (.cls person.name) (.cons (.cls company.name) .nil)) },
  { name := t "status", ty := .enum status.name },
  { name := t "items", ty := .list (.cls product.name) },
  { name := t "labels", ty := .set (.cls person.name) }] }

def refs0 : List ClassDecl := [order, product, person, company, address]
def enums0 : List EnumDecl := [status, country]
def defs0 : PyDefs := { classes := refs0, enums := enums0 }
def mapping0 : Text → Except Err (Option Text) := fun m => .ok (some m)
def gen0 : GenOptions := { mapping := mapping0 }

/-- The converter options of an engine with this mapping. -/
def opts (e : Engine) (g : GenOptions) : ConvOptions := (e.options g).toOption.getD { mapping := mapping0 }

/-- The catalog, if there is one. -/
def catalog (e : Engine) (g : GenOptions) (defs : PyDefs) (refs : List ClassDecl) (enums : List EnumDecl) : Option Catalog :=
  ((opts e g).toCatalog defs 10 .ok refs enums).toOption

theorem ok_of_toOption {α : Type} {x : Except Err α} (h : x.toOption.isSome = true) : ∃ a, x = .ok a := by
  cases x with
  | ok a => exact ⟨a, rfl⟩
  | error e => cases h

theorem wf0 : WellFormed defs0 refs0 := wellFormedB_ok (by decide +kernel)
theorem columns0 (o : ConvOptions) : NoColumnClash o defs0 refs0 := noColumnClashB_ok (by decide +kernel)

/-- The program is accepted for every engine. -/
theorem accepted0 (e : Engine) : ∃ C, (opts e gen0).toCatalog defs0 10 .ok refs0 enums0 = .ok C := by
  refine ok_of_toOption ?_
  cases e <;> decide +kernel
theorem noClash0 (e : Engine) : NoClash (opts e gen0) defs0 refs0 := by
  refine noClashB_ok ?_
  cases e <;> decide +kernel

end PySqlSync.Program
