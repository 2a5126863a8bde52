/-
A checker for the hypotheses of C47, a way to order classes, and an example program that can be deployed with every engine.
-/
import Verif.Lemmas.CondNames
import Verif.Props.C34
import Verif.Examples.Program
import Verif.Examples.Shop

set_option autoImplicit false

namespace PySqlSync.Program

open Spec

variable {o : ConvOptions} {defs : PyDefs} {refs : List ClassDecl} {enumRefs : List EnumDecl} {d : Dialect}

/-! ### Ordering classes -/

def mentions (c : ClassDecl) (n : PyName) : Bool := c.fields.any (fun f => (typeClasses f.ty).contains n)

/-- Take out, again and again, the first class that mentions none of those that are left. -/
def placeClasses : Nat → List ClassDecl → Except Err (List ClassDecl)
  | 0, l => if l.isEmpty then .ok [] else .error .cycle
  | k + 1, l =>
    match l.find? (fun c => l.all (fun b => !mentions c b.name)) with
    | none => if l.isEmpty then .ok [] else .error .cycle
    | some c =>
      match placeClasses k (l.erase c) with
      | .ok rest => .ok (c :: rest)
      | .error e => .error e

def sortClasses (l : List ClassDecl) : Except Err (List ClassDecl) := placeClasses l.length l

theorem place_ok : ∀ (k : Nat) (l l' : List ClassDecl), placeClasses k l = .ok l' → l'.Perm l ∧
    ∀ p a s, l' = p ++ a :: s → ∀ b ∈ a :: s, ∀ f ∈ a.fields, b.name ∉ typeClasses f.ty
  | 0, l, l', h => by
    unfold placeClasses at h
    cases l with
    | nil => cases h; exact ⟨.refl _, fun p a s h => by cases p <;> cases h⟩
    | cons _ _ => cases h
  | k + 1, l, l', h => by
    unfold placeClasses at h
    split at h
    · cases l with
      | nil => cases h; exact ⟨.refl _, fun p a s h => by cases p <;> cases h⟩
      | cons _ _ => cases h
    · rename_i c hc
      have hmem := List.mem_of_find?_eq_some hc
      have hall := List.find?_some hc
      split at h
      · rename_i rest hr
        cases h
        obtain ⟨h1, h2⟩ := place_ok k _ _ hr
        have hperm : (c :: rest).Perm l := (h1.cons c).trans (List.perm_cons_erase hmem).symm
        refine ⟨hperm, fun p a s h b hb f hf hn => ?_⟩
        cases p with
        | nil =>
          cases h
          have hbl : b ∈ l := hperm.mem_iff.1 hb
          have := List.all_eq_true.1 hall b hbl
          simp only [mentions, Bool.not_eq_true', List.any_eq_false] at this
          exact this f hf (List.contains_iff_mem.2 hn)
        | cons x p =>
          cases h
          exact h2 p a s rfl b hb f hf hn
      · cases h

theorem sortClasses_orders : OrdersClasses sortClasses :=
  ⟨fun _ _ h => (place_ok _ _ _ h).1, fun _ _ h => (place_ok _ _ _ h).2⟩

/-! ### The checker -/

def sourcesIn (o : ConvOptions) (defs : PyDefs) (c : ClassDecl) : List TableSource :=
  .entity c.name :: c.fields.flatMap (fun f =>
    (match ConvOptions.regularEnum f.ty with
      | some e => if o.enumMode = .relation then [.enum e] else []
      | none => []) ++
    (match f.ty.extensibleEnum with
      | .ok e => [.enum e]
      | .error _ => []) ++
    (match o.relationship defs f.ty with
      | some (_, .cls n) => [.join c.name f.name n]
      | some (_, .enum n) => [.join c.name f.name n]
      | _ => []))

/-- The tables that the classes call for. -/
def sources (o : ConvOptions) (defs : PyDefs) (refs : List ClassDecl) : List TableSource :=
  (refs.filter (fun c => c.key.isSome)).flatMap (sourcesIn o defs)

theorem sources_mem {s : TableSource} (h : Makes o defs refs s) : s ∈ sources o defs refs := by
  have key : ∀ {c : ClassDecl}, c ∈ refs → c.key.isSome = true → s ∈ sourcesIn o defs c → s ∈ sources o defs refs :=
    fun hc hk hs => List.mem_flatMap.2 ⟨_, List.mem_filter.2 ⟨hc, hk⟩, hs⟩
  cases h with
  | entity c hc hk => exact key hc hk (List.mem_cons_self ..)
  | enumeration c hc hk f hf e hm h =>
    refine key hc hk (List.mem_cons_of_mem _ (List.mem_flatMap.2 ⟨f, hf, ?_⟩))
    rcases h with h | h | h <;> simp [h, ConvOptions.regularEnum, hm]
  | extensible c hc hk f hf e hx h =>
    refine key hc hk (List.mem_cons_of_mem _ (List.mem_flatMap.2 ⟨f, hf, ?_⟩))
    simp [h]
  | join c hc hk f hf item n h hr hn =>
    refine key hc hk (List.mem_cons_of_mem _ (List.mem_flatMap.2 ⟨f, hf, ?_⟩))
    have hr' : (decide (o.arrayMode = .relation) || defs.isEntity item) = true := by
      rcases hr with h | h <;> simp [h]
    rcases h with h | h <;> rcases hn with rfl | rfl <;> simp [h, ConvOptions.relationship, hr']

def fieldsIn (defs : PyDefs) (refs : List ClassDecl) : List (Text × FieldDecl) :=
  refs.flatMap (fun c => c.fields.map (fun f => (c.name.1, f))) ++
  defs.enums.flatMap (fun e => match e.kind with
    | .struct fields => fields.map (fun f => (e.name.1, f))
    | _ => [])

theorem fieldsIn_mem {m : Text} {f : FieldDecl} (h : FieldIn o defs refs m f) : (m, f) ∈ fieldsIn defs refs := by
  unfold fieldsIn
  rw [List.mem_append]
  rcases h with ⟨c, hc, rfl, hf⟩ | ⟨n, e, fields, _, rfl, he, hk, hf⟩
  · exact .inl (List.mem_flatMap.2 ⟨c, hc, List.mem_map.2 ⟨f, hf, rfl⟩⟩)
  · refine .inr (List.mem_flatMap.2 ⟨e, List.mem_of_find?_eq_some he, ?_⟩)
    rw [hk]
    refine List.mem_map.2 ⟨f, hf, ?_⟩
    rw [C32.enum_name he]

def types (o : ConvOptions) (refs : List ClassDecl) (enumRefs : List EnumDecl) : List PyName :=
  (if o.enumMode = .type then (enumRefs.filter (fun e => 2 ≤ e.labels.length)).map EnumDecl.name else []) ++
  (if o.structMode = .type then (refs.filter ClassDecl.isStruct).map ClassDecl.name else [])

theorem types_mem {n : PyName} (h : BecomesType o refs enumRefs n) : n ∈ types o refs enumRefs := by
  unfold types
  rw [List.mem_append]
  rcases h with ⟨hm, e, he, rfl, h2⟩ | ⟨hm, c, hc, rfl, hst⟩
  · left
    rw [if_pos hm]
    exact List.mem_map.2 ⟨e, List.mem_filter.2 ⟨he, by simpa using h2⟩, rfl⟩
  · right
    rw [if_pos hm]
    exact List.mem_map.2 ⟨c, List.mem_filter.2 ⟨hc, hst⟩, rfl⟩

def noDollar (s : Text) : Bool := !s.contains '$'

theorem noDollar_ok {s : Text} (h : noDollar s = true) : '$' ∉ s := by
  unfold noDollar at h
  simpa using h

def isList : PyType → Bool
  | .list _ | .set _ => true
  | _ => false

def deployableB (o : ConvOptions) (defs : PyDefs) (refs : List ClassDecl) (enumRefs : List EnumDecl) (d : Dialect) : Bool :=
  wellFormedB defs refs && noClashB o defs refs && noColumnClashB defs refs && C34.typesDeclaredB o defs refs enumRefs &&
  refs.all (fun c => noDollar c.name.2) && defs.enums.all (fun e => noDollar e.name.2) && (fieldsIn defs refs).all (fun p => noDollar p.2.name) &&
  (sources o defs refs).all (fun s => match o.mapping s.pyName.1 with | .ok (some x) => noDollar x | _ => true) &&
  enumRefs.all (fun e => refs.all (fun c => decide (c.isStruct = true → e.name ≠ c.name))) &&
  (types o refs enumRefs).all (fun n => (sources o defs refs).all (fun s => decide (n ≠ s.pyName))) &&
  enumRefs.all (fun e => decide e.labels.Nodup) &&
  refs.all (fun c => match c.key with | some k => k.ty.isSimple && !k.nullable | none => true) &&
  (fieldsIn defs refs).all (fun p => (!p.2.identity || (!p.2.nullable && p.2.default.isNone)) && (!p.2.unique || !isList p.2.ty) &&
    (d != .delta || p.2.default.isNone) && (d != .snowflake || !(p.2.default.map isTimestampLiteral).getD false) &&
    (itemNames defs p.2.ty).all (fun n => decide (n.1 = p.1))) &&
  decide (o.structMode = .inline → o.enumMode ≠ .type) &&
  (types o refs enumRefs).all (fun n => (sources o defs refs).all (fun s =>
    decide (s.pyName.1 = n.1) || match o.mapping n.1 with | .ok none => false | _ => true))

theorem deployableB_ok (h : deployableB o defs refs enumRefs d = true) : Deployable o defs refs enumRefs d := by
  unfold deployableB at h
  simp only [Bool.and_eq_true, List.all_eq_true] at h
  obtain ⟨⟨⟨⟨⟨⟨⟨⟨⟨⟨⟨⟨⟨⟨h1, h2⟩, h3⟩, h4⟩, h5⟩, h6⟩, h7⟩, h8⟩, h9⟩, h10⟩, h11⟩, h12⟩, h13⟩, h14⟩, h15⟩ := h
  have hs : ∀ {s : TableSource}, Makes o defs refs s → s ∈ sources o defs refs := sources_mem
  constructor
  · exact wellFormedB_ok h1
  · exact noClashB_ok h2
  · exact noColumnClashB_ok h3
  · exact C34.typesDeclaredB_ok h4
  · exact fun c hc => noDollar_ok (h5 c hc)
  · intro n e he
    rw [← C32.enum_name he]
    exact noDollar_ok (h6 e (List.mem_of_find?_eq_some he))
  · exact fun m f hf => noDollar_ok (h7 _ (fieldsIn_mem hf))
  · rintro m x ⟨s, hms, rfl⟩ hx
    have := h8 s (hs hms)
    rw [hx] at this
    exact noDollar_ok this
  · exact fun e he c hc hst => of_decide_eq_true (h9 e he c hc) hst
  · exact fun n hn s hms => of_decide_eq_true (h10 n (types_mem hn) s (hs hms))
  · exact fun e he => of_decide_eq_true (h11 e he)
  · intro c hc k hk
    have := h12 c hc
    rw [hk] at this
    simpa using this
  · intro m f hf hid
    have := (h13 _ (fieldsIn_mem hf)).1.1.1.1
    simpa [hid] using this
  · intro m f hf hu item
    have := (h13 _ (fieldsIn_mem hf)).1.1.1.2
    rw [hu] at this
    constructor <;> (intro hc; rw [hc] at this; cases this)
  · intro hd m f hf
    have := (h13 _ (fieldsIn_mem hf)).1.1.2
    subst hd
    simpa using this
  · intro hd m f hf e he
    have := (h13 _ (fieldsIn_mem hf)).1.2
    subst hd
    simpa [he] using this
  · intro m f hf n hn
    have := (h13 _ (fieldsIn_mem hf)).2 n hn
    exact of_decide_eq_true this
  · exact of_decide_eq_true h14
  · rintro n hn m ⟨s, hms, rfl⟩ hne hmap
    have := h15 n (types_mem hn) s (hs hms)
    rw [hmap] at this
    simp [hne] at this

/-! ### A program that can be deployed with every engine -/

def level : EnumDecl := { name := (mc, t "Level"), kind := .str, labels := [t "basic", t "gold"], constants := [t "'basic'", t "'gold'"] }
def region : EnumDecl := { name := (mc, t "Region"), kind := .str, labels := [t "EU"], constants := [t "'EU'"] }
def state : EnumDecl := { name := (ms, t "State"), kind := .str, labels := [t "open", t "it's closed"], constants := [t "'open'", t "'it''s closed'"] }

def geo : ClassDecl := { name := (mc, t "Geo"), fields := [{ name := t "lat", ty := .prim .float64 }, { name := t "lon", ty := .prim .float64 }] }
def place : ClassDecl := { name := (mc, t "Place"), fields := [
  { name := t "city", ty := .prim .str },
  { name := t "geo", ty := .cls geo.name }] }
/-- Delta has no defaults. -/
def client (e : Engine) : ClassDecl := { name := (mc, t "Client"), fields := [
  { name := t "id", ty := .prim .int64, primary := true, identity := true },
  { name := t "email", ty := .annotated .str [.maxLength 100], unique := true },
  { name := t "level", ty := .enum level.name, default := if e = .delta then none else some (t "'basic'") },
  { name := t "region", ty := .union (.cons (.enum region.name) (.cons (.prim .str) .nil)) },
  { name := t "address", ty := .cls place.name, nullable := true },
  { name := t "boss", ty := .cls (mc, t "Client"), nullable := true }] }
def item : ClassDecl := { name := (ms, t "Item"), fields := [
  { name := t "code", ty := .annotated .str [.maxLength 10], primary := true },
  { name := t "price", ty := .annotated .int [.integerRange 0 1000] },
  { name := t "tags", ty := .list (.prim .str) }] }
def purchase (e : Engine) : ClassDecl := { name := (ms, t "Purchase"), fields := [
  { name := t "id", ty := .prim .uuid, primary := true },
  { name := t "client", ty := .cls (client e).name },
  { name := t "state", ty := .enum state.name },
  { name := t "items", ty := .list (.cls item.name) },
  { name := t "watchers", ty := .set (.cls (client e).name) }] }

def refs1 (e : Engine) : List ClassDecl := [place, purchase e, item, client e, geo]
def enums1 : List EnumDecl := [state, level, region]
def defs1 (e : Engine) : PyDefs := { classes := refs1 e, enums := enums1 }

theorem deployable1 (e : Engine) : Deployable (opts e gen0) (defs1 e) (refs1 e) enums1 e.dialect := by
  refine deployableB_ok ?_
  cases e <;> decide +kernel

theorem reads1 (e : Engine) : ReadsConditions (defs1 e) namesIn := by
  refine Dep.reads_names fun n x h => ?_
  have hmem : x ∈ enums1 := List.mem_of_find?_eq_some h
  simp only [enums1, List.mem_cons, List.not_mem_nil, or_false] at hmem
  rcases hmem with rfl | rfl | rfl <;> decide +kernel

def catalog1 (e : Engine) : Option Catalog := ((opts e gen0).toCatalog (defs1 e) 10 sortClasses (refs1 e) enums1).toOption
def script1 (e : Engine) : Option (List Stmt) := (catalog1 e).bind (fun C => (mutateCatalog Example.topo e.dialect {} ⟨⟨[]⟩⟩ C).toOption)

/-- The program is accepted for every engine. -/
theorem accepted1 (e : Engine) : ∃ C stmts, (opts e gen0).toCatalog (defs1 e) 10 sortClasses (refs1 e) enums1 = .ok C ∧
    mutateCatalog Example.topo e.dialect {} ⟨⟨[]⟩⟩ C = .ok stmts ∧ 12 ≤ stmts.length := by
  have h : (script1 e).map (fun l => decide (12 ≤ l.length)) = some true := by cases e <;> decide +kernel
  unfold script1 catalog1 at h
  cases hc : (opts e gen0).toCatalog (defs1 e) 10 sortClasses (refs1 e) enums1 with
  | error x => rw [hc] at h; cases h
  | ok C =>
    rw [hc] at h
    cases hm : mutateCatalog Example.topo e.dialect {} ⟨⟨[]⟩⟩ C with
    | error x => simp [Except.toOption, hm] at h
    | ok l => exact ⟨C, l, rfl, hm, by simpa [Except.toOption, hm] using h⟩

end PySqlSync.Program
