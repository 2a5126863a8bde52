/-
Executable checks that are sufficient for the conditions of Spec/Safe.lean and for the validity of a described
database.  They make these conditions decidable for concrete catalogs and are used in the examples next to the theorems.
-/
import Verif.Lemmas.CatMutate

set_option autoImplicit false

namespace PySqlSync
open Spec

variable {d : Dialect} {E : Engine}

def distinctB {α : Type} [Named α] (x : ODict α) : Bool := decide ((x.items.map key).Nodup)

theorem distinctB_ok {α : Type} [Named α] {x : ODict α} (h : distinctB x = true) : Distinct x := by
  simpa [distinctB, Distinct] using h

def unreserved (p n : Text) : Bool := !p.isPrefixOf n

theorem unreserved_ok {p n : Text} (h : unreserved p n = true) (x : Text) : n ≠ p ++ x := by
  intro e
  simp only [unreserved, Bool.not_eq_true'] at h
  rw [List.isPrefixOf_iff_prefix.2 ⟨x, e.symm⟩] at h
  cases h

def tableWFB (d : Dialect) (tb : Table) : Bool :=
  distinctB tb.columns && distinctB tb.constraints && !tb.primaryKey.isEmpty
  && tb.columns.items.all (fun c => unreserved (t "pysqlsync$") c.name)
  && (d ≠ .mssql || tb.constraints.items.all (fun c => unreserved (t "df_") c.name))
  && (d ≠ .delta || tb.columns.items.all (fun c => c.default.isNone))
  && (d ≠ .snowflake || tb.columns.items.all (fun c => c.default.all (fun e => defaultExpr d c.ty e = e)))

theorem tableWFB_ok {tb : Table} (h : tableWFB d tb = true) : TableWF d tb := by
  simp only [tableWFB, Bool.and_eq_true, Bool.or_eq_true, List.all_eq_true, Bool.not_eq_true',
    ne_eq, decide_not] at h
  obtain ⟨⟨⟨⟨⟨⟨h1, h2⟩, h3⟩, h4⟩, h5⟩, h6⟩, h7⟩ := h
  refine ⟨distinctB_ok h1, distinctB_ok h2, ?_, fun c hc x => unreserved_ok (h4 c hc) x, ?_, ?_, ?_⟩
  · intro e; simp [e] at h3
  · intro hd c hc x
    rcases h5 with h | h
    · simp [hd] at h
    · exact unreserved_ok (h c hc) x
  · intro hd c hc
    rcases h6 with h | h
    · simp [hd] at h
    · simpa using h c hc
  · intro hd c hc e he
    rcases h7 with h | h
    · simp [hd] at h
    · have := h c hc
      rw [he] at this
      simpa using this

def nsWFB (d : Dialect) (n : Namespace) : Bool :=
  distinctB n.enums && distinctB n.structs && distinctB n.tables
  && n.enums.items.all (fun e => e.name.key.1 = n.name)
  && n.structs.items.all (fun e => e.name.key.1 = n.name)
  && n.tables.items.all (fun e => e.name.key.1 = n.name)
  && n.enums.items.all (fun e => n.structs.items.all (fun s => e.name.localId ≠ s.name.localId))
  && n.enums.items.all (fun e => n.tables.items.all (fun s => e.name.localId ≠ s.name.localId))
  && n.structs.items.all (fun e => n.tables.items.all (fun s => e.name.localId ≠ s.name.localId))
  && n.enums.items.all (fun e => unreserved (t "pysqlsync$") e.name.localId)
  && n.structs.items.all (fun e => unreserved (t "pysqlsync$") e.name.localId)
  && n.tables.items.all (fun e => unreserved (t "pysqlsync$") e.name.localId)
  && n.enums.items.all (fun e => decide e.values.Nodup)
  && n.structs.items.all (fun s => distinctB s.members)
  && n.tables.items.all (tableWFB d)

theorem nsWFB_ok {n : Namespace} (h : nsWFB d n = true) : NsWF d n := by
  simp only [nsWFB, Bool.and_eq_true, decide_eq_true_eq, List.all_eq_true, ne_eq, decide_not, Bool.not_eq_true',
    decide_eq_false_iff_not] at h
  obtain ⟨⟨⟨⟨⟨⟨⟨⟨⟨⟨⟨⟨⟨⟨h1, h2⟩, h3⟩, h4⟩, h5⟩, h6⟩, h7⟩, h8⟩, h9⟩, h10⟩, h11⟩, h12⟩, h13⟩, h14⟩, h15⟩ := h
  exact ⟨distinctB_ok h1, distinctB_ok h2, distinctB_ok h3, h4, h5, h6, h7, h8, h9,
    fun e he x => unreserved_ok (h10 e he) x, fun e he x => unreserved_ok (h11 e he) x,
    fun e he x => unreserved_ok (h12 e he) x, h13, fun s hs => distinctB_ok (h14 s hs),
    fun tb htb => tableWFB_ok (h15 tb htb)⟩

def catWFB (d : Dialect) (c : Catalog) : Bool := distinctB c.namespaces && c.namespaces.items.all (nsWFB d)

theorem catWFB_ok {c : Catalog} (h : catWFB d c = true) : CatWF d c := by
  simp only [catWFB, Bool.and_eq_true, List.all_eq_true] at h
  exact ⟨distinctB_ok h.1, fun n hn => nsWFB_ok (h.2 n hn)⟩

def convertedB (d : Dialect) (s u : Column) : Bool :=
  s.ty ≠ u.ty && u.ty.isInteger && (s.ty.isEnum || s.ty.isVarChar || (d = .postgresql && s.ty.isUser))

theorem convertedB_iff {s u : Column} : convertedB d s u = true ↔ Converted d s u := by
  simp [convertedB, Converted, and_assoc, or_assoc]

/-- The column takes no part in any constraint. -/
def freeB (E : Engine) (tb : Table) (n : Text) : Bool :=
  tb.constraints.items.all (fun c => match Spec.Constraint.state E c with
    | some x => !x.cols.contains n
    | none => true)

theorem freeB_ok {tb : Table} {n : Text} (h : freeB E tb n = true) :
    ∀ c ∈ tb.constraints.items, ∀ x, Spec.Constraint.state E c = some x → n ∉ x.cols := by
  intro c hc x hx
  simp only [freeB, List.all_eq_true] at h
  have := h c hc
  simp only [hx] at this
  simpa using this

def tableSafeB (d : Dialect) (E : Engine) (source target : Table) : Bool :=
  source.primaryKey = target.primaryKey
  && source.columns.items.all (fun s => target.columns.items.all (fun u =>
      s.name ≠ u.name || !convertedB d s u
      || (!source.primaryKey.contains s.name && freeB E source s.name && s.identity = u.identity
          && (d ≠ .mssql || u.default.isNone))))
  && (d = .mysql || source.columns.items.all (fun s =>
      target.columns.items.any (fun u => s.name = u.name) || freeB E source s.name))
  && (d = .mysql || d = .oracle || source.columns.items.all (fun s => target.columns.items.all (fun u =>
      s.name ≠ u.name || !s.identity || u.identity || (!u.nullable && u.default.isNone))))
  && (d ≠ .oracle || source.columns.items.all (fun s => target.columns.items.all (fun u =>
      s.name ≠ u.name || s.default ≠ u.default || (Spec.Column.state d s).default = (Spec.Column.state d u).default)))

theorem tableSafeB_ok {a b : Table} (h : tableSafeB d E a b = true) : TableSafe d E a b := by
  simp only [tableSafeB, Bool.and_eq_true, Bool.or_eq_true, decide_eq_true_eq, List.all_eq_true, List.any_eq_true,
    ne_eq, decide_not, Bool.not_eq_true', decide_eq_false_iff_not] at h
  obtain ⟨⟨⟨⟨h1, h2⟩, h3⟩, h4⟩, h5⟩ := h
  refine ⟨h1, ?_, ?_, ?_, ?_⟩
  · intro s hs u hu hn hc
    rcases h2 s hs u hu with (h | h) | h
    · exact absurd hn h
    · rw [convertedB_iff.2 hc] at h; cases h
    · obtain ⟨⟨⟨k1, k2⟩, k3⟩, k4⟩ := h
      refine ⟨by simpa using k1, fun c hc _ => freeB_ok k2 c hc, fun _ _ => k3, ?_⟩
      intro hd
      rcases k4 with k | k
      · exact absurd hd k
      · simpa using k
  · intro hd s hs hno
    rcases h3 with h | h
    · exact absurd h hd
    · rcases h s hs with ⟨u, hu, e⟩ | k
      · exact absurd e (hno u hu)
      · exact freeB_ok k
  · intro hm ho s hs u hu hn hi hj
    rcases h4 with (h | h) | h
    · exact absurd h hm
    · exact absurd h ho
    · rcases h s hs u hu with ((k | k) | k) | k
      · exact absurd hn k
      · rw [hi] at k; cases k
      · rw [hj] at k; cases k
      · exact ⟨k.1, by simpa using k.2⟩
  · intro hd s hs u hu hn _ he
    rcases h5 with h | h
    · exact absurd hd h
    · rcases h s hs u hu with (k | k) | k
      · exact absurd hn k
      · exact absurd he k
      · exact k

/-- Every element is fine together with those that follow it. -/
def tailsB {α : Type} (f : α → List α → Bool) : List α → Bool
  | [] => true
  | a :: s => f a s && tailsB f s

theorem tailsB_ok {α : Type} {f : α → List α → Bool} : ∀ {l : List α}, tailsB f l = true →
    ∀ p a s, l = p ++ a :: s → f a s = true := by
  intro l
  induction l with
  | nil => intro _ p a s h; simp at h
  | cons x l ih =>
    intro h p a s e
    simp only [tailsB, Bool.and_eq_true] at h
    cases p with
    | nil => simp at e; rw [← e.1, ← e.2]; exact h.1
    | cons y p => simp at e; exact ih h.2 p a s e.2

def structsInOrderB (l : List StructType) : Bool :=
  tailsB (fun a s => (a :: s).all (fun b => a.members.items.all (fun m => !m.ty.refs.contains b.name.key))) l

theorem structsInOrderB_ok {l : List StructType} (h : structsInOrderB l = true) : StructsInOrder l := by
  intro p a s e b hb m hm
  have := tailsB_ok h p a s e
  simp only [List.all_eq_true] at this
  simpa using this b hb m hm

def structsInDropOrderB (l : List StructType) : Bool :=
  tailsB (fun a s => s.all (fun b => b.members.items.all (fun m => !m.ty.refs.contains a.name.key))) l

theorem structsInDropOrderB_ok {l : List StructType} (h : structsInDropOrderB l = true) : StructsInDropOrder l := by
  intro p a s e b hb m hm
  have := tailsB_ok h p a s e
  simp only [List.all_eq_true] at this
  simpa using this b hb m hm

def tablesInDropOrderB (l : List Table) : Bool :=
  tailsB (fun a s => s.all (fun b => b.constraints.items.all (fun c =>
    match c with
    | .foreign _ _ r => r.table.key ≠ a.name.key
    | _ => true))) l

theorem tablesInDropOrderB_ok {l : List Table} (h : tablesInDropOrderB l = true) : TablesInDropOrder l := by
  intro p a s e b hb c hc n cols r hcr
  have := tailsB_ok h p a s e
  simp only [List.all_eq_true] at this
  have := this b hb c hc
  subst hcr
  simpa using this

/-- Renaming keeps the scope: not a name with a prefix. -/
def plainNameB : QId → Bool
  | .qualified _ _ => true
  | .prefixed none _ => true
  | .prefixed (some _) _ => false
  | .global _ => true

theorem plainNameB_ok {q : QId} (h : plainNameB q = true) (x : Text) : (q.rename x).key = (q.key.1, x) := by
  cases q with
  | qualified ns id => rfl
  | prefixed ns id => cases ns with
    | none => rfl
    | some _ => cases h
  | global id => rfl

def nsSafeB (d : Dialect) (E : Engine) (source target : Namespace) : Bool :=
  target.enums.items.all (fun e => source.structs.items.all (fun s => e.name.localId ≠ s.name.localId)
    && source.tables.items.all (fun s => e.name.localId ≠ s.name.localId))
  && target.structs.items.all (fun e => source.enums.items.all (fun s => e.name.localId ≠ s.name.localId)
    && source.tables.items.all (fun s => e.name.localId ≠ s.name.localId))
  && target.tables.items.all (fun e => source.structs.items.all (fun s => e.name.localId ≠ s.name.localId))
  && target.tables.items.all (fun tb => source.enums.items.all (fun e =>
      e.name.localId ≠ tb.name.localId || (e.name = tb.name && plainNameB e.name)))
  && structsInOrderB (target.structs.difference source.structs)
  && structsInDropOrderB (source.structs.difference target.structs)
  && tablesInDropOrderB (source.tables.difference target.tables)
  && source.tables.items.all (fun a => target.tables.items.all (fun b =>
      a.name.localId ≠ b.name.localId || tableSafeB d E a b))

theorem nsSafeB_ok {a b : Namespace} (h : nsSafeB d E a b = true) : NsSafe d E a b := by
  simp only [nsSafeB, Bool.and_eq_true, Bool.or_eq_true, decide_eq_true_eq, List.all_eq_true,
    ne_eq, decide_not, Bool.not_eq_true', decide_eq_false_iff_not] at h
  obtain ⟨⟨⟨⟨⟨⟨⟨h1, h2⟩, h3⟩, h4⟩, h5⟩, h6⟩, h7⟩, h8⟩ := h
  refine ⟨h1, h2, h3, ?_, structsInOrderB_ok h5, structsInDropOrderB_ok h6, tablesInDropOrderB_ok h7, ?_⟩
  · intro tb htb e he hn
    rcases h4 tb htb e he with k | k
    · exact absurd hn k
    · exact ⟨k.1, plainNameB_ok k.2⟩
  · intro x hx y hy hn
    rcases h8 x hx y hy with k | k
    · exact absurd hn k
    · exact tableSafeB_ok k

/-! ### Validity -/

def typeFitsB (K : Kinds) (ty : SqlType) : Bool := ty.refs.all (fun k => K k = some .enum || K k = some .struct)

theorem typeFitsB_ok {K : Kinds} {ty : SqlType} (h : typeFitsB K ty = true) : TypeFits K ty := by
  intro k hk
  simp only [typeFitsB, List.all_eq_true, Bool.or_eq_true, decide_eq_true_eq] at h
  exact h k hk

def conFitsB (K : Kinds) (tb : Table) (c : ConState) : Bool :=
  c.cols.all (fun n => tb.columns.contains n) && (match c with
    | .foreign _ k rs => K k = some (.table rs)
    | _ => true)

def tableFitsB (E : Engine) (K : Kinds) (tb : Table) : Bool :=
  distinctB tb.columns
  && tb.columns.items.all (fun c => (!c.identity || (!c.nullable && c.default.isNone)) && typeFitsB K c.ty)
  && tb.primaryKey.all (fun n => (tb.columns.get n).any (fun c => !c.nullable))
  && tb.constraints.items.all (fun c => (Spec.Constraint.state E c).all (conFitsB K tb))

theorem tableFitsB_ok {K : Kinds} {tb : Table} (h : tableFitsB E K tb = true) :
    TableState.Fits K (Spec.Table.state d E tb) := by
  simp only [tableFitsB, Bool.and_eq_true, Bool.or_eq_true, List.all_eq_true, Bool.not_eq_true'] at h
  obtain ⟨⟨⟨h1, h2⟩, h3⟩, h4⟩ := h
  have hd := distinctB_ok h1
  refine ⟨?_, ?_, ?_, ?_⟩
  · intro n c hc
    simp only [Spec.Table.state, Option.map_eq_some_iff] at hc
    obtain ⟨x, hx, rfl⟩ := hc
    have hm := ODict.get_some_mem hx
    have := h2 x hm.1
    refine ⟨?_, typeFitsB_ok this.2⟩
    intro hi
    rcases this.1 with k | k
    · simp only [Spec.Column.state] at hi; rw [hi] at k; cases k
    · have kd : x.default = none := by simpa using k.2
      simp [Spec.Column.state, k.1, kd]
  · intro n hn
    have := h3 n hn
    rw [Option.any_eq_true] at this
    obtain ⟨c, hc, hnull⟩ := this
    exact ⟨Spec.Column.state d c, by simp [Spec.Table.state, hc], by simpa [Spec.Column.state] using hnull⟩
  · intro n c hc
    simp only [Spec.Table.state, Option.bind_eq_some_iff] at hc
    obtain ⟨x, hx, hs⟩ := hc
    have := h4 x (ODict.get_some_mem hx).1
    rw [hs] at this
    simp only [Option.all_some, conFitsB, Bool.and_eq_true, List.all_eq_true] at this
    refine ⟨?_, ?_⟩
    · intro m hm
      have := this.1 m hm
      rw [ODict.contains_iff, ← ODict.get_isSome_iff] at this
      simpa [Spec.Table.state] using this
    · have := this.2
      cases c <;> simp_all
  · intro n m hm
    cases d with
    | mssql =>
      simp only [Spec.Table.state, Option.map_eq_some_iff] at hm
      obtain ⟨x, hx, rfl⟩ := hm
      have h1 := List.mem_of_find?_eq_some hx
      have h2 := List.find?_some hx
      simp only [Bool.and_eq_true] at h2
      refine ⟨Spec.Column.state .mssql x, ?_, ?_⟩
      · have := ODict.get_eq_of_mem (d := tb.columns) hd h1
        simp only [Spec.Table.state]
        rw [show x.name = key x from rfl, this]; rfl
      · have := h2.1
        cases hx : x.default with
        | none => simp [hx] at this
        | some e => simp [Spec.Column.state, hx]
    | _ => simp [Spec.Table.state] at hm

/-- Everything a list of namespaces refers to exists. -/
def catValidB (d : Dialect) (E : Engine) (l : List Namespace) : Bool :=
  l.all (fun n => n.structs.items.all (fun s => s.members.items.all (fun m => typeFitsB (dbOf d E l).kinds m.ty))
    && n.tables.items.all (tableFitsB E (dbOf d E l).kinds))

theorem catValidB_ok {l : List Namespace} (h : catValidB d E l = true) : Valid (dbOf d E l) := by
  simp only [catValidB, List.all_eq_true, Bool.and_eq_true] at h
  constructor
  · intro k o ho
    rw [dbOf_objs] at ho
    rw [dbOf_schemas]
    cases hn : nsGet l k.1 with
    | none => simp [hn] at ho
    | some n => simp
  · intro k o ho
    rw [dbOf_objs] at ho
    cases hn : nsGet l k.1 with
    | none => simp [hn] at ho
    | some n =>
      rw [hn, Option.bind_some] at ho
      have hmem := (ODict.get_some_mem (d := ⟨l⟩) hn).1
      have hh := h n hmem
      unfold Spec.Namespace.obj at ho
      split at ho
      · cases ho; exact trivial
      · split at ho
        · rename_i s hs
          cases ho
          intro m ty hm
          simp only [Option.map_eq_some_iff] at hm
          obtain ⟨x, hx, rfl⟩ := hm
          exact typeFitsB_ok (hh.1 s (ODict.get_some_mem hs).1 x (ODict.get_some_mem hx).1)
        · rw [Option.map_eq_some_iff] at ho
          obtain ⟨tb, htb, rfl⟩ := ho
          exact tableFitsB_ok (hh.2 tb (ODict.get_some_mem htb).1)

/-! ### Catalogs -/

/-- A condition on all ways to cut a list in two. -/
def cutsB {α : Type} (l : List α) (f : List α → List α → Bool) : Bool :=
  (List.range (l.length + 1)).all (fun i => f (l.take i) (l.drop i))

theorem cutsB_ok {α : Type} {l : List α} {f : List α → List α → Bool} (h : cutsB l f = true) (p s : List α)
    (e : l = p ++ s) : f p s = true := by
  simp only [cutsB, List.all_eq_true, List.mem_range] at h
  have := h p.length (by rw [e]; simp; omega)
  rw [e] at this
  simpa using this

def catSafeB (d : Dialect) (E : Engine) (source target : Catalog) : Bool :=
  let cs := target.namespaces.difference source.namespaces
  let ds := source.namespaces.difference target.namespaces
  let ms := source.namespaces.intersection target.namespaces
  cutsB cs (fun p _ => catValidB d E (p.map unconstrained ++ source.namespaces.items))
  && catValidB d E (cs ++ source.namespaces.items)
  && cs.all (fun n => structsInOrderB n.structs.items)
  && cutsB ms (fun p s => catValidB d E (cs ++ p.map Prod.snd ++ s.map Prod.fst ++ ds))
  && ms.all (fun a => nsSafeB d E a.1 a.2)
  && cutsB ds (fun _ s => catValidB d E (target.namespaces.items ++ s.map unconstrained))
  && ds.all (fun n => structsInDropOrderB n.structs.items.reverse)

theorem catSafeB_ok {a b : Catalog} (h : catSafeB d E a b = true) : CatSafe d E a b := by
  simp only [catSafeB, Bool.and_eq_true, List.all_eq_true] at h
  obtain ⟨⟨⟨⟨⟨⟨h1, h2⟩, h3⟩, h4⟩, h5⟩, h6⟩, h7⟩ := h
  exact ⟨fun p s e => catValidB_ok (cutsB_ok h1 p s e), catValidB_ok h2, fun n hn => structsInOrderB_ok (h3 n hn),
    fun p s e => catValidB_ok (cutsB_ok h4 p s e), fun x hx => nsSafeB_ok (h5 x hx),
    fun p s e => catValidB_ok (cutsB_ok h6 p s e), fun n hn => structsInDropOrderB_ok (h7 n hn)⟩

end PySqlSync
