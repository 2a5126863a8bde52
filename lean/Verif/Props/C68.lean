/-
  C68: the connection string for SQL Server says what the parameters say.
-/
import Verif.Spec.Odbc
import Verif.Lemmas.Url

set_option autoImplicit false

namespace PySqlSync
open Spec
namespace Odbc

/-- An item: keyword, the text of the value, the value. -/
structure Item where
  key : Text
  raw : Text
  val : Text

/-- The item is read as it is meant. -/
structure Item.Ok (i : Item) : Prop where
  key : i.key ≠ [] ∧ '=' ∉ i.key
  next : ∀ rest, odbcValue (i.raw ++ ';' :: rest) = some (i.val, rest)
  last : odbcValue i.raw = some (i.val, [])

theorem plain_next {v : Text} (h : ';' ∉ v) (rest : Text) : odbcPlain (v ++ ';' :: rest) = (v, rest) := by
  induction v with
  | nil => show odbcPlain (';' :: rest) = _; rw [odbcPlain, if_pos rfl]
  | cons c v ih =>
    rw [List.mem_cons, not_or] at h
    show odbcPlain (c :: (v ++ ';' :: rest)) = _
    rw [odbcPlain, if_neg (fun e => h.1 e.symm), ih h.2]

theorem plain_last {v : Text} (h : ';' ∉ v) : odbcPlain v = (v, []) := by
  induction v with
  | nil => rfl
  | cons c v ih =>
    rw [List.mem_cons, not_or] at h
    rw [odbcPlain, if_neg (fun e => h.1 e.symm), ih h.2]

theorem value_plain {v : Text} (h : v.head? ≠ some '{') (hne : v ≠ []) : odbcValue v = some (odbcPlain v) := by
  cases v with
  | nil => exact absurd rfl hne
  | cons c v => unfold odbcValue; dsimp only; rw [if_neg (fun e => h (by rw [e]; rfl))]

/-- A value cut at the first semicolon. -/
theorem value_cut {a : Text} (h : ';' ∉ a) (hh : a.head? ≠ some '{') (rest : Text) : odbcValue (a ++ ';' :: rest) = some (a, rest) := by
  rw [value_plain _ (by simp), plain_next h]
  cases a with
  | nil => show some ';' ≠ some '{'; decide
  | cons c a => exact hh

theorem plain_ok {k v : Text} (hk : k ≠ [] ∧ '=' ∉ k) (h : OdbcPlain v) : Item.Ok ⟨k, v, v⟩ := by
  refine ⟨hk, fun rest => value_cut h.1 h.2 rest, ?_⟩
  show odbcValue v = _
  cases v with
  | nil => rfl
  | cons c v => rw [value_plain h.2 (by simp), plain_last h.1]

theorem attrs_step {k : Text} (hk : k ≠ [] ∧ '=' ∉ k) {s v rest : Text} (hv : odbcValue s = some (v, rest)) (n : Nat) :
    odbcAttrs (n + 1) (k ++ '=' :: s) = (odbcAttrs n rest).map (fun l => (k, v) :: l) := by
  have ht : (k ++ '=' :: s).takeWhile (fun x => x != '=') = k ∧ (k ++ '=' :: s).dropWhile (fun x => x != '=') = '=' :: s := by
    have hall : ∀ c ∈ k, (c != '=') = true := by
      intro c hc
      have : c ≠ '=' := fun e => hk.2 (e ▸ hc)
      simpa using this
    rw [List.takeWhile_append_of_pos hall, List.dropWhile_append_of_pos hall]
    simp
  cases k with
  | nil => exact absurd rfl hk.1
  | cons c k =>
    have hc : c ≠ '=' := fun e => hk.2 (by rw [e]; simp)
    rw [List.cons_append] at ht ⊢
    rw [odbcAttrs]
    simp only [ht.1, ht.2, if_neg hc, hv]

/-- The text of items that are followed by others. -/
def lead (items : List Item) : Text := items.flatMap (fun i => i.key ++ '=' :: (i.raw ++ [';']))

theorem read_lead (items : List Item) (h : ∀ i ∈ items, i.Ok) (n : Nat) (rest : Text) :
    odbcAttrs (n + items.length) (lead items ++ rest) = (odbcAttrs n rest).map (fun l => items.map (fun i => (i.key, i.val)) ++ l) := by
  induction items with
  | nil => simp [lead]
  | cons i items ih =>
    have hi := h i (by simp)
    have e : lead (i :: items) ++ rest = i.key ++ '=' :: (i.raw ++ ';' :: (lead items ++ rest)) := by simp [lead]
    rw [e, List.length_cons, ← Nat.add_assoc, attrs_step hi.key (hi.next _), ih (fun j hj => h j (List.mem_cons_of_mem _ hj))]
    cases odbcAttrs n rest <;> simp

/-- The text of items. -/
def render (items : List Item) : Text := joinWith (t ";") (items.map (fun i => i.key ++ t "=" ++ i.raw))

theorem render_append (a : List Item) (i : Item) (b : List Item) : render (a ++ i :: b) = lead a ++ render (i :: b) := by
  induction a with
  | nil => rfl
  | cons j a ih =>
    have e1 : t ";" = [';'] := by rfl
    have e2 : t "=" = ['='] := by rfl
    have e3 : ∀ x y l, joinWith (t ";") (x :: y :: l) = x ++ t ";" ++ joinWith (t ";") (y :: l) := fun _ _ _ => rfl
    unfold render at ih ⊢
    cases a with
    | nil =>
      rw [List.cons_append, List.nil_append, List.map_cons, List.map_cons, e3, e1, e2]
      simp [lead]
    | cons j' a =>
      rw [List.cons_append, List.cons_append, List.map_cons, List.map_cons, e3]
      rw [List.cons_append, List.map_cons] at ih
      rw [ih, e1, e2]
      simp [lead]

theorem length_render (items : List Item) : items.length ≤ (render items).length + 1 ∧ (items ≠ [] → items.length ≤ (render items).length) := by
  induction items with
  | nil => simp
  | cons i items ih =>
    have key : (i :: items).length ≤ (render (i :: items)).length := by
      have e2 : t "=" = ['='] := by rfl
      have e1 : t ";" = [';'] := by rfl
      cases items with
      | nil =>
        have e : render [i] = i.key ++ t "=" ++ i.raw := rfl
        rw [e, e2]; simp
        omega
      | cons j items =>
        have e : render (i :: j :: items) = i.key ++ t "=" ++ i.raw ++ t ";" ++ render (j :: items) := rfl
        have := ih.2 (by simp)
        rw [e, e1, e2]
        simp only [List.length_append, List.length_cons, List.length_nil] at this ⊢
        omega
    exact ⟨by omega, fun _ => key⟩

theorem attrs_fuel : ∀ (n : Nat) (s : Text) (l : List (Text × Text)), odbcAttrs n s = some l → odbcAttrs (n + 1) s = some l := by
  intro n
  induction n with
  | zero => intro s l h; cases s with
    | nil => exact h
    | cons c s => cases h
  | succ n ih =>
    intro s l h
    cases s with
    | nil => exact h
    | cons c s =>
      rw [odbcAttrs] at h ⊢
      split at h
      · cases h
      · rename_i r hr
        split at h
        · cases h
        · rename_i hc
          split at h
          · cases h
          · rename_i v rest hv
            cases hx : odbcAttrs n rest with
            | none => rw [hx] at h; cases h
            | some l' =>
              rw [hx] at h
              rw [if_neg hc]
              rw [ih _ _ hx]
              exact h

theorem attrs_more {n : Nat} {s : Text} {l : List (Text × Text)} (h : odbcAttrs n s = some l) (k : Nat) : odbcAttrs (n + k) s = some l := by
  induction k with
  | zero => exact h
  | succ k ih => exact attrs_fuel _ _ _ ih

/-- Items that are fit to be written are read back. -/
theorem read_items (items : List Item) (i : Item) (h : ∀ j ∈ items ++ [i], j.Ok) : odbcRead (render (items ++ [i])) = some ((items ++ [i]).map (fun j => (j.key, j.val))) := by
  unfold odbcRead
  have hl := (length_render (items ++ [i])).2 (by simp)
  rw [List.length_append, List.length_singleton] at hl
  have key : odbcAttrs (1 + items.length) (render (items ++ [i])) = some ((items ++ [i]).map (fun j => (j.key, j.val))) := by
    rw [render_append, read_lead items (fun j hj => h j (by simp [hj]))]
    have hi := h i (by simp)
    have e : render [i] = i.key ++ '=' :: i.raw := by
      have e2 : t "=" = ['='] := by rfl
      show i.key ++ t "=" ++ i.raw = _
      rw [e2]; simp
    rw [e, attrs_step hi.key hi.last 0]
    simp [odbcAttrs]
  obtain ⟨k, hk⟩ := Nat.exists_eq_add_of_le hl
  rw [hk, Nat.add_comm items.length 1]
  exact attrs_more key k

/-- An attribute that may be left out. -/
def opt (k : Text) : Option Text → List Item
  | some v => [⟨k, v, v⟩]
  | none => []

def driver : Item := ⟨t "DRIVER", t "{ODBC Driver 18 for SQL Server}", t "ODBC Driver 18 for SQL Server"⟩
def app : Item := ⟨t "APP", t "pysqlsync", t "pysqlsync"⟩
def long : Item := ⟨t "LongAsMax", t "yes", t "yes"⟩
def trust : Item := ⟨t "TrustServerCertificate", t "yes", t "yes"⟩

/-- Up to the password. -/
def front (p : ConnParams) : List Item := driver :: app :: (opt (t "SERVER") p.odbcServer ++ opt (t "UID") p.username)

theorem opt_some (k v : Text) : opt k (some v) = [⟨k, v, v⟩] := rfl

/-- The text of an item that is followed by others. -/
theorem render_next (k raw val : Text) (j : Item) (l : List Item) : render (⟨k, raw, val⟩ :: j :: l) = k ++ '=' :: (raw ++ ';' :: render (j :: l)) := by
  have := render_append [⟨k, raw, val⟩] j l
  rw [List.singleton_append] at this
  rw [this]
  simp [lead]

/-- The keywords before that of the password. -/
theorem front_key {p : ConnParams} {i : Item} (hi : i ∈ front p) : i.key = t "DRIVER" ∨ i.key = t "APP" ∨ i.key = t "SERVER" ∨ i.key = t "UID" := by
  have ho : ∀ (k : Text) (v : Option Text) (i : Item), i ∈ opt k v → i.key = k := by
    intro k v i hi
    cases v with
    | none => cases hi
    | some x => rw [List.mem_singleton.1 hi]
  unfold front at hi
  rcases List.mem_cons.1 hi with rfl | hi
  · exact .inl rfl
  · rcases List.mem_cons.1 hi with rfl | hi
    · exact .inr (.inl rfl)
    · rcases List.mem_append.1 hi with hi | hi
      · exact .inr (.inr (.inl (ho _ _ i hi)))
      · exact .inr (.inr (.inr (ho _ _ i hi)))

theorem filter_opt (k : Text) (v : Option Text) (l : List (Text × Option Text)) :
    ((k, v) :: l).filterMap (fun (k, v) => v.map (fun v => k ++ t "=" ++ v)) = (opt k v).map (fun i => i.key ++ t "=" ++ i.raw) ++ l.filterMap (fun (k, v) => v.map (fun v => k ++ t "=" ++ v)) := by
  cases v <;> rfl

theorem string_eq (p : ConnParams) : p.odbcString = render (front p ++ (opt (t "PWD") p.password ++ (long :: trust :: opt (t "DATABASE") p.database))) := by
  unfold ConnParams.odbcString render
  congr 1
  unfold ConnParams.odbcParams
  have hd : List.filterMap (fun (x : Text × Option Text) => match x with | (k, v) => v.map (fun v => k ++ t "=" ++ v)) (match p.database with | some d => [(t "DATABASE", some d)] | none => []) =
      (opt (t "DATABASE") p.database).map (fun i => i.key ++ t "=" ++ i.raw) := by
    cases p.database <;> rfl
  rw [List.filterMap_append]
  refine (congrArg _ hd).trans ?_
  simp only [filter_opt, List.filterMap_nil]
  unfold front
  simp only [List.map_append, List.map_cons, List.cons_append, List.append_assoc, List.append_nil]
  rfl

theorem opt_ok {k : Text} (hk : k ≠ [] ∧ '=' ∉ k) {v : Option Text} (h : ∀ x, v = some x → OdbcPlain x) : ∀ i ∈ opt k v, i.Ok := by
  intro i hi
  cases v with
  | none => cases hi
  | some v => rw [List.mem_singleton.1 hi]; exact plain_ok hk (h v rfl)

theorem braced_next {c : Text} (h : '}' ∉ c) (rest : Text) : odbcBraced (c ++ '}' :: ';' :: rest) = some (c, rest) ∧ odbcBraced (c ++ ['}']) = some (c, []) := by
  induction c with
  | nil =>
    constructor
    · show odbcBraced ('}' :: ';' :: rest) = _
      simp [odbcBraced]
    · rfl
  | cons x c ih =>
    rw [List.mem_cons, not_or] at h
    have ih := ih h.2
    constructor
    · show odbcBraced (x :: (c ++ '}' :: ';' :: rest)) = _
      rw [odbcBraced.eq_def]; dsimp only; rw [if_neg (fun e => h.1 e.symm), ih.1]; rfl
    · show odbcBraced (x :: (c ++ ['}'])) = _
      rw [odbcBraced.eq_def]; dsimp only; rw [if_neg (fun e => h.1 e.symm), ih.2]; rfl

theorem value_brace (r : Text) : odbcValue ('{' :: r) = odbcBraced r := by
  unfold odbcValue
  exact if_pos rfl

theorem braced_ok {k raw val : Text} (hk : k ≠ [] ∧ '=' ∉ k) (e : raw = '{' :: (val ++ ['}'])) (hb : '}' ∉ val) : Item.Ok ⟨k, raw, val⟩ := by
  subst e
  refine ⟨hk, fun rest => ?_, ?_⟩
  · show odbcValue (('{' :: (val ++ ['}'])) ++ ';' :: rest) = some (val, rest)
    rw [List.cons_append, List.append_assoc, value_brace]
    exact (braced_next hb rest).1
  · show odbcValue ('{' :: (val ++ ['}'])) = some (val, [])
    rw [value_brace]
    exact (braced_next hb []).2

theorem driver_ok : driver.Ok := by
  unfold driver
  exact braced_ok ⟨by decide +kernel, by decide +kernel⟩ (by decide +kernel) (by decide +kernel)

/-- The server is the address. -/
theorem server_eq (p : ConnParams) : p.odbcServer = odbcAddress p := by
  have ec : t "," = [','] := by rfl
  unfold ConnParams.odbcServer odbcAddress
  rw [ec]
  cases p.host <;> cases p.port <;> rfl

theorem port_plain {q : Text} (hh : OdbcPlain q) (n : Nat) : OdbcPlain (q ++ [','] ++ natStr n) := by
  have hn : ';' ∉ natStr n := fun hm => absurd (natStr_chars hm) (by decide)
  refine ⟨?_, ?_⟩
  · rw [List.mem_append, List.mem_append]
    rintro ((h | h) | h)
    · exact hh.1 h
    · exact absurd (List.mem_singleton.1 h) (by decide)
    · exact hn h
  · cases q with
    | nil => show some ',' ≠ some '{'; decide
    | cons c q => exact hh.2

theorem server_plain {p : ConnParams} (h : ∀ v, p.host = some v → OdbcPlain v) : ∀ x, p.odbcServer = some x → OdbcPlain x := by
  intro x hx
  rw [server_eq] at hx
  unfold odbcAddress at hx
  cases hq : p.host with
  | none =>
    cases hp : p.port with
    | none => rw [hq, hp] at hx; cases hx
    | some n => rw [hq, hp] at hx; injection hx with hx; rw [← hx]; exact port_plain ⟨by decide +kernel, by decide +kernel⟩ n
  | some v =>
    cases hp : p.port with
    | none => rw [hq, hp] at hx; injection hx with hx; rw [← hx]; exact h v hq
    | some n => rw [hq, hp] at hx; injection hx with hx; rw [← hx]; exact port_plain (h v hq) n

theorem front_ok {p : ConnParams} (h1 : ∀ v, p.host = some v → OdbcPlain v) (h2 : ∀ v, p.username = some v → OdbcPlain v) : ∀ i ∈ front p, i.Ok := by
  intro i hi
  unfold front at hi
  rcases List.mem_cons.1 hi with rfl | hi
  · exact driver_ok
  · rcases List.mem_cons.1 hi with rfl | hi
    · exact plain_ok ⟨by decide +kernel, by decide +kernel⟩ ⟨by decide +kernel, by decide +kernel⟩
    · rcases List.mem_append.1 hi with hi | hi
      · exact opt_ok ⟨by decide +kernel, by decide +kernel⟩ (server_plain h1) i hi
      · exact opt_ok ⟨by decide +kernel, by decide +kernel⟩ h2 i hi

theorem back_ok {p : ConnParams} (h : ∀ v, p.database = some v → OdbcPlain v) : ∀ i ∈ long :: trust :: opt (t "DATABASE") p.database, i.Ok := by
  intro i hi
  rcases List.mem_cons.1 hi with rfl | hi
  · exact plain_ok ⟨by decide +kernel, by decide +kernel⟩ ⟨by decide +kernel, by decide +kernel⟩
  · rcases List.mem_cons.1 hi with rfl | hi
    · exact plain_ok ⟨by decide +kernel, by decide +kernel⟩ ⟨by decide +kernel, by decide +kernel⟩
    · exact opt_ok ⟨by decide +kernel, by decide +kernel⟩ h i hi

theorem read_all {items : List Item} (hne : items ≠ []) (h : ∀ i ∈ items, i.Ok) : odbcRead (render items) = some (items.map (fun j => (j.key, j.val))) := by
  rw [← List.dropLast_concat_getLast hne] at h ⊢
  exact read_items _ _ h

/-- Looking for a keyword. -/
theorem get_cons (a : Text × Text) (l : List (Text × Text)) (k : Text) :
    odbcGet (a :: l) k = if a.1.map Char.toLower = k.map Char.toLower then some a.2 else odbcGet l k := by
  unfold odbcGet
  by_cases h : a.1.map Char.toLower = k.map Char.toLower
  · rw [if_pos h, List.find?_cons_of_pos (by simpa using h)]; rfl
  · rw [if_neg h, List.find?_cons_of_neg (by simpa using h)]

theorem get_here (k v : Text) (l : List (Text × Text)) : odbcGet ((k, v) :: l) k = some v := by
  rw [get_cons, if_pos rfl]

theorem get_skip (l1 l2 : List (Text × Text)) (k : Text) (h : ∀ a ∈ l1, a.1.map Char.toLower ≠ k.map Char.toLower) : odbcGet (l1 ++ l2) k = odbcGet l2 k := by
  induction l1 with
  | nil => rfl
  | cons a l ih => rw [List.cons_append, get_cons, if_neg (h a (by simp)), ih (fun b hb => h b (List.mem_cons_of_mem _ hb))]

theorem get_opt (k : Text) (v : Option Text) (l : List (Text × Text)) (k' : Text) :
    odbcGet ((opt k v).map (fun j => (j.key, j.val)) ++ l) k' = if k.map Char.toLower = k'.map Char.toLower then (match v with | some x => some x | none => odbcGet l k') else odbcGet l k' := by
  cases v with
  | none => show odbcGet l k' = _; split <;> rfl
  | some x => show odbcGet ((k, x) :: l) k' = _; rw [get_cons]

/-- The attributes as read. -/
def attrsOf (items : List Item) : List (Text × Text) := items.map (fun j => (j.key, j.val))

theorem ne (a b : Text) (h : (a.map Char.toLower == b.map Char.toLower) = false) : ¬ (a.map Char.toLower = b.map Char.toLower) := by simpa using h

/-- The attributes that the driver gets. -/
theorem read_params (p : ConnParams) (h : OdbcFits p) : odbcRead p.odbcString = some (
        (t "DRIVER", t "ODBC Driver 18 for SQL Server") :: (t "APP", t "pysqlsync") :: ((Odbc.opt (t "SERVER") (odbcAddress p)).map (fun j => (j.key, j.val)) ++
          ((Odbc.opt (t "UID") p.username).map (fun j => (j.key, j.val)) ++ ((Odbc.opt (t "PWD") p.password).map (fun j => (j.key, j.val)) ++
          ((t "LongAsMax", t "yes") :: (t "TrustServerCertificate", t "yes") :: ((Odbc.opt (t "DATABASE") p.database).map (fun j => (j.key, j.val)) ++ [])))))) := by
  have hh : ∀ v, p.host = some v → OdbcPlain v := fun v hv => h v (.inl hv)
  have hu : ∀ v, p.username = some v → OdbcPlain v := fun v hv => h v (.inr (.inl hv))
  have hw : ∀ v, p.password = some v → OdbcPlain v := fun v hv => h v (.inr (.inr (.inl hv)))
  have hd : ∀ v, p.database = some v → OdbcPlain v := fun v hv => h v (.inr (.inr (.inr hv)))
  rw [Odbc.string_eq, Odbc.read_all (by unfold Odbc.front; simp) (fun i hi => ?_)]
  · unfold Odbc.front
    rw [server_eq]
    simp only [List.map_append, List.map_cons, List.cons_append, List.append_assoc, List.append_nil]
    rfl
  · rcases List.mem_append.1 hi with hi | hi
    · exact Odbc.front_ok hh hu i hi
    · rcases List.mem_append.1 hi with hi | hi
      · exact Odbc.opt_ok ⟨by decide +kernel, by decide +kernel⟩ hw i hi
      · exact Odbc.back_ok hd i hi

end Odbc

/-- **C68.** If no value has a semicolon or begins with a brace, the driver gets the server, user, password and database as given, and no others. -/
theorem C68_read (p : ConnParams) (h : OdbcFits p) :
    ∃ attrs, odbcRead p.odbcString = some attrs ∧
      odbcGet attrs (t "DRIVER") = some (t "ODBC Driver 18 for SQL Server") ∧ odbcGet attrs (t "SERVER") = odbcAddress p ∧ odbcGet attrs (t "UID") = p.username ∧
      odbcGet attrs (t "PWD") = p.password ∧ odbcGet attrs (t "DATABASE") = p.database ∧
      ∀ a ∈ attrs, a.1 ∈ [t "DRIVER", t "APP", t "SERVER", t "UID", t "PWD", t "LongAsMax", t "TrustServerCertificate", t "DATABASE"] := by
  refine ⟨_, Odbc.read_params p h, ?_⟩
  · have get : ∀ k, odbcGet [] k = none := fun _ => rfl
    have fin : ∀ v : Option Text, (match v with | some x => some x | none => none) = v := by intro v; cases v <;> rfl
    refine ⟨?_, ?_, ?_, ?_, ?_, ?_⟩
    · rw [Odbc.get_here]
    · rw [Odbc.get_cons, if_neg (Odbc.ne _ _ (by decide +kernel)), Odbc.get_cons, if_neg (Odbc.ne _ _ (by decide +kernel)), Odbc.get_opt, if_pos rfl,
        Odbc.get_opt, if_neg (Odbc.ne _ _ (by decide +kernel)), Odbc.get_opt, if_neg (Odbc.ne _ _ (by decide +kernel)), Odbc.get_cons, if_neg (Odbc.ne _ _ (by decide +kernel)),
        Odbc.get_cons, if_neg (Odbc.ne _ _ (by decide +kernel)), Odbc.get_opt, if_neg (Odbc.ne _ _ (by decide +kernel)), get, fin]
    · rw [Odbc.get_cons, if_neg (Odbc.ne _ _ (by decide +kernel)), Odbc.get_cons, if_neg (Odbc.ne _ _ (by decide +kernel)), Odbc.get_opt, if_neg (Odbc.ne _ _ (by decide +kernel)),
        Odbc.get_opt, if_pos rfl, Odbc.get_opt, if_neg (Odbc.ne _ _ (by decide +kernel)), Odbc.get_cons, if_neg (Odbc.ne _ _ (by decide +kernel)),
        Odbc.get_cons, if_neg (Odbc.ne _ _ (by decide +kernel)), Odbc.get_opt, if_neg (Odbc.ne _ _ (by decide +kernel)), get, fin]
    · rw [Odbc.get_cons, if_neg (Odbc.ne _ _ (by decide +kernel)), Odbc.get_cons, if_neg (Odbc.ne _ _ (by decide +kernel)), Odbc.get_opt, if_neg (Odbc.ne _ _ (by decide +kernel)),
        Odbc.get_opt, if_neg (Odbc.ne _ _ (by decide +kernel)), Odbc.get_opt, if_pos rfl, Odbc.get_cons, if_neg (Odbc.ne _ _ (by decide +kernel)),
        Odbc.get_cons, if_neg (Odbc.ne _ _ (by decide +kernel)), Odbc.get_opt, if_neg (Odbc.ne _ _ (by decide +kernel)), get, fin]
    · rw [Odbc.get_cons, if_neg (Odbc.ne _ _ (by decide +kernel)), Odbc.get_cons, if_neg (Odbc.ne _ _ (by decide +kernel)), Odbc.get_opt, if_neg (Odbc.ne _ _ (by decide +kernel)),
        Odbc.get_opt, if_neg (Odbc.ne _ _ (by decide +kernel)), Odbc.get_opt, if_neg (Odbc.ne _ _ (by decide +kernel)), Odbc.get_cons, if_neg (Odbc.ne _ _ (by decide +kernel)),
        Odbc.get_cons, if_neg (Odbc.ne _ _ (by decide +kernel)), Odbc.get_opt, if_pos rfl, get, fin]
    · have ho : ∀ (k : Text) (v : Option Text) (a : Text × Text), a ∈ (Odbc.opt k v).map (fun j => (j.key, j.val)) → a.1 = k := by
        intro k v a ha
        cases v with
        | none => cases ha
        | some x => rw [List.mem_singleton.1 ha]
      intro a ha
      simp only [List.mem_cons, List.mem_append, List.not_mem_nil, or_false] at ha ⊢
      rcases ha with rfl | rfl | ha | ha | ha | rfl | rfl | ha
      · exact .inl rfl
      · exact .inr (.inl rfl)
      · exact .inr (.inr (.inl (ho _ _ a ha)))
      · exact .inr (.inr (.inr (.inl (ho _ _ a ha))))
      · exact .inr (.inr (.inr (.inr (.inl (ho _ _ a ha)))))
      · exact .inr (.inr (.inr (.inr (.inr (.inl rfl)))))
      · exact .inr (.inr (.inr (.inr (.inr (.inr (.inl rfl))))))
      · exact .inr (.inr (.inr (.inr (.inr (.inr (.inr (ho _ _ a ha)))))))

/-- **C68** (the limit). A password with a semicolon is cut there, whatever follows. -/
theorem C68_password_cut (p : ConnParams) (a b : Text) (hp : p.password = some (a ++ ';' :: b)) (ha : OdbcPlain a) (hh : ∀ v, p.host = some v → OdbcPlain v)
    (hu : ∀ v, p.username = some v → OdbcPlain v) (attrs : List (Text × Text)) (h : odbcRead p.odbcString = some attrs) : odbcGet attrs (t "PWD") = some a := by
  obtain ⟨tail, et⟩ : ∃ tail, p.odbcString = Odbc.lead (Odbc.front p) ++ (t "PWD" ++ '=' :: (a ++ ';' :: tail)) := by
    refine ⟨b ++ ';' :: Odbc.render (Odbc.long :: Odbc.trust :: Odbc.opt (t "DATABASE") p.database), ?_⟩
    rw [Odbc.string_eq, hp, Odbc.opt_some, List.singleton_append, Odbc.render_append, Odbc.render_next]
    simp only [List.append_assoc, List.cons_append]
  have hlen : (Odbc.front p).length + 1 ≤ p.odbcString.length := by
    have := (Odbc.length_render (Odbc.front p ++ (Odbc.opt (t "PWD") p.password ++ (Odbc.long :: Odbc.trust :: Odbc.opt (t "DATABASE") p.database)))).2 (by unfold Odbc.front; simp)
    rw [← Odbc.string_eq] at this
    simp only [List.length_append, List.length_cons] at this
    omega
  obtain ⟨n, hn⟩ := Nat.exists_eq_add_of_le hlen
  unfold odbcRead at h
  rw [hn, et, show (Odbc.front p).length + 1 + n = (n + 1) + (Odbc.front p).length by omega, Odbc.read_lead _ (Odbc.front_ok hh hu),
    Odbc.attrs_step (by decide +kernel) (Odbc.value_cut ha.1 ha.2 tail)] at h
  cases hr : odbcAttrs n tail with
  | none => rw [hr] at h; cases h
  | some l =>
    rw [hr] at h
    injection h with h
    subst h
    rw [Odbc.get_skip]
    · rw [Odbc.get_here]
    · intro x hx
      obtain ⟨i, hi, rfl⟩ := List.mem_map.1 hx
      show ¬ (i.key.map Char.toLower = _)
      rcases Odbc.front_key hi with e | e | e | e <;> rw [e] <;> exact Odbc.ne _ _ (by decide +kernel)

/-- **C68** (the limit). What follows a semicolon in the password is taken as another attribute, before the database: `DATABASE=other` in a password selects another database than the one that is given. -/
theorem C68_injection (p : ConnParams) (a k v : Text) (hp : p.password = some (a ++ ';' :: (k ++ '=' :: v))) (ha : OdbcPlain a) (hv : OdbcPlain v) (hk : k ≠ [] ∧ '=' ∉ k)
    (hh : ∀ x, p.host = some x → OdbcPlain x) (hu : ∀ x, p.username = some x → OdbcPlain x) (hd : ∀ x, p.database = some x → OdbcPlain x)
    (hkey : ∀ x ∈ [t "DRIVER", t "APP", t "SERVER", t "UID", t "PWD"], x.map Char.toLower ≠ k.map Char.toLower) :
    ∃ attrs, odbcRead p.odbcString = some attrs ∧ odbcGet attrs (t "PWD") = some a ∧ odbcGet attrs k = some v := by
  have es : p.odbcString = Odbc.render (Odbc.front p ++ (⟨t "PWD", a, a⟩ :: ⟨k, v, v⟩ :: Odbc.long :: Odbc.trust :: Odbc.opt (t "DATABASE") p.database)) := by
    rw [Odbc.string_eq, hp, Odbc.opt_some, List.singleton_append, Odbc.render_append, Odbc.render_append, Odbc.render_next (t "PWD") (a ++ _), Odbc.render_next (t "PWD") a a, Odbc.render_next k v v]
    simp only [List.append_assoc, List.cons_append]
  have hr : odbcRead p.odbcString = some ((Odbc.front p ++ (⟨t "PWD", a, a⟩ :: ⟨k, v, v⟩ :: Odbc.long :: Odbc.trust :: Odbc.opt (t "DATABASE") p.database)).map (fun j => (j.key, j.val))) := by
    rw [es]
    refine Odbc.read_all (by unfold Odbc.front; simp) (fun i hi => ?_)
    rcases List.mem_append.1 hi with hi | hi
    · exact Odbc.front_ok hh hu i hi
    · rcases List.mem_cons.1 hi with rfl | hi
      · exact Odbc.plain_ok ⟨by decide +kernel, by decide +kernel⟩ ha
      · rcases List.mem_cons.1 hi with rfl | hi
        · exact Odbc.plain_ok hk hv
        · exact Odbc.back_ok hd i hi
  refine ⟨_, hr, C68_password_cut p a _ hp ha hh hu _ hr, ?_⟩
  rw [List.map_append, Odbc.get_skip]
  · rw [List.map_cons, List.map_cons, Odbc.get_cons, if_neg (hkey _ (by simp)), Odbc.get_here]
  · intro x hx
    obtain ⟨i, hi, rfl⟩ := List.mem_map.1 hx
    show ¬ (i.key.map Char.toLower = _)
    rcases Odbc.front_key hi with e | e | e | e <;> rw [e] <;> exact hkey _ (by simp)

/-- **C68** (the limit). The mode of encryption makes no difference: the certificate of the server is trusted whatever it is, even if it is to be verified. -/
theorem C68_ssl (p : ConnParams) (mode : Option SslMode) (h : OdbcFits p) :
    ({ p with ssl := mode } : ConnParams).odbcString = p.odbcString ∧ ∃ attrs, odbcRead p.odbcString = some attrs ∧ odbcGet attrs (t "TrustServerCertificate") = some (t "yes") := by
  refine ⟨rfl, _, Odbc.read_params p h, ?_⟩
  · rw [Odbc.get_cons, if_neg (Odbc.ne _ _ (by decide +kernel)), Odbc.get_cons, if_neg (Odbc.ne _ _ (by decide +kernel)), Odbc.get_opt, if_neg (Odbc.ne _ _ (by decide +kernel)),
        Odbc.get_opt, if_neg (Odbc.ne _ _ (by decide +kernel)), Odbc.get_opt, if_neg (Odbc.ne _ _ (by decide +kernel)), Odbc.get_cons, if_neg (Odbc.ne _ _ (by decide +kernel)),
        Odbc.get_here]

/-! ### Examples -/

namespace OdbcDemo

def params : ConnParams := { host := some (t "db.example.com"), port := some 1433, username := some (t "sa"), password := some (t "p=w{d}"), database := some (t "sales") }

example : params.odbcString = t "DRIVER={ODBC Driver 18 for SQL Server};APP=pysqlsync;SERVER=db.example.com,1433;UID=sa;PWD=p=w{d};LongAsMax=yes;TrustServerCertificate=yes;DATABASE=sales" := by decide +kernel
example : (odbcRead params.odbcString).map (fun l => odbcGet l (t "pwd")) = some (some (t "p=w{d}")) := by decide +kernel

example : ∃ attrs, odbcRead params.odbcString = some attrs ∧ odbcGet attrs (t "SERVER") = some (t "db.example.com,1433") := by
  obtain ⟨attrs, h, _, hs, _⟩ := C68_read params (by
    rintro v (h | h | h | h) <;> injection h with h <;> subst h <;> exact ⟨by decide +kernel, by decide +kernel⟩)
  exact ⟨attrs, h, by rw [hs]; decide +kernel⟩

/-- A password that selects another database. -/
example : (odbcRead (ConnParams.odbcString { params with password := some (t "x;Database=other") })).map (fun l => odbcGet l (t "DATABASE")) = some (some (t "other")) := by
  decide +kernel

example : ∃ attrs, odbcRead (ConnParams.odbcString { params with password := some (t "x;Database=other") }) = some attrs ∧ odbcGet attrs (t "PWD") = some (t "x") ∧ odbcGet attrs (t "Database") = some (t "other") :=
  C68_injection { params with password := some (t "x;Database=other") } (t "x") (t "Database") (t "other") (by decide +kernel) ⟨by decide +kernel, by decide +kernel⟩ ⟨by decide +kernel, by decide +kernel⟩
    ⟨by decide +kernel, by decide +kernel⟩ (by intro x h; injection h with h; subst h; exact ⟨by decide +kernel, by decide +kernel⟩) (by intro x h; injection h with h; subst h; exact ⟨by decide +kernel, by decide +kernel⟩)
    (by intro x h; injection h with h; subst h; exact ⟨by decide +kernel, by decide +kernel⟩) (by decide +kernel)

/-- A host that is not given, with a port. -/
example : ConnParams.odbcServer { port := some 1433 } = some (t "None,1433") := by decide +kernel

end OdbcDemo

end PySqlSync
