/-
C36 — Discovered multi-column constraints are reassembled exactly.
-/
import Verif.Model.Factories
import Verif.Examples.Shop

set_option autoImplicit false

namespace PySqlSync

/-- The columns in the rows of a constraint, in the order of the rows. -/
def columnsOf (rows : List (Text × Text)) (name : Text) : List Text := (rows.filter (fun r => r.1 = name)).map Prod.snd

/-- The names in the rows, in the order in which they are first seen. -/
def namesOf (rows : List (Text × Text)) : List Text := (rows.map Prod.fst).eraseDups

namespace C36

theorem eraseDups_snoc {α : Type} [BEq α] [LawfulBEq α] (l : List α) (a : α) :
    (l ++ [a]).eraseDups = if l.contains a then l.eraseDups else l.eraseDups ++ [a] := by
  rw [List.eraseDups_append]
  unfold List.removeAll
  by_cases h : l.contains a
  · have : List.filter (fun x => !l.elem x) [a] = [] := by
      rw [List.filter_cons, if_neg]
      · rfl
      · have h' : l.elem a = true := h
        simp only [h', Bool.not_true, Bool.false_eq_true, not_false_eq_true]
    rw [if_pos h, this]; simp
  · have : List.filter (fun x => !l.elem x) [a] = [a] := by
      rw [List.filter_cons, if_pos]
      · rfl
      · have h' : l.elem a = false := by simpa using h
        rw [h']; rfl
    rw [if_neg h, this, List.eraseDups_cons]; simp

theorem nodup_eraseDups {α : Type} [BEq α] [LawfulBEq α] : ∀ (l : List α), l.eraseDups.Nodup := by
  intro l
  induction hn : l.length using Nat.strongRecOn generalizing l with
  | ind n ih =>
    cases l with
    | nil => simp
    | cons a l =>
      rw [List.eraseDups_cons, List.nodup_cons]
      refine ⟨?_, ?_⟩
      · rw [List.mem_eraseDups, List.mem_filter]
        rintro ⟨_, h⟩
        simp at h
      · refine ih _ ?_ _ rfl
        have := List.length_filter_le (fun b => !b == a) l
        rw [← hn, List.length_cons]
        omega

theorem mem_eraseDups {α : Type} [BEq α] [LawfulBEq α] {l : List α} {a : α} : a ∈ l.eraseDups ↔ a ∈ l := by
  exact List.mem_eraseDups

/-- The dictionary after rows were added: names in the order first seen, with their columns. -/
theorem uniqueAddAll_eq : ∀ (rows : List (Text × Text)),
    uniqueAddAll rows = (namesOf rows).map (fun n => (n, columnsOf rows n)) := by
  intro rows
  suffices h : ∀ (done rest : List (Text × Text)),
      rest.foldl (fun d r => uniqueAdd d r.1 r.2) ((namesOf done).map (fun n => (n, columnsOf done n)))
        = (namesOf (done ++ rest)).map (fun n => (n, columnsOf (done ++ rest) n)) by
    have := h [] rows
    unfold uniqueAddAll
    simpa [namesOf] using this
  intro done rest
  induction rest generalizing done with
  | nil => simp
  | cons r rest ih =>
    rw [List.foldl_cons]
    have hstep : uniqueAdd ((namesOf done).map (fun n => (n, columnsOf done n))) r.1 r.2
        = (namesOf (done ++ [r])).map (fun n => (n, columnsOf (done ++ [r]) n)) := by
      have hcol : ∀ n, columnsOf (done ++ [r]) n = if r.1 = n then columnsOf done n ++ [r.2] else columnsOf done n := by
        intro n
        unfold columnsOf
        rw [List.filter_append, List.map_append]
        by_cases e : r.1 = n
        · simp [e]
        · simp [e]
      have hnm : namesOf (done ++ [r]) = if (done.map Prod.fst).contains r.1 then namesOf done else namesOf done ++ [r.1] := by
        unfold namesOf
        rw [List.map_append, List.map_cons, List.map_nil, eraseDups_snoc]
      have hany : ((namesOf done).map (fun n => (n, columnsOf done n))).any (fun p => p.1 = r.1)
          = (done.map Prod.fst).contains r.1 := by
        rw [Bool.eq_iff_iff, List.any_eq_true]
        constructor
        · rintro ⟨p, hp, e⟩
          obtain ⟨n, hn, rfl⟩ := List.mem_map.1 hp
          simp only [decide_eq_true_eq] at e
          subst e
          exact List.elem_eq_true_of_mem (mem_eraseDups.1 hn)
        · intro h
          have hm : r.1 ∈ done.map Prod.fst := by simpa using h
          exact ⟨_, List.mem_map_of_mem (mem_eraseDups.2 hm), by simp⟩
      unfold uniqueAdd
      rw [hany, hnm]
      by_cases h : (done.map Prod.fst).contains r.1
      · rw [if_pos h, if_pos h, List.map_map]
        refine List.map_congr_left ?_
        intro n _
        simp only [Function.comp_apply]
        rw [hcol n]
        by_cases e : n = r.1
        · rw [if_pos e, if_pos e.symm]
        · rw [if_neg e, if_neg (fun e' => e e'.symm)]
      · rw [if_neg h, if_neg h, List.map_append, List.map_cons, List.map_nil]
        have hnot : ∀ n ∈ namesOf done, r.1 ≠ n := by
          intro n hn e
          exact h (List.elem_eq_true_of_mem (e ▸ mem_eraseDups.1 hn))
        congr 1
        · refine List.map_congr_left ?_
          intro n hn
          rw [hcol n, if_neg (hnot n hn)]
        · rw [hcol r.1, if_pos rfl]
          have : columnsOf done r.1 = [] := by
            unfold columnsOf
            rw [List.map_eq_nil_iff, List.filter_eq_nil_iff]
            intro x hx e
            simp only [decide_eq_true_eq] at e
            exact h (List.elem_eq_true_of_mem (List.mem_map.2 ⟨x, hx, e⟩))
          rw [this]; rfl
    rw [hstep, ih (done ++ [r])]
    simp

end C36

/-- **C36.**  For any rows, in any interleaving, there is one uniqueness constraint for each name that occurs, in the order in
    which names are first seen, and its columns are those of the rows with that name, in the order of the rows. -/
theorem C36_unique (rows : List (Text × Text)) :
    uniqueFetch (uniqueAddAll rows) = (namesOf rows).map (fun n => .unique n (columnsOf rows n)) := by
  rw [C36.uniqueAddAll_eq]
  unfold uniqueFetch
  rw [List.map_map]
  rfl

namespace C36

/-- The names in the rows, in the order in which they are first seen. -/
def fnames (rows : List ForeignRow) : List Text := (rows.map ForeignRow.name).eraseDups

/-- The pairs of columns in the rows of a constraint. -/
def fpairs (rows : List ForeignRow) (n : Text) : List (Text × Text) :=
  (rows.filter (fun r => r.name = n)).map (fun r => (r.source, r.target))

structure Inv (rows : List ForeignRow) (d : ForeignLinks) : Prop where
  names : d.map Prod.fst = fnames rows
  pairs : ∀ p ∈ d, p.2.2 = fpairs rows p.1
  table : ∀ p ∈ d, ∀ r ∈ rows, r.name = p.1 → r.table = p.2.1

theorem fpairs_snoc (rows : List ForeignRow) (r : ForeignRow) (n : Text) :
    fpairs (rows ++ [r]) n = if r.name = n then fpairs rows n ++ [(r.source, r.target)] else fpairs rows n := by
  unfold fpairs
  rw [List.filter_append, List.map_append]
  by_cases e : r.name = n
  · simp [e]
  · simp [e]

theorem fnames_snoc (rows : List ForeignRow) (r : ForeignRow) :
    fnames (rows ++ [r]) = if (rows.map ForeignRow.name).contains r.name then fnames rows else fnames rows ++ [r.name] := by
  unfold fnames
  rw [List.map_append, List.map_cons, List.map_nil, eraseDups_snoc]

theorem inv_step {rows : List ForeignRow} {d d' : ForeignLinks} {r : ForeignRow} (h : Inv rows d) (ha : foreignAdd d r = .ok d') :
    Inv (rows ++ [r]) d' := by
  unfold foreignAdd at ha
  split at ha
  · rename_i n table ps hf
    have hm := List.mem_of_find?_eq_some hf
    have hn : n = r.name := by simpa using List.find?_some hf
    subst hn
    split at ha
    · cases ha
    · rename_i ht
      simp only [ne_eq, Decidable.not_not] at ht
      cases ha
      have hin : (rows.map ForeignRow.name).contains r.name = true := by
        have : r.name ∈ fnames rows := by rw [← h.names]; exact List.mem_map.2 ⟨_, hm, rfl⟩
        exact List.elem_eq_true_of_mem (mem_eraseDups.1 this)
      have htab : ∀ p ∈ d, p.1 = r.name → p.2.1 = table := by
        intro p hp e
        have hrow : r.name ∈ rows.map ForeignRow.name := by simpa using hin
        obtain ⟨r', hr', e'⟩ := List.mem_map.1 hrow
        exact (h.table p hp r' hr' (by rw [e', e])).symm.trans (h.table _ hm r' hr' e')
      refine ⟨?_, ?_, ?_⟩
      · rw [fnames_snoc, if_pos hin, ← h.names, List.map_map]
        refine List.map_congr_left ?_
        intro p _
        simp only [Function.comp_apply]
        split <;> rfl
      · intro p hp
        obtain ⟨p0, hp0, rfl⟩ := List.mem_map.1 hp
        rw [fpairs_snoc]
        by_cases e : p0.1 = r.name
        · rw [if_pos e]
          dsimp only
          rw [if_pos e.symm, h.pairs p0 hp0]
        · rw [if_neg e]
          rw [if_neg (fun e' => e e'.symm), h.pairs p0 hp0]
      · intro p hp x hx
        obtain ⟨p0, hp0, rfl⟩ := List.mem_map.1 hp
        have h1 : (if p0.1 = r.name then (p0.1, p0.2.1, p0.2.2 ++ [(r.source, r.target)]) else p0).1 = p0.1 := by split <;> rfl
        have h2 : (if p0.1 = r.name then (p0.1, p0.2.1, p0.2.2 ++ [(r.source, r.target)]) else p0).2.1 = p0.2.1 := by split <;> rfl
        rw [h1, h2]
        intro e
        rcases List.mem_append.1 hx with hx | hx
        · exact h.table p0 hp0 x hx e
        · rw [List.mem_singleton] at hx
          subst hx
          rw [htab p0 hp0 e.symm, ht]
  · rename_i hf
    cases ha
    have hnot : ∀ p ∈ d, p.1 ≠ r.name := by
      intro p hp e
      have := List.find?_eq_none.1 hf p hp
      exact this (by simpa using e)
    have hnin : ∀ x ∈ rows, x.name ≠ r.name := by
      intro x hx e
      have : r.name ∈ fnames rows := mem_eraseDups.2 (List.mem_map.2 ⟨x, hx, e⟩)
      rw [← h.names] at this
      obtain ⟨p, hp, e'⟩ := List.mem_map.1 this
      exact hnot p hp e'
    have hin : ¬ (rows.map ForeignRow.name).contains r.name = true := by
      intro hc
      have : r.name ∈ rows.map ForeignRow.name := by simpa using hc
      obtain ⟨x, hx, e⟩ := List.mem_map.1 this
      exact hnin x hx e
    refine ⟨?_, ?_, ?_⟩
    · rw [fnames_snoc, if_neg hin, List.map_append, h.names]; rfl
    · intro p hp
      rw [fpairs_snoc]
      rcases List.mem_append.1 hp with hp | hp
      · rw [if_neg (fun e => hnot p hp e.symm), h.pairs p hp]
      · rw [List.mem_singleton] at hp
        subst hp
        dsimp only
        rw [if_pos rfl]
        have : fpairs rows r.name = [] := by
          unfold fpairs
          rw [List.map_eq_nil_iff, List.filter_eq_nil_iff]
          intro x hx e
          exact hnin x hx (by simpa using e)
        rw [this]; rfl
    · intro p hp x hx e
      rcases List.mem_append.1 hp with hp1 | hp1 <;> rcases List.mem_append.1 hx with hx1 | hx1
      · exact h.table p hp1 x hx1 e
      · rw [List.mem_singleton] at hx1; rw [hx1] at e; exact absurd e.symm (hnot p hp1)
      · rw [List.mem_singleton] at hp1; rw [hp1] at e; exact absurd e (hnin x hx1)
      · rw [List.mem_singleton] at hp1 hx1; rw [hp1, hx1]

theorem add_error {rows : List ForeignRow} {d : ForeignLinks} {r : ForeignRow} {e : Err} (h : Inv rows d)
    (ha : foreignAdd d r = .error e) : ∃ r' ∈ rows, r'.name = r.name ∧ r'.table ≠ r.table := by
  unfold foreignAdd at ha
  split at ha
  · rename_i n table ps hf
    have hm := List.mem_of_find?_eq_some hf
    have hn : n = r.name := by simpa using List.find?_some hf
    subst hn
    split at ha
    · rename_i ht
      have : r.name ∈ fnames rows := by rw [← h.names]; exact List.mem_map.2 ⟨_, hm, rfl⟩
      obtain ⟨r', hr', e'⟩ := List.mem_map.1 (mem_eraseDups.1 this)
      exact ⟨r', hr', e', fun e'' => ht (by rw [← e'', h.table _ hm r' hr' e'])⟩
    · cases ha
  · cases ha

theorem addAll_facts : ∀ {rest done : List ForeignRow} {d : ForeignLinks}, Inv done d →
    (∀ {d'}, foreignAddAll d rest = .ok d' → Inv (done ++ rest) d') ∧
    (∀ {e}, foreignAddAll d rest = .error e →
      ∃ a ∈ done ++ rest, ∃ b ∈ done ++ rest, a.name = b.name ∧ a.table ≠ b.table) := by
  intro rest
  induction rest with
  | nil =>
    intro done d h
    refine ⟨?_, ?_⟩
    · intro d' e; cases e; rw [List.append_nil]; exact h
    · intro e h'; cases h'
  | cons r rest ih =>
    intro done d h
    unfold foreignAddAll
    simp only [bind, Except.bind]
    cases ha : foreignAdd d r with
    | error e0 =>
      dsimp only
      refine ⟨(by intro d' e; cases e), ?_⟩
      intro e _
      obtain ⟨r', hr', e1, e2⟩ := add_error h ha
      exact ⟨r', by simp [hr'], r, by simp, e1, e2⟩
    | ok d1 =>
      dsimp only
      have := ih (inv_step h ha)
      rw [List.append_assoc] at this
      exact this

theorem inv_nil : Inv [] [] := ⟨rfl, by simp, by simp⟩

end C36

/-- **C36.**  Rows of foreign keys that were accepted yield one constraint for each name that occurs, in the order in which names
    are first seen; its columns are those of the rows with that name, in the order of the rows; all those rows have its target
    table. -/
theorem C36_foreign {rows : List ForeignRow} {d : ForeignLinks} (h : foreignAddAll [] rows = .ok d) :
    (foreignFetch d).map Constraint.name = (rows.map ForeignRow.name).eraseDups ∧
    ∀ c ∈ foreignFetch d, ∃ n table, c = .foreign n ((rows.filter (fun r => r.name = n)).map ForeignRow.source)
        ⟨table, (rows.filter (fun r => r.name = n)).map ForeignRow.target⟩ ∧
      ∀ r ∈ rows, r.name = n → r.table = table := by
  have hinv := (C36.addAll_facts C36.inv_nil).1 h
  rw [List.nil_append] at hinv
  refine ⟨?_, ?_⟩
  · have := hinv.names
    unfold C36.fnames at this
    rw [← this]
    unfold foreignFetch
    rw [List.map_map]
    rfl
  · intro c hc
    obtain ⟨p, hp, rfl⟩ := List.mem_map.1 hc
    refine ⟨p.1, p.2.1, ?_, fun r hr e => hinv.table p hp r hr e⟩
    rw [hinv.pairs p hp]
    unfold C36.fpairs
    rw [List.map_map, List.map_map]
    rfl

/-- **C36.**  Rows are refused exactly if a name occurs with two target tables. -/
theorem C36_foreign_refused (rows : List ForeignRow) :
    (∃ e, foreignAddAll [] rows = .error e) ↔ ∃ a ∈ rows, ∃ b ∈ rows, a.name = b.name ∧ a.table ≠ b.table := by
  constructor
  · rintro ⟨e, h⟩
    exact (C36.addAll_facts C36.inv_nil).2 h
  · rintro ⟨a, ha, b, hb, e1, e2⟩
    cases h : foreignAddAll [] rows with
    | error e => exact ⟨e, rfl⟩
    | ok d =>
      have hinv := (C36.addAll_facts C36.inv_nil).1 h
      rw [List.nil_append] at hinv
      have : a.name ∈ C36.fnames rows := C36.mem_eraseDups.2 (List.mem_map_of_mem ha)
      rw [← hinv.names] at this
      obtain ⟨p, hp, e⟩ := List.mem_map.1 this
      exact absurd ((hinv.table p hp a ha e.symm).trans (hinv.table p hp b hb (by rw [← e1, e])).symm) e2

/-- **C36.**  The rows of any constraints with distinct names and at least one column, however interleaved as long as those of each
    constraint are in order, yield exactly these constraints. -/
theorem C36_unique_round_trip {cons : List (Text × List Text)} (hd : (cons.map Prod.fst).Nodup) (hne : ∀ c ∈ cons, c.2 ≠ [])
    {rows : List (Text × Text)} (hrows : ∀ r ∈ rows, r.1 ∈ cons.map Prod.fst) (hcols : ∀ c ∈ cons, columnsOf rows c.1 = c.2) :
    (uniqueFetch (uniqueAddAll rows)).Perm (cons.map (fun c => .unique c.1 c.2)) := by
  rw [C36_unique]
  have hp : (namesOf rows).Perm (cons.map Prod.fst) := by
    unfold namesOf
    rw [List.perm_ext_iff_of_nodup (C36.nodup_eraseDups _) hd]
    intro n
    rw [List.mem_eraseDups]
    constructor
    · intro h
      obtain ⟨r, hr, rfl⟩ := List.mem_map.1 h
      exact hrows r hr
    · intro h
      obtain ⟨c, hc, rfl⟩ := List.mem_map.1 h
      have h1 := hcols c hc
      have h2 := hne c hc
      rw [← h1] at h2
      obtain ⟨x, hx⟩ := List.exists_mem_of_ne_nil _ h2
      unfold columnsOf at hx
      obtain ⟨r, hr, _⟩ := List.mem_map.1 hx
      obtain ⟨hr1, hr2⟩ := List.mem_filter.1 hr
      exact List.mem_map.2 ⟨r, hr1, by simpa using hr2⟩
  refine (hp.map _).trans ?_
  rw [List.map_map]
  refine List.Perm.of_eq (List.map_congr_left ?_)
  intro c hc
  simp only [Function.comp_apply]
  rw [hcols c hc]

/-- **C36.**  The same for foreign keys whose columns are paired by the query (PostgreSQL and MySQL). -/
theorem C36_foreign_round_trip {keys : List ForeignKey} (hd : (keys.map ForeignKey.name).Nodup)
    (hne : ∀ k ∈ keys, k.source ≠ [] ∧ k.source.length = k.target.length) {rows : List ForeignRow}
    (hrows : ∀ r ∈ rows, r.name ∈ keys.map ForeignKey.name)
    (hcols : ∀ k ∈ keys, rows.filter (fun r => r.name = k.name) = k.rowsPaired) :
    ∃ d, foreignAddAll [] rows = .ok d ∧ (foreignFetch d).Perm (keys.map ForeignKey.constraint) := by
  have hname : ∀ k ∈ keys, ∀ k' ∈ keys, k.name = k'.name → k = k' := by
    intro k hk k' hk' e
    have : ∀ (l : List ForeignKey), (l.map ForeignKey.name).Nodup → k ∈ l → k' ∈ l → k = k' := by
      intro l
      induction l with
      | nil => intro _ h; cases h
      | cons a l ih =>
        intro hnd h h'
        rw [List.map_cons, List.nodup_cons] at hnd
        rcases List.mem_cons.1 h with ea | h1 <;> rcases List.mem_cons.1 h' with eb | h2
        · rw [ea, eb]
        · exact absurd (List.mem_map.2 ⟨k', h2, by rw [← e, ea]⟩) hnd.1
        · exact absurd (List.mem_map.2 ⟨k, h1, by rw [e, eb]⟩) hnd.1
        · exact ih hnd.2 h1 h2
    exact this keys hd hk hk'
  have htab : ∀ k ∈ keys, ∀ r ∈ rows, r.name = k.name → r.table = k.table := by
    intro k hk r hr e
    have : r ∈ rows.filter (fun r => r.name = k.name) := List.mem_filter.2 ⟨hr, by simpa using e⟩
    rw [hcols k hk] at this
    obtain ⟨p, _, rfl⟩ := List.mem_map.1 this
    rfl
  cases h : foreignAddAll [] rows with
  | error e =>
    obtain ⟨a, ha, b, hb, e1, e2⟩ := (C36_foreign_refused rows).1 ⟨e, h⟩
    obtain ⟨k, hk, ek⟩ := List.mem_map.1 (hrows a ha)
    exact absurd ((htab k hk a ha ek.symm).trans (htab k hk b hb (by rw [← e1, ek])).symm) e2
  | ok d =>
    refine ⟨d, rfl, ?_⟩
    have hinv := (C36.addAll_facts C36.inv_nil).1 h
    rw [List.nil_append] at hinv
    have hp : (d.map Prod.fst).Perm (keys.map ForeignKey.name) := by
      rw [hinv.names]
      unfold C36.fnames
      rw [List.perm_ext_iff_of_nodup (C36.nodup_eraseDups _) hd]
      intro n
      rw [List.mem_eraseDups]
      constructor
      · intro h
        obtain ⟨r, hr, rfl⟩ := List.mem_map.1 h
        exact hrows r hr
      · intro h
        obtain ⟨k, hk, rfl⟩ := List.mem_map.1 h
        have h1 := hcols k hk
        have : k.rowsPaired ≠ [] := by
          obtain ⟨h2, h3⟩ := hne k hk
          unfold ForeignKey.rowsPaired
          intro e
          rw [List.map_eq_nil_iff, List.zip_eq_nil_iff] at e
          rcases e with e | e
          · exact h2 e
          · rw [e] at h3; exact h2 (List.length_eq_zero_iff.1 h3)
        rw [← h1] at this
        obtain ⟨r, hr⟩ := List.exists_mem_of_ne_nil _ this
        obtain ⟨hr1, hr2⟩ := List.mem_filter.1 hr
        exact List.mem_map.2 ⟨r, hr1, by simpa using hr2⟩
    -- each constraint found is the one of the key with its name
    have hsame : ∀ p ∈ d, ∀ k ∈ keys, k.name = p.1 → (Constraint.foreign p.1 (p.2.2.map Prod.fst) ⟨p.2.1, p.2.2.map Prod.snd⟩) = k.constraint := by
      intro p hpd k hk e
      have hps := hinv.pairs p hpd
      unfold C36.fpairs at hps
      rw [← e, hcols k hk] at hps
      unfold ForeignKey.rowsPaired at hps
      rw [List.map_map] at hps
      have hlen := (hne k hk).2
      have h1 : p.2.2 = k.source.zip k.target := by
        rw [hps]
        conv => rhs; rw [← List.map_id (k.source.zip k.target)]
        exact List.map_congr_left (fun x _ => rfl)
      have h2 : p.2.1 = k.table := by
        have : p.1 ∈ C36.fnames rows := by rw [← hinv.names]; exact List.mem_map_of_mem hpd
        obtain ⟨r, hr, er⟩ := List.mem_map.1 (C36.mem_eraseDups.1 this)
        rw [← hinv.table p hpd r hr er, htab k hk r hr (by rw [er, e])]
      unfold ForeignKey.constraint
      rw [h1, h2, e, List.map_fst_zip (by omega), List.map_snd_zip (by omega)]
    have hmap : ∀ (d' : ForeignLinks), (∀ p ∈ d', p ∈ d) → foreignFetch d' = d'.filterMap (fun p => (keys.find? (fun k => k.name = p.1)).map ForeignKey.constraint) := by
      intro d'
      induction d' with
      | nil => intro _; rfl
      | cons p d' ih =>
        intro hsub
        have hpd := hsub p List.mem_cons_self
        have : p.1 ∈ keys.map ForeignKey.name := hp.subset (List.mem_map_of_mem hpd)
        obtain ⟨k, hk, ek⟩ := List.mem_map.1 this
        have hfind : keys.find? (fun k => k.name = p.1) = some k := by
          cases hf : keys.find? (fun k => k.name = p.1) with
          | none => exact absurd (by simpa using ek) (List.find?_eq_none.1 hf k hk)
          | some k' =>
            have e' : k'.name = p.1 := by simpa using List.find?_some hf
            rw [hname k' (List.mem_of_find?_eq_some hf) k hk (by rw [e', ek])]
        unfold foreignFetch at ih ⊢
        rw [List.map_cons, List.filterMap_cons, hfind]
        simp only [Option.map_some]
        rw [ih (fun p hp => hsub p (List.mem_cons_of_mem _ hp)), hsame p hpd k hk ek]
    rw [hmap d (fun p h => h)]
    have : d.filterMap (fun p => (keys.find? (fun k => k.name = p.1)).map ForeignKey.constraint)
        = (d.map Prod.fst).filterMap (fun n => (keys.find? (fun k => k.name = n)).map ForeignKey.constraint) := by
      rw [List.filterMap_map]; rfl
    rw [this]
    refine (hp.filterMap _).trans (List.Perm.of_eq ?_)
    rw [List.filterMap_map]
    have hfm : ∀ (l : List ForeignKey), (∀ k ∈ l, k ∈ keys) →
        l.filterMap ((fun n => (keys.find? (fun k => k.name = n)).map ForeignKey.constraint) ∘ ForeignKey.name) = l.map ForeignKey.constraint := by
      intro l
      induction l with
      | nil => intro _; rfl
      | cons k l ih =>
        intro hsub
        have hk := hsub k List.mem_cons_self
        have hfind : keys.find? (fun x => x.name = k.name) = some k := by
          cases hf : keys.find? (fun x => x.name = k.name) with
          | none => exact absurd (by simp) (List.find?_eq_none.1 hf k hk)
          | some k' =>
            have e' : k'.name = k.name := by simpa using List.find?_some hf
            rw [hname k' (List.mem_of_find?_eq_some hf) k hk e']
        rw [List.filterMap_cons, List.map_cons]
        simp only [Function.comp_apply, hfind, Option.map_some]
        rw [ih (fun x hx => hsub x (List.mem_cons_of_mem _ hx))]
    exact hfm keys (fun k h => h)

/-- **C36 fails** for Oracle: a foreign key with k columns is found with k × k columns, for every k. -/
theorem C36_oracle_multiplies (key : ForeignKey) (hs : key.source ≠ []) (ht : key.uniqueKey ≠ []) :
    ∃ cols ref, (foreignAddAll [] key.rowsCrossed).toOption.map foreignFetch = some [.foreign key.name cols ref] ∧
      cols.length = key.source.length * key.uniqueKey.length ∧ ref.columns.length = key.source.length * key.uniqueKey.length := by
  have hall : ∀ r ∈ key.rowsCrossed, r.name = key.name ∧ r.table = key.table := by
    intro r hr
    unfold ForeignKey.rowsCrossed at hr
    obtain ⟨s, _, hr⟩ := List.mem_flatMap.1 hr
    obtain ⟨c, _, rfl⟩ := List.mem_map.1 hr
    exact ⟨rfl, rfl⟩
  have hlen : key.rowsCrossed.length = key.source.length * key.uniqueKey.length := by
    unfold ForeignKey.rowsCrossed
    induction key.source with
    | nil => simp
    | cons s l ih => rw [List.flatMap_cons, List.length_append, ih, List.length_map, List.length_cons, Nat.succ_mul]; omega
  have hne : key.rowsCrossed ≠ [] := by
    intro e
    rw [e] at hlen
    have h1 := List.length_pos_iff.2 hs
    have h2 := List.length_pos_iff.2 ht
    have := Nat.mul_pos h1 h2
    simp at hlen
    omega
  cases h : foreignAddAll [] key.rowsCrossed with
  | error e =>
    obtain ⟨a, ha, b, hb, _, e2⟩ := (C36_foreign_refused _).1 ⟨e, h⟩
    exact absurd ((hall a ha).2.trans (hall b hb).2.symm) e2
  | ok d =>
    obtain ⟨h1, h2⟩ := C36_foreign h
    have hnames : (key.rowsCrossed.map ForeignRow.name).eraseDups = [key.name] := by
      have : ∀ (l : List Text), l ≠ [] → (∀ x ∈ l, x = key.name) → l.eraseDups = [key.name] := by
        intro l hne hl
        cases l with
        | nil => exact absurd rfl hne
        | cons a l =>
          rw [List.eraseDups_cons, hl a List.mem_cons_self]
          have : List.filter (fun b => !b == key.name) l = [] := by
            rw [List.filter_eq_nil_iff]
            intro x hx
            simp [hl x (List.mem_cons_of_mem _ hx)]
          rw [this]; simp
      refine this _ (by simpa using hne) ?_
      intro x hx
      obtain ⟨r, hr, rfl⟩ := List.mem_map.1 hx
      exact (hall r hr).1
    rw [hnames] at h1
    have hone : ∃ c, foreignFetch d = [c] := by
      have := congrArg List.length h1
      simp only [List.length_map, List.length_singleton] at this
      exact List.length_eq_one_iff.1 this
    obtain ⟨c, hc⟩ := hone
    obtain ⟨n, table, rfl, _⟩ := h2 c (by rw [hc]; simp)
    rw [hc] at h1
    simp only [List.map_cons, List.map_nil, Constraint.name, List.cons.injEq, and_true] at h1
    subst h1
    have hfil : key.rowsCrossed.filter (fun r => decide (r.name = key.name)) = key.rowsCrossed := by
      rw [List.filter_eq_self]
      intro r hr
      simp [(hall r hr).1]
    refine ⟨_, _, by simp [Except.toOption, hc]; exact ⟨rfl, rfl⟩, ?_, ?_⟩
    · rw [hfil, List.length_map, hlen]
    · rw [hfil, List.length_map, hlen]

namespace C36
open Example

/-- A foreign key that refers to the columns of a primary key (x, y) in the other order. -/
def swapped : ForeignKey := ⟨t "fk", [t "a", t "b"], q "s" "t", [t "y", t "x"], [t "x", t "y"]⟩

end C36

open C36 in
/-- **C36 fails** for dialects that rely on the information schema (formation/discovery.py): columns are paired by position, which
    finds another constraint if a foreign key refers to the columns of a key in another order. -/
theorem C36_position_mispairs :
    (foreignAddAll [] swapped.rowsByPosition).toOption.map foreignFetch ≠ some [swapped.constraint] ∧
    (foreignAddAll [] swapped.rowsPaired).toOption.map foreignFetch = some [swapped.constraint] := by
  constructor <;> decide +kernel

open Example in
/-- Two constraints with interleaved rows. -/
example : uniqueFetch (uniqueAddAll [(t "u", t "a"), (t "v", t "c"), (t "u", t "b")])
    = [.unique (t "u") [t "a", t "b"], .unique (t "v") [t "c"]] := by decide +kernel

end PySqlSync
