/-
C63: what a database keeps, whatever fails and whenever the connection is lost.
-/
import Verif.Spec.Transact
import Verif.Props.C24

set_option autoImplicit false

namespace PySqlSync
open Spec

namespace C63

variable {U : Type}

/-- What an operation that did not return may leave behind. -/
def Left (k k' : ServerState U) (w : List U) (o : End) : Prop :=
  ∃ d q, d ++ q <+: w ∧ (k' = ⟨k.durable ++ k.pending ++ d, q⟩ ∨ (d = [] ∧ k' = ⟨k.durable, k.pending ++ q⟩) ∨ (o = .lost ∧ k' = ⟨k.durable, []⟩)) ∧
    (o = .lost → k'.pending = [])

/-- What an operation that returned leaves behind. -/
def Ret (k k' : ServerState U) (w : List U) : Prop := k' = ⟨k.durable ++ k.pending ++ w, []⟩ ∨ (k' = k ∧ w = [])

theorem Ret.left {k k' k'' : ServerState U} {w v : List U} {o : End} (h : Ret k k' w) (h' : Left k' k'' v o) : Left k k'' (w ++ v) o := by
  obtain ⟨d, q, hp, hk, hl⟩ := h'
  rcases h with rfl | ⟨rfl, rfl⟩
  · obtain ⟨r, hr⟩ := hp
    rcases hk with rfl | ⟨rfl, rfl⟩ | ⟨ho, rfl⟩
    · exact ⟨w ++ d, q, ⟨r, by rw [← hr]; simp⟩, Or.inl (by simp), hl⟩
    · exact ⟨w, q, ⟨r, by rw [← hr]; simp⟩, Or.inl (by simp), hl⟩
    · exact ⟨w, [], ⟨v, by simp⟩, Or.inl rfl, fun _ => rfl⟩
  · exact ⟨d, q, hp, hk, hl⟩

theorem Ret.trans {k k' k'' : ServerState U} {w v : List U} (h : Ret k k' w) (h' : Ret k' k'' v) : Ret k k'' (w ++ v) := by
  rcases h with rfl | ⟨rfl, rfl⟩
  · rcases h' with rfl | ⟨rfl, rfl⟩
    · exact Or.inl (by simp)
    · exact Or.inl (by simp)
  · exact h'

theorem Left.more {k k' : ServerState U} {w v : List U} {o : End} (h : Left k k' w o) : Left k k' (w ++ v) o := by
  obtain ⟨d, q, hp, hk, hl⟩ := h
  exact ⟨d, q, hp.trans (List.prefix_append ..), hk, hl⟩

theorem does_returned {c : Discipline} (hc : c ≠ .none) {w : List U} {k k' : ServerState U} (h : Served c w k .returned k') : Ret k k' w := by
  cases h
  · exact Or.inl rfl
  · exact Or.inl rfl
  · exact Or.inl rfl
  · exact absurd rfl hc

theorem does_left {c : Discipline} {w : List U} {k k' : ServerState U} {o : End} (ho : o ≠ .returned) (h : Served c w k o k') : Left k k' w o := by
  cases h
  case together => exact absurd rfl ho
  case each => exact absurd rfl ho
  case after => exact absurd rfl ho
  case none => exact absurd rfl ho
  case togetherFails => exact ⟨[], [], ⟨w, rfl⟩, Or.inr (Or.inl ⟨rfl, by simp⟩), fun h => End.noConfusion h⟩
  case togetherLost => exact ⟨[], [], ⟨w, rfl⟩, Or.inr (Or.inr ⟨rfl, rfl⟩), fun _ => rfl⟩
  case togetherUnknown => exact ⟨w, [], ⟨[], by simp⟩, Or.inl rfl, fun _ => rfl⟩
  case eachFails n _ => exact ⟨w.take n, [], ⟨w.drop n, by simp⟩, Or.inl rfl, fun _ => rfl⟩
  case eachLost n => exact ⟨w.take n, [], ⟨w.drop n, by simp⟩, Or.inl rfl, fun _ => rfl⟩
  case afterFails n _ => exact ⟨[], w.take n, ⟨w.drop n, by simp⟩, Or.inr (Or.inl ⟨rfl, rfl⟩), fun h => End.noConfusion h⟩
  case afterLost => exact ⟨[], [], ⟨w, rfl⟩, Or.inr (Or.inr ⟨rfl, rfl⟩), fun _ => rfl⟩
  case afterUnknown => exact ⟨w, [], ⟨[], by simp⟩, Or.inl rfl, fun _ => rfl⟩
  case noneFails n _ => exact ⟨[], w.take n, ⟨w.drop n, by simp⟩, Or.inr (Or.inl ⟨rfl, rfl⟩), fun h => End.noConfusion h⟩
  case noneLost => exact ⟨[], [], ⟨w, rfl⟩, Or.inr (Or.inr ⟨rfl, rfl⟩), fun _ => rfl⟩

theorem commits {e : PySqlSync.Engine} (he : e ≠ .mssql) (c : DriverCall U) : discipline e e.autocommit c ≠ .none := by
  cases e <;> cases c <;> simp [discipline, Engine.autocommit] at he ⊢

theorem uncommitted (c : DriverCall U) : discipline .mssql PySqlSync.Engine.mssql.autocommit c = .none := by
  cases c <;> rfl

/-- Blocks, other than on SQL Server. -/
theorem block_other {e : PySqlSync.Engine} (he : e ≠ .mssql) {b : Block U} {k k' : ServerState U} {o : End} (h : DoesBlock e e.autocommit b k o k') :
    (o = .returned → Ret k k' (b.flatMap DriverCall.work)) ∧ (o ≠ .returned → Left k k' (b.flatMap DriverCall.work) o) := by
  induction h with
  | leave hl =>
    cases hl
    case nothing => exact ⟨fun _ => Or.inr ⟨rfl, rfl⟩, fun h => absurd rfl h⟩
    all_goals exact absurd rfl he
  | stop ho hd => exact ⟨fun h => absurd h ho, fun _ => (does_left ho hd).more⟩
  | next hd _ ih =>
    have hr := does_returned (commits he _) hd
    exact ⟨fun h => hr.trans (ih.1 h), fun h => hr.left (ih.2 h)⟩

/-- Blocks on SQL Server. -/
theorem block_mssql {b : Block U} {k k' : ServerState U} {o : End} (h : DoesBlock .mssql false b k o k') :
    (o = .returned → k' = ⟨k.durable ++ k.pending ++ b.flatMap DriverCall.work, []⟩) ∧
    (o = .failed → ∃ q, q <+: b.flatMap DriverCall.work ∧ k' = ⟨k.durable, k.pending ++ q⟩) ∧
    (o = .lost → k' = ⟨k.durable, []⟩ ∨ k' = ⟨k.durable ++ k.pending ++ b.flatMap DriverCall.work, []⟩) := by
  induction h with
  | leave hl =>
    cases hl
    case nothing h => rcases h with h | h <;> exact absurd h (by simp)
    case commit => simp
    case commitFails k => exact ⟨fun h => End.noConfusion h, fun _ => ⟨[], List.prefix_rfl, by simp⟩, fun h => End.noConfusion h⟩
    case commitLost => exact ⟨fun h => End.noConfusion h, fun h => End.noConfusion h, fun _ => Or.inl rfl⟩
    case commitUnknown => exact ⟨fun h => End.noConfusion h, fun h => End.noConfusion h, fun _ => Or.inr (by simp)⟩
  | @stop c rest k o k' ho hd =>
    have hd : Served .none c.work k o k' := by have := uncommitted c; rw [Engine.autocommit] at this; rwa [this] at hd
    cases hd
    case none => exact absurd rfl ho
    case noneFails n _ =>
      exact ⟨fun h => End.noConfusion h, fun _ => ⟨c.work.take n, ((List.take_prefix n _).trans (by simp)), rfl⟩, fun h => End.noConfusion h⟩
    case noneLost => exact ⟨fun h => End.noConfusion h, fun h => End.noConfusion h, fun _ => Or.inl rfl⟩
  | @next c rest k k' o k'' hd _ ih =>
    have hd : Served .none c.work k .returned k' := by have := uncommitted c; rw [Engine.autocommit] at this; rwa [this] at hd
    cases hd
    refine ⟨fun h => ?_, fun h => ?_, fun h => ?_⟩
    · rw [ih.1 h]; simp
    · obtain ⟨q, ⟨r, hr⟩, hk⟩ := ih.2.1 h
      exact ⟨c.work ++ q, ⟨r, by simp [← hr]⟩, by rw [hk]; simp⟩
    · rcases ih.2.2 h with hk | hk
      · exact Or.inl hk
      · exact Or.inr (by rw [hk]; simp)

theorem block_any {e : PySqlSync.Engine} {b : Block U} {k k' : ServerState U} {o : End} (h : DoesBlock e e.autocommit b k o k') :
    (o = .returned → Ret k k' (b.flatMap DriverCall.work)) ∧ (o ≠ .returned → Left k k' (b.flatMap DriverCall.work) o) := by
  by_cases he : e = .mssql
  · subst he
    have hb := block_mssql h
    refine ⟨fun h => Or.inl (hb.1 h), fun ho => ?_⟩
    cases o with
    | returned => exact absurd rfl ho
    | failed =>
      obtain ⟨q, hq, hk⟩ := hb.2.1 rfl
      exact ⟨[], q, hq, Or.inr (Or.inl ⟨rfl, hk⟩), fun h => End.noConfusion h⟩
    | lost =>
      rcases hb.2.2 rfl with hk | hk
      · exact ⟨[], [], List.nil_prefix, Or.inr (Or.inr ⟨rfl, hk⟩), fun _ => by rw [hk]⟩
      · exact ⟨b.flatMap DriverCall.work, [], by simp, Or.inl hk, fun _ => by rw [hk]⟩
  · exact block_other he h

theorem workOf_cons (b : Block U) (rest : List (Block U)) : workOf (b :: rest) = b.flatMap DriverCall.work ++ workOf rest := by
  simp [workOf]

theorem all_any {e : PySqlSync.Engine} {op : List (Block U)} {k k' : ServerState U} {o : End} (h : DoesAll e e.autocommit op k o k') :
    (o = .returned → Ret k k' (workOf op)) ∧ (o ≠ .returned → Left k k' (workOf op) o) := by
  induction h with
  | done => exact ⟨fun _ => Or.inr ⟨rfl, rfl⟩, fun h => absurd rfl h⟩
  | source => exact ⟨fun h => End.noConfusion h, fun _ => ⟨[], [], List.nil_prefix, Or.inr (Or.inl ⟨rfl, by simp⟩), fun h => End.noConfusion h⟩⟩
  | stop ho hd =>
    rw [workOf_cons]
    exact ⟨fun h => absurd h ho, fun _ => ((block_any hd).2 ho).more⟩
  | next hd _ ih =>
    rw [workOf_cons]
    have hr := (block_any hd).1 rfl
    exact ⟨fun h => hr.trans (ih.1 h), fun h => hr.left (ih.2 h)⟩

theorem history_any {e : PySqlSync.Engine} {ops : List (List (Block U))} {k k' : ServerState U} {os : List End} (h : History e e.autocommit ops k os k') :
    ∃ p l, (p = k.pending ∨ p = []) ∧ FirstParts ops os l ∧ k'.close = k.durable ++ p ++ l := by
  induction h with
  | done => exact ⟨[], [], Or.inr rfl, .nil, by simp [ServerState.close]⟩
  | @lost op rest k k' hd =>
    obtain ⟨d, q, hp, hk, hl⟩ := (all_any hd).2 (fun h => End.noConfusion h)
    have hdp : d <+: workOf op := (List.prefix_append d q).trans hp
    rcases hk with rfl | ⟨rfl, rfl⟩ | ⟨_, rfl⟩
    · exact ⟨k.pending, d ++ [], Or.inl rfl, .other (fun h => End.noConfusion h) hdp .nil, by simp [ServerState.close]⟩
    · exact ⟨[], [] ++ [], Or.inr rfl, .other (fun h => End.noConfusion h) List.nil_prefix .nil, by simp [ServerState.close]⟩
    · exact ⟨[], [] ++ [], Or.inr rfl, .other (fun h => End.noConfusion h) List.nil_prefix .nil, by simp [ServerState.close]⟩
  | @next op rest k o k1 os k2 ho hd _ ih =>
    obtain ⟨p, l, hp, hf, hc⟩ := ih
    by_cases hr : o = .returned
    · subst hr
      rcases (all_any hd).1 rfl with rfl | ⟨rfl, hw⟩
      · refine ⟨k.pending, workOf op ++ l, Or.inl rfl, .returned hf, ?_⟩
        have : p = [] := by rcases hp with hp | hp <;> simpa using hp
        rw [hc, this]; simp
      · exact ⟨p, workOf op ++ l, hp, .returned hf, by rw [hc, hw]; simp⟩
    · obtain ⟨d, q, hpre, hk, _⟩ := (all_any hd).2 hr
      have hdp : d <+: workOf op := (List.prefix_append d q).trans hpre
      rcases hk with rfl | ⟨rfl, rfl⟩ | ⟨h', _⟩
      · rcases hp with hp | hp
        · exact ⟨k.pending, (d ++ q) ++ l, Or.inl rfl, .other hr hpre hf, by rw [hc, hp]; simp⟩
        · exact ⟨k.pending, d ++ l, Or.inl rfl, .other hr hdp hf, by rw [hc, hp]; simp⟩
      · rcases hp with hp | hp
        · exact ⟨k.pending, q ++ l, Or.inl rfl, .other hr hpre hf, by rw [hc, hp]; simp⟩
        · exact ⟨[], [] ++ l, Or.inr rfl, .other hr List.nil_prefix hf, by rw [hc, hp]; simp⟩
      · exact absurd h' ho

end C63

open C63

variable {U : Type}

/-- **C63.**  What an operation did is kept from the time when it returns, whatever happens later. -/
theorem C63_returned_is_durable (e : PySqlSync.Engine) (op : List (Block U)) (k k' : ServerState U) (hk : k.pending = []) (h : DoesAll e e.autocommit op k .returned k') :
    k'.durable = k.durable ++ workOf op ∧ k'.pending = [] := by
  rcases (all_any h).1 rfl with rfl | ⟨rfl, hw⟩
  · simp [hk]
  · simp [hk, hw]

/-- **C63.**  A connection is opened, operations are called, errors are caught or not, the connection is lost at any time or closed: the database has all of the work of
    each operation that returned and a first part of the work of each of the others, in order. -/
theorem C63_history (e : PySqlSync.Engine) (ops : List (List (Block U))) (before : List U) (os : List End) (k' : ServerState U)
    (h : History e e.autocommit ops ⟨before, []⟩ os k') : ∃ l, FirstParts ops os l ∧ k'.close = before ++ l := by
  obtain ⟨p, l, hp, hf, hc⟩ := history_any h
  have : p = [] := by rcases hp with hp | hp <;> exact hp
  exact ⟨l, hf, by rw [hc, this]; simp⟩

namespace C63

theorem single {e : PySqlSync.Engine} {c : DriverCall U} (hc : e = .mssql ∨ discipline e e.autocommit c = .together ∨ discipline e e.autocommit c = .after)
    {k k' : ServerState U} {o : End} (hk : k.pending = []) (h : DoesBlock e e.autocommit [c] k o k') :
    (k'.durable = k.durable ∨ k'.durable = k.durable ++ c.work) ∧ (o = .returned → k' = ⟨k.durable ++ c.work, []⟩) := by
  by_cases he : e = .mssql
  · subst he
    have hb := block_mssql h
    simp only [List.flatMap_cons, List.flatMap_nil, List.append_nil, hk] at hb
    cases o with
    | returned => rw [hb.1 rfl]; simp
    | failed =>
      obtain ⟨q, _, hq⟩ := hb.2.1 rfl
      rw [hq]; simp
    | lost => rcases hb.2.2 rfl with h | h <;> rw [h] <;> simp
  · have hl : ∀ {k k' : ServerState U} {o : End}, DoesBlock e e.autocommit [] k o k' → o = .returned ∧ k' = k := by
      intro k k' o h
      cases h with
      | leave h =>
        cases h
        case nothing => exact ⟨rfl, rfl⟩
        all_goals exact absurd rfl he
    have hd : ∀ {o : End} {k' : ServerState U}, Served (discipline e e.autocommit c) c.work k o k' →
        (k'.durable = k.durable ∨ k'.durable = k.durable ++ c.work) ∧ (o = .returned → k' = ⟨k.durable ++ c.work, []⟩) := by
      intro o k' h
      rcases hc with hc | hc | hc
      · exact absurd hc he
      · rw [hc] at h; cases h <;> simp [hk]
      · rw [hc] at h; cases h <;> simp [hk]
    cases h with
    | stop _ h => exact hd h
    | next h h' =>
      obtain ⟨rfl, rfl⟩ := hl h'
      exact hd h

theorem whole {e : PySqlSync.Engine} {f : List U → DriverCall U} (hf : ∀ b, (f b).work = b)
    (hc : ∀ b, e = .mssql ∨ discipline e e.autocommit (f b) = .together ∨ discipline e e.autocommit (f b) = .after) {k k' : ServerState U} {o : End} :
    ∀ (batches : List (List U)), k.pending = [] → DoesAll e e.autocommit (batches.map (fun b => [f b])) k o k' →
      ∃ i ≤ batches.length, k'.durable = k.durable ++ (batches.take i).flatten ∧ (o = .returned → i = batches.length) := by
  intro batches
  induction batches generalizing k with
  | nil =>
    intro _ h
    cases h with
    | done => exact ⟨0, Nat.le_refl _, by simp, fun _ => rfl⟩
    | source => exact ⟨0, Nat.le_refl _, by simp, fun _ => rfl⟩
  | cons b batches ih =>
    intro hk h
    cases h with
    | source => exact ⟨0, Nat.zero_le _, by simp, fun h => End.noConfusion h⟩
    | stop ho h =>
      rcases (single (hc b) hk h).1 with h | h
      · exact ⟨0, Nat.zero_le _, by simp [h], fun h => absurd h ho⟩
      · exact ⟨1, by simp, by simp [h, hf], fun h => absurd h ho⟩
    | next h h' =>
      have h1 := (single (hc b) hk h).2 rfl
      subst h1
      obtain ⟨i, hi, hd, hr⟩ := ih rfl h'
      exact ⟨i + 1, by simpa using hi, by rw [hd]; simp [hf], fun h => by simp [hr h]⟩

end C63

/-- The engines that there is a connection for, and that take records. -/
def Spec.connected : List PySqlSync.Engine := [.postgresql, .mysql, .oracle, .mssql, .redshift]

/-- **C63.**  Of an operation with records, a database keeps whole batches when it fails, on PostgreSQL, Oracle and SQL Server, and on no other engine. -/
theorem C63_whole_batches_exact (e : PySqlSync.Engine) (he : e ∈ Spec.connected) :
    (∀ (batches : List (List Nat)) op (k k' : ServerState Nat) o, e.recordBlocks batches = .ok op → k.pending = [] → DoesAll e e.autocommit op k o k' →
      ∃ i ≤ batches.length, k'.close = k.durable ++ (batches.take i).flatten ∧ (o = .returned → i = batches.length)) ↔
    e = .postgresql ∨ e = .oracle ∨ e = .mssql := by
  have good : e = .postgresql ∨ e = .oracle ∨ e = .mssql → ∀ (batches : List (List Nat)) op (k k' : ServerState Nat) o, e.recordBlocks batches = .ok op → k.pending = [] →
      DoesAll e e.autocommit op k o k' → ∃ i ≤ batches.length, k'.close = k.durable ++ (batches.take i).flatten ∧ (o = .returned → i = batches.length) := by
    intro h batches op k k' o hop hk hd
    have hop : op = batches.map (fun b => [.executeMany b]) := by
      rcases h with rfl | rfl | rfl <;> cases hop <;> rfl
    subst hop
    refine whole (f := .executeMany) (fun _ => rfl) (fun b => ?_) batches hk hd
    rcases h with rfl | rfl | rfl
    · exact Or.inr (Or.inl rfl)
    · exact Or.inr (Or.inr rfl)
    · exact Or.inl rfl
  have bad : ∀ e : PySqlSync.Engine, e = .mysql ∨ e = .redshift → ¬ ∀ (batches : List (List Nat)) op (k k' : ServerState Nat) o, e.recordBlocks batches = .ok op → k.pending = [] →
      DoesAll e e.autocommit op k o k' → ∃ i ≤ batches.length, k'.close = k.durable ++ (batches.take i).flatten ∧ (o = .returned → i = batches.length) := by
    intro e he h
    have hd : discipline e e.autocommit (.executeMany [1, 2]) = .each := by rcases he with rfl | rfl <;> rfl
    obtain ⟨i, hi, hk, _⟩ := h [[1, 2]] [[.executeMany [1, 2]]] ⟨[], []⟩ ⟨[1], []⟩ .failed (by rcases he with rfl | rfl <;> rfl) rfl
      (.stop (fun h => End.noConfusion h) (.stop (fun h => End.noConfusion h) (by rw [hd]; exact .eachFails 1 (Or.inl (by decide)))))
    have hi : i = 0 ∨ i = 1 := by simp at hi; omega
    rcases hi with rfl | rfl <;> simp [ServerState.close] at hk
  constructor
  · intro h
    simp only [Spec.connected, List.mem_cons, List.not_mem_nil, or_false] at he
    rcases he with rfl | rfl | rfl | rfl | rfl
    · exact Or.inl rfl
    · exact absurd h (bad _ (Or.inl rfl))
    · exact Or.inr (Or.inl rfl)
    · exact Or.inr (Or.inr rfl)
    · exact absurd h (bad _ (Or.inr rfl))
  · exact good

/-- **C63.**  `insert_rows` on PostgreSQL and Redshift: whole batches, too. -/
theorem C63_copied_whole (e : PySqlSync.Engine) (he : e = .postgresql ∨ e = .redshift) (batches : List (List U)) (op : List (Block U)) (k k' : ServerState U) (o : End)
    (hop : e.insertBlocks batches = .ok op) (hk : k.pending = []) (h : DoesAll e e.autocommit op k o k') :
    ∃ i ≤ batches.length, k'.close = k.durable ++ (batches.take i).flatten ∧ (o = .returned → i = batches.length) := by
  have hop : op = batches.map (fun b => [.copy b]) := by rcases he with rfl | rfl <;> cases hop <;> rfl
  subst hop
  refine whole (f := .copy) (fun _ => rfl) (fun b => ?_) batches hk h
  rcases he with rfl | rfl <;> exact Or.inr (Or.inl rfl)

/-- **C63.**  A script is executed as a whole or not at all on PostgreSQL and SQL Server, and on no other engine. -/
theorem C63_script_exact (e : PySqlSync.Engine) (he : e ∈ Spec.connected) :
    (∀ (stmts : List Nat) (k k' : ServerState Nat) o, k.pending = [] → DoesAll e e.autocommit (e.scriptBlocks stmts) k o k' →
      k'.close = k.durable ∨ k'.close = k.durable ++ stmts) ↔ e = .postgresql ∨ e = .mssql := by
  have good : e = .postgresql ∨ e = .mssql → ∀ (stmts : List Nat) (k k' : ServerState Nat) o, k.pending = [] → DoesAll e e.autocommit (e.scriptBlocks stmts) k o k' →
      k'.close = k.durable ∨ k'.close = k.durable ++ stmts := by
    intro h stmts k k' o hk hd
    have hop : e.scriptBlocks stmts = [stmts].map (fun b => [.execute b]) := by rcases h with rfl | rfl <;> rfl
    rw [hop] at hd
    obtain ⟨i, hi, hk', _⟩ := whole (f := .execute) (fun _ => rfl) (fun b => by
      rcases h with rfl | rfl
      · exact Or.inr (Or.inl rfl)
      · exact Or.inl rfl) [stmts] hk hd
    have hi : i = 0 ∨ i = 1 := by simp at hi; omega
    rcases hi with rfl | rfl
    · exact Or.inl (by rw [ServerState.close, hk']; simp)
    · exact Or.inr (by rw [ServerState.close, hk']; simp)
  constructor
  · intro h
    simp only [Spec.connected, List.mem_cons, List.not_mem_nil, or_false] at he
    rcases he with rfl | rfl | rfl | rfl | rfl
    · exact Or.inl rfl
    · rcases h [1, 2] ⟨[], []⟩ ⟨[1], []⟩ .failed rfl
        (.stop (fun h => End.noConfusion h) (.stop (fun h => End.noConfusion h) (.eachFails (w := [1, 2]) 1 (Or.inl (by decide))))) with h | h <;> simp [ServerState.close] at h
    · rcases h [1, 2] ⟨[], []⟩ ⟨[1], []⟩ .failed rfl
        (.stop (fun h => End.noConfusion h) (.next (.after (w := [1])) (.stop (fun h => End.noConfusion h) (.afterFails (w := [2]) 0 (Or.inl (by decide)))))) with h | h <;> simp [ServerState.close] at h
    · exact Or.inr rfl
    · rcases h [1, 2] ⟨[], []⟩ ⟨[1], []⟩ .failed rfl
        (.stop (fun h => End.noConfusion h) (.next (.each (w := [1])) (.stop (fun h => End.noConfusion h) (.eachFails (w := [2]) 0 (Or.inl (by decide)))))) with h | h <;> simp [ServerState.close] at h
  · exact good

/-- A finding: on SQL Server and Oracle, when a batch fails at a record, the records before it stay in the transaction; if the error is caught and the connection is used for
    anything else that succeeds, they are committed along with that. -/
theorem C63_part_of_batch_committed_later (e : PySqlSync.Engine) (he : e = .mssql ∨ e = .oracle) :
    ∃ k', History e e.autocommit [[[.executeMany [1, 2]]], e.scriptBlocks [3]] ⟨[], []⟩ [.failed, .returned] k' ∧ k'.close = [1, 3] := by
  rcases he with rfl | rfl
  · exact ⟨⟨[1, 3], []⟩, .next (fun h => End.noConfusion h) (.stop (fun h => End.noConfusion h) (.stop (fun h => End.noConfusion h) (.noneFails (w := [1, 2]) 1 (Or.inl (by decide)))))
      (.next (fun h => End.noConfusion h) (.next (.next (.none (w := [3])) (.leave .commit)) .done) .done), rfl⟩
  · exact ⟨⟨[1, 3], []⟩, .next (fun h => End.noConfusion h) (.stop (fun h => End.noConfusion h) (.stop (fun h => End.noConfusion h) (.afterFails (w := [1, 2]) 1 (Or.inl (by decide)))))
      (.next (fun h => End.noConfusion h) (.next (.next (.after (w := [3])) (.leave (.nothing (Or.inl (fun h => PySqlSync.Engine.noConfusion h))))) .done) .done), rfl⟩

/-- **C63.**  The work of `upsert_rows`, `delete_rows` or `insert_rows` is all of the records, in order. -/
theorem C63_work (e : PySqlSync.Engine) (batches : List (List U)) (op : List (Block U)) (h : e.recordBlocks batches = .ok op ∨ e.insertBlocks batches = .ok op) :
    workOf op = batches.flatten := by
  have : ∀ f : List U → DriverCall U, (∀ b, (f b).work = b) → workOf (batches.map (fun b => [f b])) = batches.flatten := by
    intro f hf
    clear h
    induction batches with
    | nil => rfl
    | cons b batches ih => rw [List.map_cons, workOf_cons, ih]; simp [hf]
  rcases h with h | h <;> cases e <;> cases h <;> first | exact this .executeMany (fun _ => rfl) | exact this .copy (fun _ => rfl)

/-- **C63.**  An upsert that failed, or was cut off, after any number of records may be repeated as a whole: the table is then as if it had succeeded the first time. -/
theorem C63_upsert_retry {V : Type} [DecidableEq V] {w : Writer} {tb : Table} {order : Option (List Text)} {s : Dml}
    (hs : upsertStmt w tb order = .ok s) (hu : Upsertable w tb s.params) {dflt : DataRow V} {rows once part again : List (DataRow V)} {records first : List (Record V)}
    (hc : consistent tb rows = true) (hf : first <+: records) (h : ExecAll tb dflt s rows records once)
    (h1 : ExecAll tb dflt s rows first part) (h2 : ExecAll tb dflt s part records again) (key : List V) :
    SameEntry tb (rowWith tb again key) (rowWith tb once key) := by
  have e0 := C24_upsert hs hu hc h key
  have e1 := C24_upsert hs hu hc h1 key
  have e2 := C24_upsert hs hu (execAll_consistent hc h1) h2 key
  refine C24.sameEntry_trans e2 (C24.sameEntry_trans ?_ (C24.sameEntry_symm e0))
  unfold updated at e1 ⊢
  cases hl : records.reverse.find? (hasKey tb s.params key) with
  | some v => exact C24.sameEntry_refl _
  | none =>
    have : first.reverse.find? (hasKey tb s.params key) = none := by
      rw [List.find?_eq_none] at hl ⊢
      intro x hx
      exact hl x (List.mem_reverse.mpr (hf.subset (List.mem_reverse.mp hx)))
    rw [this] at e1
    exact e1

end PySqlSync
