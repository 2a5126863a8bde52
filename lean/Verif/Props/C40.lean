/-
C40 — SSL mode guarantees.
-/
import Verif.Model.Connect

set_option autoImplicit false

namespace PySqlSync

/-- **C40.**  With a mode that forces encryption, whatever the network does, every attempt is encrypted; with `verify-ca` each
    demands a trusted certificate, with `verify-full` also the right host name. -/
theorem C40_never_plain (net : Network) {mode : SslMode} (h : mode = .require ∨ mode = .verifyCa ∨ mode = .verifyFull) :
    ∀ a ∈ (openConnection net (some mode)).1, ∃ ctx : SslContext, a = some ctx ∧
      (mode = .verifyCa ∨ mode = .verifyFull → ctx.certRequired = true) ∧ (mode = .verifyFull → ctx.checkHostname = true) := by
  rcases h with rfl | rfl | rfl <;> intro a ha <;>
    simp only [openConnection, attempt, createContext, List.nil_append, List.mem_singleton] at ha <;> subst ha <;>
    exact ⟨_, rfl, by simp, by simp⟩

/-- **C40.**  Without a mode, or with `disable`, nothing is encrypted: there is one attempt, in plain text. -/
theorem C40_disabled (net : Network) {mode : Option SslMode} (h : mode = none ∨ mode = some .disable) :
    (openConnection net mode).1 = [none] := by
  rcases h with rfl | rfl <;> rfl

/-- **C40.**  `prefer` first tries encryption, and then plain text exactly if that failed with a connection error. -/
theorem C40_prefer (net : Network) : ∃ ctx : SslContext,
    (net [] (some ctx) ≠ .connectionError → openConnection net (some .prefer) = ([some ctx], net [] (some ctx))) ∧
    (net [] (some ctx) = .connectionError → openConnection net (some .prefer) = ([some ctx, none], net [some ctx] none)) := by
  refine ⟨⟨false, false⟩, ?_, ?_⟩ <;> intro h <;>
    simp only [openConnection, attemptElse, attempt, createContext, List.nil_append]
  · cases hn : net [] (some ⟨false, false⟩) with
    | connected => rfl
    | connectionError => exact absurd hn h
    | otherError => rfl
  · rw [h]; rfl

/-- **C40.**  `allow` first tries plain text, and then encryption exactly if that failed with a connection error. -/
theorem C40_allow (net : Network) : ∃ ctx : SslContext,
    (net [] none ≠ .connectionError → openConnection net (some .allow) = ([none], net [] none)) ∧
    (net [] none = .connectionError → openConnection net (some .allow) = ([none, some ctx], net [none] (some ctx))) := by
  refine ⟨⟨false, false⟩, ?_, ?_⟩ <;> intro h <;>
    simp only [openConnection, attemptElse, attempt, createContext, List.nil_append]
  · cases hn : net [] none with
    | connected => rfl
    | connectionError => exact absurd hn h
    | otherError => rfl
  · rw [h]; rfl

/-- **C40.**  In any mode there are one or two attempts, the outcome is that of the last, and there is no attempt after one that
    connected. -/
theorem C40_attempts (net : Network) (mode : Option SslMode) : ∃ before last,
    (openConnection net mode).1 = before ++ [last] ∧ before.length ≤ 1 ∧ (openConnection net mode).2 = net before last ∧
    ∀ a ∈ before, net [] a = .connectionError := by
  rcases mode with _ | mode
  · exact ⟨[], none, rfl, by simp, rfl, by simp⟩
  cases mode with
  | disable => exact ⟨[], none, rfl, by simp, rfl, by simp⟩
  | require => exact ⟨[], _, rfl, by simp, rfl, by simp⟩
  | verifyCa => exact ⟨[], _, rfl, by simp, rfl, by simp⟩
  | verifyFull => exact ⟨[], _, rfl, by simp, rfl, by simp⟩
  | prefer =>
    obtain ⟨ctx, h1, h2⟩ := C40_prefer net
    by_cases h : net [] (some ctx) = .connectionError
    · rw [h2 h]; exact ⟨[some ctx], none, rfl, by simp, rfl, by simp [h]⟩
    · rw [h1 h]; exact ⟨[], some ctx, rfl, by simp, rfl, by simp⟩
  | allow =>
    obtain ⟨ctx, h1, h2⟩ := C40_allow net
    by_cases h : net [] none = .connectionError
    · rw [h2 h]; exact ⟨[none], some ctx, rfl, by simp, rfl, by simp [h]⟩
    · rw [h1 h]; exact ⟨[], none, rfl, by simp, rfl, by simp⟩

/-- **C40 fails** for Oracle: whatever the mode, the only attempt is in plain text. -/
theorem C40_oracle_always_plain (net : Network) (mode : Option SslMode) : (openOracle net mode).1 = [none] := rfl

/-- **C40 fails** for SQL Server: whatever the mode, no certificate is required. -/
theorem C40_mssql_never_verifies (net : Network) (mode : Option SslMode) :
    ∀ a ∈ (openMSSQL net mode).1, ∀ ctx, a = some ctx → ctx.certRequired = false := by
  intro a ha ctx e
  simp only [openMSSQL, attempt, List.nil_append, List.mem_singleton] at ha
  subst ha
  cases e
  rfl

/-- A server that refuses encryption: `prefer` ends up in plain text, `require` fails. -/
example : openConnection (fun _ a => if a.isSome then .connectionError else .connected) (some .prefer)
      = ([some ⟨false, false⟩, none], .connected) ∧
    openConnection (fun _ a => if a.isSome then .connectionError else .connected) (some .require)
      = ([some ⟨false, false⟩], .connectionError) := by decide

end PySqlSync
