import Verif.TokenProxy.Processor
/-!
# Vocabulary of the property statements

What an observer of the chain can say about an account, independent of the programs.
-/
namespace Verif

/-- `k` is the address `find_program_address` derives from `seeds` for program `prog`. -/
def IsAddr (env : Env) (prog : Pubkey) (seeds : List Bytes) (k : Pubkey) : Prop := ∃ n, findAddr env seeds prog = .ok (k, n)

theorem IsAddr.unique {env : Env} {prog : Pubkey} {seeds : List Bytes} {k k' : Pubkey} (h : IsAddr env prog seeds k)
    (h' : IsAddr env prog seeds k') : k = k' := by
  obtain ⟨n, h⟩ := h
  obtain ⟨n', h'⟩ := h'
  rw [h] at h'
  cases h'; rfl

/-- Account `a` holds record `x`: it has the declared size and its first bytes are the encoding of `x`. -/
def Holds {α : Type} (c : Codec α) (len : Nat) (a : Account) (x : α) : Prop :=
  ∃ b r, a.data = .raw b ∧ b.length = len ∧ c.dec b = some (x, r)

theorem Holds.unique {α : Type} {c : Codec α} {len : Nat} {a : Account} {x y : α} (h : Holds c len a x)
    (h' : Holds c len a y) : x = y := by
  obtain ⟨b, r, hb, -, hd⟩ := h
  obtain ⟨b', r', hb', -, hd'⟩ := h'
  rw [hb] at hb'
  cases hb'
  rw [hd] at hd'
  cases hd'; rfl

/-- The current upgrade authority of the running program signs: the program data account the loader derives for the program
names it. -/
def UpgradeAuthoritySigns (env : Env) (ctx : Ctx) (w : World) : Prop :=
  ∃ a pd, IsAddr env env.loaderId [seedKey ctx.program] pd ∧ (w.acc pd).data = .programData (some a) ∧ ctx.isSigner a = true

/-- Whoever holds the role `role` of the token proxy (guardian, manager or withdrawal manager, as its settings account says)
signs. -/
def RoleSigns (env : Env) (ctx : Ctx) (w : World) (role : TP.Settings → Pubkey) : Prop :=
  ∃ k s, IsAddr env ctx.program settingsSeeds k ∧ Holds TP.settingsC TP.recLen (w.acc k) s ∧ s.isInitialized = true ∧
    ctx.isSigner (role s) = true

/-- The account does not exist: no data, owned by the system program, no lamports. -/
def Vacant (env : Env) (a : Account) : Prop := a.lamports = 0 ∧ a.data.len = 0 ∧ a.owner = env.systemId

/-- The six programs are different programs. -/
structure Env.Distinct (env : Env) : Prop where
  rlTp : env.rlId ≠ env.tpId
  rlSys : env.rlId ≠ env.systemId
  rlSpl : env.rlId ≠ env.splId
  tpSys : env.tpId ≠ env.systemId
  tpSpl : env.tpId ≠ env.splId
  sysSpl : env.systemId ≠ env.splId

end Verif
