import Verif.Spec.TokenProxy
/-!
# What holds for every instruction
-/
namespace Verif

/-- Lamports of the accounts `S` together. -/
def lamportSum (S : List Pubkey) (w : World) : Nat := (S.map (fun k => (w.acc k).lamports)).sum

/-- The instruction changed nothing but accounts that were given to it as writable, and log records were only added. -/
structure Confined (ctx : Ctx) (w w' : World) : Prop where
  changed : ∀ k, w'.acc k ≠ w.acc k → k ∈ ctx.accounts ∧ k ∈ ctx.writables
  logs : ∃ l, w'.logs = w.logs ++ l

/-- The instruction may take lamports from the account `k` or change its owner or data: the account signed, it belongs to the running program
or to the token program, or it is an empty account of the system program whose address is derived for the running program or for the
associated token program. -/
def MayTouch (env : Env) (ctx : Ctx) (k : Pubkey) (a : Account) : Prop :=
  ctx.isSigner k = true ∨ a.owner = ctx.program ∨ a.owner = env.splId ∨
  (a.owner = env.systemId ∧ a.data.len = 0 ∧ ∃ seeds p, (p = ctx.program ∨ p = env.ataId) ∧ env.createAddr seeds p = some k)

/-- Accounts the instruction may not touch keep owner and data and lose nothing. -/
def Respects (env : Env) (ctx : Ctx) (w w' : World) : Prop :=
  ∀ k, ¬ MayTouch env ctx k (w.acc k) →
    (w'.acc k).owner = (w.acc k).owner ∧ (w'.acc k).data = (w.acc k).data ∧ (w.acc k).lamports ≤ (w'.acc k).lamports

namespace TP

/-- Someone entitled to spend from the token account `k` agreed: its owner or delegate signed, it is the vault of a token, or it is the proxy
account of a signer. -/
def Agreed (env : Env) (ctx : Ctx) (k : Pubkey) (t : TokenAcc) : Prop :=
  ctx.isSigner t.owner = true ∨ (∃ d, t.delegate = some d ∧ ctx.isSigner d = true) ∨
  (∃ mint, IsAddr env ctx.program (vaultSeeds mint) k) ∨
  ∃ mint c, IsAddr env ctx.program (proxySeeds mint c) k ∧ ctx.isSigner c = true

end TP
end Verif
