import Verif.Spec.Deposits
import Verif.Spec.Trace
/-!
# Specification: closing records, proxy accounts
-/
namespace Verif.TP
open Codec Verif

/-- The step closes the deposit record `k`, and its author `a` signed. -/
def ClosesDeposit (k a : Pubkey) (e : Ev) : Prop :=
  ∃ ctx, e.act = .tp ctx .closeDeposit ∧ ctx.accounts[1]? = some k ∧ ctx.accounts[0]? = some a ∧ ctx.isSigner a = true

/-- Account `k` belongs to the token proxy and holds a deposit record; `g` is what anyone reads from it, whatever its kind of token. -/
def DepositAt (env : Env) (w : World) (k : Pubkey) (g : GenericDeposit) : Prop :=
  (w.acc k).owner = env.tpId ∧ Holds genericDepositC recLen (w.acc k) g ∧ g.isInitialized = true ∧ ∃ n, g.accountKind = .deposit n

/-- All lamports of `k` go to `author`, `k` becomes empty, and no other account changes. -/
structure Emptied (env : Env) (k author : Pubkey) (w w' : World) : Prop where
  other : author ≠ k
  gone : (w'.acc k).lamports = 0 ∧ (w'.acc k).owner = env.systemId ∧ ∃ n, (w'.acc k).data = .raw (zeros n)
  paid : w'.acc author = { w.acc author with lamports := (w.acc author).lamports + (w.acc k).lamports }
  rest : ∀ x, x ≠ k → x ≠ author → w'.acc x = w.acc x
  logs : w'.logs = w.logs

end Verif.TP
