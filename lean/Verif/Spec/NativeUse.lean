import Verif.Spec.Native
import Verif.Spec.Client
/-!
# Specification: when a deposit of SOL can be made
-/
namespace Verif.NP
open Verif

/-- The account `ct` for wrapped SOL of `au` can take `amount` lamports: it is in order, or it does not exist yet. -/
def CanWrap (env : Env) (w : World) (au ct : Pubkey) (amount : Nat) : Prop :=
  ((w.acc ct).lamports ≠ 0 ∧ (w.acc ct).owner = env.splId ∧ (w.acc ct).lamports + amount < 2 ^ 64 ∧
    ∃ d r, (w.acc ct).data = .token d ∧ d.mint = env.nativeMint ∧ d.owner = au ∧ d.delegate ≠ some au ∧ d.frozen = false ∧ d.isNative = some r ∧
      d.amount.toNat + r.toNat ≤ (w.acc ct).lamports) ∨
  (Vacant env (w.acc ct) ∧ max 1 (env.rent 165) + amount < 2 ^ 64)

/-- What opening the account for wrapped SOL costs. -/
def openCost (env : Env) (w : World) (ct : Pubkey) : Nat := if (w.acc ct).lamports = 0 then max 1 (env.rent 165) else 0

end Verif.NP
