import Verif.Spec.LifeCycle
/-!
# Payloads of withdrawals

A withdrawal can carry a payload: instructions that the program runs for the recipient once the tokens have arrived in the recipient's
proxy account, an account of the token program that only the token proxy can sign for.
-/
namespace Verif.TP

/-- `ev` is a withdrawal of the token with mint `mint` to `recipient` with the payload `payload`. -/
def PayloadFor (env : Env) (ev : Bytes) (mint recipient : Pubkey) (payload : Bytes) : Prop :=
  (∃ amount, ev = wSolEventC.enc ⟨mint, amount, recipient, payload⟩) ∨
  (∃ token name symbol decimals amount, ev = wEverEventC.enc ⟨token, name, symbol, decimals, amount, recipient, payload⟩ ∧
    IsAddr env env.tpId (mintSeeds env token) mint)

/-- `px` is a proxy account for the token and recipient. -/
def IsProxy (env : Env) (mint recipient px : Pubkey) : Prop :=
  ∃ bump : U8, env.createAddr (proxySeeds mint recipient ++ [[bump]]) env.tpId = some px

/-- The two instructions that execute payloads. -/
def executes (i : Instr) : Prop := i = .executePayloadEver ∨ i = .executePayloadSol

end Verif.TP
