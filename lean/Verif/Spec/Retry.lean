import Verif.TokenProxy.Processor
/-!
# Specification: sending an instruction again
-/
namespace Verif

/-- The same program is called with the same accounts. Signatures, permissions to write and the time may differ. -/
structure SameCall (ctx ctx' : Ctx) : Prop where
  program : ctx'.program = ctx.program
  accounts : ctx'.accounts = ctx.accounts

/-- Instructions that hand out a given amount each time: fees, the lamports of the multi vault, the content of a proxy account. -/
def TP.Instr.collects : TP.Instr → Bool
  | .withdrawEverFee _ | .withdrawSolFee _ | .withdrawProxy _ | .withdrawMultiVault _ => true
  | _ => false

/-- The position of the proxy account of a request with a payload. -/
def TP.Instr.proxyAt : TP.Instr → Option Nat
  | .withdrawMultiTokenEverRequest _ _ _ _ _ _ _ p _ => if p = [] then none else some 8
  | .withdrawMultiTokenSolRequest _ _ _ p _ => if p = [] then none else some 9
  | _ => none

end Verif
