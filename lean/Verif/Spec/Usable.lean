import Verif.Spec.TokenProxy
/-!
# Vocabulary for C64
-/
namespace Verif.TP
open Verif

/-- Deposits of both kinds, cancellations and fills: the instructions that announce tokens to the other chain. -/
inductive UsesMulti : Instr → Prop
  | depositEver {s : U128} {a : U64} {r : EverAddress} {v : U64} {e : Pubkey} {p : Bytes} : UsesMulti (.depositMultiTokenEver s a r v e p)
  | depositSol {s : U128} {n y : Bytes} {a : U64} {r : EverAddress} {v : U64} {e : Pubkey} {p : Bytes} :
      UsesMulti (.depositMultiTokenSol s n y a r v e p)
  | cancel {s : U128} {r : EverAddress} {v : U64} {e : Pubkey} {p : Bytes} : UsesMulti (.cancelWithdrawSol s r v e p)
  | fill {s : U128} {r : EverAddress} {a v : U64} {e : Pubkey} {p : Bytes} : UsesMulti (.fillWithdrawSol s r a v e p)

end Verif.TP
