import Verif.Bridge.Types
/-!
# Generic instructions of the relay library (`solana-bridge/src/instructions.rs:8-26`)
-/
namespace Verif.Relay
open Codec Verif

/-- `VoteForProposal`, `instructions.rs:8-14` -/
structure VoteForProposal where
  instruction : U8
  vote : Vote
  deriving DecidableEq, Repr

/-- `bridge-utils/src/types.rs:10-17`. -/
def voteC : Codec VoteForProposal :=
  iso (pair u8 Verif.voteC) (fun x => ⟨x.1, x.2⟩) (fun s => (s.instruction, s.vote)) (fun _ => rfl) (fun _ => rfl)

/-- `ExecuteProposal` (`instructions.rs:16-20`) and `ExecutePayload` (22-26): one byte. -/
def executeC : Codec U8 := u8

end Verif.Relay
