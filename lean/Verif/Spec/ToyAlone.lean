import Verif.Spec.ToyStolen
import Verif.Spec.Consent
/-!
# The example chain: one relay decides alone

The same three relays serve in three rounds, each time in another order. One of them proposes a next round of their own keys and votes three times, each
time as a relay of another round.
-/
set_option maxRecDepth 100000
namespace Verif.Toy
open Verif

def rotated : List Act :=
  [.rl (ctx env.rlId [funder, submitter, rlSettings, rlRound 2, env.systemId, env.rentId] [funder, submitter])
      (.createRelayRound 2 [relay 2, relay 0, relay 1] 6000),
    .rl (ctx env.rlId [funder, submitter, rlSettings, rlRound 3, env.systemId, env.rentId] [funder, submitter])
      (.createRelayRound 3 [relay 1, relay 2, relay 0] 7000)]

/-- The three rounds exist. -/
def threeRounds : World := match play (get rlRound1) rotated with
  | some (_, w) => w
  | none => get rlRound1

def evOwn : RL.Event := ⟨4, [ownKey 0, ownKey 1, ownKey 2], 9000⟩
def propOwn : Pubkey := addr (proposalSeeds 3 pda2 (env.hash (RL.eventC.enc evOwn))) env.rlId

/-- What the relay sends. -/
def alone : List Act :=
  [.rl (ctx env.rlId [relay 0, relay 0, propOwn, env.systemId, env.rentId] [relay 0]) (.createProposal 3 pda2 (env.hash (RL.eventC.enc evOwn))),
    .rl (ctx env.rlId [propOwn] []) (.writeProposal 0 (Codec.u32.enc 108#32 ++ RL.eventC.enc evOwn)),
    .rl (ctx env.rlId [relay 0, propOwn, rlSettings, rlRound 3, env.systemId] [relay 0]) .finalizeProposal,
    .rl (ctx env.rlId [relay 0, propOwn, rlRound 1] [relay 0]) (.voteForProposal .confirm),
    .rl (ctx env.rlId [relay 0, propOwn, rlRound 2] [relay 0]) (.voteForProposal .confirm),
    .rl (ctx env.rlId [relay 0, propOwn, rlRound 3] [relay 0]) (.voteForProposal .confirm),
    .rl (ctx env.rlId [relay 0, rlSettings, propOwn, rlRound 4, env.systemId, env.rentId] [relay 0]) .executeProposal]

def afterAlone : World := match play threeRounds alone with
  | some (_, w) => w
  | none => threeRounds

end Verif.Toy
