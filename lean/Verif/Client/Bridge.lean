import Verif.Client.RoundLoader
import Verif.Client.TokenProxy
/-!
# `solana-bridge/src/instructions.rs`: builders used by the relays for any program of the bridge
-/
namespace Verif.Bridge.Client
open Verif Codec

variable (env : Env)

/-- `vote_for_proposal_ix`, `instructions.rs:28-51`; the instruction number is a parameter. -/
def voteIx (program : Pubkey) (instruction : U8) (voter proposal : Pubkey) (round : U32) (vote : Vote) : Except Err Ix := do
  let relayRound ← RL.Client.roundAddr env round
  let data ← packed (pair u8 voteC) (instruction, vote)
  .ok ⟨program, [.new voter true, .new proposal false, .readonly relayRound false], data⟩

/-- The account list of `execute_proposal_ix` and `execute_payload_ix`: the given triples are (key, read only, signer).
`solana-bridge/src/instructions.rs:53-111`. -/
def executeMetas (proposal : Pubkey) (accounts : List (Pubkey × Bool × Bool)) : List Meta :=
  ((proposal, false, false) :: accounts).map fun x => if x.2.1 = false then Meta.new x.1 x.2.2 else Meta.readonly x.1 x.2.2

/-- `execute_proposal_ix`, `instructions.rs:53-81` -/
def executeIx (program : Pubkey) (instruction : U8) (proposal : Pubkey) (accounts : List (Pubkey × Bool × Bool)) : Except Err Ix := do
  let data ← packed u8 instruction
  .ok ⟨program, executeMetas proposal accounts, data⟩

/-- `execute_payload_ix`, `instructions.rs:83-111` -/
def executePayloadIx (program : Pubkey) (instruction : U8) (proposal : Pubkey) (accounts : List (Pubkey × Bool × Bool)) : Except Err Ix := do
  let data ← packed u8 instruction
  .ok ⟨program, executeMetas proposal accounts, data⟩

/-- `withdrawal_ever_request_ix`, `instructions.rs:114-171` -/
def everRequestIx (program creator withdrawal : Pubkey) (round : U32) (pda : PDA) (e : TP.WEverEvent) (attached : U64) : Except Err Ix := do
  let rlSettings ← addrOf env settingsSeeds env.rlId
  let relayRound ← addrOf env (relayRoundSeeds round) env.rlId
  let extra ← if e.payload = [] then .ok [] else do
    let mint ← TP.Client.mintAddr env e.token
    let proxy ← TP.Client.proxyAddr env mint e.recipient
    .ok [Meta.new proxy false, Meta.new mint false, Meta.new env.splId false]
  let data ← packed TP.Instr.codec
    (.withdrawMultiTokenEverRequest pda e.token e.name e.symbol e.decimals e.recipient e.amount e.payload attached)
  .ok ⟨program, [.new creator true, .new creator true, .new withdrawal false, .readonly rlSettings false, .readonly relayRound false,
    .readonly env.systemId false, .readonly env.rentId false, .readonly env.clockId false] ++ extra, data⟩

/-- `withdrawal_sol_request_ix`, `instructions.rs:174-230` -/
def solRequestIx (program creator withdrawal : Pubkey) (round : U32) (pda : PDA) (e : TP.WSolEvent) (attached : U64) : Except Err Ix := do
  let tokenSettings ← addrOf env (TP.tokenSettingsSolSeeds e.mint) program
  let rlSettings ← addrOf env settingsSeeds env.rlId
  let relayRound ← addrOf env (relayRoundSeeds round) env.rlId
  let extra ← if e.payload = [] then .ok [] else do
    let proxy ← TP.Client.proxyAddr env e.mint e.recipient
    .ok [Meta.new proxy false, Meta.new e.mint false, Meta.new env.splId false]
  let data ← packed TP.Instr.codec (.withdrawMultiTokenSolRequest pda e.recipient e.amount e.payload attached)
  .ok ⟨program, [.new creator true, .new creator true, .new withdrawal false, .readonly tokenSettings false, .readonly rlSettings false,
    .readonly relayRound false, .readonly env.systemId false, .readonly env.rentId false, .readonly env.clockId false] ++ extra, data⟩

end Verif.Bridge.Client
