import Verif.Client.Instruction
import Verif.RoundLoader.Processor
/-!
# `round-loader/src/bindings.rs`
-/
namespace Verif.RL.Client
open Verif

variable (env : Env)

/-- `get_settings_address`, `bindings.rs:16-19` -/
def settingsAddr : Except Err Pubkey := addrOf env settingsSeeds env.rlId
/-- `get_relay_round_address`, `bindings.rs:21-24` -/
def roundAddr (n : U32) : Except Err Pubkey := addrOf env (relayRoundSeeds n) env.rlId
/-- `get_proposal_address`, `bindings.rs:26-45` -/
def proposalAddr (round : U32) (pda : PDA) (event : Bytes) : Except Err Pubkey :=
  addrOf env (proposalSeeds round pda (env.hash event)) env.rlId

/-- `initialize_ix`, `bindings.rs:47-79` -/
def initializeIx (funder initializer : Pubkey) (genesis : U32) (submitter : Pubkey) (minVotes ttl : U32) : Except Err Ix := do
  let settings ← settingsAddr env
  let pd ← programdataAddr env env.rlId
  let data ← packed Instr.codec (.init genesis submitter minVotes ttl)
  .ok ⟨env.rlId, [.new funder true, .new initializer true, .new settings false, .readonly pd false, .readonly env.systemId false,
    .readonly env.rentId false], data⟩

/-- `update_settings_ix`, `bindings.rs:81-109` -/
def updateSettingsIx (author : Pubkey) (round : Option U32) (submitter : Option Pubkey) (minVotes ttl : Option U32) : Except Err Ix := do
  let settings ← settingsAddr env
  let pd ← programdataAddr env env.rlId
  let data ← packed Instr.codec (.updateSettings round submitter minVotes ttl)
  .ok ⟨env.rlId, [.new author true, .new settings false, .readonly pd false], data⟩

/-- `create_relay_round_ix`, `bindings.rs:111-141` -/
def createRelayRoundIx (funder creator : Pubkey) (round roundEnd : U32) (relays : List Pubkey) : Except Err Ix := do
  let settings ← settingsAddr env
  let relayRound ← roundAddr env round
  let data ← packed Instr.codec (.createRelayRound round relays roundEnd)
  .ok ⟨env.rlId, [.new funder true, .new creator true, .new settings false, .new relayRound false, .readonly env.systemId false,
    .readonly env.rentId false], data⟩

/-- `create_proposal_ix`, `bindings.rs:143-183` -/
def createProposalIx (funder creator : Pubkey) (round : U32) (pda : PDA) (event : Bytes) : Except Err Ix := do
  let proposal ← proposalAddr env round pda event
  let data ← packed Instr.codec (.createProposal round pda (env.hash event))
  .ok ⟨env.rlId, [.new funder true, .new creator true, .new proposal false, .readonly env.systemId false, .readonly env.rentId false], data⟩

/-- `write_proposal_ix`, `bindings.rs:185-195` -/
def writeProposalIx (proposal : Pubkey) (offset : U32) (bytes : Bytes) : Except Err Ix := do
  let data ← packed Instr.codec (.writeProposal offset bytes)
  .ok ⟨env.rlId, [.new proposal false], data⟩

/-- `finalize_proposal_ix`, `bindings.rs:197-220` -/
def finalizeProposalIx (funder proposal : Pubkey) (round : U32) : Except Err Ix := do
  let settings ← settingsAddr env
  let relayRound ← roundAddr env round
  let data ← packed Instr.codec .finalizeProposal
  .ok ⟨env.rlId, [.new funder true, .new proposal false, .readonly settings false, .readonly relayRound false, .readonly env.systemId false], data⟩

/-- `vote_for_proposal_ix`, `bindings.rs:222-243` -/
def voteIx (voter proposal : Pubkey) (round : U32) (vote : Vote) : Except Err Ix := do
  let relayRound ← roundAddr env round
  let data ← packed Instr.codec (.voteForProposal vote)
  .ok ⟨env.rlId, [.new voter true, .new proposal false, .readonly relayRound false], data⟩

/-- `execute_proposal_ix`, `bindings.rs:245-269` -/
def executeIx (funder proposal : Pubkey) (round : U32) : Except Err Ix := do
  let settings ← settingsAddr env
  let relayRound ← roundAddr env round
  let data ← packed Instr.codec .executeProposal
  .ok ⟨env.rlId, [.new funder true, .new settings false, .new proposal false, .new relayRound false, .readonly env.systemId false,
    .readonly env.rentId false], data⟩

/-- `execute_proposal_by_admin_ix`, `bindings.rs:271-297` -/
def executeByAdminIx (funder creator proposal : Pubkey) (round : U32) : Except Err Ix := do
  let settings ← settingsAddr env
  let relayRound ← roundAddr env round
  let data ← packed Instr.codec .executeProposalByAdmin
  .ok ⟨env.rlId, [.new funder true, .new creator true, .new settings false, .new proposal false, .new relayRound false,
    .readonly env.systemId false, .readonly env.rentId false], data⟩

end Verif.RL.Client
