import Verif.RoundLoader.State
/-!
# `round-loader/src/processor.rs`

One function per instruction. Each takes the chain state and returns the new one or the error; on error the runtime
discards all effects. `ctx.program` is `program_id`. Account positions are those of the source.
-/
namespace Verif.RL
open Codec Verif

/-- Load and validate the settings account: `processor.rs:285-296` (same code at 488-499, 674-685, 808-819). -/
def loadSettings (env : Env) (ctx : Ctx) (k : Pubkey) (w : World) : Except Err Settings := do
  let s ← unpack settingsC settingsLen (·.isInitialized) (w.acc k).data
  let (n, _) ← orErr s.accountKind.intoSettings (.custom .invalidTokenKind)
  validateSettings env ctx.program n k
  .ok s

/-- Load and validate a relay round account: `processor.rs:530-543`, `620-633`. -/
def loadRelayRound (env : Env) (ctx : Ctx) (k : Pubkey) (w : World) : Except Err RelayRound := do
  let r ← unpack relayRoundC relayRoundLen (·.isInitialized) (w.acc k).data
  let n ← orErr r.accountKind.intoRelayRound (.custom .invalidTokenKind)
  validateRelayRound env ctx.program r.roundNumber n k
  .ok r

/-- Check that `k` is the address derived from the contents of proposal `p`:
`processor.rs:504-523`, `598-617`, `691-710`. -/
def checkProposal (env : Env) (ctx : Ctx) (k : Pubkey) (p : Proposal) : Except Err Unit := do
  let (n, _) ← orErr p.accountKind.intoProposal (.custom .invalidTokenKind)
  validateProposal env ctx.program p.roundNumber p.pda (env.hash (eventC.enc p.event)) n k

/-- `process_initialize`, `processor.rs:118-190` -/
def processInitialize (env : Env) (ctx : Ctx) (genesis : U32) (submitter : Pubkey) (minVotes ttl : U32)
    (w : World) : Except Err World := do
  let funder ← acct ctx 0
  let initializer ← acct ctx 1
  let settings ← acct ctx 2
  let programdata ← acct ctx 3
  let _system ← acct ctx 4
  let rent ← acct ctx 5
  sysvar env.rentId rent
  require (ctx.isSigner initializer = true) .missingRequiredSignature
  let (pd, pdNonce) ← findAddr env [seedKey ctx.program] env.loaderId
  require (pd = programdata) .invalidArgument
  validateInitializer initializer (w.acc programdata).data
  let (sk, sNonce) ← findAddr env settingsSeeds ctx.program
  require (sk = settings) .invalidArgument
  let w ← createPda env ctx funder settings settingsSeeds sNonce settingsLen ctx.program w
  pack ctx settingsC settingsLen
    { isInitialized := true, accountKind := .settings sNonce pdNonce, currentRoundNumber := genesis,
      roundSubmitter := submitter, minRequiredVotes := minVotes, roundTtl := ttl } settings w

/-- `process_update_settings`, `processor.rs:192-261` -/
def processUpdateSettings (env : Env) (ctx : Ctx) (round : Option U32) (submitter : Option Pubkey)
    (minVotes ttl : Option U32) (w : World) : Except Err World := do
  let author ← acct ctx 0
  let settings ← acct ctx 1
  let programdata ← acct ctx 2
  require (ctx.isSigner author = true) .missingRequiredSignature
  let s ← unpack settingsC settingsLen (·.isInitialized) (w.acc settings).data
  let (sNonce, pdNonce) ← orErr s.accountKind.intoSettings (.custom .invalidTokenKind)
  validateSettings env ctx.program sNonce settings
  require ((w.acc settings).owner = ctx.program) .invalidArgument
  validateProgramdata env ctx.program pdNonce programdata
  validateInitializer author (w.acc programdata).data
  pack ctx settingsC settingsLen
    { s with
      currentRoundNumber := round.getD s.currentRoundNumber
      roundSubmitter := submitter.getD s.roundSubmitter
      minRequiredVotes := minVotes.getD s.minRequiredVotes
      roundTtl := ttl.getD s.roundTtl } settings w

/-- Create and fill the account of relay round `number` and make it current:
`processor.rs:308-357` (same code at 722-774 and 827-878). `roundEnd + round_ttl` is unchecked `u32`
addition, wrapping in release builds. -/
def openRound (env : Env) (ctx : Ctx) (funder settings relayRound : Pubkey) (s : Settings) (number : U32)
    (relays : List Pubkey) (roundEnd : U32) (w : World) : Except Err World := do
  let (rk, nonce) ← findAddr env (relayRoundSeeds number) ctx.program
  require (rk = relayRound) .invalidArgument
  let w ← createPda env ctx funder relayRound (relayRoundSeeds number) nonce relayRoundLen ctx.program w
  let w ← pack ctx relayRoundC relayRoundLen
    { isInitialized := true, accountKind := .relayRound nonce, roundNumber := number,
      roundEnd := roundEnd + s.roundTtl, relays := relays } relayRound w
  pack ctx settingsC settingsLen { s with currentRoundNumber := number } settings w

/-- `process_create_relay_round`, `processor.rs:263-360` -/
def processCreateRelayRound (env : Env) (ctx : Ctx) (number : U32) (relays : List Pubkey) (roundEnd : U32)
    (w : World) : Except Err World := do
  let funder ← acct ctx 0
  let creator ← acct ctx 1
  let settings ← acct ctx 2
  let relayRound ← acct ctx 3
  let _system ← acct ctx 4
  let rent ← acct ctx 5
  sysvar env.rentId rent
  require (ctx.isSigner creator = true) .missingRequiredSignature
  let s ← loadSettings env ctx settings w
  require (s.roundSubmitter = creator) .illegalOwner
  require (¬ (s.currentRoundNumber ≠ 0#32 ∧ number.toNat < s.currentRoundNumber.toNat)) (.custom .invalidRelayRound)
  openRound env ctx funder settings relayRound s number relays roundEnd w

/-- Contents of a freshly created proposal, `processor.rs:425-439`. -/
def freshProposal (nonce : U8) (author : Pubkey) (round : U32) (pda : PDA) : Proposal :=
  { isInitialized := false, accountKind := .proposal nonce none, author := author, roundNumber := round,
    requiredVotes := 0#32, pda := pda, eventLen := 0#32, event := ⟨0#32, [], 0#32⟩, metaLen := 1#32,
    status := .new, signers := [] }

/-- `process_create_proposal`, `processor.rs:362-448` -/
def processCreateProposal (env : Env) (ctx : Ctx) (round : U32) (pda : PDA) (eventData : Pubkey)
    (w : World) : Except Err World := do
  let funder ← acct ctx 0
  let creator ← acct ctx 1
  let proposal ← acct ctx 2
  let _system ← acct ctx 3
  let rent ← acct ctx 4
  sysvar env.rentId rent
  require (ctx.isSigner creator = true) .missingRequiredSignature
  let (pk, nonce) ← findAddr env (proposalSeeds round pda eventData) ctx.program
  require (pk = proposal) .invalidArgument
  if (w.acc proposal).lamports = 0 then do
    let w ← createPda env ctx funder proposal (proposalSeeds round pda eventData) nonce proposalLen ctx.program w
    pack ctx proposalC proposalLen (freshProposal nonce creator round pda) proposal w
  else .ok w

/-- `write_proposal_data`, `processor.rs:889-905`; an out-of-range slice panics. -/
def writeProposalData (data : Bytes) (offset : Nat) (bs : Bytes) : Except Err Bytes := do
  let off := loadBegin + offset
  require (off + bs.length ≤ loadEnd) .accountDataTooSmall
  require (off + bs.length ≤ data.length) .panic
  .ok (data.take off ++ bs ++ data.drop (off + bs.length))

/-- `process_write_proposal`, `processor.rs:450-476`. Writing into an SPL or program data account is refused by
the runtime, whatever the bytes (those accounts are not owned by this program). -/
def processWriteProposal (ctx : Ctx) (offset : U32) (bs : Bytes) (w : World) : Except Err World := do
  let proposal ← acct ctx 0
  match unpackUnchecked proposalC proposalLen (w.acc proposal).data with
  | .ok p => require (p.isInitialized = false) .accountAlreadyInitialized
  | .error _ => .ok ()
  match (w.acc proposal).data with
  | .raw b => do
    let b' ← writeProposalData b offset.toNat bs
    setData ctx proposal (.raw b') w
  | _ => .error .externalDataModified

/-- Votes required to confirm a proposal in a round of `n` relays: `processor.rs:545-548`. -/
def requiredVotes (n : Nat) (minVotes : U32) : U32 :=
  let r : U32 := BitVec.ofNat 32 (n * 2 / 3 + 1)
  if r.toNat < minVotes.toNat then minVotes else r

/-- `process_finalize_proposal`, `processor.rs:478-573` -/
def processFinalizeProposal (env : Env) (ctx : Ctx) (w : World) : Except Err World := do
  let funder ← acct ctx 0
  let proposal ← acct ctx 1
  let settings ← acct ctx 2
  let relayRound ← acct ctx 3
  let _system ← acct ctx 4
  let s ← loadSettings env ctx settings w
  let p ← unpackUnchecked proposalC proposalLen (w.acc proposal).data
  checkProposal env ctx proposal p
  require (p.isInitialized = false) .accountAlreadyInitialized
  let r ← loadRelayRound env ctx relayRound w
  let w ← pack ctx proposalC proposalLen
    { p with
      isInitialized := true
      roundNumber := r.roundNumber
      requiredVotes := requiredVotes r.relays.length s.minRequiredVotes
      signers := List.replicate r.relays.length Vote.none
      metaLen := 1#32
      status := .new } proposal w
  sysTransfer env ctx ctx.signs funder proposal (relayReparation * r.relays.length) w

/-- `process_vote_for_proposal`, `processor.rs:575-660` -/
def processVote (env : Env) (ctx : Ctx) (vote : Vote) (w : World) : Except Err World := do
  let voter ← acct ctx 0
  let proposal ← acct ctx 1
  let relayRound ← acct ctx 2
  require (ctx.isSigner voter = true) .missingRequiredSignature
  require (vote ≠ Vote.none) (.custom .invalidVote)
  let p ← unpack proposalC proposalLen (·.isInitialized) (w.acc proposal).data
  checkProposal env ctx proposal p
  let r ← loadRelayRound env ctx relayRound w
  let i ← orErr (r.relays.findIdx? (fun k => k == voter)) (.custom .invalidRelay)
  let old ← orErr p.signers[i]? .panic
  if old = Vote.none then do
    let w ← pack ctx proposalC proposalLen { p with signers := p.signers.set i vote } proposal w
    moveLamports ctx proposal voter relayReparation w
  else .ok w

/-- `process_execute_proposal`, `processor.rs:662-786` -/
def processExecute (env : Env) (ctx : Ctx) (w : World) : Except Err World := do
  let funder ← acct ctx 0
  let settings ← acct ctx 1
  let proposal ← acct ctx 2
  let relayRound ← acct ctx 3
  let _system ← acct ctx 4
  let rent ← acct ctx 5
  sysvar env.rentId rent
  let s ← loadSettings env ctx settings w
  let p ← unpack proposalC proposalLen (·.isInitialized) (w.acc proposal).data
  checkProposal env ctx proposal p
  let sigCount : U32 := BitVec.ofNat 32 (confirmCount p.signers)
  if p.status = .new ∧ p.requiredVotes.toNat ≤ sigCount.toNat then do
    let w ← openRound env ctx funder settings relayRound s p.event.roundNum p.event.relays p.event.roundEnd w
    pack ctx proposalC proposalLen { p with status := .executed } proposal w
  else
    pack ctx proposalC proposalLen p proposal w

/-- `process_execute_proposal_by_admin`, `processor.rs:788-886` -/
def processExecuteByAdmin (env : Env) (ctx : Ctx) (w : World) : Except Err World := do
  let funder ← acct ctx 0
  let creator ← acct ctx 1
  let settings ← acct ctx 2
  let proposal ← acct ctx 3
  let relayRound ← acct ctx 4
  let _system ← acct ctx 5
  let rent ← acct ctx 6
  sysvar env.rentId rent
  require (ctx.isSigner creator = true) .missingRequiredSignature
  let s ← loadSettings env ctx settings w
  require (s.roundSubmitter = creator) .illegalOwner
  let p ← unpack proposalC proposalLen (·.isInitialized) (w.acc proposal).data
  let w ← openRound env ctx funder settings relayRound s p.event.roundNum p.event.relays p.event.roundEnd w
  pack ctx proposalC proposalLen { p with status := .executed } proposal w

/-- Dispatch on the decoded instruction, `processor.rs:29-113`. -/
def run (env : Env) (ctx : Ctx) (i : Instr) (w : World) : Except Err World :=
  match i with
  | .voteForProposal v => processVote env ctx v w
  | .init g s m t => processInitialize env ctx g s m t w
  | .updateSettings r s m t => processUpdateSettings env ctx r s m t w
  | .createRelayRound n rs e => processCreateRelayRound env ctx n rs e w
  | .createProposal r p d => processCreateProposal env ctx r p d w
  | .writeProposal o bs => processWriteProposal ctx o bs w
  | .finalizeProposal => processFinalizeProposal env ctx w
  | .executeProposal => processExecute env ctx w
  | .executeProposalByAdmin => processExecuteByAdmin env ctx w

/-- `Processor::process`, `processor.rs:21-116`: decode all instruction bytes, then dispatch. -/
def process (env : Env) (ctx : Ctx) (instructionData : Bytes) (w : World) : Except Err World := do
  let i ← orErr (Instr.codec.decAll instructionData) .borshIo
  run env ctx i w

end Verif.RL
