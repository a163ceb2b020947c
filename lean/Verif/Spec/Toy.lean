import Verif.RoundLoader.Processor
/-!
# A small concrete chain

Used only by the `example`s that show the hypotheses of theorems are met. The "hash" is a plain polynomial, so
everything evaluates in the kernel.
-/
namespace Verif.Toy
open Verif

/-- polynomial hash -/
def h (seed : Nat) (bs : Bytes) : Nat :=
  bs.foldl (fun n b => (n * 257 + b.toNat + 1) % (2 ^ 256 - 189)) seed

/-- Only bump 255 works; the address is the polynomial hash of program and seeds. -/
def createAddr (seeds : List Bytes) (prog : Pubkey) : Option Pubkey :=
  if seeds.getLast? = some [255#8] then
    some (BitVec.ofNat 256 (seeds.foldl (fun n s => h (n * 259 + 7) s) (prog.toNat + 1)))
  else none

def env : Env where
  createAddr := createAddr
  hash bs := BitVec.ofNat 256 (h 5 bs)
  rent n := 1000 + n
  payloadLen _ := some 1
  keyString _ := ascii "key"
  systemId := 0
  splId := 1
  ataId := 2
  rentId := 3
  clockId := 4
  loaderId := 5
  nativeMint := 6
  rlId := 7
  tpId := 8

/-- Address derived by `find_program_address` on the toy chain. -/
def addr (seeds : List Bytes) (prog : Pubkey) : Pubkey := (createAddr (seeds ++ [[255#8]]) prog).getD 0

/-- A token account of the toy chain. -/
def tokenData (mint owner : Pubkey) (n : U64) : Data := .token ⟨mint, owner, n, none, false, none, 0, none⟩

/-- Two tokens, 500 and 510, and some token accounts of the wallets 1004 and 1005. -/
def splData (n : Nat) : Option Data :=
  match n with
  | 500 => some (.mint ⟨some 1000, 1000000, 9, none⟩)
  | 501 => some (tokenData 500 1004 100000)
  | 502 => some (tokenData 500 1005 0)
  | 503 => some (tokenData 500 1006 200000)
  | 510 => some (.mint ⟨some 1004, 1000000, 9, none⟩)
  | 511 => some (tokenData 510 1004 100000)
  | 512 => some (tokenData 510 1004 0)
  | _ => none

/-- Wallets: keys `1000 … 1999` start with `10^9` lamports each; nothing else exists except two tokens and the
program data accounts of both programs, whose upgrade authority is wallet 1000. -/
def genesis : World where
  acc k :=
    if k = addr [seedKey env.rlId] env.loaderId ∨ k = addr [seedKey env.tpId] env.loaderId then
      { lamports := 1, owner := env.loaderId, data := .programData (some 1000) }
    else if 1000 ≤ k.toNat ∧ k.toNat < 2000 then { lamports := 10 ^ 9, owner := env.systemId, data := .raw [] }
    else match splData k.toNat with
    | some d => { lamports := 10 ^ 6, owner := env.splId, data := d }
    | none => { lamports := 0, owner := env.systemId, data := .raw [] }
  logs := []

/-- Everything listed is writable; signers as given. -/
def ctx (prog : Pubkey) (accounts signers : List Pubkey) : Ctx :=
  { program := prog, accounts := accounts, signers := signers, writables := accounts, now := 1000 }

def authority : Pubkey := 1000
def submitter : Pubkey := 1001
def funder : Pubkey := 1002
def relay (i : Nat) : Pubkey := BitVec.ofNat 256 (1100 + i)
def stranger : Pubkey := 1003

def rlSettings : Pubkey := addr settingsSeeds env.rlId
def rlProgramdata : Pubkey := addr [seedKey env.rlId] env.loaderId
def rlRound (n : U32) : Pubkey := addr (relayRoundSeeds n) env.rlId

def rlInit : Except Err World :=
  RL.run env (ctx env.rlId [funder, authority, rlSettings, rlProgramdata, env.systemId, env.rentId] [funder, authority])
    (.init 0 submitter 1 10) genesis

def relays3 : List Pubkey := [relay 0, relay 1, relay 2]

/-- settings initialized and round 1 = three relays, created by the submitter -/
def rlRound1 : Except Err World := do
  let w ← rlInit
  RL.run env (ctx env.rlId [funder, submitter, rlSettings, rlRound 1, env.systemId, env.rentId] [funder, submitter])
    (.createRelayRound 1 relays3 5000) w

/-- event of the example proposal: round 2 with four relays -/
def ev2 : RL.Event := ⟨2, [relay 0, relay 1, relay 2, relay 3], 9000⟩
def pda2 : PDA := ⟨100, 200, 300⟩
def ev2Hash : Pubkey := env.hash (RL.eventC.enc ev2)
def prop2 : Pubkey := addr (proposalSeeds 1 pda2 ev2Hash) env.rlId

/-- proposal created -/
def rlCreated : Except Err World := do
  let w ← rlRound1
  RL.run env (ctx env.rlId [funder, stranger, prop2, env.systemId, env.rentId] [funder, stranger])
    (.createProposal 1 pda2 ev2Hash) w

/-- proposal loaded -/
def rlLoaded : Except Err World := do
  let w ← rlCreated
  RL.run env (ctx env.rlId [prop2] []) (.writeProposal 0 (Codec.u32.enc 140#32 ++ RL.eventC.enc ev2)) w

/-- proposal finalized against round 1 -/
def rlFinalized : Except Err World := do
  let w ← rlLoaded
  RL.run env (ctx env.rlId [funder, prop2, rlSettings, rlRound 1, env.systemId] [funder]) .finalizeProposal w

def rlVoteCtx (i : Nat) : Ctx := ctx env.rlId [relay i, prop2, rlRound 1] [relay i]

def rlVoted1 : Except Err World := do
  let w ← rlFinalized
  RL.run env (rlVoteCtx 0) (.voteForProposal .confirm) w

def rlVoted2 : Except Err World := do
  let w ← rlVoted1
  RL.run env (rlVoteCtx 1) (.voteForProposal .confirm) w

def rlVoted : Except Err World := do
  let w ← rlVoted2
  RL.run env (rlVoteCtx 2) (.voteForProposal .confirm) w

def rlExecuteCtx : Ctx := ctx env.rlId [funder, rlSettings, prop2, rlRound 2, env.systemId, env.rentId] [funder]

def rlExecuted : Except Err World := do
  let w ← rlVoted
  RL.run env rlExecuteCtx .executeProposal w

/-- the submitter opens round 5 before the voted round 2 is executed -/
def rlJumped : Except Err World := do
  let w ← rlVoted
  RL.run env (ctx env.rlId [funder, submitter, rlSettings, rlRound 5, env.systemId, env.rentId] [funder, submitter])
    (.createRelayRound 5 relays3 50000) w

/-- then the older proposal is executed -/
def rlBack : Except Err World := do
  let w ← rlJumped
  RL.run env rlExecuteCtx .executeProposal w

/-- proposal finalized for round 1; then the submitter opens round 5, whose first relay is the stranger -/
def rlOther : Except Err World := do
  let w ← rlFinalized
  RL.run env (ctx env.rlId [funder, submitter, rlSettings, rlRound 5, env.systemId, env.rentId] [funder, submitter])
    (.createRelayRound 5 [stranger, relay 1, relay 2] 50000) w

def rlOtherCtx : Ctx := ctx env.rlId [stranger, prop2, rlRound 5] [stranger]

/-- the stranger votes on the proposal of round 1 with the account of round 5 -/
def rlOtherVoted : Except Err World := do
  let w ← rlOther
  RL.run env rlOtherCtx (.voteForProposal .confirm) w

/-- proposal loaded; then the submitter opens round 5 -/
def rlLoaded5 : Except Err World := do
  let w ← rlLoaded
  RL.run env (ctx env.rlId [funder, submitter, rlSettings, rlRound 5, env.systemId, env.rentId] [funder, submitter])
    (.createRelayRound 5 [stranger, relay 1, relay 2] 50000) w

def rlStrandCtx : Ctx := ctx env.rlId [stranger, prop2, rlSettings, rlRound 5, env.systemId] [stranger]

/-- the stranger finalizes the proposal of round 1 with the account of round 5 -/
def rlStranded : Except Err World := do
  let w ← rlLoaded5
  RL.run env rlStrandCtx .finalizeProposal w

/-- The state if the run succeeded, else the empty chain. -/
def get (r : Except Err World) : World :=
  match r with
  | .ok w => w
  | .error _ => ⟨fun _ => ⟨0, 0, .raw []⟩, []⟩

def isOk (r : Except Err World) : Bool :=
  match r with
  | .ok _ => true
  | .error _ => false

theorem get_ok {r : Except Err World} (h : isOk r = true) : r = .ok (get r) := by
  cases r with
  | ok w => rfl
  | error e => cases h

end Verif.Toy
