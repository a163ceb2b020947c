import Verif.Bridge.Types
import Verif.Base.Spl
/-!
# `bridge-utils/src/helper.rs`: derived addresses and account validation
-/
namespace Verif
open Codec

/-- Little-endian bytes of an integer or the raw bytes of a key used as a seed. `bridge-utils/src/helper.rs:17`. -/
def seedU32 (n : U32) : Bytes := u32.enc n
/-- `bridge-utils/src/helper.rs:20-40`. -/
def seedU64 (n : U64) : Bytes := u64.enc n
/-- `bridge-utils/src/helper.rs:143`. -/
def seedU128 (n : U128) : Bytes := u128.enc n
/-- `bridge-utils/src/helper.rs:9`. -/
def seedKey (k : Pubkey) : Bytes := key.enc k

/-- Seeds `[b"settings"]`, `helper.rs:12-14` -/
def settingsSeeds : List Bytes := [ascii "settings"]
/-- Seeds `[b"relay_round", round_number]`, `helper.rs:16-18` -/
def relayRoundSeeds (n : U32) : List Bytes := [ascii "relay_round", seedU32 n]
/-- Seeds of a proposal or withdrawal account, `helper.rs:28-36` -/
def proposalSeeds (round : U32) (p : PDA) (eventData : Pubkey) : List Bytes :=
  [ascii "proposal", seedU32 round, seedU32 p.eventTimestamp, seedU64 p.eventTransactionLt,
   seedKey p.eventConfiguration, seedKey eventData]
/-- Seeds `[b"deposit", seed]`, `helper.rs:142-143` -/
def depositSeeds (seed : U128) : List Bytes := [ascii "deposit", seedU128 seed]

/-- The check shared by all `validate_*_account` functions: derive the address, compare key and nonce. `bridge-utils/src/helper.rs:84-154`. -/
def validatePda (env : Env) (prog : Pubkey) (seeds : List Bytes) (nonce : U8) (k : Pubkey) :
    Except Err Unit := do
  let (a, n) ← findAddr env seeds prog
  require (a = k) .invalidArgument
  require (n = nonce) .invalidArgument

/-- `validate_programdata_account`, `helper.rs:42-59` -/
def validateProgramdata (env : Env) (prog : Pubkey) (nonce : U8) (k : Pubkey) : Except Err Unit := do
  let (a, n) ← findAddr env [seedKey prog] env.loaderId
  require (a = k) .invalidSeeds
  require (n = nonce) .invalidArgument

/-- `validate_initializer_account`, `helper.rs:61-82`: the key must be the upgrade authority stored in the
program data account. Other contents, or no authority, panic. -/
def validateInitializer (initializer : Pubkey) (programdata : Data) : Except Err Unit :=
  match programdata with
  | .programData (some a) => require (a = initializer) .illegalOwner
  | _ => .error .panic

/-- `validate_settings_account`, `helper.rs:84-100` -/
def validateSettings (env : Env) (prog : Pubkey) (nonce : U8) (k : Pubkey) : Except Err Unit :=
  validatePda env prog settingsSeeds nonce k

/-- `validate_proposal_account`, `helper.rs:103-134` -/
def validateProposal (env : Env) (prog : Pubkey) (round : U32) (p : PDA) (eventData : Pubkey) (nonce : U8)
    (k : Pubkey) : Except Err Unit :=
  validatePda env prog (proposalSeeds round p eventData) nonce k

/-- `validate_deposit_account`, `helper.rs:136-154` -/
def validateDeposit (env : Env) (prog : Pubkey) (seed : U128) (nonce : U8) (k : Pubkey) : Except Err Unit :=
  validatePda env prog (depositSeeds seed) nonce k

/-- `round-loader/src/utils.rs:5-23` -/
def validateRelayRound (env : Env) (prog : Pubkey) (round : U32) (nonce : U8) (k : Pubkey) : Except Err Unit :=
  validatePda env prog (relayRoundSeeds round) nonce k

/-- `next_account_info`: the `i`-th account. Used in `native-proxy/src/processor.rs:63`. -/
def acct (ctx : Ctx) (i : Nat) : Except Err Pubkey := orErr ctx.accounts[i]? .notEnoughAccountKeys

/-- `invoke_signed(create_account(funder, k, max(1, rent), space, owner))` for an address derived from `seeds`, e.g.
`round-loader/src/processor.rs:162-172`, `token-proxy/src/processor.rs:346-356`. -/
def createPda (env : Env) (ctx : Ctx) (funder k : Pubkey) (seeds : List Bytes) (nonce : U8) (space : Nat)
    (owner : Pubkey) (w : World) : Except Err World := do
  let sg ← pdaSigns env ctx (seeds ++ [[nonce]])
  sysCreate env ctx sg funder k (max 1 (env.rent space)) space owner w

/-- Take `n` lamports from `a` and give them to `b` by direct assignment, both checked (e.g.
`round-loader/src/processor.rs:643-655`). -/
def moveLamports (ctx : Ctx) (a b : Pubkey) (n : Nat) (w : World) : Except Err World := do
  let w ← debit ctx a n w
  credit ctx b n w

/-- `delete_account`, `helper.rs:156-161`: give the account to the system program and zero its data. -/
def zeroAccount (env : Env) (ctx : Ctx) (k : Pubkey) (w : World) : Except Err World := do
  require ((w.acc k).owner = ctx.program) .externalDataModified
  require (ctx.isWritable k = true) .readonlyModified
  .ok (w.set k { lamports := (w.acc k).lamports, owner := env.systemId, data := .raw (zeros (w.acc k).data.len) })

end Verif
