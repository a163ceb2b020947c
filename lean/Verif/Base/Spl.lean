import Verif.Base.Runtime
/-!
# The SPL token and associated token account programs, as called by the bridge

These are external programs (spl-token 3.5, spl-associated-token-account 1.1); only the instructions the bridge invokes
are modelled. Simplifications: no multisig authorities, no exemption for burning accounts owned by the incinerator or
the system program; initialized accounts are kept parsed (`Data.token`, `Data.mint`), uninitialized ones are zero bytes.
Every operation also carries the checks the runtime makes for a CPI: the called program and all accounts are among the
accounts of the outer instruction, written accounts are writable there, and the written accounts belong to the token
program.
-/
namespace Verif

/-- `spl_token::state::Account::unpack` on the account data (no owner check). Used in `token-proxy/src/processor.rs:820`. -/
def tokenOf (d : Data) : Except Err TokenAcc :=
  match d with
  | .token t => .ok t
  | _ => .error .invalidAccountData

/-- `spl_token::state::Mint::unpack` on the account data (no owner check). Used in `token-proxy/src/processor.rs:483`. -/
def mintOf (d : Data) : Except Err MintAcc :=
  match d with
  | .mint m => .ok m
  | _ => .error .invalidAccountData

@[simp] theorem tokenOf_ok {d : Data} {t : TokenAcc} : tokenOf d = .ok t ↔ d = .token t := by
  cases d <;> simp [tokenOf]

@[simp] theorem mintOf_ok {d : Data} {m : MintAcc} : mintOf d = .ok m ↔ d = .mint m := by
  cases d <;> simp [mintOf]

/-- Who may spend from a token account (`Processor::process_transfer`/`process_burn` of spl-token): the delegate
up to the delegated amount, otherwise the owner. Returns the source with the delegation reduced.
Used in `token-proxy/src/processor.rs:497` and `token-proxy/src/processor.rs:833`. -/
def spendAuth (t : TokenAcc) (auth : Pubkey) (n : U64) : Except Err TokenAcc :=
  if t.delegate = some auth then
    if n.toNat ≤ t.delegatedAmount.toNat then
      .ok { t with
        delegatedAmount := t.delegatedAmount - n
        delegate := if t.delegatedAmount = n then none else t.delegate }
    else .error .spl
  else if t.owner = auth then .ok t else .error .spl

attribute [local instance 2000] List.decidableBAll

/-- The checks made before a CPI to the token program: it and the listed accounts are available, the written ones
writable and owned by the token program. Used in `token-proxy/src/processor.rs:497`. -/
def splCall (env : Env) (ctx : Ctx) (written other : List Pubkey) (w : World) : Except Err Unit := do
  require (env.splId ∈ ctx.accounts) .missingAccount
  require (∀ k ∈ other, k ∈ ctx.accounts) .missingAccount
  require (∀ k ∈ written, ctx.isWritable k = true) .privilegeEscalation
  require (∀ k ∈ written, (w.acc k).owner = env.splId) .externalDataModified

/-- `spl_token::instruction::transfer`. A transfer between wrapped-SOL accounts moves lamports too.
Used in `token-proxy/src/processor.rs:833` and `token-proxy/src/processor.rs:3660`. -/
def splTransfer (env : Env) (ctx : Ctx) (signs : Pubkey → Bool) (src dst auth : Pubkey) (n : U64) (w : World) :
    Except Err World := do
  splCall env ctx [src, dst] [auth] w
  let s ← tokenOf (w.acc src).data
  let d ← tokenOf (w.acc dst).data
  require (s.frozen = false ∧ d.frozen = false) .spl
  require (n.toNat ≤ s.amount.toNat) .spl
  require (s.mint = d.mint) .spl
  let s' ← spendAuth s auth n
  require (signs auth = true) .missingRequiredSignature
  if src = dst then .ok w
  else do
    require (d.amount.toNat + n.toNat < 2 ^ 64) .spl
    let w1 := (w.setDataRaw src (.token { s' with amount := s.amount - n })).setDataRaw dst
      (.token { d with amount := d.amount + n })
    if s.isNative.isSome then do
      require (n.toNat ≤ (w.acc src).lamports) .spl
      require ((w.acc dst).lamports + n.toNat < 2 ^ 64) .spl
      .ok ((w1.setLamports src ((w.acc src).lamports - n.toNat)).setLamports dst ((w.acc dst).lamports + n.toNat))
    else .ok w1

/-- `spl_token::instruction::mint_to`. Used in `token-proxy/src/processor.rs:3540` and `token-proxy/src/processor.rs:4537`. -/
def splMintTo (env : Env) (ctx : Ctx) (signs : Pubkey → Bool) (mint dst auth : Pubkey) (n : U64) (w : World) :
    Except Err World := do
  splCall env ctx [mint, dst] [auth] w
  let d ← tokenOf (w.acc dst).data
  require (d.frozen = false) .spl
  require (d.isNative = none) .spl
  require (d.mint = mint) .spl
  let m ← mintOf (w.acc mint).data
  require (m.mintAuthority = some auth) .spl
  require (signs auth = true) .missingRequiredSignature
  require (d.amount.toNat + n.toNat < 2 ^ 64) .spl
  require (m.supply.toNat + n.toNat < 2 ^ 64) .spl
  .ok ((w.setDataRaw dst (.token { d with amount := d.amount + n })).setDataRaw mint
    (.mint { m with supply := m.supply + n }))

/-- `spl_token::instruction::burn`. Used in `token-proxy/src/processor.rs:497`. -/
def splBurn (env : Env) (ctx : Ctx) (signs : Pubkey → Bool) (src mint auth : Pubkey) (n : U64) (w : World) :
    Except Err World := do
  splCall env ctx [src, mint] [auth] w
  let s ← tokenOf (w.acc src).data
  let m ← mintOf (w.acc mint).data
  require (s.frozen = false) .spl
  require (s.isNative = none) .spl
  require (n.toNat ≤ s.amount.toNat) .spl
  require (s.mint = mint) .spl
  let s' ← spendAuth s auth n
  require (signs auth = true) .missingRequiredSignature
  require (n.toNat ≤ m.supply.toNat) .spl
  .ok ((w.setDataRaw src (.token { s' with amount := s.amount - n })).setDataRaw mint
    (.mint { m with supply := m.supply - n }))

/-- Contents of a fresh token account. Used in `token-proxy/src/processor.rs:695`. -/
def freshToken (env : Env) (mint owner : Pubkey) (lamports : Nat) : TokenAcc :=
  { mint := mint, owner := owner
    amount := if mint = env.nativeMint then BitVec.ofNat 64 (lamports - env.rent 165) else 0#64
    delegate := none, frozen := false
    isNative := if mint = env.nativeMint then some (BitVec.ofNat 64 (env.rent 165)) else none
    delegatedAmount := 0#64, closeAuthority := none }

/-- `spl_token::instruction::initialize_account3`. The token program does not check who owns the mint account.
Used in `token-proxy/src/processor.rs:695` and `token-proxy/src/processor.rs:4709`. -/
def splInitAccount (env : Env) (ctx : Ctx) (k mint owner : Pubkey) (w : World) : Except Err World := do
  splCall env ctx [k] [mint] w
  require ((w.acc k).data = .raw (zeros 165)) .spl
  require (env.rent 165 ≤ (w.acc k).lamports) .spl
  require (mint = env.nativeMint ∨ (mintOf (w.acc mint).data).isOk = true) .spl
  .ok (w.setDataRaw k (.token (freshToken env mint owner (w.acc k).lamports)))

/-- `spl_token::instruction::initialize_mint` without freeze authority. Used in `token-proxy/src/processor.rs:1581`. -/
def splInitMint (env : Env) (ctx : Ctx) (k auth : Pubkey) (decimals : U8) (w : World) : Except Err World := do
  splCall env ctx [k] [env.rentId] w
  require ((w.acc k).data = .raw (zeros 82)) .spl
  require (env.rent 82 ≤ (w.acc k).lamports) .spl
  .ok (w.setDataRaw k (.mint
    { mintAuthority := some auth, supply := 0#64, decimals := decimals, freezeAuthority := none }))

/-- `spl_token::instruction::sync_native`. Used in `native-proxy/src/processor.rs:102`. -/
def splSyncNative (env : Env) (ctx : Ctx) (k : Pubkey) (w : World) : Except Err World := do
  splCall env ctx [k] [] w
  let t ← tokenOf (w.acc k).data
  let r ← orErr t.isNative .spl
  require (r.toNat ≤ (w.acc k).lamports ∧ (w.acc k).lamports < 2 ^ 64) .spl
  require (t.amount.toNat ≤ (w.acc k).lamports - r.toNat) .spl
  .ok (w.setDataRaw k (.token { t with amount := BitVec.ofNat 64 ((w.acc k).lamports - r.toNat) }))

/-- `spl_associated_token_account::tools::account::create_pda_account`: like `create_account`, but an address that
already holds lamports is topped up, allocated and assigned. `signs` includes the new address. Used in `native-proxy/src/processor.rs:86`. -/
def createPdaFunded (env : Env) (ctx : Ctx) (signs : Pubkey → Bool) (funder k : Pubkey) (space : Nat)
    (owner : Pubkey) (w : World) : Except Err World :=
  if (w.acc k).lamports = 0 then sysCreate env ctx signs funder k (max 1 (env.rent space)) space owner w
  else do
    require (signs k = true) .missingRequiredSignature
    require (env.systemId ∈ ctx.accounts) .missingAccount
    require (ctx.isWritable k = true) .privilegeEscalation
    require ((w.acc k).data.len = 0 ∧ (w.acc k).owner = env.systemId) .accountAlreadyInUse
    let need := max 1 (env.rent space) - (w.acc k).lamports
    let w1 ← if need = 0 then .ok w else sysTransfer env ctx ctx.signs funder k need w
    .ok (w1.set k { lamports := (w1.acc k).lamports, owner := owner, data := .raw (zeros space) })

/-- Seeds of an associated token account: `[wallet, token program, mint]`. Used in `native-proxy/src/processor.rs:74`. -/
def ataSeeds (env : Env) (wallet mint : Pubkey) : List Bytes :=
  [Codec.key.enc wallet, Codec.key.enc env.splId, Codec.key.enc mint]

/-- `create_associated_token_account` through CPI: creates and initializes the associated token account of `wallet`
for `mint`; fails if the address is not free. Used in `native-proxy/src/processor.rs:86` and `token-proxy/src/processor.rs:1594`. -/
def ataCreate (env : Env) (ctx : Ctx) (funder wallet mint : Pubkey) (w : World) : Except Err World := do
  let (k, _) ← findAddr env (ataSeeds env wallet mint) env.ataId
  require (env.ataId ∈ ctx.accounts) .missingAccount
  require (∀ a ∈ [k, wallet, mint], a ∈ ctx.accounts) .missingAccount
  require (ctx.isWritable k = true) .privilegeEscalation
  require (ctx.isSigner funder = true) .privilegeEscalation
  require ((w.acc k).owner = env.systemId) .illegalOwner
  require ((w.acc mint).owner = env.splId) .spl
  let w ← createPdaFunded env ctx (fun a => ctx.isSigner a || a == k) funder k 165 env.splId w
  splInitAccount env ctx k mint wallet w

end Verif
