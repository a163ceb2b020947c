import Verif.Client.TokenProxy
import Verif.Spec.Trace
/-!
# `native-proxy`: deposits of SOL
-/
namespace Verif.NP
open Verif Codec

/-- `NativeProxyInstruction`, `instruction.rs:4-20` -/
inductive Instr
  | deposit (seed : U128) (amount : U64) (recipient : EverAddress) (value : U64) (expectedEvers : Pubkey) (payload : Bytes)
  deriving DecidableEq, Repr

/-- Borsh of `NativeProxyInstruction`. `native-proxy/src/instruction.rs:4-20`. -/
def Instr.codec : Codec Instr :=
  enum (fun _ => 0)
    [prism (pair u128 (pair u64 (pair everAddressC (pair u64 (pair key bytes)))))
      (fun x => .deposit x.1 x.2.1 x.2.2.1 x.2.2.2.1 x.2.2.2.2.1 x.2.2.2.2.2)
      (fun | .deposit a b c d e f => some (a, b, c, d, e, f)) (by rintro ⟨a, b, c, d, e, f⟩ i; cases i; simp [eq_comm])]
    (by decide) (by
      intro i c a hc hw
      rcases i with _ | i <;> simp only [List.getElem?_cons_zero, List.getElem?_cons_succ, List.getElem?_nil, Option.some.injEq, reduceCtorEq] at hc
      rfl)

/-- `WSOL_NAME`, `processor.rs:14` -/
def wsolName : Bytes := ascii "Wrapped SOL"
/-- `WSOL_SYMBOL`, `processor.rs:13` -/
def wsolSymbol : Bytes := ascii "wSOL"

/-- `solana_program::program::invoke`: the called program and all its accounts must have been given to the caller, with at least the same
privileges. Used in `native-proxy/src/processor.rs:108-129`. -/
def invokeCtx (ctx : Ctx) (ix : Ix) : Except Err Ctx := do
  require (ix.program ∈ ctx.accounts) .missingAccount
  require (∀ m ∈ ix.metas, m.key ∈ ctx.accounts) .missingAccount
  require (∀ m ∈ ix.metas, m.writable = true → ctx.isWritable m.key = true) .privilegeEscalation
  require (∀ m ∈ ix.metas, m.signer = true → ctx.isSigner m.key = true) .privilegeEscalation
  .ok (ix.ctx ctx.now)

/-- Create the author's account for wrapped SOL if it does not exist, `processor.rs:83-94`. -/
def ensureToken (env : Env) (ctx : Ctx) (funder creator token : Pubkey) (w : World) : Except Err World :=
  if (w.acc token).lamports = 0 then ataCreate env ctx funder creator env.nativeMint w else .ok w

/-- The part of `process_deposit`, `processor.rs:61-108`, before the token proxy is called: the creator's SOL is wrapped. -/
def wrap (env : Env) (ctx : Ctx) (amount : U64) (w : World) : Except Err World := do
  let funder ← acct ctx 0
  let creator ← acct ctx 1
  let creatorToken ← acct ctx 2
  let _ ← acct ctx 3
  let _ ← acct ctx 4
  let mint ← acct ctx 5
  require (mint = env.nativeMint) .invalidArgument
  let (token, _) ← findAddr env (ataSeeds env creator env.nativeMint) env.ataId
  require (token = creatorToken) .invalidArgument
  let w ← ensureToken env ctx funder creator creatorToken w
  let w ← sysTransfer env ctx ctx.signs creator token amount.toNat w
  splSyncNative env ctx token w

/-- `process_deposit`, `processor.rs:50-129` -/
def processDeposit (env : Env) (ctx : Ctx) (seed : U128) (amount : U64) (recipient : EverAddress) (value : U64) (evers : Pubkey)
    (payload : Bytes) (w : World) : Except Err World := do
  let w ← wrap env ctx amount w
  let funder ← acct ctx 0
  let creator ← acct ctx 1
  let creatorToken ← acct ctx 2
  let ix ← TP.Client.depositSolIx env funder creator creatorToken env.nativeMint seed wsolName wsolSymbol amount recipient value evers payload
  let inner ← invokeCtx ctx ix
  TP.process env inner noCpi ix.data w

/-- The dispatch of `Processor::process`, `processor.rs:18-48`. -/
def run (env : Env) (ctx : Ctx) (i : Instr) (w : World) : Except Err World :=
  match i with
  | .deposit seed amount recipient value evers payload => processDeposit env ctx seed amount recipient value evers payload w

/-- `Processor::process`, `processor.rs:18-48` -/
def process (env : Env) (ctx : Ctx) (instructionData : Bytes) (w : World) : Except Err World := do
  let i ← orErr (Instr.codec.decAll instructionData) .borshIo
  run env ctx i w

/-- `deposit_ix`, `native-proxy/src/bindings.rs:9-62`; `program` is the identifier of the native proxy. -/
def depositIx (env : Env) (program funder author : Pubkey) (seed : U128) (amount : U64) (recipient : EverAddress) (value : U64) (evers : Pubkey)
    (payload : Bytes) : Except Err Ix := do
  let authorToken ← ataAddr env author env.nativeMint
  let vault ← TP.Client.vaultAddr env env.nativeMint
  let settings ← TP.Client.settingsAddr env
  let multiVault ← TP.Client.multiVaultAddr env
  let tokenSettings ← TP.Client.tokenSettingsSolAddr env env.nativeMint
  let deposit ← TP.Client.depositAddr env seed
  let data ← packed Instr.codec (.deposit seed amount recipient value evers payload)
  .ok ⟨program, [.new funder true, .new author true, .new authorToken false, .new vault false, .new deposit false, .new env.nativeMint false,
    .new multiVault false, .new tokenSettings false, .readonly settings false, .readonly env.systemId false, .readonly env.splId false,
    .readonly env.rentId false, .readonly env.tpId false, .readonly env.ataId false], data⟩

end Verif.NP
