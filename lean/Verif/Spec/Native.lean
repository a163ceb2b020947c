import Verif.NativeProxy.Processor
import Verif.Spec.Deposits
/-!
# Specification: deposits of SOL through the native proxy
-/
namespace Verif.NP
open Verif

/-- `creator` turned `amount` lamports into wrapped SOL in the account `token`. If the account did not exist, `funder` paid for it. -/
structure Wrapped (env : Env) (funder creator token : Pubkey) (amount : Nat) (w w' : World) : Prop where
  differ : creator ≠ token
  /-- nothing else changes -/
  rest : ∀ k, k ≠ token → w'.acc k = { w.acc k with lamports := (w.acc k).lamports -
    (if k = funder ∧ (w.acc token).lamports = 0 then max 1 (env.rent 165) else 0) - (if k = creator then amount else 0) }
  enough : amount + (if creator = funder ∧ (w.acc token).lamports = 0 then max 1 (env.rent 165) else 0) ≤ (w.acc creator).lamports
  /-- the tokens in the account are its lamports less the reserve -/
  synced : ∃ t reserve, (w'.acc token).owner = env.splId ∧ (w'.acc token).data = .token t ∧ t.isNative = some reserve ∧
    t.amount.toNat + reserve.toNat = (w'.acc token).lamports
  /-- an account that existed gets the lamports and keeps everything else -/
  old : (w.acc token).lamports ≠ 0 → (w'.acc token).lamports = (w.acc token).lamports + amount ∧ (w.acc token).owner = env.splId ∧
    ∃ t t', (w.acc token).data = .token t ∧ (w'.acc token).data = .token t' ∧ t' = { t with amount := t'.amount } ∧ t.amount.toNat ≤ t'.amount.toNat
  /-- a new account belongs to the creator -/
  new : (w.acc token).lamports = 0 → (w'.acc token).lamports = max 1 (env.rent 165) + amount ∧ (w.acc token).owner = env.systemId ∧
    (w.acc token).data.len = 0 ∧ ∃ a, (w'.acc token).data =
      .token ⟨env.nativeMint, creator, a, none, false, some (BitVec.ofNat 64 (env.rent 165)), 0#64, none⟩ ∧
      a.toNat + env.rent 165 = (w'.acc token).lamports
  logs : w'.logs = w.logs

/-- The call the native proxy makes to the token proxy: a deposit of wrapped SOL from the author's account `ct` with the addresses the token proxy
derives, with no more signatures than the native proxy was given. -/
structure Relayed (env : Env) (ctx : Ctx) (f cr ct kv dp mv kt ks : Pubkey) (seed : U128) (inner : Ctx) : Prop where
  program : inner.program = env.tpId
  accounts : inner.accounts = [f, cr, ct, kv, dp, env.nativeMint, mv, kt, ks, env.systemId, env.splId, env.rentId]
  signers : ∀ k ∈ inner.signers, k ∈ ctx.signers ∧ (k = f ∨ k = cr)
  given : ∀ k ∈ inner.accounts, k ∈ ctx.accounts
  writable : ∀ k ∈ inner.writables, k ∈ ctx.writables
  now : inner.now = ctx.now
  vault : IsAddr env env.tpId (TP.vaultSeeds env.nativeMint) kv
  deposit : IsAddr env env.tpId (depositSeeds seed) dp
  multiVault : IsAddr env env.tpId TP.multiVaultSeeds mv
  token : IsAddr env env.tpId (TP.tokenSettingsSolSeeds env.nativeMint) kt
  settings : IsAddr env env.tpId settingsSeeds ks

end Verif.NP
