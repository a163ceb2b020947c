import Verif.Spec.Deposits
import Verif.Spec.Trace
/-!
# Specification: vaults and mints of the bridge
-/
namespace Verif.TP
open Codec Verif

/-- `k` is an account of the token program with tokens of `mint`; only `own` can spend them, and nobody but `own` can close the account.
`native` says whether it holds wrapped SOL. -/
structure Guarded (env : Env) (w : World) (k mint own : Pubkey) (native : Option U64) : Prop where
  owner : (w.acc k).owner = env.splId
  data : ∃ t, (w.acc k).data = .token t ∧ t.mint = mint ∧ t.owner = own ∧ t.delegate = none ∧ t.closeAuthority = none ∧ t.isNative = native
  live : native = none → 1 ≤ (w.acc k).lamports

/-- `k` is a mint of the token program with `dec` decimals; only `auth` can mint. -/
structure GuardedMint (env : Env) (w : World) (k auth : Pubkey) (dec : U8) : Prop where
  owner : (w.acc k).owner = env.splId
  data : ∃ m, (w.acc k).data = .mint m ∧ m.mintAuthority = some auth ∧ m.decimals = dec ∧ m.freezeAuthority = none
  live : 1 ≤ (w.acc k).lamports

/-- The bridge's vault `kv` for the tokens of `mint`: the token account at the address derived from `mint`, which only the program can spend
from. -/
def VaultOf (env : Env) (w : World) (mint kv : Pubkey) : Prop :=
  IsAddr env env.tpId (vaultSeeds mint) kv ∧
    Guarded env w kv mint kv (if mint = env.nativeMint then some (BitVec.ofNat 64 (env.rent 165)) else none)

/-- The bridge's mint `km` for an Everscale token: the mint at the address derived from `token`, which only the program can mint with. -/
def MintOf (env : Env) (w : World) (token : EverAddress) (km : Pubkey) (dec : U8) : Prop :=
  IsAddr env env.tpId (mintSeeds env token) km ∧ GuardedMint env w km km dec

/-- While it exists, account `k` of the token program has lamports whenever a transaction ends (otherwise the chain removes it). This is needed
for the vault of wrapped SOL only: the token program takes the lamports of such an account along with the tokens. -/
def Funded (env : Env) (k : Pubkey) (tr : List Ev) : Prop :=
  ∀ e ∈ tr, e.act = .purge → (e.pre.acc k).owner = env.splId → 1 ≤ (e.pre.acc k).lamports

end Verif.TP
