import Verif.Client.Bridge
import Verif.Spec.Vault
import Verif.Spec.RoundLoader
/-!
# Specification: what is in place when a client sends an instruction

The accounts of the bridge as the bridge itself leaves them, at the addresses derived from their contents.
-/
namespace Verif
open Verif

/-- A wallet with at least `n` lamports. -/
structure Wallet (env : Env) (w : World) (k : Pubkey) (n : Nat) : Prop where
  system : (w.acc k).owner = env.systemId
  empty : (w.acc k).data.len = 0
  rich : n ≤ (w.acc k).lamports

/-- The key is the upgrade authority of `program`, as the program data account `pd` records it. -/
structure Upgrades (env : Env) (w : World) (program pd authority : Pubkey) : Prop where
  addr : IsAddr env env.loaderId [seedKey program] pd
  data : (w.acc pd).data = .programData (some authority)

namespace RL

/-- The settings of the round loader. -/
structure Ready (env : Env) (w : World) (ks : Pubkey) (s : Settings) : Prop where
  here : SettingsAt env w ks s
  addr : ∃ n pn pd, s.accountKind = .settings n pn ∧ findAddr env settingsSeeds env.rlId = .ok (ks, n) ∧
    findAddr env [seedKey env.rlId] env.loaderId = .ok (pd, pn)

/-- Round `r` of the relays. -/
structure RoundReady (env : Env) (w : World) (kr : Pubkey) (r : RelayRound) : Prop where
  here : RoundAt env w kr r
  addr : ∃ n, r.accountKind = .relayRound n ∧ findAddr env (relayRoundSeeds r.roundNumber) env.rlId = .ok (kr, n)

/-- The proposal `p`, finalized or not, at the address derived from its contents. -/
structure ProposalReady (env : Env) (w : World) (kp : Pubkey) (p : Proposal) : Prop where
  owner : (w.acc kp).owner = env.rlId
  holds : Holds proposalC proposalLen (w.acc kp) p
  addr : ∃ n pn, p.accountKind = .proposal n pn ∧
    findAddr env (proposalSeeds p.roundNumber p.pda (env.hash (eventC.enc p.event))) env.rlId = .ok (kp, n)

end RL

namespace TP
open Codec

/-- The settings of the token proxy. -/
structure Ready (env : Env) (w : World) (ks : Pubkey) (s : Settings) : Prop where
  here : SettingsAt env w ks s
  addr : ∃ n pn pd, s.accountKind = .settings n pn ∧ findAddr env settingsSeeds env.tpId = .ok (ks, n) ∧
    findAddr env [seedKey env.tpId] env.loaderId = .ok (pd, pn)

/-- The account that collects the value sent along with deposits. -/
structure MultiReady (env : Env) (w : World) (km : Pubkey) : Prop where
  owner : (w.acc km).owner = env.tpId
  holds : ∃ v n, Holds multiVaultC recLen (w.acc km) v ∧ v.isInitialized = true ∧ v.accountKind = .multiVault n ∧
    findAddr env multiVaultSeeds env.tpId = .ok (km, n)

/-- The settings `t` of a token, of either kind. -/
structure TokenReady (env : Env) (w : World) (kt : Pubkey) (t : TokenSettings) : Prop where
  here : TokenAt env w kt t
  addr : ∃ n m, t.accountKind = .tokenSettings n m ∧ findAddr env (tokenSeeds env t.kind) env.tpId = .ok (kt, n)

/-- The settings `t` and the vault `kv` of the Solana token `mint`. -/
structure SolReady (env : Env) (w : World) (mint kt kv : Pubkey) (t : TokenSettings) (v : TokenAcc) : Prop where
  here : TokenAt env w kt t
  kind : t.kind = .solana mint kv
  addr : ∃ n m, t.accountKind = .tokenSettings n m ∧ findAddr env (tokenSettingsSolSeeds mint) env.tpId = .ok (kt, n) ∧
    findAddr env (vaultSeeds mint) env.tpId = .ok (kv, m)
  vault : (w.acc kv).owner = env.splId ∧ (w.acc kv).data = .token v ∧ v.mint = mint ∧ v.owner = kv ∧ v.delegate = none ∧ v.frozen = false
  native : v.isNative.isSome = true → v.amount.toNat ≤ (w.acc kv).lamports

/-- The settings `t` and the mint `km` of the Everscale token `token`. -/
structure EverReady (env : Env) (w : World) (token : EverAddress) (kt km : Pubkey) (t : TokenSettings) (m : MintAcc) : Prop where
  here : TokenAt env w kt t
  kind : ∃ d, t.kind = .ever km token d
  addr : ∃ n mn, t.accountKind = .tokenSettings n mn ∧ findAddr env (tokenSettingsEverSeeds env token) env.tpId = .ok (kt, n) ∧
    findAddr env (mintSeeds env token) env.tpId = .ok (km, mn)
  mint : (w.acc km).owner = env.splId ∧ (w.acc km).data = .mint m ∧ m.mintAuthority = some km

/-- The withdrawal `r`. -/
structure WdReady {E : Type} (ec : Codec E) (env : Env) (w : World) (k : Pubkey) (r : Withdrawal E) : Prop where
  owner : (w.acc k).owner = env.tpId
  holds : Holds (withdrawalC ec) recLen (w.acc k) r
  init : r.isInitialized = true
  addr : ∃ n pn, r.accountKind = .proposal n pn ∧
    findAddr env (proposalSeeds r.roundNumber r.pda (env.hash (ec.enc r.event))) env.tpId = .ok (k, n)

/-- A withdrawal as a vote reads it, whatever its kind of token. -/
structure GenReady (env : Env) (w : World) (k : Pubkey) (p : GenericProposal) : Prop where
  owner : (w.acc k).owner = env.tpId
  holds : Holds GenericProposal.codec recLen (w.acc k) p
  addr : ∃ n pn, p.accountKind = .proposal n pn ∧
    findAddr env (proposalSeeds p.roundNumber p.pda (env.hash p.event)) env.tpId = .ok (k, n)

/-- The record of the deposit made with `seed`, whatever its kind of token. -/
structure DepReady (env : Env) (w : World) (k : Pubkey) (seed : U128) (d : GenericDeposit) : Prop where
  owner : (w.acc k).owner = env.tpId
  holds : Holds genericDepositC recLen (w.acc k) d
  md : u128.decAll d.metaData = some seed
  addr : ∃ n, d.accountKind = .deposit n ∧ findAddr env (depositSeeds seed) env.tpId = .ok (k, n)

/-- A token account that can take `n` tokens of `mint`. -/
structure Payable (env : Env) (w : World) (k mint : Pubkey) (n : Nat) : Prop where
  owner : (w.acc k).owner = env.splId
  data : ∃ d, (w.acc k).data = .token d ∧ d.mint = mint ∧ d.frozen = false ∧ d.amount.toNat + n < 2 ^ 64
  lamports : (w.acc k).lamports + n < 2 ^ 64

/-- A token account from which `who` can spend `n` tokens of `mint`. -/
structure Spendable (env : Env) (w : World) (k mint who : Pubkey) (n : Nat) : Prop where
  owner : (w.acc k).owner = env.splId
  data : ∃ d, (w.acc k).data = .token d ∧ d.mint = mint ∧ d.owner = who ∧ d.delegate ≠ some who ∧ d.frozen = false ∧ n ≤ d.amount.toNat ∧
    (d.isNative.isSome = true → n ≤ (w.acc k).lamports)

/-- The account `to` is where a withdrawal of tokens of `mint` for `who` may be paid to: a token account of `who` or, with a payload, the
proxy account of `who` whose nonce the withdrawal records. -/
def Reaches (env : Env) (w : World) (kind : AccountKind) (payload : Bytes) (mint who to : Pubkey) : Prop :=
  (payload = [] ∧ ∃ d, (w.acc to).data = .token d ∧ d.owner = who) ∨
    (payload ≠ [] ∧ ∃ n pn, kind = .proposal n (some pn) ∧ findAddr env (proxySeeds mint who) env.tpId = .ok (to, pn))

/-- A token account into which `n` tokens of `mint` can be minted. -/
structure Mintable (env : Env) (w : World) (k mint : Pubkey) (n : Nat) : Prop where
  owner : (w.acc k).owner = env.splId
  data : ∃ d, (w.acc k).data = .token d ∧ d.mint = mint ∧ d.frozen = false ∧ d.isNative = none ∧ d.amount.toNat + n < 2 ^ 64

end TP
end Verif
