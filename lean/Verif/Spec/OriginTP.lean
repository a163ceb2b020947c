import Verif.Spec.TokenProxy
/-!
# Specification: where a withdrawal comes from

C91.
-/
namespace Verif.TP
open Verif

/-- In step `e` the author of the withdrawal `p` signs the request that opens it at `k`. -/
inductive Requests (env : Env) (k : Pubkey) (e : Ev) (p : GenericProposal) : Prop
  /-- for a token from Solana that the bridge knows -/
  | sol (ctx : Ctx) (pda : PDA) (to : Pubkey) (a : U128) (py : Bytes) (att : U64) (kt ks kr : Pubkey) (t : TokenSettings) (mint v : Pubkey)
      (s : RL.Settings) (r : RL.RelayRound) (hact : e.act = .tp ctx (.withdrawMultiTokenSolRequest pda to a py att)) (hk : ctx.accounts[2]? = some k)
      (hsig : ctx.isSigner p.author = true) (ht : TokenOf env ctx e.pre kt t) (hkind : t.kind = .solana mint v)
      (hr : OpenRound env ctx e.pre ks kr s r) (hpda : p.pda = pda) (hn : p.roundNumber = r.roundNumber)
      (hev : p.event = wSolEventC.enc ⟨mint, a, to, py⟩) (hv : p.requiredVotes.toNat = max (2 * r.relays.length / 3 + 1) s.minRequiredVotes.toNat)
      (hs : p.signers.length = r.relays.length)
  /-- for a token from Everscale -/
  | ever (ctx : Ctx) (pda : PDA) (t : EverAddress) (n y : Bytes) (d : U8) (to : Pubkey) (a : U128) (py : Bytes) (att : U64) (ks kr : Pubkey)
      (s : RL.Settings) (r : RL.RelayRound) (hact : e.act = .tp ctx (.withdrawMultiTokenEverRequest pda t n y d to a py att))
      (hk : ctx.accounts[2]? = some k) (hsig : ctx.isSigner p.author = true)
      (hr : OpenRound env ctx e.pre ks kr s r) (hpda : p.pda = pda) (hn : p.roundNumber = r.roundNumber)
      (hev : p.event = wEverEventC.enc ⟨t, n, y, d, a, to, py⟩)
      (hv : p.requiredVotes.toNat = max (2 * r.relays.length / 3 + 1) s.minRequiredVotes.toNat) (hs : p.signers.length = r.relays.length)

end Verif.TP
