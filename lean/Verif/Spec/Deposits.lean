import Verif.Spec.TokenProxy
/-!
# Specification: transfers to Everscale
-/
namespace Verif.TP
open Codec Verif

/-- Account `k`, empty before, holds the record of a transfer to Everscale with event `e`: it is at the address derived from `seed`, belongs to
the program, is exempt from rent, and reads the same through the generic view of the record. -/
structure DepositMade {E : Type} (ec : Codec E) (env : Env) (ctx : Ctx) (w w' : World) (k author : Pubkey) (seed : U128) (e : E) : Prop where
  addr : IsAddr env ctx.program (depositSeeds seed) k
  vacant : (w.acc k).lamports = 0 ∧ (w.acc k).data.len = 0
  owner : (w'.acc k).owner = ctx.program
  rent : (w'.acc k).lamports = max 1 (env.rent recLen)
  record : ∃ n len mlen, Holds (depositC ec) recLen (w'.acc k) ⟨true, .deposit n, author, len, e, mlen, seed⟩
  generic : ∃ n, Holds genericDepositC recLen (w'.acc k) ⟨true, .deposit n, author, ec.enc e, u128.enc seed⟩

/-- Records outside `S` are what they were. -/
def Frame (S : Pubkey → Prop) (w w' : World) : Prop :=
  ∀ j b, ¬ S j → (w.acc j).data = .raw b → b ≠ [] → (w'.acc j).data = .raw b ∧ (w'.acc j).owner = (w.acc j).owner

/-- The first deposit of a token of Solana with mint `mint` creates its vault `kv` and its settings `kt`, with the given name and symbol, no
limits and the default fees. -/
structure DeployedSol (env : Env) (ctx : Ctx) (mint kv kt : Pubkey) (name symbol : Bytes) (w w' : World) : Prop where
  absent : (w.acc kt).lamports = 0 ∧ (w.acc kt).data.len = 0 ∧ (w.acc kv).lamports = 0 ∧ (w.acc kv).data.len = 0
  vaultAddr : IsAddr env ctx.program (vaultSeeds mint) kv
  tokenAddr : IsAddr env ctx.program (tokenSettingsSolSeeds mint) kt
  vault : ∃ a, (w'.acc kv).data = .token ⟨mint, kv, a, none, false, (if mint = env.nativeMint then some (BitVec.ofNat 64 (env.rent 165)) else none),
    0#64, none⟩ ∧ (w'.acc kv).owner = env.splId
  empty : mint ≠ env.nativeMint ∨ 0 < env.rent 165 → bal w' kv = 0
  token : ∃ n n2, Holds tokenSettingsC recLen (w'.acc kt) (freshTokenSettings n n2 (.solana mint kv) name symbol)
  ownerToken : (w'.acc kt).owner = ctx.program
  rest : ∀ j, j ≠ kv → j ≠ kt → (w'.acc j).data = (w.acc j).data ∧ (w'.acc j).owner = (w.acc j).owner

/-- One withdrawal paid by a fill: its account, the account that receives the tokens, the record, the fee, the amount without the fee, and
what is paid. -/
structure Fill where
  kw : Pubkey
  rt : Pubkey
  r : Withdrawal WSolEvent
  fee : Nat
  net : Nat
  pay : Nat

/-- What a fill finds: a pending withdrawal of `mint`, the account `f.rt` of its recipient, the fee by `rate`, and what remains for the
recipient after fee and bounty, paid from `src`. -/
structure Fill.Due (env : Env) (ctx : Ctx) (w : World) (rate : FeeInfo) (mint src : Pubkey) (f : Fill) : Prop where
  withdrawal : WithdrawalOf wSolEventC env ctx w f.kw f.r
  owner : (w.acc f.kw).owner = ctx.program
  pending : f.r.md.status = .pending
  mint : f.r.event.mint = mint
  recipient : ∃ x, (w.acc f.rt).data = .token x ∧ x.owner = f.r.event.recipient
  same : ∃ m, IsToken env w src m ∧ IsToken env w f.rt m
  fits : f.r.event.amount.toNat < 2 ^ 64
  fee : ∃ a fee : U64, a.toNat = f.r.event.amount.toNat ∧ feeOf rate a = .ok fee ∧ fee.toNat = f.fee
  net : f.net + f.fee = f.r.event.amount.toNat
  pay : f.pay + f.r.md.bounty.toNat = f.net

/-- Total of `f` over a list. -/
def total {α : Type} (f : α → Nat) : List α → Nat
  | [] => 0
  | a :: l => f a + total f l

end Verif.TP
