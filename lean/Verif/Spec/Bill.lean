import Verif.Spec.Rent
/-!
# Specification: bills

What an instruction costs, as a list of payments. Payments from an account to itself cancel.
-/
namespace Verif

/-- `amount` lamports go from `src` to `dst`. -/
structure Payment where
  src : Pubkey
  dst : Pubkey
  amount : Nat

/-- What `k` pays. -/
def paidBy (k : Pubkey) : List Payment → Nat
  | [] => 0
  | p :: l => (if p.src = k then p.amount else 0) + paidBy k l

/-- What `k` is paid. -/
def paidTo (k : Pubkey) : List Payment → Nat
  | [] => 0
  | p :: l => (if p.dst = k then p.amount else 0) + paidTo k l

/-- From `w` to `w'` every account of the chain pays and is paid what the bill says, to the lamport. -/
def Settled (bill : List Payment) (w w' : World) : Prop :=
  ∀ k, (w'.acc k).lamports + paidBy k bill = (w.acc k).lamports + paidTo k bill

/-- The account holds wrapped SOL. -/
def wrapsSol (w : World) (k : Pubkey) : Bool :=
  match (w.acc k).data with
  | .token t => t.isNative.isSome
  | _ => false

/-- The lamports that go with tokens sent from `src`: with wrapped SOL as many as tokens, with other tokens none. -/
def tokenBill (w : World) (src : Pubkey) (l : List Payment) : List Payment := if wrapsSol w src then l else []

/-- Token balances change as `l` says. -/
def TokensMove (l : List Payment) (w w' : World) : Prop := ∀ k, TP.bal w' k + paidBy k l = TP.bal w k + paidTo k l

namespace RL

/-- The price list of the round loader: who pays whom how much for an instruction executed in `w`. -/
inductive Price (env : Env) (ctx : Ctx) (w : World) : Instr → List Payment → Prop
  | init {f k : Pubkey} (g : U32) (s : Pubkey) (m t : U32) (h0 : ctx.accounts[0]? = some f) (h2 : ctx.accounts[2]? = some k) :
      Price env ctx w (.init g s m t) [⟨f, k, env.minimum settingsLen⟩]
  | update (n : Option U32) (s : Option Pubkey) (m t : Option U32) : Price env ctx w (.updateSettings n s m t) []
  | round {f k : Pubkey} (n : U32) (rs : List Pubkey) (e : U32) (h0 : ctx.accounts[0]? = some f) (h3 : ctx.accounts[3]? = some k) :
      Price env ctx w (.createRelayRound n rs e) [⟨f, k, env.minimum relayRoundLen⟩]
  | proposal {f k : Pubkey} (n : U32) (p : PDA) (d : Pubkey) (h0 : ctx.accounts[0]? = some f) (h2 : ctx.accounts[2]? = some k)
      (hk : (w.acc k).lamports = 0) : Price env ctx w (.createProposal n p d) [⟨f, k, env.minimum proposalLen⟩]
  /-- a proposal that exists is not created again -/
  | known {k : Pubkey} (n : U32) (p : PDA) (d : Pubkey) (h2 : ctx.accounts[2]? = some k) (hk : (w.acc k).lamports ≠ 0) :
      Price env ctx w (.createProposal n p d) []
  | write (o : U32) (b : Bytes) : Price env ctx w (.writeProposal o b) []
  /-- the votes of all relays are paid in advance -/
  | finalize {f k kr : Pubkey} {r : RelayRound} (h0 : ctx.accounts[0]? = some f) (h1 : ctx.accounts[1]? = some k) (h3 : ctx.accounts[3]? = some kr)
      (hr : Holds relayRoundC relayRoundLen (w.acc kr) r) : Price env ctx w .finalizeProposal [⟨f, k, 20000 * r.relays.length⟩]
  /-- a relay that has not voted is paid for its vote -/
  | vote {relay k kr : Pubkey} {p : Proposal} {r : RelayRound} {i : Nat} (v : Vote) (h0 : ctx.accounts[0]? = some relay) (h1 : ctx.accounts[1]? = some k)
      (h2 : ctx.accounts[2]? = some kr) (hp : Holds proposalC proposalLen (w.acc k) p) (hr : Holds relayRoundC relayRoundLen (w.acc kr) r)
      (hi : r.relays.findIdx? (· == relay) = some i) (hv : p.signers[i]? = some Vote.none) : Price env ctx w (.voteForProposal v) [⟨k, relay, 20000⟩]
  | again {relay k kr : Pubkey} {p : Proposal} {r : RelayRound} {i : Nat} {old : Vote} (v : Vote) (h0 : ctx.accounts[0]? = some relay)
      (h1 : ctx.accounts[1]? = some k) (h2 : ctx.accounts[2]? = some kr) (hp : Holds proposalC proposalLen (w.acc k) p)
      (hr : Holds relayRoundC relayRoundLen (w.acc kr) r) (hi : r.relays.findIdx? (· == relay) = some i) (hv : p.signers[i]? = some old)
      (ho : old ≠ Vote.none) : Price env ctx w (.voteForProposal v) []
  | execute {f kp k : Pubkey} {p : Proposal} (h0 : ctx.accounts[0]? = some f) (h2 : ctx.accounts[2]? = some kp) (h3 : ctx.accounts[3]? = some k)
      (hp : Holds proposalC proposalLen (w.acc kp) p) (hst : p.status = .new) (hq : p.requiredVotes.toNat ≤ p.signers.count .confirm) :
      Price env ctx w .executeProposal [⟨f, k, env.minimum relayRoundLen⟩]
  /-- executing a proposal that is not confirmed, or is executed already, costs nothing -/
  | idle {kp : Pubkey} {p : Proposal} (h2 : ctx.accounts[2]? = some kp) (hp : Holds proposalC proposalLen (w.acc kp) p)
      (hq : ¬ (p.status = .new ∧ p.requiredVotes.toNat ≤ p.signers.count .confirm)) : Price env ctx w .executeProposal []
  | admin {f k : Pubkey} (h0 : ctx.accounts[0]? = some f) (h4 : ctx.accounts[4]? = some k) :
      Price env ctx w .executeProposalByAdmin [⟨f, k, env.minimum relayRoundLen⟩]

end RL

namespace TP

/-- Instructions that move no lamports at all. -/
def Instr.gratis : Instr → Bool
  | .changeGuardian _ | .changeManager _ | .changeWithdrawalManager _ | .changeDepositLimit _ | .changeWithdrawalLimits _ _ | .enableEmergencyMode
  | .disableEmergencyMode | .enableTokenEmergencyMode | .disableTokenEmergencyMode | .approveWithdrawEver | .updateFee _ _ _ | .updateTokenName _ _
  | .withdrawEverFee _ | .changeBountyForWithdrawSol _ => true
  | _ => false

/-- Opening a withdrawal: its rent, and the votes of all relays in advance. -/
def openBill (env : Env) (f k : Pubkey) (relays : Nat) : List Payment := [⟨f, k, env.minimum recLen⟩, ⟨f, k, 20000 * relays⟩]

/-- Opening the proxy account of a transfer with a payload: what it lacks of its rent, if it is new, and the attached amount. -/
def proxyBill (env : Env) (w : World) (f p : Pubkey) (att : Nat) : List Payment :=
  [⟨f, p, if (w.acc p).data.len = 0 then env.minimum 165 - (w.acc p).lamports else 0⟩, ⟨f, p, att⟩]

/-- What a request for a withdrawal costs: `k` is the record, `p` the proxy account, if the transfer has a payload. -/
inductive RequestPrice (env : Env) (w : World) (f k : Pubkey) (att relays : Nat) : Option Pubkey → List Payment → Prop
  | plain (hk : (w.acc k).lamports = 0) : RequestPrice env w f k att relays none (openBill env f k relays)
  | known (hk : (w.acc k).lamports ≠ 0) : RequestPrice env w f k att relays none []
  | payload {p : Pubkey} (hk : (w.acc k).lamports = 0) (hp : p ≠ k) :
      RequestPrice env w f k att relays (some p) (proxyBill env w f p att ++ openBill env f k relays)
  | knownPayload {p : Pubkey} (hk : (w.acc k).lamports ≠ 0 ∨ p = k) : RequestPrice env w f k att relays (some p) (proxyBill env w f p att)

/-- The proxy account of a request, if there is a payload. -/
def proxyOf (ctx : Ctx) (i : Nat) (payload : Bytes) (o : Option Pubkey) : Prop := (payload = [] ∧ o = none) ∨ (payload ≠ [] ∧ ∃ p, ctx.accounts[i]? = some p ∧ o = some p)

/-- The price list of the token proxy: who pays whom how much for an instruction that leads from `w` to `w'`. -/
inductive Price (env : Env) (ctx : Ctx) (w w' : World) : Instr → List Payment → Prop
  | gratis (i : Instr) (h : i.gratis = true) : Price env ctx w w' i []
  | init {f s m : Pubkey} (a b c : Pubkey) (h0 : ctx.accounts[0]? = some f) (h2 : ctx.accounts[2]? = some s) (h3 : ctx.accounts[3]? = some m) :
      Price env ctx w w' (.init a b c) [⟨f, s, env.minimum recLen⟩, ⟨f, m, env.minimum recLen⟩]
  | depositEver {f d m : Pubkey} (sd : U128) (a : U64) (r : EverAddress) (v : U64) (e : Pubkey) (p : Bytes) (h0 : ctx.accounts[0]? = some f)
      (h3 : ctx.accounts[3]? = some d) (h5 : ctx.accounts[5]? = some m) :
      Price env ctx w w' (.depositMultiTokenEver sd a r v e p) [⟨f, d, env.minimum recLen⟩, ⟨f, m, v.toNat⟩]
  | depositSol {f ct kv d m kt : Pubkey} (sd : U128) (n y : Bytes) (a : U64) (r : EverAddress) (v : U64) (e : Pubkey) (p : Bytes)
      (h0 : ctx.accounts[0]? = some f) (h2 : ctx.accounts[2]? = some ct) (h3 : ctx.accounts[3]? = some kv) (h4 : ctx.accounts[4]? = some d)
      (h6 : ctx.accounts[6]? = some m) (h7 : ctx.accounts[7]? = some kt) (hk : (w.acc kt).lamports ≠ 0) :
      Price env ctx w w' (.depositMultiTokenSol sd n y a r v e p)
        (tokenBill w ct [⟨ct, kv, a.toNat⟩] ++ [⟨f, m, v.toNat⟩, ⟨f, d, env.minimum recLen⟩])
  /-- the first deposit of a token also opens its vault and its settings -/
  | firstSol {f ct kv d m kt : Pubkey} (sd : U128) (n y : Bytes) (a : U64) (r : EverAddress) (v : U64) (e : Pubkey) (p : Bytes)
      (h0 : ctx.accounts[0]? = some f) (h2 : ctx.accounts[2]? = some ct) (h3 : ctx.accounts[3]? = some kv) (h4 : ctx.accounts[4]? = some d)
      (h6 : ctx.accounts[6]? = some m) (h7 : ctx.accounts[7]? = some kt) (hk : (w.acc kt).lamports = 0) :
      Price env ctx w w' (.depositMultiTokenSol sd n y a r v e p)
        ([⟨f, kv, env.minimum 165⟩, ⟨f, kt, env.minimum recLen⟩] ++ tokenBill w ct [⟨ct, kv, a.toNat⟩] ++ [⟨f, m, v.toNat⟩, ⟨f, d, env.minimum recLen⟩])
  | requestEver {f k kr : Pubkey} {rr : RL.RelayRound} {o : Option Pubkey} {l : List Payment} (pda : PDA) (t : EverAddress) (n y : Bytes) (d : U8)
      (r : Pubkey) (a : U128) (p : Bytes) (att : U64) (h0 : ctx.accounts[0]? = some f) (h2 : ctx.accounts[2]? = some k) (h4 : ctx.accounts[4]? = some kr)
      (hr : Holds RL.relayRoundC RL.relayRoundLen (w.acc kr) rr) (ho : proxyOf ctx 8 p o)
      (hl : RequestPrice env w f k att.toNat rr.relays.length o l) : Price env ctx w w' (.withdrawMultiTokenEverRequest pda t n y d r a p att) l
  | requestSol {f k kr : Pubkey} {rr : RL.RelayRound} {o : Option Pubkey} {l : List Payment} (pda : PDA) (r : Pubkey) (a : U128) (p : Bytes) (att : U64)
      (h0 : ctx.accounts[0]? = some f) (h2 : ctx.accounts[2]? = some k) (h5 : ctx.accounts[5]? = some kr)
      (hr : Holds RL.relayRoundC RL.relayRoundLen (w.acc kr) rr) (ho : proxyOf ctx 9 p o)
      (hl : RequestPrice env w f k att.toNat rr.relays.length o l) : Price env ctx w w' (.withdrawMultiTokenSolRequest pda r a p att) l
  /-- a relay that has not voted is paid for its vote -/
  | vote {relay k kr : Pubkey} {p : GenericProposal} {r : RL.RelayRound} {i : Nat} (v : Vote) (h0 : ctx.accounts[0]? = some relay)
      (h1 : ctx.accounts[1]? = some k) (h2 : ctx.accounts[2]? = some kr)
      (hp : ∃ b x, (w.acc k).data = .raw b ∧ GenericProposal.codec.dec b = some (p, x)) (hr : Holds RL.relayRoundC RL.relayRoundLen (w.acc kr) r)
      (hi : r.relays.findIdx? (· == relay) = some i) (hv : p.signers[i]? = some Vote.none) :
      Price env ctx w w' (.voteForWithdrawRequest v) [⟨k, relay, 20000⟩]
  | again {relay k kr : Pubkey} {p : GenericProposal} {r : RL.RelayRound} {i : Nat} {old : Vote} (v : Vote) (h0 : ctx.accounts[0]? = some relay)
      (h1 : ctx.accounts[1]? = some k) (h2 : ctx.accounts[2]? = some kr)
      (hp : ∃ b x, (w.acc k).data = .raw b ∧ GenericProposal.codec.dec b = some (p, x)) (hr : Holds RL.relayRoundC RL.relayRoundLen (w.acc kr) r)
      (hi : r.relays.findIdx? (· == relay) = some i) (hv : p.signers[i]? = some old) (ho : old ≠ Vote.none) :
      Price env ctx w w' (.voteForWithdrawRequest v) []
  | withdrawEver {kt : Pubkey} (h3 : ctx.accounts[3]? = some kt) (hk : (w.acc kt).lamports ≠ 0 ∨ ctx.accounts[9]? = none) :
      Price env ctx w w' .withdrawMultiTokenEver []
  /-- the first withdrawal of a token opens its mint, the account of the recipient and its settings -/
  | firstEver {k mint kt f to : Pubkey} {r : Withdrawal WEverEvent} (h0 : ctx.accounts[0]? = some k) (h1 : ctx.accounts[1]? = some mint)
      (h3 : ctx.accounts[3]? = some kt) (h9 : ctx.accounts[9]? = some f) (hk : (w.acc kt).lamports = 0)
      (hr : Holds (withdrawalC wEverEventC) recLen (w.acc k) r) (hto : IsAddr env env.ataId (ataSeeds env r.event.recipient mint) to) :
      Price env ctx w w' .withdrawMultiTokenEver [⟨f, mint, env.minimum 82⟩, ⟨f, to, env.minimum 165 - (w.acc to).lamports⟩, ⟨f, kt, env.minimum recLen⟩]
  /-- a payout from the vault: the lamports go with the tokens -/
  | withdrawSol {kv to : Pubkey} {l : List Payment} (h1 : ctx.accounts[1]? = some kv) (h2 : ctx.accounts[2]? = some to)
      (hl : l = [] ∨ ∃ n, l = [⟨kv, to, n⟩]) (ht : TokensMove l w w') : Price env ctx w w' .withdrawMultiTokenSol (tokenBill w kv l)
  | approveSol {kv to : Pubkey} {l : List Payment} (h1 : ctx.accounts[1]? = some kv) (h3 : ctx.accounts[3]? = some to)
      (hl : l = [] ∨ ∃ n, l = [⟨kv, to, n⟩]) (ht : TokensMove l w w') : Price env ctx w w' .approveWithdrawSol (tokenBill w kv l)
  | solFee {kv to : Pubkey} (n : U64) (h1 : ctx.accounts[1]? = some kv) (h3 : ctx.accounts[3]? = some to) :
      Price env ctx w w' (.withdrawSolFee n) (tokenBill w kv [⟨kv, to, n.toNat⟩])
  | proxy {p to : Pubkey} (n : U64) (h1 : ctx.accounts[1]? = some to) (h2 : ctx.accounts[2]? = some p) :
      Price env ctx w w' (.withdrawProxy n) (tokenBill w p [⟨p, to, n.toNat⟩])
  | cancel {f d m : Pubkey} (sd : U128) (r : EverAddress) (v : U64) (e : Pubkey) (p : Bytes) (h0 : ctx.accounts[0]? = some f)
      (h4 : ctx.accounts[4]? = some d) (h9 : ctx.accounts[9]? = some m) :
      Price env ctx w w' (.cancelWithdrawSol sd r v e p) [⟨f, m, v.toNat⟩, ⟨f, d, env.minimum recLen⟩]
  /-- the lamports of wrapped SOL go with the tokens to the recipients and the vault -/
  | fill {f ct d m : Pubkey} {l : List Payment} (sd : U128) (r : EverAddress) (a v : U64) (e : Pubkey) (p : Bytes) (h0 : ctx.accounts[0]? = some f)
      (h2 : ctx.accounts[2]? = some ct) (h4 : ctx.accounts[4]? = some d) (h10 : ctx.accounts[10]? = some m)
      (hl : ∀ x ∈ l, x.src = ct ∧ x.dst ∈ ctx.accounts.drop 11) (ht : TokensMove l w w') :
      Price env ctx w w' (.fillWithdrawSol sd r a v e p) ([⟨f, m, v.toNat⟩, ⟨f, d, env.minimum recLen⟩] ++ tokenBill w ct l)
  | closeDeposit {a d : Pubkey} (h0 : ctx.accounts[0]? = some a) (h1 : ctx.accounts[1]? = some d) :
      Price env ctx w w' .closeDeposit [⟨d, a, (w.acc d).lamports⟩]
  | closeWithdrawal {a k : Pubkey} (h0 : ctx.accounts[0]? = some k) (h1 : ctx.accounts[1]? = some a) :
      Price env ctx w w' .closeWithdrawal [⟨k, a, (w.acc k).lamports⟩]
  | multiVault {to m : Pubkey} (n : U64) (h1 : ctx.accounts[1]? = some to) (h2 : ctx.accounts[2]? = some m) :
      Price env ctx w w' (.withdrawMultiVault n) [⟨m, to, n.toNat⟩]

end TP

/-- What a deposit of SOL through the native proxy costs: `f` pays all rents and the value, `cr` the amount. `ct` is the author's account for wrapped
SOL, `kv` the vault, `d` the deposit, `mv` the multi vault and `kt` the settings of the token. -/
def NP.bill (env : Env) (w : World) (f cr ct kv d mv kt : Pubkey) (amount value : Nat) : List Payment :=
  (if (w.acc ct).lamports = 0 then [⟨f, ct, env.minimum 165⟩] else []) ++ [⟨cr, ct, amount⟩] ++
  (if (w.acc kt).lamports = 0 then [⟨f, kv, env.minimum 165⟩, ⟨f, kt, env.minimum TP.recLen⟩] else []) ++
  [⟨ct, kv, amount⟩, ⟨f, mv, value⟩, ⟨f, d, env.minimum TP.recLen⟩]

end Verif
