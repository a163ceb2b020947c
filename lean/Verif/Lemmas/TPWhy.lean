import Verif.Lemmas.TPLoad
import Verif.Spec.Places
/-!
# What each token proxy instruction does, operation by operation
-/
namespace Verif.TP
open Codec Verif

/-- Permitted changes of the settings. -/
inductive SettingsCh (env : Env) (ctx : Ctx) (w0 : World) (s : Settings) : Instr → Settings → Prop
  | guardian (k : Pubkey) (hu : UpgradeAuthoritySigns env ctx w0) :
      SettingsCh env ctx w0 s (.changeGuardian k) { s with guardian := k }
  | manager (k : Pubkey) (hu : UpgradeAuthoritySigns env ctx w0) :
      SettingsCh env ctx w0 s (.changeManager k) { s with manager := k }
  | withdrawalManager (k : Pubkey) (hu : UpgradeAuthoritySigns env ctx w0) :
      SettingsCh env ctx w0 s (.changeWithdrawalManager k) { s with withdrawalManager := k }
  | enable (hu : ctx.isSigner s.guardian = true ∨ UpgradeAuthoritySigns env ctx w0) :
      SettingsCh env ctx w0 s .enableEmergencyMode { s with emergency := true }
  | disable (hu : UpgradeAuthoritySigns env ctx w0) :
      SettingsCh env ctx w0 s .disableEmergencyMode { s with emergency := false }

/-- Permitted changes of the settings of a token. -/
inductive TokenCh (env : Env) (ctx : Ctx) (w0 : World) (t : TokenSettings) : Instr → TokenSettings → Prop
  | depositEver (sd : U128) (a : U64) (r : EverAddress) (v : U64) (e : Pubkey) (p : Bytes) (fee sup : U64)
      (hf : feeOf t.feeDepositInfo a = .ok fee) (hs : sup.toNat = t.feeSupply.toNat + fee.toNat) (hem : t.emergency = false) :
      TokenCh env ctx w0 t (.depositMultiTokenEver sd a r v e p) { t with feeSupply := sup }
  | depositSol (sd : U128) (n y : Bytes) (a : U64) (r : EverAddress) (v : U64) (e : Pubkey) (p : Bytes) (fee sup : U64)
      (hf : feeOf t.feeDepositInfo a = .ok fee) (hs : sup.toNat = t.feeSupply.toNat + fee.toNat) (hem : t.emergency = false) :
      TokenCh env ctx w0 t (.depositMultiTokenSol sd n y a r v e p) { t with feeSupply := sup }
  | withdraw (i : Instr) (hi : i = .withdrawMultiTokenEver ∨ i = .withdrawMultiTokenSol) (n fee sup transfer daily : U64)
      (hf : feeOf t.feeWithdrawalInfo n = .ok fee) (hs : sup.toNat = t.feeSupply.toNat + fee.toNat)
      (hn : n.toNat = transfer.toNat + fee.toNat)
      (hd : daily.toNat = (resetEpoch t (epochOf ctx.now)).withdrawalDailyAmount.toNat + transfer.toNat)
      (hem : t.emergency = false) :
      TokenCh env ctx w0 t i { resetEpoch t (epochOf ctx.now) with feeSupply := sup, withdrawalDailyAmount := daily }
  | release (i : Instr) (hi : i = .approveWithdrawEver ∨ i = .approveWithdrawSol) (transfer daily : U64)
      (hd : t.withdrawalDailyAmount.toNat = daily.toNat + transfer.toNat)
      (hu : RoleSigns env ctx w0 (·.withdrawalManager) ∨ UpgradeAuthoritySigns env ctx w0) :
      TokenCh env ctx w0 t i { t with withdrawalDailyAmount := daily }
  | fee (i : Instr) (a sup : U64) (hi : i = .withdrawEverFee a ∨ i = .withdrawSolFee a)
      (hs : t.feeSupply.toNat = sup.toNat + a.toNat)
      (hu : RoleSigns env ctx w0 (·.manager) ∨ UpgradeAuthoritySigns env ctx w0) :
      TokenCh env ctx w0 t i { t with feeSupply := sup }
  | depositLimit (n : U64) (hu : RoleSigns env ctx w0 (·.manager) ∨ UpgradeAuthoritySigns env ctx w0) :
      TokenCh env ctx w0 t (.changeDepositLimit n) { t with depositLimit := n }
  | limits (a b : Option U64) (hu : RoleSigns env ctx w0 (·.manager) ∨ UpgradeAuthoritySigns env ctx w0) :
      TokenCh env ctx w0 t (.changeWithdrawalLimits a b)
        { t with withdrawalLimit := a.getD t.withdrawalLimit, withdrawalDailyLimit := b.getD t.withdrawalDailyLimit }
  | enable (hu : RoleSigns env ctx w0 (·.guardian) ∨ UpgradeAuthoritySigns env ctx w0) :
      TokenCh env ctx w0 t .enableTokenEmergencyMode { t with emergency := true }
  | disable (hu : UpgradeAuthoritySigns env ctx w0) :
      TokenCh env ctx w0 t .disableTokenEmergencyMode { t with emergency := false }
  | updateFee (f : FeeType) (m d : U64) (hu : RoleSigns env ctx w0 (·.manager) ∨ UpgradeAuthoritySigns env ctx w0) :
      TokenCh env ctx w0 t (.updateFee f m d) (setFee f ⟨m, d⟩ t)
  | name (y n : Bytes) (hu : RoleSigns env ctx w0 (·.manager) ∨ UpgradeAuthoritySigns env ctx w0) (m v : Pubkey)
      (hk : t.kind = .solana m v) :
      TokenCh env ctx w0 t (.updateTokenName y n) { t with symbol := y, name := n }

/-- Permitted changes of a withdrawal of an Everscale token. -/
inductive EverCh (env : Env) (ctx : Ctx) (w0 : World) (r : Withdrawal WEverEvent) : Instr → Withdrawal WEverEvent → Prop
  | pay (s : WStatus) (hq : hasQuorum r) (hst : r.md.status = .new)
      (hs : s = .waitingForApprove ∨ s = paidStatus r.event.payload) :
      EverCh env ctx w0 r .withdrawMultiTokenEver (r.withStatus s)
  | approve (hst : r.md.status = .waitingForApprove)
      (hu : RoleSigns env ctx w0 (·.withdrawalManager) ∨ UpgradeAuthoritySigns env ctx w0) :
      EverCh env ctx w0 r .approveWithdrawEver (r.withStatus (paidStatus r.event.payload))
  | exec (hst : r.md.status = .waitingForExecute) :
      EverCh env ctx w0 r .executePayloadEver (r.withStatus .processed)

/-- Permitted changes of a withdrawal of a Solana token. -/
inductive SolCh (env : Env) (ctx : Ctx) (w0 : World) (r : Withdrawal WSolEvent) : Instr → Withdrawal WSolEvent → Prop
  | pay (s : WStatus) (hq : hasQuorum r) (hst : r.md.status = .new)
      (hs : s = .waitingForApprove ∨ s = .pending ∨ s = paidStatus r.event.payload) :
      SolCh env ctx w0 r .withdrawMultiTokenSol (r.withStatus s)
  | later (s : WStatus) (hq : hasQuorum r) (hst : r.md.status = .pending)
      (hs : s = .pending ∨ s = paidStatus r.event.payload) :
      SolCh env ctx w0 r .withdrawMultiTokenSol (r.withStatus s)
  | approve (s : WStatus) (hst : r.md.status = .waitingForApprove)
      (hu : RoleSigns env ctx w0 (·.withdrawalManager) ∨ UpgradeAuthoritySigns env ctx w0)
      (hs : s = .pending ∨ s = paidStatus r.event.payload) :
      SolCh env ctx w0 r .approveWithdrawSol (r.withStatus s)
  | exec (hst : r.md.status = .waitingForExecute) :
      SolCh env ctx w0 r .executePayloadSol (r.withStatus .processed)
  | bounty (b : U64) (hst : r.md.status = .pending)
      (hu : ctx.isSigner r.author = true ∨ ctx.isSigner r.event.recipient = true) :
      SolCh env ctx w0 r (.changeBountyForWithdrawSol b) { r with md := { r.md with bounty := b } }
  | cancel (sd : U128) (rc : EverAddress) (v : U64) (e : Pubkey) (p : Bytes) (hst : r.md.status = .pending)
      (hu : ctx.isSigner r.author = true) :
      SolCh env ctx w0 r (.cancelWithdrawSol sd rc v e p) (r.withStatus .cancelled)
  | fill (sd : U128) (rc : EverAddress) (a v : U64) (e : Pubkey) (p : Bytes) (hst : r.md.status = .pending) :
      SolCh env ctx w0 r (.fillWithdrawSol sd rc a v e p) (r.withStatus .processed)

/-- The relay round and settings of the round loader a withdrawal request is bound to. -/
def RoundAt (env : Env) (ctx : Ctx) (w : World) (rs : RL.Settings) (rr : RL.RelayRound) : Prop :=
  ∃ ks kr, loadRound env ctx ks kr w = .ok (rs, rr)

/-- Records written into new accounts. -/
inductive New (env : Env) (ctx : Ctx) (w0 : World) (k : Pubkey) (b' : Bytes) : Instr → Prop
  | settings (g m wm : Pubkey) (n pn : U8) (ha : findAddr env settingsSeeds ctx.program = .ok (k, n))
      (hu : UpgradeAuthoritySigns env ctx w0)
      (hs : Stored settingsC ⟨true, .settings n pn, false, g, m, wm⟩ (zeros recLen) b') : New env ctx w0 k b' (.init g m wm)
  | multiVault (g m wm : Pubkey) (n : U8) (ha : findAddr env multiVaultSeeds ctx.program = .ok (k, n))
      (hs : Stored multiVaultC ⟨true, .multiVault n⟩ (zeros recLen) b') : New env ctx w0 k b' (.init g m wm)
  | tokenSol (sd : U128) (nm y : Bytes) (a : U64) (rc : EverAddress) (v : U64) (e : Pubkey) (p : Bytes) (mint vault : Pubkey)
      (n vn : U8) (hn : nm.length ≤ maxNameLen) (hy : y.length ≤ maxNameLen)
      (ha : findAddr env (tokenSettingsSolSeeds mint) ctx.program = .ok (k, n))
      (hv : findAddr env (vaultSeeds mint) ctx.program = .ok (vault, vn))
      (hs : Stored tokenSettingsC (freshTokenSettings n vn (.solana mint vault) nm y) (zeros recLen) b')
      (h7 : ctx.accounts[7]? = some k) (hl : (w0.acc k).lamports = 0) :
      New env ctx w0 k b' (.depositMultiTokenSol sd nm y a rc v e p)
  | tokenEver (kw : Pubkey) (r : Withdrawal WEverEvent) (mint : Pubkey) (n mn : U8)
      (hr : loadWithdrawal wEverEventC env ctx kw w0 = .ok r)
      (ha : findAddr env (tokenSettingsEverSeeds env r.event.token) ctx.program = .ok (k, n))
      (hm : findAddr env (mintSeeds env r.event.token) ctx.program = .ok (mint, mn))
      (hs : Stored tokenSettingsC (freshTokenSettings n mn (.ever mint r.event.token r.event.decimals) r.event.name r.event.symbol)
        (zeros recLen) b') (h3 : ctx.accounts[3]? = some k) (hl : (w0.acc k).lamports = 0) :
      New env ctx w0 k b' .withdrawMultiTokenEver
  | depositEver (sd : U128) (a : U64) (rc : EverAddress) (v : U64) (e : Pubkey) (p : Bytes) (n : U8) (au : Pubkey)
      (ev : DepositEverEvent) (ha : findAddr env (depositSeeds sd) ctx.program = .ok (k, n)) (hsig : ctx.isSigner au = true)
      (hs : Stored (depositC depositEverEventC) (depositRecord n au ev.lenField ev sd) (zeros recLen) b') :
      New env ctx w0 k b' (.depositMultiTokenEver sd a rc v e p)
  | depositSol (sd : U128) (i : Instr) (n : U8) (au : Pubkey) (ev : DepositSolEvent)
      (hi : (∃ nm y a rc v e p, i = .depositMultiTokenSol sd nm y a rc v e p) ∨ (∃ rc v e p, i = .cancelWithdrawSol sd rc v e p) ∨
        (∃ rc a v e p, i = .fillWithdrawSol sd rc a v e p))
      (ha : findAddr env (depositSeeds sd) ctx.program = .ok (k, n)) (hsig : ctx.isSigner au = true)
      (hs : Stored (depositC depositSolEventC) (depositRecord n au ev.lenField ev sd) (zeros recLen) b') :
      New env ctx w0 k b' i
  | ever (pda : PDA) (t : EverAddress) (nm y : Bytes) (d : U8) (rc : Pubkey) (a : U128) (p : Bytes) (att : U64) (n : U8)
      (pn : Option U8) (au : Pubkey) (rs : RL.Settings) (rr : RL.RelayRound) (hrd : RoundAt env ctx w0 rs rr)
      (ha : findAddr env (proposalSeeds rr.roundNumber pda (env.hash (wEverEventC.enc ⟨t, nm, y, d, a, rc, p⟩))) ctx.program = .ok (k, n))
      (hsig : ctx.isSigner au = true)
      (hs : Stored (withdrawalC wEverEventC) (withdrawalRecord n pn au rr.roundNumber
        (RL.requiredVotes rr.relays.length rs.minRequiredVotes) pda (WEverEvent.lenField ⟨t, nm, y, d, a, rc, p⟩) ⟨t, nm, y, d, a, rc, p⟩
        (epochOf ctx.now) rr.relays.length) (zeros recLen) b') (hk : ctx.accounts[2]? = some k) :
      New env ctx w0 k b' (.withdrawMultiTokenEverRequest pda t nm y d rc a p att)
  | sol (pda : PDA) (rc : Pubkey) (a : U128) (p : Bytes) (att : U64) (n : U8)
      (pn : Option U8) (au mint : Pubkey) (rs : RL.Settings) (rr : RL.RelayRound) (hrd : RoundAt env ctx w0 rs rr)
      (ha : findAddr env (proposalSeeds rr.roundNumber pda (env.hash (wSolEventC.enc ⟨mint, a, rc, p⟩))) ctx.program = .ok (k, n))
      (hsig : ctx.isSigner au = true)
      (hs : Stored (withdrawalC wSolEventC) (withdrawalRecord n pn au rr.roundNumber
        (RL.requiredVotes rr.relays.length rs.minRequiredVotes) pda (WSolEvent.lenField ⟨mint, a, rc, p⟩) ⟨mint, a, rc, p⟩
        (epochOf ctx.now) rr.relays.length) (zeros recLen) b') (hk : ctx.accounts[2]? = some k) :
      New env ctx w0 k b' (.withdrawMultiTokenSolRequest pda rc a p att)

/-- Accounts created with `createPda`: seeds, size and owner. -/
inductive Slot (env : Env) (ctx : Ctx) : List Bytes → Nat → Pubkey → Prop
  | settings : Slot env ctx settingsSeeds recLen ctx.program
  | multiVault : Slot env ctx multiVaultSeeds recLen ctx.program
  | tokenSol (m : Pubkey) : Slot env ctx (tokenSettingsSolSeeds m) recLen ctx.program
  | tokenEver (t : EverAddress) : Slot env ctx (tokenSettingsEverSeeds env t) recLen ctx.program
  | deposit (sd : U128) : Slot env ctx (depositSeeds sd) recLen ctx.program
  | withdrawal (r : U32) (p : PDA) (h : Pubkey) : Slot env ctx (proposalSeeds r p h) recLen ctx.program
  | vault (m : Pubkey) : Slot env ctx (vaultSeeds m) 165 env.splId
  | mint (t : EverAddress) : Slot env ctx (mintSeeds env t) 82 env.splId

/-- The permitted operations of instruction `i` started in state `w0`. -/
inductive Why (env : Env) (ctx : Ctx) (w0 : World) (i : Instr) : Op → Prop
  | log (b : Bytes) : Why env ctx w0 i (.log b)
  | sys (src dst : Pubkey) (n : Nat) : Why env ctx w0 i (.sys src dst n)
  | create (f k : Pubkey) (seeds : List Bytes) (n : U8) (space : Nat) (o : Pubkey) (hs : Slot env ctx seeds space o)
      (ha : findAddr env seeds ctx.program = .ok (k, n)) : Why env ctx w0 i (.create f k seeds n space o)
  | proxy (f k m r : Pubkey) (n : U8) (ha : findAddr env (proxySeeds m r) ctx.program = .ok (k, n)) :
      Why env ctx w0 i (.createFunded ctx.program (proxySeeds m r ++ [[n]]) f k 165 env.splId)
  | ata (f k m r : Pubkey) (n : U8) (ha : findAddr env (ataSeeds env r m) env.ataId = .ok (k, n)) :
      Why env ctx w0 i (.createFunded env.ataId (ataSeeds env r m ++ [[n]]) f k 165 env.splId)
  | initVault (k m : Pubkey) (ha : IsAddr env ctx.program (vaultSeeds m) k) : Why env ctx w0 i (.initAcc k m k)
  | initProxy (k m r : Pubkey) (ha : IsAddr env ctx.program (proxySeeds m r) k) : Why env ctx w0 i (.initAcc k m k)
  | initAta (k m r : Pubkey) (ha : IsAddr env env.ataId (ataSeeds env r m) k) : Why env ctx w0 i (.initAcc k m r)
  | initMint (k : Pubkey) (t : EverAddress) (d : U8) (ha : IsAddr env ctx.program (mintSeeds env t) k) :
      Why env ctx w0 i (.initMint k k d)
  | burn (src mint auth : Pubkey) (n : U64) (sd : U128) (r : EverAddress) (v : U64) (e : Pubkey) (p : Bytes)
      (hi : i = .depositMultiTokenEver sd n r v e p) : Why env ctx w0 i (.burn ctx.signs src mint auth n)
  | xfer (src dst auth : Pubkey) (n : U64) : Why env ctx w0 i (.xfer ctx.signs src dst auth n)
  | mintTo (p mint dst : Pubkey) (n : U64) (t : EverAddress)
      (hi : i = .withdrawMultiTokenEver ∨ i = .approveWithdrawEver ∨ i = .withdrawEverFee n)
      (ha : IsAddr env ctx.program (mintSeeds env t) mint) :
      Why env ctx w0 i (.mintTo (signsAs ctx p) mint dst mint n)
  | vaultPay (p vault dst m : Pubkey) (n : U64)
      (hi : i = .withdrawMultiTokenSol ∨ i = .approveWithdrawSol ∨ i = .withdrawSolFee n)
      (ha : IsAddr env ctx.program (vaultSeeds m) vault) :
      Why env ctx w0 i (.xfer (signsAs ctx p) vault dst vault n)
  | proxyPay (proxy dst m c : Pubkey) (n : U64) (hi : i = .withdrawProxy n) (hsig : ctx.isSigner c = true)
      (ha : IsAddr env ctx.program (proxySeeds m c) proxy) :
      Why env ctx w0 i (.xfer (signsAs ctx proxy) proxy dst proxy n)
  | votePay (k v : Pubkey) (x : Vote) (hi : i = .voteForWithdrawRequest x)
      (hg : ∃ p, loadGeneric env ctx k w0 = .ok p) (hpl : k ∈ namedRequests ctx i) : Why env ctx w0 i (.move k v relayReparation)
  | multiPay (k r : Pubkey) (n : U64) (hi : i = .withdrawMultiVault n)
      (hu : RoleSigns env ctx w0 (·.manager) ∨ UpgradeAuthoritySigns env ctx w0)
      (ha : IsAddr env ctx.program multiVaultSeeds k) (hm : loadMultiVault env ctx k w0 = .ok ()) :
      Why env ctx w0 i (.move k r n.toNat)
  | closePay (k a : Pubkey) (n : Nat) (hi : i = .closeDeposit ∨ i = .closeWithdrawal)
      (hk : (∃ b r d m, (w0.acc k).data = .raw b ∧ genericDepositC.dec b = some (d, r) ∧ d.accountKind = .deposit m ∧ d.author = a) ∨
        (i = .closeWithdrawal ∧ ∃ p, loadGeneric env ctx k w0 = .ok p ∧ p.author = a))
      (hpl : i = .closeWithdrawal → k ∈ namedRequests ctx i) : Why env ctx w0 i (.move k a n)
  | closeDeposit (k : Pubkey) (sd : U128) (d : GenericDeposit) (b r : Bytes) (hi : i = .closeDeposit)
      (ha : IsAddr env ctx.program (depositSeeds sd) k)
      (hb : (w0.acc k).data = .raw b) (hd : genericDepositC.dec b = some (d, r)) (n : U8) (hk : d.accountKind = .deposit n)
      (hsig : ctx.isSigner d.author = true) : Why env ctx w0 i (.close k)
  | closeWithdrawal (k : Pubkey) (p : GenericProposal) (md : WMeta) (hi : i = .closeWithdrawal)
      (hp : loadGeneric env ctx k w0 = .ok p) (hm : wmetaC.decAll p.metaData = some md)
      (hs : md.status = .processed ∨ md.status = .cancelled) (hpl : k ∈ namedRequests ctx i) : Why env ctx w0 i (.close k)
  | new (k : Pubkey) (b' : Bytes) (hn : New env ctx w0 k b' i) : Why env ctx w0 i (.write k (zeros recLen) b')
  | settings (k : Pubkey) (b b' r : Bytes) (n pn : U8) (s s' : Settings) (hl : b.length = recLen)
      (hd : settingsC.dec b = some (s, r)) (hini : s.isInitialized = true) (hk : s.accountKind = .settings n pn)
      (ha : findAddr env settingsSeeds ctx.program = .ok (k, n)) (hc : SettingsCh env ctx w0 s i s')
      (h0 : Holds settingsC recLen (w0.acc k) s) (hs : Stored settingsC s' b b') : Why env ctx w0 i (.write k b b')
  | token (k : Pubkey) (b b' r : Bytes) (n m : U8) (t t' : TokenSettings) (hl : b.length = recLen)
      (hd : tokenSettingsC.dec b = some (t, r)) (hini : t.isInitialized = true) (hk : t.accountKind = .tokenSettings n m)
      (ha : findAddr env (tokenSettingsSeeds env t.kind) ctx.program = .ok (k, n)) (hc : TokenCh env ctx w0 t i t')
      (h0 : Holds tokenSettingsC recLen (w0.acc k) t ∨ (w0.acc k).data.len = 0) (hs : Stored tokenSettingsC t' b b')
      (hpl : namedToken ctx i = some k) : Why env ctx w0 i (.write k b b')
  | ever (k : Pubkey) (b b' r : Bytes) (x x' : Withdrawal WEverEvent) (hl : b.length = recLen)
      (hd : (withdrawalC wEverEventC).dec b = some (x, r)) (hini : x.isInitialized = true)
      (ha : i ≠ .executePayloadEver → ∃ n pn, x.accountKind = .proposal n pn ∧
        findAddr env (proposalSeeds x.roundNumber x.pda (env.hash (wEverEventC.enc x.event))) ctx.program = .ok (k, n))
      (hk : ∃ n pn, x.accountKind = .proposal n pn) (h0 : Holds (withdrawalC wEverEventC) recLen (w0.acc k) x)
      (hc : EverCh env ctx w0 x i x') (hs : Stored (withdrawalC wEverEventC) x' b b') (hpl : k ∈ namedRequests ctx i) :
      Why env ctx w0 i (.write k b b')
  | sol (k : Pubkey) (b b' r : Bytes) (x x' : Withdrawal WSolEvent) (hl : b.length = recLen)
      (hd : (withdrawalC wSolEventC).dec b = some (x, r)) (hini : x.isInitialized = true)
      (ha : i ≠ .executePayloadSol → ∃ n pn, x.accountKind = .proposal n pn ∧
        findAddr env (proposalSeeds x.roundNumber x.pda (env.hash (wSolEventC.enc x.event))) ctx.program = .ok (k, n))
      (hk : ∃ n pn, x.accountKind = .proposal n pn)
      (h0 : (∀ sd rc a v e p, i ≠ .fillWithdrawSol sd rc a v e p) → Holds (withdrawalC wSolEventC) recLen (w0.acc k) x)
      (hc : SolCh env ctx w0 x i x') (hs : Stored (withdrawalC wSolEventC) x' b b') (hpl : k ∈ namedRequests ctx i) :
      Why env ctx w0 i (.write k b b')
  | vote (k kr v : Pubkey) (b b' r : Bytes) (p : GenericProposal) (j : Nat) (x : Vote) (rr : RL.RelayRound) (n : U8) (pn : Option U8)
      (hi : i = .voteForWithdrawRequest x) (h0 : (w0.acc k).data = .raw b) (hx : x ≠ .none) (hd : GenericProposal.codec.dec b = some (p, r))
      (hk : p.accountKind = .proposal n pn)
      (ha : findAddr env (proposalSeeds p.roundNumber p.pda (env.hash p.event)) ctx.program = .ok (k, n))
      (hr : Holds RL.relayRoundC RL.relayRoundLen (w0.acc kr) rr) (hri : rr.isInitialized = true)
      (hra : IsAddr env env.rlId (relayRoundSeeds p.roundNumber) kr)
      (hv : rr.relays.findIdx? (fun k => k == v) = some j) (hsig : ctx.isSigner v = true)
      (hold : p.signers[j]? = some Vote.none)
      (hs : Stored GenericProposal.codec { p with signers := p.signers.set j x } b b') (hpl : k ∈ namedRequests ctx i) : Why env ctx w0 i (.write k b b')

variable {env : Env} {ctx : Ctx} {W : Op → Prop} {w w' : World}

theorem step_keep (op : Op) (hop : Op.harmless op) (hW : W op) (he : Exec env ctx op w w') : Ops env ctx W w w' ∧ Keep w w' :=
  ⟨Ops.one op hW he, Keep.exec hop he⟩

theorem len_back {op : Op} {k : Pubkey} (he : Exec env ctx op w w') (h : (w'.acc k).data.len = 0) : (w.acc k).data.len = 0 := by
  cases exec_ch he k with
  | same e => rw [← e]; exact h
  | gain hw hl hd ho => rw [← hd]; exact h
  | pay hw hs hsy hlen hd ho => exact hlen
  | move b n hop hw how hl hd ho => rw [← hd]; exact h
  | write b b' hop hw how hb hlen e => rw [e] at h; rw [hb]; simp only [Data.len] at h ⊢; omega
  | close hop hw how e => rw [e] at h; simpa [Data.len, zeros] using h
  | create f s n sp o hop hw hsy hlen hl ha e => exact hlen
  | createFunded p s f sp o n hop hw hsy hlen ha hl hn e => exact hlen
  | xferSrc sg dst auth n s s' hop hw how hb hn hsp hsg hd ho hl => rw [hd] at h; simp [Data.len] at h
  | xferDst sg src auth n d hop hw how hb hn hd ho hl => rw [hd] at h; simp [Data.len] at h
  | mintDst sg m au n d hop hw how hb hm hn e => rw [e] at h; simp [Data.len] at h
  | mintMint sg d au n m hop hw how hb ha hsg hn e => rw [e] at h; simp [Data.len] at h
  | burnSrc sg m au n s s' hop hw how hb hm hn hsp hsg e => rw [e] at h; simp [Data.len] at h
  | burnMint sg m au n s hop hw how hb hn e => rw [e] at h; simp [Data.len] at h
  | initAcc m o hop hw how hb e => rw [e] at h; simp [Data.len] at h
  | initMint m o hop hw how hb e => rw [e] at h; simp [Data.len] at h
  | sync t n hop hw how hb hn e => rw [e] at h; simp [Data.len] at h

/-- An account that is empty after an instruction was empty before. -/
theorem Ops.len_back (h : Ops env ctx W w w') (k : Pubkey) : (w'.acc k).data.len = 0 → (w.acc k).data.len = 0 :=
  h.lift (R := fun x y => (y.acc k).data.len = 0 → (x.acc k).data.len = 0) (fun _ h => h) (fun _ _ _ f g h => f (g h))
    (fun _ _ _ _ he h => TP.len_back he h)

theorem pack_other {α : Type} {c : Codec α} {len : Nat} {a : α} {k x : Pubkey} (h : pack ctx c len a k w = .ok w') (hx : x ≠ k) :
    w'.acc x = w.acc x := by
  obtain ⟨b, b', -, -, -, -, rfl⟩ := pack_ok.1 h
  simp [hx]

theorem packRaw_other {α : Type} {c : Codec α} {a : α} {k x : Pubkey} (h : packRaw ctx c a k w = .ok w') (hx : x ≠ k) :
    w'.acc x = w.acc x := by
  obtain ⟨b, b', -, -, -, rfl⟩ := packRaw_ok.1 h
  simp [hx]

/-- A pack over a known record. -/
theorem pack_ops {α : Type} {c : Codec α} {a x : α} {k : Pubkey} (h : pack ctx c recLen a k w = .ok w')
    (hh : Holds c recLen (w.acc k) x)
    (hW : ∀ b b' r, b.length = recLen → c.dec b = some (x, r) → Stored c a b b' → W (.write k b b')) :
    Ops env ctx W w w' := by
  refine Ops.pack h ?_
  intro b b' hb hl hs
  obtain ⟨b1, r, hb1, -, hd⟩ := hh
  rw [hb] at hb1
  cases hb1
  exact hW b b' r hl hd hs

/-- A pack over fresh zeros. -/
theorem pack_zeros {α : Type} {c : Codec α} {a : α} {k : Pubkey} (h : pack ctx c recLen a k w = .ok w')
    (hh : (w.acc k).data = .raw (zeros recLen))
    (hW : ∀ b', Stored c a (zeros recLen) b' → W (.write k (zeros recLen) b')) :
    Ops env ctx W w w' := by
  refine Ops.pack h ?_
  intro b b' hb hl hs
  rw [hh] at hb
  cases hb
  exact hW b' hs

/-- An account that holds a record is not one about to be created. -/
theorem holds_ne {α : Type} {c : Codec α} {x : α} {k k' : Pubkey} (h : Holds c recLen (w.acc k) x)
    (h' : (w.acc k').data.len = 0) : k ≠ k' := by
  rintro rfl
  obtain ⟨b, r, hb, hl, -⟩ := h
  rw [hb] at h'
  simp only [Data.len, hl] at h'
  cases h'

theorem create_step {f k : Pubkey} {seeds : List Bytes} {n : U8} {space : Nat} {o : Pubkey}
    (ha : findAddr env seeds ctx.program = .ok (k, n)) (h : createPda env ctx f k seeds n space o w = .ok w')
    (hW : W (.create f k seeds n space o)) :
    Ops env ctx W w w' ∧ Keep w w' ∧ (w.acc k).data.len = 0 ∧ (w'.acc k).data = .raw (zeros space) := by
  obtain ⟨h1, h2⟩ := step_keep (.create f k seeds n space o) trivial hW ⟨findAddr_create ha, h⟩
  refine ⟨h1, h2, (createPda_ok (findAddr_create ha) h).2.1, ?_⟩
  rw [createPda_self (findAddr_create ha) h]

theorem kind_settings_token {a : Account} {s : Settings} {t : TokenSettings} (h : Holds settingsC recLen a s)
    (h' : Holds tokenSettingsC recLen a t) : s.accountKind = t.accountKind := by
  obtain ⟨b, r, hb, -, hd⟩ := h
  obtain ⟨b', r', hb', -, hd'⟩ := h'
  rw [hb] at hb'
  cases hb'
  obtain ⟨q, hq⟩ := header_settings hd
  obtain ⟨q', hq'⟩ := header_token hd'
  rw [hq] at hq'
  simp only [Option.some.injEq, Prod.mk.injEq] at hq'
  exact hq'.1.2

theorem kind_withdrawal_token {E : Type} {ec : Codec E} {a : Account} {s : Withdrawal E} {t : TokenSettings}
    (h : Holds (withdrawalC ec) recLen a s) (h' : Holds tokenSettingsC recLen a t) : s.accountKind = t.accountKind := by
  obtain ⟨b, r, hb, -, hd⟩ := h
  obtain ⟨b', r', hb', -, hd'⟩ := h'
  rw [hb] at hb'
  cases hb'
  obtain ⟨q, hq⟩ := header_withdrawal hd
  obtain ⟨q', hq'⟩ := header_token hd'
  rw [hq] at hq'
  simp only [Option.some.injEq, Prod.mk.injEq] at hq'
  exact hq'.1.2

theorem role_signs {k a : Pubkey} {s : Settings} {pn : U8} {i : Nat} {role : Settings → Pubkey} {u : Unit}
    (hs : loadSettings env ctx k w = .ok (s, pn)) (ha : authorize env ctx (role s) a pn i w = .ok u)
    (hsig : ctx.isSigner a = true) : RoleSigns env ctx w role ∨ UpgradeAuthoritySigns env ctx w := by
  obtain ⟨hh, hi, n, hk, hf⟩ := loadSettings_ok.1 hs
  rcases authorize_ok.1 ha with rfl | ⟨-, pd, -, hpd, hd⟩
  · exact .inl ⟨k, s, ⟨n, hf⟩, hh, hi, hsig⟩
  · exact .inr ⟨a, pd, ⟨pn, hpd⟩, hd, hsig⟩

theorem guardian_signs {a : Pubkey} {s : Settings} {pn : U8} {i : Nat} {u : Unit}
    (ha : authorize env ctx s.guardian a pn i w = .ok u)
    (hsig : ctx.isSigner a = true) : ctx.isSigner s.guardian = true ∨ UpgradeAuthoritySigns env ctx w := by
  rcases authorize_ok.1 ha with rfl | ⟨-, pd, -, hpd, hd⟩
  · exact .inl hsig
  · exact .inr ⟨a, pd, ⟨pn, hpd⟩, hd, hsig⟩

theorem put_settings {i : Instr} {w0 : World} {k : Pubkey} {s s' : Settings} {pn : U8}
    (hs : loadSettings env ctx k w = .ok (s, pn)) (h : putSettings ctx s' k w = .ok w') (hc : SettingsCh env ctx w0 s i s')
    (h0 : loadSettings env ctx k w0 = .ok (s, pn)) :
    Ops env ctx (Why env ctx w0 i) w w' := by
  obtain ⟨hh, hi, n, hk, hf⟩ := loadSettings_ok.1 hs
  refine pack_ops h hh ?_
  intro b b' r hl hd hst
  exact .settings k b b' r n pn s s' hl hd hi hk hf hc (loadSettings_ok.1 h0).1 hst

theorem put_token {i : Instr} {w0 : World} {k : Pubkey} {t t' : TokenSettings}
    (hs : loadToken env ctx k w = .ok t) (h : putToken ctx t' k w = .ok w') (hc : TokenCh env ctx w0 t i t')
    (h0 : loadToken env ctx k w0 = .ok t ∨ (w0.acc k).data.len = 0) (hpl : namedToken ctx i = some k) :
    Ops env ctx (Why env ctx w0 i) w w' := by
  obtain ⟨hh, hi, n, m, hk, hf⟩ := loadToken_ok.1 hs
  refine pack_ops h hh ?_
  intro b b' r hl hd hst
  exact .token k b b' r n m t t' hl hd hi hk hf hc (h0.imp_left fun h => (loadToken_ok.1 h).1) hst hpl

/-- The account in a fixed place is named. -/
theorem mem_place {l : List Pubkey} {n : Nat} {k : Pubkey} (h : l[n]? = some k) : k ∈ l[n]?.toList := by rw [h]; simp

theorem put_ever {i : Instr} {w0 : World} {k : Pubkey} {t t' : Withdrawal WEverEvent}
    (hs : loadWithdrawal wEverEventC env ctx k w = .ok t) (h : putWithdrawal ctx wEverEventC t' k w = .ok w')
    (hc : EverCh env ctx w0 t i t') (h0 : loadWithdrawal wEverEventC env ctx k w0 = .ok t) (hpl : k ∈ namedRequests ctx i) :
    Ops env ctx (Why env ctx w0 i) w w' := by
  obtain ⟨hh, hi, n, m, hk, hf⟩ := loadWithdrawal_ok.1 hs
  refine pack_ops h hh ?_
  intro b b' r hl hd hst
  exact .ever k b b' r t t' hl hd hi (fun _ => ⟨n, m, hk, hf⟩) ⟨n, m, hk⟩ (loadWithdrawal_ok.1 h0).1 hc hst hpl

theorem put_sol {i : Instr} {w0 : World} {k : Pubkey} {t t' : Withdrawal WSolEvent}
    (hs : loadWithdrawal wSolEventC env ctx k w = .ok t) (h : putWithdrawal ctx wSolEventC t' k w = .ok w')
    (hc : SolCh env ctx w0 t i t')
    (h0 : (∀ sd rc a v e p, i ≠ .fillWithdrawSol sd rc a v e p) → loadWithdrawal wSolEventC env ctx k w0 = .ok t)
    (hpl : k ∈ namedRequests ctx i) : Ops env ctx (Why env ctx w0 i) w w' := by
  obtain ⟨hh, hi, n, m, hk, hf⟩ := loadWithdrawal_ok.1 hs
  refine pack_ops h hh ?_
  intro b b' r hl hd hst
  exact .sol k b b' r t t' hl hd hi (fun _ => ⟨n, m, hk, hf⟩) ⟨n, m, hk⟩ (fun h => (loadWithdrawal_ok.1 (h0 h)).1) hc hst hpl

theorem loadToken_keep {k : Pubkey} {t : TokenSettings} (h : loadToken env ctx k w = .ok t) (hk : Keep w w') :
    loadToken env ctx k w' = .ok t := by
  obtain ⟨hh, hi, n, m, hx, hf⟩ := loadToken_ok.1 h
  exact loadToken_ok.2 ⟨holds_keep hh hk, hi, n, m, hx, hf⟩

theorem loadToken_acc {k : Pubkey} {t : TokenSettings} (h : loadToken env ctx k w = .ok t) (hk : w'.acc k = w.acc k) :
    loadToken env ctx k w' = .ok t := by
  unfold loadToken at h ⊢; rw [hk]; exact h

theorem loadWithdrawal_keep {E : Type} {ec : Codec E} {k : Pubkey} {t : Withdrawal E}
    (h : loadWithdrawal ec env ctx k w = .ok t) (hk : Keep w w') : loadWithdrawal ec env ctx k w' = .ok t := by
  obtain ⟨hh, hi, n, m, hx, hf⟩ := loadWithdrawal_ok.1 h
  exact loadWithdrawal_ok.2 ⟨holds_keep hh hk, hi, n, m, hx, hf⟩

theorem loadWithdrawal_acc {E : Type} {ec : Codec E} {k : Pubkey} {t : Withdrawal E}
    (h : loadWithdrawal ec env ctx k w = .ok t) (hk : w'.acc k = w.acc k) : loadWithdrawal ec env ctx k w' = .ok t := by
  unfold loadWithdrawal at h ⊢; rw [hk]; exact h

theorem log_step {i : Instr} {w0 : World} (b : Bytes) : Ops env ctx (Why env ctx w0 i) w (w.log b) := .one (.log b) (.log b) rfl

/-- A withdrawal account is not a token settings account. -/
theorem withdrawal_ne_token {E : Type} {ec : Codec E} {k k' : Pubkey} {r : Withdrawal E} {t : TokenSettings}
    (h : loadWithdrawal ec env ctx k w = .ok r) (h' : loadToken env ctx k' w = .ok t) : k ≠ k' := by
  rintro rfl
  obtain ⟨hh, -, n, m, hk, -⟩ := loadWithdrawal_ok.1 h
  obtain ⟨hh', -, n', m', hk', -⟩ := loadToken_ok.1 h'
  have := kind_withdrawal_token hh hh'
  rw [hk, hk'] at this
  cases this

end Verif.TP
