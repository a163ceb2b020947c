import Verif.Spec.ToyTactic
import Verif.Props.ClientTP
import Verif.Props.Arith
import Verif.Lemmas.LivePay
import Verif.Lemmas.TPPay
import Verif.Spec.ToyDep
/-!
# Payouts built by the client are accepted and pay

C52 for payouts, approvals and fees, and C60: a confirmed withdrawal of healthy accounts is paid by the first `Withdraw` that anybody sends.
-/
set_option linter.unusedSimpArgs false
set_option maxRecDepth 100000
namespace Verif.Props
open Verif TP Codec Client

variable {env : Env} {ix : Ix} {now : I64} {w w' : World} {cpi : Pubkey → World → Except Err World}

/-- The withdrawal `r` in `k` of the Solana token `mint` is in good order: the bridge (settings `ks`) and the token (settings `kt`, vault `kv`)
are in operation, `to` can take the tokens, and of its amount `fee` is the fee and `net` the rest. Amounts are taken modulo `2^64`, see C43. -/
structure SolPayout (env : Env) (w : World) (mint ks kt kv k to : Pubkey) (s : Settings) (t : TokenSettings) (v : TokenAcc)
    (r : Withdrawal WSolEvent) (fee net : U64) : Prop where
  hSettings : Ready env w ks s
  hRunning : s.emergency = false
  hToken : SolReady env w mint kt kv t v
  hTokenRunning : t.emergency = false
  hWd : WdReady wSolEventC env w k r
  hMint : r.event.mint = mint
  hTo : Reaches env w r.accountKind r.event.payload mint r.event.recipient to
  hFee : feeSpec t.feeWithdrawalInfo.multiplier.toNat t.feeWithdrawalInfo.divisor.toNat (r.event.amount.toNat % 2 ^ 64) = some fee.toNat
  hNet : net.toNat + fee.toNat = r.event.amount.toNat % 2 ^ 64
  hPayable : Payable env w to mint net.toNat

/-- The same for the token `token` of Everscale with the mint `km`. -/
structure EverPayout (env : Env) (w : World) (token : EverAddress) (ks kt km k to : Pubkey) (s : Settings) (t : TokenSettings) (m : MintAcc)
    (r : Withdrawal WEverEvent) (fee net : U64) : Prop where
  hSettings : Ready env w ks s
  hRunning : s.emergency = false
  hToken : EverReady env w token kt km t m
  hAlive : (w.acc kt).lamports ≠ 0
  hTokenRunning : t.emergency = false
  hWd : WdReady wEverEventC env w k r
  hEvent : r.event.token = token
  hTo : Reaches env w r.accountKind r.event.payload km r.event.recipient to
  hDecimals : r.event.decimals.toNat ≤ m.decimals.toNat + 38 ∧ m.decimals.toNat ≤ r.event.decimals.toNat + 38
  hFits : toSolSpec r.event.amount.toNat r.event.decimals.toNat m.decimals.toNat < 2 ^ 64
  hFee : feeSpec t.feeWithdrawalInfo.multiplier.toNat t.feeWithdrawalInfo.divisor.toNat
    (toSolSpec r.event.amount.toNat r.event.decimals.toNat m.decimals.toNat) = some fee.toNat
  hNet : net.toNat + fee.toNat = toSolSpec r.event.amount.toNat r.event.decimals.toNat m.decimals.toNat
  hMintable : Mintable env w to km net.toNat
  hSupply : m.supply.toNat + net.toNat < 2 ^ 64

theorem low {a : U128} : (a.setWidth 64 : U64).toNat = a.toNat % 2 ^ 64 := BitVec.toNat_setWidth _ _

theorem SolPayout.feeOf {mint ks kt kv k to : Pubkey} {s : Settings} {t : TokenSettings} {v : TokenAcc} {r : Withdrawal WSolEvent} {fee net : U64}
    (h : SolPayout env w mint ks kt kv k to s t v r fee net) : TP.feeOf t.feeWithdrawalInfo (r.event.amount.setWidth 64) = .ok fee := by
  rw [C20_fee_value, low]; exact h.hFee

theorem EverPayout.amount {token : EverAddress} {ks kt km k to : Pubkey} {s : Settings} {t : TokenSettings} {m : MintAcc}
    {r : Withdrawal WEverEvent} {fee net : U64} (h : EverPayout env w token ks kt km k to s t m r fee net) :
    ∃ amount : U64, getWithdrawalAmount r.event.amount r.event.decimals m.decimals = .ok amount ∧
      amount.toNat = toSolSpec r.event.amount.toNat r.event.decimals.toNat m.decimals.toNat ∧ TP.feeOf t.feeWithdrawalInfo amount = .ok fee := by
  have e : (BitVec.ofNat 64 (toSolSpec r.event.amount.toNat r.event.decimals.toNat m.decimals.toNat)).toNat =
      toSolSpec r.event.amount.toNat r.event.decimals.toNat m.decimals.toNat := by
    rw [BitVec.toNat_ofNat]; exact Nat.mod_eq_of_lt h.hFits
  exact ⟨_, (C21_withdrawal_exact_partial _ _ _ h.hDecimals.1 h.hDecimals.2 h.hFits _).2 e, e, by rw [C20_fee_value, e]; exact h.hFee⟩

theorem Within.fits {t : TokenSettings} {day : I64} {n : Nat} (h : Within t day n) : releasedOn t day + n < 2 ^ 64 :=
  Nat.lt_of_le_of_lt h.2 t.withdrawalDailyLimit.isLt

/-! ## Tokens of Solana -/

section Sol
variable {mint ks kt kv k to au : Pubkey} {s : Settings} {t : TokenSettings} {v : TokenAcc} {r : Withdrawal WSolEvent} {fee net : U64}

theorem withdrawSol_ctx (hs : Ready env w ks s) (ht : SolReady env w mint kt kv t v) (h : TP.Client.withdrawSolIx env k to mint = .ok ix) :
    ix = ⟨env.tpId, [.new k false, .new kv false, .new to false, .new kt false, .readonly mint false, .readonly ks false, .readonly env.splId false,
      .readonly env.clockId false], Instr.codec.enc .withdrawMultiTokenSol⟩ := by
  obtain ⟨n, pn, pd0, hk, hsn, hpn⟩ := hs.addr
  obtain ⟨n2, vn, hk2, htn, hvn⟩ := ht.addr
  simp only [TP.Client.withdrawSolIx, TP.Client.settingsAddr, TP.Client.vaultAddr, TP.Client.tokenSettingsSolAddr, bind_ok, addrOf_ok, packed_ok,
    Except.ok.injEq] at h
  obtain ⟨ks', ⟨ns', hks'⟩, kv', ⟨nv', hkv'⟩, kt', ⟨nt', hkt'⟩, _, ⟨hwf, rfl⟩, rfl⟩ := h
  rw [hsn] at hks'; rw [hvn] at hkv'; rw [htn] at hkt'
  cases hks'; cases hkv'; cases hkt'
  rfl

theorem approveSol_ctx (hs : Ready env w ks s) (ht : SolReady env w mint kt kv t v) (h : TP.Client.approveSolIx env au k to mint = .ok ix) :
    ix = ⟨env.tpId, [.new au true, .new kv false, .new k false, .new to false, .new kt false, .readonly ks false, .readonly env.splId false,
      .readonly env.clockId false], Instr.codec.enc .approveWithdrawSol⟩ := by
  obtain ⟨n, pn, pd0, hk, hsn, hpn⟩ := hs.addr
  obtain ⟨n2, vn, hk2, htn, hvn⟩ := ht.addr
  simp only [TP.Client.approveSolIx, TP.Client.settingsAddr, TP.Client.vaultAddr, TP.Client.tokenSettingsSolAddr, bind_ok, addrOf_ok, packed_ok,
    Except.ok.injEq] at h
  obtain ⟨ks', ⟨ns', hks'⟩, kv', ⟨nv', hkv'⟩, kt', ⟨nt', hkt'⟩, _, ⟨hwf, rfl⟩, rfl⟩ := h
  rw [hsn] at hks'; rw [hvn] at hkv'; rw [htn] at hkt'
  cases hks'; cases hkv'; cases hkt'
  rfl

/-- C52: the built payout of a Solana token is accepted, whether or not the withdrawal can be paid. -/
theorem C52_tp_withdrawSol (hd : env.Distinct) (hg : SolPayout env w mint ks kt kv k to s t v r fee net)
    (hday : r.md.status = .new → releasedOn t (epochOf now) + net.toNat < 2 ^ 64)
    (hfee : r.md.status = .new → t.feeSupply.toNat + fee.toNat < 2 ^ 64)
    (h : TP.Client.withdrawSolIx env k to mint = .ok ix) : Accepted env cpi now w ix := by
  obtain rfl := withdrawSol_ctx hg.hSettings hg.hToken h
  unfold Accepted
  rw [process_enc rfl]
  exact withdrawSol_live rfl hd.tpSpl hg.hSettings hg.hRunning hg.hToken hg.hTokenRunning hg.hWd hg.hMint rfl (by built) (by built) (by built) (by built)
    hg.hTo hg.feeOf (by rw [low]; exact hg.hNet) hg.hPayable hday hfee

/-- C52: with a payload the builder itself finds the account of the recipient. -/
theorem C52_tp_withdrawSolPayload (hd : env.Distinct) (hg : SolPayout env w mint ks kt kv k to s t v r fee net) (hp : r.event.payload ≠ [])
    (hday : r.md.status = .new → releasedOn t (epochOf now) + net.toNat < 2 ^ 64)
    (hfee : r.md.status = .new → t.feeSupply.toNat + fee.toNat < 2 ^ 64)
    (h : TP.Client.withdrawSolPayloadIx env k r.event.recipient mint = .ok ix) : Accepted env cpi now w ix := by
  simp only [TP.Client.withdrawSolPayloadIx, TP.Client.proxyAddr, bind_ok, addrOf_ok] at h
  obtain ⟨to', ⟨n', hto'⟩, h⟩ := h
  rcases hg.hTo with ⟨e, -⟩ | ⟨-, n, pn, -, hto⟩
  · exact (hp e).elim
  · rw [hto] at hto'
    cases hto'
    exact C52_tp_withdrawSol hd hg hday hfee h

/-- C52: the built approval is accepted from the withdrawal manager for a withdrawal that waits for it. A withdrawal of today must still be
counted in the daily amount. -/
theorem C52_tp_approveSol (hd : env.Distinct) (hg : SolPayout env w mint ks kt kv k to s t v r fee net) (hau : s.withdrawalManager = au)
    (hst : r.md.status = .waitingForApprove) (hday : r.md.epoch = epochOf now → net.toNat ≤ t.withdrawalDailyAmount.toNat)
    (h : TP.Client.approveSolIx env au k to mint = .ok ix) : Accepted env cpi now w ix := by
  obtain rfl := approveSol_ctx hg.hSettings hg.hToken h
  unfold Accepted
  rw [process_enc rfl]
  exact approveSol_live rfl hd.tpSpl hg.hSettings hg.hRunning hg.hToken hg.hTokenRunning hg.hWd hg.hMint hst hau (by built) rfl (by built) (by built)
    (by built) (by built) hg.hTo hg.feeOf (by rw [low]; exact hg.hNet) hg.hPayable hday

/-- C52: the built payout of fees is accepted from the manager, up to the fees collected. -/
theorem C52_tp_withdrawSolFee {n : U64} (hd : env.Distinct) (hs : Ready env w ks s) (ht : SolReady env w mint kt kv t v) (hau : s.manager = au)
    (hp : Payable env w to mint n.toNat) (hf : n.toNat ≤ t.feeSupply.toNat) (hb : n.toNat ≤ v.amount.toNat)
    (h : TP.Client.withdrawSolFeeIx env au to mint n = .ok ix) : Accepted env cpi now w ix := by
  obtain ⟨_, pn, pd0, hk, hsn, hpn⟩ := id hs.addr
  obtain ⟨n2, vn, hk2, htn, hvn⟩ := id ht.addr
  simp only [TP.Client.withdrawSolFeeIx, TP.Client.settingsAddr, TP.Client.vaultAddr, TP.Client.tokenSettingsSolAddr, bind_ok, addrOf_ok, packed_ok,
    Except.ok.injEq] at h
  obtain ⟨ks', ⟨ns', hks'⟩, kv', ⟨nv', hkv'⟩, kt', ⟨nt', hkt'⟩, _, ⟨hwf, rfl⟩, rfl⟩ := h
  rw [hsn] at hks'; rw [hvn] at hkv'; rw [htn] at hkt'
  cases hks'; cases hkv'; cases hkt'
  unfold Accepted
  rw [process_enc hwf]
  exact solFee_live rfl hd.tpSpl hs ht hau (by built) rfl (by built) (by built) (by built) hp hf hb

/-- C60: a confirmed withdrawal of a Solana token that is new and within the limits, or pending, is paid out of a vault that holds enough by the
built `Withdraw`, which needs no signature: `net` tokens go from the vault to the recipient and the withdrawal is done. -/
theorem C60_sol_paid (hd : env.Distinct) (hg : SolPayout env w mint ks kt kv k to s t v r fee net) (hc : Confirmed r)
    (hst : (r.md.status = .new ∧ Within t (epochOf now) net.toNat ∧ t.feeSupply.toNat + fee.toNat < 2 ^ 64) ∨ r.md.status = .pending)
    (hb : net.toNat ≤ bal w kv) (h : TP.Client.withdrawSolIx env k to mint = .ok ix) :
    (ix.metas.all fun m => !m.signer) = true ∧ ∃ w', TP.process env (ix.ctx now) cpi ix.data w = .ok w' ∧ Moves kv to net.toNat w w' ∧
      WdReady wSolEventC env w' k (r.withStatus (doneStatus r.event.payload)) := by
  obtain ⟨w', hw'⟩ := C52_tp_withdrawSol (cpi := cpi) (now := now) hd hg
    (fun e => by rcases hst with h | h
                 · exact Within.fits h.2.1
                 · rw [e] at h; cases h)
    (fun e => by rcases hst with h | h
                 · exact h.2.2
                 · rw [e] at h; cases h) h
  obtain rfl := withdrawSol_ctx hg.hSettings hg.hToken h
  refine ⟨rfl, w', hw', ?_⟩
  rw [process_enc rfl] at hw'
  obtain ⟨_, _, _, _, _, r', t0, v0, e1, e2, e3, e4, e5, hr', ht', hkd, -, -, hne, hor⟩ := withdrawSol_fx hw'
  cases e1; cases e2; cases e3; cases e4; cases e5
  obtain rfl := hr'.2.1.unique hg.hWd.holds
  obtain rfl := ht'.2.1.unique hg.hToken.here.2.1
  rcases hor with ⟨-, h1, h2⟩ | ⟨-, fee', net', st, t', hfee', hnet', hrec, hor⟩
  · rcases hst with hst | hst
    · exact (h1 ⟨hc, hst.1⟩).elim
    · obtain ⟨fee', net', hf', hn', hlt⟩ := h2 hc hst
      rw [hg.feeOf] at hf'
      cases hf'
      rw [low, ← hg.hNet] at hn'
      have hlt' : bal w kv < net'.toNat := hlt
      omega
  · rw [hg.feeOf] at hfee'
    cases hfee'
    have e : net' = net := BitVec.eq_of_toNat_eq (by rw [low, ← hg.hNet] at hnet'; omega)
    subst e
    have key : ∀ {c : Ctx}, SolOut env c kv to mint r' net'.toNat w w' st → Moves kv to net'.toNat w w' ∧ st = doneStatus r'.event.payload := by
      intro c ho
      cases ho with
      | short _ hb' _ => omega
      | paid _ h2 _ => exact ⟨h2, rfl⟩
    have hout : Moves kv to net'.toNat w w' ∧ st = doneStatus r'.event.payload := by
      rcases hor with ⟨hn, hbk, ⟨hno, -⟩ | ⟨-, ho⟩⟩ | ⟨hn, -, -, ho⟩
      · rcases hst with hst | hst
        · exact (hno hst.2.1).elim
        · rw [hn] at hst; cases hst
      · exact key ho
      · exact key ho
    obtain ⟨hm, rfl⟩ := hout
    exact ⟨hm, hrec.owner.trans hg.hWd.owner, hrec.record, hg.hWd.init, hg.hWd.addr⟩

/-- C60: and one above the limits, once it waits for approval, is paid when the withdrawal manager approves it. -/
theorem C60_sol_approved (hd : env.Distinct) (hg : SolPayout env w mint ks kt kv k to s t v r fee net) (hau : s.withdrawalManager = au)
    (hst : r.md.status = .waitingForApprove) (hday : r.md.epoch = epochOf now → net.toNat ≤ t.withdrawalDailyAmount.toNat)
    (hb : net.toNat ≤ bal w kv) (h : TP.Client.approveSolIx env au k to mint = .ok ix) :
    ∃ w', TP.process env (ix.ctx now) cpi ix.data w = .ok w' ∧ Moves kv to net.toNat w w' ∧
      WdReady wSolEventC env w' k (r.withStatus (doneStatus r.event.payload)) := by
  obtain ⟨w', hw'⟩ := C52_tp_approveSol (cpi := cpi) (now := now) hd hg hau hst hday h
  obtain rfl := approveSol_ctx hg.hSettings hg.hToken h
  refine ⟨w', hw', ?_⟩
  rw [process_enc rfl] at hw'
  obtain ⟨-, _, _, _, _, r', t0, v0, e1, e2, e3, e4, hr', ht', hkd, -, -, hne, -, fee', net', st, t', hfee', hnet', hrec, -, ho⟩ := approveSol_fx hw'
  cases e1; cases e2; cases e3; cases e4
  obtain rfl := hr'.2.1.unique hg.hWd.holds
  obtain rfl := ht'.2.1.unique hg.hToken.here.2.1
  rw [hg.feeOf] at hfee'
  cases hfee'
  have e : net' = net := BitVec.eq_of_toNat_eq (by rw [low, ← hg.hNet] at hnet'; omega)
  subst e
  cases ho with
  | short _ hb' _ =>
    have hlt : bal w kv < net'.toNat := hb'
    omega
  | paid _ h2 _ => exact ⟨h2, hrec.owner.trans hg.hWd.owner, hrec.record, hg.hWd.init, hg.hWd.addr⟩

end Sol

/-! ### On the toy chain -/

/-- a withdrawal of 1000 gold to bob in `k`: the fee is 1 -/
theorem toy_sol {w : World} {k to : Pubkey} {P : TokenSettings → Bool} {Q : TokenAcc → Bool} {R : Withdrawal WSolEvent → Bool}
    (h1 : Toy.tchk settingsC (fun s => s.isInitialized && (Toy.kindSettings s.accountKind && (!s.emergency && (Toy.same s.withdrawalManager Toy.wmanager &&
      Toy.same s.manager Toy.manager)))) w Toy.tpSettings = true)
    (h2 : Toy.tchk tokenSettingsC (fun s => s.isInitialized && (Toy.kindToken s.accountKind && (Toy.isSolKind Toy.gold Toy.tpVault s.kind &&
      (!s.emergency && (Toy.feeIs s.feeWithdrawalInfo 5 10000 && P s))))) w Toy.tpGold = true)
    (h3 : Toy.isVault w Toy.tpVault Toy.gold Q = true)
    (h4 : Toy.tchk (withdrawalC wSolEventC) (fun r => r.isInitialized && (Toy.kindProposal r.accountKind &&
      (Toy.same (Toy.addr (proposalSeeds r.roundNumber r.pda (Toy.env.hash (wSolEventC.enc r.event))) Toy.env.tpId) k &&
      (Toy.same r.event.mint Toy.gold && (Toy.same r.event.recipient Toy.bob && (Nat.beq r.event.amount.toNat 1000 && (r.event.payload.isEmpty && R r))))))) w k = true)
    (h5 : Toy.holder w to Toy.bob = true) (h6 : Toy.isPayable w to Toy.gold 999 = true) :
    ∃ s t v r, SolPayout Toy.env w Toy.gold Toy.tpSettings Toy.tpGold Toy.tpVault k to s t v r 1 999 ∧ s.withdrawalManager = Toy.wmanager ∧
      s.manager = Toy.manager ∧ P t = true ∧ Q v = true ∧ R r = true := by
  obtain ⟨s, hs, hP1⟩ := Toy.tp_ready h1
  obtain ⟨t, v, ht, hP2, hQ⟩ := Toy.tp_sol h2 h3
  obtain ⟨r, hr, hP3⟩ := Toy.tp_wd h4
  simp only [Bool.and_eq_true, Bool.not_eq_true', List.isEmpty_iff] at hP1 hP2 hP3
  obtain ⟨f1, f2⟩ := Toy.feeIs_eq hP2.2.1
  have ha : r.event.amount.toNat = 1000 := Nat.eq_of_beq_eq_true hP3.2.2.1
  refine ⟨s, t, v, r, ⟨hs, hP1.1, ht, hP2.1, hr, Toy.same_eq hP3.1, ?_, ?_, ?_, Toy.payable h6⟩, Toy.same_eq hP1.2.1, Toy.same_eq hP1.2.2, hP2.2.2, hQ,
    hP3.2.2.2.2⟩
  · rw [hP3.2.2.2.1, Toy.same_eq hP3.2.1]; exact Toy.reaches h5
  · rw [f1, f2, ha]; rfl
  · rw [ha]; rfl

/-- a vote away from payment, a withdrawal is paid by anybody -/
example : ∃ ix w', TP.Client.withdrawSolIx Toy.env Toy.wd1 Toy.bobGold Toy.gold = .ok ix ∧
    TP.process Toy.env (ix.ctx 1000) noCpi ix.data (Toy.get Toy.tpVote3) = .ok w' ∧ Moves Toy.tpVault Toy.bobGold 999 (Toy.get Toy.tpVote3) w' := by
  obtain ⟨ix, h⟩ := Toy.ix (r := TP.Client.withdrawSolIx Toy.env Toy.wd1 Toy.bobGold Toy.gold) ?_
  obtain ⟨s, t, v, r, hg, -, -, hP, -, hR⟩ := toy_sol (w := Toy.get Toy.tpVote3) (k := Toy.wd1) (to := Toy.bobGold)
    (P := fun t => Nat.ble 999 t.withdrawalLimit.toNat && (Nat.ble (t.withdrawalDailyAmount.toNat + 999) t.withdrawalDailyLimit.toNat &&
      Nat.blt (t.feeSupply.toNat + 1) (2 ^ 64))) (Q := fun _ => true)
    (R := fun r => decide (r.md.status = .new) && Nat.ble r.requiredVotes.toNat (r.signers.count .confirm))
    ?_ ?_ ?_ ?_ ?_ ?_
  simp only [Bool.and_eq_true, decide_eq_true_eq] at hP hR
  obtain ⟨-, w', hw, hm, -⟩ := C60_sol_paid (cpi := noCpi) (now := 1000) Toy.distinct hg (Nat.le_of_ble_eq_true hR.2)
    (.inl ⟨hR.1, ⟨Nat.le_of_ble_eq_true hP.1, Nat.le_trans (Nat.add_le_add_right (by unfold releasedOn; split <;> omega) _)
      (Nat.le_of_ble_eq_true hP.2.1)⟩, Nat.le_of_ble_eq_true hP.2.2⟩) (Nat.le_of_ble_eq_true ?_) h
  exact ⟨ix, w', h, hw, hm⟩
  checked

/-- the payment may come before the votes, and then does nothing, but is accepted -/
example : ∃ ix, TP.Client.withdrawSolIx Toy.env Toy.wd1 Toy.bobGold Toy.gold = .ok ix ∧ Accepted Toy.env noCpi 1000 (Toy.get Toy.tpVote1) ix := by
  obtain ⟨ix, h⟩ := Toy.ix (r := TP.Client.withdrawSolIx Toy.env Toy.wd1 Toy.bobGold Toy.gold) ?_
  obtain ⟨s, t, v, r, hg, -, -, hP, -, -⟩ := toy_sol (w := Toy.get Toy.tpVote1) (k := Toy.wd1) (to := Toy.bobGold)
    (P := fun t => Nat.blt (t.withdrawalDailyAmount.toNat + 999) (2 ^ 64) && Nat.blt (t.feeSupply.toNat + 1) (2 ^ 64)) (Q := fun _ => true)
    (R := fun _ => true)
    ?_ ?_ ?_ ?_ ?_ ?_
  simp only [Bool.and_eq_true] at hP
  exact ⟨ix, h, C52_tp_withdrawSol Toy.distinct hg (fun _ => Nat.lt_of_le_of_lt (Nat.add_le_add_right (by unfold releasedOn; split <;> omega) _)
    (Nat.le_of_ble_eq_true hP.1)) (fun _ => Nat.le_of_ble_eq_true hP.2) h⟩
  checked

/-- an approval -/
example : ∃ ix w', TP.Client.approveSolIx Toy.env Toy.wmanager Toy.wd1 Toy.bobGold Toy.gold = .ok ix ∧
    TP.process Toy.env (ix.ctx 1000) noCpi ix.data (Toy.get Toy.tpWaiting) = .ok w' ∧ Moves Toy.tpVault Toy.bobGold 999 (Toy.get Toy.tpWaiting) w' := by
  obtain ⟨ix, h⟩ := Toy.ix (r := TP.Client.approveSolIx Toy.env Toy.wmanager Toy.wd1 Toy.bobGold Toy.gold) ?_
  obtain ⟨s, t, v, r, hg, hau, -, hP, -, hR⟩ := toy_sol (w := Toy.get Toy.tpWaiting) (k := Toy.wd1) (to := Toy.bobGold)
    (P := fun t => Nat.ble 999 t.withdrawalDailyAmount.toNat) (Q := fun _ => true) (R := fun r => decide (r.md.status = .waitingForApprove))
    ?_ ?_ ?_ ?_ ?_ ?_
  simp only [decide_eq_true_eq] at hR
  obtain ⟨w', hw, hm, -⟩ := C60_sol_approved (cpi := noCpi) (now := 1000) Toy.distinct hg hau hR (fun _ => Nat.le_of_ble_eq_true hP)
    (Nat.le_of_ble_eq_true ?_) h
  exact ⟨ix, w', h, hw, hm⟩
  checked

/-- fees -/
example : ∃ ix, TP.Client.withdrawSolFeeIx Toy.env Toy.manager Toy.bobGold Toy.gold 2 = .ok ix ∧
    Accepted Toy.env noCpi 1000 (Toy.get Toy.tpPaid) ix := by
  obtain ⟨ix, h⟩ := Toy.ix (r := TP.Client.withdrawSolFeeIx Toy.env Toy.manager Toy.bobGold Toy.gold 2) ?_
  obtain ⟨s, hs, hP1⟩ := Toy.tp_ready (P := fun s => Toy.same s.manager Toy.manager) (w := Toy.get Toy.tpPaid) ?_
  obtain ⟨t, v, ht, hP2, hQ⟩ := Toy.tp_sol (P := fun t => Nat.ble 2 t.feeSupply.toNat) (Q := fun v => Nat.ble 2 v.amount.toNat)
    (w := Toy.get Toy.tpPaid) ?_ ?_
  refine ⟨ix, h, C52_tp_withdrawSolFee (n := 2) Toy.distinct hs ht (Toy.same_eq hP1) (Toy.payable ?_) (Nat.le_of_ble_eq_true hP2)
    (Nat.le_of_ble_eq_true hQ) h⟩
  checked

/-- with a payload -/
example : ∃ ix, TP.Client.withdrawSolPayloadIx Toy.env Toy.wd4 Toy.bob Toy.gold = .ok ix ∧ Accepted Toy.env noCpi 1000 (Toy.get Toy.tpP3) ix := by
  obtain ⟨ix, h⟩ := Toy.ix (r := TP.Client.withdrawSolPayloadIx Toy.env Toy.wd4 Toy.bob Toy.gold) (by decide +kernel)
  obtain ⟨s, hs, hP1⟩ := Toy.tp_ready (P := fun s => !s.emergency) (w := Toy.get Toy.tpP3) (by decide +kernel)
  obtain ⟨t, v, ht, hP2, hQ⟩ := Toy.tp_sol (P := fun t => !t.emergency && (Toy.feeIs t.feeWithdrawalInfo 5 10000 &&
    (Nat.blt (t.withdrawalDailyAmount.toNat + 999) (2 ^ 64) && Nat.blt (t.feeSupply.toNat + 1) (2 ^ 64)))) (Q := fun v => true)
    (w := Toy.get Toy.tpP3) (by decide +kernel) (by decide +kernel)
  obtain ⟨r, hr, hP3⟩ := Toy.tp_wd (ec := wSolEventC) (P := fun r => Toy.same r.event.mint Toy.gold && (Toy.same r.event.recipient Toy.bob &&
    (Nat.beq r.event.amount.toNat 1000 && (!r.event.payload.isEmpty && Toy.proxyNonce r.accountKind)))) (w := Toy.get Toy.tpP3) (k := Toy.wd4)
    (by decide +kernel)
  simp only [Bool.and_eq_true, Bool.not_eq_true'] at hP1 hP2 hP3
  obtain ⟨f1, f2⟩ := Toy.feeIs_eq hP2.2.1
  have ha : r.event.amount.toNat = 1000 := Nat.eq_of_beq_eq_true hP3.2.2.1
  have hne : r.event.payload ≠ [] := by intro e; rw [e] at hP3; simp at hP3
  have hg : SolPayout Toy.env (Toy.get Toy.tpP3) Toy.gold Toy.tpSettings Toy.tpGold Toy.tpVault Toy.wd4 Toy.tpProxy s t v r 1 999 := by
    refine ⟨hs, hP1, ht, hP2.1, hr, Toy.same_eq hP3.1, ?_, ?_, ?_, Toy.payable (by decide +kernel)⟩
    · rw [Toy.same_eq hP3.2.1]; exact Toy.reaches_proxy hP3.2.2.2.2 hne
    · rw [f1, f2, ha]; rfl
    · rw [ha]; rfl
  rw [← Toy.same_eq hP3.2.1] at h
  rw [← Toy.same_eq hP3.2.1]
  exact ⟨ix, h, C52_tp_withdrawSolPayload Toy.distinct hg hne (fun _ => Nat.lt_of_le_of_lt
    (Nat.add_le_add_right (by unfold releasedOn; split <;> omega) _) (Nat.le_of_ble_eq_true hP2.2.2.1)) (fun _ => Nat.le_of_ble_eq_true hP2.2.2.2) h⟩

/-! ## Tokens of Everscale -/

section Ever
variable {token : EverAddress} {ks kt km k to au : Pubkey} {s : Settings} {t : TokenSettings} {m : MintAcc} {r : Withdrawal WEverEvent} {fee net : U64}

theorem withdrawEver_ctx (hs : Ready env w ks s) (ht : EverReady env w token kt km t m) (h : TP.Client.withdrawEverIx env k to token = .ok ix) :
    ix = ⟨env.tpId, TP.Client.everMetas env ks km kt k to, Instr.codec.enc .withdrawMultiTokenEver⟩ := by
  obtain ⟨n, pn, pd0, hk, hsn, hpn⟩ := hs.addr
  obtain ⟨n2, mn, hk2, htn, hmn⟩ := ht.addr
  simp only [TP.Client.withdrawEverIx, TP.Client.settingsAddr, TP.Client.mintAddr, TP.Client.tokenSettingsEverAddr, bind_ok, addrOf_ok, packed_ok,
    Except.ok.injEq] at h
  obtain ⟨ks', ⟨ns', hks'⟩, km', ⟨nm', hkm'⟩, kt', ⟨nt', hkt'⟩, _, ⟨hwf, rfl⟩, rfl⟩ := h
  rw [hsn] at hks'; rw [hmn] at hkm'; rw [htn] at hkt'
  cases hks'; cases hkm'; cases hkt'
  rfl

theorem approveEver_ctx (hs : Ready env w ks s) (ht : EverReady env w token kt km t m)
    (h : TP.Client.approveEverIx env au k to km token = .ok ix) :
    ix = ⟨env.tpId, [.new au true, .new km false, .new k false, .new to false, .new kt false, .readonly ks false, .readonly env.splId false,
      .readonly env.clockId false], Instr.codec.enc .approveWithdrawEver⟩ := by
  obtain ⟨n, pn, pd0, hk, hsn, hpn⟩ := hs.addr
  obtain ⟨n2, mn, hk2, htn, hmn⟩ := ht.addr
  simp only [TP.Client.approveEverIx, TP.Client.settingsAddr, TP.Client.tokenSettingsEverAddr, bind_ok, addrOf_ok, packed_ok, Except.ok.injEq] at h
  obtain ⟨ks', ⟨ns', hks'⟩, kt', ⟨nt', hkt'⟩, _, ⟨hwf, rfl⟩, rfl⟩ := h
  rw [hsn] at hks'; rw [htn] at hkt'
  cases hks'; cases hkt'
  rfl

/-- C52: the built payout of an Everscale token is accepted, whether or not the withdrawal can be paid. -/
theorem C52_tp_withdrawEver (hd : env.Distinct) (hg : EverPayout env w token ks kt km k to s t m r fee net)
    (hday : releasedOn t (epochOf now) + net.toNat < 2 ^ 64) (hfee : t.feeSupply.toNat + fee.toNat < 2 ^ 64)
    (h : TP.Client.withdrawEverIx env k to token = .ok ix) : Accepted env cpi now w ix := by
  obtain rfl := withdrawEver_ctx hg.hSettings hg.hToken h
  obtain ⟨amount, ha, he, hf⟩ := hg.amount
  unfold Accepted
  rw [process_enc rfl]
  exact withdrawEver_live (more := []) rfl hd.tpSpl hg.hSettings hg.hRunning hg.hToken hg.hAlive hg.hTokenRunning hg.hWd hg.hEvent rfl
    (by simp [TP.Client.everMetas]; built) (by simp [TP.Client.everMetas]; built) (by simp [TP.Client.everMetas]; built)
    (by simp [TP.Client.everMetas]; built) hg.hTo ha hf (by rw [he]; exact hg.hNet) hg.hMintable hg.hSupply hday hfee

/-- C52: with a payload the builder itself finds the account of the recipient. -/
theorem C52_tp_withdrawEverPayload (hd : env.Distinct) (hg : EverPayout env w token ks kt km k to s t m r fee net) (hp : r.event.payload ≠ [])
    (hday : releasedOn t (epochOf now) + net.toNat < 2 ^ 64) (hfee : t.feeSupply.toNat + fee.toNat < 2 ^ 64)
    (h : TP.Client.withdrawEverPayloadIx env k r.event.recipient token = .ok ix) : Accepted env cpi now w ix := by
  obtain ⟨n2, mn, hk2, htn, hmn⟩ := hg.hToken.addr
  simp only [TP.Client.withdrawEverPayloadIx, TP.Client.proxyAddr, TP.Client.settingsAddr, TP.Client.mintAddr, TP.Client.tokenSettingsEverAddr,
    bind_ok, addrOf_ok] at h
  obtain ⟨ks', hks', km', ⟨nm', hkm'⟩, kt', hkt', to', ⟨n', hto'⟩, data, hdata, h⟩ := h
  rcases hg.hTo with ⟨e, -⟩ | ⟨-, n, pn, -, hto⟩
  · exact (hp e).elim
  · rw [hmn] at hkm'; cases hkm'
    rw [hto] at hto'; cases hto'
    refine C52_tp_withdrawEver hd hg hday hfee ?_
    simp only [TP.Client.withdrawEverIx, TP.Client.settingsAddr, TP.Client.mintAddr, TP.Client.tokenSettingsEverAddr, bind_ok, addrOf_ok]
    exact ⟨ks', hks', km, ⟨_, hmn⟩, kt', hkt', data, hdata, h⟩

/-- C52: the built approval is accepted from the withdrawal manager for a withdrawal that waits for it. -/
theorem C52_tp_approveEver (hd : env.Distinct) (hg : EverPayout env w token ks kt km k to s t m r fee net) (hau : s.withdrawalManager = au)
    (hst : r.md.status = .waitingForApprove) (hday : r.md.epoch = epochOf now → net.toNat ≤ t.withdrawalDailyAmount.toNat)
    (h : TP.Client.approveEverIx env au k to km token = .ok ix) : Accepted env cpi now w ix := by
  obtain rfl := approveEver_ctx hg.hSettings hg.hToken h
  obtain ⟨amount, ha, he, hf⟩ := hg.amount
  unfold Accepted
  rw [process_enc rfl]
  exact approveEver_live rfl hd.tpSpl hg.hSettings hg.hRunning hg.hToken hg.hTokenRunning hg.hWd hg.hEvent hst hau (by built) rfl (by built) (by built)
    (by built) (by built) hg.hTo ha hf (by rw [he]; exact hg.hNet) hg.hMintable hg.hSupply hday

/-- C52: the built payout of fees is accepted from the manager, up to the fees collected. -/
theorem C52_tp_withdrawEverFee {n : U64} (hd : env.Distinct) (hs : Ready env w ks s) (ht : EverReady env w token kt km t m) (hau : s.manager = au)
    (hp : Mintable env w to km n.toNat) (hf : n.toNat ≤ t.feeSupply.toNat) (hsup : m.supply.toNat + n.toNat < 2 ^ 64)
    (h : TP.Client.withdrawEverFeeIx env au km to token n = .ok ix) : Accepted env cpi now w ix := by
  obtain ⟨_, pn, pd0, hk, hsn, hpn⟩ := id hs.addr
  obtain ⟨n2, mn, hk2, htn, hmn⟩ := id ht.addr
  simp only [TP.Client.withdrawEverFeeIx, TP.Client.settingsAddr, TP.Client.tokenSettingsEverAddr, bind_ok, addrOf_ok, packed_ok,
    Except.ok.injEq] at h
  obtain ⟨ks', ⟨ns', hks'⟩, kt', ⟨nt', hkt'⟩, _, ⟨hwf, rfl⟩, rfl⟩ := h
  rw [hsn] at hks'; rw [htn] at hkt'
  cases hks'; cases hkt'
  unfold Accepted
  rw [process_enc hwf]
  exact everFee_live rfl hd.tpSpl hs ht hau (by built) rfl (by built) (by built) (by built) hp hf hsup

/-- C60: a confirmed withdrawal of an Everscale token that is new and within the limits is paid by the built `Withdraw`, which needs no
signature: `net` tokens are minted to the recipient and the withdrawal is done. -/
theorem C60_ever_paid (hd : env.Distinct) (hg : EverPayout env w token ks kt km k to s t m r fee net) (hc : Confirmed r)
    (hst : r.md.status = .new) (hlim : Within t (epochOf now) net.toNat) (hfee : t.feeSupply.toNat + fee.toNat < 2 ^ 64)
    (h : TP.Client.withdrawEverIx env k to token = .ok ix) :
    (ix.metas.all fun m => !m.signer) = true ∧ ∃ w', TP.process env (ix.ctx now) cpi ix.data w = .ok w' ∧ Mints km to net.toNat w w' ∧
      WdReady wEverEventC env w' k (r.withStatus (doneStatus r.event.payload)) := by
  obtain ⟨w', hw'⟩ := C52_tp_withdrawEver (cpi := cpi) hd hg (Within.fits hlim) hfee h
  obtain rfl := withdrawEver_ctx hg.hSettings hg.hToken h
  refine ⟨rfl, w', hw', ?_⟩
  rw [process_enc rfl] at hw'
  obtain ⟨amount, ha, he, hf⟩ := hg.amount
  obtain ⟨_, _, _, _, r', e1, e2, e3, e4, hr', hor⟩ := withdrawEver_fx hw'
  cases e1; cases e2; cases e3; cases e4
  obtain rfl := hr'.2.1.unique hg.hWd.holds
  rcases hor with ⟨-, hl⟩ | ⟨w1, ⟨rfl, -⟩ | ⟨hl, -⟩, -, -, t0, m0, ⟨ht0, -, -, -, hm0⟩, ⟨-, hno⟩ | ⟨-, -, amount', fee', net', st, t', ha', hf', hn', hrec, -, hor⟩⟩
  · exact (hg.hAlive hl).elim
  · exact (hno ⟨hc, hst⟩).elim
  · obtain rfl := ht0.2.1.unique hg.hToken.here.2.1
    have hm0 : (w1.acc km).data = .mint m0 := hm0
    have em : m0 = m := by rw [hg.hToken.mint.2.1] at hm0; cases hm0; rfl
    subst em
    rw [ha] at ha'; cases ha'
    rw [hf] at hf'; cases hf'
    have e : net' = net := BitVec.eq_of_toNat_eq (by rw [he, ← hg.hNet] at hn'; omega)
    subst e
    rcases hor with ⟨hno, -⟩ | ⟨-, rfl, -, hm, -⟩
    · exact (hno hlim).elim
    · exact ⟨hm, hrec.owner.trans hg.hWd.owner, hrec.record, hg.hWd.init, hg.hWd.addr⟩
  · exact (hg.hAlive hl).elim
  · exact (hg.hAlive hl).elim

/-- C60: and one above the limits, once it waits for approval, is paid when the withdrawal manager approves it. -/
theorem C60_ever_approved (hd : env.Distinct) (hg : EverPayout env w token ks kt km k to s t m r fee net) (hau : s.withdrawalManager = au)
    (hst : r.md.status = .waitingForApprove) (hday : r.md.epoch = epochOf now → net.toNat ≤ t.withdrawalDailyAmount.toNat)
    (h : TP.Client.approveEverIx env au k to km token = .ok ix) :
    ∃ w', TP.process env (ix.ctx now) cpi ix.data w = .ok w' ∧ Mints km to net.toNat w w' ∧
      WdReady wEverEventC env w' k (r.withStatus (doneStatus r.event.payload)) := by
  obtain ⟨w', hw'⟩ := C52_tp_approveEver (cpi := cpi) (now := now) hd hg hau hst hday h
  obtain rfl := approveEver_ctx hg.hSettings hg.hToken h
  refine ⟨w', hw', ?_⟩
  rw [process_enc rfl] at hw'
  obtain ⟨amount, ha, he, hf⟩ := hg.amount
  obtain ⟨-, _, _, _, _, r', t0, m0, e1, e2, e3, e4, hr', -, ⟨ht0, -, -, -, hm0⟩, -, amount', fee', net', t', ha', hf', hn', hrec, -, -, hm, -⟩ :=
    approveEver_fx hw'
  cases e1; cases e2; cases e3; cases e4
  obtain rfl := hr'.2.1.unique hg.hWd.holds
  obtain rfl := ht0.2.1.unique hg.hToken.here.2.1
  have hm0 : (w.acc km).data = .mint m0 := hm0
  have em : m0 = m := by rw [hg.hToken.mint.2.1] at hm0; cases hm0; rfl
  subst em
  rw [ha] at ha'; cases ha'
  rw [hf] at hf'; cases hf'
  have e : net' = net := BitVec.eq_of_toNat_eq (by rw [he, ← hg.hNet] at hn'; omega)
  subst e
  exact ⟨hm, hrec.owner.trans hg.hWd.owner, hrec.record, hg.hWd.init, hg.hWd.addr⟩

end Ever

/-! ### On the toy chain -/

/-- a withdrawal of 70000 stars to bob: the fee is 35 -/
theorem toy_ever {w : World} {fee net : U64} {m d : Nat} {P : TokenSettings → Bool} {Q : MintAcc → Bool} {R : Withdrawal WEverEvent → Bool}
    (hf : feeSpec m d 70000 = some fee.toNat) (hn : net.toNat + fee.toNat = 70000)
    (h1 : Toy.tchk settingsC (fun s => s.isInitialized && (Toy.kindSettings s.accountKind && (!s.emergency && (Toy.same s.withdrawalManager Toy.wmanager &&
      Toy.same s.manager Toy.manager)))) w Toy.tpSettings = true)
    (h2 : Toy.tchk tokenSettingsC (fun s => s.isInitialized && (Toy.kindToken s.accountKind && (Toy.isEverKind Toy.starMint Toy.star s.kind &&
      (!s.emergency && (Toy.feeIs s.feeWithdrawalInfo m d && P s))))) w Toy.tpStar = true)
    (h3 : Toy.isMint w Toy.starMint (fun m => Nat.beq m.decimals.toNat 9 && (Nat.blt (m.supply.toNat + net.toNat) (2 ^ 64) && Q m)) = true)
    (h4 : Toy.tchk (withdrawalC wEverEventC) (fun r => r.isInitialized && (Toy.kindProposal r.accountKind &&
      (Toy.same (Toy.addr (proposalSeeds r.roundNumber r.pda (Toy.env.hash (wEverEventC.enc r.event))) Toy.env.tpId) Toy.wd5 &&
      (decide (r.event.token = Toy.star) && (Toy.same r.event.recipient Toy.bob && (Nat.beq r.event.amount.toNat 70000 &&
        (Nat.beq r.event.decimals.toNat 9 && (r.event.payload.isEmpty && R r)))))))) w Toy.wd5 = true)
    (h5 : Toy.holder w Toy.bobStar Toy.bob = true) (h6 : Toy.isMintable w Toy.bobStar Toy.starMint net.toNat = true)
    (h7 : Nat.beq (w.acc Toy.tpStar).lamports 0 = false) :
    ∃ s t mi r, EverPayout Toy.env w Toy.star Toy.tpSettings Toy.tpStar Toy.starMint Toy.wd5 Toy.bobStar s t mi r fee net ∧
      s.withdrawalManager = Toy.wmanager ∧ s.manager = Toy.manager ∧ P t = true ∧ Q mi = true ∧ R r = true := by
  obtain ⟨s, hs, hP1⟩ := Toy.tp_ready h1
  obtain ⟨t, mi, ht, hP2, hQ⟩ := Toy.tp_ever h2 h3
  obtain ⟨r, hr, hP3⟩ := Toy.tp_wd h4
  simp only [Bool.and_eq_true, Bool.not_eq_true', List.isEmpty_iff, decide_eq_true_eq] at hP1 hP2 hP3 hQ
  obtain ⟨f1, f2⟩ := Toy.feeIs_eq hP2.2.1
  have ha : r.event.amount.toNat = 70000 := Nat.eq_of_beq_eq_true hP3.2.2.1
  have hd : r.event.decimals.toNat = 9 := Nat.eq_of_beq_eq_true hP3.2.2.2.1
  have hm : mi.decimals.toNat = 9 := Nat.eq_of_beq_eq_true hQ.1
  have hc : toSolSpec r.event.amount.toNat r.event.decimals.toNat mi.decimals.toNat = 70000 := by rw [ha, hd, hm]; rfl
  refine ⟨s, t, mi, r, ⟨hs, hP1.1, ht, Nat.ne_of_beq_eq_false h7, hP2.1, hr, hP3.1, ?_, by rw [hd, hm]; omega, by rw [hc]; decide, ?_, by rw [hc]; exact hn,
    Toy.mintable h6, Nat.le_of_ble_eq_true hQ.2.1⟩, Toy.same_eq hP1.2.1, Toy.same_eq hP1.2.2, hP2.2.2, hQ.2.2, hP3.2.2.2.2.2⟩
  · rw [hP3.2.2.2.2.1, Toy.same_eq hP3.2.1]; exact Toy.reaches h5
  · rw [f1, f2, hc]; exact hf

/-- a confirmed withdrawal is paid -/
example : ∃ ix w', TP.Client.withdrawEverIx Toy.env Toy.wd5 Toy.bobStar Toy.star = .ok ix ∧
    TP.process Toy.env (ix.ctx 1000) noCpi ix.data (Toy.get Toy.tpT3) = .ok w' ∧ Mints Toy.starMint Toy.bobStar 69965 (Toy.get Toy.tpT3) w' := by
  obtain ⟨ix, h⟩ := Toy.ix (r := TP.Client.withdrawEverIx Toy.env Toy.wd5 Toy.bobStar Toy.star) ?_
  obtain ⟨s, t, v, r, hg, -, -, hP, -, hR⟩ := toy_ever (w := Toy.get Toy.tpT3) (fee := 35) (net := 69965) (m := 5) (d := 10000)
    (P := fun t => Nat.ble 69965 t.withdrawalLimit.toNat && (Nat.ble (t.withdrawalDailyAmount.toNat + 69965) t.withdrawalDailyLimit.toNat &&
      Nat.blt (t.feeSupply.toNat + 35) (2 ^ 64))) (Q := fun _ => true)
    (R := fun r => decide (r.md.status = .new) && Nat.ble r.requiredVotes.toNat (r.signers.count .confirm)) rfl rfl
    ?_ ?_ ?_ ?_ ?_ ?_ ?_
  simp only [Bool.and_eq_true, decide_eq_true_eq] at hP hR
  obtain ⟨-, w', hw, hm, -⟩ := C60_ever_paid (cpi := noCpi) (now := 1000) Toy.distinct hg (Nat.le_of_ble_eq_true hR.2) hR.1
    ⟨Nat.le_of_ble_eq_true hP.1, Nat.le_trans (Nat.add_le_add_right (by unfold releasedOn; split <;> omega) _)
      (Nat.le_of_ble_eq_true hP.2.1)⟩ (Nat.le_of_ble_eq_true hP.2.2) h
  exact ⟨ix, w', h, hw, hm⟩
  checked

/-- an approval, on the same day -/
example : ∃ ix w', TP.Client.approveEverIx Toy.env Toy.wmanager Toy.wd5 Toy.bobStar Toy.starMint Toy.star = .ok ix ∧
    TP.process Toy.env (ix.ctx 1000) noCpi ix.data (Toy.get Toy.tpSWait) = .ok w' ∧ Mints Toy.starMint Toy.bobStar 69965 (Toy.get Toy.tpSWait) w' := by
  obtain ⟨ix, h⟩ := Toy.ix (r := TP.Client.approveEverIx Toy.env Toy.wmanager Toy.wd5 Toy.bobStar Toy.starMint Toy.star) ?_
  obtain ⟨s, t, v, r, hg, hau, -, hP, -, hR⟩ := toy_ever (w := Toy.get Toy.tpSWait) (fee := 35) (net := 69965) (m := 5) (d := 10000)
    (P := fun t => Nat.ble 69965 t.withdrawalDailyAmount.toNat) (Q := fun _ => true) (R := fun r => decide (r.md.status = .waitingForApprove)) rfl rfl
    ?_ ?_ ?_ ?_ ?_ ?_ ?_
  simp only [decide_eq_true_eq] at hR
  obtain ⟨w', hw, hm, -⟩ := C60_ever_approved (cpi := noCpi) (now := 1000) Toy.distinct hg hau hR (fun _ => Nat.le_of_ble_eq_true hP) h
  exact ⟨ix, w', h, hw, hm⟩
  checked

private theorem toy_mintable : Mintable Toy.env (Toy.get Toy.tpDepE) Toy.bobStar Toy.starMint (2#64).toNat := Toy.mintable (by decide +kernel)

/-- fees -/
example : ∃ ix, TP.Client.withdrawEverFeeIx Toy.env Toy.manager Toy.starMint Toy.bobStar Toy.star 2 = .ok ix ∧
    Accepted Toy.env noCpi 1000 (Toy.get Toy.tpDepE) ix := by
  obtain ⟨ix, h⟩ := Toy.ix (r := TP.Client.withdrawEverFeeIx Toy.env Toy.manager Toy.starMint Toy.bobStar Toy.star 2) ?_
  obtain ⟨s, hs, hP1⟩ := Toy.tp_ready (P := fun s => Toy.same s.manager Toy.manager) (w := Toy.get Toy.tpDepE) ?_
  obtain ⟨t, v, ht, hP2, hQ⟩ := Toy.tp_ever (P := fun t => Nat.ble 2 t.feeSupply.toNat) (Q := fun v => Nat.blt (v.supply.toNat + 2) (2 ^ 64))
    (w := Toy.get Toy.tpDepE) ?_ ?_
  have h1 : 2 ≤ t.feeSupply.toNat := Nat.le_of_ble_eq_true hP2
  have h2 : v.supply.toNat + 2 < 2 ^ 64 := Nat.le_of_ble_eq_true hQ
  exact ⟨ix, h, C52_tp_withdrawEverFee (n := 2) (to := Toy.bobStar) Toy.distinct hs ht (Toy.same_eq hP1) toy_mintable h1 h2 h⟩
  checked

end Verif.Props
