import Verif.Lemmas.Held
import Verif.Props.Redeem
import Verif.Props.ClientDep
/-!
# Transfers that are held back arrive after all

C77: a confirmed transfer above the limits of its token waits for approval, and one the vault cannot pay is pending; until then no token moves. The
approval pays the first kind, and the next deposit that fills the vault makes the second kind payable to anybody who asks.
-/
set_option linter.unusedSimpArgs false
set_option maxRecDepth 100000
namespace Verif.Props
open Verif TP Codec Client

variable {env : Env} {ix ix1 ix2 ix3 : Ix} {now t1 t2 t3 : I64} {w : World} {cpi : Pubkey → World → Except Err World}
  {f au k to krs kr ks kt kv : Pubkey} {rs : RL.Settings} {rr : RL.RelayRound} {s : Settings} {t : TokenSettings} {pda : PDA} {att fee net : U64}
  {l : List (Pubkey × I64)}

theorem Ready.ne_token (hs : Ready env w ks s) (ht : TokenAt env w kt t) : ks ≠ kt := by
  rintro rfl
  obtain ⟨_, _, h1⟩ := hs.here.2.2.2
  obtain ⟨_, _, h2⟩ := ht.2.2.2
  exact settings_ne_token hs.here.2.1 ht.2.1 h1 h2

/-- New daily sums and fees leave the settings of a token in order. -/
theorem TokenAt.booked {w' : World} {t' : TokenSettings} {fs da : U64} {ep : I64} (ht : TokenAt env w kt t)
    (hb : t' = { t with feeSupply := fs, withdrawalDailyAmount := da, withdrawalEpoch := ep })
    (ho : (w'.acc kt).owner = (w.acc kt).owner) (hh : Holds tokenSettingsC recLen (w'.acc kt) t') : TokenAt env w' kt t' := by
  subst hb
  exact ⟨ho.trans ht.1, hh, ht.2.2⟩

section Sol
variable {mint : Pubkey} {v : TokenAcc} {r : Withdrawal WSolEvent}

/-- After new contents of the two records a payout is as possible as before. -/
theorem SolPayout.held {w' : World} {t' : TokenSettings} {md : WMeta} (hd : env.Distinct) (hg : SolPayout env w mint ks kt kv k to s t v r fee net)
    (ho : Only k kt w w') (hw : WdReady wSolEventC env w' k { r with md := md }) (ht : TokenAt env w' kt t') (hk : t'.kind = t.kind)
    (ha : t'.accountKind = t.accountKind) (he : t'.emergency = t.emergency) (hf : t'.feeWithdrawalInfo = t.feeWithdrawalInfo) :
    SolPayout env w' mint ks kt kv k to s t' v { r with md := md } fee net := by
  have hks : ks ≠ k := Ready.ne_wd hg.hSettings hg.hWd
  have hkst : ks ≠ kt := Ready.ne_token hg.hSettings hg.hToken.here
  have hsp : ∀ {x}, (w.acc x).owner = env.splId → w'.acc x = w.acc x := fun {x} hx => ho x
    (by rintro rfl; exact hd.tpSpl (hg.hWd.owner.symm.trans hx)) (by rintro rfl; exact hd.tpSpl (hg.hToken.here.1.symm.trans hx))
  have hkv := hsp hg.hToken.vault.1
  have hto := hsp hg.hPayable.owner
  refine ⟨?_, hg.hRunning, ?_, he.trans hg.hTokenRunning, hw, hg.hMint, ?_, by rw [hf]; exact hg.hFee, hg.hNet, ?_⟩
  · obtain ⟨⟨h1, h2, h3⟩, h4⟩ := hg.hSettings
    have := ho ks hks hkst
    exact ⟨⟨by rw [this]; exact h1, by rw [this]; exact h2, h3⟩, h4⟩
  · obtain ⟨h1, h2, h3, h4, h5⟩ := hg.hToken
    exact ⟨ht, hk.trans h2, by rw [ha]; exact h3, by rw [hkv]; exact h4, by rw [hkv]; exact h5⟩
  · rcases hg.hTo with ⟨h1, h2⟩ | h1
    · exact .inl ⟨h1, by rw [hto]; exact h2⟩
    · exact .inr h1
  · obtain ⟨h1, h2, h3⟩ := hg.hPayable
    exact ⟨by rw [hto]; exact h1, by rw [hto]; exact h2, by rw [hto]; exact h3⟩

/-- C77: the payout of a new confirmed transfer that is above a limit, or for which the vault holds too little, is accepted but moves no token and
changes nothing but the record of the withdrawal and the daily sums of the token: above a limit it then waits for approval, else it is pending. -/
theorem C77_sol_held (hd : env.Distinct) (hg : SolPayout env w mint ks kt kv k to s t v r fee net) (hc : Confirmed r) (hst : r.md.status = .new)
    (hday : releasedOn t (epochOf now) + net.toNat < 2 ^ 64) (hfs : t.feeSupply.toNat + fee.toNat < 2 ^ 64)
    (hh : ¬ Within t (epochOf now) net.toNat ∨ bal w kv < net.toNat) (h : TP.Client.withdrawSolIx env k to mint = .ok ix) :
    ∃ w' t' st, TP.process env (ix.ctx now) cpi ix.data w = .ok w' ∧ NoTokens w w' ∧ Only k kt w w' ∧
      Booked (epochOf now) fee.toNat net.toNat t t' ∧ SolPayout env w' mint ks kt kv k to s t' v (r.withStatus st) fee net ∧
      (¬ Within t (epochOf now) net.toNat → st = .waitingForApprove) ∧ (Within t (epochOf now) net.toNat → st = .pending) := by
  obtain ⟨w', hw'⟩ := C52_tp_withdrawSol (cpi := cpi) (now := now) hd hg (fun _ => hday) (fun _ => hfs) h
  obtain rfl := withdrawSol_ctx hg.hSettings hg.hToken h
  have hrun := hw'
  rw [process_enc rfl] at hrun
  obtain ⟨_, _, _, _, _, r', t0, v0, e1, e2, e3, e4, e5, hr', ht', hkd, -, -, hne, hor⟩ := withdrawSol_fx hrun
  cases e1; cases e2; cases e3; cases e4; cases e5
  obtain rfl := hr'.2.1.unique hg.hWd.holds
  obtain rfl := ht'.2.1.unique hg.hToken.here.2.1
  obtain ⟨_, _, _, r2, t2, e1, e2, e3, hr2, ht2, honly⟩ := withdrawSol_only hrun
  cases e1; cases e2; cases e3
  obtain rfl := hr2.unique hg.hWd.holds
  obtain rfl := ht2.unique hg.hToken.here.2.1
  have hnet : ∀ {f' n' : U64}, TP.feeOf t2.feeWithdrawalInfo (r2.event.amount.setWidth 64) = .ok f' →
      n'.toNat + f'.toNat = (r2.event.amount.setWidth 64 : U64).toNat → f' = fee ∧ n' = net := by
    intro f' n' h1 h2
    rw [hg.feeOf] at h1
    cases h1
    exact ⟨rfl, BitVec.eq_of_toNat_eq (by rw [low, ← hg.hNet] at h2; omega)⟩
  have honly : Only k kt w w' := by
    rcases honly with h | ⟨f', n', h1, h2, h3, h4⟩
    · exact h
    · obtain ⟨rfl, rfl⟩ := hnet h1 h2
      rcases hh with hh | hh
      · exact (hh (h4 hst)).elim
      · have h3' : n'.toNat ≤ bal w kv := h3
        omega
  rcases hor with ⟨-, h1, -⟩ | ⟨-, fee', net', st, t', hfee', hnet', hrec, hor⟩
  · exact (h1 ⟨hc, hst⟩).elim
  · obtain ⟨rfl, rfl⟩ := hnet hfee' hnet'
    have key : ∀ {c : Ctx}, bal w kv < net'.toNat → SolOut env c kv to mint r2 net'.toNat w w' st → NoTokens w w' ∧ st = .pending := by
      intro c hb ho
      cases ho with
      | short _ hb' h => exact ⟨h, rfl⟩
      | paid _ h2 _ => have := h2.1; omega
    rcases hor with ⟨-, hbk, hor⟩ | ⟨hn, -⟩
    · have hfin : NoTokens w w' ∧ (¬ Within t2 (epochOf now) net'.toNat → st = .waitingForApprove) ∧ (Within t2 (epochOf now) net'.toNat → st = .pending) := by
        rcases hor with ⟨h1, h2, h3⟩ | ⟨h1, h2⟩
        · exact ⟨h3, fun _ => h2, fun h => (h1 h).elim⟩
        · rcases hh with hh | hh
          · exact (hh h1).elim
          · obtain ⟨h3, h4⟩ := key hh h2
            exact ⟨h3, fun h => (h h1).elim, fun _ => h4⟩
      have hb := hbk.rest
      refine ⟨w', t', st, hw', hfin.1, honly, hbk, ?_, hfin.2⟩
      exact SolPayout.held hd hg honly ⟨hrec.owner.trans hg.hWd.owner, hrec.record, hg.hWd.init, hg.hWd.addr⟩
        (TokenAt.booked hg.hToken.here hb hrec.ownerToken hrec.token)
        (congrArg (·.kind) hb) (congrArg (·.accountKind) hb) (congrArg (·.emergency) hb) (congrArg (·.feeWithdrawalInfo) hb)
    · rw [hst] at hn; cases hn

/-- C77: if the vault holds too little when the withdrawal manager approves, no token moves and the transfer is pending instead. -/
theorem C77_sol_approved_short (hd : env.Distinct) (hg : SolPayout env w mint ks kt kv k to s t v r fee net) (hau : s.withdrawalManager = au)
    (hst : r.md.status = .waitingForApprove) (hday : r.md.epoch = epochOf now → net.toNat ≤ t.withdrawalDailyAmount.toNat)
    (hb : bal w kv < net.toNat) (h : TP.Client.approveSolIx env au k to mint = .ok ix) :
    ∃ w' t', TP.process env (ix.ctx now) cpi ix.data w = .ok w' ∧ NoTokens w w' ∧ Only k kt w w' ∧
      Released (epochOf now) r.md.epoch net.toNat t t' ∧ SolPayout env w' mint ks kt kv k to s t' v (r.withStatus .pending) fee net := by
  obtain ⟨w', hw'⟩ := C52_tp_approveSol (cpi := cpi) (now := now) hd hg hau hst hday h
  obtain rfl := approveSol_ctx hg.hSettings hg.hToken h
  have hrun := hw'
  rw [process_enc rfl] at hrun
  obtain ⟨-, _, _, _, _, r', t0, v0, e1, e2, e3, e4, hr', ht', hkd, -, -, hne, -, fee', net', st, t', hfee', hnet', hrec, hrel, ho⟩ := approveSol_fx hrun
  cases e1; cases e2; cases e3; cases e4
  obtain rfl := hr'.2.1.unique hg.hWd.holds
  obtain rfl := ht'.2.1.unique hg.hToken.here.2.1
  obtain ⟨_, _, _, r2, t2, e1, e2, e3, hr2, ht2, honly⟩ := approveSol_only hrun
  cases e1; cases e2; cases e3
  obtain rfl := hr2.unique hg.hWd.holds
  obtain rfl := ht2.unique hg.hToken.here.2.1
  have hnet : ∀ {f' n' : U64}, TP.feeOf t2.feeWithdrawalInfo (r2.event.amount.setWidth 64) = .ok f' →
      n'.toNat + f'.toNat = (r2.event.amount.setWidth 64 : U64).toNat → f' = fee ∧ n' = net := by
    intro f' n' h1 h2
    rw [hg.feeOf] at h1
    cases h1
    exact ⟨rfl, BitVec.eq_of_toNat_eq (by rw [low, ← hg.hNet] at h2; omega)⟩
  have honly : Only k kt w w' := by
    rcases honly with h | ⟨f', n', h1, h2, h3⟩
    · exact h
    · obtain ⟨rfl, rfl⟩ := hnet h1 h2
      have h3' : n'.toNat ≤ bal w kv := h3
      omega
  obtain ⟨rfl, rfl⟩ := hnet hfee' hnet'
  cases ho with
  | paid _ h2 _ =>
    have h3' : net'.toNat ≤ bal w kv := h2.1
    omega
  | short _ _ hno =>
    have hb' : t' = { t2 with feeSupply := t2.feeSupply, withdrawalDailyAmount := t'.withdrawalDailyAmount, withdrawalEpoch := t2.withdrawalEpoch } := by
      unfold Released at hrel
      split at hrel
      · exact hrel.2
      · subst hrel; rfl
    exact ⟨w', t', hw', hno, honly, hrel, SolPayout.held hd hg honly ⟨hrec.owner.trans hg.hWd.owner, hrec.record, hg.hWd.init, hg.hWd.addr⟩
      (TokenAt.booked hg.hToken.here hb' hrec.ownerToken hrec.token)
      (congrArg (·.kind) hb') (congrArg (·.accountKind) hb') (congrArg (·.emergency) hb') (congrArg (·.feeWithdrawalInfo) hb')⟩

/-- C77: a pending transfer is payable as soon as somebody deposits enough of the token: the deposit is accepted, and then the payout, which needs no
signature, moves the tokens from the vault to the recipient. -/
theorem C77_sol_refill {ct dep kmv : Pubkey} {m : MintAcc} {seed : U128} {name symbol payload : Bytes} {amount value fee' net' : U64} {evers : Pubkey}
    {recipient : EverAddress} (hd : env.Distinct) (hg : SolPayout env w mint ks kt kv k to s t v r fee net) (hc : Confirmed r)
    (hst : r.md.status = .pending) (hal : (w.acc kt).lamports ≠ 0) (hm : (w.acc mint).data = .mint m) (hname : name.length ≤ 32)
    (hsymbol : symbol.length ≤ 32) (hn : NewDeposit env w f dep kmv seed value) (hsp : Spendable env w ct mint au amount.toNat)
    (hlam : (w.acc kv).lamports + amount.toNat < 2 ^ 64) (hlim : v.amount.toNat + amount.toNat ≤ t.depositLimit.toNat)
    (hfee : feeSpec t.feeDepositInfo.multiplier.toNat t.feeDepositInfo.divisor.toNat amount.toNat = some fee'.toNat)
    (hnet : net'.toNat + fee'.toNat = amount.toNat) (hfs : t.feeSupply.toNat + fee'.toNat < 2 ^ 64)
    (hpl : t.name.length + t.symbol.length + payload.length ≤ 806) (hne : ct ≠ kv ∧ to ≠ ct ∧ to ≠ kv)
    (hnat : v.isNative.isSome = true → ∃ d, (w.acc ct).data = .token d ∧ d.isNative.isSome = true) (hb : net.toNat ≤ bal w kv + amount.toNat)
    (hix1 : TP.Client.depositSolIx env f au ct mint seed name symbol amount recipient value evers payload = .ok ix1)
    (hix2 : TP.Client.withdrawSolIx env k to mint = .ok ix2) :
    ∃ w1 w2, TP.process env (ix1.ctx t1) cpi ix1.data w = .ok w1 ∧ TP.process env (ix2.ctx t2) cpi ix2.data w1 = .ok w2 ∧
      Moves ct kv amount.toNat w w1 ∧ Moves kv to net.toNat w1 w2 ∧
      WdReady wSolEventC env w2 k (r.withStatus (doneStatus r.event.payload)) := by
  obtain ⟨w1, hw1⟩ := C52_tp_depositSol (cpi := cpi) (now := t1) hd hg.hSettings hg.hRunning hg.hToken hal hg.hTokenRunning hm hname hsymbol hn hsp hlam hlim
    hfee hnet hfs hpl hix1
  obtain ⟨n, pn, pd0, hk0, hsn, hpn⟩ := id hg.hSettings.addr
  obtain ⟨n2, vn, hk2, htn, hvn⟩ := id hg.hToken.addr
  obtain ⟨hwf, rfl⟩ := depositSol_ctx ⟨_, hsn⟩ ⟨_, htn⟩ ⟨_, hvn⟩ hn hix1
  have hrun := hw1
  rw [process_enc hwf] at hrun
  obtain ⟨_, _, _, _, _, _, _, _, wx, t0, tm, tv, m0, t', fe, ne, e0, e1, e2, e3, e4, e5, e6, e7, -, -, -, hor, -, ht0, -, -, -, -, -, -, -, -, -, hmv, -, -, -,
    hh, hb', -, how, -⟩ := depositSol_fx hrun
  cases e0; cases e1; cases e2; cases e3; cases e4; cases e5; cases e6; cases e7
  have hmv : Moves ct kv amount.toNat w w1 ∧ t0 = t ∧ (w1.acc kt).owner = (w.acc kt).owner := by
    rcases hor with ⟨rfl, -⟩ | ⟨h0, -⟩
    · exact ⟨hmv, ht0.2.1.unique hg.hToken.here.2.1, how⟩
    · exact (hal h0).elim
  obtain ⟨hmv, rfl, how⟩ := hmv
  obtain ⟨_, _, _, _, _, _, _, e0, e1, e2, e3, e4, e6, e7, hx⟩ := depositSol_xfer hrun
  cases e0; cases e1; cases e2; cases e3; cases e4; cases e6; cases e7
  obtain ⟨wt, hxf, hrest⟩ := hx hal
  obtain ⟨-, -, -, -, -, hov, -, sd, d, s', hsd, hdd, -, -, -, -, -, ⟨hcv, -⟩ | ⟨-, hadd, -, -, -, hkvt, hoth⟩⟩ := splTransfer_ok hxf
  · exact (hne.1 hcv).elim
  have hdv : d = v := by
    have h1 : (w.acc kv).data = .token d := hdd
    rw [hg.hToken.vault.2.1] at h1; cases h1; rfl
  subst hdv
  obtain ⟨mvv, mvn, hmvh, -, hmvk, -⟩ := hn.hMulti.holds
  have notp : ∀ {x}, (w.acc x).owner = env.tpId → x ≠ f ∧ x ≠ dep ∧ x ≠ ct ∧ x ≠ kv := fun {x} hown =>
    ⟨by rintro rfl; exact hd.tpSys (hown.symm.trans hn.hWallet.system), by rintro rfl; exact hd.tpSys (hown.symm.trans hn.hVacant.2.2),
      by rintro rfl; exact hd.tpSpl (hown.symm.trans hsp.owner), by rintro rfl; exact hd.tpSpl (hown.symm.trans hg.hToken.vault.1)⟩
  have nosp : ∀ {x}, (w.acc x).owner = env.splId → x ≠ f ∧ x ≠ dep ∧ x ≠ kmv ∧ x ≠ kt := fun {x} hown =>
    ⟨by rintro rfl; exact hd.sysSpl (hn.hWallet.system.symm.trans hown), by rintro rfl; exact hd.sysSpl (hn.hVacant.2.2.symm.trans hown),
      by rintro rfl; exact hd.tpSpl (hn.hMulti.owner.symm.trans hown), by rintro rfl; exact hd.tpSpl (hg.hToken.here.1.symm.trans hown)⟩
  have hk1 : w1.acc k = w.acc k := by
    obtain ⟨a1, a2, a3, a4⟩ := notp hg.hWd.owner
    obtain ⟨_, _, hk1, -⟩ := hg.hWd.addr
    rw [hrest k a1 a2 ?_ ?_, hoth k a3 a4]
    · rintro rfl
      have := (Head.unique (head_multiVault hmvh) (head_withdrawal hg.hWd.holds)).2
      rw [hmvk, hk1] at this; cases this
    · rintro rfl
      exact token_ne_wd hg.hToken.here.2.1 hg.hWd.holds hk2 hk1
  have hks1 : w1.acc ks = w.acc ks := by
    obtain ⟨a1, a2, a3, a4⟩ := notp hg.hSettings.here.1
    rw [hrest ks a1 a2 ?_ (Ready.ne_token hg.hSettings hg.hToken.here), hoth ks a3 a4]
    rintro rfl
    have := (Head.unique (head_multiVault hmvh) (head_settings hg.hSettings.here.2.1)).2
    rw [hmvk, hk0] at this; cases this
  have hto1 : w1.acc to = w.acc to := by
    obtain ⟨a1, a2, a3, a4⟩ := nosp hg.hPayable.owner
    rw [hrest to a1 a2 a3 a4, hoth to hne.2.1 hne.2.2]
  have hkv1 : w1.acc kv = ⟨if sd.isNative.isSome then (w.acc kv).lamports + amount.toNat else (w.acc kv).lamports, env.splId,
      .token { d with amount := d.amount + amount }⟩ := by
    obtain ⟨a1, a2, a3, a4⟩ := nosp hg.hToken.vault.1
    rw [hrest kv a1 a2 a3 a4]; exact hkvt
  have hamt : (d.amount + amount).toNat = d.amount.toNat + amount.toNat := by
    rw [BitVec.toNat_add, Nat.mod_eq_of_lt hadd]
  have hg1 : SolPayout env w1 mint ks kt kv k to s t' { d with amount := d.amount + amount } r fee net := by
    have hb2 : t' = { t0 with feeSupply := t'.feeSupply, withdrawalDailyAmount := t0.withdrawalDailyAmount, withdrawalEpoch := t0.withdrawalEpoch } := hb'
    refine ⟨?_, hg.hRunning, ?_, (congrArg (·.emergency) hb').trans hg.hTokenRunning, ?_, hg.hMint, ?_, ?_, hg.hNet, ?_⟩
    · obtain ⟨⟨h1, h2, h3⟩, h4⟩ := hg.hSettings
      exact ⟨⟨by rw [hks1]; exact h1, by rw [hks1]; exact h2, h3⟩, h4⟩
    · obtain ⟨h1, h2, h3, ⟨h4, h5, h6, h7, h8, h9⟩, h10⟩ := hg.hToken
      refine ⟨TokenAt.booked h1 hb2 how hh, (congrArg (·.kind) hb').trans h2, ?_, ⟨by rw [hkv1], by rw [hkv1], h6, h7, h8, h9⟩, fun hn => ?_⟩
      · rw [show t'.accountKind = t0.accountKind from congrArg (·.accountKind) hb']; exact h3
      · rw [hkv1, hamt]
        obtain ⟨d2, hd2, hd3⟩ := hnat hn
        have h11 : (w.acc ct).data = .token sd := hsd
        rw [h11] at hd2; cases hd2
        rw [if_pos hd3]
        have := h10 hn
        simp only
        omega
    · obtain ⟨h1, h2, h3, h4⟩ := hg.hWd
      exact ⟨by rw [hk1]; exact h1, by rw [hk1]; exact h2, h3, h4⟩
    · rcases hg.hTo with ⟨h1, h2⟩ | h1
      · exact .inl ⟨h1, by rw [hto1]; exact h2⟩
      · exact .inr h1
    · rw [show t'.feeWithdrawalInfo = t0.feeWithdrawalInfo from congrArg (·.feeWithdrawalInfo) hb']; exact hg.hFee
    · obtain ⟨h1, h2, h3⟩ := hg.hPayable
      exact ⟨by rw [hto1]; exact h1, by rw [hto1]; exact h2, by rw [hto1]; exact h3⟩
  obtain ⟨-, w2, h1, h2, h3⟩ := C60_sol_paid (cpi := cpi) (now := t2) hd hg1 hc (.inr hst) (by
    have e1 : bal w kv = d.amount.toNat := by rw [bal, hg.hToken.vault.2.1]
    have e2 : bal w1 kv = (d.amount + amount).toNat := by rw [bal, hkv1]
    omega) hix2
  exact ⟨w1, w2, hw1, h1, hmv, h2, h3⟩

/-- Request and votes bring a transfer of a Solana token to the point where it can be paid out, and move no token. -/
theorem sol_voted {e : WSolEvent} (hd : env.Distinct) (hs : Ready env w ks s) (hse : s.emergency = false)
    (ht : SolReady env w mint kt kv t v) (hte : t.emergency = false) (hw : NewWithdrawal env w t1 f k krs kr rs rr 0)
    (hk : IsAddr env env.tpId (proposalSeeds rr.roundNumber pda (env.hash (wSolEventC.enc e))) k) (hm : e.mint = mint) (hp : e.payload = [])
    (hpl : rr.relays.length ≤ 798) (hto : ∃ d, (w.acc to).data = .token d ∧ d.owner = e.recipient) (hpay : Payable env w to mint net.toNat)
    (hfee : feeSpec t.feeWithdrawalInfo.multiplier.toNat t.feeWithdrawalInfo.divisor.toNat (e.amount.toNat % 2 ^ 64) = some fee.toNat)
    (hnet : net.toNat + fee.toNat = e.amount.toNat % 2 ^ 64) (hc : CanVote w k rr.relays (List.replicate rr.relays.length .none) l)
    (hq : (RL.requiredVotes rr.relays.length rs.minRequiredVotes).toNat ≤ l.length) (hlt : to ∉ l.map (·.1))
    (hix1 : TP.Client.solRequestIx env f au pda rr.roundNumber e att = .ok ix1) :
    ∃ w1 w2 r, TP.process env (ix1.ctx t1) cpi ix1.data w = .ok w1 ∧ Voted env cpi k rr.roundNumber .confirm l w1 w2 ∧ NoTokens w w2 ∧
      SolPayout env w2 mint ks kt kv k to s t v r fee net ∧ Confirmed r ∧ r.event = e ∧ r.author = au ∧ r.md.status = .new ∧ r.md.epoch = epochOf t1 := by
  obtain ⟨w1, n, len, hp1, ha⟩ := solRequest_asked (cpi := cpi) ht hm hw hk hp hpl hix1
  have hv := hw.hVacant
  have hne : ∀ {x o}, (w.acc x).owner = o → o ≠ env.systemId → x ≠ k := by
    rintro x o h1 h2 rfl; exact h2 (h1.symm.trans hv.2.2)
  have hks := hne hs.here.1 hd.tpSys
  have hkt := hne ht.here.1 hd.tpSys
  have hkv' := hne ht.vault.1 hd.sysSpl.symm
  have hkr := hne hw.hRound.here.1 hd.rlSys
  have hto' := hne hpay.owner hd.sysSpl.symm
  have hkv : kv ≠ f := by rintro rfl; exact hd.sysSpl (hw.hWallet.system.symm.trans ht.vault.1)
  have eff := fun x (hx : x ≠ k) => ha.eff x (by simpa using hx)
  have hg : SolPayout env w1 mint ks kt kv k to s t v (asked n none au rs rr pda len e t1) fee net := by
    refine ⟨hs.eff ha.eff (by simpa using hks), hse, ?_, hte, ha.wd, hm, .inl ⟨hp, ?_⟩, hfee, hnet, ?_⟩
    · obtain ⟨h1, h2, h3, h4, h5⟩ := ht
      exact ⟨h1.eff ha.eff (by simpa using hkt), h2, h3, by rw [(eff kv hkv').1, (eff kv hkv').2]; exact h4,
        fun h => by rw [ha.lam kv hkv', if_neg hkv]; exact h5 h⟩
    · rw [(eff to hto').1]; exact hto
    · obtain ⟨h1, h2, h3⟩ := hpay
      exact ⟨by rw [(eff to hto').2]; exact h1, by rw [(eff to hto').1]; exact h2, by rw [ha.lam to hto']; omega⟩
  have hr : RL.RoundReady env w1 kr rr := ⟨⟨(eff kr hkr).2.trans hw.hRound.here.1, holds_eff ha.eff (by simpa using hkr) hw.hRound.here.2.1,
    hw.hRound.here.2.2⟩, hw.hRound.addr⟩
  have hll : l.length ≤ rr.relays.length := by simpa using hc.le
  obtain ⟨w2, votes, h1, h2, h3, h4⟩ := votes_sent (cpi := cpi) hd.rlTp (v := .confirm) (by decide) ha.gen hr rfl (ha.canVote hc)
    (by rw [ha.self]; exact Nat.le_trans (Nat.mul_le_mul_left _ hll) (by omega))
  have hw2 := WdReady.voted ha.wd ha.gen h2 h3.length
  have hbal : NoTokens w1 w2 := fun x => by
    by_cases e : x = k
    · subst e
      obtain ⟨b, _, hb, -⟩ := ha.wd.holds
      obtain ⟨b', _, hb', -⟩ := hw2.holds
      simp only [bal, supply, hb, hb', and_self]
    · simp only [bal, supply, h4.data x e, and_self]
  refine ⟨w1, w2, _, hp1, h1, (ha.noTokens hv).trans hbal, SolPayout.voted hd hg hlt h4 hw2, ?_, rfl, rfl, rfl, rfl⟩
  show (RL.requiredVotes rr.relays.length rs.minRequiredVotes).toNat ≤ votes.count .confirm
  rw [h3.count, show (Withdrawal.view wSolEventC (asked n none au rs rr pda len e t1)).signers = (asked n none au rs rr pda len e t1).signers from rfl,
    asked_count, Nat.zero_add]
  exact hq

/-- C77: a transfer of a Solana token above the limits, from start to finish. The request, the votes of a quorum, the payout (which holds the transfer
back) and the approval of the withdrawal manager are all accepted; together they move exactly the amount less the fee from the vault to the recipient. -/
theorem C77_sol_over {e : WSolEvent} {wm : Pubkey} (hd : env.Distinct) (hs : Ready env w ks s) (hse : s.emergency = false)
    (ht : SolReady env w mint kt kv t v) (hte : t.emergency = false) (hw : NewWithdrawal env w t1 f k krs kr rs rr 0)
    (hk : IsAddr env env.tpId (proposalSeeds rr.roundNumber pda (env.hash (wSolEventC.enc e))) k) (hm : e.mint = mint) (hp : e.payload = [])
    (hpl : rr.relays.length ≤ 798) (hto : ∃ d, (w.acc to).data = .token d ∧ d.owner = e.recipient) (hpay : Payable env w to mint net.toNat)
    (hfee : feeSpec t.feeWithdrawalInfo.multiplier.toNat t.feeWithdrawalInfo.divisor.toNat (e.amount.toNat % 2 ^ 64) = some fee.toNat)
    (hnet : net.toNat + fee.toNat = e.amount.toNat % 2 ^ 64) (hlim : ¬ Within t (epochOf t2) net.toNat)
    (hday : releasedOn t (epochOf t2) + net.toNat < 2 ^ 64) (hfs : t.feeSupply.toNat + fee.toNat < 2 ^ 64) (hb : net.toNat ≤ bal w kv)
    (hc : CanVote w k rr.relays (List.replicate rr.relays.length .none) l)
    (hq : (RL.requiredVotes rr.relays.length rs.minRequiredVotes).toNat ≤ l.length) (hlt : to ∉ l.map (·.1)) (hwm : s.withdrawalManager = wm)
    (hix1 : TP.Client.solRequestIx env f au pda rr.roundNumber e att = .ok ix1) (hix2 : TP.Client.withdrawSolIx env k to mint = .ok ix2)
    (hix3 : TP.Client.approveSolIx env wm k to mint = .ok ix3) :
    ∃ w1 w2 w3 w4, TP.process env (ix1.ctx t1) cpi ix1.data w = .ok w1 ∧ Voted env cpi k rr.roundNumber .confirm l w1 w2 ∧
      TP.process env (ix2.ctx t2) cpi ix2.data w2 = .ok w3 ∧ NoTokens w w3 ∧ TP.process env (ix3.ctx t3) cpi ix3.data w3 = .ok w4 ∧
      Moves kv to net.toNat w w4 ∧ ∃ r, WdReady wSolEventC env w4 k r ∧ r.event = e ∧ r.author = au ∧ r.md.status = .processed := by
  obtain ⟨w1, w2, r, h1, h2, h3, hg, hcf, rfl, rfl, hst, hep⟩ := sol_voted (cpi := cpi) hd hs hse ht hte hw hk hm hp hpl hto hpay hfee hnet hc hq hlt hix1
  obtain ⟨w3, t', st, h4, h5, -, hbk, hg3, hwait, -⟩ := C77_sol_held (cpi := cpi) (now := t2) hd hg hcf hst hday hfs (.inl hlim) hix2
  obtain rfl := hwait hlim
  have hno := h3.trans h5
  obtain ⟨w4, h6, h7, h8⟩ := C60_sol_approved (cpi := cpi) (now := t3) hd hg3 hwm rfl
    (fun _ => by rw [hbk.daily]; omega) (by rw [(hno kv).1]; exact hb) hix3
  refine ⟨w1, w2, w3, w4, h1, h2, h4, hno, h6, moves_after hno h7, _, h8, rfl, rfl, ?_⟩
  show doneStatus r.event.payload = _
  rw [hp]; rfl

/-- C77: a transfer of a Solana token for which the vault holds too little, from start to finish: request, votes and payout are accepted and leave
the transfer pending, with no token moved. What then pays it is `C77_sol_refill`. -/
theorem C77_sol_short {e : WSolEvent} (hd : env.Distinct) (hs : Ready env w ks s) (hse : s.emergency = false)
    (ht : SolReady env w mint kt kv t v) (hte : t.emergency = false) (hw : NewWithdrawal env w t1 f k krs kr rs rr 0)
    (hk : IsAddr env env.tpId (proposalSeeds rr.roundNumber pda (env.hash (wSolEventC.enc e))) k) (hm : e.mint = mint) (hp : e.payload = [])
    (hpl : rr.relays.length ≤ 798) (hto : ∃ d, (w.acc to).data = .token d ∧ d.owner = e.recipient) (hpay : Payable env w to mint net.toNat)
    (hfee : feeSpec t.feeWithdrawalInfo.multiplier.toNat t.feeWithdrawalInfo.divisor.toNat (e.amount.toNat % 2 ^ 64) = some fee.toNat)
    (hnet : net.toNat + fee.toNat = e.amount.toNat % 2 ^ 64) (hlim : Within t (epochOf t2) net.toNat)
    (hfs : t.feeSupply.toNat + fee.toNat < 2 ^ 64) (hb : bal w kv < net.toNat)
    (hc : CanVote w k rr.relays (List.replicate rr.relays.length .none) l)
    (hq : (RL.requiredVotes rr.relays.length rs.minRequiredVotes).toNat ≤ l.length) (hlt : to ∉ l.map (·.1))
    (hix1 : TP.Client.solRequestIx env f au pda rr.roundNumber e att = .ok ix1) (hix2 : TP.Client.withdrawSolIx env k to mint = .ok ix2) :
    ∃ w1 w2 w3 t' r, TP.process env (ix1.ctx t1) cpi ix1.data w = .ok w1 ∧ Voted env cpi k rr.roundNumber .confirm l w1 w2 ∧
      TP.process env (ix2.ctx t2) cpi ix2.data w2 = .ok w3 ∧ NoTokens w w3 ∧ SolPayout env w3 mint ks kt kv k to s t' v r fee net ∧ Confirmed r ∧
      Booked (epochOf t2) fee.toNat net.toNat t t' ∧ r.event = e ∧ r.author = au ∧ r.md.status = .pending := by
  obtain ⟨w1, w2, r, h1, h2, h3, hg, hcf, rfl, rfl, hst, hep⟩ := sol_voted (cpi := cpi) hd hs hse ht hte hw hk hm hp hpl hto hpay hfee hnet hc hq hlt hix1
  obtain ⟨w3, t', st, h4, h5, -, hbk, hg3, -, hpend⟩ := C77_sol_held (cpi := cpi) (now := t2) hd hg hcf hst (Within.fits hlim) hfs
    (.inr (by rw [(h3 kv).1]; exact hb)) hix2
  obtain rfl := hpend hlim
  exact ⟨w1, w2, w3, t', _, h1, h2, h4, h3.trans h5, hg3, hcf, hbk, rfl, rfl, rfl⟩

end Sol

section Ever
variable {token : EverAddress} {km : Pubkey} {m : MintAcc} {r : Withdrawal WEverEvent}

/-- After new contents of the two records a payout is as possible as before. -/
theorem EverPayout.held {w' : World} {t' : TokenSettings} {md : WMeta} (hd : env.Distinct) (hg : EverPayout env w token ks kt km k to s t m r fee net)
    (ho : Only k kt w w') (hw : WdReady wEverEventC env w' k { r with md := md }) (ht : TokenAt env w' kt t') (hl : (w'.acc kt).lamports = (w.acc kt).lamports)
    (hk : t'.kind = t.kind) (ha : t'.accountKind = t.accountKind) (he : t'.emergency = t.emergency) (hf : t'.feeWithdrawalInfo = t.feeWithdrawalInfo) :
    EverPayout env w' token ks kt km k to s t' m { r with md := md } fee net := by
  have hks : ks ≠ k := Ready.ne_wd hg.hSettings hg.hWd
  have hkst : ks ≠ kt := Ready.ne_token hg.hSettings hg.hToken.here
  have hsp : ∀ {x}, (w.acc x).owner = env.splId → w'.acc x = w.acc x := fun {x} hx => ho x
    (by rintro rfl; exact hd.tpSpl (hg.hWd.owner.symm.trans hx)) (by rintro rfl; exact hd.tpSpl (hg.hToken.here.1.symm.trans hx))
  have hkm := hsp hg.hToken.mint.1
  have hto := hsp hg.hMintable.owner
  refine ⟨?_, hg.hRunning, ?_, by rw [hl]; exact hg.hAlive, he.trans hg.hTokenRunning, hw, hg.hEvent, ?_, hg.hDecimals, hg.hFits,
    by rw [hf]; exact hg.hFee, hg.hNet, ?_, hg.hSupply⟩
  · obtain ⟨⟨h1, h2, h3⟩, h4⟩ := hg.hSettings
    have := ho ks hks hkst
    exact ⟨⟨by rw [this]; exact h1, by rw [this]; exact h2, h3⟩, h4⟩
  · obtain ⟨h1, h2, h3, h4⟩ := hg.hToken
    exact ⟨ht, by rw [hk]; exact h2, by rw [ha]; exact h3, by rw [hkm]; exact h4⟩
  · rcases hg.hTo with ⟨h1, h2⟩ | h1
    · exact .inl ⟨h1, by rw [hto]; exact h2⟩
    · exact .inr h1
  · obtain ⟨h1, h2⟩ := hg.hMintable
    exact ⟨by rw [hto]; exact h1, by rw [hto]; exact h2⟩

/-- C77: the payout of a new confirmed transfer of an Everscale token that is above a limit is accepted but mints nothing and changes only the record of
the withdrawal, which then waits for approval, and the daily sums of the token. -/
theorem C77_ever_held (hd : env.Distinct) (hg : EverPayout env w token ks kt km k to s t m r fee net) (hc : Confirmed r) (hst : r.md.status = .new)
    (hday : releasedOn t (epochOf now) + net.toNat < 2 ^ 64) (hfs : t.feeSupply.toNat + fee.toNat < 2 ^ 64)
    (hh : ¬ Within t (epochOf now) net.toNat) (h : TP.Client.withdrawEverIx env k to token = .ok ix) :
    ∃ w' t', TP.process env (ix.ctx now) cpi ix.data w = .ok w' ∧ NoTokens w w' ∧ Only k kt w w' ∧
      Booked (epochOf now) fee.toNat net.toNat t t' ∧ EverPayout env w' token ks kt km k to s t' m (r.withStatus .waitingForApprove) fee net := by
  obtain ⟨w', hw'⟩ := C52_tp_withdrawEver (cpi := cpi) (now := now) hd hg hday hfs h
  obtain rfl := withdrawEver_ctx hg.hSettings hg.hToken h
  have hrun := hw'
  rw [process_enc rfl] at hrun
  obtain ⟨amount, ha, he, hf⟩ := hg.amount
  obtain ⟨_, _, _, _, r', e1, e2, e3, e4, hr', hor⟩ := withdrawEver_fx hrun
  cases e1; cases e2; cases e3; cases e4
  obtain rfl := hr'.2.1.unique hg.hWd.holds
  obtain ⟨_, _, _, r2, e1, e2, e3, hr2, honly⟩ := withdrawEver_only hrun
  cases e1; cases e2; cases e3
  obtain rfl := hr2.unique hg.hWd.holds
  obtain ⟨t2, m2, ht2, hm2, honly⟩ := honly hg.hAlive
  obtain rfl := ht2.unique hg.hToken.here.2.1
  have em : m2 = m := by
    have hm2 : (w.acc km).data = .mint m2 := hm2
    rw [hg.hToken.mint.2.1] at hm2; cases hm2; rfl
  subst em
  have hnet : ∀ {a' f' n' : U64}, getWithdrawalAmount r2.event.amount r2.event.decimals m2.decimals = .ok a' →
      TP.feeOf t2.feeWithdrawalInfo a' = .ok f' → n'.toNat + f'.toNat = a'.toNat → f' = fee ∧ n' = net := by
    intro a' f' n' h0 h1 h2
    rw [ha] at h0; cases h0
    rw [hf] at h1; cases h1
    exact ⟨rfl, BitVec.eq_of_toNat_eq (by rw [he, ← hg.hNet] at h2; omega)⟩
  have honly' : Only k kt w w' := by
    rcases honly with h | ⟨a', f', n', h0, h1, h2, h3⟩
    · exact h
    · obtain ⟨rfl, rfl⟩ := hnet h0 h1 h2
      exact (hh h3).elim
  rcases hor with ⟨-, hl⟩ | ⟨w1, ⟨rfl, -⟩ | ⟨hl, -⟩, -, -, t0, m0, ⟨ht0, -, -, -, hm0⟩, ⟨-, hno⟩ | ⟨-, -, amount', fee', net', st, t', ha', hf', hn', hrec, hbk, hor⟩⟩
  · exact (hg.hAlive hl).elim
  · exact (hno ⟨hc, hst⟩).elim
  · obtain rfl := ht0.2.1.unique hg.hToken.here.2.1
    have hm0 : (w1.acc km).data = .mint m0 := hm0
    have em : m0 = m2 := by rw [hg.hToken.mint.2.1] at hm0; cases hm0; rfl
    subst em
    obtain ⟨rfl, rfl⟩ := hnet ha' hf' hn'
    rcases hor with ⟨-, rfl, hno⟩ | ⟨h1, -⟩
    · have hb := hbk.rest
      exact ⟨w', t', hw', hno, honly', hbk, EverPayout.held hd hg honly' ⟨hrec.owner.trans hg.hWd.owner, hrec.record, hg.hWd.init, hg.hWd.addr⟩
        (TokenAt.booked hg.hToken.here hb hrec.ownerToken hrec.token) hrec.lamports.2
        (congrArg (·.kind) hb) (congrArg (·.accountKind) hb) (congrArg (·.emergency) hb) (congrArg (·.feeWithdrawalInfo) hb)⟩
    · exact (hh h1).elim
  · exact (hg.hAlive hl).elim
  · exact (hg.hAlive hl).elim

/-- Request and votes bring a transfer of an Everscale token to the point where it can be paid out, and move no token. -/
theorem ever_voted {e : WEverEvent} (hd : env.Distinct) (hs : Ready env w ks s) (hse : s.emergency = false)
    (ht : EverReady env w token kt km t m) (hal : (w.acc kt).lamports ≠ 0) (hte : t.emergency = false)
    (hw : NewWithdrawal env w t1 f k krs kr rs rr 0)
    (hk : IsAddr env env.tpId (proposalSeeds rr.roundNumber pda (env.hash (wEverEventC.enc e))) k) (hm : e.token = token) (hp : e.payload = [])
    (hname : e.name.length ≤ 32) (hsymbol : e.symbol.length ≤ 32) (hpl : e.name.length + e.symbol.length + rr.relays.length ≤ 787)
    (hto : ∃ d, (w.acc to).data = .token d ∧ d.owner = e.recipient) (hpay : Mintable env w to km net.toNat)
    (hdec : e.decimals.toNat ≤ m.decimals.toNat + 38 ∧ m.decimals.toNat ≤ e.decimals.toNat + 38)
    (hfits : toSolSpec e.amount.toNat e.decimals.toNat m.decimals.toNat < 2 ^ 64)
    (hfee : feeSpec t.feeWithdrawalInfo.multiplier.toNat t.feeWithdrawalInfo.divisor.toNat (toSolSpec e.amount.toNat e.decimals.toNat m.decimals.toNat) =
      some fee.toNat)
    (hnet : net.toNat + fee.toNat = toSolSpec e.amount.toNat e.decimals.toNat m.decimals.toNat) (hsup : m.supply.toNat + net.toNat < 2 ^ 64)
    (hc : CanVote w k rr.relays (List.replicate rr.relays.length .none) l)
    (hq : (RL.requiredVotes rr.relays.length rs.minRequiredVotes).toNat ≤ l.length)
    (hix1 : TP.Client.everRequestIx env f au rr.roundNumber pda e att = .ok ix1) :
    ∃ w1 w2 r, TP.process env (ix1.ctx t1) cpi ix1.data w = .ok w1 ∧ Voted env cpi k rr.roundNumber .confirm l w1 w2 ∧ NoTokens w w2 ∧
      EverPayout env w2 token ks kt km k to s t m r fee net ∧ Confirmed r ∧ r.event = e ∧ r.author = au ∧ r.md.status = .new ∧ r.md.epoch = epochOf t1 := by
  obtain ⟨w1, n, len, hp1, ha⟩ := everRequest_asked (cpi := cpi) hw hk hp hname hsymbol hpl hix1
  have hv := hw.hVacant
  have hne : ∀ {x o}, (w.acc x).owner = o → o ≠ env.systemId → x ≠ k := by
    rintro x o h1 h2 rfl; exact h2 (h1.symm.trans hv.2.2)
  have hks := hne hs.here.1 hd.tpSys
  have hkt := hne ht.here.1 hd.tpSys
  have hkm := hne ht.mint.1 hd.sysSpl.symm
  have hkr := hne hw.hRound.here.1 hd.rlSys
  have hto' := hne hpay.owner hd.sysSpl.symm
  have eff := fun x (hx : x ≠ k) => ha.eff x (by simpa using hx)
  have hktf : kt ≠ f := by rintro rfl; exact hd.tpSys (ht.here.1.symm.trans hw.hWallet.system)
  have hg : EverPayout env w1 token ks kt km k to s t m (asked n none au rs rr pda len e t1) fee net := by
    refine ⟨hs.eff ha.eff (by simpa using hks), hse, ?_, ?_, hte, ha.wd, hm, .inl ⟨hp, ?_⟩, hdec, hfits, hfee, hnet, ?_, hsup⟩
    · obtain ⟨h1, h2, h3, h4⟩ := ht
      exact ⟨h1.eff ha.eff (by simpa using hkt), h2, h3, by rw [(eff km hkm).1, (eff km hkm).2]; exact h4⟩
    · rw [ha.lam kt hkt, if_neg hktf]; exact hal
    · rw [(eff to hto').1]; exact hto
    · obtain ⟨h1, h2⟩ := hpay
      exact ⟨by rw [(eff to hto').2]; exact h1, by rw [(eff to hto').1]; exact h2⟩
  have hr : RL.RoundReady env w1 kr rr := ⟨⟨(eff kr hkr).2.trans hw.hRound.here.1, holds_eff ha.eff (by simpa using hkr) hw.hRound.here.2.1,
    hw.hRound.here.2.2⟩, hw.hRound.addr⟩
  have hll : l.length ≤ rr.relays.length := by simpa using hc.le
  obtain ⟨w2, votes, h1, h2, h3, h4⟩ := votes_sent (cpi := cpi) hd.rlTp (v := .confirm) (by decide) ha.gen hr rfl (ha.canVote hc)
    (by rw [ha.self]; exact Nat.le_trans (Nat.mul_le_mul_left _ hll) (by omega))
  have hw2 := WdReady.voted ha.wd ha.gen h2 h3.length
  have hbal : NoTokens w1 w2 := fun x => by
    by_cases e : x = k
    · subst e
      obtain ⟨b, _, hb, -⟩ := ha.wd.holds
      obtain ⟨b', _, hb', -⟩ := hw2.holds
      simp only [bal, supply, hb, hb', and_self]
    · simp only [bal, supply, h4.data x e, and_self]
  refine ⟨w1, w2, _, hp1, h1, (ha.noTokens hv).trans hbal, EverPayout.voted hd hg h4 hw2, ?_, rfl, rfl, rfl, rfl⟩
  show (RL.requiredVotes rr.relays.length rs.minRequiredVotes).toNat ≤ votes.count .confirm
  rw [h3.count, show (Withdrawal.view wEverEventC (asked n none au rs rr pda len e t1)).signers = (asked n none au rs rr pda len e t1).signers from rfl,
    asked_count, Nat.zero_add]
  exact hq

/-- C77: a transfer of a known Everscale token above the limits, from start to finish: the approval mints the amount less the fee to the recipient. -/
theorem C77_ever_over {e : WEverEvent} {wm : Pubkey} (hd : env.Distinct) (hs : Ready env w ks s) (hse : s.emergency = false)
    (ht : EverReady env w token kt km t m) (hal : (w.acc kt).lamports ≠ 0) (hte : t.emergency = false)
    (hw : NewWithdrawal env w t1 f k krs kr rs rr 0)
    (hk : IsAddr env env.tpId (proposalSeeds rr.roundNumber pda (env.hash (wEverEventC.enc e))) k) (hm : e.token = token) (hp : e.payload = [])
    (hname : e.name.length ≤ 32) (hsymbol : e.symbol.length ≤ 32) (hpl : e.name.length + e.symbol.length + rr.relays.length ≤ 787)
    (hto : ∃ d, (w.acc to).data = .token d ∧ d.owner = e.recipient) (hpay : Mintable env w to km net.toNat)
    (hdec : e.decimals.toNat ≤ m.decimals.toNat + 38 ∧ m.decimals.toNat ≤ e.decimals.toNat + 38)
    (hfits : toSolSpec e.amount.toNat e.decimals.toNat m.decimals.toNat < 2 ^ 64)
    (hfee : feeSpec t.feeWithdrawalInfo.multiplier.toNat t.feeWithdrawalInfo.divisor.toNat (toSolSpec e.amount.toNat e.decimals.toNat m.decimals.toNat) =
      some fee.toNat)
    (hnet : net.toNat + fee.toNat = toSolSpec e.amount.toNat e.decimals.toNat m.decimals.toNat) (hsup : m.supply.toNat + net.toNat < 2 ^ 64)
    (hlim : ¬ Within t (epochOf t2) net.toNat) (hday : releasedOn t (epochOf t2) + net.toNat < 2 ^ 64) (hfs : t.feeSupply.toNat + fee.toNat < 2 ^ 64)
    (hc : CanVote w k rr.relays (List.replicate rr.relays.length .none) l)
    (hq : (RL.requiredVotes rr.relays.length rs.minRequiredVotes).toNat ≤ l.length) (hwm : s.withdrawalManager = wm)
    (hix1 : TP.Client.everRequestIx env f au rr.roundNumber pda e att = .ok ix1) (hix2 : TP.Client.withdrawEverIx env k to token = .ok ix2)
    (hix3 : TP.Client.approveEverIx env wm k to km token = .ok ix3) :
    ∃ w1 w2 w3 w4, TP.process env (ix1.ctx t1) cpi ix1.data w = .ok w1 ∧ Voted env cpi k rr.roundNumber .confirm l w1 w2 ∧
      TP.process env (ix2.ctx t2) cpi ix2.data w2 = .ok w3 ∧ NoTokens w w3 ∧ TP.process env (ix3.ctx t3) cpi ix3.data w3 = .ok w4 ∧
      Mints km to net.toNat w w4 ∧ ∃ r, WdReady wEverEventC env w4 k r ∧ r.event = e ∧ r.author = au ∧ r.md.status = .processed := by
  obtain ⟨w1, w2, r, h1, h2, h3, hg, hcf, rfl, rfl, hst, hep⟩ := ever_voted (cpi := cpi) hd hs hse ht hal hte hw hk hm hp hname hsymbol hpl hto hpay hdec hfits
    hfee hnet hsup hc hq hix1
  obtain ⟨w3, t', h4, h5, -, hbk, hg3⟩ := C77_ever_held (cpi := cpi) (now := t2) hd hg hcf hst hday hfs hlim hix2
  have hno := h3.trans h5
  obtain ⟨w4, h6, h7, h8⟩ := C60_ever_approved (cpi := cpi) (now := t3) hd hg3 hwm rfl (fun _ => by rw [hbk.daily]; omega) hix3
  refine ⟨w1, w2, w3, w4, h1, h2, h4, hno, h6, mints_after hno h7, _, h8, rfl, rfl, ?_⟩
  show doneStatus r.event.payload = _
  rw [hp]; rfl

end Ever

/-! ## On the toy chain -/

/-- the manager limits withdrawals of gold to 100 -/
private def toyLim : Except Err World := Toy.tp Toy.tpDeposited Toy.managerCtx (.changeWithdrawalLimits (some 100) none)
/-- and those of stars -/
private def toyLimE : Except Err World :=
  Toy.tp Toy.tpPaidE (Toy.tctx [Toy.manager, Toy.tpStar, Toy.tpSettings] [Toy.manager]) (.changeWithdrawalLimits (some 100) none)

private theorem released_le (t : TokenSettings) (d : I64) : releasedOn t d ≤ t.withdrawalDailyAmount.toNat := by unfold releasedOn; split <;> omega

/-- 1000 gold for bob are above the limit, and paid when the withdrawal manager approves -/
example : ∃ ix1 ix2 ix3 w1 w2 w3 w4, TP.Client.solRequestIx Toy.env Toy.funder Toy.alice Toy.pda1 1 Toy.ev1 0 = .ok ix1 ∧
    TP.process Toy.env (ix1.ctx 1000) noCpi ix1.data (Toy.get toyLim) = .ok w1 ∧
    Voted Toy.env noCpi Toy.wd1 1 .confirm [(Toy.relay 2, 1000), (Toy.relay 0, 2000), (Toy.relay 1, 1500)] w1 w2 ∧
    TP.Client.withdrawSolIx Toy.env Toy.wd1 Toy.bobGold Toy.gold = .ok ix2 ∧ TP.process Toy.env (ix2.ctx 3000) noCpi ix2.data w2 = .ok w3 ∧
    TP.Client.approveSolIx Toy.env Toy.wmanager Toy.wd1 Toy.bobGold Toy.gold = .ok ix3 ∧ TP.process Toy.env (ix3.ctx 90000) noCpi ix3.data w3 = .ok w4 ∧
    Moves Toy.tpVault Toy.bobGold 999 (Toy.get toyLim) w4 := by
  obtain ⟨ix1, h1⟩ := Toy.ix (r := TP.Client.solRequestIx Toy.env Toy.funder Toy.alice Toy.pda1 1 Toy.ev1 0) ?_
  obtain ⟨ix2, h2⟩ := Toy.ix (r := TP.Client.withdrawSolIx Toy.env Toy.wd1 Toy.bobGold Toy.gold) ?_
  obtain ⟨ix3, h3⟩ := Toy.ix (r := TP.Client.approveSolIx Toy.env Toy.wmanager Toy.wd1 Toy.bobGold Toy.gold) ?_
  obtain ⟨s, hs, hS⟩ := Toy.tp_ready (P := fun s => !s.emergency && Toy.same s.withdrawalManager Toy.wmanager) (w := Toy.get toyLim) ?_
  obtain ⟨t, v, ht, hT, -⟩ := Toy.tp_sol (P := fun t => !t.emergency && (Toy.feeIs t.feeWithdrawalInfo 5 10000 && (Nat.blt t.withdrawalLimit.toNat 999 &&
    (Nat.blt (t.withdrawalDailyAmount.toNat + 999) (2 ^ 64) && Nat.blt (t.feeSupply.toNat + 1) (2 ^ 64))))) (Q := fun _ => true)
    (w := Toy.get toyLim) ?_ ?_
  obtain ⟨rs, rr, hw, hn, hR, hq⟩ := toy_new (w := Toy.get toyLim) (k := Toy.wd1) (x := 0) ?_ ?_ ?_ ?_
  simp only [Bool.and_eq_true, Bool.not_eq_true'] at hS hT
  obtain ⟨hte, hf, hl1, hl2, hl3⟩ := hT
  obtain ⟨f1, f2⟩ := Toy.feeIs_eq hf
  obtain hc := toy_canVote (w := Toy.get toyLim) (k := Toy.wd1) (votes := List.replicate rr.relays.length .none) hR (by rw [hR]; rfl) ?_ ?_
  obtain hto := toy_holder (w := Toy.get toyLim) (to := Toy.bobGold) (who := Toy.bob) ?_
  obtain hpay := Toy.payable (w := Toy.get toyLim) (k := Toy.bobGold) (mint := Toy.gold) (n := 999) ?_
  obtain hb := Nat.le_of_ble_eq_true (n := 999) (m := bal (Toy.get toyLim) Toy.tpVault) ?_
  obtain ⟨w1, w2, w3, w4, h4, h5, h6, -, h7, h8, -⟩ := C77_sol_over (cpi := noCpi) (t1 := 1000) (t2 := 3000) (t3 := 90000) (e := Toy.ev1) (fee := 1) (net := 999)
    (k := Toy.wd1) (pda := Toy.pda1) Toy.distinct hs hS.1 ht hte hw (by rw [hn]; exact ⟨_, Toy.findAddr_eq _ _⟩) rfl rfl (by rw [hR]; decide) hto hpay
    (by rw [f1, f2]; rfl) rfl (fun h => Nat.not_le_of_lt (Nat.le_of_ble_eq_true hl1) h.1)
    (Nat.lt_of_le_of_lt (Nat.add_le_add_right (released_le _ _) _) (Nat.le_of_ble_eq_true hl2)) (Nat.le_of_ble_eq_true hl3) hb hc hq (by decide)
    (Toy.same_eq hS.2) (by rw [hn]; exact h1) h2 h3
  exact ⟨ix1, ix2, ix3, w1, w2, w3, w4, h1, h4, hn ▸ h5, h2, h6, h3, h7, h8⟩
  checked

/-- 90000 gold for bob are more than the vault holds -/
example : ∃ ix1 ix2 w1 w2 w3, TP.Client.solRequestIx Toy.env Toy.funder Toy.alice Toy.pda1 1 Toy.ev2' 0 = .ok ix1 ∧
    TP.process Toy.env (ix1.ctx 1000) noCpi ix1.data (Toy.get Toy.tpDeposited) = .ok w1 ∧
    Voted Toy.env noCpi Toy.wd2 1 .confirm [(Toy.relay 2, 1000), (Toy.relay 0, 2000), (Toy.relay 1, 1500)] w1 w2 ∧
    TP.Client.withdrawSolIx Toy.env Toy.wd2 Toy.bobGold Toy.gold = .ok ix2 ∧ TP.process Toy.env (ix2.ctx 3000) noCpi ix2.data w2 = .ok w3 ∧
    NoTokens (Toy.get Toy.tpDeposited) w3 := by
  obtain ⟨ix1, h1⟩ := Toy.ix (r := TP.Client.solRequestIx Toy.env Toy.funder Toy.alice Toy.pda1 1 Toy.ev2' 0) ?_
  obtain ⟨ix2, h2⟩ := Toy.ix (r := TP.Client.withdrawSolIx Toy.env Toy.wd2 Toy.bobGold Toy.gold) ?_
  obtain ⟨s, hs, hS⟩ := Toy.tp_ready (P := fun s => !s.emergency) (w := Toy.get Toy.tpDeposited) ?_
  obtain ⟨t, v, ht, hT, -⟩ := Toy.tp_sol (P := fun t => !t.emergency && (Toy.feeIs t.feeWithdrawalInfo 5 10000 && (Nat.ble 89955 t.withdrawalLimit.toNat &&
    (Nat.ble (t.withdrawalDailyAmount.toNat + 89955) t.withdrawalDailyLimit.toNat && Nat.blt (t.feeSupply.toNat + 45) (2 ^ 64))))) (Q := fun _ => true)
    (w := Toy.get Toy.tpDeposited) ?_ ?_
  obtain ⟨rs, rr, hw, hn, hR, hq⟩ := toy_new (w := Toy.get Toy.tpDeposited) (k := Toy.wd2) (x := 0) ?_ ?_ ?_ ?_
  simp only [Bool.and_eq_true, Bool.not_eq_true'] at hS hT
  obtain ⟨hte, hf, hl1, hl2, hl3⟩ := hT
  obtain ⟨f1, f2⟩ := Toy.feeIs_eq hf
  obtain hc := toy_canVote (w := Toy.get Toy.tpDeposited) (k := Toy.wd2) (votes := List.replicate rr.relays.length .none) hR (by rw [hR]; rfl) ?_ ?_
  obtain hto := toy_holder (w := Toy.get Toy.tpDeposited) (to := Toy.bobGold) (who := Toy.bob) ?_
  obtain hpay := Toy.payable (w := Toy.get Toy.tpDeposited) (k := Toy.bobGold) (mint := Toy.gold) (n := 89955) ?_
  obtain hb := Nat.le_of_ble_eq_true (n := bal (Toy.get Toy.tpDeposited) Toy.tpVault + 1) (m := 89955) ?_
  obtain ⟨w1, w2, w3, t', r, h3, h4, h5, h6, -⟩ := C77_sol_short (cpi := noCpi) (t1 := 1000) (t2 := 3000) (e := Toy.ev2') (fee := 45) (net := 89955) (k := Toy.wd2)
    (pda := Toy.pda1) Toy.distinct hs hS ht hte hw (by rw [hn]; exact ⟨_, Toy.findAddr_eq _ _⟩) rfl rfl (by rw [hR]; decide) hto hpay (by rw [f1, f2]; rfl) rfl
    ⟨Nat.le_of_ble_eq_true hl1, Nat.le_trans (Nat.add_le_add_right (released_le _ _) _) (Nat.le_of_ble_eq_true hl2)⟩
    (Nat.le_of_ble_eq_true hl3) hb hc hq (by decide) (by rw [hn]; exact h1) h2
  exact ⟨ix1, ix2, w1, w2, w3, h1, h3, hn ▸ h4, h2, h5, h6⟩
  checked

/-- the pending 90000 gold are paid after alice deposits 45000 more -/
example : ∃ ix1 ix2 w1 w2, TP.Client.depositSolIx Toy.env Toy.funder Toy.alice Toy.aliceGold Toy.gold 2 (ascii "Gold") (ascii "GLD") 45000 Toy.home 7 0 [] = .ok ix1 ∧
    TP.Client.withdrawSolIx Toy.env Toy.wd2 Toy.bobGold Toy.gold = .ok ix2 ∧
    TP.process Toy.env (ix1.ctx 4000) noCpi ix1.data (Toy.get Toy.tpPending) = .ok w1 ∧ TP.process Toy.env (ix2.ctx 5000) noCpi ix2.data w1 = .ok w2 ∧
    Moves Toy.aliceGold Toy.tpVault 45000 (Toy.get Toy.tpPending) w1 ∧ Moves Toy.tpVault Toy.bobGold 89955 w1 w2 := by
  obtain ⟨ix1, h1⟩ := Toy.ix (r := TP.Client.depositSolIx Toy.env Toy.funder Toy.alice Toy.aliceGold Toy.gold 2 (ascii "Gold") (ascii "GLD") 45000 Toy.home 7 0 []) ?_
  obtain ⟨ix2, h2⟩ := Toy.ix (r := TP.Client.withdrawSolIx Toy.env Toy.wd2 Toy.bobGold Toy.gold) ?_
  obtain ⟨s, hs, hS⟩ := Toy.tp_ready (P := fun s => !s.emergency) (w := Toy.get Toy.tpPending) ?_
  obtain ⟨t, v, ht, hT, hV⟩ := Toy.tp_sol (P := fun t => !t.emergency && (Toy.feeIs t.feeWithdrawalInfo 5 10000 && (Toy.feeIs t.feeDepositInfo 5 10000 &&
    (Nat.blt (t.feeSupply.toNat + 20) (2 ^ 64) && (Nat.ble 100000 t.depositLimit.toNat && Nat.ble (t.name.length + t.symbol.length + 0) 806)))))
    (Q := fun v => Nat.ble (v.amount.toNat + 45000) 100000 && v.isNative.isNone) (w := Toy.get Toy.tpPending) ?_ ?_
  obtain ⟨r, hr, hP⟩ := Toy.tp_wd (w := Toy.get Toy.tpPending) (k := Toy.wd2) (ec := wSolEventC) (P := fun r => Toy.same r.event.mint Toy.gold &&
    (Toy.same r.event.recipient Toy.bob && (Nat.beq r.event.amount.toNat 90000 && (r.event.payload.isEmpty && (decide (r.md.status = .pending) &&
      Nat.ble r.requiredVotes.toNat (r.signers.count .confirm)))))) ?_
  obtain ⟨m, hm⟩ := mintThere_ok (w := Toy.get Toy.tpPending) (k := Toy.gold) ?_
  simp only [Bool.and_eq_true, Bool.not_eq_true', List.isEmpty_iff, decide_eq_true_eq] at hS hT hV hP
  obtain ⟨hte, hf, hf', hl1, hl2, hl3⟩ := hT
  obtain ⟨f1, f2⟩ := Toy.feeIs_eq hf
  obtain ⟨f3, f4⟩ := Toy.feeIs_eq hf'
  obtain ⟨p1, p2, p3, p4, p5, p6⟩ := hP
  have ha : r.event.amount.toNat = 90000 := Nat.eq_of_beq_eq_true p3
  obtain hto := toy_holder (w := Toy.get Toy.tpPending) (to := Toy.bobGold) (who := Toy.bob) ?_
  obtain hpay := Toy.payable (w := Toy.get Toy.tpPending) (k := Toy.bobGold) (mint := Toy.gold) (n := 89955) ?_
  have hg : SolPayout Toy.env (Toy.get Toy.tpPending) Toy.gold Toy.tpSettings Toy.tpGold Toy.tpVault Toy.wd2 Toy.bobGold s t v r 45 89955 :=
    ⟨hs, hS, ht, hte, hr, Toy.same_eq p1, .inl ⟨p4, by rw [Toy.same_eq p2]; exact hto⟩, by rw [f1, f2, ha]; rfl, by rw [ha]; rfl, hpay⟩
  obtain hb := Nat.le_of_ble_eq_true (n := 89955) (m := bal (Toy.get Toy.tpPending) Toy.tpVault + 45000) ?_
  obtain hal := Nat.le_of_ble_eq_true (n := 1) (m := ((Toy.get Toy.tpPending).acc Toy.tpGold).lamports) ?_
  obtain ⟨w1, w2, h3, h4, h5, h6, -⟩ := C77_sol_refill (cpi := noCpi) (t1 := 4000) (t2 := 5000) (amount := 45000) (value := 7) (seed := 2) (payload := []) (fee' := 20)
    (net' := 44980) Toy.distinct hg (Nat.le_of_ble_eq_true p6) p5 (Nat.one_le_iff_ne_zero.1 hal) hm (by decide) (by decide) (toy_newDeposit ?_ ?_ ?_ ?_)
    (Toy.spendable ?_) (Nat.le_of_ble_eq_true ?_) (Nat.le_trans (Nat.le_of_ble_eq_true hV.1) (Nat.le_of_ble_eq_true hl2))
    (by rw [f3, f4]; rfl) rfl (Nat.le_of_ble_eq_true hl1) (Nat.le_of_ble_eq_true hl3) ⟨Toy.same_ne ?_, by decide, Toy.same_ne ?_⟩
    (fun h => by rw [Option.isNone_iff_eq_none] at hV; rw [hV.2] at h; cases h) hb h1 h2
  exact ⟨ix1, ix2, w1, w2, h1, h2, h3, h4, h5, h6⟩
  checked

/-- 90000 gold wait for approval -/
private def toyHeld : Except Err World :=
  Toy.tp (Toy.tp Toy.tpBig3 Toy.managerCtx (.changeWithdrawalLimits (some 100) none)) (Toy.solCtx Toy.wd2 Toy.bobGold) .withdrawMultiTokenSol

/-- and stay pending when they are approved, since the vault holds too little -/
example : ∃ ix w' t' s v, ∃ r : Withdrawal WSolEvent, TP.Client.approveSolIx Toy.env Toy.wmanager Toy.wd2 Toy.bobGold Toy.gold = .ok ix ∧
    TP.process Toy.env (ix.ctx 4000) noCpi ix.data (Toy.get toyHeld) = .ok w' ∧ NoTokens (Toy.get toyHeld) w' ∧
    SolPayout Toy.env w' Toy.gold Toy.tpSettings Toy.tpGold Toy.tpVault Toy.wd2 Toy.bobGold s t' v (r.withStatus .pending) 45 89955 := by
  obtain ⟨ix, h1⟩ := Toy.ix (r := TP.Client.approveSolIx Toy.env Toy.wmanager Toy.wd2 Toy.bobGold Toy.gold) ?_
  obtain ⟨s, hs, hS⟩ := Toy.tp_ready (P := fun s => !s.emergency && Toy.same s.withdrawalManager Toy.wmanager) (w := Toy.get toyHeld) ?_
  obtain ⟨t, v, ht, hT, hV⟩ := Toy.tp_sol (P := fun t => !t.emergency && (Toy.feeIs t.feeWithdrawalInfo 5 10000 &&
    Nat.ble 89955 t.withdrawalDailyAmount.toNat)) (Q := fun _ => true) (w := Toy.get toyHeld) ?_ ?_
  obtain ⟨r, hr, hP⟩ := Toy.tp_wd (w := Toy.get toyHeld) (k := Toy.wd2) (ec := wSolEventC) (P := fun r => Toy.same r.event.mint Toy.gold &&
    (Toy.same r.event.recipient Toy.bob && (Nat.beq r.event.amount.toNat 90000 && (r.event.payload.isEmpty && decide (r.md.status = .waitingForApprove))))) ?_
  simp only [Bool.and_eq_true, Bool.not_eq_true', List.isEmpty_iff, decide_eq_true_eq] at hS hT hP
  obtain ⟨hte, hf, hl⟩ := hT
  obtain ⟨f1, f2⟩ := Toy.feeIs_eq hf
  obtain ⟨p1, p2, p3, p4, p5⟩ := hP
  have ha : r.event.amount.toNat = 90000 := Nat.eq_of_beq_eq_true p3
  obtain hto := toy_holder (w := Toy.get toyHeld) (to := Toy.bobGold) (who := Toy.bob) ?_
  obtain hpay := Toy.payable (w := Toy.get toyHeld) (k := Toy.bobGold) (mint := Toy.gold) (n := 89955) ?_
  have hg : SolPayout Toy.env (Toy.get toyHeld) Toy.gold Toy.tpSettings Toy.tpGold Toy.tpVault Toy.wd2 Toy.bobGold s t v r 45 89955 :=
    ⟨hs, hS.1, ht, hte, hr, Toy.same_eq p1, .inl ⟨p4, by rw [Toy.same_eq p2]; exact hto⟩, by rw [f1, f2, ha]; rfl, by rw [ha]; rfl, hpay⟩
  obtain hb := Nat.le_of_ble_eq_true (n := bal (Toy.get toyHeld) Toy.tpVault + 1) (m := 89955) ?_
  obtain ⟨w', t', h2, h3, -, -, h4⟩ := C77_sol_approved_short (cpi := noCpi) (now := 4000) Toy.distinct hg (Toy.same_eq hS.2) p5
    (fun _ => Nat.le_of_ble_eq_true hl) hb h1
  exact ⟨ix, w', t', s, v, r, h1, h2, h3, h4⟩
  checked

private def evStars : WEverEvent := ⟨Toy.star, Toy.starName, Toy.starSymbol, 9, 50000, Toy.bob, []⟩

/-- stars above the limit are minted when the withdrawal manager approves -/
example : ∃ ix1 ix2 ix3 w1 w2 w3 w4, TP.Client.everRequestIx Toy.env Toy.funder Toy.alice 1 Toy.pda1 evStars 0 = .ok ix1 ∧
    TP.process Toy.env (ix1.ctx 1000) noCpi ix1.data (Toy.get toyLimE) = .ok w1 ∧
    Voted Toy.env noCpi (Toy.everAddr Toy.pda1 evStars) 1 .confirm [(Toy.relay 2, 1000), (Toy.relay 0, 2000), (Toy.relay 1, 1500)] w1 w2 ∧
    TP.Client.withdrawEverIx Toy.env (Toy.everAddr Toy.pda1 evStars) Toy.bobStar Toy.star = .ok ix2 ∧
    TP.process Toy.env (ix2.ctx 3000) noCpi ix2.data w2 = .ok w3 ∧
    TP.Client.approveEverIx Toy.env Toy.wmanager (Toy.everAddr Toy.pda1 evStars) Toy.bobStar Toy.starMint Toy.star = .ok ix3 ∧
    TP.process Toy.env (ix3.ctx 4000) noCpi ix3.data w3 = .ok w4 ∧ Mints Toy.starMint Toy.bobStar 49975 (Toy.get toyLimE) w4 := by
  obtain ⟨ix1, h1⟩ := Toy.ix (r := TP.Client.everRequestIx Toy.env Toy.funder Toy.alice 1 Toy.pda1 evStars 0) ?_
  obtain ⟨ix2, h2⟩ := Toy.ix (r := TP.Client.withdrawEverIx Toy.env (Toy.everAddr Toy.pda1 evStars) Toy.bobStar Toy.star) ?_
  obtain ⟨ix3, h3⟩ := Toy.ix (r := TP.Client.approveEverIx Toy.env Toy.wmanager (Toy.everAddr Toy.pda1 evStars) Toy.bobStar Toy.starMint Toy.star) ?_
  obtain ⟨s, hs, hS⟩ := Toy.tp_ready (P := fun s => !s.emergency && Toy.same s.withdrawalManager Toy.wmanager) (w := Toy.get toyLimE) ?_
  obtain ⟨t, m, ht, hT, hM⟩ := Toy.tp_ever (P := fun t => !t.emergency && (Toy.feeIs t.feeWithdrawalInfo 5 10000 && (Nat.blt t.withdrawalLimit.toNat 49975 &&
    (Nat.blt (t.withdrawalDailyAmount.toNat + 49975) (2 ^ 64) && Nat.blt (t.feeSupply.toNat + 25) (2 ^ 64)))))
    (Q := fun m => Nat.beq m.decimals.toNat 9 && Nat.blt (m.supply.toNat + 49975) (2 ^ 64)) (w := Toy.get toyLimE) ?_ ?_
  obtain ⟨rs, rr, hw, hn, hR, hq⟩ := toy_new (w := Toy.get toyLimE) (k := Toy.everAddr Toy.pda1 evStars) (x := 0) ?_ ?_ ?_ ?_
  simp only [Bool.and_eq_true, Bool.not_eq_true'] at hS hT hM
  obtain ⟨hte, hf, hl1, hl2, hl3⟩ := hT
  obtain ⟨f1, f2⟩ := Toy.feeIs_eq hf
  have hdec : m.decimals.toNat = 9 := Nat.eq_of_beq_eq_true hM.1
  obtain hc := toy_canVote (w := Toy.get toyLimE) (k := Toy.everAddr Toy.pda1 evStars) (votes := List.replicate rr.relays.length .none) hR (by rw [hR]; rfl) ?_ ?_
  obtain hto := toy_holder (w := Toy.get toyLimE) (to := Toy.bobStar) (who := Toy.bob) ?_
  obtain hpay := Toy.mintable (w := Toy.get toyLimE) (k := Toy.bobStar) (mint := Toy.starMint) (n := 49975) ?_
  obtain hal := Nat.le_of_ble_eq_true (n := 1) (m := ((Toy.get toyLimE).acc Toy.tpStar).lamports) ?_
  obtain ⟨w1, w2, w3, w4, h4, h5, h6, -, h7, h8, -⟩ := C77_ever_over (cpi := noCpi) (t1 := 1000) (t2 := 3000) (t3 := 4000) (e := evStars) (fee := 25) (net := 49975)
    (k := Toy.everAddr Toy.pda1 evStars) (pda := Toy.pda1)
    Toy.distinct hs hS.1 ht (Nat.one_le_iff_ne_zero.1 hal) hte hw (by rw [hn]; exact ⟨_, Toy.findAddr_eq _ _⟩) rfl rfl (by decide) (by decide) (by rw [hR]; decide)
    hto hpay (by rw [hdec]; decide) (by rw [hdec]; decide) (by rw [f1, f2, hdec]; rfl) (by rw [hdec]; rfl) (Nat.le_of_ble_eq_true hM.2)
    (fun h => Nat.not_le_of_lt (Nat.le_of_ble_eq_true hl1) h.1)
    (Nat.lt_of_le_of_lt (Nat.add_le_add_right (released_le _ _) _) (Nat.le_of_ble_eq_true hl2)) (Nat.le_of_ble_eq_true hl3) hc hq
    (Toy.same_eq hS.2) (by rw [hn]; exact h1) h2 h3
  exact ⟨ix1, ix2, ix3, w1, w2, w3, w4, h1, h4, hn ▸ h5, h2, h6, h3, h7, h8⟩
  checked

end Verif.Props
