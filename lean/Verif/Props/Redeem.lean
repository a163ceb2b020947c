import Verif.Lemmas.Redeem
import Verif.Props.Confirm
import Verif.Props.ClientReq
/-!
# A transfer from Everscale can be redeemed from start to finish

C75: whoever knows an event of Everscale can have it paid: they send the request, a quorum of the relays votes, and anybody sends the payout. If nobody
else interferes, all of these are accepted and the recipient has the amount less the fee.
-/
set_option linter.unusedSimpArgs false
set_option maxRecDepth 100000
namespace Verif.Props
open Verif TP Codec Client

variable {env : Env} {ix1 ix2 : Ix} {t1 t2 : I64} {w : World} {cpi : Pubkey → World → Except Err World}
  {f au k krs kr ks kt : Pubkey} {rs : RL.Settings} {rr : RL.RelayRound} {s : Settings} {t : TokenSettings} {pda : PDA} {att fee net : U64}
  {l : List (Pubkey × I64)}

/-- What the request for a Solana token without payload leaves behind. -/
theorem solRequest_asked {mint kv : Pubkey} {v : TokenAcc} {e : WSolEvent} (ht : SolReady env w mint kt kv t v) (hm : e.mint = mint)
    (hw : NewWithdrawal env w t1 f k krs kr rs rr 0)
    (hk : IsAddr env env.tpId (proposalSeeds rr.roundNumber pda (env.hash (wSolEventC.enc e))) k) (hp : e.payload = []) (hpl : rr.relays.length ≤ 798)
    (h : TP.Client.solRequestIx env f au pda rr.roundNumber e att = .ok ix1) :
    ∃ w1 n len, TP.process env (ix1.ctx t1) cpi ix1.data w = .ok w1 ∧
      AskedAt wSolEventC env w w1 f k rr.relays.length (asked n none au rs rr pda len e t1) := by
  subst hm
  obtain ⟨w1, hr⟩ := C52_tp_solRequest (cpi := cpi) ht hw hk hp hpl h
  refine ⟨w1, ?_⟩
  obtain ⟨n2, vn, hk2, htn, hvn⟩ := id ht.addr
  obtain ⟨n3, _, _, _, hrs, _⟩ := id hw.hSettings.addr
  obtain ⟨n4, _, hrr⟩ := id hw.hRound.addr
  obtain ⟨n5, hkn⟩ := id hk
  simp only [TP.Client.solRequestIx, TP.Client.withdrawalSolAddr, TP.Client.tokenSettingsSolAddr, if_pos hp, bind_ok, addrOf_ok, packed_ok, Except.ok.injEq] at h
  obtain ⟨k', ⟨_, ⟨_, rfl⟩, _, hk'⟩, kt', ⟨_, hkt'⟩, krs', ⟨_, hkrs'⟩, kr', ⟨_, hkr'⟩, _, rfl, _, ⟨hwf, rfl⟩, rfl⟩ := h
  rw [htn] at hkt'; rw [hrs] at hkrs'; rw [hrr] at hkr'; rw [hkn] at hk'
  cases hkt'; cases hkrs'; cases hkr'; cases hk'
  have hr' := hr
  rw [process_enc hwf] at hr'
  simp only [run, processSolRequest, bind_ok, acct_ok, sysvar_ok, require_ok, exists_const, ex_unit, Prod.exists] at hr'
  obtain ⟨_, e1, _, e2, _, e3, _, e4, _, e5, _, e6, sy, -, _, -, -, _, -, -, -, t', ht', rs', rr', hrr', pn, w0, h1, h2⟩ := hr'
  cases e1; cases e2; cases e3; cases e4; cases e5; cases e6
  obtain ⟨⟨a1, -⟩, ⟨a2, -⟩, -⟩ := loadRound_ok.1 hrr'
  obtain rfl := a1.unique hw.hSettings.here.2.1
  obtain rfl := a2.unique hw.hRound.here.2.1
  obtain ⟨_, _, hls, -, hmt⟩ := loadSol_live (ctx := Ix.ctx ⟨env.tpId, [.new f true, .new au true, .new k false, .readonly kt false, .readonly krs false,
    .readonly kr false, .readonly env.systemId false, .readonly env.rentId false, .readonly env.clockId false] ++ [],
    Instr.codec.enc (.withdrawMultiTokenSolRequest pda e.recipient e.amount e.payload att)⟩ t1) rfl ht
  cases hls.symm.trans ht'
  simp only [openProxy, hp, if_true, Except.ok.injEq, Prod.mk.injEq] at h1
  obtain ⟨rfl, rfl⟩ := h1
  obtain ⟨n, ha⟩ := openWithdrawal_asked rfl (C45_lenField_wSol _) hw.hVacant.1 h2
  exact ⟨n, WSolEvent.lenField e, hr, ha⟩

/-- The same for an Everscale token. -/
theorem everRequest_asked {e : WEverEvent} (hw : NewWithdrawal env w t1 f k krs kr rs rr 0)
    (hk : IsAddr env env.tpId (proposalSeeds rr.roundNumber pda (env.hash (wEverEventC.enc e))) k)
    (hp : e.payload = []) (hname : e.name.length ≤ 32) (hsymbol : e.symbol.length ≤ 32)
    (hpl : e.name.length + e.symbol.length + rr.relays.length ≤ 787)
    (h : TP.Client.everRequestIx env f au rr.roundNumber pda e att = .ok ix1) :
    ∃ w1 n len, TP.process env (ix1.ctx t1) cpi ix1.data w = .ok w1 ∧
      AskedAt wEverEventC env w w1 f k rr.relays.length (asked n none au rs rr pda len e t1) := by
  obtain ⟨w1, hr⟩ := C52_tp_everRequest (cpi := cpi) hw hk hp hname hsymbol hpl h
  refine ⟨w1, ?_⟩
  obtain ⟨n3, _, _, _, hrs, _⟩ := id hw.hSettings.addr
  obtain ⟨n4, _, hrr⟩ := id hw.hRound.addr
  obtain ⟨n5, hkn⟩ := id hk
  simp only [TP.Client.everRequestIx, TP.Client.withdrawalEverAddr, if_pos hp, bind_ok, addrOf_ok, packed_ok, Except.ok.injEq] at h
  obtain ⟨k', ⟨_, ⟨hew, rfl⟩, _, hk'⟩, krs', ⟨_, hkrs'⟩, kr', ⟨_, hkr'⟩, _, rfl, _, ⟨hwf, rfl⟩, rfl⟩ := h
  rw [hrs] at hkrs'; rw [hrr] at hkr'; rw [hkn] at hk'
  cases hkrs'; cases hkr'; cases hk'
  have hr' := hr
  rw [process_enc hwf] at hr'
  simp only [run, processEverRequest, bind_ok, acct_ok, sysvar_ok, require_ok, exists_const, ex_unit, Prod.exists] at hr'
  obtain ⟨_, e1, _, e2, _, e3, _, e4, _, e5, sy, -, _, -, -, _, -, -, -, -, -, rs', rr', hrr', mk, mn, hmk, pn, w0, h1, h2⟩ := hr'
  cases e1; cases e2; cases e3; cases e4; cases e5
  obtain ⟨⟨a1, -⟩, ⟨a2, -⟩, -⟩ := loadRound_ok.1 hrr'
  obtain rfl := a1.unique hw.hSettings.here.2.1
  obtain rfl := a2.unique hw.hRound.here.2.1
  simp only [openProxy, hp, if_true, Except.ok.injEq, Prod.mk.injEq] at h1
  obtain ⟨rfl, rfl⟩ := h1
  obtain ⟨n, ha⟩ := openWithdrawal_asked rfl (C45_lenField_wEver _) hw.hVacant.1 h2
  exact ⟨n, WEverEvent.lenField e, hr, ha⟩

theorem moves_after {src dst : Pubkey} {n : Nat} {w w1 w2 : World} (h : NoTokens w w1) (h' : Moves src dst n w1 w2) : Moves src dst n w w2 :=
  ⟨(h src).1 ▸ h'.1, fun x => ⟨(h x).1 ▸ (h'.2 x).1, (h'.2 x).2.trans (h x).2⟩⟩

theorem mints_after {mint dst : Pubkey} {n : Nat} {w w1 w2 : World} (h : NoTokens w w1) (h' : Mints mint dst n w1 w2) : Mints mint dst n w w2 :=
  fun x => ⟨(h x).1 ▸ (h' x).1, (h x).2 ▸ (h' x).2⟩

/-- C75: a transfer of a Solana token. From a state in which the token is registered, nothing is stopped, the limits allow the amount and the vault has
it, the request, the votes of a quorum in any order and the payout are all accepted; together they move exactly the amount less the fee from the vault
to the recipient's account and no other token. -/
theorem C75_sol {mint kv to : Pubkey} {v : TokenAcc} {e : WSolEvent} (hd : env.Distinct) (hs : Ready env w ks s) (hse : s.emergency = false)
    (ht : SolReady env w mint kt kv t v) (hte : t.emergency = false) (hw : NewWithdrawal env w t1 f k krs kr rs rr 0)
    (hk : IsAddr env env.tpId (proposalSeeds rr.roundNumber pda (env.hash (wSolEventC.enc e))) k) (hm : e.mint = mint) (hp : e.payload = [])
    (hpl : rr.relays.length ≤ 798) (hto : ∃ d, (w.acc to).data = .token d ∧ d.owner = e.recipient) (hpay : Payable env w to mint net.toNat)
    (hfee : feeSpec t.feeWithdrawalInfo.multiplier.toNat t.feeWithdrawalInfo.divisor.toNat (e.amount.toNat % 2 ^ 64) = some fee.toNat)
    (hnet : net.toNat + fee.toNat = e.amount.toNat % 2 ^ 64) (hlim : Within t (epochOf t2) net.toNat) (hfs : t.feeSupply.toNat + fee.toNat < 2 ^ 64)
    (hb : net.toNat ≤ bal w kv) (hc : CanVote w k rr.relays (List.replicate rr.relays.length .none) l)
    (hq : (RL.requiredVotes rr.relays.length rs.minRequiredVotes).toNat ≤ l.length) (hlt : to ∉ l.map (·.1))
    (hix1 : TP.Client.solRequestIx env f au pda rr.roundNumber e att = .ok ix1) (hix2 : TP.Client.withdrawSolIx env k to mint = .ok ix2) :
    ∃ w1 w2 w3, TP.process env (ix1.ctx t1) cpi ix1.data w = .ok w1 ∧ Voted env cpi k rr.roundNumber .confirm l w1 w2 ∧
      TP.process env (ix2.ctx t2) cpi ix2.data w2 = .ok w3 ∧ Moves kv to net.toNat w w3 ∧
      ∃ r, WdReady wSolEventC env w3 k r ∧ r.event = e ∧ r.author = au ∧ r.md.status = .processed := by
  obtain ⟨w1, n, len, hp1, ha⟩ := solRequest_asked (cpi := cpi) ht hm hw hk hp hpl hix1
  have hv := hw.hVacant
  have hne : ∀ {x o}, (w.acc x).owner = o → o ≠ env.systemId → x ≠ k := by
    rintro x o h1 h2 rfl; exact h2 (h1.symm.trans hv.2.2)
  have hks := hne hs.here.1 hd.tpSys
  have hkt := hne ht.here.1 hd.tpSys
  have hkv' := hne ht.vault.1 hd.sysSpl.symm
  have hkr := hne hw.hRound.here.1 hd.rlSys
  have hto' := hne hpay.owner hd.sysSpl.symm
  have hkv : kv ≠ f := by rintro rfl; exact hd.sysSpl (hw.hWallet.system.symm.trans ht.vault.1)
  have eff := fun x (hx : x ≠ k) => ha.eff x (by simpa using hx)
  have hg : SolPayout env w1 mint ks kt kv k to s t v (asked n none au rs rr pda len e t1) fee net := by
    refine ⟨hs.eff ha.eff (by simpa using hks), hse, ?_, hte, ha.wd, hm, .inl ⟨hp, ?_⟩, hfee, hnet, ?_⟩
    · obtain ⟨h1, h2, h3, h4, h5⟩ := ht
      exact ⟨h1.eff ha.eff (by simpa using hkt), h2, h3, by rw [(eff kv hkv').1, (eff kv hkv').2]; exact h4,
        fun h => by rw [ha.lam kv hkv', if_neg hkv]; exact h5 h⟩
    · rw [(eff to hto').1]; exact hto
    · obtain ⟨h1, h2, h3⟩ := hpay
      exact ⟨by rw [(eff to hto').2]; exact h1, by rw [(eff to hto').1]; exact h2, by rw [ha.lam to hto']; omega⟩
  have hr : RL.RoundReady env w1 kr rr := ⟨⟨(eff kr hkr).2.trans hw.hRound.here.1, holds_eff ha.eff (by simpa using hkr) hw.hRound.here.2.1,
    hw.hRound.here.2.2⟩, hw.hRound.addr⟩
  have hll : l.length ≤ rr.relays.length := by simpa using hc.le
  obtain ⟨w2, w3, votes, h1, h2, h3, h4, -, h6⟩ := C62_sol (cpi := cpi) (now := t2) hd hg rfl ha.gen
    (by rw [ha.self]; exact Nat.le_trans (Nat.mul_le_mul_left _ hll) (by omega)) hr rfl (ha.canVote hc)
    (by rw [asked_count, Nat.zero_add]; exact hq) hlt hlim hfs (by rw [(ha.noTokens hv kv).1]; exact hb) hix2
  refine ⟨w1, w2, w3, hp1, h1, h2, moves_after ((ha.noTokens hv).trans h3) h4, _, h6, rfl, rfl, ?_⟩
  show doneStatus e.payload = _
  rw [hp]; rfl

/-- C75: the same for a known token of Everscale; the amount less the fee is minted to the recipient's account. -/
theorem C75_ever {token : EverAddress} {km to : Pubkey} {m : MintAcc} {e : WEverEvent} (hd : env.Distinct) (hs : Ready env w ks s) (hse : s.emergency = false)
    (ht : EverReady env w token kt km t m) (hal : (w.acc kt).lamports ≠ 0) (hte : t.emergency = false)
    (hw : NewWithdrawal env w t1 f k krs kr rs rr 0)
    (hk : IsAddr env env.tpId (proposalSeeds rr.roundNumber pda (env.hash (wEverEventC.enc e))) k) (hm : e.token = token) (hp : e.payload = [])
    (hname : e.name.length ≤ 32) (hsymbol : e.symbol.length ≤ 32) (hpl : e.name.length + e.symbol.length + rr.relays.length ≤ 787)
    (hto : ∃ d, (w.acc to).data = .token d ∧ d.owner = e.recipient) (hpay : Mintable env w to km net.toNat)
    (hdec : e.decimals.toNat ≤ m.decimals.toNat + 38 ∧ m.decimals.toNat ≤ e.decimals.toNat + 38)
    (hfits : toSolSpec e.amount.toNat e.decimals.toNat m.decimals.toNat < 2 ^ 64)
    (hfee : feeSpec t.feeWithdrawalInfo.multiplier.toNat t.feeWithdrawalInfo.divisor.toNat (toSolSpec e.amount.toNat e.decimals.toNat m.decimals.toNat) =
      some fee.toNat)
    (hnet : net.toNat + fee.toNat = toSolSpec e.amount.toNat e.decimals.toNat m.decimals.toNat) (hsup : m.supply.toNat + net.toNat < 2 ^ 64)
    (hlim : Within t (epochOf t2) net.toNat) (hfs : t.feeSupply.toNat + fee.toNat < 2 ^ 64)
    (hc : CanVote w k rr.relays (List.replicate rr.relays.length .none) l)
    (hq : (RL.requiredVotes rr.relays.length rs.minRequiredVotes).toNat ≤ l.length)
    (hix1 : TP.Client.everRequestIx env f au rr.roundNumber pda e att = .ok ix1) (hix2 : TP.Client.withdrawEverIx env k to token = .ok ix2) :
    ∃ w1 w2 w3, TP.process env (ix1.ctx t1) cpi ix1.data w = .ok w1 ∧ Voted env cpi k rr.roundNumber .confirm l w1 w2 ∧
      TP.process env (ix2.ctx t2) cpi ix2.data w2 = .ok w3 ∧ Mints km to net.toNat w w3 ∧
      ∃ r, WdReady wEverEventC env w3 k r ∧ r.event = e ∧ r.author = au ∧ r.md.status = .processed := by
  obtain ⟨w1, n, len, hp1, ha⟩ := everRequest_asked (cpi := cpi) hw hk hp hname hsymbol hpl hix1
  have hv := hw.hVacant
  have hne : ∀ {x o}, (w.acc x).owner = o → o ≠ env.systemId → x ≠ k := by
    rintro x o h1 h2 rfl; exact h2 (h1.symm.trans hv.2.2)
  have hks := hne hs.here.1 hd.tpSys
  have hkt := hne ht.here.1 hd.tpSys
  have hkm := hne ht.mint.1 hd.sysSpl.symm
  have hkr := hne hw.hRound.here.1 hd.rlSys
  have hto' := hne hpay.owner hd.sysSpl.symm
  have eff := fun x (hx : x ≠ k) => ha.eff x (by simpa using hx)
  have hktf : kt ≠ f := by rintro rfl; exact hd.tpSys (ht.here.1.symm.trans hw.hWallet.system)
  have hg : EverPayout env w1 token ks kt km k to s t m (asked n none au rs rr pda len e t1) fee net := by
    refine ⟨hs.eff ha.eff (by simpa using hks), hse, ?_, ?_, hte, ha.wd, hm, .inl ⟨hp, ?_⟩, hdec, hfits, hfee, hnet, ?_, hsup⟩
    · obtain ⟨h1, h2, h3, h4⟩ := ht
      exact ⟨h1.eff ha.eff (by simpa using hkt), h2, h3, by rw [(eff km hkm).1, (eff km hkm).2]; exact h4⟩
    · rw [ha.lam kt hkt, if_neg hktf]; exact hal
    · rw [(eff to hto').1]; exact hto
    · obtain ⟨h1, h2⟩ := hpay
      exact ⟨by rw [(eff to hto').2]; exact h1, by rw [(eff to hto').1]; exact h2⟩
  have hr : RL.RoundReady env w1 kr rr := ⟨⟨(eff kr hkr).2.trans hw.hRound.here.1, holds_eff ha.eff (by simpa using hkr) hw.hRound.here.2.1,
    hw.hRound.here.2.2⟩, hw.hRound.addr⟩
  have hll : l.length ≤ rr.relays.length := by simpa using hc.le
  obtain ⟨w2, w3, votes, h1, h2, h3, h4, -, h6⟩ := C62_ever (cpi := cpi) (now := t2) hd hg rfl ha.gen
    (by rw [ha.self]; exact Nat.le_trans (Nat.mul_le_mul_left _ hll) (by omega)) hr rfl (ha.canVote hc)
    (by rw [asked_count, Nat.zero_add]; exact hq) hlim hfs hix2
  refine ⟨w1, w2, w3, hp1, h1, h2, mints_after ((ha.noTokens hv).trans h3) h4, _, h6, rfl, rfl, ?_⟩
  show doneStatus e.payload = _
  rw [hp]; rfl

/-- C75: the first transfer of a token of Everscale. The payout that registers the token creates its mint, its settings and the recipient's account, and
mints the amount less the fee of one in two thousand, at most nine decimals being kept. -/
theorem C75_ever_first {g km to : Pubkey} {e : WEverEvent} (hd : env.Distinct) (hs : Ready env w ks s) (hse : s.emergency = false)
    (hw : NewWithdrawal env w t1 f k krs kr rs rr 0)
    (hk : IsAddr env env.tpId (proposalSeeds rr.roundNumber pda (env.hash (wEverEventC.enc e))) k) (hp : e.payload = [])
    (hname : e.name.length ≤ 32) (hsymbol : e.symbol.length ≤ 32) (hpl : e.name.length + e.symbol.length + rr.relays.length ≤ 787)
    (hkm : IsAddr env env.tpId (mintSeeds env e.token) km) (hkt : IsAddr env env.tpId (tokenSettingsEverSeeds env e.token) kt)
    (hto : IsAddr env env.ataId (ataSeeds env e.recipient km) to)
    (hdiff : km ≠ kt ∧ km ≠ to ∧ kt ≠ to ∧ g ≠ to ∧ km ≠ env.nativeMint) (hdk : km ≠ k ∧ kt ≠ k ∧ to ≠ k) (hdl : km ∉ l.map (·.1) ∧ kt ∉ l.map (·.1))
    (hvm : Vacant env (w.acc km)) (hvt : Vacant env (w.acc kt)) (hvo : (w.acc to).owner = env.systemId ∧ (w.acc to).data.len = 0)
    (hwal : Wallet env w g (max 1 (env.rent 82) + max 1 (env.rent 165) + max 1 (env.rent recLen) +
      (max 1 (env.rent recLen) + relayReparation * rr.relays.length)))
    (hrent : env.rent 82 < 2 ^ 64 ∧ env.rent 165 < 2 ^ 64 ∧ env.rent recLen < 2 ^ 64)
    (hdec : e.decimals.toNat ≤ min e.decimals.toNat 9 + 38)
    (hfits : toSolSpec e.amount.toNat e.decimals.toNat (min e.decimals.toNat 9) < 2 ^ 64)
    (hfee : feeSpec 5 10000 (toSolSpec e.amount.toNat e.decimals.toNat (min e.decimals.toNat 9)) = some fee.toNat)
    (hnet : net.toNat + fee.toNat = toSolSpec e.amount.toNat e.decimals.toNat (min e.decimals.toNat 9))
    (hc : CanVote w k rr.relays (List.replicate rr.relays.length .none) l)
    (hq : (RL.requiredVotes rr.relays.length rs.minRequiredVotes).toNat ≤ l.length)
    (hix1 : TP.Client.everRequestIx env f au rr.roundNumber pda e att = .ok ix1)
    (hix2 : TP.Client.createEverTokenIx env g k e.recipient e.token = .ok ix2) :
    ∃ w1 w2 w3, TP.process env (ix1.ctx t1) cpi ix1.data w = .ok w1 ∧ Voted env cpi k rr.roundNumber .confirm l w1 w2 ∧
      TP.process env (ix2.ctx t2) cpi ix2.data w2 = .ok w3 ∧ Mints km to net.toNat w w3 ∧
      (∃ t, TokenAt env w3 kt t ∧ t.kind = .ever km e.token e.decimals ∧ t.feeSupply = fee) ∧
      ∃ r, WdReady wEverEventC env w3 k r ∧ r.event = e ∧ r.author = au ∧ r.md.status = .processed := by
  obtain ⟨w1, n, len, hp1, ha⟩ := everRequest_asked (cpi := cpi) hw hk hp hname hsymbol hpl hix1
  have hv := hw.hVacant
  have hne : ∀ {x o}, (w.acc x).owner = o → o ≠ env.systemId → x ≠ k := by
    rintro x o h1 h2 rfl; exact h2 (h1.symm.trans hv.2.2)
  have hks := hne hs.here.1 hd.tpSys
  have hkr := hne hw.hRound.here.1 hd.rlSys
  have eff := fun x (hx : x ≠ k) => ha.eff x (by simpa using hx)
  have hr : RL.RoundReady env w1 kr rr := ⟨⟨(eff kr hkr).2.trans hw.hRound.here.1, holds_eff ha.eff (by simpa using hkr) hw.hRound.here.2.1,
    hw.hRound.here.2.2⟩, hw.hRound.addr⟩
  have hll : l.length ≤ rr.relays.length := by simpa using hc.le
  obtain ⟨w2, votes, h1, h2, h3, h4⟩ := votes_sent (cpi := cpi) hd.rlTp (v := .confirm) (by decide) ha.gen hr rfl (ha.canVote hc)
    (by rw [ha.self]; exact Nat.le_trans (Nat.mul_le_mul_left _ hll) (by omega))
  have hw2 := WdReady.voted ha.wd ha.gen h2 h3.length
  have hks2 : Ready env w2 ks s := (hs.eff ha.eff (by simpa using hks)).eff h4.eff (by simpa using hks)
  have hgk : g ≠ k := by
    rintro rfl
    have := hwal.rich
    rw [hv.1] at this; omega
  have vac : ∀ x, x ≠ k → x ∉ l.map (·.1) → Vacant env (w.acc x) → Vacant env (w2.acc x) := fun x h5 h6 h7 =>
    ⟨by rw [h4.rest x h5 h6, ha.lam x h5, h7.1, Nat.zero_sub], by rw [h4.data x h5, (eff x h5).1]; exact h7.2.1,
      by rw [h4.owner, (eff x h5).2]; exact h7.2.2⟩
  have hvm2 := vac km hdk.1 hdl.1 hvm
  have hvt2 := vac kt hdk.2.1 hdl.2 hvt
  have hwal2 : Wallet env w2 g (max 1 (env.rent 82) + max 1 (env.rent 165) + max 1 (env.rent recLen)) := by
    refine (hwal.eff ha.eff (by simpa using hgk) (m := 0) (Nat.zero_le _)).eff h4.eff (by simpa using hgk) ?_
    have h5 := ha.lam g hgk
    have h6 := hwal.rich
    have h7 : (w1.acc g).lamports ≤ (w2.acc g).lamports := by
      by_cases e : g ∈ l.map (·.1)
      · obtain ⟨x, hx, rfl⟩ := List.mem_map.1 e
        rw [h4.reimbursed x hx]; omega
      · rw [h4.rest g hgk e]; exact Nat.le_refl _
    split at h5 <;> omega
  have hconf : Confirmed { asked n none au rs rr pda len e t1 with signers := votes } := by
    show (RL.requiredVotes rr.relays.length rs.minRequiredVotes).toNat ≤ votes.count .confirm
    rw [h3.count]
    exact Nat.le_trans hq (Nat.le_add_left _ _)
  obtain ⟨w3, hx⟩ := C52_tp_createEver (cpi := cpi) (now := t2) hd hks2 hse hw2 hkm hkt hto hdiff hname hsymbol hp hvm2 hvt2
    ⟨by rw [h4.owner, (eff to hdk.2.2).2]; exact hvo.1, by rw [h4.data to hdk.2.2, (eff to hdk.2.2).1]; exact hvo.2⟩ hwal2 hrent hdec hfits hfee hnet hix2
  refine ⟨w1, w2, w3, hp1, h1, hx, ?_⟩
  obtain ⟨nm, hmn⟩ := hkm
  obtain ⟨nt, htn⟩ := hkt
  obtain ⟨na, han⟩ := hto
  obtain ⟨n0, pn0, pd0, hk0, hsn, hpn⟩ := id hs.addr
  simp only [TP.Client.createEverTokenIx, TP.Client.settingsAddr, TP.Client.mintAddr, TP.Client.tokenSettingsEverAddr, ataAddr, bind_ok, addrOf_ok, packed_ok,
    Except.ok.injEq] at hix2
  obtain ⟨ks', ⟨_, hks'⟩, km', ⟨_, hkm'⟩, kt', ⟨_, hkt'⟩, to', ⟨_, hto'⟩, _, ⟨hwf, rfl⟩, rfl⟩ := hix2
  rw [hmn] at hkm'; cases hkm'
  rw [hsn] at hks'; rw [htn] at hkt'; rw [han] at hto'
  cases hks'; cases hkt'; cases hto'
  rw [process_enc hwf] at hx
  obtain ⟨r, hr', w0, hdep, hself, hkne, t, m, ⟨⟨-, ht0, -⟩, -, -, -, hm0⟩, ⟨-, hno⟩ | ⟨-, -, amount, fee', net', st, t', ha', hf', hn', hrec, hbk, hor⟩⟩ :=
    createEver_fx (km := km) (to := to) (kt := kt) (k := k) rfl rfl rfl rfl rfl hvt2.1 hx
  all_goals cases hr'.2.1.unique hw2.holds
  · exact (hno ⟨hconf, rfl⟩).elim
  obtain ⟨tn, tn2, hfresh⟩ := hdep.newToken
  obtain rfl := ht0.unique hfresh
  have em : m = ⟨some km, 0#64, newDecimals e.decimals, none⟩ := by
    have := hdep.newMint.1
    rw [show (w0.acc km).data = _ from hm0] at this
    cases this; rfl
  subst em
  have hnd : (newDecimals e.decimals).toNat = min e.decimals.toNat 9 := by
    unfold newDecimals
    split
    · omega
    · rw [show (9#8).toNat = 9 from rfl]; omega
  have hamt : amount.toNat = toSolSpec e.amount.toNat e.decimals.toNat (min e.decimals.toNat 9) := by
    have := (C21_withdrawal_exact_partial _ _ _ (by rw [hnd]; exact hdec) (by rw [hnd]; omega) (by rw [hnd]; exact hfits) _).1 ha'
    rwa [hnd] at this
  have hfv := (C20_fee_value FeeInfo.default _ _).1 hf'
  rw [hamt, show feeSpec FeeInfo.default.multiplier.toNat FeeInfo.default.divisor.toNat _ = _ from hfee, Option.some.injEq] at hfv
  obtain rfl : fee' = fee := (BitVec.eq_of_toNat_eq hfv).symm
  obtain rfl : net' = net := BitVec.eq_of_toNat_eq (by omega)
  have hlt := net'.isLt
  rcases hor with ⟨hno, -⟩ | ⟨-, rfl, -, hm, -⟩
  · refine (hno ⟨?_, ?_⟩).elim
    · show _ ≤ (BitVec.allOnes 64).toNat
      rw [BitVec.toNat_allOnes]; omega
    · show releasedOn _ _ + _ ≤ (BitVec.allOnes 64).toNat
      have : releasedOn (freshTokenSettings tn tn2 (.ever km e.token e.decimals) e.name e.symbol) (epochOf t2) = 0 := by
        unfold releasedOn
        split <;> rfl
      rw [BitVec.toNat_allOnes]
      show releasedOn (freshTokenSettings tn tn2 (.ever km e.token e.decimals) e.name e.symbol) (epochOf t2) + _ ≤ _
      omega
  have hvotes : NoTokens w1 w2 := fun x => by
    by_cases e : x = k
    · subst e
      obtain ⟨b, _, hb, -⟩ := ha.wd.holds
      obtain ⟨b', _, hb', -⟩ := hw2.holds
      simp only [bal, supply, hb, hb', and_self]
    · simp only [bal, supply, h4.data x e, and_self]
  refine ⟨mints_after (((ha.noTokens hv).trans hvotes).trans (hdep.quiet hdiff.2.2.2.2)) hm, ⟨t', ⟨?_, hrec.token, ?_, ?_⟩, ?_, ?_⟩,
    _, ⟨hrec.owner.trans ?_, hrec.record, hw2.init, hw2.addr⟩, rfl, rfl, ?_⟩
  · rw [hrec.ownerToken]; exact hdep.ownerToken
  · rw [hbk.rest]; rfl
  · rw [hbk.rest]; exact ⟨_, _, rfl⟩
  · rw [hbk.rest]; rfl
  · refine BitVec.eq_of_toNat_eq ?_
    rw [hbk.fee]; exact Nat.zero_add _
  · rw [hself]; exact hw2.owner
  · show doneStatus e.payload = _
    rw [hp]; rfl

/-! ## On the toy chain -/

theorem toy_new {w : World} {k : Pubkey} {x : Nat}
    (h1 : Toy.chk RL.settingsC RL.settingsLen (fun s => s.isInitialized && (Toy.kindSettings s.accountKind &&
      Nat.ble (RL.requiredVotes 3 s.minRequiredVotes).toNat 3)) w Toy.rlSettings = true)
    (h2 : Toy.chk RL.relayRoundC RL.relayRoundLen (fun r => r.isInitialized && (Toy.kindRound r.accountKind && (Nat.beq r.roundNumber.toNat (1#32).toNat &&
      (Nat.blt 1000 r.roundEnd.toNat && decide (r.relays = [Toy.relay 0, Toy.relay 1, Toy.relay 2]))))) w (Toy.rlRound 1) = true)
    (h3 : Toy.isVacant w k = true) (h4 : Toy.isWallet w Toy.funder (x + (max 1 (Toy.env.rent recLen) + relayReparation * 3)) = true) :
    ∃ rs rr, NewWithdrawal Toy.env w 1000 Toy.funder k Toy.rlSettings (Toy.rlRound 1) rs rr x ∧ rr.roundNumber = 1 ∧
      rr.relays = [Toy.relay 0, Toy.relay 1, Toy.relay 2] ∧ (RL.requiredVotes rr.relays.length rs.minRequiredVotes).toNat ≤ 3 := by
  obtain ⟨rs, hrs, hS⟩ := Toy.rl_ready (P := fun s => Nat.ble (RL.requiredVotes 3 s.minRequiredVotes).toNat 3) h1
  obtain ⟨rr, hrr, hn, hP⟩ := Toy.rl_round h2
  simp only [Bool.and_eq_true, decide_eq_true_eq] at hP
  have hl : rr.relays.length = 3 := by rw [hP.2]; rfl
  exact ⟨rs, rr, ⟨hrs, hrr, Nat.le_of_ble_eq_true hP.1, Toy.vacant h3, by rw [hl]; exact Toy.wallet h4, by rw [hl]; decide⟩, hn, hP.2,
    by rw [hl]; exact Nat.le_of_ble_eq_true hS⟩

theorem toy_holder {w : World} {to who : Pubkey} (h : Toy.holder w to who = true) : ∃ d, (w.acc to).data = .token d ∧ d.owner = who := by
  unfold Toy.holder at h
  split at h
  · exact ⟨_, by assumption, Toy.same_eq h⟩
  · cases h

/-- bob receives 999 of 1000 gold that were sent to them on Everscale -/
example : ∃ ix1 ix2 w1 w2 w3, TP.Client.solRequestIx Toy.env Toy.funder Toy.alice Toy.pda1 1 Toy.ev1 0 = .ok ix1 ∧
    TP.process Toy.env (ix1.ctx 1000) noCpi ix1.data (Toy.get Toy.tpDeposited) = .ok w1 ∧
    Voted Toy.env noCpi Toy.wd1 1 .confirm [(Toy.relay 2, 1000), (Toy.relay 0, 2000), (Toy.relay 1, 1500)] w1 w2 ∧
    TP.Client.withdrawSolIx Toy.env Toy.wd1 Toy.bobGold Toy.gold = .ok ix2 ∧ TP.process Toy.env (ix2.ctx 3000) noCpi ix2.data w2 = .ok w3 ∧
    Moves Toy.tpVault Toy.bobGold 999 (Toy.get Toy.tpDeposited) w3 := by
  obtain ⟨ix1, h1⟩ := Toy.ix (r := TP.Client.solRequestIx Toy.env Toy.funder Toy.alice Toy.pda1 1 Toy.ev1 0) ?_
  obtain ⟨ix2, h2⟩ := Toy.ix (r := TP.Client.withdrawSolIx Toy.env Toy.wd1 Toy.bobGold Toy.gold) ?_
  obtain ⟨s, hs, hS⟩ := Toy.tp_ready (P := fun s => !s.emergency) (w := Toy.get Toy.tpDeposited) ?_
  obtain ⟨t, v, ht, hT, -⟩ := Toy.tp_sol (P := fun t => !t.emergency && (Toy.feeIs t.feeWithdrawalInfo 5 10000 && (Nat.ble 999 t.withdrawalLimit.toNat &&
    (Nat.ble (t.withdrawalDailyAmount.toNat + 999) t.withdrawalDailyLimit.toNat && Nat.blt (t.feeSupply.toNat + 1) (2 ^ 64))))) (Q := fun _ => true)
    (w := Toy.get Toy.tpDeposited) ?_ ?_
  obtain ⟨rs, rr, hw, hn, hR, hq⟩ := toy_new (w := Toy.get Toy.tpDeposited) (k := Toy.wd1) (x := 0) ?_ ?_ ?_ ?_
  simp only [Bool.and_eq_true, Bool.not_eq_true'] at hS hT
  obtain ⟨hte, hf, hl1, hl2, hl3⟩ := hT
  obtain ⟨f1, f2⟩ := Toy.feeIs_eq hf
  obtain hc := toy_canVote (w := Toy.get Toy.tpDeposited) (k := Toy.wd1) (votes := List.replicate rr.relays.length .none) hR (by rw [hR]; rfl) ?_ ?_
  obtain hto := toy_holder (w := Toy.get Toy.tpDeposited) (to := Toy.bobGold) (who := Toy.bob) ?_
  obtain hpay := Toy.payable (w := Toy.get Toy.tpDeposited) (k := Toy.bobGold) (mint := Toy.gold) (n := 999) ?_
  obtain hb := Nat.le_of_ble_eq_true (n := 999) (m := bal (Toy.get Toy.tpDeposited) Toy.tpVault) ?_
  obtain ⟨w1, w2, w3, h3, h4, h5, h6, -⟩ := C75_sol (cpi := noCpi) (t1 := 1000) (t2 := 3000) (e := Toy.ev1) (fee := 1) (net := 999) (k := Toy.wd1) (pda := Toy.pda1)
    Toy.distinct hs hS ht hte hw (by rw [hn]; exact ⟨_, Toy.findAddr_eq _ _⟩) rfl rfl (by rw [hR]; decide) hto hpay (by rw [f1, f2]; rfl) rfl
    ⟨Nat.le_of_ble_eq_true hl1, Nat.le_trans (Nat.add_le_add_right (by unfold releasedOn; split <;> omega) _) (Nat.le_of_ble_eq_true hl2)⟩
    (Nat.le_of_ble_eq_true hl3) hb hc hq (by decide) (by rw [hn]; exact h1) h2
  exact ⟨ix1, ix2, w1, w2, w3, h1, h3, hn ▸ h4, h2, h5, h6⟩
  checked

/-- bob receives the first star tokens -/
example : ∃ ix1 ix2 w1 w2 w3, TP.Client.everRequestIx Toy.env Toy.funder Toy.alice 1 Toy.pda1 Toy.ev5 0 = .ok ix1 ∧
    TP.process Toy.env (ix1.ctx 1000) noCpi ix1.data (Toy.get Toy.tpDeposited) = .ok w1 ∧
    Voted Toy.env noCpi Toy.wd5 1 .confirm [(Toy.relay 2, 1000), (Toy.relay 0, 2000), (Toy.relay 1, 1500)] w1 w2 ∧
    TP.Client.createEverTokenIx Toy.env Toy.funder Toy.wd5 Toy.bob Toy.star = .ok ix2 ∧ TP.process Toy.env (ix2.ctx 3000) noCpi ix2.data w2 = .ok w3 ∧
    Mints Toy.starMint Toy.bobStar 69965 (Toy.get Toy.tpDeposited) w3 := by
  obtain ⟨ix1, h1⟩ := Toy.ix (r := TP.Client.everRequestIx Toy.env Toy.funder Toy.alice 1 Toy.pda1 Toy.ev5 0) ?_
  obtain ⟨ix2, h2⟩ := Toy.ix (r := TP.Client.createEverTokenIx Toy.env Toy.funder Toy.wd5 Toy.bob Toy.star) ?_
  obtain ⟨s, hs, hS⟩ := Toy.tp_ready (P := fun s => !s.emergency) (w := Toy.get Toy.tpDeposited) ?_
  obtain ⟨rs, rr, hw, hn, hR, hq⟩ := toy_new (w := Toy.get Toy.tpDeposited) (k := Toy.wd5) (x := 0) ?_ ?_ ?_ ?_
  simp only [Bool.not_eq_true'] at hS
  obtain hc := toy_canVote (w := Toy.get Toy.tpDeposited) (k := Toy.wd5) (votes := List.replicate rr.relays.length .none) hR (by rw [hR]; rfl) ?_ ?_
  obtain hv := Toy.vacant (w := Toy.get Toy.tpDeposited) (k := Toy.bobStar) ?_
  obtain hwal := Toy.wallet (w := Toy.get Toy.tpDeposited) (k := Toy.funder) (n := max 1 (Toy.env.rent 82) + max 1 (Toy.env.rent 165) + max 1 (Toy.env.rent recLen) +
    (max 1 (Toy.env.rent recLen) + relayReparation * 3)) ?_
  obtain ⟨w1, w2, w3, h3, h4, h5, h6, -⟩ := C75_ever_first (cpi := noCpi) (t1 := 1000) (t2 := 3000) (e := Toy.ev5) (fee := 35) (net := 69965) (k := Toy.wd5)
    (pda := Toy.pda1) (g := Toy.funder) (km := Toy.starMint) (kt := Toy.tpStar) (to := Toy.bobStar)
    Toy.distinct hs hS hw (by rw [hn]; exact ⟨_, Toy.findAddr_eq _ _⟩) rfl (by decide) (by decide) (by rw [hR]; decide)
    ⟨_, Toy.findAddr_eq _ _⟩ ⟨_, Toy.findAddr_eq _ _⟩ ⟨_, Toy.findAddr_eq _ _⟩
    ⟨Toy.same_ne ?_, Toy.same_ne ?_, Toy.same_ne ?_, Toy.same_ne ?_, Toy.same_ne ?_⟩ ⟨Toy.same_ne ?_, Toy.same_ne ?_, Toy.same_ne ?_⟩ ⟨by decide, by decide⟩
    (Toy.vacant ?_) (Toy.vacant ?_) ⟨hv.2.2, hv.2.1⟩ (by rw [hR]; exact hwal) (by decide) (by decide) (by decide) rfl rfl hc hq (by rw [hn]; exact h1) h2
  exact ⟨ix1, ix2, w1, w2, w3, h1, h3, hn ▸ h4, h2, h5, h6⟩
  checked

private def evMore : WEverEvent := ⟨Toy.star, Toy.starName, Toy.starSymbol, 9, 50000, Toy.bob, []⟩

/-- and more of them -/
example : ∃ ix1 ix2 w1 w2 w3, TP.Client.everRequestIx Toy.env Toy.funder Toy.alice 1 Toy.pda1 evMore 0 = .ok ix1 ∧
    TP.process Toy.env (ix1.ctx 1000) noCpi ix1.data (Toy.get Toy.tpPaidE) = .ok w1 ∧
    Voted Toy.env noCpi (Toy.everAddr Toy.pda1 evMore) 1 .confirm [(Toy.relay 2, 1000), (Toy.relay 0, 2000), (Toy.relay 1, 1500)] w1 w2 ∧
    TP.Client.withdrawEverIx Toy.env (Toy.everAddr Toy.pda1 evMore) Toy.bobStar Toy.star = .ok ix2 ∧
    TP.process Toy.env (ix2.ctx 3000) noCpi ix2.data w2 = .ok w3 ∧ Mints Toy.starMint Toy.bobStar 49975 (Toy.get Toy.tpPaidE) w3 := by
  obtain ⟨ix1, h1⟩ := Toy.ix (r := TP.Client.everRequestIx Toy.env Toy.funder Toy.alice 1 Toy.pda1 evMore 0) ?_
  obtain ⟨ix2, h2⟩ := Toy.ix (r := TP.Client.withdrawEverIx Toy.env (Toy.everAddr Toy.pda1 evMore) Toy.bobStar Toy.star) ?_
  obtain ⟨s, hs, hS⟩ := Toy.tp_ready (P := fun s => !s.emergency) (w := Toy.get Toy.tpPaidE) ?_
  obtain ⟨t, m, ht, hT, hM⟩ := Toy.tp_ever (P := fun t => !t.emergency && (Toy.feeIs t.feeWithdrawalInfo 5 10000 && (Nat.ble 49975 t.withdrawalLimit.toNat &&
    (Nat.ble (t.withdrawalDailyAmount.toNat + 49975) t.withdrawalDailyLimit.toNat && Nat.blt (t.feeSupply.toNat + 25) (2 ^ 64)))))
    (Q := fun m => Nat.beq m.decimals.toNat 9 && Nat.blt (m.supply.toNat + 49975) (2 ^ 64)) (w := Toy.get Toy.tpPaidE) ?_ ?_
  obtain ⟨rs, rr, hw, hn, hR, hq⟩ := toy_new (w := Toy.get Toy.tpPaidE) (k := Toy.everAddr Toy.pda1 evMore) (x := 0) ?_ ?_ ?_ ?_
  simp only [Bool.and_eq_true, Bool.not_eq_true'] at hS hT hM
  obtain ⟨hte, hf, hl1, hl2, hl3⟩ := hT
  obtain ⟨f1, f2⟩ := Toy.feeIs_eq hf
  have hdec : m.decimals.toNat = 9 := Nat.eq_of_beq_eq_true hM.1
  obtain hc := toy_canVote (w := Toy.get Toy.tpPaidE) (k := Toy.everAddr Toy.pda1 evMore) (votes := List.replicate rr.relays.length .none) hR (by rw [hR]; rfl) ?_ ?_
  obtain hto := toy_holder (w := Toy.get Toy.tpPaidE) (to := Toy.bobStar) (who := Toy.bob) ?_
  obtain hpay := Toy.mintable (w := Toy.get Toy.tpPaidE) (k := Toy.bobStar) (mint := Toy.starMint) (n := 49975) ?_
  obtain hal := Nat.le_of_ble_eq_true (n := 1) (m := ((Toy.get Toy.tpPaidE).acc Toy.tpStar).lamports) ?_
  obtain ⟨w1, w2, w3, h3, h4, h5, h6, -⟩ := C75_ever (cpi := noCpi) (t1 := 1000) (t2 := 3000) (e := evMore) (fee := 25) (net := 49975)
    (k := Toy.everAddr Toy.pda1 evMore) (pda := Toy.pda1)
    Toy.distinct hs hS ht (Nat.one_le_iff_ne_zero.1 hal) hte hw (by rw [hn]; exact ⟨_, Toy.findAddr_eq _ _⟩) rfl rfl (by decide) (by decide) (by rw [hR]; decide) hto hpay
    (by rw [hdec]; decide) (by rw [hdec]; decide) (by rw [f1, f2, hdec]; rfl) (by rw [hdec]; rfl) (Nat.le_of_ble_eq_true hM.2)
    ⟨Nat.le_of_ble_eq_true hl1, Nat.le_trans (Nat.add_le_add_right (by unfold releasedOn; split <;> omega) _) (Nat.le_of_ble_eq_true hl2)⟩
    (Nat.le_of_ble_eq_true hl3) hc hq (by rw [hn]; exact h1) h2
  exact ⟨ix1, ix2, w1, w2, w3, h1, h3, hn ▸ h4, h2, h5, h6⟩
  checked

end Verif.Props
