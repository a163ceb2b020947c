import Verif.Props.Redeem
import Verif.Props.ClientMore
/-!
# A transfer with a payload can be redeemed from start to finish

C75, continued: the request of a transfer with a payload opens the proxy account of the recipient, the payout fills it, and whoever then sends the
execution of the payload has it run with the signature of that account.
-/
set_option linter.unusedSimpArgs false
set_option maxRecDepth 100000
namespace Verif.Props
open Verif TP Codec Client

variable {env : Env} {ix1 ix2 : Ix} {t1 t2 : I64} {w : World} {cpi : Pubkey → World → Except Err World}
  {f au k krs kr ks kt px : Pubkey} {rs : RL.Settings} {rr : RL.RelayRound} {s : Settings} {t : TokenSettings} {pda : PDA} {att fee net : U64}
  {l : List (Pubkey × I64)}

/-- What the request for a Solana token with a payload leaves behind. -/
theorem solRequest_proxy {mint kv : Pubkey} {v : TokenAcc} {e : WSolEvent} (ht : SolReady env w mint kt kv t v) (hm : e.mint = mint)
    (hw : NewWithdrawal env w t1 f k krs kr rs rr (max 1 (env.rent 165) + att.toNat))
    (hk : IsAddr env env.tpId (proposalSeeds rr.roundNumber pda (env.hash (wSolEventC.enc e))) k) (hp : e.payload ≠ [])
    (hx : NewProxy env w mint e.recipient px att.toNat) (hdiff : px ≠ k ∧ f ≠ px) (hpl : e.payload.length + rr.relays.length ≤ 798)
    (h : TP.Client.solRequestIx env f au pda rr.roundNumber e att = .ok ix1) :
    ∃ w0 w1 n pn len, TP.process env (ix1.ctx t1) cpi ix1.data w = .ok w1 ∧ findAddr env (proxySeeds mint e.recipient) env.tpId = .ok (px, pn) ∧
      ProxyMade env w w0 f px mint att.toNat ∧ AskedAt wSolEventC env w0 w1 f k rr.relays.length (asked n (some pn) au rs rr pda len e t1) := by
  subst hm
  obtain ⟨w1, hr⟩ := C52_tp_solRequestPayload (cpi := cpi) ht hw hk hp hx hdiff hpl h
  obtain ⟨n2, vn, hk2, htn, hvn⟩ := id ht.addr
  obtain ⟨n3, _, _, _, hrs, _⟩ := id hw.hSettings.addr
  obtain ⟨n4, _, hrr⟩ := id hw.hRound.addr
  obtain ⟨n5, hkn⟩ := id hk
  obtain ⟨n6, hpx⟩ := id hx.hAddr
  obtain ⟨m, hm⟩ := hx.hMint
  simp only [TP.Client.solRequestIx, TP.Client.withdrawalSolAddr, TP.Client.tokenSettingsSolAddr, TP.Client.proxyAddr, if_neg hp, bind_ok, addrOf_ok, packed_ok,
    Except.ok.injEq] at h
  obtain ⟨k', ⟨_, ⟨_, rfl⟩, _, hk'⟩, kt', ⟨_, hkt'⟩, krs', ⟨_, hkrs'⟩, kr', ⟨_, hkr'⟩, px', ⟨_, hpx'⟩, _, rfl, _, ⟨hwf, rfl⟩, rfl⟩ := h
  rw [htn] at hkt'; rw [hrs] at hkrs'; rw [hrr] at hkr'; rw [hkn] at hk'; rw [hpx] at hpx'
  cases hkt'; cases hkrs'; cases hkr'; cases hk'; cases hpx'
  have hr' := hr
  rw [process_enc hwf] at hr'
  simp only [run, processSolRequest, bind_ok, acct_ok, sysvar_ok, require_ok, exists_const, ex_unit, Prod.exists] at hr'
  obtain ⟨_, e1, _, e2, _, e3, _, e4, _, e5, _, e6, sy, e7, _, -, -, _, -, -, -, t', ht', rs', rr', hrr', pn, w0, h1, h2⟩ := hr'
  cases e1; cases e2; cases e3; cases e4; cases e5; cases e6; cases e7
  obtain ⟨⟨a1, -⟩, ⟨a2, -⟩, -⟩ := loadRound_ok.1 hrr'
  obtain rfl := a1.unique hw.hSettings.here.2.1
  obtain rfl := a2.unique hw.hRound.here.2.1
  generalize hc : Ix.ctx _ t1 = ctx at ht' h1 h2
  have hacc : ctx.accounts = [f, au, k, kt, krs, kr, env.systemId, env.rentId, env.clockId, px, e.mint, env.splId] := by rw [← hc]; rfl
  obtain ⟨_, _, hls, -, hmt⟩ := loadSol_live (ctx := ctx) (by rw [← hc]; rfl) ht
  cases hls.symm.trans ht'
  obtain ⟨w0', h1', hmade⟩ := openProxy_made (ctx := ctx) (i := 9) (f := f) (by rw [← hc]; rfl) hp (by rw [hacc]; rfl) (by rw [hacc]; rfl) (by rw [hacc]; rfl) hpx
    ⟨hx.hOwner, hx.hEmpty⟩ hm hdiff.2 (by rw [hacc]; simp) (by rw [← hc]; built) (by rw [← hc]; built) (by rw [← hc]; built)
    (hw.hWallet.eff (Eff.refl [] w) (by simp) (by have := hw.hWallet.rich; omega)) hx.hRoom
  cases h1'.symm.trans h1
  have f_k : f ≠ k := by rintro rfl; have := hw.hWallet.rich; have := hw.hVacant.1; omega
  obtain ⟨n, ha⟩ := openWithdrawal_asked (k := k) (f := f) (by rw [← hc]; rfl) (C45_lenField_wSol _)
    (by rw [hmade.lam k hdiff.1.symm, if_neg f_k.symm, hw.hVacant.1]) h2
  refine ⟨w0, w1, n, n6, WSolEvent.lenField e, by rw [← hc]; exact hr, hpx, hmade, ?_⟩
  rw [← hc] at ha
  exact ha

/-- The same for an Everscale token. -/
theorem everRequest_proxy {km : Pubkey} {e : WEverEvent}
    (hw : NewWithdrawal env w t1 f k krs kr rs rr (max 1 (env.rent 165) + att.toNat))
    (hk : IsAddr env env.tpId (proposalSeeds rr.roundNumber pda (env.hash (wEverEventC.enc e))) k) (hkm : IsAddr env env.tpId (mintSeeds env e.token) km)
    (hp : e.payload ≠ []) (hname : e.name.length ≤ 32) (hsymbol : e.symbol.length ≤ 32)
    (hx : NewProxy env w km e.recipient px att.toNat) (hdiff : px ≠ k ∧ f ≠ px)
    (hpl : e.name.length + e.symbol.length + e.payload.length + rr.relays.length ≤ 787)
    (h : TP.Client.everRequestIx env f au rr.roundNumber pda e att = .ok ix1) :
    ∃ w0 w1 n pn len, TP.process env (ix1.ctx t1) cpi ix1.data w = .ok w1 ∧ findAddr env (proxySeeds km e.recipient) env.tpId = .ok (px, pn) ∧
      ProxyMade env w w0 f px km att.toNat ∧ AskedAt wEverEventC env w0 w1 f k rr.relays.length (asked n (some pn) au rs rr pda len e t1) := by
  obtain ⟨w1, hr⟩ := C52_tp_everRequestPayload (cpi := cpi) hw hk hkm hp hname hsymbol hx hdiff hpl h
  obtain ⟨n3, _, _, _, hrs, _⟩ := id hw.hSettings.addr
  obtain ⟨n4, _, hrr⟩ := id hw.hRound.addr
  obtain ⟨n5, hkn⟩ := id hk
  obtain ⟨nm, hmn⟩ := hkm
  obtain ⟨n6, hpx⟩ := id hx.hAddr
  obtain ⟨m, hm⟩ := hx.hMint
  simp only [TP.Client.everRequestIx, TP.Client.withdrawalEverAddr, TP.Client.mintAddr, TP.Client.proxyAddr, if_neg hp, bind_ok, addrOf_ok, packed_ok,
    Except.ok.injEq] at h
  obtain ⟨k', ⟨_, ⟨_, rfl⟩, _, hk'⟩, krs', ⟨_, hkrs'⟩, kr', ⟨_, hkr'⟩, km', ⟨_, hkm'⟩, px', ⟨_, hpx'⟩, _, rfl, _, ⟨hwf, rfl⟩, rfl⟩ := h
  rw [hrs] at hkrs'; rw [hrr] at hkr'; rw [hkn] at hk'; rw [hmn] at hkm'
  cases hkrs'; cases hkr'; cases hk'; cases hkm'
  rw [hpx] at hpx'
  cases hpx'
  have hr' := hr
  rw [process_enc hwf] at hr'
  simp only [run, processEverRequest, bind_ok, acct_ok, sysvar_ok, require_ok, exists_const, ex_unit, Prod.exists] at hr'
  obtain ⟨_, e1, _, e2, _, e3, _, e4, _, e5, sy, e6, _, -, -, _, -, -, -, -, -, rs', rr', hrr', mk, mn, hmk, pn, w0, h1, h2⟩ := hr'
  cases e1; cases e2; cases e3; cases e4; cases e5; cases e6
  obtain ⟨⟨a1, -⟩, ⟨a2, -⟩, -⟩ := loadRound_ok.1 hrr'
  obtain rfl := a1.unique hw.hSettings.here.2.1
  obtain rfl := a2.unique hw.hRound.here.2.1
  generalize hc : Ix.ctx _ t1 = ctx at hmk h1 h2
  have hacc : ctx.accounts = [f, au, k, krs, kr, env.systemId, env.rentId, env.clockId, px, km, env.splId] := by rw [← hc]; rfl
  have hmk' : requestMint env ctx e.payload e.token = .ok (km, nm) := by
    simp only [requestMint, if_neg hp, show ctx.program = env.tpId by rw [← hc]; rfl]
    exact hmn
  cases hmk'.symm.trans hmk
  obtain ⟨w0', h1', hmade⟩ := openProxy_made (ctx := ctx) (i := 8) (f := f) (by rw [← hc]; rfl) hp (by rw [hacc]; rfl) (by rw [hacc]; rfl) (by rw [hacc]; rfl) hpx
    ⟨hx.hOwner, hx.hEmpty⟩ hm hdiff.2 (by rw [hacc]; simp) (by rw [← hc]; built) (by rw [← hc]; built) (by rw [← hc]; built)
    (hw.hWallet.eff (Eff.refl [] w) (by simp) (by have := hw.hWallet.rich; omega)) hx.hRoom
  cases h1'.symm.trans h1
  have f_k : f ≠ k := by rintro rfl; have := hw.hWallet.rich; have := hw.hVacant.1; omega
  obtain ⟨n, ha⟩ := openWithdrawal_asked (k := k) (f := f) (by rw [← hc]; rfl) (C45_lenField_wEver _)
    (by rw [hmade.lam k hdiff.1.symm, if_neg f_k.symm, hw.hVacant.1]) h2
  refine ⟨w0, w1, n, n6, WEverEvent.lenField e, by rw [← hc]; exact hr, hpx, hmade, ?_⟩
  rw [← hc] at ha
  exact ha

theorem bal_of_eff {w w' : World} {px : Pubkey} (h : Eff [px] w w') : ∀ x, x ≠ px → bal w' x = bal w x ∧ supply w' x = supply w x := fun x hx => by
  simp only [bal, supply, (h x (by simpa using hx)).1, and_self]

/-- C75: a transfer of a Solana token with a payload. The request opens the proxy account `px` of the recipient; after the votes of a quorum the payout
moves exactly the amount less the fee from the vault into it; and then, whenever the payload succeeds with the signature of `px` and leaves the withdrawal
alone, its execution is accepted and finishes the withdrawal. -/
theorem C75_sol_payload {mint kv : Pubkey} {v : TokenAcc} {e : WSolEvent} {plen : Nat} (hd : env.Distinct) (hs : Ready env w ks s) (hse : s.emergency = false)
    (ht : SolReady env w mint kt kv t v) (hte : t.emergency = false) (hw : NewWithdrawal env w t1 f k krs kr rs rr (max 1 (env.rent 165) + att.toNat))
    (hk : IsAddr env env.tpId (proposalSeeds rr.roundNumber pda (env.hash (wSolEventC.enc e))) k) (hm : e.mint = mint) (hp : e.payload ≠ [])
    (hx : NewProxy env w mint e.recipient px att.toNat) (hdiff : px ≠ k ∧ f ≠ px) (hpl : e.payload.length + rr.relays.length ≤ 798)
    (hroom : max (max 1 (env.rent 165)) (w.acc px).lamports + att.toNat + net.toNat < 2 ^ 64)
    (hfee : feeSpec t.feeWithdrawalInfo.multiplier.toNat t.feeWithdrawalInfo.divisor.toNat (e.amount.toNat % 2 ^ 64) = some fee.toNat)
    (hnet : net.toNat + fee.toNat = e.amount.toNat % 2 ^ 64) (hlim : Within t (epochOf t2) net.toNat) (hfs : t.feeSupply.toNat + fee.toNat < 2 ^ 64)
    (hb : net.toNat ≤ bal w kv) (hc : CanVote w k rr.relays (List.replicate rr.relays.length .none) l)
    (hq : (RL.requiredVotes rr.relays.length rs.minRequiredVotes).toNat ≤ l.length) (hlt : px ∉ l.map (·.1))
    (hlen : env.payloadLen e.payload = some plen) (hl0 : plen ≠ 0)
    (hix1 : TP.Client.solRequestIx env f au pda rr.roundNumber e att = .ok ix1) (hix2 : TP.Client.withdrawSolIx env k px mint = .ok ix2) :
    ∃ w1 w2 w3, TP.process env (ix1.ctx t1) cpi ix1.data w = .ok w1 ∧ Voted env cpi k rr.roundNumber .confirm l w1 w2 ∧
      TP.process env (ix2.ctx t2) cpi ix2.data w2 = .ok w3 ∧ (∀ x, x ≠ px → bal w1 x = bal w x ∧ supply w1 x = supply w x) ∧
      Moves kv px net.toNat w1 w3 ∧
      ∃ r, WdReady wSolEventC env w3 k r ∧ r.event = e ∧ r.author = au ∧ r.md.status = .waitingForExecute ∧
        ∀ (c : World) (accounts : List (Pubkey × Bool × Bool)) (t3 : I64) (ix3 : Ix), cpi px w3 = .ok c → WdReady wSolEventC env c k r →
          Bridge.Client.executePayloadIx env.tpId 4 k accounts = .ok ix3 →
          ∃ w4, TP.process env (ix3.ctx t3) cpi ix3.data w3 = .ok w4 ∧ WdReady wSolEventC env w4 k (r.withStatus .processed) := by
  obtain ⟨w0, w1, n, pn, len, hp1, hpx, hmade, ha⟩ := solRequest_proxy (cpi := cpi) ht hm hw hk hp hx hdiff hpl hix1
  have hv := hw.hVacant
  have hf_k : f ≠ k := ha.ne
  have hne : ∀ {x o}, (w.acc x).owner = o → o ≠ env.systemId → x ≠ k := by
    rintro x o h1 h2 rfl; exact h2 (h1.symm.trans hv.2.2)
  have hnx : ∀ {x o}, (w.acc x).owner = o → o ≠ env.systemId → x ≠ px := by
    rintro x o h1 h2 rfl; exact h2 (h1.symm.trans hx.hOwner)
  have hks := hne hs.here.1 hd.tpSys
  have hkt := hne ht.here.1 hd.tpSys
  have hkv' := hne ht.vault.1 hd.sysSpl.symm
  have hkr := hne hw.hRound.here.1 hd.rlSys
  have xks := hnx hs.here.1 hd.tpSys
  have xkt := hnx ht.here.1 hd.tpSys
  have xkv := hnx ht.vault.1 hd.sysSpl.symm
  have xkr := hnx hw.hRound.here.1 hd.rlSys
  have hkv : kv ≠ f := by rintro rfl; exact hd.sysSpl (hw.hWallet.system.symm.trans ht.vault.1)
  have eff0 := fun x (hx : x ≠ px) => hmade.eff x (by simpa using hx)
  have eff1 := fun x (hx : x ≠ k) => ha.eff x (by simpa using hx)
  have eff : ∀ x, x ≠ px → x ≠ k → (w1.acc x).data = (w.acc x).data ∧ (w1.acc x).owner = (w.acc x).owner := fun x h1 h2 =>
    ⟨(eff1 x h2).1.trans (eff0 x h1).1, (eff1 x h2).2.trans (eff0 x h1).2⟩
  have hv0 : Vacant env (w0.acc k) := ⟨by rw [hmade.lam k hdiff.1.symm, if_neg hf_k.symm, hv.1],
    by rw [(eff0 k hdiff.1.symm).1]; exact hv.2.1, by rw [(eff0 k hdiff.1.symm).2]; exact hv.2.2⟩
  have hg : SolPayout env w1 mint ks kt kv k px s t v (asked n (some pn) au rs rr pda len e t1) fee net := by
    refine ⟨(hs.eff hmade.eff (by simpa using xks)).eff ha.eff (by simpa using hks), hse, ?_, hte, ha.wd, hm, .inr ⟨hp, n, pn, rfl, hpx⟩, hfee, hnet, ?_⟩
    · obtain ⟨h1, h2, h3, h4, h5⟩ := ht
      exact ⟨(h1.eff hmade.eff (by simpa using xkt)).eff ha.eff (by simpa using hkt), h2, h3,
        by rw [(eff kv xkv hkv').1, (eff kv xkv hkv').2]; exact h4,
        fun h => by rw [ha.lam kv hkv', if_neg hkv, hmade.lam kv xkv, if_neg hkv]; exact h5 h⟩
    · refine ⟨by rw [(eff1 px hdiff.1).2]; exact hmade.owner, ⟨_, by rw [(eff1 px hdiff.1).1]; exact hmade.data, rfl, rfl, ?_⟩, ?_⟩
      · show (if mint = env.nativeMint then BitVec.ofNat 64 _ else 0#64).toNat + _ < _
        split
        · rw [BitVec.toNat_ofNat]
          have := Nat.mod_le (max (max 1 (env.rent 165)) (w.acc px).lamports - env.rent 165) (2 ^ 64)
          omega
        · rw [show (0#64).toNat = 0 from rfl]; omega
      · rw [ha.lam px hdiff.1, if_neg hdiff.2.symm, hmade.self]; exact hroom
  have hr : RL.RoundReady env w1 kr rr := ⟨⟨(eff kr xkr hkr).2.trans hw.hRound.here.1,
    holds_eff ha.eff (by simpa using hkr) (holds_eff hmade.eff (by simpa using xkr) hw.hRound.here.2.1), hw.hRound.here.2.2⟩, hw.hRound.addr⟩
  have hll : l.length ≤ rr.relays.length := by simpa using hc.le
  have hc1 : CanVote w1 k rr.relays (List.replicate rr.relays.length .none) l := by
    refine ha.canVote ⟨hc.different, hc.member, hc.other, fun x hx => ?_⟩
    have h1 := hc.room x hx
    rw [hmade.lam x.1 (fun h => hlt (h ▸ List.mem_map_of_mem hx))]
    omega
  have hno : ∀ x, x ≠ px → bal w1 x = bal w x ∧ supply w1 x = supply w x := fun x hx =>
    ⟨(ha.noTokens hv0 x).1.trans (bal_of_eff hmade.eff x hx).1, (ha.noTokens hv0 x).2.trans (bal_of_eff hmade.eff x hx).2⟩
  obtain ⟨w2, w3, votes, h1, h2, h3, h4, -, h6⟩ := C62_sol (cpi := cpi) (now := t2) hd hg rfl ha.gen
    (by rw [ha.self]; exact Nat.le_trans (Nat.mul_le_mul_left _ hll) (by omega)) hr rfl hc1
    (by rw [asked_count, Nat.zero_add]; exact hq) hlt hlim hfs (by rw [(hno kv xkv).1]; exact hb) hix2
  have hst : ({ asked n (some pn) au rs rr pda len e t1 with signers := votes }.withStatus (doneStatus e.payload)).md.status = .waitingForExecute := by
    show doneStatus e.payload = _
    rw [doneStatus, if_neg hp]
  refine ⟨w1, w2, w3, hp1, h1, h2, hno, moves_after h3 h4, _, h6, rfl, rfl, hst, fun c accounts t3 ix3 h7 h8 h9 => ?_⟩
  exact C52_bridge_payloadSol (now := t3) h6 hst rfl (by rw [show (Withdrawal.withStatus _ _).event = e from rfl, hm]; exact hpx) hlen hl0 h7 h8 h9

/-- C75: the same for a known token of Everscale; the amount less the fee is minted into the proxy account. -/
theorem C75_ever_payload {token : EverAddress} {km : Pubkey} {m : MintAcc} {e : WEverEvent} {plen : Nat} (hd : env.Distinct) (hs : Ready env w ks s)
    (hse : s.emergency = false) (ht : EverReady env w token kt km t m) (hal : (w.acc kt).lamports ≠ 0) (hte : t.emergency = false)
    (hw : NewWithdrawal env w t1 f k krs kr rs rr (max 1 (env.rent 165) + att.toNat))
    (hk : IsAddr env env.tpId (proposalSeeds rr.roundNumber pda (env.hash (wEverEventC.enc e))) k) (hm : e.token = token) (hp : e.payload ≠ [])
    (hname : e.name.length ≤ 32) (hsymbol : e.symbol.length ≤ 32)
    (hx : NewProxy env w km e.recipient px att.toNat) (hdiff : px ≠ k ∧ f ≠ px ∧ km ≠ env.nativeMint)
    (hpl : e.name.length + e.symbol.length + e.payload.length + rr.relays.length ≤ 787)
    (hdec : e.decimals.toNat ≤ m.decimals.toNat + 38 ∧ m.decimals.toNat ≤ e.decimals.toNat + 38)
    (hfits : toSolSpec e.amount.toNat e.decimals.toNat m.decimals.toNat < 2 ^ 64)
    (hfee : feeSpec t.feeWithdrawalInfo.multiplier.toNat t.feeWithdrawalInfo.divisor.toNat (toSolSpec e.amount.toNat e.decimals.toNat m.decimals.toNat) =
      some fee.toNat)
    (hnet : net.toNat + fee.toNat = toSolSpec e.amount.toNat e.decimals.toNat m.decimals.toNat) (hsup : m.supply.toNat + net.toNat < 2 ^ 64)
    (hlim : Within t (epochOf t2) net.toNat) (hfs : t.feeSupply.toNat + fee.toNat < 2 ^ 64)
    (hc : CanVote w k rr.relays (List.replicate rr.relays.length .none) l)
    (hq : (RL.requiredVotes rr.relays.length rs.minRequiredVotes).toNat ≤ l.length) (hlt : px ∉ l.map (·.1))
    (hlen : env.payloadLen e.payload = some plen) (hl0 : plen ≠ 0)
    (hix1 : TP.Client.everRequestIx env f au rr.roundNumber pda e att = .ok ix1) (hix2 : TP.Client.withdrawEverIx env k px token = .ok ix2) :
    ∃ w1 w2 w3, TP.process env (ix1.ctx t1) cpi ix1.data w = .ok w1 ∧ Voted env cpi k rr.roundNumber .confirm l w1 w2 ∧
      TP.process env (ix2.ctx t2) cpi ix2.data w2 = .ok w3 ∧ Mints km px net.toNat w w3 ∧
      ∃ r, WdReady wEverEventC env w3 k r ∧ r.event = e ∧ r.author = au ∧ r.md.status = .waitingForExecute ∧
        ∀ (c : World) (accounts : List (Pubkey × Bool × Bool)) (t3 : I64) (ix3 : Ix), cpi px w3 = .ok c → WdReady wEverEventC env c k r →
          Bridge.Client.executePayloadIx env.tpId 3 k accounts = .ok ix3 →
          ∃ w4, TP.process env (ix3.ctx t3) cpi ix3.data w3 = .ok w4 ∧ WdReady wEverEventC env w4 k (r.withStatus .processed) := by
  obtain ⟨nt, _, _, _, hmn⟩ := id ht.addr
  obtain ⟨w0, w1, n, pn, len, hp1, hpx, hmade, ha⟩ := everRequest_proxy (cpi := cpi) hw hk (by rw [hm]; exact ⟨_, hmn⟩) hp hname hsymbol hx ⟨hdiff.1, hdiff.2.1⟩ hpl hix1
  have hv := hw.hVacant
  have hf_k : f ≠ k := ha.ne
  have hne : ∀ {x o}, (w.acc x).owner = o → o ≠ env.systemId → x ≠ k := by
    rintro x o h1 h2 rfl; exact h2 (h1.symm.trans hv.2.2)
  have hnx : ∀ {x o}, (w.acc x).owner = o → o ≠ env.systemId → x ≠ px := by
    rintro x o h1 h2 rfl; exact h2 (h1.symm.trans hx.hOwner)
  have hks := hne hs.here.1 hd.tpSys
  have hkt := hne ht.here.1 hd.tpSys
  have hkm := hne ht.mint.1 hd.sysSpl.symm
  have hkr := hne hw.hRound.here.1 hd.rlSys
  have xks := hnx hs.here.1 hd.tpSys
  have xkt := hnx ht.here.1 hd.tpSys
  have xkm := hnx ht.mint.1 hd.sysSpl.symm
  have xkr := hnx hw.hRound.here.1 hd.rlSys
  have hktf : kt ≠ f := by rintro rfl; exact hd.tpSys (ht.here.1.symm.trans hw.hWallet.system)
  have eff0 := fun x (hx : x ≠ px) => hmade.eff x (by simpa using hx)
  have eff1 := fun x (hx : x ≠ k) => ha.eff x (by simpa using hx)
  have eff : ∀ x, x ≠ px → x ≠ k → (w1.acc x).data = (w.acc x).data ∧ (w1.acc x).owner = (w.acc x).owner := fun x h1 h2 =>
    ⟨(eff1 x h2).1.trans (eff0 x h1).1, (eff1 x h2).2.trans (eff0 x h1).2⟩
  have hv0 : Vacant env (w0.acc k) := ⟨by rw [hmade.lam k hdiff.1.symm, if_neg hf_k.symm, hv.1],
    by rw [(eff0 k hdiff.1.symm).1]; exact hv.2.1, by rw [(eff0 k hdiff.1.symm).2]; exact hv.2.2⟩
  have hg : EverPayout env w1 token ks kt km k px s t m (asked n (some pn) au rs rr pda len e t1) fee net := by
    refine ⟨(hs.eff hmade.eff (by simpa using xks)).eff ha.eff (by simpa using hks), hse, ?_, ?_, hte, ha.wd, hm, .inr ⟨hp, n, pn, rfl, hpx⟩, hdec, hfits, hfee,
      hnet, ?_, hsup⟩
    · obtain ⟨h1, h2, h3, h4⟩ := ht
      exact ⟨(h1.eff hmade.eff (by simpa using xkt)).eff ha.eff (by simpa using hkt), h2, h3,
        by rw [(eff km xkm hkm).1, (eff km xkm hkm).2]; exact h4⟩
    · rw [ha.lam kt hkt, if_neg hktf, hmade.lam kt xkt, if_neg hktf]; exact hal
    · refine ⟨by rw [(eff1 px hdiff.1).2]; exact hmade.owner, ⟨_, by rw [(eff1 px hdiff.1).1]; exact hmade.data, rfl, rfl, ?_, ?_⟩⟩
      · show (if km = env.nativeMint then _ else _) = _
        rw [if_neg hdiff.2.2]
      · show (if km = env.nativeMint then BitVec.ofNat 64 _ else 0#64).toNat + _ < _
        rw [if_neg hdiff.2.2, show (0#64).toNat = 0 from rfl]
        have := net.isLt
        omega
  have hr : RL.RoundReady env w1 kr rr := ⟨⟨(eff kr xkr hkr).2.trans hw.hRound.here.1,
    holds_eff ha.eff (by simpa using hkr) (holds_eff hmade.eff (by simpa using xkr) hw.hRound.here.2.1), hw.hRound.here.2.2⟩, hw.hRound.addr⟩
  have hll : l.length ≤ rr.relays.length := by simpa using hc.le
  have hc1 : CanVote w1 k rr.relays (List.replicate rr.relays.length .none) l := by
    refine ha.canVote ⟨hc.different, hc.member, hc.other, fun x hx => ?_⟩
    have h1 := hc.room x hx
    rw [hmade.lam x.1 (fun h => hlt (h ▸ List.mem_map_of_mem hx))]
    omega
  have hno : NoTokens w w0 := fun x => by
    by_cases e : x = px
    · subst e
      have := hx.hEmpty
      simp only [bal, supply, hmade.data, freshToken, if_neg hdiff.2.2]
      revert this
      cases (w.acc x).data <;> simp [Data.len]
    · exact bal_of_eff hmade.eff x e
  obtain ⟨w2, w3, votes, h1, h2, h3, h4, -, h6⟩ := C62_ever (cpi := cpi) (now := t2) hd hg rfl ha.gen
    (by rw [ha.self]; exact Nat.le_trans (Nat.mul_le_mul_left _ hll) (by omega)) hr rfl hc1
    (by rw [asked_count, Nat.zero_add]; exact hq) hlim hfs hix2
  have hst : ({ asked n (some pn) au rs rr pda len e t1 with signers := votes }.withStatus (doneStatus e.payload)).md.status = .waitingForExecute := by
    show doneStatus e.payload = _
    rw [doneStatus, if_neg hp]
  refine ⟨w1, w2, w3, hp1, h1, h2, mints_after ((hno.trans (ha.noTokens hv0)).trans h3) h4, _, h6, rfl, rfl, hst, fun c accounts t3 ix3 h7 h8 h9 => ?_⟩
  exact C52_bridge_payloadEver (now := t3) (km := km) h6 hst (by rw [show (Withdrawal.withStatus _ _).event = e from rfl, hm]; exact hmn) rfl hpx hlen hl0 h7 h8 h9

/-! ## On the toy chain -/

private def mintAt (w : World) (k : Pubkey) : Bool := match (w.acc k).data with | .mint _ => true | _ => false

private theorem mintAt_ok {w : World} {k : Pubkey} (h : mintAt w k = true) : ∃ m, (w.acc k).data = .mint m := by
  unfold mintAt at h
  split at h
  · exact ⟨_, by assumption⟩
  · cases h

/-- 1000 gold with a payload for bob, and five lamports on top: 999 reach the proxy account, and the payload is executed -/
example : ∃ ix1 ix2 ix3 w1 w2 w3 w4 r, TP.Client.solRequestIx Toy.env Toy.funder Toy.alice Toy.pda1 1 Toy.ev4 5 = .ok ix1 ∧
    TP.process Toy.env (ix1.ctx 1000) (fun _ w => .ok w) ix1.data (Toy.get Toy.tpDeposited) = .ok w1 ∧
    Voted Toy.env (fun _ w => .ok w) Toy.wd4 1 .confirm [(Toy.relay 2, 1000), (Toy.relay 0, 2000), (Toy.relay 1, 1500)] w1 w2 ∧
    TP.Client.withdrawSolIx Toy.env Toy.wd4 Toy.tpProxy Toy.gold = .ok ix2 ∧
    TP.process Toy.env (ix2.ctx 3000) (fun _ w => .ok w) ix2.data w2 = .ok w3 ∧ Moves Toy.tpVault Toy.tpProxy 999 w1 w3 ∧
    Bridge.Client.executePayloadIx Toy.env.tpId 4 Toy.wd4 [(Toy.tpProxy, false, false)] = .ok ix3 ∧
    TP.process Toy.env (ix3.ctx 4000) (fun _ w => .ok w) ix3.data w3 = .ok w4 ∧ WdReady wSolEventC Toy.env w4 Toy.wd4 r ∧ r.md.status = .processed := by
  obtain ⟨ix1, h1⟩ := Toy.ix (r := TP.Client.solRequestIx Toy.env Toy.funder Toy.alice Toy.pda1 1 Toy.ev4 5) ?_
  obtain ⟨ix2, h2⟩ := Toy.ix (r := TP.Client.withdrawSolIx Toy.env Toy.wd4 Toy.tpProxy Toy.gold) ?_
  obtain ⟨s, hs, hS⟩ := Toy.tp_ready (P := fun s => !s.emergency) (w := Toy.get Toy.tpDeposited) ?_
  obtain ⟨t, v, ht, hT, -⟩ := Toy.tp_sol (P := fun t => !t.emergency && (Toy.feeIs t.feeWithdrawalInfo 5 10000 && (Nat.ble 999 t.withdrawalLimit.toNat &&
    (Nat.ble (t.withdrawalDailyAmount.toNat + 999) t.withdrawalDailyLimit.toNat && Nat.blt (t.feeSupply.toNat + 1) (2 ^ 64))))) (Q := fun _ => true)
    (w := Toy.get Toy.tpDeposited) ?_ ?_
  obtain ⟨rs, rr, hw, hn, hR, hq⟩ := toy_new (w := Toy.get Toy.tpDeposited) (k := Toy.wd4) (x := max 1 (Toy.env.rent 165) + (5#64).toNat) ?_ ?_ ?_ ?_
  simp only [Bool.and_eq_true, Bool.not_eq_true'] at hS hT
  obtain ⟨hte, hf, hl1, hl2, hl3⟩ := hT
  obtain ⟨f1, f2⟩ := Toy.feeIs_eq hf
  obtain hc := toy_canVote (w := Toy.get Toy.tpDeposited) (k := Toy.wd4) (votes := List.replicate rr.relays.length .none) hR (by rw [hR]; rfl) ?_ ?_
  obtain hv := Toy.vacant (w := Toy.get Toy.tpDeposited) (k := Toy.tpProxy) ?_
  obtain hx : NewProxy Toy.env (Toy.get Toy.tpDeposited) Toy.gold Toy.bob Toy.tpProxy (5#64).toNat :=
    ⟨⟨_, Toy.findAddr_eq _ _⟩, hv.2.2, hv.2.1, mintAt_ok ?_, by rw [hv.1]; decide⟩
  obtain hb := Nat.le_of_ble_eq_true (n := 999) (m := bal (Toy.get Toy.tpDeposited) Toy.tpVault) ?_
  obtain ⟨w1, w2, w3, h3, h4, h5, -, h6, r, h7, -, -, -, h8⟩ := C75_sol_payload (cpi := fun _ w => .ok w) (t1 := 1000) (t2 := 3000) (e := Toy.ev4) (fee := 1)
    (net := 999) (k := Toy.wd4) (pda := Toy.pda1) (plen := 1)
    Toy.distinct hs hS ht hte hw (by rw [hn]; exact ⟨_, Toy.findAddr_eq _ _⟩) rfl (by decide) hx ⟨Toy.same_ne ?_, Toy.same_ne ?_⟩ (by rw [hR]; decide)
    (by rw [hv.1]; decide) (by rw [f1, f2]; rfl) rfl
    ⟨Nat.le_of_ble_eq_true hl1, Nat.le_trans (Nat.add_le_add_right (by unfold releasedOn; split <;> omega) _) (Nat.le_of_ble_eq_true hl2)⟩
    (Nat.le_of_ble_eq_true hl3) hb hc hq (by decide) rfl (by decide) (by rw [hn]; exact h1) h2
  obtain ⟨w4, h9, h10⟩ := h8 w3 [(Toy.tpProxy, false, false)] 4000 _ rfl h7 rfl
  exact ⟨ix1, ix2, _, w1, w2, w3, w4, _, h1, h3, hn ▸ h4, h2, h5, h6, rfl, h9, h10, rfl⟩
  checked

private def starProxy' : Pubkey := Toy.addr (proxySeeds Toy.starMint Toy.bob) Toy.env.tpId
private def evStar : WEverEvent := ⟨Toy.star, Toy.starName, Toy.starSymbol, 9, 50000, Toy.bob, [9]⟩

/-- star tokens with a payload -/
example : ∃ ix1 ix2 ix3 w1 w2 w3 w4 r, TP.Client.everRequestIx Toy.env Toy.funder Toy.alice 1 Toy.pda1 evStar 5 = .ok ix1 ∧
    TP.process Toy.env (ix1.ctx 1000) (fun _ w => .ok w) ix1.data (Toy.get Toy.tpPaidE) = .ok w1 ∧
    Voted Toy.env (fun _ w => .ok w) (Toy.everAddr Toy.pda1 evStar) 1 .confirm [(Toy.relay 2, 1000), (Toy.relay 0, 2000), (Toy.relay 1, 1500)] w1 w2 ∧
    TP.Client.withdrawEverIx Toy.env (Toy.everAddr Toy.pda1 evStar) starProxy' Toy.star = .ok ix2 ∧
    TP.process Toy.env (ix2.ctx 3000) (fun _ w => .ok w) ix2.data w2 = .ok w3 ∧ Mints Toy.starMint starProxy' 49975 (Toy.get Toy.tpPaidE) w3 ∧
    Bridge.Client.executePayloadIx Toy.env.tpId 3 (Toy.everAddr Toy.pda1 evStar) [(starProxy', false, false)] = .ok ix3 ∧
    TP.process Toy.env (ix3.ctx 4000) (fun _ w => .ok w) ix3.data w3 = .ok w4 ∧
    WdReady wEverEventC Toy.env w4 (Toy.everAddr Toy.pda1 evStar) r ∧ r.md.status = .processed := by
  obtain ⟨ix1, h1⟩ := Toy.ix (r := TP.Client.everRequestIx Toy.env Toy.funder Toy.alice 1 Toy.pda1 evStar 5) ?_
  obtain ⟨ix2, h2⟩ := Toy.ix (r := TP.Client.withdrawEverIx Toy.env (Toy.everAddr Toy.pda1 evStar) starProxy' Toy.star) ?_
  obtain ⟨s, hs, hS⟩ := Toy.tp_ready (P := fun s => !s.emergency) (w := Toy.get Toy.tpPaidE) ?_
  obtain ⟨t, m, ht, hT, hM⟩ := Toy.tp_ever (P := fun t => !t.emergency && (Toy.feeIs t.feeWithdrawalInfo 5 10000 && (Nat.ble 49975 t.withdrawalLimit.toNat &&
    (Nat.ble (t.withdrawalDailyAmount.toNat + 49975) t.withdrawalDailyLimit.toNat && Nat.blt (t.feeSupply.toNat + 25) (2 ^ 64)))))
    (Q := fun m => Nat.beq m.decimals.toNat 9 && Nat.blt (m.supply.toNat + 49975) (2 ^ 64)) (w := Toy.get Toy.tpPaidE) ?_ ?_
  obtain ⟨rs, rr, hw, hn, hR, hq⟩ := toy_new (w := Toy.get Toy.tpPaidE) (k := Toy.everAddr Toy.pda1 evStar) (x := max 1 (Toy.env.rent 165) + (5#64).toNat) ?_ ?_ ?_ ?_
  simp only [Bool.and_eq_true, Bool.not_eq_true'] at hS hT hM
  obtain ⟨hte, hf, hl1, hl2, hl3⟩ := hT
  obtain ⟨f1, f2⟩ := Toy.feeIs_eq hf
  have hdec : m.decimals.toNat = 9 := Nat.eq_of_beq_eq_true hM.1
  obtain hc := toy_canVote (w := Toy.get Toy.tpPaidE) (k := Toy.everAddr Toy.pda1 evStar) (votes := List.replicate rr.relays.length .none) hR (by rw [hR]; rfl) ?_ ?_
  obtain hv := Toy.vacant (w := Toy.get Toy.tpPaidE) (k := starProxy') ?_
  obtain hx : NewProxy Toy.env (Toy.get Toy.tpPaidE) Toy.starMint Toy.bob starProxy' (5#64).toNat :=
    ⟨⟨_, Toy.findAddr_eq _ _⟩, hv.2.2, hv.2.1, mintAt_ok ?_, by rw [hv.1]; decide⟩
  obtain hal := Nat.le_of_ble_eq_true (n := 1) (m := ((Toy.get Toy.tpPaidE).acc Toy.tpStar).lamports) ?_
  obtain ⟨w1, w2, w3, h3, h4, h5, h6, r, h7, -, -, -, h8⟩ := C75_ever_payload (cpi := fun _ w => .ok w) (t1 := 1000) (t2 := 3000) (e := evStar) (fee := 25)
    (net := 49975) (k := Toy.everAddr Toy.pda1 evStar) (pda := Toy.pda1) (plen := 1)
    Toy.distinct hs hS ht (Nat.one_le_iff_ne_zero.1 hal) hte hw (by rw [hn]; exact ⟨_, Toy.findAddr_eq _ _⟩) rfl (by decide) (by decide) (by decide) hx
    ⟨Toy.same_ne ?_, Toy.same_ne ?_, Toy.same_ne ?_⟩ (by rw [hR]; decide)
    (by rw [hdec]; decide) (by rw [hdec]; decide) (by rw [f1, f2, hdec]; rfl) (by rw [hdec]; rfl) (Nat.le_of_ble_eq_true hM.2)
    ⟨Nat.le_of_ble_eq_true hl1, Nat.le_trans (Nat.add_le_add_right (by unfold releasedOn; split <;> omega) _) (Nat.le_of_ble_eq_true hl2)⟩
    (Nat.le_of_ble_eq_true hl3) hc hq (by decide) rfl (by decide) (by rw [hn]; exact h1) h2
  obtain ⟨w4, h9, h10⟩ := h8 w3 [(starProxy', false, false)] 4000 _ rfl h7 rfl
  exact ⟨ix1, ix2, _, w1, w2, w3, w4, _, h1, h3, hn ▸ h4, h2, h5, h6, rfl, h9, h10, rfl⟩
  checked

end Verif.Props
