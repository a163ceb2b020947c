import Verif.Props.ClientTP
import Verif.Props.Arith
import Verif.Lemmas.LiveTok
import Verif.Spec.ToyDep
import Verif.Spec.ToyTactic
/-!
# Requests for withdrawals built by the client are accepted

C52 for the instructions that open withdrawals and the one that registers a token of Everscale.
-/
set_option linter.unusedSimpArgs false
set_option maxRecDepth 100000
namespace Verif.Props
open Verif TP Codec Client

variable {env : Env} {ix : Ix} {now : I64} {w w' : World} {cpi : Pubkey → World → Except Err World}

/-! ## Requests -/

private theorem notin_one {a b : Pubkey} (h : a ≠ b) : a ∉ [b] := by simpa using h

section Request
variable {f au k kt krs kr mint kv px : Pubkey} {t : TokenSettings} {v : TokenAcc} {rs : RL.Settings} {rr : RL.RelayRound} {pda : PDA} {att : U64}

/-- A withdrawal can be opened by `f` at the address `k`, to be voted on by the relays of `rr`. -/
structure NewWithdrawal (env : Env) (w : World) (now : I64) (f k krs kr : Pubkey) (rs : RL.Settings) (rr : RL.RelayRound) (cost : Nat) : Prop where
  hSettings : RL.Ready env w krs rs
  hRound : RL.RoundReady env w kr rr
  hOpen : (now.setWidth 32 : U32).toNat < rr.roundEnd.toNat
  hVacant : Vacant env (w.acc k)
  hWallet : Wallet env w f (cost + (max 1 (env.rent recLen) + relayReparation * rr.relays.length))
  hRent : max 1 (env.rent recLen) + relayReparation * rr.relays.length < 2 ^ 64

/-- The proxy account `px` of `who` for tokens of `mint` does not exist yet; its address may have been given lamports. -/
structure NewProxy (env : Env) (w : World) (mint who px : Pubkey) (attached : Nat) : Prop where
  hAddr : IsAddr env env.tpId (proxySeeds mint who) px
  hOwner : (w.acc px).owner = env.systemId
  hEmpty : (w.acc px).data.len = 0
  hMint : ∃ m, (w.acc mint).data = .mint m
  hRoom : max (max 1 (env.rent 165)) (w.acc px).lamports + attached < 2 ^ 64

/-- C52: the built request for a withdrawal of a Solana token is accepted. -/
theorem C52_tp_solRequest {e : WSolEvent} (ht : SolReady env w e.mint kt kv t v) (hw : NewWithdrawal env w now f k krs kr rs rr 0)
    (hk : IsAddr env env.tpId (proposalSeeds rr.roundNumber pda (env.hash (wSolEventC.enc e))) k) (hp : e.payload = [])
    (hpl : rr.relays.length ≤ 798)
    (h : TP.Client.solRequestIx env f au pda rr.roundNumber e att = .ok ix) : Accepted env cpi now w ix := by
  obtain ⟨n2, vn, hk2, htn, hvn⟩ := id ht.addr
  obtain ⟨n3, _, _, _, hrs, _⟩ := id hw.hSettings.addr
  obtain ⟨n4, _, hrr⟩ := id hw.hRound.addr
  obtain ⟨n5, hkn⟩ := id hk
  simp only [TP.Client.solRequestIx, TP.Client.withdrawalSolAddr, TP.Client.tokenSettingsSolAddr, if_pos hp, bind_ok, addrOf_ok, packed_ok, Except.ok.injEq] at h
  obtain ⟨k', ⟨_, ⟨_, rfl⟩, _, hk'⟩, kt', ⟨_, hkt'⟩, krs', ⟨_, hkrs'⟩, kr', ⟨_, hkr'⟩, _, rfl, _, ⟨hwf, rfl⟩, rfl⟩ := h
  rw [htn] at hkt'; rw [hrs] at hkrs'; rw [hrr] at hkr'; rw [hkn] at hk'
  cases hkt'; cases hkrs'; cases hkr'; cases hk'
  unfold Accepted
  rw [process_enc hwf]
  exact solRequest_live (extra := []) (w1 := w) (pn := none) rfl rfl (by built) (by built) (by built) (by built) ht hw.hSettings hw.hRound hw.hOpen
    (by simp [openProxy, hp]) hkn hw.hVacant (hw.hWallet.eff (Eff.refl [] w) (by simp) (by have := hw.hWallet.rich; omega)) hw.hRent (by rw [hp]; simpa using hpl)

/-- C52: with a payload the request creates the proxy account of the recipient and gives it the attached lamports. -/
theorem C52_tp_solRequestPayload {e : WSolEvent} (ht : SolReady env w e.mint kt kv t v)
    (hw : NewWithdrawal env w now f k krs kr rs rr (max 1 (env.rent 165) + att.toNat))
    (hk : IsAddr env env.tpId (proposalSeeds rr.roundNumber pda (env.hash (wSolEventC.enc e))) k) (hp : e.payload ≠ [])
    (hx : NewProxy env w e.mint e.recipient px att.toNat) (hdiff : px ≠ k ∧ f ≠ px)
    (hpl : e.payload.length + rr.relays.length ≤ 798)
    (h : TP.Client.solRequestIx env f au pda rr.roundNumber e att = .ok ix) : Accepted env cpi now w ix := by
  obtain ⟨n2, vn, hk2, htn, hvn⟩ := id ht.addr
  obtain ⟨n3, _, _, _, hrs, _⟩ := id hw.hSettings.addr
  obtain ⟨n4, _, hrr⟩ := id hw.hRound.addr
  obtain ⟨n5, hkn⟩ := id hk
  obtain ⟨n6, hpx⟩ := id hx.hAddr
  obtain ⟨m, hm⟩ := hx.hMint
  simp only [TP.Client.solRequestIx, TP.Client.withdrawalSolAddr, TP.Client.tokenSettingsSolAddr, TP.Client.proxyAddr, if_neg hp, bind_ok, addrOf_ok, packed_ok,
    Except.ok.injEq] at h
  obtain ⟨k', ⟨_, ⟨_, rfl⟩, _, hk'⟩, kt', ⟨_, hkt'⟩, krs', ⟨_, hkrs'⟩, kr', ⟨_, hkr'⟩, px', ⟨_, hpx'⟩, _, rfl, _, ⟨hwf, rfl⟩, rfl⟩ := h
  rw [htn] at hkt'; rw [hrs] at hkrs'; rw [hrr] at hkr'; rw [hkn] at hk'; rw [hpx] at hpx'
  cases hkt'; cases hkrs'; cases hkr'; cases hk'; cases hpx'
  unfold Accepted
  rw [process_enc hwf]
  obtain ⟨w1, h1, e1, -, l1⟩ := openProxy_live (ctx := Ix.ctx ⟨env.tpId, [Meta.new f true, Meta.new au true, Meta.new k false, Meta.readonly kt false, Meta.readonly krs false,
      Meta.readonly kr false, Meta.readonly env.systemId false, Meta.readonly env.rentId false, Meta.readonly env.clockId false] ++
      [Meta.new px false, Meta.new e.mint false, Meta.new env.splId false], Instr.codec.enc (.withdrawMultiTokenSolRequest pda e.recipient e.amount e.payload att)⟩ now)
    (i := 9) (f := f) rfl hp rfl rfl rfl hpx ⟨hx.hOwner, hx.hEmpty⟩ hm hdiff.2 (by built) (by built) (by built) (by built)
    (hw.hWallet.eff (Eff.refl [] w) (by simp) (by have := hw.hWallet.rich; omega)) hx.hRoom
  have lk := l1 k hdiff.1.symm
  have f_k : f ≠ k := by rintro rfl; have := hw.hWallet.rich; have := hw.hVacant.1; omega
  rw [if_neg f_k.symm] at lk
  have ek := e1 k (notin_one hdiff.1.symm)
  refine solRequest_live (extra := [px, e.mint, env.splId]) (w1 := w1) rfl rfl (by built) (by built) (by built) (by built) ht hw.hSettings hw.hRound hw.hOpen
    h1 hkn ?_ ?_ hw.hRent hpl
  · show Vacant env (w1.acc k)
    exact ⟨by rw [lk]; have := hw.hVacant.1; omega, by rw [ek.1]; exact hw.hVacant.2.1, by rw [ek.2]; exact hw.hVacant.2.2⟩
  · refine hw.hWallet.eff e1 (notin_one hdiff.2) ?_
    rw [l1 f hdiff.2, if_pos rfl]
    have := hw.hWallet.rich; omega

/-- C52: the built request for a withdrawal of an Everscale token is accepted, whether or not the token is known. -/
theorem C52_tp_everRequest {e : WEverEvent} (hw : NewWithdrawal env w now f k krs kr rs rr 0)
    (hk : IsAddr env env.tpId (proposalSeeds rr.roundNumber pda (env.hash (wEverEventC.enc e))) k)
    (hp : e.payload = []) (hname : e.name.length ≤ 32) (hsymbol : e.symbol.length ≤ 32)
    (hpl : e.name.length + e.symbol.length + rr.relays.length ≤ 787)
    (h : TP.Client.everRequestIx env f au rr.roundNumber pda e att = .ok ix) : Accepted env cpi now w ix := by
  obtain ⟨n3, _, _, _, hrs, _⟩ := id hw.hSettings.addr
  obtain ⟨n4, _, hrr⟩ := id hw.hRound.addr
  obtain ⟨n5, hkn⟩ := id hk
  simp only [TP.Client.everRequestIx, TP.Client.withdrawalEverAddr, if_pos hp, bind_ok, addrOf_ok, packed_ok, Except.ok.injEq] at h
  obtain ⟨k', ⟨_, ⟨hew, rfl⟩, _, hk'⟩, krs', ⟨_, hkrs'⟩, kr', ⟨_, hkr'⟩, _, rfl, _, ⟨hwf, rfl⟩, rfl⟩ := h
  rw [hrs] at hkrs'; rw [hrr] at hkr'; rw [hkn] at hk'
  cases hkrs'; cases hkr'; cases hk'
  have hu : validUtf8 e.name = true ∧ validUtf8 e.symbol = true := by
    simp only [wEverEventC, wf_iso, wf_pair, Bool.and_eq_true, wf_str] at hew
    exact ⟨hew.2.1.2, hew.2.2.1.2⟩
  unfold Accepted
  rw [process_enc hwf]
  exact everRequest_live (extra := []) (w1 := w) (pn := none) rfl rfl (by built) (by built) (by built) (by built) hname hsymbol hu.1 hu.2 hw.hSettings hw.hRound
    hw.hOpen (if_pos hp) (by simp [openProxy, hp]) hkn hw.hVacant (hw.hWallet.eff (Eff.refl [] w) (by simp) (by have := hw.hWallet.rich; omega)) hw.hRent
    (by rw [hp]; simpa using hpl)

/-- C52: with a payload, for a token whose mint exists. -/
theorem C52_tp_everRequestPayload {e : WEverEvent} {km : Pubkey}
    (hw : NewWithdrawal env w now f k krs kr rs rr (max 1 (env.rent 165) + att.toNat))
    (hk : IsAddr env env.tpId (proposalSeeds rr.roundNumber pda (env.hash (wEverEventC.enc e))) k) (hm : IsAddr env env.tpId (mintSeeds env e.token) km)
    (hp : e.payload ≠ []) (hname : e.name.length ≤ 32) (hsymbol : e.symbol.length ≤ 32)
    (hx : NewProxy env w km e.recipient px att.toNat) (hdiff : px ≠ k ∧ f ≠ px)
    (hpl : e.name.length + e.symbol.length + e.payload.length + rr.relays.length ≤ 787)
    (h : TP.Client.everRequestIx env f au rr.roundNumber pda e att = .ok ix) : Accepted env cpi now w ix := by
  obtain ⟨n3, _, _, _, hrs, _⟩ := id hw.hSettings.addr
  obtain ⟨n4, _, hrr⟩ := id hw.hRound.addr
  obtain ⟨n5, hkn⟩ := id hk
  obtain ⟨nm, hmn⟩ := hm
  obtain ⟨n6, hpx⟩ := id hx.hAddr
  obtain ⟨m, hm⟩ := hx.hMint
  simp only [TP.Client.everRequestIx, TP.Client.withdrawalEverAddr, TP.Client.mintAddr, TP.Client.proxyAddr, if_neg hp, bind_ok, addrOf_ok, packed_ok,
    Except.ok.injEq] at h
  obtain ⟨k', ⟨_, ⟨hew, rfl⟩, _, hk'⟩, krs', ⟨_, hkrs'⟩, kr', ⟨_, hkr'⟩, km', ⟨_, hkm'⟩, px', ⟨_, hpx'⟩, _, rfl, _, ⟨hwf, rfl⟩, rfl⟩ := h
  rw [hmn] at hkm'; cases hkm'
  rw [hrs] at hkrs'; rw [hrr] at hkr'; rw [hkn] at hk'; rw [hpx] at hpx'
  cases hkrs'; cases hkr'; cases hk'; cases hpx'
  have hu : validUtf8 e.name = true ∧ validUtf8 e.symbol = true := by
    simp only [wEverEventC, wf_iso, wf_pair, Bool.and_eq_true, wf_str] at hew
    exact ⟨hew.2.1.2, hew.2.2.1.2⟩
  unfold Accepted
  rw [process_enc hwf]
  obtain ⟨w1, h1, e1, -, l1⟩ := openProxy_live (ctx := Ix.ctx ⟨env.tpId, [Meta.new f true, Meta.new au true, Meta.new k false, Meta.readonly krs false,
      Meta.readonly kr false, Meta.readonly env.systemId false, Meta.readonly env.rentId false, Meta.readonly env.clockId false] ++
      [Meta.new px false, Meta.new km false, Meta.new env.splId false], Instr.codec.enc (.withdrawMultiTokenEverRequest pda e.token e.name e.symbol e.decimals e.recipient
        e.amount e.payload att)⟩ now)
    (i := 8) (f := f) rfl hp rfl rfl rfl hpx ⟨hx.hOwner, hx.hEmpty⟩ hm hdiff.2 (by built) (by built) (by built) (by built)
    (hw.hWallet.eff (Eff.refl [] w) (by simp) (by have := hw.hWallet.rich; omega)) hx.hRoom
  have lk := l1 k hdiff.1.symm
  have f_k : f ≠ k := by rintro rfl; have := hw.hWallet.rich; have := hw.hVacant.1; omega
  rw [if_neg f_k.symm] at lk
  have ek := e1 k (notin_one hdiff.1.symm)
  refine everRequest_live (extra := [px, km, env.splId]) (w1 := w1) rfl rfl (by built) (by built) (by built) (by built) hname hsymbol hu.1 hu.2 hw.hSettings hw.hRound
    hw.hOpen ((if_neg hp).trans hmn) h1 hkn ?_ ?_ hw.hRent hpl
  · show Vacant env (w1.acc k)
    exact ⟨by rw [lk]; have := hw.hVacant.1; omega, by rw [ek.1]; exact hw.hVacant.2.1, by rw [ek.2]; exact hw.hVacant.2.2⟩
  · refine hw.hWallet.eff e1 (notin_one hdiff.2) ?_
    rw [l1 f hdiff.2, if_pos rfl]
    have := hw.hWallet.rich; omega

end Request

/-! ## The first withdrawal of an Everscale token -/

/-- C52: the built payout that registers an Everscale token is accepted. The new mint has the token's decimals, at most nine. -/
theorem C52_tp_createEver {f ks kt km k to : Pubkey} {s : Settings} {r : Withdrawal WEverEvent} {fee net : U64}
    (hd : env.Distinct) (hs : Ready env w ks s) (hse : s.emergency = false) (hw : WdReady wEverEventC env w k r)
    (hkm : IsAddr env env.tpId (mintSeeds env r.event.token) km) (hkt : IsAddr env env.tpId (tokenSettingsEverSeeds env r.event.token) kt)
    (hto : IsAddr env env.ataId (ataSeeds env r.event.recipient km) to)
    (hdiff : km ≠ kt ∧ km ≠ to ∧ kt ≠ to ∧ f ≠ to ∧ km ≠ env.nativeMint)
    (hname : r.event.name.length ≤ 32) (hsymbol : r.event.symbol.length ≤ 32) (hp : r.event.payload = [])
    (hvm : Vacant env (w.acc km)) (hvt : Vacant env (w.acc kt)) (hvo : (w.acc to).owner = env.systemId ∧ (w.acc to).data.len = 0)
    (hwal : Wallet env w f (max 1 (env.rent 82) + max 1 (env.rent 165) + max 1 (env.rent recLen)))
    (hrent : env.rent 82 < 2 ^ 64 ∧ env.rent 165 < 2 ^ 64 ∧ env.rent recLen < 2 ^ 64)
    (hdec : r.event.decimals.toNat ≤ min r.event.decimals.toNat 9 + 38)
    (hfits : toSolSpec r.event.amount.toNat r.event.decimals.toNat (min r.event.decimals.toNat 9) < 2 ^ 64)
    (hfee : feeSpec 5 10000 (toSolSpec r.event.amount.toNat r.event.decimals.toNat (min r.event.decimals.toNat 9)) = some fee.toNat)
    (hnet : net.toNat + fee.toNat = toSolSpec r.event.amount.toNat r.event.decimals.toNat (min r.event.decimals.toNat 9))
    (h : TP.Client.createEverTokenIx env f k r.event.recipient r.event.token = .ok ix) : Accepted env cpi now w ix := by
  obtain ⟨n, pn, pd0, hk0, hsn, hpn⟩ := id hs.addr
  obtain ⟨nm, hmn⟩ := hkm
  obtain ⟨nt, htn⟩ := hkt
  obtain ⟨na, han⟩ := hto
  simp only [TP.Client.createEverTokenIx, TP.Client.settingsAddr, TP.Client.mintAddr, TP.Client.tokenSettingsEverAddr, ataAddr, bind_ok, addrOf_ok, packed_ok,
    Except.ok.injEq] at h
  obtain ⟨ks', ⟨_, hks'⟩, km', ⟨_, hkm'⟩, kt', ⟨_, hkt'⟩, to', ⟨_, hto'⟩, _, ⟨hwf, rfl⟩, rfl⟩ := h
  rw [hmn] at hkm'; cases hkm'
  rw [hsn] at hks'; rw [htn] at hkt'; rw [han] at hto'
  cases hks'; cases hkt'; cases hto'
  unfold Accepted
  rw [process_enc hwf]
  have hnd : (newDecimals r.event.decimals).toNat = min r.event.decimals.toNat 9 := by
    unfold newDecimals
    split
    · omega
    · rw [show (9#8).toNat = 9 from rfl]; omega
  have e : (BitVec.ofNat 64 (toSolSpec r.event.amount.toNat r.event.decimals.toNat (min r.event.decimals.toNat 9))).toNat =
      toSolSpec r.event.amount.toNat r.event.decimals.toNat (min r.event.decimals.toNat 9) := by
    rw [BitVec.toNat_ofNat]; exact Nat.mod_eq_of_lt hfits
  exact createEver_live (f := f) (fee := fee) (n := net) (more := [r.event.recipient, env.ataId]) rfl hd hs hse hw hdiff.1 hdiff.2.1 hdiff.2.2.1 hdiff.2.2.2.2 hmn htn han hname hsymbol rfl (by simp) (by simp)
    (by simp [TP.Client.everMetas, Ix.ctx, Ctx.isSigner, Ctx.isWritable, Meta.new, Meta.readonly])
    (by simp [TP.Client.everMetas, Ix.ctx, Ctx.isSigner, Ctx.isWritable, Meta.new, Meta.readonly])
    (by simp [TP.Client.everMetas, Ix.ctx, Ctx.isSigner, Ctx.isWritable, Meta.new, Meta.readonly])
    (by simp [TP.Client.everMetas, Ix.ctx, Ctx.isSigner, Ctx.isWritable, Meta.new, Meta.readonly])
    (by simp [TP.Client.everMetas, Ix.ctx, Ctx.isSigner, Ctx.isWritable, Meta.new, Meta.readonly])
    (by simp [TP.Client.everMetas, Ix.ctx, Ctx.isSigner, Ctx.isWritable, Meta.new, Meta.readonly])
    hvm hvt ⟨hvo.1, hvo.2⟩ hwal hdiff.2.2.2.1 hrent.1 hrent.2.1 hrent.2.2 hp
    ((C21_withdrawal_exact_partial _ _ _ (by rw [hnd]; exact hdec) (by rw [hnd]; omega) (by rw [hnd]; exact hfits) _).2 (by rw [hnd]; exact e))
    ((C20_fee_value FeeInfo.default _ _).2 (by rw [e]; exact hfee)) (by rw [e]; exact hnet)

/-! ## On the toy chain -/

private def hasMint (w : World) (k : Pubkey) : Bool := match (w.acc k).data with
  | .mint _ => true
  | _ => false

private theorem hasMint_ok {w : World} {k : Pubkey} (h : hasMint w k = true) : ∃ m, (w.acc k).data = .mint m := by
  unfold hasMint at h
  split at h
  · exact ⟨_, by assumption⟩
  · cases h

private theorem toy_open {w : World} {k : Pubkey} {cost : Nat}
    (h1 : Toy.chk RL.settingsC RL.settingsLen (fun s => s.isInitialized && (Toy.kindSettings s.accountKind && true)) w Toy.rlSettings = true)
    (h2 : Toy.chk RL.relayRoundC RL.relayRoundLen (fun r => r.isInitialized && (Toy.kindRound r.accountKind && (Nat.beq r.roundNumber.toNat (1#32).toNat &&
      (Nat.blt 1000 r.roundEnd.toNat && Nat.beq r.relays.length 3)))) w (Toy.rlRound 1) = true)
    (h3 : Toy.isVacant w k = true) (h4 : Toy.isWallet w Toy.funder (cost + (max 1 (Toy.env.rent recLen) + relayReparation * 3)) = true) :
    ∃ rs rr, NewWithdrawal Toy.env w 1000 Toy.funder k Toy.rlSettings (Toy.rlRound 1) rs rr cost ∧ rr.roundNumber = 1 ∧ rr.relays.length = 3 := by
  obtain ⟨rs, hrs, -⟩ := Toy.rl_ready (P := fun _ => true) h1
  obtain ⟨rr, hrr, hn, hP⟩ := Toy.rl_round h2
  simp only [Bool.and_eq_true] at hP
  have hl : rr.relays.length = 3 := Nat.eq_of_beq_eq_true hP.2
  exact ⟨rs, rr, ⟨hrs, hrr, Nat.le_of_ble_eq_true hP.1, Toy.vacant h3, by rw [hl]; exact Toy.wallet h4, by rw [hl]; decide⟩, hn, hl⟩

/-- alice asks for 1000 gold for bob -/
example : ∃ ix, TP.Client.solRequestIx Toy.env Toy.funder Toy.alice Toy.pda1 1 Toy.ev1 0 = .ok ix ∧ Accepted Toy.env noCpi 1000 (Toy.get Toy.tpDeposited) ix := by
  obtain ⟨ix, h⟩ := Toy.ix (r := TP.Client.solRequestIx Toy.env Toy.funder Toy.alice Toy.pda1 1 Toy.ev1 0) ?_
  obtain ⟨t, v, ht, -, -⟩ := Toy.tp_sol (P := fun t => true) (Q := fun _ => true) (w := Toy.get Toy.tpDeposited) ?_ ?_
  obtain ⟨rs, rr, hw, hn, hl⟩ := toy_open (w := Toy.get Toy.tpDeposited) (k := Toy.wd1) (cost := 0) ?_ ?_ ?_
    ?_
  refine ⟨ix, h, C52_tp_solRequest (e := Toy.ev1) ht hw (by rw [hn]; exact ⟨_, Toy.findAddr_eq _ _⟩) rfl (by omega) (by rw [hn]; exact h)⟩
  checked

/-- the same with a payload -/
example : ∃ ix, TP.Client.solRequestIx Toy.env Toy.funder Toy.alice Toy.pda1 1 Toy.ev4 5 = .ok ix ∧ Accepted Toy.env noCpi 1000 (Toy.get Toy.tpDeposited) ix := by
  obtain ⟨ix, h⟩ := Toy.ix (r := TP.Client.solRequestIx Toy.env Toy.funder Toy.alice Toy.pda1 1 Toy.ev4 5) ?_
  obtain ⟨t, v, ht, -, -⟩ := Toy.tp_sol (P := fun t => true) (Q := fun _ => true) (w := Toy.get Toy.tpDeposited) ?_ ?_
  obtain ⟨rs, rr, hw, hn, hl⟩ := toy_open (w := Toy.get Toy.tpDeposited) (k := Toy.wd4) (cost := max 1 (Toy.env.rent 165) + (5#64).toNat) ?_
    ?_ ?_ ?_
  obtain hv := Toy.vacant (w := Toy.get Toy.tpDeposited) (k := Toy.tpProxy) ?_
  refine ⟨ix, h, C52_tp_solRequestPayload (e := Toy.ev4) (px := Toy.tpProxy) ht hw (by rw [hn]; exact ⟨_, Toy.findAddr_eq _ _⟩) (by decide)
    ⟨⟨_, Toy.findAddr_eq _ _⟩, hv.2.2, hv.2.1, hasMint_ok ?_, by rw [hv.1]; decide⟩
    ⟨Toy.same_ne ?_, Toy.same_ne ?_⟩ (by rw [hl]; decide) (by rw [hn]; exact h)⟩
  checked

/-- alice asks for 70000 star for bob; nobody has seen the token yet -/
example : ∃ ix, TP.Client.everRequestIx Toy.env Toy.funder Toy.alice 1 Toy.pda1 Toy.ev5 0 = .ok ix ∧ Accepted Toy.env noCpi 1000 (Toy.get Toy.tpDeposited) ix := by
  obtain ⟨ix, h⟩ := Toy.ix (r := TP.Client.everRequestIx Toy.env Toy.funder Toy.alice 1 Toy.pda1 Toy.ev5 0) ?_
  obtain ⟨rs, rr, hw, hn, hl⟩ := toy_open (w := Toy.get Toy.tpDeposited) (k := Toy.wd5) (cost := 0) ?_ ?_ ?_
    ?_
  refine ⟨ix, h, C52_tp_everRequest (e := Toy.ev5) hw (by rw [hn]; exact ⟨_, Toy.findAddr_eq _ _⟩) rfl (by decide) (by decide)
    (by rw [hl]; decide) (by rw [hn]; exact h)⟩
  checked

private def ev5p : WEverEvent := ⟨Toy.star, Toy.starName, Toy.starSymbol, 9, 70000, Toy.bob, [9]⟩

set_option maxHeartbeats 1000000 in
/-- with a payload, once the token is known -/
example : ∃ ix, TP.Client.everRequestIx Toy.env Toy.funder Toy.alice 1 Toy.pda1 ev5p 5 = .ok ix ∧ Accepted Toy.env noCpi 1000 (Toy.get Toy.tpPaidE) ix := by
  obtain ⟨ix, h⟩ := Toy.ix (r := TP.Client.everRequestIx Toy.env Toy.funder Toy.alice 1 Toy.pda1 ev5p 5) ?_
  obtain ⟨rs, rr, hw, hn, hl⟩ := toy_open (w := Toy.get Toy.tpPaidE) (k := Toy.everAddr Toy.pda1 ev5p) (cost := max 1 (Toy.env.rent 165) + (5#64).toNat) ?_
    ?_ ?_ ?_
  obtain hv := Toy.vacant (w := Toy.get Toy.tpPaidE) (k := Toy.addr (proxySeeds Toy.starMint Toy.bob) Toy.env.tpId) ?_
  obtain hx : NewProxy Toy.env (Toy.get Toy.tpPaidE) Toy.starMint Toy.bob (Toy.addr (proxySeeds Toy.starMint Toy.bob) Toy.env.tpId) (5#64).toNat :=
    ⟨⟨_, Toy.findAddr_eq _ _⟩, hv.2.2, hv.2.1, hasMint_ok ?_, by rw [hv.1]; decide⟩
  have hk : IsAddr Toy.env Toy.env.tpId (proposalSeeds 1 Toy.pda1 (Toy.env.hash (wEverEventC.enc ev5p))) (Toy.everAddr Toy.pda1 ev5p) := ⟨_, Toy.findAddr_eq _ _⟩
  have hm : IsAddr Toy.env Toy.env.tpId (mintSeeds Toy.env Toy.star) Toy.starMint := ⟨_, Toy.findAddr_eq _ _⟩
  refine ⟨ix, h, C52_tp_everRequestPayload (e := ev5p) (km := Toy.starMint) hw (by rw [hn]; exact hk) hm (by decide)
    (by decide) (by decide) hx
    ⟨Toy.same_ne ?_, Toy.same_ne ?_⟩ (by rw [hl]; decide) (by rw [hn]; exact h)⟩
  checked

/-- the first payout of the star token -/
example : ∃ ix, TP.Client.createEverTokenIx Toy.env Toy.funder Toy.wd5 Toy.bob Toy.star = .ok ix ∧ Accepted Toy.env noCpi 1000 (Toy.get Toy.tpE3) ix := by
  obtain ⟨ix, h⟩ := Toy.ix (r := TP.Client.createEverTokenIx Toy.env Toy.funder Toy.wd5 Toy.bob Toy.star) ?_
  obtain ⟨s, hs, hP1⟩ := Toy.tp_ready (P := fun s => !s.emergency) (w := Toy.get Toy.tpE3) ?_
  obtain ⟨r, hr, hP⟩ := Toy.tp_wd (ec := wEverEventC) (P := fun r => decide (r.event.token = Toy.star) && (Toy.same r.event.recipient Toy.bob &&
    (Nat.beq r.event.amount.toNat 70000 && (Nat.beq r.event.decimals.toNat 9 && (r.event.payload.isEmpty && (Nat.ble r.event.name.length 32 &&
      Nat.ble r.event.symbol.length 32)))))) (w := Toy.get Toy.tpE3) (k := Toy.wd5) ?_
  simp only [Bool.and_eq_true, Bool.not_eq_true', decide_eq_true_eq, List.isEmpty_iff] at hP1 hP
  obtain ⟨htok, hrec, ham, hdec, hpl, hna, hsy⟩ := hP
  have hrec := Toy.same_eq hrec
  have ham : r.event.amount.toNat = 70000 := Nat.eq_of_beq_eq_true ham
  have hdec : r.event.decimals.toNat = 9 := Nat.eq_of_beq_eq_true hdec
  obtain hv := Toy.vacant (w := Toy.get Toy.tpE3) (k := Toy.bobStar) ?_
  refine ⟨ix, h, C52_tp_createEver (f := Toy.funder) (kt := Toy.tpStar) (km := Toy.starMint) (to := Toy.bobStar) (fee := 35) (net := 69965) Toy.distinct hs hP1 hr
    ⟨_, by rw [htok]; exact Toy.findAddr_eq _ _⟩ ⟨_, by rw [htok]; exact Toy.findAddr_eq _ _⟩ ⟨_, by rw [hrec]; exact Toy.findAddr_eq _ _⟩
    ⟨Toy.same_ne ?_, Toy.same_ne ?_, Toy.same_ne ?_, Toy.same_ne ?_, Toy.same_ne ?_⟩
    (Nat.le_of_ble_eq_true hna) (Nat.le_of_ble_eq_true hsy) hpl (Toy.vacant ?_) (Toy.vacant ?_) ⟨hv.2.2, hv.2.1⟩
    (Toy.wallet ?_) (by decide) (by rw [hdec]; decide) (by rw [hdec, ham]; decide) (by rw [hdec, ham]; rfl) (by rw [hdec, ham]; rfl)
    (by rw [hrec, htok]; exact h)⟩
  checked

end Verif.Props
