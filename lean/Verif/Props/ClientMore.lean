import Verif.Props.ClientDep
import Verif.Props.ClientReq
import Verif.Props.ClientPay
import Verif.Props.ClientRL
import Verif.Client.Bridge
import Verif.Lemmas.LiveNP
import Verif.Spec.ToyNative
/-!
# The builders of the `solana-bridge` crate and of the native proxy

C52 for the general builders the relays use, and for deposits of SOL.
-/
set_option linter.unusedSimpArgs false
set_option maxRecDepth 100000
namespace Verif.Props
open Verif TP Codec Client

variable {env : Env} {ix : Ix} {now : I64} {w w' : World} {cpi : Pubkey → World → Except Err World}

/-! ## Tokens that exist already -/

section Again
variable {f ks kt km k to : Pubkey} {token : EverAddress} {s : Settings} {t : TokenSettings} {m : MintAcc} {r : Withdrawal WEverEvent} {fee net : U64}

/-- C52: the builder that also creates the token may be used for a token that exists: with a payload it finds the proxy account of the recipient. -/
theorem C52_tp_createEverPayload (hd : env.Distinct) (hg : EverPayout env w token ks kt km k to s t m r fee net) (hp : r.event.payload ≠ [])
    (hday : releasedOn t (epochOf now) + net.toNat < 2 ^ 64) (hfee : t.feeSupply.toNat + fee.toNat < 2 ^ 64)
    (h : TP.Client.createEverTokenPayloadIx env f k r.event.recipient token = .ok ix) : Accepted env cpi now w ix := by
  obtain ⟨ns, pn, pd0, hk0, hsn, hpn⟩ := hg.hSettings.addr
  obtain ⟨n2, mn, hk2, htn, hmn⟩ := hg.hToken.addr
  obtain ⟨amount, ha, he, hf⟩ := hg.amount
  simp only [TP.Client.createEverTokenPayloadIx, TP.Client.proxyAddr, TP.Client.settingsAddr, TP.Client.mintAddr, TP.Client.tokenSettingsEverAddr, ataAddr,
    bind_ok, addrOf_ok, packed_ok, Except.ok.injEq] at h
  obtain ⟨ks', ⟨_, hks'⟩, km', ⟨nm', hkm'⟩, kt', ⟨_, hkt'⟩, to', ⟨n', hto'⟩, rt, -, _, ⟨hwf, rfl⟩, rfl⟩ := h
  rw [hmn] at hkm'; rw [hsn] at hks'; rw [htn] at hkt'
  cases hkm'; cases hks'; cases hkt'
  rcases id hg.hTo with ⟨e, -⟩ | ⟨-, n, pn, -, hto⟩
  · exact (hp e).elim
  · rw [hto] at hto'; cases hto'
    unfold Accepted
    rw [process_enc hwf]
    exact withdrawEver_live (more := [f, rt, r.event.recipient, env.ataId]) rfl hd.tpSpl hg.hSettings hg.hRunning hg.hToken hg.hAlive hg.hTokenRunning hg.hWd hg.hEvent rfl
      (by simp [TP.Client.everMetas]; built) (by simp [TP.Client.everMetas]; built) (by simp [TP.Client.everMetas]; built)
      (by simp [TP.Client.everMetas]; built) hg.hTo ha hf (by rw [he]; exact hg.hNet) hg.hMintable hg.hSupply hday hfee

end Again

/-! ## The `solana-bridge` crate: votes and requests -/

/-- C52: with instruction number 0 the general vote is the vote of the token proxy, and of the round loader. -/
theorem C52_bridge_vote {voter k : Pubkey} {round : U32} {v : Vote} :
    Bridge.Client.voteIx env env.tpId 0 voter k round v = TP.Client.voteIx env voter k round v ∧
    Bridge.Client.voteIx env env.rlId 0 voter k round v = RL.Client.voteIx env voter k round v := by
  constructor
  · cases v <;> rfl
  · cases v <;> rfl

/-- C52: the general request for a withdrawal of a Solana token, given the right address, is the one of the token proxy, with the creator paying. -/
theorem C52_bridge_solRequest {creator k : Pubkey} {round : U32} {pda : PDA} {e : WSolEvent} {att : U64}
    (hk : TP.Client.withdrawalSolAddr env round pda e = .ok k) :
    Bridge.Client.solRequestIx env env.tpId creator k round pda e att = TP.Client.solRequestIx env creator creator pda round e att := by
  simp only [Bridge.Client.solRequestIx, TP.Client.solRequestIx, hk]
  rfl

/-- C52: and so is the general request for a withdrawal of an Everscale token. -/
theorem C52_bridge_everRequest {creator k : Pubkey} {round : U32} {pda : PDA} {e : WEverEvent} {att : U64}
    (hk : TP.Client.withdrawalEverAddr env round pda e = .ok k) :
    Bridge.Client.everRequestIx env env.tpId creator k round pda e att = TP.Client.everRequestIx env creator creator round pda e att := by
  simp only [Bridge.Client.everRequestIx, TP.Client.everRequestIx, hk]
  rfl

/-! ## The `solana-bridge` crate: execution -/

private theorem executeMetas_eq (k : Pubkey) : ∀ ms : List Meta,
    Bridge.Client.executeMetas k (ms.map fun m => (m.key, !m.writable, m.signer)) = Meta.new k false :: ms := by
  intro ms
  simp only [Bridge.Client.executeMetas, List.map_cons, List.map_map]
  have : ms.map ((fun x : Pubkey × Bool × Bool => if x.2.1 = false then Meta.new x.1 x.2.2 else Meta.readonly x.1 x.2.2) ∘
      fun m => (m.key, !m.writable, m.signer)) = ms := by
    conv => rhs; rw [← List.map_id ms]
    apply List.map_congr_left
    rintro ⟨a, b, c⟩ -
    cases c <;> simp [Meta.new, Meta.readonly]
  rw [this]
  rfl

/-- C52: every payout the token proxy's own builder makes can also be built with the general builder, from the same accounts. -/
theorem C52_bridge_execute {k to mint : Pubkey} {token : EverAddress}
    (h : TP.Client.withdrawSolIx env k to mint = .ok ix ∨ TP.Client.withdrawEverIx env k to token = .ok ix) :
    ∃ number : U8, (number = 1 ∨ number = 2) ∧ ∃ accounts : List Meta, ix.metas = Meta.new k false :: accounts ∧
      Bridge.Client.executeIx env.tpId number k (accounts.map fun m => (m.key, !m.writable, m.signer)) = .ok ix := by
  rcases h with h | h
  · simp only [TP.Client.withdrawSolIx, bind_ok, packed_ok, Except.ok.injEq] at h
    obtain ⟨ks, -, kv, -, kt, -, _, ⟨-, rfl⟩, rfl⟩ := h
    refine ⟨2, .inr rfl, _, rfl, ?_⟩
    simp only [Bridge.Client.executeIx, executeMetas_eq]
    rfl
  · simp only [TP.Client.withdrawEverIx, bind_ok, packed_ok, Except.ok.injEq] at h
    obtain ⟨ks, -, km, -, kt, -, _, ⟨-, rfl⟩, rfl⟩ := h
    refine ⟨1, .inl rfl, _, rfl, ?_⟩
    simp only [Bridge.Client.executeIx, executeMetas_eq]
    rfl

/-- C52 fails for the general builder and the round loader: the builder puts the proposal first, where the round loader expects the account that
pays for the new round. Whatever other accounts are given, the instruction is rejected or does nothing. -/
theorem C52_bridge_no_rounds {kp : Pubkey} {accounts : List (Pubkey × Bool × Bool)} (hd : env.Distinct) (ho : (w.acc kp).owner = env.rlId)
    (h : Bridge.Client.executeIx env.rlId 7 kp accounts = .ok ix) (hok : RL.process env (ix.ctx now) ix.data w = .ok w') : w' = w := by
  simp only [Bridge.Client.executeIx, bind_ok, packed_ok, Except.ok.injEq] at h
  obtain ⟨_, ⟨-, rfl⟩, rfl⟩ := h
  have hdat : u8.enc 7 = RL.Instr.codec.enc .executeProposal := rfl
  rw [hdat] at hok
  rw [RL.process_enc (i := .executeProposal) rfl] at hok
  obtain ⟨kq, p, hkq, hh, hi, -, ⟨rfl, -⟩ | ⟨hst, hq, -, -⟩⟩ := RL.execute_fx hok
  · rfl
  · simp only [RL.run, RL.processExecute, bind_ok, acct_ok, sysvar_ok, exists_const, unpack_holds, RL.checkProposal_ok] at hok
    obtain ⟨f, hf, ks, -, kp', hkp', kr, -, -, -, rent, -, -, s, hs, p', ⟨hh', hini⟩, ⟨n, pn, hk, ha⟩, hr⟩ := hok
    rw [hkq] at hkp'; cases hkp'
    obtain rfl := hh'.unique hh
    have hf : kp = f := by
      have : some kp = some f := hf
      cases this; rfl
    subst hf
    rw [if_pos ⟨hst, by rw [RL.confirm_toNat hh]; exact hq⟩] at hr
    simp only [bind_ok] at hr
    obtain ⟨w1, h1, -⟩ := hr
    obtain ⟨n, w2, -, ha, h2, -, -⟩ := RL.openRound_ok h1
    obtain ⟨-, -, -, -, -, -, -, -, hsys, -⟩ := createPda_ok (findAddr_create ha) h2
    exact (hd.rlSys (ho.symm.trans hsys)).elim

section Payload
variable {k px : Pubkey} {n pn : U8} {c : World} {accounts : List (Pubkey × Bool × Bool)} {len : Nat}

private theorem written {E : Type} {ec : Codec E} {r : Withdrawal E} {ctx : Ctx} {st : WStatus} (hp : ctx.program = env.tpId) (h : WdReady ec env w k r)
    (hw : ctx.isWritable k = true) : ∃ w1, putWithdrawal ctx ec (r.withStatus st) k w = .ok w1 ∧ WdReady ec env w1 k (r.withStatus st) := by
  obtain ⟨w1, h1, -⟩ := putWd_live (md := { r.md with status := st }) hp h hw
  exact ⟨w1, h1, (RL.pack_acc h1 k).1.trans h.owner, RL.pack_holds h1, h.init, h.addr⟩

private theorem metas_head {ix : Ix} (h : ix.metas = Bridge.Client.executeMetas k accounts) : (ix.ctx now).isWritable k = true := by
  simp [Ctx.isWritable, Ix.ctx, h, Bridge.Client.executeMetas, Meta.new]

/-- C52: the general builder executes the payload of a paid withdrawal of a Solana token, with whatever accounts the payload needs: if the payload,
with the signature of the proxy account `px`, succeeds and leaves the withdrawal alone, so does the instruction. -/
theorem C52_bridge_payloadSol {r : Withdrawal WSolEvent} (hw : WdReady wSolEventC env w k r) (hst : r.md.status = .waitingForExecute)
    (hk : r.accountKind = .proposal n (some pn)) (hpx : findAddr env (proxySeeds r.event.mint r.event.recipient) env.tpId = .ok (px, pn))
    (hlen : env.payloadLen r.event.payload = some len) (h0 : len ≠ 0) (hc : cpi px w = .ok c) (hwc : WdReady wSolEventC env c k r)
    (h : Bridge.Client.executePayloadIx env.tpId 4 k accounts = .ok ix) :
    ∃ w', TP.process env (ix.ctx now) cpi ix.data w = .ok w' ∧ WdReady wSolEventC env w' k (r.withStatus .processed) := by
  simp only [Bridge.Client.executePayloadIx, bind_ok, packed_ok, Except.ok.injEq] at h
  obtain ⟨_, ⟨-, rfl⟩, rfl⟩ := h
  have hdat : u8.enc 4 = Instr.codec.enc .executePayloadSol := rfl
  rw [hdat, process_enc (i := .executePayloadSol) rfl]
  obtain ⟨w1, h1, hr⟩ := written (st := .processed) (ctx := Ix.ctx ⟨env.tpId, Bridge.Client.executeMetas k accounts, Instr.codec.enc .executePayloadSol⟩ now) rfl hwc
    (metas_head rfl)
  refine ⟨w1, ?_, hr⟩
  simp only [run, processExecutePayloadSol, bind_ok, acct_ok, unpack_holds]
  refine ⟨k, rfl, r, ⟨hw.holds, hw.init⟩, ?_⟩
  rw [if_pos hst]
  simp only [bind_ok, Prod.exists, orErr_ok, runPayload, hk]
  refine ⟨n, some pn, rfl, c, ⟨len, hlen, ?_⟩, h1⟩
  rw [if_neg h0]
  simp only [bind_ok, orErr_ok]
  exact ⟨px, findAddr_create hpx, hc⟩

/-- C52: and the payload of a withdrawal of an Everscale token. -/
theorem C52_bridge_payloadEver {km : Pubkey} {nm : U8} {r : Withdrawal WEverEvent} (hw : WdReady wEverEventC env w k r) (hst : r.md.status = .waitingForExecute)
    (hm : findAddr env (mintSeeds env r.event.token) env.tpId = .ok (km, nm))
    (hk : r.accountKind = .proposal n (some pn)) (hpx : findAddr env (proxySeeds km r.event.recipient) env.tpId = .ok (px, pn))
    (hlen : env.payloadLen r.event.payload = some len) (h0 : len ≠ 0) (hc : cpi px w = .ok c) (hwc : WdReady wEverEventC env c k r)
    (h : Bridge.Client.executePayloadIx env.tpId 3 k accounts = .ok ix) :
    ∃ w', TP.process env (ix.ctx now) cpi ix.data w = .ok w' ∧ WdReady wEverEventC env w' k (r.withStatus .processed) := by
  simp only [Bridge.Client.executePayloadIx, bind_ok, packed_ok, Except.ok.injEq] at h
  obtain ⟨_, ⟨-, rfl⟩, rfl⟩ := h
  have hdat : u8.enc 3 = Instr.codec.enc .executePayloadEver := rfl
  rw [hdat, process_enc (i := .executePayloadEver) rfl]
  obtain ⟨w1, h1, hr⟩ := written (st := .processed) (ctx := Ix.ctx ⟨env.tpId, Bridge.Client.executeMetas k accounts, Instr.codec.enc .executePayloadEver⟩ now) rfl hwc
    (metas_head rfl)
  refine ⟨w1, ?_, hr⟩
  simp only [run, processExecutePayloadEver, bind_ok, acct_ok, unpack_holds]
  refine ⟨k, rfl, r, ⟨hw.holds, hw.init⟩, ?_⟩
  rw [if_pos hst]
  simp only [bind_ok, Prod.exists, orErr_ok, runPayload, hk]
  refine ⟨km, nm, hm, n, some pn, rfl, c, ⟨len, hlen, ?_⟩, h1⟩
  rw [if_neg h0]
  simp only [bind_ok, orErr_ok]
  exact ⟨px, findAddr_create hpx, hc⟩

end Payload

/-! ## The native proxy -/

section Native
variable {program f au ct dep kmv ks kt kv : Pubkey} {s : Settings} {t : TokenSettings} {v : TokenAcc} {m : MintAcc}
  {seed : U128} {amount fee net value : U64} {recipient : EverAddress} {evers : Pubkey} {payload : Bytes} {cost : Nat}

/-- A deposit of SOL by `au`, paid for by `f`, can be made: `ct` is the account of `au` for wrapped SOL. -/
structure NewSol (env : Env) (w : World) (f au ct dep kmv : Pubkey) (seed : U128) (amount value : U64) (cost : Nat) : Prop where
  hAddr : IsAddr env env.ataId (ataSeeds env au env.nativeMint) ct
  hWrap : NP.CanWrap env w au ct amount.toNat
  hAuthor : Wallet env w au amount.toNat
  hFunder : Wallet env w f (NP.openCost env w ct + (cost + (max 1 (env.rent recLen) + value.toNat)) + (if f = au then amount.toNat else 0))
  hRent : env.rent recLen < 2 ^ 64
  hDeposit : IsAddr env env.tpId (depositSeeds seed) dep
  hVacant : Vacant env (w.acc dep)
  hApart : dep ≠ ct
  hMulti : MultiReady env w kmv
  hRoom : (w.acc kmv).lamports + value.toNat < 2 ^ 64

private theorem fee_pos {m d a : Nat} {fee : U64} (h : feeSpec m d a = some fee.toNat) : 1 ≤ fee.toNat := by
  unfold feeSpec at h
  split at h
  · cases h
  · simp only [Option.some.injEq] at h; omega

/-- The wrapped deposit on the world after wrapping. -/
private theorem np_wrapped (hd : env.Distinct) (hpos : 1 ≤ amount.toNat) (hw : NewSol env w f au ct dep kmv seed amount value cost)
    (hmo : (w.acc env.nativeMint).owner = env.splId) (hm : (w.acc env.nativeMint).data = .mint m) (hks : IsAddr env env.tpId settingsSeeds ks)
    (hkt : IsAddr env env.tpId (tokenSettingsSolSeeds env.nativeMint) kt) (hkv : IsAddr env env.tpId (vaultSeeds env.nativeMint) kv)
    (h : NP.depositIx env program f au seed amount recipient value evers payload = .ok ix) :
    ∃ w1, Eff [ct] w w1 ∧ (∀ j, j ≠ ct → (w1.acc j).lamports ≤ (w.acc j).lamports) ∧ (∀ j, j ≠ ct → j ≠ f → j ≠ au → (w1.acc j).lamports = (w.acc j).lamports) ∧
      Spendable env w1 ct env.nativeMint au amount.toNat ∧ NewDeposit env w1 f dep kmv seed value ∧
      Wallet env w1 f (cost + (max 1 (env.rent recLen) + value.toNat)) ∧
      ((∀ ix', TP.Client.depositSolIx env f au ct env.nativeMint seed NP.wsolName NP.wsolSymbol amount recipient value evers payload = .ok ix' →
        Accepted env noCpi now w1 ix') → ∃ w', NP.process env (ix.ctx now) ix.data w = .ok w') := by
  obtain ⟨nc, hcn⟩ := id hw.hAddr
  obtain ⟨_, hsn⟩ := id hks
  obtain ⟨_, htn⟩ := id hkt
  obtain ⟨_, hvn⟩ := id hkv
  obtain ⟨_, hdn⟩ := id hw.hDeposit
  obtain ⟨_, nm, _, _, _, hmv⟩ := hw.hMulti.holds
  simp only [NP.depositIx, TP.Client.settingsAddr, TP.Client.vaultAddr, TP.Client.multiVaultAddr, TP.Client.tokenSettingsSolAddr, ataAddr,
    TP.Client.depositAddr, bind_ok, addrOf_ok, packed_ok, Except.ok.injEq] at h
  obtain ⟨ct', ⟨_, hct'⟩, kv', ⟨_, hkv'⟩, ks', ⟨_, hks'⟩, kmv', ⟨_, hkmv'⟩, kt', ⟨_, hkt'⟩, dep', ⟨_, hdep'⟩, _, ⟨hwf, rfl⟩, rfl⟩ := h
  rw [hcn] at hct'; rw [hvn] at hkv'; rw [hsn] at hks'; rw [hmv] at hkmv'; rw [htn] at hkt'; rw [hdn] at hdep'
  cases hct'; cases hkv'; cases hks'; cases hkmv'; cases hkt'; cases hdep'
  have pos : ∀ x, Vacant env (w.acc x) → ∀ {k n}, Wallet env w k n → 1 ≤ n → k ≠ x := by
    rintro x hv k n hk hn rfl
    have := hk.rich; have := hv.1; omega
  have apart : ∀ {k n}, Wallet env w k n → 1 ≤ n → k ≠ ct := by
    intro k n hk hn
    rcases hw.hWrap with ⟨-, ho, -⟩ | ⟨hv, -⟩
    · exact ne_of_owner hk.system ho hd.sysSpl
    · exact pos ct hv hk hn
  have f_ct : f ≠ ct := apart hw.hFunder (by omega)
  have a_ct : au ≠ ct := apart hw.hAuthor hpos
  have hfr := hw.hFunder.rich
  have har := hw.hAuthor.rich
  generalize hc : Ix.ctx _ now = ctx
  obtain ⟨w1, b1, e1, sp, l1⟩ := NP.wrap_live (env := env) (ctx := ctx) (w := w) (f := f) (au := au) (amount := amount) hcn
    (by rw [← hc]; rfl) (by rw [← hc]; rfl) (by rw [← hc]; rfl) (by rw [← hc]; rfl) (by rw [← hc]; rfl) (by rw [← hc]; rfl)
    (by rw [← hc]; built) (by rw [← hc]; built) (by rw [← hc]; built) (by rw [← hc]; built) (by rw [← hc]; built) (by rw [← hc]; built)
    (by rw [← hc]; built) (by rw [← hc]; built) hmo hm ⟨hw.hFunder.system, hw.hFunder.empty, by omega⟩
    ⟨hw.hAuthor.system, hw.hAuthor.empty, by
      by_cases e : au = f
      · subst e; simp only [if_true] at hfr ⊢; omega
      · rw [if_neg e]; exact har⟩ f_ct a_ct hw.hWrap
  have hfl : cost + (max 1 (env.rent recLen) + value.toNat) ≤ (w1.acc f).lamports := by
    rw [l1 f f_ct, if_pos rfl]
    omega
  have wal : Wallet env w1 f (cost + (max 1 (env.rent recLen) + value.toNat)) := hw.hFunder.eff e1 (by simpa using f_ct) hfl
  have mv_ct : kmv ≠ ct := by
    rintro rfl
    have := hw.hMulti.owner
    rcases hw.hWrap with ⟨-, ho, -⟩ | ⟨hv, -⟩
    · exact hd.tpSpl (this.symm.trans ho)
    · exact hd.tpSys (this.symm.trans hv.2.2)
  have le1 : ∀ j, j ≠ ct → (w1.acc j).lamports ≤ (w.acc j).lamports := fun j hj => by rw [l1 j hj]; omega
  have edep := e1 dep (by simpa using hw.hApart)
  refine ⟨w1, e1, le1, fun j h1 h2 h3 => by rw [l1 j h1, if_neg h2, if_neg h3]; omega, sp,
    ⟨hw.hDeposit, ⟨by have := le1 dep hw.hApart; have := hw.hVacant.1; omega, by rw [edep.1]; exact hw.hVacant.2.1, by rw [edep.2]; exact hw.hVacant.2.2⟩,
      ⟨wal.system, wal.empty, by omega⟩, hw.hRent, hw.hMulti.eff e1 (by simpa using mv_ct), by have := le1 kmv mv_ct; have := hw.hRoom; omega⟩, wal, ?_⟩
  intro hin
  have hpay : payload.length < 2 ^ 32 := by
    clear hc
    change (u128.wf seed && (u64.wf amount && (everAddressC.wf recipient && (u64.wf value && (key.wf evers && bytes.wf payload))))) = true at hwf
    simpa using hwf
  have hwf' : Instr.codec.wf (.depositMultiTokenSol seed NP.wsolName NP.wsolSymbol amount recipient value evers payload) = true :=
    (C46_token_proxy_wf _).2 ⟨by decide, by decide, hpay⟩
  have hix : TP.Client.depositSolIx env f au ct env.nativeMint seed NP.wsolName NP.wsolSymbol amount recipient value evers payload =
      .ok ⟨env.tpId, [.new f true, .new au true, .new ct false, .new kv false, .new dep false, .new env.nativeMint false, .new kmv false, .new kt false,
        .readonly ks false, .readonly env.systemId false, .readonly env.splId false, .readonly env.rentId false],
        Instr.codec.enc (.depositMultiTokenSol seed NP.wsolName NP.wsolSymbol amount recipient value evers payload)⟩ := by
    simp only [TP.Client.depositSolIx, TP.Client.settingsAddr, TP.Client.vaultAddr, TP.Client.multiVaultAddr, TP.Client.tokenSettingsSolAddr,
      TP.Client.depositAddr, bind_ok, addrOf_ok, packed_ok, Except.ok.injEq]
    exact ⟨kv, hkv, ks, hks, kmv, ⟨_, hmv⟩, kt, hkt, dep, hw.hDeposit, _, ⟨hwf', rfl⟩, rfl⟩
  obtain ⟨w2, h2⟩ := hin _ hix
  refine ⟨w2, ?_⟩
  simp only [NP.process, bind_ok, orErr_ok, NP.Instr.codec.decAll_enc _ hwf]
  refine ⟨_, rfl, ?_⟩
  simp only [NP.run, NP.processDeposit, bind_ok, acct_ok]
  refine ⟨w1, b1, f, by rw [← hc]; rfl, au, by rw [← hc]; rfl, ct, by rw [← hc]; rfl, _, hix, _, ?_, h2⟩
  subst hc
  simp only [NP.invokeCtx, bind_ok, require_ok, exists_const, Except.ok.injEq]
  refine ⟨by built, ?_, ?_, ?_, rfl⟩
  · simp [Ix.ctx, Meta.new, Meta.readonly]
  · simp [Ix.ctx, Meta.new, Meta.readonly, Ctx.isWritable]
  · simp [Ix.ctx, Meta.new, Meta.readonly, Ctx.isSigner]

private theorem name_len : NP.wsolName.length ≤ 32 ∧ NP.wsolSymbol.length ≤ 32 ∧ NP.wsolName.length + NP.wsolSymbol.length = 15 := by decide

/-- C52: the built deposit of SOL is accepted when the bridge knows wrapped SOL, whether or not the author has an account for it. -/
theorem C52_np_deposit (hd : env.Distinct) (hs : Ready env w ks s) (hse : s.emergency = false)
    (ht : SolReady env w env.nativeMint kt kv t v) (halive : (w.acc kt).lamports ≠ 0) (hte : t.emergency = false)
    (hmo : (w.acc env.nativeMint).owner = env.splId) (hm : (w.acc env.nativeMint).data = .mint m)
    (hw : NewSol env w f au ct dep kmv seed amount value 0) (hcv : ct ≠ kv)
    (hlam : (w.acc kv).lamports + amount.toNat < 2 ^ 64) (hlim : v.amount.toNat + amount.toNat ≤ t.depositLimit.toNat)
    (hfee : feeSpec t.feeDepositInfo.multiplier.toNat t.feeDepositInfo.divisor.toNat amount.toNat = some fee.toNat)
    (hnet : net.toNat + fee.toNat = amount.toNat) (hfs : t.feeSupply.toNat + fee.toNat < 2 ^ 64)
    (hpl : t.name.length + t.symbol.length + payload.length ≤ 806)
    (h : NP.depositIx env program f au seed amount recipient value evers payload = .ok ix) :
    ∃ w', NP.process env (ix.ctx now) ix.data w = .ok w' := by
  obtain ⟨n, pn, pd0, hk0, hsn, hpn⟩ := id hs.addr
  obtain ⟨n2, vn, hk2, htn, hvn⟩ := id ht.addr
  have hpos := fee_pos hfee
  obtain ⟨w1, e1, le1, same1, sp, nd, -, fin⟩ := np_wrapped (now := now) hd (by omega) hw hmo hm ⟨_, hsn⟩ ⟨_, htn⟩ ⟨_, hvn⟩ h
  have off : ∀ {k : Pubkey}, (w.acc k).owner = env.tpId → k ≠ ct := by
    rintro k hk rfl
    rcases hw.hWrap with ⟨-, ho, -⟩ | ⟨hv, -⟩
    · exact hd.tpSpl (hk.symm.trans ho)
    · exact hd.tpSys (hk.symm.trans hv.2.2)
  have away : ∀ {k : Pubkey}, (w.acc k).owner = env.tpId ∨ (w.acc k).owner = env.splId → k ≠ ct → (w1.acc k).lamports = (w.acc k).lamports := by
    intro k hk hc
    refine same1 k hc ?_ ?_
    · rintro rfl
      rcases hk with hk | hk
      · exact hd.tpSys (hk.symm.trans hw.hFunder.system)
      · exact hd.sysSpl (hw.hFunder.system.symm.trans hk)
    · rintro rfl
      rcases hk with hk | hk
      · exact hd.tpSys (hk.symm.trans hw.hAuthor.system)
      · exact hd.sysSpl (hw.hAuthor.system.symm.trans hk)
  have hkt := off ht.here.1
  have hks := off hs.here.1
  have hmc : env.nativeMint ≠ ct := by
    intro e
    rw [e] at hm
    rcases hw.hWrap with ⟨-, -, -, d, r, hdat, -⟩ | ⟨hv, -⟩
    · rw [hm] at hdat; cases hdat
    · have := hv.2.1; rw [hm] at this; simp [Data.len] at this
  have ev := e1 kv (by simpa using hcv.symm)
  have lv := away (.inr ht.vault.1) hcv.symm
  refine fin fun ix' h' => C52_tp_depositSol (m := m) (t := t) (v := v) (fee := fee) (net := net) hd (hs.eff e1 (by simpa using hks)) hse
    ⟨ht.here.eff e1 (by simpa using hkt), ht.kind, ht.addr, by rw [ev.1, ev.2]; exact ht.vault, by rw [lv]; exact ht.native⟩
    (by rw [away (.inl ht.here.1) hkt]; exact halive) hte (by rw [(e1 env.nativeMint (by simpa using hmc)).1]; exact hm) name_len.1 name_len.2.1 nd sp
    (by rw [lv]; exact hlam) hlim hfee hnet hfs hpl h'

/-- C52: and so is the first deposit of SOL, which registers wrapped SOL. -/
theorem C52_np_deposit_first (hd : env.Distinct) (hs : Ready env w ks s) (hse : s.emergency = false)
    (hmo : (w.acc env.nativeMint).owner = env.splId) (hm : (w.acc env.nativeMint).data = .mint m)
    (hkt : IsAddr env env.tpId (tokenSettingsSolSeeds env.nativeMint) kt) (hkv : IsAddr env env.tpId (vaultSeeds env.nativeMint) kv)
    (hvt : Vacant env (w.acc kt)) (hvv : Vacant env (w.acc kv)) (hdiff : kv ≠ kt ∧ dep ≠ kt ∧ dep ≠ kv) (hct : ct ≠ kt ∧ ct ≠ kv)
    (hw : NewSol env w f au ct dep kmv seed amount value (max 1 (env.rent 165) + max 1 (env.rent recLen)))
    (hroom : max 1 (env.rent 165) + amount.toNat < 2 ^ 64)
    (hfee : feeSpec 5 10000 amount.toNat = some fee.toNat) (hnet : net.toNat + fee.toNat = amount.toNat) (hpl : payload.length ≤ 791)
    (h : NP.depositIx env program f au seed amount recipient value evers payload = .ok ix) :
    ∃ w', NP.process env (ix.ctx now) ix.data w = .ok w' := by
  obtain ⟨n, pn, pd0, hk0, hsn, hpn⟩ := id hs.addr
  have hpos := fee_pos hfee
  obtain ⟨w1, e1, le1, same1, sp, nd, wal, fin⟩ := np_wrapped (now := now) hd (by omega) hw hmo hm ⟨_, hsn⟩ hkt hkv h
  have hks : ks ≠ ct := by
    rintro rfl
    rcases hw.hWrap with ⟨-, ho, -⟩ | ⟨hv, -⟩
    · exact hd.tpSpl (hs.here.1.symm.trans ho)
    · exact hd.tpSys (hs.here.1.symm.trans hv.2.2)
  have hmc : env.nativeMint ≠ ct := by
    intro e
    rw [e] at hm
    rcases hw.hWrap with ⟨-, -, -, d, r, hdat, -⟩ | ⟨hv, -⟩
    · rw [hm] at hdat; cases hdat
    · have := hv.2.1; rw [hm] at this; simp [Data.len] at this
  have vac : ∀ {k : Pubkey}, Vacant env (w.acc k) → k ≠ ct → Vacant env (w1.acc k) := by
    intro k hk hc
    have e := e1 k (by simpa using hc)
    exact ⟨by have := le1 k hc; have := hk.1; omega, by rw [e.1]; exact hk.2.1, by rw [e.2]; exact hk.2.2⟩
  have hl := name_len
  exact fin fun ix' h' => C52_tp_depositSol_first (m := m) (fee := fee) (net := net) hd (hs.eff e1 (by simpa using hks)) hse
    (by rw [(e1 env.nativeMint (by simpa using hmc)).1]; exact hm) hkt hkv (vac hvt hct.1.symm) (vac hvv hct.2.symm) hdiff hl.1 hl.2.1 nd wal hroom sp hfee hnet
    (by omega) h'

end Native

/-! ## On the toy chain -/

/-- bob's proxy account for stars -/
private def starProxy : Pubkey := Toy.addr (proxySeeds Toy.starMint Toy.bob) Toy.env.tpId
/-- a second withdrawal of stars, with a payload -/
private def ev8 : WEverEvent := ⟨Toy.star, Toy.starName, Toy.starSymbol, 9, 70000, Toy.bob, [9]⟩
private def wd8 : Pubkey := Toy.everAddr Toy.pda1 ev8
private def tpReqX : Except Err World :=
  Toy.tp Toy.tpPaidE (Toy.tctx [Toy.funder, Toy.alice, wd8, Toy.rlSettings, Toy.rlRound 1, Toy.env.systemId, Toy.env.rentId, Toy.env.clockId, starProxy, Toy.starMint,
    Toy.env.splId] [Toy.funder, Toy.alice]) (.withdrawMultiTokenEverRequest Toy.pda1 Toy.star Toy.starName Toy.starSymbol 9 Toy.bob 70000 [9] 5)
private def tpX3 : Except Err World := Toy.vote (Toy.vote (Toy.vote tpReqX wd8 0) wd8 1) wd8 2
private def tpPaidX : Except Err World :=
  Toy.tp tpX3 (Toy.tctx [wd8, Toy.starMint, starProxy, Toy.tpStar, Toy.tpSettings, Toy.env.systemId, Toy.env.splId, Toy.env.rentId, Toy.env.clockId] []) .withdrawMultiTokenEver

private theorem toy_x {w : World} {P : TokenSettings → Bool} {R : Withdrawal WEverEvent → Bool}
    (h1 : Toy.tchk settingsC (fun s => s.isInitialized && (Toy.kindSettings s.accountKind && !s.emergency)) w Toy.tpSettings = true)
    (h2 : Toy.tchk tokenSettingsC (fun s => s.isInitialized && (Toy.kindToken s.accountKind && (Toy.isEverKind Toy.starMint Toy.star s.kind &&
      (!s.emergency && (Toy.feeIs s.feeWithdrawalInfo 5 10000 && P s))))) w Toy.tpStar = true)
    (h3 : Toy.isMint w Toy.starMint (fun m => Nat.beq m.decimals.toNat 9 && Nat.blt (m.supply.toNat + 69965) (2 ^ 64)) = true)
    (h4 : Toy.tchk (withdrawalC wEverEventC) (fun r => r.isInitialized && (Toy.kindProposal r.accountKind &&
      (Toy.same (Toy.addr (proposalSeeds r.roundNumber r.pda (Toy.env.hash (wEverEventC.enc r.event))) Toy.env.tpId) wd8 &&
      (decide (r.event.token = Toy.star) && (Toy.same r.event.recipient Toy.bob && (Nat.beq r.event.amount.toNat 70000 &&
        (Nat.beq r.event.decimals.toNat 9 && (!r.event.payload.isEmpty && (Toy.proxyNonce r.accountKind && R r))))))))) w wd8 = true)
    (h6 : Toy.isMintable w starProxy Toy.starMint 69965 = true) (h7 : Nat.beq (w.acc Toy.tpStar).lamports 0 = false) :
    ∃ s t mi r, EverPayout Toy.env w Toy.star Toy.tpSettings Toy.tpStar Toy.starMint wd8 starProxy s t mi r 35 69965 ∧
      P t = true ∧ R r = true ∧ r.event.payload ≠ [] ∧ r.event.recipient = Toy.bob := by
  obtain ⟨s, hs, hP1⟩ := Toy.tp_ready h1
  obtain ⟨t, mi, ht, hP2, hQ⟩ := Toy.tp_ever h2 h3
  obtain ⟨r, hr, hP3⟩ := Toy.tp_wd h4
  simp only [Bool.and_eq_true, Bool.not_eq_true', List.isEmpty_eq_false_iff, decide_eq_true_eq] at hP1 hP2 hP3 hQ
  obtain ⟨f1, f2⟩ := Toy.feeIs_eq hP2.2.1
  have ha : r.event.amount.toNat = 70000 := Nat.eq_of_beq_eq_true hP3.2.2.1
  have hd : r.event.decimals.toNat = 9 := Nat.eq_of_beq_eq_true hP3.2.2.2.1
  have hm : mi.decimals.toNat = 9 := Nat.eq_of_beq_eq_true hQ.1
  have hc : toSolSpec r.event.amount.toNat r.event.decimals.toNat mi.decimals.toNat = 70000 := by rw [ha, hd, hm]; rfl
  have hb : r.event.recipient = Toy.bob := Toy.same_eq hP3.2.1
  refine ⟨s, t, mi, r, ⟨hs, hP1, ht, Nat.ne_of_beq_eq_false h7, hP2.1, hr, hP3.1, ?_, by rw [hd, hm]; omega, by rw [hc]; decide, ?_, by rw [hc]; rfl,
    Toy.mintable h6, Nat.le_of_ble_eq_true hQ.2⟩, hP2.2.2, hP3.2.2.2.2.2.2, hP3.2.2.2.2.1, hb⟩
  · rw [hb]; exact Toy.reaches_proxy hP3.2.2.2.2.2.1 hP3.2.2.2.2.1
  · rw [f1, f2, hc]; rfl

/-- stars are withdrawn to bob's proxy account, with either builder -/
example : (∃ ix, TP.Client.createEverTokenPayloadIx Toy.env Toy.funder wd8 Toy.bob Toy.star = .ok ix ∧ Accepted Toy.env noCpi 1000 (Toy.get tpX3) ix) ∧
    ∃ ix, TP.Client.withdrawEverPayloadIx Toy.env wd8 Toy.bob Toy.star = .ok ix ∧ Accepted Toy.env noCpi 1000 (Toy.get tpX3) ix := by
  obtain ⟨ix, h⟩ := Toy.ix (r := TP.Client.createEverTokenPayloadIx Toy.env Toy.funder wd8 Toy.bob Toy.star) ?_
  obtain ⟨ix', h'⟩ := Toy.ix (r := TP.Client.withdrawEverPayloadIx Toy.env wd8 Toy.bob Toy.star) ?_
  obtain ⟨s, t, v, r, hg, hP, -, hp, hb⟩ := toy_x (w := Toy.get tpX3)
    (P := fun t => Nat.blt (t.withdrawalDailyAmount.toNat + 69965) (2 ^ 64) && Nat.blt (t.feeSupply.toNat + 35) (2 ^ 64)) (R := fun _ => true) ?_ ?_ ?_ ?_ ?_ ?_
  simp only [Bool.and_eq_true] at hP
  have h1 : releasedOn t (epochOf 1000) + 69965 < 2 ^ 64 :=
    Nat.lt_of_le_of_lt (Nat.add_le_add_right (by unfold releasedOn; split <;> omega) _) (Nat.le_of_ble_eq_true hP.1)
  refine ⟨⟨ix, h, C52_tp_createEverPayload Toy.distinct hg hp h1 (Nat.le_of_ble_eq_true hP.2) (by rw [hb]; exact h)⟩,
    ix', h', C52_tp_withdrawEverPayload Toy.distinct hg hp h1 (Nat.le_of_ble_eq_true hP.2) (by rw [hb]; exact h')⟩
  checked

/-- the addresses of requests -/
example : TP.Client.withdrawalSolAddr Toy.env 1 Toy.pda1 Toy.ev1 = .ok Toy.wd1 ∧ TP.Client.withdrawalEverAddr Toy.env 1 Toy.pda1 Toy.ev5 = .ok Toy.wd5 := by
  constructor
  · simp only [TP.Client.withdrawalSolAddr, bind_ok, addrOf_ok, packed_ok]
    exact ⟨_, ⟨rfl, rfl⟩, _, Toy.findAddr_eq _ _⟩
  · simp only [TP.Client.withdrawalEverAddr, bind_ok, addrOf_ok, packed_ok]
    exact ⟨_, ⟨by decide, rfl⟩, _, Toy.findAddr_eq _ _⟩

/-- a payout built with the general builder -/
example : ∃ ix, TP.Client.withdrawSolIx Toy.env Toy.wd1 Toy.bobGold Toy.gold = .ok ix := Toy.ix (by decide +kernel)

/-- The general builder on the round loader: on a proposal without votes the instruction does nothing; on a confirmed one it is rejected. -/
example : ∃ ix, Bridge.Client.executeIx Toy.env.rlId 7 Toy.prop2 [(Toy.rlSettings, false, false), (Toy.prop2, false, false), (Toy.rlRound 2, false, false),
      (Toy.env.systemId, true, false), (Toy.env.rentId, true, false)] = .ok ix ∧
    ((Toy.get Toy.rlFinalized).acc Toy.prop2).owner = Toy.env.rlId ∧ RL.process Toy.env (ix.ctx 1000) ix.data (Toy.get Toy.rlFinalized) = .ok (Toy.get Toy.rlFinalized) ∧
    Toy.isOk (RL.process Toy.env (ix.ctx 1000) ix.data (Toy.get Toy.rlVoted)) = false := by
  refine ⟨_, rfl, Toy.same_eq ?_, ?_, ?_⟩
  · decide +kernel
  · have hok : Toy.isOk (RL.process Toy.env (Ix.ctx ⟨Toy.env.rlId, Bridge.Client.executeMetas Toy.prop2 [(Toy.rlSettings, false, false), (Toy.prop2, false, false),
      (Toy.rlRound 2, false, false), (Toy.env.systemId, true, false), (Toy.env.rentId, true, false)], u8.enc 7⟩ 1000) (u8.enc 7) (Toy.get Toy.rlFinalized)) = true := by
      decide +kernel
    cases hw : RL.process Toy.env (Ix.ctx ⟨Toy.env.rlId, Bridge.Client.executeMetas Toy.prop2 [(Toy.rlSettings, false, false), (Toy.prop2, false, false),
      (Toy.rlRound 2, false, false), (Toy.env.systemId, true, false), (Toy.env.rentId, true, false)], u8.enc 7⟩ 1000) (u8.enc 7) (Toy.get Toy.rlFinalized) with
    | error e => rw [hw] at hok; cases hok
    | ok w' => exact congrArg Except.ok (C52_bridge_no_rounds Toy.distinct (Toy.same_eq (by decide +kernel)) rfl hw)
  · decide +kernel

/-- bob's payload, an instruction with no effect, is executed -/
example : ∃ ix w' r, Bridge.Client.executePayloadIx Toy.env.tpId 4 Toy.wd4 [(Toy.tpProxy, false, false)] = .ok ix ∧
    TP.process Toy.env (ix.ctx 1000) (fun _ w => .ok w) ix.data (Toy.get Toy.tpPaidP) = .ok w' ∧ WdReady wSolEventC Toy.env w' Toy.wd4 r ∧
      r.md.status = .processed := by
  obtain ⟨r, hr, hP⟩ := Toy.tp_wd (ec := wSolEventC) (P := fun r => decide (r.md.status = .waitingForExecute) && Toy.proxyNonce r.accountKind)
    (w := Toy.get Toy.tpPaidP) (k := Toy.wd4) ?_
  simp only [Bool.and_eq_true, decide_eq_true_eq] at hP
  obtain ⟨n, hn⟩ : ∃ n, r.accountKind = .proposal n (some 255) := by
    have := hP.2
    unfold Toy.proxyNonce at this
    split at this
    · rename_i n pn e; rw [e]; obtain rfl := Toy.bump this; exact ⟨n, rfl⟩
    · cases this
  obtain ⟨w', hw, hr'⟩ := C52_bridge_payloadSol (now := 1000) (cpi := fun _ w => .ok w) (accounts := [(Toy.tpProxy, false, false)]) hr hP.1 hn (Toy.findAddr_eq _ _) (len := 1) rfl
    (by decide) rfl hr rfl
  refine ⟨_, w', _, rfl, hw, hr', rfl⟩
  checked

/-- and so is the one for stars -/
example : ∃ ix w' r, Bridge.Client.executePayloadIx Toy.env.tpId 3 wd8 [(starProxy, false, false)] = .ok ix ∧
    TP.process Toy.env (ix.ctx 1000) (fun _ w => .ok w) ix.data (Toy.get tpPaidX) = .ok w' ∧ WdReady wEverEventC Toy.env w' wd8 r ∧
      r.md.status = .processed := by
  obtain ⟨r, hr, hP⟩ := Toy.tp_wd (ec := wEverEventC) (P := fun r => decide (r.md.status = .waitingForExecute) && Toy.proxyNonce r.accountKind)
    (w := Toy.get tpPaidX) (k := wd8) ?_
  simp only [Bool.and_eq_true, decide_eq_true_eq] at hP
  obtain ⟨n, hn⟩ : ∃ n, r.accountKind = .proposal n (some 255) := by
    have := hP.2
    unfold Toy.proxyNonce at this
    split at this
    · rename_i n pn e; rw [e]; obtain rfl := Toy.bump this; exact ⟨n, rfl⟩
    · cases this
  obtain ⟨w', hw, hr'⟩ := C52_bridge_payloadEver (now := 1000) (cpi := fun _ w => .ok w) (accounts := [(starProxy, false, false)]) hr hP.1 (Toy.findAddr_eq _ _) hn (Toy.findAddr_eq _ _) (len := 1) rfl
    (by decide) rfl hr rfl
  refine ⟨_, w', _, rfl, hw, hr', rfl⟩
  checked

/-! ### Deposits of SOL -/

/-- an account for wrapped SOL in order, or none -/
private def canWrap (w : World) (au ct : Pubkey) (amount : Nat) : Bool :=
  match (w.acc ct).data with
  | .token d => !Nat.beq (w.acc ct).lamports 0 && (Toy.same (w.acc ct).owner Toy.env.splId && (Nat.blt ((w.acc ct).lamports + amount) (2 ^ 64) &&
      (Toy.same d.mint Toy.env.nativeMint && (Toy.same d.owner au && (d.delegate.isNone && (!d.frozen &&
      (match d.isNative with | some r => Nat.ble (d.amount.toNat + r.toNat) (w.acc ct).lamports | none => false)))))))
  | _ => Toy.isVacant w ct && Nat.blt (max 1 (Toy.env.rent 165) + amount) (2 ^ 64)

private theorem canWrap_ok {w : World} {au ct : Pubkey} {amount : Nat} (h : canWrap w au ct amount = true) : NP.CanWrap Toy.env w au ct amount := by
  unfold canWrap at h
  split at h
  · rename_i d hd
    simp only [Bool.and_eq_true, Bool.not_eq_true'] at h
    obtain ⟨h1, h2, h3, h4, h5, h6, h7, h8⟩ := h
    split at h8
    · rename_i r hr
      refine .inl ⟨Nat.ne_of_beq_eq_false h1, Toy.same_eq h2, Nat.le_of_ble_eq_true h3, d, r, hd, Toy.same_eq h4, Toy.same_eq h5, ?_, h7, hr, Nat.le_of_ble_eq_true h8⟩
      rw [Option.isNone_iff_eq_none.1 h6]; simp
    · cases h8
  · simp only [Bool.and_eq_true] at h
    exact .inr ⟨Toy.vacant h.1, Nat.le_of_ble_eq_true h.2⟩

private theorem toy_sol_new {w : World} {n : U128} {amount value : U64} {cost : Nat} (hc : canWrap w Toy.alice Toy.aliceSol amount.toNat = true)
    (ha : Toy.isWallet w Toy.alice amount.toNat = true)
    (hf : Toy.isWallet w Toy.funder (NP.openCost Toy.env w Toy.aliceSol + (cost + (max 1 (Toy.env.rent recLen) + value.toNat)) + 0) = true)
    (hv : Toy.isVacant w (Toy.tpDep n) = true) (hx : Toy.same (Toy.tpDep n) Toy.aliceSol = false)
    (h : Toy.tchk multiVaultC (fun s => s.isInitialized && Toy.kindMulti s.accountKind) w Toy.tpMulti = true)
    (hr : Nat.blt ((w.acc Toy.tpMulti).lamports + value.toNat) (2 ^ 64) = true) :
    NewSol Toy.env w Toy.funder Toy.alice Toy.aliceSol (Toy.tpDep n) Toy.tpMulti n amount value cost :=
  ⟨⟨_, Toy.findAddr_eq _ _⟩, canWrap_ok hc, Toy.wallet ha, Toy.wallet hf, by decide, ⟨_, Toy.findAddr_eq _ _⟩, Toy.vacant hv, Toy.same_ne hx, Toy.tp_multi h, Nat.le_of_ble_eq_true hr⟩

private def hasMint (w : World) (k : Pubkey) : Bool := match (w.acc k).data with
  | .mint _ => Toy.same (w.acc k).owner Toy.env.splId
  | _ => false

private theorem hasMint_ok {w : World} {k : Pubkey} (h : hasMint w k = true) : (w.acc k).owner = Toy.env.splId ∧ ∃ m, (w.acc k).data = .mint m := by
  unfold hasMint at h
  split at h
  · exact ⟨Toy.same_eq h, _, by assumption⟩
  · cases h

/-- the vault for wrapped SOL -/
private def isSolVault (w : World) (Q : TokenAcc → Bool) : Bool := Toy.same (w.acc Toy.wsolVault).owner Toy.env.splId &&
  match (w.acc Toy.wsolVault).data with
  | .token v => Toy.same v.mint Toy.env.nativeMint && (Toy.same v.owner Toy.wsolVault && (v.delegate.isNone && (!v.frozen &&
      (Nat.ble v.amount.toNat (w.acc Toy.wsolVault).lamports && Q v))))
  | _ => false

private theorem tp_wsol {P : TokenSettings → Bool} {Q : TokenAcc → Bool} {w : World} (h : Toy.tchk tokenSettingsC (fun s => s.isInitialized &&
      (Toy.kindToken s.accountKind && (Toy.isSolKind Toy.env.nativeMint Toy.wsolVault s.kind && P s))) w Toy.wsolSettings = true)
    (hv : isSolVault w Q = true) :
    ∃ t v, SolReady Toy.env w Toy.env.nativeMint Toy.wsolSettings Toy.wsolVault t v ∧ P t = true ∧ Q v = true := by
  obtain ⟨s, ho, -, hh, h⟩ := Toy.tfind h
  simp only [Bool.and_eq_true] at h
  obtain ⟨hi, hk, he, hP⟩ := h
  have hk := Toy.kindToken_eq hk
  simp only [isSolVault, Bool.and_eq_true] at hv
  obtain ⟨hvo, hv⟩ := hv
  split at hv
  · rename_i v hd
    simp only [Bool.and_eq_true, Option.isNone_iff_eq_none, Bool.not_eq_true'] at hv
    obtain ⟨h1, h2, h3, h4, h5, h6⟩ := hv
    exact ⟨s, v, ⟨⟨ho, hh, hi, _, _, hk⟩, Toy.isSolKind_eq he, ⟨_, _, hk, Toy.findAddr_eq _ _, Toy.findAddr_eq _ _⟩,
      ⟨Toy.same_eq hvo, hd, Toy.same_eq h1, Toy.same_eq h2, h3, h4⟩, fun _ => Nat.le_of_ble_eq_true h5⟩, hP, h6⟩
  · cases hv

/-- the first deposit of SOL -/
example : ∃ ix w', NP.depositIx Toy.env Toy.npId Toy.funder Toy.alice 1 70000 Toy.home 7 0 [] = .ok ix ∧
    NP.process Toy.env (ix.ctx 1000) ix.data (Toy.get Toy.npReady) = .ok w' := by
  obtain ⟨ix, h⟩ := Toy.ix (r := NP.depositIx Toy.env Toy.npId Toy.funder Toy.alice 1 70000 Toy.home 7 0 []) ?_
  obtain ⟨s, hs, hP1⟩ := Toy.tp_ready (P := fun s => !s.emergency) (w := Toy.get Toy.npReady) ?_
  obtain ⟨hmo, m, hm⟩ := hasMint_ok (w := Toy.get Toy.npReady) (k := Toy.env.nativeMint) ?_
  simp only [Bool.not_eq_true'] at hP1
  obtain ⟨w', hw⟩ := C52_np_deposit_first (amount := 70000) (value := 7) (seed := 1) (payload := []) (kt := Toy.wsolSettings) (kv := Toy.wsolVault) (fee := 35) (net := 69965)
    (now := 1000) Toy.distinct hs hP1 hmo hm ⟨_, Toy.findAddr_eq _ _⟩ ⟨_, Toy.findAddr_eq _ _⟩ (Toy.vacant ?_) (Toy.vacant ?_)
    ⟨Toy.same_ne ?_, Toy.same_ne ?_, Toy.same_ne ?_⟩ ⟨Toy.same_ne ?_, Toy.same_ne ?_⟩ (toy_sol_new ?_ ?_ ?_ ?_ ?_ ?_ ?_) (by decide) rfl rfl (by decide) h
  refine ⟨ix, w', h, hw⟩
  checked

/-- and the second, into the same account -/
example : ∃ ix w', NP.depositIx Toy.env Toy.npId Toy.funder Toy.alice 2 5000 Toy.home 7 0 [] = .ok ix ∧
    NP.process Toy.env (ix.ctx 1000) ix.data (Toy.get Toy.npFirst) = .ok w' := by
  obtain ⟨ix, h⟩ := Toy.ix (r := NP.depositIx Toy.env Toy.npId Toy.funder Toy.alice 2 5000 Toy.home 7 0 []) ?_
  obtain ⟨s, hs, hP1⟩ := Toy.tp_ready (P := fun s => !s.emergency) (w := Toy.get Toy.npFirst) ?_
  obtain ⟨hmo, m, hm⟩ := hasMint_ok (w := Toy.get Toy.npFirst) (k := Toy.env.nativeMint) ?_
  obtain ⟨t, v, ht, hP2, hQ⟩ := tp_wsol (P := fun t => !t.emergency && (Toy.feeIs t.feeDepositInfo 5 10000 && (Nat.blt (t.feeSupply.toNat + 2) (2 ^ 64) &&
      (Nat.ble 85000 t.depositLimit.toNat && Nat.ble (t.name.length + t.symbol.length + 0) 806)))) (Q := fun v => Nat.ble v.amount.toNat 80000)
    (w := Toy.get Toy.npFirst) ?_ ?_
  simp only [Bool.and_eq_true, Bool.not_eq_true'] at hP1 hP2
  obtain ⟨f1, f2⟩ := Toy.feeIs_eq hP2.2.1
  obtain ⟨w', hw⟩ := C52_np_deposit (amount := 5000) (value := 7) (seed := 2) (payload := []) (fee := 1) (net := 4999)
    (now := 1000) Toy.distinct hs hP1 ht (Nat.ne_of_beq_eq_false ?_) hP2.1 hmo hm (toy_sol_new ?_ ?_ ?_ ?_ ?_ ?_ ?_) (Toy.same_ne ?_) (Nat.le_of_ble_eq_true ?_)
    (Nat.le_trans (Nat.add_le_add_right (Nat.le_of_ble_eq_true hQ) _) (Nat.le_of_ble_eq_true hP2.2.2.2.1))
    (by rw [f1, f2]; rfl) rfl (Nat.le_trans (Nat.le_succ _) (Nat.le_of_ble_eq_true hP2.2.2.1)) (Nat.le_of_ble_eq_true hP2.2.2.2.2) h
  refine ⟨ix, w', h, hw⟩
  checked

end Verif.Props
