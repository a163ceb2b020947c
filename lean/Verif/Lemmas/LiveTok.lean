import Verif.Lemmas.LiveReq
/-!
# Cancelling, and withdrawals that deploy an Everscale token
-/
set_option linter.unusedSimpArgs false
namespace Verif.TP
open Codec Verif

variable {env : Env} {ctx : Ctx} {w w' w1 : World} {cpi : Pubkey → World → Except Err World}

/-- `process_cancel_withdraw_sol` on healthy accounts. -/
theorem cancel_live {f au mint k dep ks kt kv kmv : Pubkey} {s : Settings} {t : TokenSettings} {v : TokenAcc} {m : MintAcc} {r : Withdrawal WSolEvent}
    {seed fee net : U128} {value : U64} {recipient : EverAddress} {evers : Pubkey} {payload : Bytes} {nd : U8}
    (hd : env.Distinct) (hp : ctx.program = env.tpId) (hs : Ready env w ks s) (hse : s.emergency = false)
    (h : SolReady env w mint kt kv t v) (hte : t.emergency = false) (hm : (w.acc mint).data = .mint m) (hmv : MultiReady env w kmv)
    (hw : WdReady wSolEventC env w k r) (hst : r.md.status = .pending) (hau : r.author = au) (hmi : r.event.mint = mint)
    (hacc : ctx.accounts = [f, au, mint, k, dep, ks, kt, env.systemId, env.rentId, kmv])
    (hsf : ctx.isSigner f = true) (hsa : ctx.isSigner au = true) (hwf : ctx.isWritable f = true) (hwd : ctx.isWritable dep = true)
    (hwk : ctx.isWritable k = true) (hwv : ctx.isWritable kmv = true)
    (hdep : findAddr env (depositSeeds seed) env.tpId = .ok (dep, nd)) (hvac : Vacant env (w.acc dep))
    (hwal : Wallet env w f (max 1 (env.rent recLen) + value.toNat)) (hrent : env.rent recLen < 2 ^ 64)
    (hf : feeOf128 t.feeDepositInfo r.event.amount = .ok fee) (hfs : t.feeSupply.toNat + fee.toNat < 2 ^ 64) (hn : net.toNat + fee.toNat = r.event.amount.toNat)
    (hpl : t.name.length + t.symbol.length + payload.length ≤ 806) (hmax : (w.acc kmv).lamports + value.toNat < 2 ^ 64) :
    ∃ w', run env ctx cpi (.cancelWithdrawSol seed recipient value evers payload) w = .ok w' := by
  obtain ⟨pn, pd, hl, -⟩ := loadNoEmergency_live hp hs hse
  obtain ⟨nn, vn, hls, hkk, hva⟩ := loadSol_live hp h
  have hmo := hmv.owner
  have f_mv : f ≠ kmv := ne_of_owner hwal.system hmo hd.tpSys.symm
  have f_dep : f ≠ dep := by rintro rfl; have := hwal.rich; have := hvac.1; omega
  have dep_mv : dep ≠ kmv := ne_of_owner hvac.2.2 hmo hd.tpSys.symm
  have dep_k : dep ≠ k := ne_of_owner hvac.2.2 hw.owner hd.tpSys.symm
  have hsys : env.systemId ∈ ctx.accounts := by rw [hacc]; simp
  obtain ⟨w1, h1, e1, l1⟩ := sysTransfer_live (ctx := ctx) (n := value.toNat) hsys hwf hwv hsf (hwal.eff (Eff.refl [] w) (by simp) (by have := hwal.rich; omega)) f_mv hmax
  have wal1 : Wallet env w1 f (max 1 (env.rent recLen)) := by
    refine hwal.eff e1 (by simp) ?_
    rw [l1 f, if_pos rfl, if_neg f_mv]
    have := hwal.rich; omega
  have vac1 : Vacant env (w1.acc dep) := by
    have b := e1 dep (by simp)
    have c := l1 dep
    rw [if_neg f_dep.symm, if_neg dep_mv] at c
    exact ⟨by rw [c]; have := hvac.1; omega, by rw [b.1]; exact hvac.2.1, by rw [b.2]; exact hvac.2.2⟩
  have hnm : validUtf8 t.name = true ∧ validUtf8 t.symbol = true := by
    have hw := (fits_of_holds h.here.2.1).1
    simp only [tokenSettingsC, wf_iso, wf_pair, Bool.and_eq_true, wf_str] at hw
    exact ⟨hw.2.2.2.1.2, hw.2.2.2.2.1.2⟩
  obtain ⟨w2, w3, h2, h3, e3, l3⟩ := recordDeposit_live (ec := depositSolEventC) (b := depositLog env depositSolEventC k recipient net seed value evers
      ⟨mint, t.name, t.symbol, m.decimals, net, recipient, value, evers, payload⟩)
      (r := depositRecord nd au (DepositSolEvent.lenField ⟨mint, t.name, t.symbol, m.decimals, net, recipient, value, evers, payload⟩)
      ⟨mint, t.name, t.symbol, m.decimals, net, recipient, value, evers, payload⟩ seed) hp hdep vac1 f_dep hsys hwd hwf hsf wal1 hrent
      (depositSol_fits hnm.1 hnm.2 hpl)
  obtain ⟨w4, h4, -⟩ := putWd_live (md := { r.md with status := .cancelled }) hp
    (((hw.eff e1 (by simp)).eff e3 (by simpa using dep_k.symm)).eff ((Eff.refl [] w3).log (b := statusLog k .cancelled)) (by simp)) hwk
  have hfee : (fee.setWidth 64 : U64).toNat = fee.toNat := by rw [BitVec.toNat_setWidth]; exact Nat.mod_eq_of_lt (by omega)
  obtain ⟨supply, hsupply⟩ := add_live (a := t.feeSupply) (b := fee.setWidth 64) (by rw [hfee]; exact hfs)
  have hsub : checkedSub r.event.amount fee = some net := checkedSub_some.2 (by omega)
  refine ⟨w4, ?_⟩
  simp only [run, processCancel, bind_ok, acct_ok, sysvar_ok, require_ok, exists_const, ex_unit, Prod.exists, deriveAt_ok, mintOf_ok, orErr_ok]
  exact ⟨f, by rw [hacc]; rfl, au, by rw [hacc]; rfl, mint, by rw [hacc]; rfl, k, by rw [hacc]; rfl, dep, by rw [hacc]; rfl, ks, by rw [hacc]; rfl,
    kt, by rw [hacc]; rfl, env.systemId, by rw [hacc]; rfl, env.rentId, by rw [hacc]; rfl, kmv, by rw [hacc]; rfl, rfl, hsa, s, pn, hl, r, loadWd_live hp hw,
    hau, hst, _, hls, hte, loadMulti_live hp hmv, w1, h1, .inl rfl, m, by rw [(e1 mint (by simp)).1]; exact hm, hmi.symm, nd, by rw [hp]; exact hdep, w2, h2,
    fee, hf, by omega, supply, hsupply, net, hsub, w3, h3, h4⟩

theorem ataCreate_live {f who mint to : Pubkey} {n : U8} {m : MintAcc} (ha : findAddr env (ataSeeds env who mint) env.ataId = .ok (to, n))
    (hata : env.ataId ∈ ctx.accounts) (hto : to ∈ ctx.accounts) (hwho : who ∈ ctx.accounts) (hmi : mint ∈ ctx.accounts) (hspl : env.splId ∈ ctx.accounts)
    (hsys : env.systemId ∈ ctx.accounts) (hwt : ctx.isWritable to = true) (hwf : ctx.isWritable f = true) (hs : ctx.isSigner f = true)
    (hmo : (w.acc mint).owner = env.splId) (hm : (w.acc mint).data = .mint m) (hu : Unused env (w.acc to)) (hne : f ≠ to)
    (hwal : Wallet env w f (max 1 (env.rent 165))) (hmax : env.rent 165 < 2 ^ 64) :
    ∃ w1, ataCreate env ctx f who mint w = .ok w1 ∧ Eff [to] w w1 ∧ (w1.acc to).owner = env.splId ∧
      (∃ l, (w1.acc to).data = .token (freshToken env mint who l)) ∧
      ∀ j, j ≠ to → (w1.acc j).lamports = (w.acc j).lamports - (if j = f then max 1 (env.rent 165) - (w.acc to).lamports else 0) := by
  have m_to : mint ≠ to := by rintro rfl; have := hu.empty; rw [hm] at this; simp [Data.len] at this
  obtain ⟨w1, b1, e1, s1, l1⟩ := createPdaFunded_live (ctx := ctx) (o := env.splId) (space := 165) hu hne hsys hwt hwf hs hwal hmax
  obtain ⟨w2, b2, e2, o2, d2, l2, a2⟩ := splInitAccount_live (env := env) (ctx := ctx) (w := w1) (k := to) (mint := mint) (o := who)
    hspl hmi hwt (by rw [s1]) (by rw [s1]) (by rw [s1]; simp only; omega) (.inr ⟨m, by rw [(e1 mint (by simpa using m_to)).1]; exact hm⟩)
  refine ⟨w2, ?_, fun j hj => ?_, o2, ⟨_, d2⟩, fun j hj => ?_⟩
  · simp only [ataCreate, bind_ok, require_ok, exists_const, Prod.exists]
    exact ⟨to, n, ha, hata, by simp [hto, hwho, hmi], hwt, hs, hu.owner, hmo, w1, b1, b2⟩
  · have c1 := e1 j hj
    have c2 := e2 j hj
    exact ⟨by rw [c2.1, c1.1], by rw [c2.2, c1.2]⟩
  · rw [a2 j hj, l1 j hj]

/-- The decimals a new Everscale token gets on Solana. -/
def newDecimals (d : U8) : U8 := if d.toNat < 9 then d else 9#8

/-- `processor.rs:1543-1664` on vacant addresses. -/
theorem deployEver_live {f km kt to : Pubkey} {e : WEverEvent} {nm nt na : U8} (hp : ctx.program = env.tpId) (m_t : km ≠ kt) (m_o : km ≠ to)
    (t_o : kt ≠ to)
    (hma : findAddr env (mintSeeds env e.token) env.tpId = .ok (km, nm)) (hta : findAddr env (tokenSettingsEverSeeds env e.token) env.tpId = .ok (kt, nt))
    (haa : findAddr env (ataSeeds env e.recipient km) env.ataId = .ok (to, na))
    (hname : e.name.length ≤ maxNameLen) (hsymbol : e.symbol.length ≤ maxNameLen) (un : validUtf8 e.name = true) (uy : validUtf8 e.symbol = true)
    (hsys : env.systemId ∈ ctx.accounts) (hspl : env.splId ∈ ctx.accounts) (hren : env.rentId ∈ ctx.accounts) (hata : env.ataId ∈ ctx.accounts)
    (hto : to ∈ ctx.accounts) (hwho : e.recipient ∈ ctx.accounts) (hkm : km ∈ ctx.accounts)
    (hwf : ctx.isWritable f = true) (hsf : ctx.isSigner f = true) (hwm : ctx.isWritable km = true) (hwt : ctx.isWritable kt = true) (hwo : ctx.isWritable to = true)
    (hvm : Vacant env (w.acc km)) (hvt : Vacant env (w.acc kt)) (hvo : Unused env (w.acc to))
    (hwal : Wallet env w f (max 1 (env.rent 82) + max 1 (env.rent 165) + max 1 (env.rent recLen))) (hfo : f ≠ to)
    (hr0 : env.rent 82 < 2 ^ 64) (hr1 : env.rent 165 < 2 ^ 64) (hr2 : env.rent recLen < 2 ^ 64) :
    ∃ w1, deployEver env ctx f km kt e w = .ok w1 ∧ Eff [km, to, kt] w w1 ∧
      EverReady env w1 e.token kt km (freshTokenSettings nt nm (.ever km e.token e.decimals) e.name e.symbol) ⟨some km, 0#64, newDecimals e.decimals, none⟩ ∧
      (w1.acc to).owner = env.splId ∧ ∃ l, (w1.acc to).data = .token (freshToken env km e.recipient l) := by
  have f_km : f ≠ km := by rintro rfl; have := hwal.rich; have := hvm.1; omega
  have f_kt : f ≠ kt := by rintro rfl; have := hwal.rich; have := hvt.1; omega
  obtain ⟨w1, h1, s1, e1, l1⟩ := createPda_live (ctx := ctx) (o := env.splId) (space := 82) (by rw [hp]; exact hma) hvm f_km hsys hwm hwf hsf
    (hwal.eff (Eff.refl [] w) (by simp) (by have := hwal.rich; omega)) hr0
  obtain ⟨w2, h2, e2, o2, d2, l2, a2⟩ := splInitMint_live (env := env) (ctx := ctx) (w := w1) (k := km) (o := km) (dec := newDecimals e.decimals) hspl hren hwm
    (by rw [s1]) (by rw [s1]) (by rw [s1]; exact Nat.le_max_right _ _)
  have c_to := e1 to (by simpa using m_o.symm)
  have uo2 : Unused env (w2.acc to) := by
    rw [a2 to m_o.symm]; exact ⟨by rw [c_to.2]; exact hvo.owner, by rw [c_to.1]; exact hvo.empty⟩
  have wal2 : Wallet env w2 f (max 1 (env.rent 165) + max 1 (env.rent recLen)) := by
    refine (hwal.eff e1 (by simpa using f_km) (m := 0) (Nat.zero_le _)).eff e2 (by simpa using f_km) ?_
    rw [a2 f f_km, l1 f f_km, if_pos rfl]
    have := hwal.rich; omega
  obtain ⟨w3, h3, e3, o3, ⟨l, d3⟩, l3⟩ := ataCreate_live (ctx := ctx) (w := w2) haa hata hto hwho hkm hspl hsys hwo hwf hsf o2 d2 uo2 hfo
    (wal2.eff (Eff.refl [] w2) (by simp) (by have := wal2.rich; omega)) hr1
  have c_kt := e1 kt (by simpa using m_t.symm)
  have vt3 : Vacant env (w3.acc kt) := by
    have b := e3 kt (by simpa using t_o)
    have c := l3 kt t_o
    rw [if_neg f_kt.symm, a2 kt m_t.symm, l1 kt m_t.symm] at c
    rw [a2 kt m_t.symm] at b
    exact ⟨by rw [c]; have := hvt.1; omega, by rw [b.1, c_kt.1]; exact hvt.2.1, by rw [b.2, c_kt.2]; exact hvt.2.2⟩
  have wal3 : Wallet env w3 f (max 1 (env.rent recLen)) := by
    refine wal2.eff e3 (by simpa using hfo) ?_
    rw [l3 f hfo, if_pos rfl]
    have := wal2.rich; omega
  obtain ⟨w4, h4, s4, e4, l4⟩ := createPda_live (ctx := ctx) (w := w3) (o := ctx.program) (space := recLen) (by rw [hp]; exact hta) vt3 f_kt hsys hwt hwf hsf wal3 hr2
  have hfit := fresh_fits (n := nt) (m := nm) (kind := .ever km e.token e.decimals) hname hsymbol un uy (by show (pair key (pair everAddressC u8)).wf (km, e.token, e.decimals) = true; simp)
  obtain ⟨w5, h5, hh5, o5, l5, a5, e5⟩ := pack_live (ctx := ctx) (w := w4.log (tokenSettingsLogC.enc
    ⟨kt, e.symbol, e.name, km, none, some e.decimals, some (newDecimals e.decimals), some e.token, FeeInfo.default⟩))
    (k := kt) (b := zeros recLen) (by show (w4.acc kt).data = _; rw [s4]) (RL.zeros_len _) hfit.1 hfit.2 hwt (by show (w4.acc kt).owner = _; rw [s4])
  have off : ∀ j, j ≠ kt → (w5.acc j).data = (w3.acc j).data ∧ (w5.acc j).owner = (w3.acc j).owner := by
    intro j hj
    have b := e4 j (by simpa using hj)
    rw [a5 j hj]; exact b
  have km3 := e3 km (by simpa using m_o)
  refine ⟨w5, ?_, ?_, ⟨⟨?_, hh5, rfl, nt, nm, rfl⟩, ⟨_, rfl⟩, ⟨nt, nm, rfl, hta, hma⟩, ?_, ?_, rfl⟩, ?_, ?_⟩
  · simp only [deployEver, bind_ok, deriveAt_ok]
    exact ⟨nm, by rw [hp]; exact hma, w1, h1, w2, h2, w3, h3, nt, by rw [hp]; exact hta, w4, h4, h5⟩
  · intro j hj
    simp only [List.mem_cons, List.not_mem_nil, or_false, not_or] at hj
    have b := off j hj.2.2
    have c := e3 j (by simpa using hj.2.1)
    rw [a2 j hj.1] at c
    have d := e1 j (by simpa using hj.1)
    exact ⟨by rw [b.1, c.1, d.1], by rw [b.2, c.2, d.2]⟩
  · rw [o5]; show (w4.acc kt).owner = _; rw [s4]; exact hp
  · rw [(off km m_t).2, km3.2]; exact o2
  · rw [(off km m_t).1, km3.1]; exact d2
  · rw [(off to t_o.symm).2]; exact o3
  · exact ⟨l, by rw [(off to t_o.symm).1]; exact d3⟩

/-- `process_withdraw_multi_token_ever` for a token nobody withdrew before. -/
theorem createEver_live {f ks kt km k to : Pubkey} {more : List Pubkey} {s : Settings} {r : Withdrawal WEverEvent} {nm nt na : U8} {amount fee n : U64}
    (hp : ctx.program = env.tpId) (hd : env.Distinct) (hs : Ready env w ks s) (hse : s.emergency = false) (hw : WdReady wEverEventC env w k r)
    (m_t : km ≠ kt) (m_o : km ≠ to) (t_o : kt ≠ to) (hnat : km ≠ env.nativeMint)
    (hma : findAddr env (mintSeeds env r.event.token) env.tpId = .ok (km, nm)) (hta : findAddr env (tokenSettingsEverSeeds env r.event.token) env.tpId = .ok (kt, nt))
    (haa : findAddr env (ataSeeds env r.event.recipient km) env.ataId = .ok (to, na))
    (hname : r.event.name.length ≤ maxNameLen) (hsymbol : r.event.symbol.length ≤ maxNameLen)
    (hacc : ctx.accounts = [k, km, to, kt, ks, env.systemId, env.splId, env.rentId, env.clockId, f] ++ more)
    (hata : env.ataId ∈ more) (hwho : r.event.recipient ∈ more)
    (hwf : ctx.isWritable f = true) (hsf : ctx.isSigner f = true) (hwk : ctx.isWritable k = true)
    (hwm : ctx.isWritable km = true) (hwt : ctx.isWritable kt = true) (hwo : ctx.isWritable to = true)
    (hvm : Vacant env (w.acc km)) (hvt : Vacant env (w.acc kt)) (hvo : Unused env (w.acc to))
    (hwal : Wallet env w f (max 1 (env.rent 82) + max 1 (env.rent 165) + max 1 (env.rent recLen))) (hfo : f ≠ to)
    (hr0 : env.rent 82 < 2 ^ 64) (hr1 : env.rent 165 < 2 ^ 64) (hr2 : env.rent recLen < 2 ^ 64) (hpl : r.event.payload = [])
    (ha : getWithdrawalAmount r.event.amount r.event.decimals (newDecimals r.event.decimals) = .ok amount)
    (hf : feeOf FeeInfo.default amount = .ok fee) (hn : n.toNat + fee.toNat = amount.toNat) :
    ∃ w', run env ctx cpi .withdrawMultiTokenEver w = .ok w' := by
  obtain ⟨pn, pd, hl, -⟩ := loadNoEmergency_live hp hs hse
  have hu : validUtf8 r.event.name = true ∧ validUtf8 r.event.symbol = true := by
    have hw := (fits_of_holds hw.holds).1
    simp only [withdrawalC, wEverEventC, wf_iso, wf_pair, Bool.and_eq_true, wf_str] at hw
    exact ⟨hw.2.2.2.2.2.2.2.1.2.1.2, hw.2.2.2.2.2.2.2.1.2.2.1.2⟩
  obtain ⟨w1, h1, e1, hev, ho, l, hdat⟩ := deployEver_live (ctx := ctx) hp m_t m_o t_o hma hta haa hname hsymbol hu.1 hu.2 (by rw [hacc]; simp) (by rw [hacc]; simp)
    (by rw [hacc]; simp) (by rw [hacc]; simp [hata]) (by rw [hacc]; simp) (by rw [hacc]; simp [hwho]) (by rw [hacc]; simp) hwf hsf hwm hwt hwo hvm hvt hvo hwal
    hfo hr0 hr1 hr2
  have k_m : k ≠ km := ne_of_owner hw.owner hvm.2.2 hd.tpSys
  have k_t : k ≠ kt := ne_of_owner hw.owner hvt.2.2 hd.tpSys
  have k_o : k ≠ to := ne_of_owner hw.owner hvo.owner hd.tpSys
  have hz : ∀ x : U64, (0#64).toNat + x.toNat < 2 ^ 64 := fun x => by have := x.isLt; rw [show (0#64).toNat = 0 from rfl]; omega
  obtain ⟨w2, h2⟩ := payEver_live (ctx := ctx) (to := to) hp hd.tpSpl hev rfl (hw.eff e1 (by simp [k_m, k_t, k_o])) rfl (by rw [hacc]; simp) (by rw [hacc]; simp) hwk hwm hwo hwt
    (.inl ⟨hpl, _, hdat, rfl⟩) ha hf hn ⟨ho, _, hdat, rfl, rfl, by simp [freshToken, hnat], by simp only [freshToken, if_neg hnat]; exact hz n⟩ (hz n) (by
      have := n.isLt
      unfold releasedOn
      split
      · exact hz n
      · omega) (hz fee)
  refine ⟨w2, ?_⟩
  simp only [run, processWithdrawEver, bind_ok, acct_ok, sysvar_ok, require_ok, exists_const, ex_unit, Prod.exists]
  refine ⟨k, by rw [hacc]; rfl, km, by rw [hacc]; rfl, to, by rw [hacc]; rfl, kt, by rw [hacc]; rfl, ks, by rw [hacc]; rfl,
    env.systemId, by rw [hacc]; rfl, env.splId, by rw [hacc]; rfl, env.rentId, by rw [hacc]; rfl, rfl, env.clockId, by rw [hacc]; rfl, rfl, s, pn, hl,
    r, loadWd_live hp hw, ?_⟩
  rw [if_pos hvt.1]
  have h9 : ctx.accounts[9]? = some f := by rw [hacc]; rfl
  simp only [h9, bind_ok]
  exact ⟨w1, h1, h2⟩

end Verif.TP
