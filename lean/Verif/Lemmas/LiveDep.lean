import Verif.Lemmas.LivePay
import Verif.Props.Encoding
/-!
# Deposits that succeed
-/
set_option linter.unusedSimpArgs false
namespace Verif
variable {env : Env} {w w1 : World}

theorem Wallet.eff {D : List Pubkey} {k : Pubkey} {n m : Nat} (h : Wallet env w k n) (he : Eff D w w1) (hk : k ∉ D) (hl : m ≤ (w1.acc k).lamports) :
    Wallet env w1 k m := ⟨(he k hk).2.trans h.system, by rw [(he k hk).1]; exact h.empty, hl⟩

theorem Vacant.of_eq {k : Pubkey} (h : Vacant env (w.acc k)) (e : w1.acc k = w.acc k) : Vacant env (w1.acc k) := by rw [e]; exact h

end Verif

namespace Verif.TP
open Codec Verif

variable {env : Env} {ctx : Ctx} {w w' w1 : World} {cpi : Pubkey → World → Except Err World}

theorem depositEver_fits {n : U8} {au : Pubkey} {len : U32} {e : DepositEverEvent} {seed : U128} (h : e.payload.length ≤ 813) :
    (depositC depositEverEventC).wf (depositRecord n au len e seed) = true ∧
      ((depositC depositEverEventC).enc (depositRecord n au len e seed)).length ≤ recLen := by
  constructor
  · simp [depositC, depositEverEventC, depositRecord, wf_bytes]
    omega
  · simp only [depositC, depositEverEventC, depositRecord, enc_iso, enc_pair, List.length_append, len_bool, AccountKind.enc_deposit, len_key, len_u32,
      len_everAddressC, len_u128, len_u64, len_bytes, recLen, List.length_cons, List.length_nil]
    omega

theorem depositSol_fits {n : U8} {au : Pubkey} {len : U32} {e : DepositSolEvent} {seed : U128} (hn : validUtf8 e.name = true) (hy : validUtf8 e.symbol = true)
    (h : e.name.length + e.symbol.length + e.payload.length ≤ 806) :
    (depositC depositSolEventC).wf (depositRecord n au len e seed) = true ∧
      ((depositC depositSolEventC).enc (depositRecord n au len e seed)).length ≤ recLen := by
  constructor
  · simp [depositC, depositSolEventC, depositRecord, wf_bytes, wf_str, hn, hy]
    omega
  · simp only [depositC, depositSolEventC, depositRecord, enc_iso, enc_pair, List.length_append, len_bool, AccountKind.enc_deposit, len_key, len_u32,
      len_everAddressC, len_u128, len_u64, len_u8, len_str, len_bytes, recLen, List.length_cons, List.length_nil]
    omega

/-- The account of a new deposit is created and its record stored. -/
theorem recordDeposit_live {E : Type} {ec : Codec E} {f dep : Pubkey} {seed : U128} {n : U8} {r : Deposit E} {b : Bytes}
    (hp : ctx.program = env.tpId) (ha : findAddr env (depositSeeds seed) env.tpId = .ok (dep, n)) (hv : Vacant env (w.acc dep)) (hne : f ≠ dep)
    (hsys : env.systemId ∈ ctx.accounts) (hwk : ctx.isWritable dep = true) (hwf : ctx.isWritable f = true) (hs : ctx.isSigner f = true)
    (hwal : Wallet env w f (max 1 (env.rent recLen))) (hmax : env.rent recLen < 2 ^ 64)
    (hfit : (depositC ec).wf r = true ∧ ((depositC ec).enc r).length ≤ recLen) :
    ∃ w1 w2, createPda env ctx f dep (depositSeeds seed) n recLen ctx.program w = .ok w1 ∧ putDeposit ctx ec r dep (w1.log b) = .ok w2 ∧ Eff [dep] w w2 ∧
      ∀ j, j ≠ dep → (w2.acc j).lamports = (w.acc j).lamports - (if j = f then max 1 (env.rent recLen) else 0) := by
  obtain ⟨w1, h1, h2, h3, h4⟩ := createPda_live (o := ctx.program) (by rw [hp]; exact ha) hv hne hsys hwk hwf hs hwal hmax
  obtain ⟨w2, h5, -, -, h6, h7, -⟩ := pack_live (w := w1.log b) (k := dep) (b := zeros recLen) (c := depositC ec) (a := r)
    (by show (w1.acc dep).data = _; rw [h2]) (RL.zeros_len _) hfit.1 hfit.2 hwk (by show (w1.acc dep).owner = _; rw [h2])
  refine ⟨w1, w2, h1, h5, fun j hj => ?_, fun j hj => ?_⟩
  · have := h7 j (by simpa using hj)
    rw [this]; exact h3 j hj
  · rw [h6 j]; exact h4 j hj

theorem ne_of_owner {a b : Pubkey} {o o' : Pubkey} (ha : (w.acc a).owner = o) (hb : (w.acc b).owner = o') (h : o ≠ o') : a ≠ b := by
  rintro rfl; exact h (ha.symm.trans hb)

/-- `process_deposit_multi_token_ever` on healthy accounts. -/
theorem depositEver_live {f au ct dep km kmv kt ks : Pubkey} {tok : EverAddress} {s : Settings} {t : TokenSettings} {m : MintAcc}
    {d : U8} {seed : U128} {amount fee net value : U64} {transfer : U128} {recipient : EverAddress} {evers : Pubkey} {payload : Bytes} {nd : U8}
    (hd : env.Distinct) (hp : ctx.program = env.tpId) (hs : Ready env w ks s) (hse : s.emergency = false)
    (h : EverReady env w tok kt km t m) (hk : t.kind = .ever km tok d) (hte : t.emergency = false) (hmv : MultiReady env w kmv)
    (hacc : ctx.accounts = [f, au, ct, dep, km, kmv, kt, ks, env.systemId, env.splId, env.rentId])
    (hsf : ctx.isSigner f = true) (hsa : ctx.isSigner au = true) (hwf : ctx.isWritable f = true) (hwc : ctx.isWritable ct = true)
    (hwd : ctx.isWritable dep = true) (hwm : ctx.isWritable km = true) (hwv : ctx.isWritable kmv = true) (hwt : ctx.isWritable kt = true)
    (hdep : findAddr env (depositSeeds seed) env.tpId = .ok (dep, nd)) (hvac : Vacant env (w.acc dep))
    (hwal : Wallet env w f (max 1 (env.rent recLen) + value.toNat)) (hrent : env.rent recLen < 2 ^ 64)
    (hsp : Spendable env w ct km au amount.toNat) (hnat : ∀ x, (w.acc ct).data = .token x → x.isNative = none) (hsup : amount.toNat ≤ m.supply.toNat)
    (hf : feeOf t.feeDepositInfo amount = .ok fee) (hn : net.toNat + fee.toNat = amount.toNat) (hfs : t.feeSupply.toNat + fee.toNat < 2 ^ 64)
    (htr : getDepositAmount net d m.decimals = .ok transfer) (hpl : payload.length ≤ 813) (hmax : (w.acc kmv).lamports + value.toNat < 2 ^ 64) :
    ∃ w', run env ctx cpi (.depositMultiTokenEver seed amount recipient value evers payload) w = .ok w' := by
  obtain ⟨pn, pd, hl, -⟩ := loadNoEmergency_live hp hs hse
  obtain ⟨d', nn, mn, hle, hkd, hkk, hma⟩ := loadEver_live hp h
  have hdd : d' = d := by rw [hk] at hkd; injection hkd with _ _ e; exact e.symm
  subst hdd
  obtain ⟨mo, md, ma⟩ := h.mint
  obtain ⟨x, hx, hxm, hxo, hxd, hxf, hxn, -⟩ := hsp.data
  have hmo := hmv.owner
  have ho := h.here.1
  -- addresses that differ
  have f_ct : f ≠ ct := ne_of_owner hwal.system hsp.owner hd.sysSpl
  have f_km : f ≠ km := ne_of_owner hwal.system mo hd.sysSpl
  have f_mv : f ≠ kmv := ne_of_owner hwal.system hmo hd.tpSys.symm
  have f_kt : f ≠ kt := ne_of_owner hwal.system ho hd.tpSys.symm
  have f_dep : f ≠ dep := by rintro rfl; have := hwal.rich; have := hvac.1; omega
  have dep_ct : dep ≠ ct := ne_of_owner hvac.2.2 hsp.owner hd.sysSpl
  have dep_km : dep ≠ km := ne_of_owner hvac.2.2 mo hd.sysSpl
  have dep_mv : dep ≠ kmv := ne_of_owner hvac.2.2 hmo hd.tpSys.symm
  have dep_kt : dep ≠ kt := ne_of_owner hvac.2.2 ho hd.tpSys.symm
  have kt_ct : kt ≠ ct := ne_of_owner ho hsp.owner hd.tpSpl
  have kt_km : kt ≠ km := ne_of_owner ho mo hd.tpSpl
  have mv_ct : kmv ≠ ct := ne_of_owner hmo hsp.owner hd.tpSpl
  have mv_km : kmv ≠ km := ne_of_owner hmo mo hd.tpSpl
  -- the steps
  have hsys : env.systemId ∈ ctx.accounts := by rw [hacc]; simp
  obtain ⟨w1, h1, e1, -, -, a1⟩ := splBurn_live (env := env) (ctx := ctx) (sg := ctx.signs) (mint := km) (src := ct) (auth := au) (n := amount)
    (by rw [hacc]; simp) (by rw [hacc]; simp) hwm hwc hsa mo hsp.owner md hx hxd hxo hxm hxf (hnat x hx) hxn hsup
  have wal1 : Wallet env w1 f (max 1 (env.rent recLen)) :=
    hwal.eff e1 (by simp [f_km, f_ct]) (by rw [a1 f f_km f_ct]; have := hwal.rich; omega)
  obtain ⟨w2, w3, h2, h3, e3, l3⟩ := recordDeposit_live (ec := depositEverEventC) (b := depositLog env depositEverEventC dep recipient transfer seed value evers
      ⟨tok, transfer, recipient, value, evers, payload⟩) (r := depositRecord nd au (DepositEverEvent.lenField ⟨tok, transfer, recipient, value, evers, payload⟩)
      ⟨tok, transfer, recipient, value, evers, payload⟩ seed) hp hdep (hvac.of_eq (a1 dep dep_km dep_ct)) f_dep hsys hwd hwf hsf wal1 hrent (depositEver_fits hpl)
  obtain ⟨supply, hsupply⟩ := add_live (a := t.feeSupply) (b := fee) hfs
  have t3 : TokenAt env w3 kt t := (h.here.eff e1 (by simp [kt_km, kt_ct])).eff e3 (by simp [dep_kt.symm])
  obtain ⟨w4, h4, e4, l4⟩ := putToken_live (t' := { t with feeSupply := supply }) hp t3 hwt rfl rfl rfl rfl
  have wal4 : Wallet env w4 f value.toNat := by
    refine (wal1.eff e3 (by simp [f_dep]) (m := 0) (Nat.zero_le _)).eff e4 (by simp [f_kt]) ?_
    rw [l4, l3 f f_dep, if_pos rfl, a1 f f_km f_ct]
    have := hwal.rich; omega
  obtain ⟨w5, h5, -⟩ := sysTransfer_live hsys hwf hwv hsf wal4 f_mv (by rw [l4, l3 kmv dep_mv.symm, if_neg f_mv.symm, a1 kmv mv_km mv_ct]; omega)
  refine ⟨w5, ?_⟩
  simp only [run, processDepositEver, bind_ok, acct_ok, sysvar_ok, require_ok, exists_const, ex_unit, Prod.exists, deriveAt_ok, mintOf_ok, validatePda_ok,
    orErr_ok]
  exact ⟨f, by rw [hacc]; rfl, au, by rw [hacc]; rfl, ct, by rw [hacc]; rfl, dep, by rw [hacc]; rfl, km, by rw [hacc]; rfl, kmv, by rw [hacc]; rfl,
    kt, by rw [hacc]; rfl, ks, by rw [hacc]; rfl, env.systemId, by rw [hacc]; rfl, env.splId, by rw [hacc]; rfl, env.rentId, by rw [hacc]; rfl, rfl, hsa, s, pn, hl, _, hle, hte,
    hma, m, md, loadMulti_live hp hmv, w1, h1, nd, by rw [hp]; exact hdep, w2, h2, fee, hf, supply, hsupply, net, sub_live hn, transfer, htr, w3, h3, w4, h4, h5⟩

/-- `process_deposit_multi_token_sol` on healthy accounts; `w0` is the state after the token was set up. -/
theorem depositSol_live {f au ct kv dep mint kmv kt ks : Pubkey} {s : Settings} {t : TokenSettings} {v : TokenAcc} {m : MintAcc} {w0 : World}
    {name symbol : Bytes} {seed : U128} {amount fee net value : U64} {recipient : EverAddress} {evers : Pubkey} {payload : Bytes} {nd : U8}
    (hd : env.Distinct) (hp : ctx.program = env.tpId) (hs : Ready env w ks s) (hse : s.emergency = false) (hname : name.length ≤ maxNameLen)
    (hsymbol : symbol.length ≤ maxNameLen) (hdo : deployOnce env ctx f kv mint kt name symbol w = .ok w0)
    (h : SolReady env w0 mint kt kv t v) (hte : t.emergency = false) (hm : (w0.acc mint).data = .mint m) (hmv : MultiReady env w0 kmv)
    (hacc : ctx.accounts = [f, au, ct, kv, dep, mint, kmv, kt, ks, env.systemId, env.splId, env.rentId])
    (hsf : ctx.isSigner f = true) (hsa : ctx.isSigner au = true) (hwf : ctx.isWritable f = true) (hwc : ctx.isWritable ct = true)
    (hwd : ctx.isWritable dep = true) (hwkv : ctx.isWritable kv = true) (hwv : ctx.isWritable kmv = true) (hwt : ctx.isWritable kt = true)
    (hdep : findAddr env (depositSeeds seed) env.tpId = .ok (dep, nd)) (hvac : Vacant env (w0.acc dep))
    (hwal : Wallet env w0 f (max 1 (env.rent recLen) + value.toNat)) (hrent : env.rent recLen < 2 ^ 64)
    (hsp : Spendable env w0 ct mint au amount.toNat) (hlam : (w0.acc kv).lamports + amount.toNat < 2 ^ 64)
    (hlim : v.amount.toNat + amount.toNat ≤ t.depositLimit.toNat)
    (hf : feeOf t.feeDepositInfo amount = .ok fee) (hn : net.toNat + fee.toNat = amount.toNat) (hfs : t.feeSupply.toNat + fee.toNat < 2 ^ 64)
    (hpl : t.name.length + t.symbol.length + payload.length ≤ 806) (hmax : (w0.acc kmv).lamports + value.toNat < 2 ^ 64) :
    ∃ w', run env ctx cpi (.depositMultiTokenSol seed name symbol amount recipient value evers payload) w = .ok w' := by
  obtain ⟨pn, pd, hl, -⟩ := loadNoEmergency_live hp hs hse
  obtain ⟨nn, vn, hls, hkk, hva⟩ := loadSol_live hp h
  obtain ⟨vo, vd, vm, vow, vdel, vfr⟩ := h.vault
  have hmo := hmv.owner
  have ho := h.here.1
  have f_ct : f ≠ ct := ne_of_owner hwal.system hsp.owner hd.sysSpl
  have f_kv : f ≠ kv := ne_of_owner hwal.system vo hd.sysSpl
  have f_mv : f ≠ kmv := ne_of_owner hwal.system hmo hd.tpSys.symm
  have f_dep : f ≠ dep := by rintro rfl; have := hwal.rich; have := hvac.1; omega
  have dep_ct : dep ≠ ct := ne_of_owner hvac.2.2 hsp.owner hd.sysSpl
  have dep_kv : dep ≠ kv := ne_of_owner hvac.2.2 vo hd.sysSpl
  have dep_mv : dep ≠ kmv := ne_of_owner hvac.2.2 hmo hd.tpSys.symm
  have dep_kt : dep ≠ kt := ne_of_owner hvac.2.2 ho hd.tpSys.symm
  have kt_ct : kt ≠ ct := ne_of_owner ho hsp.owner hd.tpSpl
  have kt_kv : kt ≠ kv := ne_of_owner ho vo hd.tpSpl
  have mv_ct : kmv ≠ ct := ne_of_owner hmo hsp.owner hd.tpSpl
  have mv_kv : kmv ≠ kv := ne_of_owner hmo vo hd.tpSpl
  have hsys : env.systemId ∈ ctx.accounts := by rw [hacc]; simp
  have hfit : v.amount.toNat + amount.toNat < 2 ^ 64 := Nat.lt_of_le_of_lt hlim t.depositLimit.isLt
  obtain ⟨total, htotal⟩ := add_live (a := v.amount) (b := amount) hfit
  have htot : total.toNat ≤ t.depositLimit.toNat := by rw [checkedAdd_some.1 htotal]; exact hlim
  obtain ⟨w1, h1, e1, -, -, a1⟩ := splTransfer_live (env := env) (ctx := ctx) (sg := ctx.signs) (src := ct) (dst := kv) (auth := au) (mint := mint) (n := amount)
    (by rw [hacc]; simp) (by rw [hacc]; simp) hwc hwkv hsa hsp ⟨vo, ⟨v, vd, vm, vfr, hfit⟩, hlam⟩
  have wal1 : Wallet env w1 f value.toNat := hwal.eff e1 (by simp [f_kv, f_ct]) (by rw [a1 f f_ct f_kv]; have := hwal.rich; omega)
  obtain ⟨w2, h2, e2, l2⟩ := sysTransfer_live hsys hwf hwv hsf wal1 f_mv (by rw [a1 kmv mv_ct mv_kv]; exact hmax)
  have wal2 : Wallet env w2 f (max 1 (env.rent recLen)) := by
    refine wal1.eff e2 (by simp) ?_
    rw [l2 f, if_pos rfl, if_neg f_mv, a1 f f_ct f_kv]
    have := hwal.rich; omega
  have vac2 : Vacant env (w2.acc dep) := by
    have a := a1 dep dep_ct dep_kv
    have b := e2 dep (by simp)
    have c := l2 dep
    rw [if_neg f_dep.symm, if_neg dep_mv] at c
    refine ⟨by rw [c, a]; have := hvac.1; omega, by rw [b.1, a]; exact hvac.2.1, by rw [b.2, a]; exact hvac.2.2⟩
  have hnm : validUtf8 t.name = true ∧ validUtf8 t.symbol = true := by
    have hw := (fits_of_holds h.here.2.1).1
    simp only [tokenSettingsC, wf_iso, wf_pair, Bool.and_eq_true, wf_str] at hw
    exact ⟨hw.2.2.2.1.2, hw.2.2.2.2.1.2⟩
  obtain ⟨w3, w4, h3, h4, e4, l4⟩ := recordDeposit_live (ec := depositSolEventC) (b := depositLog env depositSolEventC dep recipient (net.setWidth 128) seed value evers
      ⟨mint, t.name, t.symbol, m.decimals, net.setWidth 128, recipient, value, evers, payload⟩)
      (r := depositRecord nd au (DepositSolEvent.lenField ⟨mint, t.name, t.symbol, m.decimals, net.setWidth 128, recipient, value, evers, payload⟩)
      ⟨mint, t.name, t.symbol, m.decimals, net.setWidth 128, recipient, value, evers, payload⟩ seed) hp hdep vac2 f_dep hsys hwd hwf hsf wal2 hrent
      (depositSol_fits hnm.1 hnm.2 hpl)
  obtain ⟨supply, hsupply⟩ := add_live (a := t.feeSupply) (b := fee) hfs
  have t4 : TokenAt env w4 kt t := ((h.here.eff e1 (by simp [kt_kv, kt_ct])).eff e2 (by simp)).eff e4 (by simp [dep_kt.symm])
  obtain ⟨w5, h5, e5, l5⟩ := putToken_live (t' := { t with feeSupply := supply }) hp t4 hwt rfl rfl rfl rfl
  refine ⟨w5, ?_⟩
  simp only [run, processDepositSol, bind_ok, acct_ok, sysvar_ok, require_ok, exists_const, ex_unit, Prod.exists, deriveAt_ok, mintOf_ok, tokenOf_ok, validatePda_ok,
    orErr_ok]
  exact ⟨f, by rw [hacc]; rfl, au, by rw [hacc]; rfl, ct, by rw [hacc]; rfl, kv, by rw [hacc]; rfl, dep, by rw [hacc]; rfl, mint, by rw [hacc]; rfl,
    kmv, by rw [hacc]; rfl, kt, by rw [hacc]; rfl, ks, by rw [hacc]; rfl, env.systemId, by rw [hacc]; rfl, env.splId, by rw [hacc]; rfl, env.rentId,
    by rw [hacc]; rfl, rfl, hsa, s, pn, hl, hname, hsymbol, w0, hdo, _, hls, hte, .inl rfl, m, hm, .inl rfl, loadMulti_live hp hmv, v, vd, total, htotal, htot,
    w1, h1, w2, h2, nd, by rw [hp]; exact hdep, w3, h3, fee, hf, supply, hsupply, net, sub_live hn, w4, h4, h5⟩

theorem fresh_fits {n m : U8} {kind : TokenKind} {name symbol : Bytes} (hname : name.length ≤ maxNameLen) (hsymbol : symbol.length ≤ maxNameLen)
    (un : validUtf8 name = true) (uy : validUtf8 symbol = true) (hk : TokenKind.codec.wf kind = true) :
    tokenSettingsC.wf (freshTokenSettings n m kind name symbol) = true ∧
      (tokenSettingsC.enc (freshTokenSettings n m kind name symbol)).length ≤ recLen := by
  have a : maxNameLen = 32 := rfl
  constructor
  · simp only [tokenSettingsC, freshTokenSettings, wf_iso, wf_pair, Bool.and_eq_true, wf_str, un, uy, hk, decide_eq_true_eq, and_true, true_and]
    refine ⟨rfl, by simp, by omega, by omega, rfl, rfl, rfl, rfl, rfl, rfl, rfl, rfl, rfl⟩
  · exact Props.C44_tokenSettings_fits _ n m rfl (by simp only [freshTokenSettings]; omega)

/-- `processor.rs:676-771` on vacant addresses. -/
theorem deploySol_live {f kv mint kt : Pubkey} {name symbol : Bytes} {nv nt : U8} (hp : ctx.program = env.tpId) (hne : kv ≠ kt)
    (hva : findAddr env (vaultSeeds mint) env.tpId = .ok (kv, nv)) (hta : findAddr env (tokenSettingsSolSeeds mint) env.tpId = .ok (kt, nt))
    (hname : name.length ≤ maxNameLen) (hsymbol : symbol.length ≤ maxNameLen) (un : validUtf8 name = true) (uy : validUtf8 symbol = true)
    (hsys : env.systemId ∈ ctx.accounts) (hspl : env.splId ∈ ctx.accounts) (hmi : mint ∈ ctx.accounts)
    (hwf : ctx.isWritable f = true) (hsf : ctx.isSigner f = true) (hwkv : ctx.isWritable kv = true) (hwt : ctx.isWritable kt = true)
    (hvv : Vacant env (w.acc kv)) (hvt : Vacant env (w.acc kt)) (hm : ∃ m, (w.acc mint).data = .mint m)
    (hwal : Wallet env w f (max 1 (env.rent 165) + max 1 (env.rent recLen))) (hr1 : env.rent 165 < 2 ^ 64) (hr2 : env.rent recLen < 2 ^ 64) :
    ∃ w1, deploySol env ctx f kv mint kt name symbol w = .ok w1 ∧ Eff [kv, kt] w w1 ∧
      SolReady env w1 mint kt kv (freshTokenSettings nt nv (.solana mint kv) name symbol) (freshToken env mint kv (max 1 (env.rent 165))) ∧
      (w1.acc kv).lamports = max 1 (env.rent 165) ∧
      (∀ j, j ≠ kv → j ≠ kt → (w1.acc j).lamports = (w.acc j).lamports - (if j = f then max 1 (env.rent 165) + max 1 (env.rent recLen) else 0)) := by
  have f_kv : f ≠ kv := by rintro rfl; have := hwal.rich; have := hvv.1; omega
  have f_kt : f ≠ kt := by rintro rfl; have := hwal.rich; have := hvt.1; omega
  have m_kv : mint ≠ kv := by
    rintro rfl; obtain ⟨m, hm⟩ := hm; have := hvv.2.1; rw [hm] at this; simp [Data.len] at this
  obtain ⟨w1, h1, s1, e1, l1⟩ := createPda_live (ctx := ctx) (o := env.splId) (space := 165) (by rw [hp]; exact hva) hvv f_kv hsys hwkv hwf hsf
    (hwal.eff (Eff.refl [] w) (by simp) (by have := hwal.rich; omega)) hr1
  obtain ⟨w2, h2, e2, o2, d2, l2, a2⟩ := splInitAccount_live (env := env) (ctx := ctx) (w := w1) (k := kv) (mint := mint) (o := kv) hspl hmi hwkv (by rw [s1]) (by rw [s1])
    (by rw [s1]; exact Nat.le_max_right _ _) (.inr (by obtain ⟨m, hm⟩ := hm; exact ⟨m, by rw [(e1 mint (by simpa using m_kv)).1]; exact hm⟩))
  have hvt2 : Vacant env (w2.acc kt) := by
    rw [a2 kt hne.symm]
    have b := e1 kt (by simpa using hne.symm)
    have c := l1 kt hne.symm
    exact ⟨by rw [c]; have := hvt.1; omega, by rw [b.1]; exact hvt.2.1, by rw [b.2]; exact hvt.2.2⟩
  have wal2 : Wallet env w2 f (max 1 (env.rent recLen)) := by
    refine (hwal.eff e1 (by simpa using f_kv) (m := 0) (Nat.zero_le _)).eff e2 (by simpa using f_kv) ?_
    rw [a2 f f_kv, l1 f f_kv, if_pos rfl]
    have := hwal.rich; omega
  obtain ⟨w3, h3, s3, e3, l3⟩ := createPda_live (ctx := ctx) (w := w2) (o := ctx.program) (space := recLen) (by rw [hp]; exact hta) hvt2 f_kt hsys hwt hwf hsf wal2 hr2
  have hfit := fresh_fits (n := nt) (m := nv) (kind := .solana mint kv) hname hsymbol un uy rfl
  obtain ⟨w4, h4, hh4, o4, l4, a4, e4⟩ := pack_live (ctx := ctx) (w := w3.log (tokenSettingsLogC.enc ⟨kt, symbol, name, mint, some kv, none, none, none, FeeInfo.default⟩))
    (k := kt) (b := zeros recLen) (by show (w3.acc kt).data = _; rw [s3]) (RL.zeros_len _) hfit.1 hfit.2 hwt (by show (w3.acc kt).owner = _; rw [s3])
  have ekv : w4.acc kv = w3.acc kv := a4 kv hne
  have kv3 := e3 kv (by simpa using hne)
  have lkv : (w4.acc kv).lamports = max 1 (env.rent 165) := by
    rw [ekv, l3 kv hne, if_neg f_kv.symm, l2, s1]; rfl
  refine ⟨w4, ?_, ?_, ⟨⟨?_, hh4, rfl, nt, nv, rfl⟩, rfl, ⟨nt, nv, rfl, hta, hva⟩, ⟨?_, ?_, rfl, rfl, rfl, rfl⟩, ?_⟩, lkv, ?_⟩
  · simp only [deploySol, bind_ok, deriveAt_ok]
    exact ⟨nv, by rw [hp]; exact hva, w1, h1, w2, h2, nt, by rw [hp]; exact hta, w3, h3, h4⟩
  · intro j hj
    simp only [List.mem_cons, List.not_mem_nil, or_false, not_or] at hj
    rw [a4 j hj.2]
    have b1 := e1 j (by simpa using hj.1)
    have b3 := e3 j (by simpa using hj.2)
    exact ⟨by show (w3.acc j).data = _; rw [b3.1, a2 j hj.1, b1.1], by show (w3.acc j).owner = _; rw [b3.2, a2 j hj.1, b1.2]⟩
  · rw [o4]; show (w3.acc kt).owner = _; rw [s3]; exact hp
  · rw [ekv, kv3.2]; exact o2
  · rw [ekv, kv3.1, d2, s1]
  · intro hnat
    rw [lkv]
    simp only [freshToken]
    split
    · simp only [BitVec.toNat_ofNat]
      exact Nat.le_trans (Nat.mod_le _ _) (Nat.sub_le _ _)
    · simp
  · intro j hj hj'
    rw [l4 j]
    show (w3.acc j).lamports = _
    rw [l3 j hj', a2 j hj, l1 j hj]
    split <;> omega

end Verif.TP
