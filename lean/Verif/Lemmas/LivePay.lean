import Verif.Lemmas.LiveTP
/-!
# Payouts that succeed
-/
set_option linter.unusedSimpArgs false
namespace Verif.TP
open Codec Verif

variable {env : Env} {ctx : Ctx} {w w' w1 : World} {cpi : Pubkey → World → Except Err World}

theorem checkRecipient_live {kind : AccountKind} {payload : Bytes} {mint who to : Pubkey} (hp : ctx.program = env.tpId)
    (h : Reaches env w kind payload mint who to) : checkRecipient env ctx payload kind mint who to w = .ok () := by
  rcases h with ⟨hpl, d, hd, ho⟩ | ⟨hpl, n, pn, hk, ha⟩
  · simp only [checkRecipient, if_pos hpl, bind_ok, tokenOf_ok, require_ok]
    exact ⟨d, hd, ho⟩
  · simp only [checkRecipient, if_neg hpl, bind_ok, orErr_ok, Prod.exists, intoProposal_some, validatePda_ok]
    exact ⟨n, some pn, hk, pn, rfl, by rw [hp]; exact ha⟩

/-- Whatever the vault holds, the attempt to pay out of it succeeds. -/
theorem payFromVault_live {mint pm kt kv to : Pubkey} {t t' : TokenSettings} {v : TokenAcc} {r : Withdrawal WSolEvent} {n : U64}
    (hp : ctx.program = env.tpId) (h : SolReady env w mint kt kv t v) (hk : t'.kind = t.kind) (ha : t'.accountKind = t.accountKind)
    (hspl : env.splId ∈ ctx.accounts) (hkv : kv ∈ ctx.accounts) (hwv : ctx.isWritable kv = true) (hwd : ctx.isWritable to = true)
    (hr : Reaches env w r.accountKind r.event.payload pm r.event.recipient to) (hd : Payable env w to mint n.toNat) :
    ∃ w1 st, payFromVault env ctx r t' pm kv to n w = .ok (w1, st) ∧ Eff [kv, to] w w1 := by
  have hv := h.vault.2.1
  by_cases hn : v.amount.toNat < n.toNat
  · refine ⟨w, .pending, ?_, Eff.refl _ _⟩
    simp only [payFromVault, bind_ok, tokenOf_ok]
    exact ⟨(), checkRecipient_live hp hr, v, hv, by rw [if_pos hn]⟩
  · obtain ⟨w1, h1, h2, -⟩ := makeSolTransfer_live hp h hk ha hspl hkv hwv hwd (Nat.le_of_not_lt hn) hd
    refine ⟨w1, paidStatus r.event.payload, ?_, h2⟩
    simp only [payFromVault, bind_ok, tokenOf_ok]
    exact ⟨(), checkRecipient_live hp hr, v, hv, by rw [if_neg hn]; simp only [h1, bind, Except.bind]⟩

/-- The records of the program are not token accounts. -/
theorem notin_pair {k a b : Pubkey} (ho : (w.acc k).owner = env.tpId) (hne : env.tpId ≠ env.splId) (ha : (w.acc a).owner = env.splId)
    (hb : (w.acc b).owner = env.splId) : k ∉ [a, b] := by
  simp only [List.mem_cons, List.not_mem_nil, or_false, not_or]
  exact ⟨fun e => hne (ho.symm.trans ((congrArg (fun j => (w.acc j).owner) e).trans ha)),
    fun e => hne (ho.symm.trans ((congrArg (fun j => (w.acc j).owner) e).trans hb))⟩

theorem resetEpoch_day {t : TokenSettings} {day : I64} : (resetEpoch t day).withdrawalDailyAmount.toNat = releasedOn t day := by
  unfold resetEpoch releasedOn
  split <;> simp

theorem resetEpoch_same {t : TokenSettings} {day : I64} : (resetEpoch t day).accountKind = t.accountKind ∧ (resetEpoch t day).kind = t.kind ∧
    (resetEpoch t day).name = t.name ∧ (resetEpoch t day).symbol = t.symbol ∧ (resetEpoch t day).feeSupply = t.feeSupply ∧
    (resetEpoch t day).feeWithdrawalInfo = t.feeWithdrawalInfo ∧ (resetEpoch t day).withdrawalLimit = t.withdrawalLimit ∧
    (resetEpoch t day).withdrawalDailyLimit = t.withdrawalDailyLimit := by
  unfold resetEpoch
  split <;> simp

theorem add_live {a b : U64} (h : a.toNat + b.toNat < 2 ^ 64) : ∃ c, checkedAdd a b = some c := by
  simp only [checkedAdd]
  exact ⟨_, if_pos (by simpa using h)⟩

theorem sub_live {a b c : U64} (h : c.toNat + b.toNat = a.toNat) : checkedSub a b = some c := by
  rw [checkedSub_some]; exact h.symm

/-- A confirmed withdrawal of a Solana token can be settled. -/
theorem settleSol_live {mint pm kt kv to : Pubkey} {t : TokenSettings} {v : TokenAcc} {vn : U8} {r : Withdrawal WSolEvent} {fee n : U64}
    (hp : ctx.program = env.tpId) (hne : env.tpId ≠ env.splId) (h : SolReady env w mint kt kv t v)
    (hspl : env.splId ∈ ctx.accounts) (hkv : kv ∈ ctx.accounts) (hwv : ctx.isWritable kv = true) (hwd : ctx.isWritable to = true)
    (hwt : ctx.isWritable kt = true) (hr : Reaches env w r.accountKind r.event.payload pm r.event.recipient to)
    (hd : Payable env w to mint n.toNat) (hday : r.md.status = .new → releasedOn t (epochOf ctx.now) + n.toNat < 2 ^ 64)
    (hfee : r.md.status = .new → t.feeSupply.toNat + fee.toNat < 2 ^ 64) :
    ∃ w1 st, settleSol env ctx r ⟨t, mint, kv, vn⟩ pm kv to kt fee n w = .ok (w1, st) ∧ Eff [kv, to, kt] w w1 := by
  have hsub : ∀ {w1 : World}, Eff [kv, to] w w1 → Eff [kv, to, kt] w w1 := by
    intro w1 he j hj
    simp only [List.mem_cons, List.not_mem_nil, or_false, not_or] at hj
    exact he j (by simp [hj.1, hj.2.1])
  obtain ⟨e1, e2, e3, e4, e5, -, -, -⟩ := resetEpoch_same (t := t) (day := epochOf ctx.now)
  cases hst : r.md.status with
  | new =>
    obtain ⟨daily, hdaily⟩ := add_live (a := (resetEpoch t (epochOf ctx.now)).withdrawalDailyAmount) (b := n) (by rw [resetEpoch_day]; exact hday hst)
    obtain ⟨supply, hsupply⟩ := add_live (a := (resetEpoch t (epochOf ctx.now)).feeSupply) (b := fee) (by rw [e5]; exact hfee hst)
    have hpay : ∃ w1 st, payIfAllowed env ctx r { resetEpoch t (epochOf ctx.now) with feeSupply := supply, withdrawalDailyAmount := daily } pm kv to n w =
        .ok (w1, st) ∧ Eff [kv, to] w w1 := by
      unfold payIfAllowed
      split
      · exact ⟨w, _, rfl, Eff.refl _ _⟩
      · exact payFromVault_live hp h e2 e1 hspl hkv hwv hwd hr hd
    obtain ⟨w1, st, h1, he1⟩ := hpay
    obtain ⟨w2, h2, he2, -⟩ := putToken_live (t' := { resetEpoch t (epochOf ctx.now) with feeSupply := supply, withdrawalDailyAmount := daily })
      hp (h.here.eff he1 (notin_pair h.here.1 hne h.vault.1 hd.owner)) hwt e1 e2 e3 e4
    refine ⟨w2, st, ?_, he1.trans he2⟩
    simp only [settleSol, hst, hdaily, hsupply, orErr, bind, Except.bind, h1, h2]
  | pending =>
    obtain ⟨w1, st, h1, he1⟩ := payFromVault_live (n := n) (pm := pm) hp h rfl rfl hspl hkv hwv hwd hr hd
    exact ⟨w1, st, by simp only [settleSol]; rw [hst]; exact h1, hsub he1⟩
  | _ => exact ⟨w, _, by simp only [settleSol]; rw [hst], Eff.refl _ _⟩

/-- `process_withdraw_multi_token_sol` on healthy accounts. -/
theorem withdrawSol_live {ks mint pm kt kv k to : Pubkey} {s : Settings} {t : TokenSettings} {v : TokenAcc} {r : Withdrawal WSolEvent} {fee n : U64}
    (hp : ctx.program = env.tpId) (hne : env.tpId ≠ env.splId) (hs : Ready env w ks s) (hse : s.emergency = false)
    (h : SolReady env w mint kt kv t v) (hte : t.emergency = false) (hw : WdReady wSolEventC env w k r) (hm : r.event.mint = mint)
    (hacc : ctx.accounts = [k, kv, to, kt, pm, ks, env.splId, env.clockId]) (hwk : ctx.isWritable k = true)
    (hwv : ctx.isWritable kv = true) (hwd : ctx.isWritable to = true)
    (hwt : ctx.isWritable kt = true) (hr : Reaches env w r.accountKind r.event.payload pm r.event.recipient to)
    (hf : feeOf t.feeWithdrawalInfo (r.event.amount.setWidth 64) = .ok fee) (hn : n.toNat + fee.toNat = (r.event.amount.setWidth 64 : U64).toNat)
    (hd : Payable env w to mint n.toNat) (hday : r.md.status = .new → releasedOn t (epochOf ctx.now) + n.toNat < 2 ^ 64)
    (hfee : r.md.status = .new → t.feeSupply.toNat + fee.toNat < 2 ^ 64) : ∃ w', run env ctx cpi .withdrawMultiTokenSol w = .ok w' := by
  obtain ⟨pn, pd, hl, -⟩ := loadNoEmergency_live hp hs hse
  obtain ⟨nn, vn, hls, hkk, hva⟩ := loadSol_live hp h
  obtain ⟨w1, st, h1, he1⟩ := settleSol_live (vn := vn) (pm := pm) (r := r) hp hne h (by rw [hacc]; simp) (by rw [hacc]; simp) hwv hwd hwt hr hd hday hfee
  have hk : k ∉ [kv, to, kt] := by
    have h1 := notin_pair hw.owner hne h.vault.1 hd.owner
    obtain ⟨n0, pn0, hk0, -⟩ := hw.addr
    simp only [List.mem_cons, List.not_mem_nil, or_false, not_or] at h1 ⊢
    refine ⟨h1.1, h1.2, fun e => ?_⟩
    subst e
    exact token_ne_wd h.here.2.1 hw.holds hkk hk0
  obtain ⟨w2, h2, -⟩ := putWd_live (md := { r.md with status := st }) hp ((hw.eff he1 hk).eff ((Eff.refl [] w1).log (b := statusLog k st)) (by simp)) hwk
  by_cases hq : hasQuorum r
  · refine ⟨w2, ?_⟩
    simp only [run, processWithdrawSol, bind_ok, acct_ok, sysvar_ok, require_ok, exists_const, ex_unit, validatePda_ok, orErr_ok, Prod.exists]
    refine ⟨k, by rw [hacc]; rfl, kv, by rw [hacc]; rfl, to, by rw [hacc]; rfl, kt, by rw [hacc]; rfl, pm, by rw [hacc]; rfl, ks,
      by rw [hacc]; rfl, env.splId, by rw [hacc]; rfl, env.clockId, by rw [hacc]; rfl, rfl, s, pn, hl, r, loadWd_live hp hw, _, hls, hte, hva, hm.symm, ?_⟩
    rw [if_pos hq]
    simp only [bind_ok, orErr_ok, Prod.exists]
    exact ⟨fee, hf, n, sub_live hn, w1, st, h1, h2⟩
  · refine ⟨w, ?_⟩
    simp only [run, processWithdrawSol, bind_ok, acct_ok, sysvar_ok, require_ok, exists_const, ex_unit, validatePda_ok, orErr_ok, Prod.exists]
    exact ⟨k, by rw [hacc]; rfl, kv, by rw [hacc]; rfl, to, by rw [hacc]; rfl, kt, by rw [hacc]; rfl, pm, by rw [hacc]; rfl, ks,
      by rw [hacc]; rfl, env.splId, by rw [hacc]; rfl, env.clockId, by rw [hacc]; rfl, rfl, s, pn, hl, r, loadWd_live hp hw, _, hls, hte, hva, hm.symm,
      by rw [if_neg hq]⟩

theorem releaseDaily_live {kt : Pubkey} {t : TokenSettings} {md : WMeta} {n : U64} (hp : ctx.program = env.tpId) (h : TokenAt env w kt t)
    (hw : ctx.isWritable kt = true) (hd : md.epoch = epochOf ctx.now → n.toNat ≤ t.withdrawalDailyAmount.toNat) :
    ∃ w1, releaseDaily ctx md t n kt w = .ok w1 ∧ Eff [kt] w w1 := by
  unfold releaseDaily
  by_cases he : md.epoch = epochOf ctx.now
  · rw [if_pos he]
    have : checkedSub t.withdrawalDailyAmount n = some (t.withdrawalDailyAmount - n) := by simp [checkedSub, hd he]
    obtain ⟨w1, h1, h2, -⟩ := putToken_live (t' := { t with withdrawalDailyAmount := t.withdrawalDailyAmount - n }) hp h hw rfl rfl rfl rfl
    exact ⟨w1, by simp only [this, orErr, bind, Except.bind, h1], h2⟩
  · rw [if_neg he]
    exact ⟨w, rfl, Eff.refl _ _⟩

/-- A withdrawal of a Solana token is none of the accounts of that token. -/
theorem wd_notin {E : Type} {ec : Codec E} {mint kt kv k to : Pubkey} {t : TokenSettings} {v : TokenAcc} {r : Withdrawal E}
    (hne : env.tpId ≠ env.splId) (h : SolReady env w mint kt kv t v) (hw : WdReady ec env w k r) (hd : (w.acc to).owner = env.splId) :
    k ∉ [kv, to, kt] := by
  have h1 := notin_pair hw.owner hne h.vault.1 hd
  obtain ⟨n0, pn0, hk0, -⟩ := hw.addr
  obtain ⟨n, m, hkk, -⟩ := h.addr
  simp only [List.mem_cons, List.not_mem_nil, or_false, not_or] at h1 ⊢
  refine ⟨h1.1, h1.2, fun e => ?_⟩
  subst e
  exact token_ne_wd h.here.2.1 hw.holds hkk hk0

/-- `process_approve_withdraw_sol` on healthy accounts. -/
theorem approveSol_live {au ks mint kt kv k to : Pubkey} {s : Settings} {t : TokenSettings} {v : TokenAcc} {r : Withdrawal WSolEvent} {fee n : U64}
    (hp : ctx.program = env.tpId) (hne : env.tpId ≠ env.splId) (hs : Ready env w ks s) (hse : s.emergency = false)
    (h : SolReady env w mint kt kv t v) (hte : t.emergency = false) (hw : WdReady wSolEventC env w k r) (hm : r.event.mint = mint)
    (hst : r.md.status = .waitingForApprove) (hau : s.withdrawalManager = au) (hsg : ctx.isSigner au = true)
    (hacc : ctx.accounts = [au, kv, k, to, kt, ks, env.splId, env.clockId]) (hwk : ctx.isWritable k = true)
    (hwv : ctx.isWritable kv = true) (hwd : ctx.isWritable to = true)
    (hwt : ctx.isWritable kt = true) (hr : Reaches env w r.accountKind r.event.payload mint r.event.recipient to)
    (hf : feeOf t.feeWithdrawalInfo (r.event.amount.setWidth 64) = .ok fee) (hn : n.toNat + fee.toNat = (r.event.amount.setWidth 64 : U64).toNat)
    (hd : Payable env w to mint n.toNat) (hday : r.md.epoch = epochOf ctx.now → n.toNat ≤ t.withdrawalDailyAmount.toNat) :
    ∃ w', run env ctx cpi .approveWithdrawSol w = .ok w' := by
  obtain ⟨pn, pd, hl, -⟩ := loadNoEmergency_live hp hs hse
  obtain ⟨nn, vn, hls, hkk, hva⟩ := loadSol_live hp h
  obtain ⟨w1, st, h1, he1⟩ := payFromVault_live (n := n) (pm := mint) hp h rfl rfl (by rw [hacc]; simp) (by rw [hacc]; simp) hwv hwd hr hd
  obtain ⟨w2, h2, he2⟩ := releaseDaily_live (md := r.md) hp (h.here.eff he1 (notin_pair h.here.1 hne h.vault.1 hd.owner)) hwt hday
  obtain ⟨w3, h3, -⟩ := putWd_live (md := { r.md with status := st }) hp (hw.eff (he1.trans he2) (wd_notin hne h hw hd.owner)) hwk
  refine ⟨w3, ?_⟩
  simp only [run, processApproveSol, bind_ok, acct_ok, sysvar_ok, require_ok, exists_const, ex_unit, validatePda_ok, orErr_ok, Prod.exists]
  exact ⟨au, by rw [hacc]; rfl, kv, by rw [hacc]; rfl, k, by rw [hacc]; rfl, to, by rw [hacc]; rfl, kt, by rw [hacc]; rfl, ks, by rw [hacc]; rfl,
    env.splId, by rw [hacc]; rfl, env.clockId, by rw [hacc]; rfl, rfl, hsg, s, pn, hl, r, loadWd_live hp hw, hst,
    authorize_ok.2 (.inl hau.symm), _, hls, hte, hva, hm.symm, fee, hf, n, sub_live hn, w1, st, h1, w2, h2, h3⟩

/-! ## Tokens from Everscale -/

theorem wd_notin_ever {E : Type} {ec : Codec E} {tok : EverAddress} {kt km k to : Pubkey} {t : TokenSettings} {m : MintAcc} {r : Withdrawal E}
    (hne : env.tpId ≠ env.splId) (h : EverReady env w tok kt km t m) (hw : WdReady ec env w k r) (hd : (w.acc to).owner = env.splId) :
    k ∉ [km, to, kt] := by
  have h1 := notin_pair hw.owner hne h.mint.1 hd
  obtain ⟨n0, pn0, hk0, -⟩ := hw.addr
  obtain ⟨n, mn, hkk, -⟩ := h.addr
  simp only [List.mem_cons, List.not_mem_nil, or_false, not_or] at h1 ⊢
  refine ⟨h1.1, h1.2, fun e => ?_⟩
  subst e
  exact token_ne_wd h.here.2.1 hw.holds hkk hk0

/-- The payment of a withdrawal of an Everscale token whose settings exist. -/
theorem payEver_live {tok : EverAddress} {kt km k to : Pubkey} {t : TokenSettings} {m : MintAcc} {r : Withdrawal WEverEvent} {amount fee n : U64}
    (hp : ctx.program = env.tpId) (hne : env.tpId ≠ env.splId)
    (h : EverReady env w tok kt km t m) (hte : t.emergency = false) (hw : WdReady wEverEventC env w k r) (hm : r.event.token = tok)
    (hspl : env.splId ∈ ctx.accounts) (hkm : km ∈ ctx.accounts) (hwk : ctx.isWritable k = true)
    (hwm : ctx.isWritable km = true) (hwd : ctx.isWritable to = true)
    (hwt : ctx.isWritable kt = true) (hr : Reaches env w r.accountKind r.event.payload km r.event.recipient to)
    (ha : getWithdrawalAmount r.event.amount r.event.decimals m.decimals = .ok amount)
    (hf : feeOf t.feeWithdrawalInfo amount = .ok fee) (hn : n.toNat + fee.toNat = amount.toNat)
    (hd : Mintable env w to km n.toNat) (hsup : m.supply.toNat + n.toNat < 2 ^ 64) (hday : releasedOn t (epochOf ctx.now) + n.toNat < 2 ^ 64)
    (hfee : t.feeSupply.toNat + fee.toNat < 2 ^ 64) : ∃ w', payEver env ctx k km to kt r w = .ok w' := by
  obtain ⟨dd, nn, mn, hls, hkd, hkk, hva⟩ := loadEver_live hp h
  obtain ⟨e1, e2, e3, e4, e5, e6, -, -⟩ := resetEpoch_same (t := t) (day := epochOf ctx.now)
  obtain ⟨daily, hdaily⟩ := add_live (a := (resetEpoch t (epochOf ctx.now)).withdrawalDailyAmount) (b := n) (by rw [resetEpoch_day]; exact hday)
  obtain ⟨supply, hsupply⟩ := add_live (a := (resetEpoch t (epochOf ctx.now)).feeSupply) (b := fee) (by rw [e5]; exact hfee)
  obtain ⟨d, hdd, hdm, hfr, hnat, hda⟩ := hd.data
  have hpay : ∃ w1 st, settleEver env ctx r { resetEpoch t (epochOf ctx.now) with feeSupply := supply, withdrawalDailyAmount := daily } km to n w =
      .ok (w1, st) ∧ Eff [km, to] w w1 := by
    unfold settleEver
    split
    · exact ⟨w, _, rfl, Eff.refl _ _⟩
    · obtain ⟨w1, h1, h2, -⟩ := makeEverTransfer_live
        (t' := { resetEpoch t (epochOf ctx.now) with feeSupply := supply, withdrawalDailyAmount := daily }) hp h e2 e1 hspl hkm hwm hwd hsup hd.owner hdd hdm
        hfr hnat hda
      refine ⟨w1, paidStatus r.event.payload, ?_, h2⟩
      simp only [checkRecipient_live hp hr, h1, bind, Except.bind]
  obtain ⟨w1, st, h1, he1⟩ := hpay
  obtain ⟨w2, h2, he2, -⟩ := putToken_live (t' := { resetEpoch t (epochOf ctx.now) with feeSupply := supply, withdrawalDailyAmount := daily })
    hp (h.here.eff he1 (notin_pair h.here.1 hne h.mint.1 hd.owner)) hwt e1 e2 e3 e4
  obtain ⟨w3, h3, -⟩ := putWd_live (md := { r.md with status := st }) hp
    ((hw.eff (he1.trans he2) (wd_notin_ever hne h hw hd.owner)).eff ((Eff.refl [] w2).log (b := statusLog k st)) (by simp)) hwk
  by_cases hq : hasQuorum r ∧ r.md.status = .new
  · refine ⟨w3, ?_⟩
    simp only [payEver, bind_ok, require_ok, exists_const, ex_unit, validatePda_ok, mintOf_ok]
    refine ⟨_, hls, hte, hva, hm.symm, m, h.mint.2.1, ?_⟩
    rw [if_pos hq]
    simp only [bind_ok, orErr_ok, Prod.exists]
    exact ⟨amount, ha, fee, by rw [e6]; exact hf, supply, hsupply, n, sub_live hn, daily, hdaily, w1, st, h1, w2, h2, h3⟩
  · refine ⟨w, ?_⟩
    simp only [payEver, bind_ok, require_ok, exists_const, ex_unit, validatePda_ok, mintOf_ok]
    exact ⟨_, hls, hte, hva, hm.symm, m, h.mint.2.1, by rw [if_neg hq]⟩

/-- `process_withdraw_multi_token_ever` on healthy accounts. -/
theorem withdrawEver_live {ks kt km k to : Pubkey} {tok : EverAddress} {more : List Pubkey} {s : Settings} {t : TokenSettings} {m : MintAcc}
    {r : Withdrawal WEverEvent} {amount fee n : U64}
    (hp : ctx.program = env.tpId) (hne : env.tpId ≠ env.splId) (hs : Ready env w ks s) (hse : s.emergency = false)
    (h : EverReady env w tok kt km t m) (hl0 : (w.acc kt).lamports ≠ 0) (hte : t.emergency = false) (hw : WdReady wEverEventC env w k r)
    (hm : r.event.token = tok)
    (hacc : ctx.accounts = [k, km, to, kt, ks, env.systemId, env.splId, env.rentId, env.clockId] ++ more) (hwk : ctx.isWritable k = true)
    (hwm : ctx.isWritable km = true) (hwd : ctx.isWritable to = true)
    (hwt : ctx.isWritable kt = true) (hr : Reaches env w r.accountKind r.event.payload km r.event.recipient to)
    (ha : getWithdrawalAmount r.event.amount r.event.decimals m.decimals = .ok amount)
    (hf : feeOf t.feeWithdrawalInfo amount = .ok fee) (hn : n.toNat + fee.toNat = amount.toNat)
    (hd : Mintable env w to km n.toNat) (hsup : m.supply.toNat + n.toNat < 2 ^ 64) (hday : releasedOn t (epochOf ctx.now) + n.toNat < 2 ^ 64)
    (hfee : t.feeSupply.toNat + fee.toNat < 2 ^ 64) : ∃ w', run env ctx cpi .withdrawMultiTokenEver w = .ok w' := by
  obtain ⟨pn, pd, hl, -⟩ := loadNoEmergency_live hp hs hse
  obtain ⟨w1, h1⟩ := payEver_live hp hne h hte hw hm (by rw [hacc]; simp) (by rw [hacc]; simp) hwk hwm hwd hwt hr ha hf hn hd hsup hday hfee
  refine ⟨w1, ?_⟩
  simp only [run, processWithdrawEver, bind_ok, acct_ok, sysvar_ok, require_ok, exists_const, ex_unit, Prod.exists]
  exact ⟨k, by rw [hacc]; rfl, km, by rw [hacc]; rfl, to, by rw [hacc]; rfl, kt, by rw [hacc]; rfl, ks, by rw [hacc]; rfl,
    env.systemId, by rw [hacc]; rfl, env.splId, by rw [hacc]; rfl, env.rentId, by rw [hacc]; rfl, rfl, env.clockId, by rw [hacc]; rfl, rfl, s, pn, hl,
    r, loadWd_live hp hw, by rw [if_neg hl0]; exact h1⟩

/-- `process_approve_withdraw_ever` on healthy accounts. -/
theorem approveEver_live {au ks kt km k to : Pubkey} {tok : EverAddress} {s : Settings} {t : TokenSettings} {m : MintAcc}
    {r : Withdrawal WEverEvent} {amount fee n : U64}
    (hp : ctx.program = env.tpId) (hne : env.tpId ≠ env.splId) (hs : Ready env w ks s) (hse : s.emergency = false)
    (h : EverReady env w tok kt km t m) (hte : t.emergency = false) (hw : WdReady wEverEventC env w k r) (hm : r.event.token = tok)
    (hst : r.md.status = .waitingForApprove) (hau : s.withdrawalManager = au) (hsg : ctx.isSigner au = true)
    (hacc : ctx.accounts = [au, km, k, to, kt, ks, env.splId, env.clockId]) (hwk : ctx.isWritable k = true)
    (hwm : ctx.isWritable km = true) (hwd : ctx.isWritable to = true)
    (hwt : ctx.isWritable kt = true) (hr : Reaches env w r.accountKind r.event.payload km r.event.recipient to)
    (ha : getWithdrawalAmount r.event.amount r.event.decimals m.decimals = .ok amount)
    (hf : feeOf t.feeWithdrawalInfo amount = .ok fee) (hn : n.toNat + fee.toNat = amount.toNat)
    (hd : Mintable env w to km n.toNat) (hsup : m.supply.toNat + n.toNat < 2 ^ 64)
    (hday : r.md.epoch = epochOf ctx.now → n.toNat ≤ t.withdrawalDailyAmount.toNat) :
    ∃ w', run env ctx cpi .approveWithdrawEver w = .ok w' := by
  obtain ⟨pn, pd, hl, -⟩ := loadNoEmergency_live hp hs hse
  obtain ⟨dd, nn, mn, hls, hkd, hkk, hva⟩ := loadEver_live hp h
  obtain ⟨d, hdd, hdm, hfr, hnat, hda⟩ := hd.data
  obtain ⟨w1, h1, he1, -⟩ := makeEverTransfer_live (t' := t) hp h rfl rfl (by rw [hacc]; simp) (by rw [hacc]; simp) hwm hwd hsup hd.owner hdd hdm hfr
    hnat hda
  obtain ⟨w2, h2, he2⟩ := releaseDaily_live (md := r.md) hp (h.here.eff he1 (notin_pair h.here.1 hne h.mint.1 hd.owner)) hwt hday
  obtain ⟨w3, h3, -⟩ := putWd_live (md := { r.md with status := paidStatus r.event.payload }) hp
    ((hw.eff (he1.trans he2) (wd_notin_ever hne h hw hd.owner)).eff ((Eff.refl [] w2).log (b := statusLog k (paidStatus r.event.payload))) (by simp)) hwk
  refine ⟨w3, ?_⟩
  simp only [run, processApproveEver, bind_ok, acct_ok, sysvar_ok, require_ok, exists_const, ex_unit, validatePda_ok, orErr_ok, mintOf_ok, Prod.exists]
  exact ⟨au, by rw [hacc]; rfl, km, by rw [hacc]; rfl, k, by rw [hacc]; rfl, to, by rw [hacc]; rfl, kt, by rw [hacc]; rfl, ks, by rw [hacc]; rfl,
    env.splId, by rw [hacc]; rfl, env.clockId, by rw [hacc]; rfl, rfl, hsg, s, pn, hl, r, loadWd_live hp hw, hst, _, hls, hte, hva, hm.symm,
    authorize_ok.2 (.inl hau.symm), m, h.mint.2.1, amount, ha, fee, hf, n, sub_live hn, checkRecipient_live hp hr, w1, h1, w2, h2, h3⟩

/-! ## Fees -/

/-- `process_withdraw_sol_fee` on healthy accounts. -/
theorem solFee_live {au ks mint kt kv to : Pubkey} {s : Settings} {t : TokenSettings} {v : TokenAcc} {n : U64}
    (hp : ctx.program = env.tpId) (hne : env.tpId ≠ env.splId) (hs : Ready env w ks s) (h : SolReady env w mint kt kv t v)
    (hau : s.manager = au) (hsg : ctx.isSigner au = true) (hacc : ctx.accounts = [au, kv, kt, to, ks, env.splId])
    (hwv : ctx.isWritable kv = true) (hwd : ctx.isWritable to = true) (hwt : ctx.isWritable kt = true)
    (hd : Payable env w to mint n.toNat) (hf : n.toNat ≤ t.feeSupply.toNat) (hb : n.toNat ≤ v.amount.toNat) :
    ∃ w', run env ctx cpi (.withdrawSolFee n) w = .ok w' := by
  obtain ⟨pn, pd, hl, -⟩ := loadSettings_live hp hs
  obtain ⟨nn, vn, hls, hkk, hva⟩ := loadSol_live hp h
  obtain ⟨w1, h1, he1, -⟩ := makeSolTransfer_live hp h rfl rfl (by rw [hacc]; simp) (by rw [hacc]; simp) hwv hwd hb hd
  obtain ⟨w2, h2, -⟩ := putToken_live (t' := { t with feeSupply := t.feeSupply - n }) hp
    (h.here.eff he1 (notin_pair h.here.1 hne h.vault.1 hd.owner)) hwt rfl rfl rfl rfl
  refine ⟨w2, ?_⟩
  simp only [run, processWithdrawSolFee, bind_ok, acct_ok, sysvar_ok, require_ok, exists_const, ex_unit, validatePda_ok, orErr_ok, tokenOf_ok, Prod.exists]
  exact ⟨au, by rw [hacc]; rfl, kv, by rw [hacc]; rfl, kt, by rw [hacc]; rfl, to, by rw [hacc]; rfl, ks, by rw [hacc]; rfl,
    env.splId, by rw [hacc]; rfl, hsg, s, pn, hl, authorize_ok.2 (.inl hau.symm), _, hls, hva, h.vault.1, hd.owner, hf, v, h.vault.2.1, hb, w1, h1, _,
    by simp [checkedSub, hf], h2⟩

/-- `process_withdraw_ever_fee` on healthy accounts. -/
theorem everFee_live {au ks km kt to : Pubkey} {tok : EverAddress} {s : Settings} {t : TokenSettings} {m : MintAcc} {n : U64}
    (hp : ctx.program = env.tpId) (hne : env.tpId ≠ env.splId) (hs : Ready env w ks s) (h : EverReady env w tok kt km t m)
    (hau : s.manager = au) (hsg : ctx.isSigner au = true) (hacc : ctx.accounts = [au, km, to, kt, ks, env.splId])
    (hwm : ctx.isWritable km = true) (hwd : ctx.isWritable to = true) (hwt : ctx.isWritable kt = true)
    (hd : Mintable env w to km n.toNat) (hf : n.toNat ≤ t.feeSupply.toNat) (hsup : m.supply.toNat + n.toNat < 2 ^ 64) :
    ∃ w', run env ctx cpi (.withdrawEverFee n) w = .ok w' := by
  obtain ⟨pn, pd, hl, -⟩ := loadSettings_live hp hs
  obtain ⟨dd, nn, mn, hls, hkd, hkk, hva⟩ := loadEver_live hp h
  obtain ⟨d, hdd, hdm, hfr, hnat, hda⟩ := hd.data
  obtain ⟨w1, h1, he1, -⟩ := makeEverTransfer_live (t' := t) hp h rfl rfl (by rw [hacc]; simp) (by rw [hacc]; simp) hwm hwd hsup hd.owner hdd hdm hfr
    hnat hda
  obtain ⟨w2, h2, -⟩ := putToken_live (t' := { t with feeSupply := t.feeSupply - n }) hp
    (h.here.eff he1 (notin_pair h.here.1 hne h.mint.1 hd.owner)) hwt rfl rfl rfl rfl
  refine ⟨w2, ?_⟩
  simp only [run, processWithdrawEverFee, bind_ok, acct_ok, sysvar_ok, require_ok, exists_const, ex_unit, validatePda_ok, orErr_ok, Prod.exists]
  exact ⟨au, by rw [hacc]; rfl, km, by rw [hacc]; rfl, to, by rw [hacc]; rfl, kt, by rw [hacc]; rfl, ks, by rw [hacc]; rfl,
    env.splId, by rw [hacc]; rfl, hsg, s, pn, hl, authorize_ok.2 (.inl hau.symm), _, hls, hva, h.mint.1, hd.owner, hf, w1, h1, _,
    by simp [checkedSub, hf], h2⟩

end Verif.TP
