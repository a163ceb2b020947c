import Verif.Props.ClientTP
import Verif.Props.Arith
import Verif.Lemmas.LiveFill
import Verif.Spec.ToyDep
import Verif.Spec.ToyTactic
/-!
# Deposits, requests, cancellations and fills built by the client are accepted

C52 for the instructions that open deposits and withdrawals.
-/
set_option linter.unusedSimpArgs false
set_option maxRecDepth 100000
namespace Verif.Props
open Verif TP Codec Client

variable {env : Env} {ix : Ix} {now : I64} {w w' : World} {cpi : Pubkey → World → Except Err World}

/-- A deposit numbered `seed` can be opened by `f`: its address `dep` is free, `f` can pay for the account and the value sent along, and the
account `kmv` that collects the value can take it. -/
structure NewDeposit (env : Env) (w : World) (f dep kmv : Pubkey) (seed : U128) (value : U64) : Prop where
  hAddr : ∃ n, findAddr env (depositSeeds seed) env.tpId = .ok (dep, n)
  hVacant : Vacant env (w.acc dep)
  hWallet : Wallet env w f (max 1 (env.rent recLen) + value.toNat)
  hRent : env.rent recLen < 2 ^ 64
  hMulti : MultiReady env w kmv
  hRoom : (w.acc kmv).lamports + value.toNat < 2 ^ 64

theorem fee128_spec (f : FeeInfo) (a fee : U128) (h : feeSpec f.multiplier.toNat f.divisor.toNat a.toNat = some fee.toNat) : feeOf128 f a = .ok fee := by
  have hm : ∀ x : U64, (x.setWidth 128 : U128).toNat = x.toNat := fun x => by
    rw [BitVec.toNat_setWidth]; have := x.isLt; exact Nat.mod_eq_of_lt (by omega)
  simp only [feeOf128, bind_ok, orErr_ok, Except.ok.injEq, checkedDiv_some, checkedMul_some, hm]
  unfold feeSpec at h
  split at h
  · cases h
  · rename_i hd
    simp only [Option.some.injEq] at h
    have hlt := fee.isLt
    refine ⟨BitVec.ofNat 128 (a.toNat / f.divisor.toNat), ⟨hd, ?_⟩, BitVec.ofNat 128 (a.toNat / f.divisor.toNat * f.multiplier.toNat), ?_, ?_⟩
    · rw [BitVec.toNat_ofNat]; exact Nat.mod_eq_of_lt (Nat.lt_of_le_of_lt (Nat.div_le_self _ _) a.isLt)
    · rw [BitVec.toNat_ofNat, BitVec.toNat_ofNat, Nat.mod_eq_of_lt (by omega), Nat.mod_eq_of_lt (Nat.lt_of_le_of_lt (Nat.div_le_self _ _) a.isLt)]
    · apply BitVec.eq_of_toNat_eq
      split
      · rename_i h0
        have h0' := congrArg BitVec.toNat h0
        rw [BitVec.toNat_ofNat, Nat.mod_eq_of_lt (by omega)] at h0'
        rw [← h, h0']; rfl
      · rename_i h0
        rw [BitVec.toNat_ofNat, Nat.mod_eq_of_lt (by omega)]
        have : a.toNat / f.divisor.toNat * f.multiplier.toNat ≠ 0 := fun hz => h0 (by rw [hz])
        omega

/-! ## Deposits -/

section Deposit
variable {f au ct dep kmv ks kt kv km mint : Pubkey} {s : Settings} {t : TokenSettings} {v : TokenAcc} {m : MintAcc}
  {seed : U128} {amount fee net value : U64} {recipient : EverAddress} {evers : Pubkey} {payload name symbol : Bytes}

/-- C52: the built deposit of an Everscale token is accepted. The token has `d` decimals on Everscale. -/
theorem C52_tp_depositEver {token : EverAddress} {d : U8} (hd : env.Distinct) (hs : Ready env w ks s) (hse : s.emergency = false)
    (ht : EverReady env w token kt km t m) (hk : t.kind = .ever km token d) (hte : t.emergency = false) (hn : NewDeposit env w f dep kmv seed value)
    (hsp : Spendable env w ct km au amount.toNat) (hnat : ∀ x, (w.acc ct).data = .token x → x.isNative = none) (hsup : amount.toNat ≤ m.supply.toNat)
    (hfee : feeSpec t.feeDepositInfo.multiplier.toNat t.feeDepositInfo.divisor.toNat amount.toNat = some fee.toNat)
    (hnet : net.toNat + fee.toNat = amount.toNat) (hfs : t.feeSupply.toNat + fee.toNat < 2 ^ 64)
    (hdec : d.toNat ≤ m.decimals.toNat + 38 ∧ m.decimals.toNat ≤ d.toNat + 38) (hfits : toEverSpec net.toNat d.toNat m.decimals.toNat < 2 ^ 128)
    (hpl : payload.length ≤ 813)
    (h : TP.Client.depositEverIx env f au ct token seed amount recipient value evers payload = .ok ix) : Accepted env cpi now w ix := by
  obtain ⟨n, pn, pd0, hk0, hsn, hpn⟩ := id hs.addr
  obtain ⟨n2, mn, hk2, htn, hmn⟩ := id ht.addr
  obtain ⟨nd, hdn⟩ := hn.hAddr
  obtain ⟨_, nm, _, _, _, hmv⟩ := hn.hMulti.holds
  simp only [TP.Client.depositEverIx, TP.Client.settingsAddr, TP.Client.mintAddr, TP.Client.multiVaultAddr, TP.Client.tokenSettingsEverAddr,
    TP.Client.depositAddr, bind_ok, addrOf_ok, packed_ok, Except.ok.injEq] at h
  obtain ⟨km', ⟨_, hkm'⟩, ks', ⟨_, hks'⟩, kmv', ⟨_, hkmv'⟩, kt', ⟨_, hkt'⟩, dep', ⟨_, hdep'⟩, _, ⟨hwf, rfl⟩, rfl⟩ := h
  rw [hmn] at hkm'; rw [hsn] at hks'; rw [hmv] at hkmv'; rw [htn] at hkt'; rw [hdn] at hdep'
  cases hkm'; cases hks'; cases hkmv'; cases hkt'; cases hdep'
  unfold Accepted
  rw [process_enc hwf]
  have e : (BitVec.ofNat 128 (toEverSpec net.toNat d.toNat m.decimals.toNat)).toNat = toEverSpec net.toNat d.toNat m.decimals.toNat := by
    rw [BitVec.toNat_ofNat]; exact Nat.mod_eq_of_lt hfits
  exact depositEver_live hd rfl hs hse ht hk hte hn.hMulti rfl (by built) (by built) (by built) (by built) (by built) (by built) (by built) (by built)
    hdn hn.hVacant hn.hWallet hn.hRent hsp hnat hsup ((C20_fee_value _ _ _).2 hfee) hnet hfs
    ((C21_deposit_exact _ _ _ hdec.1 hdec.2 _).2 e) hpl hn.hRoom

theorem depositSol_ctx (hks : IsAddr env env.tpId settingsSeeds ks) (hkt : IsAddr env env.tpId (tokenSettingsSolSeeds mint) kt)
    (hkv : IsAddr env env.tpId (vaultSeeds mint) kv) (hn : NewDeposit env w f dep kmv seed value)
    (h : TP.Client.depositSolIx env f au ct mint seed name symbol amount recipient value evers payload = .ok ix) :
    Instr.codec.wf (.depositMultiTokenSol seed name symbol amount recipient value evers payload) = true ∧
    ix = ⟨env.tpId, [.new f true, .new au true, .new ct false, .new kv false, .new dep false, .new mint false, .new kmv false, .new kt false,
      .readonly ks false, .readonly env.systemId false, .readonly env.splId false, .readonly env.rentId false],
      Instr.codec.enc (.depositMultiTokenSol seed name symbol amount recipient value evers payload)⟩ := by
  obtain ⟨n1, h1⟩ := hks
  obtain ⟨n2, h2⟩ := hkt
  obtain ⟨n3, h3⟩ := hkv
  obtain ⟨nd, hdn⟩ := hn.hAddr
  obtain ⟨_, nm, _, _, _, hmv⟩ := hn.hMulti.holds
  simp only [TP.Client.depositSolIx, TP.Client.settingsAddr, TP.Client.vaultAddr, TP.Client.multiVaultAddr, TP.Client.tokenSettingsSolAddr,
    TP.Client.depositAddr, bind_ok, addrOf_ok, packed_ok, Except.ok.injEq] at h
  obtain ⟨kv', ⟨_, hkv'⟩, ks', ⟨_, hks'⟩, kmv', ⟨_, hkmv'⟩, kt', ⟨_, hkt'⟩, dep', ⟨_, hdep'⟩, _, ⟨hwf, rfl⟩, rfl⟩ := h
  rw [h3] at hkv'; rw [h1] at hks'; rw [hmv] at hkmv'; rw [h2] at hkt'; rw [hdn] at hdep'
  cases hkv'; cases hks'; cases hkmv'; cases hkt'; cases hdep'
  exact ⟨hwf, rfl⟩

/-- C52: the built deposit of a Solana token the bridge knows is accepted. The name and symbol of the call are ignored. -/
theorem C52_tp_depositSol (hd : env.Distinct) (hs : Ready env w ks s) (hse : s.emergency = false)
    (ht : SolReady env w mint kt kv t v) (halive : (w.acc kt).lamports ≠ 0) (hte : t.emergency = false) (hm : (w.acc mint).data = .mint m)
    (hname : name.length ≤ 32) (hsymbol : symbol.length ≤ 32) (hn : NewDeposit env w f dep kmv seed value)
    (hsp : Spendable env w ct mint au amount.toNat) (hlam : (w.acc kv).lamports + amount.toNat < 2 ^ 64)
    (hlim : v.amount.toNat + amount.toNat ≤ t.depositLimit.toNat)
    (hfee : feeSpec t.feeDepositInfo.multiplier.toNat t.feeDepositInfo.divisor.toNat amount.toNat = some fee.toNat)
    (hnet : net.toNat + fee.toNat = amount.toNat) (hfs : t.feeSupply.toNat + fee.toNat < 2 ^ 64)
    (hpl : t.name.length + t.symbol.length + payload.length ≤ 806)
    (h : TP.Client.depositSolIx env f au ct mint seed name symbol amount recipient value evers payload = .ok ix) : Accepted env cpi now w ix := by
  obtain ⟨n, pn, pd0, hk0, hsn, hpn⟩ := id hs.addr
  obtain ⟨n2, vn, hk2, htn, hvn⟩ := id ht.addr
  obtain ⟨nd, hdn⟩ := hn.hAddr
  obtain ⟨hwf, rfl⟩ := depositSol_ctx ⟨_, hsn⟩ ⟨_, htn⟩ ⟨_, hvn⟩ hn h
  unfold Accepted
  rw [process_enc hwf]
  exact depositSol_live hd rfl hs hse hname hsymbol (by rw [deployOnce, if_neg halive]) ht hte hm hn.hMulti rfl (by built) (by built) (by built) (by built)
    (by built) (by built) (by built) (by built) hdn hn.hVacant hn.hWallet hn.hRent hsp hlam hlim ((C20_fee_value _ _ _).2 hfee) hnet hfs hpl hn.hRoom

/-- C52: the first deposit of a Solana token is accepted too, and registers the token under the given name and symbol. -/
theorem C52_tp_depositSol_first (hd : env.Distinct) (hs : Ready env w ks s) (hse : s.emergency = false) (hm : (w.acc mint).data = .mint m)
    (hkt : IsAddr env env.tpId (tokenSettingsSolSeeds mint) kt) (hkv : IsAddr env env.tpId (vaultSeeds mint) kv)
    (hvt : Vacant env (w.acc kt)) (hvv : Vacant env (w.acc kv)) (hdiff : kv ≠ kt ∧ dep ≠ kt ∧ dep ≠ kv)
    (hname : name.length ≤ 32) (hsymbol : symbol.length ≤ 32) (hn : NewDeposit env w f dep kmv seed value)
    (hwal : Wallet env w f (max 1 (env.rent 165) + max 1 (env.rent recLen) + (max 1 (env.rent recLen) + value.toNat)))
    (hroom : max 1 (env.rent 165) + amount.toNat < 2 ^ 64)
    (hsp : Spendable env w ct mint au amount.toNat)
    (hfee : feeSpec 5 10000 amount.toNat = some fee.toNat) (hnet : net.toNat + fee.toNat = amount.toNat)
    (hpl : name.length + symbol.length + payload.length ≤ 806)
    (h : TP.Client.depositSolIx env f au ct mint seed name symbol amount recipient value evers payload = .ok ix) : Accepted env cpi now w ix := by
  obtain ⟨n, pn, pd0, hk0, hsn, hpn⟩ := id hs.addr
  obtain ⟨nt, htn⟩ := id hkt
  obtain ⟨nv, hvn⟩ := id hkv
  obtain ⟨nd, hdn⟩ := hn.hAddr
  obtain ⟨hwf, rfl⟩ := depositSol_ctx ⟨_, hsn⟩ hkt hkv hn h
  unfold Accepted
  rw [process_enc hwf]
  have hu : validUtf8 name = true ∧ validUtf8 symbol = true := by
    have a := (C46_token_proxy_wf _).1 hwf
    exact ⟨a.1.2, a.2.1.2⟩
  obtain ⟨w0, h0, e0, hr0, lv0, l0⟩ := deploySol_live (env := env) (w := w) (f := f) (kv := kv) (kt := kt) (mint := mint) (name := name) (symbol := symbol)
    (ctx := Ix.ctx ⟨env.tpId, [.new f true, .new au true, .new ct false, .new kv false, .new dep false, .new mint false, .new kmv false, .new kt false,
      .readonly ks false, .readonly env.systemId false, .readonly env.splId false, .readonly env.rentId false],
      Instr.codec.enc (.depositMultiTokenSol seed name symbol amount recipient value evers payload)⟩ now) rfl hdiff.1 hvn htn hname hsymbol hu.1 hu.2
    (by built) (by built) (by built) (by built) (by built) (by built) (by built) hvv hvt ⟨m, hm⟩ (hwal.eff (Eff.refl [] w) (by simp) (by have := hwal.rich; omega))
    (by omega) hn.hRent
  have f_kv : f ≠ kv := by rintro rfl; have := hwal.rich; have := hvv.1; omega
  have f_kt : f ≠ kt := by rintro rfl; have := hwal.rich; have := hvt.1; omega
  have f_dep : f ≠ dep := by rintro rfl; have := hwal.rich; have := hn.hVacant.1; omega
  have mo := hn.hMulti.owner
  have mv_kv : kmv ≠ kv := ne_of_owner mo hvv.2.2 hd.tpSys
  have mv_kt : kmv ≠ kt := ne_of_owner mo hvt.2.2 hd.tpSys
  have mv_f : kmv ≠ f := ne_of_owner mo hwal.system hd.tpSys
  have ct_kv : ct ≠ kv := ne_of_owner hsp.owner hvv.2.2 hd.sysSpl.symm
  have ct_kt : ct ≠ kt := ne_of_owner hsp.owner hvt.2.2 hd.sysSpl.symm
  have ct_f : ct ≠ f := ne_of_owner hsp.owner hwal.system hd.sysSpl.symm
  have m_kv : mint ≠ kv := by rintro rfl; have := hvv.2.1; rw [hm] at this; simp [Data.len] at this
  have m_kt : mint ≠ kt := by rintro rfl; have := hvt.2.1; rw [hm] at this; simp [Data.len] at this
  have lmv := l0 kmv mv_kv mv_kt
  rw [if_neg mv_f] at lmv
  have ldep := l0 dep hdiff.2.2 hdiff.2.1
  rw [if_neg f_dep.symm] at ldep
  have lct := l0 ct ct_kv ct_kt
  rw [if_neg ct_f] at lct
  have edep := e0 dep (by simp [hdiff.2.1, hdiff.2.2])
  have ect := e0 ct (by simp [ct_kv, ct_kt])
  have hz : (0#64).toNat = 0 := rfl
  have hfr : (freshToken env mint kv (max 1 (env.rent 165))).amount.toNat ≤ 1 := by
    simp only [freshToken]
    split
    · rw [BitVec.toNat_ofNat]
      exact Nat.le_trans (Nat.mod_le _ _) (by omega)
    · simp
  refine depositSol_live (w0 := w0) hd rfl hs hse hname hsymbol (by rw [deployOnce, if_pos hvt.1]; exact h0) hr0 rfl (by rw [(e0 mint (by simp [m_kv, m_kt])).1]; exact hm)
    (hn.hMulti.eff e0 (by simp [mv_kv, mv_kt])) rfl (by built) (by built) (by built) (by built)
    (by built) (by built) (by built) (by built) hdn ?_ ?_ hn.hRent (hsp.same ect.1 ect.2 lct) (by rw [lv0]; exact hroom) ?_
    ((C20_fee_value FeeInfo.default _ _).2 hfee) hnet ?_ hpl (by rw [lmv]; exact hn.hRoom)
  · show Vacant env (w0.acc dep)
    exact ⟨by rw [ldep]; have := hn.hVacant.1; omega, by rw [edep.1]; exact hn.hVacant.2.1, by rw [edep.2]; exact hn.hVacant.2.2⟩
  · refine hwal.eff e0 (by simp [f_kv, f_kt]) ?_
    rw [l0 f f_kv f_kt, if_pos rfl]
    have := hwal.rich; omega
  · have hl : (freshTokenSettings nt nv (.solana mint kv) name symbol).depositLimit.toNat = 2 ^ 64 - 1 := BitVec.toNat_allOnes
    rw [hl]
    have := Nat.le_max_left 1 (env.rent 165)
    omega
  · have hl : (freshTokenSettings nt nv (.solana mint kv) name symbol).feeSupply.toNat = 0 := rfl
    rw [hl]
    have := fee.isLt
    omega

/-- C52: the built cancellation is accepted from the author of a pending withdrawal. -/
theorem C52_tp_cancel {k : Pubkey} {r : Withdrawal WSolEvent} {fee net : U128} (hd : env.Distinct) (hs : Ready env w ks s) (hse : s.emergency = false)
    (ht : SolReady env w mint kt kv t v) (hte : t.emergency = false) (hm : (w.acc mint).data = .mint m) (hn : NewDeposit env w f dep kmv seed value)
    (hw : WdReady wSolEventC env w k r) (hst : r.md.status = .pending) (hau : r.author = au) (hmi : r.event.mint = mint)
    (hfee : feeSpec t.feeDepositInfo.multiplier.toNat t.feeDepositInfo.divisor.toNat r.event.amount.toNat = some fee.toNat)
    (hfs : t.feeSupply.toNat + fee.toNat < 2 ^ 64) (hnet : net.toNat + fee.toNat = r.event.amount.toNat)
    (hpl : t.name.length + t.symbol.length + payload.length ≤ 806)
    (h : TP.Client.cancelIx env f au k mint seed recipient value evers payload = .ok ix) : Accepted env cpi now w ix := by
  obtain ⟨n, pn, pd0, hk0, hsn, hpn⟩ := id hs.addr
  obtain ⟨n2, vn, hk2, htn, hvn⟩ := id ht.addr
  obtain ⟨nd, hdn⟩ := hn.hAddr
  obtain ⟨_, nm, _, _, _, hmv⟩ := hn.hMulti.holds
  simp only [TP.Client.cancelIx, TP.Client.settingsAddr, TP.Client.multiVaultAddr, TP.Client.tokenSettingsSolAddr,
    TP.Client.depositAddr, bind_ok, addrOf_ok, packed_ok, Except.ok.injEq] at h
  obtain ⟨ks', ⟨_, hks'⟩, kmv', ⟨_, hkmv'⟩, dep', ⟨_, hdep'⟩, kt', ⟨_, hkt'⟩, _, ⟨hwf, rfl⟩, rfl⟩ := h
  rw [hsn] at hks'; rw [hmv] at hkmv'; rw [htn] at hkt'; rw [hdn] at hdep'
  cases hks'; cases hkmv'; cases hkt'; cases hdep'
  unfold Accepted
  rw [process_enc hwf]
  exact cancel_live hd rfl hs hse ht hte hm hn.hMulti hw hst hau hmi rfl (by built) (by built) (by built) (by built) (by built) (by built)
    hdn hn.hVacant hn.hWallet hn.hRent (fee128_spec _ _ _ hfee) hfs hnet hpl hn.hRoom

/-- A pending withdrawal that can be filled: `x.fee` is what the fill charges for it, `x.pay` what its recipient gets, at the account `x.to`
which the client derives from the recipient. -/
structure CanFill (env : Env) (w : World) (mint kv : Pubkey) (f : FeeInfo) (amount : Nat) (x : FillItem) : Prop where
  hWd : WdReady wSolEventC env w x.k x.r
  hPending : x.r.md.status = .pending
  hMint : x.r.event.mint = mint
  hTo : IsAddr env env.ataId (ataSeeds env x.r.event.recipient mint) x.to
  hHeld : ∃ d, (w.acc x.to).data = .token d ∧ d.owner = x.r.event.recipient
  hRoom : Payable env w x.to mint amount
  hVault : x.to ≠ kv
  hFee : feeSpec f.multiplier.toNat f.divisor.toNat x.r.event.amount.toNat = some x.fee.toNat
  hNet : x.net.toNat + x.fee.toNat = x.r.event.amount.toNat
  hSmall : x.r.event.amount.toNat < 2 ^ 64
  hPay : x.pay.toNat + x.r.md.bounty.toNat = x.net.toNat

theorem CanFill.good {f : FeeInfo} {n : Nat} {x : FillItem} (h : CanFill env w mint kv f n x) : x.Good env w mint f :=
  ⟨h.hWd, h.hPending, h.hMint, h.hHeld, (C20_fee_value _ _ _).2 (by
    rw [BitVec.toNat_setWidth, Nat.mod_eq_of_lt h.hSmall]; exact h.hFee), h.hNet, h.hSmall, h.hPay⟩

private def itemMetas : List FillItem → List Meta
  | [] => []
  | x :: xs => Meta.new x.k false :: Meta.new x.to false :: itemMetas xs

private theorem fillMetas_eq {f : FeeInfo} {n : Nat} : ∀ {xs : List FillItem}, (∀ x ∈ xs, CanFill env w mint kv f n x) →
    ∀ {l : List Meta}, TP.Client.fillMetas env mint (xs.map fun x => (x.k, x.r.event.recipient)) = .ok l → l = itemMetas xs
  | [], _, _, h => by cases h; rfl
  | x :: xs, hx, l, h => by
    simp only [List.map_cons, TP.Client.fillMetas, ataAddr, bind_ok, addrOf_ok, Except.ok.injEq] at h
    obtain ⟨to', ⟨_, hto'⟩, l', hl', rfl⟩ := h
    obtain ⟨n, hto⟩ := (hx x (by simp)).hTo
    rw [hto] at hto'
    cases hto'
    rw [fillMetas_eq (fun y hy => hx y (by simp [hy])) hl']
    rfl

private theorem itemMetas_keys (xs : List FillItem) : (itemMetas xs).map (·.key) = fillKeys xs := by
  induction xs with
  | nil => rfl
  | cons x xs ih => simp [itemMetas, fillKeys, ih, Meta.new]

private theorem itemMetas_mem {xs : List FillItem} {x : FillItem} (h : x ∈ xs) : Meta.new x.k false ∈ itemMetas xs ∧ Meta.new x.to false ∈ itemMetas xs := by
  induction xs with
  | nil => cases h
  | cons y ys ih =>
    cases h with
    | head => simp [itemMetas]
    | tail _ h => have := ih h; simp [itemMetas, this.1, this.2]

/-- C52: the built fill of any number of pending withdrawals is accepted, if the caller names the vault. -/
theorem C52_tp_fill {xs : List FillItem} (hd : env.Distinct) (hs : Ready env w ks s) (hse : s.emergency = false)
    (ht : SolReady env w mint kt kv t v) (hte : t.emergency = false) (hm : (w.acc mint).data = .mint m) (hn : NewDeposit env w f dep kmv seed value)
    (hct : IsAddr env env.ataId (ataSeeds env au mint) ct) (hcv : ct ≠ kv) (hsp : Spendable env w ct mint au amount.toNat)
    (hxs : ∀ x ∈ xs, CanFill env w mint kv t.feeWithdrawalInfo amount.toNat x) (hnd : (xs.map (·.k)).Nodup)
    (hsum : (xs.map (·.r.event.amount.toNat)).sum ≤ amount.toNat)
    (hlam : (w.acc kv).lamports + amount.toNat < 2 ^ 64) (hlim : v.amount.toNat + amount.toNat ≤ t.depositLimit.toNat)
    (hfee : feeSpec t.feeWithdrawalInfo.multiplier.toNat t.feeWithdrawalInfo.divisor.toNat amount.toNat = some fee.toNat)
    (hnet : net.toNat + fee.toNat = amount.toNat) (hpl : t.name.length + t.symbol.length + payload.length ≤ 806)
    (h : TP.Client.fillIx env f au mint seed recipient amount (xs.map fun x => (x.k, x.r.event.recipient)) (some kv) value evers payload = .ok ix) :
    Accepted env cpi now w ix := by
  obtain ⟨n, pn, pd0, hk0, hsn, hpn⟩ := id hs.addr
  obtain ⟨n2, vn, hk2, htn, hvn⟩ := id ht.addr
  obtain ⟨nd, hdn⟩ := hn.hAddr
  obtain ⟨_, nm, _, _, _, hmv⟩ := hn.hMulti.holds
  obtain ⟨nc, hcn⟩ := hct
  simp only [TP.Client.fillIx, TP.Client.settingsAddr, TP.Client.multiVaultAddr, TP.Client.tokenSettingsSolAddr, ataAddr,
    TP.Client.depositAddr, bind_ok, addrOf_ok, packed_ok, Except.ok.injEq] at h
  obtain ⟨ct', ⟨_, hct'⟩, ks', ⟨_, hks'⟩, kmv', ⟨_, hkmv'⟩, dep', ⟨_, hdep'⟩, kt', ⟨_, hkt'⟩, _, ⟨hwf, rfl⟩, l, hl, rfl⟩ := h
  rw [hcn] at hct'; rw [hsn] at hks'; rw [hmv] at hkmv'; rw [htn] at hkt'; rw [hdn] at hdep'
  cases hct'; cases hks'; cases hkmv'; cases hkt'; cases hdep'
  obtain rfl := fillMetas_eq hxs hl
  unfold Accepted
  rw [process_enc hwf]
  refine fill_live (xs := xs) hd rfl hs hse ht hte hm hn.hMulti ?_ (by built) (by built) (by built) (by built) (by built) (by built) (by built) ?_
    hdn hn.hVacant hn.hWallet hn.hRent (fun x hx => (hxs x hx).good) hnd (fun x hx => (hxs x hx).hVault) hcv (fun x hx => (hxs x hx).hRoom) hsum hsp hlam hlim
    ((C20_fee_value _ _ _).2 hfee) hnet hpl hn.hRoom
  · simp [Ix.ctx, itemMetas_keys, Meta.new, Meta.readonly]
  · intro x hx
    have := itemMetas_mem hx
    have hin : ∀ {y : Meta} {a b : List Meta}, y ∈ itemMetas xs → y ∈ a ++ itemMetas xs ++ b := fun h => List.mem_append_left _ (List.mem_append_right _ h)
    constructor
    · simp only [Ix.ctx, Ctx.isWritable, Bool.and_eq_true, List.contains_iff_mem, List.mem_map, List.mem_filter]
      exact ⟨⟨_, hin this.1, rfl⟩, _, ⟨hin this.1, rfl⟩, rfl⟩
    · simp only [Ix.ctx, Ctx.isWritable, Bool.and_eq_true, List.contains_iff_mem, List.mem_map, List.mem_filter]
      exact ⟨⟨_, hin this.2, rfl⟩, _, ⟨hin this.2, rfl⟩, rfl⟩

private theorem fillMetas_even : ∀ {pairs : List (Pubkey × Pubkey)} {l : List Meta}, TP.Client.fillMetas env mint pairs = .ok l → l.length % 2 = 0
  | [], _, h => by cases h; rfl
  | (a, b) :: rest, l, h => by
    simp only [TP.Client.fillMetas, bind_ok, Except.ok.injEq] at h
    obtain ⟨_, _, l', hl', rfl⟩ := h
    have := fillMetas_even hl'
    simp only [List.length_cons]
    omega

private theorem fillLoop_even {ctx : Ctx} {dep : Pubkey} {t : SolToken} : ∀ {l rest : List Pubkey} {fs sm fs' sm' : U64} {w w1 : World}, l.length % 2 = 0 →
    fillLoop env ctx au ct dep t l fs sm w = .ok (rest, fs', sm', w1) → rest = []
  | [], _, _, _, _, _, _, _, _, h => by cases h; rfl
  | [_], _, _, _, _, _, _, _, hl, _ => by simp at hl
  | a :: b :: l, _, _, _, _, _, _, _, hl, h => by
    simp only [fillLoop, bind_ok, Prod.exists] at h
    obtain ⟨_, _, _, _, h⟩ := h
    exact fillLoop_even (by simp only [List.length_cons] at hl; omega) h

/-- C52 fails for a fill built without the vault, which the builder allows: no account is left to play the vault and the program rejects it. -/
theorem C52_fill_needs_vault {pairs : List (Pubkey × Pubkey)}
    (h : TP.Client.fillIx env f au mint seed recipient amount pairs none value evers payload = .ok ix) :
    ¬ Accepted env cpi now w ix := by
  simp only [TP.Client.fillIx, TP.Client.settingsAddr, TP.Client.multiVaultAddr, TP.Client.tokenSettingsSolAddr, ataAddr,
    TP.Client.depositAddr, bind_ok, addrOf_ok, packed_ok, Except.ok.injEq] at h
  obtain ⟨ct', -, ks', -, kmv', -, dep', -, kt', -, _, ⟨hwf, rfl⟩, l, hl, rfl⟩ := h
  rintro ⟨w', h⟩
  rw [process_enc hwf] at h
  simp only [run, processFill, bind_ok, acct_ok, sysvar_ok, require_ok, exists_const, ex_unit, Prod.exists, orErr_ok] at h
  obtain ⟨_, _, _, _, _, _, _, _, _, _, _, _, _, _, _, _, _, _, _, _, _, _, _, _, _, _, _, _, _, _, _, _, _, _, _, _, _, _, _, _, _, _, hl2, _, _, _, _, hr, _⟩ := h
  have := fillLoop_even (by
    have := fillMetas_even hl
    simp only [Ix.ctx, List.length_drop, List.length_map, List.length_append, List.length_cons, List.length_nil, Option.toList]
    omega) hl2
  rw [this] at hr
  cases hr

end Deposit

/-! ## On the toy chain -/

theorem toy_newDeposit {w : World} {n : U128} {value : U64} (hv : Toy.isVacant w (Toy.tpDep n) = true)
    (hw : Toy.isWallet w Toy.funder (max 1 (Toy.env.rent recLen) + value.toNat) = true)
    (h : Toy.tchk multiVaultC (fun s => s.isInitialized && Toy.kindMulti s.accountKind) w Toy.tpMulti = true)
    (hr : Nat.blt ((w.acc Toy.tpMulti).lamports + value.toNat) (2 ^ 64) = true) : NewDeposit Toy.env w Toy.funder (Toy.tpDep n) Toy.tpMulti n value :=
  ⟨⟨_, Toy.findAddr_eq _ _⟩, Toy.vacant hv, Toy.wallet hw, by decide, Toy.tp_multi h, Nat.le_of_ble_eq_true hr⟩

def mintThere (w : World) (k : Pubkey) : Bool := match (w.acc k).data with
  | .mint _ => true
  | _ => false

theorem mintThere_ok {w : World} {k : Pubkey} (h : mintThere w k = true) : ∃ m, (w.acc k).data = .mint m := by
  unfold mintThere at h
  split at h
  · exact ⟨_, by assumption⟩
  · cases h

private def plainToken (w : World) (k : Pubkey) : Bool := match (w.acc k).data with
  | .token x => x.isNative.isNone
  | _ => false

private theorem plainToken_ok {w : World} {k : Pubkey} (h : plainToken w k = true) (x : TokenAcc) (hx : (w.acc k).data = .token x) : x.isNative = none := by
  rw [plainToken, hx] at h
  simpa using h

set_option maxHeartbeats 1000000 in
/-- bob deposits 20000 of the star token -/
example : ∃ ix, TP.Client.depositEverIx Toy.env Toy.funder Toy.bob Toy.bobStar Toy.star 4 20000 Toy.home 7 0 [] = .ok ix ∧
    Accepted Toy.env noCpi 1000 (Toy.get Toy.tpPaidE) ix := by
  obtain ⟨ix, h⟩ := Toy.ix (r := TP.Client.depositEverIx Toy.env Toy.funder Toy.bob Toy.bobStar Toy.star 4 20000 Toy.home 7 0 []) ?_
  obtain ⟨s, hs, hP1⟩ := Toy.tp_ready (P := fun s => !s.emergency) (w := Toy.get Toy.tpPaidE) ?_
  obtain ⟨t, m, ht, hP2, hQ⟩ := Toy.tp_ever (P := fun t => !t.emergency && (Toy.feeIs t.feeDepositInfo 5 10000 && (Nat.blt (t.feeSupply.toNat + 10) (2 ^ 64) &&
      match t.kind with | .ever _ _ d => Nat.beq d.toNat 9 | _ => false))) (Q := fun m => Nat.ble 20000 m.supply.toNat && Nat.beq m.decimals.toNat 9)
    (w := Toy.get Toy.tpPaidE) ?_ ?_
  simp only [Bool.and_eq_true, Bool.not_eq_true'] at hP1 hP2 hQ
  obtain ⟨d, hk⟩ := ht.kind
  rw [hk] at hP2
  have hd9 : d.toNat = 9 := Nat.eq_of_beq_eq_true hP2.2.2.2
  have hm9 : m.decimals.toNat = 9 := Nat.eq_of_beq_eq_true hQ.2
  obtain ⟨f1, f2⟩ := Toy.feeIs_eq hP2.2.1
  obtain hn : NewDeposit Toy.env (Toy.get Toy.tpPaidE) Toy.funder (Toy.tpDep 4) Toy.tpMulti 4 7 :=
    toy_newDeposit ?_ ?_ ?_ ?_
  obtain hsp : Spendable Toy.env (Toy.get Toy.tpPaidE) Toy.bobStar Toy.starMint Toy.bob (20000#64).toNat := Toy.spendable ?_
  have hfit : toEverSpec (19990#64).toNat 9 9 < 2 ^ 128 := by decide
  refine ⟨ix, h, C52_tp_depositEver (amount := 20000) (value := 7) (seed := 4) (payload := []) (fee := 10) (net := 19990) Toy.distinct hs hP1 ht hk hP2.1 hn hsp
    (plainToken_ok ?_) (Nat.le_of_ble_eq_true hQ.1) (by rw [f1, f2]; rfl) rfl (Nat.le_of_ble_eq_true hP2.2.2.1)
    (by rw [hd9, hm9]; omega) (by rw [hd9, hm9]; exact hfit) (by decide) h⟩
  checked

/-- alice deposits gold again -/
example : ∃ ix, TP.Client.depositSolIx Toy.env Toy.funder Toy.alice Toy.aliceGold Toy.gold 2 (ascii "Other") (ascii "O") 20000 Toy.home 7 0 [1] = .ok ix ∧
    Accepted Toy.env noCpi 1000 (Toy.get Toy.tpDeposited) ix := by
  obtain ⟨ix, h⟩ := Toy.ix (r := TP.Client.depositSolIx Toy.env Toy.funder Toy.alice Toy.aliceGold Toy.gold 2 (ascii "Other") (ascii "O") 20000 Toy.home 7 0 [1])
    ?_
  obtain ⟨s, hs, hP1⟩ := Toy.tp_ready (P := fun s => !s.emergency) (w := Toy.get Toy.tpDeposited) ?_
  obtain ⟨t, v, ht, hP2, hQ⟩ := Toy.tp_sol (P := fun t => !t.emergency && (Toy.feeIs t.feeDepositInfo 5 10000 && (Nat.blt (t.feeSupply.toNat + 10) (2 ^ 64) &&
      (Nat.ble 100000 t.depositLimit.toNat && Nat.ble (t.name.length + t.symbol.length + 1) 806)))) (Q := fun v => Nat.ble v.amount.toNat 80000)
    (w := Toy.get Toy.tpDeposited) ?_ ?_
  obtain ⟨m, hm⟩ := mintThere_ok (w := Toy.get Toy.tpDeposited) (k := Toy.gold) ?_
  simp only [Bool.and_eq_true, Bool.not_eq_true'] at hP1 hP2
  obtain ⟨f1, f2⟩ := Toy.feeIs_eq hP2.2.1
  refine ⟨ix, h, C52_tp_depositSol (amount := 20000) (value := 7) (seed := 2) (payload := [1]) (fee := 10) (net := 19990) Toy.distinct hs hP1 ht (Nat.ne_of_beq_eq_false ?_) hP2.1 hm (by decide) (by decide)
    (toy_newDeposit ?_ ?_ ?_ ?_) (Toy.spendable ?_)
    (Nat.le_of_ble_eq_true ?_) (Nat.le_trans (Nat.add_le_add_right (Nat.le_of_ble_eq_true hQ) _) (Nat.le_of_ble_eq_true hP2.2.2.2.1))
    (by rw [f1, f2]; rfl) rfl (Nat.le_of_ble_eq_true hP2.2.2.1) (Nat.le_of_ble_eq_true hP2.2.2.2.2) h⟩
  checked

/-- the first deposit of gold -/
example : ∃ ix, TP.Client.depositSolIx Toy.env Toy.funder Toy.alice Toy.aliceGold Toy.gold 1 (ascii "Gold") (ascii "GLD") 50000 Toy.home 7 0 [] = .ok ix ∧
    Accepted Toy.env noCpi 1000 (Toy.get Toy.tpInit) ix := by
  obtain ⟨ix, h⟩ := Toy.ix (r := TP.Client.depositSolIx Toy.env Toy.funder Toy.alice Toy.aliceGold Toy.gold 1 (ascii "Gold") (ascii "GLD") 50000 Toy.home 7 0 [])
    ?_
  obtain ⟨s, hs, hP1⟩ := Toy.tp_ready (P := fun s => !s.emergency) (w := Toy.get Toy.tpInit) ?_
  obtain ⟨m, hm⟩ := mintThere_ok (w := Toy.get Toy.tpInit) (k := Toy.gold) ?_
  simp only [Bool.not_eq_true'] at hP1
  refine ⟨ix, h, C52_tp_depositSol_first (kt := Toy.tpGold) (kv := Toy.tpVault) (fee := 25) (net := 49975) Toy.distinct hs hP1 hm ⟨_, Toy.findAddr_eq _ _⟩ ⟨_, Toy.findAddr_eq _ _⟩
    (Toy.vacant ?_) (Toy.vacant ?_)
    ⟨Toy.same_ne ?_, Toy.same_ne ?_, Toy.same_ne ?_⟩ (by decide) (by decide)
    (toy_newDeposit ?_ ?_ ?_ ?_) (Toy.wallet ?_) (by decide)
    (Toy.spendable ?_) rfl rfl (by decide) h⟩
  checked

/-- alice cancels the withdrawal of 90000 gold -/
example : ∃ ix, TP.Client.cancelIx Toy.env Toy.funder Toy.alice Toy.wd2 Toy.gold 2 Toy.home 7 0 [] = .ok ix ∧
    Accepted Toy.env noCpi 1000 (Toy.get Toy.tpPending) ix := by
  obtain ⟨ix, h⟩ := Toy.ix (r := TP.Client.cancelIx Toy.env Toy.funder Toy.alice Toy.wd2 Toy.gold 2 Toy.home 7 0 []) ?_
  obtain ⟨s, hs, hP1⟩ := Toy.tp_ready (P := fun s => !s.emergency) (w := Toy.get Toy.tpPending) ?_
  obtain ⟨t, v, ht, hP2, hQ⟩ := Toy.tp_sol (P := fun t => !t.emergency && (Toy.feeIs t.feeDepositInfo 5 10000 && (Nat.blt (t.feeSupply.toNat + 45) (2 ^ 64) &&
      Nat.ble (t.name.length + t.symbol.length + 0) 806))) (Q := fun _ => true)
    (w := Toy.get Toy.tpPending) ?_ ?_
  obtain ⟨r, hr, hP3⟩ := Toy.tp_wd (ec := wSolEventC) (P := fun r => Toy.same r.event.mint Toy.gold && (Toy.same r.author Toy.alice &&
    (Nat.beq r.event.amount.toNat 90000 && decide (r.md.status = .pending)))) (w := Toy.get Toy.tpPending) (k := Toy.wd2) ?_
  obtain ⟨m, hm⟩ := mintThere_ok (w := Toy.get Toy.tpPending) (k := Toy.gold) ?_
  simp only [Bool.and_eq_true, Bool.not_eq_true', decide_eq_true_eq] at hP1 hP2 hP3
  obtain ⟨f1, f2⟩ := Toy.feeIs_eq hP2.2.1
  have ha : r.event.amount.toNat = 90000 := Nat.eq_of_beq_eq_true hP3.2.2.1
  refine ⟨ix, h, C52_tp_cancel (value := 7) (seed := 2) (payload := []) (fee := 45) (net := 89955) Toy.distinct hs hP1 ht hP2.1 hm
    (toy_newDeposit ?_ ?_ ?_ ?_) hr hP3.2.2.2 (Toy.same_eq hP3.2.1) (Toy.same_eq hP3.1)
    (by rw [f1, f2, ha]; rfl) (Nat.le_of_ble_eq_true hP2.2.2.1) (by rw [ha]; rfl) (Nat.le_of_ble_eq_true hP2.2.2.2) h⟩
  checked

/-! ### A fill from and to associated token accounts -/
private def ataOf (who : Pubkey) : Pubkey := Toy.addr (ataSeeds Toy.env who Toy.gold) Toy.env.ataId

/-- carol and bob hold gold in their associated token accounts -/
private def ataWorld : World :=
  ((Toy.get Toy.tpBounty).set (ataOf Toy.carol) ⟨2000, Toy.env.splId, .token ⟨Toy.gold, Toy.carol, 100000, none, false, none, 0, none⟩⟩).set
    (ataOf Toy.bob) ⟨2000, Toy.env.splId, .token ⟨Toy.gold, Toy.bob, 0, none, false, none, 0, none⟩⟩

/-- carol fills the withdrawal of 90000 gold, with a bounty of 100 -/
example : ∃ ix, TP.Client.fillIx Toy.env Toy.funder Toy.carol Toy.gold 3 Toy.home 95000 [(Toy.wd2, Toy.bob)] (some Toy.tpVault) 7 0 [] = .ok ix ∧
    Accepted Toy.env noCpi 1000 ataWorld ix := by
  obtain ⟨ix, h⟩ := Toy.ix (r := TP.Client.fillIx Toy.env Toy.funder Toy.carol Toy.gold 3 Toy.home 95000 [(Toy.wd2, Toy.bob)] (some Toy.tpVault) 7 0 []) ?_
  obtain ⟨s, hs, hP1⟩ := Toy.tp_ready (P := fun s => !s.emergency) (w := ataWorld) ?_
  obtain ⟨t, v, ht, hP2, hQ⟩ := Toy.tp_sol (P := fun t => !t.emergency && (Toy.feeIs t.feeWithdrawalInfo 5 10000 && (
      Nat.ble 200000 t.depositLimit.toNat && Nat.ble (t.name.length + t.symbol.length + 0) 806))) (Q := fun v => Nat.ble v.amount.toNat 100000)
    (w := ataWorld) ?_ ?_
  obtain ⟨r, hr, hP3⟩ := Toy.tp_wd (ec := wSolEventC) (P := fun r => Toy.same r.event.mint Toy.gold && (Toy.same r.event.recipient Toy.bob &&
    (Nat.beq r.event.amount.toNat 90000 && (Nat.beq r.md.bounty.toNat 100 && decide (r.md.status = .pending))))) (w := ataWorld) (k := Toy.wd2) ?_
  obtain ⟨m, hm⟩ := mintThere_ok (w := ataWorld) (k := Toy.gold) ?_
  simp only [Bool.and_eq_true, Bool.not_eq_true', decide_eq_true_eq] at hP1 hP2 hP3
  obtain ⟨f1, f2⟩ := Toy.feeIs_eq hP2.2.1
  have ha : r.event.amount.toNat = 90000 := Nat.eq_of_beq_eq_true hP3.2.2.1
  have hb : r.md.bounty.toNat = 100 := Nat.eq_of_beq_eq_true hP3.2.2.2.1
  have hbob : r.event.recipient = Toy.bob := Toy.same_eq hP3.2.1
  obtain hholds := Toy.reaches (kind := .deposit 0) (mint := Toy.gold) (w := ataWorld) (to := ataOf Toy.bob) (who := Toy.bob) ?_
  obtain ⟨-, hholds⟩ | ⟨hne, -⟩ := hholds
  rotate_left
  · exact (hne rfl).elim
  obtain hpay := Toy.payable (w := ataWorld) (k := ataOf Toy.bob) (mint := Toy.gold) (n := (95000#64).toNat) ?_
  obtain hnv := Toy.same_ne (a := ataOf Toy.bob) (b := Toy.tpVault) ?_
  have hcan : CanFill Toy.env ataWorld Toy.gold Toy.tpVault t.feeWithdrawalInfo (95000#64).toNat ⟨Toy.wd2, ataOf Toy.bob, r, 45, 89955, 89855⟩ :=
    ⟨hr, hP3.2.2.2.2, Toy.same_eq hP3.1, ⟨_, by rw [hbob]; exact Toy.findAddr_eq _ _⟩, by rw [hbob]; exact hholds, hpay, hnv,
      by rw [f1, f2, ha]; rfl, by rw [ha]; rfl, by rw [ha]; decide, by rw [hb]; rfl⟩
  refine ⟨ix, h, C52_tp_fill (xs := [⟨Toy.wd2, ataOf Toy.bob, r, 45, 89955, 89855⟩]) (ct := ataOf Toy.carol) (amount := 95000) (value := 7) (seed := 3) (payload := [])
    (fee := 45) (net := 94955) Toy.distinct hs hP1 ht hP2.1 hm (toy_newDeposit ?_ ?_ ?_ ?_) ⟨_, Toy.findAddr_eq _ _⟩ (Toy.same_ne ?_)
    (Toy.spendable ?_) (fun x hx => by rw [List.mem_singleton.1 hx]; exact hcan) (by simp) (by simp [ha]) (Nat.le_of_ble_eq_true ?_)
    (Nat.le_trans (Nat.add_le_add_right (Nat.le_of_ble_eq_true hQ) _) (Nat.le_trans (by decide) (Nat.le_of_ble_eq_true hP2.2.2.1)))
    (by rw [f1, f2]; rfl) rfl (Nat.le_of_ble_eq_true hP2.2.2.2) (by simpa only [List.map_cons, List.map_nil, hbob] using h)⟩
  checked

end Verif.Props
