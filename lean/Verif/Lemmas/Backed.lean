import Verif.Lemmas.DailyAll
import Verif.Spec.Backed
/-!
# What may exist of an Everscale token: the withdrawals that wait
-/
namespace Verif.TP
open Codec Verif

variable {env : Env} {L : Pubkey → Prop} {ctx : Ctx} {w w' w0 : World} {k kt km : Pubkey} {i : Instr} {fi : FeeInfo} {dec : U8} {e : Ev}
  {token : EverAddress}

/-- What a withdrawal of `token` with the event `ev` mints, without the fee. -/
def EverNet (token : EverAddress) (fi : FeeInfo) (dec : U8) (ev : Bytes) (n : Nat) : Prop :=
  ∃ x amount fee, wEverEventC.wf x = true ∧ wEverEventC.enc x = ev ∧ x.token = token ∧
    getWithdrawalAmount x.amount x.decimals dec = .ok amount ∧ feeOf fi amount = .ok fee ∧ n + fee.toNat = amount.toNat

theorem EverNet.unique {ev : Bytes} {n m : Nat} (h : EverNet token fi dec ev n) (h' : EverNet token fi dec ev m) : n = m := by
  obtain ⟨x, a, f, h1, h2, -, h3, h4, h5⟩ := h
  obtain ⟨x', a', f', h1', h2', -, h3', h4', h5'⟩ := h'
  have := enc_eq h1 h1' (h2.trans h2'.symm)
  subst this
  rw [h3] at h3'; cases h3'
  rw [h4] at h4'; cases h4'
  omega

/-- The withdrawal in `k` waits for approval; it will mint `n` of `token`. -/
def Owes (env : Env) (token : EverAddress) (fi : FeeInfo) (dec : U8) (w : World) (k : Pubkey) (n : Nat) : Prop :=
  ∃ p md, WithdrawalAt env w k p md ∧ md.status = .waitingForApprove ∧ EverNet token fi dec p.event n

open Classical in
/-- What the withdrawal in `k` may still mint. -/
noncomputable def owed (env : Env) (token : EverAddress) (fi : FeeInfo) (dec : U8) (w : World) (k : Pubkey) : Nat :=
  if h : ∃ n, Owes env token fi dec w k n then h.choose else 0

theorem Owes.unique {n m : Nat} (h : Owes env token fi dec w k n) (h' : Owes env token fi dec w k m) : n = m := by
  obtain ⟨p, md, h1, -, h2⟩ := h
  obtain ⟨p', md', h1', -, h2'⟩ := h'
  obtain ⟨rfl, rfl⟩ := h1.unique h1'
  exact h2.unique h2'

theorem owed_eq {n : Nat} (h : Owes env token fi dec w k n) : owed env token fi dec w k = n := by
  have hx : ∃ n, Owes env token fi dec w k n := ⟨n, h⟩
  rw [owed, dif_pos hx]
  exact hx.choose_spec.unique h

theorem owed_zero (h : ∀ n, ¬ Owes env token fi dec w k n) : owed env token fi dec w k = 0 := by
  rw [owed, dif_neg]
  rintro ⟨n, hn⟩
  exact h n hn

theorem owed_not {p : GenericProposal} {md : WMeta} (h : WithdrawalAt env w k p md) (hs : md.status ≠ .waitingForApprove) :
    owed env token fi dec w k = 0 := by
  refine owed_zero ?_
  rintro n ⟨p', md', h', hst, -⟩
  obtain ⟨rfl, rfl⟩ := h.unique h'
  exact hs hst

theorem fees_eq {t : TokenSettings} (h : Holds tokenSettingsC recLen (w.acc kt) t) : fees w kt = t.feeSupply.toNat := by
  obtain ⟨b, r, hb, -, hd⟩ := h
  unfold fees
  rw [hb]
  simp only [hd]

/-- A step adds to what waits only by a withdrawal instruction for that withdrawal, which then also records a fee. -/
theorem owed_step (hd : env.Distinct) (hv : WEv env L k e) (hi' : WInv env k e.post) (sg' : Single env e.post k)
    (ha : IsAddr env env.tpId (tokenSettingsEverSeeds env token) kt) (hl : Live e.pre kt) :
    owed env token fi dec e.post k ≤ owed env token fi dec e.pre k ∨
    ∃ ctx, e.act = .tp ctx .withdrawMultiTokenEver ∧ ctx.accounts[0]? = some k ∧ fees e.pre kt < fees e.post kt := by
  by_cases hex : ∃ n, Owes env token fi dec e.post k n
  rotate_left
  · left
    rw [owed_zero (fun n hn => hex ⟨n, hn⟩)]
    exact Nat.zero_le _
  obtain ⟨n, hn⟩ := hex
  have hpost := owed_eq hn
  obtain ⟨p', md', ha', hst', hnet'⟩ := hn
  obtain ⟨p, md, hat, hev, -, hor⟩ := hv.waiting hd ha' hst'
  rcases hor with h | ⟨hnew, ctx, i, hact, hi0, hp, hr⟩
  · left
    rw [hpost, owed_eq ⟨p, md, hat, h, hev ▸ hnet'⟩]
    exact Nat.le_refl _
  have same : e.post.acc k = e.pre.acc k → False := by
    intro h
    have := hat.congr (w' := e.post) (by rw [h]) (by rw [h])
    obtain ⟨rfl, rfl⟩ := this.unique ha'
    rw [hnew] at hst'
    cases hst'
  have hk : ctx.accounts[0]? = some k := by
    apply Classical.byContradiction
    intro hk
    exact same (withdraw_other hi0 hr hat hk)
  right
  obtain ⟨x, amount', fee', hwf', he', htok, -, -, -⟩ := hnet'
  rcases hi0 with rfl | rfl
  · exfalso
    obtain ⟨kw, kv, rc, kt0, km, r, t, v, hkw, hkv, -, hkt, -, hw, ht, hkind, -, -, hne, hx⟩ := withdrawSol_fx hr
    cases hk.symm.trans hkw
    rcases hx with ⟨hsame, -⟩ | ⟨-, fee, net, st, t', hfe, hnt, hrec, hx⟩
    · exact same (hsame k)
    have hty' := hi'.typedSol (r := r.withStatus st) (ctx := ctx) ⟨hw.1, hrec.record, hw.2.2⟩ (by rw [hrec.owner]; exact hat.1)
    obtain ⟨rfl, rfl⟩ := hty'.unique ha'
    exact sg' _ _ ha' r.event x (withdrawal_wf hw.2.1) hwf' rfl he'
  · refine ⟨ctx, hact, hk, ?_⟩
    obtain ⟨kw, mi, rc, kt0, r, hkw, hmi, -, hkt, hw, hx⟩ := withdrawEver_fx hr
    cases hk.symm.trans hkw
    rcases hx with ⟨e0, -⟩ | ⟨w1, hw1, hk1, hne, t, m, het, hx⟩
    · exact (same (by rw [e0])).elim
    rcases hx with ⟨e0, -⟩ | ⟨-, -, amount, fee, net, st, t', hamt, hfe, hnt, hrec, hbk, hx⟩
    · exact (same (by rw [e0, hk1])).elim
    have hty' := hi'.typedEver (r := r.withStatus st) (ctx := ctx) ⟨hw.1, hrec.record, hw.2.2⟩ (by rw [hrec.owner, hk1]; exact hat.1)
    obtain ⟨rfl, rfl⟩ := hty'.unique ha'
    have hx0 : x = r.event := enc_eq hwf' (withdrawal_wf hw.2.1) he'
    subst hx0
    obtain ⟨mi', d', hkind⟩ := het.2.1
    have ha2 := het.1.1
    rw [hp, hkind] at ha2
    have : kt = kt0 := isAddr_eq (htok ▸ ha) ha2
    subst this
    unfold Live at hl
    rcases hw1 with ⟨rfl, -⟩ | ⟨h0, -⟩
    rotate_left
    · omega
    rw [fees_eq het.1.2.1, fees_eq hrec.token, hbk.fee]
    have := feeOf_pos hfe
    omega

theorem everRecord_eq {r : Withdrawal WEverEvent} (h : Holds (withdrawalC wEverEventC) recLen (w.acc k) r) : everRecord w k = some r := by
  obtain ⟨b, q, hb, -, hd⟩ := h
  unfold everRecord
  rw [hb]
  simp only [hd, Option.map_some]

theorem decimalsOf_eq {m : MintAcc} (h : (w.acc k).data = .mint m) : decimalsOf w k = m.decimals := by
  unfold decimalsOf
  rw [h]

/-- The amount of a withdrawal that is decided. -/
theorem admitted_eq {kw : Pubkey} {r : Withdrawal WEverEvent} {st : WStatus} {amount : U64} {m : MintAcc}
    (hact : e.act = .tp ctx .withdrawMultiTokenEver) (h0 : ctx.accounts[0]? = some kw) (h1 : ctx.accounts[1]? = some km)
    (h3 : ctx.accounts[3]? = some kt) (hr : Holds (withdrawalC wEverEventC) recLen (e.pre.acc kw) r)
    (hr' : Holds (withdrawalC wEverEventC) recLen (e.post.acc kw) (r.withStatus st)) (hc : Confirmed r) (hn : r.md.status = .new) (hst : st ≠ .new)
    (hm : (e.post.acc km).data = .mint m) (ha : getWithdrawalAmount r.event.amount r.event.decimals m.decimals = .ok amount) :
    admitted kt e = amount.toNat := by
  unfold admitted
  rw [hact]
  simp only [h0, h1, h3, if_true, everRecord_eq hr, everRecord_eq hr', decimalsOf_eq hm]
  rw [if_pos ⟨hc, hn, hst⟩, ha]

/-- One step. -/
theorem backed_step {K : List Pubkey} {dec : U8} (hd : env.Distinct) (hn : K.Nodup)
    (hK : ∀ k ∈ K, WInv env k e.pre ∧ WInv env k e.post ∧ WEv env L k e ∧ Single env e.post k)
    (hap : ∀ k, Approves kt k e → k ∈ K)
    (ha : IsAddr env env.tpId (tokenSettingsEverSeeds env token) kt) (hl : Live e.pre kt)
    (hfee : ∀ t, Holds tokenSettingsC recLen (e.pre.acc kt) t → t.feeWithdrawalInfo = fi)
    (hdec : ∃ m m', (e.pre.acc km).data = .mint m ∧ m.decimals = dec ∧ (e.post.acc km).data = .mint m' ∧ m'.decimals = dec)
    (hclash : ∀ ctx i kt' t mi token' d, e.act = .tp ctx i → kt' ∈ ctx.accounts → TokenOf env ctx e.pre kt' t →
      t.kind = .ever mi token' d → IsAddr env env.tpId (mintSeeds env token') km → token' = token)
    (h : EverFlow env km kt token e) :
    backing e.post km kt + retired km kt e + (K.map (owed env token fi dec e.post)).sum ≤
      backing e.pre km kt + (K.map (owed env token fi dec e.pre)).sum + admitted kt e := by
  obtain ⟨m0, m1, hm0, hd0, hm1, hd1⟩ := hdec
  have step := fun k (hk : k ∈ K) => owed_step (fi := fi) (dec := dec) hd (hK k hk).2.2.1 (hK k hk).2.1 (hK k hk).2.2.2 ha hl
  have down : (∀ ctx, e.act = .tp ctx .withdrawMultiTokenEver → ¬ fees e.pre kt < fees e.post kt) →
      ∀ k ∈ K, owed env token fi dec e.post k ≤ owed env token fi dec e.pre k := by
    intro hno k hk
    rcases step k hk with h | ⟨ctx, hact, -, hf⟩
    · exact h
    · exact (hno ctx hact hf).elim
  have other : ∀ {ctx kw}, e.act = .tp ctx .withdrawMultiTokenEver → ctx.accounts[0]? = some kw →
      ∀ k ∈ K, k ≠ kw → owed env token fi dec e.post k ≤ owed env token fi dec e.pre k := by
    intro ctx kw hact h0 k hk hne
    rcases step k hk with h | ⟨ctx', hact', h0', -⟩
    · exact h
    · rw [hact] at hact'; cases hact'
      rw [h0] at h0'; cases h0'
      exact (hne rfl).elim
  unfold retired
  cases h with
  | deposit ctx sd a rc v ev py ct t fee net hact hc hm hk ht hf hn' hb h =>
    have := sum_le (down (fun c hc => by rw [hact] at hc; cases hc))
    omega
  | payout ctx kw rc r t m amount fee net hact h0 h1 h3 hset hw htok hc hst ht ham hf hn' hm h =>
    have hmd : m.decimals = dec := by have := ht.2.2.2.2; rw [hm0] at this; cases this; exact hd0
    have adm := admitted_eq hact h0 h1 h3 hw.2.1 hset.record hc hst (doneStatus_ne (.inl rfl)) hm1 (by rw [hd1, ← hmd]; exact ham)
    have hall : ∀ k ∈ K, owed env token fi dec e.post k ≤ owed env token fi dec e.pre k := by
      intro k hk
      by_cases he : k = kw
      · subst he
        have := (hK k hk).2.1.typedEver (r := r.withStatus (doneStatus r.event.payload)) (ctx := ctx) ⟨hw.1, hset.record, hw.2.2⟩ hset.after
        rw [owed_not this (show doneStatus r.event.payload ≠ _ from doneStatus_ne (.inr (.inr rfl)))]
        exact Nat.zero_le _
      · exact other hact h0 k hk he
    have := sum_le hall
    omega
  | waits ctx kw r t m amount fee net hact h0 h1 h3 hset hw htok hc hst ht ham hf hn' hl' hm h =>
    have hmd : m.decimals = dec := by have := ht.2.2.2.2; rw [hm0] at this; cases this; exact hd0
    have adm := admitted_eq hact h0 h1 h3 hw.2.1 hset.record hc hst (by simp) hm1 (by rw [hd1, ← hmd]; exact ham)
    have h1 := sum_one (k0 := kw) (f := owed env token fi dec e.post) (g := owed env token fi dec e.pre) hn (other hact h0)
    by_cases hkK : kw ∈ K
    · have hty := (hK kw hkK).2.1.typedEver (r := r.withStatus .waitingForApprove) (ctx := ctx) ⟨hw.1, hset.record, hw.2.2⟩ hset.after
      have := owed_eq (fi := fi) (dec := dec) ⟨_, _, hty, rfl, r.event, amount, fee, withdrawal_wf hw.2.1, rfl, htok, hmd ▸ ham,
        hfee _ ht.1.2.1 ▸ hf, hn'⟩
      omega
    · have := sum_le (f := owed env token fi dec e.post) (g := owed env token fi dec e.pre) (K := K)
        (fun k hk => other hact h0 k hk (by rintro rfl; exact hkK hk))
      omega
  | approved ctx kw rc r t m amount fee net hact h2 h4 hset hw htok hst ht ham hf hn' hm h =>
    have hmd : m.decimals = dec := by have := ht.2.2.2.2; rw [hm0] at this; cases this; exact hd0
    have hkK := hap kw ⟨ctx, _, hact, .inr rfl, h2, h4⟩
    have hty := (hK kw hkK).1.typedEver hw hset.before
    have hpre := owed_eq (fi := fi) (dec := dec) ⟨_, _, hty, hst, r.event, amount, fee, withdrawal_wf hw.2.1, rfl, htok, hmd ▸ ham,
      hfee _ ht.1.2.1 ▸ hf, hn'⟩
    have hty' := (hK kw hkK).2.1.typedEver (r := r.withStatus (doneStatus r.event.payload)) (ctx := ctx) ⟨hw.1, hset.record, hw.2.2⟩ hset.after
    have hz := owed_not (token := token) (fi := fi) (dec := dec) hty' (show doneStatus r.event.payload ≠ _ from doneStatus_ne (.inr (.inr rfl)))
    have := sum_drop hkK hz (down (fun c hc => by rw [hact] at hc; cases hc))
    omega
  | fee ctx a rc hact hm hf h =>
    have := sum_le (down (fun c hc => by rw [hact] at hc; cases hc))
    omega
  | burnt hact h =>
    have := sum_le (down (fun c hc => by rw [hact] at hc; cases hc))
    omega
  | clash ctx i kt' t mi token' d hact hin ht hk hne hadr => exact (hne (hclash ctx i kt' t mi token' d hact hin ht hk hadr)).elim
  | same hs hf =>
    have := sum_le (down (fun c _ => by omega))
    unfold backing
    omega

end Verif.TP
