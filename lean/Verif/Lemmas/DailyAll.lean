import Verif.Lemmas.Daily
import Verif.Lemmas.WPay
import Verif.Lemmas.WLife
import Verif.Lemmas.VaultOf
import Verif.Spec.Daily
/-!
# The daily limit on days with approvals
-/
namespace Verif.TP
open Codec Verif

variable {env : Env} {L : Pubkey → Prop} {ctx : Ctx} {w w' w0 : World} {k kt : Pubkey} {i : Instr} {fi : FeeInfo} {dec : U8} {D : I64} {e : Ev}

/-- What a withdrawal with the event `ev` of the token in `kt` releases, without the fee. -/
inductive NetOf (env : Env) (kt : Pubkey) (fi : FeeInfo) (dec : U8) (ev : Bytes) (n : Nat) : Prop
  | sol (x : WSolEvent) (fee : U64) (hwf : wSolEventC.wf x = true) (he : wSolEventC.enc x = ev)
      (ha : IsAddr env env.tpId (tokenSettingsSolSeeds x.mint) kt) (hf : feeOf fi (x.amount.setWidth 64) = .ok fee)
      (hn : n + fee.toNat = (x.amount.setWidth 64 : U64).toNat)
  | ever (x : WEverEvent) (amount fee : U64) (hwf : wEverEventC.wf x = true) (he : wEverEventC.enc x = ev)
      (ha : IsAddr env env.tpId (tokenSettingsEverSeeds env x.token) kt) (hg : getWithdrawalAmount x.amount x.decimals dec = .ok amount)
      (hf : feeOf fi amount = .ok fee) (hn : n + fee.toNat = amount.toNat)

theorem enc_eq {α : Type} {c : Codec α} {x y : α} (h : c.wf x = true) (h' : c.wf y = true) (he : c.enc x = c.enc y) : x = y := by
  have h1 := c.dec_enc x [] h
  have h2 := c.dec_enc y [] h'
  rw [he, h2] at h1
  cases h1; rfl

theorem NetOf.unique {ev : Bytes} {n m : Nat} (ho : OneKind ev) (h : NetOf env kt fi dec ev n) (h' : NetOf env kt fi dec ev m) : n = m := by
  cases h with
  | sol x fee hwf he ha hf hn =>
    cases h' with
    | sol x' fee' hwf' he' ha' hf' hn' =>
      have := enc_eq hwf hwf' (he.trans he'.symm)
      subst this
      rw [hf] at hf'
      cases hf'
      omega
    | ever x' amount fee' hwf' he' ha' hg hf' hn' => exact (ho _ _ hwf hwf' he he').elim
  | ever x amount fee hwf he ha hg hf hn =>
    cases h' with
    | sol x' fee' hwf' he' ha' hf' hn' => exact (ho _ _ hwf' hwf he' he).elim
    | ever x' amount' fee' hwf' he' ha' hg' hf' hn' =>
      have := enc_eq hwf hwf' (he.trans he'.symm)
      subst this
      rw [hg] at hg'
      cases hg'
      rw [hf] at hf'
      cases hf'
      omega

/-- The withdrawal in `k`, asked for on day `D`, waits for approval; it will release `n` of the token in `kt`. -/
def Due (env : Env) (kt : Pubkey) (fi : FeeInfo) (dec : U8) (D : I64) (w : World) (k : Pubkey) (n : Nat) : Prop :=
  ∃ p md, WithdrawalAt env w k p md ∧ md.status = .waitingForApprove ∧ md.epoch = D ∧ NetOf env kt fi dec p.event n

open Classical in
/-- What the withdrawal in `k` may take off the count of day `D`. -/
noncomputable def pend (env : Env) (kt : Pubkey) (fi : FeeInfo) (dec : U8) (D : I64) (w : World) (k : Pubkey) : Nat :=
  if h : ∃ n, Due env kt fi dec D w k n then h.choose else 0

/-- The events of withdrawals in `k` are of one kind. -/
def Single (env : Env) (w : World) (k : Pubkey) : Prop := ∀ p md, WithdrawalAt env w k p md → OneKind p.event

theorem Due.unique {n m : Nat} (hs : Single env w k) (h : Due env kt fi dec D w k n) (h' : Due env kt fi dec D w k m) : n = m := by
  obtain ⟨p, md, h1, -, -, h2⟩ := h
  obtain ⟨p', md', h1', -, -, h2'⟩ := h'
  obtain ⟨rfl, rfl⟩ := h1.unique h1'
  exact h2.unique (hs _ _ h1) h2'

theorem pend_eq {n : Nat} (hs : Single env w k) (h : Due env kt fi dec D w k n) : pend env kt fi dec D w k = n := by
  have hx : ∃ n, Due env kt fi dec D w k n := ⟨n, h⟩
  rw [pend, dif_pos hx]
  exact hx.choose_spec.unique hs h

theorem pend_zero (h : ∀ n, ¬ Due env kt fi dec D w k n) : pend env kt fi dec D w k = 0 := by
  rw [pend, dif_neg]
  rintro ⟨n, hn⟩
  exact h n hn

/-- A waiting withdrawal was waiting before the step, or was put there by it. -/
theorem WEv.waiting {p' : GenericProposal} {md' : WMeta} (hd : env.Distinct) (h : WEv env L k e) (h' : WithdrawalAt env e.post k p' md')
    (hw : md'.status = .waitingForApprove) :
    ∃ p md, WithdrawalAt env e.pre k p md ∧ p'.event = p.event ∧ md'.epoch = md.epoch ∧
      (md.status = .waitingForApprove ∨
        (md.status = .new ∧ ∃ ctx i, e.act = .tp ctx i ∧ (i = .withdrawMultiTokenSol ∨ i = .withdrawMultiTokenEver) ∧
          ctx.program = env.tpId ∧ run env ctx noCpi i e.pre = .ok e.post)) := by
  cases h with
  | absent h h1 => exact (h1 _ _ h').elim
  | request ctx i p md hact hp hs hr h h1 ha =>
    obtain ⟨rfl, rfl⟩ := h1.unique h'
    cases ha <;> simp_all
  | keep p md h h1 =>
    obtain ⟨rfl, rfl⟩ := h1.unique h'
    exact ⟨_, _, h, rfl, rfl, .inl hw⟩
  | change ctx i p md p1 md1 hact hp hs hr h h1 hc =>
    obtain ⟨rfl, rfl⟩ := h1.unique h'
    refine ⟨p, md, h, ?_, ?_⟩
    · rw [hc.rest.1]
    cases hc with
    | ever x x' hp hm hp' hm' he ha hc =>
      subst hm hm'
      cases hc with
      | pay s hq hst hs => exact ⟨rfl, .inr ⟨hst, ctx, _, hact, .inr rfl, ‹_›, hr⟩⟩
      | approve hst hu => exact ⟨rfl, .inl hst⟩
      | exec hst => cases hw
    | sol x x' hp hm hp' hm' he ha hc =>
      subst hm hm'
      cases hc with
      | pay s hq hst hs => exact ⟨rfl, .inr ⟨hst, ctx, _, hact, .inl rfl, ‹_›, hr⟩⟩
      | later s hq hst hs =>
        rcases hs with rfl | rfl
        · cases hw
        · exact absurd hw (by show paidStatus _ ≠ _; unfold paidStatus; split <;> simp)
      | approve s hst hu hs => exact ⟨rfl, .inl hst⟩
      | exec hst => cases hw
      | bounty b hst hu => exact ⟨rfl, .inl hw⟩
      | cancel sd rc v e p hst hu => cases hw
      | fill sd rc a v e p hst => cases hw
    | vote kr v j x rr hi hx ha hr hri hra hv hsig hold hp' hm' =>
      subst hm'
      exact ⟨rfl, .inl hw⟩
  | payload ctx i p md sg hact hp hs hi hk h hb h1 hg =>
    obtain ⟨rfl, rfl⟩ := h1.unique h'
    cases hw
  | close ctx p md hact hp hs hr h hf h1 => exact (hd.tpSys (h'.1.symm.trans h1.1)).elim
  | purge p md hact h hf hl h1 => exact (h1 _ _ h').elim

/-- The settings a payout uses are a record of settings. -/
theorem withdrawSol_load (h : run env ctx noCpi .withdrawMultiTokenSol w = .ok w') :
    ∃ kt t, ctx.accounts[3]? = some kt ∧ loadToken env ctx kt w = .ok t := by
  simp only [run, processWithdrawSol, bind_ok, acct_ok, sysvar_ok, require_ok, exists_const, validatePda_ok] at h
  obtain ⟨kw, hkw, kv, hkv, rc, hrc, kt, hkt, km, hkm, ks, -, -, -, clock, -, -, ss, hss, r, hr, t, ht, hem, hva, htm, h⟩ := h
  exact ⟨kt, _, hkt, loadSol_token ht⟩

theorem withdrawEver_load (h : run env ctx noCpi .withdrawMultiTokenEver w = .ok w') :
    ∃ kt, ctx.accounts[3]? = some kt ∧ ((w.acc kt).lamports = 0 ∨ ∃ t, loadToken env ctx kt w = .ok t) := by
  simp only [run, processWithdrawEver, bind_ok, acct_ok, sysvar_ok, exists_const] at h
  obtain ⟨kw, hkw, mi, hmi, rc, hrc, kt, hkt, ks, -, -, -, -, -, rent, -, -, clock, -, -, ss, hss, r, hr, h⟩ := h
  refine ⟨kt, hkt, ?_⟩
  split at h
  · exact .inl ‹_›
  · simp only [payEver, bind_ok] at h
    obtain ⟨t, ht, -⟩ := h
    exact .inr ⟨_, loadEver_token ht⟩

theorem WithdrawalAt.ne_token {p : GenericProposal} {md : WMeta} {t : TokenSettings} (h : WithdrawalAt env w k p md)
    (ht : loadToken env ctx kt w = .ok t) : k ≠ kt := by
  rintro rfl
  obtain ⟨hh, -, n, m, hk, -⟩ := loadToken_ok.1 ht
  have h1 := (head_token hh).unique h.marked.2
  obtain ⟨n', m', hk'⟩ := h.2.2.2.1
  rw [hk, hk'] at h1
  cases h1.2

theorem WithdrawalAt.raw {p : GenericProposal} {md : WMeta} (h : WithdrawalAt env w k p md) :
    ∃ b, (w.acc k).data = .raw b ∧ (w.acc k).data.len ≠ 0 := by
  obtain ⟨-, ⟨b, r, hb, hl, -⟩, -⟩ := h
  refine ⟨b, hb, ?_⟩
  rw [hb]
  show b.length ≠ 0
  rw [hl]
  decide

/-- A payout leaves the other withdrawals as they are. -/
theorem withdraw_other {p : GenericProposal} {md : WMeta} (hi : i = .withdrawMultiTokenSol ∨ i = .withdrawMultiTokenEver)
    (h : run env ctx noCpi i w = .ok w') (h0 : WithdrawalAt env w k p md) (hk : ctx.accounts[0]? ≠ some k) : w'.acc k = w.acc k := by
  obtain ⟨b, hb, hlen⟩ := h0.raw
  rcases hi with rfl | rfl
  · obtain ⟨kt0, t0, hkt0, hl⟩ := withdrawSol_load h
    obtain ⟨kw, kv, rc, kt, km, r, t, v, hkw, -, -, hkt, -, -, -, -, -, -, -, hx⟩ := withdrawSol_fx h
    cases hkt0.symm.trans hkt
    rcases hx with ⟨hsame, -⟩ | ⟨-, fee, net, st, t', -, -, hrec, -⟩
    · exact hsame k
    · exact hrec.rest k (by rintro rfl; exact hk hkw) (h0.ne_token hl) b hb
  · obtain ⟨kt0, hkt0, hl⟩ := withdrawEver_load h
    obtain ⟨kw, mi, rc, kt, r, hkw, -, -, hkt, -, hx⟩ := withdrawEver_fx h
    cases hkt0.symm.trans hkt
    rcases hx with ⟨rfl, -⟩ | ⟨w1, hw1, -, -, t, m, -, hx⟩
    · rfl
    have a1 : w1.acc k = w.acc k := by
      rcases hw1 with ⟨rfl, -⟩ | ⟨-, hdep⟩
      · rfl
      · exact hdep.full k hlen
    rcases hx with ⟨rfl, -⟩ | ⟨-, -, amount, fee, net, st, t', -, -, -, hrec, -⟩
    · exact a1
    · rw [hrec.rest k (by rintro rfl; exact hk hkw) ?_ b (by rw [a1]; exact hb), a1]
      rintro rfl
      rcases hw1 with ⟨rfl, h1⟩ | ⟨-, hdep⟩
      · rcases hl with hl | ⟨t, hl⟩
        · exact h1 hl
        · exact h0.ne_token hl rfl
      · exact hlen hdep.absent.2.1

theorem withdrawal_wf {E : Type} {ec : Codec E} {a : Account} {r : Withdrawal E} (h : Holds (withdrawalC ec) recLen a r) :
    ec.wf r.event = true := by
  obtain ⟨b, q, -, -, hd⟩ := h
  have := (withdrawalC ec).wf_of_dec hd
  simp only [withdrawalC, wf_iso, wf_pair, Bool.and_eq_true] at this
  simp_all

theorem isAddr_eq {p k k' : Pubkey} {seeds : List Bytes} (h : IsAddr env p seeds k) (h' : IsAddr env p seeds k') : k = k' := by
  obtain ⟨n, h⟩ := h
  obtain ⟨m, h'⟩ := h'
  rw [h] at h'
  cases h'; rfl

/-- What a step adds to the amounts that wait for approval, it adds to the count of the day. -/
theorem pend_step {s1 s2 : TokenSettings} (hd : env.Distinct) (hv : WEv env L k e) (hi : WInv env k e.pre) (hi' : WInv env k e.post)
    (sg : Single env e.pre k) (sg' : Single env e.post k)
    (h1 : TokenAt env e.pre kt s1) (h2 : TokenAt env e.post kt s2) (hl : Live e.pre kt) (hfee : s1.feeWithdrawalInfo = fi)
    (hdec : ∀ ctx ev mint t m, ctx.program = env.tpId → EverTokenAt env ctx e.pre ev mint kt t m → m.decimals = dec)
    (hday : ∀ ctx i, e.act = .tp ctx i → epochOf ctx.now = D) :
    pend env kt fi dec D e.post k ≤ pend env kt fi dec D e.pre k ∨
    ∃ ctx i, e.act = .tp ctx i ∧ (i = .withdrawMultiTokenSol ∨ i = .withdrawMultiTokenEver) ∧ ctx.accounts[0]? = some k ∧
      autoPaid kt e = 0 ∧ releasedOn s2 D = releasedOn s1 D + pend env kt fi dec D e.post k := by
  by_cases hex : ∃ n, Due env kt fi dec D e.post k n
  rotate_left
  · left
    rw [pend_zero (fun n hn => hex ⟨n, hn⟩)]
    exact Nat.zero_le _
  obtain ⟨n, hn⟩ := hex
  have hpost := pend_eq sg' hn
  obtain ⟨p', md', ha', hst', hep', hnet'⟩ := hn
  obtain ⟨p, md, ha, hev, hep, hor⟩ := hv.waiting hd ha' hst'
  have old : md.status = .waitingForApprove → pend env kt fi dec D e.post k ≤ pend env kt fi dec D e.pre k := by
    intro h
    rw [hpost, pend_eq sg ⟨p, md, ha, h, hep ▸ hep', hev ▸ hnet'⟩]
    exact Nat.le_refl _
  rcases hor with h | ⟨hnew, ctx, i, hact, hi0, hp, hr⟩
  · exact .inl (old h)
  have same : e.post.acc k = e.pre.acc k → False := by
    intro h
    have := ha.congr (w' := e.post) (by rw [h]) (by rw [h])
    obtain ⟨rfl, rfl⟩ := this.unique ha'
    rw [hnew] at hst'
    cases hst'
  have hk : ctx.accounts[0]? = some k := by
    apply Classical.byContradiction
    intro hk
    exact same (withdraw_other hi0 hr ha hk)
  right
  refine ⟨ctx, i, hact, hi0, hk, ?_⟩
  rw [hpost]
  have hdd := hday _ _ hact
  rcases hi0 with rfl | rfl
  · obtain ⟨kw, kv, rc, kt0, km, r, t, v, hkw, hkv, -, hkt, -, hw, ht, hkind, -, -, hne, hx⟩ := withdrawSol_fx hr
    cases hk.symm.trans hkw
    rcases hx with ⟨hsame, -⟩ | ⟨-, fee, net, st, t', hfe, hnt, hrec, hx⟩
    · exact (same (hsame k)).elim
    have hty := hi.typedSol hw ha.1
    obtain ⟨rfl, rfl⟩ := hty.unique ha
    have hty' := hi'.typedSol (r := r.withStatus st) (ctx := ctx) ⟨hw.1, hrec.record, hw.2.2⟩ (by rw [hrec.owner]; exact ha.1)
    obtain ⟨rfl, rfl⟩ := hty'.unique ha'
    have hwf := withdrawal_wf hw.2.1
    have key : kt = kt0 ∧ (kt = kt0 → t = s1 → n = net.toNat) := by
      cases hnet' with
      | sol x fee' hwf' he' hadr hf' hn' =>
        have : x = r.event := enc_eq hwf' hwf he'
        subst this
        have ha2 := ht.1
        rw [hp, hkind] at ha2
        refine ⟨isAddr_eq hadr ha2, fun _ hts => ?_⟩
        subst hts
        rw [hfee, hf'] at hfe
        cases hfe
        omega
      | ever x amount fee' hwf' he' hadr hg hf' hn' => exact (sg' _ _ ha' r.event x hwf hwf' rfl he').elim
    obtain ⟨rfl, key⟩ := key
    have ets := ht.2.1.unique h1.2.1
    subst ets
    rw [key rfl rfl]
    have e2 := hrec.token.unique h2.2.1
    subst e2
    rcases hx with ⟨-, hbk, ⟨-, -, hnt⟩ | ⟨-, ho⟩⟩ | ⟨hpn, -⟩
    · rw [hdd] at hbk
      refine ⟨?_, hbk.on⟩
      unfold autoPaid
      rw [hact]
      simp only [hkt, hkw, hkv, if_true]
      rw [hnt.loss]
      simp
    · exact (ho.ne.2 hst').elim
    · rw [hnew] at hpn
      cases hpn
  · obtain ⟨kw, mi, rc, kt0, r, hkw, hmi, -, hkt, hw, hx⟩ := withdrawEver_fx hr
    cases hk.symm.trans hkw
    rcases hx with ⟨e0, -⟩ | ⟨w1, hw1, hk1, hne, t, m, het, hx⟩
    · exact (same (by rw [e0])).elim
    rcases hx with ⟨e0, -⟩ | ⟨-, -, amount, fee, net, st, t', hamt, hfe, hnt, hrec, hbk, hx⟩
    · exact (same (by rw [e0, hk1])).elim
    have hty := hi.typedEver hw ha.1
    obtain ⟨rfl, rfl⟩ := hty.unique ha
    have hty' := hi'.typedEver (r := r.withStatus st) (ctx := ctx) ⟨hw.1, hrec.record, hw.2.2⟩ (by rw [hrec.owner, hk1]; exact ha.1)
    obtain ⟨rfl, rfl⟩ := hty'.unique ha'
    have hwf := withdrawal_wf hw.2.1
    obtain ⟨mi', d', hkind⟩ := het.2.1
    have key : kt = kt0 ∧ (t = s1 → m.decimals = dec → n = net.toNat) := by
      cases hnet' with
      | ever x amount' fee' hwf' he' hadr hg hf' hn' =>
        have : x = r.event := enc_eq hwf' hwf he'
        subst this
        have ha2 := het.1.1
        rw [hp, hkind] at ha2
        refine ⟨isAddr_eq hadr ha2, fun hts hmd => ?_⟩
        subst hts
        rw [hmd, hg] at hamt
        cases hamt
        rw [hfee, hf'] at hfe
        cases hfe
        omega
      | sol x fee' hwf' he' hadr hf' hn' => exact (sg' _ _ ha' x r.event hwf' hwf he' rfl).elim
    obtain ⟨rfl, key⟩ := key
    unfold Live at hl
    rcases hw1 with ⟨rfl, -⟩ | ⟨h0, -⟩
    rotate_left
    · omega
    have ets := het.1.2.1.unique h1.2.1
    subst ets
    rw [key rfl (hdec _ _ _ _ _ hp het)]
    have e2 := hrec.token.unique h2.2.1
    subst e2
    rcases hx with ⟨-, -, hnt⟩ | ⟨-, hst, -⟩
    · rw [hdd] at hbk
      refine ⟨?_, hbk.on⟩
      unfold autoPaid
      rw [hact]
      simp only [hkt, hmi, if_true]
      exact hnt.gain
    · rw [hst] at hst'
      exact (doneStatus_ne (.inr (.inr rfl)) hst').elim

/-- An approval takes off the count of the day at most what waited. -/
theorem approve_step {s1 s2 : TokenSettings} (hs : EvStep env L e) (ha : Approves kt k e) (hi : WInv env k e.pre)
    (hi' : WInv env k e.post) (sg : Single env e.pre k)
    (h1 : TokenAt env e.pre kt s1) (h2 : TokenAt env e.post kt s2) (hfee : s1.feeWithdrawalInfo = fi)
    (hdec : ∀ ctx ev mint t m, ctx.program = env.tpId → EverTokenAt env ctx e.pre ev mint kt t m → m.decimals = dec)
    (hday : ∀ ctx i, e.act = .tp ctx i → epochOf ctx.now = D) :
    releasedOn s2 D = releasedOn s1 D ∨
      (releasedOn s1 D ≤ releasedOn s2 D + pend env kt fi dec D e.pre k ∧ pend env kt fi dec D e.post k = 0) := by
  obtain ⟨ctx, i, hact, hi0, hkw, hkt⟩ := ha
  have hdd := hday _ _ hact
  obtain ⟨hr, hp⟩ := hs.run hact (by rcases hi0 with rfl | rfl <;> simp) (by rcases hi0 with rfl | rfl <;> simp)
  have rel : ∀ {ep : I64} {net : Nat}, Released D ep net s1 s2 → releasedOn s2 D = releasedOn s1 D ∨
      (ep = D ∧ releasedOn s1 D ≤ releasedOn s2 D + net) := by
    intro ep net h
    unfold Released at h
    split at h
    · rename_i he
      right
      refine ⟨he, ?_⟩
      have e1 : s2.withdrawalEpoch = s1.withdrawalEpoch := by rw [h.2]
      unfold releasedOn
      rw [e1]
      split
      · omega
      · omega
    · rw [h]; exact .inl rfl
  have dead : ∀ {p md}, WithdrawalAt env e.post k p md → md.status ≠ .waitingForApprove → pend env kt fi dec D e.post k = 0 := by
    intro p md h hn
    refine pend_zero fun n hx => ?_
    obtain ⟨p', md', h', hst, -⟩ := hx
    obtain ⟨rfl, rfl⟩ := h.unique h'
    exact hn hst
  rcases hi0 with rfl | rfl
  · obtain ⟨-, kw, kv, rc, kt0, r, t, v, hkw', -, -, hkt', hw, ht, hkind, -, -, -, hst, fee, net, st, t', hfe, hnt, hrec, hrel, ho⟩ :=
      approveSol_fx hr
    cases hkw.symm.trans hkw'
    cases hkt.symm.trans hkt'
    have ets := ht.2.1.unique h1.2.1
    subst ets
    have e2 := hrec.token.unique h2.2.1
    subst e2
    rw [hdd] at hrel
    rcases rel hrel with h | ⟨hep, hle⟩
    · exact .inl h
    right
    have hown : (e.pre.acc k).owner = env.tpId := by
      rw [← hp]
      exact hrec.genuine (withStatus_ne (by rw [hst]; exact ho.ne.2))
    have hty := hi.typedSol hw hown
    have hty' := hi'.typedSol (r := r.withStatus st) (ctx := ctx) ⟨hw.1, hrec.record, hw.2.2⟩ (by rw [hrec.owner]; exact hown)
    have ha2 := ht.1
    rw [hp, hkind] at ha2
    rw [pend_eq sg ⟨_, _, hty, hst, hep, .sol r.event fee (withdrawal_wf hw.2.1) rfl ha2 (hfee ▸ hfe) hnt⟩]
    exact ⟨hle, dead hty' ho.ne.2⟩
  · obtain ⟨-, kw, mi, rc, kt0, r, t, m, hkw', -, -, hkt', hw, -, het, hst, amount, fee, net, t', hamt, hfe, hnt, hrec, hrel, ho⟩ :=
      approveEver_fx hr
    cases hkw.symm.trans hkw'
    cases hkt.symm.trans hkt'
    have ets := het.1.2.1.unique h1.2.1
    subst ets
    have e2 := hrec.token.unique h2.2.1
    subst e2
    rw [hdd] at hrel
    rcases rel hrel with h | ⟨hep, hle⟩
    · exact .inl h
    right
    have hne : doneStatus r.event.payload ≠ .waitingForApprove := doneStatus_ne (.inr (.inr rfl))
    have hown : (e.pre.acc k).owner = env.tpId := by
      rw [← hp]
      exact hrec.genuine (withStatus_ne (by rw [hst]; exact hne))
    have hty := hi.typedEver hw hown
    have hty' := hi'.typedEver (r := r.withStatus (doneStatus r.event.payload)) (ctx := ctx) ⟨hw.1, hrec.record, hw.2.2⟩
      (by rw [hrec.owner]; exact hown)
    obtain ⟨mi', d', hkind⟩ := het.2.1
    have ha2 := het.1.1
    rw [hp, hkind] at ha2
    rw [pend_eq sg ⟨_, _, hty, hst, hep, .ever r.event amount fee (withdrawal_wf hw.2.1) rfl ha2 (hdec _ _ _ _ _ hp het ▸ hamt) (hfee ▸ hfe) hnt⟩]
    exact ⟨hle, dead hty' hne⟩

/-! ## Sums -/

theorem sum_le {K : List Pubkey} {f g : Pubkey → Nat} (h : ∀ k ∈ K, f k ≤ g k) : (K.map f).sum ≤ (K.map g).sum := by
  induction K with
  | nil => exact Nat.le_refl _
  | cons a K ih =>
    have h1 := h a List.mem_cons_self
    have h2 := ih fun k hk => h k (List.mem_cons_of_mem _ hk)
    simp only [List.map_cons, List.sum_cons]
    omega

theorem sum_zero {K : List Pubkey} {f : Pubkey → Nat} (h : ∀ k ∈ K, f k = 0) : (K.map f).sum = 0 := by
  induction K with
  | nil => rfl
  | cons a K ih =>
    rw [List.map_cons, List.sum_cons, h a List.mem_cons_self, ih fun k hk => h k (List.mem_cons_of_mem _ hk)]

theorem sum_one {K : List Pubkey} {f g : Pubkey → Nat} {k0 : Pubkey} (hK : K.Nodup) (h : ∀ k ∈ K, k ≠ k0 → f k ≤ g k) :
    (K.map f).sum ≤ (K.map g).sum + f k0 := by
  induction K with
  | nil => simp
  | cons a K ih =>
    rw [List.nodup_cons] at hK
    simp only [List.map_cons, List.sum_cons]
    by_cases e : a = k0
    · subst e
      have := sum_le (f := f) (g := g) (K := K) fun k hk => h k (List.mem_cons_of_mem _ hk) (by rintro rfl; exact hK.1 hk)
      omega
    · have h1 := h a List.mem_cons_self e
      have h2 := ih hK.2 fun k hk => h k (List.mem_cons_of_mem _ hk)
      omega

theorem sum_drop {K : List Pubkey} {f g : Pubkey → Nat} {k0 : Pubkey} (h0 : k0 ∈ K) (hz : f k0 = 0) (h : ∀ k ∈ K, f k ≤ g k) :
    (K.map f).sum + g k0 ≤ (K.map g).sum := by
  induction K with
  | nil => cases h0
  | cons a K ih =>
    simp only [List.map_cons, List.sum_cons]
    rcases List.mem_cons.1 h0 with rfl | h0
    · have := sum_le (f := f) (g := g) (K := K) fun k hk => h k (List.mem_cons_of_mem _ hk)
      omega
    · have h1 := h a List.mem_cons_self
      have h2 := ih h0 fun k hk => h k (List.mem_cons_of_mem _ hk)
      omega

theorem approved_list (kt : Pubkey) (tr : List Ev) : ∃ K : List Pubkey, K.Nodup ∧ ∀ k, k ∈ K ↔ ∃ e ∈ tr, Approves kt k e := by
  induction tr with
  | nil => exact ⟨[], List.nodup_nil, fun k => by simp⟩
  | cons e tr ih =>
    obtain ⟨K, hn, hK⟩ := ih
    by_cases h : ∃ k, Approves kt k e ∧ k ∉ K
    · obtain ⟨k, hk, hkK⟩ := h
      refine ⟨k :: K, List.nodup_cons.2 ⟨hkK, hn⟩, fun j => ?_⟩
      simp only [List.mem_cons, hK j, exists_eq_or_imp]
      refine or_congr ⟨by rintro rfl; exact hk, fun hj => ?_⟩ Iff.rfl
      obtain ⟨c, i, h1, -, h2, -⟩ := hj
      obtain ⟨c', i', h1', -, h2', -⟩ := hk
      rw [h1] at h1'
      cases h1'
      rw [h2] at h2'
      cases h2'
      rfl
    · refine ⟨K, hn, fun j => ?_⟩
      simp only [List.mem_cons, exists_eq_or_imp, ← hK j]
      refine ⟨.inr, ?_⟩
      rintro (hj | hj)
      · exact Classical.byContradiction fun hn => h ⟨j, hj, hn⟩
      · exact hj

/-- On a day that starts without waiting withdrawals of that day, the count bounds the payouts without approval. -/
theorem auto_day {s : TokenSettings} {lim : Nat} {top : Bool} {tr : List Ev} (hd : env.Distinct) (h : Run env L top w tr w')
    (hs : TokenAt env w kt s) (hl : Live w kt)
    (hday : ∀ e ∈ tr, ∀ ctx i, e.act = .tp ctx i → epochOf ctx.now = D)
    (hlim : ∀ e ∈ tr, ∀ t, TokenAt env e.pre kt t → t.withdrawalDailyLimit.toNat ≤ lim)
    (hfee : ∀ e ∈ tr, ∀ t, TokenAt env e.pre kt t → t.feeWithdrawalInfo = fi)
    (hdec : ∀ e ∈ tr, ∀ ctx ev mint t m, ctx.program = env.tpId → EverTokenAt env ctx e.pre ev mint kt t m → m.decimals = dec)
    (hw : ∀ k, (∃ e ∈ tr, Approves kt k e) → (∀ e ∈ tr, WInv env k e.pre ∧ WInv env k e.post ∧ WEv env L k e) ∧
      (∀ e ∈ tr, Single env e.pre k ∧ Single env e.post k) ∧ ∀ p md, WithdrawalAt env w k p md → md.epoch ≠ D) :
    (tr.map (autoPaid kt)).sum ≤ lim := by
  obtain ⟨K, hn, hK⟩ := approved_list kt tr
  have evs := h.evs hd
  have H := (token_hist hd h hs hl).2.2
  have z : (K.map (pend env kt fi dec D w)).sum = 0 := by
    refine sum_zero fun k hk => pend_zero ?_
    rintro n ⟨p, md, h1, -, h2, -⟩
    exact (hw k ((hK k).1 hk)).2.2 p md h1 h2
  have := h.fold (P := fun w t => (∃ s, TokenAt env w kt s ∧ (t.map (autoPaid kt)).sum + (K.map (pend env kt fi dec D w)).sum ≤ releasedOn s D) ∧
      (t.map (autoPaid kt)).sum ≤ lim)
    [] ⟨⟨s, hs, by simp [z]⟩, by simp⟩ (by
      rintro e he t ⟨⟨s0, hs0, hsum⟩, hle⟩
      obtain ⟨t1, t2, -, hpre⟩ := h.pre e he
      have hl := (token_hist hd hpre hs hl).2.1
      obtain ⟨s1, s2, h1, h2, hor⟩ := H e he
      have e0 := hs0.2.1.unique h1.2.1
      subst e0
      have hlim1 := hlim e he _ h1
      have hfee1 := hfee e he _ h1
      rw [List.map_append, List.sum_append, List.map_cons, List.map_nil, List.sum_cons, List.sum_nil]
      have step := fun k (hk : k ∈ K) =>
        have hk := hw k ((hK k).1 hk)
        pend_step hd (hk.1 e he).2.2 (hk.1 e he).1 (hk.1 e he).2.1 (hk.2.1 e he).1 (hk.2.1 e he).2 h1 h2 hl hfee1 (hdec e he) (hday e he)
      by_cases hap : ∃ k, Approves kt k e
      · obtain ⟨k, hap⟩ := hap
        have hkK : k ∈ K := (hK k).2 ⟨e, he, hap⟩
        have hk := hw k ((hK k).1 hkK)
        have hmono : ∀ k ∈ K, pend env kt fi dec D e.post k ≤ pend env kt fi dec D e.pre k := by
          intro j hj
          rcases step j hj with hx | ⟨ctx, i, hact, hi, -⟩
          · exact hx
          · obtain ⟨c', i', hact', hi', -⟩ := hap
            rw [hact] at hact'
            cases hact'
            rcases hi with rfl | rfl <;> rcases hi' with hi' | hi' <;> cases hi'
        have au : autoPaid kt e = 0 := by
          obtain ⟨c', i', hact', hi', -⟩ := hap
          unfold autoPaid
          rw [hact']
          rcases hi' with rfl | rfl <;> rfl
        rw [au]
        refine ⟨⟨s2, h2, ?_⟩, by omega⟩
        rcases approve_step (evs e he) hap (hk.1 e he).1 (hk.1 e he).2.1 (hk.2.1 e he).1 h1 h2 hfee1 (hdec e he) (hday e he) with h3 | ⟨h3, h4⟩
        · have := sum_le hmono
          omega
        · have := sum_drop hkK h4 hmono
          omega
      · obtain ⟨a1, a2⟩ := auto_step (evs e he) h1 h2 hl hor (hday e he) (fun ctx i hact hi hkt => hap (by
          have hr := ((evs e he).run hact (by rcases hi with rfl | rfl <;> simp) (by rcases hi with rfl | rfl <;> simp)).1
          rcases hi with rfl | rfl
          · obtain ⟨-, kw, kv, rc, kt0, r, t, v, hkw, -⟩ := approveSol_fx hr
            exact ⟨kw, ctx, _, hact, .inl rfl, hkw, hkt⟩
          · obtain ⟨-, kw, kv, rc, kt0, r, t, v, hkw, -⟩ := approveEver_fx hr
            exact ⟨kw, ctx, _, hact, .inr rfl, hkw, hkt⟩))
        refine ⟨⟨s2, h2, ?_⟩, by omega⟩
        by_cases hall : ∀ k ∈ K, pend env kt fi dec D e.post k ≤ pend env kt fi dec D e.pre k
        · have := sum_le hall
          omega
        · obtain ⟨k0, hk0⟩ := Classical.not_forall.1 hall
          obtain ⟨hk0, hlt⟩ := Classical.not_imp.1 hk0
          rcases step k0 hk0 with hx | ⟨ctx, i, hact, hi, hacc, hau, hrel⟩
          · exact (hlt hx).elim
          have := sum_one (k0 := k0) (f := pend env kt fi dec D e.post) (g := pend env kt fi dec D e.pre) hn (fun j hj hne => by
            rcases step j hj with hx | ⟨ctx', i', hact', hi', hacc', -⟩
            · exact hx
            · rw [hact] at hact'
              cases hact'
              rw [hacc] at hacc'
              cases hacc'
              exact (hne rfl).elim)
          omega)
  exact this.2

end Verif.TP
