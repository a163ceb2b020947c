import Verif.Spec.ToyTactic
import Verif.Spec.Backing
import Verif.Lemmas.TPMisc
import Verif.Lemmas.Daily
import Verif.Lemmas.WPay
import Verif.Props.Deposits
/-!
# What backs the tokens of the bridge
-/
set_option linter.unusedSimpArgs false
set_option maxRecDepth 100000
namespace Verif.Props
open Verif TP

variable {env : Env} {L : Pubkey → Prop} {ctx : Ctx} {cpi : Pubkey → World → Except Err World} {w w' w0 : World}

/-- A step by an instruction of the token proxy that runs no payload. -/
theorem step_run {e : Ev} {i : Instr} (hs : Step env L e) (ha : e.act = .tp ctx i) (n1 : i ≠ .executePayloadEver) (n2 : i ≠ .executePayloadSol) :
    ctx.program = env.tpId ∧ (∀ k ∈ ctx.signers, ¬ L k) ∧ run env ctx noCpi i e.pre = .ok e.post := by
  cases hs with
  | rl _ _ hact => rw [ha] at hact; cases hact
  | tp c j hact hp hs hr => rw [ha] at hact; cases hact; exact ⟨hp, hs, hr⟩
  | stale c j p w1 hact hp hs hst =>
    rw [ha] at hact; cases hact
    cases hst
    · exact (n1 rfl).elim
    · exact (n2 rfl).elim
  | ext hact => rw [ha] at hact; cases hact
  | purge hact => rw [ha] at hact; cases hact

/-! ## C54: the vaults of tokens of Solana -/

/-- C54: in every history that starts with the vault of a token, tokens leave the vault only by payouts of withdrawals of this token, confirmed by
the relays or approved, of the amount of the event less the fee, and by withdrawals of fees recorded before. Only the program can spend from it throughout. -/
theorem C54_out {top : Bool} {tr : List Ev} {mint kv : Pubkey} (hd : env.Distinct) (hr : Run env L top w tr w') (hv : VaultOf env w mint kv)
    (hL : L kv) (hn : mint ≠ env.nativeMint ∨ Funded env kv tr) :
    VaultOf env w' mint kv ∧ ∀ e ∈ tr, VaultOf env e.pre mint kv ∧ VaultOf env e.post mint kv ∧
      (bal e.post kv < bal e.pre kv → VaultOut env kv (bal e.pre kv - bal e.post kv) e) := by
  obtain ⟨h1, h2⟩ := hr.guarded hd hL hv.2 (hn.imp (fun h => if_neg h) id)
  refine ⟨⟨hv.1, h1⟩, fun e he => ?_⟩
  obtain ⟨g1, g2, g3⟩ := h2 e he
  refine ⟨⟨hv.1, g1⟩, ⟨hv.1, g2⟩, fun hlt => ?_⟩
  obtain ⟨ctx, i, hact, hp, hs, hrun, -, hpay⟩ := g3 hlt
  have mv : ∀ {src rc : Pubkey} {n : Nat}, Moves src rc n e.pre e.post → src = kv ∧ bal e.pre kv - bal e.post kv = n := by
    intro src rc n hm
    have h1 := (hm.2 kv).1
    by_cases h : kv = src
    · subst h
      refine ⟨rfl, ?_⟩
      rw [if_pos rfl] at h1
      split at h1
      · exfalso; omega
      · omega
    · rw [if_neg h] at h1
      exfalso
      split at h1 <;> omega
  cases hpay with
  | withdraw m ha =>
    obtain ⟨kw, kv', rc, kt, km, r, t, v, h0, h1, h2, h3, h4, hw, ht, hk, -, hv', hne, ⟨hsame, -⟩ | ⟨hc, fee, net, st, t', hfee, hnet, hrec, hor⟩⟩ :=
      withdrawSol_fx hrun
    · unfold bal at hlt; rw [hsame kv] at hlt; exact (Nat.lt_irrefl _ hlt).elim
    · have key : SolOut env ctx kv' rc km r net.toNat e.pre e.post st → (r.md.status = .new ∨ r.md.status = .pending) →
          VaultOut env kv (bal e.pre kv - bal e.post kv) e := by
        intro ho hst
        cases ho with
        | short _ _ hno => rw [(hno kv).1] at hlt; exact (Nat.lt_irrefl _ hlt).elim
        | paid hrc hm _ =>
          obtain ⟨rfl, hb⟩ := mv hm
          rw [hb]
          refine .payout ctx kw kt rc v r t fee hact hw hc hst ht hk hv' hfee ?_ hm ⟨hw.1, hrec.record, hw.2.2⟩
          rw [hnet, BitVec.toNat_setWidth]
      rcases hor with ⟨hst, -, ⟨-, -, hno⟩ | ⟨-, ho⟩⟩ | ⟨hst, -, -, ho⟩
      · rw [(hno kv).1] at hlt; exact (Nat.lt_irrefl _ hlt).elim
      · exact key ho (.inl hst)
      · exact key ho (.inr hst)
  | approve m ha =>
    obtain ⟨hrole, kw, kv', rc, kt, r, t, v, h2, h1, h3, h4, hw, ht, hk, -, hv', hne, hst, fee, net, st, t', hfee, hnet, hrec, -, ho⟩ := approveSol_fx hrun
    cases ho with
    | short _ _ hno => rw [(hno kv).1] at hlt; exact (Nat.lt_irrefl _ hlt).elim
    | paid hrc hm _ =>
      obtain ⟨rfl, hb⟩ := mv hm
      rw [hb]
      refine .approved ctx kw kt rc v r t fee hact hw hrole hst ht hk hv' hfee ?_ hm ⟨hw.1, hrec.record, hw.2.2⟩
      rw [hnet, BitVec.toNat_setWidth]
  | fee m n ha =>
    obtain ⟨hrole, kv', kt, rc, t, mi, v, sup, h1, h2, h3, ht, hk, hv', hs', hm, hh, -⟩ := solFee_fx hrun
    obtain ⟨rfl, hb⟩ := mv hm
    rw [hb]
    exact .fee ctx kt rc mi v t n sup hact hrole ht hk hv' rfl hs' hh hm
  | proxy m c n ha hsig =>
    obtain ⟨c', rc, px, mi, h0, h1, h2, h3, hsig', hpx, hm, -⟩ := withdrawProxy_fx hrun
    obtain ⟨rfl, hb⟩ := mv hm
    rw [hb]
    exact .proxy ctx rc mi c' n hact hsig' hpx rfl hm

/-- C54: in such a history, every deposit that names the vault adds exactly the deposited amount to it. -/
theorem C54_deposit {top : Bool} {tr : List Ev} {mint kv : Pubkey} (hd : env.Distinct) (hr : Run env L top w tr w') (hv : VaultOf env w mint kv)
    (hL : L kv) (hn : mint ≠ env.nativeMint ∨ Funded env kv tr) {e : Ev} (he : e ∈ tr) {sd : U128} {name symbol : Bytes} {a v : U64} {rc : EverAddress}
    {ev : Pubkey} {py : Bytes} (hact : e.act = .tp ctx (.depositMultiTokenSol sd name symbol a rc v ev py)) (h3 : ctx.accounts[3]? = some kv) :
    bal e.post kv = bal e.pre kv + a.toNat := by
  obtain ⟨⟨-, g1⟩, -⟩ := (C54_out hd hr hv hL hn).2 e he
  obtain ⟨hp, hs, h⟩ := step_run (hr.steps e he) hact (by simp) (by simp)
  obtain ⟨f, cr, ct, kv', dp, mi, mv, kt, w1, t1, tm, tv, m, t2, fee, net, -, a1, a2, a3, -, a5, -, a7, hsig, -, -, hor, -, hto, htk, -,
    -, -, -, -, -, -, -, hmv, -, ⟨s, s', hsd, hsp⟩, -⟩ := depositSol_fx h
  rw [h3] at a3; cases a3
  obtain ⟨x, hx, -, e2, e3, -⟩ := g1.data
  have ew : w1 = e.pre := by
    rcases hor with ⟨ew, -⟩ | ⟨-, hdp, -⟩
    · exact ew
    · have := hdp.absent.2.2.2
      rw [hx] at this
      cases this
  subst ew
  have hne : ct ≠ kv := by
    rintro rfl
    rw [hx] at hsd; cases hsd
    obtain ⟨-, e4⟩ := spendAuth_owner e3 hsp
    rw [e2] at e4
    exact hs cr (isSigner_mem hsig).2 (e4 ▸ hL)
  have := (hmv.2 kv).1
  simp only [if_neg (Ne.symm hne), if_true] at this
  omega

/-- C54: a fill with the vault in the last place pays the withdrawals from the account of its author, and puts what is left, the amount less the
withdrawals without their fees, into the vault. -/
theorem C54_fill {top : Bool} {tr : List Ev} {mint kv : Pubkey} (hd : env.Distinct) (hr : Run env L top w tr w') (hv : VaultOf env w mint kv)
    (hL : L kv) (hn : mint ≠ env.nativeMint ∨ Funded env kv tr) {e : Ev} (he : e ∈ tr) {sd : U128} {a v : U64} {rc : EverAddress}
    {ev : Pubkey} {py : Bytes} (hact : e.act = .tp ctx (.fillWithdrawSol sd rc a v ev py)) :
    ∃ fs : List Fill, ∃ last, ctx.accounts.drop 11 = (fs.flatMap fun f => [f.kw, f.rt]) ++ [last] ∧
      (∀ f ∈ fs, WithdrawalOf wSolEventC env ctx e.pre f.kw f.r ∧ f.net + f.fee = f.r.event.amount.toNat ∧ f.pay + f.r.md.bounty.toNat = f.net) ∧
      (last = kv → total (fun f => f.fee) fs + total (fun f => f.net) fs < 2 ^ 64 →
        bal e.post kv + total (fun f => f.net) fs = bal e.pre kv + a.toNat + total (fun f => if kv = f.rt then f.pay else 0) fs) := by
  obtain ⟨⟨-, g1⟩, -⟩ := (C54_out hd hr hv hL hn).2 e he
  obtain ⟨hp, hs, h⟩ := step_run (hr.steps e he) hact (by simp) (by simp)
  obtain ⟨f, au, at_, mi, dp, kt, mv, t, tm, tv, m, kv', fs, rest, fee, net, -, a1, a2, -, -, -, -, hacc, hsig, hto, hk, -, -, -, -, hva, -, hall, hbal, -,
    hlim, -⟩ := fill_fx h
  refine ⟨fs, kv', hacc, fun f hf => ⟨(hall f hf).1.withdrawal, (hall f hf).1.net, (hall f hf).1.pay⟩, ?_⟩
  rintro rfl hlt
  have h1 := (hbal kv').1
  obtain ⟨-, h2, -⟩ := hlim hlt
  rw [if_pos rfl] at h1
  have hat : kv' ≠ at_ := by
    rintro rfl
    obtain ⟨x, hx, -, e2, e3, -⟩ := g1.data
    have := fill_auth h a2 ⟨x, hx, e3, rfl⟩
    exact hs _ (isSigner_mem this).2 (e2 ▸ hL)
  rw [if_neg hat] at h1
  omega

theorem total_append {α : Type} (f : α → Nat) (l l' : List α) : total f (l ++ l') = total f l + total f l' := by
  induction l with
  | nil => simp [total]
  | cons a l ih => simp only [List.cons_append, total, ih]; omega

/-- C54: the balance of the vault is what it was, plus the deposits and other gains (the surplus of fills, gifts), minus what was drawn, as
described by `C54_out`. -/
theorem C54_balance {top : Bool} {tr : List Ev} {mint kv : Pubkey} (hd : env.Distinct) (hr : Run env L top w tr w') (hv : VaultOf env w mint kv)
    (hL : L kv) (hn : mint ≠ env.nativeMint ∨ Funded env kv tr) :
    bal w' kv + total (drawn kv) tr = bal w kv + total (lodged kv) tr + total (gained kv) tr := by
  have key : ∀ e ∈ tr, bal e.post kv + drawn kv e = bal e.pre kv + lodged kv e + gained kv e := by
    intro e he
    have hl : lodged kv e = 0 ∨ bal e.post kv = bal e.pre kv + lodged kv e := by
      unfold lodged
      split
      · rename_i c sd n y a rc v ev py hact
        split
        · rename_i h3
          exact .inr (C54_deposit hd hr hv hL hn he hact h3)
        · exact .inl rfl
      · exact .inl rfl
    unfold drawn gained
    omega
  have := hr.fold (P := fun x t => bal x kv + total (drawn kv) t = bal w kv + total (lodged kv) t + total (gained kv) t) [] (by simp [total]) ?_
  · simpa using this
  · intro e he t h
    have := key e he
    simp only [total_append, total]
    omega

/-- The status of a withdrawal does not change the size of its record. -/
theorem withStatus_len {E : Type} {ec : Codec E} (r : Withdrawal E) (s : WStatus) :
    ((withdrawalC ec).enc (r.withStatus s)).length = ((withdrawalC ec).enc r).length ∧ (withdrawalC ec).wf (r.withStatus s) = (withdrawalC ec).wf r := by
  have h : (wstatusC.enc s).length = (wstatusC.enc r.md.status).length ∧ wstatusC.wf s = wstatusC.wf r.md.status := by
    exact ⟨rfl, by rw [wf_wstatusC, wf_wstatusC]⟩
  constructor
  · simp only [withdrawalC, wmetaC, Codec.enc_iso, Codec.enc_pair, List.length_append, Withdrawal.withStatus, h.1]
  · simp only [withdrawalC, wmetaC, Codec.wf_iso, Codec.wf_pair, Withdrawal.withStatus, h.2]

theorem pack_again {α : Type} {c : Codec α} {len : Nat} {a : α} {k : Pubkey} {w1 w2 w1' : World} (h : pack ctx c len a k w1 = .ok w1')
    (hk : w2.acc k = w1.acc k) : ∃ w2', pack ctx c len a k w2 = .ok w2' ∧ ∀ x, x ≠ k → w2'.acc x = w2.acc x := by
  obtain ⟨b, b', h1, h2, h3, h4, -⟩ := pack_ok.1 h
  have h' : pack ctx c len a k w2 = .ok (w2.setDataRaw k (.raw b')) := pack_ok.2 ⟨b, b', by rw [hk]; exact h1, h2, h3, by rw [hk]; exact h4, rfl⟩
  exact ⟨_, h', fun x hx => pack_other h' hx⟩

theorem pack_status {E : Type} {ec : Codec E} {r : Withdrawal E} {s s' : WStatus} {k : Pubkey} {w1 w2 w1' : World}
    (h : putWithdrawal ctx ec (r.withStatus s) k w1 = .ok w1') (hr : Holds (withdrawalC ec) recLen (w1.acc k) r) (hs : s ≠ r.md.status)
    (hk : w2.acc k = w1.acc k) : ∃ w2', putWithdrawal ctx ec (r.withStatus s') k w2 = .ok w2' := by
  obtain ⟨b, b', h1, h2, h3, h4, -⟩ := pack_ok.1 h
  obtain ⟨hl, hw⟩ := withStatus_len (ec := ec) r s
  obtain ⟨hl', hw'⟩ := withStatus_len (ec := ec) r s'
  refine ⟨_, pack_ok.2 ⟨b, _, by rw [hk]; exact h1, h2, ⟨by rw [hw', ← hw]; exact h3.wf, by rw [hl', ← hl]; exact h3.fits, rfl⟩, .inr ?_, rfl⟩⟩
  rcases h4 with rfl | h4
  · exfalso
    obtain ⟨b0, q, hb, -, hd⟩ := hr
    rw [h1] at hb; cases hb
    have := h3.dec
    rw [hd] at this
    simp only [Option.some.injEq, Prod.mk.injEq] at this
    exact hs (congrArg (fun x : Withdrawal E => x.md.status) this.1).symm
  · rw [hk]; exact h4

/-- C54: what a withdrawal does that the vault cannot cover: it becomes pending, and no tokens move. -/
theorem C54_short {kw kv : Pubkey} {r : Withdrawal WSolEvent} {fee net : U64} {kt : Pubkey} {t : TokenSettings}
    (h : run env ctx cpi .withdrawMultiTokenSol w = .ok w')
    (h0 : ctx.accounts[0]? = some kw) (h1 : ctx.accounts[1]? = some kv) (h3 : ctx.accounts[3]? = some kt)
    (hw : WithdrawalOf wSolEventC env ctx w kw r) (hc : Confirmed r) (hst : r.md.status = .new ∨ r.md.status = .pending)
    (ht : Holds tokenSettingsC recLen (w.acc kt) t) (hfee : feeOf t.feeWithdrawalInfo (r.event.amount.setWidth 64) = .ok fee)
    (hnet : net.toNat + fee.toNat = r.event.amount.toNat % 2 ^ 64) (hl : r.md.status = .new → Within t (epochOf ctx.now) net.toNat)
    (hb : bal w kv < net.toNat) :
    WithdrawalOf wSolEventC env ctx w' kw (r.withStatus .pending) ∧ NoTokens w w' := by
  obtain ⟨kw', kv', rc, kt', km, r', t0, v, a0, a1, -, a3, -, hw', ht', -, -, -, hne, hor⟩ := withdrawSol_fx h
  rw [h0] at a0; cases a0
  rw [h1] at a1; cases a1
  rw [h3] at a3; cases a3
  have e := hw'.2.1.unique hw.2.1
  subst e
  have e := ht'.2.1.unique ht
  subst e
  rcases hor with ⟨hs, hno, -⟩ | ⟨-, fee', net', st, t', hfee', hnet', hrec, hor⟩
  · have : r'.md.status = .pending := by
      rcases hst with h | h
      · exact (hno ⟨hc, h⟩).elim
      · exact h
    refine ⟨⟨hw.1, ?_, hw.2.2⟩, .of_data fun k => .inl (by rw [hs k])⟩
    rw [hs kw, show r'.withStatus .pending = r' by rw [← this]; rfl]
    exact hw.2.1
  · rw [hfee] at hfee'; cases hfee'
    have en : net = net' := by
      rw [BitVec.toNat_setWidth] at hnet'
      exact BitVec.eq_of_toNat_eq (by omega)
    subst en
    have key : SolOut env ctx kv rc km r' net.toNat w w' st → WithdrawalOf wSolEventC env ctx w' kw (r'.withStatus .pending) ∧ NoTokens w w' := by
      intro ho
      cases ho with
      | short _ _ hno => exact ⟨⟨hw.1, hrec.record, hw.2.2⟩, hno⟩
      | paid _ hm _ => have := hm.1; omega
    rcases hor with ⟨hn, -, ⟨hov, -⟩ | ⟨-, ho⟩⟩ | ⟨-, -, -, ho⟩
    · exact (hov (hl hn)).elim
    · exact key ho
    · exact key ho

/-- C54: the same for an approval. -/
theorem C54_short_approved {kw kv : Pubkey} {r : Withdrawal WSolEvent} {fee net : U64} {kt : Pubkey} {t : TokenSettings}
    (h : run env ctx cpi .approveWithdrawSol w = .ok w')
    (h0 : ctx.accounts[2]? = some kw) (h1 : ctx.accounts[1]? = some kv) (h3 : ctx.accounts[4]? = some kt)
    (hw : WithdrawalOf wSolEventC env ctx w kw r)
    (ht : Holds tokenSettingsC recLen (w.acc kt) t) (hfee : feeOf t.feeWithdrawalInfo (r.event.amount.setWidth 64) = .ok fee)
    (hnet : net.toNat + fee.toNat = r.event.amount.toNat % 2 ^ 64) (hb : bal w kv < net.toNat) :
    WithdrawalOf wSolEventC env ctx w' kw (r.withStatus .pending) ∧ NoTokens w w' := by
  obtain ⟨-, kw', kv', rc, kt', r', t0, v, a2, a1, -, a4, hw', ht', -, -, -, hne, -, fee', net', st, t', hfee', hnet', hrec, -, ho⟩ := approveSol_fx h
  rw [h0] at a2; cases a2
  rw [h1] at a1; cases a1
  rw [h3] at a4; cases a4
  have e := hw'.2.1.unique hw.2.1
  subst e
  have e := ht'.2.1.unique ht
  subst e
  rw [hfee] at hfee'; cases hfee'
  have en : net = net' := by
    rw [BitVec.toNat_setWidth] at hnet'
    exact BitVec.eq_of_toNat_eq (by omega)
  subst en
  cases ho with
  | short _ _ hno => exact ⟨⟨hw.1, hrec.record, hw.2.2⟩, hno⟩
  | paid _ hm _ => have := hm.1; omega

/-- `w2` is `w` with `x` tokens in the vault `kv`. -/
def WithBalance (kv : Pubkey) (x : U64) (w w2 : World) : Prop :=
  (∀ k, k ≠ kv → w2.acc k = w.acc k) ∧ ∃ v, (w.acc kv).data = .token v ∧ (w2.acc kv).data = .token { v with amount := x }

/-- C54: a withdrawal never fails for lack of tokens in the vault: where it succeeds with some balance of the vault, it also succeeds with
any balance that is too small. -/
theorem C54_short_succeeds {kw kv kt : Pubkey} {x fee net : U64} {r : Withdrawal WSolEvent} {t : TokenSettings} {w2 : World}
    (h : run env ctx cpi .withdrawMultiTokenSol w = .ok w')
    (h0 : ctx.accounts[0]? = some kw) (h1 : ctx.accounts[1]? = some kv) (h3 : ctx.accounts[3]? = some kt)
    (hw : Holds (withdrawalC wSolEventC) recLen (w.acc kw) r) (ht : Holds tokenSettingsC recLen (w.acc kt) t)
    (hfee : feeOf t.feeWithdrawalInfo (r.event.amount.setWidth 64) = .ok fee)
    (hnet : net.toNat + fee.toNat = r.event.amount.toNat % 2 ^ 64) (hx : x.toNat < net.toNat) (h2 : WithBalance kv x w w2) :
    ∃ w2', run env ctx cpi .withdrawMultiTokenSol w2 = .ok w2' := by
  obtain ⟨hother, v, hv, hv2⟩ := h2
  simp only [run, processWithdrawSol, bind_ok, acct_ok, sysvar_ok, require_ok, exists_const, ex_unit, validatePda_ok] at h ⊢
  obtain ⟨kw', hkw, kv', hkv, rc, hrc, kt', hkt, km, hkm, ks, hks, k6, hk6, clock, hcl, hcl', ss, hss, r', hr, t', ht', hem, hva, htm, h⟩ := h
  rw [h0] at hkw; cases hkw
  rw [h1] at hkv; cases hkv
  rw [h3] at hkt; cases hkt
  have raw : ∀ {α : Type} {c : Codec α} {len : Nat} {k : Pubkey} {y : α}, Holds c len (w.acc k) y → k ≠ kv := by
    rintro α c len k y ⟨b, q, hb, -⟩ rfl
    rw [hv] at hb; cases hb
  have hrh := (loadWithdrawal_ok.1 hr).1
  have hth := (loadSol_ok.1 ht').1
  have e := hrh.unique hw
  subst e
  have e := hth.unique ht
  subst e
  have ew : w2.acc kw = w.acc kw := hother _ (raw hrh)
  have et : w2.acc kt = w.acc kt := hother _ (raw hth)
  have es : w2.acc ks = w.acc ks := by
    obtain ⟨h', -⟩ := loadSettingsNoEmergency_ok.1 hss
    exact hother _ (raw (loadSettings_ok.1 h').1)
  have hne := withdrawal_ne_token hr (loadSol_token ht')
  have hss2 : loadSettingsNoEmergency env ctx ks w2 = .ok ss := by
    unfold loadSettingsNoEmergency loadSettings at hss ⊢; rw [es]; exact hss
  have hr2 := loadWithdrawal_acc hr ew
  have ht2 : loadSol env ctx kt w2 = .ok t' := by unfold loadSol at ht' ⊢; rw [et]; exact ht'
  suffices hs : ∃ w2', (if hasQuorum r' then do
      let amount : U64 := r'.event.amount.setWidth 64
      let fee ← feeOf t'.ts.feeWithdrawalInfo amount
      let transfer ← orErr (checkedSub amount fee) (.custom .overflow)
      let (w, status) ← settleSol env ctx r' t' km kv rc kt fee transfer w2
      let w := w.log (statusLog kw status)
      putWithdrawal ctx wSolEventC (r'.withStatus status) kw w
    else .ok w2) = .ok w2' by
    obtain ⟨w2', hs⟩ := hs
    exact ⟨w2', kw, h0, kv, h1, rc, hrc, kt, h3, km, hkm, ks, hks, k6, hk6, clock, hcl, hcl', ss, hss2, r', hr2, t', ht2, hem, hva, htm, hs⟩
  have hrecv : ∀ {u : Unit}, checkRecipient env ctx r'.event.payload r'.accountKind km r'.event.recipient rc w = .ok u →
      checkRecipient env ctx r'.event.payload r'.accountKind km r'.event.recipient rc w2 = .ok u := by
    intro u hu
    unfold checkRecipient at hu ⊢
    split
    · rename_i hp
      rw [if_pos hp] at hu
      simp only [bind_ok, tokenOf_ok, require_ok] at hu ⊢
      obtain ⟨tk, g1, g2⟩ := hu
      by_cases hk : rc = kv
      · subst hk
        rw [hv] at g1; cases g1
        exact ⟨_, hv2, g2⟩
      · exact ⟨tk, by rw [hother _ hk]; exact g1, g2⟩
    · rename_i hp
      rw [if_neg hp] at hu
      exact hu
  have short : ∀ {ts : TokenSettings} {wa : World} {s : WStatus}, payFromVault env ctx r' ts km kv rc net w = .ok (wa, s) →
      payFromVault env ctx r' ts km kv rc net w2 = .ok (w2, .pending) := by
    intro ts wa s hp
    simp only [payFromVault, bind_ok, tokenOf_ok, exists_const, ex_unit] at hp ⊢
    obtain ⟨hc, -⟩ := hp
    exact ⟨hrecv hc, _, hv2, by rw [if_pos hx]⟩
  split at h
  · rename_i hq
    rw [if_pos hq]
    simp only [bind_ok, orErr_ok, checkedSub_some, Prod.exists] at h ⊢
    obtain ⟨fee', hfee', tr, htr, w1, s, hse, h2⟩ := h
    rw [hfee] at hfee'; cases hfee'
    have en : tr = net := by
      rw [BitVec.toNat_setWidth] at htr
      exact BitVec.eq_of_toNat_eq (by omega)
    subst en
    unfold settleSol at hse
    split at hse
    · rename_i hst
      simp only [bind_ok, orErr_ok, checkedAdd_some, Prod.exists, Except.ok.injEq, Prod.mk.injEq] at hse
      obtain ⟨daily, hdaily, sup, hsup, wa, s', h5, wb, h4, rfl, rfl⟩ := hse
      -- the world after the payment differs from the one before in token accounts only
      have hraw : KeepsAllRaw w wa ∧ s' ≠ .new ∧ ∃ s2, payIfAllowed env ctx r' { resetEpoch t'.ts (epochOf ctx.now) with
          feeSupply := sup, withdrawalDailyAmount := daily } km kv rc tr w2 = .ok (w2, s2) := by
        unfold payIfAllowed at h5 ⊢
        split
        · rename_i hov
          rw [if_pos hov] at h5
          simp only [Except.ok.injEq, Prod.mk.injEq] at h5
          obtain ⟨rfl, rfl⟩ := h5
          exact ⟨.refl _, by simp, _, rfl⟩
        · rename_i hov
          rw [if_neg hov] at h5
          obtain ⟨ho, hraw⟩ := solOut h5
          refine ⟨hraw, ?_, _, short h5⟩
          cases ho with
          | short => simp
          | paid => unfold doneStatus; split <;> simp
      obtain ⟨hraw, hsn, s2, hpay⟩ := hraw
      obtain ⟨bt, qt, hbt, -⟩ := id hth
      obtain ⟨bw, qw, hbw, -⟩ := id hrh
      have kt1 : wa.acc kt = w.acc kt := (hraw kt).2 bt hbt
      have kw1 : wa.acc kw = w.acc kw := (hraw kw).2 bw hbw
      obtain ⟨wc, hput, hpo⟩ := pack_again (w2 := w2) h4 (by rw [kt1, et])
      have kwb : wb.acc kw = w.acc kw := by rw [pack_other h4 hne, kw1]
      have hrb : Holds (withdrawalC wSolEventC) recLen ((wb.log (statusLog kw s')).acc kw) r' := by
        show Holds _ _ (wb.acc kw) r'
        rw [kwb]; exact hrh
      obtain ⟨wd, hput2⟩ := pack_status (s' := s2) (w2 := wc.log (statusLog kw s2)) h2 hrb (by rw [hst]; exact hsn)
        (by show wc.acc kw = wb.acc kw; rw [hpo kw hne, kwb, ew])
      refine ⟨wd, fee, hfee, tr, htr, wc, s2, ?_, hput2⟩
      unfold settleSol
      rw [hst]
      simp only [bind_ok, orErr_ok, checkedAdd_some, Prod.exists, Except.ok.injEq, Prod.mk.injEq]
      exact ⟨daily, hdaily, sup, hsup, w2, s2, hpay, wc, hput, rfl, rfl⟩
    · rename_i hst
      have hp2 := short hse
      have hsame : r'.withStatus .pending = r' := by rw [← hst]; rfl
      have : ∃ wd, putWithdrawal ctx wSolEventC (r'.withStatus .pending) kw (w2.log (statusLog kw .pending)) = .ok wd := by
        rw [hsame]
        obtain ⟨b, q, hb, hlen, hd⟩ := hrh
        have e := Codec.eq_of_dec _ hd
        refine ⟨_, pack_ok.2 ⟨b, b, by show (w2.acc kw).data = _; rw [ew]; exact hb, hlen, ⟨Codec.wf_of_dec _ hd, ?_, ?_⟩, .inl rfl, rfl⟩⟩
        · rw [e]; simp
        · rw [e]; simp
      obtain ⟨wd, hput⟩ := this
      refine ⟨wd, fee, hfee, tr, htr, w2, .pending, ?_, hput⟩
      unfold settleSol
      rw [hst]
      exact hp2
    · rename_i n1 n2
      have hst2 : settleSol env ctx r' t' km kv rc kt fee tr w2 = .ok (w2, r'.md.status) := by
        unfold settleSol
        split <;> first | (rename_i hst; exact absurd hst ‹_›) | rfl
      simp only [Except.ok.injEq, Prod.mk.injEq] at hse
      obtain ⟨rfl, rfl⟩ := hse
      obtain ⟨wd, hput, -⟩ := pack_again (w2 := w2.log (statusLog kw r'.md.status)) h2 (by show w2.acc kw = w.acc kw; exact ew)
      exact ⟨wd, fee, hfee, tr, htr, w2, _, hst2, hput⟩
  · rename_i hq
    rw [if_neg hq]
    exact ⟨w2, rfl⟩

/-- On the example chain, gold has its vault whenever its settings are there. -/
theorem toy_vault {a : Except Err World} (hr : Reach Toy.env Toy.L (Toy.get a)) {t : TokenSettings} (ht : TokenAt Toy.env (Toy.get a) Toy.tpGold t)
    (hk : t.kind = .solana Toy.gold Toy.tpVault) : VaultOf Toy.env (Toy.get a) Toy.gold Toy.tpVault := by
  obtain ⟨w0, tr, hg, h⟩ := hr
  exact (C53_address Toy.distinct hg h ht hk (by simp [Toy.L, Toy.locked]) (.inl (by decide +kernel))).2

example : VaultOf Toy.env (Toy.get Toy.tpVote3) Toy.gold Toy.tpVault ∧ Toy.L Toy.tpVault ∧ Toy.gold ≠ Toy.env.nativeMint ∧
    ∃ tr, Run Toy.env Toy.L true (Toy.get Toy.tpVote3) tr (Toy.get Toy.tpPaid) ∧ total (drawn Toy.tpVault) tr = 999 := by
  obtain ⟨t, ht, -, hk⟩ := toy_gold (a := Toy.tpVote3) (by decide +kernel)
  refine ⟨toy_vault Toy.reach_tpVote3 ht hk, by simp [Toy.L, Toy.locked], by decide +kernel, _,
    .tp _ _ (.nil _ _) rfl (Toy.free (c := Toy.solCtx Toy.wd1 Toy.bobGold) (by decide +kernel)) (Toy.get_tp (a := Toy.tpVote3) (by decide +kernel)), ?_⟩
  exact Nat.eq_of_beq_eq_true (by decide +kernel)

example : bal (Toy.get Toy.tpBig3) Toy.tpVault < 89955 ∧ bal (Toy.get Toy.tpPending) Toy.tpVault = bal (Toy.get Toy.tpBig3) Toy.tpVault :=
  ⟨Nat.le_of_ble_eq_true (by decide +kernel), Nat.eq_of_beq_eq_true (by decide +kernel)⟩

/-! ## C29: the tokens of Everscale -/

theorem fees_of {kt : Pubkey} {t : TokenSettings} (h : Holds tokenSettingsC recLen (w.acc kt) t) : fees w kt = t.feeSupply.toNat := by
  obtain ⟨b, r, hb, -, hd⟩ := h
  unfold fees
  rw [hb]
  simp only [hd]

/-- C29 (deposits): whatever accounts it is given, a deposit of a token of Everscale burns exactly the deposited amount from an account of the
token the signing depositor may spend from, and records the fee in the settings of the same token. -/
theorem C29_deposit {sd : U128} {a v : U64} {rc : EverAddress} {ev : Pubkey} {py : Bytes}
    (h : run env ctx cpi (.depositMultiTokenEver sd a rc v ev py) w = .ok w') :
    ∃ cr ct km kt t mk token d, ∃ fee net : Nat, ctx.accounts[1]? = some cr ∧ ctx.accounts[2]? = some ct ∧ ctx.accounts[4]? = some km ∧
      ctx.accounts[6]? = some kt ∧ ctx.isSigner cr = true ∧ (∃ s s', (w.acc ct).data = .token s ∧ spendAuth s cr a = .ok s') ∧
      TokenOf env ctx w kt t ∧ t.kind = .ever mk token d ∧ IsAddr env ctx.program (mintSeeds env token) km ∧ IsToken env w ct km ∧
      feeSpec t.feeDepositInfo.multiplier.toNat t.feeDepositInfo.divisor.toNat a.toNat = some fee ∧ net + fee = a.toNat ∧
      Burns ct km a.toNat w w' ∧ fees w' kt = fees w kt + fee := by
  obtain ⟨f, cr, ct, dp, mi, mv, kt, t, mk, token, d, m, t', fee, net, tr, -, a1, a2, a3, a4, -, a6, hsig, hto, hk, -, hmi, hm, -, hfee, hnet, htr, hb, hct, hsp,
    -, ht', -, hsup, -⟩ := depositEver_fx h
  exact ⟨cr, ct, mi, kt, t, mk, token, d, fee.toNat, net.toNat, a1, a2, a4, a6, hsig, hsp, hto, hk, hmi, hct, (C20_fee_value _ _ _).1 hfee, hnet, hb,
    by rw [fees_of ht', fees_of hto.2.1, hsup]⟩

example : ∃ w', run Toy.env (Toy.tctx [Toy.funder, Toy.bob, Toy.bobStar, Toy.tpDep 4, Toy.starMint, Toy.tpMulti, Toy.tpStar, Toy.tpSettings,
    Toy.env.systemId, Toy.env.splId, Toy.env.rentId] [Toy.funder, Toy.bob]) noCpi (.depositMultiTokenEver 4 20000 Toy.home 7 0 []) (Toy.get Toy.tpPaidE) =
      .ok w' := ⟨_, Toy.get_tp (a := Toy.tpPaidE) (by decide +kernel)⟩

/-- The settings an instruction uses are those of the token, or of another one. -/
theorem ever_pick {kt kt' km km' mi mi' : Pubkey} {token token' : EverAddress} {d d' : U8} {s t : TokenSettings} (hp : ctx.program = env.tpId)
    (hs : TokenAt env w kt s) (hk : s.kind = .ever mi token d) (ha : IsAddr env env.tpId (tokenSeeds env s.kind) kt)
    (hm : IsAddr env env.tpId (mintSeeds env token) km) (ht : TokenOf env ctx w kt' t) (hk' : t.kind = .ever mi' token' d')
    (hm' : IsAddr env ctx.program (mintSeeds env token') km') :
    (kt' = kt ∧ km' = km ∧ t = s ∧ token' = token) ∨ (kt' ≠ kt ∧ (km' ≠ km ∨ token' ≠ token ∧ IsAddr env env.tpId (mintSeeds env token') km)) := by
  rw [hp] at hm'
  by_cases h : kt' = kt
  · subst h
    have e := ht.2.1.unique hs.2.1
    subst e
    rw [hk] at hk'; cases hk'
    exact .inl ⟨rfl, hm'.unique hm, rfl, rfl⟩
  · refine .inr ⟨h, ?_⟩
    by_cases h2 : km' = km
    · subst h2
      refine .inr ⟨?_, hm'⟩
      rintro rfl
      have h3 := ht.1
      rw [hp, hk'] at h3
      rw [hk] at ha
      exact h (h3.unique ha)
    · exact .inl h2

/-- C29 (the part that holds): in every history that starts with a deployed Everscale token, each step changes supply plus recorded fees exactly as
the instruction says: a deposit takes away what is credited (before decimals), a payout adds the amount of the event, and fee withdrawals change
nothing. A withdrawal that had to be approved adds the fee when it was found to exceed the limits, and the amount less the then current fee when it is
approved; these add up to the amount only if the fee did not change in between, see `C29_overcounted`. -/
theorem C29_flow_partial {top : Bool} {tr : List Ev} {km kt mi : Pubkey} {token : EverAddress} {d dec : U8} {t : TokenSettings} (hd : env.Distinct)
    (hr : Run env L top w tr w') (ht : TokenAt env w kt t) (hlive : Live w kt) (hk : t.kind = .ever mi token d)
    (ha : IsAddr env env.tpId (tokenSeeds env t.kind) kt) (hm : MintOf env w token km dec) (hL : L km) :
    ∀ e ∈ tr, EverFlow env km kt token e := by
  obtain ⟨-, g⟩ := hr.guardedMint hd hL hm.2
  obtain ⟨-, -, hh⟩ := token_hist hd hr ht hlive
  have kinds : ∀ e ∈ tr, ∀ s, TokenAt env e.pre kt s → s.kind = t.kind := by
    have := hr.fold (P := fun x l => (∀ s, TokenAt env x kt s → s.kind = t.kind) ∧ ∀ e ∈ l, ∀ s, TokenAt env e.pre kt s → s.kind = t.kind) []
      ⟨fun s hs => by rw [hs.unique ht], fun e he => absurd he List.not_mem_nil⟩ ?_
    · exact fun e he => (by simpa using this.2 : ∀ e ∈ tr, ∀ s, TokenAt env e.pre kt s → s.kind = t.kind) e he
    · rintro e he l ⟨h1, h2⟩
      refine ⟨fun s hs => ?_, fun x hx => ?_⟩
      · obtain ⟨s1, s2, q1, q2, hor⟩ := hh e he
        have e2 := hs.unique q2
        subst e2
        rcases hor with rfl | ⟨c, i, -, -, -, -, hch⟩
        · exact h1 _ q1
        · exact hch.kinds.2.2.trans (h1 _ q1)
      · rcases List.mem_append.1 hx with hx | hx
        · exact h2 x hx
        · rw [List.mem_singleton.1 hx]; exact h1
  intro e he
  obtain ⟨s1, s2, q1, q2, hor⟩ := hh e he
  obtain ⟨g1, g2, -⟩ := g e he
  have hst := hr.steps e he
  have hk1 : s1.kind = .ever mi token d := (kinds e he s1 q1).trans hk
  have ha1 : IsAddr env env.tpId (tokenSeeds env s1.kind) kt := by rw [kinds e he s1 q1]; exact ha
  have f1 : fees e.pre kt = s1.feeSupply.toNat := fees_of q1.2.1
  have f2 : fees e.post kt = s2.feeSupply.toNat := fees_of q2.2.1
  obtain ⟨b1, hb1, hb1'⟩ := q1.raw
  have fsame : e.post.acc kt = e.pre.acc kt → fees e.post kt = fees e.pre kt := by
    intro h; rw [f1, f2, q1.same q2 h]
  have frame : ∀ {S : Pubkey → Prop}, Frame S e.pre e.post → ¬ S kt → fees e.post kt = fees e.pre kt := by
    intro S hf hn
    have hne : b1 ≠ [] := by
      rintro rfl; rw [hb1] at hb1'; exact hb1' rfl
    obtain ⟨b, r, hb, hl, hdc⟩ := q1.2.1
    rw [hb1] at hb; cases hb
    have := (hf kt b1 hn hb1 hne).1
    have h2 : Holds tokenSettingsC recLen (e.post.acc kt) s1 := ⟨b1, r, this, hl, hdc⟩
    rw [f1, f2, q2.2.1.unique h2]
  by_cases hd1 : ∃ ctx sd a rc v ev py, e.act = .tp ctx (.depositMultiTokenEver sd a rc v ev py)
  · obtain ⟨ctx, sd, a, rc, v, ev, py, hact⟩ := hd1
    obtain ⟨hp, hs, h⟩ := step_run hst hact (by simp) (by simp)
    obtain ⟨f, cr, ct, dp, km', mv, kt', t0, mk, token', d', m, t', fee, net, tr', -, -, a2, -, a4, -, a6, -, ho, hk', -, hmi, hmd, -, hfee, hnet, -, hbu, -, -,
      -, hh', -, hfs, -, -, -, -, hfr⟩ := depositEver_fx h
    rcases ever_pick hp q1 hk1 ha1 hm.1 ho hk' hmi with ⟨rfl, rfl, rfl, rfl⟩ | ⟨hne, hor' | ⟨hn, hc⟩⟩
    · have hf2 := fees_of hh'
      have hsu := (hbu km').2
      rw [if_pos rfl] at hsu
      refine .deposit ctx sd a rc v ev py ct t0 fee net hact a2 a4 a6 ho hfee hnet hbu ?_
      unfold backing
      omega
    · refine .same ?_ (frame hfr fun h => hne h.symm)
      have hsu := (hbu km).2
      rw [if_neg (Ne.symm hor')] at hsu
      omega
    · exact .clash ctx _ kt' t0 mk token' d' hact (List.mem_of_getElem? a6) ho hk' hn hc
  by_cases hd2 : ∃ ctx, e.act = .tp ctx .withdrawMultiTokenEver
  · obtain ⟨ctx, hact⟩ := hd2
    obtain ⟨hp, hs, h⟩ := step_run hst hact (by simp) (by simp)
    obtain ⟨kw, km', rc, kt', r, a0, a1, -, a3, hw, ⟨hsame, -⟩ | ⟨w1, hw1, hkw, hne, t0, m, het, hor'⟩⟩ := withdrawEver_fx h
    · exact .same (by rw [hsame]) (by rw [hsame])
    · -- no deployment into the accounts of the token; another token may be deployed
      have hkeep : (w1 = e.pre) ∨ (kt' ≠ kt ∧ km' ≠ km ∧ w1.acc kt = e.pre.acc kt ∧ supply w1 km = supply e.pre km) := by
        rcases hw1 with ⟨h, -⟩ | ⟨-, hdp⟩
        · exact .inl h
        · refine .inr ⟨?_, ?_, hdp.full kt hb1', hdp.supply km⟩
          · rintro rfl; exact hb1' hdp.absent.2.1
          · rintro rfl
            obtain ⟨m', hm', -⟩ := g1.data
            have := hdp.absent.1
            rw [hm'] at this
            cases this
      obtain ⟨ho, ⟨mi', d', hk'⟩, -, hmi, -⟩ := id het
      rcases hkeep with rfl | ⟨hk1', hk2', hk3', hk4'⟩
      · rcases ever_pick hp q1 hk1 ha1 hm.1 ho hk' hmi with ⟨rfl, rfl, rfl, htok⟩ | ⟨hne', hor''⟩
        · rcases hor' with ⟨hsame, -⟩ | ⟨hc, hst', amount, fee, net, st, t', hamt, hfee, hnet, hrec, hbk, hou⟩
          · exact .same (by rw [hsame]) (by rw [hsame])
          · have hf2 := fees_of hrec.token
            have hfe := hbk.fee
            have hset : st ≠ .new → StatusSet env kw r st e := fun hn =>
              have ho := hp ▸ hrec.genuine (withStatus_ne (by rw [hst']; exact hn))
              ⟨ho, hrec.owner.trans ho, hrec.record⟩
            rcases hou with ⟨hl, rfl, hnt⟩ | ⟨-, rfl, -, hmt, -⟩
            · refine .waits ctx kw r t0 m amount fee net hact a0 a1 a3 (hset (by simp)) hw htok hc hst' het hamt hfee hnet hl hnt ?_
              unfold backing
              rw [(hnt km').2]
              omega
            · refine .payout ctx kw rc r t0 m amount fee net hact a0 a1 a3 (hset (doneStatus_ne (.inl rfl))) hw htok hc hst' het hamt hfee hnet hmt ?_
              have := (hmt km').2
              rw [if_pos rfl] at this
              unfold backing
              omega
        · rcases hor'' with hor'' | ⟨hn, hc⟩
          · rcases hor' with ⟨hsame, -⟩ | ⟨hc, hst', amount, fee, net, st, t', hamt, hfee, hnet, hrec, hbk, hou⟩
            · exact .same (by rw [hsame]) (by rw [hsame])
            · refine .same ?_ (fsame (hrec.other q1 hw (Ne.symm hne')))
              rcases hou with ⟨hl, -, hnt⟩ | ⟨-, -, -, hmt, -⟩
              · exact (hnt km).2
              · have := (hmt km).2
                rw [if_neg (Ne.symm hor'')] at this
                exact this
          · exact .clash ctx _ kt' t0 mi' _ d' hact (List.mem_of_getElem? a3) ho hk' hn hc
      · rcases hor' with ⟨rfl, -⟩ | ⟨hc, hst', amount, fee, net, st, t', hamt, hfee, hnet, hrec, hbk, hou⟩
        · exact .same hk4' (fsame hk3')
        · refine .same ?_ (fsame ?_)
          · rcases hou with ⟨hl, -, hnt⟩ | ⟨-, -, -, hmt, -⟩
            · rw [(hnt km).2, hk4']
            · have := (hmt km).2
              rw [if_neg (Ne.symm hk2')] at this
              omega
          · have hb1w : (w1.acc kt).data = .raw b1 := by rw [hk3']; exact hb1
            rw [hrec.rest kt (q1.ne hw) (Ne.symm hk1') b1 hb1w, hk3']
  by_cases hd3 : ∃ ctx, e.act = .tp ctx .approveWithdrawEver
  · obtain ⟨ctx, hact⟩ := hd3
    obtain ⟨hp, hs, h⟩ := step_run hst hact (by simp) (by simp)
    obtain ⟨-, kw, km', rc, kt', r, t0, m, a2, a1, -, a4, hw, hne, het, hst', amount, fee, net, t', hamt, hfee, hnet, hrec, hrel, -, hmt, -⟩ := approveEver_fx h
    obtain ⟨ho, ⟨mi', d', hk'⟩, -, hmi, -⟩ := id het
    rcases ever_pick hp q1 hk1 ha1 hm.1 ho hk' hmi with ⟨rfl, rfl, rfl, htok⟩ | ⟨hne', hor' | ⟨hn, hc⟩⟩
    · have ho := hp ▸ hrec.genuine (withStatus_ne (by rw [hst']; exact doneStatus_ne (.inr (.inr rfl))))
      refine .approved ctx kw rc r t0 m amount fee net hact a2 a4 ⟨ho, hrec.owner.trans ho, hrec.record⟩ hw htok hst' het hamt hfee hnet hmt ?_
      have hf2 := fees_of hrec.token
      have hfe : t'.feeSupply = t0.feeSupply := by
        unfold Released at hrel
        split at hrel
        · rw [hrel.2]
        · rw [hrel]
      have := (hmt km').2
      rw [if_pos rfl] at this
      unfold backing
      rw [hf2, hfe]
      omega
    · refine .same ?_ (fsame (hrec.other q1 hw (Ne.symm hne')))
      have := (hmt km).2
      rw [if_neg (Ne.symm hor')] at this
      exact this
    · exact .clash ctx _ kt' t0 mi' _ d' hact (List.mem_of_getElem? a4) ho hk' hn hc
  by_cases hd4 : ∃ ctx a, e.act = .tp ctx (.withdrawEverFee a)
  · obtain ⟨ctx, a, hact⟩ := hd4
    obtain ⟨hp, hs, h⟩ := step_run hst hact (by simp) (by simp)
    obtain ⟨-, km', kt', rc, t0, mi', token', d', sup, a1, a3, -, ho, hk', hmi, hsup, hmt, hh', hkr⟩ := everFee_fx h
    rcases ever_pick hp q1 hk1 ha1 hm.1 ho hk' hmi with ⟨rfl, rfl, rfl, rfl⟩ | ⟨hne', hor' | ⟨hn, hc⟩⟩
    · have hf2 := fees_of hh'
      have := (hmt km').2
      rw [if_pos rfl] at this
      simp only at hf2
      refine .fee ctx a rc hact hmt (by omega) ?_
      unfold backing
      omega
    · refine .same ?_ (fsame (hkr kt (Ne.symm hne') b1 hb1))
      have := (hmt km).2
      rw [if_neg (Ne.symm hor')] at this
      exact this
    · exact .clash ctx _ kt' t0 mi' token' d' hact (List.mem_of_getElem? a3) ho hk' hn hc
  -- all other steps
  have hfees : fees e.post kt = fees e.pre kt := by
    rcases hor with rfl | ⟨ctx, i, hact, hp, -, h, hch⟩
    · rw [f1, f2]
    · have no : ∀ {kt' v m : Pubkey} {t0 : TokenSettings}, TokenOf env ctx e.pre kt' t0 → t0.kind = .solana m v → kt' ≠ kt := by
        rintro kt' v m t0 ho hk' rfl
        have e := ho.2.1.unique q1.2.1
        subst e
        rw [hk1] at hk'; cases hk'
      cases hch with
      | depositEver sd a r v x p => exact (hd1 ⟨ctx, sd, a, r, v, x, p, hact⟩).elim
      | depositSol sd n y a r v x p =>
        obtain ⟨f, cr, ct, kv, dp, km', mv, kt', w1, t0, tm, tv, m, t', fee, net, -, -, -, -, -, -, -, a7, -, -, -, hw1, -, ho, hk', -, -, -, -, -, -, -, -,
          -, -, -, -, -, -, -, -, -, -, -, hfr⟩ := depositSol_fx h
        refine frame hfr fun hkk => ?_
        subst hkk
        rcases hw1 with ⟨rfl, -⟩ | ⟨-, hdp, -⟩
        · exact no ho hk' rfl
        · exact hb1' hdp.absent.2.1
      | withdraw i hi =>
        rcases hi with rfl | rfl
        · exact (hd2 ⟨ctx, hact⟩).elim
        · obtain ⟨kw, kv, rc, kt', km', r, t0, v, -, -, -, a3, -, hw, ho, hk', -, -, -, ⟨hsame, -⟩ | ⟨-, fee, net, st, t', -, -, hrec, -⟩⟩ := withdrawSol_fx h
          · exact fsame (hsame kt)
          · exact fsame (hrec.other q1 hw (Ne.symm (no ho hk')))
      | release => rw [f1, f2]
      | fee i a sup hi =>
        rcases hi with rfl | rfl
        · exact (hd4 ⟨ctx, a, hact⟩).elim
        · obtain ⟨-, kv, kt', rc, t0, mi', vt, sup', -, a2, -, ho, hk', -, -, -, -, hkr⟩ := solFee_fx h
          exact fsame (hkr kt (Ne.symm (no ho hk')) b1 hb1)
      | depositLimit => rw [f1, f2]
      | limits => rw [f1, f2]
      | enable => rw [f1, f2]
      | disable => rw [f1, f2]
      | updateFee f => rw [f1, f2]; cases f <;> rfl
      | name => rw [f1, f2]
  by_cases hsu : supply e.post km = supply e.pre km
  · exact .same hsu hfees
  · rcases supply_step hd hL hst g1 hsu with ⟨hx, hlt⟩ | ⟨ctx, i, hact, -, -, rfl | rfl | ⟨n, rfl⟩ | ⟨sd, n, r, v, x, p, rfl⟩⟩
    · refine .burnt hx ?_
      unfold backing
      omega
    · exact (hd2 ⟨ctx, hact⟩).elim
    · exact (hd3 ⟨ctx, hact⟩).elim
    · exact (hd4 ⟨ctx, n, hact⟩).elim
    · exact (hd1 ⟨ctx, sd, n, r, v, x, p, hact⟩).elim

/-- On the example chain, the star token with its mint. -/
theorem toy_star {a : Except Err World} (hr : Reach Toy.env Toy.L (Toy.get a))
    (h : Toy.tchk tokenSettingsC (fun s => s.isInitialized && (s.accountKind.intoTokenSettings.isSome && match s.kind with
      | .ever m k d => Nat.beq m.toNat Toy.starMint.toNat && (decide (k = Toy.star) && Nat.beq d.toNat 9)
      | _ => false)) (Toy.get a) Toy.tpStar = true) :
    ∃ t, TokenAt Toy.env (Toy.get a) Toy.tpStar t ∧ Live (Toy.get a) Toy.tpStar ∧ t.kind = .ever Toy.starMint Toy.star 9#8 ∧
      IsAddr Toy.env Toy.env.tpId (tokenSeeds Toy.env t.kind) Toy.tpStar ∧ MintOf Toy.env (Toy.get a) Toy.star Toy.starMint 9#8 := by
  obtain ⟨t, ht, hl, hk⟩ := Toy.tfind_token h
  obtain ⟨w0, tr, hg, hrun⟩ := hr
  have hk' : t.kind = .ever Toy.starMint Toy.star 9#8 := by
    cases hh : t.kind with
    | ever m k d =>
      rw [hh] at hk
      simp only [Bool.and_eq_true, decide_eq_true_eq] at hk
      rw [BitVec.eq_of_toNat_eq (Nat.eq_of_beq_eq_true hk.1), hk.2.1,
        show d = 9#8 from BitVec.eq_of_toNat_eq (Nat.eq_of_beq_eq_true hk.2.2)]
    | solana => rw [hh] at hk; cases hk
  obtain ⟨h1, h2⟩ := hrun.mintOf Toy.distinct hg ht hk' (by simp [Toy.L, Toy.locked])
  exact ⟨t, ht, hl, hk', by rw [hk']; exact h2, h1⟩

example : ∃ t, TokenAt Toy.env (Toy.get Toy.tpPaidE) Toy.tpStar t ∧ Live (Toy.get Toy.tpPaidE) Toy.tpStar ∧ t.kind = .ever Toy.starMint Toy.star 9#8 ∧
    IsAddr Toy.env Toy.env.tpId (tokenSeeds Toy.env t.kind) Toy.tpStar ∧ MintOf Toy.env (Toy.get Toy.tpPaidE) Toy.star Toy.starMint 9#8 ∧
    Toy.L Toy.starMint ∧ ∃ tr, Run Toy.env Toy.L true (Toy.get Toy.tpPaidE) tr (Toy.get Toy.tpDepE) := by
  obtain ⟨t, h1, h2, h3, h4, h5⟩ := toy_star Toy.reach_tpPaidE ?_
  refine ⟨t, h1, h2, h3, h4, h5, by simp [Toy.L, Toy.locked], _, .tp _ _ (.nil _ _) rfl (Toy.free ?_)
    (Toy.get_tp (a := Toy.tpPaidE) ?_)⟩
  checked

/-- C29 is false: a withdrawal of 70000 waits for its approval, and its fee of 35 is recorded; the fee is lowered before the approval, which mints
69999. Together 70034 were added to supply and recorded fees, for a withdrawal of 70000. -/
theorem C29_overcounted : ∃ (env : Env) (L : Pubkey → Prop) (w w' : World) (tr : List Ev) (c1 c2 c3 : Ctx) (kw km kt : Pubkey) (r : Withdrawal WEverEvent),
    env.Distinct ∧ Reach env L w ∧ Run env L true w tr w' ∧
      tr.map (·.act) = [.tp c1 .withdrawMultiTokenEver, .tp c2 (.updateFee .withdrawal 1 100000), .tp c3 .approveWithdrawEver] ∧
      c1.accounts[0]? = some kw ∧ c3.accounts[2]? = some kw ∧ c1.accounts[1]? = some km ∧ c1.accounts[3]? = some kt ∧
      Holds (withdrawalC wEverEventC) recLen (w.acc kw) r ∧ MintOf env w r.event.token km 9#8 ∧
      r.event.amount.toNat = 70000 ∧ r.event.decimals.toNat = 9 ∧ backing w' km kt = backing w km kt + 70034 := by
  obtain ⟨r, ho, -, hr, hP⟩ := Toy.tfind (c := withdrawalC wEverEventC) (w := Toy.get Toy.tpS3) (k := Toy.wd5)
    (P := fun r => Nat.beq r.event.amount.toNat 70000 && (Nat.beq r.event.decimals.toNat 9 && decide (r.event.token = Toy.star))) (by decide +kernel)
  simp only [Bool.and_eq_true, decide_eq_true_eq] at hP
  have run3 : run Toy.env Toy.everCtx noCpi .withdrawMultiTokenEver (Toy.get Toy.tpS3) = .ok (Toy.get Toy.tpSWait) :=
    Toy.get_tp (a := Toy.tpS3) (by decide +kernel)
  have runF : run Toy.env Toy.starManCtx noCpi (.updateFee .withdrawal 1 100000) (Toy.get Toy.tpSWait) = .ok (Toy.get Toy.tpSFee) :=
    Toy.get_tp (a := Toy.tpSWait) (by decide +kernel)
  have runD : run Toy.env { Toy.approveCtxE with now := 200000 } noCpi .approveWithdrawEver (Toy.get Toy.tpSFee) = .ok (Toy.get Toy.tpSDone) :=
    Toy.get_tp (a := Toy.tpSFee) (by decide +kernel)
  obtain ⟨t, -, -, -, -, hm⟩ := toy_star Toy.reach_tpS3 (by decide +kernel)
  have hb : Nat.beq (backing (Toy.get Toy.tpSDone) Toy.starMint Toy.tpStar) (backing (Toy.get Toy.tpS3) Toy.starMint Toy.tpStar + 70034) = true := by
    decide +kernel
  exact ⟨Toy.env, Toy.L, _, _, _, Toy.everCtx, Toy.starManCtx, { Toy.approveCtxE with now := 200000 }, Toy.wd5, Toy.starMint, Toy.tpStar, r, Toy.distinct,
    Toy.reach_tpS3, .tp _ _ (.tp _ _ (.tp _ _ (.nil _ _) rfl (Toy.free (by decide +kernel)) run3) rfl (Toy.free (by decide +kernel)) runF) rfl
      (Toy.free (by decide +kernel)) runD, rfl, rfl, rfl, rfl, rfl, hr, by rw [hP.2.2]; exact hm, Nat.eq_of_beq_eq_true hP.1, Nat.eq_of_beq_eq_true hP.2.1,
    Nat.eq_of_beq_eq_true hb⟩

end Verif.Props
