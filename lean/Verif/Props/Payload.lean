import Verif.Spec.ToyTactic
import Verif.Spec.ToyForge
import Verif.Spec.Payload
import Verif.Lemmas.WLife
import Verif.Props.Deposits
/-!
# Payloads
-/
set_option linter.unusedSimpArgs false
set_option maxRecDepth 100000
namespace Verif.Props
open Verif TP

variable {env : Env} {L : Pubkey → Prop} {ctx : Ctx} {k : Pubkey} {w w' : World}

/-! ## C37: a payload runs only for a genuine, approved withdrawal -/

/-- The bytes executed as a withdrawal are the withdrawal that is there. -/
theorem exec_view {E : Type} {ec : Codec E} {x : Withdrawal E} {n : U8} {pn : Option U8} (hd : env.Distinct)
    (hone : ∀ {b r' r'' : Bytes} {x : Withdrawal E} {p : GenericProposal}, OneReading p.event → b.length = recLen →
        (withdrawalC ec).dec b = some (x, r') → GenericProposal.codec.dec b = some (p, r'') → ec.enc x.event = p.event)
    (hi : WInv env k w) (ho : (w.acc k).owner = env.tpId) (hr : Holds (withdrawalC ec) recLen (w.acc k) x)
    (hini : x.isInitialized = true) (hkd : x.accountKind = .proposal n pn) :
    WithdrawalAt env w k (x.view ec) x.md := by
  have hrlo : (w.acc k).owner ≠ env.rlId := by rw [ho]; exact hd.rlTp.symm
  have hm : Marked env (w.acc k) (.proposal n pn) := by
    refine hi.1.marked hrlo ?_
    have := head_withdrawal hr
    rwa [hini, hkd] at this
  obtain ⟨p, md, hw1, hg1⟩ := hi.2 _ _ hm
  obtain ⟨b1, r1, hb1, hl1, hdec1⟩ := hr
  obtain ⟨ho1, b1', hb1', -, ⟨r1', hdec1'⟩, -, -, hmd1⟩ := withdrawalAt_bytes.1 hw1
  rw [hb1] at hb1'; cases hb1'
  obtain ⟨rfl, rfl, hex⟩ := views_agree hdec1 hdec1' hmd1 (hone hg1.event hl1 hdec1 hdec1')
  exact hw1

/-- C37 (accounts of the program): the program signs for the account `px` during a payload only if the account given is a withdrawal waiting
for execution, which was confirmed by a quorum, and `px` is a proxy account for the token and the recipient of that withdrawal.  What is
missing: the account must belong to the token proxy; the program does not check this, see `C37_forged`. -/
theorem C37_genuine_partial {tr : List Ev} {i : Instr} {px : Pubkey} {c : World} (hd : env.Distinct) (h : History env L k tr w)
    (hp : ctx.program = env.tpId) (hk : ctx.accounts[0]? = some k) (ho : (w.acc k).owner = env.tpId)
    (hno : ∀ x, run env ctx noCpi i w ≠ .ok x) (hr : run env ctx (cpiTo px c) i w = .ok w') :
    executes i ∧ ∃ p md mint recipient payload, WithdrawalAt env w k p md ∧ md.status = .waitingForExecute ∧
      PayloadFor env p.event mint recipient payload ∧ IsProxy env mint recipient px ∧
      ∃ e ∈ tr, ∃ p0 md0, WithdrawalAt env e.pre k p0 md0 ∧ Quorum p0 ∧ p0.event = p.event := by
  obtain ⟨hi, -⟩ := h.evs hd
  have fin : ∀ {p md}, WithdrawalAt env w k p md → md.status = .waitingForExecute →
      ∃ e ∈ tr, ∃ p0 md0, WithdrawalAt env e.pre k p0 md0 ∧ Quorum p0 ∧ p0.event = p.event := by
    intro p md hw hst
    obtain ⟨e, he, p0, md0, h1, -, h2, h3, -⟩ := h.quorum hd hw (by rw [hst]; decide)
    exact ⟨e, he, p0, md0, h1, h2, h3⟩
  cases payload_ok hno hr with
  | ever k' m r n pn l hk' hh hini hst hm hkd hl hpx hput =>
    rw [hk] at hk'; cases hk'
    have hw := exec_view hd (fun a b c d => OneReading.ever a b c d) hi ho hh hini hkd
    rw [hp] at hm hpx
    exact ⟨.inl rfl, _, _, m, r.event.recipient, r.event.payload, hw, hst, .inr ⟨_, _, _, _, _, rfl, hm⟩, ⟨_, hpx⟩, fin hw hst⟩
  | sol k' r n pn l hk' hh hini hst hkd hl hpx hput =>
    rw [hk] at hk'; cases hk'
    have hw := exec_view hd (fun a b c d => OneReading.sol a b c d) hi ho hh hini hkd
    rw [hp] at hpx
    exact ⟨.inr rfl, _, _, r.event.mint, r.event.recipient, r.event.payload, hw, hst, .inl ⟨_, rfl⟩, ⟨_, hpx⟩, fin hw hst⟩

/-- On the example chain the payload of a paid withdrawal is executed: the proxy account's gold is spent. -/
example : ∃ tr c w', History Toy.env Toy.L Toy.wd4 tr (Toy.get Toy.tpPaidP) ∧ ((Toy.get Toy.tpPaidP).acc Toy.wd4).owner = Toy.env.tpId ∧
    (∀ x, run Toy.env Toy.execCtx4 noCpi .executePayloadSol (Toy.get Toy.tpPaidP) ≠ .ok x) ∧
    run Toy.env Toy.execCtx4 (cpiTo Toy.tpProxy c) .executePayloadSol (Toy.get Toy.tpPaidP) = .ok w' := by
  obtain ⟨tr, h⟩ := Toy.followed_tpPaidP.history ?_
  obtain ⟨p, md, hw, -⟩ := Toy.tfind_withdrawal (P := fun _ _ => true) (w := Toy.get Toy.tpPaidP) (k := Toy.wd4) ?_
  exact ⟨tr, _, _, h, hw.1, Toy.exec_no, Toy.exec_done⟩
  checked

/-- A final withdrawal stays as it is until the account is removed. -/
theorem stays_final {t1 t2 : List Ev} {e : Ev} {st : WStatus} (hd : env.Distinct) (h : History env L k (t1 ++ e :: t2) w)
    (hst : st.final = true) (he : ∃ p md, WithdrawalAt env e.post k p md ∧ md.status = st) :
    (∃ e ∈ t2, Removes k e) ∨ ∃ p md, WithdrawalAt env w k p md ∧ md.status = st := by
  obtain ⟨-, hev⟩ := h.evs hd
  obtain ⟨⟨w0, hg, hr⟩, hL, hrd⟩ := h
  have := hr.fold (P := fun w t => ∀ t1 t2, t = t1 ++ e :: t2 → (∃ e ∈ t2, Removes k e) ∨
      ∃ p' md', WithdrawalAt env w k p' md' ∧ md'.status = st) []
    (by intro t1 t2 h; cases t1 <;> cases h) (fun x hx t hP s1 s2 hs => by
      obtain ⟨hi, hi', hv⟩ := hev x hx
      rcases snoc_cases hs with ⟨rfl, rfl, rfl⟩ | ⟨s3, rfl, rfl⟩
      · exact .inr he
      · rcases hP _ _ rfl with ⟨e', he', hr⟩ | ⟨p1, md1, h1, hs1⟩
        · exact .inl ⟨e', List.mem_append_left _ he', hr⟩
        · rcases hv.next hd h1 with ⟨p2, md2, h2, hst', -⟩ | ⟨-, hr, -⟩
          · refine .inr ⟨p2, md2, h2, ?_⟩
            rcases hst' with hst' | hst'
            · rw [hst', hs1]
            · rw [hs1] at hst'
              revert hst'
              generalize md2.status = b
              intro hst'
              cases hst' <;> cases hst
          · exact .inl ⟨x, by simp, hr⟩)
  exact this t1 t2 rfl

/-- C37 (once): once a withdrawal has been processed, executing its payload again does nothing, until the account is removed.  What is
missing: after its removal the same withdrawal can be requested again, see C50. -/
theorem C37_once_partial {t1 t2 : List Ev} {e : Ev} {i : Instr} {cpi : Pubkey → World → Except Err World} (hd : env.Distinct)
    (h : History env L k (t1 ++ e :: t2) w) (hdone : ∃ p md, WithdrawalAt env e.post k p md ∧ md.status = .processed)
    (hk : ctx.accounts[0]? = some k) (hi : executes i) (hr : run env ctx cpi i w = .ok w') :
    (∃ e ∈ t2, Removes k e) ∨ w' = w := by
  rcases stays_final hd h rfl hdone with hrem | ⟨p, md, hw, hst⟩
  · exact .inl hrem
  · right
    obtain ⟨hinv, -⟩ := h.evs hd
    rcases hi with rfl | rfl
    · simp only [run, processExecutePayloadEver, bind_ok, acct_ok, unpack_holds] at hr
      obtain ⟨k', hk', r, ⟨hh, hini⟩, hr⟩ := hr
      rw [hk] at hk'; cases hk'
      split at hr
      · rename_i hs
        simp only [bind_ok, Prod.exists, orErr_ok] at hr
        obtain ⟨-, -, -, n, pn, hkd, -⟩ := hr
        have hv := exec_view hd (fun a b c d => OneReading.ever a b c d) hinv hw.1 hh hini (intoProposal_some.1 hkd)
        obtain ⟨rfl, rfl⟩ := hw.unique hv
        rw [hs] at hst; cases hst
      · cases hr; rfl
    · simp only [run, processExecutePayloadSol, bind_ok, acct_ok, unpack_holds] at hr
      obtain ⟨k', hk', r, ⟨hh, hini⟩, hr⟩ := hr
      rw [hk] at hk'; cases hk'
      split at hr
      · rename_i hs
        simp only [bind_ok, Prod.exists, orErr_ok] at hr
        obtain ⟨n, pn, hkd, -⟩ := hr
        have hv := exec_view hd (fun a b c d => OneReading.sol a b c d) hinv hw.1 hh hini (intoProposal_some.1 hkd)
        obtain ⟨rfl, rfl⟩ := hw.unique hv
        rw [hs] at hst; cases hst
      · cases hr; rfl

/-- On the example chain `wd1` has been processed, and nothing removed it; executing it succeeds. -/
example : ∃ tr e p md w', History Toy.env Toy.L Toy.wd1 (tr ++ e :: []) (Toy.get Toy.tpPaid) ∧ WithdrawalAt Toy.env e.post Toy.wd1 p md ∧
    md.status = .processed ∧ run Toy.env (Toy.tctx [Toy.wd1] []) noCpi .executePayloadSol (Toy.get Toy.tpPaid) = .ok w' := by
  obtain ⟨tr, ⟨w0, hg, hr⟩, hL, hrd⟩ := Toy.followed_tpVote3.history ?_
  obtain ⟨p, md, hw, hs⟩ := Toy.tfind_withdrawal (P := fun _ md => md.status == .processed) (w := Toy.get Toy.tpPaid) (k := Toy.wd1)
    ?_
  obtain h1 : run Toy.env (Toy.solCtx Toy.wd1 Toy.bobGold) noCpi .withdrawMultiTokenSol (Toy.get Toy.tpVote3) = .ok (Toy.get Toy.tpPaid) :=
    Toy.get_tp (a := Toy.tpVote3) ?_
  obtain h2 : run Toy.env (Toy.tctx [Toy.wd1] []) noCpi .executePayloadSol (Toy.get Toy.tpPaid) = .ok _ :=
    Toy.get_tp (a := Toy.tpPaid) ?_
  refine ⟨tr, _, p, md, _, ⟨⟨w0, hg, .tp _ _ hr rfl (Toy.free ?_) h1⟩, hL, Toy.readable_snoc hrd ?_⟩, hw,
    eq_of_beq hs, h2⟩
  checked

/-- C37 is false: the account given need not belong to the token proxy.  A program of a stranger owns account `k`, which holds the bytes of a
withdrawal nobody voted for; executing its payload lets the stranger empty another person's proxy account, without any signature. -/
theorem C37_forged : ∃ env L w c w' ctx k mint victim px x, Env.Distinct env ∧ Reach env L w ∧ ctx.program = env.tpId ∧ ctx.signers = [] ∧
    ctx.accounts = [k] ∧ (w.acc k).owner ≠ env.tpId ∧ Holds (withdrawalC wSolEventC) recLen (w.acc k) x ∧ x.signers = [] ∧
    Run env L true w [⟨.ext, w, c⟩, ⟨.tp ctx .executePayloadSol, c, w'⟩] w' ∧
    run env ctx (cpiTo px c) .executePayloadSol w = .ok w' ∧ (∀ x, run env ctx noCpi .executePayloadSol w ≠ .ok x) ∧
    IsAddr env env.tpId (proxySeeds mint victim) px ∧ bal w px = 999 ∧ bal w' px = 0 := by
  have hacc : (Toy.get Toy.tpForged).acc Toy.fake = Toy.fakeAccount .waitingForExecute := by
    rw [← Toy.forged_eq, World.set_same]
  have hb : Nat.beq (bal (Toy.get Toy.tpForged) Toy.tpProxy) 999 = true := by decide +kernel
  have hb' : Nat.beq (bal (Toy.get Toy.tpForgeDone) Toy.tpProxy) 0 = true := by decide +kernel
  refine ⟨Toy.env, Toy.L, _, _, _, Toy.forgeCtx, Toy.fake, Toy.gold, Toy.bob, Toy.tpProxy, Toy.fakeRecord .waitingForExecute, Toy.distinct,
    Toy.reach_tpForged, rfl, rfl, rfl, ?_, ?_, rfl, Toy.run_forge, Toy.forge_done, Toy.forge_no, Toy.isAddr _ _,
    Nat.eq_of_beq_eq_true hb, Nat.eq_of_beq_eq_true hb'⟩
  · rw [hacc]; exact Toy.foreign.2
  · rw [hacc]
    refine ⟨_, _, rfl, ?_, (withdrawalC wSolEventC).dec_enc _ _ ?_⟩
    · exact Nat.eq_of_beq_eq_true (by decide +kernel)
    · decide +kernel

/-! ## C42: several payload withdrawals for one recipient -/

/-- C42 is false, for every token of Solana and every recipient: once the proxy account of the recipient exists, no further request with a
payload is accepted. -/
theorem C42_refused_sol {mint vault r px kt : Pubkey} {t : TokenSettings} {pda : PDA} {a : U128} {py : Bytes} {att : U64}
    (hp : ctx.program = env.tpId) (hpx : IsAddr env env.tpId (proxySeeds mint r) px) (hex : (w.acc px).owner ≠ env.systemId)
    (hkt : ctx.accounts[3]? = some kt) (ht : TokenAt env w kt t) (hkind : t.kind = .solana mint vault) (hpy : py ≠ []) :
    ∀ w', run env ctx noCpi (.withdrawMultiTokenSolRequest pda r a py att) w ≠ .ok w' := by
  intro w' h
  obtain ⟨f, au, kw, kt', ks, kr, s, rs, rr, pn, w1, -, -, -, hkt', -, -, -, hs, -, ho, -⟩ := solRequest_fx hp h
  rw [hkt] at hkt'; cases hkt'
  obtain ⟨hh, -, hk, -⟩ := loadSol_ok.1 hs
  obtain rfl := ht.2.1.unique hh
  rw [hkind] at hk; cases hk
  rcases openProxy_ok ho with ⟨e, -⟩ | ⟨-, p, n, w2, -, -, ha, hsys, -⟩
  · exact hpy e
  · rw [hp] at ha
    obtain rfl := hpx.unique ⟨_, ha⟩
    exact hex hsys

/-- The same for every token of Everscale. -/
theorem C42_refused_ever {mint r px : Pubkey} {pda : PDA} {token : EverAddress} {n y : Bytes} {d : U8} {a : U128} {py : Bytes} {att : U64}
    (hp : ctx.program = env.tpId) (hm : IsAddr env env.tpId (mintSeeds env token) mint)
    (hpx : IsAddr env env.tpId (proxySeeds mint r) px) (hex : (w.acc px).owner ≠ env.systemId) (hpy : py ≠ []) :
    ∀ w', run env ctx noCpi (.withdrawMultiTokenEverRequest pda token n y d r a py att) w ≠ .ok w' := by
  intro w' h
  obtain ⟨f, au, kw, ks, kr, rs, rr, pn, w1, mk, mn, -, -, -, -, -, -, -, -, -, hmk, ho, -⟩ := everRequest_fx hp h
  rw [requestMint, if_neg hpy, hp] at hmk
  obtain rfl := hm.unique ⟨_, hmk⟩
  rcases openProxy_ok ho with ⟨e, -⟩ | ⟨-, p, n, w2, -, -, ha, hsys, -⟩
  · exact hpy e
  · rw [hp] at ha
    obtain rfl := hpx.unique ⟨_, ha⟩
    exact hex hsys

/-- On the example chain one payload withdrawal of gold for bob is accepted; afterwards every other one, of whatever amount and payload, is
refused. -/
theorem C42_blocked : ∃ env L w w' ctx r py px kt t mint v, Env.Distinct env ∧ Reach env L w ∧ ctx.program = env.tpId ∧ py ≠ [] ∧
    run env ctx noCpi (.withdrawMultiTokenSolRequest Toy.pda1 r 1000 py 5) w = .ok w' ∧
    IsAddr env env.tpId (proxySeeds mint r) px ∧ TokenAt env w' kt t ∧ t.kind = .solana mint v ∧ (w'.acc px).owner = env.splId ∧
    ∀ c pda a p att x, c.program = env.tpId → c.accounts[3]? = some kt → p ≠ [] →
      run env c noCpi (.withdrawMultiTokenSolRequest pda r a p att) w' ≠ .ok x := by
  obtain ⟨t, ht, -, hk⟩ := toy_gold (a := Toy.tpReqP) ?_
  obtain ho : Nat.beq ((Toy.get Toy.tpReqP).acc Toy.tpProxy).owner.toNat Toy.env.splId.toNat = true := ?_
  have ho := BitVec.eq_of_toNat_eq (Nat.eq_of_beq_eq_true ho)
  refine ⟨Toy.env, Toy.L, _, _, Toy.reqCtx4, Toy.bob, [9], Toy.tpProxy, Toy.tpGold, t, Toy.gold, Toy.tpVault, Toy.distinct, Toy.reach_tpDeposited, rfl,
    by simp, Toy.get_tp (a := Toy.tpDeposited) ?_, Toy.isAddr _ _, ht, hk, ho,
    fun c pda a p att x hp hkt hpy => C42_refused_sol (px := Toy.tpProxy) hp (Toy.isAddr _ _) (by rw [ho]; exact Toy.distinct.sysSpl.symm) hkt ht hk hpy x⟩
  checked

end Verif.Props
