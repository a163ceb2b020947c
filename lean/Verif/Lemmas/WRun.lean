import Verif.Lemmas.WView
/-!
# What one instruction does to a withdrawal
-/
set_option linter.unusedSimpArgs false
namespace Verif.TP
open Codec Verif

variable {env : Env} {L : Pubkey → Prop} {ctx : Ctx} {w w' w0 : World} {k : Pubkey} {i : Instr}

/-- A closed account within its last transaction: given back to the system, zero bytes. -/
def Dead (env : Env) (a : Account) : Prop := a.owner = env.systemId ∧ a.data.len ≠ 0 ∧ ∃ n, a.data = .raw (zeros n)

theorem dead_step {op : Op} (he : Exec env ctx op w w') (h1 : ctx.program ≠ env.systemId) (h2 : env.systemId ≠ env.splId)
    (h : Dead env (w.acc k)) : Dead env (w'.acc k) := by
  obtain ⟨ho, hl, n, hz⟩ := h
  have keep : (w'.acc k).owner = (w.acc k).owner → (w'.acc k).data = (w.acc k).data → Dead env (w'.acc k) :=
    fun a b => ⟨a.trans ho, by rw [b]; exact hl, n, b.trans hz⟩
  have nspl : (w.acc k).owner ≠ env.splId := by rw [ho]; exact h2
  have nprog : (w.acc k).owner ≠ ctx.program := by rw [ho]; exact h1.symm
  cases exec_ch he k with
  | same h => exact keep (by rw [h]) (by rw [h])
  | gain _ hl hd' ho' => exact keep ho' hd'
  | pay _ _ h _ hd' ho' => exact keep ho' hd'
  | move x n hop _ how hl hd' ho' => exact (nprog how).elim
  | write b b' hop hw how hb hlen h => exact (nprog how).elim
  | close hop hw how h => exact (nprog how).elim
  | create f s n sp o hop hw hsys hlen hl' haddr h => exact (hl hlen).elim
  | createFunded p s f sp o n hop hw hsys hlen haddr hl' hn h => exact (hl hlen).elim
  | xferSrc _ _ _ _ _ _ _ _ how => exact (nspl how).elim
  | xferDst _ _ _ _ _ _ _ how => exact (nspl how).elim
  | mintDst _ _ _ _ _ _ _ how => exact (nspl how).elim
  | mintMint _ _ _ _ _ _ _ how => exact (nspl how).elim
  | burnSrc _ _ _ _ _ _ _ _ how => exact (nspl how).elim
  | burnMint _ _ _ _ _ _ _ how => exact (nspl how).elim
  | initAcc _ _ _ _ how => exact (nspl how).elim
  | initMint _ _ _ _ how => exact (nspl how).elim
  | sync _ _ _ _ how => exact (nspl how).elim

theorem _root_.Verif.Ops.dead {W : Op → Prop} (h : Ops env ctx W w w') (h1 : ctx.program ≠ env.systemId)
    (h2 : env.systemId ≠ env.splId) (hd : Dead env (w.acc k)) : Dead env (w'.acc k) :=
  h.lift (R := fun x y => Dead env (x.acc k) → Dead env (y.acc k)) (fun _ h => h) (fun _ _ _ f g h => g (f h))
    (fun _ _ _ _ he h => dead_step he h1 h2 h) hd

/-- Follow an account that may be closed on the way. -/
theorem _root_.Verif.Ops.track2 {W : Op → Prop} (h : Ops env ctx W w w') (h1 : ctx.program ≠ env.systemId)
    (h2 : ctx.program ≠ env.splId) (h3 : env.systemId ≠ env.splId) {P : Bytes → Nat → Prop} {C : Prop}
    (hmono : ∀ b l l', P b l → l ≤ l' → P b l')
    (hmove : ∀ x n b l l', W (.move k x n) → P b l → l ≤ l' + n → P b l')
    (hclose : W (.close k) → C) (hlen : ∀ b l, P b l → b.length ≠ 0)
    (hwrite : ∀ b b' l, W (.write k b b') → b'.length = b.length → P b l → P b' l)
    (ho : (w.acc k).owner = ctx.program) (hP : ∃ b, (w.acc k).data = .raw b ∧ P b (w.acc k).lamports) :
    ((w'.acc k).owner = ctx.program ∧ ∃ b, (w'.acc k).data = .raw b ∧ P b (w'.acc k).lamports) ∨
      (C ∧ Dead env (w'.acc k)) := by
  refine h.lift (R := fun x y => (((x.acc k).owner = ctx.program ∧ ∃ b, (x.acc k).data = .raw b ∧ P b (x.acc k).lamports) ∨
      (C ∧ Dead env (x.acc k))) →
    (((y.acc k).owner = ctx.program ∧ ∃ b, (y.acc k).data = .raw b ∧ P b (y.acc k).lamports) ∨
      (C ∧ Dead env (y.acc k)))) (fun _ h => h)
    (fun _ _ _ f g h => g (f h)) ?_ (.inl ⟨ho, hP⟩)
  rintro op x y hW he (⟨ho, b, hb, hP⟩ | ⟨hC, hdead⟩)
  · cases own_step he ho h1 h2 with
    | keep ho' hd' hl => exact .inl ⟨ho'.trans ho, b, hd'.trans hb, hmono _ _ _ hP hl⟩
    | move z n hop ho' hd' hl => subst hop; exact .inl ⟨ho'.trans ho, b, hd'.trans hb, hmove _ _ _ _ _ hW hP hl⟩
    | write b1 b' hop hb1 hlen h =>
      subst hop
      rw [hb] at hb1
      cases hb1
      rw [h]
      exact .inl ⟨ho, b', rfl, hwrite _ _ _ hW hlen hP⟩
    | close hop h =>
      subst hop
      right
      refine ⟨hclose hW, by rw [h], ?_, by rw [h]; exact ⟨_, rfl⟩⟩
      rw [h]
      simpa [Data.len, hb, zeros] using hlen _ _ hP
  · exact .inr ⟨hC, dead_step he h1 h3 hdead⟩

/-- Permitted changes of a withdrawal in one instruction. -/
inductive WCh (env : Env) (ctx : Ctx) (w0 : World) (k : Pubkey) (i : Instr) (p : GenericProposal) (md : WMeta) (p' : GenericProposal)
    (md' : WMeta) : Prop
  | ever (x x' : Withdrawal WEverEvent) (hp : p = x.view wEverEventC) (hm : md = x.md) (hp' : p' = x'.view wEverEventC)
      (hm' : md' = x'.md) (he : Exact wEverEventC x)
      (ha : i ≠ .executePayloadEver → IsAddr env ctx.program (proposalSeeds p.roundNumber p.pda (env.hash p.event)) k)
      (h : EverCh env ctx w0 x i x')
  | sol (x x' : Withdrawal WSolEvent) (hp : p = x.view wSolEventC) (hm : md = x.md) (hp' : p' = x'.view wSolEventC)
      (hm' : md' = x'.md) (he : Exact wSolEventC x)
      (ha : i ≠ .executePayloadSol → IsAddr env ctx.program (proposalSeeds p.roundNumber p.pda (env.hash p.event)) k)
      (h : SolCh env ctx w0 x i x')
  | vote (kr v : Pubkey) (j : Nat) (x : Vote) (rr : RL.RelayRound) (hi : i = .voteForWithdrawRequest x) (hx : x ≠ .none)
      (ha : IsAddr env ctx.program (proposalSeeds p.roundNumber p.pda (env.hash p.event)) k)
      (hr : Holds RL.relayRoundC RL.relayRoundLen (w0.acc kr) rr) (hri : rr.isInitialized = true)
      (hra : IsAddr env env.rlId (relayRoundSeeds p.roundNumber) kr)
      (hv : rr.relays.findIdx? (fun k => k == v) = some j) (hsig : ctx.isSigner v = true)
      (hold : p.signers[j]? = some Vote.none)
      (hp' : p' = { p with signers := p.signers.set j x }) (hm' : md' = md)

theorem fill_or (i : Instr) : (∃ sd rc a v e p, i = .fillWithdrawSol sd rc a v e p) ∨ (∀ sd rc a v e p, i ≠ .fillWithdrawSol sd rc a v e p) := by
  cases i with
  | fillWithdrawSol sd rc a v e p => exact .inl ⟨sd, rc, a, v, e, p, rfl⟩
  | _ => exact .inr (fun _ _ _ _ _ _ => nofun)

/-- A write over withdrawal bytes. -/
theorem w_write {p p1 : GenericProposal} {md md1 : WMeta} {b b' : Bytes}
    (ho : OneReading p.event) (h : Why env ctx w0 i (.write k b b')) (h0 : WithdrawalAt env w0 k p md)
    (hb : WBytes p1 md1 b) (hor : (p1 = p ∧ md1 = md) ∨ WCh env ctx w0 k i p md p1 md1) :
    ∃ p' md', WBytes p' md' b' ∧ WCh env ctx w0 k i p md p' md' := by
  have hev : p1.event = p.event := by
    rcases hor with ⟨rfl, -⟩ | h
    · rfl
    · cases h with
      | ever x x' hp hm hp' hm' he ha h => rw [hp, hp']; simp only [Withdrawal.view, h.exact.1]
      | sol x x' hp hm hp' hm' he ha h => rw [hp, hp']; simp only [Withdrawal.view, h.exact.1]
      | vote kr v j x rr hi hx ha hr hri hra hv hsig hold hp' hm' => rw [hp']
  obtain ⟨hl, ⟨r1, hdec⟩, hini, hk, hm⟩ := hb
  obtain ⟨ho0, ⟨b0, r0, hb0, hl0, hdec0⟩, hini0, hk0, hm0⟩ := h0
  obtain ⟨nk, npn, hk⟩ := hk
  obtain ⟨q1, hq1⟩ := header_genericProposal hdec
  cases h with
  | new k b' hn =>
    have := zeros_head hq1
    rw [hini] at this
    cases this
  | settings k b b' r n' pn' s2 s3 hl2 hd2 hini hk2 ha hc h0 hs =>
    obtain ⟨q2, hq2⟩ := header_settings hd2
    rw [hq1, hk, hk2] at hq2
    simp only [Option.some.injEq, Prod.mk.injEq, reduceCtorEq, and_false, false_and] at hq2
  | token k b b' r n' pn' s2 s3 hl2 hd2 hini hk2 ha hc h0 hs =>
    obtain ⟨q2, hq2⟩ := header_token hd2
    rw [hq1, hk, hk2] at hq2
    simp only [Option.some.injEq, Prod.mk.injEq, reduceCtorEq, and_false, false_and] at hq2
  | ever k b b' r x x' hl1 hd2 hini1 ha hk2 h0 hc hst =>
    have e1 : wEverEventC.enc x.event = p1.event := by
      exact (hev ▸ ho : OneReading p1.event).ever hl hd2 hdec
    obtain ⟨v1, v2, v3⟩ := views_agree hd2 hdec hm e1
    obtain ⟨b2, r2, hb2, -, hd0⟩ := h0
    rw [hb0] at hb2
    cases hb2
    obtain ⟨u1, u2, u3⟩ := views_agree hd0 hdec0 hm0 (e1.trans hev)
    have hx' : Exact wEverEventC x' := by
      obtain ⟨c1, c2, c3⟩ := hc.exact
      unfold Exact
      rw [c1, c2, c3]
      exact v3
    refine ⟨_, _, wbytes_write hl hst hx' (hc.kind.1.trans hini1) (by rw [hc.kind.2]; exact hk2), ?_⟩
    refine .ever x x' u1 u2 rfl rfl v3 (fun hi => ?_) hc
    obtain ⟨n, pn, -, haddr⟩ := ha hi
    exact ⟨n, by rw [u1]; exact haddr⟩
  | sol k b b' r x x' hl1 hd2 hini1 ha hk2 h0 hc hst =>
    have e1 : wSolEventC.enc x.event = p1.event := by
      exact (hev ▸ ho : OneReading p1.event).sol hl hd2 hdec
    obtain ⟨v1, v2, v3⟩ := views_agree hd2 hdec hm e1
    have u : p = x.view wSolEventC ∧ md = x.md := by
      rcases fill_or i with ⟨sd, rc, a, v, e, py, rfl⟩ | hnf
      · rcases hor with ⟨rfl, rfl⟩ | h
        · exact ⟨v1, v2⟩
        · exfalso
          have hst : x.md.status = .pending := by cases hc; assumption
          cases h with
          | ever y y' hp hm hp' hm' he ha h => cases h
          | sol y y' hp hm hp' hm' he ha h =>
            cases h
            rw [v2] at hm'
            rw [hm'] at hst
            simp [Withdrawal.withStatus] at hst
          | vote kr v j x rr hi => cases hi
      · obtain ⟨b2, r2, hb2, -, hd0⟩ := h0 hnf
        rw [hb0] at hb2
        cases hb2
        obtain ⟨u1, u2, u3⟩ := views_agree hd0 hdec0 hm0 (e1.trans hev)
        exact ⟨u1, u2⟩
    obtain ⟨u1, u2⟩ := u
    have hx' : Exact wSolEventC x' := by
      obtain ⟨c1, c2, c3⟩ := hc.exact
      unfold Exact
      rw [c1, c2, c3]
      exact v3
    refine ⟨_, _, wbytes_write hl hst hx' (hc.kind.1.trans hini1) (by rw [hc.kind.2]; exact hk2), ?_⟩
    refine .sol x x' u1 u2 rfl rfl v3 (fun hi => ?_) hc
    obtain ⟨n, pn, -, haddr⟩ := ha hi
    exact ⟨n, by rw [u1]; exact haddr⟩
  | vote k kr v b b' r q j x rr n' pn' hi h0 hx hd2 hk2 ha hr hri hra hv hsig hold hst =>
    rw [hb0] at h0
    cases h0
    rw [hdec0] at hd2
    cases hd2
    refine ⟨{ p with signers := p.signers.set j x }, md, ⟨hst.length.trans hl0, ⟨_, hst.dec⟩, hini0, hk0, hm0⟩, ?_⟩
    exact .vote kr v j x rr hi hx ⟨_, ha⟩ hr hri hra hv hsig hold rfl rfl

/-- What one instruction does to a withdrawal: nothing, a permitted change, or it closes it. -/
theorem w_run {p : GenericProposal} {md : WMeta} (hd : env.Distinct) (hp : ctx.program = env.tpId)
    (ho : OneReading p.event) (h : run env ctx noCpi i w = .ok w')
    (h0 : WithdrawalAt env w k p md) :
    (∃ p' md', WithdrawalAt env w' k p' md' ∧ ((p' = p ∧ md' = md) ∨ WCh env ctx w k i p md p' md')) ∨
      ((i = .closeWithdrawal ∧ md.status.final = true ∧ IsAddr env env.tpId (proposalSeeds p.roundNumber p.pda (env.hash p.event)) k) ∧
        Dead env (w'.acc k)) := by
  have h0' := h0
  obtain ⟨ho0, ⟨b0, r0, hb0, hl0, hdec0⟩, hini0, ⟨nk, npn, hk0⟩, hm0⟩ := h0
  have := (run_ops h).track2 (k := k)
    (P := fun b _ => ∃ p' md', WBytes p' md' b ∧ ((p' = p ∧ md' = md) ∨ WCh env ctx w k i p md p' md'))
    (C := i = .closeWithdrawal ∧ md.status.final = true ∧ IsAddr env env.tpId (proposalSeeds p.roundNumber p.pda (env.hash p.event)) k)
    (by rw [hp]; exact hd.tpSys) (by rw [hp]; exact hd.tpSpl) hd.sysSpl (fun _ _ _ h _ => h) (fun _ _ _ _ _ _ h _ => h)
    (fun hW => by
      cases hW with
      | closeDeposit k sd d b r hi ha hb hdd n hk hsig =>
        obtain ⟨q1, hq1⟩ := header_genericProposal hdec0
        obtain ⟨q2, hq2⟩ := header_genericDeposit hdd
        rw [hb0] at hb
        cases hb
        rw [hq1, hk0, hk] at hq2
        simp at hq2
      | closeWithdrawal k q md' hi hq hm hs =>
        obtain ⟨⟨b, r, hb, hdec⟩, n, pn, hk, ha⟩ := loadGeneric_ok.1 hq
        rw [hb0] at hb
        cases hb
        rw [hdec0] at hdec
        cases hdec
        rw [hm0] at hm
        cases hm
        refine ⟨hi, ?_, n, hp ▸ ha⟩
        rcases hs with hs | hs <;> rw [hs] <;> rfl)
    (fun b l ⟨p', md', hw, _⟩ => by rw [hw.1]; decide)
    (fun b b' l hW hlen ⟨p1, md1, hb, hor⟩ => by
      obtain ⟨p', md', h1, h2⟩ := w_write ho hW h0' hb hor
      exact ⟨p', md', h1, .inr h2⟩)
    (by rw [hp]; exact ho0) ⟨b0, hb0, p, md, ⟨hl0, ⟨_, hdec0⟩, hini0, ⟨_, _, hk0⟩, hm0⟩, .inl ⟨rfl, rfl⟩⟩
  rcases this with ⟨ho', b', hb', p', md', hw, hor⟩ | h
  · exact .inl ⟨p', md', withdrawalAt_bytes.2 ⟨by rw [ho', hp], b', hb', hw⟩, hor⟩
  · exact .inr h

end Verif.TP
