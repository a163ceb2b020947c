import Verif.Lemmas.WFx
import Verif.Lemmas.Locked
/-!
# Withdrawals over histories
-/
set_option linter.unusedSimpArgs false
namespace Verif.TP
open Codec Verif

variable {env : Env} {L : Pubkey → Prop} {ctx : Ctx} {w w' w0 : World} {k : Pubkey} {i : Instr}

/-! ## Records -/

/-- All votes of `l` are in `l'`. -/
def Grow (l l' : List Vote) : Prop := l.length = l'.length ∧ ∀ (j : Nat) (v : Vote), l[j]? = some v → v ≠ .none → l'[j]? = some v

theorem Grow.refl (l : List Vote) : Grow l l := ⟨rfl, fun _ _ h _ => h⟩
theorem Grow.trans {a b c : List Vote} (h : Grow a b) (h' : Grow b c) : Grow a c :=
  ⟨h.1.trans h'.1, fun j v hj hv => h'.2 j v (h.2 j v hj hv) hv⟩

theorem Grow.set {l : List Vote} {j : Nat} {x : Vote} (h : l[j]? = some Vote.none) : Grow l (l.set j x) := by
  refine ⟨by simp, fun i v hi hv => ?_⟩
  by_cases e : j = i
  · subst e
    rw [h] at hi
    cases hi
    exact (hv rfl).elim
  · rw [List.getElem?_set_ne e]; exact hi

/-- The payload is being or has been executed, or there was none. -/
def Busy (s : WStatus) : Prop := s = .waitingForExecute ∨ s = .processed

/-- What can happen to a withdrawal waiting for its payload. -/
def Late (p : GenericProposal) (md : WMeta) (p' : GenericProposal) (md' : WMeta) : Prop :=
  ∃ sg st, p' = { p with signers := sg, metaData := wmetaC.enc { md with status := st } } ∧ md' = { md with status := st } ∧
    Busy st ∧ Grow p.signers sg

theorem WithdrawalAt.meta {p : GenericProposal} {md : WMeta} (h : WithdrawalAt env w k p md) : p.metaData = wmetaC.enc md :=
  ((wmetaC.decAll_iff _ _).1 h.2.2.2.2).2

theorem Late.refl {p : GenericProposal} {md : WMeta} (h : WithdrawalAt env w k p md) (hb : Busy md.status) : Late p md p md := by
  refine ⟨p.signers, md.status, ?_, rfl, hb, .refl _⟩
  rw [← h.meta]

theorem Late.trans {p p1 p2 : GenericProposal} {md md1 md2 : WMeta} (h : Late p md p1 md1) (h' : Late p1 md1 p2 md2) :
    Late p md p2 md2 := by
  obtain ⟨sg, st, rfl, rfl, hb, hg⟩ := h
  obtain ⟨sg', st', rfl, rfl, hb', hg'⟩ := h'
  exact ⟨sg', st', rfl, rfl, hb', hg.trans hg'⟩

theorem EverCh.rest {x x' : Withdrawal WEverEvent} (h : EverCh env ctx w0 x i x') :
    x' = { x with md := x'.md } ∧ x.md.status.final = false := by
  cases h with
  | pay s hq hst hs => exact ⟨rfl, by rw [hst]; rfl⟩
  | approve hst hu => exact ⟨rfl, by rw [hst]; rfl⟩
  | exec hst => exact ⟨rfl, by rw [hst]; rfl⟩

theorem SolCh.rest {x x' : Withdrawal WSolEvent} (h : SolCh env ctx w0 x i x') :
    x' = { x with md := x'.md } ∧ x.md.status.final = false := by
  cases h with
  | pay s hq hst hs => exact ⟨rfl, by rw [hst]; rfl⟩
  | later s hq hst hs => exact ⟨rfl, by rw [hst]; rfl⟩
  | approve s hst hu hs => exact ⟨rfl, by rw [hst]; rfl⟩
  | exec hst => exact ⟨rfl, by rw [hst]; rfl⟩
  | bounty b hst hu => exact ⟨rfl, by rw [hst]; rfl⟩
  | cancel sd rc v e p hst hu => exact ⟨rfl, by rw [hst]; rfl⟩
  | fill sd rc a v e p hst => exact ⟨rfl, by rw [hst]; rfl⟩

/-- A permitted change keeps everything but the meta data and the votes. -/
theorem WCh.rest {p p' : GenericProposal} {md md' : WMeta} (h : WCh env ctx w0 k i p md p' md') :
    p' = { p with signers := p'.signers, metaData := p'.metaData } ∧ Grow p.signers p'.signers ∧
      ((p'.signers = p.signers ∧ md.status.final = false) ∨
        (md' = md ∧ p'.metaData = p.metaData ∧ ∃ v j, i = .voteForWithdrawRequest v ∧ v ≠ .none ∧ p.signers[j]? = some .none ∧
          p'.signers = p.signers.set j v)) := by
  cases h with
  | ever x x' hp hm hp' hm' he ha h =>
    obtain ⟨h1, h2⟩ := h.rest
    subst hp hm hp' hm'
    rw [h1]
    exact ⟨rfl, .refl _, .inl ⟨rfl, h2⟩⟩
  | sol x x' hp hm hp' hm' he ha h =>
    obtain ⟨h1, h2⟩ := h.rest
    subst hp hm hp' hm'
    rw [h1]
    exact ⟨rfl, .refl _, .inl ⟨rfl, h2⟩⟩
  | vote kr v j x rr hi hx ha hr hri hra hv hsig hold hp' hm' =>
    subst hp' hm'
    exact ⟨rfl, .set hold, .inr ⟨rfl, rfl, x, j, hi, hx, hold, rfl⟩⟩

theorem WCh.late {p p' : GenericProposal} {md md' : WMeta} (h : WCh env ctx w0 k i p md p' md') (h0 : WithdrawalAt env w k p md)
    (hb : Busy md.status) : Late p md p' md' := by
  have no : ∀ s, s ≠ .waitingForExecute → s ≠ .processed → md.status = s → False := by
    rintro s h1 h2 rfl
    exact hb.elim h1 h2
  cases h with
  | ever x x' hp hm hp' hm' he ha h =>
    subst hp hm hp' hm'
    cases h with
    | pay s hq hst hs => exact (no _ (by decide) (by decide) hst).elim
    | approve hst hu => exact (no _ (by decide) (by decide) hst).elim
    | exec hst => exact ⟨_, .processed, rfl, rfl, .inr rfl, .refl _⟩
  | sol x x' hp hm hp' hm' he ha h =>
    subst hp hm hp' hm'
    cases h with
    | pay s hq hst hs => exact (no _ (by decide) (by decide) hst).elim
    | later s hq hst hs => exact (no _ (by decide) (by decide) hst).elim
    | approve s hst hu hs => exact (no _ (by decide) (by decide) hst).elim
    | exec hst => exact ⟨_, .processed, rfl, rfl, .inr rfl, .refl _⟩
    | bounty b hst hu => exact (no _ (by decide) (by decide) hst).elim
    | cancel sd rc v e p hst hu => exact (no _ (by decide) (by decide) hst).elim
    | fill sd rc a v e p hst => exact (no _ (by decide) (by decide) hst).elim
  | vote kr v j x rr hi hx ha hr hri hra hv hsig hold hp' hm' =>
    subst hp' hm'
    exact ⟨_, md'.status, by rw [← h0.meta], rfl, hb, .set hold⟩

/-! ## The invariant -/

/-- The withdrawal `p` with meta data `md` at `k` is of an event with one reading, at its address, and can pay for the missing votes. -/
structure WGood (env : Env) (k : Pubkey) (a : Account) (p : GenericProposal) (md : WMeta) : Prop where
  event : OneReading p.event
  addr : IsAddr env env.tpId (proposalSeeds p.roundNumber p.pda (env.hash p.event)) k
  funded : md.status.final = false → relayReparation * p.signers.count .none + max 1 (env.rent recLen) ≤ a.lamports

/-- Whatever looks like a withdrawal at `k` is one. -/
def WInv (env : Env) (k : Pubkey) (w : World) : Prop :=
  Clean env (w.acc k) ∧ ∀ n pn, Marked env (w.acc k) (.proposal n pn) → ∃ p md, WithdrawalAt env w k p md ∧ WGood env k (w.acc k) p md

theorem WInv.good {p : GenericProposal} {md : WMeta} (h : WInv env k w) (h0 : WithdrawalAt env w k p md) :
    WGood env k (w.acc k) p md := by
  have hm := h0.marked
  obtain ⟨n, pn, hk⟩ := h0.2.2.2.1
  rw [hk] at hm
  obtain ⟨p', md', h1, h2⟩ := h.2 _ _ hm
  obtain ⟨rfl, rfl⟩ := h1.unique h0
  exact h2

theorem WInv.of {p : GenericProposal} {md : WMeta} (hc : Clean env (w.acc k)) (h0 : WithdrawalAt env w k p md)
    (hg : WGood env k (w.acc k) p md) : WInv env k w := ⟨hc, fun _ _ _ => ⟨p, md, h0, hg⟩⟩

theorem WInv.genesis (hL : L k) (h : Genesis env L w) : WInv env k w :=
  ⟨.inr (.inr ⟨(h.locked k hL).1, 0, (h.locked k hL).2⟩), fun _ _ hm => (genesis_unmarked h hm).elim⟩

theorem Dead.not {a : Account} (hd : env.Distinct) (h : Dead env a) (kd : AccountKind) : ¬ Marked env a kd :=
  fun hm => hd.tpSys (hm.1.symm.trans h.1)

/-- The request that wrote the record. -/
inductive Asked (env : Env) (ctx : Ctx) (w : World) (k : Pubkey) (p : GenericProposal) (md : WMeta) : Instr → Prop
  | ever (pda : PDA) (t : EverAddress) (n y : Bytes) (d : U8) (r : Pubkey) (a : U128) (py : Bytes) (att : U64)
      (au ks kr : Pubkey) (rs : RL.Settings) (rr : RL.RelayRound) (nn : U8) (pn : Option U8)
      (hk : ctx.accounts[2]? = some k) (hsig : ctx.isSigner au = true) (hn : n.length ≤ maxNameLen) (hy : y.length ≤ maxNameLen)
      (hr : loadRound env ctx ks kr w = .ok (rs, rr))
      (hp : p = ⟨true, .proposal nn pn, au, rr.roundNumber, RL.requiredVotes rr.relays.length rs.minRequiredVotes, pda,
          wEverEventC.enc ⟨t, n, y, d, a, r, py⟩, wmetaC.enc ⟨.new, 0#64, epochOf ctx.now⟩, List.replicate rr.relays.length Vote.none⟩)
      (hm : md = ⟨.new, 0#64, epochOf ctx.now⟩) : Asked env ctx w k p md (.withdrawMultiTokenEverRequest pda t n y d r a py att)
  | sol (pda : PDA) (r : Pubkey) (a : U128) (py : Bytes) (att : U64) (t : SolToken)
      (au kt ks kr : Pubkey) (rs : RL.Settings) (rr : RL.RelayRound) (nn : U8) (pn : Option U8)
      (hk : ctx.accounts[2]? = some k) (hsig : ctx.isSigner au = true) (ht : loadSol env ctx kt w = .ok t)
      (hr : loadRound env ctx ks kr w = .ok (rs, rr))
      (hp : p = ⟨true, .proposal nn pn, au, rr.roundNumber, RL.requiredVotes rr.relays.length rs.minRequiredVotes, pda,
          wSolEventC.enc ⟨t.mint, a, r, py⟩, wmetaC.enc ⟨.new, 0#64, epochOf ctx.now⟩, List.replicate rr.relays.length Vote.none⟩)
      (hm : md = ⟨.new, 0#64, epochOf ctx.now⟩) : Asked env ctx w k p md (.withdrawMultiTokenSolRequest pda r a py att)

/-- One step of a history as the withdrawal at `k` sees it. -/
inductive WEv (env : Env) (L : Pubkey → Prop) (k : Pubkey) (e : Ev) : Prop
  | absent (h : ∀ p md, ¬ WithdrawalAt env e.pre k p md) (h' : ∀ p md, ¬ WithdrawalAt env e.post k p md)
  | request (ctx : Ctx) (i : Instr) (p : GenericProposal) (md : WMeta) (hact : e.act = .tp ctx i) (hp : ctx.program = env.tpId)
      (hs : ∀ k ∈ ctx.signers, ¬ L k) (hr : run env ctx noCpi i e.pre = .ok e.post)
      (h : ∀ p md, ¬ WithdrawalAt env e.pre k p md) (h' : WithdrawalAt env e.post k p md) (ha : Asked env ctx e.pre k p md i)
  | keep (p : GenericProposal) (md : WMeta) (h : WithdrawalAt env e.pre k p md) (h' : WithdrawalAt env e.post k p md)
  | change (ctx : Ctx) (i : Instr) (p : GenericProposal) (md : WMeta) (p' : GenericProposal) (md' : WMeta) (hact : e.act = .tp ctx i)
      (hp : ctx.program = env.tpId) (hs : ∀ k ∈ ctx.signers, ¬ L k) (hr : run env ctx noCpi i e.pre = .ok e.post)
      (h : WithdrawalAt env e.pre k p md) (h' : WithdrawalAt env e.post k p' md') (hc : WCh env ctx e.pre k i p md p' md')
  | payload (ctx : Ctx) (i : Instr) (p : GenericProposal) (md : WMeta) (sg : List Vote) (hact : e.act = .tp ctx i)
      (hp : ctx.program = env.tpId) (hs : ∀ k ∈ ctx.signers, ¬ L k) (hi : i = .executePayloadEver ∨ i = .executePayloadSol)
      (hk : ctx.accounts[0]? = some k) (h : WithdrawalAt env e.pre k p md) (hb : Busy md.status)
      (h' : WithdrawalAt env e.post k { p with signers := sg, metaData := wmetaC.enc { md with status := .processed } }
        { md with status := .processed }) (hg : Grow sg p.signers)
  | close (ctx : Ctx) (p : GenericProposal) (md : WMeta) (hact : e.act = .tp ctx .closeWithdrawal) (hp : ctx.program = env.tpId)
      (hs : ∀ k ∈ ctx.signers, ¬ L k) (hr : run env ctx noCpi .closeWithdrawal e.pre = .ok e.post)
      (h : WithdrawalAt env e.pre k p md) (hf : md.status.final = true) (h' : Dead env (e.post.acc k))
  | purge (p : GenericProposal) (md : WMeta) (hact : e.act = .purge) (h : WithdrawalAt env e.pre k p md) (hf : md.status.final = true)
      (hl : (e.pre.acc k).lamports = 0) (h' : ∀ p md, ¬ WithdrawalAt env e.post k p md)

/-- `CloseWithdrawal` removes the account it names and takes nothing from others. -/
theorem closeWithdrawal_fx (h : run env ctx noCpi .closeWithdrawal w = .ok w') :
    ∃ kp p md, ctx.accounts[0]? = some kp ∧ ctx.accounts[1]? = some p.author ∧ loadGeneric env ctx kp w = .ok p ∧
      wmetaC.decAll p.metaData = some md ∧ md.status.final = true ∧ p.author ≠ kp ∧
      w'.acc kp = ⟨0, env.systemId, .raw (zeros (w.acc kp).data.len)⟩ ∧ w'.logs = w.logs ∧
      ∀ x, x ≠ kp → w'.acc x = { w.acc x with lamports := (w.acc x).lamports + (if x = p.author then (w.acc kp).lamports else 0) } := by
  simp only [run, processCloseWithdrawal, bind_ok, acct_ok, require_ok, exists_const, ex_unit, orErr_ok] at h
  obtain ⟨kp, hk, au, hau, p, hp, rfl, md, hmd, hst, h⟩ := h
  obtain ⟨hne, w1, h1, h2⟩ := deleteAccount_ok h
  obtain ⟨-, -, -, -, hlog, hacc⟩ := moveLamports_ok h1
  simp only [zeroAccount, bind_ok, require_ok, exists_const, Except.ok.injEq] at h2
  obtain ⟨-, -, rfl⟩ := h2
  refine ⟨kp, p, md, hk, hau, hp, hmd, ?_, hne, ?_, hlog, ?_⟩
  · rcases hst with h | h <;> rw [h] <;> rfl
  · simp [hacc kp, hne.symm]
  · intro x hx
    rw [World.set_other _ _ hx, hacc x]
    simp [hx]

/-- The invariant is kept by one instruction of the token proxy. -/
theorem winv_alive {p : GenericProposal} {md : WMeta} (hd : env.Distinct) (hk : L k) (hp : ctx.program = env.tpId)
    (hs : ∀ k ∈ ctx.signers, ¬ L k) (h : run env ctx noCpi i w = .ok w') (hi : WInv env k w) (h0 : WithdrawalAt env w k p md) :
    WInv env k w' ∧
    ((∃ p' md', WithdrawalAt env w' k p' md' ∧ ((p' = p ∧ md' = md) ∨ WCh env ctx w k i p md p' md')) ∨
      (i = .closeWithdrawal ∧ md.status.final = true ∧ Dead env (w'.acc k))) := by
  have hg := hi.good h0
  have hc := clean_tp hp h hi.1
  rcases w_run hd hp hg.event h h0 with ⟨p', md', h1, hor⟩ | ⟨⟨h1, h2, -⟩, h3⟩
  · refine ⟨.of hc h1 ?_, .inl ⟨p', md', h1, hor⟩⟩
    have hrest : p'.event = p.event ∧ p'.roundNumber = p.roundNumber ∧ p'.pda = p.pda := by
      rcases hor with ⟨rfl, -⟩ | hw
      · exact ⟨rfl, rfl, rfl⟩
      · rw [hw.rest.1]; exact ⟨rfl, rfl, rfl⟩
    refine ⟨hrest.1 ▸ hg.event, by rw [hrest.1, hrest.2.1, hrest.2.2]; exact hg.addr, fun hf => ?_⟩
    have hlam : (∀ v, i ≠ .voteForWithdrawRequest v) → (w.acc k).lamports ≤ (w'.acc k).lamports := by
      intro hv
      by_cases hcl : i = .closeWithdrawal
      · subst hcl
        obtain ⟨kp, q, qm, -, -, -, -, -, -, h6, -, h7⟩ := closeWithdrawal_fx h
        have hne : k ≠ kp := by
          rintro rfl
          have := h1.1
          rw [h6] at this
          exact hd.tpSys this.symm
        rw [h7 k hne]
        exact Nat.le_add_right _ _
      · exact w_lamports hd hp h hv hcl h0
    have hold : (p' = p ∧ md' = md) ∨ (p'.signers = p.signers ∧ md.status.final = false) →
        (∀ v, i ≠ .voteForWithdrawRequest v) → relayReparation * p'.signers.count .none + max 1 (env.rent recLen) ≤ (w'.acc k).lamports := by
      intro h' hv
      have := hlam hv
      rcases h' with ⟨rfl, rfl⟩ | ⟨h', h''⟩
      · have := hg.funded hf; omega
      · rw [h']; have := hg.funded h''; omega
    by_cases hv : ∃ v, i = .voteForWithdrawRequest v
    · obtain ⟨v, rfl⟩ := hv
      obtain ⟨voter, kp, kr, q, rr, j, old, a0, a1, a2, hsig, hx, ⟨b, r, hb, hdec⟩, hqk, haddr, hr, hri, hra, hj, hjr, hold', hfx⟩ := vote_fx h
      have hvk : voter ≠ k := by
        rintro rfl
        exact hs _ (by simp [Ctx.isSigner] at hsig; exact hsig.2) hk
      rcases hfx with ⟨-, rfl⟩ | ⟨rfl, how, ⟨b', r', hb', hdec'⟩, -, hacc⟩
      · obtain ⟨rfl, rfl⟩ := h1.unique h0
        exact hg.funded hf
      · by_cases e : k = kp
        · subst e
          obtain ⟨ho0, ⟨b0, r0, hb0, hl0, hdec0⟩, -⟩ := id h0
          rw [hb] at hb0; cases hb0
          rw [hdec] at hdec0; cases hdec0
          obtain ⟨ho1, ⟨b1, r1, hb1, hl1, hdec1⟩, -, -, hmd1⟩ := id h1
          rw [hb'] at hb1; cases hb1
          rw [hdec'] at hdec1; cases hdec1
          have hmd : md' = md := Option.some.inj (hmd1.symm.trans h0.2.2.2.2)
          subst hmd
          have h5 := hg.funded hf
          have h6 := (hacc k).2.2.1
          have h7 := (hacc k).2.2.2 rfl
          rw [if_pos rfl, if_neg hvk.symm] at h6
          have h8 := RL.count_set_none hold' hx
          simp only [relayReparation] at h5 ⊢
          rw [h8] at h5
          omega
        · have hne := (hacc k).2.1 e
          have : WithdrawalAt env w' k p md := h0.congr (hacc k).1 hne
          obtain ⟨rfl, rfl⟩ := h1.unique this
          have h5 := hg.funded hf
          have h6 := (hacc k).2.2.1
          rw [if_neg e, if_neg hvk.symm] at h6
          omega
    · have hv : ∀ v, i ≠ .voteForWithdrawRequest v := fun v e => hv ⟨v, e⟩
      rcases hor with hor | hw
      · exact hold (.inl hor) hv
      · rcases hw.rest.2.2 with h' | ⟨-, -, v, -, h', -⟩
        · exact hold (.inr h') hv
        · exact (hv v h').elim
  · exact ⟨⟨hc, fun n pn hm => (h3.not hd _ hm).elim⟩, .inr ⟨h1, h2, h3⟩⟩

theorem openProxy_unmarked {payload : Bytes} {expected r f sys : Pubkey} {j : Nat} {att : U64} {pn : Option U8} {kd : AccountKind}
    (hd : env.Distinct) (hp : ctx.program = env.tpId) (h : openProxy env ctx payload expected r f sys j att w = .ok (pn, w'))
    (hm : Marked env (w'.acc k) kd) : Marked env (w.acc k) kd := by
  have := (ops_openProxy (w0 := w) (i := .executePayloadSol) h).lift (R := fun x y => Marked env (y.acc k) kd → Marked env (x.acc k) kd)
    (fun _ h => h) (fun _ _ _ f g h => f (g h)) (fun _ _ _ hW he h => by
      rcases marked_back hd hp hW he h with h | ⟨b', s, hn, -⟩
      · exact h
      · cases hn; simp at *)
  exact this hm

/-- Where there was no withdrawal there is none, or a request wrote it. -/
theorem winv_absent (hd : env.Distinct) (hp : ctx.program = env.tpId)
    (h : run env ctx noCpi i w = .ok w') (hi : WInv env k w) (h0 : ∀ n pn, ¬ Marked env (w.acc k) (.proposal n pn))
    (hone : ∀ p md, WithdrawalAt env w' k p md → OneReading p.event) :
    WInv env k w' ∧ ((∀ n pn, ¬ Marked env (w'.acc k) (.proposal n pn)) ∨
      ∃ p md, WithdrawalAt env w' k p md ∧ Asked env ctx w k p md i) := by
  have hc := clean_tp hp h hi.1
  by_cases hm : ∃ n pn, Marked env (w'.acc k) (.proposal n pn)
  · obtain ⟨n, pn, hm⟩ := hm
    rcases marked_run hd hp h hm with hm' | ⟨b', s, hn, hh⟩
    · exact (h0 _ _ hm').elim
    have key : ∀ {p : GenericProposal} {ep : I64} {c : Nat}, WithdrawalAt env w' k p ⟨.new, 0#64, ep⟩ →
        p.signers = List.replicate c Vote.none →
        (w'.acc k).lamports = max 1 (env.rent recLen) + relayReparation * c →
        IsAddr env env.tpId (proposalSeeds p.roundNumber p.pda (env.hash p.event)) k → Asked env ctx w k p ⟨.new, 0#64, ep⟩ i →
        WInv env k w' ∧ ((∀ n pn, ¬ Marked env (w'.acc k) (.proposal n pn)) ∨
          ∃ p md, WithdrawalAt env w' k p md ∧ Asked env ctx w k p md i) := by
      intro p ep c h1 hsg hl ha hask
      refine ⟨.of hc h1 ⟨hone _ _ h1, ha, fun _ => ?_⟩, .inr ⟨_, _, h1, hask⟩⟩
      rw [hsg, List.count_replicate_self, hl]
      have : 1 ≤ max 1 (env.rent recLen) := Nat.le_max_left _ _
      omega
    cases hn with
    | settings g m wm n pn ha hu hs =>
      obtain ⟨q, hq⟩ := header_settings hs.dec
      rw [hh] at hq; simp at hq
    | multiVault g m wm n ha hs =>
      obtain ⟨q, hq⟩ := header_multiVault hs.dec
      rw [hh] at hq; simp at hq
    | tokenSol sd nm y a rc v e p mint vault n vn hn hy ha hv hs =>
      obtain ⟨q, hq⟩ := header_token hs.dec
      rw [hh] at hq; simp [freshTokenSettings] at hq
    | tokenEver kw r mint n mn hr' ha hm hs =>
      obtain ⟨q, hq⟩ := header_token hs.dec
      rw [hh] at hq; simp [freshTokenSettings] at hq
    | depositEver sd a rc v e p n au ev ha hsig hs =>
      obtain ⟨q, hq⟩ := header_deposit hs.dec
      rw [hh] at hq; simp [depositRecord] at hq
    | depositSol sd i n au ev hi ha hsig hs =>
      obtain ⟨q, hq⟩ := header_deposit hs.dec
      rw [hh] at hq; simp [depositRecord] at hq
    | ever pda t nm y d rc a p att n' pn' au rs rr hrd ha hsig hs hk2 =>
      obtain ⟨f, au, kw, ks, kr, rs, rr, pn, w1, mk, mn, hf, hau, hkw, hks, hkr, hsig, hn, hy, hrr, hmk, h1, nn, haddr, hor⟩ := everRequest_fx hp h
      rw [hk2] at hkw
      cases hkw
      rcases hor with ⟨-, rfl⟩ | ⟨-, -, -, h2, h3, -⟩
      · exact (h0 _ _ (openProxy_unmarked hd hp h1 hm)).elim
      · exact key h2 rfl h3 ⟨nn, hp ▸ haddr⟩ (.ever pda t nm y d rc a p att au ks kr rs rr nn pn hk2 hsig hn hy hrr rfl rfl)
    | sol pda rc a p att n' pn' au mint rs rr hrd ha hsig hs hk2 =>
      obtain ⟨f, au, kw, kt, ks, kr, t, rs, rr, pn, w1, hf, hau, hkw, hkt, hks, hkr, hsig, ht, hrr, h1, nn, haddr, hor⟩ := solRequest_fx hp h
      rw [hk2] at hkw
      cases hkw
      rcases hor with ⟨-, rfl⟩ | ⟨-, -, -, h2, h3, -⟩
      · exact (h0 _ _ (openProxy_unmarked hd hp h1 hm)).elim
      · exact key h2 rfl h3 ⟨nn, hp ▸ haddr⟩ (.sol pda rc a p att t au kt ks kr rs rr nn pn hk2 hsig ht hrr rfl rfl)
  · have hm : ∀ n pn, ¬ Marked env (w'.acc k) (.proposal n pn) := fun n pn h => hm ⟨n, pn, h⟩
    exact ⟨⟨hc, fun n pn h => (hm n pn h).elim⟩, .inl hm⟩

/-! ## Histories -/

/-- What a call made while a payload is executed can do to the withdrawal. -/
def Nest (env : Env) (k : Pubkey) (x y : World) : Prop :=
  (∀ p md, WithdrawalAt env x k p md → Busy md.status →
    (∃ p' md', WithdrawalAt env y k p' md' ∧ Late p md p' md') ∨ Dead env (y.acc k)) ∧
  (Dead env (x.acc k) → Dead env (y.acc k))

theorem Nest.refl (w : World) : Nest env k w w := ⟨fun p md h hb => .inl ⟨p, md, h, .refl h hb⟩, id⟩

theorem Nest.trans {x y z : World} (h : Nest env k x y) (h' : Nest env k y z) : Nest env k x z := by
  refine ⟨fun p md h0 hb => ?_, fun hx => h'.2 (h.2 hx)⟩
  rcases h.1 p md h0 hb with ⟨p1, md1, h1, hl⟩ | h1
  · have hb1 : Busy md1.status := by
      obtain ⟨_, _, -, rfl, hb, -⟩ := hl
      exact hb
    rcases h'.1 p1 md1 h1 hb1 with ⟨p2, md2, h2, hl'⟩ | h2
    · exact .inl ⟨p2, md2, h2, hl.trans hl'⟩
    · exact .inr h2
  · exact .inr (h'.2 h1)

theorem Nest.same (ho : (w'.acc k).owner = (w.acc k).owner) (hd : (w'.acc k).data = (w.acc k).data) : Nest env k w w' := by
  refine ⟨fun p md h hb => .inl ⟨p, md, h.congr ho hd, .refl h hb⟩, fun ⟨h1, h2, h3⟩ => ?_⟩
  rw [Dead, ho, hd]
  exact ⟨h1, h2, h3⟩

theorem winv_quiet (hq : QuietFor env.tpId L w w') (hc : Clean env (w'.acc k)) (hi : WInv env k w) :
    WInv env k w' ∧ ((∀ p md, WithdrawalAt env w k p md → WithdrawalAt env w' k p md) ∧
      (∀ p md, WithdrawalAt env w' k p md → ∃ p md, WithdrawalAt env w k p md)) := by
  have fwd : ∀ p md, WithdrawalAt env w k p md → WithdrawalAt env w' k p md ∧ (w.acc k).lamports ≤ (w'.acc k).lamports := by
    intro p md h
    obtain ⟨h1, h2, h3⟩ := (hq k).1 h.1
    exact ⟨h.congr (h1.trans h.1.symm) h2, h3⟩
  refine ⟨⟨hc, fun n pn hm => ?_⟩, fun p md h => (fwd p md h).1, fun p md h => ?_⟩
  · obtain ⟨p, md, h1, h2⟩ := hi.2 n pn (marked_quiet hq hm)
    obtain ⟨h3, h4⟩ := fwd p md h1
    exact ⟨p, md, h3, h2.event, h2.addr, fun hf => Nat.le_trans (h2.funded hf) h4⟩
  · have hm := h.marked
    obtain ⟨n, pn, hk⟩ := h.2.2.2.1
    rw [hk] at hm
    obtain ⟨p, md, h1, -⟩ := hi.2 n pn (marked_quiet hq hm)
    exact ⟨p, md, h1⟩

theorem winv_none (hi : WInv env k w) (h : ∀ p md, ¬ WithdrawalAt env w k p md) : ∀ n pn, ¬ Marked env (w.acc k) (.proposal n pn) :=
  fun n pn hm => by obtain ⟨p, md, h1, -⟩ := hi.2 n pn hm; exact h p md h1

theorem none_of (h : ∀ n pn, ¬ Marked env (w.acc k) (.proposal n pn)) : ∀ p md, ¬ WithdrawalAt env w k p md := by
  intro p md h0
  have hm := h0.marked
  obtain ⟨n, pn, hk⟩ := h0.2.2.2.1
  rw [hk] at hm
  exact h n pn hm

theorem wev_quiet {a : Act} (hq : QuietFor env.tpId L w w') (hc : Clean env (w'.acc k)) (hi : WInv env k w) :
    WInv env k w' ∧ WEv env L k ⟨a, w, w'⟩ := by
  obtain ⟨h1, h2, h3⟩ := winv_quiet hq hc hi
  refine ⟨h1, ?_⟩
  by_cases h : ∃ p md, WithdrawalAt env w k p md
  · obtain ⟨p, md, h⟩ := h
    exact .keep p md h (h2 _ _ h)
  · exact .absent (fun p md h' => h ⟨p, md, h'⟩) (fun p md h' => h (h3 p md h'))

theorem nest_quiet (hq : QuietFor env.tpId L w w') (hdead : Dead env (w.acc k) → Dead env (w'.acc k)) : Nest env k w w' := by
  refine ⟨fun p md h hb => .inl ⟨p, md, ?_, .refl h hb⟩, hdead⟩
  obtain ⟨h1, h2, h3⟩ := (hq k).1 h.1
  exact h.congr (h1.trans h.1.symm) h2

theorem wev_tp (hd : env.Distinct) (hk : L k) (hp : ctx.program = env.tpId)
    (hs : ∀ k ∈ ctx.signers, ¬ L k) (h : run env ctx noCpi i w = .ok w') (hi : WInv env k w)
    (hone : (∀ p md, ¬ WithdrawalAt env w k p md) → ∀ p md, WithdrawalAt env w' k p md → OneReading p.event) :
    WInv env k w' ∧ WEv env L k ⟨.tp ctx i, w, w'⟩ ∧ Nest env k w w' := by
  have hdead : Dead env (w.acc k) → Dead env (w'.acc k) :=
    (run_ops h).dead (by rw [hp]; exact hd.tpSys) hd.sysSpl
  by_cases h0 : ∃ p md, WithdrawalAt env w k p md
  · obtain ⟨p, md, h0⟩ := h0
    obtain ⟨h1, h2⟩ := winv_alive hd hk hp hs h hi h0
    refine ⟨h1, ?_, ?_, hdead⟩
    · rcases h2 with ⟨p', md', h2, ⟨rfl, rfl⟩ | h3⟩ | ⟨rfl, h3, h4⟩
      · exact .keep _ _ h0 h2
      · exact .change ctx i p md p' md' rfl hp hs h h0 h2 h3
      · exact .close ctx p md rfl hp hs h h0 h3 h4
    · intro q qm hq hb
      obtain ⟨rfl, rfl⟩ := h0.unique hq
      rcases h2 with ⟨p', md', h2, ⟨rfl, rfl⟩ | h3⟩ | ⟨rfl, h3, h4⟩
      · exact .inl ⟨_, _, h2, .refl h2 hb⟩
      · exact .inl ⟨_, _, h2, h3.late h0 hb⟩
      · exact .inr h4
  · have h0 : ∀ p md, ¬ WithdrawalAt env w k p md := fun p md h => h0 ⟨p, md, h⟩
    obtain ⟨h1, h2⟩ := winv_absent hd hp h hi (winv_none hi h0) (hone h0)
    refine ⟨h1, ?_, fun p md h => (h0 p md h).elim, hdead⟩
    rcases h2 with h2 | ⟨p, md, h2, h3⟩
    · exact .absent h0 (none_of h2)
    · exact .request ctx i p md rfl hp hs h h0 h2 h3

theorem wev_stale {pk : Pubkey} {w1 c w2 : World} (hd : env.Distinct) (hp : ctx.program = env.tpId)
    (hs : ∀ k ∈ ctx.signers, ¬ L k) (h : Stale env ctx pk w1 c w2 i) (h1 : WInv env k w1) (hc : WInv env k c)
    (hrl : (w1.acc k).owner = env.rlId → (c.acc k).owner = env.rlId) (hn : Nest env k w1 c) : WInv env k w2 ∧ WEv env L k ⟨.tp ctx i, c, w2⟩ ∧ Nest env k w1 w2 := by
  have hcl := clean_stale hp h hc.1
  have keep : w2.acc k = c.acc k → WInv env k w2 ∧ WEv env L k ⟨.tp ctx i, c, w2⟩ ∧ Nest env k w1 w2 := by
    intro e
    have hi2 : WInv env k w2 := by
      refine ⟨hcl, fun n pn hm => ?_⟩
      rw [e] at hm ⊢
      obtain ⟨p, md, h3, h4⟩ := hc.2 n pn hm
      exact ⟨p, md, h3.congr (by rw [e]) (by rw [e]), h4⟩
    refine ⟨hi2, ?_, hn.trans (.same (by rw [e]) (by rw [e]))⟩
    by_cases h0 : ∃ p md, WithdrawalAt env c k p md
    · obtain ⟨p, md, h0⟩ := h0
      exact .keep p md h0 (h0.congr (by rw [e]) (by rw [e]))
    · exact .absent (fun p md h' => h0 ⟨p, md, h'⟩) (fun p md h' => h0 ⟨p, md, h'.congr (by rw [e]) (by rw [e])⟩)
  have key : ∀ {E : Type} {ec : Codec E} {r : Withdrawal E} {n pn},
      (∀ {b r' r'' : Bytes} {x : Withdrawal E} {p : GenericProposal}, OneReading p.event → b.length = recLen →
        (withdrawalC ec).dec b = some (x, r') → GenericProposal.codec.dec b = some (p, r'') → ec.enc x.event = p.event) →
      (i = .executePayloadEver ∨ i = .executePayloadSol) → ctx.accounts[0]? = some k → Holds (withdrawalC ec) recLen (w1.acc k) r →
      r.isInitialized = true → r.md.status = .waitingForExecute → r.accountKind = .proposal n pn →
      putWithdrawal ctx ec (r.withStatus .processed) k c = .ok w2 →
      WInv env k w2 ∧ WEv env L k ⟨.tp ctx i, c, w2⟩ ∧ Nest env k w1 w2 := by
    intro E ec r n pn hone hii hka hr hini hst hkd hput
    by_cases hrlo : (w1.acc k).owner = env.rlId
    · refine keep ?_
      obtain ⟨b, b', hb, hl, hsto, hor, rfl⟩ := pack_ok.1 hput
      rcases hor with rfl | ⟨-, ho⟩
      · rw [setDataRaw_self hb]
      · exact (hd.rlTp ((hrl hrlo).symm.trans (ho.trans hp))).elim
    have hm : Marked env (w1.acc k) (.proposal n pn) := by
      refine h1.1.marked hrlo ?_
      have := head_withdrawal hr
      rwa [hini, hkd] at this
    obtain ⟨p, md, hw1, hg1⟩ := h1.2 _ _ hm
    obtain ⟨b1, r1, hb1, hl1, hdec1⟩ := hr
    obtain ⟨ho1, b1', hb1', -, ⟨r1', hdec1'⟩, -, -, hmd1⟩ := withdrawalAt_bytes.1 hw1
    rw [hb1] at hb1'; cases hb1'
    obtain ⟨rfl, rfl, hex⟩ := views_agree hdec1 hdec1' hmd1 (hone hg1.event hl1 hdec1 hdec1')
    obtain ⟨b, b', hb, hl, hsto, hor, rfl⟩ := pack_ok.1 hput
    have hwb : WBytes ((r.withStatus .processed).view ec) (r.withStatus .processed).md b' :=
      wbytes_write hl hsto (by exact hex) hini ⟨n, pn, hkd⟩
    rcases hn.1 _ _ hw1 (.inl hst) with ⟨pc, mc, hwc, sg, st, rfl, rfl, hbs, hgr⟩ | hdead
    · have hw2 : WithdrawalAt env (c.setDataRaw k (.raw b')) k ((r.withStatus .processed).view ec) (r.withStatus .processed).md :=
        withdrawalAt_bytes.2 ⟨by simpa using hwc.1, b', by simp, hwb⟩
      refine ⟨.of hcl hw2 ⟨hg1.event, hg1.addr, fun hf => ?_⟩, ?_, ?_⟩
      · simp [Withdrawal.withStatus, WStatus.final] at hf
      · exact .payload ctx i _ _ r.signers rfl hp hs hii hka hwc hbs hw2 hgr
      · refine ⟨fun q qm hq _ => .inl ⟨_, _, hw2, ?_⟩, fun hd => ?_⟩
        · obtain ⟨rfl, rfl⟩ := hw1.unique hq
          exact ⟨r.signers, .processed, rfl, rfl, .inr rfl, .refl _⟩
        · obtain ⟨-, -, m, hz⟩ := hd
          rw [hb1] at hz
          cases hz
          exact absurd ((withdrawalAt_bytes.1 hw1).2) (by
            rintro ⟨b2, hb2, hwb2⟩
            rw [hb1] at hb2; cases hb2
            exact wbytes_zeros _ _ _ hwb2)
    · exfalso
      obtain ⟨hod, -, m, hz⟩ := hdead
      rw [hb] at hz; cases hz
      rcases hor with rfl | ⟨-, ho⟩
      · exact wbytes_zeros _ _ _ hwb
      · exact hd.tpSys ((ho.trans hp).symm.trans hod)
  have other : ctx.accounts[0]? ≠ some k → w2.acc k = c.acc k := by
    intro hne
    cases h with
    | ever k' m r n pn l hk' hr hi hst hm hkind hl hp' h =>
      exact (RL.pack_acc h k).2.2 (fun e => hne (e ▸ hk'))
    | sol k' r n pn l hk' hr hi hst hkind hl hp' h =>
      exact (RL.pack_acc h k).2.2 (fun e => hne (e ▸ hk'))
  by_cases e : ctx.accounts[0]? = some k
  · cases h with
    | ever k' m r n pn l hk' hr hi hst hm hkind hl hp' h =>
      rw [hk'] at e; cases e
      exact key OneReading.ever (.inl rfl) hk' hr hi hst hkind h
    | sol k' r n pn l hk' hr hi hst hkind hl hp' h =>
      rw [hk'] at e; cases e
      exact key OneReading.sol (.inr rfl) hk' hr hi hst hkind h
  · exact keep (other e)

theorem Readable.left {tr tr' : List Ev} (h : Readable env k (tr ++ tr')) : Readable env k tr :=
  fun e he => h e (List.mem_append_left _ he)

theorem Readable.right {tr tr' : List Ev} (h : Readable env k (tr ++ tr')) : Readable env k tr' :=
  fun e he => h e (List.mem_append_right _ he)

theorem Readable.last {tr : List Ev} {e : Ev} (h : Readable env k (tr ++ [e])) (h1 : e.pre = w) (h2 : e.post = w') :
    (∀ p md, ¬ WithdrawalAt env w k p md) → ∀ p md, WithdrawalAt env w' k p md → OneReading p.event := by
  subst h1 h2
  exact h e (List.mem_append_right _ (List.mem_singleton.2 rfl))

/-- Every step of a history as the withdrawal at `k` sees it. -/
theorem _root_.Verif.Run.withdrawal {top : Bool} {tr : List Ev} (hd : env.Distinct) (hk : L k)
    (h : Run env L top w tr w') (hi : WInv env k w) (hrd : Readable env k tr) :
    WInv env k w' ∧ (∀ e ∈ tr, WInv env k e.pre ∧ WInv env k e.post ∧ WEv env L k e) ∧ (top = false → Nest env k w w') := by
  induction h with
  | nil => exact ⟨hi, fun e he => absurd he List.not_mem_nil, fun _ => .refl _⟩
  | rl ctx i h hp hs hr ih =>
    obtain ⟨h1, h2, h3⟩ := ih hi hrd.left
    have hq : QuietFor env.tpId L _ _ := RL.quiet_tp hd hp (RL.run_ops hr)
    obtain ⟨h4, h5⟩ := wev_quiet (a := .rl ctx i) hq (clean_rl hp hr h1.1) h1
    refine ⟨h4, fun e he => ?_, fun ht => (h3 ht).trans (nest_quiet hq ?_)⟩
    · rcases List.mem_append.1 he with he | he
      · exact h2 e he
      · rw [List.mem_singleton.1 he]
        exact ⟨h1, h4, h5⟩
    · exact (RL.run_ops hr).dead (by rw [hp]; exact hd.rlSys) hd.sysSpl
  | tp ctx i h hp hs hr ih =>
    obtain ⟨h1, h2, h3⟩ := ih hi hrd.left
    obtain ⟨h4, h5, h6⟩ := wev_tp hd hk hp hs hr h1 (hrd.last rfl rfl)
    refine ⟨h4, fun e he => ?_, fun ht => (h3 ht).trans h6⟩
    rcases List.mem_append.1 he with he | he
    · exact h2 e he
    · rw [List.mem_singleton.1 he]
      exact ⟨h1, h4, h5⟩
  | payload ctx i p h hin hp hs hpl hno hr ih ih' =>
    obtain ⟨h1, h2, h3⟩ := ih hi hrd.left.left
    obtain ⟨h1', h2', h3'⟩ := ih' h1 hrd.left.right
    obtain ⟨h4, h5, h6⟩ := wev_stale hd hp hs (payload_ok hno hr) h1 h1' (hin.stays_rl hd rfl) (h3' rfl)
    refine ⟨h4, fun e he => ?_, fun ht => (h3 ht).trans h6⟩
    rcases List.mem_append.1 he with he | he
    · rcases List.mem_append.1 he with he | he
      · exact h2 e he
      · exact h2' e he
    · rw [List.mem_singleton.1 he]
      exact ⟨h1', h4, h5⟩
  | ext h hx ih =>
    obtain ⟨h1, h2, h3⟩ := ih hi hrd.left
    obtain ⟨h4, h5⟩ := wev_quiet (a := .ext) hx.quiet_tp (clean_ext hk hx h1.1) h1
    refine ⟨h4, fun e he => ?_, fun ht => (h3 ht).trans (nest_quiet hx.quiet_tp ?_)⟩
    · rcases List.mem_append.1 he with he | he
      · exact h2 e he
      · rw [List.mem_singleton.1 he]
        exact ⟨h1, h4, h5⟩
    · rintro ⟨a, b, c⟩
      obtain ⟨e1, e2, -⟩ := hx.locked k hk a
      rw [Dead, e1, e2]
      exact ⟨a, b, c⟩
  | @purge w w1 w2 tr h hp ih =>
    obtain ⟨h1, h2, -⟩ := ih hi hrd.left
    have hc := clean_purge hp h1.1
    have e1 := hp.2 k
    suffices hh : WInv env k w2 ∧ WEv env L k ⟨.purge, w1, w2⟩ by
      refine ⟨hh.1, fun e he => ?_, by rintro ⟨⟩⟩
      rcases List.mem_append.1 he with he | he
      · exact h2 e he
      · rw [List.mem_singleton.1 he]
        exact ⟨h1, hh⟩
    by_cases hl : (w1.acc k).lamports = 0
    · rw [if_pos hl] at e1
      have hno : ∀ n pn, ¬ Marked env (w2.acc k) (.proposal n pn) := by
        intro n pn hm
        rw [e1] at hm
        exact hd.tpSys hm.1.symm
      refine ⟨⟨hc, fun n pn hm => (hno n pn hm).elim⟩, ?_⟩
      by_cases h0 : ∃ p md, WithdrawalAt env w1 k p md
      · obtain ⟨p, md, h0⟩ := h0
        refine .purge p md rfl h0 ?_ hl (none_of hno)
        cases hf : md.status.final with
        | true => rfl
        | false =>
          have := (h1.good h0).funded hf
          omega
      · exact .absent (fun p md h' => h0 ⟨p, md, h'⟩) (none_of hno)
    · rw [if_neg hl] at e1
      refine ⟨⟨hc, fun n pn hm => ?_⟩, ?_⟩
      · rw [e1] at hm ⊢
        obtain ⟨p, md, h3, h4⟩ := h1.2 n pn hm
        exact ⟨p, md, h3.congr (by rw [e1]) (by rw [e1]), h4⟩
      · by_cases h0 : ∃ p md, WithdrawalAt env w1 k p md
        · obtain ⟨p, md, h0⟩ := h0
          exact .keep p md h0 (h0.congr (by rw [e1]) (by rw [e1]))
        · exact .absent (fun p md h' => h0 ⟨p, md, h'⟩) (fun p md h' => h0 ⟨p, md, h'.congr (by rw [e1]) (by rw [e1])⟩)

end Verif.TP
