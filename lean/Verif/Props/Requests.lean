import Verif.Spec.ToyTactic
import Verif.Lemmas.WReq
import Verif.Spec.ToyReachTP
import Verif.Spec.ToyReachW
/-!
# Requests for withdrawals and votes on them
-/
set_option maxRecDepth 100000
namespace Verif.Props
open Verif TP

/-! ## C14: what a request records -/

/-- The end of both kinds of requests. -/
theorem request_end {env : Env} {ctx : Ctx} {w w1 w' : World} (hd : env.Distinct) (hp : ctx.program = env.tpId) {E : Type} {ec : Codec E}
    {f au kw ks kr mk r sys : Pubkey} {rs : RL.Settings} {rr : RL.RelayRound} {pda : PDA} {len : U32} {e : E} {pn : Option U8} {tok py : Bytes}
    {rec : Pubkey} {amt : U128} {att : U64} {j : Nat} (hlen : len = BitVec.ofNat 32 (ec.enc e).length)
    (hr : loadRound env ctx ks kr w = .ok (rs, rr)) (h1 : openProxy env ctx py mk r f sys j att w = .ok (pn, w1))
    (h2 : openWithdrawal env ctx ec f au kw rs rr pda len e pn tok rec amt w1 = .ok w') :
    IsAddr env env.tpId (proposalSeeds rr.roundNumber pda (env.hash (ec.enc e))) kw ∧
    (∀ j, (w.acc j).data.len ≠ 0 → Kept (w.acc j) (w'.acc j)) ∧
    ((Opened env ctx w' kw au rs rr pda (ec.enc e) ∧ (w.acc kw).data.len = 0) ∨
      ∀ p md, WithdrawalAt env w' kw p md ↔ WithdrawalAt env w kw p md) := by
  have k1 := openProxy_kept h1
  have k2 := openWithdrawal_kept h2
  obtain ⟨n, ha, hor⟩ := open_fx hp hlen h2
  refine ⟨⟨n, by rw [← hp]; exact ha⟩, k1.trans k2, ?_⟩
  rcases hor with ⟨-, rfl⟩ | ⟨-, he, -, hw, hl, -⟩
  · right
    intro p md
    have back : WithdrawalAt env w' kw p md → (w.acc kw).data.len ≠ 0 := by
      intro h
      obtain ⟨-, b, x, hb, hx⟩ := openProxy_unmarked hd hp h1 h.marked
      intro h0
      rw [hb] at h0
      have : b = [] := List.length_eq_zero_iff.1 h0
      subst this
      cases hx
    constructor
    · intro h
      obtain ⟨e1, e2, -⟩ := k1 kw (back h)
      exact h.congr e2.symm e1.symm
    · intro h
      obtain ⟨-, ⟨b, q, hb, hbl, -⟩, -⟩ := id h
      obtain ⟨e1, e2, -⟩ := k1 kw (by rw [hb]; show b.length ≠ 0; rw [hbl]; decide)
      exact h.congr e2 e1
  · left
    refine ⟨⟨⟨n, pn, _, votes_toNat (openRound hr).round.2.1 _, hw⟩, hl⟩, ?_⟩
    apply Classical.byContradiction
    intro hne
    rw [(k1 kw hne).1] at he
    exact hne he

/-- C14 (Solana tokens): an accepted request names a token the bridge knows and a genuine round that has not expired; its account is at
the address derived from that round, the identity and the content of the event; and either the account held nothing and now is a fresh
withdrawal for exactly that event, or no withdrawal appears. The accounts that existed before keep their data, owner and lamports. -/
theorem C14_request_sol {env : Env} (hd : env.Distinct) {ctx : Ctx} {w w' : World} {pda : PDA} {to : Pubkey} {a : U128} {py : Bytes}
    {att : U64} (hp : ctx.program = env.tpId) (h : run env ctx noCpi (.withdrawMultiTokenSolRequest pda to a py att) w = .ok w') :
    ∃ au kw kt ks kr t mint v s r, ctx.accounts[1]? = some au ∧ ctx.isSigner au = true ∧ ctx.accounts[2]? = some kw ∧
      ctx.accounts[3]? = some kt ∧ TokenOf env ctx w kt t ∧ t.kind = .solana mint v ∧ ctx.accounts[4]? = some ks ∧ ctx.accounts[5]? = some kr ∧
      OpenRound env ctx w ks kr s r ∧
      IsAddr env env.tpId (proposalSeeds r.roundNumber pda (env.hash (wSolEventC.enc ⟨mint, a, to, py⟩))) kw ∧
      (∀ j, (w.acc j).data.len ≠ 0 → Kept (w.acc j) (w'.acc j)) ∧
      ((Opened env ctx w' kw au s r pda (wSolEventC.enc ⟨mint, a, to, py⟩) ∧ (w.acc kw).data.len = 0) ∨
        ∀ p md, WithdrawalAt env w' kw p md ↔ WithdrawalAt env w kw p md) := by
  simp only [run, processSolRequest, bind_ok, acct_ok, sysvar_ok, require_ok, exists_const, Prod.exists] at h
  obtain ⟨f, hf, au, hau, kw, hkw, kt, hkt, ks, hks, kr, hkr, sy, hsy, rent, -, -, clock, -, -, hsig, t, ht, rs, rr, hrr, pn, w1, h1, h2⟩ := h
  obtain ⟨q1, q2, q3⟩ := request_end hd hp (C45_lenField_wSol _) hrr h1 h2
  exact ⟨au, kw, kt, ks, kr, t.ts, t.mint, t.vault, rs, rr, hau, hsig, hkw, hkt, TP.tokenOf (loadSol_token ht), (loadSol_ok.1 ht).2.2.1, hks, hkr,
    openRound hrr, q1, q2, q3⟩

/-- C14 (Everscale tokens). -/
theorem C14_request_ever {env : Env} (hd : env.Distinct) {ctx : Ctx} {w w' : World} {pda : PDA} {t : EverAddress} {n y : Bytes} {d : U8}
    {to : Pubkey} {a : U128} {py : Bytes} {att : U64} (hp : ctx.program = env.tpId)
    (h : run env ctx noCpi (.withdrawMultiTokenEverRequest pda t n y d to a py att) w = .ok w') :
    ∃ au kw ks kr s r, ctx.accounts[1]? = some au ∧ ctx.isSigner au = true ∧ ctx.accounts[2]? = some kw ∧
      ctx.accounts[3]? = some ks ∧ ctx.accounts[4]? = some kr ∧ OpenRound env ctx w ks kr s r ∧
      IsAddr env env.tpId (proposalSeeds r.roundNumber pda (env.hash (wEverEventC.enc ⟨t, n, y, d, a, to, py⟩))) kw ∧
      (∀ j, (w.acc j).data.len ≠ 0 → Kept (w.acc j) (w'.acc j)) ∧
      ((Opened env ctx w' kw au s r pda (wEverEventC.enc ⟨t, n, y, d, a, to, py⟩) ∧ (w.acc kw).data.len = 0) ∨
        ∀ p md, WithdrawalAt env w' kw p md ↔ WithdrawalAt env w kw p md) := by
  simp only [run, processEverRequest, bind_ok, acct_ok, sysvar_ok, require_ok, exists_const, Prod.exists] at h
  obtain ⟨f, hf, au, hau, kw, hkw, ks, hks, kr, hkr, sy, hsy, rent, -, -, clock, -, -, hsig, hn, hy, rs, rr, hrr, mk, mn, hmk, pn, w1, h1, h2⟩ := h
  obtain ⟨q1, q2, q3⟩ := request_end hd hp (C45_lenField_wEver _) hrr h1 h2
  exact ⟨au, kw, ks, kr, rs, rr, hau, hsig, hkw, hks, hkr, openRound hrr, q1, q2, q3⟩

/-- C14: the round used is one of the round loader: at a locked address that is not an account of the token proxy nothing else can be
found, in any reachable state. -/
theorem C14_round_genuine {env : Env} {L : Pubkey → Prop} {ctx : Ctx} {w : World} {ks kr : Pubkey} {s : RL.Settings} {r : RL.RelayRound}
    (hw : Reach env L w) (h : OpenRound env ctx w ks kr s r) (hL : L kr) (ht : (w.acc kr).owner ≠ env.tpId) : RL.RoundAt env w kr r :=
  ⟨(hw.clean_round hL h.round.2.1 h.round.2.2).resolve_left ht, h.round.2⟩

example : ∃ w', TP.run Toy.env (Toy.reqCtx Toy.wd1) noCpi (.withdrawMultiTokenSolRequest Toy.pda1 Toy.bob 1000 [] 0) (Toy.get Toy.tpDeposited) = .ok w' :=
  ⟨_, Toy.get_tp (a := Toy.tpDeposited) (by decide +kernel)⟩

example : ∃ w', TP.run Toy.env Toy.reqCtx4 noCpi (.withdrawMultiTokenSolRequest Toy.pda1 Toy.bob 1000 [9] 5) (Toy.get Toy.tpDeposited) = .ok w' :=
  ⟨_, Toy.get_tp (a := Toy.tpDeposited) (by decide +kernel)⟩

example : ∃ w', TP.run Toy.env Toy.oldCtx noCpi
    (.withdrawMultiTokenEverRequest Toy.pda1 Toy.star Toy.starName Toy.starSymbol 9 Toy.bob 70000 [] 0) (Toy.get Toy.rlExecuted) = .ok w' :=
  ⟨_, Toy.get_tp (a := Toy.rlExecuted) (by decide +kernel)⟩

/-! ## C55: requests and the current round -/

/-- C55 is false: a request is accepted with a round that is not the configured current round (here round 1 while round 2 is the current
one). -/
theorem C55_old_round : ∃ env L w w' ctx pda t n y d to a py att k s r p md, Env.Distinct env ∧ Reach env L w ∧ ctx.program = env.tpId ∧
    run env ctx noCpi (.withdrawMultiTokenEverRequest pda t n y d to a py att) w = .ok w' ∧
    RL.SettingsAt env w k s ∧ IsAddr env env.rlId settingsSeeds k ∧ ctx.accounts[2]? = some r ∧
    (∀ p md, ¬ WithdrawalAt env w r p md) ∧ WithdrawalAt env w' r p md ∧ p.roundNumber ≠ s.currentRoundNumber := by
  obtain ⟨s, h1, h2⟩ := Toy.find_settings (P := fun s => Nat.beq s.currentRoundNumber.toNat 2) (w := Toy.get Toy.rlExecuted) (k := Toy.rlSettings)
    (by decide +kernel)
  obtain ⟨p, md, h3, h4⟩ := Toy.tfind_withdrawal (P := fun p _ => Nat.beq p.roundNumber.toNat 1) (w := Toy.get Toy.tqOld) (k := Toy.wd5) (by decide +kernel)
  refine ⟨Toy.env, Toy.L, _, _, Toy.oldCtx, Toy.pda1, Toy.star, Toy.starName, Toy.starSymbol, 9, Toy.bob, 70000, [], 0, Toy.rlSettings, s, Toy.wd5, p, md,
    Toy.distinct, Toy.reach_executed, rfl, Toy.get_tp (a := Toy.rlExecuted) (by decide +kernel), h1, Toy.isAddr _ _, rfl, ?_, h3, ?_⟩
  · intro p md h
    have : (Nat.beq ((Toy.get Toy.rlExecuted).acc Toy.wd5).owner.toNat Toy.env.tpId.toNat) = false := by decide +kernel
    rw [h.1] at this
    exact absurd this (by decide)
  · intro e
    have e1 := Nat.eq_of_beq_eq_true h2
    have e2 := Nat.eq_of_beq_eq_true h4
    rw [e, e1] at e2
    cases e2

/-! ## C05: two thirds (withdrawals) -/

/-- C05 (withdrawals): in every reachable state every withdrawal requires more than two thirds of its own vote slots. -/
theorem C05_withdrawals {env : Env} {L : Pubkey → Prop} (hd : env.Distinct) {w : World} {tr : List Ev} {k : Pubkey} {p : GenericProposal}
    {md : WMeta} (h : History env L k tr w) (hw : WithdrawalAt env w k p md) : 2 * p.signers.length < 3 * p.requiredVotes.toNat := by
  refine h.stable (P := fun p => 2 * p.signers.length < 3 * p.requiredVotes.toNat) hd (fun ctx w i p md ha => ?_) (fun p sg m hp hl => ?_) hw
  · have key : ∀ {ks kr : Pubkey} {rs : RL.Settings} {rr : RL.RelayRound}, loadRound env ctx ks kr w = .ok (rs, rr) →
        2 * (List.replicate rr.relays.length Vote.none).length < 3 * (RL.requiredVotes rr.relays.length rs.minRequiredVotes).toNat := by
      intro ks kr rs rr hr
      rw [votes_toNat (openRound hr).round.2.1, List.length_replicate]
      omega
    cases ha with
    | ever pda t n y d r a py att au ks kr rs rr nn pn hk hsig hn hy hr hp hm => subst hp; exact key hr
    | sol pda r a py att t au kt ks kr rs rr nn pn hk hsig ht hr hp hm => subst hp; exact key hr
  · show 2 * sg.length < _
    rw [hl]; exact hp

/-! ## C15: votes are bound to the round of the withdrawal -/

/-- C15: a successful vote is signed by a relay of the round whose number the withdrawal stores: the account given as relay round is at the
address derived from that number. It changes nothing, or only the slot at the position of this relay. -/
theorem C15_vote_bound {env : Env} {ctx : Ctx} {v : Vote} {w w' : World} (h : run env ctx noCpi (.voteForWithdrawRequest v) w = .ok w') :
    ∃ voter kp kr p r j, ctx.accounts[0]? = some voter ∧ ctx.isSigner voter = true ∧ ctx.accounts[1]? = some kp ∧ ctx.accounts[2]? = some kr ∧
      (∃ b rest, (w.acc kp).data = .raw b ∧ GenericProposal.codec.dec b = some (p, rest)) ∧
      IsAddr env ctx.program (proposalSeeds p.roundNumber p.pda (env.hash p.event)) kp ∧
      IsAddr env env.rlId (relayRoundSeeds p.roundNumber) kr ∧ Holds RL.relayRoundC RL.relayRoundLen (w.acc kr) r ∧ r.isInitialized = true ∧
      r.relays[j]? = some voter ∧
      (w' = w ∨ ((w.acc kp).owner = ctx.program ∧ p.signers[j]? = some .none ∧
        (∃ b rest, (w'.acc kp).data = .raw b ∧ GenericProposal.codec.dec b = some ({ p with signers := p.signers.set j v }, rest)) ∧
        ∀ x, x ≠ kp → (w'.acc x).data = (w.acc x).data)) := by
  obtain ⟨vk, kp, kr, p, rr, j, old, h0, h1, h2, hsig, hx, hh, hk, ha, hrr, hri, hra, -, hrel, hold, hor⟩ := vote_fx h
  refine ⟨vk, kp, kr, p, rr, j, h0, hsig, h1, h2, hh, ha, hra, hrr, hri, hrel, ?_⟩
  rcases hor with ⟨-, h⟩ | ⟨rfl, ho, hb, -, hacc⟩
  · exact .inl h
  · exact .inr ⟨ho, hold, hb, fun x hx => (hacc x).2.1 hx⟩

/-- C15, over histories: if a step changes slot `j` of a withdrawal, it is a vote signed by the `j`-th relay of the withdrawal's round (a
genuine round, if its address is locked and no account of the token proxy), or it executes the payload of this withdrawal. Missing: that
executing a payload changes no slot, which is false. -/
theorem C15_slots_partial {env : Env} {L : Pubkey → Prop} (hd : env.Distinct) {w : World} {tr : List Ev} {k : Pubkey} {p p' : GenericProposal}
    {md md' : WMeta} {j : Nat} (h : History env L k tr w) (e : Ev) (he : e ∈ tr) (h0 : WithdrawalAt env e.pre k p md)
    (h1 : WithdrawalAt env e.post k p' md') (hj : p'.signers[j]? ≠ p.signers[j]?) :
    (∃ ctx v voter kr r, e.act = .tp ctx (.voteForWithdrawRequest v) ∧ ctx.isSigner voter = true ∧
      IsAddr env env.rlId (relayRoundSeeds p.roundNumber) kr ∧ Holds RL.relayRoundC RL.relayRoundLen (e.pre.acc kr) r ∧ r.isInitialized = true ∧
      r.relays[j]? = some voter ∧ p.signers[j]? = some .none ∧ p' = { p with signers := p.signers.set j v } ∧ md' = md ∧
      (L kr → (e.pre.acc kr).owner ≠ env.tpId → RL.RoundAt env e.pre kr r)) ∨
    (∃ ctx i, e.act = .tp ctx i ∧ (i = .executePayloadEver ∨ i = .executePayloadSol) ∧ ctx.accounts[0]? = some k ∧
      p'.signers[j]? = some .none) := by
  obtain ⟨-, -, hev⟩ := (h.evs hd).2 e he
  cases hev with
  | absent h h' => exact (h _ _ h0).elim
  | request ctx i q md hact hp hs hr h h' ha => exact (h _ _ h0).elim
  | keep q m h h' =>
    obtain ⟨rfl, rfl⟩ := h.unique h0
    obtain ⟨rfl, rfl⟩ := h'.unique h1
    exact (hj rfl).elim
  | change ctx i q m q' m' hact hp hs hr hq h' hc =>
    obtain ⟨rfl, rfl⟩ := hq.unique h0
    obtain ⟨rfl, rfl⟩ := h'.unique h1
    cases hc with
    | ever x x' hp hm hp' hm' he ha hc =>
      subst hp hp'
      rw [hc.rest.1] at hj
      exact (hj rfl).elim
    | sol x x' hp hm hp' hm' he ha hc =>
      subst hp hp'
      rw [hc.rest.1] at hj
      exact (hj rfl).elim
    | vote kr v j' x rr hi hx ha hrr hri hra hv hsig hold hp' hm' =>
      left
      have hjj : j' = j := by
        apply Classical.byContradiction
        intro hne
        rw [hp'] at hj
        exact hj (by simp only [List.getElem?_set_ne hne])
      subst hjj
      obtain ⟨hlt, hev, -⟩ := List.findIdx?_eq_some_iff_getElem.1 hv
      subst hi
      refine ⟨ctx, x, v, kr, rr, hact, hsig, hra, hrr, hri, ?_, hold, hp', hm', fun hL ht => ⟨?_, hrr, hri⟩⟩
      · rw [List.getElem?_eq_getElem hlt]; simpa using hev
      · obtain ⟨⟨w0, hg, hr⟩, -, -⟩ := h
        have hreach : Reach env L w0 := ⟨w0, [], hg, .nil _ _⟩
        exact ((hreach.pre hr e he).clean_round hL hrr hri).resolve_left ht
  | payload ctx i q m sg hact hp hs hi hk hq hb h' hg =>
    obtain ⟨rfl, rfl⟩ := hq.unique h0
    obtain ⟨rfl, rfl⟩ := h'.unique h1
    right
    refine ⟨ctx, i, hact, hi, hk, ?_⟩
    simp only at hj ⊢
    cases hs : sg[j]? with
    | none =>
      rw [hs] at hj
      have h2 := List.getElem?_eq_none_iff.1 hs
      rw [hg.1] at h2
      exact (hj (List.getElem?_eq_none_iff.2 h2).symm).elim
    | some v =>
      cases v with
      | none => rfl
      | _ => exact (hj (by rw [hs, hg.2 j _ hs nofun])).elim
  | close ctx q m hact hp hs hr hq hf h' => exact (Dead.no hd h' h1).elim
  | purge q m hact hq hf hl h' => exact (h' _ _ h1).elim

/-! ## C08: votes are cast once (withdrawals) -/

/-- C08 (withdrawals): a successful vote either changes nothing at all, because the slot already has a vote, or changes exactly one slot,
from empty to the requested `Confirm` or `Reject`, and no data of any other account. -/
theorem C08_withdrawal_vote_once {env : Env} {ctx : Ctx} {v : Vote} {w w' : World}
    (h : run env ctx noCpi (.voteForWithdrawRequest v) w = .ok w') :
    (v = .confirm ∨ v = .reject) ∧ ∃ kp p j, ctx.accounts[1]? = some kp ∧
      (∃ b rest, (w.acc kp).data = .raw b ∧ GenericProposal.codec.dec b = some (p, rest)) ∧
      ((∃ old, p.signers[j]? = some old ∧ old ≠ .none ∧ w' = w) ∨
       (p.signers[j]? = some .none ∧ (w.acc kp).owner = ctx.program ∧
        (∃ b rest, (w'.acc kp).data = .raw b ∧ GenericProposal.codec.dec b = some ({ p with signers := p.signers.set j v }, rest)) ∧
        ∀ x, x ≠ kp → (w'.acc x).data = (w.acc x).data ∧ (w'.acc x).owner = (w.acc x).owner)) := by
  obtain ⟨vk, kp, kr, p, rr, j, old, h0, h1, h2, hsig, hx, hh, hk, ha, hrr, hri, hra, -, hrel, hold, hor⟩ := vote_fx h
  refine ⟨?_, kp, p, j, h1, hh, ?_⟩
  · cases v
    · exact (hx rfl).elim
    · exact .inl rfl
    · exact .inr rfl
  · rcases hor with ⟨h1, h2⟩ | ⟨rfl, ho, hq, -, hacc⟩
    · exact .inl ⟨old, hold, h1, h2⟩
    · exact .inr ⟨hold, ho, hq, fun x hx => ⟨(hacc x).2.1 hx, (hacc x).1⟩⟩

/-- C08 (withdrawals), what does hold: a cast vote stays while the account lives and its payload is not executed. -/
theorem C08_withdrawal_vote_stays_partial {env : Env} {L : Pubkey → Prop} (hd : env.Distinct) {w w' : World} {t1 t2 : List Ev} {k : Pubkey}
    {p : GenericProposal} {md : WMeta} {j : Nat} {v : Vote} (h : History env L k t1 w) (hr : Run env L true w t2 w') (hrd : Readable env k t2)
    (h0 : WithdrawalAt env w k p md) (hj : p.signers[j]? = some v) (hv : v ≠ .none)
    (hlive : ∀ e ∈ t2, ∃ p md, WithdrawalAt env e.post k p md)
    (hex : ∀ e ∈ t2, ∀ ctx i, e.act = .tp ctx i → (i = .executePayloadEver ∨ i = .executePayloadSol) → ctx.accounts[0]? ≠ some k) :
    ∃ p' md', WithdrawalAt env w' k p' md' ∧ p'.signers[j]? = some v := by
  have hh := h.append hr hrd
  exact hr.fold (P := fun w _ => ∃ p' md', WithdrawalAt env w k p' md' ∧ p'.signers[j]? = some v) [] ⟨p, md, h0, hj⟩
    (fun e he _ ⟨q, m, hq, hqj⟩ => by
      obtain ⟨q', m', hq'⟩ := hlive e he
      refine ⟨q', m', hq', Classical.byContradiction fun hne => ?_⟩
      rcases C15_slots_partial hd hh e (List.mem_append_right _ he) hq hq' (j := j) (by rw [hqj]; exact hne) with
        ⟨ctx, v', voter, kr, r, -, -, -, -, -, -, hn, -⟩ | ⟨ctx, i, ha, hi, hk, -⟩
      · rw [hqj] at hn
        cases hn
        exact hv rfl
      · exact hex e he ctx i ha hi hk)

/-- C08 and C15 are false for withdrawals with a payload: while the payload of withdrawal `k` runs, relay `j` confirms it; when the payload
is done, the record is written back as it was before, and the vote (which was counted and reimbursed) is gone. -/
theorem C08_vote_lost : ∃ env L w c w' c1 c2 k p q q' md m m', Env.Distinct env ∧ Reach env L w ∧ L k ∧
    Run env L true w [⟨.tp c1 (.voteForWithdrawRequest .confirm), w, c⟩, ⟨.tp c2 .executePayloadSol, c, w'⟩] w' ∧
    WithdrawalAt env w k p md ∧ WithdrawalAt env c k q m ∧ WithdrawalAt env w' k q' m' ∧
    p.signers[3]? = some .none ∧ q.signers[3]? = some .confirm ∧ q'.signers[3]? = some .none := by
  obtain ⟨p, md, h1, h2⟩ := Toy.tfind_withdrawal (P := fun p _ => p.signers[3]? == some .none) (w := Toy.get Toy.tqPaid) (k := Toy.wd6) (by decide +kernel)
  obtain ⟨q, m, h3, h4⟩ := Toy.tfind_withdrawal (P := fun p _ => p.signers[3]? == some .confirm) (w := Toy.get Toy.tqInner) (k := Toy.wd6)
    (by decide +kernel)
  obtain ⟨q', m', h5, h6⟩ := Toy.tfind_withdrawal (P := fun p _ => p.signers[3]? == some .none) (w := Toy.get Toy.tqDone) (k := Toy.wd6)
    (by decide +kernel)
  refine ⟨Toy.env, Toy.L, _, _, _, Toy.voteCtx6 3, Toy.execCtx6, Toy.wd6, p, q, q', md, m, m', Toy.distinct, Toy.reach_tqPaid, ?_, ?_, h1, h3, h5,
    eq_of_beq h2, eq_of_beq h4, eq_of_beq h6⟩
  · simp [Toy.L, Toy.locked]
  · have hv : TP.run Toy.env (Toy.voteCtx6 3) noCpi (.voteForWithdrawRequest .confirm) (Toy.get Toy.tqPaid) = .ok (Toy.get Toy.tqInner) :=
      Toy.get_tp (a := Toy.tqPaid) (by decide +kernel)
    have hin : Run Toy.env Toy.L false (Toy.get Toy.tqPaid)
        ([] ++ [⟨.tp (Toy.voteCtx6 3) (.voteForWithdrawRequest .confirm), Toy.get Toy.tqPaid, Toy.get Toy.tqInner⟩]) (Toy.get Toy.tqInner) :=
      .tp _ _ (.nil _ _) rfl (Toy.free (by decide +kernel)) hv
    refine Run.payload (tr := []) Toy.execCtx6 .executePayloadSol Toy.tpProxy (.nil _ _) hin rfl (Toy.free (by decide +kernel)) ?_ ?_ ?_
    · intro hL
      have h : (Toy.locked.map (fun k => k.toNat)).contains Toy.tpProxy.toNat = false := by decide +kernel
      rw [List.contains_eq_mem, decide_eq_false_iff_not] at h
      exact h (List.mem_map_of_mem (f := fun k => k.toNat) hL)
    · exact Toy.get_no (a := Toy.tqPaid) (by decide +kernel) (by decide +kernel)
    · exact Toy.get_done (by decide +kernel)

/-! ## C36: reimbursement of voting relays (withdrawals) -/

/-- C36 (withdrawals): a vote that takes effect moves exactly 20000 lamports from the withdrawal to the voter; all other balances stay. -/
theorem C36_withdrawal_vote_reimbursed {env : Env} {ctx : Ctx} {v : Vote} {w w' : World}
    (h : run env ctx noCpi (.voteForWithdrawRequest v) w = .ok w') (hne : w' ≠ w) :
    ∃ voter kp, ctx.accounts[0]? = some voter ∧ ctx.accounts[1]? = some kp ∧ ctx.isSigner voter = true ∧
      (voter ≠ kp → (w'.acc kp).lamports + 20000 = (w.acc kp).lamports ∧ (w'.acc voter).lamports = (w.acc voter).lamports + 20000) ∧
      ∀ x, x ≠ kp → x ≠ voter → (w'.acc x).lamports = (w.acc x).lamports := by
  obtain ⟨vk, kp, kr, p, rr, j, old, h0, h1, h2, hsig, hx, hh, hk, ha, hrr, hri, hra, -, hrel, hold, hor⟩ := vote_fx h
  rcases hor with ⟨-, h⟩ | ⟨rfl, ho, hq, -, hacc⟩
  · exact (hne h).elim
  · refine ⟨vk, kp, h0, h1, hsig, fun hv => ⟨?_, ?_⟩, fun x x1 x2 => ?_⟩
    · have := (hacc kp).2.2.1
      have h3 := (hacc kp).2.2.2 rfl
      rw [if_pos rfl, if_neg hv.symm] at this
      omega
    · have := (hacc vk).2.2.1
      rw [if_pos rfl, if_neg hv] at this
      omega
    · have := (hacc x).2.2.1
      rw [if_neg x1, if_neg x2] at this
      omega

/-- C36 (withdrawals): in every reachable state a withdrawal that is neither processed nor cancelled holds at least 20000 lamports for every
slot that has not voted. -/
theorem C36_withdrawal_funded {env : Env} {L : Pubkey → Prop} (hd : env.Distinct) {w : World} {tr : List Ev} {k : Pubkey} {p : GenericProposal}
    {md : WMeta} (h : History env L k tr w) (hw : WithdrawalAt env w k p md) (hs : md.status ≠ .processed ∧ md.status ≠ .cancelled) :
    20000 * p.signers.count .none < (w.acc k).lamports := by
  have := ((h.evs hd).1.good hw).funded (by revert hs; cases md.status <;> simp [WStatus.final])
  simp only [relayReparation] at this
  omega

/-- The hypotheses of the theorems about histories are met: withdrawal `wd1` of the toy chain after two votes. -/
example : ∃ tr p md, History Toy.env Toy.L Toy.wd1 tr (Toy.get Toy.tpVote2) ∧ WithdrawalAt Toy.env (Toy.get Toy.tpVote2) Toy.wd1 p md ∧
    p.signers[1]? = some .confirm ∧ p.signers[2]? = some .none ∧ md.status = .new := by
  obtain ⟨tr, h⟩ := Toy.followed_tpVote2.history ?_
  obtain ⟨p, md, h1, h2⟩ := Toy.tfind_withdrawal (P := fun p md => p.signers[1]? == some .confirm && (p.signers[2]? == some .none && md.status == .new))
    (w := Toy.get Toy.tpVote2) (k := Toy.wd1) ?_
  simp only [Bool.and_eq_true] at h2
  exact ⟨tr, p, md, h, h1, eq_of_beq h2.1, eq_of_beq h2.2.1, eq_of_beq h2.2.2⟩
  checked

example : ∃ w', TP.run Toy.env (Toy.voteCtx Toy.wd1 2) noCpi (.voteForWithdrawRequest .confirm) (Toy.get Toy.tpVote2) = .ok w' :=
  ⟨_, Toy.get_tp (a := Toy.tpVote2) (by decide +kernel)⟩

end Verif.Props
