import Verif.Lemmas.Block
import Verif.Spec.ToyReachW
import Verif.Spec.ToyForge
import Verif.Spec.ToyClientTP
import Verif.Spec.ToyTactic
/-!
# Addresses that hold lamports before their account exists

C63, which is false: one lamport sent to the address of a future account keeps the bridge from ever opening it.
-/
set_option linter.unusedSimpArgs false
set_option maxRecDepth 100000
namespace Verif.Props
open Verif TP Codec

variable {env : Env} {L : Pubkey → Prop} {ctx : Ctx} {w w' : World} {k f : Pubkey} {tr : List Ev}

/-- C63: everybody can send lamports, however few, to an address at which there is no account yet, and so block it. (The number is arbitrary
because the real chain asks for the rent of an empty account, a rule that is not modelled.) -/
theorem C63_anyone {n : Nat} (hd : env.Distinct) (hL : ¬ L f) (hf : (w.acc f).owner = env.systemId) (h0 : 0 < n) (h1 : n ≤ (w.acc f).lamports)
    (hk : Vacant env (w.acc k)) (hne : f ≠ k) : ∃ w', ExtStep env L w w' ∧ Tipped n f k w w' ∧ Blocked env w' k := by
  have hf' : ∀ x, x = f → (w.acc x).owner = env.systemId := fun x e => e ▸ hf
  have hk' : ∀ x, x = k → (w.acc x).owner = env.systemId := fun x e => e ▸ hk.2.2
  let w1 := (w.setLamports f ((w.acc f).lamports - n)).setLamports k n
  have hrest : ∀ x, x ≠ f → x ≠ k → w1.acc x = w.acc x := fun x h2 h3 => by simp [w1, h2, h3]
  have hsame : ∀ x, (w1.acc x).data = (w.acc x).data ∧ (w1.acc x).owner = (w.acc x).owner := fun x => by
    by_cases h3 : x = k
    · subst h3; simp [w1, Ne.symm hne]
    · by_cases h2 : x = f
      · subst h2; simp [w1, hne]
      · rw [hrest x h2 h3]; exact ⟨rfl, rfl⟩
  have hpaid : (w1.acc f).lamports = (w.acc f).lamports - n := by simp [w1, hne]
  have hgot : (w1.acc k).lamports = n := by simp [w1]
  have hspl : ∀ x, (w.acc x).owner = env.splId → w1.acc x = w.acc x := fun x h =>
    hrest x (fun e => hd.sysSpl ((hf' x e).symm.trans h)) (fun e => hd.sysSpl ((hk' x e).symm.trans h))
  refine ⟨w1, ⟨?_, ?_, ?_, ?_, ?_, ?_, ⟨[], by simp [w1, World.setLamports, World.set]⟩⟩,
    ⟨by omega, by rw [hgot, hk.1, Nat.zero_add], hrest, hsame, rfl⟩, ⟨by rw [(hsame k).2]; exact hk.2.2, by omega, by rw [(hsame k).1]; exact hk.2.1⟩⟩
  · intro x h
    rw [hrest x]
    · exact ⟨rfl, rfl, Nat.le_refl _⟩
    · intro e; rw [hf' x e] at h
      exact h.elim (fun h => hd.rlSys h.symm) (fun h => hd.tpSys h.symm)
    · intro e; rw [hk' x e] at h
      exact h.elim (fun h => hd.rlSys h.symm) (fun h => hd.tpSys h.symm)
  · intro x hx _
    refine ⟨(hsame x).2, (hsame x).1, ?_⟩
    by_cases h3 : x = k
    · subst h3; rw [hgot, hk.1]; omega
    · rw [hrest x (fun e => hL (e ▸ hx)) h3]; exact Nat.le_refl _
  · intro x _ h; exact absurd (hsame x).2.symm h
  · intro x t h h2 _ h4 h5
    rw [hspl x h]; exact ⟨t, h, h2, rfl, rfl, h4, h5, rfl, Nat.le_refl _, Nat.le_refl _⟩
  · intro x m a h h2 h3 _ h5
    rw [hspl x h]; exact ⟨m, h, h2, h3, rfl, h5, Nat.le_refl _, Nat.le_refl _⟩
  · intro x _ h h2
    rw [hspl x h]; exact ⟨.inl h, fun e => absurd (e.symm.trans h) hd.sysSpl, h2⟩

/-- C63: a blocked address stays blocked whatever happens, unless a token account is opened there (which is possible only if the address is
also the address of a token account). -/
theorem C63_stays {top : Bool} (hd : env.Distinct) (hL : L k) (hb : Blocked env w k) (h : Run env L top w tr w')
    (ht : ∀ e ∈ tr, ¬ TokenSized env (e.post.acc k)) : Blocked env w' k := Run.blocked hd hL h hb ht

/-- C63 is false: in every state that can occur, everybody who has some lamports can make sure that an address without an account never becomes an
account of the round loader, of the token proxy or of the token program. -/
theorem C63_blocked {n : Nat} (hd : env.Distinct) (h : Reach env L w) (hL : L k) (hk : Vacant env (w.acc k)) (hf : ¬ L f)
    (hw : (w.acc f).owner = env.systemId) (h0 : 0 < n) (h1 : n ≤ (w.acc f).lamports) :
    ∃ w1, Reach env L w1 ∧ Tipped n f k w w1 ∧
      ∀ tr w2, Run env L true w1 tr w2 → (∀ e ∈ tr, ¬ TokenSized env (e.post.acc k)) →
        (w2.acc k).owner ≠ env.rlId ∧ (w2.acc k).owner ≠ env.tpId ∧ (w2.acc k).owner ≠ env.splId := by
  obtain ⟨w1, he, ht, hb⟩ := C63_anyone hd hf hw h0 h1 hk (fun e => hf (e ▸ hL))
  obtain ⟨w0, tr0, hg, hr⟩ := h
  refine ⟨w1, ⟨w0, _, hg, hr.ext he⟩, ht, fun tr w2 hr2 hno => ?_⟩
  have h2 := C63_stays hd hL hb hr2 hno
  rw [h2.owner]
  exact ⟨fun e => hd.rlSys e.symm, fun e => hd.tpSys e.symm, hd.sysSpl⟩

/-! ## What is lost -/

theorem create_blocked {seeds : List Bytes} {n : U8} {sp : Nat} {o : Pubkey} (hb : Blocked env w k)
    (ha : findAddr env seeds ctx.program = .ok (k, n)) (h : createPda env ctx f k seeds n sp o w = .ok w') : False := by
  have := (createPda_ok (findAddr_create ha) h).1
  have := hb.lamports
  omega

/-- C63: the programs can never be initialized if the address of their settings is blocked. -/
theorem C63_no_settings (hb : Blocked env w k) :
    (IsAddr env env.rlId settingsSeeds k → ctx.program = env.rlId → ∀ g s m t, RL.run env ctx (.init g s m t) w ≠ .ok w') ∧
    (IsAddr env env.tpId settingsSeeds k → ctx.program = env.tpId → ∀ cpi g m wm, TP.run env ctx cpi (.init g m wm) w ≠ .ok w') := by
  constructor
  · rintro ⟨n, ha⟩ hp g s m t h
    rw [← hp] at ha
    simp only [RL.run, RL.processInitialize, bind_ok, acct_ok, sysvar_ok, require_ok, exists_const, ex_unit, Prod.exists, ha, Except.ok.injEq,
      Prod.mk.injEq, and_assoc] at h
    obtain ⟨f, -, _, -, ks, -, _, -, _, -, _, -, -, -, _, _, -, -, -, _, _, rfl, rfl, rfl, w1, h1, -⟩ := h
    exact create_blocked hb ha h1
  · rintro ⟨n, ha⟩ hp cpi g m wm h
    rw [← hp] at ha
    simp only [TP.run, TP.processInitialize, bind_ok, acct_ok, sysvar_ok, require_ok, exists_const, ex_unit, Prod.exists, deriveAt_ok, ha,
      Except.ok.injEq, Prod.mk.injEq, and_assoc] at h
    obtain ⟨f, -, _, -, ks, -, _, -, _, -, _, -, _, -, -, -, _, _, -, -, -, _, rfl, rfl, w1, h1, -⟩ := h
    exact create_blocked hb ha h1

/-- C63: a relay round with a blocked address is never opened: not by the round submitter, and not by a proposal all relays agreed on. -/
theorem C63_no_round {n : U32} (hb : Blocked env w k) (ha : IsAddr env env.rlId (relayRoundSeeds n) k) (hp : ctx.program = env.rlId) :
    (∀ a e, RL.run env ctx (.createRelayRound n a e) w ≠ .ok w') ∧
    (∀ kp p, Holds RL.proposalC RL.proposalLen (w.acc kp) p → p.event.roundNum = n → ctx.accounts[2]? = some kp →
      RL.run env ctx .executeProposal w = .ok w' → w' = w) ∧
    (∀ kp p, Holds RL.proposalC RL.proposalLen (w.acc kp) p → p.event.roundNum = n → ctx.accounts[3]? = some kp →
      RL.run env ctx .executeProposalByAdmin w ≠ .ok w') := by
  rw [← hp] at ha
  refine ⟨?_, ?_, ?_⟩
  · intro a e h
    simp only [RL.run, RL.processCreateRelayRound, bind_ok, acct_ok, sysvar_ok, require_ok, exists_const, ex_unit] at h
    obtain ⟨f, -, -, -, ks, -, kr, -, -, -, -, -, -, -, s, -, -, -, h⟩ := h
    obtain ⟨m, w1, w2, h1, h2, -⟩ := RL.openRound_ok h
    obtain rfl := ha.unique ⟨m, h1⟩
    exact create_blocked hb h1 h2
  · intro kp p hh hn hk h
    obtain ⟨kp', p', hk', hh', -, -, ⟨rfl, -⟩ | ⟨-, -, -, ks, kr, s, x⟩⟩ := RL.execute_fx h
    · rfl
    · rw [hk] at hk'; cases hk'
      cases hh.unique hh'
      obtain rfl := ha.unique (hn ▸ x.roundAddr)
      have := hb.lamports
      have := x.vacant.1
      omega
  · intro kp p hh hn hk h
    obtain ⟨ks, kp', kr, s, p', hk', -, x⟩ := RL.admin_fx h
    rw [hk] at hk'; cases hk'
    cases hh.unique x.proposal
    obtain rfl := ha.unique (hn ▸ x.roundAddr)
    have := hb.lamports
    have := x.vacant.1
    omega

theorem empty_raw {a : Account} {α : Type} {c : Codec α} {len : Nat} {x : α} (h : a.data.len = 0) (hl : 0 < len) (hh : Holds c len a x) : False := by
  obtain ⟨b, _, hb, hbl, -⟩ := hh
  rw [hb] at h
  simp only [Data.len] at h
  omega

/-- C63: a request for a withdrawal whose address is blocked reports success, but does nothing; nobody will be able to vote on it. -/
theorem C63_request_lost {cpi : Pubkey → World → Except Err World} (hb : Blocked env w k) (hk : ctx.accounts[2]? = some k) :
    (∀ pda t n y d r a att, TP.run env ctx cpi (.withdrawMultiTokenEverRequest pda t n y d r a [] att) w = .ok w' → w' = w) ∧
    (∀ pda r a att, TP.run env ctx cpi (.withdrawMultiTokenSolRequest pda r a [] att) w = .ok w' → w' = w) := by
  have open_ : ∀ {E : Type} {ec : Codec E} {f au : Pubkey} {rs : RL.Settings} {rr : RL.RelayRound} {pda : PDA} {len : U32} {e : E} {pn : Option U8}
      {tok : Bytes} {rec : Pubkey} {amt : U128}, openWithdrawal env ctx ec f au k rs rr pda len e pn tok rec amt w = .ok w' → w' = w := by
    intro E ec f au rs rr pda len e pn tok rec amt h
    obtain ⟨n, -, ⟨-, h⟩ | ⟨h, -⟩⟩ := openWithdrawal_ok h
    · exact h
    · have := hb.lamports; omega
  constructor
  · intro pda t n y d r a att h
    simp only [run, processEverRequest, bind_ok, acct_ok, sysvar_ok, require_ok, exists_const, ex_unit, Prod.exists, openProxy, if_true,
      Except.ok.injEq, Prod.mk.injEq, hk, Option.some.injEq] at h
    obtain ⟨f, -, au, -, _, rfl, h⟩ := h
    obtain ⟨_, -, _, -, _, -, _, -, -, _, -, -, -, -, -, rs, rr, -, _, _, -, _, _, ⟨-, rfl⟩, h⟩ := h
    exact open_ h
  · intro pda r a att h
    simp only [run, processSolRequest, bind_ok, acct_ok, sysvar_ok, require_ok, exists_const, ex_unit, Prod.exists, openProxy, if_true,
      Except.ok.injEq, Prod.mk.injEq, hk, Option.some.injEq] at h
    obtain ⟨f, -, au, -, _, rfl, h⟩ := h
    obtain ⟨_, -, _, -, _, -, _, -, _, -, -, _, -, -, -, _, -, rs, rr, -, _, _, ⟨-, rfl⟩, h⟩ := h
    exact open_ h

/-- C63: if the address of the mint of an Everscale token is blocked, no withdrawal of that token is ever paid, however many relays confirmed it. -/
theorem C63_no_mint {cpi : Pubkey → World → Except Err World} {kw : Pubkey} {r : Withdrawal WEverEvent} (hb : Blocked env w k)
    (ha : IsAddr env env.tpId (mintSeeds env r.event.token) k) (hp : ctx.program = env.tpId) (hk : ctx.accounts[0]? = some kw)
    (hr : Holds (withdrawalC wEverEventC) recLen (w.acc kw) r) (h : TP.run env ctx cpi .withdrawMultiTokenEver w = .ok w') : w' = w := by
  rw [← hp] at ha
  simp only [run, processWithdrawEver, bind_ok, acct_ok, sysvar_ok, exists_const, ex_unit, hk, Option.some.injEq] at h
  obtain ⟨_, rfl, mint, -, to, -, kt, -, _, -, _, -, _, -, _, -, -, _, -, -, _, -, r', hr', h⟩ := h
  cases hr.unique (loadWithdrawal_ok.1 hr').1
  split at h
  · split at h
    · exact (Except.ok.inj h).symm
    · simp only [deployEver, bind_ok, deriveAt_ok] at h
      obtain ⟨w1, ⟨n, hn, w2, h2, -⟩, -⟩ := h
      obtain rfl := ha.unique ⟨n, hn⟩
      exact (create_blocked hb hn h2).elim
  · simp only [payEver, bind_ok, require_ok, validatePda_ok, mintOf_ok, exists_const, ex_unit] at h
    obtain ⟨t, -, -, hn, ht, m, hm, -⟩ := h
    rw [ht] at hn
    obtain rfl := ha.unique ⟨_, hn⟩
    have := hb.empty
    rw [hm] at this
    cases this

/-- C63: if the address of the settings of a Solana token is blocked, nothing can be deposited with them, so the token is never connected. -/
theorem C63_no_deposit {cpi : Pubkey → World → Except Err World} (hb : Blocked env w k) (hk : ctx.accounts[7]? = some k) :
    ∀ s n y a r v e p, TP.run env ctx cpi (.depositMultiTokenSol s n y a r v e p) w ≠ .ok w' := by
  intro s n y a r v e p h
  simp only [run, processDepositSol, bind_ok, acct_ok, sysvar_ok, require_ok, exists_const, ex_unit, hk, Option.some.injEq, deployOnce] at h
  obtain ⟨f, -, cr, -, ct, -, va, -, dp, -, mt, -, mv, -, _, rfl, h⟩ := h
  obtain ⟨_, -, _, -, _, -, _, -, -, -, _, -, -, -, w1, h1, t, h2, -⟩ := h
  rw [if_neg (by have := hb.lamports; omega)] at h1
  cases h1
  exact empty_raw hb.empty (by decide) (loadSol_ok.1 h2).1

/-! ## On the toy chain -/

/-- A stranger sends the rent of an empty account. -/
private theorem toy_tip {w : World} {k : Pubkey} (h : Reach Toy.env Toy.L w) (hk : Toy.L k) (hv : Toy.isVacant w k = true)
    (hs : Toy.isWallet w Toy.stranger 1000 = true) :
    ∃ w1, Reach Toy.env Toy.L w1 ∧ Tipped 1000 Toy.stranger k w w1 ∧ Blocked Toy.env w1 k := by
  have hf : ¬ Toy.L Toy.stranger := Toy.unlocked (by decide +kernel)
  have hw := Toy.wallet hs
  obtain ⟨w1, he, ht, hb⟩ := C63_anyone Toy.distinct hf hw.system (by decide) hw.rich (Toy.vacant hv) (fun e => hf (e ▸ hk))
  obtain ⟨w0, tr, hg, hr⟩ := h
  exact ⟨w1, ⟨w0, _, hg, hr.ext he⟩, ht, hb⟩

private theorem holds_tip {w w1 : World} {f k x : Pubkey} {α : Type} {c : Codec α} {len : Nat} {a : α} {n : Nat} (ht : Tipped n f k w w1)
    (h : Holds c len (w.acc x) a) : Holds c len (w1.acc x) a := by
  unfold Holds at h ⊢
  rw [(ht.data x).1]; exact h

/-- The hypotheses of `C63_blocked`: the relays have agreed on round 2; the stranger keeps it from ever being opened. -/
example : ∃ w1, Reach Toy.env Toy.L w1 ∧ Tipped 1000 Toy.stranger (Toy.rlRound 2) (Toy.get Toy.rlVoted) w1 ∧
    ∀ tr w2, Run Toy.env Toy.L true w1 tr w2 → (∀ e ∈ tr, ¬ TokenSized Toy.env (e.post.acc (Toy.rlRound 2))) →
      (w2.acc (Toy.rlRound 2)).owner ≠ Toy.env.rlId := by
  obtain hv := Toy.vacant (w := Toy.get Toy.rlVoted) (k := Toy.rlRound 2) ?_
  obtain hw := Toy.wallet (w := Toy.get Toy.rlVoted) (k := Toy.stranger) (n := 1000) ?_
  obtain hf := Toy.unlocked (k := Toy.stranger) ?_
  obtain ⟨w1, h1, h2, h3⟩ := C63_blocked Toy.distinct Toy.reach_voted (show Toy.rlRound 2 ∈ Toy.locked by simp [Toy.locked]) hv hf hw.system (by decide) hw.rich
  refine ⟨w1, h1, h2, fun tr w2 h hn => (h3 tr w2 h hn).1⟩
  checked

/-- and executing the proposal the relays confirmed does nothing -/
example : ∃ w1 p, Reach Toy.env Toy.L w1 ∧ Holds RL.proposalC RL.proposalLen (w1.acc Toy.prop2) p ∧ p.status = .new ∧
    p.requiredVotes.toNat ≤ p.signers.count .confirm ∧
    ∀ ctx w', ctx.program = Toy.env.rlId → ctx.accounts[2]? = some Toy.prop2 → RL.run Toy.env ctx .executeProposal w1 = .ok w' → w' = w1 := by
  obtain ⟨p, hp, hP⟩ := Toy.rl_proposal (P := fun p => Nat.beq p.event.roundNum.toNat 2 && (decide (p.status = .new) &&
    Nat.ble p.requiredVotes.toNat (p.signers.count .confirm))) (w := Toy.get Toy.rlVoted) (k := Toy.prop2) ?_
  simp only [Bool.and_eq_true, decide_eq_true_eq] at hP
  obtain ⟨w1, hr, ht, hb⟩ := toy_tip (w := Toy.get Toy.rlVoted) (k := Toy.rlRound 2) Toy.reach_voted (show _ ∈ Toy.locked by simp [Toy.locked]) ?_ ?_
  have hh := holds_tip ht hp.holds
  refine ⟨w1, p, hr, hh, hP.2.1, Nat.le_of_ble_eq_true hP.2.2, fun ctx w' hc hk h => ?_⟩
  · exact (C63_no_round hb (Toy.isAddr (relayRoundSeeds 2) _) hc).2.1 _ p hh (BitVec.eq_of_toNat_eq (Nat.eq_of_beq_eq_true hP.1)) hk h
  checked

/-- A request for a blocked withdrawal does nothing. -/
example : ∃ w1, Reach Toy.env Toy.L w1 ∧ ∀ w', TP.run Toy.env (Toy.reqCtx Toy.wd1) noCpi (.withdrawMultiTokenSolRequest Toy.pda1 Toy.bob 1000 [] 0) w1 = .ok w' →
    w' = w1 := by
  obtain ⟨w1, hr, -, hb⟩ := toy_tip (w := Toy.get Toy.tpDeposited) (k := Toy.wd1) Toy.reach_tpDeposited (show _ ∈ Toy.locked by simp [Toy.locked]) ?_ ?_
  refine ⟨w1, hr, fun w' h => (C63_request_lost hb rfl).2 _ _ _ _ h⟩
  checked

/-- A confirmed withdrawal of an Everscale token that is never paid. -/
example : ∃ w1 r, Reach Toy.env Toy.L w1 ∧ Holds (withdrawalC wEverEventC) recLen (w1.acc Toy.wd5) r ∧ r.md.status = .new ∧
    r.requiredVotes.toNat ≤ r.signers.count .confirm ∧
    ∀ ctx w', ctx.program = Toy.env.tpId → ctx.accounts[0]? = some Toy.wd5 → TP.run Toy.env ctx noCpi .withdrawMultiTokenEver w1 = .ok w' → w' = w1 := by
  obtain ⟨r, hp, hP⟩ := Toy.tp_wd (ec := wEverEventC) (P := fun r => decide (r.event.token = Toy.star) && (decide (r.md.status = .new) &&
    Nat.ble r.requiredVotes.toNat (r.signers.count .confirm))) (w := Toy.get Toy.tpE3) (k := Toy.wd5) ?_
  simp only [Bool.and_eq_true, decide_eq_true_eq] at hP
  obtain ⟨w1, hr, ht, hb⟩ := toy_tip (w := Toy.get Toy.tpE3) (k := Toy.starMint) Toy.reach_tpE3 (show _ ∈ Toy.locked by simp [Toy.locked]) ?_ ?_
  have hh := holds_tip ht hp.holds
  refine ⟨w1, r, hr, hh, hP.2.1, Nat.le_of_ble_eq_true hP.2.2, fun ctx w' hc hk h => ?_⟩
  · exact C63_no_mint hb (by rw [hP.1]; exact Toy.isAddr _ _) hc hk hh h
  checked

/-- A token that is never connected. -/
example : ∃ w1, Reach Toy.env Toy.L w1 ∧ ∀ ctx w' s n y a r v e p, ctx.accounts[7]? = some Toy.tpGold →
    TP.run Toy.env ctx noCpi (.depositMultiTokenSol s n y a r v e p) w1 ≠ .ok w' := by
  obtain ⟨w1, hr, -, hb⟩ := toy_tip (w := Toy.get Toy.tpInit) (k := Toy.tpGold) Toy.reach_tpInit (show _ ∈ Toy.locked by simp [Toy.locked]) ?_ ?_
  refine ⟨w1, hr, fun ctx w' s n y a r v e p h => C63_no_deposit hb h s n y a r v e p⟩
  checked

/-- A bridge that never starts. -/
example : ∃ w1, Reach Toy.env Toy.L w1 ∧ ∀ ctx w' g s m t, ctx.program = Toy.env.rlId → RL.run Toy.env ctx (.init g s m t) w1 ≠ .ok w' := by
  obtain ⟨w1, hr, -, hb⟩ := toy_tip (w := Toy.genesis) (k := Toy.rlSettings) Toy.reach_genesis (show _ ∈ Toy.locked by simp [Toy.locked]) ?_ ?_
  refine ⟨w1, hr, fun ctx w' g s m t h => (C63_no_settings hb).1 (Toy.isAddr _ _) h g s m t⟩
  checked

end Verif.Props
