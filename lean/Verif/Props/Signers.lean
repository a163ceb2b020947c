import Verif.Lemmas.Signers
import Verif.Spec.ToyStolen
import Verif.Spec.ToyTactic
/-!
# C88: whose signatures release money
-/
set_option maxRecDepth 100000
namespace Verif.Props
open Verif TP Codec

variable {env : Env} {L : Pubkey → Prop} {k : Pubkey} {w : World}

/-- C88, what does hold: when funds are released on account of a withdrawal of some round, then more than two thirds of the relays of this round,
all different, have each signed a confirmation of this withdrawal before. Missing: relay rounds that somebody has overwritten by `WriteProposal`, for
which this is false. -/
theorem C88_signatures_partial {t1 t2 : List Ev} {e : Ev} (hd : env.Distinct) (h : History env L k (t1 ++ e :: t2) w) (hr : Releases k e) :
    ∃ p md, WithdrawalAt env e.pre k p md ∧ ∀ kr, IsAddr env env.rlId (relayRoundSeeds p.roundNumber) kr → L kr → RoundKept env t1 kr →
      ∃ (r : RL.RelayRound) (l : List Pubkey), RL.RoundAt env e.pre kr r ∧ l.Nodup ∧ 2 * r.relays.length < 3 * l.length ∧ p.requiredVotes.toNat ≤ l.length ∧
        ∀ x ∈ l, x ∈ r.relays ∧ ∃ e' ∈ t1, SignsVote k x .confirm e' := by
  have hmem : e ∈ t1 ++ e :: t2 := by simp
  obtain ⟨hi, hi', hv⟩ := (h.evs hd).2 e hmem
  obtain ⟨w0, -, hrun⟩ := h.run
  obtain ⟨p, md, p', md', h0, -, h1, ho⟩ := released_status hd (hrun.evs hd e hmem) hv hi hi' hr
  refine ⟨p, md, h0, fun kr ha hL hk => ?_⟩
  have hb := h.before
  obtain ⟨r, hR, hlen, hq, -⟩ := hb.signed hd hL hk h0 ha
  have done : ∀ {s1 : List Ev} {w1 : World} {p0 : GenericProposal} {md0 : WMeta}, History env L k s1 w1 → WithdrawalAt env w1 k p0 md0 →
      (∀ e' ∈ s1, e' ∈ t1) → RL.RoundAt env w1 kr r → TP.Quorum p0 → p0.roundNumber = p.roundNumber → p0.requiredVotes = p.requiredVotes →
      ∃ (r : RL.RelayRound) (l : List Pubkey), RL.RoundAt env e.pre kr r ∧ l.Nodup ∧ 2 * r.relays.length < 3 * l.length ∧ p.requiredVotes.toNat ≤ l.length ∧
        ∀ x ∈ l, x ∈ r.relays ∧ ∃ e' ∈ t1, SignsVote k x .confirm e' := by
    intro s1 w1 p0 md0 hh hw1 hsub hR1 hQ e1 e2
    obtain ⟨r1, hr1, -, -, hs⟩ := hh.signed hd hL ⟨fun e' he' => hk.unwritten e' (hsub e' he'), fun e' he' => hk.foreign e' (hsub e' he')⟩ hw1
      (by rw [e1]; exact ha)
    have := hr1.2.1.unique hR1.2.1
    subst this
    obtain ⟨l, l1, l2, l3⟩ := voters_of (s := p0.signers) (n := 0) (f := fun x => r1.relays.findIdx? (fun y => y == x))
      (Q := fun x => ∃ e' ∈ s1, SignsVote k x .confirm e') (fun j hj => by
        obtain ⟨x, hx, hs⟩ := hs j _ hj nofun
        exact ⟨x, by rw [hx, Nat.zero_add], hs⟩)
    unfold TP.Quorum at hQ
    rw [e2, ← l2] at hQ
    refine ⟨r1, l, hR, l1, by omega, hQ, fun x hx => ?_⟩
    obtain ⟨⟨e', he', hs⟩, j, -, hj⟩ := l3 x hx
    obtain ⟨hlt, hev, -⟩ := List.findIdx?_eq_some_iff_getElem.1 hj
    have : r1.relays[j] = x := by simpa using hev
    exact ⟨this ▸ List.getElem_mem hlt, e', hsub e' he', hs⟩
  by_cases hn : md.status = .new
  · have hn' : md'.status ≠ .new := by intro hh; rw [hh] at ho; cases ho
    refine done hb h0 (fun _ h => h) hR ?_ rfl rfl
    cases hv with
    | absent h h' => exact (h _ _ h0).elim
    | request ctx i p md hact hp hs hr h h' ha => exact (h _ _ h0).elim
    | keep p1 md1 h h' =>
      obtain ⟨rfl, rfl⟩ := h.unique h0
      obtain ⟨rfl, rfl⟩ := h'.unique h1
      exact (hn' hn).elim
    | change ctx i p1 md1 p2 md2 hact hp hs hr h h' hc =>
      obtain ⟨rfl, rfl⟩ := h.unique h0
      obtain ⟨rfl, rfl⟩ := h'.unique h1
      exact hc.quorum h0 hn hn'
    | payload ctx i p1 md1 sg hact hp hs hi hk h hb h' hg =>
      obtain ⟨rfl, rfl⟩ := h.unique h0
      rw [hn] at hb
      rcases hb with hb | hb <;> cases hb
    | close ctx p1 md1 hact hp hs hr h hf h' => exact (Dead.no hd h' h1).elim
    | purge p1 md1 hact h hf hl h' => exact (h' _ _ h1).elim
  · obtain ⟨e', he', p0, md0, h2, -, hQ, -, e1, -, e2, -⟩ := hb.quorum hd h0 hn
    obtain ⟨s1, s2, rfl⟩ := List.append_of_mem he'
    have hb' := hb.before
    obtain ⟨r', hR', -⟩ := hb'.signed hd hL ⟨fun x hx => hk.unwritten x (List.mem_append_left _ hx), fun x hx => hk.foreign x (List.mem_append_left _ hx)⟩
      h2 (by rw [e1]; exact ha)
    have hst : Steps (RlEv env L) e'.pre (e' :: s2) e.pre := by
      obtain ⟨w1, -, hr1⟩ := hb.run
      exact (hr1.rlSteps hd).after rfl
    have hRe := RL.round_same hd hst (RL.good_reach hd (by obtain ⟨⟨w0, hg, hr⟩, -, -⟩ := hb'; exact ⟨w0, _, hg, hr⟩)) hR'
      (fun x hx => hk.unwritten x (List.mem_append_right _ hx))
    have := hRe.2.1.unique hR.2.1
    subst this
    exact done hb' h2 (fun x hx => List.mem_append_left _ hx) hR' hQ e1 e2

/-- C88 is false: there is a state that can occur, in which the current round has twelve relays and the bridge holds gold, and from which a stranger
empties most of the vault: they overwrite nine of the relays, ask for a withdrawal and confirm it themselves. None of the relays signs anything, and
neither does anybody with a role. -/
theorem C88_stolen : ∃ env L w w' tr k e kr ks r s, Env.Distinct env ∧ Reach env L w ∧ RL.RoundAt env w kr r ∧ r.relays.length = 12 ∧
    RL.SettingsAt env w ks s ∧ s.currentRoundNumber = r.roundNumber ∧ Run env L true w tr w' ∧ e ∈ tr ∧ Releases k e ∧
    (∀ x ∈ r.relays, ∀ e ∈ tr, ¬ Signs x e) ∧
    (∀ x ∈ [s.roundSubmitter, Toy.authority, Toy.guardian, Toy.manager, Toy.wmanager], ∀ e ∈ tr, ¬ Signs x e) ∧
    bal w Toy.tpVault = 50000 ∧ bal w' Toy.tpVault = 10020 ∧ bal w Toy.bobGold = 0 ∧ bal w' Toy.bobGold = 39980 := by
  obtain ⟨r, hr, hP⟩ := Toy.find_round (w := Toy.get Toy.rlRound12) (k := Toy.rlRound 2)
    (P := fun r => Nat.beq r.roundNumber.toNat 2 && decide (r.relays = Toy.relays12)) (by decide +kernel)
  obtain ⟨s, hs, hQ⟩ := Toy.find_settings (w := Toy.get Toy.rlRound12) (k := Toy.rlSettings)
    (P := fun s => Nat.beq s.currentRoundNumber.toNat 2 && Nat.beq s.roundSubmitter.toNat 1001) (by decide +kernel)
  simp only [Bool.and_eq_true, decide_eq_true_eq] at hP hQ
  obtain ⟨hP1, hP2⟩ := hP
  obtain ⟨hQ1, hQ2⟩ := hQ
  have hsub : s.roundSubmitter = Toy.submitter := BitVec.eq_of_toNat_eq (Nat.eq_of_beq_eq_true hQ2)
  have hsome : (Toy.play (Toy.get Toy.rlRound12) Toy.theft).isSome = true := by decide +kernel
  obtain ⟨⟨es, w1⟩, hplay⟩ := Option.isSome_iff_exists.1 hsome
  have hb : Toy.beforeTheft = w1 := by unfold Toy.beforeTheft; rw [hplay]
  obtain ⟨hrun, hacts⟩ := Toy.play_run hplay (by decide +kernel)
  have hpay : TP.run Toy.env (Toy.solCtx Toy.wdStolen Toy.bobGold) noCpi .withdrawMultiTokenSol Toy.beforeTheft = .ok Toy.afterTheft :=
    Toy.get_ok (by decide +kernel)
  rw [hb] at hpay
  have hall := hrun.append (Run.tp (Toy.solCtx Toy.wdStolen Toy.bobGold) .withdrawMultiTokenSol (.nil _ _) rfl (Toy.free (by decide +kernel)) hpay)
  have b1 : Nat.beq (bal (Toy.get Toy.rlRound12) Toy.tpVault) 50000 = true := by decide +kernel
  have b2 : Nat.beq (bal Toy.afterTheft Toy.tpVault) 10020 = true := by decide +kernel
  have b3 : Nat.beq (bal (Toy.get Toy.rlRound12) Toy.bobGold) 0 = true := by decide +kernel
  have b4 : Nat.beq (bal Toy.afterTheft Toy.bobGold) 39980 = true := by decide +kernel
  have b5 : Nat.beq (bal Toy.beforeTheft Toy.bobGold) 0 = true := by decide +kernel
  have unsigned : ∀ (l : List Pubkey), (Toy.theft.all fun a => match a with
        | .rl c _ => l.all (fun x => !(c.isSigner x))
        | .tp c _ => l.all (fun x => !(c.isSigner x))
        | _ => true) = true → ∀ x ∈ l, ∀ e ∈ es ++ ([] ++ [⟨.tp (Toy.solCtx Toy.wdStolen Toy.bobGold) .withdrawMultiTokenSol, w1, Toy.afterTheft⟩]), ¬ Signs x e := by
    intro l hl x hx e he hsg
    rcases List.mem_append.1 he with he | he
    · have ha := List.mem_map_of_mem (f := fun e : Ev => e.act) he
      rw [hacts] at ha
      have := List.all_eq_true.1 hl _ ha
      obtain ⟨act, pre, post⟩ := e
      cases act with
      | rl c i =>
        have := List.all_eq_true.1 this x hx
        simp only [Signs] at hsg
        rw [hsg] at this
        cases this
      | tp c i =>
        have := List.all_eq_true.1 this x hx
        simp only [Signs] at hsg
        rw [hsg] at this
        cases this
      | ext => exact hsg
      | purge => exact hsg
    · simp only [List.nil_append, List.mem_singleton] at he
      subst he
      simp [Signs, Toy.solCtx, Toy.tctx, Toy.ctx, Ctx.isSigner] at hsg
  refine ⟨Toy.env, Toy.L, Toy.get Toy.rlRound12, Toy.afterTheft, _, Toy.wdStolen, _, Toy.rlRound 2, Toy.rlSettings, r, s, Toy.distinct, Toy.reach_round12, hr, ?_,
    hs, ?_, hall, List.mem_append_right _ (List.mem_append_right _ (List.mem_singleton.2 rfl)), .withdrawSol _ rfl rfl ?_, ?_, ?_,
    Nat.eq_of_beq_eq_true b1, Nat.eq_of_beq_eq_true b2, Nat.eq_of_beq_eq_true b3, Nat.eq_of_beq_eq_true b4⟩
  · rw [hP2]; rfl
  · exact BitVec.eq_of_toNat_eq ((Nat.eq_of_beq_eq_true hQ1).trans (Nat.eq_of_beq_eq_true hP1).symm)
  · intro hno
    have := (hno Toy.bobGold).1
    rw [hb] at b5
    simp only at this
    rw [Nat.eq_of_beq_eq_true b4, Nat.eq_of_beq_eq_true b5] at this
    cases this
  · rw [hP2]; exact unsigned _ (by decide +kernel)
  · rw [hsub]; exact unsigned _ (by decide +kernel)

/-- The ordinary course: round 1 is created, alice deposits, a withdrawal is requested and confirmed by its three relays. -/
private def course : List Act :=
  [.rl (Toy.ctx Toy.env.rlId [Toy.funder, Toy.authority, Toy.rlSettings, Toy.rlProgramdata, Toy.env.systemId, Toy.env.rentId] [Toy.funder, Toy.authority])
      (.init 0 Toy.submitter 1 10),
    .rl (Toy.ctx Toy.env.rlId [Toy.funder, Toy.submitter, Toy.rlSettings, Toy.rlRound 1, Toy.env.systemId, Toy.env.rentId] [Toy.funder, Toy.submitter])
      (.createRelayRound 1 Toy.relays3 5000),
    .tp Toy.initCtx (.init Toy.guardian Toy.manager Toy.wmanager),
    .tp (Toy.depCtx 1) (.depositMultiTokenSol 1 (ascii "Gold") (ascii "GLD") 50000 Toy.home 7 0 []),
    .tp (Toy.reqCtx Toy.wd1) (.withdrawMultiTokenSolRequest Toy.pda1 Toy.bob 1000 [] 0),
    .tp (Toy.voteCtx Toy.wd1 0) (.voteForWithdrawRequest .confirm),
    .tp (Toy.voteCtx Toy.wd1 1) (.voteForWithdrawRequest .confirm),
    .tp (Toy.voteCtx Toy.wd1 2) (.voteForWithdrawRequest .confirm)]

private def courseOk : Bool := match Toy.play Toy.genesis course with
  | some (es, w) => es.all (fun e => Toy.plain Toy.wd1 e.post && !(Nat.beq (e.pre.acc (Toy.rlRound 1)).owner.toNat 8)) &&
      (Toy.isOk (TP.run Toy.env (Toy.solCtx Toy.wd1 Toy.bobGold) noCpi .withdrawMultiTokenSol w) &&
      (Toy.plain Toy.wd1 (Toy.get (TP.run Toy.env (Toy.solCtx Toy.wd1 Toy.bobGold) noCpi .withdrawMultiTokenSol w)) &&
      (Nat.beq (bal w Toy.bobGold) 0 &&
      Nat.beq (bal (Toy.get (TP.run Toy.env (Toy.solCtx Toy.wd1 Toy.bobGold) noCpi .withdrawMultiTokenSol w)) Toy.bobGold) 999)))
  | none => false

/-- The withdrawal is then paid, in a history to which `C88_signatures_partial` applies. -/
theorem course_released : ∃ t1 e w, History Toy.env Toy.L Toy.wd1 (t1 ++ e :: []) w ∧ Releases Toy.wd1 e ∧ Toy.L (Toy.rlRound 1) ∧
    RoundKept Toy.env t1 (Toy.rlRound 1) := by
  have hok : courseOk = true := by decide +kernel
  unfold courseOk at hok
  split at hok
  · rename_i es w hplay
    simp only [Bool.and_eq_true] at hok
    obtain ⟨h1, h2, h3, h4, h5⟩ := hok
    obtain ⟨hrun, hacts⟩ := Toy.play_run hplay (by decide +kernel)
    have hrd : TP.Readable Toy.env Toy.wd1 es := by
      intro e he _ p md hp
      have := List.all_eq_true.1 h1 e he
      simp only [Bool.and_eq_true] at this
      exact Toy.plain_ok this.1 hp
    refine ⟨es, ⟨_, w, _⟩, _, ⟨⟨_, Toy.genesis_ok, Run.tp _ _ hrun rfl (Toy.free (by decide +kernel)) (Toy.get_ok h2)⟩, by simp [Toy.L, Toy.locked],
      Toy.readable_snoc hrd h3⟩, .withdrawSol _ rfl rfl (fun hno => ?_), by simp [Toy.L, Toy.locked], ?_, ?_⟩
    · have := (hno Toy.bobGold).1
      simp only at this
      rw [Nat.eq_of_beq_eq_true h4, Nat.eq_of_beq_eq_true h5] at this
      cases this
    · intro e he ctx o bs hact hk
      have ha := List.mem_map_of_mem (f := fun e : Ev => e.act) he
      rw [hacts, hact] at ha
      simp [course] at ha
    · intro e he ho
      have := List.all_eq_true.1 h1 e he
      rw [ho] at this
      simp only [Bool.and_eq_true] at this
      exact absurd this.2 (by decide)
  · cases hok

end Verif.Props
