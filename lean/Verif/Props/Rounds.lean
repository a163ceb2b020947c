import Verif.Spec.ToyTactic
import Verif.Lemmas.RLHist
import Verif.Spec.ToyReach
/-!
# Settings and relay rounds of the round loader (C01, C02, C03, C12)
-/
set_option maxRecDepth 100000
namespace Verif.Props
open Verif Verif.RL

/-! ## C01: settings are controlled by the upgrade authority -/

/-- C01: a successful `Initialize` is signed by the upgrade authority and creates the settings account, which did not exist,
with exactly the requested values. No other account's data or owner changes. -/
theorem C01_initialize {env : Env} {ctx : Ctx} {g m t : U32} {sub : Pubkey} {w w' : World}
    (h : run env ctx (.init g sub m t) w = .ok w') :
    UpgradeAuthoritySigns env ctx w ∧ ∃ k n n', IsAddr env ctx.program settingsSeeds k ∧ Vacant env (w.acc k) ∧
      (w'.acc k).owner = ctx.program ∧ Holds settingsC settingsLen (w'.acc k) ⟨true, .settings n n', g, sub, m, t⟩ ∧
      ∀ x, x ≠ k → (w'.acc x).data = (w.acc x).data ∧ (w'.acc x).owner = (w.acc x).owner := by
  simp only [run, processInitialize, bind_ok, acct_ok, sysvar_ok, require_ok, exists_const, Prod.exists,
      validateInitializer_ok] at h
  obtain ⟨f, -, ini, -, ks, -, kpd, -, -, -, rent, -, -, hsig, pd, pn, hpd, rfl, hauth, k, n, ha, rfl, w1, h1, h2⟩ := h
  have hc := findAddr_create ha
  obtain ⟨v1, v2, v3, -⟩ := createPda_ok hc h1
  refine ⟨⟨ini, pd, ⟨_, hpd⟩, hauth, hsig⟩, k, n, pn, ⟨n, ha⟩, ⟨v1, v2, v3⟩, ?_, pack_holds h2, ?_⟩
  · rw [(pack_acc h2 k).1, createPda_self hc h1]
  · intro x hx
    rw [(pack_acc h2 x).2.2 hx]
    exact createPda_acc hc h1 x hx

/-- C01: a successful `UpdateSettings` is signed by the upgrade authority and sets exactly the requested fields. -/
theorem C01_update {env : Env} {ctx : Ctx} {r m t : Option U32} {sub : Option Pubkey} {w w' : World}
    (h : run env ctx (.updateSettings r sub m t) w = .ok w') :
    UpgradeAuthoritySigns env ctx w ∧ ∃ k s, IsAddr env ctx.program settingsSeeds k ∧ (w.acc k).owner = ctx.program ∧
      Holds settingsC settingsLen (w.acc k) s ∧ s.isInitialized = true ∧
      Holds settingsC settingsLen (w'.acc k) { s with
        currentRoundNumber := r.getD s.currentRoundNumber, roundSubmitter := sub.getD s.roundSubmitter,
        minRequiredVotes := m.getD s.minRequiredVotes, roundTtl := t.getD s.roundTtl } ∧
      (w'.acc k).owner = ctx.program ∧ ∀ x, x ≠ k → w'.acc x = w.acc x := by
  simp only [run, processUpdateSettings, bind_ok, acct_ok, require_ok, exists_const, Prod.exists, unpack_holds, orErr_ok,
    validateSettings, validatePda_ok, validateProgramdata_ok, validateInitializer_ok] at h
  obtain ⟨au, -, k, -, pd, -, hsig, s, ⟨hs, hi⟩, sn, pn, -, ha, ho, hpd, hauth, h⟩ := h
  exact ⟨⟨au, pd, ⟨_, hpd⟩, hauth, hsig⟩, k, s, ⟨_, ha⟩, ho, hs, hi, pack_holds h, (pack_acc h k).1.trans ho,
    fun x hx => (pack_acc h x).2.2 hx⟩

/-- C01: over every history, in every step: settings once written stay; the round submitter, the minimum vote count and the
ttl change only by `UpdateSettings` signed by the upgrade authority; and settings appear only by `Initialize` signed by the upgrade
authority. -/
theorem C01_history {env : Env} {L : Pubkey → Prop} (hd : env.Distinct) {w0 w : World} {tr : List Ev}
    (hg : Genesis env L w0) (hr : Run env L true w0 tr w) (e : Ev) (he : e ∈ tr) (k : Pubkey) :
    (∀ s, SettingsAt env e.pre k s → ∃ s', SettingsAt env e.post k s' ∧
      ((s'.roundSubmitter = s.roundSubmitter ∧ s'.minRequiredVotes = s.minRequiredVotes ∧ s'.roundTtl = s.roundTtl) ∨
       ∃ ctx a b c d, e.act = .rl ctx (.updateSettings a b c d) ∧ UpgradeAuthoritySigns env ctx e.pre)) ∧
    (∀ s, SettingsAt env e.post k s → (∀ s, ¬ SettingsAt env e.pre k s) →
      ∃ ctx g u m t, e.act = .rl ctx (.init g u m t) ∧ UpgradeAuthoritySigns env ctx e.pre) := by
  obtain ⟨hgood, hev⟩ := hist_mem hd hg hr e he
  refine ⟨fun s hs => ?_, fun s hs hn => settings_new_ev hd hev hn hs⟩
  obtain ⟨q, hq, rfl | ⟨ctx, i, hact, hl⟩⟩ := settings_ev hd hev hgood hs
  · exact ⟨q, hq, .inl ⟨rfl, rfl, rfl⟩⟩
  · refine ⟨q, hq, hl.fixed.imp_right ?_⟩
    rintro ⟨⟨a, b, c, d, rfl⟩, hu⟩
    exact ⟨ctx, a, b, c, d, hact, hu⟩

/-- C01: once settings exist, `Initialize` fails, so the authority cannot re-initialize either. -/
theorem C01_initialize_once {env : Env} (hd : env.Distinct) {ctx : Ctx} {w w' : World} {k : Pubkey} {s : Settings} {g m t : U32}
    {sub : Pubkey} (ha : IsAddr env ctx.program settingsSeeds k) (h : SettingsAt env w k s) :
    run env ctx (.init g sub m t) w ≠ .ok w' := by
  intro hr
  obtain ⟨-, k', n, n', ha', hv, -⟩ := C01_initialize hr
  rw [ha'.unique ha] at hv
  exact hd.rlSys (h.1.symm.trans hv.2.2)

example : ∃ w', RL.run Toy.env (Toy.ctx Toy.env.rlId
    [Toy.funder, Toy.authority, Toy.rlSettings, Toy.rlProgramdata, Toy.env.systemId, Toy.env.rentId] [Toy.funder, Toy.authority])
    (.init 0 Toy.submitter 1 10) Toy.genesis = .ok w' := ⟨_, Toy.get_ok (r := Toy.rlInit) (by decide +kernel)⟩

example : ∃ w', RL.run Toy.env (Toy.ctx Toy.env.rlId [Toy.authority, Toy.rlSettings, Toy.rlProgramdata] [Toy.authority])
    (.updateSettings none (some Toy.stranger) (some 5) none) (Toy.get Toy.rlInit) = .ok w' := ⟨_, Toy.get_ok (by decide +kernel)⟩

/-- A stranger's signature is not enough. -/
example : Toy.isOk (RL.run Toy.env (Toy.ctx Toy.env.rlId [Toy.stranger, Toy.rlSettings, Toy.rlProgramdata] [Toy.stranger])
    (.updateSettings none (some Toy.stranger) (some 5) none) (Toy.get Toy.rlInit)) = false := by decide +kernel

example : ∃ w s, Reach Toy.env Toy.L w ∧ SettingsAt Toy.env w Toy.rlSettings s ∧ (s.minRequiredVotes == 1#32) = true := by
  obtain ⟨s, h1, h2⟩ := Toy.find_settings (P := fun s => s.minRequiredVotes == 1#32) (w := Toy.get Toy.rlExecuted) (k := Toy.rlSettings)
    (by decide +kernel)
  exact ⟨_, s, Toy.reach_executed, h1, h2⟩

/-! ## C02: creating a round directly -/

/-- C02: a successful `CreateRelayRound` is signed by the configured round submitter, its number is not below the current one,
the round's account did not exist and now holds exactly the requested round, and the current round number is the requested one. The
data of no other account changes. -/
theorem C02_create_round {env : Env} {ctx : Ctx} {num e : U32} {relays : List Pubkey} {w w' : World}
    (h : run env ctx (.createRelayRound num relays e) w = .ok w') :
    ∃ ks kr s n, IsAddr env ctx.program settingsSeeds ks ∧ Holds settingsC settingsLen (w.acc ks) s ∧ s.isInitialized = true ∧
      ctx.isSigner s.roundSubmitter = true ∧ s.currentRoundNumber.toNat ≤ num.toNat ∧
      IsAddr env ctx.program (relayRoundSeeds num) kr ∧ Vacant env (w.acc kr) ∧ (w'.acc kr).owner = ctx.program ∧
      Holds relayRoundC relayRoundLen (w'.acc kr) ⟨true, .relayRound n, num, e + s.roundTtl, relays⟩ ∧
      Holds settingsC settingsLen (w'.acc ks) { s with currentRoundNumber := num } ∧
      ∀ x, x ≠ ks → x ≠ kr → (w'.acc x).data = (w.acc x).data ∧ (w'.acc x).owner = (w.acc x).owner := by
  simp only [run, processCreateRelayRound, bind_ok, acct_ok, sysvar_ok, require_ok, exists_const] at h
  obtain ⟨f, -, cr, -, ks, -, kr, -, -, -, rent, -, -, hsig, s, hs, hsub, hnum, h⟩ := h
  subst hsub
  have o := openRound_fx h hs
  obtain ⟨hs', hsi, sn, spn, -, hsa⟩ := loadSettings_ok.1 hs
  obtain ⟨n, hn, -⟩ := o.round
  refine ⟨ks, kr, s, n, ⟨_, hsa⟩, hs', hsi, hsig, ?_, o.addr, o.vacant, o.owner, hn, o.settings, o.others⟩
  by_cases h0 : s.currentRoundNumber = 0#32
  · rw [h0]; exact Nat.zero_le _
  · exact Nat.le_of_not_lt fun hlt => hnum ⟨h0, hlt⟩

/-- C02: a round that exists is never created again, whatever happens later. -/
theorem C02_never_again {env : Env} {L : Pubkey → Prop} (hd : env.Distinct) {w w1 w2 : World} {tr : List Ev} {kr : Pubkey}
    {r : RelayRound} {num e : U32} {relays : List Pubkey} {ctx : Ctx} (hw : Reach env L w) (hrd : RoundAt env w kr r)
    (ha : IsAddr env env.rlId (relayRoundSeeds num) kr) (hr : Run env L true w tr w1) (hp : ctx.program = env.rlId) :
    run env ctx (.createRelayRound num relays e) w1 ≠ .ok w2 := by
  intro h
  obtain ⟨ks, kr', s, n, -, -, -, -, -, ha', hv, -⟩ := C02_create_round h
  rw [hp] at ha'
  rw [ha'.unique ha] at hv
  obtain ⟨q, hq, -⟩ := round_steps hd (hr.rlSteps hd) (good_reach hd hw) hrd
  exact hd.rlSys (hq.1.symm.trans hv.2.2)

example : ∃ w w', Reach Toy.env Toy.L w ∧ RL.run Toy.env (Toy.ctx Toy.env.rlId
    [Toy.funder, Toy.submitter, Toy.rlSettings, Toy.rlRound 1, Toy.env.systemId, Toy.env.rentId] [Toy.funder, Toy.submitter])
    (.createRelayRound 1 Toy.relays3 5000) w = .ok w' :=
  ⟨_, _, Toy.reach_init, Toy.get_bind (a := Toy.rlInit) (by decide +kernel)⟩

example : ∃ r, RoundAt Toy.env (Toy.get Toy.rlRound1) (Toy.rlRound 1) r ∧ Reach Toy.env Toy.L (Toy.get Toy.rlRound1) ∧
    IsAddr Toy.env Toy.env.rlId (relayRoundSeeds 1) (Toy.rlRound 1) := by
  obtain ⟨r, h, -⟩ := Toy.find_round (P := fun _ => true) (w := Toy.get Toy.rlRound1) (k := Toy.rlRound 1) (by decide +kernel)
  exact ⟨r, h, Toy.reach_round1, Toy.isAddr _ _⟩

/-! ## C03: rounds never change (false) -/

/-- C03 is false. `WriteProposal` accepts a relay round account: with nobody's signature (`ctx.signers` is arbitrary), in every state
in which the round exists, all relays from the fourth on are replaced by any keys. -/
theorem C03_relays_replaced {env : Env} {ctx : Ctx} {w : World} {k : Pubkey} {r : RelayRound} {n : U8}
    (hk : ctx.accounts[0]? = some k) (hw : ctx.isWritable k = true) (hp : ctx.program = env.rlId)
    (h : RoundAt env w k r) (hkind : r.accountKind = .relayRound n) (new : List Pubkey)
    (hn : 3 + new.length = r.relays.length) :
    ∃ off bs w', run env ctx (.writeProposal off bs) w = .ok w' ∧
      RoundAt env w' k { r with relays := r.relays.take 3 ++ new } :=
  let ⟨w', h1, h2, _⟩ := write_round hk hw hp h hkind new hn
  ⟨_, _, w', h1, h2⟩

/-- C03 is false to the point of losing the bridge: in a round of at least twelve relays the keys that can be replaced are a quorum of
the round. -/
theorem C03_quorum_replaced {env : Env} {ctx : Ctx} {w : World} {k : Pubkey} {r : RelayRound} {n : U8} {m : U32}
    (hk : ctx.accounts[0]? = some k) (hw : ctx.isWritable k = true) (hp : ctx.program = env.rlId)
    (h : RoundAt env w k r) (hkind : r.accountKind = .relayRound n) (h12 : 12 ≤ r.relays.length) (hm : m.toNat + 3 ≤ r.relays.length)
    (mine : Pubkey) : ∃ off bs w' r', run env ctx (.writeProposal off bs) w = .ok w' ∧ RoundAt env w' k r' ∧
      r'.roundNumber = r.roundNumber ∧ r'.relays.length = r.relays.length ∧
      (requiredVotes r'.relays.length m).toNat ≤ r'.relays.count mine := by
  have hlen : 3 + (List.replicate (r.relays.length - 3) mine).length = r.relays.length := by
    rw [List.length_replicate]; omega
  obtain ⟨w', h1, h2, -⟩ := write_round hk hw hp h hkind _ hlen
  have hl : (r.relays.take 3 ++ List.replicate (r.relays.length - 3) mine).length = r.relays.length := by
    simp; omega
  refine ⟨_, _, w', _, h1, h2, rfl, hl, ?_⟩
  simp only
  rw [hl, List.count_append, List.count_replicate_self]
  have h32 := relays_lt h.2.1
  have : (BitVec.ofNat 32 (r.relays.length * 2 / 3 + 1)).toNat = r.relays.length * 2 / 3 + 1 := by
    rw [BitVec.toNat_ofNat, Nat.mod_eq_of_lt (by omega)]
  simp only [requiredVotes]
  split <;> omega

/-- C03, what does hold: over every history the round keeps its account, number, end time, number of relays and its first two
relays. Missing: the other relays. -/
theorem C03_header_partial {env : Env} {L : Pubkey → Prop} (hd : env.Distinct) {w w1 : World} {tr : List Ev} {k : Pubkey}
    {r : RelayRound} (hw : Reach env L w) (h : RoundAt env w k r) (hr : Run env L true w tr w1) :
    ∃ r', RoundAt env w1 k r' ∧ r'.roundNumber = r.roundNumber ∧ r'.roundEnd = r.roundEnd ∧
      r'.relays.length = r.relays.length ∧ r'.relays.take 2 = r.relays.take 2 := by
  obtain ⟨q, hq, hl⟩ := round_steps hd (hr.rlSteps hd) (good_reach hd hw) h
  refine ⟨q, hq, ?_, ?_, hl.length, hl.first⟩ <;> rw [hl.same]

/-- C03, what does hold: the round is unchanged over every history in which no `WriteProposal` instruction names its account. -/
theorem C03_unwritten_partial {env : Env} {L : Pubkey → Prop} (hd : env.Distinct) {w w1 : World} {tr : List Ev} {k : Pubkey}
    {r : RelayRound} (hw : Reach env L w) (h : RoundAt env w k r) (hr : Run env L true w tr w1)
    (hn : ∀ e ∈ tr, ∀ ctx o bs, e.act = .rl ctx (.writeProposal o bs) → ctx.accounts[0]? ≠ some k) :
    RoundAt env w1 k r := round_same hd (hr.rlSteps hd) (good_reach hd hw) h hn

/-- A round of four relays exists on the toy chain after the vote. -/
theorem toy_round2 : ∃ r, RoundAt Toy.env (Toy.get Toy.rlExecuted) (Toy.rlRound 2) r ∧ r.relays.length = 4 ∧
    ∃ n, r.accountKind = .relayRound n := by
  obtain ⟨r, h, h1⟩ := Toy.find_round (P := fun r => Nat.beq r.relays.length 4 && (r.accountKind.intoRelayRound).isSome)
    (w := Toy.get Toy.rlExecuted) (k := Toy.rlRound 2) (by decide +kernel)
  simp only [Bool.and_eq_true] at h1
  refine ⟨r, h, Nat.eq_of_beq_eq_true h1.1, ?_⟩
  obtain ⟨n, hn⟩ := Option.isSome_iff_exists.1 h1.2
  cases hk : r.accountKind <;> rw [hk] at hn <;> simp_all [AccountKind.intoRelayRound]

/-- The C03 attack on the toy chain: nobody signs, the fourth relay becomes the stranger. -/
example : ∃ w, Reach Toy.env Toy.L w ∧ ∃ r off bs w', RoundAt Toy.env w (Toy.rlRound 2) r ∧
    RL.run Toy.env (Toy.ctx Toy.env.rlId [Toy.rlRound 2] []) (.writeProposal off bs) w = .ok w' ∧
    RoundAt Toy.env w' (Toy.rlRound 2) { r with relays := r.relays.take 3 ++ [Toy.stranger] } := by
  obtain ⟨r, h, h4, n, hk⟩ := toy_round2
  obtain ⟨off, bs, w', h1, h2⟩ := C03_relays_replaced (ctx := Toy.ctx Toy.env.rlId [Toy.rlRound 2] []) rfl
    (by simp [Toy.ctx, Ctx.isWritable]) rfl h hk [Toy.stranger] (by simp [h4])
  exact ⟨_, Toy.reach_executed, r, off, bs, w', h, h1, h2⟩

/-! ## C12: the current round never moves backwards (false) -/

/-- C12, what does hold: in every step of every history the current round number does not decrease, unless the upgrade authority
updates the settings or a finalized proposal for an older round is executed. -/
theorem C12_monotone_partial {env : Env} {L : Pubkey → Prop} (hd : env.Distinct) {w0 w : World} {tr : List Ev}
    (hg : Genesis env L w0) (hr : Run env L true w0 tr w) (e : Ev) (he : e ∈ tr) (k : Pubkey) (s : Settings)
    (hs : SettingsAt env e.pre k s) : ∃ s', SettingsAt env e.post k s' ∧
      (s.currentRoundNumber.toNat ≤ s'.currentRoundNumber.toNat ∨ ∃ ctx i, e.act = .rl ctx i ∧
        (((∃ a b c d, i = .updateSettings a b c d) ∧ UpgradeAuthoritySigns env ctx e.pre) ∨
         (i = .executeProposal ∨ i = .executeProposalByAdmin) ∧ ∃ kp ∈ ctx.accounts, ∃ p, Holds proposalC proposalLen (e.pre.acc kp) p ∧
           p.isInitialized = true ∧ p.event.roundNum.toNat < s.currentRoundNumber.toNat)) := by
  obtain ⟨hgood, hev⟩ := hist_mem hd hg hr e he
  exact current_ev hd hev hgood hs

/-- C12 is false: executing a proposal never compares its round with the current one. Here three relays have confirmed round 2, the
submitter opens round 5, and `ExecuteProposal` then sets the current round back from 5 to 2. -/
theorem C12_moves_back : ∃ env L w w' ctx k s s', Env.Distinct env ∧ Reach env L w ∧ ctx.program = env.rlId ∧
    run env ctx .executeProposal w = .ok w' ∧ SettingsAt env w k s ∧ SettingsAt env w' k s' ∧
    s.currentRoundNumber.toNat = 5 ∧ s'.currentRoundNumber.toNat = 2 := by
  obtain ⟨s, h1, h2⟩ := Toy.find_settings (P := fun s => Nat.beq s.currentRoundNumber.toNat 5) (w := Toy.get Toy.rlJumped)
    (k := Toy.rlSettings) ?_
  obtain ⟨s', h3, h4⟩ := Toy.find_settings (P := fun s => Nat.beq s.currentRoundNumber.toNat 2) (w := Toy.get Toy.rlBack)
    (k := Toy.rlSettings) ?_
  refine ⟨Toy.env, Toy.L, _, _, Toy.rlExecuteCtx, _, s, s', Toy.distinct, Toy.reach_jumped, rfl,
    Toy.get_bind (a := Toy.rlJumped) ?_, h1, h3, Nat.eq_of_beq_eq_true h2, Nat.eq_of_beq_eq_true h4⟩
  checked

end Verif.Props
