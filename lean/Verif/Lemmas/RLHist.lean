import Verif.Lemmas.Locked
import Verif.Lemmas.RunPre
/-!
# Steps of a history as seen by settings, rounds and proposals of the round loader
-/
namespace Verif.RL
open Codec Verif

/-- States and steps of a history that starts before the programs were deployed. -/
theorem hist_mem {env : Env} {L : Pubkey → Prop} (hd : env.Distinct) {w0 w : World} {tr : List Ev} (hg : Genesis env L w0)
    (hr : Run env L true w0 tr w) : ∀ e ∈ tr, Good env e.pre ∧ RlEv env L e :=
  (hr.rlSteps hd).mem (fun e he hp => good_ev hd e he hp) (good_genesis hg)

theorem settings_zeros {env : Env} {w : World} {k : Pubkey} {s : Settings} {n : Nat} (h : SettingsAt env w k s)
    (hz : (w.acc k).data = .raw (zeros n)) : False := by
  obtain ⟨-, ⟨b, r, hb, hl, hdd⟩, hi⟩ := h
  rw [hz] at hb; cases hb
  have hh := settings_head hdd
  rw [hi] at hh
  cases n with
  | zero => cases hh
  | succ n => cases hh

theorem settings_ev {env : Env} {L : Pubkey → Prop} (hd : env.Distinct) {e : Ev} (he : RlEv env L e) (hg : Good env e.pre)
    {k : Pubkey} {s : Settings} (h : SettingsAt env e.pre k s) : ∃ q, SettingsAt env e.post k q ∧
      (q = s ∨ ∃ ctx i, e.act = .rl ctx i ∧ SetLater env ctx e.pre i s q) := by
  obtain ⟨act, pre, post⟩ := e
  cases act with
  | tp ctx i => exact ⟨s, settings_quiet he h, .inl rfl⟩
  | ext => exact ⟨s, settings_quiet he h, .inl rfl⟩
  | purge => exact ⟨s, settings_purge hg he h, .inl rfl⟩
  | rl ctx i =>
    obtain ⟨q, h1, h2⟩ := settings_run hd he.2.2 h
    exact ⟨q, h1, .inr ⟨ctx, i, rfl, h2⟩⟩

theorem settings_new_ev {env : Env} {L : Pubkey → Prop} (hd : env.Distinct) {e : Ev} (he : RlEv env L e)
    {k : Pubkey} {s : Settings} (hn : ∀ s, ¬ SettingsAt env e.pre k s) (h : SettingsAt env e.post k s) :
    ∃ ctx g u m t, e.act = .rl ctx (.init g u m t) ∧ UpgradeAuthoritySigns env ctx e.pre := by
  obtain ⟨act, pre, post⟩ := e
  have quiet : QuietFor env.rlId L pre post → False := by
    intro hq
    by_cases ho : (pre.acc k).owner = env.rlId
    · obtain ⟨-, h2, -⟩ := (hq k).1 ho
      obtain ⟨ho', ⟨b, r, hb, hl, hdd⟩, hi⟩ := h
      exact hn s ⟨ho, ⟨b, r, h2.symm.trans hb, hl, hdd⟩, hi⟩
    · obtain ⟨-, n, hz⟩ := (hq k).2 h.1 ho
      exact settings_zeros h hz
  cases act with
  | tp ctx i => exact (quiet he).elim
  | ext => exact (quiet he).elim
  | purge =>
    have hk : post.acc k = _ := he.2 k
    by_cases h0 : (pre.acc k).lamports = 0
    · simp only at hk
      rw [if_pos h0] at hk
      have ho := h.1
      simp only at ho
      rw [hk] at ho
      exact (hd.rlSys ho.symm).elim
    · simp only at hk
      rw [if_neg h0] at hk
      simp only [SettingsAt] at h hn
      rw [hk] at h
      exact (hn s h).elim
  | rl ctx i =>
    obtain ⟨⟨g, u, m, t, rfl⟩, h2⟩ := settings_new_run hd he.1 he.2.2 hn h
    exact ⟨ctx, g, u, m, t, rfl, h2⟩

/-- A round keeps everything but relays from the third on. -/
theorem round_steps {env : Env} {L : Pubkey → Prop} (hd : env.Distinct) {w w' : World} {tr : List Ev}
    (hs : Steps (RlEv env L) w tr w') (hg : Good env w) {k : Pubkey} {r : RelayRound}
    (h : RoundAt env w k r) : ∃ q, RoundAt env w' k q ∧ RoundLater r q := by
  refine (hs.lift (I := Good env) (R := fun x y => ∀ p, RoundAt env x k p → ∃ q, RoundAt env y k q ∧ RoundLater p q)
    (fun _ p h => ⟨p, h, .refl _⟩) ?_ (fun e he hg => ⟨good_ev hd e he hg, fun p h => ?_⟩) hg).2 r h
  · intro x y z h1 h2 p hp
    obtain ⟨q, hq, l1⟩ := h1 p hp
    obtain ⟨q', hq', l2⟩ := h2 q hq
    exact ⟨q', hq', l1.trans l2⟩
  · obtain ⟨q, h1, h2, -⟩ := round_ev hd he hg h
    exact ⟨q, h1, h2⟩

/-- A round is unchanged while no `WriteProposal` names its account. -/
theorem round_same {env : Env} {L : Pubkey → Prop} (hd : env.Distinct) {w w' : World} {tr : List Ev}
    (hs : Steps (RlEv env L) w tr w') (hg : Good env w) {k : Pubkey} {r : RelayRound} (h : RoundAt env w k r)
    (hn : ∀ e ∈ tr, ∀ ctx o bs, e.act = .rl ctx (.writeProposal o bs) → ctx.accounts[0]? ≠ some k) :
    RoundAt env w' k r := by
  induction hs with
  | nil => exact h
  | snoc e h1 hpre he ih =>
    have h2 := ih (fun e he => hn e (List.mem_append_left _ he))
    subst hpre
    obtain ⟨q, h3, -, h4⟩ := round_ev hd he (good_steps hd h1 hg) h2
    rw [h4 (hn e (List.mem_append_right _ (List.mem_singleton.2 rfl)))] at h3
    exact h3

/-- The settings account is nobody's round or proposal. -/
theorem settings_acc_ne {a : Account} {s : Settings} {r : RelayRound} (h : Holds settingsC settingsLen a s) :
    ¬ Holds relayRoundC relayRoundLen a r := by
  rintro ⟨b2, r2, hb2, hl2, -⟩
  obtain ⟨b, r, hb, hl, -⟩ := h
  rw [hb] at hb2; cases hb2; rw [hl] at hl2; cases hl2

/-- Bytes of a round record. -/
theorem round_bytes {r : RelayRound} {b t : Bytes} {n : U8} (hd : relayRoundC.dec b = some (r, t))
    (hk : r.accountKind = .relayRound n) : ∃ H : Bytes, H.length = 15 ∧ b = H ++ encAll key r.relays ++ t ∧
      ∀ rs, rs.length = r.relays.length → ∀ t', relayRoundC.dec (H ++ encAll key rs ++ t') = some ({ r with relays := rs }, t') := by
  obtain ⟨hw, hb⟩ := (relayRoundC.law _ _ _).1 hd
  refine ⟨Codec.bool.enc r.isInitialized ++ (AccountKind.codec.enc r.accountKind ++ (u32.enc r.roundNumber ++ (u32.enc r.roundEnd
    ++ u32.enc (BitVec.ofNat 32 r.relays.length)))), ?_, ?_, ?_⟩
  · rw [hk]; simp
  · rw [hb]; simp [relayRoundC, vec]
  · intro rs hrs t'
    refine (relayRoundC.law _ _ _).2 ⟨?_, ?_⟩
    · simp only [relayRoundC, wf_iso, wf_pair, wf_vec, Bool.and_eq_true] at hw ⊢
      simp_all
    · simp [relayRoundC, vec, hrs]

theorem setData_mk {ctx : Ctx} {k : Pubkey} {b' : Bytes} {w : World} (hw : ctx.isWritable k = true)
    (ho : (w.acc k).owner = ctx.program) :
    setData ctx k (.raw b') w = .ok (w.setDataRaw k (.raw b')) := by
  unfold setData
  split
  · rename_i h; rw [setDataRaw_self h]
  · simp [require, hw, ho]; rfl

/-- `WriteProposal` on a round account: every relay from the fourth on can be replaced, with nobody's signature. -/
theorem write_round {env : Env} {ctx : Ctx} {w : World} {k : Pubkey} {r : RelayRound} {n : U8}
    (hk : ctx.accounts[0]? = some k) (hw : ctx.isWritable k = true) (hp : ctx.program = env.rlId)
    (h : RoundAt env w k r) (hkind : r.accountKind = .relayRound n) (new : List Pubkey)
    (hn : 3 + new.length = r.relays.length) :
    ∃ w', run env ctx (.writeProposal 23#32 (encAll key new)) w = .ok w' ∧
      RoundAt env w' k { r with relays := r.relays.take 3 ++ new } ∧ ∀ x, x ≠ k → w'.acc x = w.acc x := by
  obtain ⟨ho, ⟨b, t, hb, hl, hdd⟩, hi⟩ := h
  obtain ⟨H, hH, hbb, hset⟩ := round_bytes hdd hkind
  have hlen : b.length = 15 + 32 * r.relays.length + t.length := by rw [hbb]; simp [hH, len_keys, Nat.add_assoc]
  have e3 : encAll key r.relays = encAll key (r.relays.take 3) ++ encAll key (r.relays.drop 3) := by
    rw [← encAll_append, List.take_append_drop]
  have l3 : (encAll key (r.relays.take 3)).length = 96 := by rw [len_keys, List.length_take]; omega
  have hb' : b.take 111 ++ encAll key new ++ b.drop (111 + 32 * new.length) = H ++ encAll key (r.relays.take 3 ++ new) ++ t := by
    have h1 : b.take 111 = H ++ encAll key (r.relays.take 3) := by
      rw [hbb, e3, ← List.append_assoc, List.append_assoc, List.take_left']
      simp [hH, l3]
    have h2 : b.drop (111 + 32 * new.length) = t := by
      rw [hbb, List.drop_left']
      simp [hH, len_keys]
      omega
    rw [h1, h2, encAll_append]; simp
  have hrun : run env ctx (.writeProposal 23#32 (encAll key new)) w =
      .ok (w.setDataRaw k (.raw (H ++ encAll key (r.relays.take 3 ++ new) ++ t))) := by
    have hun : unpackUnchecked proposalC proposalLen (w.acc k).data = .error .invalidAccountData := by
      rw [hb]; simp [unpackUnchecked, hl, relayRoundLen, proposalLen]
    rw [relayRoundLen] at hl
    have hlk := len_keys new
    have hwd : writeProposalData b (23#32).toNat (encAll key new) = .ok (H ++ encAll key (r.relays.take 3 ++ new) ++ t) := by
      simp only [writeProposalData, bind, Except.bind]
      rw [show loadBegin + (23#32).toNat = 111 from rfl, hlk, hb']
      simp only [require]
      rw [if_pos (by unfold loadEnd loadBegin; omega), if_pos (by omega)]
    simp only [run, processWriteProposal, acct, hk, orErr, bind, Except.bind]
    rw [hun]
    simp only [hb]
    rw [hwd]
    exact setData_mk hw (ho.trans hp.symm)
  refine ⟨_, hrun, ⟨by simpa using ho, ⟨_, t, by simp, ?_, hset _ (by simp; omega) t⟩, hi⟩, fun x hx => by simp [hx]⟩
  · simp [hH, len_keys]; omega

/-- Instruction `i` executes a finalized proposal for a round number below `n`. -/
def ExecutesOld (env : Env) (w : World) (ctx : Ctx) (i : Instr) (n : U32) : Prop :=
  (i = .executeProposal ∨ i = .executeProposalByAdmin) ∧ ∃ kp ∈ ctx.accounts, ∃ p, Holds proposalC proposalLen (w.acc kp) p ∧
    p.isInitialized = true ∧ p.event.roundNum.toNat < n.toNat

theorem Executed.settings_at {env : Env} {ctx : Ctx} {ks kp kr : Pubkey} {s0 : Settings} {p : Proposal} {w w' : World}
    (hd : env.Distinct) (x : Executed env ctx ks kp kr s0 p w w') {k : Pubkey} {s : Settings} (h : SettingsAt env w k s) :
    (k = ks ∧ SettingsAt env w' k { s with currentRoundNumber := p.event.roundNum }) ∨ SettingsAt env w' k s := by
  by_cases hk : k = ks
  · subst hk
    have := h.2.1.unique x.settings
    subst this
    exact .inl ⟨rfl, x.setOwner.trans h.1, x.current, h.2.2⟩
  · have hp : k ≠ kp := by rintro rfl; exact settings_ne h.2.1 x.proposal
    have hr : k ≠ kr := by rintro rfl; exact hd.rlSys (h.1.symm.trans x.vacant.2.2)
    obtain ⟨e1, e2⟩ := x.others k hk hp hr
    obtain ⟨ho, ⟨b, r, hb, hl, hdd⟩, hi⟩ := h
    exact .inr ⟨e2.trans ho, ⟨b, r, e1.trans hb, hl, hdd⟩, hi⟩

theorem current_run {env : Env} {ctx : Ctx} {i : Instr} {w w' : World} (hd : env.Distinct)
    (hr : run env ctx i w = .ok w') {k : Pubkey} {s : Settings} (h : SettingsAt env w k s) :
    ∃ s', SettingsAt env w' k s' ∧ (s.currentRoundNumber.toNat ≤ s'.currentRoundNumber.toNat ∨
      ((∃ a b c d, i = .updateSettings a b c d) ∧ UpgradeAuthoritySigns env ctx w) ∨
      ExecutesOld env w ctx i s.currentRoundNumber) := by
  have old : ∀ ks kp kr s0 p, (i = .executeProposal ∨ i = .executeProposalByAdmin) → kp ∈ ctx.accounts →
      Executed env ctx ks kp kr s0 p w w' →
      ∃ s', SettingsAt env w' k s' ∧ (s.currentRoundNumber.toNat ≤ s'.currentRoundNumber.toNat ∨
      ((∃ a b c d, i = .updateSettings a b c d) ∧ UpgradeAuthoritySigns env ctx w) ∨
      ExecutesOld env w ctx i s.currentRoundNumber) := by
    intro ks kp kr s0 p hi hkp x
    rcases x.settings_at hd h with ⟨rfl, h'⟩ | h'
    · refine ⟨_, h', ?_⟩
      by_cases hlt : p.event.roundNum.toNat < s.currentRoundNumber.toNat
      · exact .inr (.inr ⟨hi, kp, hkp, p, x.proposal, x.final, hlt⟩)
      · exact .inl (Nat.le_of_not_lt hlt)
    · exact ⟨_, h', .inl (Nat.le_refl _)⟩
  cases i with
  | executeProposal =>
    obtain ⟨kp, p, hkp, -, -, -, ⟨rfl, -⟩ | ⟨-, -, -, ks, kr, s0, x⟩⟩ := execute_fx hr
    · exact ⟨s, h, .inl (Nat.le_refl _)⟩
    · exact old _ _ _ _ _ (.inl rfl) (List.mem_of_getElem? hkp) x
  | executeProposalByAdmin =>
    obtain ⟨ks, kp, kr, s0, p, hkp, -, x⟩ := admin_fx hr
    exact old _ _ _ _ _ (.inr rfl) (List.mem_of_getElem? hkp) x
  | createRelayRound num relays e =>
    simp only [run, processCreateRelayRound, bind_ok, acct_ok, sysvar_ok, require_ok, exists_const] at hr
    obtain ⟨f, -, cr, -, ks, -, kr, -, -, -, rent, -, -, hsig, s0, hs, hsub, hnum, hr⟩ := hr
    have o := openRound_fx hr hs
    obtain ⟨hs', hsi, sn, spn, -, hsa⟩ := loadSettings_ok.1 hs
    by_cases hk : k = ks
    · subst hk
      have := h.2.1.unique hs'
      subst this
      refine ⟨_, ⟨o.setOwner.trans h.1, o.settings, h.2.2⟩, .inl ?_⟩
      by_cases h0 : s.currentRoundNumber = 0#32
      · rw [h0]; exact Nat.zero_le _
      · exact Nat.le_of_not_lt fun hlt => hnum ⟨h0, hlt⟩
    · have hr : k ≠ kr := by rintro rfl; exact hd.rlSys (h.1.symm.trans o.vacant.2.2)
      obtain ⟨e1, e2⟩ := o.others k hk hr
      obtain ⟨ho, ⟨b, r, hb, hl, hdd⟩, hi⟩ := h
      exact ⟨s, ⟨e2.trans ho, ⟨b, r, e1.trans hb, hl, hdd⟩, hi⟩, .inl (Nat.le_refl _)⟩
  | _ =>
    obtain ⟨s', h1, h2⟩ := settings_run hd hr h
    refine ⟨s', h1, ?_⟩
    rcases h2.current with e | e | ⟨n, a, e', e⟩ | e | e
    · exact .inl (by rw [e]; exact Nat.le_refl _)
    · exact .inr (.inl e)
    · cases e
    · cases e
    · cases e

theorem current_ev {env : Env} {L : Pubkey → Prop} (hd : env.Distinct) {e : Ev} (he : RlEv env L e) (hg : Good env e.pre)
    {k : Pubkey} {s : Settings} (h : SettingsAt env e.pre k s) : ∃ s', SettingsAt env e.post k s' ∧
      (s.currentRoundNumber.toNat ≤ s'.currentRoundNumber.toNat ∨ ∃ ctx i, e.act = .rl ctx i ∧
        (((∃ a b c d, i = .updateSettings a b c d) ∧ UpgradeAuthoritySigns env ctx e.pre) ∨
          ExecutesOld env e.pre ctx i s.currentRoundNumber)) := by
  obtain ⟨act, pre, post⟩ := e
  cases act with
  | tp ctx i => exact ⟨s, settings_quiet he h, .inl (Nat.le_refl _)⟩
  | ext => exact ⟨s, settings_quiet he h, .inl (Nat.le_refl _)⟩
  | purge => exact ⟨s, settings_purge hg he h, .inl (Nat.le_refl _)⟩
  | rl ctx i =>
    obtain ⟨q, h1, h2⟩ := current_run hd he.2.2 h
    exact ⟨q, h1, h2.imp_right fun h2 => ⟨ctx, i, rfl, h2⟩⟩

/-! ### Votes -/

theorem final_zeros {env : Env} {w : World} {k : Pubkey} {s : Proposal} {n : Nat} (h : FinalAt env w k s)
    (hz : (w.acc k).data = .raw (zeros n)) : False := by
  obtain ⟨-, ⟨b, r, hb, hl, hdd⟩, hi⟩ := h
  rw [hz] at hb; cases hb
  have hh := proposal_head hdd
  rw [hi] at hh
  cases n with
  | zero => cases hh
  | succ n => cases hh

theorem final_back {env : Env} {L : Pubkey → Prop} {w w' : World} {k : Pubkey} {p : Proposal}
    (hq : QuietFor env.rlId L w w') (h : FinalAt env w' k p) : FinalAt env w k p := by
  by_cases ho : (w.acc k).owner = env.rlId
  · obtain ⟨-, h2, -⟩ := (hq k).1 ho
    obtain ⟨ho', ⟨b, r, hb, hl, hdd⟩, hi⟩ := h
    exact ⟨ho, ⟨b, r, h2.symm.trans hb, hl, hdd⟩, hi⟩
  · obtain ⟨-, n, hz⟩ := (hq k).2 h.1 ho
    exact (final_zeros h hz).elim

theorem vote_ev {env : Env} {L : Pubkey → Prop} (hd : env.Distinct) {e : Ev} (he : RlEv env L e) (hg : Good env e.pre)
    {k : Pubkey} {j : Nat} {v : Vote} (hv : v ≠ .none) {p : Proposal} (h : FinalAt env e.post k p) (hj : p.signers[j]? = some v) :
    (∃ q, FinalAt env e.pre k q ∧ q.signers[j]? = some v) ∨
      ∃ ctx i, e.act = .rl ctx i ∧ CastBy env ctx e.pre i k j v ∧ ∃ q, FinalAt env e.pre k q ∧ q.signers[j]? = some .none := by
  obtain ⟨act, pre, post⟩ := e
  cases act with
  | tp ctx i => exact .inl ⟨p, final_back he h, hj⟩
  | ext => exact .inl ⟨p, final_back he h, hj⟩
  | purge =>
    have hk : post.acc k = _ := he.2 k
    simp only [FinalAt] at h ⊢
    simp only at hk
    by_cases h0 : (pre.acc k).lamports = 0
    · rw [if_pos h0] at hk
      rw [hk] at h
      exact (hd.rlSys h.1.symm).elim
    · rw [if_neg h0] at hk
      rw [hk] at h
      exact .inl ⟨p, h, hj⟩
  | rl ctx i => exact (vote_run hd he.1 hg he.2.2 hv h hj).imp_right fun h => ⟨ctx, i, rfl, h⟩

/-- Every vote was cast in some step. -/
theorem vote_steps {env : Env} {L : Pubkey → Prop} (hd : env.Distinct) {w w' : World} {tr : List Ev}
    (hs : Steps (RlEv env L) w tr w') (hg : Good env w) {k : Pubkey} {j : Nat} {v : Vote} (hv : v ≠ .none) {p : Proposal}
    (h : FinalAt env w' k p) (hj : p.signers[j]? = some v) :
    (∃ q, FinalAt env w k q ∧ q.signers[j]? = some v) ∨ ∃ e ∈ tr, ∃ ctx i, e.act = .rl ctx i ∧ CastBy env ctx e.pre i k j v ∧
      (∃ q, FinalAt env e.pre k q ∧ q.signers[j]? = some .none ∧ Later q p) := by
  induction hs generalizing p with
  | nil => exact .inl ⟨p, h, hj⟩
  | snoc e h1 hpre he ih =>
    subst hpre
    have hgp := good_steps hd h1 hg
    have key : ∀ q, FinalAt env e.pre k q → Later q p := by
      intro q hq
      obtain ⟨q', h1', l⟩ := final_ev hd he hgp hq
      rw [h1'.2.1.unique h.2.1] at l
      exact l
    rcases vote_ev hd he hgp hv h hj with ⟨q, hq, hqj⟩ | ⟨ctx, i, ha, hc, q, hq, hqj⟩
    · rcases ih hq hqj with h2 | ⟨e', he', ctx, i, ha, hc, q', hq', hn, hl⟩
      · exact .inl h2
      · exact .inr ⟨e', List.mem_append_left _ he', ctx, i, ha, hc, q', hq', hn, hl.trans (key q hq)⟩
    · exact .inr ⟨e, List.mem_append_right _ (List.mem_singleton.2 rfl), ctx, i, ha, hc, q, hq, hqj, key q hq⟩

end Verif.RL
