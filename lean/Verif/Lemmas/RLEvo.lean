import Verif.Lemmas.RLInv
/-!
# How round-loader records change over histories
-/
namespace Verif.RL
open Codec Verif

theorem key_surj {bs : Bytes} (h : bs.length = 32) : ∃ k, key.enc k = bs := by
  have hd : ∃ x, key.dec bs = some x := by
    simp only [key, uint, h, Nat.le_refl, if_true]; exact ⟨_, rfl⟩
  obtain ⟨⟨k, r⟩, hd⟩ := hd
  have := key.eq_of_dec hd
  refine ⟨k, ?_⟩
  have hl := congrArg List.length this
  simp only [List.length_append, len_key, h] at hl
  have : r = [] := List.length_eq_zero_iff.1 (by omega)
  subst this
  simpa using ‹bs = _›.symm

theorem keys_surj (n : Nat) {bs : Bytes} (h : bs.length = 32 * n) : ∃ ks, ks.length = n ∧ encAll key ks = bs := by
  induction n generalizing bs with
  | zero => exact ⟨[], rfl, (List.length_eq_zero_iff.1 (by omega)).symm⟩
  | succ n ih =>
    obtain ⟨k, hk⟩ := key_surj (bs := bs.take 32) (by simp; omega)
    obtain ⟨ks, hl, hks⟩ := ih (bs := bs.drop 32) (by simp; omega)
    exact ⟨k :: ks, by simp [hl], by simp [encAll, hk, hks]⟩

theorem len_keys (l : List Pubkey) : (encAll key l).length = 32 * l.length := encAll_length key 32 len_key l

theorem keys_inj {l m : List Pubkey} (hl : l.length = m.length) (h : encAll key l = encAll key m) : l = m := by
  have h1 := (decN_law key l.length (encAll key l) l []).2 ⟨rfl, by simp, by simp⟩
  have h2 := (decN_law key l.length (encAll key l) m []).2 ⟨hl.symm, by simp, by simp [h]⟩
  rw [h1] at h2; cases h2; rfl

theorem keys_take (l : List Pubkey) (n : Nat) (hn : n ≤ l.length) : (encAll key l).take (32 * n) = encAll key (l.take n) := by
  have e : encAll key l = encAll key (l.take n) ++ encAll key (l.drop n) := by
    rw [← encAll_append, List.take_append_drop]
  rw [e, List.take_left']
  rw [len_keys, List.length_take]; congr 1; omega

/-- What is left of a record when everything from byte `loadBegin` on is replaced. -/
theorem prefix_keep {h t b b' : Bytes} (hb : b = h ++ t) (hle : h.length ≤ loadBegin)
    (ht : b'.take loadBegin = b.take loadBegin) : ∃ t', b' = h ++ t' := by
  refine ⟨b'.drop h.length, ?_⟩
  have e : b'.take h.length = h := by
    have := congrArg (List.take h.length) ht
    rw [List.take_take, List.take_take, Nat.min_eq_left hle, hb, List.take_left'] at this
    · exact this
    · rfl
  conv => lhs; rw [← List.take_append_drop h.length b', e]

theorem kind_len (k : AccountKind) : (AccountKind.codec.enc k).length ≤ 4 := by
  cases k with
  | proposal a b => cases b <;> simp
  | _ => simp

/-- `WriteProposal` cannot affect settings. -/
theorem settings_keep {s : Settings} {b b' r : Bytes} (hd : settingsC.dec b = some (s, r))
    (ht : b'.take loadBegin = b.take loadBegin) : ∃ r', settingsC.dec b' = some (s, r') := by
  obtain ⟨hw, hb⟩ := (settingsC.law _ _ _).1 hd
  obtain ⟨t, rfl⟩ := prefix_keep hb (by
    have := kind_len s.accountKind
    simp [settingsC, loadBegin]; omega) ht
  exact ⟨t, settingsC.dec_enc _ _ hw⟩

/-- `WriteProposal` can replace relays of a round from the third on, nothing else. -/
theorem round_keep {s : RelayRound} {b b' r : Bytes} (hd : relayRoundC.dec b = some (s, r))
    (hl : b'.length = b.length) (ht : b'.take loadBegin = b.take loadBegin) :
    ∃ rs r', relayRoundC.dec b' = some ({ s with relays := rs }, r') ∧ rs.length = s.relays.length ∧
      rs.take 2 = s.relays.take 2 := by
  obtain ⟨hw, hb⟩ := (relayRoundC.law _ _ _).1 hd
  let H : Bytes := Codec.bool.enc s.isInitialized ++ (AccountKind.codec.enc s.accountKind ++ (u32.enc s.roundNumber ++ (u32.enc s.roundEnd
    ++ u32.enc (BitVec.ofNat 32 s.relays.length))))
  have hH : H.length ≤ 17 := by
    have := kind_len s.accountKind
    simp [H]; omega
  have e : ∀ rs, rs.length = s.relays.length → relayRoundC.enc { s with relays := rs } = H ++ encAll key rs := by
    intro rs hrs
    simp [relayRoundC, vec, H, hrs]
  have e0 : relayRoundC.enc s = H ++ encAll key s.relays := e s.relays rfl
  rw [e0, List.append_assoc] at hb
  obtain ⟨t, rfl⟩ := prefix_keep hb (by unfold loadBegin; omega) ht
  have hlt : t.length = 32 * s.relays.length + r.length := by
    rw [hb] at hl; simp [len_keys] at hl; omega
  obtain ⟨ks, hkl, hks⟩ := keys_surj s.relays.length (bs := t.take (32 * s.relays.length)) (by simp; omega)
  refine ⟨ks, t.drop (32 * s.relays.length), ?_, hkl, ?_⟩
  · refine (relayRoundC.law _ _ _).2 ⟨?_, ?_⟩
    · simp only [relayRoundC, wf_iso, wf_pair, wf_vec, Bool.and_eq_true] at hw ⊢
      simp_all
    · rw [e ks hkl, hks, List.append_assoc H, List.take_append_drop]
  · refine keys_inj (by simp [hkl]) ?_
    have h1 := congrArg (List.drop H.length) ht
    rw [List.drop_take, List.drop_take, hb, List.drop_left' rfl, List.drop_left' rfl] at h1
    have h2 := congrArg (List.take (32 * min 2 s.relays.length)) h1
    rw [List.take_take, List.take_take, Nat.min_eq_left (by unfold loadBegin; omega),
      List.take_append_of_le_length (by rw [len_keys]; omega)] at h2
    have e1 : t.take (32 * min 2 s.relays.length) = (encAll key ks).take (32 * min 2 s.relays.length) := by
      rw [hks, List.take_take, Nat.min_eq_left (show 32 * min 2 s.relays.length ≤ 32 * s.relays.length by omega)]
    rw [e1, keys_take _ _ (by omega), keys_take _ _ (by omega)] at h2
    rw [List.take_eq_take_min (l := ks), hkl, h2, ← List.take_eq_take_min]

/-! ### Proposals -/

theorem zeros_len (n : Nat) : (zeros n).length = n := List.length_replicate

theorem final_op {env : Env} {ctx : Ctx} {i : Instr} {w0 x y : World} {op : Op} (hd : env.Distinct)
    (hW : Why env ctx w0 i op) (he : Exec env ctx op x y) {k : Pubkey} {p : Proposal}
    (h : FinalAt env x k p) : ∃ q, FinalAt env y k q ∧ Later p q := by
  obtain ⟨ho, ⟨b, r, hb, hl, hdd⟩, hi⟩ := h
  have hh := proposal_head hdd
  rw [hi] at hh
  have keep : (y.acc k).owner = (x.acc k).owner → (y.acc k).data = (x.acc k).data → ∃ q, FinalAt env y k q ∧ Later p q :=
    fun h1 h2 => ⟨p, ⟨h1.trans ho, ⟨b, r, h2.trans hb, hl, hdd⟩, hi⟩, .refl _⟩
  have nspl : (x.acc k).owner ≠ env.splId := by rw [ho]; exact hd.rlSpl
  have nsys : (x.acc k).owner ≠ env.systemId := by rw [ho]; exact hd.rlSys
  cases exec_ch he k with
  | same h => exact keep (by rw [h]) (by rw [h])
  | gain _ _ hd' ho' => exact keep ho' hd'
  | pay _ _ h _ hd' ho' => exact keep ho' hd'
  | move _ _ _ _ _ _ hd' ho' => exact keep ho' hd'
  | write b1 b' hop hw how hb1 hlen h =>
    subst hop
    rw [hb] at hb1; cases hb1
    have mk : ∀ q, Stored proposalC q b b' → q.isInitialized = true → Later p q → ∃ q, FinalAt env y k q ∧ Later p q := by
      intro q hst hq hlt
      refine ⟨q, ⟨?_, ⟨b', _, ?_, hlen.trans hl, hst.dec⟩, hq⟩, hlt⟩
      · rw [h]; exact ho
      · rw [h]
    cases hW with
    | initSettings => rw [zeros_len] at hl; cases hl
    | updateSettings _ _ _ _ _ _ _ _ _ _ _ _ hl' => rw [hl] at hl'; cases hl'
    | roundSettings _ _ _ _ _ _ _ _ _ hl' => rw [hl] at hl'; cases hl'
    | round => rw [zeros_len] at hl; cases hl
    | fresh => cases hh
    | data _ _ _ off bs hi' hg hb' => rw [hg p r hl hdd] at hi; cases hi
    | final _ _ _ _ _ _ _ _ _ _ _ hl' hd' hini => rw [hdd] at hd'; cases hd'; rw [hi] at hini; cases hini
    | vote _ kr v _ _ _ p' n pn j x' rr hi' hx hl' hd' hini hk ha hr hri hra hv hsig hold hst =>
      rw [hdd] at hd'; cases hd'
      refine mk _ hst hi ⟨rfl, by simp, ?_, id⟩
      intro a v ha hv
      by_cases e : j = a
      · subst e; rw [hold] at ha; cases ha; exact (hv rfl).elim
      · simpa [List.getElem?_set_ne e] using ha
    | exec _ _ _ _ p' hi' hl' hd' hini hst =>
      rw [hdd] at hd'; cases hd'
      exact mk _ hst hi ⟨rfl, rfl, fun _ _ h _ => h, fun _ => rfl⟩
  | close hop => subst hop; cases hW
  | create _ _ _ _ _ _ _ hsys => exact (nsys hsys).elim
  | createFunded _ _ _ _ _ _ _ _ hsys => exact (nsys hsys).elim
  | xferSrc _ _ _ _ _ _ _ _ how => exact (nspl how).elim
  | xferDst _ _ _ _ _ _ _ how => exact (nspl how).elim
  | mintDst _ _ _ _ _ _ _ how => exact (nspl how).elim
  | mintMint _ _ _ _ _ _ _ how => exact (nspl how).elim
  | burnSrc _ _ _ _ _ _ _ _ how => exact (nspl how).elim
  | burnMint _ _ _ _ _ _ _ how => exact (nspl how).elim
  | initAcc _ _ _ _ how => exact (nspl how).elim
  | initMint _ _ _ _ how => exact (nspl how).elim
  | sync _ _ _ _ how => exact (nspl how).elim

theorem final_run {env : Env} {ctx : Ctx} {i : Instr} {w w' : World} (hd : env.Distinct)
    (hr : run env ctx i w = .ok w') {k : Pubkey} {p : Proposal}
    (h : FinalAt env w k p) : ∃ q, FinalAt env w' k q ∧ Later p q := by
  refine (run_ops hr).lift (R := fun x y => ∀ p, FinalAt env x k p → ∃ q, FinalAt env y k q ∧ Later p q)
    (fun _ p h => ⟨p, h, .refl _⟩) ?_ (fun op x y hW he p h => final_op hd hW he h) p h
  intro x y z h1 h2 p hp
  obtain ⟨q, hq, l1⟩ := h1 p hp
  obtain ⟨q', hq', l2⟩ := h2 q hq
  exact ⟨q', hq', l1.trans l2⟩

theorem final_ev {env : Env} {L : Pubkey → Prop} (hd : env.Distinct) {e : Ev} (he : RlEv env L e) (hg : Good env e.pre)
    {k : Pubkey} {p : Proposal} (h : FinalAt env e.pre k p) : ∃ q, FinalAt env e.post k q ∧ Later p q := by
  obtain ⟨act, pre, post⟩ := e
  have quiet : QuietFor env.rlId L pre post → ∃ q, FinalAt env post k q ∧ Later p q := by
    intro hq
    obtain ⟨ho, ⟨b, r, hb, hl, hdd⟩, hi⟩ := h
    obtain ⟨h1, h2, -⟩ := (hq k).1 ho
    exact ⟨p, ⟨h1, ⟨b, r, h2.trans hb, hl, hdd⟩, hi⟩, .refl _⟩
  cases act with
  | rl ctx i => exact final_run hd he.2.2 h
  | tp ctx i => exact quiet he
  | ext => exact quiet he
  | purge =>
    have := (hg.sound h.2.1 h.2.2 h.1).funded
    have hk : post.acc k = _ := he.2 k
    simp only at this hk
    rw [if_neg (by omega)] at hk
    refine ⟨p, ?_, .refl _⟩
    simp only [FinalAt] at h ⊢
    rw [hk]; exact h

/-- A finalized proposal stays a finalized proposal; only votes and the executed flag move. -/
theorem final_steps {env : Env} {L : Pubkey → Prop} (hd : env.Distinct) {w w' : World} {tr : List Ev}
    (hs : Steps (RlEv env L) w tr w') (hg : Good env w) {k : Pubkey} {p : Proposal}
    (h : FinalAt env w k p) : ∃ q, FinalAt env w' k q ∧ Later p q := by
  refine (hs.lift (I := Good env) (R := fun x y => ∀ p, FinalAt env x k p → ∃ q, FinalAt env y k q ∧ Later p q)
    (fun _ p h => ⟨p, h, .refl _⟩) ?_ (fun e he hg => ⟨good_ev hd e he hg, fun p h => final_ev hd he hg h⟩) hg).2 p h
  intro x y z h1 h2 p hp
  obtain ⟨q, hq, l1⟩ := h1 p hp
  obtain ⟨q', hq', l2⟩ := h2 q hq
  exact ⟨q', hq', l1.trans l2⟩

/-! ### Settings -/

/-- How instruction `i` may change settings. -/
structure SetLater (env : Env) (ctx : Ctx) (w0 : World) (i : Instr) (s s' : Settings) : Prop where
  kind : s'.accountKind = s.accountKind
  fixed : (s'.roundSubmitter = s.roundSubmitter ∧ s'.minRequiredVotes = s.minRequiredVotes ∧ s'.roundTtl = s.roundTtl) ∨
    ((∃ a b c d, i = .updateSettings a b c d) ∧ UpgradeAuthoritySigns env ctx w0)
  current : s'.currentRoundNumber = s.currentRoundNumber ∨
    ((∃ a b c d, i = .updateSettings a b c d) ∧ UpgradeAuthoritySigns env ctx w0) ∨
    (∃ n a e, i = .createRelayRound n a e) ∨ i = .executeProposal ∨ i = .executeProposalByAdmin

theorem SetLater.refl {env : Env} {ctx : Ctx} {w0 : World} {i : Instr} (s : Settings) : SetLater env ctx w0 i s s :=
  ⟨rfl, .inl ⟨rfl, rfl, rfl⟩, .inl rfl⟩

theorem SetLater.trans {env : Env} {ctx : Ctx} {w0 : World} {i : Instr} {a b c : Settings}
    (h : SetLater env ctx w0 i a b) (h' : SetLater env ctx w0 i b c) : SetLater env ctx w0 i a c := by
  refine ⟨h'.kind.trans h.kind, ?_, ?_⟩
  · rcases h.fixed with h1 | h1
    · rcases h'.fixed with h2 | h2
      · exact .inl ⟨h2.1.trans h1.1, h2.2.1.trans h1.2.1, h2.2.2.trans h1.2.2⟩
      · exact .inr h2
    · exact .inr h1
  · rcases h.current with h1 | h1
    · rcases h'.current with h2 | h2
      · exact .inl (h2.trans h1)
      · exact .inr h2
    · exact .inr h1

theorem settings_op {env : Env} {ctx : Ctx} {i : Instr} {w0 x y : World} {op : Op} (hd : env.Distinct)
    (hW : Why env ctx w0 i op) (he : Exec env ctx op x y) {k : Pubkey} {s : Settings}
    (h : SettingsAt env x k s) : ∃ q, SettingsAt env y k q ∧ SetLater env ctx w0 i s q := by
  obtain ⟨ho, ⟨b, r, hb, hl, hdd⟩, hi⟩ := h
  have hh := settings_head hdd
  rw [hi] at hh
  have keep : (y.acc k).owner = (x.acc k).owner → (y.acc k).data = (x.acc k).data →
      ∃ q, SettingsAt env y k q ∧ SetLater env ctx w0 i s q :=
    fun h1 h2 => ⟨s, ⟨h1.trans ho, ⟨b, r, h2.trans hb, hl, hdd⟩, hi⟩, .refl _⟩
  have nspl : (x.acc k).owner ≠ env.splId := by rw [ho]; exact hd.rlSpl
  have nsys : (x.acc k).owner ≠ env.systemId := by rw [ho]; exact hd.rlSys
  cases exec_ch he k with
  | same h => exact keep (by rw [h]) (by rw [h])
  | gain _ _ hd' ho' => exact keep ho' hd'
  | pay _ _ h _ hd' ho' => exact keep ho' hd'
  | move _ _ _ _ _ _ hd' ho' => exact keep ho' hd'
  | write b1 b' hop hw how hb1 hlen h =>
    subst hop
    rw [hb] at hb1; cases hb1
    have mk : ∀ q r', settingsC.dec b' = some (q, r') → q.isInitialized = true → SetLater env ctx w0 i s q →
        ∃ q, SettingsAt env y k q ∧ SetLater env ctx w0 i s q := by
      intro q r' hst hq hlt
      refine ⟨q, ⟨?_, ⟨b', _, ?_, hlen.trans hl, hst⟩, hq⟩, hlt⟩
      · rw [h]; exact ho
      · rw [h]
    cases hW with
    | initSettings => cases hh
    | updateSettings _ _ _ _ n pn s' cr sb mv ttl hi' hl' hd' hini hk ha hu hs =>
      rw [hdd] at hd'; cases hd'
      exact mk _ _ hs.dec hi ⟨rfl, .inr ⟨⟨_, _, _, _, hi'⟩, hu⟩, .inr (.inl ⟨⟨_, _, _, _, hi'⟩, hu⟩)⟩
    | roundSettings _ _ _ _ n pn s' num hi' hl' hd' hini hk ha hs =>
      rw [hdd] at hd'; cases hd'
      exact mk _ _ hs.dec hi ⟨rfl, .inl ⟨rfl, rfl, rfl⟩, .inr (.inr (hi'.imp_left (fun ⟨a, e, h⟩ => ⟨_, a, e, h⟩)))⟩
    | round => cases hh
    | fresh => cases hh
    | data _ _ _ off bs hi' hg hb' =>
      obtain ⟨r', hd'⟩ := settings_keep hdd (writeProposalData_ok hb').2
      exact mk _ _ hd' hi (.refl _)
    | final _ _ _ _ _ _ _ _ _ _ _ hl' => rw [hl] at hl'; cases hl'
    | vote _ _ _ _ _ _ _ _ _ _ _ _ _ _ hl' => rw [hl] at hl'; cases hl'
    | exec _ _ _ _ _ _ hl' => rw [hl] at hl'; cases hl'
  | close hop => subst hop; cases hW
  | create _ _ _ _ _ _ _ hsys => exact (nsys hsys).elim
  | createFunded _ _ _ _ _ _ _ _ hsys => exact (nsys hsys).elim
  | xferSrc _ _ _ _ _ _ _ _ how => exact (nspl how).elim
  | xferDst _ _ _ _ _ _ _ how => exact (nspl how).elim
  | mintDst _ _ _ _ _ _ _ how => exact (nspl how).elim
  | mintMint _ _ _ _ _ _ _ how => exact (nspl how).elim
  | burnSrc _ _ _ _ _ _ _ _ how => exact (nspl how).elim
  | burnMint _ _ _ _ _ _ _ how => exact (nspl how).elim
  | initAcc _ _ _ _ how => exact (nspl how).elim
  | initMint _ _ _ _ how => exact (nspl how).elim
  | sync _ _ _ _ how => exact (nspl how).elim

theorem settings_run {env : Env} {ctx : Ctx} {i : Instr} {w w' : World} (hd : env.Distinct)
    (hr : run env ctx i w = .ok w') {k : Pubkey} {s : Settings}
    (h : SettingsAt env w k s) : ∃ q, SettingsAt env w' k q ∧ SetLater env ctx w i s q := by
  refine (run_ops hr).lift (R := fun x y => ∀ s, SettingsAt env x k s → ∃ q, SettingsAt env y k q ∧ SetLater env ctx w i s q)
    (fun _ p h => ⟨p, h, .refl _⟩) ?_ (fun op x y hW he p h => settings_op hd hW he h) s h
  intro x y z h1 h2 p hp
  obtain ⟨q, hq, l1⟩ := h1 p hp
  obtain ⟨q', hq', l2⟩ := h2 q hq
  exact ⟨q', hq', l1.trans l2⟩

theorem settings_quiet {env : Env} {L : Pubkey → Prop} {w w' : World} {k : Pubkey} {s : Settings}
    (hq : QuietFor env.rlId L w w') (h : SettingsAt env w k s) : SettingsAt env w' k s := by
  obtain ⟨ho, ⟨b, r, hb, hl, hdd⟩, hi⟩ := h
  obtain ⟨h1, h2, -⟩ := (hq k).1 ho
  exact ⟨h1, ⟨b, r, h2.trans hb, hl, hdd⟩, hi⟩

theorem settings_purge {env : Env} {w w' : World} {k : Pubkey} {s : Settings} (hg : Good env w)
    (hq : Purge env w w') (h : SettingsAt env w k s) : SettingsAt env w' k s := by
  have := settings_live hg h.2.1 h.2.2 h.1
  have hk : w'.acc k = w.acc k := by rw [hq.2 k, if_neg (by omega)]
  simp only [SettingsAt] at h ⊢
  rw [hk]; exact h

/-! ### Where settings come from -/

/-- Instruction `i` can make `k` a settings account only if it is `Initialize` with the authority's signature. -/
theorem settings_new_op {env : Env} {ctx : Ctx} {i : Instr} {w0 x y : World} {op : Op} (hd : env.Distinct)
    (hp : ctx.program = env.rlId) (hW : Why env ctx w0 i op) (he : Exec env ctx op x y) {k : Pubkey} {s : Settings}
    (hn : ∀ s, ¬ SettingsAt env x k s) (h : SettingsAt env y k s) :
    (∃ g u m t, i = .init g u m t) ∧ UpgradeAuthoritySigns env ctx w0 := by
  obtain ⟨ho, ⟨b, r, hb, hl, hdd⟩, hi⟩ := h
  have hh := settings_head hdd
  rw [hi] at hh
  have keep : (y.acc k).owner = (x.acc k).owner → (y.acc k).data = (x.acc k).data → False :=
    fun h1 h2 => hn s ⟨h1.symm.trans ho, ⟨b, r, h2.symm.trans hb, hl, hdd⟩, hi⟩
  have zs : ∀ n, (y.acc k).data = .raw (zeros n) → False := by
    intro n hz
    rw [hz] at hb; cases hb
    cases n with
    | zero => cases hh
    | succ n => cases hh
  have tok : (x.acc k).owner = env.splId → (y.acc k).owner = (x.acc k).owner → False := by
    intro h1 h2; rw [h2, h1] at ho; exact hd.rlSpl ho.symm
  cases exec_ch he k with
  | same h => exact (keep (by rw [h]) (by rw [h])).elim
  | gain _ _ hd' ho' => exact (keep ho' hd').elim
  | pay _ _ h _ hd' ho' => exact (keep ho' hd').elim
  | move _ _ _ _ _ _ hd' ho' => exact (keep ho' hd').elim
  | write b0 b' hop hw how hb0 hlen h =>
    subst hop
    rw [h] at hb; simp only [Data.raw.injEq] at hb; subst hb
    have inv : ∀ s' r', settingsC.dec b0 = some (s', r') → s'.isInitialized = true → False := by
      intro s' r' h1 h2
      exact hn s' ⟨how.trans hp, ⟨b0, r', hb0, hlen.symm.trans hl, h1⟩, h2⟩
    cases hW with
    | initSettings _ _ n pn g s m t hi' ha hu hs => exact ⟨⟨_, _, _, _, hi'⟩, hu⟩
    | updateSettings _ _ _ _ n pn s' cr sb mv ttl hi' hl' hd' hini hk ha hu hs => exact (inv _ _ hd' hini).elim
    | roundSettings _ _ _ _ n pn s' num hi' hl' hd' hini hk ha hs => exact (inv _ _ hd' hini).elim
    | round => rw [hlen, zeros_len] at hl; cases hl
    | fresh => rw [hlen, zeros_len] at hl; cases hl
    | data _ _ _ off bs hi' hg hb' =>
      obtain ⟨r', hd'⟩ := settings_keep hdd (writeProposalData_ok hb').2.symm
      exact (inv _ _ hd' hi).elim
    | final _ _ _ _ _ _ _ _ _ _ _ hl' => rw [hlen, hl'] at hl; cases hl
    | vote _ _ _ _ _ _ _ _ _ _ _ _ _ _ hl' => rw [hlen, hl'] at hl; cases hl
    | exec _ _ _ _ _ _ hl' => rw [hlen, hl'] at hl; cases hl
  | close hop => subst hop; cases hW
  | create _ _ _ _ _ _ _ _ _ _ _ h => exact (zs _ (by rw [h])).elim
  | createFunded _ _ _ _ _ _ _ _ _ _ _ _ _ h => exact (zs _ (by rw [h])).elim
  | xferSrc _ _ _ _ _ _ _ _ how _ _ _ _ _ ho => exact (tok how ho).elim
  | xferDst _ _ _ _ _ _ _ how _ _ _ ho => exact (tok how ho).elim
  | mintDst _ _ _ _ _ _ _ how _ _ _ h => exact (tok how (by rw [h])).elim
  | mintMint _ _ _ _ _ _ _ how _ _ _ _ h => exact (tok how (by rw [h])).elim
  | burnSrc _ _ _ _ _ _ _ _ how _ _ _ _ _ h => exact (tok how (by rw [h])).elim
  | burnMint _ _ _ _ _ _ _ how _ _ h => exact (tok how (by rw [h])).elim
  | initAcc _ _ _ _ how _ h => exact (tok how (by rw [h])).elim
  | initMint _ _ _ _ how _ h => exact (tok how (by rw [h])).elim
  | sync _ _ _ _ how _ _ h => exact (tok how (by rw [h])).elim

theorem settings_new_run {env : Env} {ctx : Ctx} {i : Instr} {w w' : World} (hd : env.Distinct)
    (hp : ctx.program = env.rlId) (hr : run env ctx i w = .ok w') {k : Pubkey} {s : Settings}
    (hn : ∀ s, ¬ SettingsAt env w k s) (h : SettingsAt env w' k s) :
    (∃ g u m t, i = .init g u m t) ∧ UpgradeAuthoritySigns env ctx w := by
  refine (run_ops hr).lift (R := fun x y => (∀ s, ¬ SettingsAt env x k s) → ∀ s, SettingsAt env y k s →
    (∃ g u m t, i = .init g u m t) ∧ UpgradeAuthoritySigns env ctx w)
    (fun _ h s hs => (h s hs).elim) ?_ (fun op x y hW he hn s h => settings_new_op hd hp hW he hn h) hn s h
  intro x y z h1 h2 hx s hs
  by_cases hy : ∃ s, SettingsAt env y k s
  · obtain ⟨s', hs'⟩ := hy; exact h1 hx s' hs'
  · exact h2 (fun s hs => hy ⟨s, hs⟩) s hs

/-! ### Rounds -/

/-- `q` is what `r` may have become: relays from the third on can have been replaced. -/
structure RoundLater (r q : RelayRound) : Prop where
  same : q = { r with relays := q.relays }
  length : q.relays.length = r.relays.length
  first : q.relays.take 2 = r.relays.take 2

theorem RoundLater.refl (r : RelayRound) : RoundLater r r := ⟨rfl, rfl, rfl⟩
theorem RoundLater.trans {a b c : RelayRound} (h : RoundLater a b) (h' : RoundLater b c) : RoundLater a c :=
  ⟨by rw [h'.same, h.same], h'.length.trans h.length, h'.first.trans h.first⟩

theorem round_op {env : Env} {ctx : Ctx} {i : Instr} {w0 x y : World} {op : Op} (hd : env.Distinct)
    (hW : Why env ctx w0 i op) (he : Exec env ctx op x y) {k : Pubkey} {s : RelayRound}
    (h : RoundAt env x k s) : ∃ q, RoundAt env y k q ∧ RoundLater s q ∧ ((∀ o bs, i ≠ .writeProposal o bs) → q = s) := by
  obtain ⟨ho, ⟨b, r, hb, hl, hdd⟩, hi⟩ := h
  have hh := round_head hdd
  rw [hi] at hh
  have keep : (y.acc k).owner = (x.acc k).owner → (y.acc k).data = (x.acc k).data →
      ∃ q, RoundAt env y k q ∧ RoundLater s q ∧ ((∀ o bs, i ≠ .writeProposal o bs) → q = s) :=
    fun h1 h2 => ⟨s, ⟨h1.trans ho, ⟨b, r, h2.trans hb, hl, hdd⟩, hi⟩, .refl _, fun _ => rfl⟩
  have nspl : (x.acc k).owner ≠ env.splId := by rw [ho]; exact hd.rlSpl
  have nsys : (x.acc k).owner ≠ env.systemId := by rw [ho]; exact hd.rlSys
  cases exec_ch he k with
  | same h => exact keep (by rw [h]) (by rw [h])
  | gain _ _ hd' ho' => exact keep ho' hd'
  | pay _ _ h _ hd' ho' => exact keep ho' hd'
  | move _ _ _ _ _ _ hd' ho' => exact keep ho' hd'
  | write b1 b' hop hw how hb1 hlen h =>
    subst hop
    rw [hb] at hb1; cases hb1
    cases hW with
    | initSettings => cases hh
    | updateSettings _ _ _ _ _ _ _ _ _ _ _ _ hl' => rw [hl] at hl'; cases hl'
    | roundSettings _ _ _ _ _ _ _ _ _ hl' => rw [hl] at hl'; cases hl'
    | round => cases hh
    | fresh => cases hh
    | data _ _ _ off bs hi' hg hb' =>
      obtain ⟨rs, r', hd', hlen', htk⟩ := round_keep hdd hlen (writeProposalData_ok hb').2
      refine ⟨_, ⟨?_, ⟨b', _, ?_, hlen.trans hl, hd'⟩, hi⟩, ⟨rfl, hlen', htk⟩, fun hn => (hn _ _ hi').elim⟩
      · rw [h]; exact ho
      · rw [h]
    | final _ _ _ _ _ _ _ _ _ _ _ hl' => rw [hl] at hl'; cases hl'
    | vote _ _ _ _ _ _ _ _ _ _ _ _ _ _ hl' => rw [hl] at hl'; cases hl'
    | exec _ _ _ _ _ _ hl' => rw [hl] at hl'; cases hl'
  | close hop => subst hop; cases hW
  | create _ _ _ _ _ _ _ hsys => exact (nsys hsys).elim
  | createFunded _ _ _ _ _ _ _ _ hsys => exact (nsys hsys).elim
  | xferSrc _ _ _ _ _ _ _ _ how => exact (nspl how).elim
  | xferDst _ _ _ _ _ _ _ how => exact (nspl how).elim
  | mintDst _ _ _ _ _ _ _ how => exact (nspl how).elim
  | mintMint _ _ _ _ _ _ _ how => exact (nspl how).elim
  | burnSrc _ _ _ _ _ _ _ _ how => exact (nspl how).elim
  | burnMint _ _ _ _ _ _ _ how => exact (nspl how).elim
  | initAcc _ _ _ _ how => exact (nspl how).elim
  | initMint _ _ _ _ how => exact (nspl how).elim
  | sync _ _ _ _ how => exact (nspl how).elim

theorem round_run {env : Env} {ctx : Ctx} {i : Instr} {w w' : World} (hd : env.Distinct)
    (hr : run env ctx i w = .ok w') {k : Pubkey} {s : RelayRound}
    (h : RoundAt env w k s) : ∃ q, RoundAt env w' k q ∧ RoundLater s q ∧ ((∀ o bs, i ≠ .writeProposal o bs) → q = s) := by
  refine (run_ops hr).lift (R := fun x y => ∀ s, RoundAt env x k s → ∃ q, RoundAt env y k q ∧ RoundLater s q ∧
      ((∀ o bs, i ≠ .writeProposal o bs) → q = s))
    (fun _ p h => ⟨p, h, .refl _, fun _ => rfl⟩) ?_ (fun op x y hW he p h => round_op hd hW he h) s h
  intro x y z h1 h2 p hp
  obtain ⟨q, hq, l1, e1⟩ := h1 p hp
  obtain ⟨q', hq', l2, e2⟩ := h2 q hq
  exact ⟨q', hq', l1.trans l2, fun h => (e2 h).trans (e1 h)⟩

theorem round_quiet {env : Env} {L : Pubkey → Prop} {w w' : World} {k : Pubkey} {s : RelayRound}
    (hq : QuietFor env.rlId L w w') (h : RoundAt env w k s) : RoundAt env w' k s := by
  obtain ⟨ho, ⟨b, r, hb, hl, hdd⟩, hi⟩ := h
  obtain ⟨h1, h2, -⟩ := (hq k).1 ho
  exact ⟨h1, ⟨b, r, h2.trans hb, hl, hdd⟩, hi⟩

theorem round_purge {env : Env} {w w' : World} {k : Pubkey} {s : RelayRound} (hg : Good env w)
    (hq : Purge env w w') (h : RoundAt env w k s) : RoundAt env w' k s := by
  have := round_live hg h.2.1 h.2.2 h.1
  have hk : w'.acc k = w.acc k := by rw [hq.2 k, if_neg (by omega)]
  simp only [RoundAt] at h ⊢
  rw [hk]; exact h

/-- One step of a history changes a round only if it is a `WriteProposal` naming that account. -/
theorem round_ev {env : Env} {L : Pubkey → Prop} (hd : env.Distinct) {e : Ev} (he : RlEv env L e) (hg : Good env e.pre)
    {k : Pubkey} {r : RelayRound} (h : RoundAt env e.pre k r) : ∃ q, RoundAt env e.post k q ∧ RoundLater r q ∧
      ((∀ ctx o bs, e.act = .rl ctx (.writeProposal o bs) → ctx.accounts[0]? ≠ some k) → q = r) := by
  obtain ⟨act, pre, post⟩ := e
  cases act with
  | tp ctx i => exact ⟨r, round_quiet he h, .refl _, fun _ => rfl⟩
  | ext => exact ⟨r, round_quiet he h, .refl _, fun _ => rfl⟩
  | purge => exact ⟨r, round_purge hg he h, .refl _, fun _ => rfl⟩
  | rl ctx i =>
    by_cases hi : ∃ o bs, i = .writeProposal o bs
    · obtain ⟨o, bs, rfl⟩ := hi
      by_cases hk : ctx.accounts[0]? = some k
      · obtain ⟨q, h1, h2, -⟩ := round_run hd he.2.2 h
        exact ⟨q, h1, h2, fun hn => (hn ctx o bs rfl hk).elim⟩
      · obtain ⟨k', b, b', hk', -, -, -, -, hw⟩ := writeProposal_ok he.2.2
        have hne : k ≠ k' := by rintro rfl; exact hk hk'
        have ha : post.acc k = pre.acc k := by
          simp only at hw; rw [hw]; simp only [setDataRaw_acc, hne, if_false]
        refine ⟨r, ?_, .refl _, fun _ => rfl⟩
        simp only [RoundAt] at h ⊢
        rw [ha]; exact h
    · obtain ⟨q, h1, h2, h3⟩ := round_run hd he.2.2 h
      exact ⟨q, h1, h2, fun _ => h3 (fun o bs e => hi ⟨o, bs, e⟩)⟩

end Verif.RL
