import Verif.Lemmas.RLEvo
/-!
# Effects of whole round-loader instructions
-/
namespace Verif.RL
open Codec Verif

/-- After packing a record the account holds it. -/
theorem pack_holds {α : Type} {ctx : Ctx} {c : Codec α} {len : Nat} {a : α} {k : Pubkey} {w w' : World}
    (h : pack ctx c len a k w = .ok w') : Holds c len (w'.acc k) a := by
  obtain ⟨b, b', hb, hl, hst, -, rfl⟩ := pack_ok.1 h
  exact ⟨b', _, by simp, hst.length.trans hl, hst.dec⟩

theorem pack_acc {α : Type} {ctx : Ctx} {c : Codec α} {len : Nat} {a : α} {k : Pubkey} {w w' : World}
    (h : pack ctx c len a k w = .ok w') (x : Pubkey) : (w'.acc x).owner = (w.acc x).owner ∧
      (w'.acc x).lamports = (w.acc x).lamports ∧ (x ≠ k → w'.acc x = w.acc x) := by
  obtain ⟨b, b', hb, hl, hst, -, rfl⟩ := pack_ok.1 h
  by_cases hx : x = k
  · subst hx; simp
  · simp [hx]

/-- If packing changes the record, the account belongs to the program. -/
theorem pack_owner {α : Type} {ctx : Ctx} {c : Codec α} {len : Nat} {a a0 : α} {k : Pubkey} {w w' : World}
    (h : pack ctx c len a k w = .ok w') (h0 : Holds c len (w.acc k) a0) (hne : a ≠ a0) :
    (w.acc k).owner = ctx.program ∧ ctx.isWritable k = true := by
  obtain ⟨b, b', hb, hl, hst, hor, rfl⟩ := pack_ok.1 h
  rcases hor with rfl | ⟨h1, h2⟩
  · obtain ⟨b1, r1, hb1, -, hd1⟩ := h0
    rw [hb] at hb1; cases hb1
    rw [hst.dec] at hd1; cases hd1; exact (hne rfl).elim
  · exact ⟨h2, h1⟩

theorem pack_same {α : Type} {ctx : Ctx} {c : Codec α} {len : Nat} {a : α} {k : Pubkey} {w w' : World}
    (h : pack ctx c len a k w = .ok w') (h0 : Holds c len (w.acc k) a) : w' = w := by
  obtain ⟨b, b', hb, hl, hst, hor, rfl⟩ := pack_ok.1 h
  obtain ⟨b1, r1, hb1, -, hd1⟩ := h0
  rw [hb] at hb1; cases hb1
  rw [Stored_same hd1 hst, setDataRaw_self hb]

/-- What opening a round does. -/
structure Opened (env : Env) (ctx : Ctx) (ks kr : Pubkey) (s : Settings) (num : U32) (relays : List Pubkey) (e : U32)
    (w w' : World) : Prop where
  ne : ks ≠ kr
  addr : IsAddr env ctx.program (relayRoundSeeds num) kr
  vacant : Vacant env (w.acc kr)
  owner : (w'.acc kr).owner = ctx.program
  live : 1 ≤ (w'.acc kr).lamports
  round : ∃ n, Holds relayRoundC relayRoundLen (w'.acc kr) ⟨true, .relayRound n, num, e + s.roundTtl, relays⟩ ∧
    findAddr env (relayRoundSeeds num) ctx.program = .ok (kr, n)
  settings : Holds settingsC settingsLen (w'.acc ks) { s with currentRoundNumber := num }
  setOwner : (w'.acc ks).owner = (w.acc ks).owner
  others : ∀ x, x ≠ ks → x ≠ kr → (w'.acc x).data = (w.acc x).data ∧ (w'.acc x).owner = (w.acc x).owner

theorem openRound_fx {env : Env} {ctx : Ctx} {f ks kr : Pubkey} {s : Settings} {num : U32} {relays : List Pubkey}
    {e : U32} {w w' : World} (h : openRound env ctx f ks kr s num relays e w = .ok w')
    (hs : loadSettings env ctx ks w = .ok s) : Opened env ctx ks kr s num relays e w w' := by
  obtain ⟨-, hne, -, hx⟩ := openRound_ops (w0 := w) (i := .executeProposal) h hs (.inr (.inl rfl))
  obtain ⟨n, w1, w2, ha, h1, h2, h3⟩ := openRound_ok h
  have hc := findAddr_create ha
  obtain ⟨v1, v2, v3, -⟩ := createPda_ok hc h1
  have hself := createPda_self hc h1
  have e3 := (pack_acc h3 kr).2.2 (Ne.symm hne)
  have e2 := pack_acc h2 kr
  refine ⟨hne, ⟨n, ha⟩, ⟨v1, v2, v3⟩, ?_, ?_, ⟨n, ?_, ha⟩, pack_holds h3, ?_, hx⟩
  · rw [e3, e2.1, hself]
  · rw [e3, e2.2.1, hself]; simp only; omega
  · rw [e3]; exact pack_holds h2
  · rw [(pack_acc h3 ks).1, (pack_acc h2 ks).1, (createPda_acc hc h1 ks hne).2]

theorem settings_ne {a : Account} {s : Settings} {p : Proposal} (h : Holds settingsC settingsLen a s) :
    ¬ Holds proposalC proposalLen a p := by
  rintro ⟨b2, r2, hb2, hl2, -⟩
  obtain ⟨b, r, hb, hl, -⟩ := h
  rw [hb] at hb2; cases hb2; rw [hl] at hl2; cases hl2

theorem vacant_ne {env : Env} {a : Account} {p : Proposal} (h : Vacant env a) :
    ¬ Holds proposalC proposalLen a p := by
  rintro ⟨b2, r2, hb2, hl2, -⟩
  have := h.2.1
  rw [hb2] at this; simp only [Data.len, hl2] at this; cases this

theorem signers_lt {a : Account} {p : Proposal} (h : Holds proposalC proposalLen a p) : p.signers.length < 2 ^ 32 := by
  obtain ⟨b, r, -, -, hd⟩ := h
  have := proposalC.wf_of_dec hd
  simp only [proposalC, wf_iso, wf_pair, wf_vec, Bool.and_eq_true, decide_eq_true_eq] at this
  simp_all

theorem confirm_toNat {a : Account} {p : Proposal} (h : Holds proposalC proposalLen a p) :
    (BitVec.ofNat 32 (confirmCount p.signers)).toNat = p.signers.count .confirm := by
  have h1 := signers_lt h
  have h2 : confirmCount p.signers = p.signers.count .confirm := by rw [List.count]; rfl
  have h3 : p.signers.count .confirm ≤ p.signers.length := List.count_le_length
  rw [BitVec.toNat_ofNat, h2, Nat.mod_eq_of_lt (by omega)]

/-- What a successful `ExecuteProposal` or `ExecuteProposalByAdmin` that does something does. -/
structure Executed (env : Env) (ctx : Ctx) (ks kp kr : Pubkey) (s : Settings) (p : Proposal) (w w' : World) : Prop where
  settings : Holds settingsC settingsLen (w.acc ks) s
  setInit : s.isInitialized = true
  setAddr : IsAddr env ctx.program settingsSeeds ks
  proposal : Holds proposalC proposalLen (w.acc kp) p
  final : p.isInitialized = true
  roundAddr : IsAddr env ctx.program (relayRoundSeeds p.event.roundNum) kr
  vacant : Vacant env (w.acc kr)
  owner : (w'.acc kr).owner = ctx.program
  live : 1 ≤ (w'.acc kr).lamports
  round : ∃ n, Holds relayRoundC relayRoundLen (w'.acc kr)
    ⟨true, .relayRound n, p.event.roundNum, p.event.roundEnd + s.roundTtl, p.event.relays⟩
  current : Holds settingsC settingsLen (w'.acc ks) { s with currentRoundNumber := p.event.roundNum }
  setOwner : (w'.acc ks).owner = (w.acc ks).owner
  done : Holds proposalC proposalLen (w'.acc kp) { p with status := .executed }
  propOwner : (w'.acc kp).owner = (w.acc kp).owner
  others : ∀ x, x ≠ ks → x ≠ kp → x ≠ kr → (w'.acc x).data = (w.acc x).data ∧ (w'.acc x).owner = (w.acc x).owner
  bump : ∃ n, Holds relayRoundC relayRoundLen (w'.acc kr)
    ⟨true, .relayRound n, p.event.roundNum, p.event.roundEnd + s.roundTtl, p.event.relays⟩ ∧
    findAddr env (relayRoundSeeds p.event.roundNum) ctx.program = .ok (kr, n)

theorem executed_fx {env : Env} {ctx : Ctx} {f ks kp kr : Pubkey} {s : Settings} {p : Proposal} {w w1 w' : World}
    (hs : loadSettings env ctx ks w = .ok s) (hh : Holds proposalC proposalLen (w.acc kp) p) (hi : p.isInitialized = true)
    (h1 : openRound env ctx f ks kr s p.event.roundNum p.event.relays p.event.roundEnd w = .ok w1)
    (h2 : pack ctx proposalC proposalLen { p with status := .executed } kp w1 = .ok w') :
    Executed env ctx ks kp kr s p w w' ∧ kp ≠ ks ∧ kp ≠ kr ∧ (w1.acc kp).data = (w.acc kp).data ∧
      (w1.acc kp).owner = (w.acc kp).owner := by
  have o := openRound_fx h1 hs
  obtain ⟨hs', hsi, sn, spn, -, hsa⟩ := loadSettings_ok.1 hs
  have hps : kp ≠ ks := by rintro rfl; exact settings_ne hs' hh
  have hpr : kp ≠ kr := by rintro rfl; exact vacant_ne o.vacant hh
  obtain ⟨n, hr, hna⟩ := o.round
  have es := (pack_acc h2 ks).2.2 hps.symm
  have er := (pack_acc h2 kr).2.2 hpr.symm
  refine ⟨⟨hs', hsi, ⟨_, hsa⟩, hh, hi, o.addr, o.vacant, by rw [er]; exact o.owner, by rw [er]; exact o.live,
    ⟨n, by rw [er]; exact hr⟩, by rw [es]; exact o.settings, by rw [es]; exact o.setOwner, pack_holds h2, ?_, ?_,
    ⟨n, by rw [er]; exact hr, hna⟩⟩, hps, hpr,
    o.others kp hps hpr⟩
  · rw [(pack_acc h2 kp).1, (o.others kp hps hpr).2]
  · intro x x1 x2 x3
    rw [(pack_acc h2 x).2.2 x2]
    exact o.others x x1 x3

theorem execute_fx {env : Env} {ctx : Ctx} {w w' : World} (h : run env ctx .executeProposal w = .ok w') :
    ∃ kp p, ctx.accounts[2]? = some kp ∧ Holds proposalC proposalLen (w.acc kp) p ∧ p.isInitialized = true ∧
      IsAddr env ctx.program (proposalSeeds p.roundNumber p.pda (env.hash (eventC.enc p.event))) kp ∧
      ((w' = w ∧ (p.status = .executed ∨ p.signers.count .confirm < p.requiredVotes.toNat)) ∨
       (p.status = .new ∧ p.requiredVotes.toNat ≤ p.signers.count .confirm ∧ (w.acc kp).owner = ctx.program ∧
        ∃ ks kr s, Executed env ctx ks kp kr s p w w')) := by
  simp only [run, processExecute, bind_ok, acct_ok, sysvar_ok, exists_const, unpack_holds, checkProposal_ok] at h
  obtain ⟨f, -, ks, -, kp, hkp, kr, -, -, -, rent, -, -, s, hs, p, ⟨hh, hini⟩, ⟨n, pn, hk, ha⟩, h⟩ := h
  refine ⟨kp, p, hkp, hh, hini, ⟨n, ha⟩, ?_⟩
  split at h
  · rename_i hc
    simp only [bind_ok] at h
    obtain ⟨w1, h1, h2⟩ := h
    obtain ⟨x, -, -, hd1, ho1⟩ := executed_fx hs hh hini h1 h2
    rw [confirm_toNat hh] at hc
    refine .inr ⟨hc.1, hc.2, ?_, ks, kr, s, x⟩
    rw [← ho1]
    obtain ⟨b, r, hb, hl, hdd⟩ := hh
    refine (pack_owner (a0 := p) h2 ⟨b, r, hd1.trans hb, hl, hdd⟩ ?_).1
    intro e
    have := congrArg Proposal.status e
    simp only [hc.1] at this; cases this
  · rename_i hc
    rw [confirm_toNat hh] at hc
    refine .inl ⟨pack_same h hh, ?_⟩
    cases hst : p.status with
    | executed => exact .inl rfl
    | new => right; apply Nat.lt_of_not_le; intro hle; exact hc ⟨hst, hle⟩

theorem admin_fx {env : Env} {ctx : Ctx} {w w' : World} (h : run env ctx .executeProposalByAdmin w = .ok w') :
    ∃ ks kp kr s p, ctx.accounts[3]? = some kp ∧ ctx.isSigner s.roundSubmitter = true ∧
      Executed env ctx ks kp kr s p w w' := by
  simp only [run, processExecuteByAdmin, bind_ok, acct_ok, sysvar_ok, require_ok, exists_const, unpack_holds] at h
  obtain ⟨f, -, cr, -, ks, -, kp, hkp, kr, -, -, -, rent, -, -, hsig, s, hs, hsub, p, ⟨hh, hini⟩, w1, h1, h2⟩ := h
  subst hsub
  exact ⟨ks, kp, kr, s, p, hkp, hsig, (executed_fx hs hh hini h1 h2).1⟩

/-! ### Votes: where they come from -/

/-- A successful vote. -/
theorem vote_fx {env : Env} {ctx : Ctx} {v : Vote} {w w' : World} (h : run env ctx (.voteForProposal v) w = .ok w') :
    ∃ voter kp kr p rr j old, ctx.accounts[0]? = some voter ∧ ctx.accounts[1]? = some kp ∧ ctx.accounts[2]? = some kr ∧
      ctx.isSigner voter = true ∧ v ≠ .none ∧ Holds proposalC proposalLen (w.acc kp) p ∧ p.isInitialized = true ∧
      IsAddr env ctx.program (proposalSeeds p.roundNumber p.pda (env.hash (eventC.enc p.event))) kp ∧
      Holds relayRoundC relayRoundLen (w.acc kr) rr ∧ rr.isInitialized = true ∧
      IsAddr env ctx.program (relayRoundSeeds rr.roundNumber) kr ∧ rr.relays[j]? = some voter ∧
      p.signers[j]? = some old ∧
      ((old ≠ .none ∧ w' = w) ∨ (old = .none ∧ (w.acc kp).owner = ctx.program ∧
        Holds proposalC proposalLen (w'.acc kp) { p with signers := p.signers.set j v } ∧
        ∀ x, (w'.acc x).owner = (w.acc x).owner ∧ (x ≠ kp → (w'.acc x).data = (w.acc x).data) ∧
          (w'.acc x).lamports = (w.acc x).lamports - (if x = kp then 20000 else 0) + (if x = voter then 20000 else 0) ∧
          (x = kp → 20000 ≤ (w.acc x).lamports))) := by
  simp only [run, processVote, bind_ok, acct_ok, require_ok, exists_const, unpack_holds, orErr_ok, checkProposal_ok] at h
  obtain ⟨vk, h0, kp, h1, kr, h2, hsig, hx, p, ⟨hh, hini⟩, ⟨n, pn, hk, ha⟩, rr, hrr, j, hj, old, hold, h⟩ := h
  obtain ⟨hr, hri, m, hkm, hra⟩ := loadRelayRound_ok.1 hrr
  obtain ⟨hlt, he, -⟩ := List.findIdx?_eq_some_iff_getElem.1 hj
  refine ⟨vk, kp, kr, p, rr, j, old, h0, h1, h2, hsig, hx, hh, hini, ⟨n, ha⟩, hr, hri, ⟨m, hra⟩, ?_, hold, ?_⟩
  · rw [List.getElem?_eq_getElem hlt]; simpa using he
  · split at h
    · rename_i e
      simp only [bind_ok] at h
      obtain ⟨w1, h1, h2⟩ := h
      obtain ⟨hle, -, how, -, -, hacc⟩ := moveLamports_ok h2
      have how : (w.acc kp).owner = ctx.program := by
        rcases how with h | h
        · cases h
        · rw [(pack_acc h1 kp).1] at h; exact h
      refine .inr ⟨e, how, ?_, ?_⟩
      · obtain ⟨b, r, hb, hl, hdd⟩ := pack_holds h1
        exact ⟨b, r, by rw [hacc kp]; exact hb, hl, hdd⟩
      · intro x
        have hp := pack_acc h1 x
        rw [hacc x]
        refine ⟨hp.1, fun hx => by rw [hp.2.2 hx], ?_, ?_⟩
        · simp only [hp.2.1, relayReparation]
        · rintro rfl; rw [← hp.2.1]; exact hle
    · rename_i e
      cases h; exact .inl ⟨e, rfl⟩


/-- Instruction `i`, run in `w0`, is a vote `v` on proposal `k` by a relay at position `j` of a relay round. -/
def CastBy (env : Env) (ctx : Ctx) (w0 : World) (i : Instr) (k : Pubkey) (j : Nat) (v : Vote) : Prop :=
  i = .voteForProposal v ∧ ctx.accounts[1]? = some k ∧ ∃ kr rr relay, ctx.accounts[2]? = some kr ∧ Holds relayRoundC relayRoundLen (w0.acc kr) rr ∧ rr.isInitialized = true ∧
    IsAddr env ctx.program (relayRoundSeeds rr.roundNumber) kr ∧ rr.relays[j]? = some relay ∧ ctx.isSigner relay = true

theorem vote_op {env : Env} {ctx : Ctx} {i : Instr} {w0 x y : World} {op : Op} (hd : env.Distinct)
    (hp : ctx.program = env.rlId) (hnw : ∀ o bs, i ≠ .writeProposal o bs) (hnv : ∀ v, i ≠ .voteForProposal v) (hW : Why env ctx w0 i op)
    (he : Exec env ctx op x y) {k : Pubkey} {j : Nat} {v : Vote} (hv : v ≠ .none) {p : Proposal} (h : FinalAt env y k p) (hj : p.signers[j]? = some v) :
    ∃ q, FinalAt env x k q ∧ q.signers[j]? = some v := by
  obtain ⟨ho, ⟨b, r, hb, hl, hdd⟩, hi⟩ := h
  have hh := proposal_head hdd
  rw [hi] at hh
  have keep : (y.acc k).owner = (x.acc k).owner → (y.acc k).data = (x.acc k).data →
      ∃ q, FinalAt env x k q ∧ q.signers[j]? = some v :=
    fun h1 h2 => ⟨p, ⟨h1.symm.trans ho, ⟨b, r, h2.symm.trans hb, hl, hdd⟩, hi⟩, hj⟩
  have zs : ∀ n, (y.acc k).data = .raw (zeros n) → False := by
    intro n hz
    rw [hz] at hb; cases hb
    cases n with
    | zero => cases hh
    | succ n => cases hh
  have tok : (x.acc k).owner = env.splId → (y.acc k).owner = (x.acc k).owner → False := by
    intro h1 h2; rw [h2, h1] at ho; exact hd.rlSpl ho.symm
  cases exec_ch he k with
  | same h => exact keep (by rw [h]) (by rw [h])
  | gain _ _ hd' ho' => exact keep ho' hd'
  | pay _ _ h _ hd' ho' => exact keep ho' hd'
  | move _ _ _ _ _ _ hd' ho' => exact keep ho' hd'
  | write b0 b' hop hw how hb0 hlen h =>
    subst hop
    rw [h] at hb; simp only [Data.raw.injEq] at hb; subst hb
    have old : ∀ q r', proposalC.dec b0 = some (q, r') → q.isInitialized = true → FinalAt env x k q :=
      fun q r' h1 h2 => ⟨how.trans hp, ⟨b0, r', hb0, hlen.symm.trans hl, h1⟩, h2⟩
    cases hW with
    | initSettings => rw [hlen, zeros_len] at hl; cases hl
    | updateSettings _ _ _ _ _ _ _ _ _ _ _ _ hl' => rw [hlen, hl'] at hl; cases hl
    | roundSettings _ _ _ _ _ _ _ _ _ hl' => rw [hlen, hl'] at hl; cases hl
    | round => rw [hlen, zeros_len] at hl; cases hl
    | fresh _ _ n r p d author hi' ha hs => rw [hs.dec] at hdd; cases hdd; cases hi
    | data _ _ _ off bs hi' hg hb' => exact (hnw _ _ hi').elim
    | final _ kr _ _ _ p0 n pn s rr hi' hl' hd' hini hk ha hr hri hra hs =>
      rw [hs.dec] at hdd; cases hdd
      simp only [List.getElem?_replicate] at hj
      split at hj
      · cases hj; exact (hv rfl).elim
      · cases hj
    | vote _ _ _ _ _ _ _ _ _ _ _ _ hi' => exact (hnv _ hi').elim
    | exec _ _ _ _ p0 hi' hl' hd' hini hs =>
      rw [hs.dec] at hdd; cases hdd
      exact ⟨p0, old _ _ hd' hini, hj⟩
  | close hop => subst hop; cases hW
  | create _ _ _ _ _ _ _ _ _ _ _ h => exact (zs _ (by rw [h])).elim
  | createFunded _ _ _ _ _ _ _ _ _ _ _ _ _ h => exact (zs _ (by rw [h])).elim
  | xferSrc _ _ _ _ _ _ _ _ how _ _ _ _ _ ho => exact (tok how ho).elim
  | xferDst _ _ _ _ _ _ _ how _ _ _ ho => exact (tok how ho).elim
  | mintDst _ _ _ _ _ _ _ how _ _ _ h => exact (tok how (by rw [h])).elim
  | mintMint _ _ _ _ _ _ _ how _ _ _ _ h => exact (tok how (by rw [h])).elim
  | burnSrc _ _ _ _ _ _ _ _ how _ _ _ _ _ h => exact (tok how (by rw [h])).elim
  | burnMint _ _ _ _ _ _ _ how _ _ h => exact (tok how (by rw [h])).elim
  | initAcc _ _ _ _ how _ h => exact (tok how (by rw [h])).elim
  | initMint _ _ _ _ how _ h => exact (tok how (by rw [h])).elim
  | sync _ _ _ _ how _ _ h => exact (tok how (by rw [h])).elim

theorem vote_run {env : Env} {ctx : Ctx} {i : Instr} {w w' : World} (hd : env.Distinct)
    (hp : ctx.program = env.rlId) (hg : Good env w) (hr : run env ctx i w = .ok w') {k : Pubkey} {j : Nat} {v : Vote}
    (hv : v ≠ .none) {p : Proposal} (h : FinalAt env w' k p) (hj : p.signers[j]? = some v) :
    (∃ q, FinalAt env w k q ∧ q.signers[j]? = some v) ∨
      (CastBy env ctx w i k j v ∧ ∃ q, FinalAt env w k q ∧ q.signers[j]? = some .none) := by
  by_cases hw : ∃ o bs, i = .writeProposal o bs
  · obtain ⟨o, bs, rfl⟩ := hw
    obtain ⟨k', b0, b', -, hb0, hgd, hb', -, rfl⟩ := writeProposal_ok hr
    by_cases hk : k = k'
    · subst hk
      obtain ⟨ho, ⟨b1, r, hb1, hl, hdd⟩, hi⟩ := h
      simp only [setDataRaw_acc, if_true, Data.raw.injEq] at ho hb1
      subst hb1
      obtain ⟨hlen, htake⟩ := writeProposalData_ok hb'
      obtain ⟨b2, hb2, -, h2⟩ := hg k ho
      rw [hb0] at hb2; cases hb2
      have hh := proposal_head hdd
      rw [hi] at hh
      have e : b'[0]? = b0[0]? := by
        have := congrArg (fun l => l[0]?) htake
        simpa [List.getElem?_take, loadBegin] using this
      rcases h2 (hlen.symm.trans hl) with h0 | ⟨q, r', hq, -⟩
      · rw [e, h0] at hh; cases hh
      · have hq0 := hgd q r' (hlen.symm.trans hl) hq
        have hh' := proposal_head hq
        rw [hq0, ← e, hh] at hh'; cases hh'
    · refine .inl ⟨p, ?_, hj⟩
      simpa only [FinalAt, setDataRaw_acc, hk, if_false] using h
  by_cases hvt : ∃ u, i = .voteForProposal u
  · obtain ⟨u, rfl⟩ := hvt
    obtain ⟨vk, kp, kr, p0, rr, j0, old, h0, h1, h2, hsig, hx, hh, hini, ha, hrr, hri, hra, hrel, hold, hor⟩ := vote_fx hr
    rcases hor with ⟨-, rfl⟩ | ⟨rfl, how, hnew, hacc⟩
    · exact .inl ⟨p, h, hj⟩
    · by_cases hk : k = kp
      · subst hk
        have hq : FinalAt env w k p0 := ⟨how.trans hp, hh, hini⟩
        have := h.2.1.unique hnew
        subst this
        simp only at hj
        by_cases e : j0 = j
        · subst e
          rw [List.getElem?_set_self (List.getElem?_eq_some_iff.1 hold).1] at hj
          cases hj
          exact .inr ⟨⟨rfl, h1, kr, rr, vk, h2, hrr, hri, hra, hrel, hsig⟩, p0, hq, hold⟩
        · rw [List.getElem?_set_ne e] at hj
          exact .inl ⟨p0, hq, hj⟩
      · obtain ⟨e1, e2, -⟩ := hacc k
        obtain ⟨ho, ⟨b, r, hb, hl, hdd⟩, hi⟩ := h
        exact .inl ⟨p, ⟨e1.symm.trans ho, ⟨b, r, (e2 hk).symm.trans hb, hl, hdd⟩, hi⟩, hj⟩
  · left
    refine (run_ops hr).lift (R := fun x y => ∀ p, FinalAt env y k p → p.signers[j]? = some v →
      ∃ q, FinalAt env x k q ∧ q.signers[j]? = some v)
      (fun _ p h hj => ⟨p, h, hj⟩) ?_
      (fun op x y hW he p h hj => vote_op hd hp (fun o bs e => hw ⟨o, bs, e⟩) (fun v e => hvt ⟨v, e⟩) hW he hv h hj) p h hj
    intro x y z h1 h2 p hz hj
    obtain ⟨q, hq, hqj⟩ := h2 p hz hj
    exact h1 q hq hqj

end Verif.RL
