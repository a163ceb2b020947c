import Verif.Lemmas.Hist
import Verif.Spec.RoundLoader
/-!
# Invariant of round-loader accounts over histories
-/
namespace Verif.RL
open Codec Verif

/-- The header, the part `WriteProposal` cannot reach, is zero. -/
def Blank (b : Bytes) : Prop := ∀ x ∈ b.take loadBegin, x = 0#8

/-- What holds of a finalized proposal with `lam` lamports. -/
structure Sound (env : Env) (p : Proposal) (lam : Nat) : Prop where
  quorum : 2 * p.signers.length < 3 * p.requiredVotes.toNat
  funded : relayReparation * unvoted p + max 1 (env.rent proposalLen) ≤ lam

/-- An account of the round loader with less than its rent holds nothing; a proposal is unfinalized or sound. -/
def J (env : Env) (a : Account) : Prop := a.owner = env.rlId → ∃ b, a.data = .raw b ∧ (a.lamports < max 1 (env.rent b.length) → Blank b) ∧
  (b.length = proposalLen → b[0]? = some 0#8 ∨ ∃ p r, proposalC.dec b = some (p, r) ∧ Sound env p a.lamports)

def Good (env : Env) (w : World) : Prop := ∀ k, J env (w.acc k)

theorem J.mono {env : Env} {a a' : Account} (h : J env a) (ho : a'.owner = a.owner) (hd : a'.data = a.data)
    (hl : a.lamports ≤ a'.lamports) : J env a' := by
  intro hr
  obtain ⟨b, hb, h1, h2⟩ := h (ho ▸ hr)
  refine ⟨b, by rw [hd, hb], fun h0 => h1 (by omega), fun hlen => (h2 hlen).imp_right ?_⟩
  rintro ⟨p, r, hp, hs⟩
  exact ⟨p, r, hp, hs.quorum, Nat.le_trans hs.funded hl⟩

theorem blank_zeros (n : Nat) : Blank (zeros n) := by
  intro x hx
  exact (List.mem_replicate.1 (List.mem_of_mem_take hx)).2

theorem J_zeros {env : Env} {a : Account} {n : Nat} (h : a.data = .raw (zeros n)) : J env a := by
  intro _
  refine ⟨_, h, fun _ => blank_zeros n, fun hl => .inl ?_⟩
  rw [show (zeros n).length = n from List.length_replicate] at hl
  rw [zeros, List.getElem?_replicate, if_pos (by rw [hl]; decide)]

theorem J_other {env : Env} {a : Account} (h : a.owner ≠ env.rlId) : J env a := fun ho => (h ho).elim

theorem settings_head {s : Settings} {b r : Bytes} (h : settingsC.dec b = some (s, r)) :
    b[0]? = some (if s.isInitialized then 1#8 else 0#8) := by
  have := settingsC.eq_of_dec h; subst this
  cases s with | mk i => cases i <;> rfl
theorem round_head {s : RelayRound} {b r : Bytes} (h : relayRoundC.dec b = some (s, r)) :
    b[0]? = some (if s.isInitialized then 1#8 else 0#8) := by
  have := relayRoundC.eq_of_dec h; subst this
  cases s with | mk i => cases i <;> rfl
theorem proposal_head {s : Proposal} {b r : Bytes} (h : proposalC.dec b = some (s, r)) :
    b[0]? = some (if s.isInitialized then 1#8 else 0#8) := by
  have := proposalC.eq_of_dec h; subst this
  cases s with | mk i => cases i <;> rfl

theorem proposal_kind {s : Proposal} {b r : Bytes} {n : U8} {pn : Option U8} (h : proposalC.dec b = some (s, r))
    (hk : s.accountKind = .proposal n pn) : b[1]? = some 2#8 := by
  have := proposalC.eq_of_dec h; subst this
  obtain ⟨i, k⟩ := s
  simp only at hk
  subst hk
  cases pn <;> cases i <;> simp [proposalC] <;> rfl

theorem blank_byte {b : Bytes} {i : Nat} {x : U8} (h : Blank b) (hi : i < loadBegin) (hx : b[i]? = some x) : x = 0#8 := by
  apply h
  rw [List.mem_iff_getElem?]
  exact ⟨i, by rw [List.getElem?_take, if_pos hi, hx]⟩

/-- Writing into an account. -/
theorem good_write {env : Env} {w : World} {k : Pubkey} {b' : Bytes} (hg : Good env w)
    (h0 : (w.acc k).owner = env.rlId → (w.acc k).lamports < max 1 (env.rent b'.length) → Blank b')
    (hp : (w.acc k).owner = env.rlId → b'.length = proposalLen → b'[0]? = some 0#8 ∨
      ∃ p r, proposalC.dec b' = some (p, r) ∧ Sound env p (w.acc k).lamports) :
    Good env (w.setDataRaw k (.raw b')) := by
  intro x
  by_cases hx : x = k
  · subst hx
    simp only [setDataRaw_acc, if_true]
    exact fun ho => ⟨b', rfl, h0 ho, hp ho⟩
  · have e : (w.setDataRaw k (.raw b')).acc x = w.acc x := by simp only [setDataRaw_acc, hx, if_false]
    rw [e]; exact hg x

theorem good_pack {α : Type} {env : Env} {ctx : Ctx} {c : Codec α} {len : Nat} {a : α} {k : Pubkey} {w w' : World}
    (hg : Good env w) (h : pack ctx c len a k w = .ok w') (hl : (w.acc k).owner = env.rlId → max 1 (env.rent len) ≤ (w.acc k).lamports)
    (hp : len ≠ proposalLen ∨ ∀ b b', Stored c a b b' → b'[0]? = some 0#8) : Good env w' := by
  obtain ⟨b, b', hb, hlen, hst, -, rfl⟩ := pack_ok.1 h
  refine good_write hg (fun ho h0 => ?_) (fun ho hl' => ?_)
  · have := hl ho; rw [hst.length, hlen] at h0; omega
  · rw [hst.length, hlen] at hl'
    exact .inl ((hp.resolve_left (fun h => h hl')) b b' hst)

theorem good_create {env : Env} {ctx : Ctx} {f k : Pubkey} {seeds : List Bytes} {n : U8} {space : Nat} {o : Pubkey}
    {w w' : World} (hg : Good env w) (hd : env.rlId ≠ env.systemId)
    (ha : env.createAddr (seeds ++ [[n]]) ctx.program = some k)
    (h : createPda env ctx f k seeds n space o w = .ok w') : Good env w' := by
  intro x
  have := exec_ch (env := env) (ctx := ctx) (op := .create f k seeds n space o) (w := w) (w' := w') ⟨ha, h⟩ x
  cases this with
  | same h => rw [h]; exact hg x
  | gain _ hl hd ho => exact (hg x).mono ho hd hl
  | pay _ _ hsy _ _ ho => exact J_other (by rw [ho, hsy]; exact hd.symm)
  | create _ _ _ _ _ _ _ _ _ _ _ h => exact J_zeros (n := space) (by rw [h]; simp_all)
  | move _ _ hop => cases hop
  | write _ _ hop => cases hop
  | close hop => cases hop
  | createFunded _ _ _ _ _ _ hop => cases hop
  | xferSrc _ _ _ _ _ _ hop => cases hop
  | xferDst _ _ _ _ _ hop => cases hop
  | mintDst _ _ _ _ _ hop => cases hop
  | mintMint _ _ _ _ _ hop => cases hop
  | burnSrc _ _ _ _ _ _ hop => cases hop
  | burnMint _ _ _ _ _ hop => cases hop
  | initAcc _ _ hop => cases hop
  | initMint _ _ hop => cases hop
  | sync _ _ hop => cases hop

theorem good_sys {env : Env} {ctx : Ctx} {f k : Pubkey} {sg : Pubkey → Bool} {n : Nat} {w w' : World}
    (hd : env.rlId ≠ env.systemId) (h : sysTransfer env ctx sg f k n w = .ok w') (x : Pubkey)
    (hj : J env { w.acc x with lamports := (w.acc x).lamports + (if x = k then n else 0) }) : J env (w'.acc x) := by
  have hx := sysTransfer_acc h x
  obtain ⟨-, -, -, -, -, hor, -⟩ := sysTransfer_ok.1 h
  rw [hx]
  by_cases e : x = f
  · rcases hor with rfl | ho
    · simpa using hj
    · exact J_other (by subst e; simp only; rw [ho]; exact hd.symm)
  · simpa [e] using hj

/-- An account with something in its header has its rent. -/
theorem Good.live {env : Env} {w : World} {k : Pubkey} {b : Bytes} (hg : Good env w) (hb : (w.acc k).data = .raw b)
    {i : Nat} {x : U8} (hi : i < loadBegin) (hx : b[i]? = some x) (h0 : x ≠ 0#8) (ho : (w.acc k).owner = env.rlId) :
    max 1 (env.rent b.length) ≤ (w.acc k).lamports := by
  obtain ⟨b1, hb1, h1, -⟩ := hg k ho
  rw [hb] at hb1; cases hb1
  rcases Nat.lt_or_ge (w.acc k).lamports (max 1 (env.rent b.length)) with h | h
  · exact (h0 (blank_byte (h1 h) hi hx)).elim
  · exact h

theorem settings_live {env : Env} {w : World} {k : Pubkey} {s : Settings} (hg : Good env w)
    (h : Holds settingsC settingsLen (w.acc k) s) (hi : s.isInitialized = true) (ho : (w.acc k).owner = env.rlId) :
    max 1 (env.rent settingsLen) ≤ (w.acc k).lamports := by
  obtain ⟨b, r, hb, hl, hd⟩ := h
  have := settings_head hd
  rw [hi] at this
  rw [← hl]
  exact hg.live hb (by decide) this (by decide) ho

theorem round_live {env : Env} {w : World} {k : Pubkey} {s : RelayRound} (hg : Good env w)
    (h : Holds relayRoundC relayRoundLen (w.acc k) s) (hi : s.isInitialized = true) (ho : (w.acc k).owner = env.rlId) :
    max 1 (env.rent relayRoundLen) ≤ (w.acc k).lamports := by
  obtain ⟨b, r, hb, hl, hd⟩ := h
  have := round_head hd
  rw [hi] at this
  rw [← hl]
  exact hg.live hb (by decide) this (by decide) ho

theorem proposal_live {env : Env} {w : World} {k : Pubkey} {s : Proposal} {n : U8} {pn : Option U8} (hg : Good env w)
    (h : Holds proposalC proposalLen (w.acc k) s) (hk : s.accountKind = .proposal n pn) (ho : (w.acc k).owner = env.rlId) :
    max 1 (env.rent proposalLen) ≤ (w.acc k).lamports := by
  obtain ⟨b, r, hb, hl, hd⟩ := h
  rw [← hl]
  exact hg.live hb (i := 1) (by decide) (proposal_kind hd hk) (by decide) ho

/-- A finalized proposal is sound. -/
theorem Good.sound {env : Env} {w : World} {k : Pubkey} {p : Proposal} (hg : Good env w)
    (h : Holds proposalC proposalLen (w.acc k) p) (hi : p.isInitialized = true) (ho : (w.acc k).owner = env.rlId) :
    Sound env p (w.acc k).lamports := by
  obtain ⟨b, r, hb, hl, hd⟩ := h
  obtain ⟨b1, hb1, -, h2⟩ := hg k ho
  rw [hb] at hb1; cases hb1
  rcases h2 hl with h0 | ⟨q, r', hq, hs⟩
  · have := proposal_head hd
    rw [hi, h0] at this; cases this
  · rw [hd] at hq; cases hq; exact hs

theorem good_openRound {env : Env} {ctx : Ctx} {f ks kr : Pubkey} {s : Settings} {num : U32} {relays : List Pubkey}
    {e : U32} {w w' : World} (hd : env.Distinct) (hg : Good env w)
    (h : openRound env ctx f ks kr s num relays e w = .ok w')
    (hs : Holds settingsC settingsLen (w.acc ks) s) (hi : s.isInitialized = true) : Good env w' := by
  obtain ⟨n, w1, w2, ha, h1, h2, h3⟩ := openRound_ok h
  have hc := findAddr_create ha
  have g1 := good_create hg hd.rlSys hc h1
  have g2 := good_pack g1 h2 (fun _ => by rw [createPda_self hc h1]; simp only; omega) (.inl (by decide))
  refine good_pack g2 h3 (fun ho => ?_) (.inl (by decide))
  have hne : ks ≠ kr := by
    rintro rfl
    obtain ⟨b, r, hb, hl, -⟩ := hs
    obtain ⟨-, hlen, -⟩ := createPda_ok hc h1
    rw [hb] at hlen; simp only [Data.len, hl] at hlen; cases hlen
  have hk : w2.acc ks = w1.acc ks := by
    obtain ⟨c, c', -, -, -, -, rfl⟩ := pack_ok.1 h2
    simp only [setDataRaw_acc, hne, if_false]
  rw [hk] at ho ⊢
  refine settings_live (s := s) g1 ?_ hi ho
  obtain ⟨b, r, hb, hl, hdd⟩ := hs
  exact ⟨b, r, by rw [(createPda_acc hc h1 ks hne).1, hb], hl, hdd⟩

theorem count_set_none {l : List Vote} {j : Nat} {x : Vote} (h : l[j]? = some Vote.none) (hx : x ≠ .none) :
    l.count .none = (l.set j x).count .none + 1 := by
  induction l generalizing j with
  | nil => cases h
  | cons a l ih =>
    cases j with
    | zero =>
      simp only [List.getElem?_cons_zero, Option.some.injEq] at h
      subst h
      simp [hx]
    | succ j =>
      simp only [List.getElem?_cons_succ] at h
      have := ih h
      simp [List.count_cons]; omega

theorem writeProposalData_ok {b b' bs : Bytes} {off : Nat} (h : writeProposalData b off bs = .ok b') :
    b'.length = b.length ∧ b'.take loadBegin = b.take loadBegin := by
  simp only [writeProposalData, bind_ok, require_ok, exists_const, Except.ok.injEq] at h
  obtain ⟨-, h2, rfl⟩ := h
  constructor
  · simp; omega
  · rw [List.append_assoc, List.take_append_of_le_length (by simp; omega), List.take_take]
    congr 1; omega

theorem relays_lt {a : Account} {rr : RelayRound} (h : Holds relayRoundC relayRoundLen a rr) : rr.relays.length < 2 ^ 32 := by
  obtain ⟨b, r, -, -, hd⟩ := h
  have := relayRoundC.wf_of_dec hd
  simp only [relayRoundC, wf_iso, wf_pair, wf_vec, Bool.and_eq_true, decide_eq_true_eq] at this
  simp_all

theorem required_quorum {n : Nat} (hn : n < 2 ^ 32) (m : U32) : 2 * n < 3 * (requiredVotes n m).toNat := by
  have h : (BitVec.ofNat 32 (n * 2 / 3 + 1)).toNat = 2 * n / 3 + 1 := by
    rw [BitVec.toNat_ofNat, Nat.mod_eq_of_lt (by omega), Nat.mul_comm]
  simp only [RL.requiredVotes]
  split <;> omega

/-- Every instruction of the round loader keeps the invariant. -/
theorem good_run {env : Env} {ctx : Ctx} {i : Instr} {w w' : World} (hd : env.Distinct) (hp : ctx.program = env.rlId)
    (hg : Good env w) (h : run env ctx i w = .ok w') : Good env w' := by
  cases i with
  | init g s m t =>
    simp only [run, processInitialize, bind_ok, acct_ok, sysvar_ok, require_ok, exists_const, Prod.exists,
      validateInitializer_ok] at h
    obtain ⟨f, -, ini, -, ks, -, kpd, -, -, -, rent, -, -, hsig, pd, pn, hpd, rfl, hauth, k, n, ha, rfl, w1, h1, h2⟩ := h
    have hc := findAddr_create ha
    exact good_pack (good_create hg hd.rlSys hc h1) h2 (fun _ => by rw [createPda_self hc h1]; simp only; omega)
      (.inl (by decide))
  | updateSettings cr sb mv ttl =>
    simp only [run, processUpdateSettings, bind_ok, acct_ok, require_ok, exists_const, Prod.exists, unpack_holds,
      validateInitializer_ok, orErr_ok, intoSettings_some, validateSettings, validatePda_ok, validateProgramdata_ok] at h
    obtain ⟨au, -, ks, -, kpd, -, hsig, s, ⟨hs, hini⟩, n, pn, hk, ha, ho, hpd, hauth, h⟩ := h
    exact good_pack hg h (settings_live hg hs hini) (.inl (by decide))
  | createRelayRound num relays e =>
    simp only [run, processCreateRelayRound, bind_ok, acct_ok, sysvar_ok, require_ok, exists_const] at h
    obtain ⟨f, -, cr, -, ks, -, kr, -, -, -, rent, -, -, hsig, s, hs, hsub, hcur, h⟩ := h
    obtain ⟨hs, hi, -⟩ := loadSettings_ok.1 hs
    exact good_openRound hd hg h hs hi
  | createProposal r p d =>
    simp only [run, processCreateProposal, bind_ok, acct_ok, sysvar_ok, require_ok, exists_const, Prod.exists] at h
    obtain ⟨f, -, cr, -, kp, -, -, -, rent, -, -, hsig, k, n, ha, rfl, h⟩ := h
    have hc := findAddr_create ha
    split at h
    · simp only [bind_ok] at h
      obtain ⟨w1, h1, h2⟩ := h
      refine good_pack (good_create hg hd.rlSys hc h1) h2 (fun _ => by rw [createPda_self hc h1]; simp only; omega)
        (.inr ?_)
      intro b b' hst
      exact proposal_head hst.dec
    · cases h; exact hg
  | writeProposal off bs =>
    obtain ⟨k, b, b', -, hb, hgd, hb', hor, rfl⟩ := writeProposal_ok h
    obtain ⟨hlen, htake⟩ := writeProposalData_ok hb'
    refine good_write hg (fun ho h0 => ?_) (fun ho hl => ?_)
    · obtain ⟨b1, hb1, h1, -⟩ := hg k ho
      rw [hb] at hb1; cases hb1
      have := h1 (hlen ▸ h0)
      unfold Blank at *
      rw [htake]; exact this
    · obtain ⟨b1, hb1, -, h2⟩ := hg k ho
      rw [hb] at hb1; cases hb1
      rw [hlen] at hl
      left
      have e : b'[0]? = b[0]? := by
        have := congrArg (fun l => l[0]?) htake
        simpa [List.getElem?_take, loadBegin] using this
      rw [e]
      rcases h2 hl with h0 | ⟨p, r, hp, -⟩
      · exact h0
      · have := proposal_head hp
        rw [hgd p r hl hp] at this; exact this
  | finalizeProposal =>
    simp only [run, processFinalizeProposal, bind_ok, acct_ok, require_ok, exists_const, ← holds_iff,
      checkProposal_ok] at h
    obtain ⟨f, -, kp, -, ks, -, kr, -, -, -, s, hs, p, hh, ⟨n, pn, hk, ha⟩, hini, rr, hrr, w1, h1, h2⟩ := h
    intro x
    refine good_sys hd.rlSys h2 x ?_
    obtain ⟨b, b', hb, hlen, hst, -, rfl⟩ := pack_ok.1 h1
    by_cases hx : x = kp
    · subst hx
      simp only [setDataRaw_acc, if_true]
      intro ho
      have hlive := proposal_live hg hh hk ho
      refine ⟨b', rfl, fun h0 => ?_, fun hl => .inr ⟨_, _, hst.dec, ?_, ?_⟩⟩
      · simp only [hst.length, hlen] at h0; omega
      · simp only [List.length_replicate]
        exact required_quorum (relays_lt (loadRelayRound_ok.1 hrr).1) _
      · simp only [unvoted, List.count_replicate_self]; omega
    · have e : (w.setDataRaw kp (.raw b')).acc x = w.acc x := by simp only [setDataRaw_acc, hx, if_false]
      rw [e, if_neg hx]; exact hg x
  | voteForProposal v =>
    simp only [run, processVote, bind_ok, acct_ok, require_ok, exists_const, unpack_holds, orErr_ok,
      checkProposal_ok] at h
    obtain ⟨vk, -, kp, -, kr, -, hsig, hx, p, ⟨hh, hini⟩, ⟨n, pn, hk, ha⟩, rr, hrr, j, hj, old, hold, h⟩ := h
    split at h
    · rename_i e
      subst e
      simp only [bind_ok] at h
      obtain ⟨w1, h1, h2⟩ := h
      obtain ⟨hle, -, how, -, -, hacc⟩ := moveLamports_ok h2
      obtain ⟨b, b', hb, hlen, hst, -, rfl⟩ := pack_ok.1 h1
      have how : (w.acc kp).owner = env.rlId := by
        rcases how with h | h
        · cases h
        · simpa [hp] using h
      have hs := hg.sound hh hini how
      intro x
      rw [hacc x]
      by_cases hx' : x = kp
      · subst hx'
        simp only [setDataRaw_acc, if_true]
        intro _
        have hf := hs.funded
        have hc : unvoted p = unvoted { p with signers := p.signers.set j v } + 1 := count_set_none hold hx
        rw [hc, Nat.mul_add] at hf
        refine ⟨b', rfl, fun h0 => ?_, fun hl => .inr ⟨_, _, hst.dec, ?_, ?_⟩⟩
        · simp only [hst.length, hlen, setDataRaw_acc, if_true] at *; omega
        · simpa using hs.quorum
        · simp only at *; omega
      · have e : (w.setDataRaw kp (.raw b')).acc x = w.acc x := by simp only [setDataRaw_acc, hx', if_false]
        rw [e, if_neg hx']
        exact (hg x).mono rfl rfl (by simp)
    · cases h; exact hg
  | executeProposal =>
    simp only [run, processExecute, bind_ok, acct_ok, sysvar_ok, exists_const, unpack_holds, checkProposal_ok] at h
    obtain ⟨f, -, ks, -, kp, -, kr, -, -, -, rent, -, -, s, hs, p, ⟨hh, hini⟩, ⟨n, pn, hk, ha⟩, h⟩ := h
    obtain ⟨b, r, hb, hl, hdd⟩ := hh
    split at h
    · simp only [bind_ok] at h
      obtain ⟨w1, h1, h2⟩ := h
      exact good_exec hd hg hs ⟨b, r, hb, hl, hdd⟩ hini h1 h2
    · obtain ⟨b1, b', hb1, -, hst, -, rfl⟩ := pack_ok.1 h
      rw [hb] at hb1
      cases hb1
      rw [Stored_same hdd hst, setDataRaw_self hb]; exact hg
  | executeProposalByAdmin =>
    simp only [run, processExecuteByAdmin, bind_ok, acct_ok, sysvar_ok, require_ok, exists_const, unpack_holds] at h
    obtain ⟨f, -, cr, -, ks, -, kp, -, kr, -, -, -, rent, -, -, hsig, s, hs, hsub, p, ⟨hh, hini⟩, w1, h1, h2⟩ := h
    exact good_exec hd hg hs hh hini h1 h2
where
  good_exec {env : Env} {ctx : Ctx} {f ks kp kr : Pubkey} {s : Settings} {p : Proposal} {num : U32} {rs : List Pubkey} {e : U32}
      {w w1 w' : World} (hd : env.Distinct) (hg : Good env w) (hs : loadSettings env ctx ks w = .ok s)
      (hh : Holds proposalC proposalLen (w.acc kp) p) (hini : p.isInitialized = true)
      (h1 : openRound env ctx f ks kr s num rs e w = .ok w1)
      (h2 : pack ctx proposalC proposalLen { p with status := .executed } kp w1 = .ok w') : Good env w' := by
    obtain ⟨-, hne, hlen, hx⟩ := openRound_ops (w0 := w) (i := .executeProposal) h1 hs (.inr (.inl rfl))
    obtain ⟨hs', hsi, -⟩ := loadSettings_ok.1 hs
    have g1 := good_openRound hd hg h1 hs' hsi
    obtain ⟨b, r, hb, hl, hdd⟩ := hh
    have hps : kp ≠ ks := by
      rintro rfl
      obtain ⟨b2, r2, hb2, hl2, -⟩ := hs'
      rw [hb] at hb2; cases hb2; rw [hl] at hl2; cases hl2
    have hpr : kp ≠ kr := by
      rintro rfl; rw [hb] at hlen; simp only [Data.len, hl] at hlen; cases hlen
    have hh1 : Holds proposalC proposalLen (w1.acc kp) p := ⟨b, r, by rw [(hx kp hps hpr).1, hb], hl, hdd⟩
    obtain ⟨b1, b', hb1, hlen1, hst, -, rfl⟩ := pack_ok.1 h2
    refine good_write g1 (fun ho h0 => ?_) (fun ho hl' => .inr ⟨_, _, hst.dec, ?_⟩)
    · have := (g1.sound hh1 hini ho).funded; rw [hst.length, hlen1] at h0; omega
    · exact ⟨(g1.sound hh1 hini ho).quorum, (g1.sound hh1 hini ho).funded⟩

theorem good_quiet {env : Env} {L : Pubkey → Prop} {w w' : World} (hg : Good env w) (h : QuietFor env.rlId L w w') :
    Good env w' := by
  intro k
  by_cases ho : (w.acc k).owner = env.rlId
  · obtain ⟨h1, h2, h3⟩ := (h k).1 ho
    exact (hg k).mono (h1.trans ho.symm) h2 h3
  · intro ho'
    obtain ⟨-, n, hn⟩ := (h k).2 ho' ho
    exact J_zeros hn ho'

theorem good_purge {env : Env} {w w' : World} (hd : env.Distinct) (hg : Good env w) (h : Purge env w w') : Good env w' := by
  intro k
  rw [h.2 k]
  split
  · exact J_other hd.rlSys.symm
  · exact hg k

theorem good_ev {env : Env} {L : Pubkey → Prop} (hd : env.Distinct) (e : Ev) (h : RlEv env L e) (hg : Good env e.pre) :
    Good env e.post := by
  obtain ⟨act, pre, post⟩ := e
  cases act with
  | rl ctx i => exact good_run hd h.1 hg h.2.2
  | tp ctx i => exact good_quiet hg h
  | ext => exact good_quiet hg h
  | purge => exact good_purge hd hg h

theorem good_genesis {env : Env} {L : Pubkey → Prop} {w : World} (h : Genesis env L w) : Good env w :=
  fun k => J_other (h.owner k).1

theorem good_steps {env : Env} {L : Pubkey → Prop} (hd : env.Distinct) {w w' : World} {tr : List Ev}
    (h : Steps (RlEv env L) w tr w') (hg : Good env w) : Good env w' :=
  (h.lift (R := fun _ _ => True) (fun _ => trivial) (fun _ _ _ _ _ => trivial)
    (fun e he hp => ⟨good_ev hd e he hp, trivial⟩) hg).1

theorem good_reach {env : Env} {L : Pubkey → Prop} (hd : env.Distinct) {w : World} (h : Reach env L w) : Good env w := by
  obtain ⟨w0, tr, hg, hr⟩ := h
  exact good_steps hd (hr.rlSteps hd) (good_genesis hg)

end Verif.RL
