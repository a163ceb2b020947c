import Verif.Lemmas.TPOrigin
/-!
# Looking backwards from token proxy records
-/
namespace Verif.TP
open Codec Verif

variable {env : Env} {ctx : Ctx} {w w' w0 : World} {i : Instr} {k : Pubkey} {L : Pubkey → Prop}

/-- The account belongs to the token proxy and its bytes satisfy `Q`. -/
def Bytes' (env : Env) (Q : Bytes → Prop) (a : Account) : Prop := a.owner = env.tpId ∧ ∃ b, a.data = .raw b ∧ Q b

/-- Bytes other than zeros come from the previous state or from a write. -/
theorem op_back {Q : Bytes → Prop} {op : Op} (hd : env.Distinct) (hp : ctx.program = env.tpId) (hz : ∀ n, ¬ Q (zeros n))
    (he : Exec env ctx op w w') (h : Bytes' env Q (w'.acc k)) :
    Bytes' env Q (w.acc k) ∨ ∃ b b', op = .write k b b' ∧ (w.acc k).owner = env.tpId ∧ (w.acc k).data = .raw b ∧
      (w'.acc k).data = .raw b' ∧ Q b' := by
  obtain ⟨ho, b, hb, hq⟩ := h
  have keep : (w'.acc k).owner = (w.acc k).owner → (w'.acc k).data = (w.acc k).data → Bytes' env Q (w.acc k) :=
    fun h1 h2 => ⟨h1.symm.trans ho, b, h2.symm.trans hb, hq⟩
  have spl : ∀ {a : Account}, (w'.acc k).owner = a.owner → a.owner = env.splId → False :=
    fun h1 h2 => hd.tpSpl (ho.symm.trans (h1.trans h2))
  cases exec_ch he k with
  | same h => exact .inl (keep (by rw [h]) (by rw [h]))
  | gain _ hl hd' ho' => exact .inl (keep ho' hd')
  | pay _ _ h _ hd' ho' => exact .inl (keep ho' hd')
  | move x n hop _ how hl hd' ho' => exact .inl (keep ho' hd')
  | write b1 b' hop hw how hb1 hlen1 h =>
    rw [h] at hb
    cases hb
    exact .inr ⟨b1, b, hop, how.trans hp, hb1, by rw [h], hq⟩
  | close hop hw how h => rw [h] at ho; exact (hd.tpSys ho.symm).elim
  | create f sd n sp o hop hw hsys hlen hl haddr h =>
    rw [h] at hb
    cases hb
    exact (hz _ hq).elim
  | createFunded p sd f sp o n hop hw hsys hlen haddr hl hn h =>
    rw [h] at hb
    cases hb
    exact (hz _ hq).elim
  | xferSrc sg dst auth n s s' hop hw how hb hn hsp hsg hd' ho' hl => exact (spl ho' how).elim
  | xferDst sg src auth n d hop hw how hb hn hd' ho' hl => exact (spl ho' how).elim
  | mintDst sg m au n d hop hw how hb hm hn h => exact (spl (a := w.acc k) (by rw [h]) how).elim
  | mintMint sg d au n m hop hw how hb ha hsg hn h => exact (spl (a := w.acc k) (by rw [h]) how).elim
  | burnSrc sg m au n s s' hop hw how hb hm hn hsp hsg h => exact (spl (a := w.acc k) (by rw [h]) how).elim
  | burnMint sg m au n s hop hw how hb hn h => exact (spl (a := w.acc k) (by rw [h]) how).elim
  | initAcc m o hop hw how hb h => exact (spl (a := w.acc k) (by rw [h]) how).elim
  | initMint m o hop hw how hb h => exact (spl (a := w.acc k) (by rw [h]) how).elim
  | sync t n hop hw how hb hn h => exact (spl (a := w.acc k) (by rw [h]) how).elim

/-- The instruction may create the settings of a token. -/
def Creates (i : Instr) : Prop := i = .withdrawMultiTokenEver ∨ ∃ sd n y a r v e p, i = .depositMultiTokenSol sd n y a r v e p

/-- Everything but the counters is the same. -/
structure SameConfig (t t' : TokenSettings) : Prop where
  kind : t'.kind = t.kind
  name : t'.name = t.name
  symbol : t'.symbol = t.symbol
  depositLimit : t'.depositLimit = t.depositLimit
  withdrawalLimit : t'.withdrawalLimit = t.withdrawalLimit
  withdrawalDailyLimit : t'.withdrawalDailyLimit = t.withdrawalDailyLimit
  emergency : t'.emergency = t.emergency
  feeDepositInfo : t'.feeDepositInfo = t.feeDepositInfo
  feeWithdrawalInfo : t'.feeWithdrawalInfo = t.feeWithdrawalInfo

theorem SameConfig.refl (t : TokenSettings) : SameConfig t t := ⟨rfl, rfl, rfl, rfl, rfl, rfl, rfl, rfl, rfl⟩
theorem SameConfig.trans {a b c : TokenSettings} (h : SameConfig a b) (h' : SameConfig b c) : SameConfig a c :=
  ⟨h'.1.trans h.1, h'.2.trans h.2, h'.3.trans h.3, h'.4.trans h.4, h'.5.trans h.5, h'.6.trans h.6, h'.7.trans h.7, h'.8.trans h.8,
    h'.9.trans h.9⟩

/-- The first settings of a token. -/
inductive Fresh (env : Env) (ctx : Ctx) (w0 : World) (k : Pubkey) (t : TokenSettings) : Instr → Prop
  | sol (sd : U128) (nm y : Bytes) (a : U64) (rc : EverAddress) (v : U64) (e : Pubkey) (p : Bytes) (mint vault : Pubkey) (n vn : U8)
      (hn : nm.length ≤ maxNameLen) (hy : y.length ≤ maxNameLen)
      (ha : findAddr env (tokenSettingsSolSeeds mint) ctx.program = .ok (k, n))
      (hv : findAddr env (vaultSeeds mint) ctx.program = .ok (vault, vn))
      (ht : SameConfig (freshTokenSettings n vn (.solana mint vault) nm y) t)
      (h7 : ctx.accounts[7]? = some k) (hl : (w0.acc k).lamports = 0) :
      Fresh env ctx w0 k t (.depositMultiTokenSol sd nm y a rc v e p)
  | ever (kw : Pubkey) (r : Withdrawal WEverEvent) (mint : Pubkey) (n mn : U8)
      (hr : loadWithdrawal wEverEventC env ctx kw w0 = .ok r)
      (ha : findAddr env (tokenSettingsEverSeeds env r.event.token) ctx.program = .ok (k, n))
      (hm : findAddr env (mintSeeds env r.event.token) ctx.program = .ok (mint, mn))
      (ht : SameConfig (freshTokenSettings n mn (.ever mint r.event.token r.event.decimals) r.event.name r.event.symbol) t)
      (h3 : ctx.accounts[3]? = some k) (hl : (w0.acc k).lamports = 0) :
      Fresh env ctx w0 k t .withdrawMultiTokenEver

theorem Fresh.creates {t : TokenSettings} (h : Fresh env ctx w0 k t i) : Creates i := by
  cases h with
  | sol => exact .inr ⟨_, _, _, _, _, _, _, _, rfl⟩
  | ever => exact .inl rfl

theorem Fresh.same {t t' : TokenSettings} (h : Fresh env ctx w0 k t i) (hs : SameConfig t t') : Fresh env ctx w0 k t' i := by
  cases h with
  | sol sd nm y a rc v e p mint vault n vn hn hy ha hv ht h7 hl => exact .sol sd nm y a rc v e p mint vault n vn hn hy ha hv (ht.trans hs) h7 hl
  | ever kw r mint n mn hr ha hm ht h3 hl => exact .ever kw r mint n mn hr ha hm (ht.trans hs) h3 hl

theorem TokenCh.same {t t' : TokenSettings} (h : TokenCh env ctx w0 t i t') (hi : Creates i) : SameConfig t t' := by
  have reset : ∀ x : I64, SameConfig t (resetEpoch t x) := by
    intro x; unfold resetEpoch
    split
    · exact .refl _
    · exact ⟨rfl, rfl, rfl, rfl, rfl, rfl, rfl, rfl, rfl⟩
  cases h with
  | depositSol => exact ⟨rfl, rfl, rfl, rfl, rfl, rfl, rfl, rfl, rfl⟩
  | withdraw => exact (reset (epochOf ctx.now)).trans ⟨rfl, rfl, rfl, rfl, rfl, rfl, rfl, rfl, rfl⟩
  | release i hj => rcases hi with rfl | ⟨_, _, _, _, _, _, _, _, rfl⟩ <;> simp at hj
  | fee i a sup hj => rcases hi with rfl | ⟨_, _, _, _, _, _, _, _, rfl⟩ <;> simp at hj
  | _ => rcases hi with hi | ⟨_, _, _, _, _, _, _, _, hi⟩ <;> simp at hi

/-- The bytes of token settings. -/
def TokenBytes (t : TokenSettings) (b : Bytes) : Prop :=
  b.length = recLen ∧ (∃ r, tokenSettingsC.dec b = some (t, r)) ∧ t.isInitialized = true ∧ ∃ n m, t.accountKind = .tokenSettings n m

theorem tokenAt_bytes {t : TokenSettings} : TokenAt env w k t ↔ Bytes' env (TokenBytes t) (w.acc k) := by
  constructor
  · rintro ⟨h1, ⟨b, r, hb, hl, hdec⟩, h3, h4⟩
    exact ⟨h1, b, hb, hl, ⟨r, hdec⟩, h3, h4⟩
  · rintro ⟨h1, b, hb, hl, ⟨r, hdec⟩, h3, h4⟩
    exact ⟨h1, ⟨b, r, hb, hl, hdec⟩, h3, h4⟩

theorem tokenBytes_zeros (t : TokenSettings) (n : Nat) : ¬ TokenBytes t (zeros n) := by
  rintro ⟨-, ⟨r, hdec⟩, hi, -⟩
  obtain ⟨q, hq⟩ := header_token hdec
  have := zeros_any hq
  rw [hi] at this
  cases this

theorem token_back_op {op : Op} {t : TokenSettings} (hd : env.Distinct) (hp : ctx.program = env.tpId) (hW : Why env ctx w0 i op)
    (he : Exec env ctx op w w') (h : TokenAt env w' k t) :
    TokenAt env w k t ∨ (∃ t0, TokenAt env w k t0 ∧ (Creates i → SameConfig t0 t)) ∨ Fresh env ctx w0 k t i := by
  rcases op_back hd hp (tokenBytes_zeros t) he (tokenAt_bytes.1 h) with h | ⟨b1, b, hop, how, hb1, hb, hl, ⟨r, hdec⟩, hi, n, m, hk⟩
  · exact .inl (tokenAt_bytes.2 h)
  obtain ⟨q, hq⟩ := header_token hdec
  rw [hi, hk] at hq
  right
  subst hop
  cases hW with
  | new k b' hn =>
    right
    cases hn with
    | settings g m wm n pn ha hu hs =>
      obtain ⟨q', hq'⟩ := header_settings hs.dec
      rw [hq] at hq'; simp at hq'
    | multiVault g m wm n ha hs =>
      obtain ⟨q', hq'⟩ := header_multiVault hs.dec
      rw [hq] at hq'; simp at hq'
    | tokenSol sd nm y a rc v e p mint vault n vn hn hy ha hv hs h7 hl =>
      have := hs.dec
      rw [hdec] at this
      cases this
      exact .sol sd nm y a rc v e p mint vault n vn hn hy ha hv (.refl _) h7 hl
    | tokenEver kw r mint n mn hr ha hm hs h3 hl =>
      have := hs.dec
      rw [hdec] at this
      cases this
      exact .ever kw r mint n mn hr ha hm (.refl _) h3 hl
    | depositEver sd a rc v e p n au ev ha hsig hs =>
      obtain ⟨q', hq'⟩ := header_deposit hs.dec
      rw [hq] at hq'; simp [depositRecord] at hq'
    | depositSol sd i n au ev hi ha hsig hs =>
      obtain ⟨q', hq'⟩ := header_deposit hs.dec
      rw [hq] at hq'; simp [depositRecord] at hq'
    | ever pda t nm y d rc a p att n pn au rs rr hrd ha hsig hs =>
      obtain ⟨q', hq'⟩ := header_withdrawal hs.dec
      rw [hq] at hq'; simp [withdrawalRecord] at hq'
    | sol pda rc a p att n pn au mint rs rr hrd ha hsig hs =>
      obtain ⟨q', hq'⟩ := header_withdrawal hs.dec
      rw [hq] at hq'; simp [withdrawalRecord] at hq'
  | settings k b b' r n' pn' s2 s3 hl2 hd2 hini hk2 ha hc h0 hs =>
    obtain ⟨q', hq'⟩ := header_settings hs.dec
    rw [hc.kind.2, hk2, hq] at hq'; simp at hq'
  | token k b b' r n' pn' s2 s3 hl2 hd2 hini hk2 ha hc h0 hs =>
    have := hs.dec
    rw [hdec] at this
    cases this
    exact .inl ⟨s2, ⟨how, ⟨_, _, hb1, hl2, hd2⟩, hini, _, _, hk2⟩, hc.same⟩
  | ever k b b' r x x' hl hd2 hini ha hk2 h0 hc hs =>
    obtain ⟨q', hq'⟩ := header_withdrawal hs.dec
    obtain ⟨n', pn', hk2⟩ := hk2
    rw [hc.kind.2, hk2, hq] at hq'; simp at hq'
  | sol k b b' r x x' hl hd2 hini ha hk2 h0 hc hs =>
    obtain ⟨q', hq'⟩ := header_withdrawal hs.dec
    obtain ⟨n', pn', hk2⟩ := hk2
    rw [hc.kind.2, hk2, hq] at hq'; simp at hq'
  | vote k kr v b b' r p j x rr n' pn' hi h0 hx hd2 hk2 ha hr hri hra hv hsig hold hs =>
    obtain ⟨q', hq'⟩ := header_genericProposal hs.dec
    simp only [hk2, hq] at hq'; simp at hq'

theorem token_back_run {t : TokenSettings} (hd : env.Distinct) (hp : ctx.program = env.tpId) (h : run env ctx noCpi i w = .ok w')
    (hs : TokenAt env w' k t) :
    TokenAt env w k t ∨ (∃ t0, TokenAt env w k t0 ∧ TokenCh env ctx w t0 i t) ∨ Fresh env ctx w k t i := by
  have := (run_ops h).lift (R := fun x y => ∀ t, TokenAt env y k t → TokenAt env x k t ∨
      (∃ t0, TokenAt env x k t0 ∧ (Creates i → SameConfig t0 t)) ∨ Fresh env ctx w k t i)
    (fun _ _ h => .inl h)
    (fun _ _ _ f g s h => by
      rcases g s h with h | ⟨s0, h, hn⟩ | h
      · exact f s h
      · rcases f s0 h with h | ⟨s1, h, hn'⟩ | hf
        · exact .inr (.inl ⟨s0, h, hn⟩)
        · exact .inr (.inl ⟨s1, h, fun hc => (hn' hc).trans (hn hc)⟩)
        · exact .inr (.inr (hf.same (hn hf.creates)))
      · exact .inr (.inr h))
    (fun _ _ _ hW he s h => token_back_op hd hp hW he h) t hs
  rcases this with h1 | ⟨s0, h1, -⟩ | h1
  · exact .inl h1
  · obtain ⟨s', hs', hor, -⟩ := token_run hd hp h h1
    have e := hs'.unique hs
    subst e
    rcases hor with rfl | hor
    · exact .inl h1
    · exact .inr (.inl ⟨s0, h1, hor⟩)
  · exact .inr (.inr h1)

/-- The write back after a payload leaves accounts alone that do not hold a withdrawal afterwards. -/
theorem Stale.unless {p : Pubkey} {w1 c w2 : World} (h : Stale env ctx p w1 c w2 i) {kd : AccountKind} {ini : Bool}
    (hk : ∀ n pn, kd ≠ .proposal n pn) (hm : Head (w2.acc k) ini kd) : w2.acc k = c.acc k := by
  have key : ∀ {E : Type} {ec : Codec E} {r : Withdrawal E} {k' : Pubkey} {n pn},
      r.accountKind = .proposal n pn →
      putWithdrawal ctx ec (r.withStatus .processed) k' c = .ok w2 → w2.acc k = c.acc k := by
    intro E ec r k' n pn hkd hput
    obtain ⟨b, b', hb, hl, hst, hor, h⟩ := pack_ok.1 hput
    rw [h] at hm ⊢
    by_cases e' : k = k'
    · subst e'
      obtain ⟨b1, s1, hb1, hdec⟩ := hm
      simp only [setDataRaw_acc, if_true, Data.raw.injEq] at hb1
      subst hb1
      obtain ⟨q, hq⟩ := header_withdrawal hst.dec
      rw [hq] at hdec
      simp only [Withdrawal.withStatus, hkd, Option.some.injEq, Prod.mk.injEq] at hdec
      exact (hk _ _ hdec.1.2.symm).elim
    · simp only [setDataRaw_acc, e', if_false]
  cases h with
  | ever k' m r n pn l hk' hr hi hst hm hkind hl hp h => exact key hkind h
  | sol k' r n pn l hk' hr hi hst hkind hl hp h => exact key hkind h

/-- Settings of a token after a step were there before with a permitted change, or were created. -/
theorem token_back {e : Ev} {t : TokenSettings} (hd : env.Distinct) (h : EvStep env L e) (hs : TokenAt env e.post k t) :
    TokenAt env e.pre k t ∨ (∃ ctx i, e.act = .tp ctx i ∧ ctx.program = env.tpId ∧ run env ctx noCpi i e.pre = .ok e.post ∧
      ((∃ t0, TokenAt env e.pre k t0 ∧ TokenCh env ctx e.pre t0 i t) ∨ Fresh env ctx e.pre k t i)) := by
  cases h with
  | quiet _ h =>
    left
    rw [tokenAt_bytes] at hs ⊢
    refine quiet_back ?_ (fun a h => h.1) ?_ h hs
    · rintro a a' ⟨h1, h2⟩ e1 e2
      rw [e2] at h2
      exact ⟨e1.symm.trans h1, h2⟩
    · rintro a n ⟨h1, b, hb, hq⟩ hz
      rw [hb] at hz
      cases hz
      exact tokenBytes_zeros _ _ hq
  | tp ctx i hact hp hs' hr =>
    rcases token_back_run hd hp hr hs with h | h
    · exact .inl h
    · exact .inr ⟨ctx, i, hact, hp, hr, h⟩
  | stale ctx i p w1 hact hp hs' hst =>
    left
    obtain ⟨ho, hh, hi, n, m, hk⟩ := hs
    have := hst.unless (fun _ _ => by rw [hk]; simp) (head_token hh)
    rw [this] at ho hh
    exact ⟨ho, hh, hi, n, m, hk⟩
  | purge _ h =>
    left
    unfold TokenAt at hs ⊢
    rw [h.2 k] at hs
    split at hs
    · exact (hd.tpSys hs.1.symm).elim
    · exact hs

end Verif.TP
