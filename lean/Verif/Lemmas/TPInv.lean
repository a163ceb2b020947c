import Verif.Lemmas.Hist
import Verif.Spec.TokenProxy
/-!
# Records of the token proxy over histories
-/
set_option linter.unusedSimpArgs false
namespace Verif.TP
open Codec Verif

variable {env : Env} {L : Pubkey → Prop} {ctx : Ctx} {w w' w0 : World} {k : Pubkey} {i : Instr}

/-- The account data starts with this header. -/
def Head (a : Account) (i : Bool) (kd : AccountKind) : Prop := ∃ b s, a.data = .raw b ∧ headerC.dec b = some ((i, kd), s)

theorem Head.unique {a : Account} {i j : Bool} {kd kd' : AccountKind} (h : Head a i kd) (h' : Head a j kd') : i = j ∧ kd = kd' := by
  obtain ⟨b, s, hb, hd⟩ := h
  obtain ⟨b', s', hb', hd'⟩ := h'
  rw [hb] at hb'
  cases hb'
  rw [hd] at hd'
  simp only [Option.some.injEq, Prod.mk.injEq] at hd'
  exact hd'.1

theorem head_settings {a : Account} {x : Settings} (h : Holds settingsC recLen a x) : Head a x.isInitialized x.accountKind := by
  obtain ⟨b, r, hb, -, hd⟩ := h
  obtain ⟨s, hs⟩ := header_settings hd
  exact ⟨b, s, hb, hs⟩
theorem head_multiVault {a : Account} {x : MultiVault} (h : Holds multiVaultC recLen a x) : Head a x.isInitialized x.accountKind := by
  obtain ⟨b, r, hb, -, hd⟩ := h
  obtain ⟨s, hs⟩ := header_multiVault hd
  exact ⟨b, s, hb, hs⟩
theorem head_token {a : Account} {x : TokenSettings} (h : Holds tokenSettingsC recLen a x) : Head a x.isInitialized x.accountKind := by
  obtain ⟨b, r, hb, -, hd⟩ := h
  obtain ⟨s, hs⟩ := header_token hd
  exact ⟨b, s, hb, hs⟩
theorem head_withdrawal {E : Type} {ec : Codec E} {a : Account} {x : Withdrawal E} (h : Holds (withdrawalC ec) recLen a x) :
    Head a x.isInitialized x.accountKind := by
  obtain ⟨b, r, hb, -, hd⟩ := h
  obtain ⟨s, hs⟩ := header_withdrawal hd
  exact ⟨b, s, hb, hs⟩
theorem head_generic {p : GenericProposal} (h : loadGeneric env ctx k w = .ok p) :
    Head (w.acc k) p.isInitialized p.accountKind ∧ ∃ n pn, p.accountKind = .proposal n pn := by
  obtain ⟨⟨b, r, hb, hd⟩, n, pn, hk, -⟩ := loadGeneric_ok.1 h
  obtain ⟨s, hs⟩ := header_genericProposal hd
  exact ⟨⟨b, s, hb, hs⟩, n, pn, hk⟩

theorem zeros_head {x : Bool × AccountKind} {s : Bytes} (h : headerC.dec (zeros recLen) = some (x, s)) : x.1 = false := by
  have hz : zeros recLen = 0 :: 0 :: 0 :: 0 :: zeros 996 := by decide +kernel
  have key : ∀ t : Bytes, headerC.dec (0 :: 0 :: 0 :: 0 :: t) = some ((false, .settings 0 0), t) := fun t => rfl
  rw [hz, key] at h
  cases h
  rfl

/-- Lamports are taken only from withdrawals, deposits and the multi vault. -/
theorem move_head {x : Pubkey} {n : Nat} (h : Why env ctx w0 i (.move k x n)) :
    ∃ j kd, Head (w0.acc k) j kd ∧ ((∃ n pn, kd = .proposal n pn) ∨ (∃ n, kd = .multiVault n) ∨ ∃ n, kd = .deposit n) := by
  cases h with
  | votePay k v x hi hg =>
    obtain ⟨p, hp⟩ := hg
    obtain ⟨h1, h2⟩ := head_generic hp
    exact ⟨_, _, h1, .inl h2⟩
  | multiPay k r n hi hu ha hm =>
    obtain ⟨v, hv, -, n, hk, -⟩ := loadMultiVault_ok.1 hm
    exact ⟨_, _, head_multiVault hv, .inr (.inl ⟨n, hk⟩)⟩
  | closePay k a n hi hk =>
    rcases hk with ⟨b, r, d, m, hb, hd, hkd, -⟩ | ⟨-, p, hp, -⟩
    · obtain ⟨s, hs⟩ := header_genericDeposit hd
      exact ⟨_, _, ⟨b, s, hb, hs⟩, .inr (.inr ⟨m, hkd⟩)⟩
    · obtain ⟨h1, h2⟩ := head_generic hp
      exact ⟨_, _, h1, .inl h2⟩

/-- Only withdrawals and deposits are closed. -/
theorem close_head (h : Why env ctx w0 i (.close k)) :
    ∃ j kd, Head (w0.acc k) j kd ∧ ((∃ n pn, kd = .proposal n pn) ∨ ∃ n, kd = .deposit n) := by
  cases h with
  | closeDeposit k sd d b r hi ha hb hd n hk hsig =>
    obtain ⟨s, hs⟩ := header_genericDeposit hd
    exact ⟨_, _, ⟨b, s, hb, hs⟩, .inr ⟨n, hk⟩⟩
  | closeWithdrawal k p md hi hp hm hs =>
    obtain ⟨h1, h2⟩ := head_generic hp
    exact ⟨_, _, h1, .inl h2⟩

/-- How one operation can affect an account of the running program. -/
inductive Own (env : Env) (op : Op) (k : Pubkey) (a a' : Account) : Prop
  | keep (ho : a'.owner = a.owner) (hd : a'.data = a.data) (hl : a.lamports ≤ a'.lamports)
  | move (x : Pubkey) (n : Nat) (hop : op = .move k x n) (ho : a'.owner = a.owner) (hd : a'.data = a.data)
      (hl : a.lamports ≤ a'.lamports + n)
  | write (b b' : Bytes) (hop : op = .write k b b') (hb : a.data = .raw b) (hlen : b'.length = b.length)
      (h : a' = { a with data := .raw b' })
  | close (hop : op = .close k)
      (h : a' = { lamports := a.lamports, owner := env.systemId, data := .raw (zeros a.data.len) })

theorem own_step {op : Op} (he : Exec env ctx op w w') (ho : (w.acc k).owner = ctx.program) (h1 : ctx.program ≠ env.systemId)
    (h2 : ctx.program ≠ env.splId) : Own env op k (w.acc k) (w'.acc k) := by
  have nspl : (w.acc k).owner ≠ env.splId := by rw [ho]; exact h2
  have nsys : (w.acc k).owner ≠ env.systemId := by rw [ho]; exact h1
  cases exec_ch he k with
  | same h => exact .keep (by rw [h]) (by rw [h]) (by rw [h]; exact Nat.le_refl _)
  | gain _ hl hd' ho' => exact .keep ho' hd' hl
  | pay _ _ h _ hd' ho' => exact (nsys h).elim
  | move x n hop _ how hl hd' ho' => exact .move x n hop ho' hd' hl
  | write b b' hop hw how hb hlen h => exact .write b b' hop hb hlen h
  | close hop hw how h => exact .close hop h
  | create f s n sp o hop hw hsys hlen hl haddr h => exact (nsys hsys).elim
  | createFunded p s f sp o n hop hw hsys hlen haddr hl hn h => exact (nsys hsys).elim
  | xferSrc _ _ _ _ _ _ _ _ how => exact (nspl how).elim
  | xferDst _ _ _ _ _ _ _ how => exact (nspl how).elim
  | mintDst _ _ _ _ _ _ _ how => exact (nspl how).elim
  | mintMint _ _ _ _ _ _ _ how => exact (nspl how).elim
  | burnSrc _ _ _ _ _ _ _ _ how => exact (nspl how).elim
  | burnMint _ _ _ _ _ _ _ how => exact (nspl how).elim
  | initAcc _ _ _ _ how => exact (nspl how).elim
  | initMint _ _ _ _ how => exact (nspl how).elim
  | sync _ _ _ _ how => exact (nspl how).elim

/-- Follow one account of the running program through the operations of an instruction. `P` is a property of its bytes and
lamports. -/
theorem _root_.Verif.Ops.track {W : Op → Prop} (h : Ops env ctx W w w') (h1 : ctx.program ≠ env.systemId)
    (h2 : ctx.program ≠ env.splId) {P : Bytes → Nat → Prop}
    (hmono : ∀ b l l', P b l → l ≤ l' → P b l')
    (hmove : ∀ x n b l l', W (.move k x n) → P b l → l ≤ l' + n → P b l')
    (hclose : ¬ W (.close k))
    (hwrite : ∀ b b' l, W (.write k b b') → b'.length = b.length → P b l → P b' l)
    (ho : (w.acc k).owner = ctx.program) (hP : ∃ b, (w.acc k).data = .raw b ∧ P b (w.acc k).lamports) :
    (w'.acc k).owner = ctx.program ∧ ∃ b, (w'.acc k).data = .raw b ∧ P b (w'.acc k).lamports := by
  refine h.lift (R := fun x y => ((x.acc k).owner = ctx.program ∧ ∃ b, (x.acc k).data = .raw b ∧ P b (x.acc k).lamports) →
    ((y.acc k).owner = ctx.program ∧ ∃ b, (y.acc k).data = .raw b ∧ P b (y.acc k).lamports)) (fun _ h => h)
    (fun _ _ _ f g h => g (f h)) ?_ ⟨ho, hP⟩
  rintro op x y hW he ⟨ho, b, hb, hP⟩
  cases own_step he ho h1 h2 with
  | keep ho' hd' hl => exact ⟨ho'.trans ho, b, hd'.trans hb, hmono _ _ _ hP hl⟩
  | move z n hop ho' hd' hl => subst hop; exact ⟨ho'.trans ho, b, hd'.trans hb, hmove _ _ _ _ _ hW hP hl⟩
  | write b1 b' hop hb1 hlen h =>
    subst hop
    rw [hb] at hb1
    cases hb1
    rw [h]
    exact ⟨ho, b', rfl, hwrite _ _ _ hW hlen hP⟩
  | close hop h => subst hop; exact (hclose hW).elim

/-- Settings change only as permitted, in one instruction. -/
theorem settings_run {s : Settings} (hd : env.Distinct) (hp : ctx.program = env.tpId) (h : run env ctx noCpi i w = .ok w')
    (hs : SettingsAt env w k s) : ∃ s', SettingsAt env w' k s' ∧ (s' = s ∨ SettingsCh env ctx w s i s') ∧
      (w.acc k).lamports ≤ (w'.acc k).lamports := by
  obtain ⟨ho, hh, hi, n, pn, hk⟩ := hs
  have hhead := head_settings hh
  rw [hi, hk] at hhead
  obtain ⟨b, r, hb, hlen, hdec⟩ := hh
  obtain ⟨ho', b', hb', hl', hlen', s', r', hdec', hi', hk', hc'⟩ := (run_ops h).track (k := k)
    (P := fun b l => (w.acc k).lamports ≤ l ∧ b.length = recLen ∧ ∃ s' r, settingsC.dec b = some (s', r) ∧ s'.isInitialized = true ∧
      (∃ n pn, s'.accountKind = .settings n pn) ∧ (s' = s ∨ SettingsCh env ctx w s i s'))
    (by rw [hp]; exact hd.tpSys) (by rw [hp]; exact hd.tpSpl)
    (fun b l l' ⟨h1, h2⟩ hle => ⟨Nat.le_trans h1 hle, h2⟩)
    (fun x n b l l' hW _ _ => by
      obtain ⟨j, kd, hh', hkd⟩ := move_head hW
      obtain ⟨-, e⟩ := hhead.unique hh'
      subst e
      rcases hkd with ⟨_, _, h⟩ | ⟨_, h⟩ | ⟨_, h⟩ <;> cases h)
    (fun hW => by
      obtain ⟨j, kd, hh', hkd⟩ := close_head hW
      obtain ⟨-, e⟩ := hhead.unique hh'
      subst e
      rcases hkd with ⟨_, _, h⟩ | ⟨_, h⟩ <;> cases h)
    (fun b b' l hW hlen' ⟨h1, h2, s1, r1, hd1, hi1, ⟨n1, pn1, hk1⟩, hc1⟩ => by
      obtain ⟨q1, hq1⟩ := header_settings hd1
      cases hW with
      | new k b' hn =>
        have := zeros_head hq1
        rw [hi1] at this
        cases this
      | settings k b b' r n' pn' s2 s3 hl2 hd2 hini hk2 ha hc h0 hs =>
        have : s2 = s := h0.unique ⟨_, _, hb, hlen, hdec⟩
        subst this
        refine ⟨h1, by rw [hlen']; exact h2, s3, _, hs.dec, ?_, ?_, .inr hc⟩
        · cases hc <;> exact hi
        · cases hc <;> exact ⟨_, _, hk⟩
      | token k b b' r n' pn' s2 s3 hl2 hd2 hini hk2 ha hc h0 hs =>
        obtain ⟨q2, hq2⟩ := header_token hd2
        rw [hq1, hk1, hk2] at hq2
        simp only [Option.some.injEq, Prod.mk.injEq, reduceCtorEq, and_false, false_and] at hq2
      | ever k b b' r x x' hl hd2 hini ha hk2 h0 hc hs =>
        obtain ⟨q2, hq2⟩ := header_withdrawal hd2
        obtain ⟨n', pn', hk2⟩ := hk2
        rw [hq1, hk1, hk2] at hq2
        simp only [Option.some.injEq, Prod.mk.injEq, reduceCtorEq, and_false, false_and] at hq2
      | sol k b b' r x x' hl hd2 hini ha hk2 h0 hc hs =>
        obtain ⟨q2, hq2⟩ := header_withdrawal hd2
        obtain ⟨n', pn', hk2⟩ := hk2
        rw [hq1, hk1, hk2] at hq2
        simp only [Option.some.injEq, Prod.mk.injEq, reduceCtorEq, and_false, false_and] at hq2
      | vote k kr v b b' r p j x rr n' pn' hi h0 hx hd2 hk2 =>
        obtain ⟨q2, hq2⟩ := header_genericProposal hd2
        rw [hq1, hk1, hk2] at hq2
        simp only [Option.some.injEq, Prod.mk.injEq, reduceCtorEq, and_false, false_and] at hq2)
    (by rw [hp]; exact ho) ⟨b, hb, Nat.le_refl _, hlen, s, r, hdec, hi, ⟨n, pn, hk⟩, .inl rfl⟩
  exact ⟨s', ⟨by rw [ho', hp], ⟨b', r', hb', hlen', hdec'⟩, hi', hk'⟩, hc', hl'⟩

/-- Token settings change only as permitted, in one instruction. -/
theorem token_run {s : TokenSettings} (hd : env.Distinct) (hp : ctx.program = env.tpId) (h : run env ctx noCpi i w = .ok w')
    (hs : TokenAt env w k s) : ∃ s', TokenAt env w' k s' ∧ (s' = s ∨ TokenCh env ctx w s i s') ∧
      (w.acc k).lamports ≤ (w'.acc k).lamports := by
  obtain ⟨ho, hh, hi, n, pn, hk⟩ := hs
  have hhead := head_token hh
  rw [hi, hk] at hhead
  obtain ⟨b, r, hb, hlen, hdec⟩ := hh
  obtain ⟨ho', b', hb', hl', hlen', s', r', hdec', hi', hk', hc'⟩ := (run_ops h).track (k := k)
    (P := fun b l => (w.acc k).lamports ≤ l ∧ b.length = recLen ∧ ∃ s' r, tokenSettingsC.dec b = some (s', r) ∧ s'.isInitialized = true ∧
      (∃ n pn, s'.accountKind = .tokenSettings n pn) ∧ (s' = s ∨ TokenCh env ctx w s i s'))
    (by rw [hp]; exact hd.tpSys) (by rw [hp]; exact hd.tpSpl)
    (fun b l l' ⟨h1, h2⟩ hle => ⟨Nat.le_trans h1 hle, h2⟩)
    (fun x n b l l' hW _ _ => by
      obtain ⟨j, kd, hh', hkd⟩ := move_head hW
      obtain ⟨-, e⟩ := hhead.unique hh'
      subst e
      rcases hkd with ⟨_, _, h⟩ | ⟨_, h⟩ | ⟨_, h⟩ <;> cases h)
    (fun hW => by
      obtain ⟨j, kd, hh', hkd⟩ := close_head hW
      obtain ⟨-, e⟩ := hhead.unique hh'
      subst e
      rcases hkd with ⟨_, _, h⟩ | ⟨_, h⟩ <;> cases h)
    (fun b b' l hW hlen' ⟨h1, h2, s1, r1, hd1, hi1, ⟨n1, pn1, hk1⟩, hc1⟩ => by
      obtain ⟨q1, hq1⟩ := header_token hd1
      cases hW with
      | new k b' hn =>
        have := zeros_head hq1
        rw [hi1] at this
        cases this
      | token k b b' r n' pn' s2 s3 hl2 hd2 hini hk2 ha hc h0 hs =>
        have : s2 = s := by
          rcases h0 with h0 | h0
          · exact h0.unique ⟨_, _, hb, hlen, hdec⟩
          · rw [hb] at h0; simp only [Data.len, hlen] at h0; cases h0
        subst this
        refine ⟨h1, by rw [hlen']; exact h2, s3, _, hs.dec, ?_, ?_, .inr hc⟩
        · cases hc <;> first | exact hi | (unfold resetEpoch; split <;> exact hi) | (unfold setFee; split <;> exact hi)
        · cases hc <;> first | exact ⟨_, _, hk⟩ | (unfold resetEpoch; split <;> exact ⟨_, _, hk⟩) | (unfold setFee; split <;> exact ⟨_, _, hk⟩)
      | settings k b b' r n' pn' s2 s3 hl2 hd2 hini hk2 ha hc h0 hs =>
        obtain ⟨q2, hq2⟩ := header_settings hd2
        rw [hq1, hk1, hk2] at hq2
        simp only [Option.some.injEq, Prod.mk.injEq, reduceCtorEq, and_false, false_and] at hq2
      | ever k b b' r x x' hl hd2 hini ha hk2 h0 hc hs =>
        obtain ⟨q2, hq2⟩ := header_withdrawal hd2
        obtain ⟨n', pn', hk2⟩ := hk2
        rw [hq1, hk1, hk2] at hq2
        simp only [Option.some.injEq, Prod.mk.injEq, reduceCtorEq, and_false, false_and] at hq2
      | sol k b b' r x x' hl hd2 hini ha hk2 h0 hc hs =>
        obtain ⟨q2, hq2⟩ := header_withdrawal hd2
        obtain ⟨n', pn', hk2⟩ := hk2
        rw [hq1, hk1, hk2] at hq2
        simp only [Option.some.injEq, Prod.mk.injEq, reduceCtorEq, and_false, false_and] at hq2
      | vote k kr v b b' r p j x rr n' pn' hi h0 hx hd2 hk2 =>
        obtain ⟨q2, hq2⟩ := header_genericProposal hd2
        rw [hq1, hk1, hk2] at hq2
        simp only [Option.some.injEq, Prod.mk.injEq, reduceCtorEq, and_false, false_and] at hq2)
    (by rw [hp]; exact ho) ⟨b, hb, Nat.le_refl _, hlen, s, r, hdec, hi, ⟨n, pn, hk⟩, .inl rfl⟩
  exact ⟨s', ⟨by rw [ho', hp], ⟨b', r', hb', hlen', hdec'⟩, hi', hk'⟩, hc', hl'⟩

/-- What a step of a history is to a live account of the token proxy: nothing, an instruction of the token proxy, or the write
back after a payload. -/
inductive KEv (env : Env) (L : Pubkey → Prop) (k : Pubkey) (A : Account → Prop) (e : Ev) : Prop
  | quiet (ho : (e.post.acc k).owner = (e.pre.acc k).owner) (hd : (e.post.acc k).data = (e.pre.acc k).data)
      (hl : (e.pre.acc k).lamports ≤ (e.post.acc k).lamports)
  | tp (ctx : Ctx) (i : Instr) (hact : e.act = .tp ctx i) (hp : ctx.program = env.tpId) (hs : ∀ k ∈ ctx.signers, ¬ L k)
      (hr : run env ctx noCpi i e.pre = .ok e.post)
  | stale (ctx : Ctx) (i : Instr) (p : Pubkey) (w1 : World) (hact : e.act = .tp ctx i) (hp : ctx.program = env.tpId)
      (hs : ∀ k ∈ ctx.signers, ¬ L k) (hst : Stale env ctx p w1 e.pre e.post i) (hA : A (w1.acc k))

/-- Induction over histories for a property of one live account of the token proxy. -/
theorem _root_.Verif.Run.track {A : Account → Prop} {top : Bool} {tr : List Ev} (hd : env.Distinct)
    (hown : ∀ a, A a → a.owner = env.tpId ∧ 1 ≤ a.lamports)
    (hmono : ∀ a a' : Account, A a → a'.owner = a.owner → a'.data = a.data → a.lamports ≤ a'.lamports → A a')
    (htp : ∀ ctx i (w1 w2 : World), ctx.program = env.tpId → (∀ k ∈ ctx.signers, ¬ L k) → run env ctx noCpi i w1 = .ok w2 →
      A (w1.acc k) → A (w2.acc k))
    (hst : ∀ ctx i p (w1 c w2 : World), ctx.program = env.tpId → Stale env ctx p w1 c w2 i → A (w1.acc k) → A (c.acc k) →
      A (w2.acc k))
    (h : Run env L top w tr w') (hA : A (w.acc k)) :
    A (w'.acc k) ∧ ∀ e ∈ tr, A (e.pre.acc k) ∧ A (e.post.acc k) ∧ KEv env L k A e := by
  have quiet : ∀ {x y : World}, QuietFor env.tpId L x y → A (x.acc k) → A (y.acc k) ∧ (y.acc k).owner = (x.acc k).owner ∧
      (y.acc k).data = (x.acc k).data ∧ (x.acc k).lamports ≤ (y.acc k).lamports := by
    intro x y hq hx
    obtain ⟨h1, h2, h3⟩ := (hq k).1 (hown _ hx).1
    have ho := h1.trans (hown _ hx).1.symm
    exact ⟨hmono _ _ hx ho h2 h3, ho, h2, h3⟩
  induction h with
  | nil => exact ⟨hA, fun e he => by cases he⟩
  | rl ctx i h hp hs hr ih =>
    obtain ⟨h1, h2⟩ := ih hA
    obtain ⟨a, b, c, d⟩ := quiet (RL.quiet_tp hd hp (RL.run_ops hr)) h1
    refine ⟨a, fun e he => ?_⟩
    rcases List.mem_append.1 he with he | he
    · exact h2 e he
    · rw [List.mem_singleton.1 he]
      exact ⟨h1, a, .quiet b c d⟩
  | tp ctx i h hp hs hr ih =>
    obtain ⟨h1, h2⟩ := ih hA
    have a := htp ctx i _ _ hp hs hr h1
    refine ⟨a, fun e he => ?_⟩
    rcases List.mem_append.1 he with he | he
    · exact h2 e he
    · rw [List.mem_singleton.1 he]
      exact ⟨h1, a, .tp ctx i rfl hp hs hr⟩
  | payload ctx i p h hin hp hs hpl hno hr ih ih' =>
    obtain ⟨h1, h2⟩ := ih hA
    obtain ⟨h3, h4⟩ := ih' h1
    have hstale := payload_ok hno hr
    have a := hst ctx i p _ _ _ hp hstale h1 h3
    refine ⟨a, fun e he => ?_⟩
    rcases List.mem_append.1 he with he | he
    · rcases List.mem_append.1 he with he | he
      · exact h2 e he
      · exact h4 e he
    · rw [List.mem_singleton.1 he]
      exact ⟨h3, a, .stale ctx i p _ rfl hp hs hstale h1⟩
  | ext h hx ih =>
    obtain ⟨h1, h2⟩ := ih hA
    obtain ⟨a, b, c, d⟩ := quiet hx.quiet_tp h1
    refine ⟨a, fun e he => ?_⟩
    rcases List.mem_append.1 he with he | he
    · exact h2 e he
    · rw [List.mem_singleton.1 he]
      exact ⟨h1, a, .quiet b c d⟩
  | purge h hp ih =>
    obtain ⟨h1, h2⟩ := ih hA
    have e1 := hp.2 k
    rw [if_neg (Nat.pos_iff_ne_zero.1 (hown _ h1).2)] at e1
    refine ⟨by rw [e1]; exact h1, fun e he => ?_⟩
    rcases List.mem_append.1 he with he | he
    · exact h2 e he
    · rw [List.mem_singleton.1 he]
      exact ⟨h1, by simp only; rw [e1]; exact h1, .quiet (by simp only [e1]) (by simp only [e1]) (by simp only [e1]; exact Nat.le_refl _)⟩

/-- The write back after a payload leaves every account alone that is no withdrawal. -/
theorem Stale.other {p : Pubkey} {w1 c w2 : World} (h : Stale env ctx p w1 c w2 i)
    (hk : ∀ n pn, ¬ Head (w1.acc k) true (.proposal n pn)) : w2.acc k = c.acc k := by
  have key : ∀ {E : Type} {ec : Codec E} {r r' : Withdrawal E} {k' : Pubkey} {n pn}, Holds (withdrawalC ec) recLen (w1.acc k') r →
      r.isInitialized = true → r.accountKind = .proposal n pn →
      putWithdrawal ctx ec r' k' c = .ok w2 → w2.acc k = c.acc k := by
    intro E ec r r' k' n pn hr hi hkd hput
    have hne : k ≠ k' := by
      intro e
      subst e
      have := head_withdrawal hr
      rw [hi, hkd] at this
      exact hk _ _ this
    obtain ⟨b, b', hb, hl, hst, hor, rfl⟩ := pack_ok.1 hput
    simp only [setDataRaw_acc, hne, if_false]
  cases h with
  | ever k' m r n pn l hk' hr hi hst hm hkind hl hp h => exact key hr hi hkind h
  | sol k' r n pn l hk' hr hi hst hkind hl hp h => exact key hr hi hkind h

theorem SettingsAt.unique {s s' : Settings} (h : SettingsAt env w k s) (h' : SettingsAt env w k s') : s = s' :=
  h.2.1.unique h'.2.1
theorem TokenAt.unique {s s' : TokenSettings} (h : TokenAt env w k s) (h' : TokenAt env w k s') : s = s' :=
  h.2.1.unique h'.2.1

/-- Settings over histories: they stay, and change only as permitted. -/
theorem settings_hist {s : Settings} {top : Bool} {tr : List Ev} (hd : env.Distinct) (h : Run env L top w tr w')
    (hs : SettingsAt env w k s) (hlive : Live w k) : (∃ s', SettingsAt env w' k s') ∧ Live w' k ∧ ∀ e ∈ tr, ∃ s1 s2, SettingsAt env e.pre k s1 ∧
      SettingsAt env e.post k s2 ∧ (s2 = s1 ∨ ∃ ctx i, e.act = .tp ctx i ∧ ctx.program = env.tpId ∧ (∀ k ∈ ctx.signers, ¬ L k) ∧
        run env ctx noCpi i e.pre = .ok e.post ∧ SettingsCh env ctx e.pre s1 i s2) := by
  let A : Account → Prop := fun a => ∃ s : Settings, a.owner = env.tpId ∧ 1 ≤ a.lamports ∧ Holds settingsC recLen a s ∧
    s.isInitialized = true ∧ ∃ n pn, s.accountKind = .settings n pn
  have hoth : ∀ {a : Account}, A a → ∀ n pn, ¬ Head a true (.proposal n pn) := by
    rintro a ⟨s, -, -, hh, hi, n, pn, hk⟩ n' pn' h'
    have := (head_settings hh).unique h'
    rw [hk] at this
    cases this.2
  have := h.track (A := A) hd (fun a ⟨s, h1, h2, _⟩ => ⟨h1, h2⟩)
    (fun a a' ⟨s, h1, h2, h3, h4⟩ ho hd hl => ⟨s, ho.trans h1, Nat.le_trans h2 hl, by unfold Holds; rw [hd]; exact h3, h4⟩)
    (fun ctx i w1 w2 hp _ hr ⟨s, hs⟩ => by
      obtain ⟨s', hs', -, hl⟩ := settings_run hd hp hr ⟨hs.1, hs.2.2⟩
      exact ⟨s', hs'.1, Nat.le_trans hs.2.1 hl, hs'.2⟩)
    (fun ctx i p w1 c w2 hp hst hA hA' => by rw [hst.other (hoth hA)]; exact hA') ⟨s, hs.1, hlive, hs.2⟩
  obtain ⟨⟨sf, hsf⟩, this⟩ := this
  refine ⟨⟨sf, hsf.1, hsf.2.2⟩, hsf.2.1, fun e he => ?_⟩
  obtain ⟨⟨s1, h1'⟩, ⟨s2, h2'⟩, hk⟩ := this e he
  have h1 : SettingsAt env e.pre k s1 := ⟨h1'.1, h1'.2.2⟩
  have h2 : SettingsAt env e.post k s2 := ⟨h2'.1, h2'.2.2⟩
  refine ⟨s1, s2, h1, h2, ?_⟩
  cases hk with
  | quiet ho hd' hl =>
    left
    have : Holds settingsC recLen (e.post.acc k) s1 := by
      have := h1.2.1
      unfold Holds at this ⊢
      rw [hd']; exact this
    exact h2.2.1.unique this
  | tp ctx i hact hp hs hr =>
    obtain ⟨s', hs', hor, -⟩ := settings_run hd hp hr h1
    have e' := hs'.unique h2
    subst e'
    rcases hor with hor | hor
    · exact .inl hor
    · exact .inr ⟨ctx, i, hact, hp, hs, hr, hor⟩
  | stale ctx i p w1 hact hp hs hst hA =>
    left
    have := hst.other (hoth hA)
    have h3 := h2.2.1
    rw [this] at h3
    exact h3.unique h1.2.1

/-- Token settings over histories: they stay, and change only as permitted. -/
theorem token_hist {s : TokenSettings} {top : Bool} {tr : List Ev} (hd : env.Distinct) (h : Run env L top w tr w')
    (hs : TokenAt env w k s) (hlive : Live w k) : (∃ s', TokenAt env w' k s') ∧ Live w' k ∧ ∀ e ∈ tr, ∃ s1 s2, TokenAt env e.pre k s1 ∧
      TokenAt env e.post k s2 ∧ (s2 = s1 ∨ ∃ ctx i, e.act = .tp ctx i ∧ ctx.program = env.tpId ∧ (∀ k ∈ ctx.signers, ¬ L k) ∧
        run env ctx noCpi i e.pre = .ok e.post ∧ TokenCh env ctx e.pre s1 i s2) := by
  let A : Account → Prop := fun a => ∃ s : TokenSettings, a.owner = env.tpId ∧ 1 ≤ a.lamports ∧ Holds tokenSettingsC recLen a s ∧
    s.isInitialized = true ∧ ∃ n pn, s.accountKind = .tokenSettings n pn
  have hoth : ∀ {a : Account}, A a → ∀ n pn, ¬ Head a true (.proposal n pn) := by
    rintro a ⟨s, -, -, hh, hi, n, pn, hk⟩ n' pn' h'
    have := (head_token hh).unique h'
    rw [hk] at this
    cases this.2
  have := h.track (A := A) hd (fun a ⟨s, h1, h2, _⟩ => ⟨h1, h2⟩)
    (fun a a' ⟨s, h1, h2, h3, h4⟩ ho hd hl => ⟨s, ho.trans h1, Nat.le_trans h2 hl, by unfold Holds; rw [hd]; exact h3, h4⟩)
    (fun ctx i w1 w2 hp _ hr ⟨s, hs⟩ => by
      obtain ⟨s', hs', -, hl⟩ := token_run hd hp hr ⟨hs.1, hs.2.2⟩
      exact ⟨s', hs'.1, Nat.le_trans hs.2.1 hl, hs'.2⟩)
    (fun ctx i p w1 c w2 hp hst hA hA' => by rw [hst.other (hoth hA)]; exact hA') ⟨s, hs.1, hlive, hs.2⟩
  obtain ⟨⟨sf, hsf⟩, this⟩ := this
  refine ⟨⟨sf, hsf.1, hsf.2.2⟩, hsf.2.1, fun e he => ?_⟩
  obtain ⟨⟨s1, h1'⟩, ⟨s2, h2'⟩, hk⟩ := this e he
  have h1 : TokenAt env e.pre k s1 := ⟨h1'.1, h1'.2.2⟩
  have h2 : TokenAt env e.post k s2 := ⟨h2'.1, h2'.2.2⟩
  refine ⟨s1, s2, h1, h2, ?_⟩
  cases hk with
  | quiet ho hd' hl =>
    left
    have : Holds tokenSettingsC recLen (e.post.acc k) s1 := by
      have := h1.2.1
      unfold Holds at this ⊢
      rw [hd']; exact this
    exact h2.2.1.unique this
  | tp ctx i hact hp hs hr =>
    obtain ⟨s', hs', hor, -⟩ := token_run hd hp hr h1
    have e' := hs'.unique h2
    subst e'
    rcases hor with hor | hor
    · exact .inl hor
    · exact .inr ⟨ctx, i, hact, hp, hs, hr, hor⟩
  | stale ctx i p w1 hact hp hs hst hA =>
    left
    have := hst.other (hoth hA)
    have h3 := h2.2.1
    rw [this] at h3
    exact h3.unique h1.2.1

end Verif.TP
