import Verif.Lemmas.TPInv
/-!
# Where records of the token proxy come from
-/
set_option linter.unusedSimpArgs false
namespace Verif.TP
open Codec Verif

variable {env : Env} {L : Pubkey → Prop} {ctx : Ctx} {w w' w0 : World} {k : Pubkey} {i : Instr}

/-- The account belongs to the token proxy and its header is initialized. -/
def Marked (env : Env) (a : Account) (kd : AccountKind) : Prop := a.owner = env.tpId ∧ Head a true kd

theorem Stored.head {α : Type} {c : Codec α} {a : α} {b b' : Bytes} {x : Bool × AccountKind} (h : Stored c a b b')
    (hh : ∀ {b r}, c.dec b = some (a, r) → ∃ s, headerC.dec b = some (x, s)) : ∃ s, headerC.dec b' = some (x, s) :=
  hh h.dec

theorem SettingsCh.kind {s s' : Settings} (h : SettingsCh env ctx w0 s i s') :
    s'.isInitialized = s.isInitialized ∧ s'.accountKind = s.accountKind := by
  cases h <;> exact ⟨rfl, rfl⟩

theorem TokenCh.kinds {s s' : TokenSettings} (h : TokenCh env ctx w0 s i s') :
    s'.isInitialized = s.isInitialized ∧ s'.accountKind = s.accountKind ∧ s'.kind = s.kind := by
  cases h <;> first | exact ⟨rfl, rfl, rfl⟩ | (unfold resetEpoch; split <;> exact ⟨rfl, rfl, rfl⟩) | (unfold setFee; split <;> exact ⟨rfl, rfl, rfl⟩)

theorem EverCh.kind {s s' : Withdrawal WEverEvent} (h : EverCh env ctx w0 s i s') :
    s'.isInitialized = s.isInitialized ∧ s'.accountKind = s.accountKind := by
  cases h <;> exact ⟨rfl, rfl⟩

theorem SolCh.kind {s s' : Withdrawal WSolEvent} (h : SolCh env ctx w0 s i s') :
    s'.isInitialized = s.isInitialized ∧ s'.accountKind = s.accountKind := by
  cases h <;> exact ⟨rfl, rfl⟩

/-- A write over a record keeps its header; a new record goes over zeros. -/
theorem write_head {b b' : Bytes} {x : Bool × AccountKind} {s : Bytes} (h : Why env ctx w0 i (.write k b b'))
    (h' : headerC.dec b' = some (x, s)) : New env ctx w0 k b' i ∨ ∃ s, headerC.dec b = some (x, s) := by
  cases h with
  | new k b' hn => exact .inl hn
  | settings k b b' r n' pn' s2 s3 hl2 hd2 hini hk2 ha hc h0 hs =>
    right
    obtain ⟨q2, hq2⟩ := header_settings hd2
    obtain ⟨q3, hq3⟩ := header_settings hs.dec
    rw [hc.kind.1, hc.kind.2, h'] at hq3
    simp only [Option.some.injEq, Prod.mk.injEq] at hq3
    exact ⟨q2, by rw [hq2, hq3.1]⟩
  | token k b b' r n' pn' s2 s3 hl2 hd2 hini hk2 ha hc h0 hs =>
    right
    obtain ⟨q2, hq2⟩ := header_token hd2
    obtain ⟨q3, hq3⟩ := header_token hs.dec
    rw [hc.kinds.1, hc.kinds.2.1, h'] at hq3
    simp only [Option.some.injEq, Prod.mk.injEq] at hq3
    exact ⟨q2, by rw [hq2, hq3.1]⟩
  | ever k b b' r x x' hl hd2 hini ha hk2 h0 hc hs =>
    right
    obtain ⟨q2, hq2⟩ := header_withdrawal hd2
    obtain ⟨q3, hq3⟩ := header_withdrawal hs.dec
    rw [hc.kind.1, hc.kind.2, h'] at hq3
    simp only [Option.some.injEq, Prod.mk.injEq] at hq3
    exact ⟨q2, by rw [hq2, hq3.1]⟩
  | sol k b b' r x x' hl hd2 hini ha hk2 h0 hc hs =>
    right
    obtain ⟨q2, hq2⟩ := header_withdrawal hd2
    obtain ⟨q3, hq3⟩ := header_withdrawal hs.dec
    rw [hc.kind.1, hc.kind.2, h'] at hq3
    simp only [Option.some.injEq, Prod.mk.injEq] at hq3
    exact ⟨q2, by rw [hq2, hq3.1]⟩
  | vote k kr v b b' r p j x rr n' pn' hi h0 hx hd2 hk2 ha hr hri hra hv hsig hold hs =>
    right
    obtain ⟨q2, hq2⟩ := header_genericProposal hd2
    obtain ⟨q3, hq3⟩ := header_genericProposal hs.dec
    simp only [h', Option.some.injEq, Prod.mk.injEq] at hq3
    exact ⟨q2, by rw [hq2, hq3.1]⟩

/-- Headers come from the previous state or from a new record. -/
theorem marked_back {op : Op} {kd : AccountKind} (hd : env.Distinct) (hp : ctx.program = env.tpId) (hW : Why env ctx w0 i op)
    (he : Exec env ctx op w w') (h : Marked env (w'.acc k) kd) :
    Marked env (w.acc k) kd ∨ (∃ b' s, New env ctx w0 k b' i ∧ headerC.dec b' = some ((true, kd), s)) := by
  obtain ⟨ho, b, s, hb, hh⟩ := h
  have keep : (w'.acc k).owner = (w.acc k).owner → (w'.acc k).data = (w.acc k).data → Marked env (w.acc k) kd :=
    fun h1 h2 => ⟨h1.symm.trans ho, b, s, h2.symm.trans hb, hh⟩
  have spl : ∀ {a : Account}, (w'.acc k).owner = a.owner → a.owner = env.splId → False :=
    fun h1 h2 => hd.tpSpl (ho.symm.trans (h1.trans h2))
  cases exec_ch he k with
  | same h => exact .inl (keep (by rw [h]) (by rw [h]))
  | gain _ hl hd' ho' => exact .inl (keep ho' hd')
  | pay _ _ h _ hd' ho' => exact .inl (keep ho' hd')
  | move x n hop _ how hl hd' ho' => exact .inl (keep ho' hd')
  | write b1 b' hop hw how hb1 hlen h =>
    subst hop
    rw [h] at hb
    cases hb
    rcases write_head hW hh with h | ⟨q, hq⟩
    · exact .inr ⟨_, _, h, hh⟩
    · exact .inl ⟨how.trans hp, b1, q, hb1, hq⟩
  | close hop hw how h => rw [h] at ho; exact (hd.tpSys ho.symm).elim
  | create f sd n sp o hop hw hsys hlen hl haddr h =>
    subst hop
    rw [h] at hb ho
    cases hb
    cases hW with
    | create _ _ _ _ _ _ hs ha =>
      have z : sp = recLen := by cases hs <;> first | rfl | exact (hd.tpSpl ho.symm).elim
      subst z
      exact absurd (zeros_head hh) (by simp)
  | createFunded p sd f sp o n hop hw hsys hlen haddr hl hn h =>
    subst hop
    rw [h] at ho
    cases hW <;> exact (hd.tpSpl ho.symm).elim
  | xferSrc sg dst auth n s s' hop hw how hb hn hsp hsg hd' ho' hl => exact (spl ho' how).elim
  | xferDst sg src auth n d hop hw how hb hn hd' ho' hl => exact (spl ho' how).elim
  | mintDst sg m au n d hop hw how hb hm hn h => exact (spl (a := w.acc k) (by rw [h]) how).elim
  | mintMint sg d au n m hop hw how hb ha hsg hn h => exact (spl (a := w.acc k) (by rw [h]) how).elim
  | burnSrc sg m au n s s' hop hw how hb hm hn hsp hsg h => exact (spl (a := w.acc k) (by rw [h]) how).elim
  | burnMint sg m au n s hop hw how hb hn h => exact (spl (a := w.acc k) (by rw [h]) how).elim
  | initAcc m o hop hw how hb h => exact (spl (a := w.acc k) (by rw [h]) how).elim
  | initMint m o hop hw how hb h => exact (spl (a := w.acc k) (by rw [h]) how).elim
  | sync t n hop hw how hb hn h => exact (spl (a := w.acc k) (by rw [h]) how).elim

theorem marked_run {kd : AccountKind} (hd : env.Distinct) (hp : ctx.program = env.tpId) (h : run env ctx noCpi i w = .ok w')
    (hm : Marked env (w'.acc k) kd) :
    Marked env (w.acc k) kd ∨ (∃ b' s, New env ctx w k b' i ∧ headerC.dec b' = some ((true, kd), s)) :=
  (run_ops h).lift (R := fun x y => Marked env (y.acc k) kd →
    Marked env (x.acc k) kd ∨ (∃ b' s, New env ctx w k b' i ∧ headerC.dec b' = some ((true, kd), s)))
    (fun _ h => .inl h) (fun _ _ _ f g h => (g h).elim f .inr) (fun _ _ _ hW he h => marked_back hd hp hW he h) hm

theorem zeros_any {n : Nat} {x : Bool × AccountKind} {s : Bytes} (h : headerC.dec (zeros n) = some (x, s)) : x.1 = false := by
  rcases n with _ | _ | _ | _ | n
  · cases h
  · cases h
  · cases h
  · cases h
  · have key : ∀ t : Bytes, headerC.dec (0 :: 0 :: 0 :: 0 :: t) = some ((false, .settings 0 0), t) := fun t => rfl
    have : zeros (n + 1 + 1 + 1 + 1) = 0 :: 0 :: 0 :: 0 :: zeros n := rfl
    rw [this, key] at h
    cases h; rfl

/-- Steps of others create no headers. -/
theorem marked_quiet {kd : AccountKind} (h : QuietFor env.tpId L w w') (hm : Marked env (w'.acc k) kd) :
    Marked env (w.acc k) kd := by
  obtain ⟨ho, b, s, hb, hh⟩ := hm
  by_cases e : (w.acc k).owner = env.tpId
  · obtain ⟨h1, h2, -⟩ := (h k).1 e
    exact ⟨e, b, s, h2.symm.trans hb, hh⟩
  · obtain ⟨-, n, hz⟩ := (h k).2 ho e
    rw [hz] at hb
    cases hb
    exact absurd (zeros_any hh) (by simp)

/-- The write back after a payload creates headers of withdrawals only. -/
theorem marked_stale {kd : AccountKind} {p : Pubkey} {w1 c w2 : World} (h : Stale env ctx p w1 c w2 i)
    (hm : Marked env (w2.acc k) kd) :
    Marked env (c.acc k) kd ∨ ((∃ n pn, kd = .proposal n pn) ∧ Head (w1.acc k) true kd ∧ ctx.accounts[0]? = some k) := by
  have key : ∀ {E : Type} {ec : Codec E} {r : Withdrawal E} {k' : Pubkey} {n pn}, Holds (withdrawalC ec) recLen (w1.acc k') r →
      r.accountKind = .proposal n pn → ctx.accounts[0]? = some k' →
      putWithdrawal ctx ec (r.withStatus .processed) k' c = .ok w2 →
      Marked env (c.acc k) kd ∨ ((∃ n pn, kd = .proposal n pn) ∧ Head (w1.acc k) true kd ∧ ctx.accounts[0]? = some k) := by
    intro E ec r k' n pn hr hkd hk0 hput
    obtain ⟨b, b', hb, hl, hst, hor, rfl⟩ := pack_ok.1 hput
    by_cases e : k = k'
    · subst e
      right
      obtain ⟨ho, b1, s1, hb1, hh⟩ := hm
      simp only [setDataRaw_acc, if_true, Data.raw.injEq] at hb1
      subst hb1
      obtain ⟨q, hq⟩ := header_withdrawal hst.dec
      rw [hh] at hq
      simp only [Option.some.injEq, Prod.mk.injEq] at hq
      have := head_withdrawal hr
      rw [show r.isInitialized = true from hq.1.1.symm, show r.accountKind = kd from hq.1.2.symm] at this
      exact ⟨⟨n, pn, hq.1.2.trans hkd⟩, this, hk0⟩
    · left
      simpa only [setDataRaw_acc, e, if_false] using hm
  cases h with
  | ever k' m r n pn l hk' hr hi hst hm hkind hl hp h => exact key hr hkind hk' h
  | sol k' r n pn l hk' hr hi hst hkind hl hp h => exact key hr hkind hk' h

/-- The step of a history that wrote a new record. -/
def Wrote (env : Env) (L : Pubkey → Prop) (k : Pubkey) (kd : AccountKind) (e : Ev) : Prop :=
  ∃ ctx i b' s, e.act = .tp ctx i ∧ ctx.program = env.tpId ∧ (∀ k ∈ ctx.signers, ¬ L k) ∧ run env ctx noCpi i e.pre = .ok e.post ∧
    New env ctx e.pre k b' i ∧ headerC.dec b' = some ((true, kd), s)

/-- Records other than withdrawals come from an instruction that wrote them. -/
theorem _root_.Verif.Run.origin {kd : AccountKind} {top : Bool} {tr : List Ev} (hd : env.Distinct)
    (hk : ∀ n pn, kd ≠ .proposal n pn) (h : Run env L top w tr w') (hm : Marked env (w'.acc k) kd) :
    Marked env (w.acc k) kd ∨ ∃ e ∈ tr, Wrote env L k kd e := by
  have mono : ∀ {t1 t2 : List Ev} {A : Prop}, (A ∨ ∃ e ∈ t1, Wrote env L k kd e) → A ∨ ∃ e ∈ t1 ++ t2, Wrote env L k kd e := by
    rintro t1 t2 A (h | ⟨e, he, h⟩)
    · exact .inl h
    · exact .inr ⟨e, List.mem_append_left _ he, h⟩
  induction h with
  | nil => exact .inl hm
  | rl ctx i h hp hs hr ih => exact mono (ih (marked_quiet (L := L) (RL.quiet_tp hd hp (RL.run_ops hr)) hm))
  | tp ctx i h hp hs hr ih =>
    rcases marked_run hd hp hr hm with h | ⟨b', s, hn, hh⟩
    · exact mono (ih h)
    · exact .inr ⟨_, List.mem_append_right _ (List.mem_singleton.2 rfl), ctx, i, b', s, rfl, hp, hs, hr, hn, hh⟩
  | payload ctx i p h hin hp hs hpl hno hr ih ih' =>
    rcases marked_stale (payload_ok hno hr) hm with h | ⟨⟨n, pn, h⟩, -⟩
    · rcases ih' h with h | ⟨e, he, h⟩
      · exact mono (mono (ih h))
      · exact .inr ⟨e, List.mem_append_left _ (List.mem_append_right _ he), h⟩
    · exact (hk _ _ h).elim
  | ext h hx ih => exact mono (ih (marked_quiet hx.quiet_tp hm))
  | purge h hp ih =>
    rw [Marked, hp.2 k] at hm
    split at hm
    · exact (hd.tpSys hm.1.symm).elim
    · exact mono (ih hm)

theorem genesis_unmarked {kd : AccountKind} (h : Genesis env L w) : ¬ Marked env (w.acc k) kd :=
  fun hm => (h.owner k).2 hm.1

theorem SettingsAt.marked {s : Settings} (h : SettingsAt env w k s) : Marked env (w.acc k) s.accountKind := by
  have := head_settings h.2.1
  rw [h.2.2.1] at this
  exact ⟨h.1, this⟩
theorem TokenAt.marked {s : TokenSettings} (h : TokenAt env w k s) : Marked env (w.acc k) s.accountKind := by
  have := head_token h.2.1
  rw [h.2.2.1] at this
  exact ⟨h.1, this⟩

/-- New settings are written by `Initialize` with the signature of the upgrade authority. -/
theorem wrote_settings {e : Ev} {n pn : U8} (h : Wrote env L k (.settings n pn) e) :
    ∃ ctx g m wm, e.act = .tp ctx (.init g m wm) ∧ ctx.program = env.tpId ∧ run env ctx noCpi (.init g m wm) e.pre = .ok e.post ∧
      UpgradeAuthoritySigns env ctx e.pre ∧ IsAddr env env.tpId settingsSeeds k := by
  obtain ⟨ctx, i, b', s, hact, hp, -, hr, hn, hh⟩ := h
  cases hn with
  | settings g m wm n pn ha hu hs => exact ⟨ctx, g, m, wm, hact, hp, hr, hu, n, by rw [← hp]; exact ha⟩
  | multiVault g m wm n ha hs =>
    obtain ⟨q, hq⟩ := header_multiVault hs.dec
    rw [hh] at hq; simp at hq
  | tokenSol sd nm y a rc v e p mint vault n vn hn hy ha hv hs =>
    obtain ⟨q, hq⟩ := header_token hs.dec
    rw [hh] at hq; simp [freshTokenSettings] at hq
  | tokenEver kw r mint n mn hr ha hm hs =>
    obtain ⟨q, hq⟩ := header_token hs.dec
    rw [hh] at hq; simp [freshTokenSettings] at hq
  | depositEver sd a rc v e p n au ev ha hsig hs =>
    obtain ⟨q, hq⟩ := header_deposit hs.dec
    rw [hh] at hq; simp [depositRecord] at hq
  | depositSol sd i n au ev hi ha hsig hs =>
    obtain ⟨q, hq⟩ := header_deposit hs.dec
    rw [hh] at hq; simp [depositRecord] at hq
  | ever pda t nm y d rc a p att n pn au rs rr hrd ha hsig hs =>
    obtain ⟨q, hq⟩ := header_withdrawal hs.dec
    rw [hh] at hq; simp [withdrawalRecord] at hq
  | sol pda rc a p att n pn au mint rs rr hrd ha hsig hs =>
    obtain ⟨q, hq⟩ := header_withdrawal hs.dec
    rw [hh] at hq; simp [withdrawalRecord] at hq

/-- New settings of a token are written by its first deposit or by its first withdrawal. -/
theorem wrote_token {e : Ev} {n vn : U8} (h : Wrote env L k (.tokenSettings n vn) e) :
    ∃ ctx, ctx.program = env.tpId ∧
      ((∃ sd nm y a rc v ev p, e.act = .tp ctx (.depositMultiTokenSol sd nm y a rc v ev p) ∧
        run env ctx noCpi (.depositMultiTokenSol sd nm y a rc v ev p) e.pre = .ok e.post ∧
        nm.length ≤ maxNameLen ∧ y.length ≤ maxNameLen ∧ ∃ mint, IsAddr env env.tpId (tokenSettingsSolSeeds mint) k) ∨
       (e.act = .tp ctx .withdrawMultiTokenEver ∧ run env ctx noCpi .withdrawMultiTokenEver e.pre = .ok e.post ∧
        ∃ kw r, loadWithdrawal wEverEventC env ctx kw e.pre = .ok r ∧ IsAddr env env.tpId (tokenSettingsEverSeeds env r.event.token) k)) := by
  obtain ⟨ctx, i, b', s, hact, hp, -, hr, hn, hh⟩ := h
  refine ⟨ctx, hp, ?_⟩
  cases hn with
  | settings g m wm n pn ha hu hs =>
    obtain ⟨q, hq⟩ := header_settings hs.dec
    rw [hh] at hq; simp at hq
  | multiVault g m wm n ha hs =>
    obtain ⟨q, hq⟩ := header_multiVault hs.dec
    rw [hh] at hq; simp at hq
  | tokenSol sd nm y a rc v e p mint vault n vn hn hy ha hv hs =>
    exact .inl ⟨_, _, _, _, _, _, _, _, hact, hr, hn, hy, mint, _, by rw [← hp]; exact ha⟩
  | tokenEver kw r mint n mn hr' ha hm hs =>
    exact .inr ⟨hact, hr, kw, r, hr', _, by rw [← hp]; exact ha⟩
  | depositEver sd a rc v e p n au ev ha hsig hs =>
    obtain ⟨q, hq⟩ := header_deposit hs.dec
    rw [hh] at hq; simp [depositRecord] at hq
  | depositSol sd i n au ev hi ha hsig hs =>
    obtain ⟨q, hq⟩ := header_deposit hs.dec
    rw [hh] at hq; simp [depositRecord] at hq
  | ever pda t nm y d rc a p att n pn au rs rr hrd ha hsig hs =>
    obtain ⟨q, hq⟩ := header_withdrawal hs.dec
    rw [hh] at hq; simp [withdrawalRecord] at hq
  | sol pda rc a p att n pn au mint rs rr hrd ha hsig hs =>
    obtain ⟨q, hq⟩ := header_withdrawal hs.dec
    rw [hh] at hq; simp [withdrawalRecord] at hq

/-! ## Looking backwards from one step of a history -/

/-- One step of a history as the token proxy sees it. -/
inductive EvStep (env : Env) (L : Pubkey → Prop) (e : Ev) : Prop
  | quiet (hact : ∀ ctx i, e.act ≠ .tp ctx i) (h : QuietFor env.tpId L e.pre e.post)
  | tp (ctx : Ctx) (i : Instr) (hact : e.act = .tp ctx i) (hp : ctx.program = env.tpId) (hs : ∀ k ∈ ctx.signers, ¬ L k)
      (hr : run env ctx noCpi i e.pre = .ok e.post)
  | stale (ctx : Ctx) (i : Instr) (p : Pubkey) (w1 : World) (hact : e.act = .tp ctx i) (hp : ctx.program = env.tpId)
      (hs : ∀ k ∈ ctx.signers, ¬ L k) (hst : Stale env ctx p w1 e.pre e.post i)
  | purge (hact : ∀ ctx i, e.act ≠ .tp ctx i) (h : Purge env e.pre e.post)

theorem _root_.Verif.Run.evs {top : Bool} {tr : List Ev} (hd : env.Distinct) (h : Run env L top w tr w') :
    ∀ e ∈ tr, EvStep env L e := by
  have add : ∀ {t : List Ev} {x : Ev}, (∀ e ∈ t, EvStep env L e) → EvStep env L x → ∀ e ∈ t ++ [x], EvStep env L e := by
    intro t x h1 h2 e he
    rcases List.mem_append.1 he with he | he
    · exact h1 e he
    · rw [List.mem_singleton.1 he]; exact h2
  induction h with
  | nil => intro e he; cases he
  | rl ctx i h hp hs hr ih => exact add ih (.quiet (fun _ _ => nofun) (RL.quiet_tp hd hp (RL.run_ops hr)))
  | tp ctx i h hp hs hr ih => exact add ih (.tp ctx i rfl hp hs hr)
  | payload ctx i p h hin hp hs hpl hno hr ih ih' =>
    refine add (fun e he => ?_) (.stale ctx i p _ rfl hp hs (payload_ok hno hr))
    rcases List.mem_append.1 he with he | he
    · exact ih e he
    · exact ih' e he
  | ext h hx ih => exact add ih (.quiet (fun _ _ => nofun) hx.quiet_tp)
  | purge h hp ih => exact add ih (.purge (fun _ _ => nofun) hp)

/-- The record written by `Initialize`. -/
def InitWrites (env : Env) (ctx : Ctx) (w0 : World) (k : Pubkey) (i : Instr) (s : Settings) : Prop :=
  ∃ g m wm n pn, i = .init g m wm ∧ findAddr env settingsSeeds ctx.program = .ok (k, n) ∧ UpgradeAuthoritySigns env ctx w0 ∧
    s = ⟨true, .settings n pn, false, g, m, wm⟩

def NotInit (i : Instr) : Prop := ∀ g m wm, i ≠ .init g m wm

theorem settings_back_op {op : Op} {s : Settings} (hd : env.Distinct) (hp : ctx.program = env.tpId) (hW : Why env ctx w0 i op)
    (he : Exec env ctx op w w') (h : SettingsAt env w' k s) :
    SettingsAt env w k s ∨ (NotInit i ∧ ∃ s0, SettingsAt env w k s0) ∨ InitWrites env ctx w0 k i s := by
  obtain ⟨ho, ⟨b, r, hb, hlen, hdec⟩, hi, n, pn, hk⟩ := h
  have keep : (w'.acc k).owner = (w.acc k).owner → (w'.acc k).data = (w.acc k).data → SettingsAt env w k s :=
    fun h1 h2 => ⟨h1.symm.trans ho, ⟨b, r, h2.symm.trans hb, hlen, hdec⟩, hi, n, pn, hk⟩
  have spl : ∀ {a : Account}, (w'.acc k).owner = a.owner → a.owner = env.splId → False :=
    fun h1 h2 => hd.tpSpl (ho.symm.trans (h1.trans h2))
  have hhead : ∃ q, headerC.dec b = some ((true, .settings n pn), q) := by
    obtain ⟨q, hq⟩ := header_settings hdec
    rw [hi, hk] at hq
    exact ⟨q, hq⟩
  obtain ⟨q, hq⟩ := hhead
  cases exec_ch he k with
  | same h => exact .inl (keep (by rw [h]) (by rw [h]))
  | gain _ hl hd' ho' => exact .inl (keep ho' hd')
  | pay _ _ h _ hd' ho' => exact .inl (keep ho' hd')
  | move x n hop _ how hl hd' ho' => exact .inl (keep ho' hd')
  | write b1 b' hop hw how hb1 hlen1 h =>
    subst hop
    rw [h] at hb
    cases hb
    cases hW with
    | new k b' hn =>
      cases hn with
      | settings g m wm n pn ha hu hs =>
        have := hs.dec
        rw [hdec] at this
        cases this
        exact .inr (.inr ⟨g, m, wm, n, pn, rfl, ha, hu, rfl⟩)
      | multiVault g m wm n ha hs =>
        obtain ⟨q', hq'⟩ := header_multiVault hs.dec
        rw [hq] at hq'; simp at hq'
      | tokenSol sd nm y a rc v e p mint vault n vn hn hy ha hv hs =>
        obtain ⟨q', hq'⟩ := header_token hs.dec
        rw [hq] at hq'; simp [freshTokenSettings] at hq'
      | tokenEver kw r mint n mn hr ha hm hs =>
        obtain ⟨q', hq'⟩ := header_token hs.dec
        rw [hq] at hq'; simp [freshTokenSettings] at hq'
      | depositEver sd a rc v e p n au ev ha hsig hs =>
        obtain ⟨q', hq'⟩ := header_deposit hs.dec
        rw [hq] at hq'; simp [depositRecord] at hq'
      | depositSol sd i n au ev hi ha hsig hs =>
        obtain ⟨q', hq'⟩ := header_deposit hs.dec
        rw [hq] at hq'; simp [depositRecord] at hq'
      | ever pda t nm y d rc a p att n pn au rs rr hrd ha hsig hs =>
        obtain ⟨q', hq'⟩ := header_withdrawal hs.dec
        rw [hq] at hq'; simp [withdrawalRecord] at hq'
      | sol pda rc a p att n pn au mint rs rr hrd ha hsig hs =>
        obtain ⟨q', hq'⟩ := header_withdrawal hs.dec
        rw [hq] at hq'; simp [withdrawalRecord] at hq'
    | settings k b b' r n' pn' s2 s3 hl2 hd2 hini hk2 ha hc h0 hs =>
      refine .inr (.inl ⟨?_, s2, how.trans hp, ⟨_, _, hb1, hl2, hd2⟩, hini, _, _, hk2⟩)
      cases hc <;> (intro g m wm e; cases e)
    | token k b b' r n' pn' s2 s3 hl2 hd2 hini hk2 ha hc h0 hs =>
      obtain ⟨q', hq'⟩ := header_token hs.dec
      rw [hc.kinds.2.1, hk2, hq] at hq'; simp at hq'
    | ever k b b' r x x' hl hd2 hini ha hk2 h0 hc hs =>
      obtain ⟨q', hq'⟩ := header_withdrawal hs.dec
      obtain ⟨n', pn', hk2⟩ := hk2
      rw [hc.kind.2, hk2, hq] at hq'; simp at hq'
    | sol k b b' r x x' hl hd2 hini ha hk2 h0 hc hs =>
      obtain ⟨q', hq'⟩ := header_withdrawal hs.dec
      obtain ⟨n', pn', hk2⟩ := hk2
      rw [hc.kind.2, hk2, hq] at hq'; simp at hq'
    | vote k kr v b b' r p j x rr n' pn' hi h0 hx hd2 hk2 ha hr hri hra hv hsig hold hs =>
      obtain ⟨q', hq'⟩ := header_genericProposal hs.dec
      simp only [hk2, hq] at hq'; simp at hq'
  | close hop hw how h => rw [h] at ho; exact (hd.tpSys ho.symm).elim
  | create f sd n sp o hop hw hsys hlen hl haddr h =>
    rw [h] at hb
    cases hb
    exact absurd (zeros_any hq) (by simp)
  | createFunded p sd f sp o n hop hw hsys hlen haddr hl hn h =>
    rw [h] at hb
    cases hb
    exact absurd (zeros_any hq) (by simp)
  | xferSrc sg dst auth n s s' hop hw how hb hn hsp hsg hd' ho' hl => exact (spl ho' how).elim
  | xferDst sg src auth n d hop hw how hb hn hd' ho' hl => exact (spl ho' how).elim
  | mintDst sg m au n d hop hw how hb hm hn h => exact (spl (a := w.acc k) (by rw [h]) how).elim
  | mintMint sg d au n m hop hw how hb ha hsg hn h => exact (spl (a := w.acc k) (by rw [h]) how).elim
  | burnSrc sg m au n s s' hop hw how hb hm hn hsp hsg h => exact (spl (a := w.acc k) (by rw [h]) how).elim
  | burnMint sg m au n s hop hw how hb hn h => exact (spl (a := w.acc k) (by rw [h]) how).elim
  | initAcc m o hop hw how hb h => exact (spl (a := w.acc k) (by rw [h]) how).elim
  | initMint m o hop hw how hb h => exact (spl (a := w.acc k) (by rw [h]) how).elim
  | sync t n hop hw how hb hn h => exact (spl (a := w.acc k) (by rw [h]) how).elim

theorem settings_back_run {s : Settings} (hd : env.Distinct) (hp : ctx.program = env.tpId) (h : run env ctx noCpi i w = .ok w')
    (hs : SettingsAt env w' k s) :
    SettingsAt env w k s ∨ (∃ s0, SettingsAt env w k s0 ∧ SettingsCh env ctx w s0 i s) ∨ InitWrites env ctx w k i s := by
  have := (run_ops h).lift (R := fun x y => ∀ s, SettingsAt env y k s → SettingsAt env x k s ∨
      (NotInit i ∧ ∃ s0, SettingsAt env x k s0) ∨ InitWrites env ctx w k i s)
    (fun _ _ h => .inl h)
    (fun _ _ _ f g s h => by
      rcases g s h with h | ⟨hn, s0, h⟩ | h
      · exact f s h
      · rcases f s0 h with h | h | ⟨g, m, wm, n, pn, hi, -⟩
        · exact .inr (.inl ⟨hn, s0, h⟩)
        · exact .inr (.inl h)
        · exact (hn _ _ _ hi).elim
      · exact .inr (.inr h))
    (fun _ _ _ hW he s h => settings_back_op hd hp hW he h) s hs
  rcases this with h1 | ⟨-, s0, h1⟩ | h1
  · exact .inl h1
  · obtain ⟨s', hs', hor, -⟩ := settings_run hd hp h h1
    have e := hs'.unique hs
    subst e
    rcases hor with rfl | hor
    · exact .inl h1
    · exact .inr (.inl ⟨s0, h1, hor⟩)
  · exact .inr (.inr h1)

theorem quiet_back {P : Account → Prop} (hP : ∀ a a' : Account, P a → a.owner = a'.owner → a.data = a'.data → P a')
    (h0 : ∀ a, P a → a.owner = env.tpId) (hz : ∀ (a : Account) n, P a → a.data ≠ .raw (zeros n)) (h : QuietFor env.tpId L w w')
    (hm : P (w'.acc k)) : P (w.acc k) := by
  by_cases e : (w.acc k).owner = env.tpId
  · obtain ⟨h1, h2, -⟩ := (h k).1 e
    exact hP _ _ hm (h1.trans e.symm) h2
  · obtain ⟨-, n, hz'⟩ := (h k).2 (h0 _ hm) e
    exact (hz _ _ hm hz').elim

/-- Settings after a step were there before with a permitted change, or `Initialize` wrote them. -/
theorem settings_back {e : Ev} {s : Settings} (hd : env.Distinct) (h : EvStep env L e) (hs : SettingsAt env e.post k s) :
    SettingsAt env e.pre k s ∨ (∃ ctx i, e.act = .tp ctx i ∧ ctx.program = env.tpId ∧ run env ctx noCpi i e.pre = .ok e.post ∧
      ((∃ s0, SettingsAt env e.pre k s0 ∧ SettingsCh env ctx e.pre s0 i s) ∨ InitWrites env ctx e.pre k i s)) := by
  cases h with
  | quiet _ h =>
    left
    refine quiet_back (P := fun a => a.owner = env.tpId ∧ Holds settingsC recLen a s ∧ s.isInitialized = true ∧
      ∃ n pn, s.accountKind = .settings n pn) ?_ (fun a h => h.1) ?_ h hs
    · rintro a a' ⟨h1, h2, h3⟩ e1 e2
      refine ⟨e1.symm.trans h1, ?_, h3⟩
      unfold Holds at h2 ⊢
      rw [← e2]; exact h2
    · rintro a n ⟨h1, ⟨b, r, hb, hl, hdec⟩, hi, _⟩ hz
      obtain ⟨q, hq⟩ := header_settings hdec
      rw [hb] at hz
      cases hz
      have := zeros_any hq
      rw [hi] at this
      cases this
  | tp ctx i hact hp hs' hr =>
    rcases settings_back_run hd hp hr hs with h | h
    · exact .inl h
    · exact .inr ⟨ctx, i, hact, hp, hr, h⟩
  | stale ctx i p w1 hact hp hs' hst =>
    left
    have key : e.post.acc k = e.pre.acc k := by
      have key : ∀ {E : Type} {ec : Codec E} {r : Withdrawal E} {k' : Pubkey} {n pn},
          r.accountKind = .proposal n pn →
          putWithdrawal ctx ec (r.withStatus .processed) k' e.pre = .ok e.post → e.post.acc k = e.pre.acc k := by
        intro E ec r k' n pn hkd hput
        obtain ⟨b, b', hb, hl, hst, hor, h⟩ := pack_ok.1 hput
        rw [h] at hs ⊢
        by_cases e' : k = k'
        · subst e'
          obtain ⟨ho, hh, hi, n', pn', hk⟩ := hs
          obtain ⟨b1, s1, hb1, -, hdec⟩ := hh
          simp only [setDataRaw_acc, if_true, Data.raw.injEq] at hb1
          subst hb1
          obtain ⟨q, hq⟩ := header_withdrawal hst.dec
          obtain ⟨q', hq'⟩ := header_settings hdec
          rw [hq, hk] at hq'
          simp [Withdrawal.withStatus, hkd] at hq'
        · simp only [setDataRaw_acc, e', if_false]
      cases hst with
      | ever k' m r n pn l hk' hr hi hst hm hkind hl hp h => exact key hkind h
      | sol k' r n pn l hk' hr hi hst hkind hl hp h => exact key hkind h
    unfold SettingsAt at hs ⊢
    rw [key] at hs
    exact hs
  | purge _ h =>
    left
    unfold SettingsAt at hs ⊢
    rw [h.2 k] at hs
    split at hs
    · exact (hd.tpSys hs.1.symm).elim
    · exact hs

end Verif.TP
