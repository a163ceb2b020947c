import Verif.Lemmas.Logs
import Verif.Lemmas.WHist
import Verif.Lemmas.DailyAll
import Verif.Lemmas.NPFx
/-!
# Changes of the status of a withdrawal and the log
-/
set_option linter.unusedSimpArgs false
namespace Verif.TP
open Codec
variable {env : Env} {ctx : Ctx} {w w' : World} {cpi : Pubkey → World → Except Err World}

/-- A record of token settings is not a record of a withdrawal. -/
def IsTok (w : World) (k : Pubkey) : Prop :=
  ∃ t n m, Holds tokenSettingsC recLen (w.acc k) t ∧ t.accountKind = .tokenSettings n m

theorem IsTok.ne {k j : Pubkey} {p : GenericProposal} {md : WMeta} (h : IsTok w k) (hw : WithdrawalAt env w j p md) : j ≠ k := by
  rintro rfl
  obtain ⟨t, n, m, hh, hk⟩ := h
  obtain ⟨-, ⟨b, r, hb, hl, hd⟩, -, ⟨n', m', hk'⟩, -⟩ := hw
  obtain ⟨s, hs⟩ := header_genericProposal hd
  have := ((head_token hh).unique ⟨b, s, hb, hs⟩).2
  rw [hk, hk'] at this
  cases this

/-- The status in the log is the status of the record. -/
theorem HasStatus.eq {k : Pubkey} {p : GenericProposal} {md : WMeta} {s : WStatus} (h : HasStatus w k s) (hw : WithdrawalAt env w k p md)
    (ho : OneReading p.event) : md.status = s := by
  obtain ⟨-, ⟨b, r, hb, hl, hd⟩, -, -, hm⟩ := hw
  rcases h with ⟨x, ⟨b', r', hb', hl', hx⟩, rfl⟩ | ⟨x, ⟨b', r', hb', hl', hx⟩, rfl⟩
  · rw [hb] at hb'; cases hb'
    rw [(views_agree hx hd hm (ho.sol hl hx hd)).2.1]
  · rw [hb] at hb'; cases hb'
    rw [(views_agree hx hd hm (ho.ever hl hx hd)).2.1]

/-- Withdrawals that are changed are named in the log. -/
def Named (env : Env) (w w' : World) (l : List Record) : Prop :=
  ∀ j p md, WithdrawalAt env w j p md → (w'.acc j).data ≠ (w.acc j).data → ∃ s, .status ⟨j, s⟩ ∈ l

theorem withdrawSol_tok (h : run env ctx cpi .withdrawMultiTokenSol w = .ok w') : ∃ kt, ctx.accounts[3]? = some kt ∧ IsTok w kt := by
  simp only [run, processWithdrawSol, bind_ok, acct_ok, sysvar_ok, require_ok, exists_const, ex_unit, validatePda_ok] at h
  obtain ⟨k, h0, kv, h1, rc, h2, kt, h3, m, -, _, -, _, -, _, -, -, _, -, r, hr, t, ht, -⟩ := h
  obtain ⟨a, b, c, n, m, d⟩ := loadSol_ok.1 ht
  exact ⟨kt, h3, t.ts, _, _, a, m⟩

theorem withdrawSol_named (h : run env ctx cpi .withdrawMultiTokenSol w = .ok w') :
    ∃ l, Logged l w w' ∧ Announces ctx w .withdrawMultiTokenSol l ∧ (∀ x ∈ l, x.Claims env w') ∧ Named env w w' l := by
  obtain ⟨l, hl, ha, hc⟩ := withdrawSol_says h
  refine ⟨l, hl, ha, hc nofun, fun j p md hw hne => ?_⟩
  obtain ⟨kt0, h3', htok⟩ := withdrawSol_tok h
  obtain ⟨kw, kv, rc, kt, km, r, t, v, h0, -, -, h3, -, hwo, -, -, -, -, -, hor⟩ := withdrawSol_fx h
  rw [h3'] at h3; cases h3
  rcases hor with ⟨hs, -⟩ | ⟨hcf, fee, net, st, t', -, -, hrec, -⟩
  · exact (hne (by rw [hs j])).elim
  · obtain ⟨b, hb, -⟩ := hw.raw
    have hk : j = kw := by
      apply Classical.byContradiction
      intro hk
      exact hne (by rw [hrec.rest j hk (htok.ne hw) b hb])
    subst hk
    cases ha with
    | silent h => cases h
    | sol h0' hr hq => rw [h0] at h0'; cases h0'; exact ⟨_, List.mem_singleton.2 rfl⟩
    | unconfirmedSol h0' hr hq => rw [h0] at h0'; cases h0'; rw [hr.unique hwo.2.1] at hq; exact (hq hcf).elim

theorem payEver_tok {k m rc kt : Pubkey} {r : Withdrawal WEverEvent} (h : payEver env ctx k m rc kt r w = .ok w') : IsTok w kt := by
  simp only [payEver, bind_ok, require_ok, exists_const, ex_unit, validatePda_ok, mintOf_ok] at h
  obtain ⟨t, ht, -⟩ := h
  obtain ⟨a, b, c, n, -, m, d⟩ := loadEver_ok.1 ht
  exact ⟨t.ts, _, _, a, m⟩

theorem withdrawEver_tok (h : run env ctx cpi .withdrawMultiTokenEver w = .ok w') :
    ∃ kt, ctx.accounts[3]? = some kt ∧ ((w.acc kt).lamports = 0 ∨ IsTok w kt) := by
  simp only [run, processWithdrawEver, bind_ok, acct_ok, sysvar_ok, require_ok, exists_const, ex_unit, Prod.exists] at h
  obtain ⟨k, h0, m, h1, rc, -, kt, h3, _, -, _, -, _, -, _, -, -, _, -, -, _, _, -, r, hr, h⟩ := h
  split at h
  · rename_i hk; exact ⟨kt, h3, .inl hk⟩
  · exact ⟨kt, h3, .inr (payEver_tok h)⟩

theorem idle_same {kt : Pubkey} (h : run env ctx cpi .withdrawMultiTokenEver w = .ok w') (h3' : ctx.accounts[3]? = some kt)
    (hk : (w.acc kt).lamports = 0) (h9 : ctx.accounts[9]? = none) : w' = w := by
  simp only [run, processWithdrawEver, bind_ok, acct_ok, sysvar_ok, require_ok, exists_const, ex_unit, Prod.exists] at h
  obtain ⟨k, h0, m, h1, rc, -, kt, h3, _, -, _, -, _, -, _, -, -, _, -, -, _, _, -, r, hr, h⟩ := h
  rw [h3'] at h3; cases h3
  rw [if_pos hk, h9] at h
  cases h; rfl

theorem withdrawEver_named (h : run env ctx cpi .withdrawMultiTokenEver w = .ok w') :
    ∃ l, Logged l w w' ∧ Announces ctx w .withdrawMultiTokenEver l ∧ (∀ x ∈ l, x.Claims env w') ∧ Named env w w' l := by
  obtain ⟨l, hl, ha, hc⟩ := withdrawEver_says h
  refine ⟨l, hl, ha, hc nofun, fun j p md hw hne => ?_⟩
  obtain ⟨kt0, h3', htok⟩ := withdrawEver_tok h
  obtain ⟨kw, mint, rc, kt, r, h0, -, -, h3, hwo, hor⟩ := withdrawEver_fx h
  rw [h3'] at h3; cases h3
  obtain ⟨b, hb, hlen⟩ := hw.raw
  rcases hor with ⟨rfl, -⟩ | ⟨w1, hw1, -, -, t, m, -, hor⟩
  · exact (hne rfl).elim
  have same : w1.acc j = w.acc j := by
    rcases hw1 with ⟨rfl, -⟩ | ⟨-, hd⟩
    · rfl
    · exact hd.full j hlen
  have hjt : j ≠ kt0 := by
    rcases hw1 with ⟨-, hk⟩ | ⟨-, hd⟩
    · exact (htok.resolve_left hk).ne hw
    · rintro rfl; exact hlen hd.absent.2.1
  rcases hor with ⟨rfl, -⟩ | ⟨hcf, hnew, am, fee, net, st, t', -, -, -, hrec, -⟩
  · exact (hne (by rw [same])).elim
  · have hk : j = kw := by
      apply Classical.byContradiction
      intro hk
      exact hne (by rw [hrec.rest j hk hjt b (by rw [same]; exact hb), same])
    subst hk
    cases ha with
    | silent h => cases h
    | idle h3 hk h9 => exact (hne (by rw [idle_same h h3 hk h9])).elim
    | ever h0' h3 hr hl hq => rw [h0] at h0'; cases h0'; exact ⟨_, List.mem_append_right _ (List.mem_singleton.2 rfl)⟩
    | unconfirmedEver h0' h3 hr hl hq => rw [h0] at h0'; cases h0'; rw [hr.unique hwo.2.1] at hq; exact (hq ⟨hcf, hnew⟩).elim

theorem approveEver_tok (h : run env ctx cpi .approveWithdrawEver w = .ok w') : ∃ kt, ctx.accounts[4]? = some kt ∧ IsTok w kt := by
  simp only [run, processApproveEver, bind_ok, acct_ok, sysvar_ok, require_ok, exists_const, ex_unit, validatePda_ok, orErr_ok,
    checkedSub_some, Prod.exists, mintOf_ok] at h
  obtain ⟨au, -, mi, hmi, kw, hkw, rc, hrc, kt, hkt, ks, -, -, -, clock, -, -, hsig, s, pn, -, r, hr, hst, t, ht, -⟩ := h
  obtain ⟨a, b, c, n, -, m, d⟩ := loadEver_ok.1 ht
  exact ⟨kt, hkt, t.ts, _, _, a, m⟩

theorem approveEver_named (h : run env ctx cpi .approveWithdrawEver w = .ok w') :
    ∃ l, Logged l w w' ∧ Announces ctx w .approveWithdrawEver l ∧ (∀ x ∈ l, x.Claims env w') ∧ Named env w w' l := by
  obtain ⟨l, hl, ha, hc⟩ := approveEver_says h
  refine ⟨l, hl, ha, hc nofun, fun j p md hw hne => ?_⟩
  obtain ⟨kt0, h4', htok⟩ := approveEver_tok h
  obtain ⟨-, kw, mint, rc, kt, r, t, m, h2, -, -, h4, -, -, -, -, am, fee, net, t', -, -, -, hrec, -⟩ := approveEver_fx h
  rw [h4'] at h4; cases h4
  obtain ⟨b, hb, -⟩ := hw.raw
  have hk : j = kw := by
    apply Classical.byContradiction
    intro hk
    exact hne (by rw [hrec.rest j hk (htok.ne hw) b hb])
  subst hk
  cases ha with
  | silent h => cases h
  | approveEver h2' => rw [h2] at h2'; cases h2'; exact ⟨_, List.mem_singleton.2 rfl⟩

theorem cancel_named {sd : U128} {rc : EverAddress} {v : U64} {ev : Pubkey} {py : Bytes}
    (h : run env ctx cpi (.cancelWithdrawSol sd rc v ev py) w = .ok w') :
    ∃ l, Logged l w w' ∧ Announces ctx w (.cancelWithdrawSol sd rc v ev py) l ∧ Named env w w' l ∧
      ∀ k s, .status ⟨k, s⟩ ∈ l → HasStatus w' k s := by
  obtain ⟨l, hl, ha, -⟩ := cancel_says h
  obtain ⟨f, au, mi, kw, dp, kt, mv, r, t, tv, m, fee, tr, -, -, -, h3, -, -, -, -, -, -, -, -, -, -, -, -, -, -, -, -, -, -, -, hst, -, -, -, -, hfr, -⟩ := cancel_fx h
  refine ⟨l, hl, ha, fun j p md hw hne => ?_, fun k s hk => ?_⟩
  · obtain ⟨b, hb, hlen⟩ := hw.raw
    have hk : j = kw := by
      apply Classical.byContradiction
      intro hk
      refine hne ((hfr j b hk hb ?_).1.trans hb.symm)
      rintro rfl
      rw [hb] at hlen; exact hlen rfl
    subst hk
    cases ha with
    | silent h => cases h
    | cancel h3' hx => rw [h3] at h3'; cases h3'; exact ⟨_, List.mem_cons_of_mem _ (List.mem_singleton.2 rfl)⟩
  · cases ha with
    | silent h => cases h
    | cancel h3' hx =>
      rw [h3] at h3'; cases h3'
      rcases List.mem_cons.1 hk with hk | hk
      · cases hk
      · cases List.mem_singleton.1 hk
        exact .inl ⟨_, hst, rfl⟩

theorem fill_named {sd : U128} {rc : EverAddress} {a v : U64} {ev : Pubkey} {py : Bytes}
    (h : run env ctx cpi (.fillWithdrawSol sd rc a v ev py) w = .ok w') :
    ∃ l, Logged l w w' ∧ Announces ctx w (.fillWithdrawSol sd rc a v ev py) l ∧ (∀ x ∈ l, x.Claims env w') ∧ Named env w w' l := by
  obtain ⟨l, hl, ha, hc⟩ := fill_says h
  obtain ⟨_, _, _, _, dp0, _, _, t0, tm, _, m0, kv0, fs, _, _, net0, -, -, -, -, -, -, -, hfs, -, -, -, -, -, -, -, -, -, -, -, -, -, -, -, -, -, -, hfr, -⟩ :=
    fill_fx h
  refine ⟨l, hl, ha, hc nofun, fun j p md hw hne => ?_⟩
  obtain ⟨b, hb, hlen⟩ := hw.raw
  have hk : j ∈ fs.map (·.kw) := by
    apply Classical.byContradiction
    intro hk
    refine hne ((hfr j b hk hb ?_).1.trans hb.symm)
    rintro rfl
    rw [hb] at hlen; exact hlen rfl
  cases ha with
  | silent h => cases h
  | @fill _ _ _ _ _ _ x ps kv h4 hps hx =>
    have hpf : ps = fs.map fun f => (f.kw, f.rt) := by
      apply pairs_eq (kv := kv) (kv' := kv0)
      rw [← hps, hfs, List.flatMap_map]
    obtain ⟨g, hg, rfl⟩ := List.mem_map.1 hk
    refine ⟨.processed, List.mem_append_left _ (List.mem_flatMap.2 ⟨(g.kw, g.rt), ?_, List.mem_cons_self⟩)⟩
    rw [hpf]
    exact List.mem_map.2 ⟨g, hg, rfl⟩

/-- A change of status is announced, except by an approval of a withdrawal of a Solana token and by the execution of a payload. -/
theorem run_status {i : Instr} {k : Pubkey} {p p' : GenericProposal} {md md' : WMeta} (hd : env.Distinct) (hp : ctx.program = env.tpId)
    (h : run env ctx noCpi i w = .ok w') (hi : ¬ executes i) (hi' : i ≠ .approveWithdrawSol) (h0 : WithdrawalAt env w k p md) (ho : OneReading p.event)
    (h1 : WithdrawalAt env w' k p' md') (hne : md'.status ≠ md.status) :
    ∃ l, Logged l w w' ∧ Announces ctx w i l ∧ .status ⟨k, md'.status⟩ ∈ l := by
  have hch : (w'.acc k).data ≠ (w.acc k).data := by
    intro e
    obtain ⟨-, ⟨b, r, hb, -, hdec⟩, -, -, hm⟩ := h0
    obtain ⟨-, ⟨b', r', hb', -, hdec'⟩, -, -, hm'⟩ := h1
    rw [e, hb] at hb'; cases hb'
    rw [hdec] at hdec'; cases hdec'
    rw [hm] at hm'; cases hm'
    exact hne rfl
  have fin : ∀ {l : List Record}, OneReading p'.event → Logged l w w' → Announces ctx w i l → Named env w w' l →
      (∀ k s, .status ⟨k, s⟩ ∈ l → HasStatus w' k s) → ∃ l, Logged l w w' ∧ Announces ctx w i l ∧ .status ⟨k, md'.status⟩ ∈ l := by
    intro l ho' hl ha hn hs
    obtain ⟨s, hm⟩ := hn k p md h0 hch
    rw [← (hs k s hm).eq h1 ho'] at hm
    exact ⟨l, hl, ha, hm⟩
  rcases w_run hd hp ho h h0 with ⟨p'', md'', h1', hor⟩ | ⟨⟨rfl, -⟩, hdead⟩
  · obtain ⟨rfl, rfl⟩ := h1'.unique h1
    rcases hor with ⟨-, rfl⟩ | hw
    · exact (hne rfl).elim
    · have ho' : OneReading p''.event := by rw [hw.rest.1]; exact ho
      cases hw with
      | ever x x' e1 e2 e3 e4 he hadr hc =>
        cases hc with
        | pay s hq hst hs => obtain ⟨l, a, b, c, d⟩ := withdrawEver_named h; exact fin ho' a b d fun k s hm => c _ hm
        | approve hst hu => obtain ⟨l, a, b, c, d⟩ := approveEver_named h; exact fin ho' a b d fun k s hm => c _ hm
        | exec hst => exact (hi (.inl rfl)).elim
      | sol x x' e1 e2 e3 e4 he hadr hc =>
        cases hc with
        | pay s hq hst hs => obtain ⟨l, a, b, c, d⟩ := withdrawSol_named h; exact fin ho' a b d fun k s hm => c _ hm
        | later s hq hst hs => obtain ⟨l, a, b, c, d⟩ := withdrawSol_named h; exact fin ho' a b d fun k s hm => c _ hm
        | approve s hst hu hs => exact (hi' rfl).elim
        | exec hst => exact (hi (.inr rfl)).elim
        | bounty b hst hu => subst e2 e4; exact (hne rfl).elim
        | cancel sd rc v e p hst hu => obtain ⟨l, a, b, c, d⟩ := cancel_named h; exact fin ho' a b c d
        | fill sd rc a v e p hst => obtain ⟨l, a, b, c, d⟩ := fill_named h; exact fin ho' a b d fun k s hm => c _ hm
      | vote kr v j x rr hvi hx ha hr hri hra hv hsig hold hp' hm' => subst hm'; exact (hne rfl).elim
  · exact (Dead.no hd hdead h1).elim

end Verif.TP

/-! ## Everything else -/
namespace Verif

theorem Ops.mute {env : Env} {ctx : Ctx} {W : Op → Prop} {w w' : World} (h : Ops env ctx W w w') (hW : ∀ b, ¬ W (.log b)) : w'.logs = w.logs := by
  refine h.lift (R := fun x y => y.logs = x.logs) (fun _ => rfl) (fun x y z h1 h2 => h2.trans h1) (fun op x y hw h => ?_)
  cases op with
  | log b => exact (hW b hw).elim
  | sys src dst n => obtain ⟨-, -, -, -, -, -, -, rfl⟩ := sysTransfer_ok.1 h; rfl
  | create funder k' seeds nonce space owner =>
    obtain ⟨-, -, -, -, -, -, -, -, -, -, -, rfl⟩ := createPda_ok h.1 h.2; rfl
  | createFunded prog seeds funder k' space owner =>
    obtain ⟨-, -, -, n, -, -, -, -, hlog, -⟩ := createPdaFunded_ok h.2
    exact hlog
  | write k' b b' => obtain ⟨-, -, -, -, rfl⟩ := h; rfl
  | move a b n => obtain ⟨-, -, -, -, hlog, -⟩ := moveLamports_ok h; exact hlog
  | close k' =>
    simp only [Exec, zeroAccount, bind_ok, require_ok, exists_const, Except.ok.injEq] at h
    obtain ⟨-, -, rfl⟩ := h; rfl
  | xfer sg src dst auth n => exact TP.xfer_mute h
  | mintTo sg mint dst auth n => exact TP.mintTo_mute h
  | burn sg src mint auth n =>
    obtain ⟨-, -, -, -, -, -, -, -, m, s, s', -, -, -, -, -, -, -, -, hlog, -⟩ := splBurn_ok h
    exact hlog
  | initAcc k' mint owner => obtain ⟨-, -, -, -, -, -, -, rfl⟩ := splInitAccount_ok h; rfl
  | initMint k' auth dec => obtain ⟨-, -, -, -, -, -, rfl⟩ := splInitMint_ok h; rfl
  | sync k' => obtain ⟨-, -, -, t, r, -, -, -, -, -, rfl⟩ := splSyncNative_ok h; rfl

namespace TP
variable {env : Env} {ctx : Ctx} {w w' : World} {cpi : Pubkey → World → Except Err World}

theorem payload_mute {i : Instr} (hi : executes i) (h : run env ctx cpi i w = .ok w') : ∃ w1, (w1 = w ∨ ∃ p, cpi p w = .ok w1) ∧ Mute w1 w' := by
  have hpay : ∀ {m r : Pubkey} {n : Option U8} {p : Bytes} {w1 : World}, runPayload env ctx cpi m r n p w = .ok w1 → w1 = w ∨ ∃ p, cpi p w = .ok w1 := by
    intro m r n p w1 h
    simp only [runPayload, bind_ok, orErr_ok] at h
    obtain ⟨k, -, h⟩ := h
    split at h
    · cases h; exact .inl rfl
    · simp only [bind_ok, orErr_ok] at h
      obtain ⟨q, -, h⟩ := h
      exact .inr ⟨q, h⟩
  rcases hi with rfl | rfl
  · simp only [run, processExecutePayloadEver, bind_ok, acct_ok] at h
    obtain ⟨k, -, r, -, h⟩ := h
    split at h
    · simp only [bind_ok, Prod.exists, orErr_ok] at h
      obtain ⟨_, _, -, _, _, -, w1, h1, h2⟩ := h
      exact ⟨w1, hpay h1, pack_mute h2⟩
    · cases h; exact ⟨w, .inl rfl, Mute.rfl⟩
  · simp only [run, processExecutePayloadSol, bind_ok, acct_ok] at h
    obtain ⟨k, -, r, -, h⟩ := h
    split at h
    · simp only [bind_ok, Prod.exists, orErr_ok] at h
      obtain ⟨_, _, -, w1, h1, h2⟩ := h
      exact ⟨w1, hpay h1, pack_mute h2⟩
    · cases h; exact ⟨w, .inl rfl, Mute.rfl⟩

/-- An account with a withdrawal holds no transfer to Everscale. -/
theorem HasDeposit.no {k : Pubkey} {x : DepositLog} {r : Withdrawal WSolEvent} {n : U8} {pn : Option U8}
    (h : Holds (withdrawalC wSolEventC) recLen (w.acc k) r) (hk : r.accountKind = .proposal n pn) : ¬ HasDeposit env w k x := by
  rintro (⟨m, au, len, ml, e, hd, -⟩ | ⟨m, au, len, ml, e, hd, -⟩)
  all_goals
    obtain ⟨b, q, hb, -, hdec⟩ := hd
    obtain ⟨s, hs⟩ := header_deposit hdec
    have := ((head_withdrawal h).unique ⟨b, s, hb, hs⟩).2
    rw [hk] at this
    cases this

end TP

theorem NP.wrap_mute {env : Env} {ctx : Ctx} {w w' : World} {a : U64} (h : NP.wrap env ctx a w = .ok w') : w'.logs = w.logs := by
  simp only [NP.wrap, bind_ok, acct_ok, require_ok, exists_const, TP.ex_unit, Prod.exists] at h
  obtain ⟨f, h0, cr, h1, ct, h2, -, -, -, -, mi, h5, hmi, k, n, hk, hct, w1, ha, w2, hs, hy⟩ := h
  obtain ⟨-, -, -, t, r, -, -, -, -, -, rfl⟩ := splSyncNative_ok hy
  have e2 : w2.logs = w1.logs := TP.sys_mute hs
  have e1 : w1.logs = w.logs := by
    unfold NP.ensureToken at ha
    split at ha
    · obtain ⟨k', n', w3, hk', b1, b2⟩ := TP.ataCreate_ok ha
      exact (TP.funded_mute b1).trans (TP.initAcc_mute b2)
    · cases ha; rfl
  exact e2.trans e1

end Verif
