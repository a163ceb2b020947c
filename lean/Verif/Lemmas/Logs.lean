import Verif.Spec.Logs
import Verif.Spec.Payload
import Verif.Lemmas.TPFill
import Verif.Lemmas.TPMisc
import Verif.Lemmas.WFx
import Verif.Lemmas.BillTP
/-!
# What the instructions of the token proxy log
-/
namespace Verif.TP
open Codec Verif

variable {env : Env} {ctx : Ctx} {w w1 w' : World} {cpi : Pubkey → World → Except Err World}

/-- Nothing is logged. -/
def Mute (w w' : World) : Prop := w'.logs = w.logs

theorem Mute.rfl : Mute w w := Eq.refl _
theorem Mute.trans (h : Mute w w1) (h' : Mute w1 w') : Mute w w' := Eq.trans h' h

theorem pack_mute {α : Type} {c : Codec α} {len : Nat} {a : α} {k : Pubkey} (h : pack ctx c len a k w = .ok w') : Mute w w' := pack_logs h
theorem sys_mute {sg : Pubkey → Bool} {a b : Pubkey} {n : Nat} (h : sysTransfer env ctx sg a b n w = .ok w') : Mute w w' := sys_logs h
theorem create_mute {f k : Pubkey} {seeds : List Bytes} {n : U8} {space : Nat} {o : Pubkey} (ha : findAddr env seeds ctx.program = .ok (k, n))
    (h : createPda env ctx f k seeds n space o w = .ok w') : Mute w w' := create_logs (findAddr_create ha) h
theorem funded_mute {f k : Pubkey} {space : Nat} {o : Pubkey}
    (h : createPdaFunded env ctx (fun a => ctx.isSigner a || a == k) f k space o w = .ok w') : Mute w w' := by
  obtain ⟨-, -, -, n, -, -, -, -, hlog, -⟩ := createPdaFunded_ok h
  exact hlog
theorem move_mute {a b : Pubkey} {n : Nat} (h : moveLamports ctx a b n w = .ok w') : Mute w w' := by
  obtain ⟨-, -, -, -, hlog, -⟩ := moveLamports_ok h
  exact hlog
theorem xfer_mute {sg : Pubkey → Bool} {a b c : Pubkey} {n : U64} (h : splTransfer env ctx sg a b c n w = .ok w') : Mute w w' := xfer_logs h
theorem mintTo_mute {sg : Pubkey → Bool} {a b c : Pubkey} {n : U64} (h : splMintTo env ctx sg a b c n w = .ok w') : Mute w w' := by
  obtain ⟨-, -, -, -, -, -, -, -, m, d, -, -, -, -, -, -, -, -, hlog, -⟩ := splMintTo_ok h
  exact hlog
theorem initAcc_mute {k mint o : Pubkey} (h : splInitAccount env ctx k mint o w = .ok w') : Mute w w' := by
  obtain ⟨-, -, -, -, -, -, -, rfl⟩ := splInitAccount_ok h; exact Mute.rfl
theorem initMint_mute {k o : Pubkey} {d : U8} (h : splInitMint env ctx k o d w = .ok w') : Mute w w' := by
  obtain ⟨-, -, -, -, -, -, rfl⟩ := splInitMint_ok h; exact Mute.rfl
theorem packRaw_mute {α : Type} {c : Codec α} {a : α} {k : Pubkey} (h : packRaw ctx c a k w = .ok w') : Mute w w' := by
  obtain ⟨b, b', hb, hst, -, rfl⟩ := packRaw_ok.1 h
  exact Mute.rfl
theorem delete_mute {k a : Pubkey} (h : deleteAccount env ctx k a w = .ok w') : Mute w w' := by
  obtain ⟨-, w1, h1, h2⟩ := deleteAccount_ok h
  simp only [zeroAccount, bind_ok, require_ok, exists_const, Except.ok.injEq] at h2
  obtain ⟨-, -, rfl⟩ := h2
  have := move_mute h1
  exact this
theorem makeEver_mute {m r : Pubkey} {t : TokenSettings} {n : U64} (h : makeEverTransfer env ctx m r t n w = .ok w') : Mute w w' := by
  obtain ⟨_, _, _, _, _, _, -, -, -, h⟩ := makeEverTransfer_ok h
  exact mintTo_mute h
theorem makeSol_mute {v r : Pubkey} {t : TokenSettings} {n : U64} (h : makeSolTransfer env ctx v r t n w = .ok w') : Mute w w' := by
  obtain ⟨_, _, _, _, _, -, -, -, h⟩ := makeSolTransfer_ok h
  exact xfer_mute h
theorem releaseDaily_mute {md : WMeta} {ts : TokenSettings} {n : U64} {k : Pubkey} (h : releaseDaily ctx md ts n k w = .ok w') : Mute w w' := by
  unfold releaseDaily at h
  split at h
  · simp only [bind_ok] at h
    obtain ⟨_, -, h⟩ := h
    exact pack_mute h
  · cases h; exact Mute.rfl

theorem openProxy_mute {payload : Bytes} {expected r f sys : Pubkey} {i : Nat} {att : U64} {pn : Option U8}
    (h : openProxy env ctx payload expected r f sys i att w = .ok (pn, w')) : Mute w w' := by
  rcases openProxy_ok h with ⟨-, -, rfl⟩ | ⟨-, p, n, w1, -, -, -, -, h2, h3⟩
  · exact Mute.rfl
  · refine Mute.trans ?_ (sys_mute h3)
    rcases h2 with ⟨-, w2, h4, h5⟩ | ⟨-, rfl⟩
    · exact (funded_mute h4).trans (initAcc_mute h5)
    · exact Mute.rfl

/-! ## Instructions that log nothing -/

theorem role_mute {f : Settings → Settings} (h : processChangeRole env ctx f w = .ok w') : Mute w w' := by
  simp only [processChangeRole, bind_ok, acct_ok, require_ok, exists_const, ex_unit, Prod.exists] at h
  obtain ⟨_, -, _, -, _, -, -, _, _, -, -, h⟩ := h
  exact pack_mute h

theorem limits_mute {f : TokenSettings → TokenSettings} (h : processChangeLimits env ctx f w = .ok w') : Mute w w' := by
  simp only [processChangeLimits, bind_ok, acct_ok, require_ok, exists_const, ex_unit, Prod.exists] at h
  obtain ⟨_, -, _, -, _, -, -, _, _, -, -, _, -, h⟩ := h
  exact pack_mute h

theorem payFromVault_mute {r : Withdrawal WSolEvent} {ts : TokenSettings} {pm vault rc : Pubkey} {n : U64} {s : WStatus}
    (h : payFromVault env ctx r ts pm vault rc n w = .ok (w', s)) : Mute w w' := by
  simp only [payFromVault, bind_ok, tokenOf_ok, exists_const, ex_unit] at h
  obtain ⟨-, v, -, h⟩ := h
  split at h
  · cases h; exact Mute.rfl
  · simp only [bind_ok, Except.ok.injEq, Prod.mk.injEq] at h
    obtain ⟨w1, h1, rfl, -⟩ := h
    exact makeSol_mute h1

theorem settleSol_mute {r : Withdrawal WSolEvent} {t : SolToken} {pm vault rc kt : Pubkey} {fee n : U64} {s : WStatus}
    (h : settleSol env ctx r t pm vault rc kt fee n w = .ok (w', s)) : Mute w w' := by
  unfold settleSol at h
  split at h
  · simp only [bind_ok, orErr_ok, Prod.exists, Except.ok.injEq, Prod.mk.injEq] at h
    obtain ⟨da, -, sup, -, w1, s1, h1, w2, h2, rfl, -⟩ := h
    refine Mute.trans ?_ (pack_mute h2)
    unfold payIfAllowed at h1
    split at h1
    · cases h1; exact Mute.rfl
    · exact payFromVault_mute h1
  · exact payFromVault_mute h
  · cases h; exact Mute.rfl

theorem silent_mute {i : Instr} (hi : i.silent = true) (h : run env ctx cpi i w = .ok w') : Mute w w' := by
  cases i with
  | voteForWithdrawRequest v =>
    simp only [run, processVote, bind_ok, acct_ok, require_ok, exists_const, orErr_ok, unpack_holds, ex_unit] at h
    obtain ⟨relay, h0, k, h1, kr, h2, -, -, p, hp, r, ⟨hr, -⟩, _, -, -, j, hj, old, hold, h⟩ := h
    split at h
    · simp only [bind_ok] at h
      obtain ⟨w1, hpk, hm⟩ := h
      exact (packRaw_mute hpk).trans (move_mute hm)
    · cases h; exact Mute.rfl
  | init g m wm =>
    simp only [run, processInitialize, bind_ok, acct_ok, sysvar_ok, require_ok, exists_const, ex_unit, Prod.exists, deriveAt_ok] at h
    obtain ⟨f, h0, _, -, s, h2, mv, h3, _, -, _, -, _, -, -, -, _, _, -, -, -, _, a1, w1, c1, w2, p1, _, a2, w3, c2, p2⟩ := h
    exact ((create_mute a1 c1).trans (pack_mute p1)).trans ((create_mute a2 c2).trans (pack_mute p2))
  | changeGuardian _ => simp only [run] at h; exact role_mute h
  | changeManager _ => simp only [run] at h; exact role_mute h
  | changeWithdrawalManager _ => simp only [run] at h; exact role_mute h
  | changeDepositLimit _ => simp only [run] at h; exact limits_mute h
  | changeWithdrawalLimits _ _ => simp only [run] at h; exact limits_mute h
  | enableEmergencyMode =>
    simp only [run, processEnableEmergency, bind_ok, acct_ok, require_ok, exists_const, ex_unit, Prod.exists] at h
    obtain ⟨_, -, _, -, -, _, _, -, -, h⟩ := h
    exact pack_mute h
  | disableEmergencyMode =>
    simp only [run, processDisableEmergency, bind_ok, acct_ok, require_ok, exists_const, ex_unit, Prod.exists] at h
    obtain ⟨_, -, _, -, _, -, -, _, _, -, -, h⟩ := h
    exact pack_mute h
  | enableTokenEmergencyMode =>
    simp only [run, processEnableTokenEmergency, bind_ok, acct_ok, require_ok, exists_const, ex_unit, Prod.exists] at h
    obtain ⟨_, -, _, -, _, -, -, _, _, -, -, _, -, h⟩ := h
    exact pack_mute h
  | disableTokenEmergencyMode =>
    simp only [run, processDisableTokenEmergency, bind_ok, acct_ok, require_ok, exists_const, ex_unit, Prod.exists] at h
    obtain ⟨_, -, _, -, _, -, _, -, -, _, _, -, -, _, -, h⟩ := h
    exact pack_mute h
  | approveWithdrawSol =>
    simp only [run, processApproveSol, bind_ok, acct_ok, sysvar_ok, require_ok, exists_const, ex_unit, validatePda_ok, orErr_ok, Prod.exists] at h
    obtain ⟨_, -, kv, h1, _, -, rc, h3, _, -, _, -, _, -, _, -, -, -, _, _, -, r, -, -, -, t, -, -, -, -, fee, -, tr, -, w1, s, b1, w2, b2, b3⟩ := h
    exact (payFromVault_mute b1).trans ((releaseDaily_mute b2).trans (pack_mute b3))
  | withdrawEverFee _ =>
    simp only [run, processWithdrawEverFee, bind_ok, acct_ok, require_ok, exists_const, ex_unit, Prod.exists, validatePda_ok, orErr_ok] at h
    obtain ⟨_, -, _, -, _, -, _, -, _, -, _, -, -, _, _, -, -, t, -, -, -, -, -, w1, h1, sup, -, h2⟩ := h
    exact (makeEver_mute h1).trans (pack_mute h2)
  | withdrawSolFee n =>
    simp only [run, processWithdrawSolFee, bind_ok, acct_ok, require_ok, exists_const, ex_unit, Prod.exists, validatePda_ok, orErr_ok] at h
    obtain ⟨_, -, kv, h1, _, -, rc, h3, _, -, _, -, -, _, _, -, -, t, -, -, -, -, -, v, -, -, w1, b1, sup, -, b2⟩ := h
    exact (makeSol_mute b1).trans (pack_mute b2)
  | changeBountyForWithdrawSol _ =>
    simp only [run, processChangeBounty, bind_ok, acct_ok, require_ok, exists_const] at h
    obtain ⟨_, -, _, -, -, _, -, -, -, h⟩ := h
    exact pack_mute h
  | withdrawProxy n =>
    simp only [run, processWithdrawProxy, bind_ok, acct_ok, require_ok, exists_const, deriveAt_ok] at h
    obtain ⟨_, -, to, h1, p, h2, _, -, -, _, -, sg, -, b⟩ := h
    exact xfer_mute b
  | closeDeposit =>
    simp only [run, processCloseDeposit, bind_ok, acct_ok, require_ok, exists_const, ex_unit, orErr_ok] at h
    obtain ⟨a, h0, d, h1, -, _, -, _, -, _, -, -, -, b⟩ := h
    exact delete_mute b
  | closeWithdrawal =>
    simp only [run, processCloseWithdrawal, bind_ok, acct_ok, require_ok, exists_const, orErr_ok] at h
    obtain ⟨k, h0, a, h1, _, -, -, _, -, -, b⟩ := h
    exact delete_mute b
  | withdrawMultiVault n =>
    simp only [run, processWithdrawMultiVault, bind_ok, acct_ok, require_ok, exists_const, ex_unit, Prod.exists] at h
    obtain ⟨_, -, to, h1, m, h2, _, -, -, _, _, -, -, -, b⟩ := h
    exact move_mute b
  | _ => cases hi

/-! ## Requests -/

/-- A request is logged if and only if its record is opened. -/
theorem request_logs {E : Type} {ec : Codec E} {f au k : Pubkey} {rs : RL.Settings} {rr : RL.RelayRound} {pda : PDA}
    {len : U32} {e : E} {pn : Option U8} {tok : Bytes} {rec : Pubkey} {amt : U128} {payload : Bytes} {expected r sys : Pubkey} {i : Nat} {att : U64}
    (hp : ctx.program = env.tpId) (hlen : len = BitVec.ofNat 32 (ec.enc e).length)
    (h1 : openProxy env ctx payload expected r f sys i att w = .ok (pn, w1))
    (h2 : openWithdrawal env ctx ec f au k rs rr pda len e pn tok rec amt w1 = .ok w') :
    (((w.acc k).lamports ≠ 0 ∨ ctx.accounts[i]? = some k) ∧ Logged [] w w') ∨
    ((w.acc k).lamports = 0 ∧ Logged [.request ⟨k, tok, rec, amt, pda.eventTimestamp, pda.eventTransactionLt, pda.eventConfiguration,
        key.enc (env.hash (ec.enc e)), 0#64⟩] w w' ∧
      ∃ p md, WithdrawalAt env w' k p md ∧ md.status = .new ∧ md.bounty.toNat = 0 ∧ p.pda = pda ∧ p.event = ec.enc e) := by
  have hm : w1.logs = w.logs := openProxy_mute h1
  obtain ⟨n, -, ⟨hk, rfl⟩ | ⟨hk, hz, -, hat, -, hlog⟩⟩ := open_fx hp hlen h2
  · refine .inl ⟨?_, by unfold Logged; rw [hm]; simp⟩
    rcases openProxy_bill h1 with ⟨-, rfl⟩ | ⟨-, p, ha, hs, -⟩
    · exact .inl hk
    · by_cases e1 : p = k
      · subst e1; exact .inr ha
      · have := hs k
        simp only [proxyBill, paidBy, paidTo, if_neg e1] at this
        left; omega
  · refine .inr ⟨?_, by unfold Logged; rw [hlog, hm]; rfl, _, _, hat, rfl, rfl, rfl, rfl⟩
    rcases openWithdrawal_bill h2 with ⟨h, -⟩ | ⟨-, hne, hl, -⟩
    · exact (h hk).elim
    · rcases openProxy_bill h1 with ⟨-, rfl⟩ | ⟨-, p, ha, hs, hd⟩
      · exact hk
      · have hpk : p ≠ k := by rintro rfl; exact hd hl
        have := hs k
        simp only [proxyBill, paidBy, paidTo, if_neg hpk, if_neg hne] at this
        omega

/-- What an instruction logs, and whether it is true. -/
abbrev Says (env : Env) (ctx : Ctx) (i : Instr) (w w' : World) : Prop :=
  ∃ l, Logged l w w' ∧ Announces ctx w i l ∧ ((∀ sd rc v e p, i ≠ .cancelWithdrawSol sd rc v e p) → ∀ x ∈ l, x.Claims env w')

theorem requestEver_says {pda : PDA} {t : EverAddress} {n y : Bytes} {d : U8} {r : Pubkey} {a : U128} {py : Bytes} {att : U64}
    (hp : ctx.program = env.tpId) (h : run env ctx cpi (.withdrawMultiTokenEverRequest pda t n y d r a py att) w = .ok w') :
    Says env ctx (.withdrawMultiTokenEverRequest pda t n y d r a py att) w w' := by
  simp only [run, processEverRequest, bind_ok, acct_ok, sysvar_ok, require_ok, exists_const, ex_unit, Prod.exists] at h
  obtain ⟨f, -, au, -, kw, hkw, ks, -, kr, -, sy, -, rent, -, -, clock, -, -, -, -, -, rs, rr, -, mk, mn, -, pn, w1, h1, h2⟩ := h
  rcases request_logs hp (Props.C45_lenField_wEver _) h1 h2 with ⟨hk, hl⟩ | ⟨hk, hl, p, md, hat, hst, hb, hpda, hev⟩
  · exact ⟨_, hl, .knownEver hkw hk, fun _ x hx => nomatch hx⟩
  · refine ⟨_, hl, .requestEver hkw hk ⟨rfl, rfl, rfl⟩, fun _ x hx => ?_⟩
    rw [List.mem_singleton.1 hx]
    exact ⟨p, md, hat, hst, hb, rfl, hpda, by rw [hev], .inr ⟨_, hev, rfl, rfl, rfl⟩⟩

theorem requestSol_says {pda : PDA} {r : Pubkey} {a : U128} {py : Bytes} {att : U64}
    (hp : ctx.program = env.tpId) (h : run env ctx cpi (.withdrawMultiTokenSolRequest pda r a py att) w = .ok w') :
    Says env ctx (.withdrawMultiTokenSolRequest pda r a py att) w w' := by
  simp only [run, processSolRequest, bind_ok, acct_ok, sysvar_ok, require_ok, exists_const, ex_unit, Prod.exists] at h
  obtain ⟨f, -, au, -, kw, hkw, kt, -, ks, -, kr, -, sy, -, rent, -, -, clock, -, -, -, t, -, rs, rr, -, pn, w1, h1, h2⟩ := h
  rcases request_logs hp (Props.C45_lenField_wSol _) h1 h2 with ⟨hk, hl⟩ | ⟨hk, hl, p, md, hat, hst, hb, hpda, hev⟩
  · exact ⟨_, hl, .knownSol hkw hk, fun _ x hx => nomatch hx⟩
  · refine ⟨_, hl, .requestSol hkw hk ⟨rfl, rfl⟩, fun _ x hx => ?_⟩
    rw [List.mem_singleton.1 hx]
    exact ⟨p, md, hat, hst, hb, rfl, hpda, by rw [hev], .inl ⟨_, hev, rfl, rfl, rfl⟩⟩

/-! ## Deposits -/

theorem depositEver_says {sd : U128} {a : U64} {r : EverAddress} {v : U64} {e : Pubkey} {p : Bytes}
    (h : run env ctx cpi (.depositMultiTokenEver sd a r v e p) w = .ok w') : Says env ctx (.depositMultiTokenEver sd a r v e p) w w' := by
  obtain ⟨f, cr, ct, dp, mi, mv, kt, t, mk, token, d, m, t', fee, net, tr, -, -, -, h3, -, -, -, -, -, -, -, -, -, -, -, -, -, -, -, -, hd, -, -, -, -, -, -,
    hlog, -⟩ := depositEver_fx h
  obtain ⟨n, len, ml, hr⟩ := hd.record
  refine ⟨[.deposit ⟨dp, r, tr, sd, v, e, key.enc (env.hash (depositEverEventC.enc ⟨token, tr, r, v, e, p⟩))⟩], hlog, .depositEver h3 ⟨rfl, rfl, rfl, rfl⟩, ?_⟩
  intro _ x hx
  rw [List.mem_singleton.1 hx]
  exact .inr ⟨n, cr, len, ml, _, hr, rfl, rfl, rfl, rfl, rfl⟩

theorem deploySol_logs {f kv mi kt : Pubkey} {n y : Bytes} (h : deploySol env ctx f kv mi kt n y w = .ok w') :
    Logged [.token ⟨kt, y, n, mi, some kv, none, none, none, FeeInfo.default⟩] w w' := by
  simp only [deploySol, bind_ok, deriveAt_ok] at h
  obtain ⟨vn, hvn, w1, b1, w2, b2, tn, htn, w3, b3, b4⟩ := h
  have e : w3.logs = w.logs := (create_mute hvn b1).trans ((initAcc_mute b2).trans (create_mute htn b3))
  have := pack_mute b4
  unfold Mute at this
  unfold Logged
  rw [this, World.log, e]
  rfl

theorem depositSol_says {sd : U128} {n y : Bytes} {a : U64} {r : EverAddress} {v : U64} {e : Pubkey} {p : Bytes}
    (h : run env ctx cpi (.depositMultiTokenSol sd n y a r v e p) w = .ok w') : Says env ctx (.depositMultiTokenSol sd n y a r v e p) w w' := by
  simp only [run, processDepositSol, bind_ok, acct_ok, sysvar_ok, require_ok, exists_const, ex_unit, deriveAt_ok, mintOf_ok, tokenOf_ok, orErr_ok, Prod.exists,
    validatePda_ok] at h
  obtain ⟨f, h0, cr, h1, ct, h2, kv, h3, dp, h4, mi, h5, mv, h6, kt, h7, ks, -, -, -, -, -, rent, -, -, hsig, ss, sn, hss, hnm, hsy, w1, hdep, t, ht,
    hem, hmi, m, hm, hva, hmv, tv, htv, tot, htot, hlim, w2, b2, w3, b3, dn, hdn, w4, b4, fee, hfee, sup, hsup, net, hnet, w5, b5, b6⟩ := h
  have t1 := (loadSol_ok.1 ht).1
  have t3 : Holds tokenSettingsC recLen (w3.acc kt) t.ts := by
    obtain ⟨bb, rr, hbb, hll, hdd⟩ := t1
    have e2 : w2.acc kt = w1.acc kt := (raw_xfer b2 kt).2 bb hbb
    exact ⟨bb, rr, by rw [sysTransfer_acc b3 kt]; show (w2.acc kt).data = _; rw [e2]; exact hbb, hll, hdd⟩
  have hne : kt ≠ dp := holds_ne t3 (createPda_ok (findAddr_create hdn) b4).2.1
  have hd := RL.pack_holds b5
  rw [← (RL.pack_acc b6 dp).2.2 hne.symm] at hd
  have hk := RL.pack_holds b6
  have hlog : w'.logs = w1.logs ++ [depositLog env depositSolEventC dp r (net.setWidth 128) sd v e
      ⟨mi, t.ts.name, t.ts.symbol, m.decimals, net.setWidth 128, r, v, e, p⟩] := by
    have e1 : w4.logs = w1.logs := (xfer_mute b2).trans ((sys_mute b3).trans (create_mute hdn b4))
    have e2 : w'.logs = (w4.log _).logs := (pack_mute b5).trans (pack_mute b6)
    rw [e2, World.log, e1]
  obtain ⟨x0, hx0, hx1, claim, hlg⟩ : ∃ x0 : DepositLog, x0.account = dp ∧ (x0.seed = sd ∧ x0.recipient = r ∧ x0.value = v ∧ x0.expectedEvers = e) ∧
      HasDeposit env w' x0.account x0 ∧ w'.logs = w1.logs ++ [depositLogC.enc x0] :=
    ⟨_, rfl, ⟨rfl, rfl, rfl, rfl⟩, .inl ⟨_, _, _, _, _, hd, rfl, rfl, rfl, rfl, rfl⟩, hlog⟩
  subst hx0
  unfold deployOnce at hdep
  split at hdep
  · rename_i hl
    obtain ⟨n1, n2, hf⟩ := (deploySol_fx hdep).1.token
    have ef := t1.unique hf
    refine ⟨[.token ⟨kt, y, n, mi, some kv, none, none, none, FeeInfo.default⟩, .deposit x0], ?_, .firstSol h4 h7 hl ⟨rfl, rfl⟩ hx1, ?_⟩
    · have := deploySol_logs hdep
      unfold Logged at this ⊢
      rw [hlg, this]
      simp only [List.append_assoc]
      rfl
    · intro _ x hx
      rcases List.mem_cons.1 hx with rfl | hx
      · refine ⟨⟨_, hk, ?_⟩, fun d hd => nomatch hd⟩
        rw [ef]
        exact ⟨rfl, rfl, rfl, rfl, rfl, rfl, rfl, rfl, rfl⟩
      · rw [List.mem_singleton.1 hx]; exact claim
  · rename_i hl
    cases hdep
    refine ⟨[.deposit x0], ?_, .depositSol h4 h7 hl hx1, ?_⟩
    · exact hlg
    · intro _ x hx
      rw [List.mem_singleton.1 hx]; exact claim

/-! ## Administration -/

theorem fee_says {f : FeeType} {m d : U64} (h : run env ctx cpi (.updateFee f m d) w = .ok w') : Says env ctx (.updateFee f m d) w w' := by
  simp only [run, processUpdateFee, bind_ok, acct_ok, require_ok, exists_const, ex_unit, Prod.exists] at h
  obtain ⟨_, -, kt, h1, _, -, -, _, _, -, -, ts, -, h⟩ := h
  refine ⟨[.fee ⟨kt, f, m, d⟩], pack_mute h, .fee h1, fun _ x hx => ?_⟩
  rw [List.mem_singleton.1 hx]
  refine ⟨_, RL.pack_holds h, ?_⟩
  cases f <;> rfl

theorem name_says {y n : Bytes} (h : run env ctx cpi (.updateTokenName y n) w = .ok w') : Says env ctx (.updateTokenName y n) w w' := by
  simp only [run, processUpdateTokenName, bind_ok, acct_ok, require_ok, exists_const, ex_unit, Prod.exists] at h
  obtain ⟨_, -, kt, h1, _, -, -, _, _, -, -, ts, -, h⟩ := h
  refine ⟨[.name ⟨kt, y, n⟩], pack_mute h, .name h1, fun _ x hx => ?_⟩
  rw [List.mem_singleton.1 hx]
  exact ⟨_, RL.pack_holds h, rfl, rfl⟩

/-! ## Payouts -/

theorem status_sol {k : Pubkey} {r : Withdrawal WSolEvent} {s : WStatus} (h : putWithdrawal ctx wSolEventC (r.withStatus s) k w = .ok w') :
    HasStatus w' k s := .inl ⟨_, RL.pack_holds h, rfl⟩

theorem withdrawSol_says (h : run env ctx cpi .withdrawMultiTokenSol w = .ok w') : Says env ctx .withdrawMultiTokenSol w w' := by
  simp only [run, processWithdrawSol, bind_ok, acct_ok, sysvar_ok, require_ok, exists_const, ex_unit, validatePda_ok] at h
  obtain ⟨k, h0, kv, h1, rc, h2, kt, -, m, -, _, -, _, -, _, -, -, _, -, r, hr, t, -, -, -, -, h⟩ := h
  have hrh := (loadWithdrawal_ok.1 hr).1
  split at h
  · rename_i hq
    simp only [bind_ok, orErr_ok, Prod.exists] at h
    obtain ⟨fee, -, tr, -, w1, s, b1, b2⟩ := h
    refine ⟨[.status ⟨k, s⟩], ?_, .sol h0 hrh ((quorum_iff hrh).1 hq), fun _ x hx => ?_⟩
    · have e1 : w1.logs = w.logs := settleSol_mute b1
      have e2 : w'.logs = (w1.log _).logs := pack_mute b2
      unfold Logged
      rw [e2, World.log, e1]
      rfl
    · rw [List.mem_singleton.1 hx]; exact status_sol b2
  · rename_i hq
    cases h
    exact ⟨[], by simp [Logged], .unconfirmedSol h0 hrh (fun hc => hq ((quorum_iff hrh).2 hc)), fun _ x hx => nomatch hx⟩

theorem settleEver_logs {r : Withdrawal WEverEvent} {ts : TokenSettings} {m rc : Pubkey} {n : U64} {s : WStatus}
    (h : settleEver env ctx r ts m rc n w = .ok (w', s)) :
    Mute w w' ∧ ∀ x d, (∃ a, (w.acc x).data = .mint a ∧ a.decimals = d) → ∃ a, (w'.acc x).data = .mint a ∧ a.decimals = d := by
  unfold settleEver at h
  split at h
  · cases h; exact ⟨Mute.rfl, fun _ _ h => h⟩
  · simp only [bind_ok, ex_unit, Except.ok.injEq, Prod.mk.injEq] at h
    obtain ⟨-, w1, h1, rfl, -⟩ := h
    refine ⟨makeEver_mute h1, fun x d ⟨a, ha, hd⟩ => ?_⟩
    obtain ⟨_, _, _, _, _, _, -, -, -, h1⟩ := makeEverTransfer_ok h1
    obtain ⟨-, -, -, -, -, -, -, -, m0, d0, hm0, hd0, -, -, -, -, -, -, -, e1, e2, e3⟩ := splMintTo_ok h1
    by_cases x1 : x = m
    · subst x1
      rw [hm0] at ha
      cases ha
      exact ⟨{ a with supply := a.supply + n }, congrArg Account.data e1, hd⟩
    · have x2 : x ≠ rc := by rintro rfl; rw [hd0] at ha; cases ha
      exact ⟨a, by rw [e3 x x1 x2]; exact ha, hd⟩

theorem pack_mint {α : Type} {c : Codec α} {len : Nat} {a : α} {k x : Pubkey} {d : U8} (h : pack ctx c len a k w = .ok w')
    (hx : ∃ m, (w.acc x).data = .mint m ∧ m.decimals = d) : ∃ m, (w'.acc x).data = .mint m ∧ m.decimals = d := by
  obtain ⟨m, hm, hd⟩ := hx
  have hne : x ≠ k := by
    rintro rfl
    obtain ⟨b, b', hb, -⟩ := pack_ok.1 h
    rw [hm] at hb; cases hb
  exact ⟨m, by rw [(RL.pack_acc h x).2.2 hne]; exact hm, hd⟩

theorem payEver_says {k m rc kt : Pubkey} {r : Withdrawal WEverEvent} (hr : Holds (withdrawalC wEverEventC) recLen (w.acc k) r)
    (h : payEver env ctx k m rc kt r w = .ok w') :
    (¬ (Confirmed r ∧ r.md.status = .new) ∧ w' = w) ∨
    ((Confirmed r ∧ r.md.status = .new) ∧ ∃ s, Logged [.status ⟨k, s⟩] w w' ∧ HasStatus w' k s ∧
      (∀ x d, (∃ a, (w.acc x).data = .mint a ∧ a.decimals = d) → ∃ a, (w'.acc x).data = .mint a ∧ a.decimals = d)) := by
  simp only [payEver, bind_ok, require_ok, exists_const, ex_unit, validatePda_ok, mintOf_ok] at h
  obtain ⟨t, -, -, -, -, mi, -, h⟩ := h
  split at h
  · rename_i hq
    simp only [bind_ok, orErr_ok, Prod.exists] at h
    obtain ⟨am, -, fee, -, sup, -, tr, -, da, -, w1, s, h1, w2, h2, h3⟩ := h
    obtain ⟨e1, hd⟩ := settleEver_logs h1
    refine .inr ⟨⟨(quorum_iff hr).1 hq.1, hq.2⟩, s, ?_, .inr ⟨_, RL.pack_holds h3, rfl⟩, fun x d hx => ?_⟩
    · have e2 : w'.logs = (w2.log _).logs := pack_mute h3
      have e3 : w2.logs = w.logs := e1.trans (pack_mute h2)
      unfold Logged
      rw [e2, World.log, e3]
      rfl
    · have hx2 : ∃ a, (w2.acc x).data = .mint a ∧ a.decimals = d := pack_mint h2 (hd x d hx)
      exact pack_mint (w := w2.log _) h3 hx2
  · rename_i hq
    cases h
    exact .inl ⟨fun hc => hq ⟨(quorum_iff hr).2 hc.1, hc.2⟩, rfl⟩

theorem deployEver_logs {f m kt : Pubkey} {e : WEverEvent} (h : deployEver env ctx f m kt e w = .ok w') :
    Logged [.token ⟨kt, e.symbol, e.name, m, none, some e.decimals, some (if e.decimals.toNat < 9 then e.decimals else 9#8), some e.token, FeeInfo.default⟩] w w' := by
  simp only [deployEver, bind_ok, deriveAt_ok] at h
  obtain ⟨mn, hm, w1, h1, w2, h2, w3, h3, tn, ht, w4, h4, h5⟩ := h
  obtain ⟨to, n, w5, hto, h6, h7⟩ := ataCreate_ok h3
  have e1 : w4.logs = w.logs := (create_mute hm h1).trans ((initMint_mute h2).trans ((funded_mute h6).trans ((initAcc_mute h7).trans (create_mute ht h4))))
  have e2 : w'.logs = (w4.log _).logs := pack_mute h5
  unfold Logged
  rw [e2, World.log, e1]
  rfl

/-- Token settings that still describe the same token. -/
theorem describes_after {kw kt m : Pubkey} {r : Withdrawal WEverEvent} {w1 : World} (hd : Deployed env ctx r.event m kt w w1)
    (rc : Pubkey) (hr : loadWithdrawal wEverEventC env ctx kw w1 = .ok r) (h : payEver env ctx kw m rc kt r w1 = .ok w') :
    ∃ t, Holds tokenSettingsC recLen (w'.acc kt) t ∧
      describes ⟨kt, r.event.symbol, r.event.name, m, none, some r.event.decimals, some (if r.event.decimals.toNat < 9 then r.event.decimals else 9#8), some r.event.token, FeeInfo.default⟩ t := by
  obtain ⟨n1, n2, hf⟩ := hd.newToken
  obtain ⟨-, t, m0, ht, ⟨rfl, -⟩ | ⟨-, -, am, fee, net, st, t', -, -, -, hrec, hb, -⟩⟩ := payEver_fx hr h
  · exact ⟨_, hf, rfl, rfl, rfl, rfl, rfl, rfl, rfl, rfl⟩
  · have e := ht.1.2.1.unique hf
    subst e
    exact ⟨t', hrec.token, by rw [hb.rest]; exact ⟨rfl, rfl, rfl, rfl, rfl, rfl, rfl, rfl⟩⟩

theorem withdrawEver_says (h : run env ctx cpi .withdrawMultiTokenEver w = .ok w') : Says env ctx .withdrawMultiTokenEver w w' := by
  simp only [run, processWithdrawEver, bind_ok, acct_ok, sysvar_ok, require_ok, exists_const, ex_unit, Prod.exists] at h
  obtain ⟨k, h0, m, h1, rc, -, kt, h3, _, -, _, -, _, -, _, -, -, _, -, -, _, _, -, r, hr, h⟩ := h
  have hrh := (loadWithdrawal_ok.1 hr).1
  split at h
  · rename_i hk
    split at h
    · rename_i h9
      cases h
      exact ⟨[], by simp [Logged], .idle h3 hk h9, fun _ x hx => nomatch hx⟩
    · rename_i f h9
      simp only [bind_ok] at h
      obtain ⟨w1, hd, hp⟩ := h
      have hdep := deployed hd
      have hlg := deployEver_logs hd
      have same : w1.acc k = w.acc k := by
        obtain ⟨b, rr, hb, hl, -⟩ := id hrh
        exact hdep.full k (by rw [hb]; show b.length ≠ 0; rw [hl]; decide)
      have hrh1 : Holds (withdrawalC wEverEventC) recLen (w1.acc k) r := by rw [same]; exact hrh
      have hr1 : loadWithdrawal wEverEventC env ctx k w1 = .ok r := loadWithdrawal_acc hr same
      have hdes := describes_after hdep rc hr1 hp
      rcases payEver_says hrh1 hp with ⟨hq, rfl⟩ | ⟨hq, s, hl, hs, hm⟩
      · refine ⟨_, hlg, .unconfirmedEver h0 h3 hrh (.inr ⟨hk, _, rfl, rfl⟩) hq, fun _ x hx => ?_⟩
        rw [List.mem_singleton.1 hx]
        exact ⟨hdes, fun d hd => ⟨_, hdep.newMint.1, Option.some.inj hd⟩⟩
      · refine ⟨_, ?_, .ever (s := s) h0 h3 hrh (.inr ⟨hk, ⟨kt, r.event.symbol, r.event.name, m, none, some r.event.decimals,
          some (if r.event.decimals.toNat < 9 then r.event.decimals else 9#8), some r.event.token, FeeInfo.default⟩, rfl, rfl⟩) hq, fun _ x hx => ?_⟩
        · unfold Logged at hl hlg ⊢
          rw [hl, hlg, List.append_assoc]
          rfl
        · rcases List.mem_cons.1 hx with rfl | hx
          · exact ⟨hdes, fun d hd => hm _ _ ⟨_, hdep.newMint.1, Option.some.inj hd⟩⟩
          · rw [List.mem_singleton.1 hx]; exact hs
  · rename_i hk
    rcases payEver_says hrh h with ⟨hq, rfl⟩ | ⟨hq, s, hl, hs, -⟩
    · exact ⟨[], by simp [Logged], .unconfirmedEver h0 h3 hrh (.inl ⟨hk, rfl⟩) hq, fun _ x hx => nomatch hx⟩
    · refine ⟨[.status ⟨k, s⟩], hl, .ever (l := []) h0 h3 hrh (.inl ⟨hk, rfl⟩) hq, fun _ x hx => ?_⟩
      rw [List.mem_singleton.1 hx]; exact hs

theorem approveEver_says (h : run env ctx cpi .approveWithdrawEver w = .ok w') : Says env ctx .approveWithdrawEver w w' := by
  simp only [run, processApproveEver, bind_ok, acct_ok, sysvar_ok, require_ok, exists_const, ex_unit, validatePda_ok, orErr_ok,
    checkedSub_some, Prod.exists, mintOf_ok] at h
  obtain ⟨au, -, mi, hmi, kw, hkw, rc, hrc, kt, hkt, ks, -, -, -, clock, -, -, hsig, s, pn, -, r, hr, hst, t, ht, hem, hmint, htok,
    hau, m, hm, n, hn, fee, hfee, tr, htr, hc, w1, h1, w2, h2, h3⟩ := h
  refine ⟨[.status ⟨kw, paidStatus r.event.payload⟩], ?_, .approveEver hkw, fun _ x hx => ?_⟩
  · have e1 : w2.logs = w.logs := (makeEver_mute h1).trans (releaseDaily_mute h2)
    have e2 : w'.logs = (w2.log _).logs := pack_mute h3
    unfold Logged
    rw [e2, World.log, e1]
    rfl
  · rw [List.mem_singleton.1 hx]; exact .inr ⟨_, RL.pack_holds h3, rfl⟩

/-! ## Cancelling and filling -/

theorem cancel_says {sd : U128} {rc : EverAddress} {v : U64} {ev : Pubkey} {py : Bytes}
    (h : run env ctx cpi (.cancelWithdrawSol sd rc v ev py) w = .ok w') : Says env ctx (.cancelWithdrawSol sd rc v ev py) w w' := by
  obtain ⟨f, au, mi, kw, dp, kt, mv, r, t, tv, m, fee, tr, -, -, -, h3, -, -, -, -, -, -, -, -, -, -, -, -, -, -, -, -, -, -, -, -, -, -, -, hl, -⟩ := cancel_fx h
  refine ⟨[.deposit ⟨kw, rc, tr, sd, v, ev, key.enc (env.hash (depositSolEventC.enc ⟨r.event.mint, t.name, t.symbol, m.decimals, tr, rc, v, ev, py⟩))⟩,
    .status ⟨kw, .cancelled⟩], ?_, .cancel (x := ⟨kw, rc, tr, sd, v, ev, _⟩) h3 ⟨rfl, rfl, rfl, rfl⟩, fun hn => (hn _ _ _ _ _ rfl).elim⟩
  unfold Logged
  rw [hl]
  simp only [World.log, List.append_assoc]
  rfl

/-- What a fill logs for the withdrawals. -/
def fills (dp : Pubkey) (l : List (Pubkey × Pubkey)) : List Record :=
  l.flatMap fun y => [.status ⟨y.1, .processed⟩, .liquidity ⟨dp, y.1⟩]

theorem fillOne_logs {au ct dp : Pubkey} {t : SolToken} {kw rt : Pubkey} {x y : U64} (h : fillOne env ctx au ct dp t kw rt w = .ok (x, y, w')) :
    Logged (fills dp [(kw, rt)]) w w' := by
  simp only [fillOne, bind_ok, require_ok, exists_const, tokenOf_ok, orErr_ok, Except.ok.injEq, Prod.mk.injEq] at h
  obtain ⟨r, -, -, -, _, -, -, -, -, fee, -, pu, -, tr, -, w1, h1, w2, h2, -, -, rfl⟩ := h
  have e1 : w1.logs = w.logs := xfer_mute h1
  have e2 : w2.logs = (w1.log _).logs := pack_mute h2
  unfold Logged
  simp only [World.log] at e2 ⊢
  rw [e2, e1, List.append_assoc]
  rfl

theorem Logged.trans {l l' : List Record} {w1 : World} (h : Logged l w w1) (h' : Logged l' w1 w') : Logged (l ++ l') w w' := by
  unfold Logged at *
  rw [h', h, List.map_append, List.append_assoc]

theorem fillLoop_logs {au ct dp : Pubkey} {t : SolToken} : ∀ (l : List Pubkey) {x y : U64} {w : World} {l' : List Pubkey} {x' y' : U64},
    fillLoop env ctx au ct dp t l x y w = .ok (l', x', y', w') →
    ∃ ps : List (Pubkey × Pubkey), l = (ps.flatMap fun y => [y.1, y.2]) ++ l' ∧ l'.length ≤ 1 ∧ Logged (fills dp ps) w w'
  | kw :: rt :: rest, x, y, w, l', x', y', h => by
    simp only [fillLoop, bind_ok, Prod.exists] at h
    obtain ⟨fee, net, w1, h1, h2⟩ := h
    obtain ⟨ps, rfl, hl, hs⟩ := fillLoop_logs rest h2
    exact ⟨(kw, rt) :: ps, rfl, hl, (fillOne_logs h1).trans hs⟩
  | [], x, y, w, l', x', y', h => by
    simp only [fillLoop, Except.ok.injEq, Prod.mk.injEq] at h
    obtain ⟨rfl, -, -, rfl⟩ := h
    exact ⟨[], rfl, by simp, by simp [Logged, fills]⟩
  | [a], x, y, w, l', x', y', h => by
    simp only [fillLoop, Except.ok.injEq, Prod.mk.injEq] at h
    obtain ⟨rfl, -, -, rfl⟩ := h
    exact ⟨[], rfl, by simp, by simp [Logged, fills]⟩

theorem pairs_eq {kv kv' : Pubkey} : ∀ {l l' : List (Pubkey × Pubkey)},
    (l.flatMap fun y => [y.1, y.2]) ++ [kv] = (l'.flatMap fun y => [y.1, y.2]) ++ [kv'] → l = l'
  | [], [], _ => rfl
  | [], (_, _) :: l', h => by simp at h
  | (_, _) :: l, [], h => by simp at h
  | (a, b) :: l, (a', b') :: l', h => by
    simp only [List.flatMap_cons, List.cons_append, List.nil_append, List.cons.injEq] at h
    obtain ⟨rfl, rfl, h⟩ := h
    rw [pairs_eq h]

theorem fill_says {sd : U128} {rc : EverAddress} {a v : U64} {ev : Pubkey} {py : Bytes}
    (h : run env ctx cpi (.fillWithdrawSol sd rc a v ev py) w = .ok w') : Says env ctx (.fillWithdrawSol sd rc a v ev py) w w' := by
  obtain ⟨_, _, _, _, dp0, _, _, t0, tm, _, m0, kv0, fs, _, _, net0, -, -, -, -, h4', -, -, hfs, -, -, -, -, -, -, -, -, -, hall, -, -, -, -, -, hmade, -, -, -⟩ :=
    fill_fx h
  simp only [run, processFill, bind_ok, acct_ok, sysvar_ok, require_ok, exists_const, ex_unit, deriveAt_ok, mintOf_ok, orErr_ok, Prod.exists,
    validatePda_ok, tokenOf_ok] at h
  obtain ⟨f, h0, au, -, ct, h2, mi, -, dp, h4, ks, -, -, -, kt, -, -, -, rent, -, mv, h10, -, -, ss, sn, -, t, -, -, -, w1, b1, -,
    m, -, dn, hdn, rest, fsum, sm, w2, b2, w3, b3, -, kv, hkv, -, tv, -, tot, -, -, w4, b4, fee, -, net, -, b5⟩ := h
  rw [h4] at h4'
  cases h4'
  obtain ⟨ps, hps, hlen, hlg⟩ := fillLoop_logs _ b2
  have hrest : rest = [kv] := by
    match rest, hlen, hkv with
    | [x], _, hkv => simp at hkv; rw [hkv]
  subst hrest
  have hpf : ps = fs.map fun f => (f.kw, f.rt) := by
    apply pairs_eq (kv := kv) (kv' := kv0)
    rw [← hps, hfs, List.flatMap_map]
  have hd := RL.pack_holds b5
  obtain ⟨x0, hx0, hx1, claim, hlog⟩ : ∃ x0 : DepositLog, x0.account = dp0 ∧ (x0.seed = sd ∧ x0.recipient = rc ∧ x0.value = v ∧ x0.expectedEvers = ev) ∧
      HasDeposit env w' x0.account x0 ∧ w'.logs = w4.logs ++ [depositLogC.enc x0] :=
    ⟨_, rfl, ⟨rfl, rfl, rfl, rfl⟩, .inl ⟨_, _, _, _, _, hd, rfl, rfl, rfl, rfl, rfl⟩, pack_mute b5⟩
  subst hx0
  refine ⟨fills x0.account ps ++ [.deposit x0], ?_, .fill h4 hps hx1, fun _ x hx => ?_⟩
  · have e1 : w1.logs = w.logs := sys_mute b1
    have e2 : w4.logs = w2.logs := (create_mute hdn b3).trans (xfer_mute b4)
    unfold Logged at hlg ⊢
    rw [hlog, e2, hlg, e1, List.map_append, List.append_assoc]
    rfl
  · rcases List.mem_append.1 hx with hx | hx
    · obtain ⟨y, hy, hx⟩ := List.mem_flatMap.1 hx
      rw [hpf] at hy
      obtain ⟨g, hg, rfl⟩ := List.mem_map.1 hy
      have hh := (hall g hg).2.1
      rcases List.mem_cons.1 hx with rfl | hx
      · exact .inl ⟨_, hh, rfl⟩
      · rw [List.mem_singleton.1 hx]
        exact ⟨.inl ⟨_, hh, rfl⟩, x0, claim⟩
    · rw [List.mem_singleton.1 hx]; exact claim

/-! ## All instructions -/

theorem run_says {i : Instr} (hp : ctx.program = env.tpId) (hi : ¬ executes i) (h : run env ctx cpi i w = .ok w') : Says env ctx i w w' := by
  by_cases hs : i.silent = true
  · exact ⟨[], by unfold Logged; rw [show w'.logs = w.logs from silent_mute hs h]; simp, .silent hs, fun _ x hx => nomatch hx⟩
  cases i with
  | executePayloadEver => exact (hi (.inl rfl)).elim
  | executePayloadSol => exact (hi (.inr rfl)).elim
  | withdrawMultiTokenEver => exact withdrawEver_says h
  | withdrawMultiTokenSol => exact withdrawSol_says h
  | depositMultiTokenEver s a r v e p => exact depositEver_says h
  | depositMultiTokenSol s n y a r v e p => exact depositSol_says h
  | withdrawMultiTokenEverRequest pda t n y d r a p att => exact requestEver_says hp h
  | withdrawMultiTokenSolRequest pda r a p att => exact requestSol_says hp h
  | approveWithdrawEver => exact approveEver_says h
  | updateFee f m d => exact fee_says h
  | updateTokenName y n => exact name_says h
  | cancelWithdrawSol sd r v e p => exact cancel_says h
  | fillWithdrawSol sd r a v e p => exact fill_says h
  | _ => exact (hs rfl).elim

end Verif.TP
