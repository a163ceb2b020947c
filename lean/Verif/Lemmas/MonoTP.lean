import Verif.Lemmas.Mono
/-!
# More permissions do not change what the token proxy does
-/
set_option linter.unusedSimpArgs false
namespace Verif.TP
open Verif

variable {env : Env} {ctx : Ctx} {s m : List Pubkey} {n : I64} {w : World} {k : Pubkey} {cpi : Pubkey → World → Except Err World}

theorem grant_packRaw (h : Adds ctx s m) {α : Type} {c : Codec α} {v : α} : Le (packRaw ctx c v k w) (packRaw (ctx.grant s m n) c v k w) := by
  unfold packRaw
  split
  · mono h [grant_setData h]
  · mono h []

theorem grant_putSettings (h : Adds ctx s m) {x : Settings} : Le (putSettings ctx x k w) (putSettings (ctx.grant s m n) x k w) := grant_pack h

theorem grant_putToken (h : Adds ctx s m) {x : TokenSettings} : Le (putToken ctx x k w) (putToken (ctx.grant s m n) x k w) := grant_pack h

theorem grant_putWithdrawal (h : Adds ctx s m) {E : Type} {ec : Codec E} {x : Withdrawal E} :
    Le (putWithdrawal ctx ec x k w) (putWithdrawal (ctx.grant s m n) ec x k w) := grant_pack h

theorem grant_putDeposit (h : Adds ctx s m) {E : Type} {ec : Codec E} {x : Deposit E} :
    Le (putDeposit ctx ec x k w) (putDeposit (ctx.grant s m n) ec x k w) := grant_pack h

theorem grant_everTransfer (h : Adds ctx s m) {a b : Pubkey} {t : TokenSettings} {x : U64} :
    Le (makeEverTransfer env ctx a b t x w) (makeEverTransfer env (ctx.grant s m n) a b t x w) := by
  unfold makeEverTransfer
  mono h [grant_mint h (Adds.or h)]

theorem grant_solTransfer (h : Adds ctx s m) {a b : Pubkey} {t : TokenSettings} {x : U64} :
    Le (makeSolTransfer env ctx a b t x w) (makeSolTransfer env (ctx.grant s m n) a b t x w) := by
  unfold makeSolTransfer
  mono h [grant_xfer h (Adds.or h)]

theorem grant_delete (h : Adds ctx s m) {a b : Pubkey} : Le (deleteAccount env ctx a b w) (deleteAccount env (ctx.grant s m n) a b w) := by
  unfold deleteAccount
  mono h [grant_move h, grant_zero h]

theorem grant_createProxy (h : Adds ctx s m) {r f p q x l : Pubkey} :
    Le (createProxyAccount env ctx r f p q x l w) (createProxyAccount env (ctx.grant s m n) r f p q x l w) := by
  unfold createProxyAccount
  mono h [grant_funded h (Adds.or h), grant_initAcc h]

theorem grant_openProxy (h : Adds ctx s m) {p : Bytes} {e r f x : Pubkey} {i : Nat} {a : U64} :
    Le (openProxy env ctx p e r f x i a w) (openProxy env (ctx.grant s m n) p e r f x i a w) := by
  unfold openProxy
  mono h [grant_createProxy h, grant_sys h h.sigs]

theorem grant_openWithdrawal (h : Adds ctx s m) {E : Type} {ec : Codec E} {f a k' : Pubkey} {rs : RL.Settings} {rr : RL.RelayRound} {pda : PDA}
    {len : U32} {ev : E} {pn : Option U8} {tk : Bytes} {rc : Pubkey} {x : U128} :
    Le (openWithdrawal env ctx ec f a k' rs rr pda len ev pn tk rc x w)
      (openWithdrawal env (ctx.grant s m ctx.now) ec f a k' rs rr pda len ev pn tk rc x w) := by
  unfold openWithdrawal
  mono h [grant_pda h, grant_putWithdrawal h, grant_sys h h.sigs]

theorem grant_deploySol (h : Adds ctx s m) {f vt q t : Pubkey} {nm y : Bytes} :
    Le (deployOnce env ctx f vt q t nm y w) (deployOnce env (ctx.grant s m n) f vt q t nm y w) := by
  unfold deployOnce deploySol
  mono h [grant_pda h, grant_initAcc h, grant_putToken h]

theorem grant_deployEver (h : Adds ctx s m) {f q t : Pubkey} {e : WEverEvent} :
    Le (deployEver env ctx f q t e w) (deployEver env (ctx.grant s m n) f q t e w) := by
  unfold deployEver
  mono h [grant_pda h, grant_initMint h, grant_ata h, grant_putToken h]

theorem grant_settleEver (h : Adds ctx s m) {r : Withdrawal WEverEvent} {ts : TokenSettings} {q c : Pubkey} {x : U64} :
    Le (settleEver env ctx r ts q c x w) (settleEver env (ctx.grant s m n) r ts q c x w) := by
  unfold settleEver
  mono h [grant_everTransfer h]

theorem grant_payEver (h : Adds ctx s m) (hn : epochOf n = epochOf ctx.now) {q c t : Pubkey} {r : Withdrawal WEverEvent} :
    Le (payEver env ctx k q c t r w) (payEver env (ctx.grant s m n) k q c t r w) := by
  unfold payEver
  simp only [show epochOf (ctx.grant s m n).now = epochOf ctx.now from hn]
  mono h [grant_settleEver h, grant_putToken h, grant_putWithdrawal h]

theorem grant_payFromVault (h : Adds ctx s m) {r : Withdrawal WSolEvent} {ts : TokenSettings} {q vt c : Pubkey} {x : U64} :
    Le (payFromVault env ctx r ts q vt c x w) (payFromVault env (ctx.grant s m n) r ts q vt c x w) := by
  unfold payFromVault
  mono h [grant_solTransfer h]

theorem grant_payIfAllowed (h : Adds ctx s m) {r : Withdrawal WSolEvent} {ts : TokenSettings} {q vt c : Pubkey} {x : U64} :
    Le (payIfAllowed env ctx r ts q vt c x w) (payIfAllowed env (ctx.grant s m n) r ts q vt c x w) := by
  unfold payIfAllowed
  mono h [grant_payFromVault h]

theorem grant_settleSol (h : Adds ctx s m) (hn : epochOf n = epochOf ctx.now) {r : Withdrawal WSolEvent} {t : SolToken} {q vt c kt : Pubkey}
    {f x : U64} : Le (settleSol env ctx r t q vt c kt f x w) (settleSol env (ctx.grant s m n) r t q vt c kt f x w) := by
  unfold settleSol
  simp only [show epochOf (ctx.grant s m n).now = epochOf ctx.now from hn]
  split
  · mono h [grant_payIfAllowed h, grant_putToken h]
  · mono h [grant_payFromVault h]
  · mono h []

theorem grant_release (h : Adds ctx s m) (hn : epochOf n = epochOf ctx.now) {md : WMeta} {t : TokenSettings} {x : U64} :
    Le (releaseDaily ctx md t x k w) (releaseDaily (ctx.grant s m n) md t x k w) := by
  unfold releaseDaily
  simp only [show epochOf (ctx.grant s m n).now = epochOf ctx.now from hn]
  mono h [grant_putToken h]

theorem grant_fillOne (h : Adds ctx s m) {a b d c : Pubkey} {t : SolToken} :
    Le (fillOne env ctx a b d t k c w) (fillOne env (ctx.grant s m n) a b d t k c w) := by
  unfold fillOne
  mono h [grant_xfer h h.sigs, grant_putWithdrawal h]

theorem grant_fillLoop (h : Adds ctx s m) {a b d : Pubkey} {t : SolToken} : ∀ {l : List Pubkey} {x y : U64} {w : World},
    Le (fillLoop env ctx a b d t l x y w) (fillLoop env (ctx.grant s m n) a b d t l x y w)
  | [], _, _, _ => Le.rfl'
  | [_], _, _, _ => Le.rfl'
  | k :: c :: l, x, y, w => by
    unfold fillLoop
    exact Le.bind (grant_fillOne h) fun _ => grant_fillLoop h

theorem grant_role (h : Adds ctx s m) {f : Settings → Settings} : Le (processChangeRole env ctx f w) (processChangeRole env (ctx.grant s m n) f w) := by
  unfold processChangeRole
  mono h [grant_putSettings h]

theorem grant_limits (h : Adds ctx s m) {f : TokenSettings → TokenSettings} :
    Le (processChangeLimits env ctx f w) (processChangeLimits env (ctx.grant s m n) f w) := by
  unfold processChangeLimits
  mono h [grant_putToken h]

theorem run_request (h : Adds ctx s m) {i : Instr} (hi : (∃ p t nm y d r a q x, i = .withdrawMultiTokenEverRequest p t nm y d r a q x) ∨
    ∃ p r a q x, i = .withdrawMultiTokenSolRequest p r a q x) : Le (run env ctx cpi i w) (run env (ctx.grant s m ctx.now) cpi i w) := by
  obtain ⟨p, t, nm, y, d, r, a, q, x, rfl⟩ | ⟨p, r, a, q, x, rfl⟩ := hi
  · simp only [run, processEverRequest]
    mono h [grant_openProxy h, grant_openWithdrawal h]
  · simp only [run, processSolRequest]
    mono h [grant_openProxy h, grant_openWithdrawal h]

theorem run_pay (h : Adds ctx s m) (hn : epochOf n = epochOf ctx.now) {i : Instr}
    (hi : i = .withdrawMultiTokenEver ∨ i = .withdrawMultiTokenSol ∨ i = .approveWithdrawEver ∨ i = .approveWithdrawSol) :
    Le (run env ctx cpi i w) (run env (ctx.grant s m n) cpi i w) := by
  obtain rfl | rfl | rfl | rfl := hi
  · simp only [run, processWithdrawEver]
    mono h [grant_deployEver h, grant_payEver h hn]
    · cases hf : ctx.accounts[9]? with
      | none => exact Le.rfl'
      | some f => exact Le.bind (grant_deployEver h) fun _ => grant_payEver h hn
    · exact grant_payEver h hn
  · simp only [run, processWithdrawSol]
    mono h [grant_settleSol h hn, grant_putWithdrawal h]
  · simp only [run, processApproveEver]
    mono h [grant_everTransfer h, grant_release h hn, grant_putWithdrawal h]
  · simp only [run, processApproveSol]
    mono h [grant_payFromVault h, grant_release h hn, grant_putWithdrawal h]

theorem run_voteForWithdrawRequest (h : Adds ctx s m) {v : Vote} :
    Le (run env ctx cpi (.voteForWithdrawRequest v) w) (run env (ctx.grant s m n) cpi (.voteForWithdrawRequest v) w) := by
  simp only [run, processVote]
  mono h [grant_packRaw h, grant_move h]

theorem run_depositMultiTokenEver (h : Adds ctx s m) {sd : U128} {a : U64} {r : EverAddress} {v : U64} {e : Pubkey} {p : Bytes} :
    Le (run env ctx cpi (.depositMultiTokenEver sd a r v e p) w) (run env (ctx.grant s m n) cpi (.depositMultiTokenEver sd a r v e p) w) := by
  simp only [run, processDepositEver]
  mono h [grant_burn h h.sigs, grant_pda h, grant_putDeposit h, grant_putToken h, grant_sys h h.sigs]

theorem run_depositMultiTokenSol (h : Adds ctx s m) {sd : U128} {nm y : Bytes} {a : U64} {r : EverAddress} {v : U64} {e : Pubkey} {p : Bytes} :
    Le (run env ctx cpi (.depositMultiTokenSol sd nm y a r v e p) w) (run env (ctx.grant s m n) cpi (.depositMultiTokenSol sd nm y a r v e p) w) := by
  simp only [run, processDepositSol]
  mono h [grant_deploySol h, grant_xfer h h.sigs, grant_pda h, grant_putDeposit h, grant_putToken h, grant_sys h h.sigs]

theorem run_cancelWithdrawSol (h : Adds ctx s m) {sd : U128} {r : EverAddress} {v : U64} {e : Pubkey} {p : Bytes} :
    Le (run env ctx cpi (.cancelWithdrawSol sd r v e p) w) (run env (ctx.grant s m n) cpi (.cancelWithdrawSol sd r v e p) w) := by
  simp only [run, processCancel]
  mono h [grant_sys h h.sigs, grant_pda h, grant_putDeposit h, grant_putWithdrawal h]

theorem run_fillWithdrawSol (h : Adds ctx s m) {sd : U128} {r : EverAddress} {a v : U64} {e : Pubkey} {p : Bytes} :
    Le (run env ctx cpi (.fillWithdrawSol sd r a v e p) w) (run env (ctx.grant s m n) cpi (.fillWithdrawSol sd r a v e p) w) := by
  simp only [run, processFill]
  mono h [grant_sys h h.sigs, grant_fillLoop h, grant_pda h, grant_xfer h h.sigs, grant_putDeposit h]

theorem run_init (h : Adds ctx s m) {a b c : Pubkey} :
    Le (run env ctx cpi (.init a b c) w) (run env (ctx.grant s m n) cpi (.init a b c) w) := by
  simp only [run, processInitialize]
  mono h [grant_pda h, grant_putSettings h, grant_pack h]

theorem run_grant (h : Adds ctx s m) {i : Instr} (hi : i.AsGoodAt ctx.now n) : Le (run env ctx cpi i w) (run env (ctx.grant s m n) cpi i w) := by
  have hp : (n = ctx.now ∨ ∃ d, OnDay d ctx.now ∧ OnDay d n) → epochOf n = epochOf ctx.now := by
    rintro (rfl | ⟨d, h1, h2⟩)
    · rfl
    · rw [OnDay.eq h1, OnDay.eq h2]
  cases i with
  | voteForWithdrawRequest v => exact run_voteForWithdrawRequest h
  | withdrawMultiTokenEver => exact run_pay h (hp hi) (.inl rfl)
  | withdrawMultiTokenSol => exact run_pay h (hp hi) (.inr (.inl rfl))
  | approveWithdrawEver => exact run_pay h (hp hi) (.inr (.inr (.inl rfl)))
  | approveWithdrawSol => exact run_pay h (hp hi) (.inr (.inr (.inr rfl)))
  | withdrawMultiTokenEverRequest p t nm y d r a q x =>
    cases hi
    exact run_request h (.inl ⟨p, t, nm, y, d, r, a, q, x, rfl⟩)
  | withdrawMultiTokenSolRequest p r a q x =>
    cases hi
    exact run_request h (.inr ⟨p, r, a, q, x, rfl⟩)
  | executePayloadEver =>
    simp only [run, processExecutePayloadEver]
    mono h [grant_putWithdrawal h]
  | executePayloadSol =>
    simp only [run, processExecutePayloadSol]
    mono h [grant_putWithdrawal h]
  | init a b c => exact run_init h
  | depositMultiTokenEver sd a r v e p => exact run_depositMultiTokenEver h
  | depositMultiTokenSol sd nm y a r v e p => exact run_depositMultiTokenSol h
  | changeGuardian =>
    simp only [run]
    exact grant_role h
  | changeManager =>
    simp only [run]
    exact grant_role h
  | changeWithdrawalManager =>
    simp only [run]
    exact grant_role h
  | changeDepositLimit =>
    simp only [run]
    exact grant_limits h
  | changeWithdrawalLimits =>
    simp only [run]
    exact grant_limits h
  | enableEmergencyMode =>
    simp only [run, processEnableEmergency]
    mono h [grant_putSettings h]
  | disableEmergencyMode =>
    simp only [run, processDisableEmergency]
    mono h [grant_putSettings h]
  | enableTokenEmergencyMode =>
    simp only [run, processEnableTokenEmergency]
    mono h [grant_putToken h]
  | disableTokenEmergencyMode =>
    simp only [run, processDisableTokenEmergency]
    mono h [grant_putToken h]
  | updateFee =>
    simp only [run, processUpdateFee]
    mono h [grant_putToken h]
  | updateTokenName =>
    simp only [run, processUpdateTokenName]
    mono h [grant_putToken h]
  | withdrawEverFee =>
    simp only [run, processWithdrawEverFee]
    mono h [grant_everTransfer h, grant_putToken h]
  | withdrawSolFee =>
    simp only [run, processWithdrawSolFee]
    mono h [grant_solTransfer h, grant_putToken h]
  | changeBountyForWithdrawSol =>
    simp only [run, processChangeBounty]
    mono h [grant_putWithdrawal h]
  | cancelWithdrawSol sd r v e p => exact run_cancelWithdrawSol h
  | fillWithdrawSol sd r a v e p => exact run_fillWithdrawSol h
  | withdrawProxy =>
    simp only [run, processWithdrawProxy]
    mono h [grant_xfer h (Adds.or h)]
  | closeDeposit =>
    simp only [run, processCloseDeposit]
    mono h [grant_delete h]
  | closeWithdrawal =>
    simp only [run, processCloseWithdrawal]
    mono h [grant_delete h]
  | withdrawMultiVault =>
    simp only [run, processWithdrawMultiVault]
    mono h [grant_move h]

end Verif.TP
