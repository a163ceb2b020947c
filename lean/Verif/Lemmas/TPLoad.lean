import Verif.Lemmas.Pack
/-!
# Inversion of the token proxy's helper functions
-/
namespace Verif.TP
open Codec Verif

theorem intoTokenSettings_some {a : AccountKind} {x y : U8} : a.intoTokenSettings = some (x, y) ↔ a = .tokenSettings x y := by
  cases a <;> simp [AccountKind.intoTokenSettings]
theorem intoMultiVault_some {a : AccountKind} {x : U8} : a.intoMultiVault = some x ↔ a = .multiVault x := by
  cases a <;> simp [AccountKind.intoMultiVault]
theorem intoDeposit_some {a : AccountKind} {x : U8} : a.intoDeposit = some x ↔ a = .deposit x := by
  cases a <;> simp [AccountKind.intoDeposit]
theorem intoEver_some {a : TokenKind} {m : Pubkey} {t : EverAddress} {d : U8} : a.intoEver = some (m, t, d) ↔ a = .ever m t d := by
  cases a <;> simp [TokenKind.intoEver]
theorem intoSolana_some {a : TokenKind} {m v : Pubkey} : a.intoSolana = some (m, v) ↔ a = .solana m v := by
  cases a <;> simp [TokenKind.intoSolana]

variable {env : Env} {ctx : Ctx} {w w' : World}

theorem loadSettings_ok {k : Pubkey} {s : Settings} {pn : U8} :
    loadSettings env ctx k w = .ok (s, pn) ↔ Holds settingsC recLen (w.acc k) s ∧ s.isInitialized = true ∧
      ∃ n, s.accountKind = .settings n pn ∧ findAddr env settingsSeeds ctx.program = .ok (k, n) := by
  simp only [loadSettings, bind_ok, unpack_holds, orErr_ok, validateSettings, validatePda_ok, exists_const, Except.ok.injEq,
    Prod.exists, intoSettings_some, Prod.mk.injEq]
  constructor
  · rintro ⟨a, ⟨h1, h2⟩, n, pn', hk, ha, rfl, rfl⟩
    exact ⟨h1, h2, n, hk, ha⟩
  · rintro ⟨h1, h2, n, hk, ha⟩
    exact ⟨s, ⟨h1, h2⟩, n, pn, hk, ha, rfl, rfl⟩

theorem loadSettingsNoEmergency_ok {k : Pubkey} {s : Settings} {pn : U8} :
    loadSettingsNoEmergency env ctx k w = .ok (s, pn) ↔ loadSettings env ctx k w = .ok (s, pn) ∧ s.emergency = false := by
  simp only [loadSettingsNoEmergency, bind_ok, require_ok, exists_const, Except.ok.injEq]
  constructor
  · rintro ⟨a, h, h1, rfl⟩; exact ⟨h, h1⟩
  · rintro ⟨h, h1⟩; exact ⟨_, h, h1, rfl⟩

theorem loadEver_ok {k : Pubkey} {t : EverToken} :
    loadEver env ctx k w = .ok t ↔ Holds tokenSettingsC recLen (w.acc k) t.ts ∧ t.ts.isInitialized = true ∧
      ∃ m n, t.ts.kind = .ever m t.token t.decimals ∧ t.ts.accountKind = .tokenSettings n t.mintNonce ∧
        findAddr env (tokenSettingsEverSeeds env t.token) ctx.program = .ok (k, n) := by
  simp only [loadEver, bind_ok, unpack_holds, orErr_ok, validatePda_ok, exists_const, Except.ok.injEq,
    Prod.exists, intoEver_some, intoTokenSettings_some]
  constructor
  · rintro ⟨ts, ⟨h1, h2⟩, m, tok, d, hk, n, mn, ha, hf, rfl⟩
    exact ⟨h1, h2, m, n, hk, ha, hf⟩
  · rintro ⟨h1, h2, m, n, hk, ha, hf⟩
    exact ⟨_, ⟨h1, h2⟩, m, _, _, hk, n, _, ha, hf, rfl⟩

theorem loadSol_ok {k : Pubkey} {t : SolToken} :
    loadSol env ctx k w = .ok t ↔ Holds tokenSettingsC recLen (w.acc k) t.ts ∧ t.ts.isInitialized = true ∧
      t.ts.kind = .solana t.mint t.vault ∧ ∃ n, t.ts.accountKind = .tokenSettings n t.vaultNonce ∧
        findAddr env (tokenSettingsSolSeeds t.mint) ctx.program = .ok (k, n) := by
  simp only [loadSol, bind_ok, unpack_holds, orErr_ok, validatePda_ok, exists_const, Except.ok.injEq,
    Prod.exists, intoSolana_some, intoTokenSettings_some]
  constructor
  · rintro ⟨ts, ⟨h1, h2⟩, m, v, hk, n, mn, ha, hf, rfl⟩
    exact ⟨h1, h2, hk, n, ha, hf⟩
  · rintro ⟨h1, h2, hk, n, ha, hf⟩
    exact ⟨_, ⟨h1, h2⟩, _, _, hk, n, _, ha, hf, rfl⟩

theorem loadToken_ok {k : Pubkey} {ts : TokenSettings} :
    loadToken env ctx k w = .ok ts ↔ Holds tokenSettingsC recLen (w.acc k) ts ∧ ts.isInitialized = true ∧
      ∃ n m, ts.accountKind = .tokenSettings n m ∧ findAddr env (tokenSettingsSeeds env ts.kind) ctx.program = .ok (k, n) := by
  simp only [loadToken, bind_ok, unpack_holds, orErr_ok, validatePda_ok, exists_const, Except.ok.injEq,
    Prod.exists, intoTokenSettings_some]
  constructor
  · rintro ⟨ts, ⟨h1, h2⟩, n, m, ha, hf, rfl⟩
    exact ⟨h1, h2, n, m, ha, hf⟩
  · rintro ⟨h1, h2, n, m, ha, hf⟩
    exact ⟨_, ⟨h1, h2⟩, n, m, ha, hf, rfl⟩

/-- Token settings of either kind, from the loader of one kind. -/
theorem loadEver_token {k : Pubkey} {t : EverToken} (h : loadEver env ctx k w = .ok t) : loadToken env ctx k w = .ok t.ts := by
  obtain ⟨h1, h2, m, n, hk, ha, hf⟩ := loadEver_ok.1 h
  exact loadToken_ok.2 ⟨h1, h2, n, t.mintNonce, ha, by rw [hk]; exact hf⟩

theorem loadSol_token {k : Pubkey} {t : SolToken} (h : loadSol env ctx k w = .ok t) : loadToken env ctx k w = .ok t.ts := by
  obtain ⟨h1, h2, hk, n, ha, hf⟩ := loadSol_ok.1 h
  exact loadToken_ok.2 ⟨h1, h2, n, t.vaultNonce, ha, by rw [hk]; exact hf⟩

theorem loadMultiVault_ok {k : Pubkey} {u : Unit} :
    loadMultiVault env ctx k w = .ok u ↔ ∃ v, Holds multiVaultC recLen (w.acc k) v ∧ v.isInitialized = true ∧
      ∃ n, v.accountKind = .multiVault n ∧ findAddr env multiVaultSeeds ctx.program = .ok (k, n) := by
  simp only [loadMultiVault, bind_ok, unpack_holds, orErr_ok, validatePda_ok, intoMultiVault_some, and_assoc]

theorem loadWithdrawal_ok {E : Type} {ec : Codec E} {k : Pubkey} {r : Withdrawal E} :
    loadWithdrawal ec env ctx k w = .ok r ↔ Holds (withdrawalC ec) recLen (w.acc k) r ∧ r.isInitialized = true ∧
      ∃ n pn, r.accountKind = .proposal n pn ∧
        findAddr env (proposalSeeds r.roundNumber r.pda (env.hash (ec.enc r.event))) ctx.program = .ok (k, n) := by
  simp only [loadWithdrawal, bind_ok, unpack_holds, orErr_ok, validateProposal, validatePda_ok, exists_const, Except.ok.injEq,
    Prod.exists, intoProposal_some]
  constructor
  · rintro ⟨a, ⟨h1, h2⟩, n, pn, hk, ha, rfl⟩
    exact ⟨h1, h2, n, pn, hk, ha⟩
  · rintro ⟨h1, h2, n, pn, hk, ha⟩
    exact ⟨r, ⟨h1, h2⟩, n, pn, hk, ha, rfl⟩

theorem decRaw_ok {α : Type} {c : Codec α} {d : Data} {a : α} :
    decRaw c d = .ok a ↔ ∃ b r, d = .raw b ∧ c.dec b = some (a, r) := by
  unfold decRaw
  split
  · rename_i b
    split
    · rename_i a' r hd; simp [hd]
    · rename_i hd; simp [hd]
  · rename_i hb
    simp only [error_ok, false_iff]
    rintro ⟨b1, r, h, -⟩
    exact hb _ h

theorem packRaw_ok {α : Type} {c : Codec α} {a : α} {k : Pubkey} :
    packRaw ctx c a k w = .ok w' ↔
      ∃ b b', (w.acc k).data = .raw b ∧ Stored c a b b' ∧
        (b' = b ∨ (ctx.isWritable k = true ∧ (w.acc k).owner = ctx.program)) ∧ w' = w.setDataRaw k (.raw b') := by
  unfold packRaw
  split
  · rename_i b hb
    simp only [bind_ok, packBytes_ok, setData_ok, hb, Data.raw.injEq, exists_and_left, eq_comm (a := b)]
    exact ⟨fun h => ⟨b, rfl, h⟩, fun ⟨_, e, h⟩ => e ▸ h⟩
  · rename_i hb
    simp only [error_ok, false_iff]
    rintro ⟨b1, b', h, -⟩
    exact hb _ h

theorem loadGeneric_ok {k : Pubkey} {p : GenericProposal} :
    loadGeneric env ctx k w = .ok p ↔ (∃ b r, (w.acc k).data = .raw b ∧ GenericProposal.codec.dec b = some (p, r)) ∧
      ∃ n pn, p.accountKind = .proposal n pn ∧
        findAddr env (proposalSeeds p.roundNumber p.pda (env.hash p.event)) ctx.program = .ok (k, n) := by
  simp only [loadGeneric, bind_ok, decRaw_ok, orErr_ok, validateProposal, validatePda_ok, exists_const, Except.ok.injEq,
    Prod.exists, intoProposal_some]
  constructor
  · rintro ⟨a, ⟨b, r, h1, h2⟩, n, pn, hk, ha, rfl⟩
    exact ⟨⟨b, r, h1, h2⟩, n, pn, hk, ha⟩
  · rintro ⟨h1, n, pn, hk, ha⟩
    exact ⟨p, h1, n, pn, hk, ha, rfl⟩

theorem authorizeOwner_ok {a pd : Pubkey} {pn : U8} {u : Unit} :
    authorizeOwner env ctx a pd pn w = .ok u ↔
      findAddr env [seedKey ctx.program] env.loaderId = .ok (pd, pn) ∧ (w.acc pd).data = .programData (some a) := by
  simp only [authorizeOwner, bind_ok, validateProgramdata_ok, validateInitializer_ok, exists_const]

theorem authorize_ok {role a : Pubkey} {pn : U8} {i : Nat} {u : Unit} :
    authorize env ctx role a pn i w = .ok u ↔ a = role ∨ (a ≠ role ∧ ∃ pd, ctx.accounts[i]? = some pd ∧
      findAddr env [seedKey ctx.program] env.loaderId = .ok (pd, pn) ∧ (w.acc pd).data = .programData (some a)) := by
  unfold authorize
  split
  · rename_i h; simp [h]
  · rename_i h
    simp only [bind_ok, acct_ok, validateProgramdata_ok, validateInitializer_ok, exists_const, h, false_or, ne_eq,
      not_false_eq_true, true_and]

theorem deriveAt_ok {seeds : List Bytes} {k : Pubkey} {n : U8} :
    deriveAt env ctx seeds k = .ok n ↔ findAddr env seeds ctx.program = .ok (k, n) := by
  simp only [deriveAt, bind_ok, require_ok, exists_const, Prod.exists, Except.ok.injEq]
  constructor
  · rintro ⟨a, m, h, rfl, rfl⟩; exact h
  · intro h; exact ⟨k, n, h, rfl, rfl⟩

theorem pdaSigns_ok {seeds : List Bytes} {sg : Pubkey → Bool} :
    pdaSigns env ctx seeds = .ok sg ↔ ∃ p, env.createAddr seeds ctx.program = some p ∧ sg = fun k => ctx.isSigner k || k == p := by
  unfold pdaSigns
  split
  · rename_i h; simp [h]
  · rename_i p h; simp [h, eq_comm]

/-- The program signs as `k`, besides the signers of the instruction. -/
def signsAs (ctx : Ctx) (k : Pubkey) : Pubkey → Bool := fun a => ctx.isSigner a || a == k

theorem makeEverTransfer_ok {mint dst : Pubkey} {ts : TokenSettings} {n : U64}
    (h : makeEverTransfer env ctx mint dst ts n w = .ok w') :
    ∃ m t d tn mn p, ts.kind = .ever m t d ∧ ts.accountKind = .tokenSettings tn mn ∧
      env.createAddr (mintSeeds env t ++ [[mn]]) ctx.program = some p ∧
      splMintTo env ctx (signsAs ctx p) mint dst mint n w = .ok w' := by
  simp only [makeEverTransfer, bind_ok, orErr_ok, Prod.exists, intoEver_some, intoTokenSettings_some, pdaSigns_ok] at h
  obtain ⟨m, t, d, hk, tn, mn, ha, sg, ⟨p, hp, rfl⟩, h⟩ := h
  exact ⟨m, t, d, tn, mn, p, hk, ha, hp, h⟩

theorem makeSolTransfer_ok {vault dst : Pubkey} {ts : TokenSettings} {n : U64}
    (h : makeSolTransfer env ctx vault dst ts n w = .ok w') :
    ∃ m v tn vn p, ts.kind = .solana m v ∧ ts.accountKind = .tokenSettings tn vn ∧
      env.createAddr (vaultSeeds m ++ [[vn]]) ctx.program = some p ∧
      splTransfer env ctx (signsAs ctx p) vault dst vault n w = .ok w' := by
  simp only [makeSolTransfer, bind_ok, orErr_ok, Prod.exists, intoSolana_some, intoTokenSettings_some, pdaSigns_ok] at h
  obtain ⟨m, v, hk, tn, vn, ha, sg, ⟨p, hp, rfl⟩, h⟩ := h
  exact ⟨m, v, tn, vn, p, hk, ha, hp, h⟩

theorem deleteAccount_ok {k a : Pubkey} (h : deleteAccount env ctx k a w = .ok w') :
    a ≠ k ∧ ∃ w1, moveLamports ctx k a (w.acc k).lamports w = .ok w1 ∧ zeroAccount env ctx k w1 = .ok w' := by
  simp only [deleteAccount, bind_ok, require_ok, exists_const] at h
  exact h

theorem createProxyAccount_ok {r f p m sys spl : Pubkey} {n : U8}
    (h : createProxyAccount env ctx r f p m sys spl w = .ok (n, w')) :
    findAddr env (proxySeeds m r) ctx.program = .ok (p, n) ∧ (w.acc p).owner = env.systemId ∧
    (((w.acc p).data.len = 0 ∧ ∃ w1, createPdaFunded env ctx (fun a => ctx.isSigner a || a == p) f p 165 env.splId w = .ok w1 ∧
        splInitAccount env ctx p m p w1 = .ok w') ∨
      ((w.acc p).data.len ≠ 0 ∧ w' = w)) := by
  simp only [createProxyAccount, bind_ok, require_ok, exists_const, Prod.exists] at h
  obtain ⟨a, n', ha, rfl, ho, h⟩ := h
  split at h
  · rename_i hl
    simp only [bind_ok, require_ok, exists_const, pdaSigns_ok, findAddr_create ha, Except.ok.injEq, Prod.mk.injEq] at h
    obtain ⟨⟨rfl, rfl⟩, sg, ⟨q, hq, rfl⟩, w1, h1, w2, h2, rfl, rfl⟩ := h
    cases hq
    exact ⟨ha, ho, .inl ⟨hl, w1, h1, h2⟩⟩
  · rename_i hl
    simp only [Except.ok.injEq, Prod.mk.injEq] at h
    obtain ⟨rfl, rfl⟩ := h
    exact ⟨ha, ho, .inr ⟨hl, rfl⟩⟩

theorem ataCreate_ok {f wallet mint : Pubkey} (h : ataCreate env ctx f wallet mint w = .ok w') :
    ∃ k n w1, findAddr env (ataSeeds env wallet mint) env.ataId = .ok (k, n) ∧
      createPdaFunded env ctx (fun a => ctx.isSigner a || a == k) f k 165 env.splId w = .ok w1 ∧
      splInitAccount env ctx k mint wallet w1 = .ok w' := by
  simp only [ataCreate, bind_ok, require_ok, exists_const, Prod.exists] at h
  obtain ⟨k, n, ha, -, -, -, -, -, -, w1, h1, h2⟩ := h
  exact ⟨k, n, w1, ha, h1, h2⟩

theorem loadRound_ok {ks kr : Pubkey} {rs : RL.Settings} {rr : RL.RelayRound}
    : loadRound env ctx ks kr w = .ok (rs, rr) ↔
    (Holds RL.settingsC RL.settingsLen (w.acc ks) rs ∧ rs.isInitialized = true ∧
      ∃ n pn, rs.accountKind = .settings n pn ∧ findAddr env settingsSeeds env.rlId = .ok (ks, n)) ∧
    (Holds RL.relayRoundC RL.relayRoundLen (w.acc kr) rr ∧ rr.isInitialized = true ∧
      ∃ n, rr.accountKind = .relayRound n ∧ findAddr env (relayRoundSeeds rr.roundNumber) env.rlId = .ok (kr, n)) ∧
    (ctx.now.setWidth 32).toNat < rr.roundEnd.toNat := by
  simp only [loadRound, bind_ok, unpack_holds, orErr_ok, Prod.exists, intoSettings_some, intoRelayRound_some, validateSettings,
    validateRelayRound, validatePda_ok, require_ok, exists_const, Except.ok.injEq, Prod.mk.injEq]
  constructor
  · rintro ⟨s, ⟨h1, h2⟩, n, pn, hk, ha, r, ⟨h3, h4⟩, n', hk', ha', hnow, rfl, rfl⟩
    exact ⟨⟨h1, h2, n, pn, hk, ha⟩, ⟨h3, h4, n', hk', ha'⟩, hnow⟩
  · rintro ⟨⟨h1, h2, n, pn, hk, ha⟩, ⟨h3, h4, n', hk', ha'⟩, hnow⟩
    exact ⟨_, ⟨h1, h2⟩, n, pn, hk, ha, _, ⟨h3, h4⟩, n', hk', ha', hnow, rfl, rfl⟩

theorem openProxy_ok {payload : Bytes} {expected r f sys : Pubkey} {i : Nat} {att : U64} {pn : Option U8}
    (h : openProxy env ctx payload expected r f sys i att w = .ok (pn, w')) :
    (payload = [] ∧ pn = none ∧ w' = w) ∨
    (payload ≠ [] ∧ ∃ p n w1, pn = some n ∧ ctx.accounts[i]? = some p ∧
      findAddr env (proxySeeds expected r) ctx.program = .ok (p, n) ∧ (w.acc p).owner = env.systemId ∧
      (((w.acc p).data.len = 0 ∧ ∃ w2, createPdaFunded env ctx (fun a => ctx.isSigner a || a == p) f p 165 env.splId w = .ok w2 ∧
          splInitAccount env ctx p expected p w2 = .ok w1) ∨ ((w.acc p).data.len ≠ 0 ∧ w1 = w)) ∧
      sysTransfer env ctx ctx.signs f p att.toNat w1 = .ok w') := by
  unfold openProxy at h
  split at h
  · rename_i hp
    simp only [Except.ok.injEq, Prod.mk.injEq] at h
    exact .inl ⟨hp, h.1.symm, h.2.symm⟩
  · rename_i hp
    simp only [bind_ok, acct_ok, require_ok, exists_const, Prod.exists, Except.ok.injEq, Prod.mk.injEq] at h
    obtain ⟨p, hpa, m, -, spl, -, rfl, n, w1, h1, w2, h2, rfl, rfl⟩ := h
    obtain ⟨ha, ho, h3⟩ := createProxyAccount_ok h1
    exact .inr ⟨hp, p, n, w1, rfl, hpa, ha, ho, h3, h2⟩

theorem openWithdrawal_ok {E : Type} {ec : Codec E} {f au k : Pubkey} {rs : RL.Settings} {rr : RL.RelayRound} {pda : PDA}
    {len : U32} {e : E} {pn : Option U8} {tok : Bytes} {rec : Pubkey} {amt : U128}
    (h : openWithdrawal env ctx ec f au k rs rr pda len e pn tok rec amt w = .ok w') :
    ∃ n, findAddr env (proposalSeeds rr.roundNumber pda (env.hash (ec.enc e))) ctx.program = .ok (k, n) ∧
    (((w.acc k).lamports ≠ 0 ∧ w' = w) ∨
     ((w.acc k).lamports = 0 ∧ ∃ w1 w2 l,
        createPda env ctx f k (proposalSeeds rr.roundNumber pda (env.hash (ec.enc e))) n recLen ctx.program w = .ok w1 ∧
        putWithdrawal ctx ec (withdrawalRecord n pn au rr.roundNumber (RL.requiredVotes rr.relays.length rs.minRequiredVotes)
          pda len e (epochOf ctx.now) rr.relays.length) k w1 = .ok w2 ∧
        l = withdrawRequestLogC.enc ⟨k, tok, rec, amt, pda.eventTimestamp, pda.eventTransactionLt, pda.eventConfiguration,
          key.enc (env.hash (ec.enc e)), 0#64⟩ ∧
        sysTransfer env ctx ctx.signs f k (relayReparation * rr.relays.length) (w2.log l) = .ok w')) := by
  simp only [openWithdrawal, bind_ok, deriveAt_ok] at h
  obtain ⟨n, ha, h⟩ := h
  refine ⟨n, ha, ?_⟩
  split at h
  · rename_i hl
    simp only [bind_ok] at h
    obtain ⟨w1, h1, w2, h2, h3⟩ := h
    exact .inr ⟨hl, w1, w2, _, h1, h2, rfl, h3⟩
  · rename_i hl
    simp only [Except.ok.injEq] at h
    exact .inl ⟨hl, h.symm⟩

/-! ## What primitives leave alone -/

/-- Records of the token proxy's size survive. -/
def Keep (w w' : World) : Prop := ∀ k b, (w.acc k).data = .raw b → b.length = recLen → (w'.acc k).data = .raw b

theorem Keep.refl (w : World) : Keep w w := fun _ _ h _ => h
theorem Keep.trans {a b c : World} (h : Keep a b) (h' : Keep b c) : Keep a c := fun k x hx hl => h' k x (h k x hx hl) hl

/-- The operation neither writes nor closes records. -/
def Op.harmless : Op → Prop
  | .write _ _ _ => False
  | .close _ => False
  | _ => True

theorem Keep.exec {op : Op} (hop : Op.harmless op) (h : Exec env ctx op w w') : Keep w w' := by
  intro k b hb hl
  have hc := exec_ch h k
  cases hc with
  | same e => rw [e]; exact hb
  | gain _ _ hd _ => rw [hd]; exact hb
  | pay _ _ _ _ hd _ => rw [hd]; exact hb
  | move _ _ _ _ _ _ hd _ => rw [hd]; exact hb
  | write _ _ e _ _ _ _ _ => subst e; exact hop.elim
  | close e _ _ _ => subst e; exact hop.elim
  | create _ _ _ _ _ _ _ _ hlen _ _ _ => rw [hb] at hlen; simp only [Data.len] at hlen; rw [hl] at hlen; cases hlen
  | createFunded _ _ _ _ _ _ _ _ _ hlen _ _ _ _ => rw [hb] at hlen; simp only [Data.len] at hlen; rw [hl] at hlen; cases hlen
  | xferSrc _ _ _ _ _ _ _ _ _ hb' => rw [hb] at hb'; cases hb'
  | xferDst _ _ _ _ _ _ _ _ hb' => rw [hb] at hb'; cases hb'
  | mintDst _ _ _ _ _ _ _ _ hb' => rw [hb] at hb'; cases hb'
  | mintMint _ _ _ _ _ _ _ _ hb' => rw [hb] at hb'; cases hb'
  | burnSrc _ _ _ _ _ _ _ _ _ hb' => rw [hb] at hb'; cases hb'
  | burnMint _ _ _ _ _ _ _ _ hb' => rw [hb] at hb'; cases hb'
  | initAcc _ _ _ _ _ hb' => rw [hb] at hb'; injection hb' with e; rw [e, zeros, List.length_replicate, recLen] at hl; omega
  | initMint _ _ _ _ _ hb' => rw [hb] at hb'; injection hb' with e; rw [e, zeros, List.length_replicate, recLen] at hl; omega
  | sync _ _ _ _ _ hb' => rw [hb] at hb'; cases hb'

theorem holds_keep {α : Type} {c : Codec α} {k : Pubkey} {x : α} (h : Holds c recLen (w.acc k) x) (hk : Keep w w') :
    Holds c recLen (w'.acc k) x := by
  obtain ⟨b, r, hb, hl, hd⟩ := h
  exact ⟨b, r, hk k b hb hl, hl, hd⟩

/-- The first two fields, common to all records. -/
def headerC : Codec (Bool × AccountKind) := pair bool AccountKind.codec

theorem header_of {α β : Type} {c : Codec α} {d : Codec β} {hd : α → Bool × AccountKind} {tl : α → β} {b r : Bytes} {x : α}
    (he : ∀ a, c.enc a = headerC.enc (hd a) ++ d.enc (tl a)) (h : c.dec b = some (x, r)) :
    headerC.dec b = some (hd x, d.enc (tl x) ++ r) := by
  rw [headerC.law]
  refine ⟨by simp [headerC], ?_⟩
  rw [c.eq_of_dec h, he, List.append_assoc]

theorem header_settings {b r : Bytes} {x : Settings} (h : settingsC.dec b = some (x, r)) :
    ∃ s, headerC.dec b = some ((x.isInitialized, x.accountKind), s) :=
  ⟨_, header_of (d := pair bool (pair key (pair key key))) (hd := fun x => (x.isInitialized, x.accountKind))
    (tl := fun s => (s.emergency, s.guardian, s.manager, s.withdrawalManager))
    (by intro a; simp [settingsC, headerC]) h⟩

theorem header_multiVault {b r : Bytes} {x : MultiVault} (h : multiVaultC.dec b = some (x, r)) :
    ∃ s, headerC.dec b = some ((x.isInitialized, x.accountKind), s) :=
  ⟨_, header_of (d := unit) (hd := fun x => (x.isInitialized, x.accountKind)) (tl := fun _ => ())
    (by intro a; simp [multiVaultC, headerC]) h⟩

theorem header_token {b r : Bytes} {x : TokenSettings} (h : tokenSettingsC.dec b = some (x, r)) :
    ∃ s, headerC.dec b = some ((x.isInitialized, x.accountKind), s) :=
  ⟨_, header_of (d := (pair TokenKind.codec (pair str (pair str (pair u64 (pair u64 (pair u64 (pair u64 (pair i64 (pair bool (pair u64 (pair feeInfoC feeInfoC)))))))))))) (hd := fun x => (x.isInitialized, x.accountKind))
    (tl := fun s => (s.kind, s.name, s.symbol, s.depositLimit, s.withdrawalLimit, s.withdrawalDailyLimit, s.withdrawalDailyAmount, s.withdrawalEpoch, s.emergency, s.feeSupply, s.feeDepositInfo, s.feeWithdrawalInfo))
    (by intro a; simp [tokenSettingsC, headerC]) h⟩

theorem header_withdrawal {E : Type} {ec : Codec E} {b r : Bytes} {x : Withdrawal E} (h : (withdrawalC ec).dec b = some (x, r)) :
    ∃ s, headerC.dec b = some ((x.isInitialized, x.accountKind), s) :=
  ⟨_, header_of (d := (pair key (pair u32 (pair u32 (pair PDA.codec (pair u32 (pair ec (pair u32 (pair wmetaC (vec voteC)))))))))) (hd := fun x => (x.isInitialized, x.accountKind))
    (tl := fun s => (s.author, s.roundNumber, s.requiredVotes, s.pda, s.eventLen, s.event, s.metaLen, s.md, s.signers))
    (by intro a; simp [withdrawalC, headerC]) h⟩

theorem header_deposit {E : Type} {ec : Codec E} {b r : Bytes} {x : Deposit E} (h : (depositC ec).dec b = some (x, r)) :
    ∃ s, headerC.dec b = some ((x.isInitialized, x.accountKind), s) :=
  ⟨_, header_of (d := (pair key (pair u32 (pair ec (pair u32 u128))))) (hd := fun x => (x.isInitialized, x.accountKind))
    (tl := fun s => (s.author, s.eventLen, s.event, s.metaLen, s.seed))
    (by intro a; simp [depositC, headerC]) h⟩

theorem header_genericProposal {b r : Bytes} {x : GenericProposal} (h : GenericProposal.codec.dec b = some (x, r)) :
    ∃ s, headerC.dec b = some ((x.isInitialized, x.accountKind), s) :=
  ⟨_, header_of (d := (pair key (pair u32 (pair u32 (pair PDA.codec (pair bytes (pair bytes (vec voteC)))))))) (hd := fun x => (x.isInitialized, x.accountKind))
    (tl := fun s => (s.author, s.roundNumber, s.requiredVotes, s.pda, s.event, s.metaData, s.signers))
    (by intro a; simp [GenericProposal.codec, headerC]) h⟩

theorem header_genericDeposit {b r : Bytes} {x : GenericDeposit} (h : genericDepositC.dec b = some (x, r)) :
    ∃ s, headerC.dec b = some ((x.isInitialized, x.accountKind), s) :=
  ⟨_, header_of (d := (pair key (pair bytes bytes))) (hd := fun x => (x.isInitialized, x.accountKind))
    (tl := fun s => (s.author, s.event, s.metaData))
    (by intro a; simp [genericDepositC, headerC]) h⟩

end Verif.TP
