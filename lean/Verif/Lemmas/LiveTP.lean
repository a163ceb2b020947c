import Verif.Lemmas.LiveRL
/-!
# Instructions of the token proxy that succeed: building blocks
-/
set_option linter.unusedSimpArgs false
namespace Verif.TP
open Codec Verif

variable {env : Env} {ctx : Ctx} {w w' w1 : World} {cpi : Pubkey → World → Except Err World}

theorem process_enc {i : Instr} (h : Instr.codec.wf i = true) : process env ctx cpi (Instr.codec.enc i) w = run env ctx cpi i w := by
  simp only [process, Codec.decAll_enc _ _ h, orErr, bind, Except.bind]

/-! ## Loading -/

theorem loadSettings_live {ks : Pubkey} {s : Settings} (hp : ctx.program = env.tpId) (h : Ready env w ks s) :
    ∃ pn pd, loadSettings env ctx ks w = .ok (s, pn) ∧ findAddr env [seedKey ctx.program] env.loaderId = .ok (pd, pn) := by
  obtain ⟨⟨-, hh, hi, -⟩, n, pn, pd, hk, ha, hd⟩ := h
  rw [hp]
  exact ⟨pn, pd, loadSettings_ok.2 ⟨hh, hi, n, hk, by rw [hp]; exact ha⟩, hd⟩

theorem loadNoEmergency_live {ks : Pubkey} {s : Settings} (hp : ctx.program = env.tpId) (h : Ready env w ks s) (he : s.emergency = false) :
    ∃ pn pd, loadSettingsNoEmergency env ctx ks w = .ok (s, pn) ∧ findAddr env [seedKey ctx.program] env.loaderId = .ok (pd, pn) := by
  obtain ⟨pn, pd, h1, h2⟩ := loadSettings_live hp h
  exact ⟨pn, pd, loadSettingsNoEmergency_ok.2 ⟨h1, he⟩, h2⟩

theorem loadToken_live {kt : Pubkey} {t : TokenSettings} (hp : ctx.program = env.tpId) (h : TokenReady env w kt t) :
    loadToken env ctx kt w = .ok t := by
  obtain ⟨⟨-, hh, hi, -⟩, n, m, hk, ha⟩ := h
  refine loadToken_ok.2 ⟨hh, hi, n, m, hk, ?_⟩
  rw [hp]
  cases hkd : t.kind <;> rw [hkd] at ha <;> exact ha

theorem SolReady.token {mint kt kv : Pubkey} {t : TokenSettings} {v : TokenAcc} (h : SolReady env w mint kt kv t v) : TokenReady env w kt t := by
  obtain ⟨n, m, hk, ha, -⟩ := h.addr
  exact ⟨h.here, n, m, hk, by rw [h.kind]; exact ha⟩

theorem EverReady.token {tok : EverAddress} {kt km : Pubkey} {t : TokenSettings} {m : MintAcc} (h : EverReady env w tok kt km t m) :
    TokenReady env w kt t := by
  obtain ⟨n, mn, hk, ha, -⟩ := h.addr
  obtain ⟨d, hd⟩ := h.kind
  exact ⟨h.here, n, mn, hk, by rw [hd]; exact ha⟩

theorem loadSol_live {mint kt kv : Pubkey} {t : TokenSettings} {v : TokenAcc} (hp : ctx.program = env.tpId) (h : SolReady env w mint kt kv t v) :
    ∃ n vn, loadSol env ctx kt w = .ok ⟨t, mint, kv, vn⟩ ∧ t.accountKind = .tokenSettings n vn ∧
      findAddr env (vaultSeeds mint) ctx.program = .ok (kv, vn) := by
  obtain ⟨n, m, hk, ha, hv⟩ := h.addr
  obtain ⟨-, hh, hi, -⟩ := h.here
  rw [hp]
  exact ⟨n, m, loadSol_ok.2 ⟨hh, hi, h.kind, n, hk, by rw [hp]; exact ha⟩, hk, hv⟩

theorem loadEver_live {tok : EverAddress} {kt km : Pubkey} {t : TokenSettings} {m : MintAcc} (hp : ctx.program = env.tpId)
    (h : EverReady env w tok kt km t m) :
    ∃ d n mn, loadEver env ctx kt w = .ok ⟨t, tok, d, mn⟩ ∧ t.kind = .ever km tok d ∧ t.accountKind = .tokenSettings n mn ∧
      findAddr env (mintSeeds env tok) ctx.program = .ok (km, mn) := by
  obtain ⟨n, mn, hk, ha, hv⟩ := h.addr
  obtain ⟨d, hd⟩ := h.kind
  obtain ⟨-, hh, hi, -⟩ := h.here
  rw [hp]
  exact ⟨d, n, mn, loadEver_ok.2 ⟨hh, hi, km, n, hd, hk, by rw [hp]; exact ha⟩, hd, hk, hv⟩

theorem loadMulti_live {km : Pubkey} (hp : ctx.program = env.tpId) (h : MultiReady env w km) : loadMultiVault env ctx km w = .ok () := by
  obtain ⟨-, v, n, hh, hi, hk, ha⟩ := h
  exact loadMultiVault_ok.2 ⟨v, hh, hi, n, hk, by rw [hp]; exact ha⟩

theorem loadWd_live {E : Type} {ec : Codec E} {k : Pubkey} {r : Withdrawal E} (hp : ctx.program = env.tpId) (h : WdReady ec env w k r) :
    loadWithdrawal ec env ctx k w = .ok r := by
  obtain ⟨n, pn, hk, ha⟩ := h.addr
  exact loadWithdrawal_ok.2 ⟨h.holds, h.init, n, pn, hk, by rw [hp]; exact ha⟩

/-! ## Storing -/

theorem len_settings {s : Settings} : (settingsC.enc s).length ≤ recLen := by
  have := RL.len_kind s.accountKind
  simp only [settingsC, enc_iso, enc_pair, List.length_append, recLen, len_bool, len_key]
  omega

theorem putSettings_live {ks : Pubkey} {s s' : Settings} (hp : ctx.program = env.tpId) (h : SettingsAt env w ks s) (hw : ctx.isWritable ks = true) :
    ∃ w1, putSettings ctx s' ks w = .ok w1 ∧ Eff [ks] w w1 := by
  obtain ⟨ho, ⟨b, t, hb, hl, hdec⟩, -⟩ := h
  obtain ⟨w1, h1, -, -, -, -, h5⟩ := pack_live (c := settingsC) (a := s') hb hl (by simp [settingsC]) len_settings hw (ho.trans hp.symm)
  exact ⟨w1, h1, h5⟩

theorem fits_of_holds {α : Type} {c : Codec α} {len : Nat} {a : Account} {x : α} (h : Holds c len a x) :
    c.wf x = true ∧ (c.enc x).length ≤ len := by
  obtain ⟨b, t, hb, hl, hdec⟩ := h
  obtain ⟨hwf, he⟩ := (c.law _ _ _).1 hdec
  exact ⟨hwf, by rw [← hl, he]; simp⟩

/-- Token settings may change everything but the kind and the names and still fit. -/
theorem token_fits {t t' : TokenSettings} (h : tokenSettingsC.wf t = true) (hl : (tokenSettingsC.enc t).length ≤ recLen)
    (hk : t'.accountKind = t.accountKind) (hkd : t'.kind = t.kind) (hn : t'.name = t.name) (hy : t'.symbol = t.symbol) :
    tokenSettingsC.wf t' = true ∧ (tokenSettingsC.enc t').length ≤ recLen := by
  constructor
  · simp only [tokenSettingsC, wf_iso, wf_pair, Bool.and_eq_true] at h ⊢
    rw [hk, hkd, hn, hy]
    exact ⟨rfl, h.2.1, h.2.2.1, h.2.2.2.1, h.2.2.2.2.1, rfl, rfl, rfl, rfl, rfl, rfl, rfl, rfl, rfl⟩
  · refine Nat.le_trans (Nat.le_of_eq ?_) hl
    simp only [tokenSettingsC, enc_iso, enc_pair, List.length_append, hk, hkd, hn, hy, feeInfoC, len_bool, len_u64, len_i64]

theorem putToken_live {kt : Pubkey} {t t' : TokenSettings} (hp : ctx.program = env.tpId) (h : TokenAt env w kt t) (hw : ctx.isWritable kt = true)
    (hk : t'.accountKind = t.accountKind) (hkd : t'.kind = t.kind) (hn : t'.name = t.name) (hy : t'.symbol = t.symbol) :
    ∃ w1, putToken ctx t' kt w = .ok w1 ∧ Eff [kt] w w1 ∧ (∀ j, (w1.acc j).lamports = (w.acc j).lamports) := by
  obtain ⟨hf1, hf2⟩ := fits_of_holds h.2.1
  obtain ⟨g1, g2⟩ := token_fits hf1 hf2 hk hkd hn hy
  obtain ⟨ho, ⟨b, u, hb, hl, hdec⟩, -⟩ := h
  obtain ⟨w1, h1, -, -, h3, -, h5⟩ := pack_live (c := tokenSettingsC) (a := t') hb hl g1 g2 hw (ho.trans hp.symm)
  exact ⟨w1, h1, h5, h3⟩

/-- A withdrawal may change its status, bounty and votes and still fits. -/
theorem wd_fits {E : Type} {ec : Codec E} {r : Withdrawal E} {md : WMeta} {sg : List Vote} (h : (withdrawalC ec).wf r = true)
    (hl : ((withdrawalC ec).enc r).length ≤ recLen) (hs : sg.length = r.signers.length) :
    (withdrawalC ec).wf { r with md := md, signers := sg } = true ∧
      ((withdrawalC ec).enc { r with md := md, signers := sg }).length ≤ recLen := by
  constructor
  · simp only [withdrawalC, wf_iso, wf_pair, Bool.and_eq_true, wf_vec, decide_eq_true_eq] at h ⊢
    refine ⟨rfl, h.2.1, rfl, rfl, rfl, rfl, rfl, h.2.2.2.2.2.2.2.1, rfl, by simp [wmetaC], ?_, ?_⟩
    · rw [hs]; exact h.2.2.2.2.2.2.2.2.2.2.1
    · simp
  · refine Nat.le_trans (Nat.le_of_eq ?_) hl
    simp only [withdrawalC, enc_iso, enc_pair, List.length_append, RL.len_votes, hs, wmetaC, len_wstatusC, len_u64, len_i64]

theorem putWd_live {E : Type} {ec : Codec E} {k : Pubkey} {r : Withdrawal E} {md : WMeta} (hp : ctx.program = env.tpId)
    (h : WdReady ec env w k r) (hw : ctx.isWritable k = true) :
    ∃ w1, putWithdrawal ctx ec { r with md := md } k w = .ok w1 ∧ Eff [k] w w1 ∧ (∀ j, (w1.acc j).lamports = (w.acc j).lamports) := by
  obtain ⟨hf1, hf2⟩ := fits_of_holds h.holds
  obtain ⟨g1, g2⟩ := wd_fits (md := md) hf1 hf2 (sg := r.signers) rfl
  obtain ⟨ho, ⟨b, u, hb, hl, hdec⟩, -⟩ := h
  obtain ⟨w1, h1, -, -, h3, -, h5⟩ := pack_live (c := withdrawalC ec) (a := { r with md := md, signers := r.signers }) hb hl g1 g2 hw
    (ho.trans hp.symm)
  exact ⟨w1, h1, h5, h3⟩

/-! ## What survives -/

theorem Ready.eff {D : List Pubkey} {ks : Pubkey} {s : Settings} (h : Ready env w ks s) (he : Eff D w w1) (hk : ks ∉ D) : Ready env w1 ks s :=
  ⟨⟨(he ks hk).2.trans h.here.1, holds_eff he hk h.here.2.1, h.here.2.2⟩, h.addr⟩

theorem TokenAt.eff {D : List Pubkey} {kt : Pubkey} {t : TokenSettings} (h : TokenAt env w kt t) (he : Eff D w w1) (hk : kt ∉ D) :
    TokenAt env w1 kt t := ⟨(he kt hk).2.trans h.1, holds_eff he hk h.2.1, h.2.2⟩

theorem WdReady.eff {E : Type} {ec : Codec E} {D : List Pubkey} {k : Pubkey} {r : Withdrawal E} (h : WdReady ec env w k r) (he : Eff D w w1)
    (hk : k ∉ D) : WdReady ec env w1 k r := ⟨(he k hk).2.trans h.owner, holds_eff he hk h.holds, h.init, h.addr⟩

theorem MultiReady.eff {D : List Pubkey} {km : Pubkey} (h : MultiReady env w km) (he : Eff D w w1) (hk : km ∉ D) : MultiReady env w1 km := by
  obtain ⟨ho, v, n, hh, hr⟩ := h
  exact ⟨(he km hk).2.trans ho, v, n, holds_eff he hk hh, hr⟩

/-! ## Records of different kinds are at different addresses -/

theorem settings_ne_token {a : Account} {s : Settings} {t : TokenSettings} (h1 : Holds settingsC recLen a s) (h2 : Holds tokenSettingsC recLen a t)
    {n m : U8} (k1 : s.accountKind = .settings n m) {n' m' : U8} (k2 : t.accountKind = .tokenSettings n' m') : False := by
  have := (Head.unique (head_settings h1) (head_token h2)).2
  rw [k1, k2] at this; cases this

theorem token_ne_wd {E : Type} {ec : Codec E} {a : Account} {t : TokenSettings} {r : Withdrawal E} (h1 : Holds tokenSettingsC recLen a t)
    (h2 : Holds (withdrawalC ec) recLen a r) {n m : U8} (k1 : t.accountKind = .tokenSettings n m) {n' : U8} {m' : Option U8}
    (k2 : r.accountKind = .proposal n' m') : False := by
  have := (Head.unique (head_token h1) (head_withdrawal h2)).2
  rw [k1, k2] at this; cases this

theorem multi_ne_wd {E : Type} {ec : Codec E} {a : Account} {t : MultiVault} {r : Withdrawal E} (h1 : Holds multiVaultC recLen a t)
    (h2 : Holds (withdrawalC ec) recLen a r) {n : U8} (k1 : t.accountKind = .multiVault n) {n' : U8} {m' : Option U8}
    (k2 : r.accountKind = .proposal n' m') : False := by
  have := (Head.unique (head_multiVault h1) (head_withdrawal h2)).2
  rw [k1, k2] at this; cases this

theorem multi_ne_token {a : Account} {v : MultiVault} {t : TokenSettings} (h1 : Holds multiVaultC recLen a v)
    (h2 : Holds tokenSettingsC recLen a t) {n : U8} (k1 : v.accountKind = .multiVault n) {n' m' : U8}
    (k2 : t.accountKind = .tokenSettings n' m') : False := by
  have := (Head.unique (head_multiVault h1) (head_token h2)).2
  rw [k1, k2] at this; cases this

/-! ## Moving tokens -/

/-- Payment out of the vault of a Solana token. -/
theorem makeSolTransfer_live {mint kt kv dst : Pubkey} {t t' : TokenSettings} {v : TokenAcc} {n : U64} (hp : ctx.program = env.tpId)
    (h : SolReady env w mint kt kv t v) (hk : t'.kind = t.kind) (ha : t'.accountKind = t.accountKind) (hspl : env.splId ∈ ctx.accounts)
    (hkv : kv ∈ ctx.accounts) (hwv : ctx.isWritable kv = true) (hwd : ctx.isWritable dst = true) (hn : n.toNat ≤ v.amount.toNat)
    (hd : Payable env w dst mint n.toNat) :
    ∃ w1, makeSolTransfer env ctx kv dst t' n w = .ok w1 ∧ Eff [kv, dst] w w1 ∧ (w1.acc kv).owner = env.splId ∧
      (w1.acc dst).owner = env.splId ∧ (∀ j, j ≠ kv → j ≠ dst → w1.acc j = w.acc j) := by
  obtain ⟨m, vn, hkd, -, hv⟩ := h.addr
  obtain ⟨vo, vd, vm, vown, vdel, vfr⟩ := h.vault
  have hc := findAddr_create hv
  obtain ⟨w1, h1, h2⟩ := splTransfer_live (ctx := ctx) (sg := signsAs ctx kv) (src := kv) (dst := dst) (auth := kv) (mint := mint) (n := n) hspl
    hkv hwv hwd (by simp [signsAs]) ⟨vo, v, vd, vm, vown, by rw [vdel]; simp, vfr, hn, fun e => Nat.le_trans hn (h.native e)⟩ hd
  refine ⟨w1, ?_, h2⟩
  simp only [makeSolTransfer, bind_ok, orErr_ok, Prod.exists, intoSolana_some, intoTokenSettings_some, pdaSigns_ok]
  exact ⟨mint, kv, hk.trans h.kind, m, vn, ha.trans hkd, _, ⟨kv, by rw [hp]; exact hc, rfl⟩, h1⟩

/-- Minting of an Everscale token. -/
theorem makeEverTransfer_live {tok : EverAddress} {kt km dst : Pubkey} {t t' : TokenSettings} {m : MintAcc} {n : U64} (hp : ctx.program = env.tpId)
    (h : EverReady env w tok kt km t m) (hk : t'.kind = t.kind) (ha : t'.accountKind = t.accountKind) (hspl : env.splId ∈ ctx.accounts)
    (hkm : km ∈ ctx.accounts) (hwm : ctx.isWritable km = true) (hwd : ctx.isWritable dst = true) (hs : m.supply.toNat + n.toNat < 2 ^ 64)
    {d : TokenAcc} (ho : (w.acc dst).owner = env.splId) (hd : (w.acc dst).data = .token d) (hdm : d.mint = km) (hfr : d.frozen = false)
    (hnat : d.isNative = none) (hda : d.amount.toNat + n.toNat < 2 ^ 64) :
    ∃ w1, makeEverTransfer env ctx km dst t' n w = .ok w1 ∧ Eff [km, dst] w w1 ∧ (w1.acc km).owner = env.splId ∧
      (w1.acc dst).owner = env.splId ∧ (∀ j, j ≠ km → j ≠ dst → w1.acc j = w.acc j) := by
  obtain ⟨nn, mn, hkd, -, hv⟩ := h.addr
  obtain ⟨mo, md, ma⟩ := h.mint
  obtain ⟨dd, hkk⟩ := h.kind
  have hc := findAddr_create hv
  obtain ⟨w1, h1, h2⟩ := splMintTo_live (ctx := ctx) (sg := signsAs ctx km) (mint := km) (dst := dst) (auth := km) (n := n) hspl
    hkm hwm hwd (by simp [signsAs]) mo ho md hd ma hdm hfr hnat hda hs
  refine ⟨w1, ?_, h2⟩
  simp only [makeEverTransfer, bind_ok, orErr_ok, Prod.exists, intoEver_some, intoTokenSettings_some, pdaSigns_ok]
  exact ⟨km, tok, dd, hk.trans hkk, nn, mn, ha.trans hkd, _, ⟨km, by rw [hp]; exact hc, rfl⟩, h1⟩

/-! ## Votes and closing -/

theorem loadGeneric_live {k : Pubkey} {p : GenericProposal} (hp : ctx.program = env.tpId) (h : GenReady env w k p) :
    loadGeneric env ctx k w = .ok p := by
  obtain ⟨-, ⟨b, r, hb, hl, hd⟩, n, pn, hk, ha⟩ := h
  exact loadGeneric_ok.2 ⟨⟨b, r, hb, hd⟩, n, pn, hk, by rw [hp]; exact ha⟩

theorem packVotes_live {k : Pubkey} {p : GenericProposal} {sg : List Vote} (hp : ctx.program = env.tpId) (h : GenReady env w k p)
    (hs : sg.length = p.signers.length) (hw : ctx.isWritable k = true) :
    ∃ w1, packRaw ctx GenericProposal.codec { p with signers := sg } k w = .ok w1 ∧ Eff [k] w w1 ∧
      (w1.acc k).owner = (w.acc k).owner ∧ (∀ j, (w1.acc j).lamports = (w.acc j).lamports) := by
  obtain ⟨hf1, hf2⟩ := fits_of_holds h.holds
  obtain ⟨ho, ⟨b, u, hb, hl, hdec⟩, -⟩ := h
  have g1 : GenericProposal.codec.wf { p with signers := sg } = true := by
    simp only [GenericProposal.codec, wf_iso, wf_pair, Bool.and_eq_true, wf_vec, decide_eq_true_eq] at hf1 ⊢
    refine ⟨rfl, hf1.2.1, rfl, rfl, rfl, hf1.2.2.2.2.2.1, hf1.2.2.2.2.2.2.1, hf1.2.2.2.2.2.2.2.1, ?_, ?_⟩
    · rw [hs]; exact hf1.2.2.2.2.2.2.2.2.1
    · simp
  have g2 : (GenericProposal.codec.enc { p with signers := sg }).length ≤ recLen := by
    refine Nat.le_trans (Nat.le_of_eq ?_) hf2
    simp only [GenericProposal.codec, enc_iso, enc_pair, List.length_append, RL.len_votes, hs]
  refine ⟨_, packRaw_ok.2 ⟨b, _, hb, ⟨g1, by omega, rfl⟩, .inr ⟨hw, ho.trans hp.symm⟩, rfl⟩, ?_, ?_, ?_⟩
  · intro j hj; simp only [List.mem_cons, List.not_mem_nil, or_false] at hj; simp [hj]
  · simp
  · intro j
    simp only [World.setDataRaw]
    by_cases e : j = k <;> simp [World.set, e]

theorem deleteAccount_live {k a : Pubkey} (hp : ctx.program = env.tpId) (ho : (w.acc k).owner = env.tpId) (hne : a ≠ k) (hwk : ctx.isWritable k = true)
    (hwa : ctx.isWritable a = true) (hmax : (w.acc a).lamports + (w.acc k).lamports < 2 ^ 64) :
    ∃ w1, deleteAccount env ctx k a w = .ok w1 := by
  obtain ⟨w1, h1, h2, -⟩ := moveLamports_live (ctx := ctx) (n := (w.acc k).lamports) (Nat.le_refl _) hwk hwa (ho.trans hp.symm) hne.symm hmax
  simp only [deleteAccount, zeroAccount, bind_ok, require_ok, exists_const]
  exact ⟨_, hne, w1, h1, (h2 k (by simp)).2.trans (ho.trans hp.symm), hwk, rfl⟩

end Verif.TP
