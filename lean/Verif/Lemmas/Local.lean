import Verif.NativeProxy.Processor
/-!
# Handlers only look at the accounts they are given

`patch S v pre w` is the state `w` with all accounts outside `S` taken from `v` and the records `pre` before its log. Every handler
commutes with it for every `S` containing the accounts of the instruction.
-/
set_option linter.unusedSimpArgs false
namespace Verif

attribute [local instance 2000] List.decidableBAll

def patch (S : List Pubkey) (v : Pubkey → Account) (pre : List Bytes) (w : World) : World :=
  ⟨fun k => if k ∈ S then w.acc k else v k, pre ++ w.logs⟩

variable {S : List Pubkey} {v : Pubkey → Account} {pre : List Bytes} {w : World} {k : Pubkey} {env : Env} {ctx : Ctx}

theorem patch_acc (h : k ∈ S) : (patch S v pre w).acc k = w.acc k := by simp [patch, h]

theorem patch_set {a : Account} (h : k ∈ S) : (patch S v pre w).set k a = patch S v pre (w.set k a) := by
  simp only [patch, World.set, World.mk.injEq, and_true]
  funext j
  by_cases e : j = k
  · subst e; simp [h]
  · simp [e]

theorem patch_log {b : Bytes} : (patch S v pre w).log b = patch S v pre (w.log b) := by simp [patch, World.log]

theorem patch_setLamports {n : Nat} (h : k ∈ S) : (patch S v pre w).setLamports k n = patch S v pre (w.setLamports k n) := by
  simp only [World.setLamports, patch_set h, patch_acc h]

theorem patch_setData {d : Data} (h : k ∈ S) : (patch S v pre w).setDataRaw k d = patch S v pre (w.setDataRaw k d) := by
  simp only [World.setDataRaw, patch_set h, patch_acc h]

theorem ex_map_ok {α β : Type} {f : α → β} {a : α} : (f <$> (.ok a : Except Err α)) = .ok (f a) := rfl
theorem ex_map_error {α β : Type} {f : α → β} {e : Err} : (f <$> (.error e : Except Err α)) = .error e := rfl
theorem ex_map_bind {α β γ : Type} {x : Except Err α} {f : α → Except Err β} {g : β → γ} : g <$> (x >>= f) = x >>= fun a => g <$> f a := by
  cases x <;> rfl
theorem ex_bind_map {α β γ : Type} {x : Except Err α} {f : α → β} {g : β → Except Err γ} : (f <$> x) >>= g = x >>= fun a => g (f a) := by
  cases x <;> rfl
theorem ex_map_ite {α β : Type} {c : Prop} [Decidable c] {x y : Except Err α} {f : α → β} :
    f <$> (if c then x else y) = if c then f <$> x else f <$> y := by split <;> rfl

theorem ex_bind_congr {α β : Type} {x : Except Err α} {f g : α → Except Err β} (h : ∀ a, x = .ok a → f a = g a) : x >>= f = x >>= g := by
  cases x with
  | error => rfl
  | ok a => exact h a rfl

theorem require_congr {c d : Prop} [Decidable c] [Decidable d] {e : Err} (h : c ↔ d) : require c e = require d e := by
  unfold require
  by_cases hc : c
  · rw [if_pos hc, if_pos (h.1 hc)]
  · rw [if_neg hc, if_neg fun hd => hc (h.2 hd)]

theorem acct_mem {i : Nat} (h : acct ctx i = .ok k) : k ∈ ctx.accounts := by
  rw [acct, orErr_ok] at h
  exact List.mem_of_getElem? h

theorem acct_congr {α : Type} {i : Nat} {f g : Pubkey → Except Err α} (hS : ∀ k ∈ ctx.accounts, k ∈ S) (h : ∀ k, k ∈ S → f k = g k) :
    (acct ctx i >>= f) = acct ctx i >>= g :=
  ex_bind_congr fun k hk => h k (hS k (acct_mem hk))

theorem ex_bind_congr2 {α β γ : Type} {x : Except Err (α × β)} {f g : α × β → Except Err γ} (h : ∀ a b, x = .ok (a, b) → f (a, b) = g (a, b)) :
    x >>= f = x >>= g :=
  ex_bind_congr fun p hp => h p.1 p.2 hp

/-- Go past the steps that are the same on both sides. -/
macro "peel" : tactic =>
  `(tactic| repeat first
    | refine acct_congr (by assumption) fun _ _ => ?_
    | refine ex_bind_congr2 fun _ _ _ => ?_
    | refine ex_bind_congr fun _ _ => ?_)

/-- Everything that is needed to push `patch` through a handler. -/
macro "patched" "[" ls:Lean.Parser.Tactic.simpLemma,* "]" : tactic =>
  `(tactic| simp (disch := assumption) only [ex_map_ok, ex_map_error, ex_map_bind, ex_bind_map, ex_map_ite, patch_acc, patch_set, patch_log,
    patch_setLamports, patch_setData, $ls,*])

/-! ## Runtime -/

theorem patch_data {d : Data} (h : k ∈ S) : setData ctx k d (patch S v pre w) = patch S v pre <$> setData ctx k d w := by
  unfold setData
  patched []

theorem patch_debit {n : Nat} (h : k ∈ S) : debit ctx k n (patch S v pre w) = patch S v pre <$> debit ctx k n w := by
  unfold debit
  patched []

theorem patch_credit {n : Nat} (h : k ∈ S) : credit ctx k n (patch S v pre w) = patch S v pre <$> credit ctx k n w := by
  unfold credit
  patched []

theorem patch_move {a b : Pubkey} {n : Nat} (h : a ∈ S) (h' : b ∈ S) :
    moveLamports ctx a b n (patch S v pre w) = patch S v pre <$> moveLamports ctx a b n w := by
  unfold moveLamports
  patched [patch_debit, patch_credit]

theorem patch_zero (h : k ∈ S) : zeroAccount env ctx k (patch S v pre w) = patch S v pre <$> zeroAccount env ctx k w := by
  unfold zeroAccount
  patched []

theorem patch_sys {sg : Pubkey → Bool} {a b : Pubkey} {n : Nat} (h : a ∈ S) (h' : b ∈ S) :
    sysTransfer env ctx sg a b n (patch S v pre w) = patch S v pre <$> sysTransfer env ctx sg a b n w := by
  unfold sysTransfer
  patched []

theorem patch_create {sg : Pubkey → Bool} {a b o : Pubkey} {n m : Nat} (h : a ∈ S) (h' : b ∈ S) :
    sysCreate env ctx sg a b n m o (patch S v pre w) = patch S v pre <$> sysCreate env ctx sg a b n m o w := by
  unfold sysCreate
  patched [patch_sys]

theorem patch_pda {a b o : Pubkey} {sd : List Bytes} {nc : U8} {n : Nat} (h : a ∈ S) (h' : b ∈ S) :
    createPda env ctx a b sd nc n o (patch S v pre w) = patch S v pre <$> createPda env ctx a b sd nc n o w := by
  unfold createPda
  patched [patch_create]

theorem patch_pack {α : Type} {c : Codec α} {n : Nat} {a : α} (h : k ∈ S) :
    pack ctx c n a k (patch S v pre w) = patch S v pre <$> pack ctx c n a k w := by
  unfold pack
  patched []
  split
  · split
    · patched [patch_data]
    · rfl
  · rfl

/-! ## Token program -/

theorem patch_call {l m : List Pubkey} (h : ∀ k ∈ l, k ∈ S) : splCall env ctx l m (patch S v pre w) = splCall env ctx l m w := by
  unfold splCall
  refine ex_bind_congr fun _ _ => ex_bind_congr fun _ _ => ex_bind_congr fun _ _ => ?_
  refine require_congr ?_
  exact ⟨fun H j hj => by have := H j hj; rwa [patch_acc (h j hj)] at this, fun H j hj => by rw [patch_acc (h j hj)]; exact H j hj⟩

theorem patch_call1 {a : Pubkey} {m : List Pubkey} (h : a ∈ S) : splCall env ctx [a] m (patch S v pre w) = splCall env ctx [a] m w :=
  patch_call (by simpa using h)

theorem patch_call2 {a b : Pubkey} {m : List Pubkey} (h : a ∈ S) (h' : b ∈ S) :
    splCall env ctx [a, b] m (patch S v pre w) = splCall env ctx [a, b] m w :=
  patch_call (by simpa using ⟨h, h'⟩)

theorem patch_xfer {sg : Pubkey → Bool} {a b o : Pubkey} {n : U64} (h : a ∈ S) (h' : b ∈ S) :
    splTransfer env ctx sg a b o n (patch S v pre w) = patch S v pre <$> splTransfer env ctx sg a b o n w := by
  unfold splTransfer
  patched [patch_call2]

theorem patch_mint {sg : Pubkey → Bool} {a b o : Pubkey} {n : U64} (h : a ∈ S) (h' : b ∈ S) :
    splMintTo env ctx sg a b o n (patch S v pre w) = patch S v pre <$> splMintTo env ctx sg a b o n w := by
  unfold splMintTo
  patched [patch_call2]

theorem patch_burn {sg : Pubkey → Bool} {a b o : Pubkey} {n : U64} (h : a ∈ S) (h' : b ∈ S) :
    splBurn env ctx sg a b o n (patch S v pre w) = patch S v pre <$> splBurn env ctx sg a b o n w := by
  unfold splBurn
  patched [patch_call2]

theorem patch_initAcc {a b o : Pubkey} (h : a ∈ S) (h' : b ∈ S) :
    splInitAccount env ctx a b o (patch S v pre w) = patch S v pre <$> splInitAccount env ctx a b o w := by
  unfold splInitAccount
  patched [patch_call1]

theorem patch_initMint {a o : Pubkey} {d : U8} (h : a ∈ S) :
    splInitMint env ctx a o d (patch S v pre w) = patch S v pre <$> splInitMint env ctx a o d w := by
  unfold splInitMint
  patched [patch_call1]

theorem patch_sync {a : Pubkey} (h : a ∈ S) : splSyncNative env ctx a (patch S v pre w) = patch S v pre <$> splSyncNative env ctx a w := by
  unfold splSyncNative
  patched [patch_call1]

theorem patch_funded {sg : Pubkey → Bool} {a b o : Pubkey} {n : Nat} (h : a ∈ S) (h' : b ∈ S) :
    createPdaFunded env ctx sg a b n o (patch S v pre w) = patch S v pre <$> createPdaFunded env ctx sg a b n o w := by
  unfold createPdaFunded
  patched [patch_create, patch_sys]
  split
  · rfl
  · refine ex_bind_congr fun _ _ => ex_bind_congr fun _ _ => ex_bind_congr fun _ _ => ex_bind_congr fun _ _ => ?_
    split
    · show (.ok _ : Except Err World) = .ok _
      patched []
    · patched [patch_sys]

theorem patch_ata {a b m : Pubkey} (hS : ∀ k ∈ ctx.accounts, k ∈ S) (h : a ∈ S) (hm : m ∈ S) :
    ataCreate env ctx a b m (patch S v pre w) = patch S v pre <$> ataCreate env ctx a b m w := by
  unfold ataCreate
  patched []
  refine ex_bind_congr fun x _ => ?_
  obtain ⟨k, n⟩ := x
  refine ex_bind_congr fun _ _ => ex_bind_congr fun _ h1 => ?_
  rw [require_ok] at h1
  have hk : k ∈ S := hS _ (h1 k (by simp))
  patched [patch_funded, patch_initAcc]

/-! ## Round loader -/

namespace RL

theorem patch_loadSettings (h : k ∈ S) : loadSettings env ctx k (patch S v pre w) = loadSettings env ctx k w := by
  unfold loadSettings
  patched []

theorem patch_loadRound (h : k ∈ S) : loadRelayRound env ctx k (patch S v pre w) = loadRelayRound env ctx k w := by
  unfold loadRelayRound
  patched []

theorem patch_open {a b c : Pubkey} {s : Settings} {n : U32} {l : List Pubkey} {e : U32} (h : a ∈ S) (h' : b ∈ S) (h'' : c ∈ S) :
    openRound env ctx a b c s n l e (patch S v pre w) = patch S v pre <$> openRound env ctx a b c s n l e w := by
  unfold openRound
  patched []
  peel
  patched [patch_pda, patch_pack]

theorem patch_run {i : Instr} (hS : ∀ k ∈ ctx.accounts, k ∈ S) : run env ctx i (patch S v pre w) = patch S v pre <$> run env ctx i w := by
  cases i with
  | voteForProposal x =>
    simp only [run, processVote]
    patched []
    peel
    patched [patch_loadRound, patch_pack, patch_move]
  | init g s m t =>
    simp only [run, processInitialize]
    patched []
    peel
    patched [patch_pda, patch_pack]
    peel
  | updateSettings r s m t =>
    simp only [run, processUpdateSettings]
    patched []
    peel
    patched [patch_pack]
    peel
  | createRelayRound n a e =>
    simp only [run, processCreateRelayRound]
    patched []
    peel
    patched [patch_loadSettings, patch_open]
  | createProposal r p d =>
    simp only [run, processCreateProposal]
    patched []
    peel
    patched [patch_pda, patch_pack]
  | writeProposal o b =>
    simp only [run, processWriteProposal]
    patched []
    peel
    patched [patch_data]
    cases unpackUnchecked proposalC proposalLen (w.acc _).data <;> cases (w.acc _).data <;> patched [patch_data]
  | finalizeProposal =>
    simp only [run, processFinalizeProposal]
    patched []
    peel
    patched [patch_loadSettings, patch_loadRound, patch_pack, patch_sys]
  | executeProposal =>
    simp only [run, processExecute]
    patched []
    peel
    patched [patch_loadSettings, patch_open, patch_pack]
  | executeProposalByAdmin =>
    simp only [run, processExecuteByAdmin]
    patched []
    peel
    patched [patch_loadSettings, patch_open, patch_pack]

end RL

/-! ## Token proxy -/

namespace TP

theorem patch_packRaw {α : Type} {c : Codec α} {a : α} (h : k ∈ S) :
    packRaw ctx c a k (patch S v pre w) = patch S v pre <$> packRaw ctx c a k w := by
  unfold packRaw
  patched []
  split <;> patched [patch_data]

theorem patch_loadGeneric (h : k ∈ S) : loadGeneric env ctx k (patch S v pre w) = loadGeneric env ctx k w := by
  unfold loadGeneric
  patched []

theorem patch_putSettings {s : Settings} (h : k ∈ S) : putSettings ctx s k (patch S v pre w) = patch S v pre <$> putSettings ctx s k w :=
  patch_pack h

theorem patch_putToken {s : TokenSettings} (h : k ∈ S) : putToken ctx s k (patch S v pre w) = patch S v pre <$> putToken ctx s k w :=
  patch_pack h

theorem patch_putWithdrawal {E : Type} {ec : Codec E} {r : Withdrawal E} (h : k ∈ S) :
    putWithdrawal ctx ec r k (patch S v pre w) = patch S v pre <$> putWithdrawal ctx ec r k w := patch_pack h

theorem patch_putDeposit {E : Type} {ec : Codec E} {r : Deposit E} (h : k ∈ S) :
    putDeposit ctx ec r k (patch S v pre w) = patch S v pre <$> putDeposit ctx ec r k w := patch_pack h

theorem patch_loadSettings (h : k ∈ S) : loadSettings env ctx k (patch S v pre w) = loadSettings env ctx k w := by
  unfold loadSettings
  patched []

theorem patch_loadSettings' (h : k ∈ S) : loadSettingsNoEmergency env ctx k (patch S v pre w) = loadSettingsNoEmergency env ctx k w := by
  unfold loadSettingsNoEmergency
  patched [patch_loadSettings]

theorem patch_loadEver (h : k ∈ S) : loadEver env ctx k (patch S v pre w) = loadEver env ctx k w := by
  unfold loadEver
  patched []

theorem patch_loadSol (h : k ∈ S) : loadSol env ctx k (patch S v pre w) = loadSol env ctx k w := by
  unfold loadSol
  patched []

theorem patch_loadToken (h : k ∈ S) : loadToken env ctx k (patch S v pre w) = loadToken env ctx k w := by
  unfold loadToken
  patched []

theorem patch_loadMulti (h : k ∈ S) : loadMultiVault env ctx k (patch S v pre w) = loadMultiVault env ctx k w := by
  unfold loadMultiVault
  patched []

theorem patch_loadWithdrawal {E : Type} {ec : Codec E} (h : k ∈ S) :
    loadWithdrawal ec env ctx k (patch S v pre w) = loadWithdrawal ec env ctx k w := by
  unfold loadWithdrawal
  patched []

theorem patch_authorize {a b : Pubkey} {n : U8} {i : Nat} (hS : ∀ k ∈ ctx.accounts, k ∈ S) :
    authorize env ctx a b n i (patch S v pre w) = authorize env ctx a b n i w := by
  unfold authorize
  split
  · rfl
  · peel
    patched []

theorem patch_owner {a b : Pubkey} {n : U8} (h : b ∈ S) : authorizeOwner env ctx a b n (patch S v pre w) = authorizeOwner env ctx a b n w := by
  unfold authorizeOwner
  patched []

theorem patch_loadRound {a b : Pubkey} (h : a ∈ S) (h' : b ∈ S) : loadRound env ctx a b (patch S v pre w) = loadRound env ctx a b w := by
  unfold loadRound
  patched []

theorem patch_check {p : Bytes} {kd : AccountKind} {a b c : Pubkey} (h : c ∈ S) :
    checkRecipient env ctx p kd a b c (patch S v pre w) = checkRecipient env ctx p kd a b c w := by
  unfold checkRecipient
  patched []

theorem patch_everTransfer {a b : Pubkey} {t : TokenSettings} {n : U64} (h : a ∈ S) (h' : b ∈ S) :
    makeEverTransfer env ctx a b t n (patch S v pre w) = patch S v pre <$> makeEverTransfer env ctx a b t n w := by
  unfold makeEverTransfer
  patched []
  peel
  patched [patch_mint]

theorem patch_solTransfer {a b : Pubkey} {t : TokenSettings} {n : U64} (h : a ∈ S) (h' : b ∈ S) :
    makeSolTransfer env ctx a b t n (patch S v pre w) = patch S v pre <$> makeSolTransfer env ctx a b t n w := by
  unfold makeSolTransfer
  patched []
  peel
  patched [patch_xfer]

theorem patch_delete {a b : Pubkey} (h : a ∈ S) (h' : b ∈ S) :
    deleteAccount env ctx a b (patch S v pre w) = patch S v pre <$> deleteAccount env ctx a b w := by
  unfold deleteAccount
  patched [patch_move, patch_zero]

theorem patch_createProxy {r f p m s l : Pubkey} (hf : f ∈ S) (hp : p ∈ S) (hm : m ∈ S) :
    createProxyAccount env ctx r f p m s l (patch S v pre w) = Prod.map id (patch S v pre) <$> createProxyAccount env ctx r f p m s l w := by
  unfold createProxyAccount
  patched []
  peel
  patched [patch_funded, patch_initAcc]
  rfl

theorem patch_openProxy {p : Bytes} {e r f s : Pubkey} {i : Nat} {n : U64} (hS : ∀ k ∈ ctx.accounts, k ∈ S) (hf : f ∈ S) :
    openProxy env ctx p e r f s i n (patch S v pre w) = Prod.map id (patch S v pre) <$> openProxy env ctx p e r f s i n w := by
  unfold openProxy
  split
  · rfl
  · patched []
    peel
    patched [patch_createProxy]
    peel
    simp only [Prod.map]
    patched [patch_sys]
    rfl

theorem patch_openWithdrawal {E : Type} {ec : Codec E} {f a k' : Pubkey} {rs : RL.Settings} {rr : RL.RelayRound} {pda : PDA} {len : U32} {ev : E}
    {pn : Option U8} {tk : Bytes} {r : Pubkey} {n : U128} (hf : f ∈ S) (hk : k' ∈ S) :
    openWithdrawal env ctx ec f a k' rs rr pda len ev pn tk r n (patch S v pre w) =
      patch S v pre <$> openWithdrawal env ctx ec f a k' rs rr pda len ev pn tk r n w := by
  unfold openWithdrawal
  patched [patch_pda, patch_putWithdrawal, patch_sys]

theorem patch_deploySol {f vt m t : Pubkey} {n y : Bytes} (hf : f ∈ S) (hv : vt ∈ S) (hm : m ∈ S) (ht : t ∈ S) :
    deployOnce env ctx f vt m t n y (patch S v pre w) = patch S v pre <$> deployOnce env ctx f vt m t n y w := by
  unfold deployOnce deploySol
  patched [patch_pda, patch_initAcc, patch_putToken]

theorem patch_deployEver {f m t : Pubkey} {e : WEverEvent} (hS : ∀ k ∈ ctx.accounts, k ∈ S) (hf : f ∈ S) (hm : m ∈ S) (ht : t ∈ S) :
    deployEver env ctx f m t e (patch S v pre w) = patch S v pre <$> deployEver env ctx f m t e w := by
  unfold deployEver
  patched [patch_pda, patch_initMint, patch_ata, patch_putToken]

theorem patch_settleEver {r : Withdrawal WEverEvent} {ts : TokenSettings} {m c : Pubkey} {n : U64} (hm : m ∈ S) (hc : c ∈ S) :
    settleEver env ctx r ts m c n (patch S v pre w) = Prod.map (patch S v pre) id <$> settleEver env ctx r ts m c n w := by
  unfold settleEver
  split
  · rfl
  · patched [patch_check, patch_everTransfer]
    rfl

theorem patch_payEver {k m c t : Pubkey} {r : Withdrawal WEverEvent} (hk : k ∈ S) (hm : m ∈ S) (hc : c ∈ S) (ht : t ∈ S) :
    payEver env ctx k m c t r (patch S v pre w) = patch S v pre <$> payEver env ctx k m c t r w := by
  unfold payEver
  patched [patch_loadEver]
  peel
  split
  · patched [patch_settleEver]
    peel
    simp only [Prod.map]
    patched [patch_putToken, patch_putWithdrawal]
    rfl
  · rfl

theorem patch_payFromVault {r : Withdrawal WSolEvent} {ts : TokenSettings} {m vt c : Pubkey} {n : U64} (hv : vt ∈ S) (hc : c ∈ S) :
    payFromVault env ctx r ts m vt c n (patch S v pre w) = Prod.map (patch S v pre) id <$> payFromVault env ctx r ts m vt c n w := by
  unfold payFromVault
  patched [patch_check, patch_solTransfer]
  rfl

theorem patch_payIfAllowed {r : Withdrawal WSolEvent} {ts : TokenSettings} {m vt c : Pubkey} {n : U64} (hv : vt ∈ S) (hc : c ∈ S) :
    payIfAllowed env ctx r ts m vt c n (patch S v pre w) = Prod.map (patch S v pre) id <$> payIfAllowed env ctx r ts m vt c n w := by
  unfold payIfAllowed
  patched [patch_payFromVault]
  rfl

theorem patch_settleSol {r : Withdrawal WSolEvent} {t : SolToken} {m vt c kt : Pubkey} {f n : U64} (hv : vt ∈ S) (hc : c ∈ S) (ht : kt ∈ S) :
    settleSol env ctx r t m vt c kt f n (patch S v pre w) = Prod.map (patch S v pre) id <$> settleSol env ctx r t m vt c kt f n w := by
  unfold settleSol
  cases r.md.status <;> try rfl
  · patched [patch_payIfAllowed]
    peel
    simp only [Prod.map]
    patched [patch_putToken]
  · exact patch_payFromVault hv hc

theorem patch_release {md : WMeta} {t : TokenSettings} {n : U64} {k : Pubkey} (h : k ∈ S) :
    releaseDaily ctx md t n k (patch S v pre w) = patch S v pre <$> releaseDaily ctx md t n k w := by
  unfold releaseDaily
  patched [patch_putToken]

theorem patch_fillOne {a b d : Pubkey} {t : SolToken} {k c : Pubkey} (hb : b ∈ S) (hk : k ∈ S) (hc : c ∈ S) :
    fillOne env ctx a b d t k c (patch S v pre w) = Prod.map id (Prod.map id (patch S v pre)) <$> fillOne env ctx a b d t k c w := by
  unfold fillOne
  patched [patch_loadWithdrawal, patch_xfer, patch_putWithdrawal]
  rfl

theorem patch_fillLoop {a b d : Pubkey} {t : SolToken} (hb : b ∈ S) : ∀ {l : List Pubkey} {x y : U64} {w : World}, (∀ k ∈ l, k ∈ S) →
    fillLoop env ctx a b d t l x y (patch S v pre w) =
      Prod.map id (Prod.map id (Prod.map id (patch S v pre))) <$> fillLoop env ctx a b d t l x y w
  | [], _, _, _, _ => rfl
  | [_], _, _, _, _ => rfl
  | k :: c :: l, x, y, w, h => by
    have hk : k ∈ S := h k (by simp)
    have hc : c ∈ S := h c (by simp)
    simp only [fillLoop]
    patched [patch_fillOne]
    peel
    simp only [Prod.map]
    exact patch_fillLoop hb fun j hj => h j (by simp [hj])

theorem fillLoop_rest {a b d : Pubkey} {t : SolToken} : ∀ {l r : List Pubkey} {x y x' y' : U64} {w w' : World},
    fillLoop env ctx a b d t l x y w = .ok (r, x', y', w') → ∀ k ∈ r, k ∈ l
  | [], r, _, _, _, _, _, _, h => by simp only [fillLoop, Except.ok.injEq, Prod.mk.injEq] at h; rw [← h.1]; exact fun _ h => h
  | [_], r, _, _, _, _, _, _, h => by simp only [fillLoop, Except.ok.injEq, Prod.mk.injEq] at h; rw [← h.1]; exact fun _ h => h
  | _ :: _ :: l, r, _, _, _, _, _, _, h => by
    simp only [fillLoop, bind_ok, Prod.exists] at h
    obtain ⟨_, _, _, _, h⟩ := h
    exact fun k hk => by simp [fillLoop_rest h k hk]

theorem patch_fill {sd : U128} {rc : EverAddress} {a x : U64} {e : Pubkey} {py : Bytes} (hS : ∀ k ∈ ctx.accounts, k ∈ S) :
    processFill env ctx sd rc a x e py (patch S v pre w) = patch S v pre <$> processFill env ctx sd rc a x e py w := by
  have hl : ∀ k ∈ ctx.accounts.drop 11, k ∈ S := fun k hk => hS k (List.mem_of_mem_drop hk)
  unfold processFill
  patched []
  peel
  patched [patch_loadSettings', patch_loadSol, patch_loadMulti, patch_sys, patch_fillLoop]
  peel
  rename_i r y z w1 h
  simp only [Prod.map, id_eq]
  patched [patch_pda]
  peel
  rename_i k hk _ _
  have hk : k ∈ S := hl k (fillLoop_rest (w' := w1.2.2) h k (by rw [orErr_ok] at hk; exact List.mem_of_getElem? hk))
  patched [patch_xfer, patch_putDeposit]

variable {cpi : Pubkey → World → Except Err World}

theorem patch_payload {a b : Pubkey} {n : Option U8} {p : Bytes} (hc : ∀ k w, cpi k (patch S v pre w) = patch S v pre <$> cpi k w) :
    runPayload env ctx cpi a b n p (patch S v pre w) = patch S v pre <$> runPayload env ctx cpi a b n p w := by
  unfold runPayload
  patched []
  simp only [hc]

theorem patch_role {f : Settings → Settings} (hS : ∀ k ∈ ctx.accounts, k ∈ S) :
    processChangeRole env ctx f (patch S v pre w) = patch S v pre <$> processChangeRole env ctx f w := by
  unfold processChangeRole
  patched []
  peel
  patched [patch_loadSettings, patch_owner, patch_putSettings]
  peel

theorem patch_limits {f : TokenSettings → TokenSettings} (hS : ∀ k ∈ ctx.accounts, k ∈ S) :
    processChangeLimits env ctx f (patch S v pre w) = patch S v pre <$> processChangeLimits env ctx f w := by
  unfold processChangeLimits
  patched []
  peel
  patched [patch_loadSettings]
  peel
  patched [patch_authorize, patch_loadToken, patch_putToken]

theorem patch_voteForWithdrawRequest (hS : ∀ k ∈ ctx.accounts, k ∈ S) :
    ∀ x, run env ctx cpi (.voteForWithdrawRequest x) (patch S v pre w) = patch S v pre <$> run env ctx cpi (.voteForWithdrawRequest x) w := by
  intro x
  simp only [run, processVote]
  patched []
  peel
  patched [patch_loadGeneric, patch_packRaw, patch_move]

theorem patch_withdrawMultiTokenEver (hS : ∀ k ∈ ctx.accounts, k ∈ S) :
    run env ctx cpi (.withdrawMultiTokenEver) (patch S v pre w) = patch S v pre <$> run env ctx cpi (.withdrawMultiTokenEver) w := by
  simp only [run, processWithdrawEver]
  patched []
  peel
  patched [patch_loadSettings', patch_loadWithdrawal]
  peel
  split
  · split
    · rfl
    · rename_i f hf
      have hf : f ∈ S := hS f (List.mem_of_getElem? hf)
      patched [patch_deployEver, patch_payEver]
  · patched [patch_payEver]

theorem patch_withdrawMultiTokenSol (hS : ∀ k ∈ ctx.accounts, k ∈ S) :
    run env ctx cpi (.withdrawMultiTokenSol) (patch S v pre w) = patch S v pre <$> run env ctx cpi (.withdrawMultiTokenSol) w := by
  simp only [run, processWithdrawSol]
  patched []
  peel
  patched [patch_loadSettings', patch_loadWithdrawal, patch_loadSol]
  peel
  split
  · patched [patch_settleSol]
    peel
    simp only [Prod.map]
    patched [patch_putWithdrawal]
    rfl
  · rfl

theorem patch_executePayloadEver (hS : ∀ k ∈ ctx.accounts, k ∈ S) (hc : ∀ k w, cpi k (patch S v pre w) = patch S v pre <$> cpi k w) :
    run env ctx cpi (.executePayloadEver) (patch S v pre w) = patch S v pre <$> run env ctx cpi (.executePayloadEver) w := by
  simp only [run, processExecutePayloadEver]
  patched []
  peel
  patched []
  peel
  split
  · peel
    simp only [patch_payload hc]
    patched [patch_putWithdrawal]
  · rfl

theorem patch_executePayloadSol (hS : ∀ k ∈ ctx.accounts, k ∈ S) (hc : ∀ k w, cpi k (patch S v pre w) = patch S v pre <$> cpi k w) :
    run env ctx cpi (.executePayloadSol) (patch S v pre w) = patch S v pre <$> run env ctx cpi (.executePayloadSol) w := by
  simp only [run, processExecutePayloadSol]
  patched []
  peel
  patched []
  peel
  split
  · peel
    simp only [patch_payload hc]
    patched [patch_putWithdrawal]
  · rfl

theorem patch_init (hS : ∀ k ∈ ctx.accounts, k ∈ S) :
    ∀ g m x, run env ctx cpi (.init g m x) (patch S v pre w) = patch S v pre <$> run env ctx cpi (.init g m x) w := by
  intro g m x
  simp only [run, processInitialize]
  patched []
  peel
  patched [patch_pda, patch_putSettings, patch_pack]
  peel

theorem patch_depositMultiTokenEver (hS : ∀ k ∈ ctx.accounts, k ∈ S) :
    ∀ s a r x e p, run env ctx cpi (.depositMultiTokenEver s a r x e p) (patch S v pre w) = patch S v pre <$> run env ctx cpi (.depositMultiTokenEver s a r x e p) w := by
  intro s a r x e p
  simp only [run, processDepositEver]
  patched []
  peel
  patched [patch_loadSettings', patch_loadEver, patch_loadMulti, patch_burn, patch_pda, patch_putDeposit, patch_putToken, patch_sys]

theorem patch_depositMultiTokenSol (hS : ∀ k ∈ ctx.accounts, k ∈ S) :
    ∀ s n y a r x e p, run env ctx cpi (.depositMultiTokenSol s n y a r x e p) (patch S v pre w) = patch S v pre <$> run env ctx cpi (.depositMultiTokenSol s n y a r x e p) w := by
  intro s n y a r x e p
  simp only [run, processDepositSol]
  patched []
  peel
  patched [patch_loadSettings', patch_deploySol, patch_loadSol, patch_loadMulti, patch_xfer, patch_pda, patch_putDeposit, patch_putToken, patch_sys]

theorem patch_withdrawMultiTokenEverRequest (hS : ∀ k ∈ ctx.accounts, k ∈ S) :
    ∀ pda t n y d r a p att, run env ctx cpi (.withdrawMultiTokenEverRequest pda t n y d r a p att) (patch S v pre w) = patch S v pre <$> run env ctx cpi (.withdrawMultiTokenEverRequest pda t n y d r a p att) w := by
  intro pda t n y d r a p att
  simp only [run, processEverRequest]
  patched []
  peel
  patched [patch_loadRound]
  peel
  patched [patch_openProxy]
  peel
  simp only [Prod.map]
  patched [patch_openWithdrawal]
  rfl

theorem patch_withdrawMultiTokenSolRequest (hS : ∀ k ∈ ctx.accounts, k ∈ S) :
    ∀ pda r a p att, run env ctx cpi (.withdrawMultiTokenSolRequest pda r a p att) (patch S v pre w) = patch S v pre <$> run env ctx cpi (.withdrawMultiTokenSolRequest pda r a p att) w := by
  intro pda r a p att
  simp only [run, processSolRequest]
  patched []
  peel
  patched [patch_loadSol, patch_loadRound]
  peel
  patched [patch_openProxy]
  peel
  simp only [Prod.map]
  patched [patch_openWithdrawal]
  rfl

theorem patch_enableEmergencyMode (hS : ∀ k ∈ ctx.accounts, k ∈ S) :
    run env ctx cpi (.enableEmergencyMode) (patch S v pre w) = patch S v pre <$> run env ctx cpi (.enableEmergencyMode) w := by
  simp only [run, processEnableEmergency]
  patched []
  peel
  patched [patch_loadSettings]
  peel
  patched [patch_authorize, patch_putSettings]

theorem patch_disableEmergencyMode (hS : ∀ k ∈ ctx.accounts, k ∈ S) :
    run env ctx cpi (.disableEmergencyMode) (patch S v pre w) = patch S v pre <$> run env ctx cpi (.disableEmergencyMode) w := by
  simp only [run, processDisableEmergency]
  patched []
  peel
  patched [patch_loadSettings]
  peel
  patched [patch_owner, patch_putSettings]

theorem patch_enableTokenEmergencyMode (hS : ∀ k ∈ ctx.accounts, k ∈ S) :
    run env ctx cpi (.enableTokenEmergencyMode) (patch S v pre w) = patch S v pre <$> run env ctx cpi (.enableTokenEmergencyMode) w := by
  simp only [run, processEnableTokenEmergency]
  patched []
  peel
  patched [patch_loadSettings]
  peel
  patched [patch_authorize, patch_loadToken, patch_putToken]

theorem patch_disableTokenEmergencyMode (hS : ∀ k ∈ ctx.accounts, k ∈ S) :
    run env ctx cpi (.disableTokenEmergencyMode) (patch S v pre w) = patch S v pre <$> run env ctx cpi (.disableTokenEmergencyMode) w := by
  simp only [run, processDisableTokenEmergency]
  patched []
  peel
  patched [patch_loadSettings]
  peel
  patched [patch_owner, patch_loadToken, patch_putToken]

theorem patch_approveWithdrawEver (hS : ∀ k ∈ ctx.accounts, k ∈ S) :
    run env ctx cpi (.approveWithdrawEver) (patch S v pre w) = patch S v pre <$> run env ctx cpi (.approveWithdrawEver) w := by
  simp only [run, processApproveEver]
  patched []
  peel
  patched [patch_loadSettings']
  peel
  patched [patch_loadWithdrawal, patch_loadEver, patch_authorize, patch_check, patch_everTransfer, patch_release, patch_putWithdrawal]

theorem patch_approveWithdrawSol (hS : ∀ k ∈ ctx.accounts, k ∈ S) :
    run env ctx cpi (.approveWithdrawSol) (patch S v pre w) = patch S v pre <$> run env ctx cpi (.approveWithdrawSol) w := by
  simp only [run, processApproveSol]
  patched []
  peel
  patched [patch_loadSettings']
  peel
  patched [patch_loadWithdrawal, patch_loadSol, patch_authorize]
  peel
  patched [patch_payFromVault]
  peel
  simp only [Prod.map]
  patched [patch_release, patch_putWithdrawal]
  rfl

theorem patch_updateFee (hS : ∀ k ∈ ctx.accounts, k ∈ S) :
    ∀ f m d, run env ctx cpi (.updateFee f m d) (patch S v pre w) = patch S v pre <$> run env ctx cpi (.updateFee f m d) w := by
  intro f m d
  simp only [run, processUpdateFee]
  patched []
  peel
  patched [patch_loadSettings]
  peel
  patched [patch_authorize, patch_loadToken, patch_putToken]

theorem patch_updateTokenName (hS : ∀ k ∈ ctx.accounts, k ∈ S) :
    ∀ y n, run env ctx cpi (.updateTokenName y n) (patch S v pre w) = patch S v pre <$> run env ctx cpi (.updateTokenName y n) w := by
  intro y n
  simp only [run, processUpdateTokenName]
  patched []
  peel
  patched [patch_loadSettings]
  peel
  patched [patch_authorize, patch_loadSol, patch_putToken]

theorem patch_withdrawEverFee (hS : ∀ k ∈ ctx.accounts, k ∈ S) :
    ∀ a, run env ctx cpi (.withdrawEverFee a) (patch S v pre w) = patch S v pre <$> run env ctx cpi (.withdrawEverFee a) w := by
  intro a
  simp only [run, processWithdrawEverFee]
  patched []
  peel
  patched [patch_loadSettings]
  peel
  patched [patch_authorize, patch_loadEver, patch_everTransfer, patch_putToken]

theorem patch_withdrawSolFee (hS : ∀ k ∈ ctx.accounts, k ∈ S) :
    ∀ a, run env ctx cpi (.withdrawSolFee a) (patch S v pre w) = patch S v pre <$> run env ctx cpi (.withdrawSolFee a) w := by
  intro a
  simp only [run, processWithdrawSolFee]
  patched []
  peel
  patched [patch_loadSettings]
  peel
  patched [patch_authorize, patch_loadSol, patch_solTransfer, patch_putToken]

theorem patch_changeBountyForWithdrawSol (hS : ∀ k ∈ ctx.accounts, k ∈ S) :
    ∀ b, run env ctx cpi (.changeBountyForWithdrawSol b) (patch S v pre w) = patch S v pre <$> run env ctx cpi (.changeBountyForWithdrawSol b) w := by
  intro b
  simp only [run, processChangeBounty]
  patched []
  peel
  patched [patch_loadWithdrawal, patch_putWithdrawal]

theorem patch_cancelWithdrawSol (hS : ∀ k ∈ ctx.accounts, k ∈ S) :
    ∀ s r x e p, run env ctx cpi (.cancelWithdrawSol s r x e p) (patch S v pre w) = patch S v pre <$> run env ctx cpi (.cancelWithdrawSol s r x e p) w := by
  intro s r x e p
  simp only [run, processCancel]
  patched []
  peel
  patched [patch_loadSettings', patch_loadWithdrawal, patch_loadSol, patch_loadMulti, patch_sys, patch_pda, patch_putDeposit, patch_putWithdrawal]

theorem patch_withdrawProxy (hS : ∀ k ∈ ctx.accounts, k ∈ S) :
    ∀ n, run env ctx cpi (.withdrawProxy n) (patch S v pre w) = patch S v pre <$> run env ctx cpi (.withdrawProxy n) w := by
  intro n
  simp only [run, processWithdrawProxy]
  patched []
  peel
  patched [patch_xfer]

theorem patch_closeDeposit (hS : ∀ k ∈ ctx.accounts, k ∈ S) :
    run env ctx cpi (.closeDeposit) (patch S v pre w) = patch S v pre <$> run env ctx cpi (.closeDeposit) w := by
  simp only [run, processCloseDeposit]
  patched []
  peel
  patched [patch_delete]

theorem patch_closeWithdrawal (hS : ∀ k ∈ ctx.accounts, k ∈ S) :
    run env ctx cpi (.closeWithdrawal) (patch S v pre w) = patch S v pre <$> run env ctx cpi (.closeWithdrawal) w := by
  simp only [run, processCloseWithdrawal]
  patched []
  peel
  patched [patch_loadGeneric, patch_delete]

theorem patch_withdrawMultiVault (hS : ∀ k ∈ ctx.accounts, k ∈ S) :
    ∀ a, run env ctx cpi (.withdrawMultiVault a) (patch S v pre w) = patch S v pre <$> run env ctx cpi (.withdrawMultiVault a) w := by
  intro a
  simp only [run, processWithdrawMultiVault]
  patched []
  peel
  patched [patch_loadSettings]
  peel
  patched [patch_authorize, patch_loadMulti, patch_move]

theorem patch_run {i : Instr} (hS : ∀ k ∈ ctx.accounts, k ∈ S) (hc : ∀ k w, cpi k (patch S v pre w) = patch S v pre <$> cpi k w) :
    run env ctx cpi i (patch S v pre w) = patch S v pre <$> run env ctx cpi i w := by
  cases i with
  | voteForWithdrawRequest x => exact patch_voteForWithdrawRequest hS _
  | withdrawMultiTokenEver => exact patch_withdrawMultiTokenEver hS
  | withdrawMultiTokenSol => exact patch_withdrawMultiTokenSol hS
  | executePayloadEver => exact patch_executePayloadEver hS hc
  | executePayloadSol => exact patch_executePayloadSol hS hc
  | init g m x => exact patch_init hS _ _ _
  | depositMultiTokenEver s a r x e p => exact patch_depositMultiTokenEver hS _ _ _ _ _ _
  | depositMultiTokenSol s n y a r x e p => exact patch_depositMultiTokenSol hS _ _ _ _ _ _ _ _
  | withdrawMultiTokenEverRequest pda t n y d r a p att => exact patch_withdrawMultiTokenEverRequest hS _ _ _ _ _ _ _ _ _
  | withdrawMultiTokenSolRequest pda r a p att => exact patch_withdrawMultiTokenSolRequest hS _ _ _ _ _
  | changeGuardian k => simp only [run]; exact patch_role hS
  | changeManager k => simp only [run]; exact patch_role hS
  | changeWithdrawalManager k => simp only [run]; exact patch_role hS
  | changeDepositLimit n => simp only [run]; exact patch_limits hS
  | changeWithdrawalLimits a b => simp only [run]; exact patch_limits hS
  | enableEmergencyMode => exact patch_enableEmergencyMode hS
  | disableEmergencyMode => exact patch_disableEmergencyMode hS
  | enableTokenEmergencyMode => exact patch_enableTokenEmergencyMode hS
  | disableTokenEmergencyMode => exact patch_disableTokenEmergencyMode hS
  | approveWithdrawEver => exact patch_approveWithdrawEver hS
  | approveWithdrawSol => exact patch_approveWithdrawSol hS
  | updateFee f m d => exact patch_updateFee hS _ _ _
  | updateTokenName y n => exact patch_updateTokenName hS _ _
  | withdrawEverFee a => exact patch_withdrawEverFee hS _
  | withdrawSolFee a => exact patch_withdrawSolFee hS _
  | changeBountyForWithdrawSol b => exact patch_changeBountyForWithdrawSol hS _
  | cancelWithdrawSol s r x e p => exact patch_cancelWithdrawSol hS _ _ _ _ _
  | fillWithdrawSol s r a x e p => simp only [run]; exact patch_fill hS
  | withdrawProxy n => exact patch_withdrawProxy hS _
  | closeDeposit => exact patch_closeDeposit hS
  | closeWithdrawal => exact patch_closeWithdrawal hS
  | withdrawMultiVault a => exact patch_withdrawMultiVault hS _

theorem patch_process {d : Bytes} (hS : ∀ k ∈ ctx.accounts, k ∈ S) (hc : ∀ k w, cpi k (patch S v pre w) = patch S v pre <$> cpi k w) :
    process env ctx cpi d (patch S v pre w) = patch S v pre <$> process env ctx cpi d w := by
  unfold process
  patched []
  peel
  exact patch_run hS hc

end TP

/-! ## Native proxy -/

namespace NP

theorem patch_wrap {a : U64} (hS : ∀ k ∈ ctx.accounts, k ∈ S) : wrap env ctx a (patch S v pre w) = patch S v pre <$> wrap env ctx a w := by
  have hens : ∀ {f c t : Pubkey} {w : World}, f ∈ S → t ∈ S → env.nativeMint ∈ S →
      ensureToken env ctx f c t (patch S v pre w) = patch S v pre <$> ensureToken env ctx f c t w := by
    intro f c t w h1 h2 h3
    unfold ensureToken
    patched [patch_ata]
  unfold wrap
  patched []
  refine acct_congr hS fun f hf => acct_congr hS fun c hc => acct_congr hS fun t ht => acct_congr hS fun _ _ => acct_congr hS fun _ _ =>
    acct_congr hS fun m hm => ex_bind_congr fun _ h1 => ex_bind_congr2 fun k n h2 => ex_bind_congr fun _ h3 => ?_
  rw [require_ok] at h1 h3
  subst h3
  rw [h1] at hm
  patched [hens, patch_sys, patch_sync]

theorem patch_run {i : Instr} (hS : ∀ k ∈ ctx.accounts, k ∈ S) : run env ctx i (patch S v pre w) = patch S v pre <$> run env ctx i w := by
  obtain ⟨sd, a, r, x, e, p⟩ := i
  simp only [run, processDeposit]
  patched [patch_wrap]
  refine ex_bind_congr fun w1 _ => acct_congr hS fun f hf => acct_congr hS fun c hc => acct_congr hS fun t ht => ex_bind_congr fun ix h1 =>
    ex_bind_congr fun c2 h2 => ?_
  refine TP.patch_process (fun k hk => ?_) (fun _ _ => rfl)
  simp only [invokeCtx, bind_ok, require_ok, exists_const, Except.ok.injEq] at h2
  obtain ⟨-, h3, -, -, rfl⟩ := h2
  obtain ⟨m, hm, rfl⟩ := List.mem_map.1 hk
  exact hS _ (h3 m hm)

end NP

end Verif
