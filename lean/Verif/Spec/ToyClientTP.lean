import Verif.Spec.ToyClient
/-!
# The toy chain seen by a client: the token proxy
-/
namespace Verif.Toy
open Verif Codec TP

/-- equality of keys, checked on numbers -/
def same (a b : Pubkey) : Bool := Nat.beq a.toNat b.toNat
theorem same_eq {a b : Pubkey} (h : same a b = true) : a = b := BitVec.eq_of_toNat_eq (Nat.eq_of_beq_eq_true h)
theorem same_ne {a b : Pubkey} (h : same a b = false) : a ≠ b := fun e => by
  subst e
  simp [same] at h

def kindToken : AccountKind → Bool
  | .tokenSettings n m => Nat.beq n.toNat 255 && Nat.beq m.toNat 255
  | _ => false

theorem kindToken_eq {k : AccountKind} (h : kindToken k = true) : k = .tokenSettings 255#8 255#8 := by
  cases k <;> simp only [kindToken, Bool.and_eq_true, Bool.false_eq_true] at h
  rw [bump h.1, bump h.2]

theorem kindProposal_eq {k : AccountKind} (h : kindProposal k = true) : ∃ pn, k = .proposal 255#8 pn := by
  cases k with
  | proposal n pn => cases pn <;> exact ⟨_, by rw [bump h]⟩
  | _ => cases h

theorem tp_ready {P : Settings → Bool} {w : World}
    (h : tchk settingsC (fun s => s.isInitialized && (kindSettings s.accountKind && P s)) w tpSettings = true) :
    ∃ s, TP.Ready env w tpSettings s ∧ P s = true := by
  obtain ⟨s, ho, -, hh, h⟩ := tfind h
  simp only [Bool.and_eq_true] at h
  obtain ⟨hi, hk, hP⟩ := h
  unfold kindSettings at hk
  split at hk
  · rename_i n m e
    simp only [Bool.and_eq_true] at hk
    obtain rfl := bump hk.1
    obtain rfl := bump hk.2
    exact ⟨s, ⟨⟨ho, hh, hi, _, _, e⟩, _, _, _, e, findAddr_eq _ _, findAddr_eq _ _⟩, hP⟩
  · cases hk

def kindMulti : AccountKind → Bool
  | .multiVault n => Nat.beq n.toNat 255
  | _ => false

theorem tp_multi {w : World} (h : tchk multiVaultC (fun s => s.isInitialized && kindMulti s.accountKind) w tpMulti = true) :
    MultiReady env w tpMulti := by
  obtain ⟨s, ho, -, hh, h⟩ := tfind h
  simp only [Bool.and_eq_true] at h
  obtain ⟨hi, hk⟩ := h
  unfold kindMulti at hk
  split at hk
  · rename_i n e
    obtain rfl := bump hk
    exact ⟨ho, s, _, hh, hi, e, findAddr_eq _ _⟩
  · cases hk

/-- the settings of a token at the address of its kind -/
theorem tp_token {P : TokenSettings → Bool} {w : World} {k : Pubkey} (h : tchk tokenSettingsC (fun s => s.isInitialized &&
      (kindToken s.accountKind && (same (addr (tokenSeeds env s.kind) env.tpId) k && P s))) w k = true) :
    ∃ t, TokenReady env w k t ∧ P t = true := by
  obtain ⟨s, ho, -, hh, h⟩ := tfind h
  simp only [Bool.and_eq_true] at h
  obtain ⟨hi, hk, he, hP⟩ := h
  have hk := kindToken_eq hk
  exact ⟨s, ⟨⟨ho, hh, hi, _, _, hk⟩, _, _, hk, by rw [← same_eq he]; exact findAddr_eq _ _⟩, hP⟩

def isSolKind (mint vault : Pubkey) : TokenKind → Bool
  | .solana m v => same m mint && same v vault
  | .ever .. => false

theorem isSolKind_eq {mint vault : Pubkey} {k : TokenKind} (h : isSolKind mint vault k = true) : k = .solana mint vault := by
  cases k <;> simp only [isSolKind, Bool.and_eq_true, Bool.false_eq_true] at h
  rw [same_eq h.1, same_eq h.2]

def isVault (w : World) (kv mint : Pubkey) (P : TokenAcc → Bool) : Bool :=
  same (w.acc kv).owner env.splId && match (w.acc kv).data with
  | .token v => same v.mint mint && (same v.owner kv && (v.delegate.isNone && (!v.frozen && (v.isNative.isNone && P v))))
  | _ => false

/-- the gold token -/
theorem tp_sol {P : TokenSettings → Bool} {Q : TokenAcc → Bool} {w : World} (h : tchk tokenSettingsC (fun s => s.isInitialized &&
      (kindToken s.accountKind && (isSolKind gold tpVault s.kind && P s))) w tpGold = true) (hv : isVault w tpVault gold Q = true) :
    ∃ t v, SolReady env w gold tpGold tpVault t v ∧ P t = true ∧ Q v = true := by
  obtain ⟨s, ho, -, hh, h⟩ := tfind h
  simp only [Bool.and_eq_true] at h
  obtain ⟨hi, hk, he, hP⟩ := h
  have hk := kindToken_eq hk
  simp only [isVault, Bool.and_eq_true] at hv
  obtain ⟨hvo, hv⟩ := hv
  split at hv
  · rename_i v hd
    simp only [Bool.and_eq_true, Option.isNone_iff_eq_none, Bool.not_eq_true'] at hv
    obtain ⟨h1, h2, h3, h4, h5, h6⟩ := hv
    exact ⟨s, v, ⟨⟨ho, hh, hi, _, _, hk⟩, isSolKind_eq he, ⟨_, _, hk, findAddr_eq _ _, findAddr_eq _ _⟩,
      ⟨same_eq hvo, hd, same_eq h1, same_eq h2, h3, h4⟩, by rw [h5]; simp⟩, hP, h6⟩
  · cases hv

def isEverKind (mint : Pubkey) (e : EverAddress) : TokenKind → Bool
  | .ever m t _ => same m mint && decide (t = e)
  | .solana .. => false

theorem isEverKind_eq {mint : Pubkey} {e : EverAddress} {k : TokenKind} (h : isEverKind mint e k = true) : ∃ d, k = .ever mint e d := by
  cases k <;> simp only [isEverKind, Bool.and_eq_true, Bool.false_eq_true, decide_eq_true_eq] at h
  exact ⟨_, by rw [same_eq h.1, h.2]⟩

def isMint (w : World) (k : Pubkey) (P : MintAcc → Bool) : Bool :=
  same (w.acc k).owner env.splId && match (w.acc k).data with
  | .mint m => (match m.mintAuthority with | some a => same a k | none => false) && P m
  | _ => false

/-- the star token -/
theorem tp_ever {P : TokenSettings → Bool} {Q : MintAcc → Bool} {w : World} (h : tchk tokenSettingsC (fun s => s.isInitialized &&
      (kindToken s.accountKind && (isEverKind starMint star s.kind && P s))) w tpStar = true) (hv : isMint w starMint Q = true) :
    ∃ t m, EverReady env w star tpStar starMint t m ∧ P t = true ∧ Q m = true := by
  obtain ⟨s, ho, -, hh, h⟩ := tfind h
  simp only [Bool.and_eq_true] at h
  obtain ⟨hi, hk, he, hP⟩ := h
  have hk := kindToken_eq hk
  simp only [isMint, Bool.and_eq_true] at hv
  obtain ⟨hvo, hv⟩ := hv
  split at hv
  · rename_i m hd
    simp only [Bool.and_eq_true] at hv
    obtain ⟨h1, h2⟩ := hv
    split at h1
    · rename_i a ha
      refine ⟨s, m, ⟨⟨ho, hh, hi, _, _, hk⟩, isEverKind_eq he, ⟨_, _, hk, findAddr_eq _ _, findAddr_eq _ _⟩,
        ⟨same_eq hvo, hd, by rw [ha, same_eq h1]⟩⟩, hP, h2⟩
    · cases h1
  · cases hv

theorem tp_wd {E : Type} {ec : Codec E} {P : Withdrawal E → Bool} {w : World} {k : Pubkey} (h : tchk (withdrawalC ec) (fun r => r.isInitialized &&
      (kindProposal r.accountKind && (same (addr (proposalSeeds r.roundNumber r.pda (env.hash (ec.enc r.event))) env.tpId) k && P r))) w k = true) :
    ∃ r, WdReady ec env w k r ∧ P r = true := by
  obtain ⟨r, ho, -, hh, h⟩ := tfind h
  simp only [Bool.and_eq_true] at h
  obtain ⟨hi, hk, he, hP⟩ := h
  obtain ⟨pn, hk⟩ := kindProposal_eq hk
  exact ⟨r, ⟨ho, hh, hi, _, _, hk, by rw [← same_eq he]; exact findAddr_eq _ _⟩, hP⟩

theorem tp_gen {P : GenericProposal → Bool} {w : World} {k : Pubkey} (h : tchk GenericProposal.codec (fun r =>
      kindProposal r.accountKind && (same (addr (proposalSeeds r.roundNumber r.pda (env.hash r.event)) env.tpId) k && P r)) w k = true) :
    ∃ p, GenReady env w k p ∧ P p = true := by
  obtain ⟨r, ho, -, hh, h⟩ := tfind h
  simp only [Bool.and_eq_true] at h
  obtain ⟨hk, he, hP⟩ := h
  obtain ⟨pn, hk⟩ := kindProposal_eq hk
  exact ⟨r, ⟨ho, hh, _, _, hk, by rw [← same_eq he]; exact findAddr_eq _ _⟩, hP⟩

def kindDeposit : AccountKind → Bool
  | .deposit n => Nat.beq n.toNat 255
  | _ => false

theorem tp_dep {P : GenericDeposit → Bool} {w : World} {seed : U128} (h : tchk genericDepositC (fun d =>
      kindDeposit d.accountKind && (decide (u128.decAll d.metaData = some seed) && P d)) w (tpDep seed) = true) :
    ∃ d, DepReady env w (tpDep seed) seed d ∧ P d = true := by
  obtain ⟨d, ho, -, hh, h⟩ := tfind h
  simp only [Bool.and_eq_true, decide_eq_true_eq] at h
  obtain ⟨hk, he, hP⟩ := h
  unfold kindDeposit at hk
  split at hk
  · rename_i n e
    obtain rfl := bump hk
    exact ⟨d, ⟨ho, hh, he, _, e, findAddr_eq _ _⟩, hP⟩
  · cases hk

def isPayable (w : World) (k mint : Pubkey) (n : Nat) : Bool :=
  same (w.acc k).owner env.splId && (Nat.blt ((w.acc k).lamports + n) (2 ^ 64) && match (w.acc k).data with
  | .token d => same d.mint mint && (!d.frozen && Nat.blt (d.amount.toNat + n) (2 ^ 64))
  | _ => false)

theorem payable {w : World} {k mint : Pubkey} {n : Nat} (h : isPayable w k mint n = true) : Payable env w k mint n := by
  simp only [isPayable, Bool.and_eq_true] at h
  obtain ⟨ho, hl, h⟩ := h
  split at h
  · rename_i d hd
    simp only [Bool.and_eq_true, Bool.not_eq_true'] at h
    exact ⟨same_eq ho, ⟨d, hd, same_eq h.1, h.2.1, Nat.le_of_ble_eq_true h.2.2⟩, Nat.le_of_ble_eq_true hl⟩
  · cases h

def isSpendable (w : World) (k mint who : Pubkey) (n : Nat) : Bool :=
  same (w.acc k).owner env.splId && match (w.acc k).data with
  | .token d => same d.mint mint && (same d.owner who && (d.delegate.isNone && (!d.frozen && (d.isNative.isNone && Nat.ble n d.amount.toNat))))
  | _ => false

theorem spendable {w : World} {k mint who : Pubkey} {n : Nat} (h : isSpendable w k mint who n = true) : Spendable env w k mint who n := by
  simp only [isSpendable, Bool.and_eq_true] at h
  obtain ⟨ho, h⟩ := h
  split at h
  · rename_i d hd
    simp only [Bool.and_eq_true, Bool.not_eq_true', Option.isNone_iff_eq_none] at h
    obtain ⟨h1, h2, h3, h4, h5, h6⟩ := h
    exact ⟨same_eq ho, d, hd, same_eq h1, same_eq h2, by rw [h3]; simp, h4, Nat.le_of_ble_eq_true h6, by rw [h5]; simp⟩
  · cases h

def isMintable (w : World) (k mint : Pubkey) (n : Nat) : Bool :=
  same (w.acc k).owner env.splId && match (w.acc k).data with
  | .token d => same d.mint mint && (!d.frozen && (d.isNative.isNone && Nat.blt (d.amount.toNat + n) (2 ^ 64)))
  | _ => false

theorem mintable {w : World} {k mint : Pubkey} {n : Nat} (h : isMintable w k mint n = true) : Mintable env w k mint n := by
  simp only [isMintable, Bool.and_eq_true] at h
  obtain ⟨ho, h⟩ := h
  split at h
  · rename_i d hd
    simp only [Bool.and_eq_true, Bool.not_eq_true', Option.isNone_iff_eq_none] at h
    exact ⟨same_eq ho, d, hd, same_eq h.1, h.2.1, h.2.2.1, Nat.le_of_ble_eq_true h.2.2.2⟩
  · cases h

def holder (w : World) (k who : Pubkey) : Bool := match (w.acc k).data with
  | .token d => same d.owner who
  | _ => false

/-- a token account of the recipient -/
theorem reaches {w : World} {kind : AccountKind} {mint who to : Pubkey} (h : holder w to who = true) : Reaches env w kind [] mint who to := by
  unfold holder at h
  split at h
  · rename_i d hd
    exact .inl ⟨rfl, d, hd, same_eq h⟩
  · cases h

def feeIs (f : FeeInfo) (m d : Nat) : Bool := Nat.beq f.multiplier.toNat m && Nat.beq f.divisor.toNat d

theorem feeIs_eq {f : FeeInfo} {m d : Nat} (h : feeIs f m d = true) : f.multiplier.toNat = m ∧ f.divisor.toNat = d := by
  simp only [feeIs, Bool.and_eq_true] at h
  exact ⟨Nat.eq_of_beq_eq_true h.1, Nat.eq_of_beq_eq_true h.2⟩

def proxyNonce (k : AccountKind) : Bool := match k with
  | .proposal _ (some n) => Nat.beq n.toNat 255
  | _ => false

/-- the proxy account -/
theorem reaches_proxy {w : World} {kind : AccountKind} {payload : Bytes} {mint who : Pubkey} (h : proxyNonce kind = true) (hp : payload ≠ []) :
    Reaches env w kind payload mint who (addr (proxySeeds mint who) env.tpId) := by
  unfold proxyNonce at h
  split at h
  · rename_i n pn
    obtain rfl := bump h
    exact .inr ⟨hp, n, _, rfl, findAddr_eq _ _⟩
  · cases h

/-! ## A withdrawal of an Everscale token whose mint was created before its votes -/
def tpT1 : Except Err World := vote tpDeployed wd5 0
def tpT2 : Except Err World := vote tpT1 wd5 1
def tpT3 : Except Err World := vote tpT2 wd5 2

end Verif.Toy
