import Verif.Spec.ToyReach
import Verif.Spec.Client
/-!
# The toy chain seen by a client

Checks that the accounts of the bridge on the toy chain are in the state a client expects.
-/
namespace Verif.Toy
open Verif

theorem findAddr_eq (seeds : List Bytes) (p : Pubkey) : findAddr env seeds p = .ok (addr seeds p, 255#8) := by
  have h : env.createAddr (seeds ++ [[255#8]]) p = some (addr seeds p) := by
    show createAddr _ _ = _
    unfold addr createAddr
    rw [if_pos (by simp)]; rfl
  unfold findAddr
  rw [show (255 : Nat) = 254 + 1 from rfl, findGo]
  simp only [show BitVec.ofNat 8 (254 + 1) = 255#8 from rfl, h]

/-- the builder gives an instruction -/
def okIx : Except Err Ix → Bool
  | .ok _ => true
  | .error _ => false

theorem ix {r : Except Err Ix} (h : okIx r = true) : ∃ i, r = .ok i := by
  cases r with
  | ok i => exact ⟨i, rfl⟩
  | error => cases h

/-- a wallet with at least `n` lamports -/
def isWallet (w : World) (k : Pubkey) (n : Nat) : Bool :=
  Nat.beq (w.acc k).owner.toNat 0 && Nat.beq (w.acc k).data.len 0 && Nat.ble n (w.acc k).lamports

theorem wallet {w : World} {k : Pubkey} {n : Nat} (h : isWallet w k n = true) : Wallet env w k n := by
  simp only [isWallet, Bool.and_eq_true] at h
  exact ⟨BitVec.eq_of_toNat_eq (Nat.eq_of_beq_eq_true h.1.1), Nat.eq_of_beq_eq_true h.1.2, Nat.le_of_ble_eq_true h.2⟩

def isVacant (w : World) (k : Pubkey) : Bool :=
  Nat.beq (w.acc k).lamports 0 && Nat.beq (w.acc k).data.len 0 && Nat.beq (w.acc k).owner.toNat 0

theorem vacant {w : World} {k : Pubkey} (h : isVacant w k = true) : Vacant env (w.acc k) := by
  simp only [isVacant, Bool.and_eq_true] at h
  exact ⟨Nat.eq_of_beq_eq_true h.1.1, Nat.eq_of_beq_eq_true h.1.2, BitVec.eq_of_toNat_eq (Nat.eq_of_beq_eq_true h.2)⟩

def isUpgrader (w : World) (p a : Pubkey) : Bool :=
  match (w.acc (addr [seedKey p] env.loaderId)).data with
  | .programData (some k) => Nat.beq k.toNat a.toNat
  | _ => false

theorem upgrades {w : World} {p a : Pubkey} (h : isUpgrader w p a = true) : Upgrades env w p (addr [seedKey p] env.loaderId) a := by
  refine ⟨isAddr _ _, ?_⟩
  simp only [isUpgrader] at h
  split at h
  · rename_i k hk
    rw [hk, BitVec.eq_of_toNat_eq (Nat.eq_of_beq_eq_true h)]
  · cases h

/-- the bumps recorded in an account of the toy chain are all 255 -/
def kindSettings : AccountKind → Bool
  | .settings n m => Nat.beq n.toNat 255 && Nat.beq m.toNat 255
  | _ => false

def kindProposal : AccountKind → Bool
  | .proposal n (some _) => Nat.beq n.toNat 255
  | .proposal n none => Nat.beq n.toNat 255
  | _ => false

def kindRound : AccountKind → Bool
  | .relayRound n => Nat.beq n.toNat 255
  | _ => false

theorem bump {n : U8} (h : Nat.beq n.toNat 255 = true) : n = 255#8 := BitVec.eq_of_toNat_eq (Nat.eq_of_beq_eq_true h)

theorem rl_ready {P : RL.Settings → Bool} {w : World}
    (h : chk RL.settingsC RL.settingsLen (fun s => s.isInitialized && (kindSettings s.accountKind && P s)) w rlSettings = true) :
    ∃ s, RL.Ready env w rlSettings s ∧ P s = true := by
  obtain ⟨s, hs, hP⟩ := find_settings h
  simp only [Bool.and_eq_true] at hP
  obtain ⟨hk, hP⟩ := hP
  refine ⟨s, ⟨hs, ?_⟩, hP⟩
  unfold kindSettings at hk
  split at hk
  · rename_i n m e
    simp only [Bool.and_eq_true] at hk
    obtain rfl := bump hk.1
    obtain rfl := bump hk.2
    exact ⟨_, _, _, e, findAddr_eq _ _, findAddr_eq _ _⟩
  · cases hk

theorem rl_round {P : RL.RelayRound → Bool} {w : World} {n : U32}
    (h : chk RL.relayRoundC RL.relayRoundLen
      (fun r => r.isInitialized && (kindRound r.accountKind && (Nat.beq r.roundNumber.toNat n.toNat && P r))) w (rlRound n) = true) :
    ∃ r, RL.RoundReady env w (rlRound n) r ∧ r.roundNumber = n ∧ P r = true := by
  obtain ⟨r, hr, hP⟩ := find_round h
  simp only [Bool.and_eq_true] at hP
  obtain ⟨hk, hn, hP⟩ := hP
  have hn : r.roundNumber = n := BitVec.eq_of_toNat_eq (Nat.eq_of_beq_eq_true hn)
  refine ⟨r, ⟨hr, ?_⟩, hn, hP⟩
  unfold kindRound at hk
  split at hk
  · rename_i m e
    obtain rfl := bump hk
    exact ⟨_, e, by rw [hn]; exact findAddr_eq _ _⟩
  · cases hk

theorem rl_proposal {P : RL.Proposal → Bool} {w : World} {k : Pubkey}
    (h : chk RL.proposalC RL.proposalLen (fun p => kindProposal p.accountKind &&
      (Nat.beq (addr (proposalSeeds p.roundNumber p.pda (env.hash (RL.eventC.enc p.event))) env.rlId).toNat k.toNat && P p)) w k = true) :
    ∃ p, RL.ProposalReady env w k p ∧ P p = true := by
  obtain ⟨p, ho, hp, hP⟩ := find h
  simp only [Bool.and_eq_true] at hP
  obtain ⟨hk, hn, hP⟩ := hP
  have hn := BitVec.eq_of_toNat_eq (Nat.eq_of_beq_eq_true hn)
  refine ⟨p, ⟨ho, hp, ?_⟩, hP⟩
  unfold kindProposal at hk
  split at hk
  · rename_i n m e
    obtain rfl := bump hk
    exact ⟨_, _, e, by rw [← hn]; exact findAddr_eq _ _⟩
  · rename_i n e
    obtain rfl := bump hk
    exact ⟨_, _, e, by rw [← hn]; exact findAddr_eq _ _⟩
  · cases hk

end Verif.Toy
