import Verif.Spec.ToyReachTP
import Verif.Spec.ToyReachW
import Verif.Spec.ToySteps
import Verif.Spec.Signers
/-!
# The example chain: a relay round is overwritten

The bridge holds alice's gold, and the current round has twelve relays. A stranger replaces nine of them by keys of their own, asks for a withdrawal
that never happened on Everscale and confirms it with these keys.
-/
set_option maxRecDepth 100000
namespace Verif.Toy
open Verif TP

/-- A sequence of instructions of both programs. -/
def play : World → List Act → Option (List Ev × World)
  | w, [] => some ([], w)
  | w, a :: l =>
    let r := match a with
      | .rl c i => RL.run env c i w
      | .tp c i => TP.run env c noCpi i w
      | _ => .error .invalidAccountData
    match r with
    | .ok w1 => match play w1 l with
      | some (es, w') => some (⟨a, w, w1⟩ :: es, w')
      | none => none
    | .error _ => none

/-- They are for the right program, and only wallets sign. -/
def fairAct : Act → Bool
  | .rl c _ => Nat.beq c.program.toNat 7 && c.signers.all (fun k => Nat.blt k.toNat 2000)
  | .tp c _ => Nat.beq c.program.toNat 8 && c.signers.all (fun k => Nat.blt k.toNat 2000)
  | _ => false

theorem play_run {l : List Act} {w w' : World} {es : List Ev} (h : play w l = some (es, w')) (hs : l.all fairAct = true) :
    Run env L true w es w' ∧ es.map (·.act) = l := by
  induction l generalizing w es with
  | nil => cases h; exact ⟨.nil _ _, rfl⟩
  | cons a l ih =>
    simp only [play] at h
    simp only [List.all_cons, Bool.and_eq_true] at hs
    split at h
    · rename_i w1 hr
      split at h
      · rename_i es' w'' h'
        cases h
        obtain ⟨h1, h2⟩ := ih h' hs.2
        refine ⟨?_, by simp [h2]⟩
        obtain ⟨ha, -⟩ := hs
        cases a with
        | rl c i =>
          simp only [fairAct, Bool.and_eq_true] at ha
          have r1 : Run env L true w ([] ++ [⟨.rl c i, w, w1⟩]) w1 :=
            .rl c i (.nil _ _) (BitVec.eq_of_toNat_eq (Nat.eq_of_beq_eq_true ha.1)) (free ha.2) hr
          exact r1.append h1
        | tp c i =>
          simp only [fairAct, Bool.and_eq_true] at ha
          have r1 : Run env L true w ([] ++ [⟨.tp c i, w, w1⟩]) w1 :=
            .tp c i (.nil _ _) (BitVec.eq_of_toNat_eq (Nat.eq_of_beq_eq_true ha.1)) (free ha.2) hr
          exact r1.append h1
        | ext => cases ha
        | purge => cases ha
      · cases h
    · cases h

/-- Keys of a stranger. -/
def ownKey (i : Nat) : Pubkey := BitVec.ofNat 256 (1300 + i)

def relays12 : List Pubkey := [relay 0, relay 1, relay 2, relay 3, relay 4, relay 5, relay 6, relay 7, relay 8, relay 9, relay 10, relay 11]
def nineKeys : List Pubkey := [ownKey 0, ownKey 1, ownKey 2, ownKey 3, ownKey 4, ownKey 5, ownKey 6, ownKey 7, ownKey 8]

/-- Round 2 has twelve relays and is current. -/
def rlRound12 : Except Err World := tpDeposited >>= fun w =>
  RL.run env (ctx env.rlId [funder, submitter, rlSettings, rlRound 2, env.systemId, env.rentId] [funder, submitter])
    (.createRelayRound 2 relays12 5000) w

theorem reach_round12 : Reach env L (get rlRound12) := reach_bind reach_tpDeposited rfl (by decide +kernel) (by decide +kernel)

def evStolen : WSolEvent := ⟨gold, 40000, bob, []⟩
def wdStolen : Pubkey := addr (proposalSeeds 2 pda1 (env.hash (wSolEventC.enc evStolen))) env.tpId

/-- What the stranger sends. -/
def theft : List Act :=
  .rl (ctx env.rlId [rlRound 2] []) (.writeProposal 23 (Codec.encAll Codec.key nineKeys)) ::
  .tp (tctx [ownKey 0, ownKey 1, wdStolen, tpGold, rlSettings, rlRound 2, env.systemId, env.rentId, env.clockId] [ownKey 0, ownKey 1])
    (.withdrawMultiTokenSolRequest pda1 bob 40000 [] 0) ::
  (nineKeys.map fun x => .tp (tctx [x, wdStolen, rlRound 2] [x]) (.voteForWithdrawRequest .confirm))

/-- The state before the last instruction, which pays. -/
def beforeTheft : World := match play (get rlRound12) theft with
  | some (_, w) => w
  | none => get rlRound12

def afterTheft : World := get (TP.run env (solCtx wdStolen bobGold) noCpi .withdrawMultiTokenSol beforeTheft)

end Verif.Toy
