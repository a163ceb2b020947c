import Verif.Spec.ToyReachW
import Verif.Lemmas.RunPre
/-!
# Sequences of instructions on the toy chain
-/
set_option maxRecDepth 100000
namespace Verif.Toy
open Verif TP

/-- A sequence of instructions of the token proxy. -/
def steps : World → List (Ctx × Instr) → Option (List Ev × World)
  | w, [] => some ([], w)
  | w, (c, i) :: l => match run env c noCpi i w with
    | .ok w1 => match steps w1 l with
      | some (es, w') => some (⟨.tp c i, w, w1⟩ :: es, w')
      | none => none
    | .error _ => none

/-- They are for the token proxy, and only wallets sign. -/
def fair (l : List (Ctx × Instr)) : Bool := l.all fun x => Nat.beq x.1.program.toNat 8 && x.1.signers.all (fun k => Nat.blt k.toNat 2000)

theorem steps_run {l : List (Ctx × Instr)} {w w' : World} {es : List Ev} (h : steps w l = some (es, w')) (hs : fair l = true) :
    Run env L true w es w' := by
  unfold fair at hs
  induction l generalizing w es with
  | nil => cases h; exact .nil _ _
  | cons x l ih =>
    obtain ⟨c, i⟩ := x
    simp only [steps] at h
    simp only [List.all_cons, Bool.and_eq_true] at hs
    split at h
    · rename_i w1 hr
      split at h
      · rename_i es' w'' h'
        cases h
        have r1 : Run env L true w ([] ++ [⟨.tp c i, w, w1⟩]) w1 :=
          .tp c i (.nil _ _) (BitVec.eq_of_toNat_eq (Nat.eq_of_beq_eq_true hs.1.1)) (free hs.1.2) hr
        exact r1.append (ih h' hs.2)
      · cases h
    · cases h

/-- A vote of relay `i` for the withdrawal in `k`. -/
def voteOf (k : Pubkey) (i : Nat) : Ctx × Instr := (tctx [relay i, k, rlRound 1] [relay i], .voteForWithdrawRequest .confirm)

end Verif.Toy
