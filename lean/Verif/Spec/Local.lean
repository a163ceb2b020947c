import Verif.NativeProxy.Processor
/-!
# Specification: what an instruction depends on, and instructions that have nothing to do with each other
-/
namespace Verif

/-- `f` depends on the accounts `S` only and touches nothing else: in two states in which these accounts are the same it fails with the same
error, or succeeds in both, leaves these accounts the same, changes no other account and adds the same log records. -/
def LocalTo (S : List Pubkey) (f : World → Except Err World) : Prop :=
  ∀ w v, (∀ k ∈ S, w.acc k = v.acc k) →
    (∃ e, f w = .error e ∧ f v = .error e) ∨
    ∃ w' v' l, f w = .ok w' ∧ f v = .ok v' ∧ (∀ k ∈ S, w'.acc k = v'.acc k) ∧ (∀ k, k ∉ S → w'.acc k = w.acc k ∧ v'.acc k = v.acc k) ∧
      w'.logs = w.logs ++ l ∧ v'.logs = v.logs ++ l

/-- An instruction sent to one of the three programs: accounts, signers and time, and the instruction data. It executes no payload. -/
inductive Call
  | rl (ctx : Ctx) (data : Bytes)
  | tp (ctx : Ctx) (data : Bytes)
  | np (ctx : Ctx) (data : Bytes)

namespace Call

def ctx : Call → Ctx
  | rl c _ => c
  | tp c _ => c
  | np c _ => c

def run (env : Env) : Call → World → Except Err World
  | rl c d => RL.process env c d
  | tp c d => TP.process env c noCpi d
  | np c d => NP.process env c d

/-- One after the other; the first failure ends it. -/
def all (env : Env) : List Call → World → Except Err World
  | [], w => .ok w
  | c :: l, w => do
    let w ← c.run env w
    all env l w

/-- No account that one of the two may write is given to the other. -/
def Apart (a b : Call) : Prop :=
  (∀ k, a.ctx.isWritable k = true → k ∉ b.ctx.accounts) ∧ ∀ k, b.ctx.isWritable k = true → k ∉ a.ctx.accounts

end Call
end Verif
