import Verif.Lemmas.Mono
/-!
# More permissions do not change what the round loader does
-/
set_option linter.unusedSimpArgs false
namespace Verif.RL
open Verif

variable {env : Env} {ctx : Ctx} {s m : List Pubkey} {n : I64} {w : World} {k : Pubkey}

theorem grant_open (h : Adds ctx s m) {a b c : Pubkey} {st : Settings} {r : U32} {l : List Pubkey} {e : U32} :
    Le (openRound env ctx a b c st r l e w) (openRound env (ctx.grant s m n) a b c st r l e w) := by
  unfold openRound
  mono h [grant_pda h, grant_pack h]

theorem run_grant {i : Instr} (h : Adds ctx s m) : Le (run env ctx i w) (run env (ctx.grant s m n) i w) := by
  cases i with
  | voteForProposal x =>
    simp only [run, processVote]
    mono h [grant_pack h, grant_move h]
  | init g s m t =>
    simp only [run, processInitialize]
    mono h [grant_pda h, grant_pack h]
  | updateSettings r s m t =>
    simp only [run, processUpdateSettings]
    mono h [grant_pack h]
  | createRelayRound r a e =>
    simp only [run, processCreateRelayRound]
    mono h [grant_open h]
  | createProposal r p d =>
    simp only [run, processCreateProposal]
    mono h [grant_pda h, grant_pack h]
  | writeProposal o b =>
    simp only [run, processWriteProposal]
    refine Le.bind Le.rfl' fun k => ?_
    cases unpackUnchecked proposalC proposalLen (w.acc k).data <;> cases (w.acc k).data <;> mono h [grant_setData h]
  | finalizeProposal =>
    simp only [run, processFinalizeProposal]
    mono h [grant_pack h, grant_sys h h.sigs]
  | executeProposal =>
    simp only [run, processExecute]
    mono h [grant_open h, grant_pack h]
  | executeProposalByAdmin =>
    simp only [run, processExecuteByAdmin]
    mono h [grant_open h, grant_pack h]

end Verif.RL
