import Verif.Bridge.Helper
/-!
# `round-loader/src/state.rs` and `instruction.rs`
-/
namespace Verif.RL
open Codec Verif

/-- `state.rs:37-46` -/
structure Settings where
  isInitialized : Bool
  accountKind : AccountKind
  currentRoundNumber : U32
  roundSubmitter : Pubkey
  minRequiredVotes : U32
  roundTtl : U32
  deriving DecidableEq, Repr

/-- Borsh of `Settings`, `round-loader/src/state.rs:37-46`. -/
def settingsC : Codec Settings :=
  iso (pair bool (pair AccountKind.codec (pair u32 (pair key (pair u32 u32)))))
    (fun x => ⟨x.1, x.2.1, x.2.2.1, x.2.2.2.1, x.2.2.2.2.1, x.2.2.2.2.2⟩)
    (fun s => (s.isInitialized, s.accountKind, s.currentRoundNumber, s.roundSubmitter, s.minRequiredVotes, s.roundTtl))
    (fun _ => rfl) (fun _ => rfl)

/-- `Settings::LEN`, `state.rs:38` -/
def settingsLen : Nat := 100

/-- `state.rs:56-64` -/
structure RelayRound where
  isInitialized : Bool
  accountKind : AccountKind
  roundNumber : U32
  roundEnd : U32
  relays : List Pubkey
  deriving DecidableEq, Repr

/-- Borsh of `RelayRound`, `round-loader/src/state.rs:56-64`. -/
def relayRoundC : Codec RelayRound :=
  iso (pair bool (pair AccountKind.codec (pair u32 (pair u32 (vec key)))))
    (fun x => ⟨x.1, x.2.1, x.2.2.1, x.2.2.2.1, x.2.2.2.2⟩)
    (fun s => (s.isInitialized, s.accountKind, s.roundNumber, s.roundEnd, s.relays))
    (fun _ => rfl) (fun _ => rfl)

/-- `RelayRound::LEN`, `state.rs:57` -/
def relayRoundLen : Nat := 3215

/-- `RelayRoundProposalEvent`, `state.rs:96-101` -/
structure Event where
  roundNum : U32
  relays : List Pubkey
  roundEnd : U32
  deriving DecidableEq, Repr

/-- Borsh of `RelayRoundProposalEvent`, `round-loader/src/state.rs:96-101`. -/
def eventC : Codec Event :=
  iso (pair u32 (pair (vec key) u32)) (fun x => ⟨x.1, x.2.1, x.2.2⟩)
    (fun e => (e.roundNum, e.relays, e.roundEnd)) (fun _ => rfl) (fun _ => rfl)

/-- `ProposalStatus`, `state.rs:153-156` -/
inductive Status
  | new | executed
  deriving DecidableEq, Repr

/-- Borsh of `ProposalStatus`, `round-loader/src/state.rs:150-156`. -/
def statusC : Codec Status := plainEnum [.new, .executed] (by decide) (by decide)

@[simp] theorem wf_statusC (v : Status) : statusC.wf v = true := by cases v <;> rfl
@[simp] theorem len_statusC (v : Status) : (statusC.enc v).length = 1 := rfl

/-- `RelayRoundProposal`, `state.rs:74-86`, with `event : …EventWithLen` (103-107) and
`meta : …MetaWithLen` (127-131) flattened. -/
structure Proposal where
  isInitialized : Bool
  accountKind : AccountKind
  author : Pubkey
  roundNumber : U32
  requiredVotes : U32
  pda : PDA
  eventLen : U32
  event : Event
  metaLen : U32
  status : Status
  signers : List Vote
  deriving DecidableEq, Repr

/-- Borsh of `RelayRoundProposal`, `round-loader/src/state.rs:74-131`. -/
def proposalC : Codec Proposal :=
  iso (pair bool (pair AccountKind.codec (pair key (pair u32 (pair u32 (pair PDA.codec
      (pair u32 (pair eventC (pair u32 (pair statusC (vec voteC)))))))))))
    (fun x => ⟨x.1, x.2.1, x.2.2.1, x.2.2.2.1, x.2.2.2.2.1, x.2.2.2.2.2.1, x.2.2.2.2.2.2.1,
      x.2.2.2.2.2.2.2.1, x.2.2.2.2.2.2.2.2.1, x.2.2.2.2.2.2.2.2.2.1, x.2.2.2.2.2.2.2.2.2.2⟩)
    (fun p => (p.isInitialized, p.accountKind, p.author, p.roundNumber, p.requiredVotes, p.pda, p.eventLen, p.event,
      p.metaLen, p.status, p.signers)) (fun _ => rfl) (fun _ => rfl)

/-- `RelayRoundProposal::LEN`, `state.rs:75` -/
def proposalLen : Nat := 3415

/-- `LOAD_DATA_BEGIN_OFFSET`, `state.rs:17-25` -/
def loadBegin : Nat := 1 + 3 + 32 + 4 + 4 + 4 + 8 + 32
/-- `LOAD_DATA_END_OFFSET`, `state.rs:27-32` -/
def loadEnd : Nat := loadBegin + 4 + 4 + (4 + 32 * 100) + 4

/-- `RoundLoaderInstruction`, `instruction.rs:6-105` -/
inductive Instr
  | voteForProposal (vote : Vote)
  | init (genesisRoundNumber : U32) (roundSubmitter : Pubkey) (minRequiredVotes roundTtl : U32)
  | updateSettings (currentRoundNumber : Option U32) (roundSubmitter : Option Pubkey)
      (minRequiredVotes roundTtl : Option U32)
  | createRelayRound (roundNumber : U32) (relays : List Pubkey) (roundEnd : U32)
  | createProposal (roundNumber : U32) (pda : PDA) (eventData : Pubkey)
  | writeProposal (offset : U32) (bytes : Bytes)
  | finalizeProposal
  | executeProposal
  | executeProposalByAdmin
  deriving DecidableEq, Repr

/-- Borsh variant index. `round-loader/src/instruction.rs:6-105`. -/
def Instr.tag : Instr → Nat
  | voteForProposal _ => 0
  | init .. => 1
  | updateSettings .. => 2
  | createRelayRound .. => 3
  | createProposal .. => 4
  | writeProposal .. => 5
  | finalizeProposal => 6
  | executeProposal => 7
  | executeProposalByAdmin => 8

/-- Borsh of each variant's fields, in order. (`event_timestamp`, `event_transaction_lt`,
`event_configuration` of `CreateProposal` are grouped as a `PDA`, which has the same encoding.) `round-loader/src/instruction.rs:6-105`. -/
def Instr.variants : List (Codec Instr) :=
  [ prism voteC voteForProposal (fun | voteForProposal v => some v | _ => none)
      (by intro a b; cases b <;> simp [eq_comm]),
    prism (pair u32 (pair key (pair u32 u32))) (fun x => init x.1 x.2.1 x.2.2.1 x.2.2.2)
      (fun | init a b c d => some (a, b, c, d) | _ => none)
      (by rintro ⟨a, b, c, d⟩ i; cases i <;> simp [eq_comm]),
    prism (pair (option u32) (pair (option key) (pair (option u32) (option u32))))
      (fun x => updateSettings x.1 x.2.1 x.2.2.1 x.2.2.2)
      (fun | updateSettings a b c d => some (a, b, c, d) | _ => none)
      (by rintro ⟨a, b, c, d⟩ i; cases i <;> simp [eq_comm]),
    prism (pair u32 (pair (vec key) u32)) (fun x => createRelayRound x.1 x.2.1 x.2.2)
      (fun | createRelayRound a b c => some (a, b, c) | _ => none)
      (by rintro ⟨a, b, c⟩ i; cases i <;> simp [eq_comm]),
    prism (pair u32 (pair PDA.codec key)) (fun x => createProposal x.1 x.2.1 x.2.2)
      (fun | createProposal a b c => some (a, b, c) | _ => none)
      (by rintro ⟨a, b, c⟩ i; cases i <;> simp [eq_comm]),
    prism (pair u32 bytes) (fun x => writeProposal x.1 x.2)
      (fun | writeProposal a b => some (a, b) | _ => none)
      (by rintro ⟨a, b⟩ i; cases i <;> simp [eq_comm]),
    prism unit (fun _ => finalizeProposal) (fun | finalizeProposal => some () | _ => none)
      (by rintro ⟨⟩ i; cases i <;> simp),
    prism unit (fun _ => executeProposal) (fun | executeProposal => some () | _ => none)
      (by rintro ⟨⟩ i; cases i <;> simp),
    prism unit (fun _ => executeProposalByAdmin) (fun | executeProposalByAdmin => some () | _ => none)
      (by rintro ⟨⟩ i; cases i <;> simp) ]

/-- Borsh of `RoundLoaderInstruction`. `round-loader/src/instruction.rs:6-105`. -/
def Instr.codec : Codec Instr :=
  enum tag variants (by decide) (by
    intro i c a hc hw
    rcases i with _ | _ | _ | _ | _ | _ | _ | _ | _ | i <;>
      simp only [variants, List.getElem?_cons_zero, List.getElem?_cons_succ, List.getElem?_nil,
        Option.some.injEq, reduceCtorEq] at hc <;> subst hc <;>
      (refine prism_tag (tag := Instr.tag) ?_ hw; intro _; rfl))

end Verif.RL
