import Verif.Base.Runtime
/-!
# `bridge-utils`: shared types and their Borsh encodings
-/
namespace Verif
open Codec

/-- `bridge-utils/src/types.rs:8` -/
def relayReparation : Nat := 20000

/-- `bridge-utils/src/types.rs:13-17` -/
inductive Vote
  | none | confirm | reject
  deriving DecidableEq, Repr

/-- Borsh of a fieldless enum with the given variants: the one-byte index. Used in `bridge-utils/src/types.rs:10-17`. -/
def Codec.plainEnum {α : Type} [DecidableEq α] (l : List α) (hlen : l.length ≤ 256) (hnd : l.Nodup) : Codec α where
  enc a := [BitVec.ofNat 8 (l.idxOf a)]
  dec
    | [] => Option.none
    | x :: r =>
      match l[x.toNat]? with
      | Option.none => Option.none
      | some a => some (a, r)
  wf a := decide (a ∈ l)
  law bs a r := by
    constructor
    · intro h
      cases bs with
      | nil => cases h
      | cons x xs =>
        simp only at h
        split at h
        · cases h
        · rename_i a' ha
          simp only [Option.some.injEq, Prod.mk.injEq] at h
          obtain ⟨rfl, rfl⟩ := h
          obtain ⟨hlt, hget⟩ := List.getElem?_eq_some_iff.1 ha
          have hm : a' ∈ l := hget ▸ List.getElem_mem hlt
          have hi : l.idxOf a' = x.toNat := by
            rw [← hget]; exact hnd.idxOf_getElem _ hlt
          simp [hm, hi]
    · rintro ⟨hw, rfl⟩
      simp only [decide_eq_true_eq] at hw
      have hlt := List.idxOf_lt_length_iff.2 hw
      have : (BitVec.ofNat 8 (l.idxOf a)).toNat = l.idxOf a := by
        rw [BitVec.toNat_ofNat, Nat.mod_eq_of_lt (by omega)]
      simp only [List.cons_append, List.nil_append, this]
      rw [List.getElem?_eq_getElem hlt, List.getElem_idxOf hlt]

/-- Borsh of `Vote`. `bridge-utils/src/types.rs:10-17`. -/
def voteC : Codec Vote := plainEnum [.none, .confirm, .reject] (by decide) (by decide)

@[simp] theorem wf_voteC (v : Vote) : voteC.wf v = true := by cases v <;> rfl
@[simp] theorem len_voteC (v : Vote) : (voteC.enc v).length = 1 := rfl

/-- `bridge-utils/src/types.rs:22-24,64-67`: the only variant `AddrStd(MsgAddrStd)`. -/
structure EverAddress where
  workchainId : I8
  address : BitVec 256
  deriving DecidableEq, Repr

/-- Borsh of `EverAddress`: variant index 0, then the fields. `bridge-utils/src/types.rs:19-24,61-67`. -/
def everAddressC : Codec EverAddress :=
  enum (fun _ => 0)
    [iso (pair (uint 8 1 rfl) key) (fun x => ⟨x.1, x.2⟩) (fun e => (e.workchainId, e.address)) (fun _ => rfl) (fun _ => rfl)]
    (by decide)
    (by
      intro i c a h _
      obtain ⟨hlt, -⟩ := List.getElem?_eq_some_iff.1 h
      simp at hlt; omega)

@[simp] theorem wf_everAddressC (e : EverAddress) : everAddressC.wf e = true := rfl
@[simp] theorem len_everAddressC (e : EverAddress) : (everAddressC.enc e).length = 34 := by
  show ([0#8] ++ ((uint 8 1 rfl).enc e.workchainId ++ key.enc e.address)).length = 34
  simp [uint, leEnc]

/-- `bridge-utils/src/state.rs:55-62` -/
inductive AccountKind
  | settings (nonce programdataNonce : U8)
  | deposit (nonce : U8)
  | proposal (nonce : U8) (proxyNonce : Option U8)
  | relayRound (nonce : U8)
  | multiVault (nonce : U8)
  | tokenSettings (nonce mintOrVaultNonce : U8)
  deriving DecidableEq, Repr

namespace AccountKind

/-- `AccountKind::to_value`, `bridge-utils/src/state.rs:64-75`; also the Borsh variant index -/
def toValue : AccountKind → Nat
  | settings _ _ => 0
  | deposit _ => 1
  | proposal _ _ => 2
  | relayRound _ => 3
  | multiVault _ => 4
  | tokenSettings _ _ => 5

/-- `into_settings` (derived by `EnumAsInner`), and so on below. `bridge-utils/src/state.rs:54-62`. -/
def intoSettings : AccountKind → Option (U8 × U8)
  | settings a b => some (a, b)
  | _ => Option.none
/-- `bridge-utils/src/state.rs:54-62`. -/
def intoDeposit : AccountKind → Option U8
  | deposit a => some a
  | _ => Option.none
/-- `bridge-utils/src/state.rs:54-62`. -/
def intoProposal : AccountKind → Option (U8 × Option U8)
  | proposal a b => some (a, b)
  | _ => Option.none
/-- `bridge-utils/src/state.rs:54-62`. -/
def intoRelayRound : AccountKind → Option U8
  | relayRound a => some a
  | _ => Option.none
/-- `bridge-utils/src/state.rs:54-62`. -/
def intoMultiVault : AccountKind → Option U8
  | multiVault a => some a
  | _ => Option.none
/-- `bridge-utils/src/state.rs:54-62`. -/
def intoTokenSettings : AccountKind → Option (U8 × U8)
  | tokenSettings a b => some (a, b)
  | _ => Option.none

/-- Borsh of each variant's fields. `bridge-utils/src/state.rs:54-62`. -/
def variants : List (Codec AccountKind) :=
  [ prism (pair u8 u8) (fun x => settings x.1 x.2) intoSettings
      (by rintro ⟨a, b⟩ (_|_) <;> simp [intoSettings, eq_comm]),
    prism u8 deposit intoDeposit (by intro a b; cases b <;> simp [intoDeposit, eq_comm]),
    prism (pair u8 (option u8)) (fun x => proposal x.1 x.2) intoProposal
      (by rintro ⟨a, b⟩ (_|_) <;> simp [intoProposal, eq_comm]),
    prism u8 relayRound intoRelayRound (by intro a b; cases b <;> simp [intoRelayRound, eq_comm]),
    prism u8 multiVault intoMultiVault (by intro a b; cases b <;> simp [intoMultiVault, eq_comm]),
    prism (pair u8 u8) (fun x => tokenSettings x.1 x.2) intoTokenSettings
      (by rintro ⟨a, b⟩ (_|_) <;> simp [intoTokenSettings, eq_comm]) ]

/-- Borsh of `AccountKind`. `bridge-utils/src/state.rs:54-62`. -/
def codec : Codec AccountKind :=
  enum toValue variants (by decide) (by
    intro i c a hc hw
    rcases i with _ | _ | _ | _ | _ | _ | i <;>
      simp only [variants, List.getElem?_cons_zero, List.getElem?_cons_succ, List.getElem?_nil,
        Option.some.injEq, reduceCtorEq] at hc <;> subst hc <;>
      (refine prism_tag (tag := toValue) ?_ hw; intro _; rfl))

@[simp] theorem wf_codec (k : AccountKind) : codec.wf k = true := by
  cases k with
  | proposal a b => cases b <;> rfl
  | _ => rfl

@[simp] theorem enc_settings (a b : U8) : codec.enc (settings a b) = [0#8, a, b] := by
  show 0#8 :: (u8.enc a ++ u8.enc b) = _; simp
@[simp] theorem enc_deposit (a : U8) : codec.enc (deposit a) = [1#8, a] := by
  show 1#8 :: u8.enc a = _; simp
@[simp] theorem enc_proposal_none (a : U8) : codec.enc (proposal a Option.none) = [2#8, a, 0#8] := by
  show 2#8 :: (u8.enc a ++ (option u8).enc Option.none) = _; simp
@[simp] theorem enc_proposal_some (a b : U8) : codec.enc (proposal a (some b)) = [2#8, a, 1#8, b] := by
  show 2#8 :: (u8.enc a ++ (option u8).enc (some b)) = _; simp
@[simp] theorem enc_relayRound (a : U8) : codec.enc (relayRound a) = [3#8, a] := by
  show 3#8 :: u8.enc a = _; simp
@[simp] theorem enc_multiVault (a : U8) : codec.enc (multiVault a) = [4#8, a] := by
  show 4#8 :: u8.enc a = _; simp
@[simp] theorem enc_tokenSettings (a b : U8) : codec.enc (tokenSettings a b) = [5#8, a, b] := by
  show 5#8 :: (u8.enc a ++ u8.enc b) = _; simp

end AccountKind

/-- `bridge-utils/src/state.rs:36-41` -/
structure PDA where
  eventTimestamp : U32
  eventTransactionLt : U64
  eventConfiguration : Pubkey
  deriving DecidableEq, Repr

/-- `bridge-utils/src/state.rs:36-41`. -/
def PDA.codec : Codec PDA :=
  iso (pair u32 (pair u64 key)) (fun x => ⟨x.1, x.2.1, x.2.2⟩)
    (fun p => (p.eventTimestamp, p.eventTransactionLt, p.eventConfiguration)) (fun _ => rfl) (fun _ => rfl)

@[simp] theorem PDA.wf_codec (p : PDA) : PDA.codec.wf p = true := rfl
@[simp] theorem PDA.len_codec (p : PDA) : (PDA.codec.enc p).length = 44 := by simp [PDA.codec]

/-- The generic view of a proposal or withdrawal account, `bridge-utils/src/state.rs:10-21`. -/
structure GenericProposal where
  isInitialized : Bool
  accountKind : AccountKind
  author : Pubkey
  roundNumber : U32
  requiredVotes : U32
  pda : PDA
  event : Bytes
  metaData : Bytes
  signers : List Vote
  deriving DecidableEq, Repr

/-- `bridge-utils/src/state.rs:10-21`. -/
def GenericProposal.codec : Codec GenericProposal :=
  iso (pair bool (pair AccountKind.codec (pair key (pair u32 (pair u32 (pair PDA.codec
      (pair bytes (pair bytes (vec voteC)))))))))
    (fun x => ⟨x.1, x.2.1, x.2.2.1, x.2.2.2.1, x.2.2.2.2.1, x.2.2.2.2.2.1, x.2.2.2.2.2.2.1,
      x.2.2.2.2.2.2.2.1, x.2.2.2.2.2.2.2.2⟩)
    (fun p => (p.isInitialized, p.accountKind, p.author, p.roundNumber, p.requiredVotes, p.pda, p.event,
      p.metaData, p.signers)) (fun _ => rfl) (fun _ => rfl)

/-- Number of relays whose recorded vote is `Confirm`
(`signers.iter().filter(|v| **v == Vote::Confirm).count()`). `round-loader/src/processor.rs:712-717`. -/
def confirmCount (l : List Vote) : Nat := l.countP (fun v => v == Vote.confirm)

end Verif
