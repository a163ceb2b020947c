import Verif.Bridge.Helper
/-!
# `token-proxy/src/state.rs` and `instruction.rs`
-/
namespace Verif.TP
open Codec Verif

/-- `LEN` of every token proxy record (`#[bridge_pack(length = 1000)]`), e.g. `state.rs:57` -/
def recLen : Nat := 1000

/-- `MAX_NAME_LEN`, `MAX_SYMBOL_LEN`, `state.rs:12-13` -/
def maxNameLen : Nat := 32

/-- `state.rs:56-65` -/
structure Settings where
  isInitialized : Bool
  accountKind : AccountKind
  emergency : Bool
  guardian : Pubkey
  manager : Pubkey
  withdrawalManager : Pubkey
  deriving DecidableEq, Repr

/-- Borsh of `Settings`. `token-proxy/src/state.rs:57-66`. -/
def settingsC : Codec Settings :=
  iso (pair bool (pair AccountKind.codec (pair bool (pair key (pair key key)))))
    (fun x => ⟨x.1, x.2.1, x.2.2.1, x.2.2.2.1, x.2.2.2.2.1, x.2.2.2.2.2⟩)
    (fun s => (s.isInitialized, s.accountKind, s.emergency, s.guardian, s.manager, s.withdrawalManager)) (fun _ => rfl) (fun _ => rfl)

/-- `state.rs:75-80` -/
structure MultiVault where
  isInitialized : Bool
  accountKind : AccountKind
  deriving DecidableEq, Repr

/-- Borsh of `MultiVault`. `token-proxy/src/state.rs:76-81`. -/
def multiVaultC : Codec MultiVault :=
  iso (pair bool AccountKind.codec)
    (fun x => ⟨x.1, x.2⟩)
    (fun s => (s.isInitialized, s.accountKind)) (fun _ => rfl) (fun _ => rfl)

/-- `state.rs:483-488` -/
structure FeeInfo where
  multiplier : U64
  divisor : U64
  deriving DecidableEq, Repr

/-- Borsh of `FeeInfo`. `token-proxy/src/state.rs:486-492`. -/
def feeInfoC : Codec FeeInfo :=
  iso (pair u64 u64)
    (fun x => ⟨x.1, x.2⟩)
    (fun s => (s.multiplier, s.divisor)) (fun _ => rfl) (fun _ => rfl)

/-- `FeeInfo::default`, `state.rs:53-54,490-497` -/
def FeeInfo.default : FeeInfo := ⟨5, 10000⟩

/-- `TokenKind`, `state.rs:445-466` -/
inductive TokenKind
  | ever (mint : Pubkey) (token : EverAddress) (decimals : U8)
  | solana (mint vault : Pubkey)
  deriving DecidableEq, Repr

namespace TokenKind

/-- `into_ever` (derived by `EnumAsInner`). `token-proxy/src/state.rs:461-472`. -/
def intoEver : TokenKind → Option (Pubkey × EverAddress × U8)
  | ever m t d => some (m, t, d)
  | _ => none
/-- `into_solana`. `token-proxy/src/state.rs:461-472`. -/
def intoSolana : TokenKind → Option (Pubkey × Pubkey)
  | solana m v => some (m, v)
  | _ => none

/-- Borsh variant index. `token-proxy/src/state.rs:461-472`. -/
def tag : TokenKind → Nat
  | ever .. => 0
  | solana .. => 1

/-- `token-proxy/src/state.rs:461-472`. -/
def variants : List (Codec TokenKind) :=
  [ prism (pair key (pair everAddressC u8)) (fun x => ever x.1 x.2.1 x.2.2) intoEver
      (by rintro ⟨a, b, c⟩ (_|_) <;> simp [intoEver, eq_comm]),
    prism (pair key key) (fun x => solana x.1 x.2) intoSolana
      (by rintro ⟨a, b⟩ (_|_) <;> simp [intoSolana, eq_comm]) ]

/-- Borsh of `TokenKind`. `token-proxy/src/state.rs:461-472`. -/
def codec : Codec TokenKind :=
  enum tag variants (by decide) (by
    intro i c a hc hw
    rcases i with _ | _ | i <;>
      simp only [variants, List.getElem?_cons_zero, List.getElem?_cons_succ, List.getElem?_nil,
        Option.some.injEq, reduceCtorEq] at hc <;> subst hc <;>
      (refine prism_tag (tag := tag) ?_ hw; intro _; rfl))

end TokenKind

/-- `state.rs:90-107` -/
structure TokenSettings where
  isInitialized : Bool
  accountKind : AccountKind
  kind : TokenKind
  name : Bytes
  symbol : Bytes
  depositLimit : U64
  withdrawalLimit : U64
  withdrawalDailyLimit : U64
  withdrawalDailyAmount : U64
  withdrawalEpoch : I64
  emergency : Bool
  feeSupply : U64
  feeDepositInfo : FeeInfo
  feeWithdrawalInfo : FeeInfo
  deriving DecidableEq, Repr

/-- Borsh of `TokenSettings`. `token-proxy/src/state.rs:91-108`. -/
def tokenSettingsC : Codec TokenSettings :=
  iso (pair bool (pair AccountKind.codec (pair TokenKind.codec (pair str (pair str (pair u64 (pair u64 (pair u64 (pair u64 (pair i64 (pair bool (pair u64 (pair feeInfoC feeInfoC)))))))))))))
    (fun x => ⟨x.1, x.2.1, x.2.2.1, x.2.2.2.1, x.2.2.2.2.1, x.2.2.2.2.2.1, x.2.2.2.2.2.2.1, x.2.2.2.2.2.2.2.1, x.2.2.2.2.2.2.2.2.1, x.2.2.2.2.2.2.2.2.2.1, x.2.2.2.2.2.2.2.2.2.2.1, x.2.2.2.2.2.2.2.2.2.2.2.1, x.2.2.2.2.2.2.2.2.2.2.2.2.1, x.2.2.2.2.2.2.2.2.2.2.2.2.2⟩)
    (fun s => (s.isInitialized, s.accountKind, s.kind, s.name, s.symbol, s.depositLimit, s.withdrawalLimit, s.withdrawalDailyLimit, s.withdrawalDailyAmount, s.withdrawalEpoch, s.emergency, s.feeSupply, s.feeDepositInfo, s.feeWithdrawalInfo)) (fun _ => rfl) (fun _ => rfl)

/-- `state.rs:160-171` -/
structure DepositSolEvent where
  baseToken : Pubkey
  name : Bytes
  symbol : Bytes
  decimals : U8
  amount : U128
  recipient : EverAddress
  value : U64
  expectedEvers : Pubkey
  payload : Bytes
  deriving DecidableEq, Repr

/-- Borsh of `DepositMultiTokenSolEvent`. `token-proxy/src/state.rs:166-177`. -/
def depositSolEventC : Codec DepositSolEvent :=
  iso (pair key (pair str (pair str (pair u8 (pair u128 (pair everAddressC (pair u64 (pair key bytes))))))))
    (fun x => ⟨x.1, x.2.1, x.2.2.1, x.2.2.2.1, x.2.2.2.2.1, x.2.2.2.2.2.1, x.2.2.2.2.2.2.1, x.2.2.2.2.2.2.2.1, x.2.2.2.2.2.2.2.2⟩)
    (fun s => (s.baseToken, s.name, s.symbol, s.decimals, s.amount, s.recipient, s.value, s.expectedEvers, s.payload)) (fun _ => rfl) (fun _ => rfl)

/-- `state.rs:231-239` -/
structure DepositEverEvent where
  token : EverAddress
  amount : U128
  recipient : EverAddress
  value : U64
  expectedEvers : Pubkey
  payload : Bytes
  deriving DecidableEq, Repr

/-- Borsh of `DepositMultiTokenEverEvent`. `token-proxy/src/state.rs:239-247`. -/
def depositEverEventC : Codec DepositEverEvent :=
  iso (pair everAddressC (pair u128 (pair everAddressC (pair u64 (pair key bytes)))))
    (fun x => ⟨x.1, x.2.1, x.2.2.1, x.2.2.2.1, x.2.2.2.2.1, x.2.2.2.2.2⟩)
    (fun s => (s.token, s.amount, s.recipient, s.value, s.expectedEvers, s.payload)) (fun _ => rfl) (fun _ => rfl)

/-- `DepositMultiTokenSol`/`Ever`, `state.rs:143-151,214-222`, with the `…WithLen` wrappers flattened:
`eventLen` and `metaLen` are their `len` fields, `seed` is `DepositTokenMeta`. -/
structure Deposit (E : Type) where
  isInitialized : Bool
  accountKind : AccountKind
  author : Pubkey
  eventLen : U32
  event : E
  metaLen : U32
  seed : U128
  deriving DecidableEq, Repr

/-- Borsh of a deposit record with event codec `ec`. `token-proxy/src/state.rs:148-156,221-229`. -/
def depositC {E : Type} (ec : Codec E) : Codec (Deposit E) :=
  iso (pair bool (pair AccountKind.codec (pair key (pair u32 (pair ec (pair u32 u128))))))
    (fun x => ⟨x.1, x.2.1, x.2.2.1, x.2.2.2.1, x.2.2.2.2.1, x.2.2.2.2.2.1, x.2.2.2.2.2.2⟩)
    (fun s => (s.isInitialized, s.accountKind, s.author, s.eventLen, s.event, s.metaLen, s.seed)) (fun _ => rfl) (fun _ => rfl)

/-- `Deposit`, the generic view, `state.rs:117-124` -/
structure GenericDeposit where
  isInitialized : Bool
  accountKind : AccountKind
  author : Pubkey
  event : Bytes
  metaData : Bytes
  deriving DecidableEq, Repr

/-- Borsh of `Deposit`. `token-proxy/src/state.rs:118-125`. -/
def genericDepositC : Codec GenericDeposit :=
  iso (pair bool (pair AccountKind.codec (pair key (pair bytes bytes))))
    (fun x => ⟨x.1, x.2.1, x.2.2.1, x.2.2.2.1, x.2.2.2.2⟩)
    (fun s => (s.isInitialized, s.accountKind, s.author, s.event, s.metaData)) (fun _ => rfl) (fun _ => rfl)

/-- `WithdrawalTokenStatus`, `state.rs:471-478` -/
inductive WStatus
  | new | processed | cancelled | pending | waitingForApprove | waitingForExecute
  deriving DecidableEq, Repr

/-- `token-proxy/src/state.rs:474-484`. -/
def wstatusC : Codec WStatus :=
  plainEnum [.new, .processed, .cancelled, .pending, .waitingForApprove, .waitingForExecute] (by decide) (by decide)

@[simp] theorem wf_wstatusC (v : WStatus) : wstatusC.wf v = true := by cases v <;> rfl
@[simp] theorem len_wstatusC (v : WStatus) : (wstatusC.enc v).length = 1 := rfl

/-- `WithdrawalTokenMeta`, `state.rs:409-414` -/
structure WMeta where
  status : WStatus
  bounty : U64
  epoch : I64
  deriving DecidableEq, Repr

/-- Borsh of `WithdrawalTokenMeta`. `token-proxy/src/state.rs:418-423`. -/
def wmetaC : Codec WMeta :=
  iso (pair wstatusC (pair u64 i64))
    (fun x => ⟨x.1, x.2.1, x.2.2⟩)
    (fun s => (s.status, s.bounty, s.epoch)) (fun _ => rfl) (fun _ => rfl)

/-- `WithdrawalMultiTokenEverEvent`, `state.rs:309-318` -/
structure WEverEvent where
  token : EverAddress
  name : Bytes
  symbol : Bytes
  decimals : U8
  amount : U128
  recipient : Pubkey
  payload : Bytes
  deriving DecidableEq, Repr

/-- Borsh of `WithdrawalMultiTokenEverEvent`. `token-proxy/src/state.rs:320-329`. -/
def wEverEventC : Codec WEverEvent :=
  iso (pair everAddressC (pair str (pair str (pair u8 (pair u128 (pair key bytes))))))
    (fun x => ⟨x.1, x.2.1, x.2.2.1, x.2.2.2.1, x.2.2.2.2.1, x.2.2.2.2.2.1, x.2.2.2.2.2.2⟩)
    (fun s => (s.token, s.name, s.symbol, s.decimals, s.amount, s.recipient, s.payload)) (fun _ => rfl) (fun _ => rfl)

/-- `WithdrawalMultiTokenSolEvent`, `state.rs:382-388` -/
structure WSolEvent where
  mint : Pubkey
  amount : U128
  recipient : Pubkey
  payload : Bytes
  deriving DecidableEq, Repr

/-- Borsh of `WithdrawalMultiTokenSolEvent`. `token-proxy/src/state.rs:390-396`. -/
def wSolEventC : Codec WSolEvent :=
  iso (pair key (pair u128 (pair key bytes)))
    (fun x => ⟨x.1, x.2.1, x.2.2.1, x.2.2.2⟩)
    (fun s => (s.mint, s.amount, s.recipient, s.payload)) (fun _ => rfl) (fun _ => rfl)

/-- `WithdrawalMultiTokenEver`/`Sol`, `state.rs:289-301,362-374`, with the `…WithLen` wrappers flattened:
`eventLen` and `metaLen` are their `len` fields. -/
structure Withdrawal (E : Type) where
  isInitialized : Bool
  accountKind : AccountKind
  author : Pubkey
  roundNumber : U32
  requiredVotes : U32
  pda : PDA
  eventLen : U32
  event : E
  metaLen : U32
  md : WMeta
  signers : List Vote
  deriving DecidableEq, Repr

/-- Borsh of a withdrawal record with event codec `ec`. `token-proxy/src/state.rs:298-310,368-380`. -/
def withdrawalC {E : Type} (ec : Codec E) : Codec (Withdrawal E) :=
  iso (pair bool (pair AccountKind.codec (pair key (pair u32 (pair u32 (pair PDA.codec (pair u32 (pair ec (pair u32 (pair wmetaC (vec voteC)))))))))))
    (fun x => ⟨x.1, x.2.1, x.2.2.1, x.2.2.2.1, x.2.2.2.2.1, x.2.2.2.2.2.1, x.2.2.2.2.2.2.1, x.2.2.2.2.2.2.2.1, x.2.2.2.2.2.2.2.2.1, x.2.2.2.2.2.2.2.2.2.1, x.2.2.2.2.2.2.2.2.2.2⟩)
    (fun s => (s.isInitialized, s.accountKind, s.author, s.roundNumber, s.requiredVotes, s.pda, s.eventLen, s.event, s.metaLen, s.md, s.signers)) (fun _ => rfl) (fun _ => rfl)

/-- `FeeType`, `state.rs:503-507` -/
inductive FeeType
  | deposit | withdrawal
  deriving DecidableEq, Repr

/-- `token-proxy/src/state.rs:503-507`. -/
def feeTypeC : Codec FeeType := plainEnum [.deposit, .withdrawal] (by decide) (by decide)

/-! ## Length fields written by the constructors (`u32` arithmetic, wrapping) -/

/-- `DepositMultiTokenSolEventWithLen::new`, `state.rs:34-41,193-199` -/
def DepositSolEvent.lenField (e : DepositSolEvent) : U32 :=
  BitVec.ofNat 32 (123 + 4 + e.name.length + 4 + e.symbol.length + 4 + e.payload.length)
/-- `DepositMultiTokenEverEventWithLen::new`, `state.rs:43-50,257` -/
def DepositEverEvent.lenField (e : DepositEverEvent) : U32 := BitVec.ofNat 32 (124 + 4 + e.payload.length)
/-- `WithdrawalMultiTokenEverEventWithLen::new`, `state.rs:17-22,338-344` -/
def WEverEvent.lenField (e : WEverEvent) : U32 :=
  BitVec.ofNat 32 (83 + 4 + e.name.length + 4 + e.symbol.length + 4 + e.payload.length)
/-- `WithdrawalMultiTokenSolEventWithLen::new`, `state.rs:24-28,399` -/
def WSolEvent.lenField (e : WSolEvent) : U32 := BitVec.ofNat 32 (80 + 4 + e.payload.length)

/-! ## Log records (`state.rs:522-584`) -/

/-- `DepositMultiTokenEvent`, `state.rs:522-531` -/
structure DepositLog where
  account : Pubkey
  recipient : EverAddress
  transferAmount : U128
  seed : U128
  value : U64
  expectedEvers : Pubkey
  eventData : Bytes
  deriving DecidableEq, Repr

/-- Borsh of the log record. `token-proxy/src/state.rs:522-531`. -/
def depositLogC : Codec DepositLog :=
  iso (pair key (pair everAddressC (pair u128 (pair u128 (pair u64 (pair key bytes))))))
    (fun x => ⟨x.1, x.2.1, x.2.2.1, x.2.2.2.1, x.2.2.2.2.1, x.2.2.2.2.2.1, x.2.2.2.2.2.2⟩)
    (fun s => (s.account, s.recipient, s.transferAmount, s.seed, s.value, s.expectedEvers, s.eventData)) (fun _ => rfl) (fun _ => rfl)

/-- `WithdrawMultiTokenRequestEvent`, `state.rs:533-544` -/
structure WithdrawRequestLog where
  account : Pubkey
  token : Bytes
  recipient : Pubkey
  amount : U128
  eventTimestamp : U32
  eventTransactionLt : U64
  eventConfiguration : Pubkey
  eventData : Bytes
  bounty : I64
  deriving DecidableEq, Repr

/-- Borsh of the log record. `token-proxy/src/state.rs:533-544`. -/
def withdrawRequestLogC : Codec WithdrawRequestLog :=
  iso (pair key (pair str (pair key (pair u128 (pair u32 (pair u64 (pair key (pair bytes i64))))))))
    (fun x => ⟨x.1, x.2.1, x.2.2.1, x.2.2.2.1, x.2.2.2.2.1, x.2.2.2.2.2.1, x.2.2.2.2.2.2.1, x.2.2.2.2.2.2.2.1, x.2.2.2.2.2.2.2.2⟩)
    (fun s => (s.account, s.token, s.recipient, s.amount, s.eventTimestamp, s.eventTransactionLt, s.eventConfiguration, s.eventData, s.bounty)) (fun _ => rfl) (fun _ => rfl)

/-- `TokenSettingsEvent`, `state.rs:546-557` -/
structure TokenSettingsLog where
  account : Pubkey
  symbol : Bytes
  name : Bytes
  mint : Pubkey
  vault : Option Pubkey
  everDecimals : Option U8
  solanaDecimals : Option U8
  root : Option EverAddress
  fee : FeeInfo
  deriving DecidableEq, Repr

/-- Borsh of the log record. `token-proxy/src/state.rs:546-557`. -/
def tokenSettingsLogC : Codec TokenSettingsLog :=
  iso (pair key (pair str (pair str (pair key (pair (option key) (pair (option u8) (pair (option u8) (pair (option everAddressC) feeInfoC))))))))
    (fun x => ⟨x.1, x.2.1, x.2.2.1, x.2.2.2.1, x.2.2.2.2.1, x.2.2.2.2.2.1, x.2.2.2.2.2.2.1, x.2.2.2.2.2.2.2.1, x.2.2.2.2.2.2.2.2⟩)
    (fun s => (s.account, s.symbol, s.name, s.mint, s.vault, s.everDecimals, s.solanaDecimals, s.root, s.fee)) (fun _ => rfl) (fun _ => rfl)

/-- `UpdateWithdrawalStatusEvent`, `state.rs:559-563` -/
structure StatusLog where
  account : Pubkey
  status : WStatus
  deriving DecidableEq, Repr

/-- Borsh of the log record. `token-proxy/src/state.rs:559-563`. -/
def statusLogC : Codec StatusLog :=
  iso (pair key wstatusC)
    (fun x => ⟨x.1, x.2⟩)
    (fun s => (s.account, s.status)) (fun _ => rfl) (fun _ => rfl)

/-- `UpdateFeeEvent`, `state.rs:565-571` -/
structure UpdateFeeLog where
  tokenSettings : Pubkey
  feeType : FeeType
  multiplier : U64
  divisor : U64
  deriving DecidableEq, Repr

/-- Borsh of the log record. `token-proxy/src/state.rs:565-571`. -/
def updateFeeLogC : Codec UpdateFeeLog :=
  iso (pair key (pair feeTypeC (pair u64 u64)))
    (fun x => ⟨x.1, x.2.1, x.2.2.1, x.2.2.2⟩)
    (fun s => (s.tokenSettings, s.feeType, s.multiplier, s.divisor)) (fun _ => rfl) (fun _ => rfl)

/-- `UpdateTokenNameEvent`, `state.rs:573-578` -/
structure UpdateNameLog where
  tokenSettings : Pubkey
  symbol : Bytes
  name : Bytes
  deriving DecidableEq, Repr

/-- Borsh of the log record. `token-proxy/src/state.rs:573-578`. -/
def updateNameLogC : Codec UpdateNameLog :=
  iso (pair key (pair str str))
    (fun x => ⟨x.1, x.2.1, x.2.2⟩)
    (fun s => (s.tokenSettings, s.symbol, s.name)) (fun _ => rfl) (fun _ => rfl)

/-- `LiquidityRequestEvent`, `state.rs:580-584` -/
structure LiquidityLog where
  deposit : Pubkey
  withdrawal : Pubkey
  deriving DecidableEq, Repr

/-- Borsh of the log record. `token-proxy/src/state.rs:580-584`. -/
def liquidityLogC : Codec LiquidityLog :=
  iso (pair key key)
    (fun x => ⟨x.1, x.2⟩)
    (fun s => (s.deposit, s.withdrawal)) (fun _ => rfl) (fun _ => rfl)

/-! ## Instructions -/

/-- `TokenProxyInstruction`, `instruction.rs`. (`event_timestamp`, `event_transaction_lt`, `event_configuration` are
grouped as a `PDA`, which has the same encoding.) -/
inductive Instr
  | voteForWithdrawRequest (vote : Vote)
  | withdrawMultiTokenEver
  | withdrawMultiTokenSol
  | executePayloadEver
  | executePayloadSol
  | init (guardian : Pubkey) (manager : Pubkey) (withdrawalManager : Pubkey)
  | depositMultiTokenEver (seed : U128) (amount : U64) (recipient : EverAddress) (value : U64) (expectedEvers : Pubkey) (payload : Bytes)
  | depositMultiTokenSol (seed : U128) (name : Bytes) (symbol : Bytes) (amount : U64) (recipient : EverAddress) (value : U64) (expectedEvers : Pubkey) (payload : Bytes)
  | withdrawMultiTokenEverRequest (pda : PDA) (token : EverAddress) (name : Bytes) (symbol : Bytes) (decimals : U8) (recipient : Pubkey) (amount : U128) (payload : Bytes) (attachedAmount : U64)
  | withdrawMultiTokenSolRequest (pda : PDA) (recipient : Pubkey) (amount : U128) (payload : Bytes) (attachedAmount : U64)
  | changeGuardian (newGuardian : Pubkey)
  | changeManager (newManager : Pubkey)
  | changeWithdrawalManager (newWithdrawalManager : Pubkey)
  | changeDepositLimit (newDepositLimit : U64)
  | changeWithdrawalLimits (newWithdrawalLimit : Option U64) (newWithdrawalDailyLimit : Option U64)
  | enableEmergencyMode
  | disableEmergencyMode
  | enableTokenEmergencyMode
  | disableTokenEmergencyMode
  | approveWithdrawEver
  | approveWithdrawSol
  | updateFee (feeType : FeeType) (multiplier : U64) (divisor : U64)
  | updateTokenName (symbol : Bytes) (name : Bytes)
  | withdrawEverFee (amount : U64)
  | withdrawSolFee (amount : U64)
  | changeBountyForWithdrawSol (bounty : U64)
  | cancelWithdrawSol (seed : U128) (recipient : EverAddress) (value : U64) (expectedEvers : Pubkey) (payload : Bytes)
  | fillWithdrawSol (seed : U128) (recipient : EverAddress) (amount : U64) (value : U64) (expectedEvers : Pubkey) (payload : Bytes)
  | withdrawProxy (amount : U64)
  | closeDeposit
  | closeWithdrawal
  | withdrawMultiVault (amount : U64)
  deriving DecidableEq, Repr

/-- Borsh variant index. `token-proxy/src/instruction.rs:8-347`. -/
def Instr.tag : Instr → Nat
  | voteForWithdrawRequest .. => 0
  | withdrawMultiTokenEver => 1
  | withdrawMultiTokenSol => 2
  | executePayloadEver => 3
  | executePayloadSol => 4
  | init .. => 5
  | depositMultiTokenEver .. => 6
  | depositMultiTokenSol .. => 7
  | withdrawMultiTokenEverRequest .. => 8
  | withdrawMultiTokenSolRequest .. => 9
  | changeGuardian .. => 10
  | changeManager .. => 11
  | changeWithdrawalManager .. => 12
  | changeDepositLimit .. => 13
  | changeWithdrawalLimits .. => 14
  | enableEmergencyMode => 15
  | disableEmergencyMode => 16
  | enableTokenEmergencyMode => 17
  | disableTokenEmergencyMode => 18
  | approveWithdrawEver => 19
  | approveWithdrawSol => 20
  | updateFee .. => 21
  | updateTokenName .. => 22
  | withdrawEverFee .. => 23
  | withdrawSolFee .. => 24
  | changeBountyForWithdrawSol .. => 25
  | cancelWithdrawSol .. => 26
  | fillWithdrawSol .. => 27
  | withdrawProxy .. => 28
  | closeDeposit => 29
  | closeWithdrawal => 30
  | withdrawMultiVault .. => 31

local macro "inv" : tactic => `(tactic| (intro a b; constructor; (intro h; cases b <;> cases h; rfl); (intro h; subst h; rfl)))

/-- Borsh of each variant's fields, in order. `token-proxy/src/instruction.rs:8-347`. -/
def Instr.variants : List (Codec Instr) :=
  [ prism voteC (fun x => voteForWithdrawRequest x)
      (fun | voteForWithdrawRequest a => some a | _ => none)
      (by inv),
    prism unit (fun _ => withdrawMultiTokenEver) (fun | withdrawMultiTokenEver => some () | _ => none)
      (by inv),
    prism unit (fun _ => withdrawMultiTokenSol) (fun | withdrawMultiTokenSol => some () | _ => none)
      (by inv),
    prism unit (fun _ => executePayloadEver) (fun | executePayloadEver => some () | _ => none)
      (by inv),
    prism unit (fun _ => executePayloadSol) (fun | executePayloadSol => some () | _ => none)
      (by inv),
    prism (pair key (pair key key)) (fun x => init x.1 x.2.1 x.2.2)
      (fun | init a b c => some (a, b, c) | _ => none)
      (by inv),
    prism (pair u128 (pair u64 (pair everAddressC (pair u64 (pair key bytes))))) (fun x => depositMultiTokenEver x.1 x.2.1 x.2.2.1 x.2.2.2.1 x.2.2.2.2.1 x.2.2.2.2.2)
      (fun | depositMultiTokenEver a b c d e f => some (a, b, c, d, e, f) | _ => none)
      (by inv),
    prism (pair u128 (pair str (pair str (pair u64 (pair everAddressC (pair u64 (pair key bytes))))))) (fun x => depositMultiTokenSol x.1 x.2.1 x.2.2.1 x.2.2.2.1 x.2.2.2.2.1 x.2.2.2.2.2.1 x.2.2.2.2.2.2.1 x.2.2.2.2.2.2.2)
      (fun | depositMultiTokenSol a b c d e f g h => some (a, b, c, d, e, f, g, h) | _ => none)
      (by inv),
    prism (pair PDA.codec (pair everAddressC (pair str (pair str (pair u8 (pair key (pair u128 (pair bytes u64)))))))) (fun x => withdrawMultiTokenEverRequest x.1 x.2.1 x.2.2.1 x.2.2.2.1 x.2.2.2.2.1 x.2.2.2.2.2.1 x.2.2.2.2.2.2.1 x.2.2.2.2.2.2.2.1 x.2.2.2.2.2.2.2.2)
      (fun | withdrawMultiTokenEverRequest a b c d e f g h i => some (a, b, c, d, e, f, g, h, i) | _ => none)
      (by inv),
    prism (pair PDA.codec (pair key (pair u128 (pair bytes u64)))) (fun x => withdrawMultiTokenSolRequest x.1 x.2.1 x.2.2.1 x.2.2.2.1 x.2.2.2.2)
      (fun | withdrawMultiTokenSolRequest a b c d e => some (a, b, c, d, e) | _ => none)
      (by inv),
    prism key (fun x => changeGuardian x)
      (fun | changeGuardian a => some a | _ => none)
      (by inv),
    prism key (fun x => changeManager x)
      (fun | changeManager a => some a | _ => none)
      (by inv),
    prism key (fun x => changeWithdrawalManager x)
      (fun | changeWithdrawalManager a => some a | _ => none)
      (by inv),
    prism u64 (fun x => changeDepositLimit x)
      (fun | changeDepositLimit a => some a | _ => none)
      (by inv),
    prism (pair (option u64) (option u64)) (fun x => changeWithdrawalLimits x.1 x.2)
      (fun | changeWithdrawalLimits a b => some (a, b) | _ => none)
      (by inv),
    prism unit (fun _ => enableEmergencyMode) (fun | enableEmergencyMode => some () | _ => none)
      (by inv),
    prism unit (fun _ => disableEmergencyMode) (fun | disableEmergencyMode => some () | _ => none)
      (by inv),
    prism unit (fun _ => enableTokenEmergencyMode) (fun | enableTokenEmergencyMode => some () | _ => none)
      (by inv),
    prism unit (fun _ => disableTokenEmergencyMode) (fun | disableTokenEmergencyMode => some () | _ => none)
      (by inv),
    prism unit (fun _ => approveWithdrawEver) (fun | approveWithdrawEver => some () | _ => none)
      (by inv),
    prism unit (fun _ => approveWithdrawSol) (fun | approveWithdrawSol => some () | _ => none)
      (by inv),
    prism (pair feeTypeC (pair u64 u64)) (fun x => updateFee x.1 x.2.1 x.2.2)
      (fun | updateFee a b c => some (a, b, c) | _ => none)
      (by inv),
    prism (pair str str) (fun x => updateTokenName x.1 x.2)
      (fun | updateTokenName a b => some (a, b) | _ => none)
      (by inv),
    prism u64 (fun x => withdrawEverFee x)
      (fun | withdrawEverFee a => some a | _ => none)
      (by inv),
    prism u64 (fun x => withdrawSolFee x)
      (fun | withdrawSolFee a => some a | _ => none)
      (by inv),
    prism u64 (fun x => changeBountyForWithdrawSol x)
      (fun | changeBountyForWithdrawSol a => some a | _ => none)
      (by inv),
    prism (pair u128 (pair everAddressC (pair u64 (pair key bytes)))) (fun x => cancelWithdrawSol x.1 x.2.1 x.2.2.1 x.2.2.2.1 x.2.2.2.2)
      (fun | cancelWithdrawSol a b c d e => some (a, b, c, d, e) | _ => none)
      (by inv),
    prism (pair u128 (pair everAddressC (pair u64 (pair u64 (pair key bytes))))) (fun x => fillWithdrawSol x.1 x.2.1 x.2.2.1 x.2.2.2.1 x.2.2.2.2.1 x.2.2.2.2.2)
      (fun | fillWithdrawSol a b c d e f => some (a, b, c, d, e, f) | _ => none)
      (by inv),
    prism u64 (fun x => withdrawProxy x)
      (fun | withdrawProxy a => some a | _ => none)
      (by inv),
    prism unit (fun _ => closeDeposit) (fun | closeDeposit => some () | _ => none)
      (by inv),
    prism unit (fun _ => closeWithdrawal) (fun | closeWithdrawal => some () | _ => none)
      (by inv),
    prism u64 (fun x => withdrawMultiVault x)
      (fun | withdrawMultiVault a => some a | _ => none)
      (by inv) ]

/-- Borsh of `TokenProxyInstruction`. `token-proxy/src/instruction.rs:8-347`. -/
def Instr.codec : Codec Instr :=
  enum tag variants (by decide) (by
    intro i c a hc hw
    rcases i with _ | _ | _ | _ | _ | _ | _ | _ | _ | _ | _ | _ | _ | _ | _ | _ | _ | _ | _ | _ | _ | _ | _ | _ | _ | _ | _ | _ | _ | _ | _ | _ | i <;>
      simp only [variants, List.getElem?_cons_zero, List.getElem?_cons_succ, List.getElem?_nil,
        Option.some.injEq, reduceCtorEq] at hc <;> subst hc <;>
      (refine prism_tag (tag := Instr.tag) ?_ hw; intro _; rfl))

end Verif.TP
