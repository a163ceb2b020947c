import Verif.Spec.Logs
import Verif.NativeProxy.Processor
/-!
# The published format

What programs in other languages read and write, byte by byte: numbers, texts and lists, instructions, records and log records. Nothing here refers
to the encoders of the model.
-/
namespace Verif.Wire

/-- A number in `n` bytes, least significant byte first. -/
def num (n x : Nat) : Bytes := (List.range n).map fun i => BitVec.ofNat 8 (x / 256 ^ i)

/-- A yes or no. -/
def flag (b : Bool) : Bytes := [if b then 1#8 else 0#8]

/-- 32 bytes. -/
def key (k : Pubkey) : Bytes := num 32 k.toNat

/-- Bytes of variable length: their number in four bytes, then they. -/
def text (s : Bytes) : Bytes := num 4 s.length ++ s

/-- A list: the number of entries in four bytes, then the entries. -/
def list {α : Type} (f : α → Bytes) (l : List α) : Bytes := num 4 l.length ++ l.flatMap f

/-- Something that may be missing. -/
def opt {α : Type} (f : α → Bytes) : Option α → Bytes
  | none => [0]
  | some a => 1 :: f a

def vote : Vote → Bytes
  | .none => [0]
  | .confirm => [1]
  | .reject => [2]

/-- An address of Everscale: kind of address (always 0), workchain, account. -/
def ever (a : EverAddress) : Bytes := 0 :: a.workchainId :: key a.address

/-- Time, logical time and contract of an event of Everscale. -/
def pda (p : PDA) : Bytes := num 4 p.eventTimestamp.toNat ++ num 8 p.eventTransactionLt.toNat ++ key p.eventConfiguration

/-! ## Instructions -/

def feeType : TP.FeeType → Bytes
  | .deposit => [0]
  | .withdrawal => [1]

/-- Instructions of the round loader. -/
def rl : RL.Instr → Bytes
  | .voteForProposal v => 0 :: vote v
  | .init n s m t => 1 :: num 4 n.toNat ++ key s ++ num 4 m.toNat ++ num 4 t.toNat
  | .updateSettings n s m t => 2 :: opt (fun x => num 4 x.toNat) n ++ opt key s ++ opt (fun x => num 4 x.toNat) m ++ opt (fun x => num 4 x.toNat) t
  | .createRelayRound n rs e => 3 :: num 4 n.toNat ++ list key rs ++ num 4 e.toNat
  | .createProposal n p d => 4 :: num 4 n.toNat ++ pda p ++ key d
  | .writeProposal o bs => 5 :: num 4 o.toNat ++ text bs
  | .finalizeProposal => [6]
  | .executeProposal => [7]
  | .executeProposalByAdmin => [8]

/-- Instructions of the token proxy. -/
def tp : TP.Instr → Bytes
  | .voteForWithdrawRequest v => 0 :: vote v
  | .withdrawMultiTokenEver => [1]
  | .withdrawMultiTokenSol => [2]
  | .executePayloadEver => [3]
  | .executePayloadSol => [4]
  | .init guardian manager withdrawalManager => 5 :: key guardian ++ key manager ++ key withdrawalManager
  | .depositMultiTokenEver seed amount to value evers payload =>
    6 :: num 16 seed.toNat ++ num 8 amount.toNat ++ ever to ++ num 8 value.toNat ++ key evers ++ text payload
  | .depositMultiTokenSol seed name symbol amount to value evers payload =>
    7 :: num 16 seed.toNat ++ text name ++ text symbol ++ num 8 amount.toNat ++ ever to ++ num 8 value.toNat ++ key evers ++ text payload
  | .withdrawMultiTokenEverRequest p token name symbol decimals to amount payload attached =>
    8 :: pda p ++ ever token ++ text name ++ text symbol ++ [decimals] ++ key to ++ num 16 amount.toNat ++ text payload ++ num 8 attached.toNat
  | .withdrawMultiTokenSolRequest p to amount payload attached =>
    9 :: pda p ++ key to ++ num 16 amount.toNat ++ text payload ++ num 8 attached.toNat
  | .changeGuardian k => 10 :: key k
  | .changeManager k => 11 :: key k
  | .changeWithdrawalManager k => 12 :: key k
  | .changeDepositLimit n => 13 :: num 8 n.toNat
  | .changeWithdrawalLimits each daily => 14 :: opt (fun x => num 8 x.toNat) each ++ opt (fun x => num 8 x.toNat) daily
  | .enableEmergencyMode => [15]
  | .disableEmergencyMode => [16]
  | .enableTokenEmergencyMode => [17]
  | .disableTokenEmergencyMode => [18]
  | .approveWithdrawEver => [19]
  | .approveWithdrawSol => [20]
  | .updateFee f multiplier divisor => 21 :: feeType f ++ num 8 multiplier.toNat ++ num 8 divisor.toNat
  | .updateTokenName symbol name => 22 :: text symbol ++ text name
  | .withdrawEverFee n => 23 :: num 8 n.toNat
  | .withdrawSolFee n => 24 :: num 8 n.toNat
  | .changeBountyForWithdrawSol n => 25 :: num 8 n.toNat
  | .cancelWithdrawSol seed to value evers payload => 26 :: num 16 seed.toNat ++ ever to ++ num 8 value.toNat ++ key evers ++ text payload
  | .fillWithdrawSol seed to amount value evers payload =>
    27 :: num 16 seed.toNat ++ ever to ++ num 8 amount.toNat ++ num 8 value.toNat ++ key evers ++ text payload
  | .withdrawProxy n => 28 :: num 8 n.toNat
  | .closeDeposit => [29]
  | .closeWithdrawal => [30]
  | .withdrawMultiVault n => 31 :: num 8 n.toNat

/-- Instructions of the native proxy. -/
def np : NP.Instr → Bytes
  | .deposit seed amount to value evers payload =>
    0 :: num 16 seed.toNat ++ num 8 amount.toNat ++ ever to ++ num 8 value.toNat ++ key evers ++ text payload

/-- Lists and texts short enough for their length to be written in four bytes, texts being UTF-8. -/
def rlFits : RL.Instr → Prop
  | .createRelayRound _ rs _ => rs.length < 2 ^ 32
  | .writeProposal _ bs => bs.length < 2 ^ 32
  | _ => True

/-- The same for the token proxy. -/
def tpFits : TP.Instr → Prop
  | .depositMultiTokenEver _ _ _ _ _ p => p.length < 2 ^ 32
  | .depositMultiTokenSol _ n s _ _ _ _ p =>
    (n.length < 2 ^ 32 ∧ Codec.validUtf8 n) ∧ (s.length < 2 ^ 32 ∧ Codec.validUtf8 s) ∧ p.length < 2 ^ 32
  | .withdrawMultiTokenEverRequest _ _ n s _ _ _ p _ =>
    (n.length < 2 ^ 32 ∧ Codec.validUtf8 n) ∧ (s.length < 2 ^ 32 ∧ Codec.validUtf8 s) ∧ p.length < 2 ^ 32
  | .withdrawMultiTokenSolRequest _ _ _ p _ => p.length < 2 ^ 32
  | .updateTokenName s n => (s.length < 2 ^ 32 ∧ Codec.validUtf8 s) ∧ (n.length < 2 ^ 32 ∧ Codec.validUtf8 n)
  | .cancelWithdrawSol _ _ _ _ p => p.length < 2 ^ 32
  | .fillWithdrawSol _ _ _ _ _ p => p.length < 2 ^ 32
  | _ => True

/-- The same for the native proxy. -/
def npFits : NP.Instr → Prop
  | .deposit _ _ _ _ _ p => p.length < 2 ^ 32

/-! ## Records -/

/-- The kind of a record, with the nonces of its address. -/
def kind : AccountKind → Bytes
  | .settings n m => [0, n, m]
  | .deposit n => [1, n]
  | .proposal n m => [2, n] ++ opt (fun x => [x]) m
  | .relayRound n => [3, n]
  | .multiVault n => [4, n]
  | .tokenSettings n m => [5, n, m]

def rlSettings (s : RL.Settings) : Bytes :=
  flag s.isInitialized ++ kind s.accountKind ++ num 4 s.currentRoundNumber.toNat ++ key s.roundSubmitter ++ num 4 s.minRequiredVotes.toNat ++
    num 4 s.roundTtl.toNat

def relayRound (r : RL.RelayRound) : Bytes :=
  flag r.isInitialized ++ kind r.accountKind ++ num 4 r.roundNumber.toNat ++ num 4 r.roundEnd.toNat ++ list key r.relays

def roundStatus : RL.Status → Bytes
  | .new => [0]
  | .executed => [1]

def rlEvent (e : RL.Event) : Bytes := num 4 e.roundNum.toNat ++ list key e.relays ++ num 4 e.roundEnd.toNat

def proposal (p : RL.Proposal) : Bytes :=
  flag p.isInitialized ++ kind p.accountKind ++ key p.author ++ num 4 p.roundNumber.toNat ++ num 4 p.requiredVotes.toNat ++ pda p.pda ++
    num 4 p.eventLen.toNat ++ rlEvent p.event ++ num 4 p.metaLen.toNat ++ roundStatus p.status ++ list vote p.signers

def tpSettings (s : TP.Settings) : Bytes :=
  flag s.isInitialized ++ kind s.accountKind ++ flag s.emergency ++ key s.guardian ++ key s.manager ++ key s.withdrawalManager

def multiVault (s : TP.MultiVault) : Bytes := flag s.isInitialized ++ kind s.accountKind

def feeInfo (f : TP.FeeInfo) : Bytes := num 8 f.multiplier.toNat ++ num 8 f.divisor.toNat

def tokenKind : TP.TokenKind → Bytes
  | .ever mint token decimals => 0 :: key mint ++ ever token ++ [decimals]
  | .solana mint vault => 1 :: key mint ++ key vault

def tokenSettings (t : TP.TokenSettings) : Bytes :=
  flag t.isInitialized ++ kind t.accountKind ++ tokenKind t.kind ++ text t.name ++ text t.symbol ++ num 8 t.depositLimit.toNat ++
    num 8 t.withdrawalLimit.toNat ++ num 8 t.withdrawalDailyLimit.toNat ++ num 8 t.withdrawalDailyAmount.toNat ++ num 8 t.withdrawalEpoch.toNat ++
    flag t.emergency ++ num 8 t.feeSupply.toNat ++ feeInfo t.feeDepositInfo ++ feeInfo t.feeWithdrawalInfo

def depositSolEvent (e : TP.DepositSolEvent) : Bytes :=
  key e.baseToken ++ text e.name ++ text e.symbol ++ [e.decimals] ++ num 16 e.amount.toNat ++ ever e.recipient ++ num 8 e.value.toNat ++
    key e.expectedEvers ++ text e.payload

def depositEverEvent (e : TP.DepositEverEvent) : Bytes :=
  ever e.token ++ num 16 e.amount.toNat ++ ever e.recipient ++ num 8 e.value.toNat ++ key e.expectedEvers ++ text e.payload

def deposit {E : Type} (f : E → Bytes) (d : TP.Deposit E) : Bytes :=
  flag d.isInitialized ++ kind d.accountKind ++ key d.author ++ num 4 d.eventLen.toNat ++ f d.event ++ num 4 d.metaLen.toNat ++ num 16 d.seed.toNat

def status : TP.WStatus → Bytes
  | .new => [0]
  | .processed => [1]
  | .cancelled => [2]
  | .pending => [3]
  | .waitingForApprove => [4]
  | .waitingForExecute => [5]

def everEvent (e : TP.WEverEvent) : Bytes :=
  ever e.token ++ text e.name ++ text e.symbol ++ [e.decimals] ++ num 16 e.amount.toNat ++ key e.recipient ++ text e.payload

def solEvent (e : TP.WSolEvent) : Bytes := key e.mint ++ num 16 e.amount.toNat ++ key e.recipient ++ text e.payload

def withdrawal {E : Type} (f : E → Bytes) (p : TP.Withdrawal E) : Bytes :=
  flag p.isInitialized ++ kind p.accountKind ++ key p.author ++ num 4 p.roundNumber.toNat ++ num 4 p.requiredVotes.toNat ++ pda p.pda ++
    num 4 p.eventLen.toNat ++ f p.event ++ num 4 p.metaLen.toNat ++ status p.md.status ++ num 8 p.md.bounty.toNat ++ num 8 p.md.epoch.toNat ++
    list vote p.signers

/-- The bytes of an account of `len` bytes begin with `x`. -/
def Begins (a : Account) (len : Nat) (x : Bytes) : Prop := ∃ rest, a.data = .raw (x ++ rest) ∧ (x ++ rest).length = len

/-! ## Log records -/

/-- The bytes of a log record. -/
def log : TP.Record → Bytes
  | .deposit x => key x.account ++ ever x.recipient ++ num 16 x.transferAmount.toNat ++ num 16 x.seed.toNat ++ num 8 x.value.toNat ++
      key x.expectedEvers ++ text x.eventData
  | .request x => key x.account ++ text x.token ++ key x.recipient ++ num 16 x.amount.toNat ++ num 4 x.eventTimestamp.toNat ++
      num 8 x.eventTransactionLt.toNat ++ key x.eventConfiguration ++ text x.eventData ++ num 8 x.bounty.toNat
  | .token x => key x.account ++ text x.symbol ++ text x.name ++ key x.mint ++ opt key x.vault ++ opt (fun d => [d]) x.everDecimals ++
      opt (fun d => [d]) x.solanaDecimals ++ opt ever x.root ++ feeInfo x.fee
  | .status x => key x.account ++ status x.status
  | .fee x => key x.tokenSettings ++ feeType x.feeType ++ num 8 x.multiplier.toNat ++ num 8 x.divisor.toNat
  | .name x => key x.tokenSettings ++ text x.symbol ++ text x.name
  | .liquidity x => key x.deposit ++ key x.withdrawal

end Verif.Wire
