import Verif.Base.Codec
/-!
# Solana runtime: accounts, instruction context, errors, system program

What the programs see of the runtime, as far as the bridge uses it. Simplifications (also listed in DESIGN.md):
no compute budget, no rent collection, no rent-state check, no transaction fees, no account resizing.
-/
namespace Verif

/-- `bridge-utils/src/errors.rs:5-41`, in declaration order. -/
inductive BridgeError
  | depositLimit | invalidTokenKind | relayRoundExpired | invalidRelayRound | invalidRelay
  | emergencyEnabled | invalidWithdrawalStatus | insufficientBalance | insufficientVaultBalance
  | relayAlreadyVoted | overflow | tokenNameLenLimit | tokenSymbolLenLimit | invalidVote
  | votesOverflow | invalidTokenSettingsName | deserializePayload
  deriving DecidableEq, Repr

/-- Reasons an instruction fails. `panic` stands for every Rust panic (`unwrap`, slice index, `expect`);
the last group are errors raised by the runtime or by called programs. Used in `bridge-utils/src/errors.rs:1-71` and in the processors. -/
inductive Err
  | invalidArgument | invalidSeeds | illegalOwner | missingRequiredSignature | invalidAccountData
  | uninitializedAccount | accountAlreadyInitialized | notEnoughAccountKeys | accountDataTooSmall
  | borshIo | insufficientFunds | invalidAccountOwner
  | custom (e : BridgeError)
  | panic
  | missingAccount | privilegeEscalation | readonlyModified | externalDataModified
  | externalLamportSpend | unbalanced | accountAlreadyInUse | system | spl | cpi
  deriving DecidableEq, Repr

/-- SPL token account (`spl_token::state::Account`), parsed.
`state` of the real account is `Initialized` or `Frozen` here; uninitialized accounts are `Data.raw`. Used in `token-proxy/src/processor.rs:820`. -/
structure TokenAcc where
  mint : Pubkey
  owner : Pubkey
  amount : U64
  delegate : Option Pubkey
  frozen : Bool
  /-- rent reserve of a wrapped-SOL account -/
  isNative : Option U64
  delegatedAmount : U64
  closeAuthority : Option Pubkey
  deriving DecidableEq, Repr

/-- Initialized SPL mint (`spl_token::state::Mint`), parsed. Used in `token-proxy/src/processor.rs:483`. -/
structure MintAcc where
  mintAuthority : Option Pubkey
  supply : U64
  decimals : U8
  freezeAuthority : Option Pubkey
  deriving DecidableEq, Repr

/-- Account data. Bridge accounts are raw bytes. Initialized SPL accounts and the loader's
`UpgradeableLoaderState::ProgramData` are kept parsed (simplification: the byte layout of those three is never
used by the bridge; bytes of those kinds are never decoded as bridge records, whose lengths differ). Used in `round-loader/src/processor.rs:450-476`. -/
inductive Data
  | raw (b : Bytes)
  | token (t : TokenAcc)
  | mint (m : MintAcc)
  | programData (authority : Option Pubkey)
  deriving DecidableEq, Repr

/-- Length in bytes (`data_len`). Used in `bridge-derive/src/lib.rs:25`. -/
def Data.len : Data → Nat
  | .raw b => b.length
  | .token _ => 165
  | .mint _ => 82
  | .programData _ => 45

/-- `AccountInfo`, as used in `round-loader/src/processor.rs:362-448`. -/
structure Account where
  lamports : Nat
  owner : Pubkey
  data : Data
  deriving DecidableEq, Repr

/-- Chain state: all accounts (a missing account has no lamports, system owner and no data) and the
`sol_log_data` records emitted so far, oldest first. Used in `token-proxy/src/processor.rs:572`. -/
structure World where
  acc : Pubkey → Account
  logs : List Bytes

/-- Constants and uninterpreted primitives of the chain; theorems quantify over all of them. Used in `bridge-utils/src/helper.rs:8-40`. -/
structure Env where
  /-- `Pubkey::create_program_address` (seeds including the bump, program) -/
  createAddr : List Bytes → Pubkey → Option Pubkey
  /-- `solana_program::hash::hash` (SHA-256) -/
  hash : Bytes → Pubkey
  /-- `Rent::minimum_balance` -/
  rent : Nat → Nat
  /-- `bincode::deserialize::<Vec<Instruction>>`, abstracted to the number of instructions -/
  payloadLen : Bytes → Option Nat
  /-- `Pubkey::to_string` (base58), used only in log records -/
  keyString : Pubkey → Bytes
  systemId : Pubkey
  splId : Pubkey
  ataId : Pubkey
  rentId : Pubkey
  clockId : Pubkey
  loaderId : Pubkey
  nativeMint : Pubkey
  /-- `round_loader::id()` -/
  rlId : Pubkey
  /-- `token_proxy::id()` -/
  tpId : Pubkey

/-- What the caller of an instruction chooses, plus the clock.
Signer and writable flags are per key, as in a compiled message. Used in `round-loader/src/processor.rs:21-116`. -/
structure Ctx where
  program : Pubkey
  accounts : List Pubkey
  signers : List Pubkey
  writables : List Pubkey
  /-- `Clock::unix_timestamp` -/
  now : I64

namespace Ctx
/-- `AccountInfo::is_signer`. Used in `bridge-utils/src/helper.rs:61-82`. -/
def isSigner (c : Ctx) (k : Pubkey) : Bool := c.accounts.contains k && c.signers.contains k
/-- `AccountInfo::is_writable`. Used in `round-loader/src/processor.rs:450-476`. -/
def isWritable (c : Ctx) (k : Pubkey) : Bool := c.accounts.contains k && c.writables.contains k
end Ctx

namespace World

/-- The runtime's write-back, as used in `token-proxy/src/entrypoint.rs:1-15`. -/
def set (w : World) (k : Pubkey) (a : Account) : World :=
  { w with acc := fun k' => if k' = k then a else w.acc k' }

@[simp] theorem set_same (w : World) (k : Pubkey) (a : Account) : (w.set k a).acc k = a := by
  simp [set]

@[simp] theorem set_logs (w : World) (k : Pubkey) (a : Account) : (w.set k a).logs = w.logs := rfl

theorem set_other (w : World) {k k' : Pubkey} (a : Account) (h : k' ≠ k) :
    (w.set k a).acc k' = w.acc k' := by
  simp [set, h]

theorem set_acc (w : World) (k k' : Pubkey) (a : Account) :
    (w.set k a).acc k' = if k' = k then a else w.acc k' := rfl

/-- `AccountInfo::lamports`. Used in `round-loader/src/processor.rs:411`. -/
def lamports (w : World) (k : Pubkey) : Nat := (w.acc k).lamports
/-- `AccountInfo::owner`. Used in `round-loader/src/processor.rs:163`. -/
def owner (w : World) (k : Pubkey) : Pubkey := (w.acc k).owner
/-- `AccountInfo::data`. Used in `round-loader/src/processor.rs:462`. -/
def data (w : World) (k : Pubkey) : Data := (w.acc k).data

/-- Changes of balances, as used in `round-loader/src/processor.rs:648-657`. -/
def setLamports (w : World) (k : Pubkey) (n : Nat) : World :=
  w.set k { w.acc k with lamports := n }

/-- Changes of data, as used in `round-loader/src/processor.rs:450-476`. -/
def setDataRaw (w : World) (k : Pubkey) (d : Data) : World :=
  w.set k { w.acc k with data := d }

/-- `sol_log_data`, as used in `token-proxy/src/processor.rs:572`. -/
def log (w : World) (b : Bytes) : World := { w with logs := w.logs ++ [b] }

@[simp] theorem log_acc (w : World) (b : Bytes) : (w.log b).acc = w.acc := rfl

end World

/-! ## Error plumbing -/

/-- `if !c { return Err(e) }`. Used in `bridge-utils/src/helper.rs:61-82`. -/
def require (c : Prop) [Decidable c] (e : Err) : Except Err Unit :=
  if c then .ok () else .error e

/-- `o.ok_or(e)?`. Used in `round-loader/src/processor.rs:215`. -/
def orErr {α : Type} (o : Option α) (e : Err) : Except Err α :=
  match o with
  | some a => .ok a
  | none => .error e

@[simp] theorem require_ok {c : Prop} [Decidable c] {e : Err} {u : Unit} :
    require c e = .ok u ↔ c := by
  unfold require; split <;> simp [*]

@[simp] theorem orErr_ok {α : Type} {o : Option α} {e : Err} {a : α} :
    orErr o e = .ok a ↔ o = some a := by
  cases o <;> simp [orErr]

theorem bind_ok {α β : Type} {x : Except Err α} {f : α → Except Err β} {b : β} :
    (x >>= f) = .ok b ↔ ∃ a, x = .ok a ∧ f a = .ok b := by
  cases x <;> simp [bind, Except.bind]

@[simp] theorem pure_ok {α : Type} {a b : α} : (pure a : Except Err α) = .ok b ↔ a = b := by
  simp [pure, Except.pure]

@[simp] theorem error_ok {α : Type} {e : Err} {b : α} : (Except.error e : Except Err α) = .ok b ↔ False := by
  simp

/-! ## Checked arithmetic (`checked_add` etc.) -/

/-- `checked_add`, as used in `token-proxy/src/processor.rs:544`. -/
def checkedAdd {n : Nat} (a b : BitVec n) : Option (BitVec n) :=
  if a.toNat + b.toNat < 2 ^ n then some (a + b) else none
/-- `checked_sub`, as used in `token-proxy/src/processor.rs:548`. -/
def checkedSub {n : Nat} (a b : BitVec n) : Option (BitVec n) :=
  if b.toNat ≤ a.toNat then some (a - b) else none
/-- `checked_mul`, as used in `token-proxy/src/processor.rs:537`. -/
def checkedMul {n : Nat} (a b : BitVec n) : Option (BitVec n) :=
  if a.toNat * b.toNat < 2 ^ n then some (a * b) else none
/-- `checked_div`, as used in `token-proxy/src/processor.rs:535`. -/
def checkedDiv {n : Nat} (a b : BitVec n) : Option (BitVec n) :=
  if b.toNat = 0 then none else some (a / b)

theorem checkedAdd_some {n : Nat} {a b c : BitVec n} :
    checkedAdd a b = some c ↔ c.toNat = a.toNat + b.toNat := by
  unfold checkedAdd
  constructor
  · intro h
    split at h
    · cases h; rw [BitVec.toNat_add, Nat.mod_eq_of_lt (by assumption)]
    · cases h
  · intro h
    have := c.isLt
    rw [if_pos (by omega)]
    congr 1
    apply BitVec.eq_of_toNat_eq
    rw [BitVec.toNat_add, Nat.mod_eq_of_lt (by omega), h]

theorem checkedSub_some {n : Nat} {a b c : BitVec n} :
    checkedSub a b = some c ↔ a.toNat = c.toNat + b.toNat := by
  unfold checkedSub
  constructor
  · intro h
    split at h
    · rename_i hle; cases h; rw [BitVec.toNat_sub_of_le (by simpa [BitVec.le_def] using hle)]; omega
    · cases h
  · intro h
    rw [if_pos (by omega)]
    congr 1
    apply BitVec.eq_of_toNat_eq
    rw [BitVec.toNat_sub_of_le (by rw [BitVec.le_def]; omega)]; omega

theorem checkedMul_some {n : Nat} {a b c : BitVec n} :
    checkedMul a b = some c ↔ c.toNat = a.toNat * b.toNat := by
  unfold checkedMul
  constructor
  · intro h
    split at h
    · cases h; rw [BitVec.toNat_mul, Nat.mod_eq_of_lt (by assumption)]
    · cases h
  · intro h
    have := c.isLt
    rw [if_pos (by omega)]
    congr 1
    apply BitVec.eq_of_toNat_eq
    rw [BitVec.toNat_mul, Nat.mod_eq_of_lt (by omega), h]

theorem checkedDiv_some {n : Nat} {a b c : BitVec n} :
    checkedDiv a b = some c ↔ b.toNat ≠ 0 ∧ c.toNat = a.toNat / b.toNat := by
  unfold checkedDiv
  constructor
  · intro h
    split at h
    · cases h
    · rename_i hb; cases h; exact ⟨hb, by simp⟩
  · rintro ⟨hb, h⟩
    rw [if_neg hb]
    congr 1
    apply BitVec.eq_of_toNat_eq
    simp [h]

/-! ## Program-derived addresses -/

/-- The bump search of `Pubkey::find_program_address`: 255 down to 1. Used in `bridge-utils/src/helper.rs:8-40`. -/
def findGo (env : Env) (seeds : List Bytes) (prog : Pubkey) : Nat → Option (Pubkey × U8)
  | 0 => none
  | b + 1 =>
    match env.createAddr (seeds ++ [[BitVec.ofNat 8 (b + 1)]]) prog with
    | some k => some (k, BitVec.ofNat 8 (b + 1))
    | none => findGo env seeds prog b

/-- `Pubkey::find_program_address`; panics if no bump works. Used in `bridge-utils/src/helper.rs:8-40`. -/
def findAddr (env : Env) (seeds : List Bytes) (prog : Pubkey) : Except Err (Pubkey × U8) :=
  match findGo env seeds prog 255 with
  | some r => .ok r
  | none => .error .panic

theorem findAddr_create {env : Env} {seeds : List Bytes} {prog k : Pubkey} {b : U8}
    (h : findAddr env seeds prog = .ok (k, b)) : env.createAddr (seeds ++ [[b]]) prog = some k := by
  have key : ∀ n, findGo env seeds prog n = some (k, b) → env.createAddr (seeds ++ [[b]]) prog = some k := by
    intro n
    induction n with
    | zero => intro h; cases h
    | succ n ih =>
      intro h
      simp only [findGo] at h
      split at h
      · rename_i k' hk
        simp only [Option.some.injEq, Prod.mk.injEq] at h
        rw [← h.1, ← h.2]; exact hk
      · exact ih h
  unfold findAddr at h
  split at h
  · rename_i r hr; cases h; exact key _ hr
  · cases h

/-! ## Account writes by the running program

The runtime rule: data of an account may be changed, and lamports taken from it, only by its owner program, and only if
it is writable. Writing back identical bytes is always allowed. -/

/-- Store `d` as the data of `k` (`account_info.data.borrow_mut()`). Used in `round-loader/src/processor.rs:450-476`. -/
def setData (ctx : Ctx) (k : Pubkey) (d : Data) (w : World) : Except Err World :=
  if (w.acc k).data = d then .ok w
  else do
    require (ctx.isWritable k = true) .readonlyModified
    require ((w.acc k).owner = ctx.program) .externalDataModified
    .ok (w.setDataRaw k d)

/-- Take `n` lamports from `k`, failing with `Overflow` if there are not enough
(`lamports().checked_sub(n).ok_or(SolanaBridgeError::Overflow)`). Used in `round-loader/src/processor.rs:648-651`. -/
def debit (ctx : Ctx) (k : Pubkey) (n : Nat) (w : World) : Except Err World := do
  require (n ≤ (w.acc k).lamports) (.custom .overflow)
  require (n = 0 ∨ ctx.isWritable k = true) .readonlyModified
  require (n = 0 ∨ (w.acc k).owner = ctx.program) .externalLamportSpend
  .ok (w.setLamports k ((w.acc k).lamports - n))

/-- Give `n` lamports to `k` (`checked_add`). Used in `round-loader/src/processor.rs:653-656`. -/
def credit (ctx : Ctx) (k : Pubkey) (n : Nat) (w : World) : Except Err World := do
  require ((w.acc k).lamports + n < 2 ^ 64) (.custom .overflow)
  require (n = 0 ∨ ctx.isWritable k = true) .readonlyModified
  .ok (w.setLamports k ((w.acc k).lamports + n))

/-! ## Cross-program invocation -/

/-- Who signs in `invoke`: the signers of the outer instruction. Used in `round-loader/src/processor.rs:563-570`. -/
def Ctx.signs (ctx : Ctx) (k : Pubkey) : Bool := ctx.isSigner k

/-- Who signs in `invoke_signed(.., &[seeds])`: additionally the address derived from `seeds` for the
running program; the runtime rejects seeds that derive no address. Used in `round-loader/src/processor.rs:162-175`. -/
def pdaSigns (env : Env) (ctx : Ctx) (seeds : List Bytes) : Except Err (Pubkey → Bool) :=
  match env.createAddr seeds ctx.program with
  | none => .error .invalidSeeds
  | some p => .ok fun k => ctx.isSigner k || k == p

/-- `system_instruction::transfer` through CPI. Used in `round-loader/src/processor.rs:564`. -/
def sysTransfer (env : Env) (ctx : Ctx) (signs : Pubkey → Bool) (src dst : Pubkey) (n : Nat) (w : World) :
    Except Err World := do
  require (env.systemId ∈ ctx.accounts) .missingAccount
  require (ctx.isWritable src = true ∧ ctx.isWritable dst = true) .privilegeEscalation
  require (signs src = true) .missingRequiredSignature
  require ((w.acc src).data.len = 0) .system
  require (n ≤ (w.acc src).lamports) .system
  require (n = 0 ∨ (w.acc src).owner = env.systemId) .externalLamportSpend
  let w1 := w.setLamports src ((w.acc src).lamports - n)
  require ((w1.acc dst).lamports + n < 2 ^ 64) .system
  .ok (w1.setLamports dst ((w1.acc dst).lamports + n))

/-- `system_instruction::create_account` through CPI: refuses accounts in use. Used in `round-loader/src/processor.rs:163`. -/
def sysCreate (env : Env) (ctx : Ctx) (signs : Pubkey → Bool) (payer k : Pubkey) (lamports space : Nat)
    (owner : Pubkey) (w : World) : Except Err World := do
  require (signs k = true) .missingRequiredSignature
  require ((w.acc k).lamports = 0) .accountAlreadyInUse
  require ((w.acc k).data.len = 0 ∧ (w.acc k).owner = env.systemId) .accountAlreadyInUse
  let w1 := w.set k { lamports := 0, owner := owner, data := .raw (zeros space) }
  sysTransfer env ctx signs payer k lamports w1

/-- `Rent::from_account_info` / `Clock::from_account_info`: the key must be the sysvar's. Used in `round-loader/src/processor.rs:134`. -/
def sysvar (id k : Pubkey) : Except Err Unit := require (k = id) .invalidArgument

/-! ## Packed accounts (`solana_program::program_pack::Pack`, `bridge-derive/src/lib.rs:24-39`) -/

/-- `T::unpack_unchecked`: exact length, then Borsh prefix decode. Used in `bridge-derive/src/lib.rs:24-39`. -/
def unpackUnchecked {α : Type} (c : Codec α) (len : Nat) (d : Data) : Except Err α :=
  match d with
  | .raw b =>
    if b.length = len then
      match c.dec b with
      | some (a, _) => .ok a
      | none => .error .borshIo
    else .error .invalidAccountData
  | _ => .error .invalidAccountData

/-- `T::unpack`: additionally requires `is_initialized`. Used in `bridge-derive/src/lib.rs:24-39`. -/
def unpack {α : Type} (c : Codec α) (len : Nat) (ini : α → Bool) (d : Data) : Except Err α := do
  let a ← unpackUnchecked c len d
  require (ini a = true) .uninitializedAccount
  .ok a

/-- The bytes left by `pack_into_slice`: the encoding overwrites the front, the tail is kept;
panics if it does not fit. `bridge-derive/src/lib.rs:28-32`. -/
def packBytes {α : Type} (c : Codec α) (a : α) (old : Bytes) : Except Err Bytes :=
  if c.wf a = true ∧ (c.enc a).length ≤ old.length then
    .ok (c.enc a ++ old.drop (c.enc a).length)
  else .error .panic

/-- `T::pack(value, &mut account.data.borrow_mut())`. Used in `bridge-derive/src/lib.rs:24-39`. -/
def pack {α : Type} (ctx : Ctx) (c : Codec α) (len : Nat) (a : α) (k : Pubkey) (w : World) :
    Except Err World :=
  match (w.acc k).data with
  | .raw b =>
    if b.length = len then do
      let b' ← packBytes c a b
      setData ctx k (.raw b') w
    else .error .invalidAccountData
  | _ => .error .invalidAccountData

end Verif
