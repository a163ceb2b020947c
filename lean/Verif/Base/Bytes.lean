/-!
# Bytes and little-endian integers

The byte-level vocabulary used by the codecs. `Pubkey`s, hashes and other `[u8; 32]` values are
`BitVec 256`; the 32 bytes are its little-endian expansion (a bijection, so nothing is lost).
-/
namespace Verif

/-- Rust's `u8`, as used in `bridge-derive/src/lib.rs:28-32`. -/
abbrev Byte := BitVec 8
/-- Rust's `Vec<u8>` and `[u8]`, as used in `bridge-utils/src/state.rs:24-33`. -/
abbrev Bytes := List Byte
/-- Rust's `u8`, as used in `bridge-utils/src/state.rs:54-62`. -/
abbrev U8 := BitVec 8
/-- Rust's `u32`, as used in `round-loader/src/state.rs:37-46`. -/
abbrev U32 := BitVec 32
/-- Rust's `u64`, as used in `token-proxy/src/state.rs:91-108`. -/
abbrev U64 := BitVec 64
/-- Rust's `u128`, as used in `token-proxy/src/state.rs:166-177`. -/
abbrev U128 := BitVec 128
/-- `i64`, two's complement. Used in `token-proxy/src/state.rs:418-423`. -/
abbrev I64 := BitVec 64
/-- `i8`, two's complement. Used in `bridge-utils/src/types.rs:61-67`. -/
abbrev I8 := BitVec 8
/-- `solana_program::pubkey::Pubkey`, `solana_program::hash::Hash`, `[u8; 32]`.
Used in `bridge-utils/src/types.rs:61-67,121-124` and `round-loader/src/state.rs:37-46`. -/
abbrev Pubkey := BitVec 256

/-- The low `n` bytes of `x`, least significant first (`to_le_bytes`). Used in `bridge-utils/src/helper.rs:17`. -/
def leEnc : Nat → Nat → Bytes
  | 0, _ => []
  | n + 1, x => BitVec.ofNat 8 x :: leEnc n (x / 256)

/-- Value of a little-endian byte string (`from_le_bytes`). Used in `bridge-utils/src/state.rs:30-33`. -/
def leDec : Bytes → Nat
  | [] => 0
  | b :: bs => b.toNat + 256 * leDec bs

@[simp] theorem leEnc_length (n x : Nat) : (leEnc n x).length = n := by
  induction n generalizing x with
  | zero => rfl
  | succ n ih => simp [leEnc, ih]

theorem leDec_leEnc (n x : Nat) : leDec (leEnc n x) = x % 256 ^ n := by
  induction n generalizing x with
  | zero => simp [leEnc, leDec, Nat.mod_one]
  | succ n ih =>
    simp only [leEnc, leDec, ih, BitVec.toNat_ofNat]
    rw [show (256:Nat) ^ (n+1) = 256 * 256 ^ n by rw [Nat.pow_succ, Nat.mul_comm], Nat.mod_mul]

theorem leDec_lt (bs : Bytes) : leDec bs < 256 ^ bs.length := by
  induction bs with
  | nil => simp [leDec]
  | cons b bs ih =>
    have hb := b.isLt
    simp only [leDec, List.length_cons, Nat.pow_succ]
    omega

theorem leEnc_leDec (bs : Bytes) : leEnc bs.length (leDec bs) = bs := by
  induction bs with
  | nil => rfl
  | cons b bs ih =>
    have hb := b.isLt
    have h1 : BitVec.ofNat 8 (b.toNat + 256 * leDec bs) = b := by
      apply BitVec.eq_of_toNat_eq
      simp only [BitVec.toNat_ofNat]
      omega
    have h2 : (b.toNat + 256 * leDec bs) / 256 = leDec bs := by omega
    simp only [List.length_cons, leDec, leEnc, h1, h2, ih]

theorem pow256 (n : Nat) : (256 : Nat) ^ n = 2 ^ (8 * n) := by
  rw [Nat.pow_mul]

/-- `n` zero bytes. Used in `round-loader/src/processor.rs:163`. -/
def zeros (n : Nat) : Bytes := List.replicate n 0#8

@[simp] theorem zeros_length (n : Nat) : (zeros n).length = n := by simp [zeros]

/-- ASCII bytes of a literal such as `br"settings"`. Used in `bridge-utils/src/helper.rs:12-40`. -/
def ascii (s : String) : Bytes := s.toList.map fun c => BitVec.ofNat 8 c.toNat

end Verif
