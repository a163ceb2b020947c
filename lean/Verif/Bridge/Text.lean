import Verif.Bridge.Types
/-!
# Text forms: `Display`/`FromStr` of `EverAddress` and `UInt256` (`bridge-utils/src/types.rs:32-59,161-173`)

Strings are their UTF-8 bytes. `i8::to_string`, `i8::from_str` and the `hex` crate are modelled from their
documentation.
-/
namespace Verif
open Codec

/-- ASCII code of a lower-case hexadecimal digit (`hex::encode`). Used in `bridge-utils/src/types.rs:42,55,165`. -/
def hexDigit (n : Nat) : Byte := if n < 10 then BitVec.ofNat 8 (48 + n) else BitVec.ofNat 8 (87 + n)

/-- `hex::encode`. Used in `bridge-utils/src/types.rs:42,55,165`. -/
def hexEncode : Bytes → Bytes
  | [] => []
  | b :: r => hexDigit (b.toNat / 16) :: hexDigit (b.toNat % 16) :: hexEncode r

/-- Value of a hexadecimal digit, either case (`hex::val`). Used in `bridge-utils/src/types.rs:42,55,165`. -/
def hexVal (c : Byte) : Option Nat :=
  let n := c.toNat
  if 48 ≤ n ∧ n ≤ 57 then some (n - 48)
  else if 97 ≤ n ∧ n ≤ 102 then some (n - 87)
  else if 65 ≤ n ∧ n ≤ 70 then some (n - 55)
  else none

/-- `hex::decode`: an odd number of digits or a non-digit is an error. Used in `bridge-utils/src/types.rs:42,55,165`. -/
def hexDecode : Bytes → Option Bytes
  | [] => some []
  | [_] => none
  | c :: d :: r =>
    match hexVal c, hexVal d, hexDecode r with
    | some a, some b, some l => some (BitVec.ofNat 8 (a * 16 + b) :: l)
    | _, _, _ => none

/-- Decimal digits of a number below 1000. Used in `bridge-utils/src/types.rs:41,55`. -/
def decDigits (n : Nat) : Bytes :=
  if n < 10 then [BitVec.ofNat 8 (48 + n)]
  else if n < 100 then [BitVec.ofNat 8 (48 + n / 10), BitVec.ofNat 8 (48 + n % 10)]
  else [BitVec.ofNat 8 (48 + n / 100), BitVec.ofNat 8 (48 + n / 10 % 10), BitVec.ofNat 8 (48 + n % 10)]

/-- `i8::to_string`. Used in `bridge-utils/src/types.rs:41,55`. -/
def showI8 (i : I8) : Bytes :=
  if i.toInt < 0 then 45#8 :: decDigits i.toInt.natAbs else decDigits i.toInt.natAbs

/-- Digits to a number; `none` on a non-digit. Used in `bridge-utils/src/types.rs:41,55`. -/
def parseDigits : Nat → Bytes → Option Nat
  | acc, [] => some acc
  | acc, c :: r => if 48 ≤ c.toNat ∧ c.toNat ≤ 57 then parseDigits (acc * 10 + (c.toNat - 48)) r else none

/-- `i8::from_str`: optional sign, at least one digit, in range. Used in `bridge-utils/src/types.rs:41,55`. -/
def parseI8 (s : Bytes) : Option I8 :=
  match s with
  | [] => none
  | 45#8 :: r =>
    if r = [] then none else
    match parseDigits 0 r with
    | some n => if n ≤ 128 then some (BitVec.ofInt 8 (-(n : Int))) else none
    | none => none
  | 43#8 :: r =>
    if r = [] then none else
    match parseDigits 0 r with
    | some n => if n ≤ 127 then some (BitVec.ofNat 8 n) else none
    | none => none
  | c :: r =>
    match parseDigits 0 (c :: r) with
    | some n => if n ≤ 127 then some (BitVec.ofNat 8 n) else none
    | none => none

/-- `str::split(':')`. `bridge-utils/src/types.rs:35`. -/
def splitColon : Bytes → List Bytes
  | [] => [[]]
  | c :: r =>
    if c = 58#8 then [] :: splitColon r
    else match splitColon r with
      | [] => [[c]]
      | p :: ps => (c :: p) :: ps

/-- `EverAddress::fmt`, `types.rs:51-59` -/
def EverAddress.show (a : EverAddress) : Bytes :=
  showI8 a.workchainId ++ 58#8 :: hexEncode (key.enc a.address)

/-- `EverAddress::from_str`, `types.rs:32-49` -/
def EverAddress.parse (s : Bytes) : Option EverAddress :=
  match (splitColon s).take 4 with
  | [p, q] =>
    match parseI8 p, hexDecode q with
    | some wc, some bs =>
      match key.decAll bs with
      | some a => some ⟨wc, a⟩
      | none => none
    | _, _ => none
  | _ => none

/-- `UInt256::from_str`, `types.rs:161-173` -/
def uint256Parse (s : Bytes) : Option Pubkey :=
  match hexDecode s with
  | some bs => key.decAll bs
  | none => none

/-- `UInt256::from_be_bytes`, `types.rs:132-138`: the bytes right-aligned in 32 bytes; of longer input the first 32. -/
def uint256FromBe (value : Bytes) : Bytes := zeros (32 - min value.length 32) ++ value.take 32

end Verif
