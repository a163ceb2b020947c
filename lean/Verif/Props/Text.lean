import Verif.Bridge.Text
/-!
# Text forms (C48)
-/
namespace Verif.Props
open Verif Codec

theorem hexVal_hexDigit (n : Nat) (h : n < 16) : hexVal (hexDigit n) = some n := by
  have : ∀ n : Fin 16, hexVal (hexDigit n) = some n.val := by decide
  exact this ⟨n, h⟩

theorem hexDecode_hexEncode (bs : Bytes) : hexDecode (hexEncode bs) = some bs := by
  induction bs with
  | nil => rfl
  | cons b bs ih =>
    have hb := b.isLt
    simp only [hexEncode, hexDecode, hexVal_hexDigit _ (show b.toNat / 16 < 16 by omega),
      hexVal_hexDigit _ (show b.toNat % 16 < 16 by omega), ih]
    congr 2
    apply BitVec.eq_of_toNat_eq
    rw [BitVec.toNat_ofNat, Nat.mod_eq_of_lt (by omega)]
    omega

theorem hexDigit_ne_colon (n : Nat) (h : n < 16) : hexDigit n ≠ 58#8 := by
  have : ∀ n : Fin 16, hexDigit n ≠ 58#8 := by decide
  exact this ⟨n, h⟩

theorem splitColon_none (l : Bytes) (h : ∀ c ∈ l, c ≠ 58#8) : splitColon l = [l] := by
  induction l with
  | nil => rfl
  | cons c l ih =>
    simp only [List.mem_cons, forall_eq_or_imp] at h
    simp only [splitColon, h.1, if_false, ih h.2]

theorem splitColon_mid (l m : Bytes) (h : ∀ c ∈ l, c ≠ 58#8) (hm : ∀ c ∈ m, c ≠ 58#8) :
    splitColon (l ++ 58#8 :: m) = [l, m] := by
  induction l with
  | nil => simp [splitColon, splitColon_none m hm]
  | cons c l ih =>
    simp only [List.mem_cons, forall_eq_or_imp] at h
    simp only [List.cons_append, splitColon, h.1, if_false, ih h.2]

theorem hexEncode_no_colon (bs : Bytes) : ∀ c ∈ hexEncode bs, c ≠ 58#8 := by
  induction bs with
  | nil => simp [hexEncode]
  | cons b bs ih =>
    have hb := b.isLt
    intro c hc
    simp only [hexEncode, List.mem_cons] at hc
    rcases hc with rfl | rfl | hc
    · exact hexDigit_ne_colon _ (by omega)
    · exact hexDigit_ne_colon _ (by omega)
    · exact ih c hc

/-- the whole table of `i8` values -/
theorem i8_all : (List.range 256).all (fun n => parseI8 (showI8 (BitVec.ofNat 8 n)) == some (BitVec.ofNat 8 n) &&
    (showI8 (BitVec.ofNat 8 n)).all (fun c => c != 58#8)) = true := by decide +kernel

theorem i8_table (i : I8) : parseI8 (showI8 i) = some i ∧ ∀ c ∈ showI8 i, c ≠ 58#8 := by
  have h := List.all_eq_true.1 i8_all i.toNat (List.mem_range.2 i.isLt)
  simpa using h

/-- C48: parsing the printed form of any Everscale address returns it. -/
theorem C48_address (a : EverAddress) : EverAddress.parse a.show = some a := by
  have h := i8_table a.workchainId
  simp only [EverAddress.parse, EverAddress.show, splitColon_mid _ _ h.2 (hexEncode_no_colon _), List.take, h.1,
    hexDecode_hexEncode, decAll_enc key a.address rfl]

/-- C48: parsing the hexadecimal form of any 256-bit number returns it. -/
theorem C48_uint256 (x : Pubkey) : uint256Parse (hexEncode (key.enc x)) = some x := by
  simp only [uint256Parse, hexDecode_hexEncode, decAll_enc key x rfl]

/-- Distinct addresses have distinct printed forms. -/
theorem C48_address_injective (a b : EverAddress) (h : a.show = b.show) : a = b := by
  have := C48_address a
  rw [h, C48_address b] at this
  simpa using this.symm

/-- Value of a big-endian byte string. -/
def beVal (bs : Bytes) : Nat := bs.foldl (fun n b => n * 256 + b.toNat) 0

theorem beVal_zeros (n : Nat) (bs : Bytes) : beVal (zeros n ++ bs) = beVal bs := by
  induction n with
  | zero => rfl
  | succ n ih =>
    simp only [zeros, List.replicate_succ, List.cons_append, beVal, List.foldl_cons] at ih ⊢
    simpa using ih

/-- C48: `from_be_bytes` of at most 32 bytes gives 32 bytes denoting the same number; in particular of the 8 big-endian bytes
of a `u64`. -/
theorem C48_from_be (bs : Bytes) (h : bs.length ≤ 32) :
    (uint256FromBe bs).length = 32 ∧ beVal (uint256FromBe bs) = beVal bs := by
  have ht : bs.take 32 = bs := List.take_of_length_le h
  simp only [uint256FromBe, ht, beVal_zeros, List.length_append, zeros_length, and_true]
  omega

theorem beVal_append (l : Bytes) (b : Byte) : beVal (l ++ [b]) = beVal l * 256 + b.toNat := by
  simp [beVal]

theorem beVal_reverse (bs : Bytes) : beVal bs.reverse = leDec bs := by
  induction bs with
  | nil => rfl
  | cons b bs ih => rw [List.reverse_cons, beVal_append, ih, leDec]; omega

/-- C48: applied to `n.to_be_bytes()` of a `u64`. -/
theorem C48_from_be_u64 (n : U64) : beVal (uint256FromBe (u64.enc n).reverse) = n.toNat := by
  rw [(C48_from_be _ (by simp)).2, beVal_reverse]
  show leDec (leEnc 8 n.toNat) = n.toNat
  rw [leDec_leEnc, Nat.mod_eq_of_lt (by have := n.isLt; omega)]

example : (⟨-1, 5⟩ : EverAddress).show.take 5 = ascii "-1:05" := by decide +kernel
example : uint256FromBe (u64.enc 258#64).reverse = zeros 30 ++ [1#8, 2#8] := by decide +kernel

end Verif.Props
