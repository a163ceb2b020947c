import Verif.TokenProxy.Utils
/-!
# Fees and decimal conversion (C20, C21)
-/
namespace Verif.Props
open Verif Verif.TP

/-! ## C20 -/

/-- The fee on `a` for the setting `m / d`, in unbounded arithmetic: `max(1, ⌊a/d⌋·m)`; undefined for `d = 0`. -/
def feeSpec (m d a : Nat) : Option Nat := if d = 0 then none else some (max 1 (a / d * m))

/-- C20: the fee of a setting `m/d` on `a` is `max(1, ⌊a/d⌋·m)`, exactly if `d > 0` and this number is below `2^64`. -/
theorem C20_fee_value (f : FeeInfo) (a fee : U64) :
    feeOf f a = .ok fee ↔
      feeSpec f.multiplier.toNat f.divisor.toNat a.toNat = some fee.toNat := by
  simp only [feeOf, bind_ok, orErr_ok, Except.ok.injEq, checkedDiv_some, checkedMul_some, feeSpec]
  constructor
  · rintro ⟨q, ⟨hd, hq⟩, p, hp, rfl⟩
    rw [if_neg hd, Option.some.injEq, ← hq, ← hp]
    split
    · rename_i h; subst h; simp
    · rename_i h
      have : p.toNat ≠ 0 := fun h0 => h (BitVec.eq_of_toNat_eq (by simpa using h0))
      omega
  · intro h
    split at h
    · cases h
    · rename_i hd
      simp only [Option.some.injEq] at h
      have hlt := fee.isLt
      refine ⟨a / f.divisor, ⟨hd, by simp⟩, BitVec.ofNat 64 (a.toNat / f.divisor.toNat * f.multiplier.toNat), ?_, ?_⟩
      · rw [BitVec.toNat_ofNat, Nat.mod_eq_of_lt (by omega)]; simp
      · apply BitVec.eq_of_toNat_eq
        split
        · rename_i h0
          have h0' := congrArg BitVec.toNat h0
          rw [BitVec.toNat_ofNat, Nat.mod_eq_of_lt (by omega)] at h0'
          rw [← h, h0']; rfl
        · rename_i h0
          rw [BitVec.toNat_ofNat, Nat.mod_eq_of_lt (by omega)]
          have : a.toNat / f.divisor.toNat * f.multiplier.toNat ≠ 0 := fun hz => h0 (by rw [hz])
          omega

/-- C20: otherwise (`d = 0`, or the product does not fit) the computation fails with `Overflow`. -/
theorem C20_fee_overflow (f : FeeInfo) (a : U64)
    (h : f.divisor.toNat = 0 ∨ 2 ^ 64 ≤ a.toNat / f.divisor.toNat * f.multiplier.toNat) :
    feeOf f a = .error (.custom .overflow) := by
  rcases h with h | h
  · simp [feeOf, checkedDiv, h, orErr, bind, Except.bind]
  · by_cases hd : f.divisor.toNat = 0
    · simp [hd] at h
    · simp [feeOf, checkedDiv, hd, orErr, bind, Except.bind, checkedMul, Nat.not_lt.2 h]

/-- C20: the fee is never zero, and if the net amount `a - fee` exists, fee plus net is exactly `a`; if the fee exceeds the
amount the subtraction fails. -/
theorem C20_fee_net (f : FeeInfo) (a fee : U64) (h : feeOf f a = .ok fee) :
    0 < fee.toNat ∧
    (∀ net, orErr (checkedSub a fee) (.custom .overflow) = .ok net → fee.toNat + net.toNat = a.toNat) ∧
    (a.toNat < fee.toNat → orErr (checkedSub a fee) (.custom .overflow) = .error (.custom .overflow)) := by
  refine ⟨?_, ?_, ?_⟩
  · rw [C20_fee_value] at h
    unfold feeSpec at h
    split at h
    · cases h
    · simp only [Option.some.injEq] at h; omega
  · intro net hn
    rw [orErr_ok, checkedSub_some] at hn
    omega
  · intro hlt
    simp [checkedSub, Nat.not_le.2 hlt, orErr]

example : feeOf FeeInfo.default 1000000#64 = .ok 500#64 := by rfl
example : feeOf FeeInfo.default 100#64 = .ok 1#64 := by rfl
example : feeOf ⟨5#64, 0#64⟩ 100#64 = .error (.custom .overflow) := by rfl

/-! ## C21 -/

/-- Conversion of `x` from Everscale to Solana decimals, in unbounded arithmetic. -/
def toSolSpec (x everDec solDec : Nat) : Nat :=
  if solDec < everDec then x / 10 ^ (everDec - solDec) else x * 10 ^ (solDec - everDec)
/-- Conversion of `x` from Solana to Everscale decimals, in unbounded arithmetic. -/
def toEverSpec (x everDec solDec : Nat) : Nat :=
  if solDec < everDec then x * 10 ^ (everDec - solDec) else x / 10 ^ (solDec - everDec)

theorem toNat_pow10 {n : Nat} (h : n ≤ 38) : (pow10 n).toNat = 10 ^ n := by
  rw [pow10, BitVec.toNat_ofNat, Nat.mod_eq_of_lt]
  exact Nat.lt_of_le_of_lt (Nat.pow_le_pow_right (by decide) h) (by decide)

theorem pow10_zero : (pow10 0).toNat = 1 := by decide

theorem deposit_ok {a : U64} {e s : U8} {b : U128} (h : getDepositAmount a e s = .ok b) :
    (s.toNat < e.toNat ∧ b.toNat = a.toNat * (pow10 (e.toNat - s.toNat)).toNat) ∨
    (¬ s.toNat < e.toNat ∧ (pow10 (s.toNat - e.toNat)).toNat ≠ 0 ∧ b.toNat = a.toNat / (pow10 (s.toNat - e.toNat)).toNat) := by
  unfold getDepositAmount at h
  have ha : (a.setWidth 128).toNat = a.toNat := by
    rw [BitVec.toNat_setWidth, Nat.mod_eq_of_lt (by have := a.isLt; omega)]
  split at h
  · rename_i hlt
    rw [orErr_ok, checkedMul_some, ha] at h; exact .inl ⟨hlt, h⟩
  · rename_i hlt
    rw [orErr_ok, checkedDiv_some, ha] at h; exact .inr ⟨hlt, h⟩

theorem withdrawal_ok {x : U128} {e s : U8} {c : U64} (h : getWithdrawalAmount x e s = .ok c) :
    (s.toNat < e.toNat ∧ (pow10 (e.toNat - s.toNat)).toNat ≠ 0 ∧
      c.toNat = x.toNat / (pow10 (e.toNat - s.toNat)).toNat % 2 ^ 64) ∨
    (¬ s.toNat < e.toNat ∧ x.toNat * (pow10 (s.toNat - e.toNat)).toNat < 2 ^ 128 ∧
      c.toNat = x.toNat * (pow10 (s.toNat - e.toNat)).toNat % 2 ^ 64) := by
  unfold getWithdrawalAmount at h
  split at h
  · rename_i hlt
    simp only [bind_ok, orErr_ok, Except.ok.injEq, checkedDiv_some] at h
    obtain ⟨q, ⟨h0, hq⟩, rfl⟩ := h
    exact .inl ⟨hlt, h0, by rw [BitVec.toNat_setWidth, hq]⟩
  · rename_i hlt
    simp only [bind_ok, orErr_ok, Except.ok.injEq, checkedMul_some] at h
    obtain ⟨q, hq, rfl⟩ := h
    exact .inr ⟨hlt, by rw [← hq]; exact q.isLt, by rw [BitVec.toNat_setWidth, hq]⟩

/-- C21: Solana → Everscale → Solana with at least as many Everscale decimals gives the amount back. -/
theorem C21_roundtrip_exact (a : U64) (e s : U8) (hes : s.toNat ≤ e.toNat) (b : U128) (c : U64)
    (h1 : getDepositAmount a e s = .ok b) (h2 : getWithdrawalAmount b e s = .ok c) : c = a := by
  apply BitVec.eq_of_toNat_eq
  have := a.isLt
  rcases deposit_ok h1 with ⟨hlt, hb⟩ | ⟨hlt, h0, hb⟩ <;> rcases withdrawal_ok h2 with ⟨hlt', h0', hc⟩ | ⟨hlt', h0', hc⟩
  · rw [hc, hb, Nat.mul_div_cancel _ (by omega), Nat.mod_eq_of_lt (by omega)]
  · exact absurd hlt hlt'
  · exact absurd hlt' hlt
  · rw [hc, hb, show s.toNat - e.toNat = 0 by omega, pow10_zero]; omega

/-- C21: Solana → Everscale → Solana never gives more than the original, for any decimals. -/
theorem C21_roundtrip_sol (a : U64) (e s : U8) (b : U128) (c : U64)
    (h1 : getDepositAmount a e s = .ok b) (h2 : getWithdrawalAmount b e s = .ok c) : c.toNat ≤ a.toNat := by
  rcases deposit_ok h1 with ⟨hlt, hb⟩ | ⟨hlt, h0, hb⟩ <;> rcases withdrawal_ok h2 with ⟨hlt', h0', hc⟩ | ⟨hlt', h0', hc⟩
  · rw [hc, hb, Nat.mul_div_cancel _ (by omega)]; exact Nat.mod_le _ _
  · exact absurd hlt hlt'
  · exact absurd hlt' hlt
  · rw [hc, hb]; exact Nat.le_trans (Nat.mod_le _ _) (Nat.div_mul_le_self _ _)

/-- C21: Everscale → Solana → Everscale never gives more than the original, for any decimals. -/
theorem C21_roundtrip_ever (x : U128) (e s : U8) (c : U64) (b : U128)
    (h1 : getWithdrawalAmount x e s = .ok c) (h2 : getDepositAmount c e s = .ok b) : b.toNat ≤ x.toNat := by
  rcases deposit_ok h2 with ⟨hlt, hb⟩ | ⟨hlt, h0, hb⟩ <;> rcases withdrawal_ok h1 with ⟨hlt', h0', hc⟩ | ⟨hlt', h0', hc⟩
  · rw [hb, hc]
    exact Nat.le_trans (Nat.mul_le_mul_right _ (Nat.mod_le _ _)) (Nat.div_mul_le_self _ _)
  · exact absurd hlt hlt'
  · exact absurd hlt' hlt
  · rw [hb, hc]
    refine Nat.le_trans (Nat.div_le_div_right (Nat.mod_le _ _)) ?_
    rw [Nat.mul_div_cancel _ (by omega)]; exact Nat.le_refl _

/-- C21, deposits: with decimals at most 38 apart the conversion of a deposit is exact, or it fails because the result
does not fit in 128 bits. -/
theorem C21_deposit_exact (a : U64) (e s : U8) (hd : e.toNat ≤ s.toNat + 38) (hd' : s.toNat ≤ e.toNat + 38) :
    (∀ b, getDepositAmount a e s = .ok b ↔ b.toNat = toEverSpec a.toNat e.toNat s.toNat) := by
  intro b
  have ha : (a.setWidth 128).toNat = a.toNat := by
    rw [BitVec.toNat_setWidth, Nat.mod_eq_of_lt (by have := a.isLt; omega)]
  unfold getDepositAmount toEverSpec
  by_cases hlt : s.toNat < e.toNat
  · simp only [hlt, if_true, orErr_ok, checkedMul_some, ha]
    rw [toNat_pow10 (by omega)]
  · simp only [hlt, if_false, orErr_ok, checkedDiv_some, ha]
    rw [toNat_pow10 (by omega)]
    simp

/-- C21 (partial), withdrawals: with decimals at most 38 apart and a result below `2^64` the conversion of a withdrawal is
exact. Missing: results of `2^64` and more are truncated instead of failing, and further apart decimals use a wrapped power
of ten (see the two theorems below). -/
theorem C21_withdrawal_exact_partial (x : U128) (e s : U8) (hd : e.toNat ≤ s.toNat + 38) (hd' : s.toNat ≤ e.toNat + 38)
    (hfit : toSolSpec x.toNat e.toNat s.toNat < 2 ^ 64) (c : U64) :
    getWithdrawalAmount x e s = .ok c ↔ c.toNat = toSolSpec x.toNat e.toNat s.toNat := by
  constructor
  · intro h
    unfold toSolSpec at hfit ⊢
    rcases withdrawal_ok h with ⟨hlt, -, hc⟩ | ⟨hlt, -, hc⟩
    · rw [toNat_pow10 (by omega)] at hc
      rw [if_pos hlt] at hfit ⊢
      rw [hc, Nat.mod_eq_of_lt hfit]
    · rw [toNat_pow10 (by omega)] at hc
      rw [if_neg hlt] at hfit ⊢
      rw [hc, Nat.mod_eq_of_lt hfit]
  · intro h
    unfold toSolSpec at h
    unfold getWithdrawalAmount
    have hcl := c.isLt
    split
    · rename_i hlt
      rw [if_pos hlt] at h
      simp only [bind_ok, orErr_ok, Except.ok.injEq, checkedDiv_some]
      refine ⟨c.setWidth 128, ⟨by rw [toNat_pow10 (by omega)]; exact Nat.ne_of_gt (Nat.pow_pos (by decide)), ?_⟩, ?_⟩
      · rw [toNat_pow10 (by omega), ← h, BitVec.toNat_setWidth, Nat.mod_eq_of_lt (by omega)]
      · apply BitVec.eq_of_toNat_eq; simp
    · rename_i hlt
      rw [if_neg hlt] at h
      simp only [bind_ok, orErr_ok, Except.ok.injEq, checkedMul_some]
      refine ⟨c.setWidth 128, ?_, ?_⟩
      · rw [toNat_pow10 (by omega), ← h, BitVec.toNat_setWidth, Nat.mod_eq_of_lt (by omega)]
      · apply BitVec.eq_of_toNat_eq; simp

example : toSolSpec 1234567 9 6 < 2 ^ 64 ∧ getWithdrawalAmount 1234567#128 9#8 6#8 = .ok 1234#64 :=
  ⟨by decide, by rfl⟩

/-- C21 is false as stated: a converted withdrawal amount of `2^64` or more is truncated, not refused. For every amount and
equal decimals the result is the amount modulo `2^64`. -/
theorem C21_truncates (x : U128) (d : U8) : getWithdrawalAmount x d d = .ok (x.setWidth 64) := by
  have h1 : checkedMul x (pow10 0) = some x := by rw [checkedMul_some, pow10_zero, Nat.mul_one]
  simp [getWithdrawalAmount, h1, orErr, bind, Except.bind]

/-- C21 is false as stated: `2^64` units become zero. -/
theorem C21_not_refused : ∃ (x : U128) (e s : U8) (c : U64), 2 ^ 64 ≤ toSolSpec x.toNat e.toNat s.toNat ∧
    getWithdrawalAmount x e s = .ok c ∧ c.toNat ≠ toSolSpec x.toNat e.toNat s.toNat :=
  ⟨BitVec.ofNat 128 (2 ^ 64), 0, 0, 0, by decide, by rw [C21_truncates]; rfl, by decide⟩

/-- C21 is false as stated: with decimals 39 apart the wrapped power of ten creates value: an amount below one unit of the
other side is converted to at least one unit. -/
theorem C21_wrapped_power_creates_value : ∃ (x : U128) (e s : U8) (c : U64),
    toSolSpec x.toNat e.toNat s.toNat = 0 ∧ getWithdrawalAmount x e s = .ok c ∧ 0 < c.toNat :=
  ⟨pow10 39, 39, 0, 1, by decide, by rfl, by decide⟩

example : getDepositAmount 1234567#64 9#8 6#8 = .ok 1234567000#128 ∧
    getWithdrawalAmount 1234567000#128 9#8 6#8 = .ok 1234567#64 := by constructor <;> rfl
example : getDepositAmount 1234567#64 6#8 9#8 = .ok 1234#128 ∧
    getWithdrawalAmount 1234#128 6#8 9#8 = .ok 1234000#64 := by constructor <;> rfl

end Verif.Props
