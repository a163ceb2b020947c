import Verif.TokenProxy.Utils
import Verif.Spec.Day
/-!
# The number of a day
-/
namespace Verif.TP

theorem epoch_toNat {now : I64} (h : now.toNat < 2 ^ 63) : (epochOf now).toNat = now.toNat / 86400 := by
  have h1 : now.msb = false := by
    rw [BitVec.msb_eq_false_iff_two_mul_lt]
    omega
  have h2 : (86400#64 : I64).msb = false := by decide
  unfold epochOf
  rw [BitVec.sdiv_eq, h1, h2]
  show (now.udiv 86400#64).toNat = _
  rw [BitVec.udiv_eq, BitVec.toNat_udiv]
  rfl

theorem OnDay.epoch {d : Nat} {now : I64} (h : OnDay d now) : (epochOf now).toNat = d := by
  obtain ⟨h1, h2, h3⟩ := h
  rw [epoch_toNat h3]
  omega

theorem OnDay.eq {d : Nat} {now : I64} (h : OnDay d now) : epochOf now = BitVec.ofNat 64 d := by
  apply BitVec.eq_of_toNat_eq
  rw [OnDay.epoch h, BitVec.toNat_ofNat, Nat.mod_eq_of_lt]
  have := h.start
  have := h.positive
  omega

end Verif.TP
