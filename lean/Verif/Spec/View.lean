import Verif.Client.View
/-!
# What a text shown by the JavaScript package means
-/
namespace Verif.Js
open Verif

/-- The text is the number `n` in decimal, as the package itself reads it. -/
def ShowsU64 (s : Bytes) (n : U64) : Prop := parseU128 s = some (n.setWidth 128)

/-- The text is the integer `i`: digits, after a minus sign if `i` is negative. -/
def ShowsI64 (s : Bytes) (i : I64) : Prop :=
  (0 ≤ i.toInt ∧ parseDigits 0 s = some i.toInt.toNat) ∨ (i.toInt < 0 ∧ ∃ r, s = 45#8 :: r ∧ parseDigits 0 r = some (-i.toInt).toNat)

/-- What is shown of the kind of a token: its addresses as text. -/
def ShowsKind (env : Env) : TokenKind → TP.TokenKind → Prop
  | .ever m t d, .ever mint token decimals => m = env.keyString mint ∧ EverAddress.parse t = some token ∧ d = decimals
  | .solana m v, .solana mint vault => m = env.keyString mint ∧ v = env.keyString vault
  | _, _ => False

end Verif.Js
