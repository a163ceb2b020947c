import Verif.Client.Wasm
import Verif.Props.Text
/-!
# What the texts given to the JavaScript packages mean
-/
namespace Verif.Js
open Verif Codec

/-- The 32 bytes of `x`, read as a big-endian number, are `n`. -/
def Number (x : Pubkey) (n : U64) : Prop := Props.beVal (key.enc x) = n.toNat

/-- The two strings that name a kind of fee. -/
def FeeText (s : Bytes) (f : TP.FeeType) : Prop :=
  (s = ascii "Deposit" ∧ f = .deposit) ∨ (s = ascii "Withdrawal" ∧ f = .withdrawal)

/-- Texts of addresses of a list, one by one. -/
inductive KeyTexts (tx : Text) : List Bytes → List Pubkey → Prop
  | nil : KeyTexts tx [] []
  | cons {s k ss ks} : tx.pubkey s = some k → KeyTexts tx ss ks → KeyTexts tx (s :: ss) (k :: ks)

/-- Texts of pairs of addresses. -/
inductive PairTexts (tx : Text) : List (Bytes × Bytes) → List (Pubkey × Pubkey) → Prop
  | nil : PairTexts tx [] []
  | cons {a b k l ss ks} : tx.pubkey a = some k → tx.pubkey b = some l → PairTexts tx ss ks → PairTexts tx ((a, b) :: ss) ((k, l) :: ks)

/-- An optional text. -/
inductive OptText (tx : Text) : Option Bytes → Option Pubkey → Prop
  | none : OptText tx none none
  | some {s k} : tx.pubkey s = some k → OptText tx (some s) (some k)

/-- The token a text names: an address of Solana, or one of Everscale, and then the address of its settings. -/
def SettingsText (env : Env) (tx : Text) (s : Bytes) (isSol : Bool) (kt : Pubkey) : Prop :=
  (isSol = true ∧ ∃ mint, tx.pubkey s = some mint ∧ TP.Client.tokenSettingsSolAddr env mint = .ok kt) ∨
  (isSol = false ∧ ∃ t, EverAddress.parse s = some t ∧ TP.Client.tokenSettingsEverAddr env t = .ok kt)

theorem SettingsText.unique {env : Env} {tx : Text} {s : Bytes} {b : Bool} {k l : Pubkey} (h : SettingsText env tx s b k) (h' : SettingsText env tx s b l) :
    k = l := by
  rcases h with ⟨rfl, m, hm, hk⟩ | ⟨rfl, m, hm, hk⟩ <;> rcases h' with ⟨hb, m', hm', hk'⟩ | ⟨hb, m', hm', hk'⟩ <;> try cases hb
  all_goals
    rw [hm] at hm'; cases hm'
    rw [hk] at hk'; cases hk'
    rfl

/-- Decimal digits, most significant first. -/
def decimal (n : Nat) : Bytes := if n < 10 then [BitVec.ofNat 8 (48 + n)] else decimal (n / 10) ++ [BitVec.ofNat 8 (48 + n % 10)]

end Verif.Js
