import Verif.Lemmas.TPFx
/-!
# Effects of primitives on token balances
-/
namespace Verif.TP
open Codec Verif

variable {env : Env} {ctx : Ctx} {w w' w1 w2 : World}

namespace NoTokens

theorem refl (w : World) : NoTokens w w := fun _ => ⟨rfl, rfl⟩

theorem trans (h : NoTokens w w1) (h' : NoTokens w1 w2) : NoTokens w w2 :=
  fun k => ⟨(h' k).1.trans (h k).1, (h' k).2.trans (h k).2⟩

/-- Data that is not that of a token account or mint may change at will. -/
theorem of_data (h : ∀ k, (w'.acc k).data = (w.acc k).data ∨ ((∃ b, (w.acc k).data = .raw b) ∧ ∃ b, (w'.acc k).data = .raw b)) :
    NoTokens w w' := by
  intro k
  rcases h k with e | ⟨⟨b, e⟩, b', e'⟩
  · simp only [bal, supply, e, and_self]
  · simp only [bal, supply, e, e', and_self]

theorem log (b : Bytes) : NoTokens w (w.log b) := fun _ => ⟨rfl, rfl⟩

theorem sys {sg : Pubkey → Bool} {src dst : Pubkey} {n : Nat} (h : sysTransfer env ctx sg src dst n w = .ok w') : NoTokens w w' :=
  of_data fun k => .inl (by rw [sysTransfer_acc h k])

theorem move {a b : Pubkey} {n : Nat} (h : moveLamports ctx a b n w = .ok w') : NoTokens w w' := by
  obtain ⟨-, -, -, -, -, h⟩ := moveLamports_ok h
  exact of_data fun k => .inl (by rw [h k])

theorem pack {α : Type} {c : Codec α} {len : Nat} {a : α} {k : Pubkey} (h : pack ctx c len a k w = .ok w') : NoTokens w w' := by
  obtain ⟨b, b', hb, -, -, -, rfl⟩ := pack_ok.1 h
  refine of_data fun x => ?_
  by_cases e : x = k
  · subst e; exact .inr ⟨⟨b, hb⟩, b', by simp⟩
  · exact .inl (by simp [e])

theorem create {f k : Pubkey} {seeds : List Bytes} {n : U8} {space : Nat} {o : Pubkey}
    (ha : env.createAddr (seeds ++ [[n]]) ctx.program = some k) (h : createPda env ctx f k seeds n space o w = .ok w') :
    NoTokens w w' := by
  obtain ⟨-, hl, -⟩ := createPda_ok ha h
  refine of_data fun x => ?_
  by_cases e : x = k
  · subst e
    refine .inr ⟨?_, _, by rw [createPda_self ha h]⟩
    cases hd : (w.acc x).data <;> rw [hd] at hl <;> simp only [Data.len] at hl
    exact ⟨_, rfl⟩
    all_goals cases hl
  · exact .inl (createPda_acc ha h x e).1

end NoTokens

theorem bal_token {k : Pubkey} {t : TokenAcc} (h : (w.acc k).data = .token t) : bal w k = t.amount.toNat := by
  simp only [bal, h]
theorem supply_token {k : Pubkey} {t : TokenAcc} (h : (w.acc k).data = .token t) : supply w k = 0 := by
  simp only [supply, h]
theorem bal_mint {k : Pubkey} {t : MintAcc} (h : (w.acc k).data = .mint t) : bal w k = 0 := by
  simp only [bal, h]
theorem supply_mint {k : Pubkey} {t : MintAcc} (h : (w.acc k).data = .mint t) : supply w k = t.supply.toNat := by
  simp only [supply, h]

theorem moves_of {sg : Pubkey → Bool} {src dst auth : Pubkey} {n : U64} (h : splTransfer env ctx sg src dst auth n w = .ok w') :
    Moves src dst n.toNat w w' := by
  obtain ⟨-, -, -, -, -, -, -, s, d, s', hs, hd, -, -, -, hn, hsp, hor⟩ := splTransfer_ok h
  refine ⟨by rw [bal_token hs]; exact hn, fun k => ?_⟩
  rcases hor with ⟨rfl, rfl⟩ | ⟨hne, hov, -, -, h1, h2, h3⟩
  · exact ⟨rfl, rfl⟩
  · have e1 : (s.amount - n).toNat = s.amount.toNat - n.toNat := BitVec.toNat_sub_of_le (by rw [BitVec.le_def]; exact hn)
    have e2 : (d.amount + n).toNat = d.amount.toNat + n.toNat := by rw [BitVec.toNat_add, Nat.mod_eq_of_lt hov]
    by_cases hk : k = src
    · subst hk
      simp only [bal_token hs, supply_token hs, hne, if_true, if_false]
      simp only [bal, supply, h1, e1, and_true]
      omega
    · by_cases hk' : k = dst
      · subst hk'
        simp only [bal_token hd, supply_token hd, hk, if_true, if_false]
        simp only [bal, supply, h2, e2, and_true]
        omega
      · simp only [bal, supply, h3 k hk hk', hk, hk', if_false, and_self]

theorem mints_of {sg : Pubkey → Bool} {mint dst auth : Pubkey} {n : U64} (h : splMintTo env ctx sg mint dst auth n w = .ok w') :
    Mints mint dst n.toNat w w' := by
  obtain ⟨-, -, -, -, -, -, -, hne, m, d, hm, hd, -, -, -, -, hov, hov', -, h1, h2, h3⟩ := splMintTo_ok h
  intro k
  have e1 : (m.supply + n).toNat = m.supply.toNat + n.toNat := by rw [BitVec.toNat_add, Nat.mod_eq_of_lt hov']
  have e2 : (d.amount + n).toNat = d.amount.toNat + n.toNat := by rw [BitVec.toNat_add, Nat.mod_eq_of_lt hov]
  by_cases hk : k = mint
  · subst hk
    simp only [bal_mint hm, supply_mint hm, hne, if_true, if_false]
    simp only [bal, supply, h1, e1, and_self]
  · by_cases hk' : k = dst
    · subst hk'
      simp only [bal_token hd, supply_token hd, hk, if_true, if_false]
      simp only [bal, supply, h2, e2, and_self]
    · simp only [bal, supply, h3 k hk hk', hk, hk', if_false, and_self, Nat.add_zero]

theorem burns_of {sg : Pubkey → Bool} {src mint auth : Pubkey} {n : U64} (h : splBurn env ctx sg src mint auth n w = .ok w') :
    Burns src mint n.toNat w w' := by
  obtain ⟨-, -, -, -, -, -, -, hne, m, s, s', hm, hs, -, -, -, -, hn, hn', -, h1, h2, h3⟩ := splBurn_ok h
  intro k
  have e1 : (m.supply - n).toNat = m.supply.toNat - n.toNat := BitVec.toNat_sub_of_le (by rw [BitVec.le_def]; exact hn')
  have e2 : (s.amount - n).toNat = s.amount.toNat - n.toNat := BitVec.toNat_sub_of_le (by rw [BitVec.le_def]; exact hn)
  by_cases hk : k = mint
  · subst hk
    simp only [bal_mint hm, supply_mint hm, hne, if_true, if_false]
    simp only [bal, supply, h1, e1]
    exact ⟨trivial, Nat.sub_add_cancel hn'⟩
  · by_cases hk' : k = src
    · subst hk'
      simp only [bal_token hs, supply_token hs, hk, if_true, if_false]
      simp only [bal, supply, h2, e2]
      exact ⟨Nat.sub_add_cancel hn, trivial⟩
    · simp only [bal, supply, h3 k hk hk', hk, hk', if_false, and_self, Nat.add_zero]

theorem Moves.pre {src dst : Pubkey} {n : Nat} (h : NoTokens w w1) (h' : Moves src dst n w1 w2) : Moves src dst n w w2 := by
  refine ⟨by rw [← (h src).1]; exact h'.1, fun k => ?_⟩
  rw [← (h k).1, ← (h k).2]; exact h'.2 k

theorem Moves.post {src dst : Pubkey} {n : Nat} (h : Moves src dst n w w1) (h' : NoTokens w1 w2) : Moves src dst n w w2 := by
  refine ⟨h.1, fun k => ?_⟩
  rw [(h' k).1, (h' k).2]; exact h.2 k

theorem Mints.pre {mint dst : Pubkey} {n : Nat} (h : NoTokens w w1) (h' : Mints mint dst n w1 w2) : Mints mint dst n w w2 := by
  intro k
  rw [← (h k).1, ← (h k).2]; exact h' k

theorem Mints.post {mint dst : Pubkey} {n : Nat} (h : Mints mint dst n w w1) (h' : NoTokens w1 w2) : Mints mint dst n w w2 := by
  intro k
  rw [(h' k).1, (h' k).2]; exact h k

theorem Burns.pre {src mint : Pubkey} {n : Nat} (h : NoTokens w w1) (h' : Burns src mint n w1 w2) : Burns src mint n w w2 := by
  intro k
  rw [← (h k).1, ← (h k).2]; exact h' k

theorem Burns.post {src mint : Pubkey} {n : Nat} (h : Burns src mint n w w1) (h' : NoTokens w1 w2) : Burns src mint n w w2 := by
  intro k
  rw [(h' k).1, (h' k).2]; exact h k

/-! ## Token operations leave records alone -/

theorem raw_xfer {sg : Pubkey → Bool} {src dst auth : Pubkey} {n : U64} (h : splTransfer env ctx sg src dst auth n w = .ok w') (k : Pubkey) :
    (w'.acc k).owner = (w.acc k).owner ∧ ∀ b, (w.acc k).data = .raw b → w'.acc k = w.acc k := by
  obtain ⟨-, -, -, -, h1, h2, -, s, d, s', hs, hd, -, -, -, hn, hsp, hor⟩ := splTransfer_ok h
  rcases hor with ⟨rfl, rfl⟩ | ⟨hne, hov, -, -, e1, e2, e3⟩
  · exact ⟨rfl, fun _ _ => rfl⟩
  · by_cases hk : k = src
    · subst hk; exact ⟨by rw [e1, h1], fun b hb => by rw [hs] at hb; cases hb⟩
    · by_cases hk' : k = dst
      · subst hk'; exact ⟨by rw [e2, h2], fun b hb => by rw [hd] at hb; cases hb⟩
      · rw [e3 k hk hk']; exact ⟨rfl, fun _ _ => rfl⟩

theorem raw_mint {sg : Pubkey → Bool} {mint dst auth : Pubkey} {n : U64} (h : splMintTo env ctx sg mint dst auth n w = .ok w') (k : Pubkey) :
    (w'.acc k).owner = (w.acc k).owner ∧ ∀ b, (w.acc k).data = .raw b → w'.acc k = w.acc k := by
  obtain ⟨-, -, -, -, -, -, -, hne, m, d, hm, hd, -, -, -, -, hov, hov', -, e1, e2, e3⟩ := splMintTo_ok h
  by_cases hk : k = mint
  · subst hk; exact ⟨by rw [e1], fun b hb => by rw [hm] at hb; cases hb⟩
  · by_cases hk' : k = dst
    · subst hk'; exact ⟨by rw [e2], fun b hb => by rw [hd] at hb; cases hb⟩
    · rw [e3 k hk hk']; exact ⟨rfl, fun _ _ => rfl⟩

end Verif.TP
