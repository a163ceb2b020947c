import Verif.Spec.Bill
import Verif.Lemmas.TPLoad
import Verif.Lemmas.RLFx
import Verif.Lemmas.TPPay
import Verif.Lemmas.TPMoney
/-!
# Bills of the single operations
-/
namespace Verif
open Codec

variable {env : Env} {ctx : Ctx} {w w1 w' : World} {l l' : List Payment}

theorem paidBy_append (k : Pubkey) (l l' : List Payment) : paidBy k (l ++ l') = paidBy k l + paidBy k l' := by
  induction l with
  | nil => simp [paidBy]
  | cons p l ih => simp [paidBy, ih]; omega

theorem paidTo_append (k : Pubkey) (l l' : List Payment) : paidTo k (l ++ l') = paidTo k l + paidTo k l' := by
  induction l with
  | nil => simp [paidTo]
  | cons p l ih => simp [paidTo, ih]; omega

theorem Settled.trans (h : Settled l w w1) (h' : Settled l' w1 w') : Settled (l ++ l') w w' := by
  intro k
  have h1 := h k
  have h2 := h' k
  rw [paidBy_append, paidTo_append]
  omega

/-- No balance changes. -/
def SameLam (w w' : World) : Prop := ∀ k, (w'.acc k).lamports = (w.acc k).lamports

theorem SameLam.rfl : SameLam w w := fun _ => Eq.refl _
theorem SameLam.trans (h : SameLam w w1) (h' : SameLam w1 w') : SameLam w w' := fun k => (h' k).trans (h k)
theorem SameLam.log {b : Bytes} (h : SameLam w w') : SameLam w (w'.log b) := h
theorem SameLam.settled (h : SameLam w w') : Settled [] w w' := fun k => by rw [h k]; rfl
theorem Settled.nil (h : Settled [] w w') : SameLam w w' := fun k => by have := h k; simpa [paidBy, paidTo] using this
theorem Settled.right (h : Settled l w w1) (h' : SameLam w1 w') : Settled l w w' := fun k => by rw [h' k]; exact h k
theorem Settled.left (h : SameLam w w1) (h' : Settled l w1 w') : Settled l w w' := fun k => by rw [← h k]; exact h' k
theorem Settled.rfl : Settled [] w w := SameLam.rfl.settled

/-- Order does not matter. -/
theorem Settled.congr (h : Settled l w w') (he : ∀ k, paidBy k l' + paidTo k l = paidBy k l + paidTo k l') : Settled l' w w' := by
  intro k
  have h1 := h k
  have h2 := he k
  omega

theorem pack_lam {α : Type} {c : Codec α} {len : Nat} {a : α} {k : Pubkey} (h : pack ctx c len a k w = .ok w') : SameLam w w' :=
  fun x => (RL.pack_acc h x).2.1

theorem setDataRaw_lam {k : Pubkey} {d : Data} : SameLam w (w.setDataRaw k d) := by
  intro x
  unfold World.setDataRaw
  rw [World.set_acc]
  split
  · rename_i e; subst e; exact Eq.refl _
  · exact Eq.refl _

theorem setData_lam {k : Pubkey} {d : Data} (h : setData ctx k d w = .ok w') : SameLam w w' := by
  obtain ⟨-, rfl⟩ := setData_ok.1 h
  exact setDataRaw_lam

theorem packRaw_lam {α : Type} {c : Codec α} {a : α} {k : Pubkey} (h : TP.packRaw ctx c a k w = .ok w') : SameLam w w' := by
  obtain ⟨b, b', -, -, -, rfl⟩ := TP.packRaw_ok.1 h
  exact setDataRaw_lam

/-- Lamports that leave one account and reach another. -/
theorem settled_one {a b : Pubkey} {n : Nat} (ha : n ≤ (w.acc a).lamports)
    (h : ∀ k, (w'.acc k).lamports = (w.acc k).lamports - (if k = a then n else 0) + (if k = b then n else 0)) : Settled [⟨a, b, n⟩] w w' := by
  intro k
  rw [h k]
  simp only [paidBy, paidTo, eq_comm (b := k)]
  split
  · rename_i e; subst e; omega
  · omega

theorem sysTransfer_bill {sg : Pubkey → Bool} {a b : Pubkey} {n : Nat} (h : sysTransfer env ctx sg a b n w = .ok w') : Settled [⟨a, b, n⟩] w w' :=
  settled_one (sysTransfer_ok.1 h).2.2.2.2.1 fun k => by rw [sysTransfer_acc h k]

theorem moveLamports_bill {a b : Pubkey} {n : Nat} (h : moveLamports ctx a b n w = .ok w') : Settled [⟨a, b, n⟩] w w' := by
  obtain ⟨h1, -, -, -, -, h2⟩ := moveLamports_ok h
  exact settled_one h1 fun k => by rw [h2 k]

theorem sysCreate_bill {sg : Pubkey → Bool} {f k : Pubkey} {n space : Nat} {o : Pubkey} (h : sysCreate env ctx sg f k n space o w = .ok w') :
    Settled [⟨f, k, n⟩] w w' := by
  simp only [sysCreate, bind_ok, require_ok, exists_const] at h
  obtain ⟨-, h0, -, h⟩ := h
  refine Settled.left ?_ (sysTransfer_bill h)
  intro x
  rw [World.set_acc]
  split
  · rename_i e; subst e; exact h0.symm
  · exact Eq.refl _

theorem createPda_bill {f k : Pubkey} {seeds : List Bytes} {n : U8} {space : Nat} {o : Pubkey} (h : createPda env ctx f k seeds n space o w = .ok w') :
    Settled [⟨f, k, env.minimum space⟩] w w' := by
  simp only [createPda, bind_ok] at h
  obtain ⟨sg, -, h⟩ := h
  exact sysCreate_bill h

theorem createPdaFunded_bill {sg : Pubkey → Bool} {f k : Pubkey} {space : Nat} {o : Pubkey} (h : createPdaFunded env ctx sg f k space o w = .ok w') :
    Settled [⟨f, k, env.minimum space - (w.acc k).lamports⟩] w w' := by
  unfold createPdaFunded at h
  by_cases h0 : (w.acc k).lamports = 0
  · simp only [h0, if_true] at h
    rw [h0]
    exact sysCreate_bill h
  · simp only [h0, if_false, bind_ok, require_ok, exists_const] at h
    obtain ⟨-, -, -, -, h⟩ := h
    have hs : ∃ w1, Settled [⟨f, k, env.minimum space - (w.acc k).lamports⟩] w w1 ∧
        w' = w1.set k { lamports := (w1.acc k).lamports, owner := o, data := .raw (zeros space) } := by
      by_cases hn : max 1 (env.rent space) - (w.acc k).lamports = 0
      · simp only [hn, if_true, bind_ok, Except.ok.injEq, exists_eq_left'] at h
        refine ⟨w, fun x => ?_, h.symm⟩
        have hn' : env.minimum space - (w.acc k).lamports = 0 := hn
        simp [paidBy, paidTo, hn']
      · simp only [hn, if_false, bind_ok, Except.ok.injEq] at h
        obtain ⟨w1, h1, rfl⟩ := h
        exact ⟨w1, sysTransfer_bill h1, rfl⟩
    obtain ⟨w1, hs, rfl⟩ := hs
    refine hs.right ?_
    intro x
    rw [World.set_acc]
    split
    · rename_i e; subst e; exact Eq.refl _
    · exact Eq.refl _

theorem splInitAccount_lam {k mint o : Pubkey} (h : splInitAccount env ctx k mint o w = .ok w') : SameLam w w' := by
  obtain ⟨-, -, -, -, -, -, -, rfl⟩ := splInitAccount_ok h
  exact setDataRaw_lam

theorem splInitMint_lam {k o : Pubkey} {d : U8} (h : splInitMint env ctx k o d w = .ok w') : SameLam w w' := by
  obtain ⟨-, -, -, -, -, -, rfl⟩ := splInitMint_ok h
  exact setDataRaw_lam

theorem splBurn_lam {sg : Pubkey → Bool} {a b c : Pubkey} {n : U64} (h : splBurn env ctx sg a b c n w = .ok w') : SameLam w w' := by
  obtain ⟨-, -, -, -, -, -, -, -, m, s, s', -, -, -, -, -, -, -, -, -, h1, h2, h3⟩ := splBurn_ok h
  intro k
  by_cases e1 : k = b
  · subst e1; rw [h1]
  by_cases e2 : k = a
  · subst e2; rw [h2]
  rw [h3 k e1 e2]

theorem splMintTo_lam {sg : Pubkey → Bool} {a b c : Pubkey} {n : U64} (h : splMintTo env ctx sg a b c n w = .ok w') : SameLam w w' := by
  obtain ⟨-, -, -, -, -, -, -, -, m, s, -, -, -, -, -, -, -, -, -, h1, h2, h3⟩ := splMintTo_ok h
  intro k
  by_cases e1 : k = a
  · subst e1; rw [h1]
  by_cases e2 : k = b
  · subst e2; rw [h2]
  rw [h3 k e1 e2]

theorem settled_self {a : Pubkey} {n : Nat} : Settled [⟨a, a, n⟩] w w := fun _ => Eq.refl _

theorem tokenBill_self {a : Pubkey} {n : Nat} : Settled (tokenBill w1 a [⟨a, a, n⟩]) w w := by
  unfold tokenBill
  split
  · exact settled_self
  · exact Settled.rfl

theorem splTransfer_bill {sg : Pubkey → Bool} {a b c : Pubkey} {n : U64} (h : splTransfer env ctx sg a b c n w = .ok w') :
    Settled (tokenBill w a [⟨a, b, n.toNat⟩]) w w' := by
  obtain ⟨-, -, -, -, -, -, -, s, d, s', hs, -, -, -, -, -, -, ⟨rfl, rfl⟩ | ⟨hne, -, -, hl, h1, h2, h3⟩⟩ := splTransfer_ok h
  · exact tokenBill_self
  · unfold tokenBill wrapsSol
    rw [hs]
    simp only
    split
    · rename_i hnat
      refine settled_one (hl hnat) fun k => ?_
      by_cases e1 : k = a
      · subst e1; rw [h1, if_pos hnat, if_pos (Eq.refl _), if_neg hne]; rfl
      by_cases e2 : k = b
      · subst e2; rw [h2, if_pos hnat, if_neg e1, if_pos (Eq.refl _)]; rfl
      rw [h3 k e1 e2, if_neg e1, if_neg e2]; rfl
    · rename_i hnat
      refine SameLam.settled fun k => ?_
      by_cases e1 : k = a
      · subst e1; rw [h1, if_neg hnat]
      by_cases e2 : k = b
      · subst e2; rw [h2, if_neg hnat]
      rw [h3 k e1 e2]

/-! ## Accounts that hold wrapped SOL go on doing so -/

theorem wrapsSol_data {k : Pubkey} (h : (w'.acc k).data = (w.acc k).data) : wrapsSol w' k = wrapsSol w k := by unfold wrapsSol; rw [h]

theorem sys_wraps {sg : Pubkey → Bool} {a b : Pubkey} {n : Nat} (h : sysTransfer env ctx sg a b n w = .ok w') (k : Pubkey) : wrapsSol w' k = wrapsSol w k :=
  wrapsSol_data (by rw [sysTransfer_acc h k])

theorem pack_wraps {α : Type} {c : Codec α} {len : Nat} {a : α} {k : Pubkey} (h : pack ctx c len a k w = .ok w') (x : Pubkey) :
    wrapsSol w' x = wrapsSol w x := by
  by_cases hx : x = k
  · subst hx
    obtain ⟨b, b', hb, -, -, -, rfl⟩ := pack_ok.1 h
    unfold wrapsSol
    rw [hb]
    simp
  · exact wrapsSol_data (by rw [(RL.pack_acc h x).2.2 hx])

theorem createPda_wraps {f k : Pubkey} {seeds : List Bytes} {n : U8} {space : Nat} {o : Pubkey} (ha : env.createAddr (seeds ++ [[n]]) ctx.program = some k)
    (h : createPda env ctx f k seeds n space o w = .ok w') (x : Pubkey) : wrapsSol w' x = wrapsSol w x := by
  by_cases hx : x = k
  · subst hx
    have h1 := createPda_self ha h
    obtain ⟨-, h2, -⟩ := createPda_ok ha h
    unfold wrapsSol
    rw [h1]
    cases hd : (w.acc x).data with
    | token t => rw [hd] at h2; cases h2
    | _ => rfl
  · exact wrapsSol_data (createPda_acc ha h x hx).1

theorem spendAuth_native {t t' : TokenAcc} {a : Pubkey} {n : U64} (h : spendAuth t a n = .ok t') : t'.isNative = t.isNative := by
  unfold spendAuth at h
  split at h
  · split at h
    · cases h; rfl
    · cases h
  · split at h
    · cases h; rfl
    · cases h

theorem xfer_wraps {sg : Pubkey → Bool} {a b c : Pubkey} {n : U64} (h : splTransfer env ctx sg a b c n w = .ok w') (k : Pubkey) :
    wrapsSol w' k = wrapsSol w k := by
  obtain ⟨-, -, -, -, -, -, -, s, d, s', hs, hd, -, -, -, -, hsp, ⟨rfl, rfl⟩ | ⟨hne, -, -, hl, h1, h2, h3⟩⟩ := splTransfer_ok h
  · rfl
  · by_cases e1 : k = a
    · subst e1; unfold wrapsSol; rw [h1, hs]; simp only; rw [spendAuth_native hsp]
    by_cases e2 : k = b
    · subst e2; unfold wrapsSol; rw [h2, hd]
    exact wrapsSol_data (by rw [h3 k e1 e2])

theorem tokenBill_congr {a : Pubkey} (h : wrapsSol w' a = wrapsSol w a) : tokenBill w' a l = tokenBill w a l := by unfold tokenBill; rw [h]

theorem tokenBill_append {a : Pubkey} : tokenBill w a (l ++ l') = tokenBill w a l ++ tokenBill w a l' := by
  unfold tokenBill; split <;> simp

theorem TokensMove.trans (h : TokensMove l w w1) (h' : TokensMove l' w1 w') : TokensMove (l ++ l') w w' := by
  intro k
  have h1 := h k
  have h2 := h' k
  rw [paidBy_append, paidTo_append]
  omega

theorem NoTokens_move (h : TP.NoTokens w w') : TokensMove [] w w' := fun k => by rw [(h k).1]; rfl
theorem TokensMove.right (h : TokensMove l w w1) (h' : TP.NoTokens w1 w') : TokensMove l w w' := fun k => by rw [(h' k).1]; exact h k
theorem TokensMove.left (h : TP.NoTokens w w1) (h' : TokensMove l w1 w') : TokensMove l w w' := fun k => by rw [← (h k).1]; exact h' k

theorem Moves_move {a b : Pubkey} {n : Nat} (h : TP.Moves a b n w w') : TokensMove [⟨a, b, n⟩] w w' := by
  intro k
  have := (h.2 k).1
  simp only [paidBy, paidTo, eq_comm (b := k), Nat.add_zero]
  exact this

namespace TP

theorem deleteAccount_bill {k a : Pubkey} (h : deleteAccount env ctx k a w = .ok w') : Settled [⟨k, a, (w.acc k).lamports⟩] w w' := by
  obtain ⟨-, w1, h1, h2⟩ := deleteAccount_ok h
  refine (moveLamports_bill h1).right ?_
  simp only [zeroAccount, bind_ok, require_ok, exists_const, Except.ok.injEq] at h2
  obtain ⟨-, -, rfl⟩ := h2
  intro x
  rw [World.set_acc]
  split
  · rename_i e; subst e; exact Eq.refl _
  · exact Eq.refl _

theorem makeEver_lam {m r : Pubkey} {t : TokenSettings} {n : U64} (h : makeEverTransfer env ctx m r t n w = .ok w') : SameLam w w' := by
  simp only [makeEverTransfer, bind_ok, Prod.exists] at h
  obtain ⟨_, _, _, -, _, _, -, sg, -, h⟩ := h
  exact splMintTo_lam h

theorem makeSol_bill {v r : Pubkey} {t : TokenSettings} {n : U64} (h : makeSolTransfer env ctx v r t n w = .ok w') :
    Settled (tokenBill w v [⟨v, r, n.toNat⟩]) w w' := by
  simp only [makeSolTransfer, bind_ok, Prod.exists] at h
  obtain ⟨_, _, -, _, _, -, sg, -, h⟩ := h
  exact splTransfer_bill h

end TP
end Verif
