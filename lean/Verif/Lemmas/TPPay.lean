import Verif.Lemmas.TPFee
import Verif.Lemmas.RLFx
/-!
# Effects of payouts
-/
set_option linter.unusedSimpArgs false
namespace Verif.TP
open Codec Verif

variable {env : Env} {L : Pubkey → Prop} {ctx : Ctx} {w w' w0 : World} {k : Pubkey} {i : Instr}

theorem withdrawalOf {E : Type} {ec : Codec E} {r : Withdrawal E} (h : loadWithdrawal ec env ctx k w = .ok r) :
    WithdrawalOf ec env ctx w k r := by
  obtain ⟨h1, h2, n, pn, hk, ha⟩ := loadWithdrawal_ok.1 h
  exact ⟨⟨n, ha⟩, h1, h2, n, pn, hk⟩

theorem WithdrawalOf.unique {E : Type} {ec : Codec E} {r r' : Withdrawal E} (h : WithdrawalOf ec env ctx w k r)
    (h' : WithdrawalOf ec env ctx w k r') : r = r' := h.2.1.unique h'.2.1

theorem confirmed {E : Type} {r : Withdrawal E} (h : hasQuorum r) : Confirmed r := by
  have e : confirmCount r.signers = r.signers.count .confirm := by rw [List.count]; rfl
  unfold hasQuorum at h
  unfold Confirmed
  rw [e, BitVec.toNat_ofNat] at h
  exact Nat.le_trans h (Nat.mod_le _ _)

theorem receiver {payload : Bytes} {kind : AccountKind} {mint who rc : Pubkey} {u : Unit}
    (h : checkRecipient env ctx payload kind mint who rc w = .ok u) : Receiver env ctx w payload mint who rc := by
  unfold checkRecipient at h
  split at h
  · rename_i e
    simp only [bind_ok, tokenOf_ok, require_ok, exists_const] at h
    exact .inl ⟨e, h⟩
  · rename_i e
    simp only [bind_ok, orErr_ok, Prod.exists, validatePda_ok] at h
    obtain ⟨n, pn, -, p, -, ha⟩ := h
    exact .inr ⟨e, _, ha⟩

theorem booked {t : TokenSettings} {day : I64} {fee net sup daily : U64} (hs : t.feeSupply.toNat + fee.toNat = sup.toNat)
    (hd : (resetEpoch t day).withdrawalDailyAmount.toNat + net.toNat = daily.toNat) :
    Booked day fee.toNat net.toNat t { resetEpoch t day with feeSupply := sup, withdrawalDailyAmount := daily } := by
  refine ⟨hs.symm, ?_, ?_, ?_⟩
  · show daily.toNat = _
    rw [← hd]
    unfold resetEpoch releasedOn
    split <;> rfl
  · unfold resetEpoch
    split
    · assumption
    · rfl
  · unfold resetEpoch
    split <;> rfl

theorem over {t : TokenSettings} {day : I64} {net daily : U64}
    (hd : (resetEpoch t day).withdrawalDailyAmount.toNat + net.toNat = daily.toNat) :
    ((resetEpoch t day).withdrawalLimit.toNat < net.toNat ∨ (resetEpoch t day).withdrawalDailyLimit.toNat < daily.toNat) ↔
      ¬ Within t day net.toNat := by
  unfold Within
  have : releasedOn t day = (resetEpoch t day).withdrawalDailyAmount.toNat := by unfold resetEpoch releasedOn; split <;> rfl
  have h1 : (resetEpoch t day).withdrawalLimit = t.withdrawalLimit := by unfold resetEpoch; split <;> rfl
  have h2 : (resetEpoch t day).withdrawalDailyLimit = t.withdrawalDailyLimit := by unfold resetEpoch; split <;> rfl
  rw [this, h1, h2]
  omega

/-- Raw accounts other than `k` and `k'` are kept. -/
def KeepsRaw2 (k k' : Pubkey) (w w' : World) : Prop := ∀ j, j ≠ k → j ≠ k' → ∀ b, (w.acc j).data = .raw b → w'.acc j = w.acc j

/-- A payment from the vault. -/
theorem payFromVault_fx {r : Withdrawal WSolEvent} {ts : TokenSettings} {pm vault rc : Pubkey} {n : U64} {s : WStatus}
    (h : payFromVault env ctx r ts pm vault rc n w = .ok (w', s)) :
    Receiver env ctx w r.event.payload pm r.event.recipient rc ∧
    ((s = .pending ∧ bal w vault < n.toNat ∧ w' = w) ∨
     (s = doneStatus r.event.payload ∧ Moves vault rc n.toNat w w' ∧ (∃ m, IsToken env w vault m ∧ IsToken env w rc m) ∧
      (∀ k, (w'.acc k).owner = (w.acc k).owner ∧ ∀ b, (w.acc k).data = .raw b → w'.acc k = w.acc k))) := by
  simp only [payFromVault, bind_ok, tokenOf_ok, exists_const, ex_unit] at h
  obtain ⟨hrc, v, hv, h⟩ := h
  refine ⟨receiver hrc, ?_⟩
  split at h
  · rename_i hlt
    simp only [Except.ok.injEq, Prod.mk.injEq] at h
    obtain ⟨rfl, rfl⟩ := h
    exact .inl ⟨rfl, by rw [bal_token hv]; exact hlt, rfl⟩
  · simp only [bind_ok, Except.ok.injEq, Prod.mk.injEq] at h
    obtain ⟨w1, h1, rfl, rfl⟩ := h
    obtain ⟨m', v, tn, vn, p, hk, hak, hp, h⟩ := makeSolTransfer_ok h1
    obtain ⟨-, -, -, -, ho1, ho2, -, s, d, -, hs, hd, hm, -⟩ := splTransfer_ok h
    exact .inr ⟨rfl, moves_of h, ⟨s.mint, ⟨ho1, s, hs, rfl⟩, ho2, d, hd, hm.symm⟩, raw_xfer h⟩

theorem paid_ne {p : Bytes} : doneStatus p ≠ .pending ∧ doneStatus p ≠ .new ∧ doneStatus p ≠ .waitingForApprove := by
  unfold doneStatus; split <;> simp

theorem withdrawal_lt {E : Type} {ec : Codec E} {a : Account} {r : Withdrawal E} (h : Holds (withdrawalC ec) recLen a r) :
    r.signers.length < 2 ^ 32 := by
  obtain ⟨b, q, -, -, hd⟩ := h
  have := (withdrawalC ec).wf_of_dec hd
  simp only [withdrawalC, wf_iso, wf_pair, wf_vec, Bool.and_eq_true, decide_eq_true_eq] at this
  simp_all

theorem quorum_iff {E : Type} {ec : Codec E} {a : Account} {r : Withdrawal E} (h : Holds (withdrawalC ec) recLen a r) :
    hasQuorum r ↔ Confirmed r := by
  have h1 := withdrawal_lt h
  have h2 : confirmCount r.signers = r.signers.count .confirm := by rw [List.count]; rfl
  have h3 : r.signers.count .confirm ≤ r.signers.length := List.count_le_length
  rw [hasQuorum, Confirmed, h2, BitVec.toNat_ofNat, Nat.mod_eq_of_lt (by omega)]

/-- Nothing but tokens changed between `w` and `w'`. -/
def KeepsAllRaw (w w' : World) : Prop := ∀ k, (w'.acc k).owner = (w.acc k).owner ∧ ∀ b, (w.acc k).data = .raw b → w'.acc k = w.acc k

theorem KeepsAllRaw.refl (w : World) : KeepsAllRaw w w := fun _ => ⟨rfl, fun _ _ => rfl⟩

theorem KeepsAllRaw.holds {α : Type} {c : Codec α} {len : Nat} {x : α} (h : KeepsAllRaw w w') (h0 : Holds c len (w.acc k) x) :
    Holds c len (w'.acc k) x := by
  obtain ⟨b, r, hb, hl⟩ := id h0
  rw [(h k).2 b hb]
  exact h0

/-- The records after a payout. -/
structure Recorded {E : Type} (ec : Codec E) (ctx : Ctx) (kw kt : Pubkey) (r r' : Withdrawal E) (t t' : TokenSettings) (w w' : World) : Prop where
  record : Holds (withdrawalC ec) recLen (w'.acc kw) r'
  token : Holds tokenSettingsC recLen (w'.acc kt) t'
  owner : (w'.acc kw).owner = (w.acc kw).owner
  ownerToken : (w'.acc kt).owner = (w.acc kt).owner
  rest : KeepsRaw2 kw kt w w'
  genuine : r' ≠ r → (w.acc kw).owner = ctx.program
  lamports : (w'.acc kw).lamports = (w.acc kw).lamports ∧ (w'.acc kt).lamports = (w.acc kt).lamports
  keepToken : t' = t → w'.acc kt = w.acc kt

theorem recorded {E : Type} {ec : Codec E} {kw kt : Pubkey} {r r' : Withdrawal E} {t t' : TokenSettings} {w1 w2 : World} {b : Bytes}
    (hraw : KeepsAllRaw w w1) (hr : Holds (withdrawalC ec) recLen (w.acc kw) r) (ht : Holds tokenSettingsC recLen (w.acc kt) t) (hne : kw ≠ kt)
    (h2 : putToken ctx t' kt w1 = .ok w2 ∨ (w2 = w1 ∧ t' = t))
    (h3 : putWithdrawal ctx ec r' kw (w2.log b) = .ok w' ∨ putWithdrawal ctx ec r' kw w2 = .ok w') :
    Recorded ec ctx kw kt r r' t t' w w' ∧ NoTokens w1 w' := by
  have a2 : ∀ k, (w2.acc k).owner = (w1.acc k).owner ∧ (w2.acc k).lamports = (w1.acc k).lamports ∧ (k ≠ kt → w2.acc k = w1.acc k) := by
    rcases h2 with h2 | ⟨rfl, -⟩
    · exact RL.pack_acc h2
    · exact fun _ => ⟨rfl, rfl, fun _ => rfl⟩
  have t2 : Holds tokenSettingsC recLen (w2.acc kt) t' := by
    rcases h2 with h2 | ⟨rfl, rfl⟩
    · exact RL.pack_holds h2
    · exact hraw.holds ht
  have a3 : ∀ k, (w'.acc k).owner = (w2.acc k).owner ∧ (w'.acc k).lamports = (w2.acc k).lamports ∧ (k ≠ kw → w'.acc k = w2.acc k) := by
    rcases h3 with h3 | h3
    · exact fun k => RL.pack_acc (w := w2.log b) h3 k
    · exact RL.pack_acc h3
  have t3 : Holds (withdrawalC ec) recLen (w'.acc kw) r' := by
    rcases h3 with h3 | h3
    · exact RL.pack_holds h3
    · exact RL.pack_holds h3
  have n2 : NoTokens w1 w2 := by
    rcases h2 with h2 | ⟨rfl, -⟩
    · exact .pack h2
    · exact .refl _
  have n3 : NoTokens w2 w' := by
    rcases h3 with h3 | h3
    · exact (NoTokens.log b).trans (.pack h3)
    · exact .pack h3
  have r2 : Holds (withdrawalC ec) recLen (w2.acc kw) r := by
    rw [(a2 kw).2.2 hne]
    exact hraw.holds hr
  have l1 : ∀ {α : Type} {c : Codec α} {len : Nat} {x : α} {k : Pubkey}, Holds c len (w.acc k) x → (w1.acc k).lamports = (w.acc k).lamports := by
    rintro α c len x k ⟨b, r, hb, -⟩
    rw [(hraw k).2 b hb]
  refine ⟨⟨t3, ?_, ?_, ?_, ?_, fun hn => ?_, ⟨?_, ?_⟩, fun ht' => ?_⟩, n2.trans n3⟩
  · rw [(a3 kt).2.2 hne.symm]; exact t2
  · rw [(a3 kw).1, (a2 kw).1, (hraw kw).1]
  · rw [(a3 kt).1, (a2 kt).1, (hraw kt).1]
  · intro j h1 h2 b hb
    rw [(a3 j).2.2 h1, (a2 j).2.2 h2, (hraw j).2 b hb]
  · have : (w2.acc kw).owner = ctx.program := by
      rcases h3 with h3 | h3
      · exact (RL.pack_owner (w := w2.log b) h3 r2 hn).1
      · exact (RL.pack_owner h3 r2 hn).1
    rw [← this, (a2 kw).1, (hraw kw).1]
  · rw [(a3 kw).2.1, (a2 kw).2.1, l1 hr]
  · rw [(a3 kt).2.1, (a2 kt).2.1, l1 ht]
  · subst ht'
    rw [(a3 kt).2.2 hne.symm]
    have h1 : w1.acc kt = w.acc kt := by
      obtain ⟨b, r, hb, -⟩ := id ht
      exact (hraw kt).2 b hb
    rcases h2 with h2 | ⟨rfl, -⟩
    · rw [RL.pack_same h2 (hraw.holds ht), h1]
    · exact h1

theorem withStatus_ne {E : Type} {r : Withdrawal E} {st : WStatus} (h : st ≠ r.md.status) : r.withStatus st ≠ r := by
  intro e
  exact h (by rw [← congrArg (fun x => x.md.status) e]; rfl)

theorem withStatus_self {E : Type} {r : Withdrawal E} : r.withStatus r.md.status = r := rfl

theorem SolOut.post {kv rc pm : Pubkey} {r : Withdrawal WSolEvent} {net : Nat} {w1 : World} {s : WStatus}
    (h : SolOut env ctx kv rc pm r net w w1 s) (hn : NoTokens w1 w') : SolOut env ctx kv rc pm r net w w' s := by
  cases h with
  | short hr hb h => exact .short hr hb (h.trans hn)
  | paid hr h hm => exact .paid hr (h.post hn) hm

theorem SolOut.ne {kv rc pm : Pubkey} {r : Withdrawal WSolEvent} {net : Nat} {s : WStatus}
    (h : SolOut env ctx kv rc pm r net w w' s) : s ≠ .new ∧ s ≠ .waitingForApprove := by
  cases h with
  | short => simp
  | paid => exact ⟨paid_ne.2.1, paid_ne.2.2⟩

theorem solOut {r : Withdrawal WSolEvent} {ts : TokenSettings} {pm kv rc : Pubkey} {n : U64} {s : WStatus}
    (h : payFromVault env ctx r ts pm kv rc n w = .ok (w', s)) : SolOut env ctx kv rc pm r n.toNat w w' s ∧ KeepsAllRaw w w' := by
  obtain ⟨hrc, ⟨rfl, hb, rfl⟩ | ⟨rfl, hm, hmm, hraw⟩⟩ := payFromVault_fx h
  · exact ⟨.short hrc hb (.refl _), .refl _⟩
  · exact ⟨.paid hrc hm hmm, hraw⟩

/-- `WithdrawMultiTokenSol`. -/
theorem withdrawSol_fx (h : run env ctx cpi .withdrawMultiTokenSol w = .ok w') :
    ∃ kw kv rc kt km r t v, ctx.accounts[0]? = some kw ∧ ctx.accounts[1]? = some kv ∧ ctx.accounts[2]? = some rc ∧
      ctx.accounts[3]? = some kt ∧ ctx.accounts[4]? = some km ∧ WithdrawalOf wSolEventC env ctx w kw r ∧ TokenOf env ctx w kt t ∧
      t.kind = .solana r.event.mint v ∧ t.emergency = false ∧ IsAddr env ctx.program (vaultSeeds r.event.mint) kv ∧ kw ≠ kt ∧
      ((SameAccounts w w' ∧ ¬ (Confirmed r ∧ r.md.status = .new) ∧
        (Confirmed r → r.md.status = .pending → ∃ fee net : U64, feeOf t.feeWithdrawalInfo (r.event.amount.setWidth 64) = .ok fee ∧
          net.toNat + fee.toNat = (r.event.amount.setWidth 64 : U64).toNat ∧ bal w kv < net.toNat)) ∨
       (Confirmed r ∧ ∃ (fee net : U64) (st : WStatus) (t' : TokenSettings),
        feeOf t.feeWithdrawalInfo (r.event.amount.setWidth 64) = .ok fee ∧ net.toNat + fee.toNat = (r.event.amount.setWidth 64 : U64).toNat ∧
        Recorded wSolEventC ctx kw kt r (r.withStatus st) t t' w w' ∧
        ((r.md.status = .new ∧ Booked (epochOf ctx.now) fee.toNat net.toNat t t' ∧
          ((¬ Within t (epochOf ctx.now) net.toNat ∧ st = .waitingForApprove ∧ NoTokens w w') ∨
           (Within t (epochOf ctx.now) net.toNat ∧ SolOut env ctx kv rc km r net.toNat w w' st))) ∨
         (r.md.status = .pending ∧ t' = t ∧ st ≠ .pending ∧ SolOut env ctx kv rc km r net.toNat w w' st)))) := by
  simp only [run, processWithdrawSol, bind_ok, acct_ok, sysvar_ok, require_ok, exists_const, ex_unit, validatePda_ok] at h
  obtain ⟨kw, hkw, kv, hkv, rc, hrc, kt, hkt, km, hkm, ks, -, -, -, clock, -, -, ss, hss, r, hr, t, ht, hem, hva, htm, h⟩ := h
  have hne := withdrawal_ne_token hr (loadSol_token ht)
  have hrh := (loadWithdrawal_ok.1 hr).1
  have hth := (loadSol_ok.1 ht).1
  rw [htm] at hva
  refine ⟨kw, kv, rc, kt, km, r, t.ts, t.vault, hkw, hkv, hrc, hkt, hkm, withdrawalOf hr, tokenOf (loadSol_token ht),
    by rw [← htm]; exact (loadSol_ok.1 ht).2.2.1, hem, ⟨_, hva⟩, hne, ?_⟩
  split at h
  · rename_i hq
    simp only [bind_ok, orErr_ok, checkedSub_some, Prod.exists] at h
    obtain ⟨fee, hfee, tr, htr, w1, s, h1, h2⟩ := h
    unfold settleSol at h1
    split at h1
    · rename_i hst
      simp only [bind_ok, orErr_ok, checkedAdd_some, Prod.exists, Except.ok.injEq, Prod.mk.injEq] at h1
      obtain ⟨daily, hdaily, sup, hsup, w2, s', h3, w3, h4, rfl, rfl⟩ := h1
      have hfi : (resetEpoch t.ts (epochOf ctx.now)).feeSupply = t.ts.feeSupply := by unfold resetEpoch; split <;> rfl
      rw [hfi] at hsup
      refine .inr ⟨confirmed hq, fee, tr, s', { resetEpoch t.ts (epochOf ctx.now) with feeSupply := sup, withdrawalDailyAmount := daily },
        hfee, htr.symm, ?_⟩
      unfold payIfAllowed at h3
      split at h3
      · rename_i hov
        simp only [Except.ok.injEq, Prod.mk.injEq] at h3
        obtain ⟨rfl, rfl⟩ := h3
        obtain ⟨hrec, hnt⟩ := recorded (KeepsAllRaw.refl w) hrh hth hne (.inl h4) (.inl h2)
        exact ⟨hrec, .inl ⟨hst, booked hsup.symm hdaily.symm, .inl ⟨(over hdaily.symm).1 hov, rfl, hnt⟩⟩⟩
      · rename_i hov
        obtain ⟨ho, hraw⟩ := solOut h3
        obtain ⟨hrec, hnt⟩ := recorded hraw hrh hth hne (.inl h4) (.inl h2)
        refine ⟨hrec, .inl ⟨hst, booked hsup.symm hdaily.symm, .inr ⟨?_, ho.post hnt⟩⟩⟩
        exact Classical.not_not.1 (fun hn => hov ((over hdaily.symm).2 hn))
    · rename_i hst
      by_cases hsp : s = .pending
      · subst hsp
        obtain ⟨-, ⟨-, hb, rfl⟩ | ⟨hp, -⟩⟩ := payFromVault_fx h1
        · have e : r.withStatus .pending = r := by rw [← hst]; rfl
          rw [e] at h2
          have := RL.pack_same h2 hrh
          subst this
          exact .inl ⟨fun _ => rfl, fun h => (by rw [hst] at h; cases h.2), fun _ _ => ⟨fee, tr, hfee, htr.symm, hb⟩⟩
        · exact absurd hp.symm paid_ne.1
      · obtain ⟨ho, hraw⟩ := solOut h1
        obtain ⟨hrec, hnt⟩ := recorded hraw hrh hth hne (.inr ⟨rfl, rfl⟩) (.inl h2)
        exact .inr ⟨confirmed hq, fee, tr, s, t.ts, hfee, htr.symm, hrec, .inr ⟨hst, rfl, hsp, ho.post hnt⟩⟩
    · rename_i hn _
      simp only [Except.ok.injEq, Prod.mk.injEq] at h1
      obtain ⟨rfl, rfl⟩ := h1
      left
      rw [withStatus_self] at h2
      have := RL.pack_same h2 hrh
      subst this
      exact ⟨fun _ => rfl, fun h => hn h.2, fun _ h => absurd h ‹_›⟩
  · rename_i hq
    cases h
    exact .inl ⟨fun _ => rfl, fun h => hq ((quorum_iff hrh).2 h.1), fun h => absurd ((quorum_iff hrh).2 h) hq⟩

theorem released {ctx : Ctx} {md : WMeta} {t : TokenSettings} {net : U64} {kt : Pubkey} (h : releaseDaily ctx md t net kt w = .ok w') :
    ∃ t', Released (epochOf ctx.now) md.epoch net.toNat t t' ∧ (putToken ctx t' kt w = .ok w' ∨ (w' = w ∧ t' = t)) := by
  unfold releaseDaily at h
  unfold Released
  split at h
  · rename_i e
    simp only [bind_ok, orErr_ok, checkedSub_some] at h
    obtain ⟨daily, hd, h⟩ := h
    exact ⟨{ t with withdrawalDailyAmount := daily }, by rw [if_pos e]; exact ⟨hd, rfl⟩, .inl h⟩
  · rename_i e
    cases h
    exact ⟨t, by rw [if_neg e], .inr ⟨rfl, rfl⟩⟩

/-- `ApproveWithdrawSol`. -/
theorem approveSol_fx (h : run env ctx cpi .approveWithdrawSol w = .ok w') :
    (RoleSigns env ctx w (·.withdrawalManager) ∨ UpgradeAuthoritySigns env ctx w) ∧
    ∃ kw kv rc kt r t v, ctx.accounts[2]? = some kw ∧ ctx.accounts[1]? = some kv ∧ ctx.accounts[3]? = some rc ∧
      ctx.accounts[4]? = some kt ∧ WithdrawalOf wSolEventC env ctx w kw r ∧ TokenOf env ctx w kt t ∧
      t.kind = .solana r.event.mint v ∧ t.emergency = false ∧ IsAddr env ctx.program (vaultSeeds r.event.mint) kv ∧ kw ≠ kt ∧
      r.md.status = .waitingForApprove ∧ ∃ (fee net : U64) (st : WStatus) (t' : TokenSettings),
        feeOf t.feeWithdrawalInfo (r.event.amount.setWidth 64) = .ok fee ∧ net.toNat + fee.toNat = (r.event.amount.setWidth 64 : U64).toNat ∧
        Recorded wSolEventC ctx kw kt r (r.withStatus st) t t' w w' ∧ Released (epochOf ctx.now) r.md.epoch net.toNat t t' ∧
        SolOut env ctx kv rc r.event.mint r net.toNat w w' st := by
  simp only [run, processApproveSol, bind_ok, acct_ok, sysvar_ok, require_ok, exists_const, ex_unit, validatePda_ok, orErr_ok,
    checkedSub_some, Prod.exists, loadSettingsNoEmergency_ok] at h
  obtain ⟨au, -, kv, hkv, kw, hkw, rc, hrc, kt, hkt, ks, -, -, -, clock, -, -, hsig, s, pn, ⟨hs, hse⟩, r, hr, hst, hau, t, ht, hem, hva, htm,
    fee, hfee, tr, htr, w1, st, h1, w2, h2, h3⟩ := h
  have hne := withdrawal_ne_token hr (loadSol_token ht)
  obtain ⟨ho, hraw⟩ := solOut h1
  obtain ⟨t', hrel, h2⟩ := released h2
  obtain ⟨hrec, hnt⟩ := recorded (b := []) hraw (loadWithdrawal_ok.1 hr).1 (loadSol_ok.1 ht).1 hne h2 (.inr h3)
  rw [htm] at hva ho
  exact ⟨role_signs (role := (·.withdrawalManager)) hs hau hsig, kw, kv, rc, kt, r, t.ts, t.vault, hkw, hkv, hrc, hkt, withdrawalOf hr,
    tokenOf (loadSol_token ht), by rw [← htm]; exact (loadSol_ok.1 ht).2.2.1, hem, ⟨_, hva⟩, hne, hst, fee, tr, st, t', hfee, htr.symm, hrec, hrel,
    ho.post hnt⟩

/-! ## Tokens from Everscale -/

theorem raw_of_len {d : Data} (h : d.len = 0) : d = .raw [] := by
  cases d with
  | raw b => simp only [Data.len] at h; rw [List.length_eq_zero_iff.1 h]
  | token t => cases h
  | mint t => cases h
  | programData t => cases h

theorem KeepsFull.trans {a b c : World} (h : KeepsFull a b) (h' : KeepsFull b c) : KeepsFull a c := fun j hj => by
  rw [h' j (by rw [h j hj]; exact hj), h j hj]

theorem KeepsFull.setData {w1 : World} {d : Data} (h : KeepsFull w w1) (he : (w.acc k).data.len = 0) : KeepsFull w (w1.setDataRaw k d) :=
  fun j hj => by
    have hne : j ≠ k := by rintro rfl; exact hj he
    rw [setDataRaw_acc, if_neg hne]
    exact h j hj

theorem setData_nt {b : Bytes} {d : Data} (h : (w.acc k).data = .raw b) (hd : ∀ t, d = .token t → t.amount = 0#64)
    (hm : ∀ m, d = .mint m → m.supply = 0#64) : NoTokens w (w.setDataRaw k d) := fun j => by
  unfold bal supply
  rw [setDataRaw_acc]
  by_cases hj : j = k
  · subst hj
    rw [if_pos rfl, h]
    cases d with
    | token t => simp [hd t rfl]
    | mint m => simp [hm m rfl]
    | _ => exact ⟨rfl, rfl⟩
  · rw [if_neg hj]; exact ⟨rfl, rfl⟩

theorem createFunded_full {f : Pubkey} {space : Nat} {o : Pubkey}
    (h : createPdaFunded env ctx (fun a => ctx.isSigner a || a == k) f k space o w = .ok w') :
    NoTokens w w' ∧ KeepsFull w w' ∧ (w.acc k).data.len = 0 ∧ (w'.acc k).data = .raw (zeros space) := by
  obtain ⟨h1, -, -, n, -, -, hk, hr, -, hf⟩ := createPdaFunded_ok h
  refine ⟨fun j => ?_, fun j hj => ?_, h1, by rw [hk]⟩
  · by_cases hj : j = k
    · subst hj
      have hd := raw_of_len h1
      unfold bal supply
      rw [hk, hd]
      exact ⟨rfl, rfl⟩
    · unfold bal supply
      rw [hr j hj]
      exact ⟨rfl, rfl⟩
  · have hne : j ≠ k := by rintro rfl; exact hj h1
    rw [hr j hne]
    by_cases hjf : j = f
    · subst hjf
      rcases hf with hf | hf
      · simp [hf]
      · exact absurd hf.2.2.2.2.1 hj
    · simp [hjf]

theorem create_full {f : Pubkey} {seeds : List Bytes} {n : U8} {space : Nat} {o : Pubkey} (ha : findAddr env seeds ctx.program = .ok (k, n))
    (h : createPda env ctx f k seeds n space o w = .ok w') :
    NoTokens w w' ∧ KeepsFull w w' ∧ (w.acc k).data.len = 0 ∧ (w.acc k).lamports = 0 ∧ (w'.acc k).data = .raw (zeros space) ∧
      (w'.acc k).owner = o ∧ (w'.acc f).data = (w.acc f).data ∧ ∀ j, j ≠ k → j ≠ f → w'.acc j = w.acc j := by
  have hs := createPda_self (findAddr_create ha) h
  obtain ⟨h0, h1, -, hne, -, -, -, -, -, h2, -, e⟩ := createPda_ok (findAddr_create ha) h
  have hj : ∀ j, j ≠ k → j ≠ f → w'.acc j = w.acc j := fun j hk hf => by
    subst e
    simp [World.setLamports, World.set, hk, hf]
  have hff : (w'.acc f).data = (w.acc f).data := by
    subst e
    simp [World.setLamports, World.set, hne]
  refine ⟨fun j => ?_, fun j hd => hj j (by rintro rfl; exact hd h1) (by rintro rfl; exact hd h2), h1, h0, by rw [hs], by rw [hs], hff, hj⟩
  by_cases hk : j = k
  · subst hk
    unfold bal supply
    rw [hs, raw_of_len h1]
    exact ⟨rfl, rfl⟩
  · unfold bal supply
    by_cases hf : j = f
    · subst hf; rw [hff]; exact ⟨rfl, rfl⟩
    · rw [hj j hk hf]; exact ⟨rfl, rfl⟩

theorem deployed {f mint kt : Pubkey} {e : WEverEvent} (h : deployEver env ctx f mint kt e w = .ok w') : Deployed env ctx e mint kt w w' := by
  simp only [deployEver, bind_ok, deriveAt_ok] at h
  obtain ⟨mn, hmn, w1, h1, w2, h2, w3, h3, tn, htn, w4, h4, h5⟩ := h
  obtain ⟨ka, an, w3', ha, h3a, h3b⟩ := ataCreate_ok h3
  obtain ⟨n1, f1, e1, l1, z1, o1, -, -⟩ := create_full hmn h1
  obtain ⟨-, -, -, o2, z2, -, rfl⟩ := splInitMint_ok h2
  obtain ⟨n3, f3, e3, z3⟩ := createFunded_full h3a
  obtain ⟨-, -, -, o3, z3', -, -, rfl⟩ := splInitAccount_ok h3b
  obtain ⟨n4, f4, e4, l4, z4, o4, -, -⟩ := create_full htn h4
  have f2 := f1.setData (d := .mint ⟨some mint, 0#64, if e.decimals.toNat < 9 then e.decimals else 9#8, none⟩) e1
  have g2 : ((w1.setDataRaw mint (.mint ⟨some mint, 0#64, if e.decimals.toNat < 9 then e.decimals else 9#8, none⟩)).acc mint) =
      { w1.acc mint with data := .mint ⟨some mint, 0#64, if e.decimals.toNat < 9 then e.decimals else 9#8, none⟩ } := by
    rw [setDataRaw_acc, if_pos rfl]
  have hka : ka ≠ mint := by
    rintro rfl
    rw [g2] at e3
    cases e3
  have f3' := (f2.trans f3)
  have n2 := setData_nt (d := .mint ⟨some mint, 0#64, if e.decimals.toNat < 9 then e.decimals else 9#8, none⟩) z2 (fun _ h => by cases h)
    (fun m h => by cases h; rfl)
  generalize hw2 : w1.setDataRaw mint (.mint ⟨some mint, 0#64, if e.decimals.toNat < 9 then e.decimals else 9#8, none⟩) = w2 at *
  have hm3 : w3'.acc mint = w2.acc mint := f3 mint (by rw [g2]; exact (by decide : (82 : Nat) ≠ 0))
  generalize hw3 : w3'.setDataRaw ka (.token (freshToken env mint e.recipient (w3'.acc ka).lamports)) = w3 at *
  have hm3' : w3.acc mint = w2.acc mint := by
    rw [← hw3, setDataRaw_acc, if_neg (Ne.symm hka), hm3]
  have f23 : KeepsFull w2 w3 := by rw [← hw3]; exact f3.setData e3
  have hm4 : w4.acc mint = w2.acc mint := by rw [f4 mint (by rw [hm3', g2]; exact (by decide : (82 : Nat) ≠ 0)), hm3']
  have hkm : mint ≠ kt := by
    rintro rfl
    rw [hm3', g2] at e4
    cases e4
  have h5a := RL.pack_acc h5
  have hm5 : w'.acc mint = w2.acc mint := by rw [(h5a mint).2.2 hkm]; exact hm4
  have e0 : (w.acc kt).data.len = 0 := by
    apply Classical.byContradiction
    intro hn
    rw [(f2.trans f23) kt hn] at e4
    exact hn e4
  have sup3 : ∀ k, supply w3 k = supply w3' k := by
    intro k
    rw [← hw3]
    unfold supply
    rw [setDataRaw_acc]
    by_cases hk : k = ka
    · subst hk; rw [if_pos rfl, z3']
    · rw [if_neg hk]
  refine ⟨⟨e1, e0, l1⟩, ⟨_, hmn⟩, ?_, ⟨_, _, RL.pack_holds h5⟩, ?_, ?_, fun k => ?_, fun hnat => ?_⟩
  · rw [hm5, g2]
    exact ⟨rfl, o1⟩
  · rw [(h5a kt).1]
    exact o4
  · intro j hj
    have hne : j ≠ kt := by rintro rfl; exact hj e0
    rw [(h5a j).2.2 hne]
    exact (f2.trans (f23.trans f4)) j hj
  · have n45 := n4.trans ((NoTokens.log _).trans (.pack h5))
    rw [(n45 k).2, sup3, (n3 k).2, (n2 k).2, (n1 k).2]
  · have n3' : NoTokens w3' w3 := by
      rw [← hw3]
      refine setData_nt z3' (fun t h => ?_) (fun _ h => by cases h)
      cases h
      exact if_neg hnat
    exact n1.trans (n2.trans (n3.trans (n3'.trans (n4.trans ((NoTokens.log _).trans (.pack h5))))))

theorem everOut {r : Withdrawal WEverEvent} {ts : TokenSettings} {mint rc : Pubkey} {n : U64} {u : Unit}
    (hc : checkRecipient env ctx r.event.payload r.accountKind mint r.event.recipient rc w = .ok u)
    (h : makeEverTransfer env ctx mint rc ts n w = .ok w') : EverOut env ctx mint rc r n.toNat w w' ∧ KeepsAllRaw w w' := by
  obtain ⟨m, t', d, tn, mn, p, hk, hak, hp, h⟩ := makeEverTransfer_ok h
  obtain ⟨-, -, -, -, -, ho, -, -, -, d, -, hd, hdm, -⟩ := splMintTo_ok h
  exact ⟨⟨receiver hc, mints_of h, ho, d, hd, hdm⟩, raw_mint h⟩

theorem ever_kind {kt : Pubkey} {t : EverToken} {a : EverAddress} (h : loadEver env ctx kt w = .ok t) (ha : t.token = a) :
    ∃ mi d, t.ts.kind = .ever mi a d := by
  obtain ⟨-, -, m, n, hk, -⟩ := loadEver_ok.1 h
  exact ⟨m, _, by rw [← ha]; exact hk⟩

theorem payEver_fx {kw mint rc kt : Pubkey} {r : Withdrawal WEverEvent} (hr : loadWithdrawal wEverEventC env ctx kw w = .ok r)
    (h : payEver env ctx kw mint rc kt r w = .ok w') :
    kw ≠ kt ∧ ∃ t m, EverTokenAt env ctx w r.event mint kt t m ∧
      ((w' = w ∧ ¬ (Confirmed r ∧ r.md.status = .new)) ∨
       (Confirmed r ∧ r.md.status = .new ∧ ∃ (amount fee net : U64) (st : WStatus) (t' : TokenSettings),
        getWithdrawalAmount r.event.amount r.event.decimals m.decimals = .ok amount ∧
        feeOf t.feeWithdrawalInfo amount = .ok fee ∧ net.toNat + fee.toNat = amount.toNat ∧
        Recorded wEverEventC ctx kw kt r (r.withStatus st) t t' w w' ∧ Booked (epochOf ctx.now) fee.toNat net.toNat t t' ∧
        ((¬ Within t (epochOf ctx.now) net.toNat ∧ st = .waitingForApprove ∧ NoTokens w w') ∨
         (Within t (epochOf ctx.now) net.toNat ∧ st = doneStatus r.event.payload ∧ EverOut env ctx mint rc r net.toNat w w')))) := by
  simp only [payEver, bind_ok, require_ok, exists_const, ex_unit, validatePda_ok, mintOf_ok] at h
  obtain ⟨t, ht, hem, hmint, htok, m, hm, h⟩ := h
  have hne := withdrawal_ne_token hr (loadEver_token ht)
  have hrh := (loadWithdrawal_ok.1 hr).1
  have hth := (loadEver_ok.1 ht).1
  rw [htok] at hmint
  refine ⟨hne, t.ts, m, ⟨tokenOf (loadEver_token ht), ever_kind ht htok, hem, ⟨_, hmint⟩, hm⟩, ?_⟩
  split at h
  · rename_i hq
    simp only [bind_ok, orErr_ok, checkedAdd_some, checkedSub_some, Prod.exists] at h
    obtain ⟨n, hn, fee, hfee, sup, hsup, tr, htr, daily, hdaily, w1, s, h1, w2, h2, h3⟩ := h
    have hfi : (resetEpoch t.ts (epochOf ctx.now)).feeWithdrawalInfo = t.ts.feeWithdrawalInfo ∧
        (resetEpoch t.ts (epochOf ctx.now)).feeSupply = t.ts.feeSupply := by unfold resetEpoch; split <;> exact ⟨rfl, rfl⟩
    rw [hfi.1] at hfee
    rw [hfi.2] at hsup
    refine .inr ⟨confirmed hq.1, hq.2, n, fee, tr, s, { resetEpoch t.ts (epochOf ctx.now) with feeSupply := sup, withdrawalDailyAmount := daily },
      hn, hfee, htr.symm, ?_⟩
    unfold settleEver at h1
    split at h1
    · rename_i hov
      simp only [Except.ok.injEq, Prod.mk.injEq] at h1
      obtain ⟨rfl, rfl⟩ := h1
      obtain ⟨hrec, hnt⟩ := recorded (KeepsAllRaw.refl w) hrh hth hne (.inl h2) (.inl h3)
      exact ⟨hrec, booked hsup.symm hdaily.symm, .inl ⟨(over hdaily.symm).1 hov, rfl, hnt⟩⟩
    · rename_i hov
      simp only [bind_ok, exists_const, ex_unit, Except.ok.injEq, Prod.mk.injEq] at h1
      obtain ⟨hc, w3, hmm, rfl, rfl⟩ := h1
      obtain ⟨ho, hraw⟩ := everOut hc hmm
      obtain ⟨hrec, hnt⟩ := recorded hraw hrh hth hne (.inl h2) (.inl h3)
      refine ⟨hrec, booked hsup.symm hdaily.symm, .inr ⟨?_, rfl, ho.1, ho.2.1.post hnt, ho.2.2⟩⟩
      exact Classical.not_not.1 (fun hn => hov ((over hdaily.symm).2 hn))
  · rename_i hq
    cases h
    exact .inl ⟨rfl, fun h => hq ⟨(quorum_iff hrh).2 h.1, h.2⟩⟩

/-- `WithdrawMultiTokenEver`: with `w1` the state once the token exists. -/
theorem withdrawEver_fx (h : run env ctx cpi .withdrawMultiTokenEver w = .ok w') :
    ∃ kw mint rc kt r, ctx.accounts[0]? = some kw ∧ ctx.accounts[1]? = some mint ∧ ctx.accounts[2]? = some rc ∧
      ctx.accounts[3]? = some kt ∧ WithdrawalOf wEverEventC env ctx w kw r ∧
      ((w' = w ∧ (w.acc kt).lamports = 0) ∨ ∃ w1, ((w1 = w ∧ (w.acc kt).lamports ≠ 0) ∨
          ((w.acc kt).lamports = 0 ∧ Deployed env ctx r.event mint kt w w1)) ∧
        w1.acc kw = w.acc kw ∧ kw ≠ kt ∧ ∃ t m, EverTokenAt env ctx w1 r.event mint kt t m ∧
        ((w' = w1 ∧ ¬ (Confirmed r ∧ r.md.status = .new)) ∨
         (Confirmed r ∧ r.md.status = .new ∧ ∃ (amount fee net : U64) (st : WStatus) (t' : TokenSettings),
          getWithdrawalAmount r.event.amount r.event.decimals m.decimals = .ok amount ∧
          feeOf t.feeWithdrawalInfo amount = .ok fee ∧ net.toNat + fee.toNat = amount.toNat ∧
          Recorded wEverEventC ctx kw kt r (r.withStatus st) t t' w1 w' ∧ Booked (epochOf ctx.now) fee.toNat net.toNat t t' ∧
          ((¬ Within t (epochOf ctx.now) net.toNat ∧ st = .waitingForApprove ∧ NoTokens w1 w') ∨
           (Within t (epochOf ctx.now) net.toNat ∧ st = doneStatus r.event.payload ∧ EverOut env ctx mint rc r net.toNat w1 w'))))) := by
  simp only [run, processWithdrawEver, bind_ok, acct_ok, sysvar_ok, exists_const, ex_unit] at h
  obtain ⟨kw, hkw, mi, hmi, rc, hrc, kt, hkt, ks, -, -, -, -, -, rent, -, -, clock, -, -, ss, hss, r, hr, h⟩ := h
  refine ⟨kw, mi, rc, kt, r, hkw, hmi, hrc, hkt, withdrawalOf hr, ?_⟩
  split at h
  · rename_i hl
    split at h
    · cases h; exact .inl ⟨rfl, hl⟩
    · simp only [bind_ok] at h
      obtain ⟨w1, h1, h2⟩ := h
      have hdep := deployed h1
      have hk : w1.acc kw = w.acc kw := by
        obtain ⟨b, q, hb, hlen, -⟩ := (loadWithdrawal_ok.1 hr).1
        refine hdep.full kw ?_
        rw [hb]
        show b.length ≠ 0
        rw [hlen]
        decide
      exact .inr ⟨w1, .inr ⟨hl, hdep⟩, hk, payEver_fx (loadWithdrawal_acc hr hk) h2⟩
  · rename_i hl
    exact .inr ⟨w, .inl ⟨rfl, hl⟩, rfl, payEver_fx hr h⟩

/-- `ApproveWithdrawEver`. -/
theorem approveEver_fx (h : run env ctx cpi .approveWithdrawEver w = .ok w') :
    (RoleSigns env ctx w (·.withdrawalManager) ∨ UpgradeAuthoritySigns env ctx w) ∧
    ∃ kw mint rc kt r t m, ctx.accounts[2]? = some kw ∧ ctx.accounts[1]? = some mint ∧ ctx.accounts[3]? = some rc ∧
      ctx.accounts[4]? = some kt ∧ WithdrawalOf wEverEventC env ctx w kw r ∧ kw ≠ kt ∧ EverTokenAt env ctx w r.event mint kt t m ∧
      r.md.status = .waitingForApprove ∧ ∃ (amount fee net : U64) (t' : TokenSettings),
        getWithdrawalAmount r.event.amount r.event.decimals m.decimals = .ok amount ∧
        feeOf t.feeWithdrawalInfo amount = .ok fee ∧ net.toNat + fee.toNat = amount.toNat ∧
        Recorded wEverEventC ctx kw kt r (r.withStatus (doneStatus r.event.payload)) t t' w w' ∧
        Released (epochOf ctx.now) r.md.epoch net.toNat t t' ∧ EverOut env ctx mint rc r net.toNat w w' := by
  simp only [run, processApproveEver, bind_ok, acct_ok, sysvar_ok, require_ok, exists_const, ex_unit, validatePda_ok, orErr_ok,
    checkedSub_some, Prod.exists, mintOf_ok, loadSettingsNoEmergency_ok] at h
  obtain ⟨au, -, mi, hmi, kw, hkw, rc, hrc, kt, hkt, ks, -, -, -, clock, -, -, hsig, s, pn, ⟨hs, hse⟩, r, hr, hst, t, ht, hem, hmint, htok,
    hau, m, hm, n, hn, fee, hfee, tr, htr, hc, w1, h1, w2, h2, h3⟩ := h
  have hne := withdrawal_ne_token hr (loadEver_token ht)
  obtain ⟨ho, hraw⟩ := everOut hc h1
  obtain ⟨t', hrel, h2⟩ := released h2
  obtain ⟨hrec, hnt⟩ := recorded hraw (loadWithdrawal_ok.1 hr).1 (loadEver_ok.1 ht).1 hne h2 (.inl h3)
  rw [htok] at hmint
  exact ⟨role_signs (role := (·.withdrawalManager)) hs hau hsig, kw, mi, rc, kt, r, t.ts, m, hkw, hmi, hrc, hkt, withdrawalOf hr, hne,
    ⟨tokenOf (loadEver_token ht), ever_kind ht htok, hem, ⟨_, hmint⟩, hm⟩, hst, n, fee, tr, t',
    hn, hfee, htr.symm, hrec, hrel, ho.1, ho.2.1.post hnt, ho.2.2⟩

end Verif.TP
