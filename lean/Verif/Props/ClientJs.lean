import Verif.Props.ClientMore
import Verif.Spec.Js
/-!
# C61: the JavaScript packages build the instructions of the Rust builders

Each function of `wasm/src/lib.rs` and `round-loader/src/wasm.rs` succeeds exactly if the texts it is given can be read, and then yields the
instruction of the corresponding Rust builder. With C52 these are accepted. The functions for the emergency mode of a single token are the
exception.
-/
set_option linter.unusedSimpArgs false
set_option maxRecDepth 100000
namespace Verif.Props
open Verif TP Codec

variable {env : Env} {tx : Js.Text} {ix : Ix} {now : I64} {w w' : World} {cpi : Pubkey → World → Except Err World}

private theorem arg_ok {α : Type} {o : Option α} {x : α} : Js.arg o = .ok x ↔ o = some x := orErr_ok

local macro "reads" : tactic => `(tactic| (
  constructor
  all_goals
    intro h
    repeat (obtain ⟨_, _, h⟩ := h)
    repeat (first | (refine ⟨_, by assumption, ?_⟩) | exact h | rfl)))

private theorem ok_bind {α β : Type} {x : α} {f : α → Except Err β} : (Except.ok x >>= f) = f x := rfl

/-! ## Reading -/

private theorem beVal_inj {a b : Bytes} (hl : a.length = b.length) (h : beVal a = beVal b) : a = b := by
  have e1 := beVal_reverse a.reverse
  have e2 := beVal_reverse b.reverse
  rw [List.reverse_reverse] at e1 e2
  have h' : leDec a.reverse = leDec b.reverse := by rw [← e1, ← e2, h]
  have l1 := leEnc_leDec a.reverse
  have l2 := leEnc_leDec b.reverse
  rw [h', List.length_reverse, hl] at l1
  rw [List.length_reverse] at l2
  exact List.reverse_inj.mp (l1.symm.trans l2)

private theorem evers_ok {n : U64} {x : Pubkey} : Js.evers n = .ok x ↔ Js.Number x n := by
  simp only [Js.evers, orErr_ok, decAll_iff, Js.Number, wf_key, true_and]
  constructor
  · intro h; rw [← h, C48_from_be_u64]
  · intro h
    refine beVal_inj ?_ (by rw [C48_from_be_u64, h])
    rw [(C48_from_be _ (by simp)).1, len_key]

private theorem parse_append : ∀ (l : Bytes) (acc n : Nat) (c : Byte), parseDigits acc l = some n → 48 ≤ c.toNat → c.toNat ≤ 57 →
    parseDigits acc (l ++ [c]) = some (n * 10 + (c.toNat - 48))
  | [], acc, n, c, h, h1, h2 => by
    cases h
    simp [parseDigits, h1, h2]
  | d :: l, acc, n, c, h, h1, h2 => by
    simp only [List.cons_append, parseDigits] at h ⊢
    split at h
    · rename_i hd
      rw [if_pos hd]
      exact parse_append l _ n c h h1 h2
    · cases h

private theorem digit {n : Nat} (h : n < 10) : (BitVec.ofNat 8 (48 + n)).toNat = 48 + n := by
  rw [BitVec.toNat_ofNat, Nat.mod_eq_of_lt (by omega)]

theorem decimal_digits (n : Nat) : parseDigits 0 (Js.decimal n) = some n ∧ ∃ d l, d < 10 ∧ Js.decimal n = BitVec.ofNat 8 (48 + d) :: l := by
  induction n using Nat.strongRecOn with
  | _ n ih =>
    unfold Js.decimal
    split
    · rename_i h
      refine ⟨?_, n, [], h, rfl⟩
      simp only [parseDigits, digit h]
      rw [if_pos (by omega)]
      congr 1; omega
    · rename_i h
      obtain ⟨h1, d, l, hd, e⟩ := ih (n / 10) (by omega)
      have hm : n % 10 < 10 := by omega
      refine ⟨?_, d, l ++ [BitVec.ofNat 8 (48 + n % 10)], hd, by rw [e]; rfl⟩
      rw [parse_append _ _ _ _ h1 (by rw [digit hm]; omega) (by rw [digit hm]; omega), digit hm]
      congr 1; omega

/-- C61: an amount printed in decimal is read as that amount; a number that does not fit is rejected. -/
theorem C61_amount (n : Nat) : Js.parseU128 (Js.decimal n) = if n < 2 ^ 128 then some (BitVec.ofNat 128 n) else none := by
  obtain ⟨h, d, l, hd, e⟩ := decimal_digits n
  have hne : BitVec.ofNat 8 (48 + d) ≠ 43#8 := by
    intro h
    have := congrArg BitVec.toNat h
    rw [digit hd] at this
    simp at this
    omega
  rw [e] at h ⊢
  unfold Js.parseU128
  split
  · rename_i r hr
    exact absurd (List.cons.inj hr).1 hne
  · show (if _ then none else match parseDigits 0 _ with | some n => _ | none => none) = _
    rw [if_neg (by simp), h]

private theorem fee_ok {s : Bytes} {f : FeeType} : Js.feeType s = some f ↔ Js.FeeText s f := by
  unfold Js.feeType Js.FeeText
  have : ascii "Deposit" ≠ ascii "Withdrawal" := by decide +kernel
  split
  · rename_i h; subst h
    constructor
    · intro h; cases h; exact .inl ⟨rfl, rfl⟩
    · rintro (⟨-, rfl⟩ | ⟨h, -⟩)
      · rfl
      · exact (this h).elim
  · split
    · rename_i h1 h; subst h
      constructor
      · intro h; cases h; exact .inr ⟨rfl, rfl⟩
      · rintro (⟨h, -⟩ | ⟨-, rfl⟩)
        · exact (h1 h).elim
        · rfl
    · rename_i h1 h2
      constructor
      · intro h; cases h
      · rintro (⟨h, -⟩ | ⟨h, -⟩)
        · exact (h1 h).elim
        · exact (h2 h).elim

private theorem settings_ok {s : Bytes} {b : Bool} {kt : Pubkey} : Js.tokenSettingsAddr env tx s b = .ok kt ↔ Js.SettingsText env tx s b kt := by
  unfold Js.tokenSettingsAddr Js.SettingsText
  cases b <;> simp [bind_ok, arg_ok]

private theorem keys_ok : ∀ {ss : List Bytes} {ks : List Pubkey}, Js.keys tx ss = .ok ks ↔ Js.KeyTexts tx ss ks
  | [], ks => by
    constructor
    · intro h; cases h; exact .nil
    · rintro ⟨⟩; rfl
  | s :: ss, ks => by
    simp only [Js.keys, bind_ok, orErr_ok, Except.ok.injEq]
    constructor
    · rintro ⟨k, hk, more, hm, rfl⟩; exact .cons hk (keys_ok.1 hm)
    · rintro ⟨⟩
      rename_i k ks hk hs
      exact ⟨k, hk, ks, keys_ok.2 hs, rfl⟩

private theorem opt_ok : ∀ {s : Option Bytes} {k : Option Pubkey}, Js.optKey tx s = .ok k ↔ Js.OptText tx s k
  | none, k => by
    constructor
    · intro h; cases h; exact .none
    · rintro ⟨⟩; rfl
  | some s, k => by
    simp only [Js.optKey, bind_ok, arg_ok, Except.ok.injEq]
    constructor
    · rintro ⟨k, hk, rfl⟩; exact .some hk
    · rintro ⟨⟩
      rename_i k hk
      exact ⟨k, hk, rfl⟩

private theorem vault_ok {s : Option Bytes} {l : List Meta} :
    Js.fillVault tx s = .ok l ↔ ∃ k, Js.OptText tx s k ∧ l = k.toList.map fun v => Meta.new v false := by
  cases s with
  | none =>
    constructor
    · intro h; cases h; exact ⟨none, .none, rfl⟩
    · rintro ⟨k, ⟨⟩, rfl⟩; rfl
  | some s =>
    simp only [Js.fillVault, bind_ok, arg_ok, Except.ok.injEq]
    constructor
    · rintro ⟨k, hk, rfl⟩; exact ⟨some k, .some hk, rfl⟩
    · rintro ⟨_, ⟨⟩, rfl⟩
      rename_i k hk
      exact ⟨k, hk, rfl⟩

private theorem pairs_ok {mint : Pubkey} : ∀ {ss : List (Bytes × Bytes)} {l : List Meta},
    Js.fillMetas env tx mint ss = .ok l ↔ ∃ ks, Js.PairTexts tx ss ks ∧ TP.Client.fillMetas env mint ks = .ok l
  | [], l => by
    constructor
    · intro h; cases h; exact ⟨[], .nil, rfl⟩
    · rintro ⟨ks, ⟨⟩, h⟩; exact h
  | (a, b) :: ss, l => by
    simp only [Js.fillMetas, bind_ok, arg_ok, Except.ok.injEq]
    constructor
    · rintro ⟨k, hk, t, ht, rt, hrt, more, hm, rfl⟩
      obtain ⟨ks, hks, h⟩ := pairs_ok.1 hm
      refine ⟨(k, t) :: ks, .cons hk ht hks, ?_⟩
      simp only [TP.Client.fillMetas, bind_ok, Except.ok.injEq]
      exact ⟨rt, hrt, more, h, rfl⟩
    · rintro ⟨_, ⟨⟩, h⟩
      rename_i k t ks hk ht hks
      simp only [TP.Client.fillMetas, bind_ok, Except.ok.injEq] at h
      obtain ⟨rt, hrt, more, hm, rfl⟩ := h
      exact ⟨k, hk, t, ht, rt, hrt, more, pairs_ok.2 ⟨ks, hks, hm⟩, rfl⟩

/-! ## Requests, votes and payouts -/

private theorem everRequest_eq {f a : Pubkey} {n : U32} {pda : PDA} {e : WEverEvent} {att : U64} : TP.Client.everRequestIx env f a n pda e att = (do
    let withdrawal ← TP.Client.withdrawalEverAddr env n pda e
    let rlSettings ← addrOf env settingsSeeds env.rlId
    let relayRound ← addrOf env (relayRoundSeeds n) env.rlId
    let extra ← Js.everExtra env e
    let data ← packed Instr.codec (.withdrawMultiTokenEverRequest pda e.token e.name e.symbol e.decimals e.recipient e.amount e.payload att)
    .ok ⟨env.tpId, [.new f true, .new a true, .new withdrawal false, .readonly rlSettings false, .readonly relayRound false,
      .readonly env.systemId false, .readonly env.rentId false, .readonly env.clockId false] ++ extra, data⟩) := by
  unfold TP.Client.everRequestIx Js.everExtra
  by_cases h : e.payload = []
  · simp only [h, if_true]
  · simp only [h, if_false, bind_assoc, ok_bind]

private theorem solRequest_eq {f a : Pubkey} {n : U32} {pda : PDA} {e : WSolEvent} {att : U64} : TP.Client.solRequestIx env f a pda n e att = (do
    let withdrawal ← TP.Client.withdrawalSolAddr env n pda e
    let tokenSettings ← TP.Client.tokenSettingsSolAddr env e.mint
    let rlSettings ← addrOf env settingsSeeds env.rlId
    let relayRound ← addrOf env (relayRoundSeeds n) env.rlId
    let extra ← Js.solExtra env e
    let data ← packed Instr.codec (.withdrawMultiTokenSolRequest pda e.recipient e.amount e.payload att)
    .ok ⟨env.tpId, [.new f true, .new a true, .new withdrawal false, .readonly tokenSettings false, .readonly rlSettings false,
      .readonly relayRound false, .readonly env.systemId false, .readonly env.rentId false, .readonly env.clockId false] ++ extra, data⟩) := by
  unfold TP.Client.solRequestIx Js.solExtra
  by_cases h : e.payload = []
  · simp only [h, if_true]
  · simp only [h, if_false, bind_assoc, ok_bind]

section Requests
variable {fS aS rS mS tS kS cS nS pS gS wS oS : Bytes} {n ts : U32} {lt att : U64}

/-- C61: setting up. -/
theorem C61_initialize : Js.initializeIx env tx fS aS gS wS mS = .ok ix ↔
    ∃ f, tx.pubkey fS = some f ∧ ∃ a, tx.pubkey aS = some a ∧ ∃ g, tx.pubkey gS = some g ∧ ∃ m, tx.pubkey mS = some m ∧ ∃ wm, tx.pubkey wS = some wm ∧
      TP.Client.initializeIx env f a g m wm = .ok ix := by
  simp only [Js.initializeIx, TP.Client.initializeIx, bind_ok, arg_ok]
  reads

/-- C61: requests to withdraw an Everscale token. -/
theorem C61_everRequest {name symbol : Bytes} {d : U8} :
    Js.everRequestIx env tx fS aS name symbol d ts lt cS tS rS nS n pS att = .ok ix ↔
    ∃ f, tx.pubkey fS = some f ∧ ∃ a, tx.pubkey aS = some a ∧ ∃ c, tx.pubkey cS = some c ∧ ∃ t, EverAddress.parse tS = some t ∧
      ∃ r, tx.pubkey rS = some r ∧ ∃ amount, Js.parseU128 nS = some amount ∧ ∃ p, tx.base64 pS = some p ∧
      TP.Client.everRequestIx env f a n ⟨ts, lt, c⟩ ⟨t, name, symbol, d, amount, r, p⟩ att = .ok ix := by
  simp only [Js.everRequestIx, everRequest_eq, bind_ok, arg_ok]
  reads

/-- C61: requests to withdraw a Solana token. -/
theorem C61_solRequest : Js.solRequestIx env tx fS aS mS ts lt cS rS nS n pS att = .ok ix ↔
    ∃ f, tx.pubkey fS = some f ∧ ∃ a, tx.pubkey aS = some a ∧ ∃ c, tx.pubkey cS = some c ∧ ∃ m, tx.pubkey mS = some m ∧
      ∃ r, tx.pubkey rS = some r ∧ ∃ amount, Js.parseU128 nS = some amount ∧ ∃ p, tx.base64 pS = some p ∧
      TP.Client.solRequestIx env f a ⟨ts, lt, c⟩ n ⟨m, amount, r, p⟩ att = .ok ix := by
  simp only [Js.solRequestIx, solRequest_eq, bind_ok, arg_ok]
  reads

/-- C61: votes. The package only confirms. -/
theorem C61_vote : Js.voteIx env tx aS wS n = .ok ix ↔
    ∃ a, tx.pubkey aS = some a ∧ ∃ k, tx.pubkey wS = some k ∧ TP.Client.voteIx env a k n .confirm = .ok ix := by
  simp only [Js.voteIx, TP.Client.voteIx, bind_ok, arg_ok]

/-- C61: payouts. -/
theorem C61_payouts :
    (Js.withdrawEverIx env tx wS rS tS = .ok ix ↔
      ∃ k, tx.pubkey wS = some k ∧ ∃ r, tx.pubkey rS = some r ∧ ∃ t, EverAddress.parse tS = some t ∧ TP.Client.withdrawEverIx env k r t = .ok ix) ∧
    (Js.createEverIx env tx fS wS rS tS = .ok ix ↔
      ∃ f, tx.pubkey fS = some f ∧ ∃ k, tx.pubkey wS = some k ∧ ∃ r, tx.pubkey rS = some r ∧ ∃ t, EverAddress.parse tS = some t ∧
        TP.Client.createEverTokenIx env f k r t = .ok ix) ∧
    (Js.withdrawSolIx env tx wS rS mS = .ok ix ↔
      ∃ k, tx.pubkey wS = some k ∧ ∃ r, tx.pubkey rS = some r ∧ ∃ m, tx.pubkey mS = some m ∧ TP.Client.withdrawSolIx env k r m = .ok ix) := by
  refine ⟨?_, ?_, ?_⟩
  · simp only [Js.withdrawEverIx, TP.Client.withdrawEverIx, TP.Client.everMetas, bind_ok, arg_ok]
  · simp only [Js.createEverIx, TP.Client.createEverTokenIx, TP.Client.everMetas, bind_ok, arg_ok, List.cons_append, List.nil_append]
  · simp only [Js.withdrawSolIx, TP.Client.withdrawSolIx, bind_ok, arg_ok]
    reads

/-- C61: executing a payload that moves tokens out of the proxy account. -/
theorem C61_payload :
    (Js.executePayloadSolIx env tx wS rS mS oS = .ok ix ↔
      ∃ k, tx.pubkey wS = some k ∧ ∃ r, tx.pubkey rS = some r ∧ ∃ m, tx.pubkey mS = some m ∧ ∃ px, TP.Client.proxyAddr env m r = .ok px ∧
        ∃ o, tx.pubkey oS = some o ∧
        Bridge.Client.executePayloadIx env.tpId 4 k [(px, false, false), (o, false, false), (env.splId, true, false)] = .ok ix) ∧
    (Js.executePayloadEverIx env tx wS rS mS oS = .ok ix ↔
      ∃ k, tx.pubkey wS = some k ∧ ∃ r, tx.pubkey rS = some r ∧ ∃ m, tx.pubkey mS = some m ∧ ∃ px, TP.Client.proxyAddr env m r = .ok px ∧
        ∃ o, tx.pubkey oS = some o ∧
        Bridge.Client.executePayloadIx env.tpId 3 k [(px, false, false), (o, false, false), (env.splId, true, false)] = .ok ix) := by
  have h4 : packed TP.Instr.codec .executePayloadSol = packed u8 4 := rfl
  have h3 : packed TP.Instr.codec .executePayloadEver = packed u8 3 := rfl
  constructor
  · simp only [Js.executePayloadSolIx, Js.executePayloadIx, Bridge.Client.executePayloadIx, Bridge.Client.executeMetas, h4, bind_ok, arg_ok]
    rfl
  · simp only [Js.executePayloadEverIx, Js.executePayloadIx, Bridge.Client.executePayloadIx, Bridge.Client.executeMetas, h3, bind_ok, arg_ok]
    rfl

end Requests

/-! ## Deposits -/

section Deposits
variable {fS aS atS tS mS sS rS pS wS : Bytes} {n v e : U64}

/-- C61: deposits of SOL through the native proxy. -/
theorem C61_depositNative {program : Pubkey} : Js.depositNativeIx env tx program fS aS sS n rS v e pS = .ok ix ↔
    ∃ s, tx.uuid sS = some s ∧ ∃ f, tx.pubkey fS = some f ∧ ∃ a, tx.pubkey aS = some a ∧ ∃ r, EverAddress.parse rS = some r ∧ ∃ x, Js.Number x e ∧
      ∃ p, tx.base64 pS = some p ∧ NP.depositIx env program f a s n r v x p = .ok ix := by
  simp only [Js.depositNativeIx, NP.depositIx, bind_ok, arg_ok, evers_ok]
  reads

/-- C61: deposits of an Everscale token. -/
theorem C61_depositEver : Js.depositEverIx env tx fS aS atS tS sS n rS v e pS = .ok ix ↔
    ∃ s, tx.uuid sS = some s ∧ ∃ f, tx.pubkey fS = some f ∧ ∃ a, tx.pubkey aS = some a ∧ ∃ k, tx.pubkey atS = some k ∧
      ∃ t, EverAddress.parse tS = some t ∧ ∃ r, EverAddress.parse rS = some r ∧ ∃ x, Js.Number x e ∧ ∃ p, tx.base64 pS = some p ∧
      TP.Client.depositEverIx env f a k t s n r v x p = .ok ix := by
  simp only [Js.depositEverIx, TP.Client.depositEverIx, bind_ok, arg_ok, evers_ok]
  reads

/-- C61: deposits of a Solana token. -/
theorem C61_depositSol {name symbol : Bytes} : Js.depositSolIx env tx fS aS atS mS sS name symbol n rS v e pS = .ok ix ↔
    ∃ s, tx.uuid sS = some s ∧ ∃ f, tx.pubkey fS = some f ∧ ∃ a, tx.pubkey aS = some a ∧ ∃ k, tx.pubkey atS = some k ∧
      ∃ m, tx.pubkey mS = some m ∧ ∃ r, EverAddress.parse rS = some r ∧ ∃ x, Js.Number x e ∧ ∃ p, tx.base64 pS = some p ∧
      TP.Client.depositSolIx env f a k m s name symbol n r v x p = .ok ix := by
  simp only [Js.depositSolIx, TP.Client.depositSolIx, bind_ok, arg_ok, evers_ok]
  reads

/-- C61: cancelling a pending withdrawal. -/
theorem C61_cancel : Js.cancelIx env tx fS aS wS mS sS rS v e pS = .ok ix ↔
    ∃ s, tx.uuid sS = some s ∧ ∃ f, tx.pubkey fS = some f ∧ ∃ a, tx.pubkey aS = some a ∧ ∃ k, tx.pubkey wS = some k ∧
      ∃ m, tx.pubkey mS = some m ∧ ∃ r, EverAddress.parse rS = some r ∧ ∃ x, Js.Number x e ∧ ∃ p, tx.base64 pS = some p ∧
      TP.Client.cancelIx env f a k m s r v x p = .ok ix := by
  simp only [Js.cancelIx, TP.Client.cancelIx, bind_ok, arg_ok, evers_ok]
  reads

/-- C61: filling pending withdrawals. -/
theorem C61_fill {ws : List (Bytes × Bytes)} {vS : Option Bytes} : Js.fillIx env tx fS aS mS sS rS n ws vS v e pS = .ok ix ↔
    ∃ s, tx.uuid sS = some s ∧ ∃ f, tx.pubkey fS = some f ∧ ∃ a, tx.pubkey aS = some a ∧ ∃ m, tx.pubkey mS = some m ∧
      ∃ r, EverAddress.parse rS = some r ∧ ∃ x, Js.Number x e ∧ ∃ p, tx.base64 pS = some p ∧ ∃ ks, Js.PairTexts tx ws ks ∧ ∃ va, Js.OptText tx vS va ∧
      TP.Client.fillIx env f a m s r n ks va v x p = .ok ix := by
  simp only [Js.fillIx, TP.Client.fillIx, bind_ok, arg_ok, evers_ok, pairs_ok, vault_ok]
  constructor
  · rintro ⟨s, hs, m, hm, f, hf, a, ha, r, hr, at', hat, ks, hks, kv, hkv, d, hd, kt, hkt, x, hx, p, hp, da, hda, ms, ⟨ps, hps, hms⟩, l, ⟨va, hva, rfl⟩, h⟩
    exact ⟨s, hs, f, hf, a, ha, m, hm, r, hr, x, hx, p, hp, ps, hps, va, hva, at', hat, ks, hks, kv, hkv, d, hd, kt, hkt, da, hda, ms, hms, h⟩
  · rintro ⟨s, hs, f, hf, a, ha, m, hm, r, hr, x, hx, p, hp, ps, hps, va, hva, at', hat, ks, hks, kv, hkv, d, hd, kt, hkt, da, hda, ms, hms, h⟩
    exact ⟨s, hs, m, hm, f, hf, a, ha, r, hr, at', hat, ks, hks, kv, hkv, d, hd, kt, hkt, x, hx, p, hp, da, hda, ms, ⟨ps, hps, hms⟩, _, ⟨va, hva, rfl⟩, h⟩

end Deposits

/-! ## Administration -/

section Admin
variable {aS nS tS wS rS mS fS : Bytes} {b : Bool} {n m d : U64}

/-- C61: roles and the emergency mode of the whole bridge. -/
theorem C61_roles :
    (Js.changeGuardianIx env tx aS nS = .ok ix ↔
      ∃ a, tx.pubkey aS = some a ∧ ∃ k, tx.pubkey nS = some k ∧ TP.Client.changeGuardianIx env a k = .ok ix) ∧
    (Js.changeWithdrawalManagerIx env tx aS nS = .ok ix ↔
      ∃ a, tx.pubkey aS = some a ∧ ∃ k, tx.pubkey nS = some k ∧ TP.Client.changeWithdrawalManagerIx env a k = .ok ix) ∧
    (Js.enableEmergencyIx env tx aS = .ok ix ↔ ∃ a, tx.pubkey aS = some a ∧ TP.Client.enableEmergencyIx env a = .ok ix) ∧
    (Js.enableEmergencyByOwnerIx env tx aS = .ok ix ↔ ∃ a, tx.pubkey aS = some a ∧ TP.Client.enableEmergencyByOwnerIx env a = .ok ix) ∧
    (Js.disableEmergencyIx env tx aS = .ok ix ↔ ∃ a, tx.pubkey aS = some a ∧ TP.Client.disableEmergencyIx env a = .ok ix) := by
  simp only [Js.changeGuardianIx, Js.changeWithdrawalManagerIx, Js.changeRoleIx, Js.enableEmergencyIx, Js.enableEmergencyByOwnerIx, Js.disableEmergencyIx,
    Js.emergencyByOwnerIx, TP.Client.changeGuardianIx, TP.Client.changeWithdrawalManagerIx, TP.Client.changeRoleIx, TP.Client.enableEmergencyIx,
    TP.Client.enableEmergencyByOwnerIx, TP.Client.disableEmergencyIx, bind_ok, arg_ok]
  refine ⟨?_, ?_, ?_, ?_, ?_⟩ <;> reads

/-- C61: limits, fees and names of a token. The functions for the limits name the program data account, as the builders for the owner do. -/
theorem C61_token {l1 l2 : Option U64} {y nm : Bytes} :
    (Js.changeDepositLimitIx env tx aS tS b n = .ok ix ↔
      ∃ a, tx.pubkey aS = some a ∧ ∃ kt, Js.SettingsText env tx tS b kt ∧ TP.Client.changeDepositLimitByOwnerIx env a kt n = .ok ix) ∧
    (Js.changeWithdrawalLimitsIx env tx aS tS b l1 l2 = .ok ix ↔
      ∃ a, tx.pubkey aS = some a ∧ ∃ kt, Js.SettingsText env tx tS b kt ∧ TP.Client.changeWithdrawalLimitsByOwnerIx env a kt l1 l2 = .ok ix) ∧
    (Js.updateFeeIx env tx aS tS b fS m d = .ok ix ↔
      ∃ a, tx.pubkey aS = some a ∧ ∃ kt, Js.SettingsText env tx tS b kt ∧ ∃ f, Js.FeeText fS f ∧ TP.Client.updateFeeIx env a kt f m d = .ok ix) ∧
    (Js.updateTokenNameIx env tx aS tS y nm = .ok ix ↔
      ∃ a, tx.pubkey aS = some a ∧ ∃ kt, Js.SettingsText env tx tS true kt ∧ TP.Client.updateTokenNameIx env a kt y nm = .ok ix) := by
  refine ⟨?_, ?_, ?_, ?_⟩
  · simp only [Js.changeDepositLimitIx, Js.changeLimitIx, TP.Client.changeDepositLimitByOwnerIx, TP.Client.tokenOwnerIx, bind_ok, arg_ok, settings_ok]
    reads
  · simp only [Js.changeWithdrawalLimitsIx, Js.changeLimitIx, TP.Client.changeWithdrawalLimitsByOwnerIx, TP.Client.tokenOwnerIx, bind_ok, arg_ok, settings_ok]
    reads
  · simp only [Js.updateFeeIx, TP.Client.updateFeeIx, TP.Client.tokenAdminIx, bind_ok, arg_ok, settings_ok, fee_ok]
    reads
  · have hk : ∀ kt, Js.SettingsText env tx tS true kt ↔ ∃ mint, tx.pubkey tS = some mint ∧ TP.Client.tokenSettingsSolAddr env mint = .ok kt := by
      intro kt; simp [Js.SettingsText]
    simp only [Js.updateTokenNameIx, TP.Client.updateTokenNameIx, TP.Client.tokenAdminIx, bind_ok, arg_ok, hk]
    constructor
    · rintro ⟨a, ha, mi, hmi, kt, hkt, h⟩
      exact ⟨a, ha, kt, ⟨mi, hmi, hkt⟩, h⟩
    · rintro ⟨a, ha, kt, ⟨mi, hmi, hkt⟩, h⟩
      exact ⟨a, ha, mi, hmi, kt, hkt, h⟩

/-- C61: approvals and fees. -/
theorem C61_approve :
    (Js.approveEverIx env tx aS wS rS mS tS = .ok ix ↔
      ∃ a, tx.pubkey aS = some a ∧ ∃ k, tx.pubkey wS = some k ∧ ∃ r, tx.pubkey rS = some r ∧ ∃ m, tx.pubkey mS = some m ∧
        ∃ t, EverAddress.parse tS = some t ∧ TP.Client.approveEverIx env a k r m t = .ok ix) ∧
    (Js.approveSolIx env tx aS wS rS mS = .ok ix ↔
      ∃ a, tx.pubkey aS = some a ∧ ∃ k, tx.pubkey wS = some k ∧ ∃ r, tx.pubkey rS = some r ∧ ∃ m, tx.pubkey mS = some m ∧
        TP.Client.approveSolIx env a k r m = .ok ix) ∧
    (Js.withdrawEverFeeIx env tx aS mS rS tS n = .ok ix ↔
      ∃ a, tx.pubkey aS = some a ∧ ∃ m, tx.pubkey mS = some m ∧ ∃ r, tx.pubkey rS = some r ∧ ∃ t, EverAddress.parse tS = some t ∧
        TP.Client.withdrawEverFeeIx env a m r t n = .ok ix) ∧
    (Js.withdrawSolFeeIx env tx aS rS mS n = .ok ix ↔
      ∃ a, tx.pubkey aS = some a ∧ ∃ r, tx.pubkey rS = some r ∧ ∃ m, tx.pubkey mS = some m ∧ TP.Client.withdrawSolFeeIx env a r m n = .ok ix) ∧
    (Js.withdrawMultiVaultIx env tx aS rS n = .ok ix ↔
      ∃ a, tx.pubkey aS = some a ∧ ∃ r, tx.pubkey rS = some r ∧ TP.Client.withdrawMultiVaultIx env a r n = .ok ix) := by
  refine ⟨?_, ?_, ?_, ?_, ?_⟩
  · simp only [Js.approveEverIx, TP.Client.approveEverIx, bind_ok, arg_ok]; reads
  · simp only [Js.approveSolIx, TP.Client.approveSolIx, bind_ok, arg_ok]
  · simp only [Js.withdrawEverFeeIx, TP.Client.withdrawEverFeeIx, bind_ok, arg_ok]; reads
  · simp only [Js.withdrawSolFeeIx, TP.Client.withdrawSolFeeIx, bind_ok, arg_ok]
  · simp only [Js.withdrawMultiVaultIx, TP.Client.withdrawMultiVaultIx, bind_ok, arg_ok]

/-- C61: bounties, proxy accounts and closing. -/
theorem C61_rest :
    (Js.changeBountyIx env tx aS wS n = .ok ix ↔
      ∃ a, tx.pubkey aS = some a ∧ ∃ k, tx.pubkey wS = some k ∧ TP.Client.changeBountyIx env a k n = .ok ix) ∧
    (Js.withdrawProxyIx env tx aS rS mS n = .ok ix ↔
      ∃ a, tx.pubkey aS = some a ∧ ∃ r, tx.pubkey rS = some r ∧ ∃ m, tx.pubkey mS = some m ∧ TP.Client.withdrawProxyIx env a r m n = .ok ix) ∧
    (Js.closeDepositIx env tx aS wS = .ok ix ↔
      ∃ a, tx.pubkey aS = some a ∧ ∃ k, tx.pubkey wS = some k ∧ TP.Client.closeDepositIx env a k = .ok ix) ∧
    (Js.closeWithdrawalIx env tx wS aS = .ok ix ↔
      ∃ k, tx.pubkey wS = some k ∧ ∃ a, tx.pubkey aS = some a ∧ TP.Client.closeWithdrawalIx env k a = .ok ix) := by
  refine ⟨?_, ?_, ?_, ?_⟩
  · simp only [Js.changeBountyIx, TP.Client.changeBountyIx, bind_ok, arg_ok]
  · simp only [Js.withdrawProxyIx, TP.Client.withdrawProxyIx, bind_ok, arg_ok]; reads
  · simp only [Js.closeDepositIx, TP.Client.closeDepositIx, bind_ok, arg_ok]
  · simp only [Js.closeWithdrawalIx, TP.Client.closeWithdrawalIx, bind_ok, arg_ok]

end Admin

/-! ## The round loader -/

section Rounds
variable {fS aS pS sS : Bytes} {n m l : U32}

/-- C61: the functions of the package of the round loader. -/
theorem C61_rounds {n' m' l' : Option U32} {oS : Option Bytes} {rs : List Bytes} :
    (Js.rlInitializeIx env tx fS aS n sS m l = .ok ix ↔
      ∃ f, tx.pubkey fS = some f ∧ ∃ a, tx.pubkey aS = some a ∧ ∃ s, tx.pubkey sS = some s ∧ RL.Client.initializeIx env f a n s m l = .ok ix) ∧
    (Js.rlUpdateSettingsIx env tx aS n' oS m' l' = .ok ix ↔
      ∃ a, tx.pubkey aS = some a ∧ ∃ s, Js.OptText tx oS s ∧ RL.Client.updateSettingsIx env a n' s m' l' = .ok ix) ∧
    (Js.rlCreateRelayRoundIx env tx fS aS n m rs = .ok ix ↔
      ∃ f, tx.pubkey fS = some f ∧ ∃ a, tx.pubkey aS = some a ∧ ∃ ks, Js.KeyTexts tx rs ks ∧ RL.Client.createRelayRoundIx env f a n m ks = .ok ix) ∧
    (Js.rlExecuteIx env tx fS pS n = .ok ix ↔
      ∃ f, tx.pubkey fS = some f ∧ ∃ p, tx.pubkey pS = some p ∧ RL.Client.executeIx env f p n = .ok ix) ∧
    (Js.rlExecuteByAdminIx env tx fS aS pS n = .ok ix ↔
      ∃ f, tx.pubkey fS = some f ∧ ∃ a, tx.pubkey aS = some a ∧ ∃ p, tx.pubkey pS = some p ∧ RL.Client.executeByAdminIx env f a p n = .ok ix) := by
  refine ⟨?_, ?_, ?_, ?_, ?_⟩
  · simp only [Js.rlInitializeIx, RL.Client.initializeIx, bind_ok, arg_ok]
  · simp only [Js.rlUpdateSettingsIx, RL.Client.updateSettingsIx, bind_ok, arg_ok, opt_ok]; reads
  · simp only [Js.rlCreateRelayRoundIx, RL.Client.createRelayRoundIx, bind_ok, arg_ok, keys_ok]; reads
  · simp only [Js.rlExecuteIx, RL.Client.executeIx, bind_ok, arg_ok]
  · simp only [Js.rlExecuteByAdminIx, RL.Client.executeByAdminIx, bind_ok, arg_ok]

end Rounds

/-! ## Addresses -/

/-- C61: the addresses the package tells are those the instructions use. -/
theorem C61_addresses {n ts : U32} {lt : U64} {cS mS tS rS nS pS name symbol : Bytes} {d : U8} {k : Pubkey} :
    (Js.proposalSolAddr env tx n ts lt cS mS rS nS pS = .ok k ↔
      ∃ r, tx.pubkey rS = some r ∧ ∃ c, tx.pubkey cS = some c ∧ ∃ a, Js.parseU128 nS = some a ∧ ∃ m, tx.pubkey mS = some m ∧ ∃ p, tx.base64 pS = some p ∧
        wSolEventC.wf ⟨m, a, r, p⟩ = true ∧
        IsAddr env env.tpId (proposalSeeds n ⟨ts, lt, c⟩ (env.hash (wSolEventC.enc ⟨m, a, r, p⟩))) k) ∧
    (Js.proposalEverAddr env tx n ts lt cS tS rS nS name symbol d pS = .ok k ↔
      ∃ r, tx.pubkey rS = some r ∧ ∃ c, tx.pubkey cS = some c ∧ ∃ a, Js.parseU128 nS = some a ∧ ∃ t, EverAddress.parse tS = some t ∧ ∃ p, tx.base64 pS = some p ∧
        wEverEventC.wf ⟨t, name, symbol, d, a, r, p⟩ = true ∧
        IsAddr env env.tpId (proposalSeeds n ⟨ts, lt, c⟩ (env.hash (wEverEventC.enc ⟨t, name, symbol, d, a, r, p⟩))) k) ∧
    (Js.mintAddr env tS = .ok k ↔ ∃ t, EverAddress.parse tS = some t ∧ IsAddr env env.tpId (mintSeeds env t) k) ∧
    (Js.proxyAddr env tx mS rS = .ok k ↔ ∃ r, tx.pubkey rS = some r ∧ ∃ m, tx.pubkey mS = some m ∧ IsAddr env env.tpId (proxySeeds m r) k) := by
  simp only [Js.proposalSolAddr, Js.proposalEverAddr, Js.mintAddr, Js.proxyAddr, TP.Client.withdrawalSolAddr, TP.Client.withdrawalEverAddr,
    TP.Client.mintAddr, TP.Client.proxyAddr, bind_ok, arg_ok, addrOf_ok, IsAddr, packed_ok, and_assoc, exists_and_left,
    exists_eq_left]
  exact ⟨trivial, trivial, trivial, trivial⟩

/-! ## The emergency mode of a token -/

section Stop
variable {aS tS : Bytes} {b : Bool} {kt ks : Pubkey}

private theorem swapped {ctx : Ctx} {a ks kt : Pubkey} {l : List Pubkey} (hp : ctx.program = env.tpId) (hc : ctx.accounts = a :: ks :: kt :: l)
    (hks : TP.Client.settingsAddr env = .ok ks) (hne : kt ≠ ks) {w' : World} : TP.run env ctx cpi .enableTokenEmergencyMode w ≠ .ok w' := by
  intro h
  simp only [TP.run, processEnableTokenEmergency, bind_ok, acct_ok, hc] at h
  obtain ⟨a, h0, k1, h1, k2, h2, _, -, ⟨s, pn⟩, hs, -⟩ := h
  cases h2
  obtain ⟨-, -, n, -, hf⟩ := loadSettings_ok.mp hs
  simp only [TP.Client.settingsAddr, addrOf_ok] at hks
  obtain ⟨n', hf'⟩ := hks
  rw [hp, hf'] at hf
  cases hf
  exact hne rfl

/-- C61 fails: the package cannot stop a token. Both functions name the settings and the token settings in the wrong order, and whatever the state of
the chain and whoever signs, the program rejects the instruction. (The two addresses, derived from different seeds, are assumed to differ.) -/
theorem C61_cannot_stop_token (hks : TP.Client.settingsAddr env = .ok ks) (hkt : Js.SettingsText env tx tS b kt) (hne : kt ≠ ks)
    (h : Js.enableTokenEmergencyIx env tx aS tS b = .ok ix ∨ Js.enableTokenEmergencyByOwnerIx env tx aS tS b = .ok ix) :
    ¬ Accepted env cpi now w ix := by
  rintro ⟨w', hw⟩
  rcases h with h | h
  · simp only [Js.enableTokenEmergencyIx, bind_ok, arg_ok, packed_ok, settings_ok, Except.ok.injEq] at h
    obtain ⟨ks', hks', kt', hkt', a, -, _, ⟨hwf, rfl⟩, rfl⟩ := h
    rw [hks] at hks'; cases hks'
    rw [process_enc hwf] at hw
    exact swapped rfl rfl hks (fun e => hne (by rw [← e]; exact hkt.unique hkt')) hw
  · simp only [Js.enableTokenEmergencyByOwnerIx, bind_ok, arg_ok, packed_ok, settings_ok, Except.ok.injEq] at h
    obtain ⟨ks', hks', kt', hkt', pd, -, a, -, _, ⟨hwf, rfl⟩, rfl⟩ := h
    rw [hks] at hks'; cases hks'
    rw [process_enc hwf] at hw
    exact swapped rfl rfl hks (fun e => hne (by rw [← e]; exact hkt.unique hkt')) hw

/-- C61 fails: the package cannot resume a token either. The function leaves out the settings. -/
theorem C61_cannot_resume_token (h : Js.disableTokenEmergencyIx env tx aS tS b = .ok ix) : ¬ Accepted env cpi now w ix := by
  rintro ⟨w', hw⟩
  simp only [Js.disableTokenEmergencyIx, bind_ok, arg_ok, packed_ok, Except.ok.injEq] at h
  obtain ⟨kt', -, pd, -, a, -, _, ⟨hwf, rfl⟩, rfl⟩ := h
  rw [process_enc hwf] at hw
  simp only [TP.run, processDisableTokenEmergency, bind_ok, acct_ok] at hw
  obtain ⟨_, -, _, -, _, -, _, h3, -⟩ := hw
  cases h3

end Stop

/-! ## Limits, for the manager -/

private theorem limit_ix {i : TP.Instr} {f : TokenSettings → TokenSettings} {ks kt : Pubkey} {s : Settings} {t : TokenSettings}
    (hs : TP.Ready env w ks s) (ht : TokenReady env w kt t)
    (hrun : ∀ ctx, TP.run env ctx cpi i w = (do
      let authority ← acct ctx 0
      let tokenSettings ← acct ctx 1
      let settings ← acct ctx 2
      require (ctx.isSigner authority = true) .missingRequiredSignature
      let (s, pd) ← loadSettings env ctx settings w
      authorize env ctx s.manager authority pd 3 w
      let ts ← loadToken env ctx tokenSettings w
      putToken ctx (f ts) tokenSettings w))
    (hf : ∀ t, (f t).accountKind = t.accountKind ∧ (f t).kind = t.kind ∧ (f t).name = t.name ∧ (f t).symbol = t.symbol)
    (h : TP.Client.tokenOwnerIx env i s.manager kt = .ok ix) : Accepted env cpi now w ix := by
  obtain ⟨n, pn, pd0, hk, hsn, hpn⟩ := hs.addr
  simp only [TP.Client.tokenOwnerIx, TP.Client.settingsAddr, bind_ok, addrOf_ok, packed_ok, Except.ok.injEq] at h
  obtain ⟨ks', ⟨ns', hks'⟩, pd, -, _, ⟨hwf, rfl⟩, rfl⟩ := h
  rw [hsn] at hks'; cases hks'
  unfold Accepted
  rw [process_enc hwf]
  generalize hc : Ix.ctx _ now = ctx
  have hprog : ctx.program = env.tpId := by rw [← hc]; rfl
  obtain ⟨pn', pd', hl, hd⟩ := loadSettings_live hprog hs
  obtain ⟨f1, f2, f3, f4⟩ := hf t
  obtain ⟨w1, h1, -⟩ := putToken_live (w := w) (t' := f t) hprog ht.here (by rw [← hc]; built) f1 f2 f3 f4
  refine ⟨w1, ?_⟩
  rw [hrun]
  simp only [bind_ok, acct_ok, require_ok, exists_const, Prod.exists]
  exact ⟨s.manager, by rw [← hc]; rfl, kt, by rw [← hc]; rfl, ks, by rw [← hc]; rfl, by rw [← hc]; built, s, pn', hl, (), authorize_ok.2 (.inl rfl),
    t, loadToken_live hprog ht, h1⟩

/-- C61: what the package builds to change the limits of a token is accepted from the manager as well as from the upgrade authority. -/
theorem C61_limits {aS tS : Bytes} {b : Bool} {a ks kt : Pubkey} {s : Settings} {t : TokenSettings} (hs : TP.Ready env w ks s)
    (ht : TokenReady env w kt t) (hkt : Js.SettingsText env tx tS b kt) (ha : tx.pubkey aS = some a)
    (hwho : a = s.manager ∨ ∃ pd, Upgrades env w env.tpId pd a) :
    (∀ n, Js.changeDepositLimitIx env tx aS tS b n = .ok ix → Accepted env cpi now w ix) ∧
    (∀ m n, Js.changeWithdrawalLimitsIx env tx aS tS b m n = .ok ix → Accepted env cpi now w ix) := by
  constructor
  · intro n h
    obtain ⟨a', ha', kt', hkt', h⟩ := (C61_token (m := 0) (d := 0) (fS := []) (l1 := none) (l2 := none) (y := []) (nm := [])).1.1 h
    rw [ha] at ha'; cases ha'
    cases hkt.unique hkt'
    rcases hwho with rfl | ⟨pd, hu⟩
    · exact limit_ix (f := fun ts => { ts with depositLimit := n }) hs ht (fun _ => rfl) (fun _ => ⟨rfl, rfl, rfl, rfl⟩) h
    · exact ((C52_tp_token hs ht).2.2.2.2 pd a hu).1 n h
  · intro m n h
    obtain ⟨a', ha', kt', hkt', h⟩ := (C61_token (n := 0) (m := 0) (d := 0) (fS := []) (y := []) (nm := [])).2.1.1 h
    rw [ha] at ha'; cases ha'
    cases hkt.unique hkt'
    rcases hwho with rfl | ⟨pd, hu⟩
    · exact limit_ix (f := fun t => { t with withdrawalLimit := m.getD t.withdrawalLimit, withdrawalDailyLimit := n.getD t.withdrawalDailyLimit })
        hs ht (fun _ => rfl) (fun _ => ⟨rfl, rfl, rfl, rfl⟩) h
    · exact ((C52_tp_token hs ht).2.2.2.2 pd a hu).2.1 m n h

/-! ## On the toy chain -/

/-- Decimal texts stand for addresses and seeds. -/
private def toyText : Js.Text where
  pubkey s := (Js.parseU128 s).map (·.setWidth 256)
  base64 s := some s
  uuid := Js.parseU128

/-- the guardian, 1010, tries to stop gold, 500: the instruction is built, and rejected -/
example : ∃ ix, Js.enableTokenEmergencyIx Toy.env toyText (ascii "1010") (ascii "500") true = .ok ix ∧
    ¬ Accepted Toy.env noCpi 1000 (Toy.get Toy.tpDeposited) ix := by
  obtain ⟨ix, h⟩ := Toy.ix (r := Js.enableTokenEmergencyIx Toy.env toyText (ascii "1010") (ascii "500") true) (by decide +kernel)
  exact ⟨ix, h, C61_cannot_stop_token (ks := Toy.tpSettings) (kt := Toy.tpGold) (b := true) (tS := ascii "500") (aS := ascii "1010") rfl
    (.inl ⟨rfl, Toy.gold, by decide +kernel, rfl⟩) (Toy.same_ne (by decide +kernel)) (.inl h)⟩

/-- the upgrade authority, 1000, tries to resume gold -/
example : ∃ ix, Js.disableTokenEmergencyIx Toy.env toyText (ascii "1000") (ascii "500") true = .ok ix ∧
    ¬ Accepted Toy.env noCpi 1000 (Toy.get Toy.tpTokEmerg) ix := by
  obtain ⟨ix, h⟩ := Toy.ix (r := Js.disableTokenEmergencyIx Toy.env toyText (ascii "1000") (ascii "500") true) (by decide +kernel)
  exact ⟨ix, h, C61_cannot_resume_token h⟩

/-- the manager, 1011, changes the limit of gold -/
example : ∃ ix, Js.changeDepositLimitIx Toy.env toyText (ascii "1011") (ascii "500") true 5 = .ok ix ∧
    Accepted Toy.env noCpi 1000 (Toy.get Toy.tpDeposited) ix := by
  obtain ⟨ix, h⟩ := Toy.ix (r := Js.changeDepositLimitIx Toy.env toyText (ascii "1011") (ascii "500") true 5) (by decide +kernel)
  obtain ⟨s, hs, hm⟩ := Toy.tp_ready (P := fun s => Toy.same s.manager Toy.manager) (w := Toy.get Toy.tpDeposited) (by decide +kernel)
  obtain ⟨t, ht, -⟩ := Toy.tp_token (P := fun _ => true) (w := Toy.get Toy.tpDeposited) (k := Toy.tpGold) (by decide +kernel)
  exact ⟨ix, h, (C61_limits (tx := toyText) (aS := ascii "1011") (tS := ascii "500") (b := true) (a := Toy.manager) hs ht
    (.inl ⟨rfl, Toy.gold, by decide +kernel, rfl⟩) (by decide +kernel) (.inl (Toy.same_eq hm).symm)).1 _ h⟩

/-- the guardian stops the whole bridge -/
example : ∃ ix, Js.enableEmergencyIx Toy.env toyText (ascii "1010") = .ok ix ∧ Accepted Toy.env noCpi 1000 (Toy.get Toy.tpDeposited) ix := by
  obtain ⟨ix, h⟩ := Toy.ix (r := Js.enableEmergencyIx Toy.env toyText (ascii "1010")) (by decide +kernel)
  obtain ⟨s, hs, hg⟩ := Toy.tp_ready (P := fun s => Toy.same s.guardian Toy.guardian) (w := Toy.get Toy.tpDeposited) (by decide +kernel)
  obtain ⟨a, ha, h'⟩ := (C61_roles (nS := [])).2.2.1.1 h
  have : toyText.pubkey (ascii "1010") = some Toy.guardian := by decide +kernel
  rw [this] at ha; cases ha
  exact ⟨ix, h, (C52_tp_emergency hs).1 (by rw [Toy.same_eq hg]; exact h')⟩

/-- alice deposits gold, with 7 of Everscale's coin for the transfer there -/
example : ∃ ix, Js.depositSolIx Toy.env toyText (ascii "1002") (ascii "1004") (ascii "501") (ascii "500") (ascii "2") (ascii "Gold") (ascii "GLD") 20000
      (ascii "0:0000000000000000000000000000000000000000000000000000000000000011") 7 300 [1] = .ok ix ∧
    ∃ x, Js.Number x 300 ∧ TP.Client.depositSolIx Toy.env Toy.funder Toy.alice Toy.aliceGold Toy.gold 2 (ascii "Gold") (ascii "GLD") 20000
      ⟨0, 0x1100000000000000000000000000000000000000000000000000000000000000⟩ 7 x [1] = .ok ix := by
  obtain ⟨ix, h⟩ := Toy.ix (r := Js.depositSolIx Toy.env toyText (ascii "1002") (ascii "1004") (ascii "501") (ascii "500") (ascii "2") (ascii "Gold")
    (ascii "GLD") 20000 (ascii "0:0000000000000000000000000000000000000000000000000000000000000011") 7 300 [1]) (by decide +kernel)
  obtain ⟨s, hs, f, hf, a, ha, k, hk, m, hm, r, hr, x, hx, p, hp, h'⟩ := C61_depositSol.1 h
  have e1 : toyText.uuid (ascii "2") = some 2 := by decide +kernel
  have e2 : toyText.pubkey (ascii "1002") = some Toy.funder := by decide +kernel
  have e3 : toyText.pubkey (ascii "1004") = some Toy.alice := by decide +kernel
  have e4 : toyText.pubkey (ascii "501") = some Toy.aliceGold := by decide +kernel
  have e5 : toyText.pubkey (ascii "500") = some Toy.gold := by decide +kernel
  have e6 : EverAddress.parse (ascii "0:0000000000000000000000000000000000000000000000000000000000000011") =
      some ⟨0, 0x1100000000000000000000000000000000000000000000000000000000000000⟩ := by decide +kernel
  have e7 : toyText.base64 [1] = some [1] := rfl
  rw [e1] at hs; rw [e2] at hf; rw [e3] at ha; rw [e4] at hk; rw [e5] at hm; rw [e6] at hr; rw [e7] at hp
  cases hs; cases hf; cases ha; cases hk; cases hm; cases hr; cases hp
  exact ⟨ix, h, x, hx, h'⟩

/-- twelve hundred -/
example : Js.parseU128 (ascii "1200") = some 1200 := by decide +kernel

end Verif.Props
