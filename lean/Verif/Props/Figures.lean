import Verif.Spec.Figures
import Verif.Props.Wire
import Verif.Props.Rounds
import Verif.Props.Arith
import Verif.Lemmas.TPBack
import Verif.Lemmas.TPDep
import Verif.Lemmas.WFx
import Verif.Spec.ToyReachTP
/-!
# C84: figures
-/
namespace Verif.Props
open Verif TP

variable {env : Env} {ctx : Ctx} {L : Pubkey → Prop} {w w' w0 : World}

theorem standard_fresh (n m : U8) (kind : TokenKind) (name symbol : Bytes) : Standard (freshTokenSettings n m kind name symbol) :=
  ⟨rfl, rfl, rfl, rfl, BitVec.toNat_allOnes, BitVec.toNat_allOnes, BitVec.toNat_allOnes, rfl⟩

theorem standard_same {t t' : TokenSettings} (h : SameConfig t t') (hs : Standard t) : Standard t' := by
  obtain ⟨-, -, -, h4, h5, h6, h7, h8, h9⟩ := h
  refine ⟨?_, ?_, ?_, ?_, ?_, ?_, ?_, ?_⟩
  · rw [h8]; exact hs.1
  · rw [h8]; exact hs.2
  · rw [h9]; exact hs.3
  · rw [h9]; exact hs.4
  · rw [h4]; exact hs.5
  · rw [h5]; exact hs.6
  · rw [h6]; exact hs.7
  · rw [h7]; exact hs.8

/-- C84: whenever in the course of a history settings of a token appear, they carry the standard terms, and it is the first deposit of a token of
Solana, with a name and a symbol of at most 32 bytes, or a payout of a token of Everscale that makes them appear. -/
theorem C84_new_token {e : Ev} {top : Bool} {tr : List Ev} {k : Pubkey} {t : TokenSettings} (hd : env.Distinct) (hr : Run env L top w0 tr w)
    (he : e ∈ tr) (ht : TokenAt env e.post k t) (hn : ∀ t0, ¬ TokenAt env e.pre k t0) :
    Standard t ∧ ∃ ctx i, e.act = .tp ctx i ∧
      (i = .withdrawMultiTokenEver ∨
        ∃ sd name symbol a rc v ev py, i = .depositMultiTokenSol sd name symbol a rc v ev py ∧ name.length ≤ 32 ∧ symbol.length ≤ 32 ∧
          t.name = name ∧ t.symbol = symbol) := by
  rcases token_back hd (hr.evs hd e he) ht with h | ⟨ctx, i, hact, -, -, ⟨t0, h0, -⟩ | hf⟩
  · exact absurd h (hn t)
  · exact absurd h0 (hn t0)
  · cases hf with
    | sol sd nm y a rc v e p mint vault n vn hn hy ha hv hs h7 hl =>
      exact ⟨standard_same hs (standard_fresh _ _ _ _ _), ctx, _, hact, .inr ⟨_, _, _, _, _, _, _, _, rfl, hn, hy, hs.name, hs.symbol⟩⟩
    | ever kw r mint n mn hr ha hm hs h3 hl => exact ⟨standard_same hs (standard_fresh _ _ _ _ _), ctx, _, hact, .inl rfl⟩

/-- C84: the first deposit of a token of Solana is charged the standard fee. -/
theorem C84_first_deposit {cpi : Pubkey → World → Except Err World} {sd : U128} {name symbol : Bytes} {a v : U64} {rc : EverAddress} {ev : Pubkey}
    {py : Bytes} {kt : Pubkey} (h : run env ctx cpi (.depositMultiTokenSol sd name symbol a rc v ev py) w = .ok w') (h7 : ctx.accounts[7]? = some kt)
    (hnew : (w.acc kt).lamports = 0) :
    ∃ mint vault t, ctx.accounts[5]? = some mint ∧ ctx.accounts[3]? = some vault ∧ Holds tokenSettingsC recLen (w'.acc kt) t ∧ Standard t ∧
      t.kind = .solana mint vault ∧ t.name = name ∧ t.symbol = symbol ∧ t.feeSupply.toNat = standardFee a.toNat ∧
      ∃ kd au e, ctx.accounts[4]? = some kd ∧ ctx.accounts[1]? = some au ∧ DepositMade depositSolEventC env ctx w w' kd au sd e ∧
        e.amount.toNat + standardFee a.toNat = a.toNat := by
  obtain ⟨f, cr, ct, kv, dp, mi, mv, kt', w1, t, tm, tv, m, t', fee, net, -, a1, -, a3, a4, a5, -, a7, -, -, -, hor, -, hto, htk, -,
    -, hm, -, -, -, hfee, hnet, -, -, -, hdep, ht2, hteq, hfs, -⟩ := depositSol_fx h
  rw [h7] at a7
  cases a7
  rcases hor with ⟨-, hl⟩ | ⟨-, hdp, -⟩
  · exact absurd hnew hl
  obtain ⟨n, n2, hh⟩ := hdp.token
  obtain rfl := hto.2.1.unique hh
  have hf : fee.toNat = standardFee a.toNat := by
    have := (C20_fee_value _ _ _).1 hfee
    simp only [feeSpec] at this
    exact (Option.some.inj this).symm
  refine ⟨mi, kv, t', a5, a3, ht2, ?_, ?_, ?_, ?_, ?_, dp, cr, _, a4, a1, hdep, ?_⟩
  · rw [hteq]; exact ⟨rfl, rfl, rfl, rfl, BitVec.toNat_allOnes, BitVec.toNat_allOnes, BitVec.toNat_allOnes, rfl⟩
  · rw [hteq]; rfl
  · rw [hteq]; rfl
  · rw [hteq]; rfl
  · rw [hfs, hf]; exact Nat.zero_add _
  · rw [← hf, ← hnet]
    simp only [BitVec.toNat_setWidth]
    rw [Nat.mod_eq_of_lt (by have := net.isLt; omega)]

/-- 50000 gold on the toy chain: a fee of 25. -/
example : (∃ t, Holds tokenSettingsC recLen ((Toy.get Toy.tpDeposited).acc Toy.tpGold) t ∧ Standard t ∧ t.feeSupply.toNat = 25) ∧
    TP.run Toy.env (Toy.depCtx 1) noCpi (.depositMultiTokenSol 1 (ascii "Gold") (ascii "GLD") 50000 Toy.home 7 0 []) (Toy.get Toy.tpInit) =
      .ok (Toy.get Toy.tpDeposited) := by
  have hrun : TP.run Toy.env (Toy.depCtx 1) noCpi (.depositMultiTokenSol 1 (ascii "Gold") (ascii "GLD") 50000 Toy.home 7 0 []) (Toy.get Toy.tpInit) =
      .ok (Toy.get Toy.tpDeposited) :=
    Toy.get_tp (a := Toy.tpInit) (c := Toy.depCtx 1) (i := .depositMultiTokenSol 1 (ascii "Gold") (ascii "GLD") 50000 Toy.home 7 0 []) (by decide +kernel)
  have h0 : ((Toy.get Toy.tpInit).acc Toy.tpGold).lamports = 0 := by decide +kernel
  obtain ⟨-, -, t, -, -, h1, h2, -, -, -, h3, -⟩ := C84_first_deposit hrun rfl h0
  have h4 : standardFee (50000#64).toNat = 25 := by decide +kernel
  exact ⟨⟨t, h1, h2, h3.trans h4⟩, hrun⟩

/-- C84: deposits and requests with names or symbols of more than 32 bytes are refused. -/
theorem C84_names (name symbol : Bytes) (hlong : 32 < name.length ∨ 32 < symbol.length) :
    (∀ cpi sd a rc v ev py w', run env ctx cpi (.depositMultiTokenSol sd name symbol a rc v ev py) w ≠ .ok w') ∧
    (∀ cpi pda t d r a py att w', run env ctx cpi (.withdrawMultiTokenEverRequest pda t name symbol d r a py att) w ≠ .ok w') := by
  constructor
  · intro cpi sd a rc v ev py w' h
    obtain ⟨f, cr, ct, kv, dp, mi, mv, kt', w1, t, tm, tv, m, t', fee, net, -, a1, -, a3, a4, a5, -, a7, -, h1, h2, -⟩ := depositSol_fx h
    omega
  · intro cpi pda t d r a py att w' h
    simp only [run, processEverRequest, bind_ok, acct_ok, sysvar_ok, require_ok, exists_const, Prod.exists] at h
    obtain ⟨f, hf, au, hau, kw, hkw, ks, hks, kr, hkr, sy, hsy, rent, -, -, clock, -, -, hsig, hn, hy, -⟩ := h
    simp only [maxNameLen] at hn hy
    omega

/-- C84: no relay round has more than 100 relays, so a longer list is refused. -/
theorem C84_relays :
    (∀ (a : Account) (r : RL.RelayRound), Holds RL.relayRoundC RL.relayRoundLen a r → r.relays.length ≤ 100) ∧
    (∀ num relays e w', 100 < relays.length → RL.run env ctx (.createRelayRound num relays e) w ≠ .ok w') := by
  have key : ∀ (a : Account) (r : RL.RelayRound), Holds RL.relayRoundC RL.relayRoundLen a r → r.relays.length ≤ 100 := by
    intro a r h
    have hl := begins_le (((C82_round_loader_records a).2.1 r).1 h)
    rw [← wire_relayRound] at hl
    simp only [RL.relayRoundC, Codec.enc_iso, Codec.enc_pair, List.length_append, len_vec_key] at hl
    have h1 : (Codec.bool.enc r.isInitialized).length = 1 := by cases r.isInitialized <;> rfl
    have h2 : 2 ≤ (AccountKind.codec.enc r.accountKind).length := by
      rw [wire_kind]
      cases r.accountKind <;> simp [Wire.kind]
    have h3 : ∀ x : U32, (Codec.u32.enc x).length = 4 := fun x => by rw [wire_u32]; simp [Wire.num]
    rw [h1, h3, h3] at hl
    omega
  refine ⟨key, fun num relays e w' hlen h => ?_⟩
  obtain ⟨ks, kr, s, n, -, -, -, -, -, -, -, -, hh, -⟩ := C02_create_round h
  have := key _ _ hh
  simp only at this
  omega

example : ∃ r, Holds RL.relayRoundC RL.relayRoundLen ((Toy.get Toy.rlRound1).acc (Toy.rlRound 1)) r ∧ r.relays.length = 3 := by
  obtain ⟨r, -, hr, hP⟩ := Toy.find (c := RL.relayRoundC) (len := RL.relayRoundLen) (w := Toy.get Toy.rlRound1) (k := Toy.rlRound 1)
    (P := fun r => Nat.beq r.relays.length 3) (by decide +kernel)
  exact ⟨r, hr, Nat.eq_of_beq_eq_true hP⟩

end Verif.Props
