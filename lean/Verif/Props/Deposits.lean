import Verif.Spec.ToyTactic
import Verif.Lemmas.VaultOf
import Verif.Lemmas.TPFill
import Verif.Props.Arith
import Verif.Spec.ToyDep
import Verif.Spec.ToyReachW
/-!
# Transfers to Everscale
-/
set_option maxRecDepth 100000
namespace Verif.Props
open Verif TP

variable {env : Env} {L : Pubkey → Prop} {ctx : Ctx} {cpi : Pubkey → World → Except Err World} {w w' w0 : World}

/-! ## C30: a deposit locks what it records -/

/-- C30, partial: if the vault `kv` and the mint `mi` given to a deposit of a token of Solana are those of the settings `kt` given to it, then
`kv` is the bridge's vault for `mi`, and exactly the deposited amount of `mi` moves into it, from an account `ct` the signer `cr` may spend
from. Missing: the program accepts accounts that do not belong together, see `C30_fake`. The key `kv` must be one nobody holds, and for wrapped SOL
the vault must have lamports. -/
theorem C30_locks_partial {tr : List Ev} {sd : U128} {name symbol : Bytes} {a v : U64} {rc : EverAddress} {ev : Pubkey} {py : Bytes}
    {cr ct kv mi kt : Pubkey} {t : TokenSettings} (hd : env.Distinct) (hg : Genesis env L w0) (hr : Run env L true w0 tr w)
    (hp : ctx.program = env.tpId) (hs : ∀ k ∈ ctx.signers, ¬ L k)
    (h : run env ctx noCpi (.depositMultiTokenSol sd name symbol a rc v ev py) w = .ok w')
    (h1 : ctx.accounts[1]? = some cr) (h2 : ctx.accounts[2]? = some ct) (h3 : ctx.accounts[3]? = some kv) (h5 : ctx.accounts[5]? = some mi)
    (h7 : ctx.accounts[7]? = some kt) (ht : TokenAt env w' kt t) (hk : t.kind = .solana mi kv) (hL : L kv)
    (hn : mi ≠ env.nativeMint ∨ (0 < env.rent 165 ∧ Funded env kv tr)) :
    VaultOf env w' mi kv ∧ IsToken env w ct mi ∧ ctx.isSigner cr = true ∧
      (∃ s s', (w.acc ct).data = .token s ∧ spendAuth s cr a = .ok s') ∧ ct ≠ kv ∧ Moves ct kv a.toNat w w' ∧
      bal w' kv = bal w kv + a.toNat := by
  have hr' : Run env L true w0 (tr ++ [⟨.tp ctx _, w, w'⟩]) w' := .tp _ _ hr hp hs h
  have hn' : mi ≠ env.nativeMint ∨ Funded env kv (tr ++ [⟨.tp ctx (.depositMultiTokenSol sd name symbol a rc v ev py), w, w'⟩]) := by
    refine hn.imp id fun ⟨_, hf⟩ e he => ?_
    rcases List.mem_append.1 he with he | he
    · exact hf e he
    · rw [List.mem_singleton.1 he]; intro x; cases x
  obtain ⟨hv', -⟩ := hr'.vault hd hg ht hk hL hn'
  obtain ⟨f, cr', ct', kv', dp, mi', mv, kt', w1, t1, tm, tv, m, t2, fee, net, -, a1, a2, a3, -, a5, -, a7, hsig, -, -, hor, -, hto, htk, -,
    -, -, -, -, -, -, -, hmv, ⟨m', ic, iv⟩, ⟨s, s', hsd, hsp⟩, -, ht2, hteq, -⟩ := depositSol_fx h
  rw [h1] at a1; rw [h2] at a2; rw [h3] at a3; rw [h5] at a5; rw [h7] at a7
  cases a1; cases a2; cases a3; cases a5; cases a7
  have hcr : ¬ L cr := by
    have := hsig
    simp only [Ctx.isSigner, Bool.and_eq_true] at this
    first | exact hs _ (by simpa using this.2) | exact hs _ this.2
  -- the vault in `w1`
  have hv1 : ∃ x, (w1.acc kv).data = .token x ∧ x.mint = mi ∧ x.owner = kv ∧ x.delegate = none := by
    rcases hor with ⟨rfl, hl⟩ | ⟨-, hdp, -⟩
    · obtain ⟨t0, h0, hk0⟩ : ∃ t0, TokenAt env w1 kt t0 ∧ t0.kind = .solana mi kv := by
        have := hr'.evs hd _ (List.mem_append_right _ (List.mem_singleton.2 rfl))
        rcases token_back hd this ht with h0 | ⟨c', i', hact, -, -, ⟨t0, h0, hc⟩ | hf⟩
        · exact ⟨t, h0, hk⟩
        · exact ⟨t0, h0, hc.kinds.2.2.symm.trans hk⟩
        · simp only [Act.tp.injEq] at hact
          obtain ⟨rfl, rfl⟩ := hact
          cases hf with
          | sol _ _ _ _ _ _ _ _ _ _ _ _ _ _ _ _ _ h7' hl' => rw [h7] at h7'; cases h7'; exact (hl hl').elim
      obtain ⟨⟨-, hgv⟩, -⟩ := hr.vault hd hg h0 hk0 hL (hn.imp id (·.2))
      obtain ⟨x, hx, e1, e2, e3, -⟩ := hgv.data
      exact ⟨x, hx, e1, e2, e3⟩
    · obtain ⟨x, hx, -⟩ := hdp.vault
      exact ⟨_, hx, rfl, rfl, rfl⟩
  obtain ⟨x, hx, e1, e2, e3⟩ := hv1
  have em : m' = mi := by
    obtain ⟨-, y, hy, rfl⟩ := iv
    rw [hx] at hy; cases hy; exact e1
  subst em
  have hne : ct ≠ kv := by
    rintro rfl
    rw [hx] at hsd; cases hsd
    obtain ⟨-, e4⟩ := spendAuth_owner e3 hsp
    rw [e2] at e4; exact hcr (e4 ▸ hL)
  have key : IsToken env w ct m' ∧ (∃ s s', (w.acc ct).data = .token s ∧ spendAuth s cr a = .ok s') ∧ Moves ct kv a.toNat w w' := by
    rcases hor with ⟨rfl, hl⟩ | ⟨-, hdp, hnt⟩
    · exact ⟨ic, ⟨s, s', hsd, hsp⟩, hmv⟩
    · have hkt : ct ≠ kt := by
        rintro rfl
        obtain ⟨n1, n2, hh⟩ := hdp.token
        obtain ⟨b, r, hb, -⟩ := hh
        rw [hsd] at hb; cases hb
      obtain ⟨q1, q2⟩ := hdp.rest ct hne hkt
      refine ⟨?_, ⟨s, s', q1 ▸ hsd, hsp⟩, (hmv.pre (hnt (hn.imp id (·.1))))⟩
      obtain ⟨c1, y, c2, c3⟩ := ic
      exact ⟨q2 ▸ c1, y, q1 ▸ c2, c3⟩
  refine ⟨hv', key.1, hsig, key.2.1, hne, key.2.2, ?_⟩
  have := (key.2.2.2 kv).1
  simp only [if_neg (Ne.symm hne), if_true] at this
  omega

theorem toy_gold {a : Except Err World} (h : Toy.tchk tokenSettingsC (fun s => s.isInitialized && (s.accountKind.intoTokenSettings.isSome && match s.kind with
      | .solana m v => Nat.beq m.toNat Toy.gold.toNat && Nat.beq v.toNat Toy.tpVault.toNat
      | _ => false)) (Toy.get a) Toy.tpGold = true) :
    ∃ t, TokenAt Toy.env (Toy.get a) Toy.tpGold t ∧ Live (Toy.get a) Toy.tpGold ∧ t.kind = .solana Toy.gold Toy.tpVault := by
  obtain ⟨t, ht, hl, hk⟩ := Toy.tfind_token h
  refine ⟨t, ht, hl, ?_⟩
  cases ht : t.kind with
  | solana m v =>
    rw [ht] at hk
    simp only [Bool.and_eq_true] at hk
    rw [BitVec.eq_of_toNat_eq (Nat.eq_of_beq_eq_true hk.1), BitVec.eq_of_toNat_eq (Nat.eq_of_beq_eq_true hk.2)]
  | ever => rw [ht] at hk; cases hk

/-- The hypotheses are met by the first deposit of gold, and by a second one. -/
example : bal (Toy.get Toy.tpDeposited) Toy.tpVault = bal (Toy.get Toy.tpInit) Toy.tpVault + 50000 := by
  obtain ⟨w0, tr, hg, hr⟩ := Toy.reach_tpInit
  obtain ⟨t, ht, -, hk⟩ := toy_gold (a := Toy.tpDeposited) ?_
  refine (C30_locks_partial Toy.distinct hg hr (ctx := Toy.depCtx 1) rfl (Toy.free ?_)
    (Toy.get_tp (a := Toy.tpInit) ?_) rfl rfl rfl rfl rfl ht hk (by simp [Toy.L, Toy.locked]) (.inl ?_)).2.2.2.2.2.2
  checked

/-- C30 is false: a deposit of 40000 gold is recorded, while junk moves between two accounts of the depositor; no balance of gold changes. -/
theorem C30_fake : ∃ (env : Env) (L : Pubkey → Prop) (w w' : World) (ctx : Ctx) (dp gold : Pubkey) (d : Deposit DepositSolEvent),
    env.Distinct ∧ Reach env L w ∧ ctx.program = env.tpId ∧ (∀ k ∈ ctx.signers, ¬ L k) ∧
      run env ctx noCpi (.depositMultiTokenSol 12 (ascii "Junk") (ascii "JNK") 40000 Toy.home 7 0 []) w = .ok w' ∧
      ctx.accounts[4]? = some dp ∧ (w'.acc dp).owner = env.tpId ∧ Holds (depositC depositSolEventC) recLen (w'.acc dp) d ∧
      d.isInitialized = true ∧ d.event.baseToken = gold ∧ d.event.amount.toNat = 39980 ∧
      (∃ m, (w.acc gold).data = .mint m) ∧ ∀ k, IsToken env w k gold → bal w' k = bal w k := by
  have hrun : run Toy.env (Toy.trickCtx 12 Toy.junk1 Toy.junk2 Toy.gold Toy.tpGold) noCpi
      (.depositMultiTokenSol 12 (ascii "Junk") (ascii "JNK") 40000 Toy.home 7 0 []) (Toy.get Toy.tpDeposited) = .ok (Toy.get Toy.tpFake) :=
    Toy.get_tp (a := Toy.tpDeposited) (by decide +kernel)
  obtain ⟨d, ho, -, hd, hP⟩ := Toy.tfind (c := depositC depositSolEventC) (w := Toy.get Toy.tpFake) (k := Toy.tpDep 12)
    (P := fun d => d.isInitialized && (Nat.beq d.event.baseToken.toNat Toy.gold.toNat && Nat.beq d.event.amount.toNat 39980)) (by decide +kernel)
  simp only [Bool.and_eq_true] at hP
  have hmint : (match ((Toy.get Toy.tpDeposited).acc Toy.junk1).data with | .token t => Nat.beq t.mint.toNat Toy.junk.toNat | _ => false) = true := by
    decide +kernel
  have hm2 : (match ((Toy.get Toy.tpDeposited).acc Toy.junk2).data with | .token t => Nat.beq t.mint.toNat Toy.junk.toNat | _ => false) = true := by
    decide +kernel
  have hg : (match ((Toy.get Toy.tpDeposited).acc Toy.gold).data with | .mint _ => true | _ => false) = true := by decide +kernel
  have hex : Nat.beq ((Toy.get Toy.tpDeposited).acc Toy.tpGold).lamports 0 = false := by decide +kernel
  obtain ⟨f, cr', ct, kv, dp, mi, mv, kt, w1, t1, tm, tv, m, t2, fee, net, -, a1, a2, a3, -, a5, -, a7, -, -, -, hor, -, hto, htk, -,
    -, -, -, -, -, -, -, hmv, -⟩ := depositSol_fx hrun
  cases a2; cases a3; cases a5; cases a7
  have ew : w1 = Toy.get Toy.tpDeposited := by
    rcases hor with ⟨e, -⟩ | ⟨e, -⟩
    · exact e
    · rw [e] at hex; cases hex
  subst ew
  refine ⟨Toy.env, Toy.L, _, _, _, Toy.tpDep 12, Toy.gold, d, Toy.distinct, Toy.reach_tpDeposited, rfl, Toy.free (by decide +kernel), hrun, rfl, ho, hd,
    hP.1, BitVec.eq_of_toNat_eq (Nat.eq_of_beq_eq_true hP.2.1), Nat.eq_of_beq_eq_true hP.2.2, ?_, fun k hk => ?_⟩
  · split at hg
    · rename_i m hm; exact ⟨m, hm⟩
    · cases hg
  · have hne : ∀ j, (match ((Toy.get Toy.tpDeposited).acc j).data with | .token t => Nat.beq t.mint.toNat Toy.junk.toNat | _ => false) = true → k ≠ j := by
      rintro j hj rfl
      obtain ⟨-, t, ht, e⟩ := hk
      rw [ht] at hj
      simp only [e] at hj
      revert hj; decide +kernel
    have := (hmv.2 k).1
    rw [if_neg (hne _ hmint), if_neg (hne _ hm2)] at this
    omega

/-! ## C31: what a deposit records -/

/-- C31 (tokens of Everscale): a deposit creates, at the address derived from the seed, a record with the values of the instruction, its
signer as author, the token of the settings, and the deposited amount less the fee, converted to the decimals of the token on Everscale. The last
log line carries the same values. -/
theorem C31_record_ever {sd : U128} {a v : U64} {rc : EverAddress} {ev : Pubkey} {py : Bytes}
    (h : run env ctx cpi (.depositMultiTokenEver sd a rc v ev py) w = .ok w') :
    ∃ cr dp mi kt t mk token d m fee net, ∃ credit : U128, ctx.accounts[1]? = some cr ∧ ctx.accounts[3]? = some dp ∧ ctx.accounts[4]? = some mi ∧
      ctx.accounts[6]? = some kt ∧ ctx.isSigner cr = true ∧ TokenOf env ctx w kt t ∧ t.kind = .ever mk token d ∧ (w.acc mi).data = .mint m ∧
      feeSpec t.feeDepositInfo.multiplier.toNat t.feeDepositInfo.divisor.toNat a.toNat = some fee ∧ net + fee = a.toNat ∧
      (d.toNat ≤ m.decimals.toNat + 38 → m.decimals.toNat ≤ d.toNat + 38 → credit.toNat = toEverSpec net d.toNat m.decimals.toNat) ∧
      DepositMade depositEverEventC env ctx w w' dp cr sd ⟨token, credit, rc, v, ev, py⟩ ∧
      w'.logs = w.logs ++ [depositLog env depositEverEventC dp rc credit sd v ev ⟨token, credit, rc, v, ev, py⟩] := by
  obtain ⟨f, cr, ct, dp, mi, mv, kt, t, mk, token, d, m, t', fee, net, tr, -, a1, -, a3, a4, -, a6, hsig, hto, hk, -, -, hm, -, hfee, hnet, htr, -, -, -,
    hdep, -, -, -, -, -, -, hlog, -⟩ := depositEver_fx h
  exact ⟨cr, dp, mi, kt, t, mk, token, d, m, fee.toNat, net.toNat, tr, a1, a3, a4, a6, hsig, hto, hk, hm, (C20_fee_value _ _ _).1 hfee, hnet,
    fun h1 h2 => (C21_deposit_exact net d m.decimals h1 h2 tr).1 htr, hdep, hlog⟩

/-- C31 (tokens of Solana): a deposit creates, at the address derived from the seed, a record with the values of the instruction, its signer
as author, the mint given to the instruction with its decimals, the name and symbol of the settings, and the deposited amount less the fee. The
last log line carries the same values. -/
theorem C31_record_sol {sd : U128} {name symbol : Bytes} {a v : U64} {rc : EverAddress} {ev : Pubkey} {py : Bytes}
    (h : run env ctx cpi (.depositMultiTokenSol sd name symbol a rc v ev py) w = .ok w') :
    ∃ cr dp mi kt t' dec fee, ∃ credit : U128, ctx.accounts[1]? = some cr ∧ ctx.accounts[4]? = some dp ∧ ctx.accounts[5]? = some mi ∧
      ctx.accounts[7]? = some kt ∧ ctx.isSigner cr = true ∧ TokenOf env ctx w' kt t' ∧
      (∃ w1, (w1 = w ∨ ∃ kv, ctx.accounts[3]? = some kv ∧ DeployedSol env ctx mi kv kt name symbol w w1) ∧ ∃ m, (w1.acc mi).data = .mint m ∧ m.decimals = dec) ∧
      feeSpec t'.feeDepositInfo.multiplier.toNat t'.feeDepositInfo.divisor.toNat a.toNat = some fee ∧ credit.toNat + fee = a.toNat ∧
      DepositMade depositSolEventC env ctx w w' dp cr sd ⟨mi, t'.name, t'.symbol, dec, credit, rc, v, ev, py⟩ ∧
      ∃ l, w'.logs = l ++ [depositLog env depositSolEventC dp rc credit sd v ev ⟨mi, t'.name, t'.symbol, dec, credit, rc, v, ev, py⟩] := by
  obtain ⟨f, cr, ct, kv, dp, mi, mv, kt, w1, t, tm, tv, m, t', fee, net, -, a1, a2, a3, a4, a5, -, a7, hsig, -, -, hor, -, hto, htk, -,
    -, hm, -, -, -, hfee, hnet, -, -, -, hdep, ht2, hteq, -, -, -, -, hlog, -⟩ := depositSol_fx h
  have hto' : TokenOf env ctx w' kt t' := by
    refine ⟨?_, ht2, ?_⟩
    · rw [hteq]; exact hto.1
    · rw [hteq]; exact hto.2.2
  have en : t'.name = t.name ∧ t'.symbol = t.symbol ∧ t'.feeDepositInfo = t.feeDepositInfo := by rw [hteq]; exact ⟨rfl, rfl, rfl⟩
  refine ⟨cr, dp, mi, kt, t', m.decimals, fee.toNat, net.setWidth 128, a1, a4, a5, a7, hsig, hto', ⟨w1, ?_, m, hm, rfl⟩, ?_, ?_, ?_, ?_⟩
  · rcases hor with ⟨e, -⟩ | ⟨-, hdp, -⟩
    · exact .inl e
    · exact .inr ⟨kv, a3, hdp⟩
  · rw [en.2.2]; exact (C20_fee_value _ _ _).1 hfee
  · rw [BitVec.toNat_setWidth, Nat.mod_eq_of_lt (Nat.lt_of_lt_of_le net.isLt (by decide))]; exact hnet
  · rw [en.1, en.2.1]; exact hdep
  · exact ⟨w1.logs, by rw [en.1, en.2.1]; exact hlog⟩

/-- The deposit seed of an instruction. -/
def depositSeed : Instr → Option U128
  | .depositMultiTokenEver sd .. => some sd
  | .depositMultiTokenSol sd .. => some sd
  | .cancelWithdrawSol sd .. => some sd
  | .fillWithdrawSol sd .. => some sd
  | _ => none

/-- C31: a seed with a live record cannot be used again: every instruction that records a transfer to Everscale finds the address derived from
its seed unused, and leaves the record of the transfer there. -/
theorem C31_seed_once {i : Instr} {sd : U128} (hi : depositSeed i = some sd) (h : run env ctx cpi i w = .ok w') {k : Pubkey}
    (hk : IsAddr env ctx.program (depositSeeds sd) k) :
    (w.acc k).lamports = 0 ∧ (w.acc k).data.len = 0 ∧ (w'.acc k).owner = ctx.program ∧
      ∃ g, Holds genericDepositC recLen (w'.acc k) g ∧ g.isInitialized = true ∧ g.metaData = Codec.u128.enc sd := by
  have key : ∀ {E : Type} {ec : Codec E} {dp cr : Pubkey} {e : E}, DepositMade ec env ctx w w' dp cr sd e →
      (w.acc k).lamports = 0 ∧ (w.acc k).data.len = 0 ∧ (w'.acc k).owner = ctx.program ∧
      ∃ g, Holds genericDepositC recLen (w'.acc k) g ∧ g.isInitialized = true ∧ g.metaData = Codec.u128.enc sd := by
    intro E ec dp cr e hm
    have : dp = k := hm.addr.unique hk
    subst this
    obtain ⟨n, hn⟩ := hm.generic
    exact ⟨hm.vacant.1, hm.vacant.2, hm.owner, _, hn, rfl, rfl⟩
  cases i <;> simp only [depositSeed, Option.some.injEq, reduceCtorEq] at hi <;> subst hi
  · obtain ⟨f, cr, ct, dp, mi, mv, kt, t, mk, token, d, m, t', fee, net, tr, -, a1, -, a3, a4, -, a6, hsig, hto, hk, -, -, hm, -, hfee, hnet, htr, -, -, -,
      hdep, -⟩ := depositEver_fx h
    exact key hdep
  · obtain ⟨f, cr, ct, kv, dp, mi, mv, kt, w1, t, tm, tv, m, t', fee, net, -, a1, a2, a3, a4, a5, -, a7, hsig, -, -, hor, -, hto, htk, -,
      -, hm, -, -, -, hfee, hnet, -, -, -, hdep, -⟩ := depositSol_fx h
    exact key hdep
  · obtain ⟨f, au, mi, kw, dp, kt, mv, r, t, tv, m, fee, tr, -, -, -, -, -, -, -, -, -, -, -, -, -, -, -, -, -, -, -, -, -, -, hdep, -⟩ := cancel_fx h
    exact key hdep
  · obtain ⟨f, au, at_, mi, dp, kt, mv, t, tm, tv, m, kv, fs, rest, fee, net, -, -, -, -, -, -, -, -, -, -, -, -, -, -, -, -, -, -, -, -, -, -, -, hdep, -⟩ := fill_fx h
    exact key hdep

example : ∃ w', TP.run Toy.env (Toy.depCtx 1) noCpi (.depositMultiTokenSol 1 (ascii "Gold") (ascii "GLD") 50000 Toy.home 7 0 []) (Toy.get Toy.tpInit) = .ok w' :=
  ⟨_, Toy.get_tp (a := Toy.tpInit) (by decide +kernel)⟩

example : ∃ w', TP.run Toy.env (Toy.tctx [Toy.funder, Toy.bob, Toy.bobStar, Toy.tpDep 4, Toy.starMint, Toy.tpMulti, Toy.tpStar, Toy.tpSettings,
      Toy.env.systemId, Toy.env.splId, Toy.env.rentId] [Toy.funder, Toy.bob]) noCpi (.depositMultiTokenEver 4 20000 Toy.home 7 0 []) (Toy.get Toy.tpPaidE) = .ok w' :=
  ⟨_, Toy.get_tp (a := Toy.tpPaidE) (by decide +kernel)⟩

/-! ## C32: deposit limit -/

/-- C32, partial: a deposit of a token of Solana succeeds only if the vault given to it holds, with the deposit, at most the deposit limit of
the settings given to it, and leaves it so. Missing: these may be the settings of another token, see `C32_exceeded`. -/
theorem C32_deposit_partial {sd : U128} {name symbol : Bytes} {a v : U64} {rc : EverAddress} {ev : Pubkey} {py : Bytes}
    (h : run env ctx cpi (.depositMultiTokenSol sd name symbol a rc v ev py) w = .ok w') :
    ∃ kv kt t, ctx.accounts[3]? = some kv ∧ ctx.accounts[7]? = some kt ∧ TokenOf env ctx w' kt t ∧
      bal w kv + a.toNat ≤ t.depositLimit.toNat ∧ bal w' kv ≤ t.depositLimit.toNat ∧
      (∀ t0, Holds tokenSettingsC recLen (w.acc kt) t0 → t.depositLimit = t0.depositLimit) := by
  obtain ⟨f, cr, ct, kv, dp, mi, mv, kt, w1, t, tm, tv, m, t', fee, net, -, a1, a2, a3, a4, a5, -, a7, hsig, -, -, hor, -, hto, htk, -,
    -, hm, -, -, hlim, hfee, hnet, hmv, -, -, hdep, ht2, hteq, -, -, -, -, hlog, -⟩ := depositSol_fx h
  have el : t'.depositLimit = t.depositLimit := by rw [hteq]
  refine ⟨kv, kt, t', a3, a7, ⟨?_, ht2, ?_⟩, ?_, ?_, ?_⟩
  · rw [hteq]; exact hto.1
  · rw [hteq]; exact hto.2.2
  · rw [el]
    rcases hor with ⟨e, -⟩ | ⟨-, hdp, -⟩
    · rw [← e]; exact hlim
    · have : bal w kv = 0 := by
        have hz := hdp.absent.2.2.2
        unfold bal
        cases hx : (w.acc kv).data <;> rw [hx] at hz <;> first | rfl | cases hz
      omega
  · rw [el]
    have := (hmv.2 kv).1
    have h1 := hmv.1
    split at this <;> simp only [if_true] at this <;> omega
  · intro t0 h0
    rcases hor with ⟨e, -⟩ | ⟨-, hdp, -⟩
    · rw [el, hto.2.1.unique (e ▸ h0)]
    · obtain ⟨b, r, hb, hl, -⟩ := h0
      have hz := hdp.absent.2.1
      rw [hb] at hz
      rw [show b.length = 0 from hz] at hl
      cases hl

/-- C32 (fills), partial: a fill leaves at most the deposit limit in the vault. Missing: this holds unless the sum of the withdrawals exceeds 64
bits, see `C41_wraps`. -/
theorem C32_fill_partial {sd : U128} {rc : EverAddress} {a v : U64} {ev : Pubkey} {py : Bytes}
    (h : run env ctx cpi (.fillWithdrawSol sd rc a v ev py) w = .ok w') :
    ∃ kt t mint tv kv, ∃ fs : List Fill, ctx.accounts[7]? = some kt ∧ TokenOf env ctx w kt t ∧ t.kind = .solana mint tv ∧
      IsAddr env ctx.program (vaultSeeds mint) kv ∧ ctx.accounts.drop 11 = (fs.flatMap fun f => [f.kw, f.rt]) ++ [kv] ∧
      (∀ f ∈ fs, WithdrawalOf wSolEventC env ctx w f.kw f.r ∧ f.net + f.fee = f.r.event.amount.toNat) ∧
      (total (fun f => f.fee) fs + total (fun f => f.net) fs < 2 ^ 64 → bal w' kv ≤ t.depositLimit.toNat) := by
  obtain ⟨f, au, at_, mi, dp, kt, mv, t, tm, tv, m, kv, fs, rest, fee, net, -, -, -, -, -, a7, -, hacc, -, hto, hk, -, -, -, -, hva, -, hall, -, -, hlim, -⟩ := fill_fx h
  exact ⟨kt, t, tm, tv, kv, fs, a7, hto, hk, hva, hacc, fun f hf => ⟨(hall f hf).1.withdrawal, (hall f hf).1.net⟩, fun hlt => (hlim hlt).2.2⟩

example : ∃ w', TP.run Toy.env (Toy.fillCtx 3) noCpi (.fillWithdrawSol 3 Toy.home 95000 7 0 []) (Toy.get Toy.tpBounty) = .ok w' :=
  ⟨_, Toy.get_tp (a := Toy.tpBounty) (by decide +kernel)⟩

/-- C32 is false: the deposit limit of gold is 60000; a deposit of 20000 gold that names the settings of another token leaves 70000 in the
vault of gold. -/
theorem C32_exceeded : ∃ (env : Env) (L : Pubkey → Prop) (w w' : World) (ctx : Ctx) (i : Instr) (mint vault kt : Pubkey)
    (t : TokenSettings), env.Distinct ∧ Reach env L w ∧ TokenAt env w kt t ∧ t.kind = .solana mint vault ∧ t.depositLimit.toNat = 60000 ∧
      ctx.program = env.tpId ∧ (∀ k ∈ ctx.signers, ¬ L k) ∧ run env ctx noCpi i w = .ok w' ∧ bal w vault = 50000 ∧ bal w' vault = 70000 := by
  obtain ⟨t, ht, hl, hP⟩ := Toy.tfind_token (w := Toy.get Toy.tpLimJunk) (k := Toy.tpGold)
    (P := fun t => Nat.beq t.depositLimit.toNat 60000 && match t.kind with
      | .solana m v => Nat.beq m.toNat Toy.gold.toNat && Nat.beq v.toNat Toy.tpVault.toNat
      | _ => false) ?_
  simp only [Bool.and_eq_true] at hP
  obtain ⟨he, hk⟩ := hP
  have hkind : t.kind = .solana Toy.gold Toy.tpVault := by
    cases ht : t.kind with
    | solana m v =>
      rw [ht] at hk
      simp only [Bool.and_eq_true] at hk
      rw [BitVec.eq_of_toNat_eq (Nat.eq_of_beq_eq_true hk.1), BitVec.eq_of_toNat_eq (Nat.eq_of_beq_eq_true hk.2)]
    | ever => rw [ht] at hk; cases hk
  obtain b1 : Nat.beq (bal (Toy.get Toy.tpLimJunk) Toy.tpVault) 50000 = true := ?_
  obtain b2 : Nat.beq (bal (Toy.get Toy.tpOver) Toy.tpVault) 70000 = true := ?_
  refine ⟨Toy.env, Toy.L, Toy.get Toy.tpLimJunk, Toy.get Toy.tpOver, _, _, Toy.gold, Toy.tpVault, Toy.tpGold, t, Toy.distinct, Toy.reach_tpLimJunk, ht,
    hkind, Nat.eq_of_beq_eq_true he, rfl, Toy.free (c := Toy.trickCtx 11 Toy.aliceGold Toy.tpVault Toy.gold Toy.tpJunk) ?_,
    Toy.get_tp (a := Toy.tpLimJunk) ?_, Nat.eq_of_beq_eq_true b1, Nat.eq_of_beq_eq_true b2⟩
  checked

/-! ## C53: settings of tokens of Solana -/

/-- C53: the first deposit of a token of Solana creates its settings at the address derived from the mint, with the name and symbol of the
instruction, of at most 32 bytes, no limits, fees of 5/10000 and not in emergency mode. -/
theorem C53_first {sd : U128} {name symbol : Bytes} {a v : U64} {rc : EverAddress} {ev : Pubkey} {py : Bytes} {mi kv kt : Pubkey}
    (h : run env ctx cpi (.depositMultiTokenSol sd name symbol a rc v ev py) w = .ok w') (h3 : ctx.accounts[3]? = some kv)
    (h5 : ctx.accounts[5]? = some mi) (h7 : ctx.accounts[7]? = some kt) (hl : (w.acc kt).lamports = 0) :
    ∃ t n n2, IsAddr env ctx.program (tokenSettingsSolSeeds mi) kt ∧ IsAddr env ctx.program (vaultSeeds mi) kv ∧ (w'.acc kt).owner = ctx.program ∧
      Holds tokenSettingsC recLen (w'.acc kt) t ∧ name.length ≤ 32 ∧ symbol.length ≤ 32 ∧
      t = { isInitialized := true, accountKind := .tokenSettings n n2, kind := .solana mi kv, name := name, symbol := symbol,
            depositLimit := BitVec.allOnes 64, withdrawalLimit := BitVec.allOnes 64, withdrawalDailyLimit := BitVec.allOnes 64,
            withdrawalDailyAmount := 0, withdrawalEpoch := 0, emergency := false, feeSupply := t.feeSupply,
            feeDepositInfo := ⟨5, 10000⟩, feeWithdrawalInfo := ⟨5, 10000⟩ } ∧
      feeSpec 5 10000 a.toNat = some t.feeSupply.toNat := by
  obtain ⟨f, cr, ct, kv', dp, mi', mv, kt', w1, t, tm, tv, m, t', fee, net, -, a1, a2, a3, a4, a5, -, a7, hsig, hn, hy, hor, -, hto, htk, -,
    -, hm, -, -, hlim, hfee, hnet, hmv, -, -, hdep, ht2, hteq, hfs, ho1, ho2, -, hlog, -⟩ := depositSol_fx h
  rw [h3] at a3; rw [h5] at a5; rw [h7] at a7
  cases a3; cases a5; cases a7
  rcases hor with ⟨-, hne⟩ | ⟨-, hdp, -⟩
  · exact (hne hl).elim
  · obtain ⟨n, n2, hfr⟩ := hdp.token
    have e1 : t = _ := hto.2.1.unique hfr
    refine ⟨t', n, n2, hdp.tokenAddr, hdp.vaultAddr, ho1.trans ho2, ht2, hn, hy, ?_, ?_⟩
    · rw [hteq, e1]; rfl
    · have := (C20_fee_value _ _ _).1 hfee
      rw [e1] at this hfs
      have e2 : t'.feeSupply.toNat = fee.toNat := by rw [hfs]; simp [freshTokenSettings]
      rw [e2]
      exact this

/-- C53: over every history that starts with the settings of a token, deposits change nothing in them but the fee balance. -/
theorem C53_later {top : Bool} {tr : List Ev} {k : Pubkey} {s : TokenSettings} (hd : env.Distinct) (h : Run env L top w tr w')
    (hs : TokenAt env w k s) (hl : Live w k) :
    ∀ e ∈ tr, ∀ ctx i, e.act = .tp ctx i →
      ((∃ sd n y a rc v ev py, i = .depositMultiTokenSol sd n y a rc v ev py) ∨ (∃ sd a rc v ev py, i = .depositMultiTokenEver sd a rc v ev py)) →
      ∃ s1 s2, TokenAt env e.pre k s1 ∧ TokenAt env e.post k s2 ∧ s2 = { s1 with feeSupply := s2.feeSupply } := by
  intro e he ctx i hact hi
  obtain ⟨-, -, H⟩ := token_hist hd h hs hl
  obtain ⟨s1, s2, h1, h2, hor⟩ := H e he
  refine ⟨s1, s2, h1, h2, ?_⟩
  rcases hor with rfl | ⟨ctx', i', hact', -, -, -, hc⟩
  · rfl
  · rw [hact] at hact'
    cases hact'
    rcases hi with ⟨sd, n, y, a, rc, v, ev, py, rfl⟩ | ⟨sd, a, rc, v, ev, py, rfl⟩ <;> cases hc <;> first | rfl | (rename_i hi; simp at hi) | (rename_i hi _; simp at hi) | (rename_i hi _ _; simp at hi)

example : ∃ s, TokenAt Toy.env (Toy.get Toy.tpDeposited) Toy.tpGold s ∧ Live (Toy.get Toy.tpDeposited) Toy.tpGold :=
  let ⟨t, h1, h2, _⟩ := toy_gold (a := Toy.tpDeposited) (by decide +kernel)
  ⟨t, h1, h2⟩

/-- C53: in every history, the settings of a token of Solana are at the address derived from its mint, and the token has its vault. -/
theorem C53_address {tr : List Ev} {k mint vault : Pubkey} {t : TokenSettings} (hd : env.Distinct) (hg : Genesis env L w) (hr : Run env L true w tr w')
    (ht : TokenAt env w' k t) (hk : t.kind = .solana mint vault) (hL : L vault) (hn : mint ≠ env.nativeMint ∨ Funded env vault tr) :
    IsAddr env env.tpId (tokenSettingsSolSeeds mint) k ∧ VaultOf env w' mint vault :=
  (hr.vault hd hg ht hk hL hn).symm

end Verif.Props
