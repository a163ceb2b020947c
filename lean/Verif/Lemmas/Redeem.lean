import Verif.Lemmas.LiveReq
import Verif.Lemmas.WFx
import Verif.Lemmas.TPPay
import Verif.Lemmas.LiveVotes
/-!
# What a request leaves behind
-/
namespace Verif.TP
open Codec Verif

variable {env : Env} {ctx : Ctx} {w w' : World} {k : Pubkey}

/-- The record of the withdrawal that a request opens. -/
def asked {E : Type} (n : U8) (pn : Option U8) (au : Pubkey) (rs : RL.Settings) (rr : RL.RelayRound) (pda : PDA) (len : U32) (e : E) (now : I64) : Withdrawal E :=
  withdrawalRecord n pn au rr.roundNumber (RL.requiredVotes rr.relays.length rs.minRequiredVotes) pda len e (epochOf now) rr.relays.length

/-- The withdrawal `r` is at `k`, readable by a payout and by a vote, and only it and the payer's lamports are new. -/
structure AskedAt {E : Type} (ec : Codec E) (env : Env) (w w' : World) (f k : Pubkey) (relays : Nat) (r : Withdrawal E) : Prop where
  wd : WdReady ec env w' k r
  gen : GenReady env w' k (r.view ec)
  eff : Eff [k] w w'
  ne : f ≠ k
  self : (w'.acc k).lamports = max 1 (env.rent recLen) + relayReparation * relays
  lam : ∀ j, j ≠ k → (w'.acc j).lamports = (w.acc j).lamports - if j = f then max 1 (env.rent recLen) + relayReparation * relays else 0

theorem openWithdrawal_asked {E : Type} {ec : Codec E} {f au : Pubkey} {rs : RL.Settings} {rr : RL.RelayRound} {pda : PDA}
    {len : U32} {e : E} {pn : Option U8} {tok : Bytes} {rec : Pubkey} {amt : U128} (hp : ctx.program = env.tpId)
    (hlen : len = BitVec.ofNat 32 (ec.enc e).length) (h0 : (w.acc k).lamports = 0)
    (h : openWithdrawal env ctx ec f au k rs rr pda len e pn tok rec amt w = .ok w') :
    ∃ n, AskedAt ec env w w' f k rr.relays.length (asked n pn au rs rr pda len e ctx.now) := by
  obtain ⟨n, ha, ⟨hl, -⟩ | ⟨-, w1, w2, l, h1, h2, rfl, h3⟩⟩ := openWithdrawal_ok h
  · exact (hl h0).elim
  have hc := findAddr_create ha
  obtain ⟨-, hz, hsys, hne, -, -, -, -, -, -, -, e1⟩ := createPda_ok hc h1
  have hself := createPda_self hc h1
  have hoth := createPda_acc hc h1
  obtain ⟨b, b', hb, hbl, hst, hor, rfl⟩ := pack_ok.1 h2
  have hacc := sysTransfer_acc h3
  have hx := exact_new hlen hbl hst
  have howner : (w'.acc k).owner = env.tpId := by
    rw [hacc]
    simp only [World.log, setDataRaw_acc, if_true, hself]
    exact hp
  have hdata : (w'.acc k).data = .raw b' := by
    rw [hacc]
    simp only [World.log, setDataRaw_acc, if_true]
  have hbl' : b'.length = recLen := by rw [hst.length]; exact hbl
  rw [hp] at ha
  refine ⟨n, ⟨howner, ⟨b', _, hdata, hbl', by rw [hst.eq]; exact dec_enc _ _ _ hst.wf⟩, rfl, n, pn, rfl, ha⟩,
    ⟨howner, ⟨b', _, hdata, hbl', by rw [hst.eq]; exact hx.view hst.wf _⟩, n, pn, rfl, ha⟩, fun j hj => ?_, hne, ?_, fun j hj => ?_⟩
  · have hj : j ≠ k := by simpa using hj
    rw [hacc]
    simp only [World.log, setDataRaw_acc, if_neg hj]
    exact hoth j hj
  · rw [hacc]
    simp only [World.log, setDataRaw_acc, if_true, hself, hne.symm, if_false, Nat.sub_zero]
  · rw [hacc]
    simp only [World.log, setDataRaw_acc, if_neg hj, Nat.add_zero]
    rw [e1, setLamports_acc]
    by_cases e : j = f
    · subst e; simp only [if_true]; omega
    · simp only [if_neg e, World.set_other _ _ hj, Nat.sub_zero]

theorem asked_count {E : Type} {n : U8} {pn : Option U8} {au : Pubkey} {rs : RL.Settings} {rr : RL.RelayRound} {pda : PDA} {len : U32} {e : E} {now : I64} :
    (asked n pn au rs rr pda len e now).signers.count .confirm = 0 := by
  show (List.replicate _ Vote.none).count .confirm = 0
  rw [List.count_replicate]; rfl

theorem AskedAt.noTokens {E : Type} {ec : Codec E} {f : Pubkey} {m : Nat} {r : Withdrawal E} (h : AskedAt ec env w w' f k m r) (hv : Vacant env (w.acc k)) :
    NoTokens w w' := fun x => by
  by_cases e : x = k
  · subst e
    obtain ⟨b, _, hb, -⟩ := h.wd.holds
    simp only [bal, supply, hb]
    have := hv.2.1
    revert this
    cases (w.acc x).data <;> simp [Data.len]
  · simp only [bal, supply, (h.eff x (by simpa using e)).1, and_self]

theorem AskedAt.canVote {E : Type} {ec : Codec E} {f : Pubkey} {m : Nat} {r : Withdrawal E} {relays : List Pubkey} {votes : List Vote} {l : List (Pubkey × I64)}
    (h : AskedAt ec env w w' f k m r) (hc : CanVote w k relays votes l) : CanVote w' k relays votes l :=
  ⟨hc.different, hc.member, hc.other, fun x hx => by
    have h1 := hc.room x hx
    rw [h.lam x.1 (hc.other x hx)]
    omega⟩

/-- A payout that registers its token. -/
theorem createEver_fx {km to kt f : Pubkey} {cpi : Pubkey → World → Except Err World} (h0 : ctx.accounts[0]? = some k) (h1 : ctx.accounts[1]? = some km)
    (h2 : ctx.accounts[2]? = some to) (h3 : ctx.accounts[3]? = some kt) (h9 : ctx.accounts[9]? = some f) (hz : (w.acc kt).lamports = 0)
    (h : run env ctx cpi .withdrawMultiTokenEver w = .ok w') :
    ∃ r, WithdrawalOf wEverEventC env ctx w k r ∧ ∃ w1, Deployed env ctx r.event km kt w w1 ∧ w1.acc k = w.acc k ∧ k ≠ kt ∧
      ∃ t m, EverTokenAt env ctx w1 r.event km kt t m ∧
        ((w' = w1 ∧ ¬ (Confirmed r ∧ r.md.status = .new)) ∨
         (Confirmed r ∧ r.md.status = .new ∧ ∃ (amount fee net : U64) (st : WStatus) (t' : TokenSettings),
          getWithdrawalAmount r.event.amount r.event.decimals m.decimals = .ok amount ∧
          feeOf t.feeWithdrawalInfo amount = .ok fee ∧ net.toNat + fee.toNat = amount.toNat ∧
          Recorded wEverEventC ctx k kt r (r.withStatus st) t t' w1 w' ∧ Booked (epochOf ctx.now) fee.toNat net.toNat t t' ∧
          ((¬ Within t (epochOf ctx.now) net.toNat ∧ st = .waitingForApprove ∧ NoTokens w1 w') ∨
           (Within t (epochOf ctx.now) net.toNat ∧ st = doneStatus r.event.payload ∧ EverOut env ctx km to r net.toNat w1 w')))) := by
  simp only [run, processWithdrawEver, bind_ok, acct_ok, sysvar_ok, exists_const, ex_unit, h0, h1, h2, h3, h9, Option.some.injEq, exists_eq_left'] at h
  obtain ⟨ks, -, -, -, -, -, rent, -, -, clock, -, -, ss, hss, r, hr, h⟩ := h
  rw [if_pos hz] at h
  simp only [bind_ok] at h
  obtain ⟨w1, h1, h2⟩ := h
  have hdep := deployed h1
  have hk : w1.acc k = w.acc k := by
    obtain ⟨b, q, hb, hlen, -⟩ := (loadWithdrawal_ok.1 hr).1
    refine hdep.full k ?_
    rw [hb]
    show b.length ≠ 0
    rw [hlen]
    decide
  exact ⟨r, withdrawalOf hr, w1, hdep, hk, payEver_fx (loadWithdrawal_acc hr hk) h2⟩

/-- The proxy account `px` for tokens of `mint` was created and given the attached lamports, all at the expense of `f`. -/
structure ProxyMade (env : Env) (w w' : World) (f px mint : Pubkey) (att : Nat) : Prop where
  eff : Eff [px] w w'
  owner : (w'.acc px).owner = env.splId
  data : (w'.acc px).data = .token (freshToken env mint px (max (max 1 (env.rent 165)) (w.acc px).lamports))
  self : (w'.acc px).lamports = max (max 1 (env.rent 165)) (w.acc px).lamports + att
  lam : ∀ j, j ≠ px → (w'.acc j).lamports = (w.acc j).lamports - if j = f then (max 1 (env.rent 165) - (w.acc px).lamports) + att else 0

theorem openProxy_made {payload : Bytes} {mint who f px : Pubkey} {i : Nat} {att : U64} {n : U8} {m : MintAcc} (hp : ctx.program = env.tpId) (hpl : payload ≠ [])
    (h0 : ctx.accounts[i]? = some px) (h1 : ctx.accounts[i + 1]? = some mint) (h2 : ctx.accounts[i + 2]? = some env.splId)
    (ha : findAddr env (proxySeeds mint who) env.tpId = .ok (px, n)) (hu : Unused env (w.acc px)) (hm : (w.acc mint).data = .mint m) (hne : f ≠ px)
    (hsys : env.systemId ∈ ctx.accounts) (hwk : ctx.isWritable px = true) (hwf : ctx.isWritable f = true) (hs : ctx.isSigner f = true)
    (hwal : Wallet env w f (max 1 (env.rent 165) + att.toNat)) (hmax : max (max 1 (env.rent 165)) (w.acc px).lamports + att.toNat < 2 ^ 64) :
    ∃ w1, openProxy env ctx payload mint who f env.systemId i att w = .ok (some n, w1) ∧ ProxyMade env w w1 f px mint att.toNat := by
  have m_px : mint ≠ px := by rintro rfl; have := hu.empty; rw [hm] at this; simp [Data.len] at this
  obtain ⟨w1, b1, e1, s1, l1⟩ := createPdaFunded_live (ctx := ctx) (o := env.splId) (space := 165) hu hne hsys hwk hwf hs
    (hwal.eff (Eff.refl [] w) (by simp) (by have := hwal.rich; omega)) (by omega)
  obtain ⟨w2, b2, e2, o2, d2, l2, a2⟩ := splInitAccount_live (env := env) (ctx := ctx) (w := w1) (k := px) (mint := mint) (o := px)
    (List.mem_of_getElem? h2) (List.mem_of_getElem? h1) hwk (by rw [s1]) (by rw [s1]) (by rw [s1]; simp only; omega)
    (.inr ⟨m, by rw [(e1 mint (by simpa using m_px)).1]; exact hm⟩)
  have wal2 : Wallet env w2 f att.toNat := by
    refine (hwal.eff e1 (by simpa using hne) (m := 0) (Nat.zero_le _)).eff e2 (by simpa using hne) ?_
    rw [a2 f hne, l1 f hne, if_pos rfl]
    have := hwal.rich; omega
  obtain ⟨w3, b3, e3, l3⟩ := sysTransfer_live (ctx := ctx) (w := w2) (dst := px) hsys hwf hwk hs wal2 hne (by rw [l2, s1]; exact hmax)
  refine ⟨w3, ?_, fun j hj => ?_, ?_, ?_, ?_, fun j hj => ?_⟩
  · simp only [openProxy, if_neg hpl, createProxyAccount, bind_ok, acct_ok, require_ok, exists_const, Prod.exists, Except.ok.injEq, Prod.mk.injEq]
    refine ⟨px, h0, mint, h1, env.splId, h2, rfl, n, w2, ⟨px, n, by rw [hp]; exact ha, rfl, hu.owner, ?_⟩, w3, b3, rfl, rfl⟩
    rw [if_pos hu.empty]
    simp only [bind_ok, require_ok, exists_const, pdaSigns_ok, Except.ok.injEq, Prod.mk.injEq]
    exact ⟨⟨trivial, trivial⟩, _, ⟨px, by rw [hp]; exact findAddr_create ha, rfl⟩, w1, b1, w2, b2, trivial, rfl⟩
  · have c1 := e1 j hj
    have c2 := e2 j hj
    have c3 := e3 j (by simp)
    exact ⟨by rw [c3.1, c2.1, c1.1], by rw [c3.2, c2.2, c1.2]⟩
  · rw [(e3 px (by simp)).2]; exact o2
  · rw [(e3 px (by simp)).1, d2, s1]
  · rw [l3 px, l2, s1, if_neg hne.symm, if_pos rfl]; simp
  · rw [l3 j, a2 j hj, l1 j hj, if_neg hj]
    split <;> omega

end Verif.TP
