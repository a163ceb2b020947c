import Verif.Lemmas.Named
import Verif.Props.Backing
import Verif.Spec.ToyReachW
import Verif.Spec.ToyClientTP
import Verif.Spec.ToyTactic
/-!
# C86: tokens do not affect each other

What happens to one token leaves the settings, the fees collected, the limits and the money of all other tokens alone.
-/
set_option linter.unusedSimpArgs false
set_option maxRecDepth 100000
namespace Verif.Props
open Verif TP Codec

variable {env : Env} {L : Pubkey → Prop} {ctx : Ctx} {w w' : World} {tr : List Ev} {top : Bool} {i : TP.Instr}

/-- C86: an instruction changes the record of no other token than the one it names. -/
theorem C86_record {kt : Pubkey} {t : TokenSettings} (hd : env.Distinct) (hp : ctx.program = env.tpId) (h : TP.run env ctx noCpi i w = .ok w')
    (ht : TokenAt env w kt t) (hn : namedToken ctx i ≠ some kt) : TokenAt env w' kt t ∧ (w'.acc kt).data = (w.acc kt).data := by
  have e := token_unnamed hd hp h ht hn
  obtain ⟨t', ht', -, -⟩ := token_run hd hp h ht
  have : Holds tokenSettingsC recLen (w'.acc kt) t := by unfold Holds; rw [e]; exact ht.2.1
  rw [← ht'.2.1.unique this]
  exact ⟨ht', e⟩

/-- C86: of two tokens, an instruction changes the record of at most one. -/
theorem C86_one {k1 k2 : Pubkey} {t1 t2 : TokenSettings} (hd : env.Distinct) (hp : ctx.program = env.tpId)
    (h : TP.run env ctx noCpi i w = .ok w') (h1 : TokenAt env w k1 t1) (h2 : TokenAt env w k2 t2) (hne : k1 ≠ k2) :
    (w'.acc k1).data = (w.acc k1).data ∨ (w'.acc k2).data = (w.acc k2).data := by
  by_cases e : namedToken ctx i = some k1
  · exact .inr (C86_record hd hp h h2 (by rw [e]; intro h; cases h; exact hne rfl)).2
  · exact .inl (C86_record hd hp h h1 e).2

/-- C86: along every history, whatever happens to other tokens, the record of a token that no step names stays as it is. -/
theorem C86_history {kt : Pubkey} {t : TokenSettings} (hd : env.Distinct) (hr : Run env L top w tr w') (ht : TokenAt env w kt t) (hl : Live w kt)
    (hn : ∀ e ∈ tr, ∀ ctx i, e.act = .tp ctx i → namedToken ctx i ≠ some kt) : TokenAt env w' kt t ∧ Live w' kt := by
  obtain ⟨-, hlw, H⟩ := token_hist hd hr ht hl
  refine ⟨?_, hlw⟩
  have := hr.fold (P := fun w _ => TokenAt env w kt t) [] ht (by
    intro e he _ h0
    obtain ⟨s1, s2, h1, h2, hc⟩ := H e he
    obtain rfl := h0.2.1.unique h1.2.1
    rcases hc with rfl | ⟨c, j, hact, hp, -, hrun, -⟩
    · exact h2
    · exact (C86_record hd hp hrun h0 (hn e he c j hact)).1)
  exact this

/-- more fees are recorded for `k` -/
private def more (w1 w2 : World) (k : Pubkey) : Bool := Nat.ble (fees w1 k + 1) (fees w2 k)

private theorem toy_tokens {w1 w2 : World} {c : Ctx} {i : TP.Instr} (h : TP.run Toy.env c noCpi i w1 = .ok w2)
    (hc : c.program = Toy.env.tpId) (hf : ∀ k ∈ c.signers, ¬ Toy.L k)
    (h1 : Toy.tchk tokenSettingsC (fun s => s.isInitialized && (Toy.kindToken s.accountKind && (Toy.same (Toy.addr (tokenSeeds Toy.env s.kind) Toy.env.tpId) Toy.tpGold && true)))
      w1 Toy.tpGold = true)
    (h2 : Toy.tchk tokenSettingsC (fun s => s.isInitialized && (Toy.kindToken s.accountKind && (Toy.same (Toy.addr (tokenSeeds Toy.env s.kind) Toy.env.tpId) Toy.tpStar && true)))
      w1 Toy.tpStar = true)
    (h3 : namedToken c i = some Toy.tpStar) (h4 : more w1 w2 Toy.tpStar = true) :
    ∃ tg ts, TokenAt Toy.env w1 Toy.tpGold tg ∧ TokenAt Toy.env w1 Toy.tpStar ts ∧ fees w1 Toy.tpStar < fees w2 Toy.tpStar ∧
      TokenAt Toy.env w2 Toy.tpGold tg ∧ (w2.acc Toy.tpGold).data = (w1.acc Toy.tpGold).data ∧
      ∃ tr, Run Toy.env Toy.L true w1 tr w2 ∧ tr ≠ [] ∧ ∀ e ∈ tr, ∀ ctx i, e.act = .tp ctx i → namedToken ctx i ≠ some Toy.tpGold := by
  obtain ⟨tg, hg, -⟩ := Toy.tp_token (P := fun _ => true) h1
  obtain ⟨ts, hs, -⟩ := Toy.tp_token (P := fun _ => true) h2
  have hne : (some Toy.tpStar : Option Pubkey) ≠ some Toy.tpGold := by decide +kernel
  have hr : Run Toy.env Toy.L true w1 ([] ++ [⟨.tp c i, w1, w2⟩]) w2 := .tp c i (.nil _ _) hc hf h
  obtain ⟨a, b⟩ := C86_record Toy.distinct hc h hg.here (by rw [h3]; exact hne)
  refine ⟨tg, ts, hg.here, hs.here, Nat.le_of_ble_eq_true h4, a, b, _, hr, by simp, ?_⟩
  intro e he ctx j hact
  simp only [List.nil_append, List.mem_singleton] at he
  subst he
  cases hact
  rw [h3]
  exact hne

/-- A deposit of one token, while the other token is there. -/
example : ∃ tg ts, TokenAt Toy.env (Toy.get Toy.tpPaidE) Toy.tpGold tg ∧ TokenAt Toy.env (Toy.get Toy.tpPaidE) Toy.tpStar ts ∧
      fees (Toy.get Toy.tpPaidE) Toy.tpStar < fees (Toy.get Toy.tpDepE) Toy.tpStar ∧
      TokenAt Toy.env (Toy.get Toy.tpDepE) Toy.tpGold tg ∧ ((Toy.get Toy.tpDepE).acc Toy.tpGold).data = ((Toy.get Toy.tpPaidE).acc Toy.tpGold).data ∧
      ∃ tr, Run Toy.env Toy.L true (Toy.get Toy.tpPaidE) tr (Toy.get Toy.tpDepE) ∧ tr ≠ [] ∧
        ∀ e ∈ tr, ∀ ctx i, e.act = .tp ctx i → namedToken ctx i ≠ some Toy.tpGold := by
  have hrun : TP.run Toy.env (Toy.tctx [Toy.funder, Toy.bob, Toy.bobStar, Toy.tpDep 4, Toy.starMint, Toy.tpMulti, Toy.tpStar, Toy.tpSettings, Toy.env.systemId,
      Toy.env.splId, Toy.env.rentId] [Toy.funder, Toy.bob]) noCpi (.depositMultiTokenEver 4 20000 Toy.home 7 0 []) (Toy.get Toy.tpPaidE) = .ok (Toy.get Toy.tpDepE) :=
    Toy.get_tp (a := Toy.tpPaidE) (by decide +kernel)
  refine toy_tokens hrun rfl (Toy.free ?_) ?_ ?_ ?_ ?_
  checked

/-- C86: along every history, tokens leave the vault of a token only by instructions that name a token with this vault. (The last case is an address
that belongs to two things at once, see `VaultOut.proxy`.) -/
theorem C86_vault {mint kv : Pubkey} (hd : env.Distinct) (hr : Run env L top w tr w') (hv : VaultOf env w mint kv) (hL : L kv)
    (hn : mint ≠ env.nativeMint ∨ Funded env kv tr) (e : Ev) (he : e ∈ tr) (hlt : bal e.post kv < bal e.pre kv) :
    (∃ ctx i kt t m v, e.act = .tp ctx i ∧ namedToken ctx i = some kt ∧ TokenOf env ctx e.pre kt t ∧ t.kind = .solana m v ∧
      IsAddr env env.tpId (vaultSeeds m) kv) ∨
    ∃ ctx a m c, e.act = .tp ctx (.withdrawProxy a) ∧ ctx.isSigner c = true ∧ IsAddr env env.tpId (proxySeeds m c) kv := by
  obtain ⟨-, g⟩ := hr.guarded hd hL hv.2 (hn.imp (fun h => if_neg h) id)
  obtain ⟨-, -, g3⟩ := g e he
  obtain ⟨ctx, i, hact, hp, hs, hrun, -, hpay⟩ := g3 hlt
  have mv : ∀ {src rc : Pubkey} {n : Nat}, Moves src rc n e.pre e.post → src = kv := by
    intro src rc n hm
    have h1 := (hm.2 kv).1
    by_cases h : kv = src
    · exact h.symm
    · rw [if_neg h] at h1
      exfalso
      split at h1 <;> omega
  cases hpay with
  | withdraw m ha =>
    obtain ⟨kw, kv', rc, kt, km, r, t, v, h0, h1, h2, h3, h4, hw, ht, hk, -, hv', hne, ⟨hsame, -⟩ | ⟨hc, fee, net, st, t', hfee, hnet, hrec, hor⟩⟩ :=
      withdrawSol_fx hrun
    · unfold bal at hlt; rw [hsame kv] at hlt; exact (Nat.lt_irrefl _ hlt).elim
    · have key : SolOut env ctx kv' rc km r net.toNat e.pre e.post st → kv' = kv := by
        intro ho
        cases ho with
        | short _ _ hno => rw [(hno kv).1] at hlt; exact (Nat.lt_irrefl _ hlt).elim
        | paid hrc hm _ => exact mv hm
      have : kv' = kv := by
        rcases hor with ⟨hst, -, ⟨-, -, hno⟩ | ⟨-, ho⟩⟩ | ⟨hst, -, -, ho⟩
        · rw [(hno kv).1] at hlt; exact (Nat.lt_irrefl _ hlt).elim
        · exact key ho
        · exact key ho
      subst this
      exact .inl ⟨ctx, _, kt, t, _, v, hact, h3, ht, hk, by rw [← hp]; exact hv'⟩
  | approve m ha =>
    obtain ⟨hrole, kw, kv', rc, kt, r, t, v, h2, h1, h3, h4, hw, ht, hk, -, hv', hne, hst, fee, net, st, t', hfee, hnet, hrec, -, ho⟩ := approveSol_fx hrun
    cases ho with
    | short _ _ hno => rw [(hno kv).1] at hlt; exact (Nat.lt_irrefl _ hlt).elim
    | paid hrc hm _ =>
      obtain rfl := mv hm
      exact .inl ⟨ctx, _, kt, t, _, v, hact, h4, ht, hk, by rw [← hp]; exact hv'⟩
  | fee m n ha =>
    obtain ⟨hrole, kv', kt, rc, t, mi, v, sup, h1, h2, h3, ht, hk, hv', hs', hm, hh, -⟩ := solFee_fx hrun
    obtain rfl := mv hm
    exact .inl ⟨ctx, _, kt, t, _, v, hact, h2, ht, hk, by rw [← hp]; exact hv'⟩
  | proxy m c n ha hsig =>
    obtain ⟨c', rc, px, mi, h0, h1, h2, h3, hsig', hpx, hm, -⟩ := withdrawProxy_fx hrun
    obtain rfl := mv hm
    exact .inr ⟨ctx, n, mi, c', hact, hsig', by rw [← hp]; exact hpx⟩

/-- 999 leave the vault of a token, by a withdrawal that names its settings. -/
example : VaultOf Toy.env (Toy.get Toy.tpVote3) Toy.gold Toy.tpVault ∧ Toy.L Toy.tpVault ∧ Toy.gold ≠ Toy.env.nativeMint ∧
    bal (Toy.get Toy.tpPaid) Toy.tpVault < bal (Toy.get Toy.tpVote3) Toy.tpVault ∧
    namedToken (Toy.solCtx Toy.wd1 Toy.bobGold) .withdrawMultiTokenSol = some Toy.tpGold := by
  obtain ⟨t, ht, -, hk⟩ := toy_gold (a := Toy.tpVote3) (by decide +kernel)
  exact ⟨toy_vault Toy.reach_tpVote3 ht hk, by simp [Toy.L, Toy.locked], by decide +kernel, Nat.le_of_ble_eq_true (by decide +kernel), rfl⟩

/-- C86: along every history, tokens of Everscale are minted only by instructions that name, in the place of the token's settings, the address of
the settings of a token with this mint. -/
theorem C86_mint {token : EverAddress} {km : Pubkey} {dec : U8} (hd : env.Distinct) (hr : Run env L top w tr w') (hm : MintOf env w token km dec) (hL : L km)
    (e : Ev) (he : e ∈ tr) (hlt : supply e.pre km < supply e.post km) :
    ∃ ctx i kt token', e.act = .tp ctx i ∧ namedToken ctx i = some kt ∧ IsAddr env env.tpId (tokenSettingsEverSeeds env token') kt ∧
      IsAddr env env.tpId (mintSeeds env token') km := by
  obtain ⟨-, g⟩ := hr.guardedMint hd hL hm.2
  obtain ⟨-, -, g3⟩ := g e he
  obtain ⟨ctx, i, hact, hp, hs, hrun, hi⟩ := g3 hlt
  have mv : ∀ {x y : World} {mint rc : Pubkey} {n : Nat}, Mints mint rc n x y → supply x km < supply y km → mint = km := by
    intro x y mint rc n hm hlt
    have h1 := (hm km).2
    by_cases h : km = mint
    · exact h.symm
    · rw [if_neg h] at h1; omega
  have nt : ∀ {x y : World}, NoTokens x y → ¬ supply x km < supply y km := fun h => by rw [(h km).2]; omega
  rcases hi with rfl | rfl | ⟨n, rfl⟩
  · obtain ⟨kw, mint, rc, kt, r, a0, a1, a2, a3, hw, ⟨hsame, -⟩ | ⟨w1, hw1, hkw, hne, t0, m, het, hor⟩⟩ := withdrawEver_fx hrun
    · rw [hsame] at hlt; exact (Nat.lt_irrefl _ hlt).elim
    · have hsup : supply w1 km = supply e.pre km := by
        rcases hw1 with ⟨rfl, -⟩ | ⟨-, hdp⟩
        · rfl
        · exact hdp.supply km
      rw [← hsup] at hlt
      obtain ⟨⟨hta, -, -⟩, ⟨mi, d, hk⟩, -, hma, -⟩ := het
      rw [hk] at hta
      have : mint = km := by
        rcases hor with ⟨rfl, -⟩ | ⟨-, -, amount, fee, net, st, t', -, -, -, -, -, ⟨-, -, hno⟩ | ⟨-, -, ho⟩⟩
        · exact (Nat.lt_irrefl _ hlt).elim
        · exact (nt hno hlt).elim
        · exact mv ho.2.1 hlt
      subst this
      exact ⟨ctx, _, kt, r.event.token, hact, a3, by rw [← hp]; exact hta, by rw [← hp]; exact hma⟩
  · obtain ⟨hrole, kw, mint, rc, kt, r, t, m, a2, a1, a3, a4, hw, hne, het, hst, amount, fee, net, t', -, -, -, -, -, ho⟩ := approveEver_fx hrun
    obtain ⟨⟨hta, -, -⟩, ⟨mi, d, hk⟩, -, hma, -⟩ := het
    rw [hk] at hta
    obtain rfl := mv ho.2.1 hlt
    exact ⟨ctx, _, kt, r.event.token, hact, a4, by rw [← hp]; exact hta, by rw [← hp]; exact hma⟩
  · obtain ⟨hrole, km', kt, rc, t, m, tok, d, sup, h1, h2, h3, ht, hk, hv', hs', hmm, hh, -⟩ := everFee_fx hrun
    obtain rfl := mv hmm hlt
    have hta := ht.1
    rw [hk] at hta
    exact ⟨ctx, _, kt, tok, hact, h2, by rw [← hp]; exact hta, by rw [← hp]; exact hv'⟩

/-- The manager mints 2 from the fees of a token, naming its settings. -/
example : MintOf Toy.env (Toy.get Toy.tpDepE) Toy.star Toy.starMint 9#8 ∧ Toy.L Toy.starMint ∧
    supply (Toy.get Toy.tpDepE) Toy.starMint < supply (Toy.get Toy.tpFeeOutE) Toy.starMint ∧
    namedToken Toy.everFeeCtx (.withdrawEverFee 2) = some Toy.tpStar := by
  obtain ⟨t, h1, h2, h3, h4, h5⟩ := toy_star Toy.reach_tpDepE (by decide +kernel)
  exact ⟨h5, by simp [Toy.L, Toy.locked], Nat.le_of_ble_eq_true (by decide +kernel), rfl⟩

end Verif.Props
