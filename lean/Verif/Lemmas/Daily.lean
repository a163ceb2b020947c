import Verif.Lemmas.TPOrigin
import Verif.Lemmas.TPPay
import Verif.Spec.Payouts
import Verif.Lemmas.RunPre
/-!
# The daily limit
-/
namespace Verif.TP
open Codec Verif

variable {env : Env} {L : Pubkey → Prop} {ctx : Ctx} {w w' w0 : World} {k : Pubkey} {i : Instr}

/-- The records of a withdrawal and of the settings of a token are in different accounts. -/
theorem TokenAt.ne {E : Type} {ec : Codec E} {t : TokenSettings} {r : Withdrawal E} {kw : Pubkey} (h : TokenAt env w k t)
    (hw : WithdrawalOf ec env ctx w kw r) : k ≠ kw := by
  rintro rfl
  obtain ⟨-, hh, -, n, m, hk⟩ := h
  obtain ⟨-, hh', -, n', m', hk'⟩ := hw
  have := ((head_token hh).unique (head_withdrawal hh')).2
  rw [hk, hk'] at this
  cases this

theorem TokenAt.raw {t : TokenSettings} (h : TokenAt env w k t) : ∃ b, (w.acc k).data = .raw b ∧ (w.acc k).data.len ≠ 0 := by
  obtain ⟨-, ⟨b, r, hb, hl, -⟩, -⟩ := h
  refine ⟨b, hb, ?_⟩
  rw [hb]
  show b.length ≠ 0
  rw [hl]
  decide

/-- A record of another token is kept. -/
theorem Recorded.other {E : Type} {ec : Codec E} {kw kt : Pubkey} {r r' : Withdrawal E} {t t' s : TokenSettings}
    (h : Recorded ec ctx kw kt r r' t t' w w') (hs : TokenAt env w k s) (hw : WithdrawalOf ec env ctx w kw r) (hk : k ≠ kt) : w'.acc k = w.acc k := by
  obtain ⟨b, hb, -⟩ := hs.raw
  exact h.rest k (hs.ne hw) hk b hb

theorem TokenAt.same {s1 s2 : TokenSettings} (h1 : TokenAt env w k s1) (h2 : TokenAt env w' k s2) (h : w'.acc k = w.acc k) : s2 = s1 := by
  have := h2.2.1
  rw [h] at this
  exact this.unique h1.2.1

theorem Moves.loss {src dst : Pubkey} {n : Nat} (h : Moves src dst n w w') : bal w src - bal w' src ≤ n := by
  have := (h.2 src).1
  rw [if_pos rfl] at this
  omega

theorem Mints.gain {mint dst : Pubkey} {n : Nat} (h : Mints mint dst n w w') : supply w' mint - supply w mint ≤ n := by
  have := (h mint).2
  rw [if_pos rfl] at this
  omega

theorem NoTokens.loss (h : NoTokens w w') : bal w k - bal w' k = 0 := by rw [(h k).1, Nat.sub_self]
theorem NoTokens.gain (h : NoTokens w w') : supply w' k - supply w k = 0 := by rw [(h k).2, Nat.sub_self]

theorem Booked.on {day : I64} {fee net : Nat} {t t' : TokenSettings} (h : Booked day fee net t t') : releasedOn t' day = releasedOn t day + net := by
  unfold releasedOn
  rw [if_pos h.day, h.daily]
  rfl

open Classical in
/-- What one step does to the count of the day. -/
theorem auto_step {s1 s2 : TokenSettings} {D : I64} {e : Ev} (he : EvStep env L e) (h1 : TokenAt env e.pre k s1) (h2 : TokenAt env e.post k s2)
    (hl : Live e.pre k)
    (hor : s2 = s1 ∨ ∃ ctx i, e.act = .tp ctx i ∧ ctx.program = env.tpId ∧ (∀ k ∈ ctx.signers, ¬ L k) ∧
        run env ctx noCpi i e.pre = .ok e.post ∧ TokenCh env ctx e.pre s1 i s2)
    (hday : ∀ ctx i, e.act = .tp ctx i → epochOf ctx.now = D)
    (hno : ∀ ctx i, e.act = .tp ctx i → i = .approveWithdrawSol ∨ i = .approveWithdrawEver → ctx.accounts[4]? ≠ some k) :
    releasedOn s1 D + autoPaid k e ≤ releasedOn s2 D ∧
      (autoPaid k e = 0 ∨ releasedOn s1 D + autoPaid k e ≤ s1.withdrawalDailyLimit.toNat) := by
  have other : autoPaid k e = 0 → releasedOn s2 D = releasedOn s1 D → releasedOn s1 D + autoPaid k e ≤ releasedOn s2 D ∧
      (autoPaid k e = 0 ∨ releasedOn s1 D + autoPaid k e ≤ s1.withdrawalDailyLimit.toNat) := by
    intro h h'
    rw [h, h']
    exact ⟨Nat.le_refl _, .inl rfl⟩
  have same : autoPaid k e = 0 → s2 = s1 → releasedOn s1 D + autoPaid k e ≤ releasedOn s2 D ∧
      (autoPaid k e = 0 ∨ releasedOn s1 D + autoPaid k e ≤ s1.withdrawalDailyLimit.toNat) := by
    rintro h rfl
    exact other h rfl
  have hrun : ∀ ctx i, e.act = .tp ctx i → i ≠ .executePayloadEver → i ≠ .executePayloadSol → run env ctx noCpi i e.pre = .ok e.post := by
    intro ctx i ha n1 n2
    cases he with
    | quiet hn => exact absurd ha (hn _ _)
    | purge hn => exact absurd ha (hn _ _)
    | tp ctx' i' ha' _ _ hr => rw [ha] at ha'; cases ha'; exact hr
    | stale ctx' i' p w1 ha' _ _ hst =>
      rw [ha] at ha'; cases ha'
      cases hst with
      | ever => exact (n1 rfl).elim
      | sol => exact (n2 rfl).elim
  by_cases hs : ∃ ctx, e.act = .tp ctx .withdrawMultiTokenSol
  · obtain ⟨ctx, ha⟩ := hs
    have hr := hrun _ _ ha (by simp) (by simp)
    have hd := hday _ _ ha
    obtain ⟨kw, kv, rc, kt, km, r, t, v, hkw, hkv, -, hkt, -, hw, ht, -, -, -, hne, hx⟩ := withdrawSol_fx hr
    by_cases hkk : k = kt
    · subst hkk
      have e1 := ht.2.1.unique h1.2.1
      subst e1
      have au : autoPaid k e = if IsNew e.pre kw then bal e.pre kv - bal e.post kv else 0 := by
        unfold autoPaid
        rw [ha]
        simp only [hkt, hkw, hkv, if_true]
      rcases hx with ⟨hsame, -⟩ | ⟨-, fee, net, st, t', -, -, hrec, ⟨hn, hbk, hou⟩ | ⟨hn, rfl, -, ho⟩⟩
      · refine same ?_ (h1.same h2 (hsame k))
        rw [au]
        split
        · unfold bal; rw [hsame kv, Nat.sub_self]
        · rfl
      · have e2 := hrec.token.unique h2.2.1
        subst e2
        rw [hd] at hbk hou
        rw [hbk.on]
        rcases hou with ⟨-, -, hnt⟩ | ⟨hwi, ho⟩
        · rw [au, hnt.loss]; simp
        · cases ho with
          | short _ _ hnt => rw [au, hnt.loss]; simp
          | paid _ hm _ =>
            have hl := hm.loss
            have hwl := hwi.2
            rw [au]
            split <;> omega
      · refine same ?_ (hrec.token.unique h2.2.1).symm
        rw [au, if_neg]
        rintro ⟨r', hr', hn'⟩
        have := hr'.unique hw.2.1
        subst this
        rw [hn] at hn'
        cases hn'
    · refine same ?_ ?_
      · unfold autoPaid
        rw [ha]
        simp only [hkt, Option.some.injEq]
        rw [if_neg (fun h => hkk h.symm)]
      · refine h1.same h2 ?_
        rcases hx with ⟨hsame, -⟩ | ⟨-, fee, net, st, t', -, -, hrec, -⟩
        · exact hsame k
        · exact hrec.other h1 hw hkk
  by_cases hs' : ∃ ctx, e.act = .tp ctx .withdrawMultiTokenEver
  · obtain ⟨ctx, ha⟩ := hs'
    have hr := hrun _ _ ha (by simp) (by simp)
    have hd := hday _ _ ha
    obtain ⟨kw, mi, rc, kt, r, hkw, hmi, -, hkt, hw, hx⟩ := withdrawEver_fx hr
    by_cases hkk : k = kt
    · subst hkk
      have au : autoPaid k e = supply e.post mi - supply e.pre mi := by
        unfold autoPaid
        rw [ha]
        simp only [hkt, hmi, if_true]
      unfold Live at hl
      rcases hx with ⟨-, h0⟩ | ⟨w1, ⟨rfl, -⟩ | ⟨h0, -⟩, hk1, -, t, m, het, hx⟩
      · omega
      · have e1 := het.1.2.1.unique h1.2.1
        subst e1
        rcases hx with ⟨e0, -⟩ | ⟨-, -, amount, fee, net, st, t', -, -, -, hrec, hbk, hou⟩
        · refine same ?_ (h1.same h2 (by rw [e0]))
          rw [au, e0, Nat.sub_self]
        · have e2 := hrec.token.unique h2.2.1
          subst e2
          rw [hd] at hbk hou
          rw [hbk.on]
          rcases hou with ⟨-, -, hnt⟩ | ⟨hwi, -, ho⟩
          · rw [au, hnt.gain]; simp
          · have hl := ho.2.1.gain
            have hwl := hwi.2
            rw [au]
            omega
      · omega
    · refine same ?_ ?_
      · unfold autoPaid
        rw [ha]
        simp only [hkt, Option.some.injEq]
        rw [if_neg (fun h => hkk h.symm)]
      · refine h1.same h2 ?_
        rcases hx with ⟨e0, -⟩ | ⟨w1, hw1, hk1, -, t, m, het, hx⟩
        · rw [e0]
        · have a1 : w1.acc k = e.pre.acc k := by
            rcases hw1 with ⟨rfl, -⟩ | ⟨-, hdep⟩
            · rfl
            · exact hdep.full k h1.raw.choose_spec.2
          have t1 : TokenAt env w1 k s1 := by
            unfold TokenAt at h1 ⊢
            rw [a1]; exact h1
          have hw1 : WithdrawalOf wEverEventC env ctx w1 kw r := by
            unfold WithdrawalOf at hw ⊢
            rw [hk1]; exact hw
          rcases hx with ⟨rfl, -⟩ | ⟨-, -, amount, fee, net, st, t', -, -, -, hrec, -⟩
          · exact a1
          · rw [hrec.other t1 hw1 hkk, a1]
  have au : autoPaid k e = 0 := by
    unfold autoPaid
    split
    · rename_i ctx ha; exact (hs ⟨ctx, ha⟩).elim
    · rename_i ctx ha; exact (hs' ⟨ctx, ha⟩).elim
    · rfl
  rcases hor with h | ⟨ctx, i, ha, -, -, hr, hch⟩
  · exact same au h
  · cases hch with
    | withdraw i hi =>
      rcases hi with rfl | rfl
      · exact (hs' ⟨ctx, ha⟩).elim
      · exact (hs ⟨ctx, ha⟩).elim
    | release i hi =>
      have hp := hno ctx i ha hi.symm
      refine same au (h1.same h2 ?_)
      rcases hi with rfl | rfl
      · obtain ⟨-, kw, mi, rc, kt, r, t, m, -, -, -, hkt, hw, -, -, -, _, _, _, t', -, -, -, hrec, -⟩ := approveEver_fx hr
        exact hrec.other h1 hw (by rintro rfl; exact hp hkt)
      · obtain ⟨-, kw, kv, rc, kt, r, t, v, -, -, -, hkt, hw, -, -, -, -, -, -, _, _, _, t', -, -, hrec, -⟩ := approveSol_fx hr
        exact hrec.other h1 hw (by rintro rfl; exact hp hkt)
    | updateFee f m d =>
      refine other au ?_
      cases f <;> rfl
    | _ => exact other au rfl

/-- The count of the day bounds the payouts without approval. -/
theorem auto_run {s : TokenSettings} {D : I64} {lim : Nat} {top : Bool} {tr : List Ev} (hd : env.Distinct) (h : Run env L top w tr w')
    (hs : TokenAt env w k s) (hl : Live w k)
    (hday : ∀ e ∈ tr, ∀ ctx i, e.act = .tp ctx i → epochOf ctx.now = D)
    (hlim : ∀ e ∈ tr, ∀ t, TokenAt env e.pre k t → t.withdrawalDailyLimit.toNat ≤ lim)
    (hno : ∀ e ∈ tr, ∀ ctx i, e.act = .tp ctx i → i = .approveWithdrawSol ∨ i = .approveWithdrawEver → ctx.accounts[4]? ≠ some k) :
    (tr.map (autoPaid k)).sum ≤ lim := by
  have evs := h.evs hd
  have H := (token_hist hd h hs hl).2.2
  have := h.fold (P := fun w t => (∃ s, TokenAt env w k s ∧ (t.map (autoPaid k)).sum ≤ releasedOn s D) ∧ (t.map (autoPaid k)).sum ≤ lim)
    [] ⟨⟨s, hs, by simp⟩, by simp⟩ (by
      rintro e he t ⟨⟨s0, hs0, hsum⟩, hle⟩
      obtain ⟨t1, t2, -, hpre⟩ := h.pre e he
      have hl := (token_hist hd hpre hs hl).2.1
      obtain ⟨s1, s2, h1, h2, hor⟩ := H e he
      have e0 := hs0.2.1.unique h1.2.1
      subst e0
      obtain ⟨a1, a2⟩ := auto_step (evs e he) h1 h2 hl hor (hday e he) (hno e he)
      have := hlim e he _ h1
      rw [List.map_append, List.sum_append, List.map_cons, List.map_nil, List.sum_cons, List.sum_nil]
      exact ⟨⟨s2, h2, by omega⟩, by omega⟩)
  exact this.2

end Verif.TP
