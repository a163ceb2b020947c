import Verif.Props.Deposits
import Verif.Lemmas.TPBack
import Verif.Lemmas.DepHist
import Verif.Lemmas.TPFee
import Verif.Spec.OriginDep
/-!
# C92: every deposit record has a known origin
-/
set_option maxRecDepth 100000
namespace Verif.Props
open Verif TP Codec

variable {env : Env} {L : Pubkey → Prop} {ctx : Ctx} {k : Pubkey} {w w' w0 : World} {i : TP.Instr}

/-- The bytes of a deposit record. -/
def DepBytes (g : GenericDeposit) (b : Bytes) : Prop :=
  b.length = recLen ∧ (∃ r, genericDepositC.dec b = some (g, r)) ∧ g.isInitialized = true ∧ ∃ n, g.accountKind = .deposit n

theorem depositAt_bytes {g : GenericDeposit} : DepositAt env w k g ↔ Bytes' env (DepBytes g) (w.acc k) := by
  constructor
  · rintro ⟨h1, ⟨b, r, hb, hl, hdec⟩, h3, h4⟩
    exact ⟨h1, b, hb, hl, ⟨r, hdec⟩, h3, h4⟩
  · rintro ⟨h1, b, hb, hl, ⟨r, hdec⟩, h3, h4⟩
    exact ⟨h1, ⟨b, r, hb, hl, hdec⟩, h3, h4⟩

theorem depBytes_zeros (g : GenericDeposit) (n : Nat) : ¬ DepBytes g (zeros n) := by
  rintro ⟨-, ⟨r, hdec⟩, hi, -⟩
  obtain ⟨q, hq⟩ := header_genericDeposit hdec
  have := zeros_any hq
  rw [hi] at this
  cases this

theorem dep_back_op {op : Op} {g : GenericDeposit} (hd : env.Distinct) (hp : ctx.program = env.tpId) (hW : Why env ctx w0 i op)
    (he : Exec env ctx op w w') (h : DepositAt env w' k g) :
    DepositAt env w k g ∨ ∃ sd, depositSeed i = some sd ∧ IsAddr env ctx.program (depositSeeds sd) k := by
  rcases op_back hd hp (depBytes_zeros g) he (depositAt_bytes.1 h) with h | ⟨b1, b, hop, how, hb1, hb, hl, ⟨r, hdec⟩, hi, n, hk⟩
  · exact .inl (depositAt_bytes.2 h)
  obtain ⟨q, hq⟩ := header_genericDeposit hdec
  rw [hi, hk] at hq
  right
  subst hop
  cases hW with
  | new k b' hn =>
    cases hn with
    | settings g m wm n pn ha hu hs =>
      obtain ⟨q', hq'⟩ := header_settings hs.dec
      rw [hq] at hq'; simp at hq'
    | multiVault g m wm n ha hs =>
      obtain ⟨q', hq'⟩ := header_multiVault hs.dec
      rw [hq] at hq'; simp at hq'
    | tokenSol sd nm y a rc v e p mint vault n vn hn hy ha hv hs h7 hl =>
      obtain ⟨q', hq'⟩ := header_token hs.dec
      rw [hq] at hq'; simp [freshTokenSettings] at hq'
    | tokenEver kw r mint n mn hr ha hm hs h3 hl =>
      obtain ⟨q', hq'⟩ := header_token hs.dec
      rw [hq] at hq'; simp [freshTokenSettings] at hq'
    | depositEver sd a rc v e p n au ev ha hsig hs => exact ⟨sd, rfl, _, ha⟩
    | depositSol sd i n au ev hi ha hsig hs =>
      rcases hi with ⟨_, _, _, _, _, _, _, rfl⟩ | ⟨_, _, _, _, rfl⟩ | ⟨_, _, _, _, _, rfl⟩ <;> exact ⟨sd, rfl, _, ha⟩
    | ever pda t nm y d rc a p att n pn au rs rr hrd ha hsig hs =>
      obtain ⟨q', hq'⟩ := header_withdrawal hs.dec
      rw [hq] at hq'; simp [withdrawalRecord] at hq'
    | sol pda rc a p att n pn au mint rs rr hrd ha hsig hs =>
      obtain ⟨q', hq'⟩ := header_withdrawal hs.dec
      rw [hq] at hq'; simp [withdrawalRecord] at hq'
  | settings k b b' r n' pn' s2 s3 hl2 hd2 hini hk2 ha hc h0 hs =>
    obtain ⟨q', hq'⟩ := header_settings hs.dec
    rw [hc.kind.2, hk2, hq] at hq'; simp at hq'
  | token k b b' r n' pn' s2 s3 hl2 hd2 hini hk2 ha hc h0 hs =>
    obtain ⟨q', hq'⟩ := header_token hs.dec
    rw [hc.kinds.2.1, hk2, hq] at hq'; simp at hq'
  | ever k b b' r x x' hl hd2 hini ha hk2 h0 hc hs =>
    obtain ⟨q', hq'⟩ := header_withdrawal hs.dec
    obtain ⟨n', pn', hk2⟩ := hk2
    rw [hc.kind.2, hk2, hq] at hq'; simp at hq'
  | sol k b b' r x x' hl hd2 hini ha hk2 h0 hc hs =>
    obtain ⟨q', hq'⟩ := header_withdrawal hs.dec
    obtain ⟨n', pn', hk2⟩ := hk2
    rw [hc.kind.2, hk2, hq] at hq'; simp at hq'
  | vote k kr v b b' r p j x rr n' pn' hi h0 hx hd2 hk2 ha hr hri hra hv hsig hold hs =>
    obtain ⟨q', hq'⟩ := header_genericProposal hs.dec
    simp only [hk2, hq] at hq'; simp at hq'

theorem dep_back_run {g : GenericDeposit} (hd : env.Distinct) (hp : ctx.program = env.tpId) (h : TP.run env ctx noCpi i w = .ok w')
    (hs : DepositAt env w' k g) : DepositAt env w k g ∨ ∃ sd, depositSeed i = some sd ∧ IsAddr env ctx.program (depositSeeds sd) k :=
  (run_ops h).lift (R := fun x y => DepositAt env y k g → DepositAt env x k g ∨ ∃ sd, depositSeed i = some sd ∧ IsAddr env ctx.program (depositSeeds sd) k)
    (fun _ h => .inl h)
    (fun _ _ _ f h s => by
      rcases h s with h | h
      · exact f h
      · exact .inr h)
    (fun _ _ _ hW he h => dep_back_op hd hp hW he h) hs

/-- An instruction that makes a deposit record makes it in one of the four ways. -/
theorem dep_made {e : Ev} {g : GenericDeposit} {sd : U128} (hp : ctx.program = env.tpId) (hact : e.act = .tp ctx i)
    (h : TP.run env ctx noCpi i e.pre = .ok e.post) (hi : depositSeed i = some sd) (hk : IsAddr env ctx.program (depositSeeds sd) k)
    (hg : DepositAt env e.post k g) : g.metaData = u128.enc sd ∧ Deposits env k sd e g ∧ ∀ g', ¬ DepositAt env e.pre k g' := by
  have key : ∀ {E : Type} {ec : Codec E} {dp cr : Pubkey} {x : E}, DepositMade ec env ctx e.pre e.post dp cr sd x →
      dp = k ∧ g.author = cr ∧ g.event = ec.enc x ∧ g.metaData = u128.enc sd ∧ ∀ g', ¬ DepositAt env e.pre k g' := by
    intro E ec dp cr x hm
    have : dp = k := hm.addr.unique hk
    subst this
    obtain ⟨n, hn⟩ := hm.generic
    have := hg.2.1.unique hn
    subst this
    refine ⟨rfl, rfl, rfl, rfl, fun g' hg' => ?_⟩
    have := holds_len hg'.2.1
    rw [hm.vacant.2] at this
    cases this
  cases i <;> simp only [depositSeed, Option.some.injEq, reduceCtorEq] at hi <;> subst hi
  · obtain ⟨f, cr, ct, dp, mi, mv, kt, t, mk, token, d, m, t', fee, net, tr, -, a1, a2, a3, a4, -, a6, hsig, hto, hkd, -, hmi, hm, -, hfee, hnet, htr, hb, -, -,
      hdep, -⟩ := depositEver_fx h
    obtain ⟨rfl, rfl, e2, e3, e4⟩ := key hdep
    exact ⟨e3, .ever ctx _ _ _ _ _ ct mi kt mk t token d m fee.toNat net.toNat tr hact a1 a2 a3 hsig hto hkd (hp ▸ hmi) hm ((C20_fee_value _ _ _).1 hfee) hnet
      (fun h1 h2 => (C21_deposit_exact net d m.decimals h1 h2 tr).1 htr) hb e2, e4⟩
  · obtain ⟨cr, dp, mi, kt, t', dec, fee, credit, a1, a4, a5, a7, hsig, ht, -, hfee, hcr, hdep, -⟩ := C31_record_sol h
    obtain ⟨rfl, rfl, e2, e3, e4⟩ := key hdep
    exact ⟨e3, .sol ctx _ _ _ _ _ _ _ mi kt t' dec fee credit hact a1 a4 a5 hsig ht hfee hcr e2, e4⟩
  · obtain ⟨f, au, mi, kw, dp, kt, mv, r, t, tv, m, fee, refund, -, h1, -, h3, h4, h6, -, hsig, hw, hau, hst, ho, ht, hkd, -, -, -, -, hfee, -, hr, hno, hdm,
      hrec, hown, -⟩ := cancel_fx h
    obtain ⟨rfl, rfl, e2, e3, e4⟩ := key hdm
    exact ⟨e3, .cancel ctx _ _ _ _ kw r t.name t.symbol m.decimals refund hact h1 h4 hsig hw (ho.trans hp) hst hau (by omega) ⟨hw.1, hrec, hw.2.2⟩ hno e2, e4⟩
  · obtain ⟨f, au, src, mi, dp, kt, mv, t, tm, tv, m, kv, fs, rest, fee, net, -, h1, h2, -, h4, h7, -, hacc, hsig, ht, hkd, hem, -, -, -, hkv, hnd, hall, hbal,
      hsame, -, hfee, hnet, hdm, -⟩ := fill_fx h
    obtain ⟨rfl, rfl, e2, e3, e4⟩ := key hdm
    exact ⟨e3, .fill ctx _ _ _ _ _ kt tm tv t m.decimals fee.toNat (net.setWidth 128) hact h1 h4 hsig ht hkd ((C20_fee_value _ _ _).1 hfee)
      (by rw [BitVec.toNat_setWidth, Nat.mod_eq_of_lt (Nat.lt_of_lt_of_le net.isLt (by decide))]; exact hnet) e2, e4⟩

/-- A deposit record after a step was there before, or was made in this step. -/
theorem dep_back {e : Ev} {g : GenericDeposit} (hd : env.Distinct) (h : EvStep env L e) (hs : DepositAt env e.post k g) :
    DepositAt env e.pre k g ∨ (∃ sd, IsAddr env env.tpId (depositSeeds sd) k ∧ g.metaData = u128.enc sd ∧ Deposits env k sd e g) ∧
      ∀ g', ¬ DepositAt env e.pre k g' := by
  cases h with
  | quiet _ h =>
    left
    rw [depositAt_bytes] at hs ⊢
    refine quiet_back ?_ (fun a h => h.1) ?_ h hs
    · rintro a a' ⟨h1, h2⟩ e1 e2
      rw [e2] at h2
      exact ⟨e1.symm.trans h1, h2⟩
    · rintro a n ⟨h1, b, hb, hq⟩ hz
      rw [hb] at hz
      cases hz
      exact depBytes_zeros _ _ hq
  | tp ctx i hact hp hs' hr =>
    rcases dep_back_run hd hp hr hs with h | ⟨sd, h1, h2⟩
    · exact .inl h
    · obtain ⟨a, b, c⟩ := dep_made hp hact hr h1 h2 hs
      exact .inr ⟨⟨sd, hp ▸ h2, a, b⟩, c⟩
  | stale ctx i p w1 hact hp hs' hst =>
    left
    rw [depositAt_bytes] at hs ⊢
    obtain ⟨ho, b, hb, hl, ⟨r, hdec⟩, hi, n, hk⟩ := hs
    obtain ⟨q, hq⟩ := header_genericDeposit hdec
    have := hst.unless (k := k) (kd := g.accountKind) (ini := g.isInitialized) (fun _ _ => by rw [hk]; simp) ⟨b, q, hb, hq⟩
    rw [this] at ho hb
    exact ⟨ho, b, hb, hl, ⟨r, hdec⟩, hi, n, hk⟩
  | purge _ h =>
    left
    unfold DepositAt at hs ⊢
    rw [h.2 k] at hs
    split at hs
    · exact (hd.tpSys hs.1.symm).elim
    · exact hs

/-- C92: every deposit record was made in an earlier step, in one of the four ways, at the address of its seed, which held none before. Since then it
has been there unchanged. -/
theorem C92_origin {tr : List Ev} {g : GenericDeposit} (hd : env.Distinct) (hg : Genesis env L w0) (hr : Run env L true w0 tr w)
    (hw : DepositAt env w k g) :
    ∃ sd t1 e t2, tr = t1 ++ e :: t2 ∧ IsAddr env env.tpId (depositSeeds sd) k ∧ g.metaData = u128.enc sd ∧ Deposits env k sd e g ∧
      (∀ g', ¬ DepositAt env e.pre k g') ∧ ∀ e' ∈ t2, DepositAt env e'.pre k g := by
  have hev := fun e he => hr.evs hd e he
  exact hr.fold (P := fun w t => ∀ g, DepositAt env w k g → ∃ sd t1 e t2, t = t1 ++ e :: t2 ∧ IsAddr env env.tpId (depositSeeds sd) k ∧
      g.metaData = u128.enc sd ∧ Deposits env k sd e g ∧ (∀ g', ¬ DepositAt env e.pre k g') ∧ ∀ e' ∈ t2, DepositAt env e'.pre k g) []
    (fun g h => ((hg.owner k).2 h.1).elim)
    (fun e he t hP g hg => by
      rcases dep_back hd (hev e he) hg with h | ⟨⟨sd, h1, h2, h3⟩, h4⟩
      · obtain ⟨sd, t1, e0, t2, rfl, a1, a2, a3, a4, a5⟩ := hP g h
        refine ⟨sd, t1, e0, t2 ++ [e], by simp, a1, a2, a3, a4, fun e' he' => ?_⟩
        rcases List.mem_append.1 he' with hm | hm
        · exact a5 e' hm
        · rw [List.mem_singleton.1 hm]; exact h
      · exact ⟨sd, t, e, [], by simp, h1, h2, h3, h4, fun _ h => by cases h⟩) g hw

/-- The hypotheses are met: after the first deposit its record is there. -/
example : ∃ w0 tr g, Genesis Toy.env Toy.L w0 ∧ Run Toy.env Toy.L true w0 tr (Toy.get Toy.tpDeposited) ∧
    DepositAt Toy.env (Toy.get Toy.tpDeposited) (Toy.tpDep 1) g := by
  obtain ⟨w0, tr, h0, hr⟩ := Toy.reach_tpDeposited
  obtain ⟨g, ho, hl, hg, hP⟩ := Toy.tfind (c := genericDepositC) (w := Toy.get Toy.tpDeposited) (k := Toy.tpDep 1)
    (P := fun g => g.isInitialized && g.accountKind.intoDeposit.isSome) (by decide +kernel)
  simp only [Bool.and_eq_true, Option.isSome_iff_exists, intoDeposit_some] at hP
  exact ⟨w0, tr, g, h0, hr, ho, hg, hP⟩

end Verif.Props
