import Verif.Spec.Order
import Verif.Lemmas.TPInv
import Verif.Lemmas.RLLive
/-!
# Votes of different relays commute
-/
set_option linter.unusedSimpArgs false
namespace Verif
open Codec

/-- A record with votes. -/
structure Votable (P : Type) where
  c : Codec P
  votes : P → List Vote
  put : P → List Vote → P
  votes_put : ∀ p s, votes (put p s) = s
  put_put : ∀ p s s', put (put p s) s' = put p s'
  wf : ∀ p s, s.length = (votes p).length → c.wf p = true → c.wf (put p s) = true
  len : ∀ p s, s.length = (votes p).length → (c.enc (put p s)).length = (c.enc p).length

/-- The data of `k` is replaced and the costs of a vote move from `k` to `x`. -/
def paidVote (k x : Pubkey) (d : Data) (w : World) : World :=
  ⟨fun j => if j = k then { w.acc k with data := d, lamports := (w.acc k).lamports - relayReparation }
    else if j = x then { w.acc x with lamports := (w.acc x).lamports + relayReparation } else w.acc j, w.logs⟩

/-- What a vote at position `i` does. -/
def CastAt {P : Type} (R : Votable P) (G : P → Nat → Prop) (ctx : Ctx) (k x : Pubkey) (i : Nat) (v : Vote) (w w' : World) : Prop :=
  ∃ b p t, (w.acc k).data = .raw b ∧ R.c.dec b = some (p, t) ∧ G p b.length ∧ ∃ old, (R.votes p)[i]? = some old ∧
    ((old ≠ .none ∧ w' = w) ∨ (old = .none ∧ ctx.isWritable k = true ∧ (w.acc k).owner = ctx.program ∧ relayReparation ≤ (w.acc k).lamports ∧
      ctx.isWritable x = true ∧ (w.acc x).lamports + relayReparation < 2 ^ 64 ∧
      w' = paidVote k x (.raw (R.c.enc (R.put p ((R.votes p).set i v)) ++ t)) w))

theorem paidVote_swap {k x y : Pubkey} {d e f : Data} {w : World} (hxy : x ≠ y) (hx : x ≠ k) (hy : y ≠ k) :
    paidVote k y f (paidVote k x d w) = paidVote k x f (paidVote k y e w) := by
  simp only [paidVote, World.mk.injEq, and_true]
  funext j
  by_cases h1 : j = k
  · subst h1; simp
  · by_cases h2 : j = x
    · subst h2; simp [h1, hxy]
    · by_cases h3 : j = y
      · subst h3; simp [h1, h2]
      · simp [h1, h2, h3]

section
variable {P : Type} {R : Votable P} {G H : P → Nat → Prop} {ca cb : Ctx} {k x y : Pubkey} {i j : Nat} {u v : Vote} {w w1 w2 : World}

theorem CastAt.data (h : CastAt R G ca k x i u w w1) {q : Pubkey} (hq : q ≠ k) : (w1.acc q).data = (w.acc q).data := by
  obtain ⟨-, -, -, -, -, -, -, -, ⟨-, rfl⟩ | ⟨-, -, -, -, -, -, rfl⟩⟩ := h
  · rfl
  · simp only [paidVote, if_neg hq]
    split
    · rename_i e; rw [e]
    · rfl

private theorem set_dec {p : P} {b t : Bytes} (h : R.c.dec b = some (p, t)) :
    R.c.dec (R.c.enc (R.put p ((R.votes p).set i u)) ++ t) = some (R.put p ((R.votes p).set i u), t) ∧
      (R.c.enc (R.put p ((R.votes p).set i u)) ++ t).length = b.length := by
  have hl : ((R.votes p).set i u).length = (R.votes p).length := by simp
  refine ⟨R.c.dec_enc _ _ (R.wf _ _ hl (R.c.wf_of_dec h)), ?_⟩
  rw [R.c.eq_of_dec h, List.length_append, List.length_append, R.len _ _ hl]

theorem CastAt.swap (hG : ∀ p s n, G (R.put p s) n ↔ G p n) (hH : ∀ p s n, H (R.put p s) n ↔ H p n) (hij : i ≠ j) (hxy : x ≠ y) (hx : x ≠ k)
    (hy : y ≠ k) (h1 : CastAt R G ca k x i u w w1) (h2 : CastAt R H cb k y j v w1 w2) :
    ∃ v1, CastAt R H cb k y j v w v1 ∧ CastAt R G ca k x i u v1 w2 := by
  obtain ⟨b, p, t, hb, hp, hg, old, ho, ⟨hn, rfl⟩ | ⟨rfl, hwk, hok, hlk, hwx, hrx, rfl⟩⟩ := h1
  · obtain ⟨b', p', t', hb', hp', hh, old', ho', ⟨hn', rfl⟩ | ⟨rfl, hwk', hok', hlk', hwy, hry, rfl⟩⟩ := h2
    · exact ⟨_, ⟨b', p', t', hb', hp', hh, old', ho', .inl ⟨hn', rfl⟩⟩, ⟨b, p, t, hb, hp, hg, old, ho, .inl ⟨hn, rfl⟩⟩⟩
    · rw [hb] at hb'; cases hb'
      rw [hp] at hp'; cases hp'
      obtain ⟨d1, d2⟩ := set_dec (i := j) (u := v) hp
      refine ⟨_, ⟨b, p, t, hb, hp, hh, .none, ho', .inr ⟨rfl, hwk', hok', hlk', hwy, hry, rfl⟩⟩, ⟨_, _, t, by simp [paidVote], d1, ?_, old, ?_,
        .inl ⟨hn, rfl⟩⟩⟩
      · rw [hG, d2]; exact hg
      · rw [R.votes_put, List.getElem?_set_ne hij.symm]; exact ho
  · obtain ⟨d1, d2⟩ := set_dec (i := i) (u := u) hp
    obtain ⟨b', p', t', hb', hp', hh, old', ho', hcase⟩ := h2
    simp only [paidVote, if_true, Data.raw.injEq] at hb'
    subst hb'
    rw [d1] at hp'; cases hp'
    rw [hH, d2] at hh
    rw [R.votes_put, List.getElem?_set_ne hij] at ho'
    rcases hcase with ⟨hn', rfl⟩ | ⟨rfl, hwk', hok', hlk', hwy, hry, rfl⟩
    · exact ⟨w, ⟨b, p, t, hb, hp, hh, old', ho', .inl ⟨hn', rfl⟩⟩, ⟨b, p, t, hb, hp, hg, .none, ho,
        .inr ⟨rfl, hwk, hok, hlk, hwx, hrx, rfl⟩⟩⟩
    · obtain ⟨e1, e2⟩ := set_dec (i := j) (u := v) hp
      simp only [paidVote, if_true, if_neg hy, if_neg hxy.symm] at hok' hlk' hry
      refine ⟨_, ⟨b, p, t, hb, hp, hh, .none, ho', .inr ⟨rfl, hwk', hok', by omega, hwy, hry, rfl⟩⟩, ⟨_, _, t, by simp [paidVote], e1, ?_, .none, ?_,
        .inr ⟨rfl, hwk, ?_, ?_, hwx, ?_, ?_⟩⟩⟩
      · rw [hG, e2]; exact hg
      · rw [R.votes_put, List.getElem?_set_ne hij.symm]; exact ho
      · simpa [paidVote] using hok
      · simpa [paidVote] using hlk'
      · simpa [paidVote, hx, hxy] using hrx
      · rw [R.votes_put, R.votes_put, R.put_put, R.put_put, List.set_comm _ _ hij]
        exact paidVote_swap hxy hx hy

/-- Storing the vote and moving the lamports. -/
theorem slot_iff {p : P} {b t : Bytes} {f : World → Except Err World} (hx : x ≠ k) (hb : (w.acc k).data = .raw b)
    (hp : R.c.dec b = some (p, t))
    (hf : ∀ w', f w = .ok w' ↔ ∃ b', Stored R.c (R.put p ((R.votes p).set i u)) b b' ∧
      (b' = b ∨ (ca.isWritable k = true ∧ (w.acc k).owner = ca.program)) ∧ w' = w.setDataRaw k (.raw b')) :
    (∃ w0, f w = .ok w0 ∧ moveLamports ca k x relayReparation w0 = .ok w1) ↔
      (ca.isWritable k = true ∧ (w.acc k).owner = ca.program ∧ relayReparation ≤ (w.acc k).lamports ∧
      ca.isWritable x = true ∧ (w.acc x).lamports + relayReparation < 2 ^ 64 ∧
      w1 = paidVote k x (.raw (R.c.enc (R.put p ((R.votes p).set i u)) ++ t)) w) := by
  have hl : ((R.votes p).set i u).length = (R.votes p).length := by simp
  have hbe := R.c.eq_of_dec hp
  have hst : ∀ b', Stored R.c (R.put p ((R.votes p).set i u)) b b' ↔ b' = R.c.enc (R.put p ((R.votes p).set i u)) ++ t := fun b' => by
    have hd : b.drop (R.c.enc (R.put p ((R.votes p).set i u))).length = t := by rw [hbe, R.len _ _ hl]; simp
    constructor
    · intro h; rw [h.eq, hd]
    · intro h
      exact ⟨R.wf _ _ hl (R.c.wf_of_dec hp), by rw [R.len _ _ hl, hbe]; simp, by rw [h, hd]⟩
  have h0 : relayReparation ≠ 0 := by decide
  simp only [hf, hst, moveLamports, debit, credit, bind_ok, require_ok, exists_const, Except.ok.injEq, h0, false_or]
  have hmv : ∀ d, ((w.setDataRaw k d).setLamports k (((w.setDataRaw k d).acc k).lamports - relayReparation)).setLamports x
      ((((w.setDataRaw k d).setLamports k (((w.setDataRaw k d).acc k).lamports - relayReparation)).acc x).lamports + relayReparation) =
      paidVote k x d w := fun d => by
    simp only [World.setDataRaw, World.setLamports, World.set, paidVote, World.mk.injEq, and_true]
    funext j
    by_cases h1 : j = k
    · subst h1; simp [hx, hx.symm]
    · by_cases h2 : j = x
      · subst h2; simp [h1]
      · simp [h1, h2]
  constructor
  · rintro ⟨w0, ⟨b', rfl, -, rfl⟩, w2, ⟨h1, h2, h3, rfl⟩, h4, h5, rfl⟩
    simp only [World.setDataRaw, World.setLamports, World.set, if_true, if_neg hx] at h1 h3 h4
    exact ⟨h2, h3, h1, h5, h4, hmv _⟩
  · rintro ⟨h1, h2, h3, h4, h5, rfl⟩
    refine ⟨_, ⟨_, rfl, .inr ⟨h1, h2⟩, rfl⟩, _, ⟨?_, h1, ?_, rfl⟩, ?_, h4, hmv _⟩
    · simpa [World.setDataRaw, World.set] using h3
    · simpa [World.setDataRaw, World.set] using h2
    · simpa [World.setDataRaw, World.setLamports, World.set, hx] using h5

end

theorem findIdx_ne {l : List Pubkey} {x y : Pubkey} {i j : Nat} (hi : l.findIdx? (fun z => z == x) = some i)
    (hj : l.findIdx? (fun z => z == y) = some j) (h : x ≠ y) : i ≠ j := by
  rintro rfl
  rw [List.findIdx?_eq_some_iff_getElem] at hi hj
  obtain ⟨h1, h2, -⟩ := hi
  obtain ⟨h3, h4, -⟩ := hj
  exact h ((beq_iff_eq.1 h2).symm.trans (beq_iff_eq.1 h4))

namespace TP
variable {env : Env} {ctx ca cb : Ctx} {k x y : Pubkey} {u v : Vote} {w w' w1 w2 : World}

def votable : Votable GenericProposal where
  c := GenericProposal.codec
  votes := (·.signers)
  put p s := { p with signers := s }
  votes_put _ _ := rfl
  put_put _ _ _ := rfl
  wf p s hs h := by
    simp only [GenericProposal.codec, wf_iso, wf_pair, Bool.and_eq_true, wf_vec, decide_eq_true_eq] at h ⊢
    refine ⟨rfl, h.2.1, rfl, rfl, rfl, h.2.2.2.2.2.1, h.2.2.2.2.2.2.1, h.2.2.2.2.2.2.2.1, ?_, ?_⟩
    · rw [hs]; exact h.2.2.2.2.2.2.2.2.1
    · simp
  len p s hs := by
    simp only [GenericProposal.codec, enc_iso, enc_pair, List.length_append, RL.len_votes, hs]

/-- What a vote requires of the record `k` beside the votes. -/
def Ballot (env : Env) (ctx : Ctx) (k kr : Pubkey) (r : RL.RelayRound) (p : GenericProposal) (_ : Nat) : Prop :=
  (∃ n pn, p.accountKind = .proposal n pn ∧ findAddr env (proposalSeeds p.roundNumber p.pda (env.hash p.event)) ctx.program = .ok (k, n)) ∧
    ∃ n, r.accountKind = .relayRound n ∧ findAddr env (relayRoundSeeds p.roundNumber) env.rlId = .ok (kr, n)

theorem vote_slot (hx : ctx.accounts[0]? = some x) (hk : ctx.accounts[1]? = some k) (hne : x ≠ k) :
    processVote env ctx v w = .ok w' ↔ ∃ kr r i, ctx.accounts[2]? = some kr ∧ ctx.isSigner x = true ∧ v ≠ .none ∧
      Holds RL.relayRoundC RL.relayRoundLen (w.acc kr) r ∧ r.isInitialized = true ∧ r.relays.findIdx? (fun z => z == x) = some i ∧
      CastAt votable (Ballot env ctx k kr r) ctx k x i v w w' := by
  simp only [processVote, bind_ok, acct_ok, require_ok, exists_const, loadGeneric_ok, unpack_holds, orErr_ok, intoRelayRound_some, validateRelayRound,
    validatePda_ok, hx, hk, Option.some.injEq, exists_eq_left']
  have key : ∀ {p : GenericProposal} {b t : Bytes} {i : Nat} {old : Vote}, v ≠ .none → (w.acc k).data = .raw b → GenericProposal.codec.dec b = some (p, t) →
      ((if old = .none then do
          let w ← packRaw ctx GenericProposal.codec { p with signers := p.signers.set i v } k w
          moveLamports ctx k x relayReparation w
        else .ok w) = .ok w' ↔
      ((old ≠ .none ∧ w' = w) ∨ (old = .none ∧ ctx.isWritable k = true ∧ (w.acc k).owner = ctx.program ∧ relayReparation ≤ (w.acc k).lamports ∧
      ctx.isWritable x = true ∧ (w.acc x).lamports + relayReparation < 2 ^ 64 ∧
      w' = paidVote k x (.raw (votable.c.enc (votable.put p ((votable.votes p).set i v)) ++ t)) w))) := by
    intro p b t i old hv hb hp
    by_cases ho : old = .none
    · simp only [ho, if_true, bind_ok, ne_eq, not_true_eq_false, false_and, false_or, true_and]
      exact slot_iff (R := votable) (f := packRaw ctx GenericProposal.codec { p with signers := p.signers.set i v } k) hne hb hp fun w1 => by
        rw [packRaw_ok]
        constructor
        · rintro ⟨b1, b', h1, h2, h3, h4⟩
          rw [hb] at h1; cases h1
          exact ⟨b', h2, h3, h4⟩
        · rintro ⟨b', h2, h3, h4⟩
          exact ⟨b, b', hb, h2, h3, h4⟩
    · simp only [ho, if_false, Except.ok.injEq, ne_eq, not_false_eq_true, true_and, false_and, or_false]
      exact eq_comm
  constructor
  · rintro ⟨kr, hkr, hs, hv, p, ⟨⟨b, t, hb, hp⟩, hpk⟩, r, ⟨hr, hri⟩, n, hn, hna, i, hi, old, ho, h⟩
    exact ⟨kr, r, i, hkr, hs, hv, hr, hri, hi, b, p, t, hb, hp, ⟨hpk, n, hn, hna⟩, old, ho, (key hv hb hp).1 h⟩
  · rintro ⟨kr, r, i, hkr, hs, hv, hr, hri, hi, b, p, t, hb, hp, ⟨hpk, n, hn, hna⟩, old, ho, h⟩
    exact ⟨kr, hkr, hs, hv, p, ⟨⟨b, t, hb, hp⟩, hpk⟩, r, ⟨hr, hri⟩, n, hn, hna, i, hi, old, ho, (key hv hb hp).2 h⟩

private theorem round_ne {kr : Pubkey} {r : RL.RelayRound} {i : Nat} (hr : Holds RL.relayRoundC RL.relayRoundLen (w.acc kr) r)
    (h : CastAt votable (Ballot env ctx k kr r) ctx k x i v w w') : kr ≠ k := by
  rintro rfl
  obtain ⟨b, p, t, hb, hp, ⟨⟨n, pn, hk, -⟩, n', hk', -⟩, -⟩ := h
  obtain ⟨s, hs⟩ := header_genericProposal hp
  have h2 : ∃ s, headerC.dec b = some ((r.isInitialized, r.accountKind), s) := by
    obtain ⟨b', t', hb', -, hr⟩ := hr
    rw [hb] at hb'; cases hb'
    exact ⟨_, header_of (d := pair u32 (pair u32 (vec key))) (hd := fun x => (x.isInitialized, x.accountKind))
      (tl := fun s => (s.roundNumber, s.roundEnd, s.relays)) (by intro a; simp [RL.relayRoundC, headerC]) hr⟩
  obtain ⟨s', hs'⟩ := h2
  rw [hs] at hs'
  simp only [Option.some.injEq, Prod.mk.injEq] at hs'
  rw [hk, hk'] at hs'
  cases hs'.1.2

theorem vote_swap (hx : ca.accounts[0]? = some x) (hka : ca.accounts[1]? = some k) (hy : cb.accounts[0]? = some y) (hkb : cb.accounts[1]? = some k)
    (hxy : x ≠ y) (hxk : x ≠ k) (hyk : y ≠ k) (h1 : processVote env ca u w = .ok w1) (h2 : processVote env cb v w1 = .ok w2) :
    ∃ v1, processVote env cb v w = .ok v1 ∧ processVote env ca u v1 = .ok w2 := by
  rw [vote_slot hx hka hxk] at h1
  rw [vote_slot hy hkb hyk] at h2
  obtain ⟨kr, r, i, a1, a2, a3, a4, a5, a6, s1⟩ := h1
  obtain ⟨kr', r', j, b1, b2, b3, b4, b5, b6, s2⟩ := h2
  have hkr : kr' = kr := by
    obtain ⟨b, p, t, hb, hp, ⟨-, n, -, hn⟩, old, -, ⟨-, rfl⟩ | ⟨-, -, -, -, -, -, rfl⟩⟩ := s1
    · obtain ⟨b', p', t', hb', hp', ⟨-, n', -, hn'⟩, -⟩ := s2
      rw [hb] at hb'; cases hb'
      rw [hp] at hp'; cases hp'
      rw [hn] at hn'; cases hn'; rfl
    · obtain ⟨b', p', t', hb', hp', ⟨-, n', -, hn'⟩, -⟩ := s2
      simp only [paidVote, if_true, Data.raw.injEq] at hb'
      subst hb'
      obtain ⟨d1, -⟩ := set_dec (R := votable) (i := i) (u := u) hp
      rw [d1] at hp'; cases hp'
      have hn'' : findAddr env (relayRoundSeeds p.roundNumber) env.rlId = .ok (kr', n') := hn'
      rw [hn] at hn''; cases hn''; rfl
  subst hkr
  have hne := round_ne a4 s1
  have hd1 := s1.data hne
  have hr : r' = r := by
    obtain ⟨b, t, c1, -, c2⟩ := a4
    obtain ⟨b', t', c3, -, c4⟩ := b4
    rw [hd1, c1] at c3; cases c3
    rw [c2] at c4; cases c4; rfl
  subst hr
  obtain ⟨v1, s3, s4⟩ := CastAt.swap (fun _ _ _ => .rfl) (fun _ _ _ => .rfl) (findIdx_ne a6 b6 hxy) hxy hxk hyk s1 s2
  refine ⟨v1, (vote_slot hy hkb hyk).2 ⟨kr', r', j, b1, b2, b3, a4, b5, b6, s3⟩,
    (vote_slot hx hka hxk).2 ⟨kr', r', i, a1, a2, a3, ?_, a5, a6, s4⟩⟩
  obtain ⟨b, t, c1, c2, c3⟩ := a4
  exact ⟨b, t, by rw [s3.data hne]; exact c1, c2, c3⟩

end TP

namespace RL
variable {env : Env} {ctx ca cb : Ctx} {k kr x y : Pubkey} {u v : Vote} {w w' w1 w2 : World}

def votable : Votable Proposal where
  c := proposalC
  votes := (·.signers)
  put p s := { p with signers := s }
  votes_put _ _ := rfl
  put_put _ _ _ := rfl
  wf p s hs h := wf_proposal h p.status s hs
  len p s hs := len_proposal p p.status s hs

/-- What a vote requires of the proposal `k` beside the votes. -/
def Ballot (env : Env) (ctx : Ctx) (k : Pubkey) (p : Proposal) (len : Nat) : Prop :=
  len = proposalLen ∧ p.isInitialized = true ∧ ∃ n pn, p.accountKind = .proposal n pn ∧
    findAddr env (proposalSeeds p.roundNumber p.pda (env.hash (eventC.enc p.event))) ctx.program = .ok (k, n)

theorem vote_slot (hx : ctx.accounts[0]? = some x) (hk : ctx.accounts[1]? = some k) (hr : ctx.accounts[2]? = some kr) (hne : x ≠ k) :
    processVote env ctx v w = .ok w' ↔ ∃ r i, ctx.isSigner x = true ∧ v ≠ .none ∧
      Holds relayRoundC relayRoundLen (w.acc kr) r ∧ (r.isInitialized = true ∧ ∃ n, r.accountKind = .relayRound n ∧
        findAddr env (relayRoundSeeds r.roundNumber) ctx.program = .ok (kr, n)) ∧ r.relays.findIdx? (fun z => z == x) = some i ∧
      CastAt votable (Ballot env ctx k) ctx k x i v w w' := by
  simp only [processVote, bind_ok, acct_ok, require_ok, exists_const, unpack_ok, orErr_ok, intoRelayRound_some, intoProposal_some, validateRelayRound,
    checkProposal, loadRelayRound, Prod.exists, validateProposal, validatePda_ok, hx, hk, hr, Option.some.injEq, exists_eq_left', Except.ok.injEq]
  have key : ∀ {p : Proposal} {b t : Bytes} {i : Nat} {old : Vote}, v ≠ .none → (w.acc k).data = .raw b → b.length = proposalLen →
      proposalC.dec b = some (p, t) →
      ((if old = .none then do
          let w ← pack ctx proposalC proposalLen { p with signers := p.signers.set i v } k w
          moveLamports ctx k x relayReparation w
        else .ok w) = .ok w' ↔
      ((old ≠ .none ∧ w' = w) ∨ (old = .none ∧ ctx.isWritable k = true ∧ (w.acc k).owner = ctx.program ∧ relayReparation ≤ (w.acc k).lamports ∧
      ctx.isWritable x = true ∧ (w.acc x).lamports + relayReparation < 2 ^ 64 ∧
      w' = paidVote k x (.raw (votable.c.enc (votable.put p ((votable.votes p).set i v)) ++ t)) w))) := by
    intro p b t i old hv hb hl hp
    by_cases ho : old = .none
    · simp only [ho, if_true, bind_ok, ne_eq, not_true_eq_false, false_and, false_or, true_and]
      exact slot_iff (R := votable) (f := pack ctx proposalC proposalLen { p with signers := p.signers.set i v } k) hne hb hp fun w1 => by
        rw [pack_ok]
        constructor
        · rintro ⟨b1, b', h1, -, h2, h3, h4⟩
          rw [hb] at h1; cases h1
          exact ⟨b', h2, h3, h4⟩
        · rintro ⟨b', h2, h3, h4⟩
          exact ⟨b, b', hb, hl, h2, h3, h4⟩
    · simp only [ho, if_false, Except.ok.injEq, ne_eq, not_false_eq_true, true_and, false_and, or_false]
      exact eq_comm
  constructor
  · rintro ⟨hs, hv, p, ⟨b, t, hb, hl, hp, hpi⟩, ⟨n, pn, hpk, hpa⟩, r, ⟨r', ⟨br, tr, hbr, hlr, hr, hri⟩, m, hm, hma, rfl⟩, i, hi, old, ho, h⟩
    exact ⟨r', i, hs, hv, ⟨br, tr, hbr, hlr, hr⟩, ⟨hri, m, hm, hma⟩, hi, b, p, t, hb, hp, ⟨hl, hpi, n, pn, hpk, hpa⟩, old, ho, (key hv hb hl hp).1 h⟩
  · rintro ⟨r, i, hs, hv, ⟨br, tr, hbr, hlr, hr⟩, ⟨hri, m, hm, hma⟩, hi, b, p, t, hb, hp, ⟨hl, hpi, n, pn, hpk, hpa⟩, old, ho, h⟩
    exact ⟨hs, hv, p, ⟨b, t, hb, hl, hp, hpi⟩, ⟨n, pn, hpk, hpa⟩, r, ⟨r, ⟨br, tr, hbr, hlr, hr, hri⟩, m, hm, hma, rfl⟩, i, hi, old, ho,
      (key hv hb hl hp).2 h⟩

theorem vote_swap (hx : ca.accounts[0]? = some x) (hka : ca.accounts[1]? = some k) (hra : ca.accounts[2]? = some kr) (hy : cb.accounts[0]? = some y)
    (hkb : cb.accounts[1]? = some k) (hrb : cb.accounts[2]? = some kr) (hxy : x ≠ y) (hxk : x ≠ k) (hyk : y ≠ k)
    (h1 : processVote env ca u w = .ok w1) (h2 : processVote env cb v w1 = .ok w2) :
    ∃ v1, processVote env cb v w = .ok v1 ∧ processVote env ca u v1 = .ok w2 := by
  rw [vote_slot hx hka hra hxk] at h1
  rw [vote_slot hy hkb hrb hyk] at h2
  obtain ⟨r, i, a2, a3, a4, a5, a6, s1⟩ := h1
  obtain ⟨r', j, b2, b3, b4, b5, b6, s2⟩ := h2
  have hne : kr ≠ k := by
    rintro rfl
    obtain ⟨b, p, t, hb, -, ⟨hl, -⟩, -⟩ := s1
    obtain ⟨b', t', hb', hl', -⟩ := a4
    rw [hb] at hb'; cases hb'
    rw [hl] at hl'
    exact absurd hl' (by decide)
  have hr : r' = r := by
    obtain ⟨b, t, c1, -, c2⟩ := a4
    obtain ⟨b', t', c3, -, c4⟩ := b4
    rw [s1.data hne, c1] at c3; cases c3
    rw [c2] at c4; cases c4; rfl
  subst hr
  obtain ⟨v1, s3, s4⟩ := CastAt.swap (fun _ _ _ => .rfl) (fun _ _ _ => .rfl) (findIdx_ne a6 b6 hxy) hxy hxk hyk s1 s2
  refine ⟨v1, (vote_slot hy hkb hrb hyk).2 ⟨r', j, b2, b3, a4, b5, b6, s3⟩, (vote_slot hx hka hra hxk).2 ⟨r', i, a2, a3, ?_, a5, a6, s4⟩⟩
  obtain ⟨b, t, c1, c2, c3⟩ := a4
  exact ⟨b, t, by rw [s3.data hne]; exact c1, c2, c3⟩

end RL
end Verif
