import Verif.Spec.ToyReach
import Verif.Spec.Daily
/-!
# More states of the toy chain that can occur
-/
set_option maxRecDepth 100000
namespace Verif.Toy
open Verif

theorem reach_tqInit : Reach env L (get tqInit) := reach_tp reach_executed rfl (by decide +kernel) (by decide +kernel)
theorem reach_tqDeposited : Reach env L (get tqDeposited) := reach_tp reach_tqInit rfl (by decide +kernel) (by decide +kernel)
theorem reach_tqReq : Reach env L (get tqReq) := reach_tp reach_tqDeposited rfl (by decide +kernel) (by decide +kernel)
theorem reach_tqVote1 : Reach env L (get tqVote1) := reach_tp reach_tqReq rfl (by decide +kernel) (by decide +kernel)
theorem reach_tqVote2 : Reach env L (get tqVote2) := reach_tp reach_tqVote1 rfl (by decide +kernel) (by decide +kernel)
theorem reach_tqVote3 : Reach env L (get tqVote3) := reach_tp reach_tqVote2 rfl (by decide +kernel) (by decide +kernel)
theorem reach_tqPaid : Reach env L (get tqPaid) := reach_tp reach_tqVote3 rfl (by decide +kernel) (by decide +kernel)
theorem reach_tqOld : Reach env L (get tqOld) := reach_tp reach_executed rfl (by decide +kernel) (by decide +kernel)

/-- Nobody signs for a locked key. -/
theorem free {c : Ctx} (hs : (c.signers.all (fun k => Nat.blt k.toNat 2000)) = true) : ∀ k ∈ c.signers, ¬ L k := by
  intro k hk hL
  have h1 := List.all_eq_true.1 hs k hk
  have h : (locked.map (fun k => k.toNat)).all (fun n => !(Nat.blt n 2000)) = true := by decide +kernel
  have h2 := List.all_eq_true.1 h _ (List.mem_map_of_mem hL)
  rw [h1] at h2; cases h2

theorem get_no {a : Except Err World} {c : Ctx} {i : TP.Instr} (hok : isOk a = true) (h : isOk (tp a c i) = false) :
    ∀ x, TP.run env c noCpi i (get a) ≠ .ok x := by
  intro x hx
  cases a with
  | error e => cases hok
  | ok w =>
    have : TP.run env c noCpi i w = .ok x := hx
    have e : tp (.ok w) c i = .ok x := this
    rw [e] at h
    cases h

theorem get_done (h : isOk tqDone = true) :
    TP.run env execCtx6 (cpiTo tpProxy (get tqInner)) .executePayloadSol (get tqPaid) = .ok (get tqDone) := by
  have h1 := get_bind (a := tqPaid) h
  exact (get_bind (a := tqInner) (f := fun c => TP.run env execCtx6 (cpiTo tpProxy c) .executePayloadSol (get tqPaid))
    (by show isOk _ = true; rw [h1]; rfl)).trans h1

/-! ## Withdrawals with one reading -/

/-- An event of a Solana token whose mint does not start with a zero byte has one reading. -/
theorem oneReading_sol {ev : Bytes} {e : TP.WSolEvent} (h : TP.wSolEventC.decAll ev = some e) (h0 : ∀ x, ev.head? = some x → x ≠ 0#8) :
    TP.OneReading ev := by
  obtain ⟨hw, rfl⟩ := (TP.wSolEventC.decAll_iff _ _).1 h
  constructor
  · intro rest e' r _ hd
    exfalso
    obtain ⟨-, hb⟩ := (TP.wEverEventC.law _ _ _).1 hd
    have hne : TP.wSolEventC.enc e ≠ [] := by
      intro hn
      have := congrArg List.length hn
      simp [TP.wSolEventC, Codec.enc_iso, Codec.enc_pair] at this
    cases he : TP.wSolEventC.enc e with
    | nil => exact hne he
    | cons x l =>
      rw [he] at hb h0
      have : (TP.wEverEventC.enc e').head? = some 0#8 := rfl
      have h1 : ((x :: l) ++ rest).head? = (TP.wEverEventC.enc e' ++ r).head? := congrArg List.head? hb
      have h2 : (TP.wEverEventC.enc e' ++ r).head? = some 0#8 := rfl
      rw [h2] at h1
      exact h0 x rfl (by simpa using h1)
  · intro rest e' r _ hd
    rw [TP.wSolEventC.dec_enc _ _ hw] at hd
    cases hd; rfl

/-- An event of a Solana token whose mint does not start with a zero byte? -/
def plainSol (ev : Bytes) : Bool :=
  (TP.wSolEventC.decAll ev).isSome && (match ev.head? with
    | some x => !(Nat.beq x.toNat 0)
    | none => true)

/-- An event of an Everscale token which, read as one of a Solana token, would have a payload longer than an account? -/
def plainEver (ev : Bytes) : Bool := (TP.wEverEventC.decAll ev).isSome && Nat.blt (ev.length + TP.recLen) (leDec ((ev.drop 80).take 4)) && Nat.ble 84 ev.length

theorem plainEver_sol {ev rest : Bytes} {x : TP.WSolEvent} {r : Bytes} (h : plainEver ev = true) (hl : rest.length ≤ TP.recLen)
    (hd : TP.wSolEventC.dec (ev ++ rest) = some (x, r)) : False := by
  simp only [plainEver, Bool.and_eq_true] at h
  obtain ⟨⟨-, h1⟩, h2⟩ := h
  rw [Nat.blt_eq] at h1
  have h2 := Nat.le_of_ble_eq_true h2
  obtain ⟨hwf, hb⟩ := (TP.wSolEventC.law _ _ _).1 hd
  have hp : x.payload.length < 2 ^ 32 := by
    simp only [TP.wSolEventC, Codec.wf_iso, Codec.wf_pair, Bool.and_eq_true, Codec.wf_bytes, decide_eq_true_eq] at hwf
    exact hwf.2.2.2
  have he : TP.wSolEventC.enc x = (Codec.key.enc x.mint ++ (Codec.u128.enc x.amount ++ Codec.key.enc x.recipient)) ++
      (leEnc 4 (BitVec.ofNat 32 x.payload.length).toNat ++ Codec.encAll Codec.u8 x.payload) := by
    show Codec.key.enc x.mint ++ (Codec.u128.enc x.amount ++ (Codec.key.enc x.recipient ++ _)) = _
    simp only [List.append_assoc]
    rfl
  have hlen : (Codec.key.enc x.mint ++ (Codec.u128.enc x.amount ++ Codec.key.enc x.recipient)).length = 80 := by simp
  have hlen' : (TP.wSolEventC.enc x).length = 84 + x.payload.length := by
    show (Codec.key.enc x.mint ++ (Codec.u128.enc x.amount ++ (Codec.key.enc x.recipient ++ Codec.bytes.enc x.payload))).length = _
    simp
    omega
  have hd1 : (ev.drop 80).take 4 = leEnc 4 (BitVec.ofNat 32 x.payload.length).toNat := by
    have e1 : ((ev ++ rest).drop 80).take 4 = (ev.drop 80).take 4 := by
      rw [List.drop_append_of_le_length (by omega), List.take_append_of_le_length (by simp; omega)]
    rw [← e1, hb, he, List.append_assoc, List.drop_append_of_le_length (by omega), List.drop_of_length_le (by omega), List.nil_append, List.append_assoc,
      List.take_append_of_le_length (by simp), List.take_of_length_le (by simp)]
  rw [hd1, leDec_leEnc, BitVec.toNat_ofNat, Nat.mod_eq_of_lt hp, Nat.mod_eq_of_lt (by omega)] at h1
  have := congrArg List.length hb
  rw [List.length_append, List.length_append, hlen'] at this
  omega

/-- Does `k` hold either no record or a withdrawal with one reading? -/
def plain (k : Pubkey) (w : World) : Bool :=
  match (w.acc k).data with
  | .raw b => match GenericProposal.codec.dec b with
    | some (p, _) => !p.isInitialized || plainSol p.event || plainEver p.event
    | none => true
  | _ => true

theorem plain_ok {k : Pubkey} {w : World} (h : plain k w = true) {p : GenericProposal} {md : TP.WMeta}
    (h0 : TP.WithdrawalAt env w k p md) : TP.OneReading p.event := by
  obtain ⟨-, ⟨b, r, hb, -, hd⟩, hi, -⟩ := h0
  unfold plain at h
  rw [hb] at h
  simp only [hd, hi, Bool.not_true, Bool.false_or, Bool.or_eq_true] at h
  rcases h with h | h
  · simp only [plainSol, Bool.and_eq_true] at h
    obtain ⟨e, he⟩ := Option.isSome_iff_exists.1 h.1
    refine oneReading_sol he (fun x hx => ?_)
    have h2 := h.2
    rw [hx] at h2
    simp only [Bool.not_eq_true'] at h2
    rintro rfl
    exact absurd h2 (by decide)
  · have h1 := h
    simp only [plainEver, Bool.and_eq_true] at h1
    obtain ⟨e, he⟩ := Option.isSome_iff_exists.1 h1.1.1
    obtain ⟨hwf, he⟩ := (TP.wEverEventC.decAll_iff _ _).1 he
    refine ⟨fun rest e' r _ hx => ?_, fun rest x r hl hx => (plainEver_sol h hl hx).elim⟩
    rw [he, TP.wEverEventC.dec_enc _ _ hwf] at hx
    cases hx
    exact he.symm

/-- The event is then of one kind, too. -/
theorem plain_kind {k : Pubkey} {w : World} (h : plain k w = true) {p : GenericProposal} {md : TP.WMeta}
    (h0 : TP.WithdrawalAt env w k p md) : TP.OneKind p.event := by
  obtain ⟨-, ⟨b, r, hb, -, hd⟩, hi, -⟩ := h0
  unfold plain at h
  rw [hb] at h
  simp only [hd, hi, Bool.not_true, Bool.false_or, Bool.or_eq_true] at h
  intro x y hx _ hx' hy
  rcases h with h | h
  · simp only [plainSol, Bool.and_eq_true] at h
    have h2 := h.2
    rw [← hy, show (TP.wEverEventC.enc y).head? = some 0#8 from rfl] at h2
    exact absurd h2 (by decide)
  · refine plainEver_sol (rest := []) (x := x) (r := []) h (Nat.zero_le _) ?_
    rw [← hx']
    exact TP.wSolEventC.dec_enc x [] hx

/-- A state that can occur after a history in which `k` is readable. -/
def Followed (k : Pubkey) (w : World) : Prop := ∃ w0 tr, Genesis env L w0 ∧ Run env L true w0 tr w ∧ TP.Readable env k tr

theorem Followed.history {k : Pubkey} {w : World} (h : Followed k w) (hk : (locked.map (fun k => k.toNat)).contains k.toNat = true) :
    ∃ tr, TP.History env L k tr w := by
  obtain ⟨w0, tr, hg, hr, hrd⟩ := h
  refine ⟨tr, ⟨w0, hg, hr⟩, ?_, hrd⟩
  rw [List.contains_eq_mem, decide_eq_true_eq] at hk
  obtain ⟨x, hx, e⟩ := List.mem_map.1 hk
  rw [← BitVec.eq_of_toNat_eq e]
  exact hx

theorem readable_snoc {k : Pubkey} {tr : List Ev} {e : Ev} (h : TP.Readable env k tr) (hpl : plain k e.post = true) :
    TP.Readable env k (tr ++ [e]) := by
  intro e' he' hn p md hp
  rcases List.mem_append.1 he' with he' | he'
  · exact h e' he' hn p md hp
  · cases List.mem_singleton.1 he'
    exact plain_ok hpl hp

theorem followed_rl {k : Pubkey} {a : Except Err World} {c : Ctx} {i : RL.Instr} (h : Followed k (get a)) (hp : c.program = env.rlId)
    (hs : (c.signers.all (fun k => Nat.blt k.toNat 2000)) = true)
    (hok : (isOk (a >>= fun w => RL.run env c i w) && plain k (get (a >>= fun w => RL.run env c i w))) = true) :
    Followed k (get (a >>= fun w => RL.run env c i w)) := by
  obtain ⟨w0, tr, hg, hr, hrd⟩ := h
  simp only [Bool.and_eq_true] at hok
  exact ⟨w0, _, hg, .rl c i hr hp (free hs) (get_bind hok.1), readable_snoc hrd hok.2⟩

theorem followed_tp {k : Pubkey} {a : Except Err World} {c : Ctx} {i : TP.Instr} (h : Followed k (get a)) (hp : c.program = env.tpId)
    (hs : (c.signers.all (fun k => Nat.blt k.toNat 2000)) = true)
    (hok : (isOk (tp a c i) && plain k (get (tp a c i))) = true) : Followed k (get (tp a c i)) := by
  obtain ⟨w0, tr, hg, hr, hrd⟩ := h
  simp only [Bool.and_eq_true] at hok
  exact ⟨w0, _, hg, .tp c i hr hp (free hs) (get_tp hok.1), readable_snoc hrd hok.2⟩

theorem followed_sweep {k : Pubkey} {a : Except Err World} (h : Followed k (get a)) (hok : isOk a = true)
    (hpl : plain k (get (a >>= fun w => .ok (sweep w))) = true) : Followed k (get (a >>= fun w => .ok (sweep w))) := by
  obtain ⟨w0, tr, hg, hr, hrd⟩ := h
  cases a with
  | error e => cases hok
  | ok w => exact ⟨w0, _, hg, .purge hr (sweep_ok _), readable_snoc hrd hpl⟩

theorem followed_start {k : Pubkey} (h : plain k (get rlInit) = true) : Followed k (get rlInit) := by
  have hr : RL.run env (ctx env.rlId [funder, authority, rlSettings, rlProgramdata, env.systemId, env.rentId] [funder, authority])
    (.init 0 submitter 1 10) genesis = .ok (get rlInit) := get_ok (by decide +kernel)
  exact ⟨genesis, [] ++ [⟨_, genesis, get rlInit⟩], genesis_ok, .rl _ _ (.nil _ _) rfl (free (by decide +kernel)) hr,
    readable_snoc (fun _ h => absurd h List.not_mem_nil) h⟩

theorem followed_init : Followed wd1 (get rlInit) := followed_start (by decide +kernel)
theorem followed_round1 : Followed wd1 (get rlRound1) := followed_rl followed_init rfl (by decide +kernel) (by decide +kernel)
theorem followed_tpInit : Followed wd1 (get tpInit) := followed_tp followed_round1 rfl (by decide +kernel) (by decide +kernel)
theorem followed_tpDeposited : Followed wd1 (get tpDeposited) := followed_tp followed_tpInit rfl (by decide +kernel) (by decide +kernel)
theorem followed_tpReq : Followed wd1 (get tpReq) := followed_tp followed_tpDeposited rfl (by decide +kernel) (by decide +kernel)
theorem followed_tpVote1 : Followed wd1 (get tpVote1) := followed_tp followed_tpReq rfl (by decide +kernel) (by decide +kernel)
theorem followed_tpVote2 : Followed wd1 (get tpVote2) := followed_tp followed_tpVote1 rfl (by decide +kernel) (by decide +kernel)
theorem followed_tpVote3 : Followed wd1 (get tpVote3) := followed_tp followed_tpVote2 rfl (by decide +kernel) (by decide +kernel)
theorem followed_tpPaid : Followed wd1 (get tpPaid) := followed_tp followed_tpVote3 rfl (by decide +kernel) (by decide +kernel)
theorem followed_tpClosed : Followed wd1 (get tpClosed) := followed_tp followed_tpPaid rfl (by decide +kernel) (by decide +kernel)
theorem followed_tpSwept : Followed wd1 (get tpSwept) := followed_sweep followed_tpClosed (by decide +kernel) (by decide +kernel)
theorem followed_tpReq' : Followed wd1 (get tpReq') := followed_tp followed_tpSwept rfl (by decide +kernel) (by decide +kernel)
theorem followed_tpVote1' : Followed wd1 (get tpVote1') := followed_tp followed_tpReq' rfl (by decide +kernel) (by decide +kernel)
theorem followed_tpVote2' : Followed wd1 (get tpVote2') := followed_tp followed_tpVote1' rfl (by decide +kernel) (by decide +kernel)
theorem followed_tpVote3' : Followed wd1 (get tpVote3') := followed_tp followed_tpVote2' rfl (by decide +kernel) (by decide +kernel)
theorem followed_tpPaid' : Followed wd1 (get tpPaid') := followed_tp followed_tpVote3' rfl (by decide +kernel) (by decide +kernel)

theorem Followed.reach {k : Pubkey} {w : World} (h : Followed k w) : Reach env L w := by
  obtain ⟨w0, tr, hg, hr, -⟩ := h
  exact ⟨w0, tr, hg, hr⟩

theorem followed_round1H : Followed wd7 (get rlRound1) := followed_rl (followed_start (by decide +kernel)) rfl (by decide +kernel) (by decide +kernel)
theorem followed_tpInitH : Followed wd7 (get tpInit) := followed_tp followed_round1H rfl (by decide +kernel) (by decide +kernel)
theorem followed_tpDepositedH : Followed wd7 (get tpDeposited) := followed_tp followed_tpInitH rfl (by decide +kernel) (by decide +kernel)
theorem followed_tpReqH : Followed wd7 (get tpReqH) := followed_tp followed_tpDepositedH rfl (by decide +kernel) (by decide +kernel)
theorem followed_tpH1 : Followed wd7 (get tpH1) := followed_tp followed_tpReqH rfl (by decide +kernel) (by decide +kernel)
theorem followed_tpH2 : Followed wd7 (get tpH2) := followed_tp followed_tpH1 rfl (by decide +kernel) (by decide +kernel)
theorem followed_tpH3 : Followed wd7 (get tpH3) := followed_tp followed_tpH2 rfl (by decide +kernel) (by decide +kernel)
theorem followed_tpPaidH : Followed wd7 (get tpPaidH) := followed_tp followed_tpH3 rfl (by decide +kernel) (by decide +kernel)

end Verif.Toy
