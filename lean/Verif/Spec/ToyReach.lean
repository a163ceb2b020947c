import Verif.Spec.ToyTP
import Verif.Spec.RoundLoader
import Verif.Spec.TokenProxy
/-!
# States of the toy chain that can occur
-/
set_option maxRecDepth 100000
namespace Verif.Toy
open Verif

theorem distinct : env.Distinct := by constructor <;> decide

/-- The tracked accounts; nobody signs for them. -/
def locked : List Pubkey := [rlSettings, rlRound 1, rlRound 2, rlRound 5, prop2, tpSettings, tpMulti, tpGold, tpVault, tpStar, starMint,
  tpDep 1, tpDep 2, tpDep 3, tpDep 4, wd1, wd2, wd4, wd5, wd6, wd7]
def L (k : Pubkey) : Prop := k ∈ locked

/-- addresses of the two program data accounts -/
def programdata : List Nat := [(addr [seedKey env.rlId] env.loaderId).toNat, (addr [seedKey env.tpId] env.loaderId).toNat]

/-- not a wallet, no token and not a program data account -/
def unused (n : Nat) : Bool := !(programdata.contains n) && !(Nat.ble 1000 n && Nat.blt n 2000) && (splData n).isNone

theorem unused_empty {k : Pubkey} (h : unused k.toNat = true) : genesis.acc k = ⟨0, env.systemId, .raw []⟩ := by
  simp only [unused, programdata, Bool.and_eq_true, Bool.not_eq_true', List.contains_eq_mem, List.mem_cons, List.not_mem_nil,
    or_false, decide_eq_false_iff_not, not_or, Bool.and_eq_false_iff] at h
  obtain ⟨h, hn⟩ := h
  simp only [genesis]
  rw [if_neg, if_neg]
  · rw [Option.isNone_iff_eq_none.1 hn]
  · rintro ⟨h1, h2⟩
    rcases h.2 with h3 | h3
    · rw [Nat.ble_eq_true_of_le h1] at h3; cases h3
    · have : Nat.blt k.toNat 2000 = true := Nat.ble_eq_true_of_le h2
      rw [this] at h3; cases h3
  · rintro (rfl | rfl)
    · exact h.1.1 rfl
    · exact h.1.2 rfl

theorem genesis_ok : Genesis env L genesis where
  owner k := by
    unfold genesis
    simp only
    split
    · exact ⟨by decide, by decide⟩
    · split
      · exact ⟨by decide, by decide⟩
      · split
        · exact ⟨(by decide : env.splId ≠ env.rlId), (by decide : env.splId ≠ env.tpId)⟩
        · exact ⟨by decide, by decide⟩
  locked k hk := by
    have h : (locked.map (fun k => k.toNat)).all unused = true := by decide +kernel
    rw [unused_empty (List.all_eq_true.1 h _ (List.mem_map_of_mem hk))]
    exact ⟨rfl, rfl⟩

/-- Does the round loader's account `k` hold a record that passes the test `P`? -/
def chk {α : Type} (c : Codec α) (len : Nat) (P : α → Bool) (w : World) (k : Pubkey) : Bool :=
  Nat.beq (w.acc k).owner.toNat env.rlId.toNat &&
  match (w.acc k).data with
  | .raw b => Nat.beq b.length len && match c.dec b with
    | some (x, _) => P x
    | none => false
  | _ => false

theorem find {α : Type} {c : Codec α} {len : Nat} {P : α → Bool} {w : World} {k : Pubkey} (h : chk c len P w k = true) :
    ∃ x, (w.acc k).owner = env.rlId ∧ Holds c len (w.acc k) x ∧ P x = true := by
  simp only [chk, Bool.and_eq_true] at h
  obtain ⟨ho, h⟩ := h
  split at h
  · rename_i b hb
    simp only [Bool.and_eq_true] at h
    obtain ⟨hl, h⟩ := h
    split at h
    · rename_i x r hd
      exact ⟨x, BitVec.eq_of_toNat_eq (Nat.eq_of_beq_eq_true ho), ⟨b, r, hb, Nat.eq_of_beq_eq_true hl, hd⟩, h⟩
    · cases h
  · cases h

theorem find_settings {P : RL.Settings → Bool} {w : World} {k : Pubkey}
    (h : chk RL.settingsC RL.settingsLen (fun s => s.isInitialized && P s) w k = true) :
    ∃ s, RL.SettingsAt env w k s ∧ P s = true := by
  obtain ⟨x, h1, h2, h3⟩ := find h
  simp only [Bool.and_eq_true] at h3
  exact ⟨x, ⟨h1, h2, h3.1⟩, h3.2⟩

theorem find_round {P : RL.RelayRound → Bool} {w : World} {k : Pubkey}
    (h : chk RL.relayRoundC RL.relayRoundLen (fun s => s.isInitialized && P s) w k = true) :
    ∃ s, RL.RoundAt env w k s ∧ P s = true := by
  obtain ⟨x, h1, h2, h3⟩ := find h
  simp only [Bool.and_eq_true] at h3
  exact ⟨x, ⟨h1, h2, h3.1⟩, h3.2⟩

theorem find_final {P : RL.Proposal → Bool} {w : World} {k : Pubkey}
    (h : chk RL.proposalC RL.proposalLen (fun s => s.isInitialized && P s) w k = true) :
    ∃ s, RL.FinalAt env w k s ∧ P s = true := by
  obtain ⟨x, h1, h2, h3⟩ := find h
  simp only [Bool.and_eq_true] at h3
  exact ⟨x, ⟨h1, h2, h3.1⟩, h3.2⟩

/-- On the toy chain `find_program_address` is `addr`. -/
theorem isAddr (seeds : List Bytes) (p : Pubkey) : IsAddr env p seeds (addr seeds p) := by
  have h : env.createAddr (seeds ++ [[255#8]]) p = some (addr seeds p) := by
    show createAddr _ _ = _
    unfold addr createAddr
    rw [if_pos (by simp)]; rfl
  refine ⟨255#8, ?_⟩
  unfold findAddr
  rw [show (255 : Nat) = 254 + 1 from rfl, findGo]
  simp only [show BitVec.ofNat 8 (254 + 1) = 255#8 from rfl, h]

theorem reach_genesis : Reach env L genesis := ⟨_, _, genesis_ok, .nil _ _⟩

theorem reach_rl {w w' : World} {c : Ctx} {i : RL.Instr} (h : Reach env L w) (hp : c.program = env.rlId)
    (hs : (c.signers.all (fun k => Nat.blt k.toNat 2000)) = true) (hr : RL.run env c i w = .ok w') : Reach env L w' := by
  obtain ⟨w0, tr, hg, h⟩ := h
  refine ⟨w0, _, hg, .rl c i h hp ?_ hr⟩
  intro k hk hL
  have h1 := List.all_eq_true.1 hs k hk
  have h : (locked.map (fun k => k.toNat)).all (fun n => !(Nat.blt n 2000)) = true := by decide +kernel
  have h2 := List.all_eq_true.1 h _ (List.mem_map_of_mem hL)
  rw [h1] at h2; cases h2

theorem get_bind {a : Except Err World} {f : World → Except Err World} (h : isOk (a >>= f) = true) :
    f (get a) = .ok (get (a >>= f)) := by
  cases a with
  | error e => cases h
  | ok w => exact get_ok h

/-- Extend a run by one round-loader instruction. -/
theorem reach_bind {a : Except Err World} {c : Ctx} {i : RL.Instr} (h : Reach env L (get a)) (hp : c.program = env.rlId)
    (hs : (c.signers.all (fun k => Nat.blt k.toNat 2000)) = true) (hok : isOk (a >>= fun w => RL.run env c i w) = true) :
    Reach env L (get (a >>= fun w => RL.run env c i w)) := reach_rl h hp hs (get_bind hok)

theorem reach_init : Reach env L (get rlInit) := reach_rl reach_genesis rfl (by decide +kernel) (get_ok (by decide +kernel))
theorem reach_round1 : Reach env L (get rlRound1) := reach_bind reach_init rfl (by decide +kernel) (by decide +kernel)
theorem reach_created : Reach env L (get rlCreated) := reach_bind reach_round1 rfl (by decide +kernel) (by decide +kernel)
theorem reach_loaded : Reach env L (get rlLoaded) := reach_bind reach_created rfl (by decide +kernel) (by decide +kernel)
theorem reach_finalized : Reach env L (get rlFinalized) := reach_bind reach_loaded rfl (by decide +kernel) (by decide +kernel)
theorem reach_voted1 : Reach env L (get rlVoted1) := reach_bind reach_finalized rfl (by decide +kernel) (by decide +kernel)
theorem reach_voted2 : Reach env L (get rlVoted2) := reach_bind reach_voted1 rfl (by decide +kernel) (by decide +kernel)
theorem reach_voted : Reach env L (get rlVoted) := reach_bind reach_voted2 rfl (by decide +kernel) (by decide +kernel)
theorem reach_executed : Reach env L (get rlExecuted) := reach_bind reach_voted rfl (by decide +kernel) (by decide +kernel)
theorem reach_jumped : Reach env L (get rlJumped) := reach_bind reach_voted rfl (by decide +kernel) (by decide +kernel)
theorem reach_back : Reach env L (get rlBack) := reach_bind reach_jumped rfl (by decide +kernel) (by decide +kernel)
theorem reach_other : Reach env L (get rlOther) := reach_bind reach_finalized rfl (by decide +kernel) (by decide +kernel)
theorem reach_otherVoted : Reach env L (get rlOtherVoted) := reach_bind reach_other rfl (by decide +kernel) (by decide +kernel)
theorem reach_loaded5 : Reach env L (get rlLoaded5) := reach_bind reach_loaded rfl (by decide +kernel) (by decide +kernel)
theorem reach_stranded : Reach env L (get rlStranded) := reach_bind reach_loaded5 rfl (by decide +kernel) (by decide +kernel)


/-! ## The token proxy -/

theorem reach_tp' {w w' : World} {c : Ctx} {i : TP.Instr} (h : Reach env L w) (hp : c.program = env.tpId)
    (hs : (c.signers.all (fun k => Nat.blt k.toNat 2000)) = true) (hr : TP.run env c noCpi i w = .ok w') : Reach env L w' := by
  obtain ⟨w0, tr, hg, h⟩ := h
  refine ⟨w0, _, hg, .tp c i h hp ?_ hr⟩
  intro k hk hL
  have h1 := List.all_eq_true.1 hs k hk
  have h : (locked.map (fun k => k.toNat)).all (fun n => !(Nat.blt n 2000)) = true := by decide +kernel
  have h2 := List.all_eq_true.1 h _ (List.mem_map_of_mem hL)
  rw [h1] at h2; cases h2

theorem get_tp {a : Except Err World} {c : Ctx} {i : TP.Instr} (h : isOk (tp a c i) = true) :
    TP.run env c noCpi i (get a) = .ok (get (tp a c i)) := get_bind h

/-- Extend a run by one instruction of the token proxy. -/
theorem reach_tp {a : Except Err World} {c : Ctx} {i : TP.Instr} (h : Reach env L (get a)) (hp : c.program = env.tpId)
    (hs : (c.signers.all (fun k => Nat.blt k.toNat 2000)) = true) (hok : isOk (tp a c i) = true) :
    Reach env L (get (tp a c i)) := reach_tp' h hp hs (get_tp hok)

/-- Does the token proxy's account `k` exist and hold a record that passes the test `P`? -/
def tchk {α : Type} (c : Codec α) (P : α → Bool) (w : World) (k : Pubkey) : Bool :=
  Nat.beq (w.acc k).owner.toNat env.tpId.toNat && (Nat.ble 1 (w.acc k).lamports &&
  match (w.acc k).data with
  | .raw b => Nat.beq b.length TP.recLen && match c.dec b with
    | some (x, _) => P x
    | none => false
  | _ => false)

theorem tfind {α : Type} {c : Codec α} {P : α → Bool} {w : World} {k : Pubkey} (h : tchk c P w k = true) :
    ∃ x, (w.acc k).owner = env.tpId ∧ 1 ≤ (w.acc k).lamports ∧ Holds c TP.recLen (w.acc k) x ∧ P x = true := by
  simp only [tchk, Bool.and_eq_true] at h
  obtain ⟨ho, hl, h⟩ := h
  split at h
  · rename_i b hb
    simp only [Bool.and_eq_true] at h
    obtain ⟨hl', h⟩ := h
    split at h
    · rename_i x r hd
      exact ⟨x, BitVec.eq_of_toNat_eq (Nat.eq_of_beq_eq_true ho), Nat.le_of_ble_eq_true hl,
        ⟨b, r, hb, Nat.eq_of_beq_eq_true hl', hd⟩, h⟩
    · cases h
  · cases h

theorem tfind_settings {P : TP.Settings → Bool} {w : World} {k : Pubkey}
    (h : tchk TP.settingsC (fun s => s.isInitialized && (s.accountKind.intoSettings.isSome && P s)) w k = true) :
    ∃ s, TP.SettingsAt env w k s ∧ TP.Live w k ∧ P s = true := by
  obtain ⟨x, h1, h2, h3, h4⟩ := tfind h
  simp only [Bool.and_eq_true] at h4
  obtain ⟨h4, h5, h6⟩ := h4
  refine ⟨x, ⟨h1, h3, h4, ?_⟩, h2, h6⟩
  cases hk : x.accountKind <;> rw [hk] at h5 <;> first | exact ⟨_, _, rfl⟩ | cases h5

theorem tfind_token {P : TP.TokenSettings → Bool} {w : World} {k : Pubkey}
    (h : tchk TP.tokenSettingsC (fun s => s.isInitialized && (s.accountKind.intoTokenSettings.isSome && P s)) w k = true) :
    ∃ s, TP.TokenAt env w k s ∧ TP.Live w k ∧ P s = true := by
  obtain ⟨x, h1, h2, h3, h4⟩ := tfind h
  simp only [Bool.and_eq_true] at h4
  obtain ⟨h4, h5, h6⟩ := h4
  refine ⟨x, ⟨h1, h3, h4, ?_⟩, h2, h6⟩
  cases hk : x.accountKind <;> rw [hk] at h5 <;> first | exact ⟨_, _, rfl⟩ | cases h5

/-- The withdrawal at `k`, with its meta data. -/
theorem tfind_withdrawal {P : GenericProposal → TP.WMeta → Bool} {w : World} {k : Pubkey}
    (h : tchk GenericProposal.codec (fun p => p.isInitialized && (p.accountKind.intoProposal.isSome &&
      (match TP.wmetaC.decAll p.metaData with | some md => P p md | none => false))) w k = true) :
    ∃ p md, TP.WithdrawalAt env w k p md ∧ P p md = true := by
  obtain ⟨x, h1, h2, h3, h4⟩ := tfind h
  simp only [Bool.and_eq_true] at h4
  obtain ⟨h4, h5, h6⟩ := h4
  split at h6
  · rename_i md hm
    refine ⟨x, md, ⟨h1, h3, h4, ?_, hm⟩, h6⟩
    cases hk : x.accountKind <;> rw [hk] at h5 <;> first | exact ⟨_, _, rfl⟩ | cases h5
  · cases h6

theorem sweep_ok (w : World) : Purge env w (sweep w) := ⟨rfl, fun _ => rfl⟩

theorem reach_sweep {a : Except Err World} (h : Reach env L (get a)) (hok : isOk a = true) :
    Reach env L (get (a >>= fun w => .ok (sweep w))) := by
  obtain ⟨w0, tr, hg, hr⟩ := h
  cases a with
  | error e => cases hok
  | ok w => exact ⟨w0, _, hg, .purge hr (sweep_ok _)⟩

end Verif.Toy
