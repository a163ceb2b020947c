import Verif.Spec.ToyTactic
import Verif.Bridge.Errors
import Verif.Bridge.Relay
import Verif.TokenProxy.Utils
import Verif.Spec.Toy
/-!
# Storage and instruction encodings (C44–C47)
-/
namespace Verif.Props
open Verif Codec

/-! ## C44 -/

/-- C44: for every record type (any codec and declared size), if storing a record in an account succeeds, then reading the
account back gives the same record, the size of the account is unchanged, and nothing but the data of that account changed. -/
theorem C44_store_read {α : Type} (c : Codec α) (len : Nat) (ctx : Ctx) (a : α) (k : Pubkey) (w w' : World)
    (h : pack ctx c len a k w = .ok w') :
    unpackUnchecked c len (w'.acc k).data = .ok a ∧ (w'.acc k).data.len = (w.acc k).data.len ∧
    (w'.acc k).lamports = (w.acc k).lamports ∧ (w'.acc k).owner = (w.acc k).owner ∧
    (∀ k', k' ≠ k → w'.acc k' = w.acc k') ∧ w'.logs = w.logs := by
  unfold pack at h
  split at h
  · rename_i b hb
    split at h
    · rename_i hlen
      simp only [packBytes, bind_ok] at h
      obtain ⟨b', hb', h⟩ := h
      split at hb'
      · rename_i hwf
        cases hb'
        have hd := c.dec_enc a (b.drop (c.enc a).length) hwf.1
        have hlen' : (c.enc a ++ b.drop (c.enc a).length).length = len := by simp; omega
        simp only [setData] at h
        split at h
        · rename_i he
          cases h
          simp [he, unpackUnchecked, hlen', hd]
        · simp only [bind_ok, require_ok, exists_const, Except.ok.injEq] at h
          obtain ⟨-, -, rfl⟩ := h
          refine ⟨?_, ?_, ?_, ?_, ?_, rfl⟩
          · simp [unpackUnchecked, World.setDataRaw, hlen', hd]
          · simp only [World.setDataRaw, World.set_same, Data.len, hlen', hb, hlen]
          · simp [World.setDataRaw]
          · simp [World.setDataRaw]
          · intro k' hk'; simp [World.setDataRaw, World.set_other _ _ hk']
      · cases hb'
    · cases h
  · cases h

/-- C44: a well-formed record that fits can always be stored by the owner program in a writable account of the declared size. -/
theorem C44_store_succeeds {α : Type} (c : Codec α) (len : Nat) (ctx : Ctx) (a : α) (k : Pubkey) (w : World) (b : Bytes)
    (hb : (w.acc k).data = .raw b) (hlen : b.length = len) (ho : (w.acc k).owner = ctx.program)
    (hw : ctx.isWritable k = true) (hwf : c.wf a = true) (hfit : (c.enc a).length ≤ len) :
    ∃ w', pack ctx c len a k w = .ok w' := by
  subst hlen
  simp only [pack, hb, if_true, packBytes, hwf, hfit, and_self, bind_ok, Except.ok.injEq, exists_eq_left', setData]
  split
  · exact ⟨_, rfl⟩
  · simp [ho, hw, require, bind, Except.bind]

/-- A record stored and read back on the toy chain; the account is larger than the record. -/
example : Toy.isOk (pack (Toy.ctx 7#256 [40#256] []) RL.settingsC RL.settingsLen ⟨true, .settings 1 2, 3, 4, 5, 6⟩ 40#256
    (Toy.genesis.set 40#256 ⟨5, 7#256, .raw (zeros 100)⟩)) = true := by decide +kernel

theorem len_vec_key (l : List Pubkey) : ((vec key).enc l).length = 4 + 32 * l.length := by
  simp [vec, encAll_length key 32 len_key]
theorem len_vec_vote (l : List Vote) : ((vec voteC).enc l).length = 4 + l.length := by
  simp [vec, encAll_length voteC 1 len_voteC]
theorem all_wf_key (l : List Pubkey) : l.all key.wf = true := by simp
theorem all_wf_vote (l : List Vote) : l.all voteC.wf = true := by simp

/-- C44: a relay round of up to 100 relays fits the declared size; of more it does not. -/
theorem C44_relayRound_fits (r : RL.RelayRound) (n : U8) (hk : r.accountKind = .relayRound n) :
    (RL.relayRoundC.enc r).length ≤ RL.relayRoundLen ↔ r.relays.length ≤ 100 := by
  simp only [RL.relayRoundC, enc_iso, enc_pair, List.length_append, len_bool, hk, AccountKind.enc_relayRound, len_u32,
    len_vec_key, RL.relayRoundLen, List.length_cons, List.length_nil]
  omega

example : (RL.relayRoundC.enc ⟨true, .relayRound 255, 1, 2, List.replicate 100 5⟩).length ≤ RL.relayRoundLen := by
  rw [C44_relayRound_fits _ 255 rfl]; simp

/-- C44: a round proposal for up to 100 relays, voted on by up to 100 relays, fits. -/
theorem C44_proposal_fits (p : RL.Proposal) (n : U8) (hk : p.accountKind = .proposal n none)
    (hr : p.event.relays.length ≤ 100) (hs : p.signers.length ≤ 100) :
    (RL.proposalC.enc p).length ≤ RL.proposalLen := by
  simp only [RL.proposalC, RL.eventC, enc_iso, enc_pair, List.length_append, len_bool, hk, AccountKind.enc_proposal_none, len_u32,
    len_vec_key, len_vec_vote, RL.proposalLen, List.length_cons, List.length_nil, len_key, PDA.len_codec, RL.len_statusC]
  omega

/-- C44: round loader settings fit. -/
theorem C44_rlSettings_fits (s : RL.Settings) (a b : U8) (hk : s.accountKind = .settings a b) :
    (RL.settingsC.enc s).length ≤ RL.settingsLen := by
  simp [RL.settingsC, hk, RL.settingsLen]

/-- C44: token proxy settings fit. -/
theorem C44_tpSettings_fits (s : TP.Settings) (a b : U8) (hk : s.accountKind = .settings a b) :
    (TP.settingsC.enc s).length ≤ TP.recLen := by
  simp [TP.settingsC, hk, TP.recLen]

theorem len_wmeta (m : TP.WMeta) : (TP.wmetaC.enc m).length = 17 := by simp [TP.wmetaC]

theorem len_tokenKind (k : TP.TokenKind) : (TP.TokenKind.codec.enc k).length ≤ 68 := by
  cases k with
  | ever m t d =>
    show (0#8 :: (key.enc m ++ (everAddressC.enc t ++ u8.enc d))).length ≤ 68
    simp
  | solana m v =>
    show (1#8 :: (key.enc m ++ key.enc v)).length ≤ 68
    simp

/-- C44: token settings with a name and a symbol of together up to 700 bytes fit (the limit on creation is 32 each). -/
theorem C44_tokenSettings_fits (s : TP.TokenSettings) (a b : U8) (hk : s.accountKind = .tokenSettings a b)
    (hn : s.name.length + s.symbol.length ≤ 700) : (TP.tokenSettingsC.enc s).length ≤ TP.recLen := by
  have := len_tokenKind s.kind
  simp only [TP.tokenSettingsC, TP.feeInfoC, enc_iso, enc_pair, List.length_append, len_bool, hk,
    AccountKind.enc_tokenSettings, len_str, len_u64, len_i64, TP.recLen, List.length_cons, List.length_nil]
  omega

/-- C44: a withdrawal of an Everscale token fits exactly if name, symbol, payload and the number of relays are together
small enough. -/
theorem C44_withdrawalEver_fits (r : TP.Withdrawal TP.WEverEvent) (n : U8) (hk : r.accountKind = .proposal n none) :
    ((TP.withdrawalC TP.wEverEventC).enc r).length ≤ TP.recLen ↔
      r.event.name.length + r.event.symbol.length + r.event.payload.length + r.signers.length ≤ 788 := by
  simp only [TP.withdrawalC, TP.wEverEventC, enc_iso, enc_pair, List.length_append, len_bool, hk,
    AccountKind.enc_proposal_none, len_key, len_u32, PDA.len_codec, len_everAddressC, len_str, len_u8, len_u128, len_bytes,
    len_wmeta, len_vec_vote, TP.recLen, List.length_cons, List.length_nil]
  omega

/-- C44: a withdrawal of a Solana token fits exactly if payload and number of relays are together small enough. -/
theorem C44_withdrawalSol_fits (r : TP.Withdrawal TP.WSolEvent) (n : U8) (hk : r.accountKind = .proposal n none) :
    ((TP.withdrawalC TP.wSolEventC).enc r).length ≤ TP.recLen ↔
      r.event.payload.length + r.signers.length ≤ 799 := by
  simp only [TP.withdrawalC, TP.wSolEventC, enc_iso, enc_pair, List.length_append, len_bool, hk,
    AccountKind.enc_proposal_none, len_key, len_u32, PDA.len_codec, len_u128, len_bytes,
    len_wmeta, len_vec_vote, TP.recLen, List.length_cons, List.length_nil]
  omega

/-! ## C45 -/

/-- A length-prefixed value is a byte vector holding its encoding, provided the prefix is its length. -/
theorem bytes_enc_eq (l : Bytes) (n : U32) (h : n.toNat = l.length) : bytes.enc l = u32.enc n ++ l := by
  have : BitVec.ofNat 32 l.length = n := by rw [← h]; simp
  simp [bytes, vec, this]

/-- C45 (partial): a round proposal whose length fields are right reads through the generic view as the same author, round,
votes and identity, and its raw event bytes are the encoding of the typed event. Missing: the length field of the event is
written by whoever loads the proposal and is never checked, see `C45_generic_view_garbled`. -/
theorem C45_proposal_partial (p : RL.Proposal) (r : Bytes) (hw : RL.proposalC.wf p = true)
    (he : p.eventLen.toNat = (RL.eventC.enc p.event).length) (hm : p.metaLen = 1#32) :
    GenericProposal.codec.dec (RL.proposalC.enc p ++ r) =
      some (⟨p.isInitialized, p.accountKind, p.author, p.roundNumber, p.requiredVotes, p.pda, RL.eventC.enc p.event,
        RL.statusC.enc p.status, p.signers⟩, r) := by
  rw [GenericProposal.codec.law]
  have hl := p.eventLen.isLt
  have hme : bytes.enc (RL.statusC.enc p.status) = u32.enc p.metaLen ++ RL.statusC.enc p.status :=
    bytes_enc_eq _ _ (by rw [hm]; rfl)
  constructor
  · simp only [RL.proposalC, wf_iso, wf_pair, Bool.and_eq_true] at hw
    simp only [GenericProposal.codec, wf_iso, wf_pair, Bool.and_eq_true, wf_bytes, decide_eq_true_eq]
    have := hw.2.2.2.2.2.2.2.2.2.2
    exact ⟨rfl, by simp, rfl, rfl, rfl, rfl, by omega, by simp, this⟩
  · simp only [RL.proposalC, GenericProposal.codec, enc_iso, enc_pair, bytes_enc_eq _ _ he, hme, List.append_assoc]

example : ∃ p : RL.Proposal, RL.proposalC.wf p = true ∧ p.eventLen.toNat = (RL.eventC.enc p.event).length ∧ p.metaLen = 1#32 :=
  ⟨{ RL.freshProposal 255 7 1 ⟨1, 2, 3⟩ with eventLen := 44#32, event := ⟨2, [9], 10⟩, signers := [.none, .confirm] },
    by decide +kernel, by decide +kernel, rfl⟩

/-- C45: the length fields computed by the token proxy are the lengths of the encodings (modulo `2^32`). -/
theorem C45_lenField_depositSol (e : TP.DepositSolEvent) :
    e.lenField = BitVec.ofNat 32 (TP.depositSolEventC.enc e).length := by
  simp only [TP.DepositSolEvent.lenField, TP.depositSolEventC, enc_iso, enc_pair, List.length_append, len_key, len_str, len_u8,
    len_u128, len_everAddressC, len_u64, len_bytes]
  congr 1; omega
theorem C45_lenField_depositEver (e : TP.DepositEverEvent) :
    e.lenField = BitVec.ofNat 32 (TP.depositEverEventC.enc e).length := by
  simp only [TP.DepositEverEvent.lenField, TP.depositEverEventC, enc_iso, enc_pair, List.length_append, len_key,
    len_u128, len_everAddressC, len_u64, len_bytes]
  congr 1; omega
theorem C45_lenField_wEver (e : TP.WEverEvent) :
    e.lenField = BitVec.ofNat 32 (TP.wEverEventC.enc e).length := by
  simp only [TP.WEverEvent.lenField, TP.wEverEventC, enc_iso, enc_pair, List.length_append, len_key, len_str, len_u8,
    len_u128, len_everAddressC, len_bytes]
  congr 1; omega
theorem C45_lenField_wSol (e : TP.WSolEvent) :
    e.lenField = BitVec.ofNat 32 (TP.wSolEventC.enc e).length := by
  simp only [TP.WSolEvent.lenField, TP.wSolEventC, enc_iso, enc_pair, List.length_append, len_key,
    len_u128, len_bytes]
  congr 1; omega

/-- C45: a withdrawal record reads through the generic view as the same author, round, votes and identity, and the raw event
bytes are the encoding of the typed event, if its length fields are those the token proxy writes (`eventLen` = length of the
encoded event, below `2^32`; `metaLen = 17`). -/
theorem C45_withdrawal {E : Type} (ec : Codec E) (p : TP.Withdrawal E) (r : Bytes) (hw : (TP.withdrawalC ec).wf p = true)
    (hel : (ec.enc p.event).length < 2 ^ 32)
    (he : p.eventLen = BitVec.ofNat 32 (ec.enc p.event).length) (hm : p.metaLen = 17#32) :
    GenericProposal.codec.dec ((TP.withdrawalC ec).enc p ++ r) =
      some (⟨p.isInitialized, p.accountKind, p.author, p.roundNumber, p.requiredVotes, p.pda, ec.enc p.event,
        TP.wmetaC.enc p.md, p.signers⟩, r) := by
  rw [GenericProposal.codec.law]
  have he' : p.eventLen.toNat = (ec.enc p.event).length := by rw [he, BitVec.toNat_ofNat, Nat.mod_eq_of_lt hel]
  have hme : bytes.enc (TP.wmetaC.enc p.md) = u32.enc p.metaLen ++ TP.wmetaC.enc p.md :=
    bytes_enc_eq _ _ (by rw [hm, len_wmeta]; rfl)
  constructor
  · simp only [TP.withdrawalC, wf_iso, wf_pair, Bool.and_eq_true] at hw
    simp only [GenericProposal.codec, wf_iso, wf_pair, Bool.and_eq_true, wf_bytes, decide_eq_true_eq, len_wmeta]
    have := hw.2.2.2.2.2.2.2.2.2.2
    exact ⟨rfl, by simp, rfl, rfl, rfl, rfl, hel, by decide, this⟩
  · simp only [TP.withdrawalC, GenericProposal.codec, enc_iso, enc_pair, bytes_enc_eq _ _ he', hme, List.append_assoc]

/-- C45: the same for deposits. -/
theorem C45_deposit {E : Type} (ec : Codec E) (p : TP.Deposit E) (r : Bytes)
    (hel : (ec.enc p.event).length < 2 ^ 32)
    (he : p.eventLen = BitVec.ofNat 32 (ec.enc p.event).length) (hm : p.metaLen = 16#32) :
    TP.genericDepositC.dec ((TP.depositC ec).enc p ++ r) =
      some (⟨p.isInitialized, p.accountKind, p.author, ec.enc p.event, u128.enc p.seed⟩, r) := by
  rw [TP.genericDepositC.law]
  have he' : p.eventLen.toNat = (ec.enc p.event).length := by rw [he, BitVec.toNat_ofNat, Nat.mod_eq_of_lt hel]
  have hme : bytes.enc (u128.enc p.seed) = u32.enc p.metaLen ++ u128.enc p.seed :=
    bytes_enc_eq _ _ (by rw [hm]; simp)
  constructor
  · simp only [TP.genericDepositC, wf_iso, wf_pair, Bool.and_eq_true, wf_bytes, decide_eq_true_eq, len_u128]
    exact ⟨rfl, by simp, rfl, hel, by decide⟩
  · simp only [TP.depositC, TP.genericDepositC, enc_iso, enc_pair, bytes_enc_eq _ _ he', hme, List.append_assoc]

/-- C45: records built by the token proxy meet the hypotheses of `C45_withdrawal` and `C45_deposit`. -/
theorem C45_token_proxy_records (nonce : U8) (pn : Option U8) (author : Pubkey) (round votes : U32) (pda : PDA)
    (e : TP.WEverEvent) (e' : TP.WSolEvent) (d : TP.DepositEverEvent) (d' : TP.DepositSolEvent) (epoch : I64) (n : Nat) (seed : U128) :
    (TP.withdrawalRecord nonce pn author round votes pda e.lenField e epoch n).eventLen =
        BitVec.ofNat 32 (TP.wEverEventC.enc e).length ∧
    (TP.withdrawalRecord nonce pn author round votes pda e'.lenField e' epoch n).eventLen =
        BitVec.ofNat 32 (TP.wSolEventC.enc e').length ∧
    (TP.depositRecord nonce author d.lenField d seed).eventLen = BitVec.ofNat 32 (TP.depositEverEventC.enc d).length ∧
    (TP.depositRecord nonce author d'.lenField d' seed).eventLen = BitVec.ofNat 32 (TP.depositSolEventC.enc d').length :=
  ⟨C45_lenField_wEver e, C45_lenField_wSol e', C45_lenField_depositEver d, C45_lenField_depositSol d'⟩

example : ∃ p : TP.Withdrawal TP.WSolEvent, (TP.withdrawalC TP.wSolEventC).wf p = true ∧
    (TP.wSolEventC.enc p.event).length < 2 ^ 32 ∧
    p.eventLen = BitVec.ofNat 32 (TP.wSolEventC.enc p.event).length ∧ p.metaLen = 17#32 :=
  ⟨TP.withdrawalRecord 255 none 7 1 3 ⟨1, 2, 3⟩ (TP.WSolEvent.lenField ⟨9, 10, 11, [1, 2, 3]⟩) ⟨9, 10, 11, [1, 2, 3]⟩ 5 4,
    by decide +kernel, by decide +kernel, by decide +kernel, rfl⟩

/-! ### The generic view of a round proposal can be garbled -/
namespace Garbled
open Toy

/-- A proposal loaded with the event length 0 instead of 140, then finalized. -/
def run : Except Err World := do
  let w ← rlRound1
  let w ← RL.run env (ctx env.rlId [funder, stranger, prop2, env.systemId, env.rentId] [funder, stranger])
    (.createProposal 1 pda2 ev2Hash) w
  let w ← RL.run env (ctx env.rlId [prop2] [])
    (.writeProposal 0 (Codec.u32.enc 0#32 ++ RL.eventC.enc ev2)) w
  RL.run env (ctx env.rlId [funder, prop2, rlSettings, rlRound 1, env.systemId] [funder]) .finalizeProposal w

/-- both views read, and differ in the event -/
def differ (d : Data) : Bool :=
  match unpack RL.proposalC RL.proposalLen (·.isInitialized) d with
  | .ok p =>
    match unpackUnchecked GenericProposal.codec RL.proposalLen d with
    | .ok g => decide (g.event ≠ RL.eventC.enc p.event)
    | .error _ => true
  | .error _ => false

theorem differ_spec {d : Data} (h : differ d = true) :
    ∃ p, unpack RL.proposalC RL.proposalLen (·.isInitialized) d = .ok p ∧
      ∀ g, unpackUnchecked GenericProposal.codec RL.proposalLen d = .ok g → g.event ≠ RL.eventC.enc p.event := by
  unfold differ at h
  split at h
  · rename_i p hp
    refine ⟨p, hp, fun g hg => ?_⟩
    rw [hg] at h
    simpa using h
  · cases h

end Garbled

set_option maxRecDepth 100000 in
/-- C45 is false for round proposals: one can be finalized (and then executed) whose generic view has another event than the
typed view. -/
theorem C45_generic_view_garbled :
    ∃ w, Garbled.run = .ok w ∧ ∃ p, unpack RL.proposalC RL.proposalLen (·.isInitialized) (w.acc Toy.prop2).data = .ok p ∧
      ∀ g, unpackUnchecked GenericProposal.codec RL.proposalLen (w.acc Toy.prop2).data = .ok g →
        g.event ≠ RL.eventC.enc p.event := by
  refine ⟨_, Toy.get_ok ?_, Garbled.differ_spec ?_⟩
  checked

/-! ## C46 -/

/-- C46: decoding an encoded round loader instruction gives it back, and distinct instructions have distinct encodings. -/
theorem C46_round_loader (i j : RL.Instr) (hi : RL.Instr.codec.wf i = true) (hj : RL.Instr.codec.wf j = true) :
    RL.Instr.codec.decAll (RL.Instr.codec.enc i) = some i ∧ (RL.Instr.codec.enc i = RL.Instr.codec.enc j → i = j) :=
  ⟨decAll_enc _ _ hi, fun h => (enc_inj _ (r := []) (s := []) hi hj (by simpa using h)).1⟩

/-- C46: the same for the token proxy. -/
theorem C46_token_proxy (i j : TP.Instr) (hi : TP.Instr.codec.wf i = true) (hj : TP.Instr.codec.wf j = true) :
    TP.Instr.codec.decAll (TP.Instr.codec.enc i) = some i ∧ (TP.Instr.codec.enc i = TP.Instr.codec.enc j → i = j) :=
  ⟨decAll_enc _ _ hi, fun h => (enc_inj _ (r := []) (s := []) hi hj (by simpa using h)).1⟩

/-- C46: whatever bytes are sent, they are accepted as instruction `i` only if they are its encoding. -/
theorem C46_unambiguous (bs : Bytes) :
    (∀ i, RL.Instr.codec.decAll bs = some i → bs = RL.Instr.codec.enc i) ∧
    (∀ i, TP.Instr.codec.decAll bs = some i → bs = TP.Instr.codec.enc i) :=
  ⟨fun _ h => ((decAll_iff _ _ _).1 h).2, fun _ h => ((decAll_iff _ _ _).1 h).2⟩

/-- C46: which instructions can be encoded: all whose lists and strings are shorter than `2^32`, strings being UTF-8. -/
theorem C46_round_loader_wf (i : RL.Instr) : RL.Instr.codec.wf i = true ↔
    match i with
    | .createRelayRound _ relays _ => relays.length < 2 ^ 32
    | .writeProposal _ bs => bs.length < 2 ^ 32
    | _ => True := by
  cases i with
  | createRelayRound n rs e =>
    show (u32.wf n && ((vec key).wf rs && u32.wf e)) = true ↔ _
    simp
  | writeProposal o bs =>
    show (u32.wf o && bytes.wf bs) = true ↔ _
    simp
  | voteForProposal v => simp only [iff_true]; exact wf_voteC v
  | updateSettings a b c d =>
    simp only [iff_true]
    cases a <;> cases b <;> cases c <;> cases d <;> rfl
  | _ => simp only [iff_true]; rfl

/-- C46: the same for the token proxy. -/
theorem C46_token_proxy_wf (i : TP.Instr) : TP.Instr.codec.wf i = true ↔
    match i with
    | .depositMultiTokenEver _ _ _ _ _ payload => payload.length < 2 ^ 32
    | .depositMultiTokenSol _ name symbol _ _ _ _ payload =>
        (name.length < 2 ^ 32 ∧ validUtf8 name) ∧ (symbol.length < 2 ^ 32 ∧ validUtf8 symbol) ∧ payload.length < 2 ^ 32
    | .withdrawMultiTokenEverRequest _ _ name symbol _ _ _ payload _ =>
        (name.length < 2 ^ 32 ∧ validUtf8 name) ∧ (symbol.length < 2 ^ 32 ∧ validUtf8 symbol) ∧ payload.length < 2 ^ 32
    | .withdrawMultiTokenSolRequest _ _ _ payload _ => payload.length < 2 ^ 32
    | .updateTokenName symbol name =>
        (symbol.length < 2 ^ 32 ∧ validUtf8 symbol) ∧ (name.length < 2 ^ 32 ∧ validUtf8 name)
    | .cancelWithdrawSol _ _ _ _ payload => payload.length < 2 ^ 32
    | .fillWithdrawSol _ _ _ _ _ payload => payload.length < 2 ^ 32
    | _ => True := by
  cases i with
  | depositMultiTokenEver a b c d e p =>
    show (u128.wf a && (u64.wf b && (everAddressC.wf c && (u64.wf d && (key.wf e && bytes.wf p))))) = true ↔ _
    simp
  | depositMultiTokenSol a n s b c d e p =>
    show (u128.wf a && (str.wf n && (str.wf s && (u64.wf b && (everAddressC.wf c && (u64.wf d && (key.wf e && bytes.wf p))))))) = true ↔ _
    simp
  | withdrawMultiTokenEverRequest a t n s d r m p x =>
    show (PDA.codec.wf a && (everAddressC.wf t && (str.wf n && (str.wf s && (u8.wf d && (key.wf r && (u128.wf m && (bytes.wf p && u64.wf x)))))))) = true ↔ _
    simp
  | withdrawMultiTokenSolRequest a r m p x =>
    show (PDA.codec.wf a && (key.wf r && (u128.wf m && (bytes.wf p && u64.wf x)))) = true ↔ _
    simp
  | updateTokenName s n =>
    show (str.wf s && str.wf n) = true ↔ _
    simp
  | cancelWithdrawSol a b c d p =>
    show (u128.wf a && (everAddressC.wf b && (u64.wf c && (key.wf d && bytes.wf p)))) = true ↔ _
    simp
  | fillWithdrawSol a b c d e p =>
    show (u128.wf a && (everAddressC.wf b && (u64.wf c && (u64.wf d && (key.wf e && bytes.wf p))))) = true ↔ _
    simp
  | voteForWithdrawRequest v => simp only [iff_true]; exact wf_voteC v
  | changeWithdrawalLimits a b => simp only [iff_true]; cases a <;> cases b <;> rfl
  | updateFee a b c => simp only [iff_true]; cases a <;> rfl
  | _ => simp only [iff_true]; rfl

example : RL.Instr.codec.wf (.createRelayRound 3#32 [5#256, 6#256] 7#32) = true ∧
    TP.Instr.codec.wf (.updateTokenName (ascii "T") (ascii "Token")) = true := by decide +kernel

/-- C46: the generic vote of the relay library, with instruction number 0, is the vote instruction of both programs. -/
theorem C46_generic_vote (v : Vote) :
    RL.Instr.codec.decAll (Relay.voteC.enc ⟨0#8, v⟩) = some (.voteForProposal v) ∧
    TP.Instr.codec.decAll (Relay.voteC.enc ⟨0#8, v⟩) = some (.voteForWithdrawRequest v) := by
  cases v <;> exact ⟨rfl, rfl⟩

/-- C46: the generic execute instructions decode as intended: 7 executes a round proposal, 1 and 2 a withdrawal, 3 and 4 a
payload. -/
theorem C46_generic_execute :
    RL.Instr.codec.decAll (Relay.executeC.enc 7#8) = some .executeProposal ∧
    TP.Instr.codec.decAll (Relay.executeC.enc 1#8) = some .withdrawMultiTokenEver ∧
    TP.Instr.codec.decAll (Relay.executeC.enc 2#8) = some .withdrawMultiTokenSol ∧
    TP.Instr.codec.decAll (Relay.executeC.enc 3#8) = some .executePayloadEver ∧
    TP.Instr.codec.decAll (Relay.executeC.enc 4#8) = some .executePayloadSol := ⟨rfl, rfl, rfl, rfl, rfl⟩

/-! ## C47 -/

/-- C47 (partial): the first seven error codes decode to the error. Missing: the rest, see `C47_shifted`. -/
theorem C47_codes_partial (e : BridgeError) (h : e.code.toNat ≤ 6) : BridgeError.ofCode e.code = some e := by
  cases e <;> first | rfl | (exfalso; revert h; decide)

example : BridgeError.emergencyEnabled.code.toNat ≤ 6 := by decide

/-- C47 is false: every error from code 7 on decodes to another error or to none. -/
theorem C47_shifted (e : BridgeError) (h : 7 ≤ e.code.toNat) : BridgeError.ofCode e.code ≠ some e := by
  cases e <;> first | (exfalso; revert h; decide) | decide

/-- C47: distinct errors do have distinct codes. -/
theorem C47_codes_injective (e e' : BridgeError) (h : e.code = e'.code) : e = e' := by
  cases e <;> cases e' <;> first | rfl | (exfalso; revert h; decide)

end Verif.Props
