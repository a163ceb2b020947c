import Verif.Spec.Wire
import Verif.Props.Encoding
import Verif.Spec.ToyReachTP
/-!
# C82: the format of instructions, records and log records
-/
namespace Verif.Props
open Verif Codec

theorem num_leEnc (n x : Nat) : leEnc n x = Wire.num n x := by
  induction n generalizing x with
  | zero => rfl
  | succ n ih =>
    rw [leEnc, ih, Wire.num, Wire.num, List.range_succ_eq_map, List.map_cons, List.map_map]
    congr 1
    · simp
    · refine List.map_congr_left fun i _ => ?_
      simp only [Function.comp, Nat.pow_succ, Nat.div_div_eq_div_mul]
      rw [Nat.mul_comm 256]

theorem wire_u32 (x : U32) : u32.enc x = Wire.num 4 x.toNat := num_leEnc _ _
theorem wire_u64 (x : U64) : u64.enc x = Wire.num 8 x.toNat := num_leEnc _ _
theorem wire_i64 (x : I64) : i64.enc x = Wire.num 8 x.toNat := num_leEnc _ _
theorem wire_u128 (x : U128) : u128.enc x = Wire.num 16 x.toNat := num_leEnc _ _
theorem wire_key (x : Pubkey) : key.enc x = Wire.key x := num_leEnc _ _
theorem wire_bool (b : Bool) : Codec.bool.enc b = Wire.flag b := by cases b <;> rfl
theorem wire_vote (v : Vote) : voteC.enc v = Wire.vote v := by cases v <;> rfl
theorem wire_status (v : TP.WStatus) : TP.wstatusC.enc v = Wire.status v := by cases v <;> rfl
theorem wire_roundStatus (v : RL.Status) : RL.statusC.enc v = Wire.roundStatus v := by cases v <;> rfl
theorem wire_feeType (v : TP.FeeType) : TP.feeTypeC.enc v = Wire.feeType v := by cases v <;> rfl

theorem wire_ever (a : EverAddress) : everAddressC.enc a = Wire.ever a := by
  show 0#8 :: (u8.enc a.workchainId ++ key.enc a.address) = _
  rw [enc_u8, wire_key]; rfl

theorem wire_pda (p : PDA) : PDA.codec.enc p = Wire.pda p := by
  simp only [PDA.codec, enc_iso, enc_pair, wire_u32, wire_u64, wire_key, Wire.pda, List.append_assoc]

theorem wire_len (n : Nat) : u32.enc (BitVec.ofNat 32 n) = Wire.num 4 n := by
  rw [wire_u32, Wire.num, Wire.num]
  refine List.map_congr_left fun i hi => ?_
  have hi' := List.mem_range.1 hi
  apply BitVec.eq_of_toNat_eq
  simp only [BitVec.toNat_ofNat]
  have : i = 0 ∨ i = 1 ∨ i = 2 ∨ i = 3 := by omega
  rcases this with rfl | rfl | rfl | rfl <;> omega

theorem wire_vec {α : Type} {c : Codec α} {f : α → Bytes} (h : ∀ a, c.enc a = f a) (l : List α) : (vec c).enc l = Wire.list f l := by
  have : encAll c l = l.flatMap f := by
    induction l with
    | nil => rfl
    | cons a l ih => rw [encAll, ih, h, List.flatMap_cons]
  show u32.enc _ ++ _ = _
  rw [wire_len, this]; rfl

theorem wire_bytes (l : Bytes) : bytes.enc l = Wire.text l := by
  show u32.enc _ ++ encAll u8 l = _
  rw [wire_len, encAll_u8]; rfl

theorem wire_str (l : Bytes) : str.enc l = Wire.text l := wire_bytes l

theorem wire_option {α : Type} {c : Codec α} {f : α → Bytes} (h : ∀ a, c.enc a = f a) (o : Option α) : (option c).enc o = Wire.opt f o := by
  cases o with
  | none => rfl
  | some a => rw [enc_option_some, h]; rfl

theorem wire_kind (k : AccountKind) : AccountKind.codec.enc k = Wire.kind k := by
  cases k with
  | proposal a b => cases b <;> simp <;> rfl
  | _ => simp <;> rfl

local macro "wired" : tactic => `(tactic|
  simp only [enc_iso, enc_pair, enc_u8, enc_unit, wire_u32, wire_u64, wire_i64, wire_u128, wire_key, wire_bool, wire_vote, wire_status, wire_roundStatus,
    wire_feeType, wire_ever, wire_pda, wire_bytes, wire_str, wire_kind, wire_vec wire_key, wire_vec wire_vote, wire_option wire_key, wire_option wire_ever,
    wire_option wire_u32, wire_option wire_u64, wire_option enc_u8, List.append_assoc, List.cons_append, List.nil_append])

theorem wire_rl (i : RL.Instr) : RL.Instr.codec.enc i = Wire.rl i := by
  cases i with
  | voteForProposal v => show 0#8 :: voteC.enc v = _; rw [wire_vote]; rfl
  | init n s m t => show 1#8 :: (u32.enc n ++ (key.enc s ++ (u32.enc m ++ u32.enc t))) = _; wired; rw [Wire.rl]; (try wired); rfl
  | updateSettings n s m t =>
    show 2#8 :: ((option u32).enc n ++ ((option key).enc s ++ ((option u32).enc m ++ (option u32).enc t))) = _; wired; rw [Wire.rl]; wired; rfl
  | createRelayRound n rs e => show 3#8 :: (u32.enc n ++ ((vec key).enc rs ++ u32.enc e)) = _; wired; rw [Wire.rl]; (try wired); rfl
  | createProposal n p d => show 4#8 :: (u32.enc n ++ (PDA.codec.enc p ++ key.enc d)) = _; wired; rw [Wire.rl]; (try wired); rfl
  | writeProposal o bs => show 5#8 :: (u32.enc o ++ bytes.enc bs) = _; wired; rw [Wire.rl]; (try wired); rfl
  | _ => rfl

theorem wire_tp (i : TP.Instr) : TP.Instr.codec.enc i = Wire.tp i := by
  cases i with
  | voteForWithdrawRequest v => show 0#8 :: (voteC.enc v) = _; wired; rw [Wire.tp]; (try wired); rfl
  | init a b c => show 5#8 :: (key.enc a ++ (key.enc b ++ key.enc c)) = _; wired; rw [Wire.tp]; (try wired); rfl
  | depositMultiTokenEver a b c d e f => show 6#8 :: (u128.enc a ++ (u64.enc b ++ (everAddressC.enc c ++ (u64.enc d ++ (key.enc e ++ bytes.enc f))))) = _; wired; rw [Wire.tp]; (try wired); rfl
  | depositMultiTokenSol a n y b c d e f => show 7#8 :: (u128.enc a ++ (str.enc n ++ (str.enc y ++ (u64.enc b ++ (everAddressC.enc c ++ (u64.enc d ++ (key.enc e ++ bytes.enc f))))))) = _; wired; rw [Wire.tp]; (try wired); rfl
  | withdrawMultiTokenEverRequest a t n y d r m p x => show 8#8 :: (PDA.codec.enc a ++ (everAddressC.enc t ++ (str.enc n ++ (str.enc y ++ (u8.enc d ++ (key.enc r ++ (u128.enc m ++ (bytes.enc p ++ u64.enc x)))))))) = _; wired; rw [Wire.tp]; (try wired); rfl
  | withdrawMultiTokenSolRequest a r m p x => show 9#8 :: (PDA.codec.enc a ++ (key.enc r ++ (u128.enc m ++ (bytes.enc p ++ u64.enc x)))) = _; wired; rw [Wire.tp]; (try wired); rfl
  | changeGuardian a => show 10#8 :: (key.enc a) = _; wired; rw [Wire.tp]; (try wired); rfl
  | changeManager a => show 11#8 :: (key.enc a) = _; wired; rw [Wire.tp]; (try wired); rfl
  | changeWithdrawalManager a => show 12#8 :: (key.enc a) = _; wired; rw [Wire.tp]; (try wired); rfl
  | changeDepositLimit a => show 13#8 :: (u64.enc a) = _; wired; rw [Wire.tp]; (try wired); rfl
  | changeWithdrawalLimits a b => show 14#8 :: ((option u64).enc a ++ (option u64).enc b) = _; wired; rw [Wire.tp]; (try wired); rfl
  | updateFee a b c => show 21#8 :: (TP.feeTypeC.enc a ++ (u64.enc b ++ u64.enc c)) = _; wired; rw [Wire.tp]; (try wired); rfl
  | updateTokenName a b => show 22#8 :: (str.enc a ++ str.enc b) = _; wired; rw [Wire.tp]; (try wired); rfl
  | withdrawEverFee a => show 23#8 :: (u64.enc a) = _; wired; rw [Wire.tp]; (try wired); rfl
  | withdrawSolFee a => show 24#8 :: (u64.enc a) = _; wired; rw [Wire.tp]; (try wired); rfl
  | changeBountyForWithdrawSol a => show 25#8 :: (u64.enc a) = _; wired; rw [Wire.tp]; (try wired); rfl
  | cancelWithdrawSol a b c d p => show 26#8 :: (u128.enc a ++ (everAddressC.enc b ++ (u64.enc c ++ (key.enc d ++ bytes.enc p)))) = _; wired; rw [Wire.tp]; (try wired); rfl
  | fillWithdrawSol a b c d e p => show 27#8 :: (u128.enc a ++ (everAddressC.enc b ++ (u64.enc c ++ (u64.enc d ++ (key.enc e ++ bytes.enc p))))) = _; wired; rw [Wire.tp]; (try wired); rfl
  | withdrawProxy a => show 28#8 :: (u64.enc a) = _; wired; rw [Wire.tp]; (try wired); rfl
  | withdrawMultiVault a => show 31#8 :: (u64.enc a) = _; wired; rw [Wire.tp]; (try wired); rfl
  | _ => rfl

theorem wire_np (i : NP.Instr) : NP.Instr.codec.enc i = Wire.np i := by
  cases i with
  | deposit a b c d e f =>
    show 0#8 :: (u128.enc a ++ (u64.enc b ++ (everAddressC.enc c ++ (u64.enc d ++ (key.enc e ++ bytes.enc f))))) = _; wired; rw [Wire.np]; wired; rfl

/-! ## C82: instructions -/

theorem decoded {α : Type} {c : Codec α} {f : α → Bytes} {fits : α → Prop} (he : ∀ a, c.enc a = f a) (hw : ∀ a, c.wf a = true ↔ fits a) (b : Bytes) :
    (∀ a, fits a → c.decAll (f a) = some a) ∧ ((∀ a, fits a → b ≠ f a) → c.decAll b = none) := by
  refine ⟨fun a h => by rw [← he]; exact decAll_enc _ _ ((hw a).2 h), fun h => ?_⟩
  cases hd : c.decAll b with
  | none => rfl
  | some a =>
    obtain ⟨h1, h2⟩ := (decAll_iff _ _ _).1 hd
    exact absurd (h2.trans (he a)) (h a ((hw a).1 h1))

/-- C82: the round loader understands an instruction written in the published format as that instruction, and refuses everything else. -/
theorem C82_round_loader (env : Env) (ctx : Ctx) (w : World) (b : Bytes) :
    (∀ i, Wire.rlFits i → RL.process env ctx (Wire.rl i) w = RL.run env ctx i w) ∧
    ((∀ i, Wire.rlFits i → b ≠ Wire.rl i) → RL.process env ctx b w = .error .borshIo) := by
  have h := decoded wire_rl (fits := Wire.rlFits) (fun i => by rw [C46_round_loader_wf]; cases i <;> rfl) b
  refine ⟨fun i hi => ?_, fun hb => ?_⟩
  · simp only [RL.process, h.1 i hi]; rfl
  · simp only [RL.process, h.2 hb]; rfl

/-- C82: the same for the token proxy. -/
theorem C82_token_proxy (env : Env) (ctx : Ctx) (cpi : Pubkey → World → Except Err World) (w : World) (b : Bytes) :
    (∀ i, Wire.tpFits i → TP.process env ctx cpi (Wire.tp i) w = TP.run env ctx cpi i w) ∧
    ((∀ i, Wire.tpFits i → b ≠ Wire.tp i) → TP.process env ctx cpi b w = .error .borshIo) := by
  have h := decoded wire_tp (fits := Wire.tpFits) (fun i => by rw [C46_token_proxy_wf]; cases i <;> rfl) b
  refine ⟨fun i hi => ?_, fun hb => ?_⟩
  · simp only [TP.process, h.1 i hi]; rfl
  · simp only [TP.process, h.2 hb]; rfl

/-- C82: the same for the native proxy. -/
theorem C82_native_proxy (env : Env) (ctx : Ctx) (w : World) (b : Bytes) :
    (∀ i, Wire.npFits i → NP.process env ctx (Wire.np i) w = NP.run env ctx i w) ∧
    ((∀ i, Wire.npFits i → b ≠ Wire.np i) → NP.process env ctx b w = .error .borshIo) := by
  have h := decoded wire_np (fits := Wire.npFits) (fun i => by
    cases i with
    | deposit a b c d e f =>
      show (u128.wf a && (u64.wf b && (everAddressC.wf c && (u64.wf d && (key.wf e && bytes.wf f))))) = true ↔ _
      simp [Wire.npFits]) b
  refine ⟨fun i hi => ?_, fun hb => ?_⟩
  · simp only [NP.process, h.1 i hi]; rfl
  · simp only [NP.process, h.2 hb]; rfl

example : Wire.tpFits (.updateTokenName (ascii "T") (ascii "Token")) ∧
    Wire.tp (.updateTokenName (ascii "T") (ascii "Token")) = [22, 1, 0, 0, 0, 84, 5, 0, 0, 0, 84, 111, 107, 101, 110] ∧
    Wire.tp (.withdrawSolFee 1000#64) = [24, 232, 3, 0, 0, 0, 0, 0, 0] ∧
    Wire.rl (.updateSettings (some 258#32) none none (some 1#32)) = [2, 1, 2, 1, 0, 0, 0, 0, 1, 1, 0, 0, 0] ∧
    Wire.rl (.voteForProposal .reject) = [0, 2] := by
  refine ⟨⟨⟨by decide, rfl⟩, by decide, rfl⟩, ?_⟩
  decide +kernel

/-- No instruction begins with byte 32. -/
example : ∀ i, Wire.tpFits i → ([32] : Bytes) ≠ Wire.tp i := by
  intro i _ h
  cases i <;> exact absurd (List.cons.inj h).1 (by decide)

/-! ## C82: records -/

theorem holds_begins {α : Type} {c : Codec α} {f : α → Bytes} (he : ∀ a, c.enc a = f a) (len : Nat) (a : Account) (x : α) :
    Holds c len a x ↔ c.wf x = true ∧ Wire.Begins a len (f x) := by
  constructor
  · rintro ⟨b, r, h1, h2, h3⟩
    obtain ⟨hw, rfl⟩ := (c.law _ _ _).1 h3
    exact ⟨hw, r, by rw [← he]; exact h1, by rw [← he]; exact h2⟩
  · rintro ⟨hw, r, h1, h2⟩
    exact ⟨_, r, h1, h2, (c.law _ _ _).2 ⟨hw, by rw [he]⟩⟩

theorem begins_le {a : Account} {len : Nat} {x : Bytes} (h : Wire.Begins a len x) : x.length ≤ len := by
  obtain ⟨r, -, h⟩ := h
  rw [List.length_append] at h
  omega

theorem wire_rlSettings (s : RL.Settings) : RL.settingsC.enc s = Wire.rlSettings s := by rw [RL.settingsC, Wire.rlSettings]; wired
theorem wire_relayRound (s : RL.RelayRound) : RL.relayRoundC.enc s = Wire.relayRound s := by rw [RL.relayRoundC, Wire.relayRound]; wired
theorem wire_rlEvent (s : RL.Event) : RL.eventC.enc s = Wire.rlEvent s := by rw [RL.eventC, Wire.rlEvent]; wired
theorem wire_proposal (s : RL.Proposal) : RL.proposalC.enc s = Wire.proposal s := by
  rw [RL.proposalC, Wire.proposal]; wired; simp only [wire_rlEvent]
theorem wire_tpSettings (s : TP.Settings) : TP.settingsC.enc s = Wire.tpSettings s := by rw [TP.settingsC, Wire.tpSettings]; wired
theorem wire_multiVault (s : TP.MultiVault) : TP.multiVaultC.enc s = Wire.multiVault s := by rw [TP.multiVaultC, Wire.multiVault]; wired
theorem wire_feeInfo (s : TP.FeeInfo) : TP.feeInfoC.enc s = Wire.feeInfo s := by rw [TP.feeInfoC, Wire.feeInfo]; wired
theorem wire_tokenKind (s : TP.TokenKind) : TP.TokenKind.codec.enc s = Wire.tokenKind s := by
  cases s with
  | ever m t d => show 0#8 :: (key.enc m ++ (everAddressC.enc t ++ u8.enc d)) = _; wired; rw [Wire.tokenKind]; wired; rfl
  | solana m v => show 1#8 :: (key.enc m ++ key.enc v) = _; wired; rw [Wire.tokenKind]; wired; rfl
theorem wire_tokenSettings (s : TP.TokenSettings) : TP.tokenSettingsC.enc s = Wire.tokenSettings s := by
  rw [TP.tokenSettingsC, Wire.tokenSettings]; wired; simp only [wire_tokenKind, wire_feeInfo]
theorem wire_depositSolEvent (s : TP.DepositSolEvent) : TP.depositSolEventC.enc s = Wire.depositSolEvent s := by
  rw [TP.depositSolEventC, Wire.depositSolEvent]; wired
theorem wire_depositEverEvent (s : TP.DepositEverEvent) : TP.depositEverEventC.enc s = Wire.depositEverEvent s := by
  rw [TP.depositEverEventC, Wire.depositEverEvent]; wired
theorem wire_everEvent (s : TP.WEverEvent) : TP.wEverEventC.enc s = Wire.everEvent s := by rw [TP.wEverEventC, Wire.everEvent]; wired
theorem wire_solEvent (s : TP.WSolEvent) : TP.wSolEventC.enc s = Wire.solEvent s := by rw [TP.wSolEventC, Wire.solEvent]; wired
theorem wire_deposit {E : Type} {ec : Codec E} {f : E → Bytes} (h : ∀ e, ec.enc e = f e) (s : TP.Deposit E) :
    (TP.depositC ec).enc s = Wire.deposit f s := by rw [TP.depositC, Wire.deposit]; wired; simp only [h]
theorem wire_withdrawal {E : Type} {ec : Codec E} {f : E → Bytes} (h : ∀ e, ec.enc e = f e) (s : TP.Withdrawal E) :
    (TP.withdrawalC ec).enc s = Wire.withdrawal f s := by rw [TP.withdrawalC, TP.wmetaC, Wire.withdrawal]; wired; simp only [h]

/-- C82: an account holds a record of the round loader exactly when its bytes begin with the record in the published format and it has the published
size. -/
theorem C82_round_loader_records (a : Account) :
    (∀ s, Holds RL.settingsC RL.settingsLen a s ↔ Wire.Begins a 100 (Wire.rlSettings s)) ∧
    (∀ r, Holds RL.relayRoundC RL.relayRoundLen a r ↔ Wire.Begins a 3215 (Wire.relayRound r)) ∧
    (∀ p, Holds RL.proposalC RL.proposalLen a p ↔ Wire.Begins a 3415 (Wire.proposal p)) := by
  refine ⟨fun s => ?_, fun r => ?_, fun p => ?_⟩
  · rw [holds_begins wire_rlSettings]
    exact and_iff_right (by simp [RL.settingsC])
  · rw [holds_begins wire_relayRound]
    refine and_iff_right_of_imp fun h => ?_
    have := begins_le h
    have e1 : RL.relayRoundLen = 3215 := rfl
    have e2 : RL.proposalLen = 3415 := rfl
    have e3 : TP.recLen = 1000 := rfl
    rw [← wire_relayRound] at this
    simp only [RL.relayRoundC, enc_iso, enc_pair, List.length_append, len_vec_key] at this
    simp [RL.relayRoundC]; omega
  · rw [holds_begins wire_proposal]
    refine and_iff_right_of_imp fun h => ?_
    have := begins_le h
    have e1 : RL.relayRoundLen = 3215 := rfl
    have e2 : RL.proposalLen = 3415 := rfl
    have e3 : TP.recLen = 1000 := rfl
    rw [← wire_proposal] at this
    simp only [RL.proposalC, RL.eventC, enc_iso, enc_pair, List.length_append, len_vec_key, len_vec_vote] at this
    simp [RL.proposalC, RL.eventC]; omega

/-- C82: the same for the records of the token proxy; names and symbols must be UTF-8. -/
theorem C82_token_proxy_records (a : Account) :
    (∀ s, Holds TP.settingsC TP.recLen a s ↔ Wire.Begins a 1000 (Wire.tpSettings s)) ∧
    (∀ m, Holds TP.multiVaultC TP.recLen a m ↔ Wire.Begins a 1000 (Wire.multiVault m)) ∧
    (∀ t, Holds TP.tokenSettingsC TP.recLen a t ↔
      (validUtf8 t.name = true ∧ validUtf8 t.symbol = true) ∧ Wire.Begins a 1000 (Wire.tokenSettings t)) ∧
    (∀ d, Holds (TP.depositC TP.depositSolEventC) TP.recLen a d ↔
      (validUtf8 d.event.name = true ∧ validUtf8 d.event.symbol = true) ∧ Wire.Begins a 1000 (Wire.deposit Wire.depositSolEvent d)) ∧
    (∀ d, Holds (TP.depositC TP.depositEverEventC) TP.recLen a d ↔ Wire.Begins a 1000 (Wire.deposit Wire.depositEverEvent d)) ∧
    (∀ p, Holds (TP.withdrawalC TP.wSolEventC) TP.recLen a p ↔ Wire.Begins a 1000 (Wire.withdrawal Wire.solEvent p)) ∧
    (∀ p, Holds (TP.withdrawalC TP.wEverEventC) TP.recLen a p ↔
      (validUtf8 p.event.name = true ∧ validUtf8 p.event.symbol = true) ∧ Wire.Begins a 1000 (Wire.withdrawal Wire.everEvent p)) := by
  refine ⟨fun s => ?_, fun m => ?_, fun t => ?_, fun d => ?_, fun d => ?_, fun p => ?_, fun p => ?_⟩
  · rw [holds_begins wire_tpSettings]; exact and_iff_right (by simp [TP.settingsC])
  · rw [holds_begins wire_multiVault]; exact and_iff_right (by simp [TP.multiVaultC])
  · rw [holds_begins wire_tokenSettings]
    refine and_congr_left fun h => ?_
    have := begins_le h
    have e1 : RL.relayRoundLen = 3215 := rfl
    have e2 : RL.proposalLen = 3415 := rfl
    have e3 : TP.recLen = 1000 := rfl
    rw [← wire_tokenSettings] at this
    simp only [TP.tokenSettingsC, enc_iso, enc_pair, List.length_append, len_str] at this
    have hk : TP.TokenKind.codec.wf t.kind = true := by cases t.kind <;> rfl
    have hf : ∀ x, TP.feeInfoC.wf x = true := fun _ => rfl
    have h1 : t.name.length < 2 ^ 32 := by omega
    have h2 : t.symbol.length < 2 ^ 32 := by omega
    simp [TP.tokenSettingsC, hk, hf, h1, h2, wf_str]
  · rw [holds_begins (wire_deposit wire_depositSolEvent)]
    refine and_congr_left fun h => ?_
    have := begins_le h
    have e1 : RL.relayRoundLen = 3215 := rfl
    have e2 : RL.proposalLen = 3415 := rfl
    have e3 : TP.recLen = 1000 := rfl
    rw [← wire_deposit wire_depositSolEvent] at this
    simp only [TP.depositC, TP.depositSolEventC, enc_iso, enc_pair, List.length_append, len_str, len_bytes] at this
    have h1 : d.event.name.length < 2 ^ 32 := by omega
    have h2 : d.event.symbol.length < 2 ^ 32 := by omega
    have h3 : d.event.payload.length < 2 ^ 32 := by omega
    simp [TP.depositC, TP.depositSolEventC, h1, h2, h3]
  · rw [holds_begins (wire_deposit wire_depositEverEvent)]
    refine and_iff_right_of_imp fun h => ?_
    have := begins_le h
    have e1 : RL.relayRoundLen = 3215 := rfl
    have e2 : RL.proposalLen = 3415 := rfl
    have e3 : TP.recLen = 1000 := rfl
    rw [← wire_deposit wire_depositEverEvent] at this
    simp only [TP.depositC, TP.depositEverEventC, enc_iso, enc_pair, List.length_append, len_str, len_bytes] at this
    simp [TP.depositC, TP.depositEverEventC]; omega
  · rw [holds_begins (wire_withdrawal wire_solEvent)]
    refine and_iff_right_of_imp fun h => ?_
    have := begins_le h
    have e1 : RL.relayRoundLen = 3215 := rfl
    have e2 : RL.proposalLen = 3415 := rfl
    have e3 : TP.recLen = 1000 := rfl
    rw [← wire_withdrawal wire_solEvent] at this
    simp only [TP.withdrawalC, TP.wSolEventC, enc_iso, enc_pair, List.length_append, len_bytes, len_vec_vote] at this
    simp [TP.withdrawalC, TP.wSolEventC, TP.wmetaC]; omega
  · rw [holds_begins (wire_withdrawal wire_everEvent)]
    refine and_congr_left fun h => ?_
    have := begins_le h
    have e1 : RL.relayRoundLen = 3215 := rfl
    have e2 : RL.proposalLen = 3415 := rfl
    have e3 : TP.recLen = 1000 := rfl
    rw [← wire_withdrawal wire_everEvent] at this
    simp only [TP.withdrawalC, TP.wEverEventC, enc_iso, enc_pair, List.length_append, len_str, len_bytes, len_vec_vote] at this
    have h1 : p.event.name.length < 2 ^ 32 := by omega
    have h2 : p.event.symbol.length < 2 ^ 32 := by omega
    have h3 : p.event.payload.length < 2 ^ 32 := by omega
    have h4 : p.signers.length < 2 ^ 32 := by omega
    simp [TP.withdrawalC, TP.wEverEventC, TP.wmetaC, h1, h2, h3, h4]

/-- The settings of a token on the toy chain: initialised, of kind 5, of a Solana mint. -/
example : ∃ t, TP.tokenSettingsC.enc t = Wire.tokenSettings t ∧ Wire.Begins ((Toy.get Toy.tpDeposited).acc Toy.tpGold) 1000 (Wire.tokenSettings t) ∧
    t.name = ascii "Gold" ∧ (Wire.tokenSettings t).take 5 = [1, 5, 255, 255, 1] := by
  obtain ⟨t, -, -, ht, hP⟩ := Toy.tfind (c := TP.tokenSettingsC) (w := Toy.get Toy.tpDeposited) (k := Toy.tpGold)
    (P := fun t => t.name == ascii "Gold" && (TP.tokenSettingsC.enc t).take 5 == [1, 5, 255, 255, 1]) (by decide +kernel)
  simp only [Bool.and_eq_true, beq_iff_eq] at hP
  exact ⟨t, wire_tokenSettings t, (((C82_token_proxy_records _).2.2.1 t).1 ht).2, hP.1, by rw [← wire_tokenSettings]; exact hP.2⟩

/-- C82: log records and the events that relays sign are written in the published format. -/
theorem C82_logs (x : TP.Record) : x.enc = Wire.log x := by
  cases x with
  | deposit x => rw [TP.Record.enc, TP.depositLogC, Wire.log]; wired
  | request x => rw [TP.Record.enc, TP.withdrawRequestLogC, Wire.log]; wired
  | token x => rw [TP.Record.enc, TP.tokenSettingsLogC, Wire.log]; wired; simp only [wire_feeInfo]
  | status x => rw [TP.Record.enc, TP.statusLogC, Wire.log]; wired
  | fee x => rw [TP.Record.enc, TP.updateFeeLogC, Wire.log]; wired
  | name x => rw [TP.Record.enc, TP.updateNameLogC, Wire.log]; wired
  | liquidity x => rw [TP.Record.enc, TP.liquidityLogC, Wire.log]; wired

/-- C82: the hash a relay compares with the account of a withdrawal or a proposal is taken of the event in the published format. -/
theorem C82_events : (∀ e, TP.wSolEventC.enc e = Wire.solEvent e) ∧ (∀ e, TP.wEverEventC.enc e = Wire.everEvent e) ∧
    (∀ e, TP.depositSolEventC.enc e = Wire.depositSolEvent e) ∧ (∀ e, TP.depositEverEventC.enc e = Wire.depositEverEvent e) ∧
    ∀ e, RL.eventC.enc e = Wire.rlEvent e :=
  ⟨wire_solEvent, wire_everEvent, wire_depositSolEvent, wire_depositEverEvent, wire_rlEvent⟩

example : Wire.log (.status ⟨1#256, .pending⟩) = 1 :: zeros 31 ++ [3] ∧
    (Wire.solEvent ⟨2#256, 258#128, 3#256, [9]⟩).length = 32 + 16 + 32 + 5 := by decide +kernel

end Verif.Props
