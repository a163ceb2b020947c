{
 "claims": [
  {
   "property": "C01",
   "status": "proved",
   "theorems": [
    "Verif.Props.C01_initialize",
    "Verif.Props.C01_update",
    "Verif.Props.C01_history",
    "Verif.Props.C01_initialize_once"
   ],
   "note": ""
  },
  {
   "property": "C02",
   "status": "proved",
   "theorems": [
    "Verif.Props.C02_create_round",
    "Verif.Props.C02_never_again"
   ],
   "note": ""
  },
  {
   "property": "C03",
   "status": "partial",
   "theorems": [
    "Verif.Props.C03_relays_replaced",
    "Verif.Props.C03_quorum_replaced",
    "Verif.Props.C03_header_partial",
    "Verif.Props.C03_unwritten_partial"
   ],
   "note": "False: WriteProposal, signed by nobody, overwrites the relays of an existing round from the fourth on (C03_relays_replaced), from 12 relays on a full quorum (C03_quorum_replaced). Proved: round number, end and first relays never change (C03_header_partial), and a round no WriteProposal is aimed at never changes (C03_unwritten_partial)."
  },
  {
   "property": "C04",
   "status": "proved",
   "theorems": [
    "Verif.Props.C04_frozen"
   ],
   "note": ""
  },
  {
   "property": "C05",
   "status": "proved",
   "theorems": [
    "Verif.Props.C05_finalize",
    "Verif.Props.C05_reachable",
    "Verif.Props.C05_required_value",
    "Verif.Props.C05_two_thirds",
    "Verif.Props.C05_withdrawals"
   ],
   "note": ""
  },
  {
   "property": "C06",
   "status": "proved",
   "theorems": [
    "Verif.Props.C06_execute_needs_quorum"
   ],
   "note": ""
  },
  {
   "property": "C07",
   "status": "partial",
   "theorems": [
    "Verif.Props.C07_votes_cast_partial",
    "Verif.Props.C07_foreign_vote"
   ],
   "note": "False: a vote may be cast with any relay round account (C07_foreign_vote). Proved: every vote was cast by the relay of some genuine round at that index (C07_votes_cast_partial)."
  },
  {
   "property": "C08",
   "status": "partial",
   "theorems": [
    "Verif.Props.C08_vote_once",
    "Verif.Props.C08_vote_stays",
    "Verif.Props.C08_withdrawal_vote_once",
    "Verif.Props.C08_withdrawal_vote_stays_partial",
    "Verif.Props.C08_vote_lost"
   ],
   "note": "Round proposals proved in full. Withdrawals: a vote changes one empty slot or nothing, and stays while the account lives and its payload is not executed (C08_withdrawal_vote_stays_partial). False otherwise: executing the payload writes back the record read before the call, and a vote cast by the payload is lost (C08_vote_lost)."
  },
  {
   "property": "C09",
   "status": "proved",
   "theorems": [
    "Verif.Props.C09_execute_once"
   ],
   "note": ""
  },
  {
   "property": "C10",
   "status": "partial",
   "theorems": [
    "Verif.Props.C10_stranded",
    "Verif.Props.C10_stranger_strands",
    "Verif.Props.C10_votable_partial",
    "Verif.Props.C10_executable_partial"
   ],
   "note": "False: anyone can finalize a proposal with another round and make it unusable forever (C10_stranded, C10_stranger_strands). Proved: proposals finalized with their own round can be voted on and executed."
  },
  {
   "property": "C11",
   "status": "proved",
   "theorems": [
    "Verif.Props.C11_admin_execute"
   ],
   "note": ""
  },
  {
   "property": "C12",
   "status": "partial",
   "theorems": [
    "Verif.Props.C12_monotone_partial",
    "Verif.Props.C12_moves_back"
   ],
   "note": "False: executing an old proposal moves the current round number back (C12_moves_back). Proved: it grows over every history in which no proposal of an older round is executed (C12_monotone_partial)."
  },
  {
   "property": "C13",
   "status": "proved",
   "theorems": [
    "Verif.Props.C13_quorums_intersect",
    "Verif.Props.C13_no_double_quorum"
   ],
   "note": ""
  },
  {
   "property": "C14",
   "status": "proved",
   "theorems": [
    "Verif.Props.C14_request_sol",
    "Verif.Props.C14_request_ever",
    "Verif.Props.C14_round_genuine"
   ],
   "note": ""
  },
  {
   "property": "C15",
   "status": "partial",
   "theorems": [
    "Verif.Props.C15_vote_bound",
    "Verif.Props.C15_slots_partial"
   ],
   "note": "Every successful vote is by the relay of the withdrawal's own round (C15_vote_bound). That nothing else changes a slot is proved except for executing the withdrawal's own payload (C15_slots_partial), where it is false: see C08_vote_lost."
  },
  {
   "property": "C16",
   "status": "proved",
   "theorems": [
    "Verif.Props.C16_released",
    "Verif.Props.C16_quorum_sol",
    "Verif.Props.C16_quorum_ever"
   ],
   "note": ""
  },
  {
   "property": "C17",
   "status": "proved",
   "theorems": [
    "Verif.Props.C17_life",
    "Verif.Props.C17_final"
   ],
   "note": ""
  },
  {
   "property": "C18",
   "status": "proved",
   "theorems": [
    "Verif.Props.C18_once"
   ],
   "note": ""
  },
  {
   "property": "C19",
   "status": "partial",
   "theorems": [
    "Verif.Props.C19_withdraw_sol",
    "Verif.Props.C19_approve_sol",
    "Verif.Props.C19_withdraw_ever",
    "Verif.Props.C19_approve_ever"
   ],
   "note": "Proved for both kinds of tokens, withdrawing and approving, with the amount of a Solana event cut to 64 bits: for amounts of 2^64 and more the payout is not the amount of the event (C43_truncated)."
  },
  {
   "property": "C20",
   "status": "proved",
   "theorems": [
    "Verif.Props.C20_fee_value",
    "Verif.Props.C20_fee_overflow",
    "Verif.Props.C20_fee_net"
   ],
   "note": ""
  },
  {
   "property": "C21",
   "status": "partial",
   "theorems": [
    "Verif.Props.C21_roundtrip_exact",
    "Verif.Props.C21_roundtrip_sol",
    "Verif.Props.C21_roundtrip_ever",
    "Verif.Props.C21_deposit_exact",
    "Verif.Props.C21_withdrawal_exact_partial",
    "Verif.Props.C21_truncates",
    "Verif.Props.C21_not_refused",
    "Verif.Props.C21_wrapped_power_creates_value"
   ],
   "note": "Round trips proved for all amounts and decimals. The clause 'out-of-range results fail' is false: the result is truncated to 64 bits (C21_truncates, C21_not_refused) and powers of ten wrap (C21_wrapped_power_creates_value)."
  },
  {
   "property": "C22",
   "status": "proved",
   "theorems": [
    "Verif.Props.C22_daily",
    "Verif.Props.C22_limits_sol",
    "Verif.Props.C22_limits_ever",
    "Verif.Props.C22_day",
    "Verif.Props.C22_daily_unapproved"
   ],
   "note": "Both limits and their effect for every single payout; the bound on the sum of a day for days without approvals (C22_daily_unapproved, no history needed) and with approvals (C22_daily)."
  },
  {
   "property": "C23",
   "status": "proved",
   "theorems": [
    "Verif.Props.C23_approval"
   ],
   "note": ""
  },
  {
   "property": "C24",
   "status": "partial",
   "theorems": [
    "Verif.Props.C24_global",
    "Verif.Props.C24_token_partial",
    "Verif.Props.C24_sol",
    "Verif.Props.C24_ever",
    "Verif.Props.C24_token_bypassed"
   ],
   "note": "The global mode stops all five (C24_global). The mode of one token stops payouts, approvals and cancellations of its withdrawals (C24_sol, C24_ever) and everything that names its settings (C24_token_partial), but false for deposits: a deposit into the token's vault that names another token's settings goes through (C24_token_bypassed)."
  },
  {
   "property": "C25",
   "status": "proved",
   "theorems": [
    "Verif.Props.C25_global",
    "Verif.Props.C25_token"
   ],
   "note": ""
  },
  {
   "property": "C26",
   "status": "proved",
   "theorems": [
    "Verif.Props.C26_roles",
    "Verif.Props.C26_initialized",
    "Verif.Props.C26_exact"
   ],
   "note": ""
  },
  {
   "property": "C27",
   "status": "proved",
   "theorems": [
    "Verif.Props.C27_exact",
    "Verif.Props.C27_history",
    "Verif.Props.C27_withdrawals"
   ],
   "note": ""
  },
  {
   "property": "C28",
   "status": "proved",
   "theorems": [
    "Verif.Props.C28_sol",
    "Verif.Props.C28_ever",
    "Verif.Props.C28_total"
   ],
   "note": ""
  },
  {
   "property": "C29",
   "status": "partial",
   "theorems": [
    "Verif.Props.C29_backed_partial",
    "Verif.Props.C29_created",
    "Verif.Props.C29_deposit",
    "Verif.Props.C29_flow_partial",
    "Verif.Props.C29_overcounted"
   ],
   "note": "False as a balance: the fee of a withdrawal that waits for approval is recorded when it starts to wait, but the payout on approval uses the fee rate of that time, so lowering the rate in between mints more than the event's amount in total (C29_overcounted). Proved: what every single step of every history adds to or takes from supply plus recorded fees (C29_flow_partial), the burn and fee of every deposit (C29_deposit), that a token starts from nothing (C29_created), and, while the fee rate does not change, the balance over whole histories with payouts, waiting withdrawals, approvals, deposits and fee withdrawals: supply plus recorded fees grows by no more than the amounts that enough relays confirmed, less what was deposited or burnt (C29_backed_partial). Payouts: C19."
  },
  {
   "property": "C30",
   "status": "partial",
   "theorems": [
    "Verif.Props.C30_locks_partial",
    "Verif.Props.C30_fake"
   ],
   "note": "False: vault and mint are checked with && instead of ||, so with the settings of another token a deposit of a mint is recorded without locking any of it (C30_fake). Proved: with the vault and mint of the settings, exactly the amount moves from the depositor to the vault (C30_locks_partial)."
  },
  {
   "property": "C31",
   "status": "proved",
   "theorems": [
    "Verif.Props.C31_record_ever",
    "Verif.Props.C31_record_sol",
    "Verif.Props.C31_seed_once"
   ],
   "note": ""
  },
  {
   "property": "C32",
   "status": "partial",
   "theorems": [
    "Verif.Props.C32_deposit_partial",
    "Verif.Props.C32_fill_partial",
    "Verif.Props.C32_exceeded"
   ],
   "note": "False: with the settings of another token the limit of that token is used (C32_exceeded). Proved for deposits and fills made with the settings of the token; for fills also without 64-bit wrap of the sums (see C41_wraps)."
  },
  {
   "property": "C33",
   "status": "partial",
   "theorems": [
    "Verif.Props.C33_created_partial",
    "Verif.Props.C33_without_votes"
   ],
   "note": "False: the token is deployed before the votes are counted (C33_without_votes). Proved: name, symbol and decimals come from a genuine withdrawal record of that token."
  },
  {
   "property": "C34",
   "status": "proved",
   "theorems": [
    "Verif.Props.C34_close_deposit",
    "Verif.Props.C34_close_withdrawal"
   ],
   "note": ""
  },
  {
   "property": "C35",
   "status": "proved",
   "theorems": [
    "Verif.Props.C35_round_loader",
    "Verif.Props.C35_token_proxy",
    "Verif.Props.C35_native_proxy"
   ],
   "note": "For the round loader, the token proxy and the native proxy, over any set of accounts containing those of the instruction; account lists may repeat accounts. What a payload calls is a separate step."
  },
  {
   "property": "C36",
   "status": "proved",
   "theorems": [
    "Verif.Props.C36_vote_reimbursed",
    "Verif.Props.C36_proposal_funded",
    "Verif.Props.C36_withdrawal_vote_reimbursed",
    "Verif.Props.C36_withdrawal_funded"
   ],
   "note": ""
  },
  {
   "property": "C37",
   "status": "partial",
   "theorems": [
    "Verif.Props.C37_genuine_partial",
    "Verif.Props.C37_once_partial",
    "Verif.Props.C37_forged"
   ],
   "note": "False: the account given to ExecutePayload need not belong to the token proxy; a stranger's program can forge a withdrawal record and have the program sign for anyone's proxy account (C37_forged). Proved for accounts of the token proxy: the payload runs only for a confirmed withdrawal waiting for execution and its own proxy account (C37_genuine_partial), and not again until the account is removed (C37_once_partial)."
  },
  {
   "property": "C38",
   "status": "proved",
   "theorems": [
    "Verif.Props.C38_proxy",
    "Verif.Props.C38_history"
   ],
   "note": ""
  },
  {
   "property": "C39",
   "status": "partial",
   "theorems": [
    "Verif.Props.C39_bounty_partial",
    "Verif.Props.C39_unbounded"
   ],
   "note": "The bounty changes only with the signature of the author or recipient and while pending (C39_bounty_partial). No bound by the amount is checked: C39_unbounded sets a bounty above the amount."
  },
  {
   "property": "C40",
   "status": "partial",
   "theorems": [
    "Verif.Props.C40_cancel",
    "Verif.Props.C40_no_growth_partial",
    "Verif.Props.C40_grows"
   ],
   "note": "Signature, status and the content of the refund proved in full (C40_cancel). Obligations do not grow if the deposit fee is at least the withdrawal fee (C40_no_growth_partial); otherwise they do (C40_grows)."
  },
  {
   "property": "C41",
   "status": "partial",
   "theorems": [
    "Verif.Props.C41_fill",
    "Verif.Props.C41_rest_partial",
    "Verif.Props.C41_wraps"
   ],
   "note": "Payments, statuses, no repetition and the recorded deposit proved in full (C41_fill). What goes to the vault is right if the amounts together fit 64 bits (C41_rest_partial); otherwise the sum wraps (C41_wraps)."
  },
  {
   "property": "C42",
   "status": "partial",
   "theorems": [
    "Verif.Props.C42_refused_sol",
    "Verif.Props.C42_refused_ever",
    "Verif.Props.C42_blocked"
   ],
   "note": "False: once the proxy account of a recipient exists, every further payload request for that token and recipient is refused (C42_refused_sol, C42_refused_ever for every state; C42_blocked is a reachable case)."
  },
  {
   "property": "C43",
   "status": "partial",
   "theorems": [
    "Verif.Props.C43_exact_partial",
    "Verif.Props.C43_truncated"
   ],
   "note": "False: amounts are cut to 64 bits (C43_truncated). Exact for amounts below 2^64."
  },
  {
   "property": "C44",
   "status": "proved",
   "theorems": [
    "Verif.Props.C44_store_read",
    "Verif.Props.C44_store_succeeds",
    "Verif.Props.C44_relayRound_fits",
    "Verif.Props.C44_proposal_fits",
    "Verif.Props.C44_rlSettings_fits",
    "Verif.Props.C44_tpSettings_fits",
    "Verif.Props.C44_tokenSettings_fits",
    "Verif.Props.C44_withdrawalEver_fits",
    "Verif.Props.C44_withdrawalSol_fits"
   ],
   "note": ""
  },
  {
   "property": "C45",
   "status": "partial",
   "theorems": [
    "Verif.Props.C45_proposal_partial",
    "Verif.Props.C45_lenField_depositSol",
    "Verif.Props.C45_lenField_depositEver",
    "Verif.Props.C45_lenField_wEver",
    "Verif.Props.C45_lenField_wSol",
    "Verif.Props.C45_withdrawal",
    "Verif.Props.C45_deposit",
    "Verif.Props.C45_token_proxy_records",
    "Verif.Props.C45_generic_view_garbled"
   ],
   "note": "Holds for withdrawals and deposits. False for round proposals: the event length is written by the loader of the proposal and never checked (C45_generic_view_garbled)."
  },
  {
   "property": "C46",
   "status": "proved",
   "theorems": [
    "Verif.Props.C46_round_loader",
    "Verif.Props.C46_token_proxy",
    "Verif.Props.C46_unambiguous",
    "Verif.Props.C46_round_loader_wf",
    "Verif.Props.C46_token_proxy_wf",
    "Verif.Props.C46_generic_vote",
    "Verif.Props.C46_generic_execute"
   ],
   "note": ""
  },
  {
   "property": "C47",
   "status": "partial",
   "theorems": [
    "Verif.Props.C47_codes_partial",
    "Verif.Props.C47_shifted",
    "Verif.Props.C47_codes_injective"
   ],
   "note": "False from code 7 on (C47_shifted); codes 0 to 6 are right."
  },
  {
   "property": "C48",
   "status": "proved",
   "theorems": [
    "Verif.Props.C48_address",
    "Verif.Props.C48_uint256",
    "Verif.Props.C48_address_injective",
    "Verif.Props.C48_from_be",
    "Verif.Props.C48_from_be_u64"
   ],
   "note": ""
  },
  {
   "property": "C49",
   "status": "proved",
   "theorems": [
    "Verif.Props.C49_ordinary",
    "Verif.Props.C49_amounts",
    "Verif.Props.C49_record",
    "Verif.Props.C49_history",
    "Verif.Props.C49_reach"
   ],
   "note": "Under a positive rent for token accounts, and the author's account not being the vault (which holds when the vault address is nobody's key). The author pays exactly the amount unless the author is also the funder, who pays rent and value."
  },
  {
   "property": "C50",
   "status": "partial",
   "theorems": [
    "Verif.Props.C50_once_partial",
    "Verif.Props.C50_paid_twice"
   ],
   "note": "False: after closing, which anyone can do, the same event can be requested and paid again (C50_paid_twice). Proved: at most one release until the account is removed (C50_once_partial)."
  },
  {
   "property": "C51",
   "status": "proved",
   "theorems": [
    "Verif.Props.C51_round_loader",
    "Verif.Props.C51_token_proxy",
    "Verif.Props.C51_round_loader_consent",
    "Verif.Props.C51_token_proxy_consent",
    "Verif.Props.C51_foreign_records",
    "Verif.Props.C51_native_proxy"
   ],
   "note": "A handler returns either an error and no world, or a new world: that an error leaves no trace is the transaction semantics of the runtime and part of the model. Proved: a successful instruction changes only accounts it was given as writable and only adds logs, for all three programs; accounts that did not sign and are not the programs' are not touched."
  },
  {
   "property": "C52",
   "status": "partial",
   "theorems": [
    "Verif.Props.C52_tp_depositEver",
    "Verif.Props.C52_tp_depositSol",
    "Verif.Props.C52_tp_depositSol_first",
    "Verif.Props.C52_tp_cancel",
    "Verif.Props.C52_tp_fill",
    "Verif.Props.C52_fill_needs_vault",
    "Verif.Props.C52_tp_createEverPayload",
    "Verif.Props.C52_bridge_vote",
    "Verif.Props.C52_bridge_solRequest",
    "Verif.Props.C52_bridge_everRequest",
    "Verif.Props.C52_bridge_execute",
    "Verif.Props.C52_bridge_no_rounds",
    "Verif.Props.C52_bridge_payloadSol",
    "Verif.Props.C52_bridge_payloadEver",
    "Verif.Props.C52_np_deposit",
    "Verif.Props.C52_np_deposit_first",
    "Verif.Props.C52_tp_withdrawSol",
    "Verif.Props.C52_tp_withdrawSolPayload",
    "Verif.Props.C52_tp_approveSol",
    "Verif.Props.C52_tp_withdrawSolFee",
    "Verif.Props.C52_tp_withdrawEver",
    "Verif.Props.C52_tp_withdrawEverPayload",
    "Verif.Props.C52_tp_approveEver",
    "Verif.Props.C52_tp_withdrawEverFee",
    "Verif.Props.C52_rl_data",
    "Verif.Props.C52_rl_initialize",
    "Verif.Props.C52_rl_updateSettings",
    "Verif.Props.C52_rl_createRelayRound",
    "Verif.Props.C52_rl_createProposal",
    "Verif.Props.C52_rl_writeProposal",
    "Verif.Props.C52_rl_finalize",
    "Verif.Props.C52_rl_vote",
    "Verif.Props.C52_rl_execute",
    "Verif.Props.C52_rl_executeByAdmin",
    "Verif.Props.C52_tp_solRequest",
    "Verif.Props.C52_tp_solRequestPayload",
    "Verif.Props.C52_tp_everRequest",
    "Verif.Props.C52_tp_everRequestPayload",
    "Verif.Props.C52_tp_createEver",
    "Verif.Props.C52_tp_data",
    "Verif.Props.C52_tp_admin_data",
    "Verif.Props.C52_tp_rest_data",
    "Verif.Props.C52_tp_roles",
    "Verif.Props.C52_tp_emergency",
    "Verif.Props.C52_tp_token",
    "Verif.Props.C52_tp_updateTokenName",
    "Verif.Props.C52_tp_vote",
    "Verif.Props.C52_tp_closeDeposit",
    "Verif.Props.C52_tp_closeWithdrawal",
    "Verif.Props.C52_tp_withdrawMultiVault",
    "Verif.Props.C52_tp_withdrawProxy",
    "Verif.Props.C52_tp_changeBounty",
    "Verif.Props.C52_tp_initialize"
   ],
   "note": "Data of every builder decodes to its instruction. Acceptance with the derived accounts is proved for every builder of the round loader, the token proxy, the solana-bridge crate and the native proxy. False, and proved false, in two cases: a fill built without the vault is never accepted (C52_fill_needs_vault), and the general execute builder of the solana-bridge crate can never open a relay round, because it puts the proposal where the round loader expects the payer (C52_bridge_no_rounds)."
  },
  {
   "property": "C53",
   "status": "proved",
   "theorems": [
    "Verif.Props.C53_first",
    "Verif.Props.C53_later",
    "Verif.Props.C53_address"
   ],
   "note": ""
  },
  {
   "property": "C54",
   "status": "proved",
   "theorems": [
    "Verif.Props.C54_out",
    "Verif.Props.C54_deposit",
    "Verif.Props.C54_fill",
    "Verif.Props.C54_balance",
    "Verif.Props.C54_short",
    "Verif.Props.C54_short_approved",
    "Verif.Props.C54_short_succeeds"
   ],
   "note": "Histories at a locked vault address; for the vault of wrapped SOL the lamport balance must cover the tokens (Funded), since SPL's sync sets the token balance from it. A payout from a proxy address that coincides with the vault (a hash collision) is listed, not excluded. 'Does not fail' is C54_short_succeeds: if the payout succeeds with enough in the vault, it succeeds with less."
  },
  {
   "property": "C55",
   "status": "partial",
   "theorems": [
    "Verif.Props.C55_old_round"
   ],
   "note": "False: an older round that has not expired is accepted (C55_old_round). What is checked instead is in C14_request_sol, C14_request_ever and C14_round_genuine."
  },
  {
   "property": "C56",
   "status": "partial",
   "theorems": [
    "Verif.Props.C56_signed_partial",
    "Verif.Props.C56_author_cancels"
   ],
   "note": "False: the author, who is whoever submitted the request, can cancel it and name any recipient for the refund (C56_author_cancels). Proved: author or recipient must sign (C56_signed_partial)."
  },
  {
   "property": "C57",
   "status": "partial",
   "theorems": [
    "Verif.Props.C57_round_trip_partial",
    "Verif.Props.C57_inflated"
   ],
   "note": "Proved when the token was created with the decimals of the withdrawal (C57_round_trip_partial). False in general: a token is created without votes with decimals of anyone's choice (C57_inflated)."
  },
  {
   "property": "C58",
   "status": "proved",
   "theorems": [
    "Verif.Props.C58_made",
    "Verif.Props.C58_deposit_stays"
   ],
   "note": ""
  },
  {
   "property": "C59",
   "status": "proved",
   "theorems": [
    "Verif.Props.C59_consent"
   ],
   "note": "For all token proxy instructions; calls made by payloads are separate steps."
  },
  {
   "property": "C60",
   "status": "proved",
   "theorems": [
    "Verif.Props.C60_sol_paid",
    "Verif.Props.C60_sol_approved",
    "Verif.Props.C60_ever_paid",
    "Verif.Props.C60_ever_approved"
   ],
   "note": "For both kinds of tokens, direct payment and approval. The hypotheses are the state the bridge leaves its accounts in, a token account of the recipient that is not frozen, room in the counters, and a vault (or, for Everscale tokens, a supply) that covers the payment."
  },
  {
   "property": "C61",
   "status": "partial",
   "theorems": [
    "Verif.Props.C61_amount",
    "Verif.Props.C61_initialize",
    "Verif.Props.C61_everRequest",
    "Verif.Props.C61_solRequest",
    "Verif.Props.C61_vote",
    "Verif.Props.C61_payouts",
    "Verif.Props.C61_payload",
    "Verif.Props.C61_depositNative",
    "Verif.Props.C61_depositEver",
    "Verif.Props.C61_depositSol",
    "Verif.Props.C61_cancel",
    "Verif.Props.C61_fill",
    "Verif.Props.C61_roles",
    "Verif.Props.C61_token",
    "Verif.Props.C61_approve",
    "Verif.Props.C61_rest",
    "Verif.Props.C61_rounds",
    "Verif.Props.C61_addresses",
    "Verif.Props.C61_cannot_stop_token",
    "Verif.Props.C61_cannot_resume_token",
    "Verif.Props.C61_limits"
   ],
   "note": "For every other function: it builds exactly what the Rust builder builds for the parsed arguments, so the acceptance theorems of C52 apply; the limits are accepted from the manager as well as from the owner (C61_limits). False, and proved false in every state, for three functions: enableTokenEmergency and enableTokenEmergencyByOwner name the settings and the token settings in the wrong order (C61_cannot_stop_token), disableTokenEmergency leaves out the settings (C61_cannot_resume_token)."
  },
  {
   "property": "C62",
   "status": "proved",
   "theorems": [
    "Verif.Props.C62_ready",
    "Verif.Props.C62_votes",
    "Verif.Props.C62_sol",
    "Verif.Props.C62_ever",
    "Verif.Props.C62_round"
   ],
   "note": ""
  },
  {
   "property": "C63",
   "status": "partial",
   "theorems": [
    "Verif.Props.C63_anyone",
    "Verif.Props.C63_stays",
    "Verif.Props.C63_blocked",
    "Verif.Props.C63_no_settings",
    "Verif.Props.C63_no_round",
    "Verif.Props.C63_request_lost",
    "Verif.Props.C63_no_mint",
    "Verif.Props.C63_no_deposit"
   ],
   "note": "False of the code. C63_anyone and C63_blocked: in every reachable state anybody with some lamports can block any address without an account, for every later history (unless a token account is opened at that very address). C63_no_settings, C63_no_round, C63_request_lost, C63_no_mint, C63_no_deposit say what no longer works. The positive side, for addresses that hold no lamports, is C52, C60 and C62."
  },
  {
   "property": "C64",
   "status": "partial",
   "theorems": [
    "Verif.Props.C64_taken",
    "Verif.Props.C64_forever",
    "Verif.Props.C64_kept_partial"
   ],
   "note": "False of the code. C64_taken: the manager can take every lamport of the multi vault, and the account is purged. C64_forever: from then on no deposit, cancellation or fill succeeds in any later state and the account cannot be opened again. C64_kept_partial: as long as a lamport is left the account stays usable."
  },
  {
   "property": "C65",
   "status": "partial",
   "theorems": [
    "Verif.Props.C65_refused"
   ],
   "note": "False of the code. C65_refused: every request with a payload is refused while the mint of the token does not exist. That requests with a payload are accepted once the mint exists is C52_tp_everRequestPayload."
  },
  {
   "property": "C66",
   "status": "partial",
   "theorems": [
    "Verif.Props.C66_deposits_stop",
    "Verif.Props.C66_payouts_stop",
    "Verif.Props.C66_accepted",
    "Verif.Props.C66_usable_partial"
   ],
   "note": "False of the code. C66_accepted: the manager can set any rate. C66_deposits_stop and C66_payouts_stop: with the divisor 0 no deposit or cancellation, respectively no payout, fill or approval, succeeds. C66_usable_partial: a positive divisor and a multiplier not above it give every positive amount a fee of at most that amount."
  },
  {
   "property": "C67",
   "status": "partial",
   "theorems": [
    "Verif.Props.C67_required_partial",
    "Verif.Props.C67_never_paid",
    "Verif.Props.C67_never_executed",
    "Verif.Props.C67_unpayable",
    "Verif.Props.C67_unexecutable"
   ],
   "note": "False of the code. C67_unpayable and C67_unexecutable: with a minimum above the number of relays there are reachable withdrawals and proposals that no later history decides (C67_never_paid, C67_never_executed say so for all of them). C67_required_partial: the requirement can be met exactly if there is a relay and the minimum is not above the number of relays."
  },
  {
   "property": "C68",
   "status": "partial",
   "theorems": [
    "Verif.Props.C68_sol_partial",
    "Verif.Props.C68_ever_partial",
    "Verif.Props.C68_end_partial",
    "Verif.Props.C68_expired",
    "Verif.Props.C68_overflow"
   ],
   "note": "False of the code. C68_expired: after 2^32 seconds a request is accepted with an expired round. C68_overflow: the end of a round wraps around. C68_sol_partial, C68_ever_partial, C68_end_partial: it holds as long as the clock and the end are below 2^32."
  },
  {
   "property": "C69",
   "status": "partial",
   "theorems": [
    "Verif.Props.C69_no_clock",
    "Verif.Props.C69_votes",
    "Verif.Props.C69_late"
   ],
   "note": "False of the code. C69_no_clock: every instruction of the round loader has the same outcome at every time; C69_votes: the same for votes on withdrawals; C69_late: an expired round installs a new one. The part that holds, that an expired round opens no new withdrawals, is C68_sol_partial and C68_ever_partial."
  },
  {
   "property": "C70",
   "status": "proved",
   "theorems": [
    "Verif.Props.C70_settings",
    "Verif.Props.C70_token",
    "Verif.Props.C70_withdrawal_ever",
    "Verif.Props.C70_withdrawal_sol",
    "Verif.Props.C70_deposit_ever",
    "Verif.Props.C70_deposit_sol",
    "Verif.Props.C70_rl_settings",
    "Verif.Props.C70_rl_round",
    "Verif.Props.C70_rl_proposal",
    "Verif.Props.C70_any_kind"
   ],
   "note": "For the data of every account of the stated kind. The conversion of the shown values to JavaScript objects is not modelled. The functions do not compare the kind of the account: C70_any_kind."
  },
  {
   "property": "C71",
   "status": "proved",
   "theorems": [
    "Verif.Props.C71_round_loader",
    "Verif.Props.C71_token_proxy",
    "Verif.Props.C71_native_proxy"
   ],
   "note": "For the token proxy the instructions of an executed payload are a parameter and have to be local themselves. Time is part of the instruction's context."
  },
  {
   "property": "C72",
   "status": "proved",
   "theorems": [
    "Verif.Props.C72_error",
    "Verif.Props.C72_swap",
    "Verif.Props.C72_any_order"
   ],
   "note": "Executing a payload is left out. Log records of different instructions are compared up to order."
  },
  {
   "property": "C73",
   "status": "proved",
   "theorems": [
    "Verif.Props.C73_swap",
    "Verif.Props.C73_votes",
    "Verif.Props.C73_any_order"
   ],
   "note": "The voting relays are different from each other and from the account voted on. For round proposals both votes name the same relay round: votes with different rounds can fill the same slot (C07_foreign_vote)."
  },
  {
   "property": "C74",
   "status": "proved",
   "theorems": [
    "Verif.Props.C74_upload",
    "Verif.Props.C74_install"
   ],
   "note": "Nobody else acts in between (writes need no signature, and C10_stranded shows that anybody can finalize a proposal with another round). At most 100 relays, the size of the accounts."
  },
  {
   "property": "C75",
   "status": "proved",
   "theorems": [
    "Verif.Props.C75_sol",
    "Verif.Props.C75_ever",
    "Verif.Props.C75_ever_first",
    "Verif.Props.C75_sol_payload",
    "Verif.Props.C75_ever_payload"
   ],
   "note": "With a payload the proxy account must be unused (C42 shows that requests fail otherwise). Nobody else acts in between; C62 has the votes and payouts in any history. C75_sol, C75_ever, C75_ever_first, C75_sol_payload, C75_ever_payload."
  },
  {
   "property": "C76",
   "status": "proved",
   "theorems": [
    "Verif.Props.C76_round_settings",
    "Verif.Props.C76_round",
    "Verif.Props.C76_proposal",
    "Verif.Props.C76_finalized",
    "Verif.Props.C76_settings",
    "Verif.Props.C76_token",
    "Verif.Props.C76_deposit",
    "Verif.Props.C76_withdrawal",
    "Verif.Props.C76_round_loader_takes",
    "Verif.Props.C76_token_proxy_takes"
   ],
   "note": "The multi vault is excepted (C64 shows that its rent can be taken) and so are finished withdrawals, whose author may close them."
  },
  {
   "property": "C77",
   "status": "proved",
   "theorems": [
    "Verif.Props.C77_sol_held",
    "Verif.Props.C77_sol_approved_short",
    "Verif.Props.C77_sol_refill",
    "Verif.Props.C77_sol_over",
    "Verif.Props.C77_sol_short",
    "Verif.Props.C77_ever_held",
    "Verif.Props.C77_ever_over"
   ],
   "note": "The premises are the concrete situation of the transfer (records exist, no emergency, receiving account of the right mint and owner); the fees are unchanged in between, as the approval recomputes them (see C29)."
  },
  {
   "property": "C78",
   "status": "proved",
   "theorems": [
    "Verif.Props.C78_round_loader",
    "Verif.Props.C78_token_proxy",
    "Verif.Props.C78_payload",
    "Verif.Props.C78_native_proxy"
   ],
   "note": "For payouts, approvals and fills of wrapped SOL the amounts are fixed by the change of the token balances, which C22, C38 and C41 determine. The native proxy bill assumes that the token settings account does not sign the deposit."
  },
  {
   "property": "C79",
   "status": "proved",
   "theorems": [
    "Verif.Props.C79_round_loader",
    "Verif.Props.C79_at_once",
    "Verif.Props.C79_token_proxy",
    "Verif.Props.C79_native_proxy",
    "Verif.Props.C79_fee_twice"
   ],
   "note": "For requests with a payload the proxy account must not be a system account with data before the first execution (no such account exists on the real chain)."
  },
  {
   "property": "C80",
   "status": "proved",
   "theorems": [
    "Verif.Props.C80_round_loader",
    "Verif.Props.C80_token_proxy",
    "Verif.Props.C80_native_proxy",
    "Verif.Props.C80_together"
   ],
   "note": "For all three programs, and for whole transactions in C80_together. The processing of payloads is the same function of the state in both runs."
  },
  {
   "property": "C81",
   "status": "partial",
   "theorems": [
    "Verif.Props.C81_log_partial",
    "Verif.Props.C81_cancel",
    "Verif.Props.C81_payload",
    "Verif.Props.C81_round_loader",
    "Verif.Props.C81_native_proxy",
    "Verif.Props.C81_status_partial",
    "Verif.Props.C81_unannounced"
   ],
   "note": "False as stated: C81_cancel shows that the record of the new transfer names the account of the cancelled withdrawal (and is true apart from that), C81_unannounced that an approval changes the status without a record. All other instructions: C81_log_partial; all other changes of status: C81_status_partial."
  },
  {
   "property": "C82",
   "status": "proved",
   "theorems": [
    "Verif.Props.C82_round_loader",
    "Verif.Props.C82_token_proxy",
    "Verif.Props.C82_native_proxy",
    "Verif.Props.C82_round_loader_records",
    "Verif.Props.C82_token_proxy_records",
    "Verif.Props.C82_logs",
    "Verif.Props.C82_events"
   ],
   "note": ""
  },
  {
   "property": "C83",
   "status": "proved",
   "theorems": [
    "Verif.Props.C83_token_proxy",
    "Verif.Props.C83_round_loader",
    "Verif.Props.C83_limits",
    "Verif.Props.C83_created",
    "Verif.Props.C83_created_rl"
   ],
   "note": "The settings of a Solana mint and of an Everscale token are derived from the same bytes if the mint is the hash of the token; this is counted as a collision of the hash function."
  },
  {
   "property": "C84",
   "status": "proved",
   "theorems": [
    "Verif.Props.C84_new_token",
    "Verif.Props.C84_first_deposit",
    "Verif.Props.C84_names",
    "Verif.Props.C84_relays"
   ],
   "note": ""
  },
  {
   "property": "C85",
   "status": "proved",
   "theorems": [
    "Verif.Props.C85_stays",
    "Verif.Props.C85_token_stays",
    "Verif.Props.C85_rl_stays",
    "Verif.Props.C85_bridge",
    "Verif.Props.C85_token",
    "Verif.Props.C85_rl"
   ],
   "note": ""
  },
  {
   "property": "C86",
   "status": "proved",
   "theorems": [
    "Verif.Props.C86_record",
    "Verif.Props.C86_one",
    "Verif.Props.C86_history",
    "Verif.Props.C86_vault",
    "Verif.Props.C86_mint"
   ],
   "note": ""
  },
  {
   "property": "C87",
   "status": "proved",
   "theorems": [
    "Verif.Props.C87_record",
    "Verif.Props.C87_one",
    "Verif.Props.C87_history",
    "Verif.Props.C87_proposal",
    "Verif.Props.C87_proposal_history"
   ],
   "note": ""
  },
  {
   "property": "C88",
   "status": "partial",
   "theorems": [
    "Verif.Props.C88_signatures_partial",
    "Verif.Props.C88_stolen"
   ],
   "note": "False as stated: C88_stolen is a history in which a stranger overwrites nine of twelve relays by WriteProposal, requests a withdrawal, confirms it and is paid, while no relay and nobody with a role signs anything. C88_signatures_partial proves the full statement for withdrawals whose relay round nobody passes to WriteProposal."
  },
  {
   "property": "C89",
   "status": "partial",
   "theorems": [
    "Verif.Props.C89_signatures_partial",
    "Verif.Props.C89_alone"
   ],
   "note": "False as stated: C89_alone is a history in which the same three relays have served in three rounds, in another order each time, and one of them alone fills all three slots of a proposal, each vote naming another round, and installs a round of their own keys. C89_signatures_partial proves the full statement for proposals whose votes all name the round of the proposal, if nobody passes this round to WriteProposal."
  },
  {
   "property": "C90",
   "status": "proved",
   "theorems": [
    "Verif.Props.C90_origin",
    "Verif.Props.C90_once"
   ],
   "note": "C90_origin and C90_once, over all histories. The last clause carries the exception found in C03."
  },
  {
   "property": "C91",
   "status": "proved",
   "theorems": [
    "Verif.Props.C91_origin",
    "Verif.Props.C91_released"
   ],
   "note": "C91_origin and C91_released, over all histories."
  },
  {
   "property": "C92",
   "status": "proved",
   "theorems": [
    "Verif.Props.C92_origin"
   ],
   "note": "C92_origin, over all histories. That a deposit of a Solana token puts the tokens into the vault is C30, and false without a condition."
  },
  {
   "property": "C93",
   "status": "proved",
   "theorems": [
    "Verif.Props.C93_origin"
   ],
   "note": "C93_origin, over all histories. That the withdrawal behind an Everscale token had a quorum is C33, and false."
  },
  {
   "property": "C94",
   "status": "proved",
   "theorems": [
    "Verif.Props.C94_origin",
    "Verif.Props.C94_voted"
   ],
   "note": "C94_origin and C94_voted, over all histories. The round number in a finalized proposal is that of the relay round passed to FinalizeProposal, not the one signed for (C10). ExecuteProposalByAdmin does not check the owner of the proposal, so C94_voted is about ExecuteProposal only."
  },
  {
   "property": "C95",
   "status": "proved",
   "theorems": [
    "Verif.Props.C95_repair",
    "Verif.Props.C95_install",
    "Verif.Props.C95_zeros_needed"
   ],
   "note": "C95_repair, from every state of every history, and C95_install up to the open round. The repair and the finalization are consecutive instructions: somebody can spoil the proposal again between them, so this is about what is possible, not about a race. C95_zeros_needed: a history in which the event is written without the zeros and finalization fails."
  }
 ]
}