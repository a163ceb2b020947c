{
 "C21": {
  "status": "partial",
  "note": "Round trips proved for all amounts and decimals. The clause 'out-of-range results fail' is false: the result is truncated to 64 bits (C21_truncates, C21_not_refused) and powers of ten wrap (C21_wrapped_power_creates_value)."
 },
 "C45": {
  "status": "partial",
  "note": "Holds for withdrawals and deposits. False for round proposals: the event length is written by the loader of the proposal and never checked (C45_generic_view_garbled)."
 },
 "C47": {
  "status": "partial",
  "note": "False from code 7 on (C47_shifted); codes 0 to 6 are right."
 },
 "C03": {
  "status": "partial",
  "note": "False: WriteProposal, signed by nobody, overwrites the relays of an existing round from the fourth on (C03_relays_replaced), from 12 relays on a full quorum (C03_quorum_replaced). Proved: round number, end and first relays never change (C03_header_partial), and a round no WriteProposal is aimed at never changes (C03_unwritten_partial)."
 },
 "C07": {
  "status": "partial",
  "note": "False: a vote may be cast with any relay round account (C07_foreign_vote). Proved: every vote was cast by the relay of some genuine round at that index (C07_votes_cast_partial)."
 },
 "C08": {
  "status": "partial",
  "note": "Round proposals proved in full. Withdrawals: a vote changes one empty slot or nothing, and stays while the account lives and its payload is not executed (C08_withdrawal_vote_stays_partial). False otherwise: executing the payload writes back the record read before the call, and a vote cast by the payload is lost (C08_vote_lost)."
 },
 "C10": {
  "status": "partial",
  "note": "False: anyone can finalize a proposal with another round and make it unusable forever (C10_stranded, C10_stranger_strands). Proved: proposals finalized with their own round can be voted on and executed."
 },
 "C12": {
  "status": "partial",
  "note": "False: executing an old proposal moves the current round number back (C12_moves_back). Proved: it grows over every history in which no proposal of an older round is executed (C12_monotone_partial)."
 },
 "C24": {
  "status": "partial",
  "note": "The global mode stops all five (C24_global). The mode of one token stops payouts, approvals and cancellations of its withdrawals (C24_sol, C24_ever) and everything that names its settings (C24_token_partial), but false for deposits: a deposit into the token's vault that names another token's settings goes through (C24_token_bypassed)."
 },
 "C15": {
  "status": "partial",
  "note": "Every successful vote is by the relay of the withdrawal's own round (C15_vote_bound). That nothing else changes a slot is proved except for executing the withdrawal's own payload (C15_slots_partial), where it is false: see C08_vote_lost."
 },
 "C55": {
  "status": "partial",
  "note": "False: an older round that has not expired is accepted (C55_old_round). What is checked instead is in C14_request_sol, C14_request_ever and C14_round_genuine."
 },
 "C19": {
  "status": "partial",
  "note": "Proved for both kinds of tokens, withdrawing and approving, with the amount of a Solana event cut to 64 bits: for amounts of 2^64 and more the payout is not the amount of the event (C43_truncated)."
 },
 "C22": {
  "status": "proved",
  "note": "Both limits and their effect for every single payout; the bound on the sum of a day for days without approvals (C22_daily_unapproved, no history needed) and with approvals (C22_daily)."
 },
 "C33": {
  "status": "partial",
  "note": "False: the token is deployed before the votes are counted (C33_without_votes). Proved: name, symbol and decimals come from a genuine withdrawal record of that token."
 },
 "C43": {
  "status": "partial",
  "note": "False: amounts are cut to 64 bits (C43_truncated). Exact for amounts below 2^64."
 },
 "C40": {
  "status": "partial",
  "note": "Signature, status and the content of the refund proved in full (C40_cancel). Obligations do not grow if the deposit fee is at least the withdrawal fee (C40_no_growth_partial); otherwise they do (C40_grows)."
 },
 "C41": {
  "status": "partial",
  "note": "Payments, statuses, no repetition and the recorded deposit proved in full (C41_fill). What goes to the vault is right if the amounts together fit 64 bits (C41_rest_partial); otherwise the sum wraps (C41_wraps)."
 },
 "C50": {
  "status": "partial",
  "note": "False: after closing, which anyone can do, the same event can be requested and paid again (C50_paid_twice). Proved: at most one release until the account is removed (C50_once_partial)."
 },
 "C56": {
  "status": "partial",
  "note": "False: the author, who is whoever submitted the request, can cancel it and name any recipient for the refund (C56_author_cancels). Proved: author or recipient must sign (C56_signed_partial)."
 },
 "C29": {
  "status": "partial",
  "note": "False as a balance: the fee of a withdrawal that waits for approval is recorded when it starts to wait, but the payout on approval uses the fee rate of that time, so lowering the rate in between mints more than the event's amount in total (C29_overcounted). Proved: what every single step of every history adds to or takes from supply plus recorded fees (C29_flow_partial), the burn and fee of every deposit (C29_deposit), that a token starts from nothing (C29_created), and, while the fee rate does not change, the balance over whole histories with payouts, waiting withdrawals, approvals, deposits and fee withdrawals: supply plus recorded fees grows by no more than the amounts that enough relays confirmed, less what was deposited or burnt (C29_backed_partial). Payouts: C19."
 },
 "C30": {
  "status": "partial",
  "note": "False: vault and mint are checked with && instead of ||, so with the settings of another token a deposit of a mint is recorded without locking any of it (C30_fake). Proved: with the vault and mint of the settings, exactly the amount moves from the depositor to the vault (C30_locks_partial)."
 },
 "C32": {
  "status": "partial",
  "note": "False: with the settings of another token the limit of that token is used (C32_exceeded). Proved for deposits and fills made with the settings of the token; for fills also without 64-bit wrap of the sums (see C41_wraps)."
 },
 "C54": {
  "status": "proved",
  "note": "Histories at a locked vault address; for the vault of wrapped SOL the lamport balance must cover the tokens (Funded), since SPL's sync sets the token balance from it. A payout from a proxy address that coincides with the vault (a hash collision) is listed, not excluded. 'Does not fail' is C54_short_succeeds: if the payout succeeds with enough in the vault, it succeeds with less."
 },
 "C37": {
  "status": "partial",
  "note": "False: the account given to ExecutePayload need not belong to the token proxy; a stranger's program can forge a withdrawal record and have the program sign for anyone's proxy account (C37_forged). Proved for accounts of the token proxy: the payload runs only for a confirmed withdrawal waiting for execution and its own proxy account (C37_genuine_partial), and not again until the account is removed (C37_once_partial)."
 },
 "C39": {
  "status": "partial",
  "note": "The bounty changes only with the signature of the author or recipient and while pending (C39_bounty_partial). No bound by the amount is checked: C39_unbounded sets a bounty above the amount."
 },
 "C42": {
  "status": "partial",
  "note": "False: once the proxy account of a recipient exists, every further payload request for that token and recipient is refused (C42_refused_sol, C42_refused_ever for every state; C42_blocked is a reachable case)."
 },
 "C57": {
  "status": "partial",
  "note": "Proved when the token was created with the decimals of the withdrawal (C57_round_trip_partial). False in general: a token is created without votes with decimals of anyone's choice (C57_inflated)."
 },
 "C35": {
  "status": "proved",
  "note": "For the round loader, the token proxy and the native proxy, over any set of accounts containing those of the instruction; account lists may repeat accounts. What a payload calls is a separate step."
 },
 "C51": {
  "status": "proved",
  "note": "A handler returns either an error and no world, or a new world: that an error leaves no trace is the transaction semantics of the runtime and part of the model. Proved: a successful instruction changes only accounts it was given as writable and only adds logs, for all three programs; accounts that did not sign and are not the programs' are not touched."
 },
 "C59": {
  "status": "proved",
  "note": "For all token proxy instructions; calls made by payloads are separate steps."
 },
 "C49": {
  "status": "proved",
  "note": "Under a positive rent for token accounts, and the author's account not being the vault (which holds when the vault address is nobody's key). The author pays exactly the amount unless the author is also the funder, who pays rent and value."
 },
 "C52": {
  "status": "partial",
  "note": "Data of every builder decodes to its instruction. Acceptance with the derived accounts is proved for every builder of the round loader, the token proxy, the solana-bridge crate and the native proxy. False, and proved false, in two cases: a fill built without the vault is never accepted (C52_fill_needs_vault), and the general execute builder of the solana-bridge crate can never open a relay round, because it puts the proposal where the round loader expects the payer (C52_bridge_no_rounds)."
 },
 "C60": {
  "status": "proved",
  "note": "For both kinds of tokens, direct payment and approval. The hypotheses are the state the bridge leaves its accounts in, a token account of the recipient that is not frozen, room in the counters, and a vault (or, for Everscale tokens, a supply) that covers the payment."
 },
 "C61": {
  "status": "partial",
  "note": "For every other function: it builds exactly what the Rust builder builds for the parsed arguments, so the acceptance theorems of C52 apply; the limits are accepted from the manager as well as from the owner (C61_limits). False, and proved false in every state, for three functions: enableTokenEmergency and enableTokenEmergencyByOwner name the settings and the token settings in the wrong order (C61_cannot_stop_token), disableTokenEmergency leaves out the settings (C61_cannot_resume_token)."
 },
 "C63": {
  "status": "partial",
  "note": "False of the code. C63_anyone and C63_blocked: in every reachable state anybody with some lamports can block any address without an account, for every later history (unless a token account is opened at that very address). C63_no_settings, C63_no_round, C63_request_lost, C63_no_mint, C63_no_deposit say what no longer works. The positive side, for addresses that hold no lamports, is C52, C60 and C62."
 },
 "C64": {
  "status": "partial",
  "note": "False of the code. C64_taken: the manager can take every lamport of the multi vault, and the account is purged. C64_forever: from then on no deposit, cancellation or fill succeeds in any later state and the account cannot be opened again. C64_kept_partial: as long as a lamport is left the account stays usable."
 },
 "C65": {
  "status": "partial",
  "note": "False of the code. C65_refused: every request with a payload is refused while the mint of the token does not exist. That requests with a payload are accepted once the mint exists is C52_tp_everRequestPayload."
 },
 "C66": {
  "status": "partial",
  "note": "False of the code. C66_accepted: the manager can set any rate. C66_deposits_stop and C66_payouts_stop: with the divisor 0 no deposit or cancellation, respectively no payout, fill or approval, succeeds. C66_usable_partial: a positive divisor and a multiplier not above it give every positive amount a fee of at most that amount."
 },
 "C67": {
  "status": "partial",
  "note": "False of the code. C67_unpayable and C67_unexecutable: with a minimum above the number of relays there are reachable withdrawals and proposals that no later history decides (C67_never_paid, C67_never_executed say so for all of them). C67_required_partial: the requirement can be met exactly if there is a relay and the minimum is not above the number of relays."
 },
 "C68": {
  "status": "partial",
  "note": "False of the code. C68_expired: after 2^32 seconds a request is accepted with an expired round. C68_overflow: the end of a round wraps around. C68_sol_partial, C68_ever_partial, C68_end_partial: it holds as long as the clock and the end are below 2^32."
 },
 "C69": {
  "status": "partial",
  "note": "False of the code. C69_no_clock: every instruction of the round loader has the same outcome at every time; C69_votes: the same for votes on withdrawals; C69_late: an expired round installs a new one. The part that holds, that an expired round opens no new withdrawals, is C68_sol_partial and C68_ever_partial."
 },
 "C70": {
  "status": "proved",
  "note": "For the data of every account of the stated kind. The conversion of the shown values to JavaScript objects is not modelled. The functions do not compare the kind of the account: C70_any_kind."
 },
 "C71": {
  "status": "proved",
  "note": "For the token proxy the instructions of an executed payload are a parameter and have to be local themselves. Time is part of the instruction's context."
 },
 "C72": {
  "status": "proved",
  "note": "Executing a payload is left out. Log records of different instructions are compared up to order."
 },
 "C73": {
  "status": "proved",
  "note": "The voting relays are different from each other and from the account voted on. For round proposals both votes name the same relay round: votes with different rounds can fill the same slot (C07_foreign_vote)."
 },
 "C74": {
  "status": "proved",
  "note": "Nobody else acts in between (writes need no signature, and C10_stranded shows that anybody can finalize a proposal with another round). At most 100 relays, the size of the accounts."
 },
 "C75": {
  "status": "proved",
  "note": "With a payload the proxy account must be unused (C42 shows that requests fail otherwise). Nobody else acts in between; C62 has the votes and payouts in any history. C75_sol, C75_ever, C75_ever_first, C75_sol_payload, C75_ever_payload."
 },
 "C76": {
  "status": "proved",
  "note": "The multi vault is excepted (C64 shows that its rent can be taken) and so are finished withdrawals, whose author may close them."
 },
 "C77": {
  "status": "proved",
  "note": "The premises are the concrete situation of the transfer (records exist, no emergency, receiving account of the right mint and owner); the fees are unchanged in between, as the approval recomputes them (see C29)."
 },
 "C78": {
  "status": "proved",
  "note": "For payouts, approvals and fills of wrapped SOL the amounts are fixed by the change of the token balances, which C22, C38 and C41 determine. The native proxy bill assumes that the token settings account does not sign the deposit."
 },
 "C79": {
  "status": "proved",
  "note": "For requests with a payload the proxy account must not be a system account with data before the first execution (no such account exists on the real chain)."
 },
 "C80": {
  "status": "proved",
  "note": "For all three programs, and for whole transactions in C80_together. The processing of payloads is the same function of the state in both runs."
 },
 "C81": {
  "status": "partial",
  "note": "False as stated: C81_cancel shows that the record of the new transfer names the account of the cancelled withdrawal (and is true apart from that), C81_unannounced that an approval changes the status without a record. All other instructions: C81_log_partial; all other changes of status: C81_status_partial."
 },
 "C82": {
  "status": "proved",
  "note": ""
 },
 "C83": {
  "status": "proved",
  "note": "The settings of a Solana mint and of an Everscale token are derived from the same bytes if the mint is the hash of the token; this is counted as a collision of the hash function."
 },
 "C84": {
  "status": "proved",
  "note": ""
 },
 "C85": {
  "status": "proved",
  "note": ""
 },
 "C86": {
  "status": "proved",
  "note": ""
 },
 "C87": {
  "status": "proved",
  "note": ""
 },
 "C88": {
  "status": "partial",
  "note": "False as stated: C88_stolen is a history in which a stranger overwrites nine of twelve relays by WriteProposal, requests a withdrawal, confirms it and is paid, while no relay and nobody with a role signs anything. C88_signatures_partial proves the full statement for withdrawals whose relay round nobody passes to WriteProposal."
 },
 "C89": {
  "status": "partial",
  "note": "False as stated: C89_alone is a history in which the same three relays have served in three rounds, in another order each time, and one of them alone fills all three slots of a proposal, each vote naming another round, and installs a round of their own keys. C89_signatures_partial proves the full statement for proposals whose votes all name the round of the proposal, if nobody passes this round to WriteProposal."
 },
 "C90": {
  "status": "proved",
  "note": "C90_origin and C90_once, over all histories. The last clause carries the exception found in C03."
 },
 "C91": {
  "status": "proved",
  "note": "C91_origin and C91_released, over all histories."
 },
 "C92": {
  "status": "proved",
  "note": "C92_origin, over all histories. That a deposit of a Solana token puts the tokens into the vault is C30, and false without a condition."
 },
 "C93": {
  "status": "proved",
  "note": "C93_origin, over all histories. That the withdrawal behind an Everscale token had a quorum is C33, and false."
 },
 "C94": {
  "status": "proved",
  "note": "C94_origin and C94_voted, over all histories. The round number in a finalized proposal is that of the relay round passed to FinalizeProposal, not the one signed for (C10). ExecuteProposalByAdmin does not check the owner of the proposal, so C94_voted is about ExecuteProposal only."
 },
 "C95": {
  "status": "proved",
  "note": "C95_repair, from every state of every history, and C95_install up to the open round. The repair and the finalization are consecutive instructions: somebody can spoil the proposal again between them, so this is about what is possible, not about a race. C95_zeros_needed: a history in which the event is written without the zeros and finalization fails."
 }
}
