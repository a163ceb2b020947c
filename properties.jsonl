{"id": "C01", "title": "Relay settings are controlled only by the upgrade authority", "statement": "If a round-loader Initialize or UpdateSettings instruction succeeds, the transaction was signed by the program's current upgrade authority, and the settings afterwards contain exactly the requested values (fields not requested are unchanged). Over any history, the round submitter, the minimum vote count and the round ttl change only through these two instructions.", "quantifier": "every instruction payload, every account list, every signer set and every chain state; every history of instructions", "why_tests_cant": "An attacker chooses the accounts, so all account combinations and histories matter, not the handful a test builds.", "anchors": ["round-loader/src/processor.rs::process_initialize", "round-loader/src/processor.rs::process_update_settings", "bridge-utils/src/helper.rs::validate_initializer_account"]}
{"id": "C02", "title": "Only the round submitter can create a relay round directly", "statement": "If CreateRelayRound succeeds, the configured round submitter signed, the requested round number is not below the current one, the new round account holds exactly the requested number, relays and end time (plus the configured ttl), and the current round number becomes the requested one. A round number whose account already exists can never be created again.", "quantifier": "every CreateRelayRound instruction, account list and chain state; every later history", "why_tests_cant": "Account substitution and re-creation range over unbounded account sets and histories.", "anchors": ["round-loader/src/processor.rs::process_create_relay_round"]}
{"id": "C03", "title": "A relay round never changes once created", "statement": "After a relay round account has been created, no instruction of the round loader, sent by anyone, changes the set of relays, the round number or the end time stored in it.", "quantifier": "every history of round-loader instructions and of other programs' instructions, from every state in which the round exists", "why_tests_cant": "It is a statement about all future instruction sequences with adversarial account choices.", "anchors": ["round-loader/src/processor.rs::process_write_proposal", "round-loader/src/processor.rs::write_proposal_data", "round-loader/src/state.rs::LOAD_DATA_BEGIN_OFFSET"]}
{"id": "C04", "title": "A finalized round proposal is frozen", "statement": "Once a round-loader proposal is finalized, its proposed round (number, relays, end), author, event identity, required vote count and number of vote slots never change; only votes and the executed flag may still move.", "quantifier": "every history after finalization, every instruction and account list", "why_tests_cant": "WriteProposal takes raw offsets and bytes from anyone; all offsets, lengths and interleavings matter.", "anchors": ["round-loader/src/processor.rs::process_write_proposal", "round-loader/src/processor.rs::process_finalize_proposal"]}
{"id": "C05", "title": "Two-thirds quorum is required", "statement": "Finalizing a round proposal, or requesting a withdrawal, fixes a required vote count that is more than two thirds of the relays of the round account used, and at least the configured minimum; in every reachable state every finalized proposal satisfies this for its own number of vote slots.", "quantifier": "every number of relays, every configured minimum, every reachable state", "why_tests_cant": "The bound must hold for every relay count and every state; arithmetic rounding is exactly what sampled tests miss.", "anchors": ["round-loader/src/processor.rs::process_finalize_proposal", "token-proxy/src/processor.rs::process_withdraw_multi_token_ever_request", "token-proxy/src/processor.rs::process_withdraw_multi_token_sol_request"]}
{"id": "C06", "title": "A voted relay round is created only with a quorum of confirmations", "statement": "If ExecuteProposal changes any account, then the proposal was finalized, not yet executed, at the address derived from its own content, and at least its required number of relays had voted Confirm; the created round account and the new current round number are exactly those in the proposal.", "quantifier": "every account list, signer set and chain state", "why_tests_cant": "All states including partially voted, rejected, forged and re-executed proposals must be covered.", "anchors": ["round-loader/src/processor.rs::process_execute_proposal"]}
{"id": "C07", "title": "A round proposal vote belongs to a relay of the proposal's round", "statement": "Every vote recorded in slot i of a finalized round proposal was cast by a transaction signed by the i-th relay of the round that proposal was finalized for.", "quantifier": "every reachable history of proposals, rounds and votes", "why_tests_cant": "Requires relating a recorded vote to the signer and round at the time of voting, over all histories.", "anchors": ["round-loader/src/processor.rs::process_vote_for_proposal"]}
{"id": "C08", "title": "A vote is cast once and is irrevocable", "statement": "A successful vote (round proposal or withdrawal) either has no effect at all, because the voter's slot already holds a vote, or changes exactly one vote slot, from None to the requested Confirm or Reject; over any history a slot that is Confirm or Reject keeps that value while the account lives.", "quantifier": "every vote instruction, every account state, every history", "why_tests_cant": "Irrevocability is an invariant over unbounded histories of interleaved votes, executions and writes.", "anchors": ["round-loader/src/processor.rs::process_vote_for_proposal", "token-proxy/src/processor.rs::process_vote_for_withdraw_request"]}
{"id": "C09", "title": "A round proposal is executed at most once", "statement": "Once ExecuteProposal has taken effect for a proposal, any later ExecuteProposal on that account in any later state leaves every account unchanged.", "quantifier": "every history after the execution", "why_tests_cant": "Idempotence over all later states and account lists.", "anchors": ["round-loader/src/processor.rs::process_execute_proposal"]}
{"id": "C10", "title": "Finalization cannot strand a proposal", "statement": "Whoever finalizes a proposal, and whichever relay round account they pass, the finalized proposal can still be voted on and executed by the relays of the round it was created for.", "quantifier": "every finalize call (the caller and the accounts are arbitrary)", "why_tests_cant": "The caller picks the relay round account; all choices must be covered.", "anchors": ["round-loader/src/processor.rs::process_finalize_proposal", "round-loader/src/processor.rs::process_vote_for_proposal"]}
{"id": "C11", "title": "Administrative round execution needs the round submitter", "statement": "If ExecuteProposalByAdmin changes any account then the configured round submitter signed, and the created round holds exactly the number, relays and end time stored in the proposal account.", "quantifier": "every account list and chain state", "why_tests_cant": "Authorization must hold for all adversarial account lists.", "anchors": ["round-loader/src/processor.rs::process_execute_proposal_by_admin"]}
{"id": "C12", "title": "The current relay round never moves backwards", "statement": "Over any history in which the settings are not rewritten by the upgrade authority, the current round number is non-decreasing.", "quantifier": "every history of round-loader instructions other than UpdateSettings", "why_tests_cant": "Monotonicity over histories of interleaved executions.", "anchors": ["round-loader/src/processor.rs::process_execute_proposal", "round-loader/src/processor.rs::process_execute_proposal_by_admin", "round-loader/src/processor.rs::process_create_relay_round"]}
{"id": "C13", "title": "Quorums are consistent", "statement": "Two sets of vote slots that each reach the required count share more than a third of the slots; in particular a proposal or withdrawal can never hold a quorum of Confirm and a quorum of Reject at the same time.", "quantifier": "every number of relays and every assignment of votes", "why_tests_cant": "A counting argument over all vote assignments of every size.", "anchors": ["round-loader/src/processor.rs::process_execute_proposal", "token-proxy/src/processor.rs::process_withdraw_multi_token_sol"]}
{"id": "C14", "title": "A withdrawal request records exactly the event it was given", "statement": "If a withdrawal request creates its account, then the relay round used is a genuine relay round that has not expired, the account is at the address derived from that round, the event identity and the event content, it stores exactly that event with status New, one empty vote per relay, and the two-thirds requirement, and it carries the vote reimbursement for every relay. A request for an address that already holds an account changes nothing in it.", "quantifier": "every event content, account list, clock and chain state", "why_tests_cant": "Every event content and every pre-existing state must be handled.", "anchors": ["token-proxy/src/processor.rs::process_withdraw_multi_token_ever_request", "token-proxy/src/processor.rs::process_withdraw_multi_token_sol_request"]}
{"id": "C15", "title": "Withdrawal votes are bound to the withdrawal's own relay round", "statement": "A successful vote on a withdrawal is signed by a key that is in the relay round whose number is stored in the withdrawal, at the position of the slot that changes; nobody else can change a vote slot.", "quantifier": "every signer, account list and chain state", "why_tests_cant": "All account substitutions (other rounds, forged rounds) must be excluded.", "anchors": ["token-proxy/src/processor.rs::process_vote_for_withdraw_request"]}
{"id": "C16", "title": "No payout without a quorum", "statement": "If WithdrawMultiTokenEver or WithdrawMultiTokenSol mints a token, moves tokens out of a vault, or changes a withdrawal's status, then the withdrawal account is genuine (owned by the program, at the address derived from its content) and at least its required number of slots are Confirm.", "quantifier": "every account list, signer set, chain state and clock", "why_tests_cant": "Safety property against every account list an attacker can assemble.", "anchors": ["token-proxy/src/processor.rs::process_withdraw_multi_token_ever", "token-proxy/src/processor.rs::process_withdraw_multi_token_sol"]}
{"id": "C17", "title": "Withdrawal life cycle", "statement": "A withdrawal's status moves only along New -> {WaitingForApprove, Processed, WaitingForExecute, Pending}, WaitingForApprove -> {Processed, WaitingForExecute, Pending}, Pending -> {Processed, WaitingForExecute, Cancelled}, WaitingForExecute -> Processed; Processed and Cancelled are final until the account is closed.", "quantifier": "every instruction of the program, every account list, every chain state, every history", "why_tests_cant": "All 32 instructions and all interleavings must respect the graph.", "anchors": ["token-proxy/src/state.rs::WithdrawalTokenStatus", "token-proxy/src/processor.rs"]}
{"id": "C18", "title": "A withdrawal account pays out at most once", "statement": "From the moment a withdrawal account is requested until it is closed, tokens are released on its account at most once: over any history at most one of its Withdraw, Approve, Fill or Cancel instructions releases funds, issues a refund or pays the recipient.", "quantifier": "every history of instructions between request and close", "why_tests_cant": "A counting property over unbounded interleaved histories.", "anchors": ["token-proxy/src/processor.rs::process_withdraw_multi_token_sol", "token-proxy/src/processor.rs::process_approve_withdraw_sol", "token-proxy/src/processor.rs::process_fill_withdraw_sol", "token-proxy/src/processor.rs::process_cancel_withdraw_sol"]}
{"id": "C19", "title": "The payout is exactly the event amount minus the fee", "statement": "When Withdraw or Approve pays, the recipient's token account (owned by the event's recipient, or the recipient's proxy account when a payload is attached) gains exactly the converted event amount minus the withdrawal fee, the vault loses (or the supply gains) exactly the same, the fee is added to the token's fee balance once, and no other token balance changes.", "quantifier": "every event amount, decimals, fee setting, balance and account list", "why_tests_cant": "Exact conservation over all 128-bit amounts, decimals and fee settings.", "anchors": ["token-proxy/src/processor.rs::process_withdraw_multi_token_ever", "token-proxy/src/processor.rs::process_withdraw_multi_token_sol", "token-proxy/src/processor.rs::make_ever_transfer", "token-proxy/src/processor.rs::make_sol_transfer"]}
{"id": "C20", "title": "Fee law", "statement": "For a fee setting m/d with d > 0 the fee on an amount a is max(1, floor(a/d)*m) and the net is a minus that fee, so fee plus net is exactly a and the fee is never zero; whenever d is 0, the product overflows or the fee exceeds a, the instruction fails with Overflow and nothing changes.", "quantifier": "every u64 amount (u128 for the computation), multiplier and divisor", "why_tests_cant": "Needs every amount and every fee setting including degenerate ones.", "anchors": ["token-proxy/src/processor.rs", "token-proxy/src/state.rs::FeeInfo"]}
{"id": "C21", "title": "Decimal conversion never creates value", "statement": "Converting an amount from Solana to Everscale decimals and back gives the amount back when the Everscale decimals are at least the Solana ones, and never gives more than the original otherwise; converting in the other direction and back never gives more than the original. Out-of-range results fail instead of being altered.", "quantifier": "every amount and every pair of decimals", "why_tests_cant": "Every 64/128-bit amount and every pair of u8 decimals.", "anchors": ["token-proxy/src/processor.rs::get_deposit_amount", "token-proxy/src/processor.rs::get_withdrawal_amount"]}
{"id": "C22", "title": "Withdrawal limits", "statement": "An automatic payout (Withdraw on a New withdrawal) happens only if the net amount is below the per-withdrawal limit and the amount already released in the same day plus this one is below the daily limit; otherwise the withdrawal waits for the withdrawal manager and no token moves. Hence the sum of the automatic payouts of one token in one day stays below the daily limit while limits and fees are unchanged.", "quantifier": "every sequence of withdrawals, every clock, every limit", "why_tests_cant": "A bound on a sum over unbounded sequences of withdrawals within a day.", "anchors": ["token-proxy/src/processor.rs::process_withdraw_multi_token_ever", "token-proxy/src/processor.rs::process_withdraw_multi_token_sol"]}
{"id": "C23", "title": "Approval needs the withdrawal manager", "statement": "ApproveWithdrawEver and ApproveWithdrawSol succeed only when signed by the configured withdrawal manager, only for a withdrawal that is WaitingForApprove, and only outside emergency mode.", "quantifier": "every account list, signer set and chain state", "why_tests_cant": "Authorization for all adversarial inputs.", "anchors": ["token-proxy/src/processor.rs::process_approve_withdraw_ever", "token-proxy/src/processor.rs::process_approve_withdraw_sol"]}
{"id": "C24", "title": "Emergency mode stops all bridge transfers", "statement": "While global emergency mode is on, and for one token while that token's emergency mode is on, every Deposit, Withdraw, Approve, Cancel and Fill instruction fails.", "quantifier": "every instruction of these kinds, every account list and chain state", "why_tests_cant": "Must hold for every account list, including substituted settings accounts.", "anchors": ["token-proxy/src/processor.rs", "token-proxy/src/state.rs::Settings"]}
{"id": "C25", "title": "Who may switch emergency mode", "statement": "Emergency mode (global or of one token) can be enabled only with the signature of the guardian or the upgrade authority, and disabled only with the signature of the upgrade authority; over any history the flags change only this way.", "quantifier": "every instruction, account list, signer set and history", "why_tests_cant": "Frame property over all 32 instructions and all histories.", "anchors": ["token-proxy/src/processor.rs::process_enable_emergency_mode", "token-proxy/src/processor.rs::process_disable_emergency_mode", "token-proxy/src/processor.rs::process_enable_token_emergency_mode", "token-proxy/src/processor.rs::process_disable_token_emergency_mode"]}
{"id": "C26", "title": "Role assignment is controlled only by the upgrade authority", "statement": "The guardian, manager and withdrawal manager change only through Initialize, ChangeGuardian, ChangeManager and ChangeWithdrawalManager signed by the upgrade authority, each changing exactly one role to the requested key; Initialize succeeds at most once.", "quantifier": "every instruction, account list, signer set and history", "why_tests_cant": "Frame property over all instructions and histories.", "anchors": ["token-proxy/src/processor.rs::process_initialize", "token-proxy/src/processor.rs::process_change_guardian", "token-proxy/src/processor.rs::process_change_manager", "token-proxy/src/processor.rs::process_change_withdrawal_manager"]}
{"id": "C27", "title": "Token administration is controlled by the manager", "statement": "Fee settings, token name and symbol change only with the manager's signature, deposit and withdrawal limits only with the manager's or the upgrade authority's signature, and each instruction changes exactly the requested field of exactly the addressed token; fee and multivault withdrawals need the manager.", "quantifier": "every instruction, account list, signer set and chain state", "why_tests_cant": "Frame and authorization over all adversarial account lists.", "anchors": ["token-proxy/src/processor.rs::process_update_fee", "token-proxy/src/processor.rs::process_token_name", "token-proxy/src/processor.rs::process_change_deposit_limit", "token-proxy/src/processor.rs::process_change_withdrawal_limits", "token-proxy/src/processor.rs::process_withdraw_multi_vault"]}
{"id": "C28", "title": "Fee withdrawals never exceed collected fees", "statement": "A fee withdrawal of x succeeds only if the token's recorded fee balance is at least x, decreases it by exactly x, and pays exactly x to the given account. Over any history the total of fee withdrawals is at most the total of fees charged on that token.", "quantifier": "every amount, chain state and history", "why_tests_cant": "A balance inequality over unbounded histories.", "anchors": ["token-proxy/src/processor.rs::process_withdraw_ever_fee", "token-proxy/src/processor.rs::process_withdraw_sol_fee"]}
{"id": "C29", "title": "Everscale token supply is backed", "statement": "For a token native to Everscale, a deposit burns exactly the deposited amount from the depositor's account and records the fee, and a payout mints exactly the net amount and records the fee; so supply plus recorded fees changes by exactly minus the net deposited amount, plus the gross withdrawn amount, and fee withdrawals leave it unchanged.", "quantifier": "every history of deposits, withdrawals, approvals and fee withdrawals of one token", "why_tests_cant": "An exact conservation law over all histories.", "anchors": ["token-proxy/src/processor.rs::process_deposit_multi_token_ever", "token-proxy/src/processor.rs::process_withdraw_multi_token_ever", "token-proxy/src/processor.rs::process_approve_withdraw_ever", "token-proxy/src/processor.rs::process_withdraw_ever_fee"]}
{"id": "C30", "title": "A deposit of a Solana token locks it in the bridge vault", "statement": "If DepositMultiTokenSol succeeds and records a deposit of a token, then exactly the deposited amount of that token moved from the depositor's account into the bridge's vault for that token.", "quantifier": "every account list a depositor can pass and every chain state", "why_tests_cant": "The depositor chooses all the accounts.", "anchors": ["token-proxy/src/processor.rs::process_deposit_multi_token_sol"]}
{"id": "C31", "title": "The deposit record says what was deposited", "statement": "A successful deposit creates, at the address derived from the deposit seed, a record with the author, recipient, attached values and payload given in the instruction, and the amount equal to the deposited amount minus the deposit fee, converted to Everscale decimals; the emitted log carries the same values. A seed with a live record cannot be used again.", "quantifier": "every instruction payload, account list and chain state", "why_tests_cant": "Exact content for every input; seed reuse over all histories.", "anchors": ["token-proxy/src/processor.rs::process_deposit_multi_token_ever", "token-proxy/src/processor.rs::process_deposit_multi_token_sol"]}
{"id": "C32", "title": "Deposit limit", "statement": "A successful Solana-token deposit or fill leaves the vault balance at most the configured deposit limit at the time; a deposit that would exceed it fails.", "quantifier": "every amount, balance and limit", "why_tests_cant": "Overflow and boundary cases over all u64 values.", "anchors": ["token-proxy/src/processor.rs::process_deposit_multi_token_sol", "token-proxy/src/processor.rs::process_fill_withdraw_sol"]}
{"id": "C33", "title": "Deploying an Everscale token needs a quorum", "statement": "The mint and the token settings (name, symbol, decimals) of an Everscale token are created only from an event confirmed by a quorum of relays.", "quantifier": "every account list, withdrawal account and chain state", "why_tests_cant": "Any caller may run Withdraw on any withdrawal in any state.", "anchors": ["token-proxy/src/processor.rs::process_withdraw_multi_token_ever"]}
{"id": "C34", "title": "Closing returns the rent to the author and is only for finished records", "statement": "CloseDeposit succeeds only with the deposit author's signature; CloseWithdrawal only for a Processed or Cancelled withdrawal; in both cases all lamports of the record go to the recorded author, the record becomes empty, and no other balance changes.", "quantifier": "every account list, signer set and chain state", "why_tests_cant": "Adversarial account lists and aliasing.", "anchors": ["token-proxy/src/processor.rs::process_close_deposit", "token-proxy/src/processor.rs::process_close_withdrawal", "token-proxy/src/processor.rs::delete_account"]}
{"id": "C35", "title": "Lamports are conserved", "statement": "Every successful instruction of the round loader, the token proxy and the native proxy leaves the sum of the lamports of the accounts it was given unchanged.", "quantifier": "every instruction, every account list (with repetitions), every chain state", "why_tests_cant": "Aliased accounts and all instruction kinds.", "anchors": ["round-loader/src/processor.rs", "token-proxy/src/processor.rs"]}
{"id": "C36", "title": "Voting relays are reimbursed exactly once", "statement": "A vote that takes effect moves exactly 20000 lamports from the proposal or withdrawal to the voter. In every reachable state a finalized proposal, and a withdrawal that is neither processed nor cancelled, still holds at least 20000 lamports for every slot that has not voted.", "quantifier": "every vote and every reachable state", "why_tests_cant": "An invariant over all histories linking lamports to the number of empty slots.", "anchors": ["round-loader/src/processor.rs::process_vote_for_proposal", "token-proxy/src/processor.rs::process_vote_for_withdraw_request", "bridge-utils/src/types.rs::RELAY_REPARATION"]}
{"id": "C37", "title": "A payload runs only for a genuine, approved withdrawal", "statement": "ExecutePayloadEver/Sol lets the program sign for a recipient's proxy account only when a withdrawal with that recipient, token and payload was confirmed by a quorum and is waiting for execution, and at most once per withdrawal.", "quantifier": "every account list, including accounts of other programs, and every chain state", "why_tests_cant": "The attacker may pass accounts owned by their own program.", "anchors": ["token-proxy/src/processor.rs::process_execute_payload_ever", "token-proxy/src/processor.rs::process_execute_payload_sol"]}
{"id": "C38", "title": "Proxy funds belong to the recipient", "statement": "WithdrawProxy moves tokens out of the proxy account of a recipient and token only with that recipient's signature, and exactly the requested amount.", "quantifier": "every account list, signer set and chain state", "why_tests_cant": "Adversarial account lists.", "anchors": ["token-proxy/src/processor.rs::process_withdraw_proxy"]}
{"id": "C39", "title": "Bounty changes", "statement": "ChangeBountyForWithdrawSol succeeds only with the signature of the withdrawal's author or recipient, only while the withdrawal is Pending, never with a bounty above the event amount, and changes nothing but the bounty.", "quantifier": "every account list, signer set and chain state", "why_tests_cant": "Adversarial account lists.", "anchors": ["token-proxy/src/processor.rs::process_change_bounty_for_withdraw_sol"]}
{"id": "C40", "title": "Cancelling refunds exactly what is owed", "statement": "CancelWithdrawSol succeeds only with the author's signature for a Pending withdrawal and issues a refund record such that the bridge's total obligations for that token do not grow.", "quantifier": "every withdrawal amount, fee setting and chain state", "why_tests_cant": "Accounting must hold for all fee settings.", "anchors": ["token-proxy/src/processor.rs::process_cancel_withdraw_sol"]}
{"id": "C41", "title": "Filling pays every listed recipient exactly and only once", "statement": "FillWithdrawSol pays each listed Pending withdrawal its net amount minus the bounty from the filler's account to the recipient's account, sends the rest of the amount to the vault, marks each as Processed and records a deposit; a withdrawal cannot be filled twice, not even inside one instruction.", "quantifier": "every number and order of listed withdrawals, including repetitions", "why_tests_cant": "Unbounded list of withdrawals with aliasing.", "anchors": ["token-proxy/src/processor.rs::process_fill_withdraw_sol"]}
{"id": "C42", "title": "A recipient can receive several payload withdrawals", "statement": "After a payload withdrawal for a token and recipient, another payload withdrawal for the same token and recipient can still be requested.", "quantifier": "every token, recipient and payload", "why_tests_cant": "A liveness statement about all later states.", "anchors": ["token-proxy/src/processor.rs::create_proxy_account"]}
{"id": "C43", "title": "Oversized withdrawal amounts fail", "statement": "A withdrawal of a Solana token whose event amount does not fit in 64 bits never pays out a different amount; it fails.", "quantifier": "every 128-bit amount", "why_tests_cant": "The failing inputs are above 2^64 and never sampled.", "anchors": ["token-proxy/src/processor.rs::process_withdraw_multi_token_sol", "token-proxy/src/processor.rs::process_approve_withdraw_sol", "token-proxy/src/processor.rs::get_withdrawal_amount"]}
{"id": "C44", "title": "Account records survive storage", "statement": "For every account type of the programs, writing a record into an account of the declared size and reading it back gives the same record, for every record that fits; the declared sizes are sufficient for up to 100 relays in the round loader.", "quantifier": "every record of every type", "why_tests_cant": "Round-trip over all field values and all list lengths.", "anchors": ["bridge-derive/src/lib.rs", "round-loader/src/state.rs", "token-proxy/src/state.rs", "bridge-utils/src/state.rs"]}
{"id": "C45", "title": "Generic and typed views of a record agree", "statement": "Reading any typed proposal, withdrawal or deposit record through the generic view (raw event bytes, raw meta bytes) gives the same author, round, votes and identity, and the raw event bytes are exactly the encoding of the typed event, so both derive the same address.", "quantifier": "every record of every type", "why_tests_cant": "Layout agreement for all field values.", "anchors": ["bridge-utils/src/state.rs::Proposal", "token-proxy/src/state.rs::Deposit"]}
{"id": "C46", "title": "Instruction encodings are unambiguous", "statement": "For each program, decoding an encoded instruction gives the instruction back, distinct instructions have distinct encodings, and the generic vote/execute instructions of the relay library decode in both programs to the intended instruction.", "quantifier": "every instruction with every argument", "why_tests_cant": "Round-trip for all argument values.", "anchors": ["round-loader/src/instruction.rs", "token-proxy/src/instruction.rs", "native-proxy/src/instruction.rs", "solana-bridge/src/instructions.rs"]}
{"id": "C47", "title": "Error codes identify the error", "statement": "Decoding the numeric code of any bridge error gives the same error back.", "quantifier": "every bridge error", "why_tests_cant": "A whole-table statement; the tests never decode the codes.", "anchors": ["bridge-utils/src/errors.rs"]}
{"id": "C48", "title": "Everscale addresses and 256-bit numbers print and parse faithfully", "statement": "Parsing the printed form of any Everscale address or 256-bit number returns it; from_be_bytes of the big-endian bytes of a u64 denotes that number.", "quantifier": "every address and number", "why_tests_cant": "Round-trip over all values.", "anchors": ["bridge-utils/src/types.rs::EverAddress", "bridge-utils/src/types.rs::UInt256"]}
{"id": "C49", "title": "Native SOL deposits are ordinary deposits of wrapped SOL", "statement": "If the native proxy's Deposit succeeds, exactly the given amount of SOL left the author, the author's wrapped-SOL account, and the bridge vault for wrapped SOL gained exactly that amount, with the same deposit record as a direct deposit.", "quantifier": "every account list and chain state", "why_tests_cant": "Composition of three programs over all account lists.", "anchors": ["native-proxy/src/processor.rs::process_deposit"]}
{"id": "C50", "title": "An Everscale event is paid at most once", "statement": "The same Everscale event (same configuration, transaction, timestamp and content) is paid on Solana at most once.", "quantifier": "every history including closing of accounts and changes of relay round", "why_tests_cant": "A property of unbounded histories across closing and round changes.", "anchors": ["token-proxy/src/processor.rs::process_close_withdrawal", "token-proxy/src/processor.rs::process_withdraw_multi_token_sol_request", "bridge-utils/src/helper.rs::validate_proposal_account"]}
{"id": "C51", "title": "Failing instructions have no effect", "statement": "An instruction that returns an error or panics leaves every account unchanged, and a successful instruction changes only accounts it was given that are writable.", "quantifier": "every instruction, account list and chain state", "why_tests_cant": "All failure points of all instructions.", "anchors": ["round-loader/src/processor.rs", "token-proxy/src/processor.rs"]}
{"id": "C52", "title": "Client builders target the accounts the programs accept", "statement": "For every instruction builder, the derived addresses in the account list are the ones the processor checks, and the encoded data decodes to the instruction with the given arguments.", "quantifier": "every argument of every builder", "why_tests_cant": "All argument values.", "anchors": ["token-proxy/src/bindings.rs", "round-loader/src/bindings.rs", "solana-bridge/src/instructions.rs"]}
{"id": "C53", "title": "First deposit fixes the token's name, symbol and limits", "statement": "Token settings of a Solana token are created by the first deposit with a name and symbol of at most 32 bytes and default limits and fees, at the address derived from the mint; later deposits never change them except for the fee balance.", "quantifier": "every deposit, account list and history", "why_tests_cant": "Frame property over histories.", "anchors": ["token-proxy/src/processor.rs::process_deposit_multi_token_sol"]}
{"id": "C54", "title": "Solana vault solvency", "statement": "Along any history of deposits, withdrawals, approvals, fills, cancels and fee withdrawals made with the vault of the token, the vault balance equals the deposits plus fill surpluses minus the payouts minus the fee withdrawals, and a payout that the vault cannot cover becomes Pending instead of failing or underflowing.", "quantifier": "every history of instructions on one token", "why_tests_cant": "An exact balance equation over unbounded histories.", "anchors": ["token-proxy/src/processor.rs"]}
{"id": "C55", "title": "Requests are made with the current relay round", "statement": "A withdrawal request creates its account only if the relay round it names is the round the round loader has configured as current.", "quantifier": "every request, account list and reachable chain state", "why_tests_cant": "Every combination of live and superseded rounds, over all histories, must be considered.", "anchors": ["token-proxy/src/processor.rs::process_withdraw_multi_token_ever_request", "token-proxy/src/processor.rs::process_withdraw_multi_token_sol_request"]}
{"id": "C56", "title": "Only the recipient decides about a pending withdrawal", "statement": "While a withdrawal waits because the vault cannot cover it, it is cancelled, redirected back to Everscale, or given a bounty only with the signature of its recipient.", "quantifier": "every instruction, account list, signer set and reachable chain state", "why_tests_cant": "Any submitter of a request, in any role, must be considered.", "anchors": ["token-proxy/src/processor.rs::process_cancel_withdraw_sol", "token-proxy/src/processor.rs::process_change_bounty_for_withdraw_sol"]}
{"id": "C57", "title": "An Everscale token is never credited for more than was withdrawn", "statement": "A user who withdraws an Everscale token to Solana and deposits no more than they received is credited on Everscale with no more than the amount of the withdrawal.", "quantifier": "every token, every amount, all decimals, every reachable chain state", "why_tests_cant": "The decimals with which a token was created come from an earlier, arbitrary request; all combinations and histories must be considered.", "anchors": ["token-proxy/src/processor.rs::process_withdraw_multi_token_ever", "token-proxy/src/processor.rs::process_deposit_multi_token_ever"]}
{"id": "C58", "title": "A deposit record stays until its author closes it", "statement": "A deposit record, which relays of Everscale read, never changes after it was made; it disappears only by CloseDeposit with the signature of its author.", "quantifier": "every history of all programs, every instruction and account list", "why_tests_cant": "Every later instruction of every program, with any accounts, must leave the record alone.", "anchors": ["token-proxy/src/processor.rs::process_close_deposit"]}
{"id": "C59", "title": "Nobody's tokens move without their consent", "statement": "An instruction of the bridge lowers the balance of a token account only if the owner or the delegate of the account signed it, if the account is a vault of the bridge, or if it is the proxy account of a signer; it never changes the owner or the mint of a token account and never gives anybody a power over it.", "quantifier": "every instruction, every account list and signer set, every state of the chain", "why_tests_cant": "Accounts of uninvolved users can be passed in any position of any instruction; every combination must be excluded.", "anchors": ["token-proxy/src/processor.rs::process_withdraw_proxy", "token-proxy/src/processor.rs::process_fill_withdraw_sol", "token-proxy/src/processor.rs::process_deposit_multi_token_sol"]}
{"id": "C60", "title": "A confirmed withdrawal can always be collected", "statement": "Once enough relays confirmed a withdrawal, anybody can have it paid out: while the bridge and the token are not stopped, the account of the recipient is usable and the amount is within the withdrawal limits, the Withdraw instruction built by the client library succeeds and the recipient receives the amount less the fee; a withdrawal waiting for approval is paid likewise when the withdrawal manager approves it.", "quantifier": "every state of the chain, every token, amount, fee, recipient and payload", "why_tests_cant": "Success has to be shown for every state in which the conditions hold, including every combination of accounts, nonces, limits and clock values.", "anchors": ["token-proxy/src/processor.rs::process_withdraw_multi_token_sol", "token-proxy/src/processor.rs::process_withdraw_multi_token_ever", "token-proxy/src/processor.rs::process_approve_withdraw_sol", "token-proxy/src/bindings.rs::withdrawal_sol_ix"]}
{"id": "C61", "title": "The JavaScript packages build what the programs accept", "statement": "Each function of the JavaScript packages either rejects its textual arguments or returns the instruction that the Rust client library builds for the values the texts stand for (amounts in decimal, the Everscale coins as a big-endian number, tokens of either chain), and the addresses it tells are those the programs derive; so what the package builds is accepted whenever the bridge is in order.", "quantifier": "every text and number given, every text parser, every derived address", "why_tests_cant": "The argument texts range over an infinite set, and acceptance depends on the state of the chain; the packages are not tested against the programs at all.", "anchors": ["wasm/src/lib.rs", "round-loader/src/wasm.rs", "token-proxy/src/bindings.rs", "token-proxy/src/processor.rs::process_enable_token_emergency_mode", "token-proxy/src/processor.rs::process_disable_token_emergency_mode"]}
{"id": "C62", "title": "The relays can always carry through what enough of them agree on", "statement": "Whatever has been voted so far, the relays of the round that have not voted on an unfinished withdrawal or on a finalized proposal of a new round can still vote, in any order and at any time: every vote built by the client is accepted, counted in the place of its relay, and repaid. If their votes complete the quorum, anybody can then have the withdrawal paid out, or the new round opened.", "quantifier": "every history, every set and order of remaining relays, every vote already cast", "why_tests_cant": "Acceptance of a whole sequence of votes has to be shown after every possible history and for every order; a test tries a few orders with a few relays.", "anchors": ["token-proxy/src/processor.rs::process_vote_for_withdraw_request", "round-loader/src/processor.rs::process_vote_for_proposal", "round-loader/src/processor.rs::process_execute_proposal", "token-proxy/src/processor.rs::process_withdraw_multi_token_sol", "token-proxy/src/processor.rs::process_withdraw_multi_token_ever"]}
{"id": "C63", "title": "Nobody can keep the bridge from opening an account", "statement": "No outsider can prevent the accounts the bridge opens later, such as the settings, the next relay round, the record of a withdrawal, or the settings and the mint of a token, from being opened when the bridge is asked to open them.", "quantifier": "every state, every address the bridge may use later, every outsider, every later history", "why_tests_cant": "Whether an address once spoiled can recover has to be decided over every later history; a test can only try some.", "anchors": ["round-loader/src/processor.rs::process_create_relay_round", "round-loader/src/processor.rs::process_execute_proposal", "token-proxy/src/processor.rs::process_withdraw_multi_token_ever_request", "token-proxy/src/processor.rs::process_withdraw_multi_token_sol_request", "token-proxy/src/processor.rs::process_deposit_multi_token_sol", "token-proxy/src/processor.rs::process_withdraw_multi_token_ever"]}
{"id": "C64", "title": "Collecting the lamports of the bridge leaves it working", "statement": "After the manager has collected lamports from the bridge's fund for new accounts (WithdrawMultiVault), deposits, cancellations and fills still work as before.", "quantifier": "every amount collected, every state, every later history", "why_tests_cant": "An amount that ends the fund is one of 2^64, and whether the bridge can recover has to be decided over every later history.", "anchors": ["token-proxy/src/processor.rs::process_withdraw_multi_vault", "token-proxy/src/processor.rs::process_deposit_multi_token_ever", "token-proxy/src/processor.rs::process_deposit_multi_token_sol", "token-proxy/src/processor.rs::process_cancel_withdraw_sol", "token-proxy/src/processor.rs::process_fill_withdraw_sol", "token-proxy/src/processor.rs::process_initialize"]}
{"id": "C65", "title": "A transfer that runs a program may be the first of its token", "statement": "A withdrawal of an Everscale token that carries a payload can be requested no matter whether the token has been used on Solana before.", "quantifier": "every token, payload, amount, recipient and state", "why_tests_cant": "Every account list and every state without the mint has to be excluded, not just the account lists a client would build.", "anchors": ["token-proxy/src/processor.rs::process_withdraw_multi_token_ever_request"]}
{"id": "C66", "title": "A fee rate the manager can set is one the bridge can work with", "statement": "Whatever rate UpdateFee accepts, deposits of the token can still be made and its withdrawals can still be paid.", "quantifier": "every fee rate, token, amount and state", "why_tests_cant": "The rates are pairs of 64-bit numbers; the bad one has to be found and every way of paying has to be examined under it.", "anchors": ["token-proxy/src/processor.rs::process_update_fee", "token-proxy/src/processor.rs::process_deposit_multi_token_sol"]}
{"id": "C67", "title": "Every vote can be won", "statement": "The number of confirmations a new withdrawal or a finalized relay round proposal needs is never larger than the number of relays that may vote on it, so that unanimous relays always decide it.", "quantifier": "every number of relays, every configured minimum, every withdrawal and proposal, every later history", "why_tests_cant": "That a stuck decision stays stuck is a statement about every later history.", "anchors": ["round-loader/src/processor.rs::process_finalize_proposal", "round-loader/src/processor.rs::process_update_settings", "token-proxy/src/processor.rs::process_withdraw_multi_token_ever_request", "token-proxy/src/processor.rs::process_withdraw_multi_token_sol_request"]}
{"id": "C68", "title": "A relay round is used until its end and not after", "statement": "A withdrawal request is accepted only before the end of the relay round it names, and the end of a round is the requested end plus the configured time.", "quantifier": "every request, every round, every clock value", "why_tests_cant": "The clock has 64 bits and the ends 32: every pair has to be covered.", "anchors": ["round-loader/src/processor.rs::process_create_relay_round", "token-proxy/src/processor.rs::process_withdraw_multi_token_ever_request", "token-proxy/src/processor.rs::process_withdraw_multi_token_sol_request"]}
{"id": "C69", "title": "After the end of their round relays decide nothing", "statement": "Once the end of a relay round has passed, its relays can neither install a new relay round nor vote on withdrawals.", "quantifier": "every round, every vote and proposal, every clock value", "why_tests_cant": "It concerns every instruction of the program at every time.", "anchors": ["round-loader/src/processor.rs::process_vote_for_proposal", "round-loader/src/processor.rs::process_execute_proposal", "round-loader/src/processor.rs::process_finalize_proposal", "token-proxy/src/processor.rs::process_vote_for_withdraw_request"]}
{"id": "C70", "title": "The JavaScript packages show accounts as the programs read them", "statement": "Given the data of an account of the bridge, the function of the JavaScript package for that kind of account shows exactly the values the programs read from it; numbers and addresses shown as text are read back as the same values, and after a deposit the record shows the recipient, value, payload and seed that were given.", "quantifier": "every state, every settings, token settings, withdrawal, deposit, relay round and round proposal account", "why_tests_cant": "It must hold for every record, including extreme numbers, names of any bytes and every workchain.", "anchors": ["wasm/src/lib.rs::unpack_settings", "wasm/src/lib.rs::unpack_token_settings", "wasm/src/lib.rs::unpack_withdrawal_multitoken_ever", "wasm/src/lib.rs::unpack_withdrawal_multitoken_sol", "wasm/src/lib.rs::unpack_deposit_ever", "wasm/src/lib.rs::unpack_deposit_sol", "round-loader/src/wasm.rs::unpack_settings", "round-loader/src/wasm.rs::unpack_relay_round", "round-loader/src/wasm.rs::unpack_relay_round_proposal"]}
{"id": "C71", "title": "The outcome of an instruction depends only on the accounts it is given", "statement": "In two states in which the accounts given to an instruction are the same, the instruction fails with the same error or succeeds in both; then these accounts end up the same, no other account is touched and the same log records are written.", "quantifier": "every instruction of the three programs with every data and list of accounts, every pair of states", "why_tests_cant": "It compares the runs of an instruction in all states that agree on its accounts.", "anchors": ["round-loader/src/processor.rs::process", "token-proxy/src/processor.rs::process", "native-proxy/src/processor.rs::process"]}
{"id": "C72", "title": "Independent instructions can be run in any order", "statement": "Instructions of which no two share an account that one of them may write succeed in every order if they succeed in one, and every account ends up the same; an instruction never fails because of an independent one before it.", "quantifier": "every finite list of instructions of the three programs that execute no payload, every permutation of it, every state", "why_tests_cant": "The runtime picks the order; all lists and all permutations have to be covered.", "anchors": ["round-loader/src/processor.rs::process", "token-proxy/src/processor.rs::process", "native-proxy/src/processor.rs::process"]}
{"id": "C73", "title": "The order in which relays vote does not matter", "statement": "If votes of different relays on a withdrawal, or on a round proposal with the same relay round, are accepted in one order, they are accepted in every order, and the state afterwards is the same: the votes recorded, what each relay was paid and every other account. The same holds when instructions that have nothing to do with them come in between.", "quantifier": "every finite list of votes, confirming and rejecting, repeated or new, every permutation of it, every state", "why_tests_cant": "The network decides the order; all lists, all permutations and all states have to be covered.", "anchors": ["token-proxy/src/processor.rs::process_vote_for_withdraw_request", "round-loader/src/processor.rs::process_vote_for_proposal"]}
{"id": "C74", "title": "A new relay round can be proposed in parts and installed", "statement": "Whoever pays for it can bring a new relay round to the bridge: the proposal account is created, the announcement is written in any number of parts in any order (they may overlap), the proposal is finalized, enough relays of the current round vote, and the new round is opened. If nobody else interferes, every one of these transactions is accepted; the proposal holds exactly the announcement, has one slot per relay of the round, requires a quorum of them, and the payer has paid the rent and the costs of the votes and nothing else; in the end the account of the new round holds the proposed relays and end time plus the configured margin, and it is the current round.", "quantifier": "for all settings, rounds, announcements of at most 100 relays, ways to cut the announcement into parts, orders of parts and votes, quorums, payers and times", "why_tests_cant": "The ways to cut an announcement into overlapping parts, their orders and the sets of voters cannot be enumerated, and the result must not depend on them.", "anchors": ["round-loader/src/processor.rs::process_create_proposal", "round-loader/src/processor.rs::process_write_proposal", "round-loader/src/processor.rs::process_finalize_proposal", "round-loader/src/processor.rs::process_vote_for_proposal", "round-loader/src/processor.rs::process_execute_proposal", "round-loader/src/bindings.rs::create_proposal_ix", "round-loader/src/bindings.rs::write_proposal_ix", "round-loader/src/bindings.rs::finalize_proposal_ix"]}
{"id": "C75", "title": "A transfer from Everscale can be redeemed from start to finish", "statement": "Whoever knows an Everscale event can have it paid: the request the client builds, the votes of a quorum of the relays in any order and the payout the client builds are all accepted if nobody else interferes, nothing is stopped, the limits allow the amount and, for a Solana token, the vault holds it. All together move (Solana token) or mint (Everscale token) exactly the amount less the fee to the recipient's account and change no other balance or supply, and the withdrawal is then marked processed. For a token of Everscale that was never seen before, the payout that registers it creates the mint, the settings and the recipient's account. For an event with a payload the request also opens the recipient's proxy account, if it is still unused, the tokens go there, and the execution of the payload is then accepted whenever the payload itself succeeds.", "quantifier": "all states, events, token amounts and decimals, fees, rounds, quorums, orders of the votes, payers, times", "why_tests_cant": "Three programs' worth of preconditions have to fit together for every amount, every quorum and every order of votes.", "anchors": ["token-proxy/src/processor.rs::process_withdraw_multi_token_ever_request", "token-proxy/src/processor.rs::process_withdraw_multi_token_sol_request", "token-proxy/src/processor.rs::process_vote_for_withdraw_request", "token-proxy/src/processor.rs::process_withdraw_multi_token_ever", "token-proxy/src/processor.rs::process_withdraw_multi_token_sol", "token-proxy/src/bindings.rs"]}
{"id": "C76", "title": "The bridge's records keep their rent, and lamports leave them only in named ways", "statement": "In every reachable state the settings of both programs, relay rounds, proposals for rounds, settings of tokens, deposits and unfinished withdrawals hold at least the lamports that exempt an account of their size from rent; finalized proposals and unfinished withdrawals hold besides 20000 lamports for every relay that has not voted. Along every history lamports leave an account of the round loader only when a relay who signed votes (20000, to the relay), and an account of the token proxy only in the same way, when a deposit is closed by its author, when a finished withdrawal is closed in favour of its author, or when the manager or the upgrade authority withdraws from the multi vault.", "quantifier": "all reachable states, all accounts, all histories of instructions of both programs, payloads and other programs", "why_tests_cant": "An account below its rent makes every later transaction with it fail on the real chain; whether some sequence of instructions leads there is a question about all histories.", "anchors": ["round-loader/src/processor.rs::process_vote_for_proposal", "round-loader/src/processor.rs::process_finalize_proposal", "token-proxy/src/processor.rs::process_vote_for_withdraw_request", "token-proxy/src/processor.rs::process_close_deposit", "token-proxy/src/processor.rs::process_close_withdrawal", "token-proxy/src/processor.rs::process_withdraw_multi_vault", "bridge-utils/src/helper.rs"]}
{"id": "C77", "title": "Transfers that are held back arrive after all", "statement": "A confirmed transfer of a Solana token that exceeds the withdrawal limits, or for which the vault holds too little, is not lost: the payout built by the client library is accepted, moves no token, changes nothing but the record of the transfer and the books of the token, and leaves the transfer waiting for approval or pending, still payable for the same fee and net amount. The withdrawal manager's approval then pays it in full, or leaves it pending if the vault is still too small; once anybody deposits enough of the token, the same payout instruction pays it in full. A transfer of an Everscale token above the limits likewise waits and is minted in full on approval. From the request to the payment every instruction is the one the client library builds.", "quantifier": "all states in which the records of the token exist, all tokens, events, amounts, limits, vault balances, vote lists that reach the threshold, times of the instructions", "why_tests_cant": "Whether a held transfer can always be completed depends on limits, day changes, fees, vault balance and the accounts that happen to be passed; tests try a few amounts.", "anchors": ["token-proxy/src/processor.rs::process_withdraw_multi_token_sol", "token-proxy/src/processor.rs::process_withdraw_multi_token_ever", "token-proxy/src/processor.rs::process_approve_withdraw_sol", "token-proxy/src/processor.rs::process_approve_withdraw_ever", "token-proxy/src/processor.rs::process_deposit_multi_token_sol", "token-proxy/src/bindings.rs"]}
{"id": "C78", "title": "Every instruction has its price", "statement": "For every instruction of the round loader, the token proxy and the native proxy there is a price list that says which account pays which account how many lamports: rents of the records it opens, 20000 lamports per relay in advance for votes, 20000 lamports per first vote, the value attached to deposits, the lamports behind wrapped SOL. Whenever the instruction succeeds, the balances of all accounts of the chain change by exactly what the price list says; no account pays or gains a lamport besides. Executing a payload costs what the instructions in it cost.", "quantifier": "every instruction with any arguments and any accounts, including accounts given twice, in every state of the chain in which it succeeds", "why_tests_cant": "Tests look at the balances of the accounts they expect to change, in a few states; that nobody else is ever charged, whatever accounts are passed, ranges over all states and account lists.", "anchors": ["round-loader/src/processor.rs::Processor", "token-proxy/src/processor.rs::Processor", "native-proxy/src/processor.rs::process_deposit", "bridge-utils/src/types.rs::RELAY_REPARATION"]}
{"id": "C79", "title": "Sending an instruction twice does no harm", "statement": "An instruction of the round loader or the token proxy that was executed and is sent a second time with the same data and the same accounts, by whomever and whenever, either fails or changes no account at all, as long as the accounts given to it are still what the first execution left: a vote is counted and paid once, a request opens one withdrawal, a payout pays once, a deposit with the same seed is refused, a change of settings is only confirmed. The same deposit of SOL through the native proxy is always refused. The only exceptions are the four instructions that hand out a given amount: fees of either kind, the multi vault and the content of a proxy account.", "quantifier": "every instruction data, every list of accounts, any signers, times and payload instructions in the two executions, and every later state that agrees on the accounts given", "why_tests_cant": "A client that loses the connection sends again what may already have been executed. Tests repeat a few instructions in a few states; this must hold of every instruction in every state, including odd account lists.", "anchors": ["round-loader/src/processor.rs::Processor", "token-proxy/src/processor.rs::Processor", "native-proxy/src/processor.rs::process_deposit"]}
{"id": "C80", "title": "More permissions than needed change nothing", "statement": "An instruction that succeeds with the signatures and permissions to write its sender gave it has the same outcome if it is given more of them, as happens when it shares a transaction with other instructions; so instructions that can be sent one after the other can be sent in one transaction. The time at which it is executed makes no difference either, except for requests of withdrawals, and except for the day for payouts and approvals.", "quantifier": "every instruction of the three programs, every chain state, every larger set of signers and writable accounts, every time; every list of instructions", "why_tests_cant": "Tests send each instruction in a transaction of its own with exactly the flags of its builder; the combinations of flags are unbounded.", "anchors": ["round-loader/src/processor.rs::process", "token-proxy/src/processor.rs::process", "native-proxy/src/processor.rs::process"]}
{"id": "C81", "title": "The log tells the truth", "statement": "Relays and indexers learn from the log what happens on the bridge. Every successful instruction logs exactly the records that belong to it, in a fixed order and about the accounts it was given: a deposit logs the transfer, the first deposit or withdrawal of a token the settings of the token before it, a request the withdrawal, once, a payout the status it reaches, a fill for every withdrawal the status and the transfer that pays it. Everything a record says - amounts, recipients, hashes of events, status, rates, names, accounts - is true of the state the instruction leaves. Every change of the status of a withdrawal is logged.", "quantifier": "every instruction of the three programs, every chain state and account list", "why_tests_cant": "Tests look at the accounts and not at the log, or at the log of one case; a consumer of the log needs it to be complete and true in every case.", "anchors": ["token-proxy/src/processor.rs::Processor", "token-proxy/src/state.rs::DepositMultiTokenEvent"]}
{"id": "C82", "title": "The byte format is the published one", "statement": "Clients, relays and indexers write instructions and read accounts and logs as bytes. A separate description of the format (little-endian numbers, one-byte tags and flags, lengths in four bytes, fields in a fixed order) is exact: each program takes bytes written in that format for exactly the instruction they describe and refuses all other bytes; an account holds a record exactly when it has the published size (100, 3215, 3415, 1000 bytes) and begins with the record in that format; log records and the events whose hash names an account are written in it.", "quantifier": "every instruction, every byte string, every account, every record and log record", "why_tests_cant": "Tests write and read with the same code, so a field that moves, a changed tag or width passes them all and breaks every existing client and every stored account.", "anchors": ["token-proxy/src/instruction.rs::TokenProxyInstruction", "round-loader/src/instruction.rs::RoundLoaderInstruction", "token-proxy/src/state.rs", "round-loader/src/state.rs", "bridge-utils/src/types.rs", "native-proxy/src/instruction.rs"]}
{"id": "C83", "title": "Records live at published addresses and never share one", "statement": "The settings, the multi vault, the settings, vault or mint of a token, a proxy account, a deposit, a withdrawal, a relay round and a proposal each live at an address derived from a published list of byte strings. The programs create accounts only at these addresses, only where there was no data, and with the published size and owner (and the token account of a recipient at the address every wallet knows). Two records of a program with different names or parameters are derived from different bytes, although these are put together without separators, so they share an address only if the hash function collides. The byte strings respect the limits of the chain.", "quantifier": "every instruction, chain state and account; every pair of records and parameters", "why_tests_cant": "Tests derive addresses with the program's own functions; that no two of infinitely many parameter combinations give the same bytes cannot be tried out.", "anchors": ["bridge-utils/src/helper.rs", "token-proxy/src/utils.rs::get_associated_token_settings_sol_address", "token-proxy/src/processor.rs::Processor", "round-loader/src/processor.rs::Processor"]}
{"id": "C84", "title": "Published terms", "statement": "A token that the bridge sees for the first time always starts with the published terms: a fee of 5 for every full 10000, at least 1, in both directions, no limits (2^64 - 1), in operation; its first deposit is charged by them. Only the first deposit of a Solana token and a payout of an Everscale token make settings of a token appear. Names and symbols of more than 32 bytes are refused in deposits and requests. A relay round has at most 100 relays, and a longer list is refused.", "quantifier": "every history, every token, every deposit amount, every name and symbol, every list of relays", "why_tests_cant": "Tests look at one token and one round; that no history brings a token with other terms or an oversized round into being is a statement about all of them.", "anchors": ["token-proxy/src/processor.rs::process_deposit_multi_token_sol", "token-proxy/src/processor.rs::process_withdraw_multi_token_ever", "token-proxy/src/state.rs::FeeInfo", "round-loader/src/processor.rs::process_create_relay_round"]}
{"id": "C85", "title": "Control is never lost", "statement": "Whatever users, relays, role holders and other programs have done since the settings were created, the settings of the bridge, of every token and of the round loader are still in place and usable. The upgrade authority, signing alone, can then set every parameter to any value: guardian, manager, withdrawal manager, emergency mode; limits, both fees and emergency mode of each token; current round, submitter, least number of votes and life time of rounds. Doing so changes no other account.", "quantifier": "every history from any state with settings, every target value of the parameters, every token", "why_tests_cant": "A test shows that one parameter can be changed in one state; that no sequence of actions leads into a state where the owner is locked out is a statement about all histories.", "anchors": ["token-proxy/src/processor.rs::process_change_guardian", "token-proxy/src/processor.rs::process_disable_emergency_mode", "token-proxy/src/processor.rs::process_update_fee", "token-proxy/src/processor.rs::process_change_withdrawal_limits", "round-loader/src/processor.rs::process_update_settings"]}
{"id": "C86", "title": "Tokens are independent", "statement": "What happens to one token leaves all other tokens alone. An instruction changes the settings record (fees collected, limits, daily total, name, emergency mode) of no token but the one passed in the place of the token, so of two tokens at most one changes per instruction, and along every history the record of a token that no step names stays as it is. Tokens leave a vault only by instructions that name a token with this vault, and tokens of Everscale are minted only by instructions that name the settings of a token with this mint.", "quantifier": "every instruction with every list of accounts in every state; every history of both programs, other programs and payloads", "why_tests_cant": "A test watches the tokens it has set up; that no list of accounts, however strange, makes an instruction for one token touch another is a statement about all account lists and histories.", "anchors": ["token-proxy/src/processor.rs::process_withdraw_multi_token_sol", "token-proxy/src/processor.rs::process_withdraw_multi_token_ever", "token-proxy/src/processor.rs::process_approve_withdraw_sol", "token-proxy/src/processor.rs::process_deposit_multi_token_sol", "token-proxy/src/processor.rs::process_update_fee"]}
{"id": "C87", "title": "Transfers are independent", "statement": "What happens to one withdrawal leaves all others alone. An instruction changes no withdrawal record, and takes no lamports from one, except those passed in the place of the withdrawal: one for votes, payouts, approvals, payload executions, bounties, cancellations and closings, the listed ones for a fill, none for every other instruction. So apart from fills at most one withdrawal changes per instruction, and along every history, including payloads, a withdrawal that no step names stays exactly as it is and is not removed. The same holds for the proposals of the round loader, finished or not.", "quantifier": "every instruction with every list of accounts in every state; every history of both programs, other programs and payloads", "why_tests_cant": "Tests have few transfers at a time and well-formed account lists; that no other account list and no payload reaches a transfer it does not name is a statement about all of them.", "anchors": ["token-proxy/src/processor.rs::process_vote_for_withdraw_request", "token-proxy/src/processor.rs::process_withdraw_multi_token_sol", "token-proxy/src/processor.rs::process_fill_withdraw_sol", "token-proxy/src/processor.rs::process_close_withdrawal", "token-proxy/src/processor.rs::process_execute_payload_ever", "round-loader/src/processor.rs::process_write_proposal"]}
{"id": "C88", "title": "Money leaves the bridge only with the signatures of the relays", "statement": "Whenever the bridge releases funds on account of a withdrawal (by payout, approval, fill or refund), more than two thirds of the relays of the withdrawal's round, all of them different keys, and at least the recorded number of required votes, have each signed a confirmation of exactly this withdrawal earlier in the history.", "quantifier": "every history of both programs, other programs and payloads from their deployment on; every withdrawal account; every step that releases funds", "why_tests_cant": "It joins requests, votes, the relay rounds of the other program and payouts over histories of any length and with any interference; a test shows only that the votes it casts are counted.", "anchors": ["token-proxy/src/processor.rs::process_vote_for_withdraw_request", "token-proxy/src/processor.rs::process_withdraw_multi_token_sol", "token-proxy/src/processor.rs::process_withdraw_multi_token_ever", "round-loader/src/processor.rs::process_write_proposal"]}
{"id": "C89", "title": "A relay round is installed by vote only with the signatures of the relays", "statement": "Whenever executing a proposal installs a relay round, more than two thirds of the relays of the round in which it was proposed, all of them different keys, and at least the recorded number of required votes, have each signed a confirmation of exactly this proposal earlier in the history.", "quantifier": "every history of both programs, other programs and payloads from their deployment on; every proposal account; every execution that changes anything", "why_tests_cant": "It joins finalization, votes and execution over histories of any length, with any number of relay rounds and any interference in between; a test casts votes only in the way its author thought of.", "anchors": ["round-loader/src/processor.rs::process_vote_for_proposal", "round-loader/src/processor.rs::process_execute_proposal", "round-loader/src/processor.rs::process_finalize_proposal"]}
{"id": "C90", "title": "Every relay round has a known origin", "statement": "Every relay round that exists was installed in exactly one earlier step, when its account did not exist, at the address of its number, in one of three ways: the round submitter signed its number, relays and end; a finalized proposal naming them had enough confirmations; or the round submitter signed for such a proposal. Its number, end, count of relays and first two relays are still those installed, and so are all relays unless somebody passed the account to the data-writing instruction for proposals.", "quantifier": "every history of both programs, other programs and payloads from their deployment on; every relay round account of the round loader in its last state", "why_tests_cant": "It excludes every other way in which an account could come to hold a relay round, over histories of any length; a test can only show the ways that work.", "anchors": ["round-loader/src/processor.rs::process_create_relay_round", "round-loader/src/processor.rs::process_execute_proposal", "round-loader/src/processor.rs::process_execute_proposal_by_admin", "round-loader/src/processor.rs::process_write_proposal"]}
{"id": "C91", "title": "Every withdrawal has a known origin", "statement": "Every withdrawal that exists is at the address derived from its round, its identity and its event, and was opened in an earlier step, when its account held no withdrawal: its author signed a request for exactly this event (token, amount, recipient, payload), with a relay round of the round loader that was in force, and the required votes were fixed from the number of relays of this round and the settings. Since then it has been there without interruption, with the same event, author, round and required votes. Whatever the bridge releases on account of a withdrawal, such a request came before.", "quantifier": "every history of both programs, other programs and payloads from their deployment on; every withdrawal account; every step that releases funds", "why_tests_cant": "It excludes every other way in which an account could come to hold a withdrawal, over histories of any length; a test can only show the ways that work.", "anchors": ["token-proxy/src/processor.rs::process_withdraw_multi_token_sol_request", "token-proxy/src/processor.rs::process_withdraw_multi_token_ever_request"]}
{"id": "C92", "title": "Every deposit record has a known origin", "statement": "Every deposit record that exists, which is what the relays credit on Everscale, was made in an earlier step at the address of its seed, when there was none, by an instruction that its author signed, in one of four ways: a deposit of an Everscale token, which burned the amount; a deposit of a Solana token; the cancelling of the author's own pending withdrawal, for at most its amount; or the filling of pending withdrawals. It says token, recipient, value and payload of that instruction and the amount less the fee. Since then it has been there unchanged.", "quantifier": "every history of both programs, other programs and payloads from their deployment on; every deposit record in its last state", "why_tests_cant": "It excludes every other way in which an account could come to hold a deposit record, over histories of any length; a test can only show the ways that work.", "anchors": ["token-proxy/src/processor.rs::process_deposit_multi_token_ever", "token-proxy/src/processor.rs::process_deposit_multi_token_sol", "token-proxy/src/processor.rs::process_cancel_withdraw_sol", "token-proxy/src/processor.rs::process_fill_withdraw_sol"]}
{"id": "C93", "title": "Every token has a known origin", "statement": "The settings of every token of the bridge appeared in an earlier step, when there were none, at the address of its mint or of its Everscale address: with the first deposit of a Solana token, signed by the depositor, or with the first payout of an Everscale token, from a withdrawal whose event says its address, name, symbol and decimals. Since then they have been there for the same token. Name and symbol are those given then; only a Solana token can be renamed, with the signature of the manager or the upgrade authority.", "quantifier": "every history of both programs, other programs and payloads from their deployment on; the settings of every token in its last state", "why_tests_cant": "It excludes every other way in which token settings could appear or be relabelled, over histories of any length.", "anchors": ["token-proxy/src/processor.rs::process_deposit_multi_token_sol", "token-proxy/src/processor.rs::process_withdraw_multi_token_ever", "token-proxy/src/processor.rs::process_token_name"]}
{"id": "C94", "title": "Every finalized round proposal has a known origin", "statement": "Every finalized proposal of a relay round was created in an earlier step, which its author signed, when its account had no lamports, and was finalized in a later one. It names the Everscale event its author signed for. Although anybody can write its content before it is finalized, its address is both the address the author signed for and the address of the same round number, the same event and the hash of the content it has now, so other content than the author's needs a second digest with the same address. In particular this holds of every proposal that a vote carries out.", "quantifier": "every history of both programs, other programs and payloads from their deployment on; every finalized proposal in its last state", "why_tests_cant": "Between creation and finalization anybody can call WriteProposal any number of times with any bytes at any offset; it must never reach the author, the round number or the event of a proposal.", "anchors": ["round-loader/src/processor.rs::process_create_proposal", "round-loader/src/processor.rs::process_write_proposal", "round-loader/src/processor.rs::process_finalize_proposal", "round-loader/src/processor.rs::process_execute_proposal"]}
{"id": "C95", "title": "What others write into a round proposal can be overwritten", "statement": "Anybody can call WriteProposal on a proposal of a relay round that is not finalized, with any bytes. This cannot make the proposal useless: whatever has happened since it was created for the digest of an event, as long as it is not finalized, the event preceded by its length and filled up with zeros can be written over what is there, in parts of any size and order, and every part is accepted; after that anybody who pays the relays can finalize it against its round, and it then has the event, its creator as author and no votes, so that relays who make a quorum can vote for it and the round can be installed. Writing the event without the zeros is not enough.", "quantifier": "every history of both programs, other programs and payloads from their deployment on; every step of it that creates a proposal; every event of at most 100 relays with the digest it was created for; every division of what is written into parts", "why_tests_cant": "The bytes others write are arbitrary, at arbitrary offsets and any number of times, and may make the record undecodable; the repair must work from every state this leads to.", "anchors": ["round-loader/src/processor.rs::process_create_proposal", "round-loader/src/processor.rs::process_write_proposal", "round-loader/src/processor.rs::process_finalize_proposal"]}
