# Formal model of the Octus bridge Solana programs

## What is modelled

The three on-chain programs and the libraries they use, function by function:

* `bridge-utils` (errors, helper, state, types), `bridge-derive` (packing),
* `round-loader` (all nine instructions),
* `token-proxy` (all thirty-two instructions),
* `native-proxy` (its one instruction),
* the instruction builders (`*/src/bindings.rs`, `solana-bridge/src/instructions.rs`): account lists with their signer and writable
  flags, derived addresses and encoded data (`Verif/Client`),
* the functions of the JavaScript packages that build instructions, tell addresses and show accounts (`wasm/`,
  `round-loader/src/wasm.rs`), as functions of the texts, numbers and account data they are given. The text formats of libraries (base 58, base 64, UUID) are uninterpreted parsers.

Not modelled: the conversion of the results to JavaScript objects, log text (`msg!`), compute limits, rent collection and
rent-state checks, transaction fees, the ed25519 / SHA-256 primitives.

## How

Chain state is a total map from 256-bit keys to accounts (lamports, owner, data) plus the emitted log records.
A missing account is the account with zero lamports, system owner and no data, as in Solana.
An instruction handler is a total function `Env -> Ctx -> args -> World -> Except Err World`; `Ctx` is what the caller chooses
(account list, signer set, writable set) plus the clock. A Rust panic is the error `panic`. An error leaves the state unchanged.
Repeated accounts in the list alias, because all reads and writes go through the map.

Data of accounts owned by the two bridge programs are *bytes*, read and written through Borsh codecs, because some of the properties
(and some of the defects) live at the byte level. Data of SPL token accounts and mints, and of the loader's program-data account,
are kept as parsed structures (simplification: their byte layout plays no role in the bridge code).

Runtime rules are part of the primitives: only the owner program may change data or take lamports, only writable accounts change,
a program-derived signer must be derivable from the seeds passed to `invoke_signed`, the called program must be in the account list.
System program (`create_account`, `transfer`) and SPL token (`transfer`, `mint_to`, `burn`, `initialize_*`, `sync_native`) are modelled
as far as the bridge uses them.

`create_program_address`, `hash` (SHA-256) and the rent table are *uninterpreted* functions in `Env`: theorems hold for every choice.
No injectivity is assumed globally (it would be false for fixed-size outputs); where a theorem needs two particular addresses to
differ this is an explicit hypothesis.

Arithmetic: fixed-width values are `BitVec`. `checked_*` operations return errors. Plain `+`/`*` follow the release profile (no
`overflow-checks` in the workspace manifest, so they wrap); `as` casts truncate.

Histories (`Spec/Trace.lean`): a step is one instruction of a bridge program with arbitrary context, an arbitrary action of other
programs that respects the runtime rules (`ExtStep`), or the removal of accounts without lamports at the end of a transaction
(`Purge`). Executing a payload is an instruction during which a whole history may happen. Theorems about histories are by induction
over this relation, from any start in which no account belongs to the bridge programs (`Genesis`).

### Hypotheses that occur in the statements

* `Env.Distinct`: the ids of the round loader, the token proxy, the system program and SPL token differ.
* `L k`, `Locked`: nobody but the bridge can sign for, or create, the address `k`. On the chain this holds for program-derived
  addresses (they are on no curve, and only the deriving program signs for them); in the model it restricts what other programs do
  at `k`. It is needed only for the addresses a theorem speaks about.
* `Readable`, `OneReading`: the record of a withdrawal has one reading, as one of the two kinds of events. The programs store both
  kinds at addresses of the same form without a tag, so this is a statement about the hash of the event.
* `Funded`: the vault of wrapped SOL has the lamports for the tokens it records (SPL's `sync_native` trusts the lamports).
* `Ready`, `SolReady`, `EverReady`, `WdReady`, … (`Spec/Client.lean`): the accounts are as the bridge leaves them. Used in theorems
  that say that an instruction succeeds.

Examples beside the theorems meet the hypotheses on a small concrete chain (`Spec/Toy*.lean`), mostly in states reached from genesis
by real instructions.

### Simplifications

* SPL token: no multisignature owners, no token extensions; a token account is parsed data.
* Compute units, stack and transaction size limits are ignored, and so is the order of errors: only success and the resulting state
  are claimed, except where a theorem says that an instruction fails (it then fails for every reason the model has).
* The number of accounts an instruction may name is not bounded.
* The length of a payload instruction is a parameter (`Env.payloadLen`), because `bincode`-like parsing of nested instructions is
  needed only for its success and length.

## Layout of the Lean project

* `Verif/Base` bytes, codecs, runtime, SPL token.
* `Verif/Bridge`, `Verif/RoundLoader`, `Verif/TokenProxy`, `Verif/NativeProxy`, `Verif/Client` the model, each definition citing its source lines.
* `Verif/Spec` small independent specifications used in statements.
* `Verif/Lemmas` helper lemmas.
* `Verif/Props` the property theorems, each with a non-vacuity example.

## Trusted base

* Lean 4.33.0 kernel; axioms `propext`, `Classical.choice`, `Quot.sound` only.
* The reading of the Rust source (no code was run), of the Solana runtime rules listed above, and of the SPL token / system programs.

## Plan per property

* **C01 Relay settings are controlled only by the upgrade authority.** Round-loader `initialize`/`updateSettings` as functions on the account map; authorization and exact effect by inversion of the success case; frame over all nine instructions; lifted to histories by induction on the step relation.
* **C02 Only the round submitter can create a relay round directly.** Inversion of `createRelayRound`; re-creation excluded because the system program refuses to create over a live account, plus a persistence invariant over histories.
* **C03 A relay round never changes once created.** Expected to be false (WriteProposal accepts a relay round account and bytes from offset 88). Negation by an explicit instruction for every environment; `_partial`: the first 88 bytes (number, end, first two relays) of a relay round never change in any history.
* **C04 A finalized round proposal is frozen.** Byte-level invariant: after finalization WriteProposal is refused and the other instructions change only votes/meta. Induction over histories.
* **C05 Two-thirds quorum is required.** Arithmetic of `max(2n/3+1, min)` and an invariant over reachable states.
* **C06 A voted relay round is created only with a quorum of confirmations.** Inversion of `executeProposal`.
* **C07 A round proposal vote belongs to a relay of the proposal's round.** Expected to be false (the relay round passed to the vote is not compared with the proposal's round). Negation with an explicit history; `_partial`: the slot index is the position of the signer in some genuine relay round account.
* **C08 A vote is cast once and is irrevocable.** Inversion of both vote handlers, monotonicity of votes over histories.
* **C09 A round proposal is executed at most once.** Inversion: Executed status makes `executeProposal` the identity; status is monotone over histories.
* **C10 Finalization cannot strand a proposal.** Expected to be false: finalize overwrites the round number. Negation: after such a finalize every vote and execute fails. `_partial`: finalizing with the right round keeps the address check satisfied.
* **C11 Administrative round execution needs the round submitter.** Inversion of `executeProposalByAdmin`.
* **C12 The current relay round never moves backwards.** Expected to be false for execute / admin execute (no comparison with the current number). Negation by explicit state; `_partial`: CreateRelayRound never decreases it.
* **C13 Quorums are consistent.** Counting lemma on lists of votes of any length.
* **C14 A withdrawal request records exactly the event it was given.** Inversion of both request handlers, against a written-out expected record.
* **C15 Withdrawal votes are bound to the withdrawal's own relay round.** Inversion of the token-proxy vote handler.
* **C16 No payout without a quorum.** Inversion of both withdraw handlers: any change of a token balance, supply or withdrawal status implies the quorum.
* **C17 Withdrawal life cycle.** For each of the 32 instructions, relation between the decoded statuses before and after; lifted to histories.
* **C18 A withdrawal account pays out at most once.** Ghost count of releases along a history, bounded by an invariant on the status.
* **C19 The payout is exactly the event amount minus the fee.** Exact post-state of the token accounts for Withdraw/Approve.
* **C20 Fee law.** Arithmetic on the fee function against the rational specification.
* **C21 Decimal conversion never creates value.** Arithmetic on the two conversion functions; negation for the truncating cast and for wrapped powers of ten.
* **C22 Withdrawal limits.** Inversion plus an induction over the steps of one day; the amounts that wait for approval serve as a potential, so that approvals may take off the count what they had added to it.
* **C23 Approval needs the withdrawal manager.** Inversion of the approve handlers.
* **C24 Emergency mode stops all bridge transfers.** Each of the listed handlers returns an error whenever the flag of the genuine settings account is set.
* **C25 Who may switch emergency mode.** Authorization by inversion; frame over all instructions; histories.
* **C26 Role assignment is controlled only by the upgrade authority.** Same shape as C25.
* **C27 Token administration is controlled by the manager.** Same shape as C25.
* **C28 Fee withdrawals never exceed collected fees.** Inversion; history sum by induction.
* **C29 Everscale token supply is backed.** Per-instruction exact deltas of supply + fee balance. Summed over a history: what exists plus what was taken away is at most what existed plus what enough relays let in, while the fee rate stays the same; the amounts of waiting withdrawals are carried along in the invariant, because their fee is recorded when they start to wait.
* **C30 A deposit of a Solana token locks it in the bridge vault.** Expected to be false: the vault and mint checks use a conjunction where a disjunction is needed. Negation by explicit account list; `_partial`: holds if the vault account passed is the derived one.
* **C31 The deposit record says what was deposited.** Inversion of both deposit handlers against a written-out expected record.
* **C32 Deposit limit.** Inversion.
* **C33 Deploying an Everscale token needs a quorum.** Expected to be false: the mint and the settings are created before the votes are counted. Negation; `_partial`: the parameters equal those of the stored event.
* **C34 Closing returns the rent to the author and is only for finished records.** Inversion and frame.
* **C35 Lamports are conserved.** Sum over the deduplicated account list, for every handler.
* **C36 Voting relays are reimbursed exactly once.** Exact deltas for a vote; invariant lamports >= 20000 * empty slots over histories.
* **C37 A payload runs only for a genuine, approved withdrawal.** Expected to be false: no check of owner or address of the withdrawal account. Negation with a forged account; `_partial`: for an account owned by the program.
* **C38 Proxy funds belong to the recipient.** Inversion.
* **C39 Bounty changes.** Inversion.
* **C40 Cancelling refunds exactly what is owed.** Expected to be false when the withdrawal fee exceeds the deposit fee (fee was already booked). Negation; `_partial`: exact formula.
* **C41 Filling pays every listed recipient exactly and only once.** Induction over the list of (withdrawal, recipient) pairs.
* **C42 A recipient can receive several payload withdrawals.** Expected to be false: create_proxy_account refuses an existing proxy. Negation for every environment.
* **C43 Oversized withdrawal amounts fail.** Expected to be false: `as u64`. Negation; `_partial` for amounts below 2^64.
* **C44 Account records survive storage.** Lawful codec combinators: every codec carries a proof that decoding and encoding are inverse; sizes computed.
* **C45 Generic and typed views of a record agree.** Codec lemma: length-prefixed struct = Vec<u8> of its encoding.
* **C46 Instruction encodings are unambiguous.** Lawful codecs for the three instruction enums; tag lemmas for the generic instructions.
* **C47 Error codes identify the error.** Expected to be false for codes 7 and above. Negation; `_partial` for codes 0..6.
* **C48 Everscale addresses and 256-bit numbers print and parse faithfully.** Character-level parser and printer; round-trip proofs.
* **C49 Native SOL deposits are ordinary deposits of wrapped SOL.** Composition of system transfer, sync_native and the token-proxy deposit model.
* **C50 An Everscale event is paid at most once.** Expected to be false: the address contains the round number and closing forgets the event. Negation by explicit history; `_partial`: per withdrawal account (C18).
* **C51 Failing instructions have no effect.** Every handler is a function into `Except`; frame theorem: accounts that are not writable or not listed are unchanged.
* **C52 Client builders target the accounts the programs accept.** Builders as functions; forward evaluation of the handlers on the built instruction in every state in which the accounts are in order. Expected to be false for two builders; negation for every environment.
* **C53 First deposit fixes the token's name, symbol and limits.** Inversion and frame.
* **C54 Solana vault solvency.** Exact per-instruction vault deltas summed along histories.
* **C55 Requests are made with the current relay round.** Expected to be false: any unexpired round is accepted. Negation by explicit history.
* **C56 Only the recipient decides about a pending withdrawal.** Expected to be false: the submitter of a request may cancel it. Negation; `_partial`: one of the two signs.
* **C57 An Everscale token is never credited for more than was withdrawn.** Round trip of the conversions; false when a stranger chose the decimals. Negation; `_partial`.
* **C58 A deposit record stays until its author closes it.** Invariant over histories.
* **C59 Nobody's tokens move without their consent.** Every elementary operation of every handler carries the reason it is allowed (`Why`); induction over the operations.
* **C60 A confirmed withdrawal can always be collected.** Forward evaluation of the handler on the built account list, for every state in which the accounts are healthy.
* **C61 The JavaScript packages build what the programs accept.** Every function equals parsing the texts and calling the Rust builder, as an equivalence; acceptance then follows from C52. Expected to be false for the functions that stop and resume a token; negation in every state.
* **C62 The relays can always carry through what enough of them agree on.** `Spec/Votes.lean` defines a list of built votes sent one after the other; induction over the list, using that every unfinished withdrawal keeps the money for the votes still missing (invariant of C36) and that a vote touches nothing else; then C60 or the acceptance of Execute applies.
* **C63 Nobody can keep the bridge from opening an account.** Expected to be false: programs create accounts with `create_account`, which refuses an address that has lamports. Negation for every reachable state: anybody can send some lamports, and by induction over every later history the address never becomes an account of the bridge. Per-instruction theorems say what then fails or is silently skipped.
* **C64 Collecting the lamports of the bridge leaves it working.** Expected to be false: nothing keeps the rent of the multi vault. Negation: the manager's instruction is accepted for the whole balance, the account is then purged, and by the history of the head of the account (`Run.origin`) no later state has a multi vault again; every instruction that loads it fails. `_partial`: as long as a lamport is left.
* **C65 A transfer that runs a program may be the first of its token.** Expected to be false: the request reads the mint to open the proxy account. Negation by inversion of the handler for every account list; the positive side, with the mint there, is C52.
* **C66 A fee rate the manager can set is one the bridge can work with.** Expected to be false: the divisor 0 is accepted. Negation: acceptance of the instruction for every rate, and inversion of every handler that computes a fee. `_partial`: a positive divisor and a multiplier that is not larger give every positive amount a fee that is at most the amount.
* **C67 Every vote can be won.** Expected to be false: the configured minimum is not compared with the number of relays. `C67_required_partial` says exactly when the requirement can be met; by induction over histories a withdrawal or proposal that cannot meet it stays undecided forever; reachable witnesses for both.
* **C68 A relay round is used until its end and not after.** Expected to be false: the clock is cut to 32 bits and the end is a wrapping sum. Witnesses on the toy chain; `_partial`: clock below 2^32 (from C14) and no overflow (from C02).
* **C69 After the end of their round relays decide nothing.** Expected to be false: no instruction of the round loader reads the clock. Proved for every instruction (same outcome at every time), with a reachable witness of a new round installed by an expired one. What holds instead, that an expired round opens no new withdrawals, is C68.
* **C70 The JavaScript packages show accounts as the programs read them.** One theorem per function and kind of account; for deposits from the instruction that makes the record. Texts of numbers and Everscale addresses are shown to be read back as the same values.
* **C71 The outcome of an instruction depends only on the accounts it is given.** `LocalTo` compares the runs of an instruction in two states that agree on its accounts. Every primitive is shown to commute with replacing the other accounts and the earlier log records, then every handler. Instructions called from a payload are a parameter that is assumed to be local itself.
* **C72 Independent instructions can be run in any order.** From C71 and C51 (only writable accounts change): swap two neighbours, then induction on the permutation.
* **C73 The order in which relays vote does not matter.** A vote is described by the slot it fills and the lamports it moves; different relays of a round have different slots, and the rest of the record is kept, so two votes commute. Induction on the permutation, together with C72 for mixed lists.
* **C74 A new relay round can be proposed in parts and installed.** `Spec/Upload.lean` says what it means that parts cover an announcement and that they are written as the client sends them. Forward acceptance of each instruction as in C52; the writes by induction over the parts with the invariant that every byte either has its final value or is still to be written and the first byte is zero; `whole_dec` reads the finished account as the proposal; finalize, votes and execution as in C62. `C74_upload`, `C74_install`.
* **C75 A transfer from Everscale can be redeemed from start to finish.** The request is accepted (C52) and `AskedAt` says what it leaves behind: the record, readable by votes and payouts, its lamports, and nothing else; the conditions of the payout survive it; then C62. For a new token the payout that registers it is accepted (C52) and its effect is that of `createEver_fx`. With a payload `ProxyMade` says what the request does to the proxy account, which is then an account the payout may pay into; the execution is C52's (`C75_sol_payload`, `C75_ever_payload`).
* **C76 The bridge's records keep their rent, and lamports leave them only in named ways.** The invariant of the round loader says that an account with less than its rent has an empty header; a record of the token proxy is written only into an account the same instruction opened with its rent (`new_empty`, `opened_paid`) and loses lamports only when a vote, a closing or the multi vault withdrawal says so; induction over `Run`.
* **C77 Transfers that are held back arrive after all.** `withdrawSol_only`, `approveSol_only` and `withdrawEver_only` show that a payout that does not pay touches only its two records; the acceptance theorems of C52 and the effects of C34/C35 give the state afterwards, to which C60 (payment, approval) applies again; composed with the request and the votes of C75.
* **C78 Price list.** `Spec/Bill.lean` gives the price list: for every instruction a list of payments in terms of the accounts given and the state before. `Settled` says that every account of the chain changes by what the list says. Proved by composing the bills of the single operations (`Lemmas/Bill*.lean`) along each handler, without assuming that the accounts given are different.
* **C79 Repetition.** `SameCall` (`Spec/Retry.lean`) relates the two executions. `RL.run_again` and `TP.run_again` compare for each handler what the first execution left with what the second one requires; settings are covered by one lemma on idempotent updates (`put_again`). Locality (C71) carries the result to every later state with the same accounts. `C79_fee_twice` shows that the exception is one.
* **C80 More permissions than needed change nothing.** Every handler only ever demands permissions, so success is monotone in them; shown function by function with a relation between the two results, then for lists of instructions by induction.
* **C81 The log tells the truth.** `Spec/Logs.lean` states which records belong to an instruction and what each record claims of the state. Each handler is inverted: helpers are shown to leave the log alone, and the claims follow from the records the handler stores last. False in two respects: a cancellation names the wrong account, and approvals of Solana withdrawals and executions of payloads are not logged; the remainder is `C81_log_partial` and `C81_status_partial`.
* **C82 Byte format.** `Spec/Wire.lean` writes the format down by hand, without codecs. Each codec is shown to encode to it, case by case; the codec law then gives both directions for instructions and accounts. The length bounds of lists follow from the size of the account.
* **C83 Addresses.** `Spec/Address.lean` lists the records with their byte strings, sizes and owners by hand. That the bytes differ follows from their lengths and from injectivity of the fixed-width fields. That accounts are created nowhere else follows from the list of operations each instruction consists of (`Why`).
* **C84 Published terms.** Figures are written as literals in `Spec/Figures.lean`. `C84_new_token` uses the backward invariant of token settings over histories; the first deposit is inverted; the bound on relays follows from the size of the account and the byte format (C82).
* **C85 Control is never lost.** `Spec/Control.lean` gives the owner's call, the list of instructions for a wanted record and what counts as a parameter. `C85_stays`, `C85_token_stays` and `C85_rl_stays` fold the permitted changes over a history (bump seeds and kinds never change); `C85_bridge`, `C85_token` and `C85_rl` execute the list from the resulting state.
* **C86 Tokens are independent.** `Spec/Places.lean` says where each instruction expects the settings of the token. Every store into a token record carries the fact that its address was read from that place (`Why.token`), so `token_unnamed` follows by the walk over the operations of a step; `C86_record`, `C86_one`, `C86_history` are its consequences. `C86_vault` and `C86_mint` use the guarded-vault and guarded-mint histories and the effects of each paying instruction.
* **C87 Transfers are independent.** `namedRequests` in `Spec/Places.lean` lists the places. Every store into, payment from and closing of a withdrawal in the walk over the operations carries the fact that its address was read from such a place (`Why`), which gives `request_unnamed`; the write back after a payload goes to the first account only (`Stale.unnamed`). `C87_history` folds both over a history. `Spec/PlacesRL.lean` and `proposal_unnamed` do the same for proposals of the round loader.
* **C88 Money leaves the bridge only with the signatures of the relays.** Induction over the history: every vote in the record of a withdrawal belongs to an earlier step in which the relay of that slot signed it (`History.signed`); slots are found by the first position of a key, so different slots belong to different keys (`voters_of`); the required number is fixed from the number of relays when the withdrawal is requested. Needs that the relay round is not overwritten (C03). Without this it is false: `Spec/ToyStolen.lean` plays the theft.
* **C89 A relay round is installed by vote only with the signatures of the relays.** As C88, for the round loader: a proposal becomes final only by `FinalizeProposal`, with one slot for every relay of the round it then names (`final_new`), and a slot is filled only by the relay whose first place in the round named by the vote it is (`vote_first`). Needs that all votes name the round of the proposal (C07) and that this round is not overwritten (C03). Without the first it is false: `Spec/ToyAlone.lean` plays a relay who votes three times, as a member of three rounds in which the same relays are listed in another order.
* **C90 Every relay round has a known origin.** For each of the nine instructions: an account that holds a relay round afterwards held one before, or the instruction is one of the three that install rounds and the account is the new one (`round_new`; the other records have other lengths, and `WriteProposal` cannot reach the head of a record). Then induction over the history; what was installed stays (C03).
* **C91 Every withdrawal has a known origin.** Induction over the history with the cases of `WEv` (what a step can do to a withdrawal account). The step that opens it is one of the two requests, and C14 says what these do; every other step keeps all but the votes and the status.
* **C92 Every deposit record has a known origin.** Bytes of a deposit record come from the previous state or from one of the writes the instructions are allowed (`Why`); only four instructions write such bytes, and C31, C40 and C41 say what these do. Induction over the history.
* **C93 Every token has a known origin.** `token_back` (settings after a step were there before with a permitted change, or are new) and induction over the history; among the permitted changes only one touches the name.
* **C94 Every finalized round proposal has a known origin.** Invariant over the history: an account with the length and the mark of a proposal that is not finalized has its first 88 bytes as created, since `WriteProposal` writes behind them. Finalization checks the address against the hash of the content; after it the content is frozen (C04).
* **C95 What others write into a round proposal can be overwritten.** Invariant over the history: once created, an account is finalized or has the bytes it was created with before 88 and from 3304 on, is owned by the program and has lamports. From every such state the writes of C74 succeed byte by byte, the record decodes to the event followed by zeros, and the finalization lemma of C74 applies.

## Results

`MANIFEST.json` names the theorems. A property is *partial* when its English statement is false of the code, and then there is a
theorem with a concrete witness, or when a hypothesis is needed that the statement does not mention. Statements that are false:

| property | what the code does instead | theorem |
|---|---|---|
| C03 | WriteProposal, signed by nobody, overwrites relays of an existing round | `C03_relays_replaced`, `C03_quorum_replaced` |
| C07 | a vote on a round proposal is accepted with any relay round account | `C07_foreign_vote` |
| C08 | a vote cast while a payload runs is overwritten | `C08_vote_lost` |
| C10 | anyone can finalize a proposal with another round, after which it is unusable | `C10_stranded`, `C10_stranger_strands` |
| C12 | executing an old proposal moves the current round back | `C12_moves_back` |
| C21, C43 | amounts are cut to 64 bits, powers of ten wrap | `C21_truncates`, `C21_wrapped_power_creates_value`, `C43_truncated` |
| C24, C30, C32 | a deposit may name the settings of another token | `C24_token_bypassed`, `C30_fake`, `C32_exceeded` |
| C29 | approval recomputes the fee with the rate of the day | `C29_overcounted` |
| C33, C57 | an Everscale token is deployed before votes are counted | `C33_without_votes`, `C57_inflated` |
| C37 | ExecutePayload accepts a record of any program | `C37_forged` |
| C39 | the bounty is not bounded by the amount | `C39_unbounded` |
| C40 | the fee of a cancellation is never stored | `C40_grows` |
| C41 | the sum of the filled amounts wraps | `C41_wraps` |
| C42 | a second payload request for the same token and recipient fails | `C42_refused_sol`, `C42_refused_ever`, `C42_blocked` |
| C45 | the recorded length of the event of a round proposal is not checked | `C45_generic_view_garbled` |
| C47 | error codes are shifted from 7 on | `C47_shifted` |
| C50 | after closing, an event can be requested and paid again | `C50_paid_twice` |
| C52 | a fill without vault is never accepted; the general execute builder cannot open relay rounds | `C52_fill_needs_vault`, `C52_bridge_no_rounds` |
| C61 | the JavaScript functions that stop or resume a single token name the wrong accounts and can never succeed | `C61_cannot_stop_token`, `C61_cannot_resume_token` |
| C55 | old rounds that have not expired are accepted | `C55_old_round` |
| C63 | lamports, however few, sent to the address of a future account blocks it forever: no round, no token, and requests report success without effect | `C63_blocked`, `C63_no_round`, `C63_request_lost`, `C63_no_mint` |
| C64 | the manager can take the rent of the multi vault too; its account vanishes, cannot be opened again, and deposits, cancellations and fills fail forever | `C64_taken`, `C64_forever` |
| C65 | a withdrawal with a payload cannot be requested for an Everscale token whose mint does not exist yet | `C65_refused` |
| C66 | a fee rate with the divisor 0 is accepted and stops all deposits or all payouts of the token | `C66_accepted`, `C66_deposits_stop`, `C66_payouts_stop` |
| C67 | the minimum of votes can be configured above the number of relays; withdrawals requested and proposals finalized then are stuck forever | `C67_unpayable`, `C67_unexecutable` |
| C68 | the clock is cut to 32 bits, so that an expired round is accepted from 2106 on; the end of a round may overflow and lie in the past | `C68_expired`, `C68_overflow` |
| C69 | relays of an expired round still install relay rounds and vote | `C69_no_clock`, `C69_votes`, `C69_late` |
| C70 | holds, but the kind of an account is not compared: settings are shown from any initialized record | `C70_any_kind` |
| C81 | the record a cancellation logs about the new transfer names the account of the withdrawal; an approval of a Solana withdrawal changes its status without a record | `C81_cancel`, `C81_unannounced` |
| C88 | a stranger who overwrites nine of twelve relays (C03) empties the vault without any signature of a relay | `C88_stolen` |
| C89 | a relay who is listed at different places in different rounds fills several slots of one proposal, naming another round in each vote, and alone installs a next round of their own keys | `C89_alone` |
| C56 | the submitter of a request can cancel it and take the refund | `C56_author_cancels` |

Tests of the theorems against wrong programs are logged in `seeded/LOG.jsonl` (mutants in `seeded/mutants.json`, harness
`tools/mutate.py`).
