{"id": "C01", "title": "ERC-20 balances always sum to total supply", "statement": "After any history of ERC-20 calls (transfer, transfer_from, approve, mint, burn, burn_from, successful or failed), the sum over all addresses of balance_of equals total_supply as unbounded integers, i.e. tokens are neither created nor destroyed except by mint and burn.", "quantifier": "every finite sequence of calls, by any callers with any arguments, starting from a freshly deployed contract", "why_tests_cant": "The supply invariant is about every history and every one of 2^160 accounts; it is also what makes the unchecked additions and subtractions in the balance update safe, so a single unexplored history could wrap a balance.", "anchors": ["contracts/src/token/erc20/mod.rs: Erc20::transfer, transfer_from, approve, _mint, _burn, _update", "contracts/src/token/erc20/extensions/burnable.rs: burn, burn_from"]}
{"id": "C02", "title": "ERC-20 transfer has exactly its specified outcome", "statement": "transfer(to, value) by caller c succeeds iff c and to are non-zero and balance_of(c) >= value; on success it moves exactly value from c to to (a self-transfer changes nothing), leaves every other balance, every allowance and the supply unchanged, emits exactly one Transfer event; otherwise it returns the specific error naming the violated condition.", "quantifier": "every state reachable by any history of calls, caller, recipient and 256-bit amount", "why_tests_cant": "The outcome must be exact at every boundary (value = balance, value = 2^256-1, to = from, to = 0) and for every untouched account.", "anchors": ["contracts/src/token/erc20/mod.rs: transfer, _transfer, _update"]}
{"id": "C03", "title": "ERC-20 transfer_from spends allowance exactly", "statement": "transfer_from(from, to, value) by spender s succeeds iff the addresses involved are non-zero, allowance(from, s) >= value and balance_of(from) >= value; on success value moves from from to to and allowance(from, s) drops by exactly value unless it was 2^256-1, in which case it is unchanged; no other allowance or balance changes.", "quantifier": "every state reachable by any history of calls, spender, owner, recipient and amount", "why_tests_cant": "Combines two checks, an infinite-approval special case and aliasing between spender, owner and recipient.", "anchors": ["contracts/src/token/erc20/mod.rs: transfer_from, _spend_allowance, _approve"]}
{"id": "C04", "title": "ERC-20 allowance is a hard budget over any history", "statement": "If allowance(owner, spender) = A < 2^256-1 and owner makes no call during a history, the total amount that spender takes out of owner's account (transfer_from and burn_from) over the whole history plus the final allowance is exactly A.", "quantifier": "every history of calls by everyone but the owner, interleaved arbitrarily", "why_tests_cant": "A cumulative bound over unboundedly many calls and interleavings.", "anchors": ["contracts/src/token/erc20/mod.rs: approve, transfer_from, _spend_allowance", "contracts/src/token/erc20/extensions/burnable.rs: burn_from"]}
{"id": "C05", "title": "Only the holder or an approved spender can reduce a balance", "statement": "If a single call of the ERC-20 API lowers balance_of(a), then the caller is a, or the caller held an allowance from a that was at least the amount by which the balance dropped.", "quantifier": "every state, call, caller and account", "why_tests_cant": "Universal statement over all entry points, callers and victims.", "anchors": ["contracts/src/token/erc20/mod.rs: transfer, transfer_from", "contracts/src/token/erc20/extensions/burnable.rs"]}
{"id": "C06", "title": "The zero address never holds ERC-20 tokens nor grants allowances", "statement": "In every state reachable through the API, balance_of(0) = 0 and allowance(0, s) = 0 and allowance(a, 0) = 0 for all s and a.", "quantifier": "every finite sequence of calls, by any callers with any arguments, starting from a freshly deployed contract", "why_tests_cant": "Every entry point must keep the zero address out on every path.", "anchors": ["contracts/src/token/erc20/mod.rs: _transfer, _mint, _burn, _approve"]}
{"id": "C07", "title": "ERC-20 arithmetic never wraps and panics only on supply overflow", "statement": "In every reachable state no call of the ERC-20 API makes a balance, allowance or the supply wrap around modulo 2^256, and the only call that panics is a mint whose result would exceed 2^256-1 (which is then the only outcome of that mint when the receiver is valid).", "quantifier": "every reachable state and every call", "why_tests_cant": "The code uses unchecked arithmetic justified by a comment; the justification is an invariant over all histories.", "anchors": ["contracts/src/token/erc20/mod.rs: _update"]}
{"id": "C08", "title": "Transfer events replay to the exact ERC-20 balances", "statement": "For every history, replaying the emitted Transfer events from an empty ledger yields exactly balance_of for every account and total_supply, and replaying Approval events and spendings is never needed for balances.", "quantifier": "every finite sequence of calls, by any callers with any arguments, starting from a freshly deployed contract", "why_tests_cant": "Indexers depend on event completeness for every history.", "anchors": ["contracts/src/token/erc20/mod.rs: _update (Transfer event)"]}
{"id": "C09", "title": "ERC-20 approve sets exactly one allowance", "statement": "approve(spender, v) by owner succeeds iff owner and spender are non-zero; afterwards allowance(owner, spender) = v, every other allowance and every balance is unchanged, and one Approval event with these values is emitted.", "quantifier": "every state, owner, spender, amount", "why_tests_cant": "Frame condition over all other (owner, spender) pairs.", "anchors": ["contracts/src/token/erc20/mod.rs: approve, _approve"]}
{"id": "C10", "title": "Capped supply is never exceeded", "statement": "For the capped token composition (cap checked on mint) total_supply <= cap after every history, and mint of value v succeeds (when unpaused and receiver non-zero) iff total_supply + v <= cap.", "quantifier": "every finite sequence of calls, by any callers with any arguments, starting from a freshly deployed contract", "why_tests_cant": "Bound over all mint/burn histories and at the exact cap boundary.", "anchors": ["contracts/src/token/erc20/extensions/capped.rs: Capped::cap", "examples/erc20/src/lib.rs: mint"]}
{"id": "C11", "title": "A paused ERC-20 is frozen", "statement": "In the pausable token composition, while paused no history of calls other than unpause changes any balance or the total supply; transfers, mints and burns fail with EnforcedPause; pause and unpause succeed exactly in the unpaused resp. paused state.", "quantifier": "every history of calls while paused", "why_tests_cant": "Every entry point must carry the guard.", "anchors": ["examples/erc20/src/lib.rs", "contracts/src/utils/pausable.rs: pause, unpause, when_not_paused, when_paused"]}
{"id": "C12", "title": "burn_from needs allowance and destroys exactly the amount", "statement": "burn(v) succeeds iff the caller is non-zero and holds >= v; burn_from(a, v) additionally needs allowance(a, caller) >= v and consumes it (unless infinite); on success supply and the account's balance both fall by exactly v and nothing else changes.", "quantifier": "every state reachable by any history of calls, caller, account and amount", "why_tests_cant": "Exactness at all boundaries and for all untouched accounts.", "anchors": ["contracts/src/token/erc20/extensions/burnable.rs: burn, burn_from", "contracts/src/token/erc20/mod.rs: _burn"]}
{"id": "C13", "title": "permit grants exactly what the owner signed", "statement": "permit(owner, spender, value, deadline, v, r, s) succeeds iff block time <= deadline, the owner's nonce counter is not exhausted, s is in the lower half order, v is an accepted recovery id, and the signature recovers to owner over the EIP-712 digest of exactly (owner, spender, value, current nonce of owner, deadline) in this contract's domain (with owner and spender non-zero); on success allowance(owner, spender) = value, nonce(owner) increases by one and nothing else changes.", "quantifier": "every state, time, argument tuple and any signature-recovery function", "why_tests_cant": "Must hold for every argument tuple and relative to an arbitrary recovery oracle.", "anchors": ["contracts/src/token/erc20/extensions/permit.rs: permit", "contracts/src/utils/nonces.rs: use_nonce", "contracts/src/utils/cryptography/ecdsa.rs: recover"]}
{"id": "C14", "title": "A permit can never be replayed", "statement": "In any history, two successful permits for the same owner used different nonces, hence (the digest being an injective encoding up to hash collisions) no signed permit message is accepted twice; nonces of an owner never decrease.", "quantifier": "every history of permit and token calls", "why_tests_cant": "Replay protection is a property of unbounded histories.", "anchors": ["contracts/src/token/erc20/extensions/permit.rs: permit", "contracts/src/utils/nonces.rs"]}
{"id": "C15", "title": "Flash loan is always repaid with fee", "statement": "If flash_loan(receiver, token, value, data) succeeds then, whatever the receiver's callback did (any history of token calls by any accounts, including nested flash loans), relative to the state right after the callback: receiver's balance falls by value + fee, the supply falls by value (plus fee when the fee receiver is zero), the fee receiver is credited fee, and receiver's allowance to the contract covering value + fee is consumed.", "quantifier": "every state, arguments, fee setting and every callback behaviour", "why_tests_cant": "Quantifies over arbitrary re-entrant callee behaviour.", "anchors": ["contracts/src/token/erc20/extensions/flash_mint.rs: flash_loan"]}
{"id": "C16", "title": "Flash minting cannot break the supply invariant", "statement": "With flash loans added to the API, including arbitrarily nested re-entrant ones, balances still sum to total_supply in every reachable state, and after a top-level flash loan whose callback neither mints nor burns the supply is the prior supply minus the burnt fee.", "quantifier": "every history with nested flash loans", "why_tests_cant": "Nested re-entrancy of unbounded depth.", "anchors": ["contracts/src/token/erc20/extensions/flash_mint.rs: flash_loan, max_flash_loan, flash_fee"]}
{"id": "C17", "title": "ERC-20 wrapper is always fully backed", "statement": "For a wrapper over a standard ERC-20, in every history of calls on both contracts in which the wrapper contract itself never acts as a caller on the underlying, the wrapper's balance of the underlying is at least the wrapper token's total supply (equality when nobody sends underlying directly), and recover never panics.", "quantifier": "every interleaved history of calls on the underlying and the wrapper", "why_tests_cant": "Two-contract invariant over all interleavings.", "anchors": ["contracts/src/token/erc20/extensions/wrapper.rs: deposit_for, withdraw_to, _recover"]}
{"id": "C18", "title": "Wrapper deposit and withdraw are one-to-one", "statement": "deposit_for(account, v) moves exactly v underlying from caller to wrapper and mints exactly v to account; withdraw_to burns exactly v from caller and sends exactly v underlying to account; depositing to oneself and withdrawing the same amount restores all balances of both tokens.", "quantifier": "every state of both tokens, caller, account and amount", "why_tests_cant": "Exactness and frame over two ledgers.", "anchors": ["contracts/src/token/erc20/extensions/wrapper.rs"]}
{"id": "C19", "title": "ERC-4626 conversions round in the vault's favour, exactly", "statement": "convert_to_shares / preview_deposit return the floor and preview_withdraw the ceiling of assets*(supply+10^offset)/(total_assets+1); convert_to_assets / preview_redeem the floor and preview_mint the ceiling of shares*(total_assets+1)/(supply+10^offset); each fails (panics) only when an intermediate sum, the power or the result exceeds 2^256-1.", "quantifier": "every amount, supply, asset balance, offset", "why_tests_cant": "512-bit intermediate arithmetic and rounding at every value.", "anchors": ["contracts/src/token/erc20/extensions/erc4626.rs: convert_to_shares, convert_to_assets, preview_deposit, preview_mint, preview_withdraw, preview_redeem", "contracts/src/utils/math/alloy.rs: mul_div"]}
{"id": "C20", "title": "ERC-4626 previews are honoured exactly", "statement": "If deposit/mint/withdraw/redeem succeeds it returns exactly what the matching preview returned in the same state, and moves exactly the previewed amounts of assets and shares.", "quantifier": "every vault state, caller, receiver, owner and amount", "why_tests_cant": "All states and amounts.", "anchors": ["contracts/src/token/erc20/extensions/erc4626.rs: deposit, mint, withdraw, redeem, _deposit, _withdraw"]}
{"id": "C21", "title": "ERC-4626 round trips never profit the user", "statement": "deposit followed immediately by redeem of the received shares (and mint then withdraw, deposit then withdraw, mint then redeem, withdraw then deposit, redeem then mint) never returns more assets (or leaves more shares) than were put in.", "quantifier": "every vault state and amount", "why_tests_cant": "Rounding exploits live at specific ratios that tests do not sample.", "anchors": ["contracts/src/token/erc20/extensions/erc4626.rs"]}
{"id": "C22", "title": "ERC-4626 share price never falls through vault operations", "statement": "For every successful deposit, mint, withdraw or redeem and every direct donation, the exchange rate (total_assets+1)/(supply+10^offset) does not decrease; hence over any history each holder's convertible assets per share never decrease.", "quantifier": "every history of vault operations and donations", "why_tests_cant": "An invariant across unbounded histories of roundings.", "anchors": ["contracts/src/token/erc20/extensions/erc4626.rs"]}
{"id": "C23", "title": "ERC-4626 limits are sound", "statement": "withdraw succeeds only if assets <= max_withdraw(owner) and redeem only if shares <= max_redeem(owner), failing with the dedicated error otherwise; withdrawing max_withdraw(owner) never burns more shares than owner holds.", "quantifier": "every vault state, owner and amount", "why_tests_cant": "Interaction of floor for the limit and ceiling for the share cost.", "anchors": ["contracts/src/token/erc20/extensions/erc4626.rs: max_withdraw, max_redeem, withdraw, redeem"]}
{"id": "C24", "title": "ERC-4626 inflation attack is unprofitable", "statement": "In any reachable state, however prepared by deposits and donations: (a) whoever held shares before a deposit, even all of them, can afterwards redeem at most the assets that were in the vault before that deposit; (b) a depositor who redeems the shares just received loses at most one unit plus the price of one share, floor((total_assets+1)/(supply+10^offset)); (c) 10^offset*(victim loss - 1) is at most the attacker's loss plus the victim's loss. (d) more generally, over any history of a new vault, with any calls by anybody in any order: if at most 10^offset deposits (and any number m of mints) are marked as other users', then everybody else together has not gained: what they took out plus what all remaining other shares would redeem for is at most what they put in, plus m units; with more deposits this can fail (offset 0, two deposits that get no shares). In particular the deposit-donate-wait attack on an empty vault never profits.", "quantifier": "every donation, first deposit and victim deposit, every offset; for (d) every history of transactions and every choice of the marked deposits and mints", "why_tests_cant": "Economic bound over all amounts.", "anchors": ["contracts/src/token/erc20/extensions/erc4626.rs: _convert_to_shares, _convert_to_assets"]}
{"id": "C25", "title": "SafeERC20 accepts a token call exactly when it truly succeeded", "statement": "safe_transfer / safe_transfer_from return Ok iff the target has code, the call did not revert, and the returned data is empty or encodes the number one big-endian in its first (at most) 32 bytes, which for full words is exactly the ABI encoding of true; anything else yields SafeErc20FailedOperation; no return data whatsoever makes them panic.", "quantifier": "every token behaviour (arbitrary return data and revert behaviour)", "why_tests_cant": "Adversarial token contracts: all possible return data.", "anchors": ["contracts/src/token/erc20/utils/safe_erc20.rs: safe_transfer, safe_transfer_from, call_optional_return, encodes_true"]}
{"id": "C26", "title": "SafeERC20 allowance helpers reach the target allowance", "statement": "Against a standard token and against a USDT-like token (non-zero to non-zero approve reverts), force_approve ends with exactly the requested allowance; safe_increase_allowance ends with current+v and panics rather than wrapping; safe_decrease_allowance ends with current-v and fails with the dedicated error when v exceeds it.", "quantifier": "every current allowance and requested value", "why_tests_cant": "All values for two token behaviours.", "anchors": ["contracts/src/token/erc20/utils/safe_erc20.rs: force_approve, safe_increase_allowance, safe_decrease_allowance, allowance"]}
{"id": "C27", "title": "mul_div is exact with 512-bit intermediates", "statement": "x.mul_div(y, d, rounding) returns floor(x*y/d) (resp. ceil) whenever that fits in 256 bits, and panics exactly when d = 0 or the result does not fit.", "quantifier": "all 256-bit x, y, d", "why_tests_cant": "2^768 inputs.", "anchors": ["contracts/src/utils/math/alloy.rs: mul_div"]}
{"id": "C28", "title": "sqrt is the exact integer square root", "statement": "x.sqrt() is the largest r with r*r <= x, for every 256-bit x; no intermediate computation overflows.", "quantifier": "all 256-bit x", "why_tests_cant": "Fixed number of Newton iterations must converge for all 2^256 inputs.", "anchors": ["contracts/src/utils/math/alloy.rs: sqrt"]}
{"id": "C29", "title": "average never overflows", "statement": "a.average(b) = floor((a+b)/2) computed without overflow.", "quantifier": "all 256-bit a, b", "why_tests_cant": "All pairs.", "anchors": ["contracts/src/utils/math/alloy.rs: average"]}
{"id": "C30", "title": "Vesting schedule is bounded, monotone and exact at its ends", "statement": "The vested amount is 0 before start, everything from end on, never more than the total allocation, non-decreasing in time and in the total allocation, and linear (floor) in between; with zero duration everything is vested from start on.", "quantifier": "every allocation, start, duration and timestamps", "why_tests_cant": "All 64-bit times and 256-bit amounts.", "anchors": ["contracts/src/finance/vesting_wallet.rs: vesting_schedule, vested_amount_eth, vested_amount_erc20"]}
{"id": "C31", "title": "Vesting releases never exceed what is vested", "statement": "Over every history of deposits, time passing and releases, total released never exceeds the vested amount, releasable never wraps, released + balance = everything ever received, and one release at or after end pays out everything.", "quantifier": "every history of deposits, clock advances and releases", "why_tests_cant": "Unchecked subtraction justified only by a history invariant.", "anchors": ["contracts/src/finance/vesting_wallet.rs: release_eth, release_erc20, releasable_eth, releasable_erc20"]}
{"id": "C32", "title": "Nonces are strictly sequential", "statement": "Each use_nonce returns the current nonce and increments it by one; use_checked_nonce succeeds iff the given value is the current nonce; over any history an owner's consumed nonces are exactly 0,1,2,... without repetition, other owners unaffected.", "quantifier": "every finite sequence of calls, by any callers with any arguments, starting from a freshly deployed contract", "why_tests_cant": "Uniqueness over unbounded histories.", "anchors": ["contracts/src/utils/nonces.rs"]}
{"id": "C33", "title": "Pausable is a two-state machine", "statement": "pause succeeds iff not paused, unpause iff paused; over any history the paused flag equals the parity of successful toggles from the initial unpaused state and each toggle emits the matching event.", "quantifier": "every finite sequence of calls, by any callers with any arguments, starting from a freshly deployed contract", "why_tests_cant": "All histories.", "anchors": ["contracts/src/utils/pausable.rs"]}
{"id": "C34", "title": "BitMap refines a set of 256-bit indices", "statement": "For every history of set, unset and set_to, get(i) answers exactly as a set of indices would; operations on one index never affect another.", "quantifier": "every history of operations, every pair of 256-bit indices", "why_tests_cant": "Bucket/mask aliasing over 2^256 indices.", "anchors": ["contracts/src/utils/structs/bitmap.rs"]}
{"id": "C35", "title": "Checkpoint traces stay sorted and append-only", "statement": "After any history of pushes, keys are strictly increasing; push with a key lower than the latest fails with UnorderedInsertion and changes nothing; equal key overwrites the last value; greater key appends; push returns (previous latest value, new value).", "quantifier": "every history of pushes, all three size parameterisations", "why_tests_cant": "All histories.", "anchors": ["contracts/src/utils/structs/checkpoints/mod.rs: push, _insert, latest, latest_checkpoint, length, at"]}
{"id": "C36", "title": "Checkpoint lookups equal their linear definition", "statement": "lower_lookup(k) is the value of the first checkpoint with key >= k, upper_lookup(k) and upper_lookup_recent(k) the value of the last checkpoint with key <= k, or zero; binary search never reads out of range and its index arithmetic never overflows.", "quantifier": "every sorted trace of any length, every key", "why_tests_cant": "Binary search and sqrt-biased search over all lengths.", "anchors": ["contracts/src/utils/structs/checkpoints/mod.rs: lower_lookup, upper_lookup, upper_lookup_recent, _upper_binary_lookup, _lower_binary_lookup"]}
{"id": "C37", "title": "Checkpoint history is immutable", "statement": "Once the latest key is above k, later pushes never change upper_lookup(k).", "quantifier": "every trace and every later push history", "why_tests_cant": "Immutability over unbounded futures.", "anchors": ["contracts/src/utils/structs/checkpoints/mod.rs"]}
{"id": "C38", "title": "AccessControl roles change only through the role's admins", "statement": "In every history, an account gains a role only by grant_role from a holder of the role's admin role, and loses it only by revoke_role from such a holder or by its own renounce_role; unauthorised calls fail with UnauthorizedAccount naming the missing role; no other role or account is affected.", "quantifier": "every history, account and role", "why_tests_cant": "Privilege escalation is a reachability property.", "anchors": ["contracts/src/access/control.rs: grant_role, revoke_role, renounce_role, has_role, only_role, get_role_admin"]}
{"id": "C39", "title": "AccessControl events mirror membership", "statement": "RoleGranted/RoleRevoked are emitted exactly when membership actually changes and replaying them yields has_role for all roles and accounts.", "quantifier": "every finite sequence of calls, by any callers with any arguments, starting from a freshly deployed contract", "why_tests_cant": "Event completeness over all histories.", "anchors": ["contracts/src/access/control.rs: _grant_role, _revoke_role"]}
{"id": "C40", "title": "Ownable: only the owner moves ownership, renunciation is final", "statement": "owner changes only by a call from the current owner to a non-zero address or by renouncing; once the owner is zero no history of calls by non-zero callers changes it again; only_owner passes exactly for the owner.", "quantifier": "every finite sequence of calls, by any callers with any arguments, starting from a freshly deployed contract", "why_tests_cant": "Reachability over histories.", "anchors": ["contracts/src/access/ownable.rs"]}
{"id": "C41", "title": "Ownable2Step: ownership moves only to an account that was nominated and accepted", "statement": "In every history, owner changes from o to n (n non-zero) only by accept_ownership called by n while n is the pending owner nominated by o (the current owner); every ownership change clears the pending owner; a nomination can be overwritten or cancelled by the owner only.", "quantifier": "every finite sequence of calls, by any callers with any arguments, starting from a freshly deployed contract", "why_tests_cant": "Two-phase protocol over all interleavings.", "anchors": ["contracts/src/access/ownable_two_step.rs"]}
{"id": "C42", "title": "ECDSA recover rejects malleable signatures", "statement": "recover(hash, v, r, s) returns an address only if s <= n/2 where n is the secp256k1 group order, and never the zero address; for each signature with 0<s<n exactly one of s and n-s passes the range check.", "quantifier": "all hashes, v, r, s and any precompile behaviour", "why_tests_cant": "All 256-bit s, boundary constant must be exact.", "anchors": ["contracts/src/utils/cryptography/ecdsa.rs: recover, check_if_malleable"]}
{"id": "C43", "title": "EIP-712 digest binds domain and message", "statement": "The digest pre-image 0x19 0x01 || domain separator || struct hash is an injective encoding: equal pre-images imply equal domain separator and struct hash; and the domain separator pre-image determines name hash, version hash, chain id and contract.", "quantifier": "all domains and messages", "why_tests_cant": "Injectivity over all inputs.", "anchors": ["contracts/src/utils/cryptography/eip712.rs: to_typed_data_hash, domain_separator_v4, hash_typed_data_v4"]}
{"id": "C44", "title": "ERC-2981 royalties are exact and never exceed the sale price", "statement": "royalty_info(id, price) returns the token-specific receiver if set, else the default, and the amount floor(price*fraction/denominator); since setters reject fractions above the denominator and zero receivers, in every reachable state (with fixed denominator) the royalty never exceeds the price.", "quantifier": "every history of setter calls, token and price", "why_tests_cant": "All histories and prices.", "anchors": ["contracts/src/token/common/erc2981.rs"]}
{"id": "C45", "title": "ERC-721 balance equals number of tokens owned", "statement": "In every reachable state balance_of(a) is exactly the number of token ids whose owner is a, and the zero address owns nothing.", "quantifier": "every finite sequence of calls, by any callers with any arguments, starting from a freshly deployed contract", "why_tests_cant": "Counting invariant over all histories with unchecked increments.", "anchors": ["contracts/src/token/erc721/mod.rs: _update, _mint, _burn, _transfer, balance_of, owner_of"]}
{"id": "C46", "title": "ERC-721 transfers only by authorised callers, with exact effect", "statement": "transfer_from succeeds iff the token exists, from is its owner, to is non-zero and the caller is owner, operator or the approved address; on success only that token's owner changes, the single-token approval is cleared, balances move by one; otherwise it returns the specific error for the first violated condition (receiver, existence, authorisation, owner).", "quantifier": "every state reachable by any history of calls, caller and arguments", "why_tests_cant": "The update happens before some checks; correctness depends on revert.", "anchors": ["contracts/src/token/erc721/mod.rs: transfer_from, _update, _is_authorized, _check_authorized"]}
{"id": "C47", "title": "ERC-721 token theft is impossible", "statement": "If a call changes the owner of an existing token, the caller was its owner, an operator of its owner, or its approved address.", "quantifier": "every reachable state and call", "why_tests_cant": "Reachability over all entry points.", "anchors": ["contracts/src/token/erc721/mod.rs"]}
{"id": "C48", "title": "ERC-721 mint never overwrites and burn removes", "statement": "_mint(to,id) succeeds iff id is unowned and to non-zero, and gives it to to; _burn(id) succeeds iff it exists and leaves it unowned with no approval; re-minting after burning is possible.", "quantifier": "every state and id", "why_tests_cant": "All states and ids.", "anchors": ["contracts/src/token/erc721/mod.rs: _mint, _burn"]}
{"id": "C49", "title": "ERC-721 approvals never survive an ownership change", "statement": "Whenever a token changes owner (transfer, burn, mint) get_approved for it becomes zero; approvals are set only by the owner or an operator of the owner; unowned tokens never have an approval.", "quantifier": "every finite sequence of calls, by any callers with any arguments, starting from a freshly deployed contract", "why_tests_cant": "Stale approval after transfer is a history bug.", "anchors": ["contracts/src/token/erc721/mod.rs: _approve, approve, _update, get_approved"]}
{"id": "C50", "title": "ERC-721 safe transfer reaches only willing contracts", "statement": "safe_transfer_from and _safe_mint succeed to an address with code only if its on_erc721_received returned the magic selector; to an address without code they behave as transfer_from / _mint.", "quantifier": "every receiver behaviour", "why_tests_cant": "All callee behaviours.", "anchors": ["contracts/src/token/erc721/mod.rs: _check_on_erc721_received, safe_transfer_from, _safe_mint"]}
{"id": "C51", "title": "ERC-721 Transfer events replay to ownership", "statement": "Replaying Transfer events yields owner_of for every token id, for every history.", "quantifier": "every finite sequence of calls, by any callers with any arguments, starting from a freshly deployed contract", "why_tests_cant": "Indexers rely on it.", "anchors": ["contracts/src/token/erc721/mod.rs: _update"]}
{"id": "C52", "title": "ERC-721 enumeration lists exactly the owned tokens", "statement": "In the enumerable composition, for every history total_supply is the number of existing tokens and token_by_index(0..total_supply-1) lists every existing token exactly once, indices beyond it being errors; and token_of_owner_by_index(a, 0..balance_of(a)-1) lists a's tokens exactly once. The code as written violates the owner half in two ways, both proved: token id 0 is reported as out of bounds, and a transfer of a token to its own owner corrupts the owner's list. The owner half is proved for non-zero ids and histories without self-transfers. The check for batch mints, which would not be listed, passes only for an empty batch.", "quantifier": "every finite sequence of calls, by any callers with any arguments, starting from a freshly deployed contract", "why_tests_cant": "Swap-and-pop bookkeeping over all histories.", "anchors": ["contracts/src/token/erc721/extensions/enumerable.rs", "examples/erc721/src/lib.rs"]}
{"id": "C53", "title": "ERC-721 consecutive batches own their ranges", "statement": "After deployment with any list of batches (whose ids stay below U96::MAX), each id in a batch is owned by the batch receiver, batches do not overlap, no other id is owned; deployment fails exactly for a zero receiver or a batch above the maximum size. From then on the contract behaves, for every history and observably including errors, exactly like a plain ERC-721 in which those ids had been minted one by one, and balance_of is the number of owned ids. When a batch ends at U96::MAX, burns are not recorded (proved as a negation).", "quantifier": "every list of batches and subsequent history", "why_tests_cant": "Checkpoint-encoded ownership over all ids.", "anchors": ["contracts/src/token/erc721/extensions/consecutive.rs"]}
{"id": "C54", "title": "ERC-721 wrapper holds what it wrapped", "statement": "For a wrapper over a standard ERC-721, every wrapped token id that exists is owned in the underlying by the wrapper, in every history where the wrapper is only driven through its API.", "quantifier": "every interleaved history on both contracts", "why_tests_cant": "Two-contract invariant.", "anchors": ["contracts/src/token/erc721/extensions/wrapper.rs"]}
{"id": "C55", "title": "ERC-1155 transfers conserve every id's supply", "statement": "For every history of single and batch transfers, mints and burns, for each id the sum of balances equals minted minus burned; a batch with repeated ids behaves as the sequence of single updates.", "quantifier": "every finite sequence of calls, by any callers with any arguments, starting from a freshly deployed contract", "why_tests_cant": "Repeated ids, self transfers and all histories.", "anchors": ["contracts/src/token/erc1155/mod.rs: _update, do_update, safe_transfer_from, safe_batch_transfer_from"]}
{"id": "C56", "title": "ERC-1155 exact authorisation", "statement": "safe_transfer_from and safe_batch_transfer_from succeed only if the caller is from or an approved operator of from; balances of from can fall only in such a call (or burn by the same rule).", "quantifier": "every state, caller and arguments", "why_tests_cant": "Universal over entry points.", "anchors": ["contracts/src/token/erc1155/mod.rs: authorize_transfer", "contracts/src/token/erc1155/extensions/burnable.rs"]}
{"id": "C57", "title": "ERC-1155 batch calls are all-or-nothing with exact conditions", "statement": "A batch transfer succeeds iff arrays have equal length, receiver is non-zero and accepts, and at each prefix the running balance suffices; otherwise nothing changes.", "quantifier": "all batch lengths and contents", "why_tests_cant": "Unbounded batch sizes.", "anchors": ["contracts/src/token/erc1155/mod.rs: safe_batch_transfer_from, require_equal_arrays_length, do_update"]}
{"id": "C58", "title": "ERC-1155 Supply tracks per-id totals", "statement": "total_supply(id) equals the sum of all balances of id in every reachable state and exists(id) iff it is positive.", "quantifier": "every finite sequence of calls, by any callers with any arguments, starting from a freshly deployed contract", "why_tests_cant": "All histories.", "anchors": ["contracts/src/token/erc1155/extensions/supply.rs"]}
{"id": "C59", "title": "ERC-1155 Supply aggregate total", "statement": "total_supply_all() equals the sum over ids of total_supply(id) (as coded this holds only modulo 2^256: the batch sum wraps; the violation is proved, and equality is proved for histories whose batch sums fit).", "quantifier": "every finite sequence of calls, by any callers with any arguments, starting from a freshly deployed contract", "why_tests_cant": "Overflow interplay across ids.", "anchors": ["contracts/src/token/erc1155/extensions/supply.rs: _update"]}
{"id": "C60", "title": "Limb arithmetic primitives are exact", "statement": "mac, carrying_mac, adc, sbb and widening_mul compute the exact 128-bit result split into limb and carry for all 64-bit inputs, no internal 128-bit overflow; the wasm-specific multiplication equals the native one.", "quantifier": "all 64-bit operands", "why_tests_cant": "2^256 operand combinations.", "anchors": ["lib/crypto/src/arithmetic/limb.rs"]}
{"id": "C61", "title": "Multi-limb add, sub, double, halve are exact for every size", "statement": "checked_add_assign, checked_sub_assign, checked_mul2_assign, div2_assign and their ct_ variants compute the result modulo 2^(64N) with the exact carry/borrow, for every number of limbs N.", "quantifier": "every N and all limb values", "why_tests_cant": "All sizes and values.", "anchors": ["lib/crypto/src/arithmetic/uint.rs"]}
{"id": "C62", "title": "Multi-limb widening multiplication is exact", "statement": "ct_widening_mul(a,b) returns (lo,hi) with lo + 2^(64N) hi = a*b.", "quantifier": "every N and operands", "why_tests_cant": "Carry chains across all limbs.", "anchors": ["lib/crypto/src/arithmetic/uint.rs: ct_widening_mul, ct_mul"]}
{"id": "C63", "title": "Multi-limb comparisons agree with the integers", "statement": "ct_lt, ct_le, ct_gt, ct_ge, ct_eq, cmp and is_even/is_odd/is_zero agree with the represented natural number; ct_num_bits and ct_get_bit agree with its binary expansion.", "quantifier": "every N and operands", "why_tests_cant": "All sizes.", "anchors": ["lib/crypto/src/arithmetic/uint.rs"]}
{"id": "C64", "title": "Wide remainder is exact", "statement": "WideUint::ct_rem(m) is the remainder of the 2N-limb value by m, for every non-zero m (top bit set or not) and every non-zero value. It panics for a zero modulus and, although the answer would be zero, for a zero value. ct_num_bits and ct_get_bit of the wide number agree with its binary expansion.", "quantifier": "every N, every 2N-limb value and every modulus", "why_tests_cant": "Bitwise long division for all values.", "anchors": ["lib/crypto/src/arithmetic/uint.rs: WideUint::ct_rem"]}
{"id": "C65", "title": "Byte and string conversions round-trip", "statement": "from_bytes_le(into_bytes_le(x)) = x, and from_bytes_le accepts exactly 8N bytes and reads the number they write. from_str_radix and from_str_hex return exactly the number written and never another one. A numeral is refused only if it is empty, has a character that is no digit of the radix, has a radix outside 2..=36, does not fit, or has so many leading zeros that radix^(length-1) (hexadecimal: length above 16N) does not fit. Printing and from_str_hex are inverse to each other; the bit iterators list the binary digits.", "quantifier": "all values and strings", "why_tests_cant": "All inputs.", "anchors": ["lib/crypto/src/arithmetic/uint.rs: into_bytes_le, from_bytes_le, from_str_radix, from_str_hex"]}
{"id": "C66", "title": "Montgomery constants are correct for every odd modulus", "statement": "INV * modulus = -1 mod 2^64, R = 2^(64N) mod p, R2 = 2^(128N) mod p.", "quantifier": "every odd modulus > 1 and N", "why_tests_cant": "All moduli, 63-step exponentiation.", "anchors": ["lib/crypto/src/field/fp.rs: inv, FpParams::R, R2"]}
{"id": "C67", "title": "Field element arithmetic is arithmetic modulo p", "statement": "For every odd modulus p (with or without a spare top bit), +, -, unary -, double, *, square on Fp agree with ZMod p through the conversion into_bigint, results are always fully reduced.", "quantifier": "every modulus, N and reduced operands", "why_tests_cant": "Carry and conditional-subtraction corner cases for all moduli.", "anchors": ["lib/crypto/src/field/fp.rs: add_assign, sub_assign, neg_in_place, double_in_place, ct_mul, widening_montgomery_reduction"]}
{"id": "C68", "title": "Field conversions are inverse to each other", "statement": "from_bigint followed by into_bigint is reduction modulo p for every integer (also unreduced ones); into_bigint result is < p; equality of elements is equality modulo p.", "quantifier": "every modulus and integer", "why_tests_cant": "All values.", "anchors": ["lib/crypto/src/field/fp.rs: new, from_bigint, into_bigint, montgomery_reduction"]}
{"id": "C69", "title": "Field inversion is correct and terminates", "statement": "inverse(0) = None and for every non-zero a (p prime) the loop terminates and a * inverse(a) = 1.", "quantifier": "every prime modulus and element", "why_tests_cant": "Termination and correctness of the binary extended GCD.", "anchors": ["lib/crypto/src/field/fp.rs: inverse"]}
{"id": "C70", "title": "pow computes powers", "statement": "a.pow(e) = a^e for every exponent given as an integer type.", "quantifier": "every exponent and element", "why_tests_cant": "All exponents.", "anchors": ["lib/crypto/src/field/mod.rs: pow", "lib/crypto/src/bits.rs: bit_be_trimmed_iter"]}
{"id": "C71", "title": "Projective curve addition and doubling implement the group law", "statement": "For every short Weierstrass curve over a field of characteristic not 2, double, projective+projective and projective+affine compute the chord-and-tangent group law (including identity, inverse and doubling cases).", "quantifier": "every curve, every pair of points and every Jacobian representative", "why_tests_cant": "All exceptional cases and representatives.", "anchors": ["lib/crypto/src/curve/sw/projective.rs: double_in_place, add_assign, neg"]}
{"id": "C72", "title": "Scalar multiplication is repeated addition", "statement": "mul_bigint(k) of a point equals k-fold addition for every k.", "quantifier": "every scalar and point", "why_tests_cant": "All scalars.", "anchors": ["lib/crypto/src/curve/sw/mod.rs: sw_double_and_add_affine, sw_double_and_add_projective"]}
{"id": "C73", "title": "Affine/projective conversions and batch normalisation are faithful", "statement": "into_affine/into_group round-trip, projective equality is equality of points, normalize_batch and batch_inversion agree with element-wise conversion/inversion, including zeros.", "quantifier": "every list of points/elements", "why_tests_cant": "Lists of any length with zeros anywhere.", "anchors": ["lib/crypto/src/curve/mod.rs: batch_inversion", "lib/crypto/src/curve/sw/projective.rs: normalize_batch, eq", "lib/crypto/src/curve/sw/affine.rs: from"]}
{"id": "C74", "title": "Merkle proofs verify for every member", "statement": "For every Merkle tree and every leaf in it, the sibling path verifies against the root.", "quantifier": "every tree shape and leaf", "why_tests_cant": "All trees.", "anchors": ["lib/crypto/src/merkle.rs: verify, verify_with_builder"]}
{"id": "C75", "title": "Merkle verification is sound up to hash collisions", "statement": "If verify accepts (proof, root, leaf) for the root of a given tree, and proof length equals the leaf depth in a tree with leaves at a uniform depth, then leaf is in the tree or an explicit collision of the pair hash is exhibited.", "quantifier": "every tree, proof, leaf", "why_tests_cant": "Adversarial proofs.", "anchors": ["lib/crypto/src/merkle.rs: verify"]}
{"id": "C76", "title": "Merkle multi-proofs: never panic, complete and sound", "statement": "verify_multi_proof never reads out of range for any input; it returns the specified errors on malformed lengths; acceptance implies each leaf is a node under the root up to explicit collisions; every honestly generated multi-proof is accepted.", "quantifier": "every proof, flag list and leaves list of any length", "why_tests_cant": "Adversarial flags.", "anchors": ["lib/crypto/src/merkle.rs: verify_multi_proof, verify_multi_proof_with_builder"]}
{"id": "C77", "title": "Commutative pair hashing is symmetric", "statement": "commutative_hash_pair(a,b) = commutative_hash_pair(b,a) for all a, b and equals hash_pair of the ordered pair.", "quantifier": "all values and hash functions", "why_tests_cant": "All inputs.", "anchors": ["lib/crypto/src/hash.rs: hash_pair, commutative_hash_pair"]}
{"id": "C78", "title": "Poseidon2 linear layers are the specified matrices", "statement": "matmul_external and matmul_internal multiply the state by the circulant/M4-based matrices of the Poseidon2 specification for each supported width.", "quantifier": "every state over every field", "why_tests_cant": "All states.", "anchors": ["lib/crypto/src/poseidon2/mod.rs: matmul_external, matmul_m4, matmul_internal"]}
{"id": "C79", "title": "Poseidon2 sponge never indexes out of range and hashes chunk by chunk", "statement": "For any sequence of absorbs then squeezes, indices stay within the state, the capacity part is never touched by absorb or revealed by squeeze, absorbing after squeezing is rejected, and absorb_batch equals sequential absorbs.", "quantifier": "every input sequence", "why_tests_cant": "All lengths.", "anchors": ["lib/crypto/src/poseidon2/mod.rs: absorb, absorb_batch, squeeze, squeeze_batch"]}
{"id": "C80", "title": "Poseidon2 permutation is a permutation", "statement": "permute is a bijection of the state space whenever the power map by D is a bijection of the field and the internal matrix is invertible.", "quantifier": "every field, parameter set", "why_tests_cant": "All states.", "anchors": ["lib/crypto/src/poseidon2/mod.rs: permute"]}
{"id": "C81", "title": "The shipped field instances are prime fields with correct generators", "statement": "For each of the six field instances (Vesta, Pallas, BLS12, BN256, Goldilocks, BabyBear) the decimal constants parse, the modulus is an odd prime, and GENERATOR has multiplicative order modulus - 1, so every non-zero element is one of its powers.", "quantifier": "every element and exponent of the six fields", "why_tests_cant": "Primality of a 255-bit number and the order of a generator cannot be checked by sampling.", "anchors": ["lib/crypto/src/field/instance.rs: VestaParam, PallasParam, BLS12Param, BN256Param, GoldiLocksParam, BabyBearParam"]}
{"id": "C82", "title": "ERC-721 token URIs are the base followed by the decimal id", "statement": "With the metadata extension alone, tokenURI of an existing token is the empty string when the base URI is empty and otherwise the base URI followed by the shortest decimal numeral of the id; it fails for non-existent tokens; for a non-empty base, two ids never share a URI.", "quantifier": "every base URI, token id and token state", "why_tests_cant": "All 2^256 ids and all strings.", "anchors": ["contracts/src/token/erc721/extensions/metadata.rs: token_uri"]}
{"id": "C83", "title": "ERC-721 URI storage returns exactly what was last set", "statement": "After any history, tokenURI(id) of an existing token combines the base URI and the string last set for id; setting a URI changes no ownership, balance or approval and no other token's URI. A URI outlives the token: burning does not clear it.", "quantifier": "every history of the URI storage example", "why_tests_cant": "All interleavings of minting, moving, burning and URI setting.", "anchors": ["contracts/src/token/erc721/extensions/uri_storage.rs: _set_token_uri, token_uri", "examples/erc721-metadata/src/lib.rs"]}
{"id": "C84", "title": "ERC-1155 URI storage returns exactly what was last set and announces it", "statement": "After any history, uri(id) is base ++ string last set for id, or the default when none is set; each set_token_uri emits one URI event with the URI then in force, which stays true until the base URI or that token's URI changes. A base URI change emits nothing.", "quantifier": "every history of the URI example", "why_tests_cant": "All interleavings.", "anchors": ["contracts/src/token/erc1155/extensions/uri_storage.rs: uri, set_token_uri, set_base_uri", "contracts/src/token/erc1155/extensions/metadata_uri.rs", "examples/erc1155-metadata-uri/src/lib.rs"]}
{"id": "C85", "title": "Pausing freezes every token movement in the ERC-721 and ERC-1155 compositions", "statement": "While paused every mint, burn and transfer fails, so no history without an unpause changes a balance or an owner; while not paused the ERC-1155 composition behaves exactly as the bare token; pause and unpause only toggle the flag.", "quantifier": "every state, call and history", "why_tests_cant": "All histories between a pause and an unpause.", "anchors": ["examples/erc1155/src/lib.rs", "examples/erc721/src/lib.rs", "contracts/src/utils/pausable.rs"]}
{"id": "C86", "title": "The access-controlled compositions gate exactly the call they name", "statement": "In the ownable compositions transfer succeeds only for the current owner (two-step: the accepted one), and after renouncing never; in the access-control composition transferFrom needs TRANSFER_ROLE, make_admin grants exactly that role and only for administrators; a balance is debited only by its holder's own transfer or by a role holder, and an account without roles cannot gain one by its own calls alone. The gate covers only the named call: approve plus transferFrom bypasses the ownable one, and the example's public set_role_admin lets a holder of any role obtain every role.", "quantifier": "every state, caller and history", "why_tests_cant": "All histories and callers.", "anchors": ["examples/ownable/src/lib.rs", "examples/ownable-two-step/src/lib.rs", "examples/access-control/src/lib.rs"]}
{"id": "C87", "title": "Interface detection answers exactly the ids of the standards", "statement": "For every four-byte id, supportsInterface of each contract is true exactly for the ERC-165 id and the ids of the interfaces it implements; those ids are the xor of the selectors of the functions as the standards write them, whatever the order of declaration; no contract claims 0xffffffff; the selectors receivers must return and the EIP-712 type hashes have their standard values. Exceptions in the code: AccessControl does not report the standard IAccessControl id, and the supply example does not report the supply interface.", "quantifier": "every 32-bit id, every hash function (for the signature part), every declaration order", "why_tests_cant": "A test asks about a few ids; that no other id is claimed ranges over 2^32 of them.", "anchors": ["contracts-proc/src/interface_id.rs: interface_id", "contracts/src/utils/introspection/erc165.rs: Erc165", "every supports_interface in contracts/src and examples"]}
{"id": "C88", "title": "Re-entering the token from a receiver's callback is the same as calling it right afterwards", "statement": "Built with re-entrancy enabled, a safe transfer or mint of ERC-721 or a transfer or mint of ERC-1155 whose receiver calls the token back has exactly the effect of the plain call followed by the receiver's calls, to any depth of nesting. Every nested history therefore has the final state and the event log of a flat history of the same calls in order, so all the history properties (balances, owners, supplies, no theft, event replay) hold for it; inside the callback the receiver already sees the finished transfer.", "quantifier": "every receiver behaviour, every depth and width of nested calls, every state", "why_tests_cant": "A test fixes one attacking receiver; the claim is about all possible receivers and nesting depths.", "anchors": ["contracts/src/token/erc721/mod.rs: _safe_transfer, _safe_mint, _check_on_erc721_received", "contracts/src/token/erc1155/mod.rs: _update_with_acceptance_check", "contracts/src/token/erc1155/extensions/supply.rs", "contracts/Cargo.toml: reentrant feature"]}
{"id": "C89", "title": "A vesting wallet re-entered from its payments pays no more than the schedule", "statement": "If the beneficiary releases again from inside an Ether payment, or from a token's hook after the balance has moved, then over the whole nested history the wallet has never paid more than the schedule allows, and its released counters equal what it paid. A token that calls out before it moves the balance breaks this: the inner release sees the balance unchanged and the total paid exceeds the vested amount.", "quantifier": "every nesting of release calls, deposits and clock readings, every schedule", "why_tests_cant": "All nestings of calls.", "anchors": ["contracts/src/finance/vesting_wallet.rs: release (both), releasable, vested_amount"]}
{"id": "C90", "title": "An ERC-4626 vault over an asset with hooks keeps its rate", "statement": "If the asset calls arbitrary code before assets move into the vault and after they move out of it, then however calls are nested the vault's rate never falls, a fixed number of shares never converts to fewer assets, and a holder who approved nobody and makes no call loses no share. The two other moments are not harmless: a hook after assets moved in, or before they move out, lets a caller take assets that back other holders' shares.", "quantifier": "every nesting of calls, every asset hook behaviour at those moments, every history", "why_tests_cant": "All nestings and all attacking receivers; the source argues this in a comment only.", "anchors": ["contracts/src/token/erc20/extensions/erc4626.rs: _deposit, _withdraw (comments at 1135-1142 and 1192-1199)"]}
{"id": "C91", "title": "The ERC-20 wrapper stays backed when the underlying token calls back", "statement": "However calls are nested inside the hooks of the underlying token, the wrapped supply never exceeds the underlying balance of the wrapper, as long as nobody recovers a surplus; with a token that calls out only before a balance moves in and after one moves out, recovering is harmless too. Recovering from inside a hook between the movement and the matching mint (or between burn and movement) mints unbacked tokens.", "quantifier": "every nesting of calls, every hook behaviour, every history", "why_tests_cant": "All nestings and all attacking receivers.", "anchors": ["contracts/src/token/erc20/extensions/wrapper.rs: deposit_for, withdraw_to, _recover"]}
{"id": "C92", "title": "The ERC-721 wrapper stays backed when it is re-entered", "statement": "With re-entrancy enabled and receivers that call back into the wrapper and the underlying from every callback, to any depth, every wrapped token that exists is owned in the underlying by the wrapper and nobody else can move it.", "quantifier": "every nesting of calls on both contracts, every receiver behaviour (depending on the state in any way), every history", "why_tests_cant": "All nestings and all attacking receivers.", "anchors": ["contracts/src/token/erc721/extensions/wrapper.rs: deposit_for, withdraw_to, on_erc721_received, _recover"]}
{"id": "C93", "title": "The hash helpers feed exactly the value's bytes, in order, and the commutative pair hash is commutative for ordered values", "statement": "Hashing a value or a pair gives the hasher's digest of the concatenation of the values' bytes, each fed once and in order; the commutative pair hash gives the same digest for both orders of any two values whose order is total, and it equals the ordered hash of the smaller then the larger. For 32-byte words under Keccak the digests are Keccak-256 of the 32 or 64 bytes.", "quantifier": "every hasher, every pair of values, every ordering", "why_tests_cant": "All values and all hashers; tests compare a few digests.", "anchors": ["lib/crypto/src/hash.rs: Hash, Hasher, BuildHasher::hash_one, hash_pair, commutative_hash_pair", "lib/crypto/src/keccak.rs: KeccakBuilder, Hasher"]}
{"id": "C94", "title": "The Poseidon example contract computes the Poseidon2 sponge of its inputs over the BN254 scalar field", "statement": "For two inputs the contract returns the second element of the Poseidon2 permutation applied to (0, a, b), the inputs reduced modulo the field order, as the canonical representative below the order; the answer depends on each input only modulo the field order, so inputs that differ by the order collide.", "quantifier": "every pair of 256-bit inputs", "why_tests_cant": "All 2^512 inputs; tests compare one vector.", "anchors": ["examples/poseidon/src/lib.rs: PoseidonExample::hash"]}
{"id": "C95", "title": "Failed calls revert with the standard error data, which identify the error and its arguments", "statement": "The bytes a failed call reverts with are the first four bytes of Keccak-256 of the standard (ERC-6093 / Solidity library) error signature followed by one 32-byte word per argument. No two errors of the library, with any arguments, revert with the same bytes, and none can be taken for Error(string) or Panic(uint256), so a caller that decodes the data learns which error it was; an ERC-20 transfer reverts with ERC20InsufficientBalance(a,b,n) exactly when a is the caller, b its balance, n the amount and b < n. The exceptions are exact: data of a receiver or of an underlying contract are passed on byte for byte, so a receiver can forge any error.", "quantifier": "every error variant of every contract, every argument, every failing call", "why_tests_cant": "All argument values and all pairs of errors; tests compare Rust enum variants, never the encoded bytes.", "anchors": ["contracts/src/token/erc20/mod.rs: Error, MethodError::encode", "contracts/src/token/erc721/mod.rs: Error, _check_on_erc721_received", "contracts/src/token/erc1155/mod.rs: Error", "contracts/src/token/erc20/utils/safe_erc20.rs: Error", "contracts/src/token/erc721/extensions/wrapper.rs: Error", "examples/merkle-proofs/src/lib.rs: VerifierError"]}
{"id": "C96", "title": "The raw logs are those of the standards and tell the state", "statement": "Every event of the library becomes a log whose first topic is the hash of its Solidity signature, whose other topics are its indexed parameters as words and whose data are the ABI encoding of the others; the first topics are the published ones. Two different events of the library never have the same log, even across contracts (an ERC-20 Transfer and an ERC-721 Transfer differ in the number of topics). Hence someone who sees only the raw logs of a contract can compute every ERC-20 balance and the supply, every ERC-721 owner and every role member, and the raw logs of an ERC-1155 token determine all its balances.", "quantifier": "all events with all arguments, all lists and strings whose length fits 256 bits, all histories of calls", "why_tests_cant": "tests compare logs of a few events with logs computed by the same encoder; that different events never collide and that the logs alone carry the state is a statement about all arguments and histories", "anchors": ["contracts/src/token/erc20/mod.rs: Transfer, Approval", "contracts/src/token/erc721/mod.rs: Transfer, Approval, ApprovalForAll", "contracts/src/token/erc1155/mod.rs: TransferSingle, TransferBatch, ApprovalForAll", "contracts/src/token/erc1155/extensions/metadata_uri.rs: URI", "contracts/src/access/control.rs: RoleGranted, RoleRevoked, RoleAdminChanged", "contracts/src/token/erc20/extensions/erc4626.rs: Deposit, Withdraw"]}
{"id": "C97", "title": "Calls reach the standard functions and no unguarded twin", "statement": "For every example contract and every 4-byte selector, the function that answers is exactly the one the contract's ABI lists: its own function if it has one, else that of the first inherited type that has one. No two functions of a contract share a selector, and every function of ERC-20, ERC-721, ERC-1155 and their extensions, ERC-165, ERC-2612, ERC-3156, ERC-4626 and ERC-173 that the example implements is answered at its published selector. In the pausable examples no selector reaches a token-moving function of the inherited token past the pause check. The ERC-721 wrapper example does not answer the selector of onERC721Received, so every safe transfer of a token to it fails.", "quantifier": "all 2^32 selectors and all 21 example contracts", "why_tests_cant": "a test calls the functions it knows; that no other selector reaches an unguarded function, and that no two selectors collide, is a statement about all selectors", "anchors": ["examples/*/src/lib.rs: #[public], #[inherit]", "contracts/src/token/*/mod.rs: #[public] impl", "examples/erc721-wrapper/src/lib.rs: on_erc721_received", "examples/erc20/src/lib.rs: transfer, transfer_from"]}
{"id": "C98", "title": "Different storage cells never share a byte", "statement": "In every example contract, two different storage cells - fields, packed fields, map entries, vector elements, string bytes, at any depth - have no byte of storage in common, unless hash values on the way to them coincide: two different hashed byte strings with hashes closer together than the structs are long, or one whose hash is that small. Hence reading a cell after writing it gives the value written, and writing a cell leaves all others as they were.", "quantifier": "all storage structs built from scalars, maps, vectors, strings and structs whose values have 1 to 32 bytes (so all 21 examples), all pairs of paths, all keys and indices, all hash functions, all contents of the storage", "why_tests_cant": "a test looks at a few keys; that no keys of any two maps meet is a statement about all pairs of cells", "anchors": ["examples/*/src/lib.rs: #[storage] structs", "contracts/src/**: #[storage] structs", "contracts/src/token/erc20/extensions/erc4626.rs: Erc4626", "contracts/src/utils/structs/checkpoints/mod.rs: Checkpoint, Trace"]}
{"id": "C99", "title": "The Rust contract finds what its Solidity constructor wrote", "statement": "Every example is deployed by running a Solidity constructor and then placing the Rust code on the same storage. Each variable of the Solidity contract is at the same slot and offset as the Rust field of the same meaning, so after deployment the Rust contract reads exactly the name, symbol, cap, owner, asset, decimals, schedule and roles that were given, with everything else zero; a zero cap or a zero owner is refused. The constructor of the consecutive ERC-721 example accepts exactly the batches the Rust function accepts that also end below 2^96 - 1, and leaves the same storage.", "quantifier": "all constructor arguments (names and symbols of any length), all hash functions, all 16 example constructors", "why_tests_cant": "tests deploy with one set of arguments; agreement of the two layouts for every argument, in particular long strings and packed fields, is a statement about all arguments", "anchors": ["examples/*/src/constructor.sol", "examples/*/src/lib.rs: #[storage] structs", "contracts/src/token/erc721/extensions/consecutive.rs: _mint_consecutive", "contracts/src/utils/metadata.rs: Metadata"]}
{"id": "C100", "title": "Code on raw storage behaves as on independent variables", "statement": "Code that reads and writes storage cells, fails and emits events has on the words of the contract's storage the same outcome as on a table with one independent entry for each cell, and leaves all other cells as they were, as long as no hash values on the way to its cells coincide. In particular the ERC-20 token, placed anywhere in a contract, run on raw storage over any history fails with the same errors, emits the same events and shows the same balances, allowances and supply as the token with independent balances, and the words that hold the balances add up to the word that holds the supply.", "quantifier": "all programs of reads, writes, events and failures, all storage structs, all cell sets, all histories of calls, all hash functions without a coincidence among the cells used", "why_tests_cant": "it is the statement that lets one reason about maps instead of words; it must hold for every history and every set of accounts", "anchors": ["contracts/src/token/erc20/mod.rs: Erc20, _update, _approve, _spend_allowance", "examples/erc20/src/lib.rs: Erc20Example"]}
{"id": "C101", "title": "Messages to other contracts are the standard calls, byte for byte", "statement": "Every call the library makes to a token, receiver or borrower is the published selector of the standard followed by the ABI encoding of the arguments; the callee reads back exactly the arguments meant, and different calls are different bytes. A safe ERC-721 or ERC-1155 transfer or a flash loan to a contract goes through only if the contract, sent exactly these bytes, returned data beginning with the magic word, and a contract that returns the magic word is accepted; a receiver's revert data are passed on. SafeERC20 talking bytes to the library's own token behaves as calling the token's functions, and balanceOf asked through bytes is the balance.", "quantifier": "all arguments (byte strings and lists of any length), all programs on bytes at the other end, all decoders that read encodings back", "why_tests_cant": "tests use mocks generated from the same bindings; offsets, padding and acceptance have to be right for every length and every possible reply", "anchors": ["contracts/src/token/erc20/utils/safe_erc20.rs: SafeErc20, call_optional_return", "contracts/src/token/erc721/receiver.rs: IERC721Receiver", "contracts/src/token/erc721/mod.rs: _check_on_erc721_received", "contracts/src/token/erc1155/mod.rs: _check_on_erc1155_received", "contracts/src/token/erc1155/receiver.rs", "contracts/src/token/erc20/extensions/flash_mint.rs: IERC3156FlashBorrower", "contracts/src/token/erc20/interface.rs"]}
{"id": "C102", "title": "The deployed token as seen by raw transactions", "statement": "For the capped, pausable ERC-20 example as a contract on bytes: the calldata of each operation do exactly what the operation does for the sender and return or revert with the standard's bytes; every other input, and every call with value, reverts or changes nothing; after any list of raw transactions the answers of balanceOf add up to the answer of totalSupply, which is at most the cap chosen at deployment; a transaction lowers what balanceOf(a) answers only if a sent it or allowance(a, sender) covered the difference; while paused, transfers, mints and burns revert with EnforcedPause().", "quantifier": "all byte strings as calldata, all values, all senders, all lists of transactions, all decoders that read encodings back", "why_tests_cant": "tests send calldata made by the generated bindings; that no other bytes whatever have an effect quantifies over all inputs", "anchors": ["examples/erc20/src/lib.rs: Erc20Example", "contracts/src/token/erc20/mod.rs: Erc20", "contracts/src/token/erc20/extensions/capped.rs", "contracts/src/utils/pausable.rs"]}
{"id": "C103", "title": "The other example contracts as seen by raw transactions", "statement": "For the ERC-721 (enumerable, metadata, consecutive), ERC-1155 (plain, supply, metadata URI), ownable, two-step ownable, access-control, permit and basic-token example contracts, as contracts on bytes: the message of each operation, as the ABI defines it, has exactly the effect and the reply of the operation, or reverts with exactly the bytes of its error; any other input, and any call with value, reverts or changes nothing; so any list of raw transactions is a list of operations by their senders, and every list of operations can be sent. Told by their answers only: ownerOf is one owner per token and balanceOf counts; an answer of ownerOf changes only through the owner, the approved account or an operator; an ERC-1155 balance falls only through the holder or an operator; balances add up to the supply; tokenURI changes only through setTokenURI of that id; owner() changes only through the owner (or, in two steps, the pending owner), and a role only through its admin or by renouncing; an allowance rises only by the holder or a signature over the current nonce; a paused contract refuses every move. Where an example opens a function to everybody (burning in the consecutive and supply examples, setting URIs) that is stated too.", "quantifier": "all byte strings as calldata, all values, senders, block times and programs of other accounts, all histories, all decoders that read encodings back", "why_tests_cant": "tests send calldata made by the generated bindings; that no other bytes have an effect, and that an answer changes only in the ways listed, quantify over all inputs and histories", "anchors": ["examples/erc721/src/lib.rs", "examples/erc721-metadata/src/lib.rs", "examples/erc721-consecutive/src/lib.rs", "examples/erc1155/src/lib.rs", "examples/erc1155-supply/src/lib.rs", "examples/erc1155-metadata-uri/src/lib.rs", "examples/ownable/src/lib.rs", "examples/ownable-two-step/src/lib.rs", "examples/access-control/src/lib.rs", "examples/erc20-permit/src/lib.rs", "examples/basic/token/src/lib.rs"]}
{"id": "C104", "title": "The capped, pausable ERC-20 example as deployed: raw transactions on raw storage words", "statement": "Deploy examples/erc20 with a name, a symbol and a cap (it succeeds exactly if the cap is not 0), then send it any list of raw transactions. Every transaction is answered with the same bytes, and the same events are emitted, as by a token whose balances and allowances are independent variables. So, told only by what the deployed contract answers: the balances of the participating accounts add up to totalSupply, which is at most the cap given at deployment; an account's balance falls only in a transaction it sent or through an allowance it gave, of at least that much; name and symbol answer the strings given at deployment, whatever their length; when paused, every transfer, mint and burn reverts with EnforcedPause().", "quantifier": "all names, symbols, caps, lists of raw transactions (any bytes, value, sender), all sets of accounts whose storage slots' hash values do not coincide, all decoders that read encodings back, all readers of UTF-8", "why_tests_cant": "a test sees the slots it happens to touch; that no history of calls makes two values share or damage a storage word is a statement about all of them", "anchors": ["examples/erc20/src/lib.rs", "examples/erc20/src/constructor.sol", "contracts/src/token/erc20/mod.rs", "contracts/src/token/erc20/extensions/capped.rs", "contracts/src/token/erc20/extensions/metadata.rs", "contracts/src/utils/pausable.rs", "contracts/src/utils/metadata.rs"]}
{"id": "C105", "title": "The vault on bytes, over any asset", "statement": "examples/erc4626 as a contract on bytes, with an arbitrary program at the address of the asset. Every call has exactly the effect of its function on the state, and nothing else has an effect. Every conversion and preview answers the number EIP-4626 defines, rounded in the vault's favour, from the asset's answer to balanceOf; if the asset gives no number (no code, revert, short or malformed answer), or the numbers do not fit, they revert with the documented data. deposit, mint, withdraw and redeem succeed exactly if the asset takes the one message they send and the stated conditions hold, and their effect on shares, allowances and events is exact. Whatever the asset does: share balances add up to the supply; a share balance falls only in a call by its holder or through an allowance; shares are never created without a transferFrom the asset accepted, of assets worth at least the shares; assets are never sent without destroying shares worth at least as much. With the token of examples/basic/token as the asset, the assets per share, as the two contracts answer, never fall.", "quantifier": "all programs at the asset's address (answers may differ between questions of one call), all states of the chain, all histories of raw transactions to the vault and arbitrary changes elsewhere, all raw inputs, values, senders, all decoders that read encodings back", "why_tests_cant": "tests use a few well-behaved assets; that no program the asset could be, in no history, makes the vault create unpaid shares or hand out unpaid assets is a statement about all programs", "anchors": ["examples/erc4626/src/lib.rs", "contracts/src/token/erc20/extensions/erc4626.rs", "contracts/src/token/erc20/utils/safe_erc20.rs", "contracts/src/token/erc20/mod.rs", "contracts/src/token/erc20/interface.rs"]}
{"id": "C106", "title": "The ERC-20 wrapper on bytes, over any token", "statement": "examples/erc20-wrapper as a contract on bytes, with an arbitrary program at the address of the underlying token. Every call has exactly the effect of its function on the state, and nothing else has an effect. depositFor and withdrawTo succeed exactly if the underlying token takes the one message they send and the stated conditions hold, with exact effect on tokens and events; the supply changes, or a message that moves the underlying token is sent, only one for one. The balances add up to the supply and a balance falls only in a call by its holder or through an allowance. The internal recovery creates exactly the difference between the reported balance and the supply. With the token of examples/basic/token as the underlying token, what that token answers for the wrapper's balance is never less than what the wrapper answers for its supply.", "quantifier": "all programs at the underlying address, all states of the chain, all histories of raw transactions to the wrapper and arbitrary changes elsewhere, all raw inputs, values, senders, all decoders that read encodings back", "why_tests_cant": "tests use well-behaved tokens and a handful of calls; the claim is about every program and every history of raw transactions", "anchors": ["examples/erc20-wrapper/src/lib.rs", "contracts/src/token/erc20/extensions/wrapper.rs", "contracts/src/token/erc20/utils/safe_erc20.rs", "contracts/src/token/erc20/mod.rs"]}
{"id": "C107", "title": "The example contracts without storage, on bytes", "statement": "examples/ecdsa, examples/merkle-proofs and examples/poseidon as contracts on bytes. recover answers or reverts with exactly the stated bytes for every hash and signature and every behaviour of the precompile, and whatever is sent, data comes back only for a call of recover without value with s in the lower half order, v not 0 or 1, and it is the nonzero address the precompile answered for exactly these arguments. verify answers whether the leaf merged with the proof gives the root; verifyMultiProof ends as its decision table says, each error with its selector; an allow-list entry is answered with true for its sibling path, and only members are, up to an explicit Keccak-256 collision. hash answers every pair of words with the Poseidon2 digest over the BN254 scalar field. No other input gets data back.", "quantifier": "all raw inputs and values, all arguments of any length that fit in call data, all precompile behaviours, all decoders that read encodings back", "why_tests_cant": "tests send a handful of well-formed calls to one chain; the claim is about every byte string and every precompile", "anchors": ["examples/ecdsa/src/lib.rs", "examples/merkle-proofs/src/lib.rs", "examples/poseidon/src/lib.rs", "contracts/src/utils/cryptography/ecdsa.rs", "lib/crypto/src/merkle.rs"]}
{"id": "C108", "title": "The safe ERC-20 example on bytes, over any programs as tokens", "statement": "examples/safe-erc20 as a contract on bytes on a chain where the tokens are arbitrary programs. safeTransfer and safeTransferFrom succeed exactly if the token has code and takes the message transfer or transferFrom from the contract (replies with nothing or true), and nothing else happens; otherwise they revert with SafeErc20FailedOperation(token). forceApprove succeeds exactly if the allowance can be set at once or, if declined, by way of zero. safeIncreaseAllowance and safeDecreaseAllowance do so with the sum or difference of the allowance the token tells; an overflowing sum reverts without data, a decrease of too much with SafeErc20FailedDecreaseAllowance(spender, current, requested). No other input has an effect. Since the library says to inherit SafeErc20, these functions are public: over the library's own token, after any transactions, anybody can transfer everything the contract holds to themselves, spend every allowance given to the contract, and set the contract's allowances (finding).", "quantifier": "all programs as tokens, all raw inputs and values, all senders, all arguments, all chain states; for the finding all histories of raw transactions to the token", "why_tests_cant": "tests use a few mock tokens; the claim is about every reply a token can give and every byte string sent", "anchors": ["examples/safe-erc20/src/lib.rs", "contracts/src/token/erc20/utils/safe_erc20.rs"]}
{"id": "C109", "title": "The vesting wallet on bytes, over any programs as tokens and as owner", "statement": "examples/vesting-wallet as a contract on bytes on a chain where the tokens, the owner and everybody else are arbitrary programs. Ether is taken without data from everyone, and with no function call. release() and release(token), by anyone, succeed exactly if the numbers fit in 256 bits and the owner (or the token) takes what the schedule allows of holdings plus released and has not been released; then exactly this much more counts as released and an event says so; otherwise they revert with the owner's data, SafeErc20FailedOperation(token), InvalidToken(token) or nothing. vestedAmount and releasable answer the same numbers. The owner changes only in transactions of the owner; start and duration never change; no other input has an effect. After any history in which nobody else takes the wallet's assets, what has been released is at most what the schedule allows and is the sum of the events. With the library's own token and plain ether this holds with no hypothesis about others. After renounceOwnership anybody can make the wallet pay its ether to the zero address (finding).", "quantifier": "all programs as tokens and owners, all raw inputs and values, all senders and times, all states, all histories of transactions and outside changes", "why_tests_cant": "tests use one mock token and a few times; the claim is about every program, history and byte string", "anchors": ["examples/vesting-wallet/src/lib.rs", "contracts/src/finance/vesting_wallet.rs: VestingWallet::release_eth, release_erc20, releasable_eth, releasable_erc20, vested_amount_eth, vested_amount_erc20"]}
{"id": "C110", "title": "The flash-minting token on bytes, over any programs as borrowers, which may call it again at any depth", "statement": "examples/erc20-flash-mint as a contract on bytes (compiled with re-entrancy) on a chain where borrowers and everybody else are arbitrary programs that may send any bytes to the token, in anybody's name, while a loan is open, take loans inside loans, and catch reverts. A message of each function has exactly the effect, reply or error bytes of the function, and nothing else changes the token. A flash loan succeeds exactly if the token is this contract, the borrower has code and is not the zero address, there is room for the loan, and the borrower returns from onFlashLoan(sender, token, value, fee, data) with the word the standard prescribes, with loan and fee in their account and allowed to the token contract; then exactly these are taken, the loan destroyed and the fee paid or destroyed. Refused loans revert with the bytes of the standard's errors. After any history the answers to balanceOf add up to the answer to totalSupply; if nobody calls mint, in a transaction or inside a loan, the supply is what it was, less the fee for each of some loans if nobody receives fees. An account that has allowed nothing, and in whose name nobody calls, loses nothing, even if loans are taken for it; one that has allowed limited amounts loses at most what is used of them. A careful borrower is always served. (Anybody can take a loan for a borrower with a standing allowance that answers everybody, and each costs the borrower the fee.)", "quantifier": "every program as borrower and every other program (trees that may depend on everything they are told), every depth of nesting, every history of transactions with raw bytes, every decoder, sender, fee, fee receiver and amount", "why_tests_cant": "borrowers are arbitrary programs that may re-enter the token at any depth with any bytes; tests have a few well-behaved mock borrowers", "anchors": ["examples/erc20-flash-mint/src/lib.rs::Erc20FlashMintExample", "contracts/src/token/erc20/extensions/flash_mint.rs::flash_loan", "contracts/src/token/erc20/extensions/flash_mint.rs::max_flash_loan", "contracts/src/token/erc20/extensions/flash_mint.rs::flash_fee"]}
{"id": "C111", "title": "The ERC-721 wrapper on bytes, over any program as underlying token, and over the token of examples/erc721-metadata", "statement": "examples/erc721-wrapper as a contract on bytes, with any program as underlying token and any programs as receivers. A message of each function has exactly the effect, reply or error bytes of the function, and nothing else changes the wrapped token. depositFor succeeds exactly if, for one id after the other, the underlying token obeys transferFrom(sender, wrapper, id), no such wrapped token exists, it is created for the account and the account welcomes it; withdrawTo exactly if the sender may move each wrapped token, it is destroyed, and the underlying token obeys safeTransferFrom(wrapper, account, id). A wrapped token comes into being only in such a deposit, or when the underlying token itself calls the hook; it disappears only in such a withdrawal; its owner changes only by a call of the owner, of who is approved for it, or of an operator. Refusals of others are passed on byte for byte. Over the token of examples/erc721-metadata, on any chain and after any history: while the wrapper says that somebody owns an id, the token says that the wrapper owns it and that nobody else may move it; whoever may move wrapped tokens can unwrap them for any account without code; and a deposit succeeds exactly for distinct ids that the sender owns and for which the wrapper is approved. (While there is no code at the address of the underlying token, anybody can wrap any id for nothing.)", "quantifier": "every world of programs, every history of transactions with raw bytes and of things that happen elsewhere, every decoder, sender, account and list of ids", "why_tests_cant": "the underlying token and receivers are arbitrary programs and histories are unbounded; tests use one mock token", "anchors": ["examples/erc721-wrapper/src/lib.rs::Erc721WrapperExample", "contracts/src/token/erc721/extensions/wrapper.rs::deposit_for", "contracts/src/token/erc721/extensions/wrapper.rs::withdraw_to", "contracts/src/token/erc721/extensions/wrapper.rs::on_erc721_received", "examples/erc721-metadata/src/lib.rs::Erc721MetadataExample"]}
{"id": "C112", "title": "Elements of the scalar field act on the points of a curve", "statement": "Multiplying a point by an element of the scalar field adds the point to itself as often as the number the element stands for. For every point of the subgroup whose order is the order of the scalar field, the results for s + t, s - t, s * t, -s, 1 and 0, computed with the library's own arithmetic of scalars, compare equal to the corresponding combinations of the results for s and t; multiplying by the inverse of a scalar undoes multiplying by it; with a prime order different scalars give different points, and integer multiples repeat with exactly that period. Outside the subgroup the laws fail. On the curve configured in the tests (secp256k1) both moduli are prime, the generator has exactly the order of the scalar field and the curve has exactly that many points, so the laws hold for every point that passes is_on_curve although the subgroup is never checked there.", "quantifier": "every curve over every field of characteristic other than two, every point, every scalar and every integer", "why_tests_cant": "the tests multiply one generator by 24 small integers and no scalar-field element; nothing tests that scalar arithmetic and point arithmetic agree", "anchors": ["lib/crypto/src/curve/sw/affine.rs::Mul<ScalarField>", "lib/crypto/src/curve/sw/projective.rs::MulAssign<ScalarField>", "lib/crypto/src/curve/sw/mod.rs::is_in_correct_subgroup_assuming_on_curve", "lib/crypto/src/field/fp.rs::into_bigint"]}
{"id": "C113", "title": "An ERC-721 token on raw storage words behaves as if owners, balances and approvals were independent", "statement": "All state of an ERC-721 token lives in 256-bit storage words at hashed positions. As long as the hash values met on the way to the cells of the accounts and tokens that a history names do not coincide, every mint, burn, transfer (plain and with receiver callback), approval and operator approval on fresh storage succeeds or fails, with the same error and the same events, exactly as for a token whose owners, balances, approvals and operators are independent maps, wherever the token struct sits in the contract's storage. So after every history the balance word of an account counts the tokens with this account in their owner word, the owner word of an existing token changes by a user's call only if the sender's address is in the owner or approval word or the operator cell is set, and the owner words of tokens that were never named stay zero.", "quantifier": "every hash function, every storage struct with an ERC-721 token in it, every set of accounts and tokens, every history of transactions over them", "why_tests_cant": "unit tests run on a simulated storage with a few accounts and tokens; that no write ever disturbs another owner, balance or approval is a statement about all histories and all positions", "anchors": ["contracts/src/token/erc721/mod.rs::Erc721", "contracts/src/token/erc721/mod.rs::_update", "contracts/src/token/erc721/mod.rs::_approve", "examples/erc721/src/lib.rs"]}
{"id": "C114", "title": "The enumerable, pausable ERC-721 example as deployed: calldata in, storage words inside, the same answers", "statement": "The ERC-721 example with enumeration and pausing keeps all its state in 256-bit storage words: owners, balances, approvals, the per-owner lists, the list of all tokens with its length, the position indices and the pause flag. Its constructor leaves all words zero. After deployment and any list of raw transactions (sender, value, calldata), as long as the hash values met on the way to the cells of the accounts and numbers that take part do not coincide, every further transaction is answered with the same bytes, or reverts with the same bytes, and leaves the same events, as the contract with independent mappings and lists. So, from words alone: ownerOf, balanceOf and totalSupply agree with each other, tokenByIndex lists every existing token exactly once, the answer of ownerOf for an existing token changes only by a transaction of its owner, its approved account or an operator, and while paused no mint, burn or transfer goes through. The words of the vector of all tokens, of the owned tokens and of both indices are where the storage layout puts them and hold what the contract with lists has.", "quantifier": "every hash function, every set of accounts and numbers, every list of raw transactions over them, every calldata, every behaviour of other contracts", "why_tests_cant": "the unit tests run on a simulated storage and call functions directly; that the swap-and-pop updates of four collections never touch a word of another cell, for all histories and all calldata, is a statement about all of them", "anchors": ["examples/erc721/src/lib.rs", "examples/erc721/src/constructor.sol", "contracts/src/token/erc721/extensions/enumerable.rs", "contracts/src/token/erc721/mod.rs", "contracts/src/utils/pausable.rs"]}
{"id": "C115", "title": "The ownable, two-step ownable and role-controlled token examples as deployed: calldata in, storage words inside, the same answers", "statement": "The three example contracts that guard a token transfer by an owner or a role keep all their state in 256-bit storage words. The ownable constructors refuse the zero address and no other; the role-controlled one always succeeds. The deployed contract answers at first that the owner is the one it was deployed for (and that no owner is pending), or that the deployer and nobody else has the default admin role, which administers every role. After any list of raw transactions (sender, value, calldata), as long as the hash values met on the way to the cells of the accounts and roles that take part do not coincide, every further transaction is answered with the same bytes, or reverts with the same bytes, and leaves the same events, as the contract with independent mappings. So, from words alone: the answer to owner changes only through transferOwnership or renounceOwnership of the owner (two-step: through acceptOwnership of the pending owner or renounceOwnership of the owner); the answer to hasRole changes only by a holder of the admin role or by the account renouncing its own role; and the guarded transfer of anybody else reverts with exactly the bytes of the documented error.", "quantifier": "every owner or deployer, every list of transactions with any sender, value and bytes as calldata about the accounts and roles of a finite set whose cells have distinct hash values, every further transaction or question", "why_tests_cant": "Storage of a token, an owner and two levels of role mappings shares one 2^256-word space with packed fields; that no sequence of messages makes one field show through another is a statement about all histories.", "anchors": ["examples/ownable/src/lib.rs", "examples/ownable-two-step/src/lib.rs", "examples/access-control/src/lib.rs", "examples/ownable/src/constructor.sol", "examples/ownable-two-step/src/constructor.sol", "examples/access-control/src/constructor.sol", "contracts/src/access/ownable.rs: Ownable", "contracts/src/access/ownable_two_step.rs: Ownable2Step", "contracts/src/access/control.rs: AccessControl"]}
{"id": "C116", "title": "The ERC-1155 and ERC-1155 supply examples as deployed: calldata in, storage words inside, the same answers", "statement": "The two multi-token example contracts keep all their state (balances, operators, the pause flag, the supply of each token and of all) in 256-bit storage words. The constructor of the pausable one succeeds, and the deployed contract answers at first that nobody has anything, that nobody is an operator and that it is not paused. After any list of raw transactions (sender, the code of the other accounts, value, calldata), as long as the hash values met on the way to the cells of the accounts and tokens that take part do not coincide, every further transaction, single or batch, is answered with the same bytes, or reverts with the same bytes, and leaves the same events, as the contract with independent mappings. So, from words alone: the answer to balanceOf falls only by a transaction of the holder or of an account that isApprovedForAll had named their operator, and only while paused had answered no; while paused answers yes, every mint, burn and transfer reverts with exactly the bytes of EnforcedPause(); in the supply example totalSupply(id) answers the sum of the balances of the accounts that take part and exists(id) whether one of them has any; and there anybody at all can burn anybody's tokens, which the example leaves open.", "quantifier": "every list of transactions with any sender, any code at the accounts that receive tokens, any value and any bytes as calldata about the accounts and tokens that take part, any finite sets of accounts and tokens, any hash function whose values for their cells do not coincide", "why_tests_cant": "the unit tests call the Rust methods on a mocked storage with a handful of accounts and tokens; that the words behind nested mappings under every sequence of single and batch calls never interfere, and that the dispatch, the acceptance calls and the error bytes agree with the abstract contract, ranges over all histories and all calldata", "anchors": ["examples/erc1155/src/lib.rs", "examples/erc1155-supply/src/lib.rs", "contracts/src/token/erc1155/mod.rs: Erc1155", "contracts/src/token/erc1155/extensions/supply.rs: Erc1155Supply", "contracts/src/token/erc1155/extensions/burnable.rs: IErc1155Burnable", "contracts/src/utils/pausable.rs: Pausable"]}
{"id": "C117", "title": "The ERC-20 permit example as deployed: calldata in, storage words inside, the same answers", "statement": "The permit example keeps balances, allowances, the supply and the nonces in 256-bit storage words. Deployment always succeeds, and the deployed contract answers at first that nobody has anything, that nobody may spend anything and that no nonce is used; DOMAIN_SEPARATOR always answers the EIP-712 separator. After any list of raw transactions (sender, time, value, calldata), as long as the hash values met on the way to the cells of the accounts that take part do not coincide, every further transaction is answered with the same bytes, or reverts with the same bytes, and leaves the same events, as the contract with independent mappings. So, from words alone: a permit, sent by anybody, is accepted exactly if it is in time, the nonce is not the last one, the spender is not zero and the signature recovers the owner from the EIP-712 digest with the nonce that nonces answered; then allowance answers the value and nonces one more; the answers to nonces never fall; and the answer to allowance rises only by a transaction of the owner or by such a permit.", "quantifier": "every signature-recovery precompile and EIP-712 domain, every list of transactions with any sender, time and calldata, every set of accounts whose storage cells have hash values that do not coincide", "why_tests_cant": "A test runs a few permits against a mocked storage; that nonces, allowances and balances stay apart in one flat word space, after every history and for every calldata, cannot be enumerated.", "anchors": ["examples/erc20-permit/src/lib.rs:Erc20PermitExample", "contracts/src/token/erc20/extensions/permit.rs:Erc20Permit::permit", "contracts/src/utils/nonces.rs:Nonces::use_nonce", "contracts/src/token/erc20/mod.rs:Erc20::_approve"]}
{"id": "C118", "title": "The ERC-721 and ERC-1155 metadata examples as deployed: texts of any length in storage words, the same answers", "statement": "The metadata examples keep names, symbols, base URIs and token URIs, texts of any length, in 256-bit storage words beside the token's mappings. Deployment succeeds. After any list of raw transactions (sender, value, calldata), as long as the hash values met on the way to the cells of the accounts, tokens and texts that take part do not coincide, every further transaction is answered with the same bytes, or reverts with the same bytes, and leaves the same events, as the contract with independent mappings and texts. So, from words alone: name and symbol always answer what the constructor was given; tokenURI is refused exactly if ownerOf is, and begins with the constructor's base URI; anybody can set the URI of any token, to a text of any length, and what was there before leaves no trace in the answers or in the words that hold texts; only such a call changes the answer to tokenURI (for ERC-1155 also setBaseURI); a token leaves its owner only by the owner, the approved account or an operator; the ERC-1155 example answers the constructor's URI for tokens without one of their own, and nobody ever holds any of its tokens.", "quantifier": "every constructor text, every list of transactions with any sender and calldata, every length of texts, every set of accounts and tokens whose storage cells have hash values that do not coincide", "why_tests_cant": "A test writes a few short texts against a mocked storage; that long and short texts overwrite each other without a rest and without touching other cells of the flat word space, after every history and for every calldata, cannot be enumerated.", "anchors": ["examples/erc721-metadata/src/lib.rs:Erc721MetadataExample", "examples/erc1155-metadata-uri/src/lib.rs:Erc1155MetadataUriExample", "contracts/src/token/erc721/extensions/uri_storage.rs:Erc721UriStorage::token_uri", "contracts/src/token/erc721/extensions/metadata.rs:Erc721Metadata", "contracts/src/token/erc1155/extensions/uri_storage.rs:Erc1155UriStorage::uri", "contracts/src/token/erc1155/extensions/metadata_uri.rs:Erc1155MetadataUri"]}
{"id": "C119", "title": "The vesting wallet as deployed: calldata in, storage words and any programs around it, releases on schedule", "statement": "The vesting wallet example keeps its owner, what was released and its schedule in 256-bit storage words, with start and duration packed in one word. Deployment is refused exactly for the zero beneficiary. After any transactions (sender, value, calldata, block time) and anything that others do on the chain, as long as the hash values of the tokens that it is asked about do not coincide, it answers every transaction with the same bytes, leaves the rest of the chain the same and logs the same events as the wallet with independent mappings. So, from words alone: start, duration and end never change; the answer to owner changes only by transferOwnership or renounceOwnership from the owner; while nobody else takes its assets and the clock does not go back, the amount of ether (of a token) answered as released is at most what the schedule allows of all that was received, and is the sum of the events; a call of release by anybody pays the owner exactly what the schedule allows at this time and was not released, and afterwards the amount answered is what the schedule allows, or it reverts (with the data of the refused payment, with the error about the token, with nothing if the numbers do not fit); an address that reports no balance is refused as a token.", "quantifier": "every beneficiary, start and duration, every program as owner and as tokens, every list of transactions with any sender, value, time and calldata and any changes by others, every set of tokens whose storage cells have hash values that do not coincide", "why_tests_cant": "A test calls the wallet with a few tokens and times against mocked storage; that the packed schedule, the running totals and the mapping of tokens never disturb each other in the flat word space, after every history and with every program around, cannot be enumerated.", "anchors": ["examples/vesting-wallet/src/lib.rs:VestingWalletExample", "contracts/src/finance/vesting_wallet.rs:VestingWallet", "contracts/src/access/ownable.rs:Ownable"]}
{"id": "C120", "title": "The ERC-20 wrapper as deployed: calldata in, storage words and any program as the wrapped token, one for one", "statement": "The ERC-20 wrapper example keeps its token, the address of the wrapped token and its decimals in 256-bit storage words. Deployment is refused exactly if the wrapped token is the wrapper itself. After any transactions (sender, value, calldata) and anything that others do on the chain, as long as the hash values of the storage cells of the accounts that take part do not coincide, it answers every transaction with the same bytes, leaves the rest of the chain the same and logs the same events as the wrapper with independent mappings. So, from words alone: underlying and decimals never change; the balances answered add up to the total supply answered; a balance falls only by a transaction of the holder or of somebody who was allowed at least the difference; depositFor goes through exactly under its conditions, among them that the wrapped token takes the transferFrom, and creates exactly that amount, and withdrawTo likewise destroys it; every change of the total supply is matched by exactly such a transfer of the wrapped token; over the basic token example the wrapped balance of the wrapper always covers the total supply.", "quantifier": "every wrapped token address and decimals, every program as the wrapped token and around it, every list of transactions with any sender, value and calldata and any changes by others, every set of accounts whose storage cells have hash values that do not coincide", "why_tests_cant": "A test calls the wrapper with a few accounts against mocked storage and one honest token; that the packed cell of token and decimals and the mappings of balances and allowances never disturb each other in the flat word space, after every history and with every program as the wrapped token, cannot be enumerated.", "anchors": ["examples/erc20-wrapper/src/lib.rs:Erc20WrapperExample", "contracts/src/token/erc20/extensions/wrapper.rs:Erc20Wrapper", "contracts/src/token/erc20/mod.rs:Erc20", "contracts/src/token/erc20/utils/safe_erc20.rs:SafeErc20"]}
{"id": "C121", "title": "The ERC-4626 vault as deployed: calldata in, storage words and any program as the asset, shares and assets at the rate", "statement": "The ERC-4626 vault example keeps its shares, the address of the asset, decimals, offset, name and symbol in 256-bit storage words. Deployment is never refused. After any transactions (sender, value, calldata) and anything that others do on the chain, as long as the hash values of the storage cells of the accounts that take part do not coincide, it answers every transaction with the same bytes, leaves the rest of the chain the same and logs the same events as the vault with independent mappings. So, from words alone: asset, name, symbol and decimals never change; the balances answered add up to the total supply answered; a balance falls only by a transaction of the holder or of somebody who was allowed at least the difference; previews and conversions answer the rate (assets + 1) / (supply + 10 ^ offset) with the rounding of the standard; deposit, mint, withdraw and redeem go through exactly under their conditions and have exactly their effects; every rise of the supply is paid by the sender at this rate or better for the vault, every payment to the outside is covered by shares destroyed; an asset that gives no number makes every function that needs it revert with InvalidAsset; over the basic token example the rate never falls.", "quantifier": "every asset address and offset, every name and symbol, every program as the asset and around it, every list of transactions with any sender, value and calldata and any changes by others, every set of accounts whose storage cells have hash values that do not coincide", "why_tests_cant": "A test calls the vault with a few accounts against mocked storage and one honest asset; that the packed cell of asset, decimals and offset, the texts and the mappings of balances and allowances never disturb each other in the flat word space, after every history and with every program as the asset, cannot be enumerated.", "anchors": ["examples/erc4626/src/lib.rs:Erc4626Example", "examples/erc4626/src/constructor.sol:Erc4626Example", "contracts/src/token/erc20/extensions/erc4626.rs:Erc4626", "contracts/src/token/erc20/mod.rs:Erc20", "contracts/src/token/erc20/extensions/metadata.rs:Erc20Metadata", "contracts/src/token/erc20/utils/safe_erc20.rs:SafeErc20"]}
{"id": "C122", "title": "The token that lends as deployed: calldata in, storage words, borrowers that call it again", "statement": "The ERC-20 flash-mint example keeps balances, allowances, supply, fee and fee receiver in 256-bit storage words. Deployment is never refused. After any transactions (sender, value, calldata), with borrowers that are arbitrary programs and call the token again at any depth, as long as the hash values of the storage cells of the accounts that take part do not coincide, it answers every transaction with the same bytes and logs the same events as the token with independent mappings. So, from words alone: fee and largest loan are answered as the standard asks; the balances answered add up to the total supply answered; a loan creates its amount for the borrower, runs the borrower's program, and goes through exactly if this program returns the prescribed word and then balance and allowance cover loan and fee, which are taken and destroyed or given to the receiver of fees; every refusal has its exact bytes; if nobody calls mint, loans leave the supply as it was, less the fees that nobody receives; an account that allows nothing and does not call loses nothing; a borrower that has the fee and allows loan and fee always gets the loan, at the price of the fee.", "quantifier": "every address, fee and receiver of fees, every program as borrower, every depth of nesting, every list of transactions with any sender, value and calldata, every set of accounts whose storage cells have hash values that do not coincide", "why_tests_cant": "A test takes one loan with one borrower contract against mocked storage; that no program, at any depth of calls back into the token, can disturb the storage words of the others, and that supply and balances come out right after every history, cannot be enumerated.", "anchors": ["examples/erc20-flash-mint/src/lib.rs:Erc20FlashMintExample", "examples/erc20-flash-mint/src/constructor.sol:Erc20FlashMintExample", "contracts/src/token/erc20/extensions/flash_mint.rs:Erc20FlashMint", "contracts/src/token/erc20/mod.rs:Erc20"]}
{"id": "C123", "title": "The wrapper of non-fungible tokens as deployed: calldata in, storage words, any program as the wrapped token", "statement": "The ERC-721 wrapper example keeps owners, balances, approvals, operators and the underlying token in 256-bit storage words. Deployment is never refused. After any transactions (sender, value, calldata) and anything that other contracts do, as long as the hash values of the storage cells of the accounts and tokens that take part do not coincide, it answers every transaction with the same bytes, logs the same events and leaves the rest of the chain as the wrapper with independent mappings does. So, from words alone: balanceOf answers for how many tokens ownerOf answers the account; depositFor goes through exactly for distinct ids that are not wrapped, if the underlying token obeys each transferFrom and the account welcomes each token, and then the account owns them; withdrawTo goes through exactly for distinct ids that the sender may move, if the underlying token obeys each safeTransferFrom, and then they are no longer wrapped; onErc721Received wraps exactly what the underlying token announces; tokens come and go in no other way, and only those who may move a token can make its owner lose it; refusals by the underlying token are passed on byte for byte. Over the metadata example as underlying token, every wrapped token is held by the wrapper and can be redeemed.", "quantifier": "every address and underlying token, every program as underlying token and as receiver, every list of transactions with any sender but the zero address, any value and calldata, every set of accounts and tokens whose storage cells have hash values that do not coincide", "why_tests_cant": "A test wraps a few ids of one mock token against mocked storage; that no underlying token, no receiver and no order of calls can disturb the storage words, and that every wrapped token stays redeemable after every history, cannot be enumerated.", "anchors": ["examples/erc721-wrapper/src/lib.rs:Erc721WrapperExample", "contracts/src/token/erc721/extensions/wrapper.rs:Erc721Wrapper", "contracts/src/token/erc721/mod.rs:Erc721"]}
{"id": "C124", "title": "The ERC-721 contract with batches as deployed: Solidity constructor, calldata in, storage words", "statement": "The consecutive ERC-721 example mints its batches in a Solidity constructor and runs in Rust on the same 256-bit storage words: owners, balances, approvals, operators, a vector of packed checkpoints, a bitmap of burnt tokens, the first id and the largest batch. Deployment succeeds exactly if the tokens fit below 2^96, no batch with tokens goes to the zero address and none is larger than allowed. After any transactions (sender, value, calldata), as long as the hash values of the storage cells of the accounts and tokens that take part do not coincide, it answers every transaction with the same bytes and logs the same events as the contract with independent mappings and lists deployed with the same batches. So, from words alone: every token has at most one owner, whom ownerOf answers, else it reverts with ERC721NonexistentToken; balanceOf counts the tokens of an account; before the first transaction the owners are those of the batches, laid out one after the other, and tokens nobody names stay with the owner their batch gave them; an owner loses a token only by a message of somebody who may move it or by a burn; anybody can burn any token.", "quantifier": "every list of at most 2^64 batches of any sizes, every first id and largest batch, every list of transactions with any sender, value and calldata, every program as receiver, every set of accounts and tokens whose storage cells have hash values that do not coincide", "why_tests_cant": "A test deploys a few small batches against a node; that the Rust lookups read the words the Solidity constructor wrote, for every list of batches and after every history, cannot be enumerated.", "anchors": ["examples/erc721-consecutive/src/constructor.sol:Erc721ConsecutiveExample", "examples/erc721-consecutive/src/lib.rs:Erc721ConsecutiveExample", "contracts/src/token/erc721/extensions/consecutive.rs:Erc721Consecutive", "contracts/src/utils/structs/checkpoints/mod.rs:Trace", "contracts/src/utils/structs/bitmap.rs:BitMap"]}
{"id": "C125", "title": "The basic ERC-20 token as deployed: Solidity constructor, calldata in, storage words", "statement": "The basic token example gets its name and symbol from a Solidity constructor and runs in Rust on the same 256-bit storage words. Deployment always succeeds. After any transactions (sender, value, calldata), as long as the hash values of the storage cells of the accounts that take part do not coincide, it answers every transaction with the same bytes and logs the same events as the contract with independent balances and allowances. So, from words alone: name and symbol answer the constructor's strings forever and decimals answers 18; what balanceOf answers for the accounts adds up to what totalSupply answers; transfer, transferFrom, approve and mint go through exactly under their stated conditions on what was answered before, change the answers by exactly the stated amounts, leave the other answers, and log one event; a balance only falls by a message of its owner or of somebody to whom allowance had answered at least the difference.", "quantifier": "every name and symbol shorter than 2^255 bytes, every list of transactions with any sender, value and calldata, every set of accounts whose storage cells have hash values that do not coincide", "why_tests_cant": "A test sends a few calls to one deployment; that the Rust functions read the words the Solidity constructor wrote, and that no sequence of calldata makes two mapping entries share a word, cannot be enumerated.", "anchors": ["examples/basic/token/src/lib.rs:Erc20Example", "examples/basic/token/src/constructor.sol:Erc20Example", "contracts/src/token/erc20/mod.rs:Erc20", "contracts/src/token/erc20/extensions/metadata.rs:Erc20Metadata", "contracts/src/utils/metadata.rs:Metadata"]}
{"id": "C126", "title": "A wrapper or a vault and the token it holds, both as deployed: bytes between two storages of words", "statement": "The ERC-20 wrapper example and the ERC-4626 vault example run over the basic token example, each on its own 256-bit storage words, calling each other with bytes. After any transactions to either contract, as long as the hash values of the storage cells of the accounts that take part do not coincide in either contract, both answer every transaction with the same bytes and log the same events as the contracts with independent mappings. So, from words alone, with senders other than the contract itself: what the token answers for the balance of the wrapper is at least the wrapper's total supply; depositFor and withdrawTo go through exactly under the stated conditions on what the two contracts answered before (a holder can always leave), and move exactly the stated amounts in both; the vault's rate (totalAssets + 1) / (totalSupply + 10^offset) never falls; deposit and redeem go through, and answer the rounded-down amount, exactly under the stated conditions on what the two contracts answered before, and move exactly the stated amounts in both.", "quantifier": "every constructor argument the constructors accept, every list of transactions to either contract with any value and calldata and any sender but the contract itself, every set of accounts that includes the contract and whose storage cells have hash values that do not coincide", "why_tests_cant": "A test makes a few calls between two fresh contracts; that no sequence of calldata to either leaves the words of one out of step with the words of the other cannot be enumerated.", "anchors": ["examples/erc20-wrapper/src/lib.rs:Erc20WrapperExample", "examples/erc4626/src/lib.rs:Erc4626Example", "examples/basic/token/src/lib.rs:Erc20Example", "contracts/src/token/erc20/extensions/wrapper.rs:Erc20Wrapper", "contracts/src/token/erc20/extensions/erc4626.rs:Erc4626", "contracts/src/token/erc20/utils/safe_erc20.rs:SafeErc20"]}
{"id": "C127", "title": "A vesting wallet, the token it releases and ether, both contracts as deployed: bytes between two storages of words", "statement": "The vesting wallet example runs over the basic token example, each on its own 256-bit storage words, calling with bytes, and over the ether of every account. After any transactions to either contract and any payments, as long as the hash values of the storage cells of the accounts that take part do not coincide in either contract, both answer every transaction with the same bytes and log the same events as the contracts with independent mappings. So, from words alone, with senders other than the wallet and times that do not go back: the released amounts that the wallet answers, of ether and of the token, are at most what the schedule allows of what the wallet has and has released, and are the sums of its events; release(address) of the token, by anybody, succeeds if and only if the numbers of the schedule fit and there is an owner, and then moves exactly what is due from the wallet to the owner; release() of ether succeeds if and only if the numbers fit, the owner can take ether and it does not overflow, and then moves exactly what is due; a release that does not succeed reverts with the stated bytes.", "quantifier": "every constructor argument the constructors accept, every list of transactions to the token before the wallet is deployed, every list of transactions to either contract and payments with any value and calldata, any sender but the wallet and ordered times, every set of accounts that includes the wallet, the token, the beneficiary and zero and whose storage cells have hash values that do not coincide", "why_tests_cant": "A test makes a few releases from a fresh wallet of a fresh token; that no sequence of calldata to either contract, payments and clock readings lets more out than is due, or leaves the words of one out of step with the words of the other, cannot be enumerated.", "anchors": ["examples/vesting-wallet/src/lib.rs:VestingWalletExample", "examples/basic/token/src/lib.rs:Erc20Example", "contracts/src/finance/vesting_wallet.rs:VestingWallet", "contracts/src/token/erc20/utils/safe_erc20.rs:SafeErc20", "contracts/src/token/erc20/mod.rs:Erc20"]}
{"id": "C128", "title": "An ERC-721 wrapper and the token it wraps, both as deployed: bytes between two storages of words", "statement": "The ERC-721 wrapper example runs over the ERC-721 metadata example, each on its own 256-bit storage words, calling with bytes. After any transactions to either contract, as long as the hash values of the storage cells of the accounts, tokens and texts that take part do not coincide in either contract, both answer every transaction with the same bytes and log the same events as the contracts with independent mappings. So, from words alone: while the wrapper answers that somebody owns an id, the token answers that the wrapper owns it, that nobody is approved for it and that the wrapper has no operator; withdrawTo succeeds if and only if the ids are distinct and the sender may move each of them, and then the token answers that the recipient owns them and they are no longer wrapped; depositFor succeeds if and only if the ids are distinct, the sender owns them and the wrapper is approved, and then the wrapper owns them and the account their wrapped tokens; and a token that the wrapper owns leaves it in no transaction to either contract other than withdrawTo of its id by somebody who may move the wrapped token.", "quantifier": "every name, symbol and base URI, every list of transactions to either contract with any value and calldata, any sender but the wrapper (and, to the wrapper, but the token and the zero address), every set of accounts that includes the wrapper and zero, every set of tokens and bound on the length of texts whose storage cells have hash values that do not coincide", "why_tests_cant": "A test wraps and unwraps a token or two; that no sequence of calldata to either contract takes a token out of the wrapper otherwise, or leaves a wrapped token that cannot be redeemed, and that the words of one never get out of step with the words of the other, cannot be enumerated.", "anchors": ["examples/erc721-wrapper/src/lib.rs:Erc721WrapperExample", "examples/erc721-metadata/src/lib.rs:Erc721MetadataExample", "contracts/src/token/erc721/extensions/wrapper.rs:Erc721Wrapper", "contracts/src/token/erc721/mod.rs:Erc721"]}
