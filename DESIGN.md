# Formal model of OpenZeppelin/rust-contracts-stylus in Lean 4

## 1. What this is

`lean/Verif/` contains a model of the Stylus contracts library (`contracts/src`), of the
reference compositions in `examples/*/src/lib.rs`, and of the cryptography library
(`lib/crypto/src`), written as total computable Lean functions, and proofs of the properties listed
in `properties.jsonl`.  `MANIFEST.json` maps each property to the theorems that carry it.

Layout:

| Directory | Content |
|---|---|
| `Verif/Base.lean` | words (`U256 = BitVec 256`, ...), addresses, error type, checked arithmetic, storage maps, run of a history |
| `Verif/Model/*.lean` | the model; every definition cites file and lines of `/repo` |
| `Verif/Spec/*.lean` | small specifications, independent from the model's helpers |
| `Verif/Proofs/*.lean` | helper lemmas |
| `Verif/Props/*.lean` | the property theorems (`Cnn_...`), each followed by a non-vacuity `example` |

## 2. Trusted base

* Lean 4.33.0's kernel; theorems depend on at most the axioms `propext`, `Classical.choice`,
  `Quot.sound`.  No axiom is added, no `sorry`, no `native_decide`, no `bv_decide`.
* The reading of the Rust code: the model was written by hand from the text of `/repo`; the code is
  never executed.  The correspondence is by the line citations on each definition.
* Semantics assumed for things outside the repository:
  * `ruint`/alloy: `+`, `-`, `*`, `Sum` on `U256`/`U96`/... wrap modulo `2^bits`
    (ruint's operators are the wrapping ones); `checked_*` return `None` on overflow, `.expect` panics.
    Rust primitive integers (`u64`, `u128`, `usize`): `wrapping_*` wrap; where the code uses plain
    operators we prove that they do not overflow.
  * Transactions: a call that returns `Err` or panics reverts all its state changes, logs and sub-calls.
    The model therefore returns no state on error; the history runner keeps the old state.  Where an error of an
    *external* call is caught inside the code (`SafeErc20::force_approve`) this is modelled explicitly.
  * Storage: most models keep the state as a record of independent maps.  C98 and C100 justify this from a model of the words of
    the storage (`Model/Storage.lean`: slots, packing, Keccak-addressed map entries, vectors and strings as the SDK and Solidity
    lay them out): the two views agree unless hash values coincide.  What is assumed of the SDK is the
    layout rule itself.  Empty structs (`SafeErc20`, `Eip712`) come last wherever they occur, so whether the SDK gives them a
    slot does not matter.
  * Deployment: the Solidity constructors `examples/*/src/constructor.sol` are modelled (`Model/Constructors.lean`,
    `Model/ConsecutiveConstructor.lean`) as assignments to the Solidity contract's variables, with Solidity's layout rule.
  * `msg::sender()`, `block::timestamp()`, `contract::address()`, `contract::balance()`, `has_code` are inputs.
  * Re-entrancy: disabled (the Stylus default) in the plain models.  C15/C16 (flash mint, which is compiled with the `reentrant`
    feature), C88-C92 and C110 model calls into the contract from inside its external calls as nested histories of any depth.
  * The router and the ABI: `Model/Router.lean`, `Model/Revert.lean`, `Model/Logs.lean` and `Model/Interfaces.lean` state what the
    SDK macros `#[public]`, `#[inherit]`, `#[selector]`, `sol!`, `SolidityError` and this repository's `#[interface_id]` make of the
    declarations; the proofs start there.
  * Entry points and messages (C101-C111): `Model/Abi.lean` states the ABI encoding and what `#[entrypoint]` does: a call with
    value, without a known selector or with undecodable arguments reverts without data, as does a panic.  The SDK's decoder is any
    function with three laws (`Abi.Decoder`): it reads encodings back; what it reads has the types asked for; one-word arguments
    it reads stand in the input as they were read (alloy's validating decoder refuses words with stray bits).  Two different
    decoders, one that ignores trailing bytes and one that refuses them, are proved to satisfy the laws.  A fixed array of words
    stands in the arguments as its elements.
  * Strings in storage (C104): `get_string` of the SDK reads the bytes by Solidity's layout and turns them into a `String` by any function
    that reads UTF-8 (`Deployed.Utf8`).
  * keccak256: a function `Hash := Bytes → B256` that is universally quantified.  No theorem assumes that it is injective.  Where
    a property holds up to collisions the theorem names the two colliding inputs or takes their distinctness as
    a hypothesis on named inputs.  Where a value matters (selectors, topics, type hashes, interface ids)
    Keccak-256 is specified from FIPS 202 / the Keccak reference (`Spec/Keccak.lean`) and evaluated by the kernel, through an
    evaluation-friendly version proved equal (`Proofs/KeccakFast.lean`).
  * the `ecrecover` precompile and other contracts' code: universally quantified functions or environments.
* Not modelled: gas, memory limits, `Debug`/`Zeroize` impls, `lib/e2e*`, benches, scripts, fuzz targets, test code.

## 3. Modelling conventions

* A `&mut self` method is a function from the old state to `Except Err (new state [, result])`.
* Errors are data: each module has its own error type mirroring the Rust enum, with `panic` as an
  explicit constructor.
* Events are appended to a log in the state.
* A history is a list of `(caller, call)`; `run` folds a total `step` over it.  "Reachable" means
  `run init ops` for some list `ops`.
* `Props/KnownAnswers.lean` and the end of `Props/Secp256k1.lean` evaluate in the model the repository's own tests with
  literal numbers (Merkle proofs, wide integers, bit iterators, checkpoints, signatures, typed data, multiples of a
  generator).  They are checks of the model, not properties.
* Sums over accounts are `∑ a : Address, (balance a).toNat`, i.e. over all 2^160 addresses as
  unbounded naturals.

## 4. Plan per property

| Property | What is modelled | How proved |
|---|---|---|
| C01 | Erc20 state + all calls incl. burnable, mint | invariant by induction over histories |
| C02, C03, C09, C12 | same | decision + exact effect theorem, case analysis |
| C04 | same, with ghost sum of amounts taken | induction over histories |
| C05 | same | one-step theorem over all calls |
| C06, C07 | same | invariant by induction; error-value analysis |
| C08 | log in state, independent replay function | induction over histories |
| C10, C11 | examples/erc20 composition (Capped, Pausable) | invariant / frame by induction |
| C13, C14 | permit with an arbitrary recovery function | decision theorem; invariant over histories, nonce monotone |
| C15, C16 | flash_loan with callback = arbitrary history, nested | mutual structural induction over nested call trees |
| C17, C18 | two-token world: underlying Erc20 + wrapper | invariant by induction; exact effects |
| C19–C24 | Erc4626 over Erc20 shares and an ERC-20 asset | arithmetic lemmas on floor/ceil; exact effects; history invariant on cross-multiplied price; for any attack (C24) books kept along the history, with the invariant that what the marked deposits paid is covered by their shares and one more share each |
| C25, C26 | SafeErc20 with arbitrary callee behaviour | decision theorem for all return data; effect theorem for two token models |
| C27–C29 | mul_div, sqrt, average | arithmetic proof (Newton convergence bound for sqrt) |
| C30, C31 | vesting schedule and wallet with clock and deposits | monotonicity lemmas; invariant by induction |
| C32–C34 | Nonces, Pausable, BitMap | refinement by induction |
| C35–C37 | Checkpoints for arbitrary key/value widths | sortedness invariant; loop invariant of both binary searches vs. linear spec |
| C38–C41 | AccessControl, Ownable, Ownable2Step | step theorems + induction over histories |
| C42, C43 | ecdsa range check; EIP-712 byte encoding | arithmetic with the literal constants; list injectivity |
| C44 | ERC-2981 | exact formula; invariant over setter histories |
| C45–C51 | Erc721 core | counting invariant; decision theorems; log replay |
| C52 | Enumerable + examples/erc721 | list-refinement invariant; negation witness for token id 0 |
| C53 | Consecutive | invariant on checkpoints + burn bitmap; witness for the U96 boundary |
| C54 | Erc721Wrapper | two-contract invariant |
| C55–C59 | Erc1155 core, Burnable, Supply | folds over batches; invariants; wrap witness for total_supply_all |
| C60–C65 | limbs and Uint<N> for arbitrary N | positional-value lemmas, induction over limbs |
| C66–C70 | Fp<P,N> for arbitrary odd modulus | Montgomery invariant, ZMod refinement, GCD loop invariant + termination measure |
| C71–C73 | Jacobian formulas over an arbitrary field | refinement to Mathlib's `WeierstrassCurve.Affine.Point` group law |
| C74–C77 | Merkle with arbitrary hash | induction over trees / proof lists; collision extraction |
| C78–C80 | Poseidon2 | ring identities; index invariant; bijectivity by composition |
| C81 | field instances, parsed from their decimal strings | Lucas certificates (Mathlib `lucas_primality`) with kernel-evaluated powers |
| C82–C84 | metadata and URI storage extensions and their two example contracts | decimal numeral specification; "last write" specification by induction over histories |
| C85, C86 | pausable, ownable, two-step and access-control compositions | gate theorems; frame by induction over histories; witnesses for what the gates do not cover |
| C87 | `interface_id` macro, trait tables, `supports_interface`, Keccak-256 | permutation invariance of xor for every hash; signature tables compared with the standards; Keccak-256 evaluated by the kernel |
| C88 | ERC-721, ERC-1155 and supply callbacks with the receiver's calls nested inside (`Model/CallTree.lean`, `Model/Reentrant.lean`) | one call = plain call then inside; induction over call trees to a flat history; transfer of the history theorems |
| C89 | vesting `release` with nested calls (`Model/HookTree.lean`, `Model/VestingReentrant.lean`) | relation preserved by every call given that its hooks preserve it; witness for the token that calls out early |
| C90 | vault deposit and withdrawal with asset hooks (`Model/Erc4626Reentrant.lean`) | the same principle with the rate as the relation; witnesses for the two other hook positions |
| C91 | ERC-20 wrapper with nested calls (`Model/Erc20WrapperReentrant.lean`) | relation "surplus does not shrink" over hook trees; invariant for the restricted hooks; witness for recovery inside a hook |
| C92 | ERC-721 wrapper with nested calls (`Model/Erc721WrapperReentrant.lean`) | induction over an inductive reachability relation whose steps contain nested histories |
| C93 | the generic hash traits and helpers (`Model/GenericHash.lean`) | unfolding to the byte stream; order case split; a partially ordered counterexample |
| C94 | the Poseidon example contract over the BN254 scalar field (`Model/PoseidonExample.lean`) | the refinement C78 plus a proof that the permutation commutes with ring homomorphisms (`Proofs/PoseidonMap.lean`) |
| C95 | error enums to revert data (`Model/Revert.lean`) | encoding against a byte-level specification for every hash; all selectors evaluated with Keccak-256 in the kernel; injectivity from distinct selectors; forging witness |
| C96 | event declarations and their log encoding (`Model/Logs.lean`) | encoding against explicit topics and data for every hash; all event hashes evaluated with Keccak-256 in the kernel; generic injectivity of head/tail ABI encoding; readers of raw logs against the event replay theorems C08, C39, C51, C55 |
| C97 | `#[public]` blocks and `#[inherit]` lists of the library and the examples (`Model/Router.lean`); what the SDK macros do with them is stated in the model | all selectors evaluated with Keccak-256 in the kernel; routing by selector equals routing by signature because the selectors are distinct; the ABI tables then decide everything |
| C98 | storage layout of the 21 examples and of all their parts (`Model/Storage.lean`): slots, packing, maps, vectors, strings | the slot of a cell is a hashed base plus a displacement; induction over the two paths from where they part; bitwise lemmas on masks |
| C99 | the 16 Solidity constructors (`Model/Constructors.lean`, `Model/ConsecutiveConstructor.lean`) | the Solidity and the Rust layout lead to the same places (all paths, by structural comparison of the layouts); assignments commute unless hashes coincide; strings of any length by induction over chunks |
| C100 | programs over storage cells and the ERC-20 token as such a program (`Model/StoragePrograms.lean`) | induction over programs with C98 as the step; simulation of the token model; transfer of C01 |
| C101 | messages as bytes and the reading of replies (`Model/Calls.lean`) | encoding against explicit bytes with the published selectors evaluated in the kernel; round trip through every decoder; C50, C57, C15 and the SafeERC20 properties carried over to programs on bytes |
| C102 | entry point on bytes (`Model/Entry.lean`) | for every input: inversion of router, decoder and function table; simulation of histories of raw transactions; C01, C05, C10, C11 carried over |
| C103 | the other example contracts on bytes (`Model/Contracts.lean`) | each message reduced to its operation; inversion of the function table for every input; the properties of the operations carried over to answers |
| C104 | `examples/erc20` from the constructor to the storage words (`Model/Deployed.lean`) | every function as a program on cells (C100), constructor (C99) and entry point (C102) put together: an invariant relates the words to the state of the model, accounts outside the list keep 0 |
| C105 | `examples/erc4626` on bytes with any program as the asset (`Model/Outside.lean`): the rest of the chain is a `World` that answers messages; the vault's own functions are those of C19-C22 with the asset's balance replaced by its answer | per function success condition and effect; invariants over histories of raw transactions and arbitrary outside changes; with the token of `examples/basic/token` a refinement to the model of C22 |
| C106 | `examples/erc20-wrapper` in the same way | the same, refinement to the model of C17 |
| C107 | `examples/ecdsa`, `examples/merkle-proofs`, `examples/poseidon` from call data to returned data (they have no storage); the precompile is an arbitrary function of bytes | router rows (C97), the decision tables of C42 and C76, C74/C75 for allow-lists, C94 |
| C108 | `examples/safe-erc20` from call data to the calls it makes; the tokens are arbitrary programs on a chain (`World`) | router rows (C97), case analysis of what the token replies; C02/C03/C26 for the library's own token |
| C109 | `examples/vesting-wallet` from call data to the calls and payments it makes; tokens, owner and everybody else are arbitrary programs on a chain with ether (`Chain`); a call without data is `receive`; a second chain has only the wallet, the library's token and ether | router rows (C97), C17/C18 for the schedule, induction over histories; C05 and C103 for the chain with the library's token |
| C110 | `examples/erc20-flash-mint` from call data to the call of the borrower; programs are trees (`Reenter.Program`) that may call the token with any bytes in anybody's name, at any depth, and catch reverts; the number in `run` bounds the nesting (every theorem holds for every bound, as gas or the chain gives it) | router rows (C97); every run, by induction on depth and program, is a list of actions of C15/C16 whose calls satisfy any predicate that the messages satisfy (`run_via`); exact condition and effect of a loan (`Repaid` determines the state); a potential (balance plus what is allowed) for the holder |
| C111 | `examples/erc721-wrapper` from call data to the messages it sends to the underlying token and to receivers, over a `World` of arbitrary programs; then over a chain (`Hosts`) whose underlying token is `examples/erc721-metadata` on bytes (C103), where everybody else may send the token anything but not as the wrapper | router rows (C97); `Wraps`/`Unwraps` describe a deposit and a withdrawal id by id and determine the state; the system invariant (wrapped ids are the wrapper's, without approvals) by induction over the history and over the ids; success of deposits and withdrawals by induction over the ids |
| C112 | multiplication of points by scalar-field elements (`Model/CurveScalar.lean`): C66-C73 composed | refinement of both sides to the group law, then arithmetic modulo the order; for secp256k1 (the curve of the tests) Lucas certificates for both moduli (`Proofs/Secp256k1.lean`, written by `scripts/secp.py`), a kernel-evaluated `n • G = 0`, and the number of points by counting (at most 2p + 1, divisible by n, no point of order two) |
| C113 | the ERC-721 token as a program over storage cells (`Model/Erc721Words.lean`) | simulation of every function on a table of cells by the token model of C45-C48, the cells each function uses (owners stay among the named accounts), C100 for the step from cells to words; the count and theft statements read off the words. The concrete case uses Keccak: `Proofs/Separate.lean` turns a kernel-checked table of hash values into the separation hypothesis |
| C114 | `examples/erc721` as deployed (`Model/NftDeployed.lean`): constructor, dispatch on calldata, every function as a program over storage cells, among them the swap-and-pop updates of the four enumeration collections | simulation of every function by the model of C52 and C103; an invariant (`Good`) that bounds the length of the lists and the values in them by the numbers that take part, so that every cell used is one of theirs; C100 for the step from cells to words; the outside statements of C103 carried over. The concrete case uses Keccak with 43 hash values checked by the kernel |
| C115 | `examples/ownable`, `examples/ownable-two-step`, `examples/access-control` as deployed (`Model/GatesDeployed.lean`): constructor, dispatch on calldata, every function as a program over storage cells, the token of C98 beside the gate | simulation of every function by the model of C103, put together from the token part and the gate part by generic lemmas (`Proofs/OnWords.lean`); for roles an invariant that the admin roles stay among those that take part; C100 for the step from cells to words; the outside statements of C103 carried over. The concrete cases use Keccak with 23 hash values checked by the kernel |
| C116 | `examples/erc1155`, `examples/erc1155-supply` as deployed (`Model/MultiDeployed.lean`): constructor, dispatch on calldata, every function (single and batch, with the acceptance call of the receiver) as a program over storage cells | simulation of every function by the model of C103, the batch loops by induction on the list of moves; for the supply an invariant that accounts which do not take part have nothing; C100 for the step from cells to words; the outside statements of C103 carried over. The concrete cases use Keccak with 22 hash values checked by the kernel. As in C103, the receiver is asked after the update and does not call back |
| C117 | `examples/erc20-permit` as deployed (`Model/PermitDeployed.lean`): dispatch on calldata, `permit`, `nonces` and every ERC-20 function as a program over storage cells; the constructor assigns nothing | simulation of every function by the model of C103 (`permit` = deadline, digest, nonce, recovery, approval); C100 for the step from cells to words; the outside statements of C103 carried over. The concrete case uses Keccak with the hash values checked by the kernel. The recovery precompile is a parameter, as in C15 |
| C118 | `examples/erc721-metadata`, `examples/erc1155-metadata-uri` as deployed (`Model/UriDeployed.lean`): constructor, dispatch on calldata, every function as a program over storage cells, with texts written and read in the layout of a `StorageString` (the erasing and writing of a text is SDK code; simplified: each word of the new text is written once instead of byte by byte) | simulation of every function by the models of C103, with a relation between cells and texts that also has the words beyond the end of a text zero (`Proofs/Texts.lean`); C100 for the step from cells to words; the outside statements of C103 carried over. The concrete cases use Keccak with the hash values checked by the kernel, and replace a text of 37 bytes by one of 1 byte |
| C119 | `examples/vesting-wallet` as deployed (`Model/VestingDeployed.lean`): constructor, dispatch on calldata, `receive`, every function as a program over storage cells that asks, calls and pays the rest of the chain (`Chained`: the words, the events and the world of C109, which stays arbitrary) | simulation of every function by the model of C109 (`Proofs/Chained.lean` is generic in the contract); C100 for the step from cells to words, with start and duration packed in one word; the outside statements of C109 carried over. The concrete cases use Keccak with the hash value checked by the kernel, and the chain of `C109_system` with a token of the library and ether |
| C120 | `examples/erc20-wrapper` as deployed (`Model/WrapperDeployed.lean`): constructor, dispatch on calldata, every function as a program over storage cells that calls the wrapped token, an arbitrary program on an arbitrary chain (`World` of C106) | simulation of every function by the model of C106 (`Proofs/Backed.lean` is generic in the contract that carries a token and calls out); C100 for the step from cells to words; the outside statements of C106 carried over, with the balances of all other accounts shown to be zero. The concrete cases use Keccak with the hash values checked by the kernel, a token that answers nothing, and the basic token example |
| C121 | `examples/erc4626` as deployed (`Model/VaultDeployed.lean`): constructor, dispatch on calldata, every function as a program over storage cells that asks and calls the asset, an arbitrary program on an arbitrary chain (`World` of C105) | simulation of every function by the model of C105 (`Proofs/Backed.lean`); texts of any length that a word can hold as in C104; C100 for the step from cells to words; the outside statements of C105 carried over, with the balances of all other accounts shown to be zero. The concrete cases use Keccak with the hash values checked by the kernel, an asset that always answers 7, and the basic token example |
| C122 | `examples/erc20-flash-mint` as deployed (`Model/FlashDeployed.lean`): constructor, dispatch on calldata, every function as a program over storage cells; a loan is split at the call of the borrower, an arbitrary program (`Others`, `Program` of C110) that may call the token again | simulation, by induction on the depth of calls and on the program, of every call by the model of C110; C100 for the step from cells to words; the outside statements of C110 carried over, with the balances and allowances of all other accounts shown to be zero. The concrete cases use Keccak with the hash values checked by the kernel, and a borrower that takes a loan inside a loan |
| C123 | `examples/erc721-wrapper` as deployed (`Model/NftWrapperDeployed.lean`): constructor, dispatch on calldata, every function as a program over storage cells, with messages to the underlying token and to receivers between the reads and writes; both are arbitrary programs (`World` of C106) | simulation of every function, the loops over ids by induction, by the model of C111; C100 for the step from cells to words; the outside statements of C111 carried over, with the success conditions restated in the answers of the wrapper. The concrete cases use Keccak with the hash values checked by the kernel, and the chain of C111 with the metadata example as underlying token |
| C124 | `examples/erc721-consecutive` as deployed (`Model/ConsecutiveDeployed.lean`): the Solidity constructor and every Rust function as programs over the same storage cells (vector of packed checkpoints, bitmap, packed first id and largest batch), dispatch on calldata | simulation of every function by the model of C53, the binary search and the loop of the constructor by induction; C99 for what the constructor builds, C100 for the step from cells to words; the outside statements of C103 carried over. The concrete case uses Keccak with the hash values checked by the kernel |
| C125 | `examples/basic/token` as deployed (`Model/BasicDeployed.lean`): the Solidity constructor and every Rust function as programs over the same storage cells, dispatch on calldata | simulation of every function by the model of C01, C99 for what the constructor builds, C100 for the step from cells to words; the statements of C02, C03, C09 and C103 carried over. The concrete case uses Keccak with the hash values checked by the kernel |
| C126 | the deployed wrapper (C120) and the deployed vault (C121) over the deployed token (C125), `Spec/TwoDeployed.lean`: the calls go from the words of one to the words of the other as bytes | simulation: over two chains that answer the same bytes, the wrapper and the vault do the same (`Proofs/TwoDeployed.lean`); C125 shows that the deployed token and the token of C103 are two such chains for messages about the accounts; then the statements of C17, C18 and C19 to C23 carried over. The accounts must include the contract itself, because it has tokens |
| C127 | the deployed vesting wallet (C119) over the deployed token (C125) and the ether of every account, `Spec/WalletTokenDeployed.lean`: the calls go from the words of one to the words of the other as bytes | the simulation of C126 for the wallet (`Proofs/WalletTokenDeployed.lean`), then C109's invariant and C02 carried over. There is no other contract on the chain: the token takes no ether and the wallet takes none of its own |
| C128 | the deployed ERC-721 wrapper (C123) over the deployed ERC-721 with metadata (C118), `Spec/NftTwoDeployed.lean`: the calls go from the words of one to the words of the other as bytes | the simulation of C126 for the ERC-721 wrapper (`Proofs/NftTwoDeployed.lean`), then C111 carried over; that a token leaves the wrapper only in `withdrawTo` is proved for any chain that hosts the token and carried over. There is no other contract on the chain, so `_safe_mint` asks only the two contracts, and neither has a function `onERC721Received` that takes what the token sends (C97) |

## 5. Coverage

Modelled, function by function (definitions in `Verif/Model`; each cites its lines):

| Source | Model files | Properties |
|---|---|---|
| `contracts/src/token/erc20/mod.rs`, `extensions/burnable.rs` | `Erc20` | C01-C09, C12 |
| `.../erc20/extensions/{capped,permit,flash_mint,wrapper,erc4626}.rs`, `utils/safe_erc20.rs` | `Erc20Example`, `Erc20Permit`, `FlashMint`, `Erc20Wrapper`, `Erc4626`, `SafeErc20`, `Erc4626Reentrant`, `Erc20WrapperReentrant` | C10-C26, C90, C91 |
| `contracts/src/token/erc721/mod.rs`, `extensions/*` | `Erc721`, `Erc721Enumerable`, `Erc721Consecutive`, `Erc721Wrapper`, `Metadata`, `Erc721WrapperReentrant`, `Reentrant` | C45-C54, C82, C83, C88, C92 |
| `contracts/src/token/erc1155/mod.rs`, `extensions/*` | `Erc1155`, `Metadata`, `Reentrant` | C55-C59, C84, C88 |
| `contracts/src/token/common/erc2981.rs` | `Erc2981` | C44 |
| `contracts/src/access/*` | `Access` | C38-C41 |
| `contracts/src/finance/vesting_wallet.rs` | `Vesting`, `VestingReentrant` | C30, C31, C89 |
| `contracts/src/utils/**` | `Utils`, `Math`, `Checkpoints`, `Crypto` | C27-C29, C32-C37, C42, C43, C77 |
| `contracts/src/utils/introspection/erc165.rs`, `contracts-proc/src/interface_id.rs` | `Interfaces` | C87 |
| error enums, `sol!` errors and events of `contracts/src` | `Revert`, `Logs` | C95, C96 |
| `lib/crypto/src/arithmetic/*`, `bits.rs` | `Limb`, `Uint`, `UintText` | C60-C65 |
| `lib/crypto/src/field/*` | `Fp`, `FpInstances` | C66-C70, C81 |
| `lib/crypto/src/curve/*` | `Curve`, `CurveScalar` | C71-C73, C112 |
| `lib/crypto/src/merkle.rs`, `hash.rs`, `keccak.rs` | `Merkle`, `GenericHash` | C74-C77, C93 |
| `lib/crypto/src/poseidon2/*` | `Poseidon`, `PoseidonInstances`, `PoseidonExample` | C78-C80, C94 |
| `examples/*/src/lib.rs` | `Erc20Example`, `Compositions`, `Erc721Enumerable`, `PoseidonExample`, `Router`, `Storage` | C10, C11, C52, C85, C86, C94, C97, C98 |
| calls of other contracts in `contracts/src` (`sol_interface!`, `sol!` calls, `RawCall`) | `Abi`, `Calls` | C101 |
| `#[entrypoint]` of `examples/erc20` and of the token of `examples/basic` | `Entry` | C101, C102 |
| `#[entrypoint]` of `examples/erc721`, `erc721-metadata`, `erc721-consecutive`, `erc1155`, `erc1155-supply`, `erc1155-metadata-uri`, `ownable`, `ownable-two-step`, `access-control`, `erc20-permit` | `Contracts` | C103 |
| `examples/*/src/constructor.sol` | `Constructors`, `ConsecutiveConstructor` | C99 |
| `examples/erc20` deployed: constructor, entry point, functions, storage words; `get_string` of `contracts/src/utils/metadata.rs` | `Deployed` | C104 |
| `contracts/src/token/erc721/mod.rs` on storage words | `Erc721Words` | C113 |
| `examples/erc721` deployed: constructor, entry point, functions, enumeration, storage words | `NftDeployed` | C114 |
| `examples/ownable`, `examples/ownable-two-step`, `examples/access-control` deployed: constructor, entry point, functions, storage words | `GatesDeployed` | C115 |
| `examples/erc1155`, `examples/erc1155-supply` deployed: constructor, entry point, functions, storage words | `MultiDeployed` | C116 |
| `examples/erc20-permit` deployed: entry point, functions, storage words | `PermitDeployed` | C117 |
| `examples/erc721-metadata`, `examples/erc1155-metadata-uri` deployed: constructor, entry point, functions, storage words | `UriDeployed` | C118 |
| `examples/vesting-wallet` deployed: constructor, entry point, functions, storage words, calls to the rest of the chain | `VestingDeployed` | C119 |
| `examples/erc20-wrapper` deployed: constructor, entry point, functions, storage words, calls to the wrapped token | `WrapperDeployed` | C120 |
| `examples/erc4626` deployed: constructor, entry point, functions, storage words, questions and calls to the asset | `VaultDeployed` | C121 |
| `examples/erc20-flash-mint` deployed: constructor, entry point, functions, storage words, borrowers that call back | `FlashDeployed` | C122 |
| `examples/erc721-wrapper` deployed: constructor, entry point, functions, storage words, any underlying token and receivers | `NftWrapperDeployed` | C123 |
| `examples/erc721-consecutive` deployed: Solidity constructor, entry point, functions, storage words | `ConsecutiveDeployed` | C124 |
| `examples/basic/token` deployed: Solidity constructor, entry point, functions, storage words | `BasicDeployed` | C125 |
| `examples/erc20-wrapper` and `examples/erc4626` deployed over `examples/basic/token` deployed | `WrapperDeployed`, `VaultDeployed`, `BasicDeployed` | C126 |
| `examples/vesting-wallet` deployed over `examples/basic/token` deployed | `VestingDeployed`, `BasicDeployed` | C127 |
| `examples/erc721-wrapper` deployed over `examples/erc721-metadata` deployed | `NftWrapperDeployed`, `UriDeployed` | C128 |
| `#[entrypoint]` of `examples/erc4626` and `examples/erc20-wrapper`, the calls of `erc4626.rs`, `wrapper.rs` and `safe_erc20.rs` to any program | `Outside` | C105, C106 |
| `#[entrypoint]` of `examples/ecdsa`, `examples/merkle-proofs`, `examples/poseidon` | `Pure` | C107 |
| `#[entrypoint]` of `examples/safe-erc20` | `SafeBytes` | C108 |
| `#[entrypoint]` of `examples/vesting-wallet` | `VestingBytes` | C109 |
| `#[entrypoint]` of `examples/erc20-flash-mint`, compiled with `reentrant` | `FlashBytes` | C110 |
| `#[entrypoint]` of `examples/erc721-wrapper` | `NftBytes` | C111 |

Not modelled: `lib/e2e`, `lib/e2e-proc`, `benches`, `fuzz`, `scripts`, `examples/basic/script`, all
`#[cfg(test)]` code; interface declarations (`interface.rs`, `receiver.rs`) only through the tables of `Interfaces` and
`Router`; `Zeroize` and `Debug` impls.  Operators that only forward to another operator (by value, by reference,
`Sum`, `Product`, `Deref`) are not given definitions of their own where the target is modelled.

## 6. Findings

Places where the code does something other than a user would expect.  Each is a theorem about the model.

| Where | What | Theorem |
|---|---|---|
| `erc721/extensions/enumerable.rs` | token id 0 is reported as out of bounds | `C52_zero_id_not_listed` |
| `erc20/utils/safe_erc20.rs` 8-10 | the documentation says to add the functions with `#[inherit(SafeErc20)]`; they are then public functions of the contract, and anybody can transfer its tokens, spend the allowances it has been given and set its allowances | `C108_anybody_takes`, `C108_anybody_spends`, `C108_anybody_approves` |
| `finance/vesting_wallet.rs` 412-427 | after `renounceOwnership` the owner is the zero address, and `release()` by anybody pays the vested ether there, where it is lost | `C109_renounced_loses` |
| `token/erc20/extensions/flash_mint.rs` 308-364 | anybody can take a loan for a borrower that has a standing allowance for the token and answers everybody; each costs the borrower the fee (ERC-3156 leaves it to borrowers to look at the initiator; the documentation of `flash_loan` does not say so) | `C110_anybody_charges` |
| `token/erc721/extensions/wrapper.rs` 100-140 | while there is no code at the address of the underlying token, `transferFrom` on it "succeeds" and anybody can wrap any id for nothing (the constructor takes any address; the test that expects `ERC721UnsupportedToken` here, lines 383-405, is ignored) | `C111_nothing_there` |
| `examples/erc721` | a transfer to oneself corrupts the owner enumeration | `C52_self_transfer_corrupts` |
| `erc1155/extensions/supply.rs` | `values.iter().sum()` wraps, so the aggregate total can be wrong | `C59_batch_sum_wraps` |
| `erc1155/extensions/supply.rs` | the inner `Erc1155` is reachable by `Deref`; its burn bypasses the totals (no router exports it) | `C58_inner_burn_bypasses_totals` |
| `erc721/extensions/consecutive.rs` | with a batch that ends at `U96::MAX`, burns of single tokens have no effect | `C53_burn_not_recorded_at_max` |
| same | a first batch that runs past `U96::MAX` is accepted | `C53_first_batch_wraps` |
| same | "only during construction" is not enforced | `C53_late_batch_overlaps` |
| `examples/erc721-consecutive/src/constructor.sol` | rules out the first two of these | `C99_consecutive` |
| `finance/vesting_wallet.rs` | `releasable` wraps for a token whose balances shrink | `C31_shrinking_token_wraps` |
| same | a token that calls out before it moves the balance can be over-released | `C89_early_token_overpaid` |
| `erc20/utils/safe_erc20.rs` | an answer shorter than 32 bytes can count as `true` | `C25_short_answer_accepted` |
| same | error names differ from Solidity's, so selectors differ | `C95_safeErc20_not_standard` |
| `utils/cryptography/ecdsa.rs` | an empty answer of `ecrecover` panics instead of giving an error | `C42_empty_answer_panics` |
| `examples/erc721-wrapper` | `on_erc721_received` is exported as `onErc721Received`, so safe transfers to it fail; ERC-165 is not answered | `C97_wrapper_selector`, `C97_wrapper_refuses` |
| `lib/crypto` `uint.rs` | `ct_rem` underflows for a zero dividend | `C64_fails` |
| same | `from_str_radix` panics on long strings of leading zeros | `C65_leading_zeros_refused` |
| `lib/crypto` `fp.rs` | `inverse` does not stop for elements that share a factor with a composite modulus | `C69_composite_does_not_stop` |
| same | `Display` prints padded upper-case hex, its documentation says decimal | `C68_display` |
| `lib/crypto` curves | curves with cofactor one are never subgroup-checked (sound only if the declared cofactor is right; it is for secp256k1, the curve of the tests: `C112_secp256k1_points`) | `C72_subgroup`, `C112_outside_the_subgroup` |
| `lib/crypto` `merkle.rs` | 64-byte leaves allow inner nodes to pass as leaves | `C75_inner_node_accepted` |
| `lib/crypto` `poseidon2` | no padding: inputs that differ in trailing zeros have the same hash | `C79_trailing_zeros` |
| `lib/crypto` `hash.rs` | `commutative_hash_pair` only asks for `PartialOrd` | `C93_partial_order_is_not_enough` |
| `examples/poseidon` | inputs at or above the modulus alias smaller ones | `C94_aliases` |
| `erc721/extensions/uri_storage.rs` | a URI survives burn and re-mint, and can be set for tokens that do not exist | `C83_uri_outlives_token` |
| `erc1155/extensions/uri_storage.rs` | `set_base_uri` changes URIs without an event | `C84_base_change_is_silent` |
| `examples/ownable` | the gate on `transfer` is bypassed by `approve` and `transferFrom` | `C86_gate_is_bypassed` |
| `examples/access-control` | public `set_role_admin` lets any role holder take every role | `C86_any_role_is_every_role` |
| `access/control.rs` | the standard `IAccessControl` id is not reported | `C87_access_control_not_standard` |
| `examples/erc1155-supply` | the supply interface is not reported | `C87_supply_example_silent` |
| `erc20/extensions/erc4626.rs` | in a vault without offset an inflation attack pays as soon as two deposits are rounded down to no shares (deposits that create no shares succeed) | `C24_two_depositors` |
| `erc20/extensions/erc4626.rs` | an asset that calls out after a deposit's movement or before a withdrawal's lets a caller take others' assets | `C90_late_hook_is_not_harmless`, `C90_early_hook_is_not_harmless` |
| `erc20/extensions/wrapper.rs` | `_recover` from inside a hook mints unbacked tokens | `C91_recover_in_hook_breaks` |
| `erc721/mod.rs` | a receiver can make the sender's call fail with any revert data | `C95_receiver_forges` |
| `erc20/extensions/wrapper.rs` | `_recover` over a token that gives no balance reports the wrapper's own address as the invalid token | `C106_recover` |

Other observations, without a theorem of their own:

* `Erc721::transfer_from` updates before it compares `from`, and `use_checked_nonce` increments before it compares: right only
  because `Err` reverts.  A zero-address caller would pass the ERC-721 authorization; no transaction has one.
* The unchecked additions of ERC-20 are safe because of the supply invariant (C01, C07).  The ERC-721 balance wraps only if one
  account owns all 2^256 ids.
* `examples/erc721` updates the enumeration after the receiver's callback; it is safe because re-entrancy is disabled.
* `examples/erc721-consecutive` exposes `burn` without authorization (C103_erc721_consecutive_anybody_burns), so does
  `examples/erc1155-supply` with `burn` and `burn_batch` of any account's tokens (C103_erc1155_supply_anybody_burns);
  `examples/erc721-metadata` lets everybody set URIs (C103_erc721_metadata_anybody_sets_uri), the pausable examples `pause` and `unpause`,
  `examples/basic` `mint`: these are demonstrations.
* The multi-proof check of `merkle.rs` has no final comparison of the proof position, which is implied (C76_result).
* `MODULUS_BIT_SIZE` is the size of the storage, not of the modulus.  The capacity comment of the BabyBear parameters says 256 bits for
  a 31-bit field.  `sbb` is right only for a borrow of 0 or 1, which is all it is used with.
* `examples/erc1155/src/constructor.sol` declares the balances keyed by account first, Rust by id first: the same slot, not
  written by the constructor.  `examples/erc4626` takes 18 as the decimals of any asset.  `examples/erc20/src/constructor.sol` has an
  unused `_nonces`.  `ReleaseEtherFailed()` of the vesting wallet is declared but never returned.
